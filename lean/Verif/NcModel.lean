import Verif.TimeInfoModel
import Verif.FilesModel
import Mathlib.Algebra.Field.Basic

/-!
# The netCDF output files

Models `topoflow/utils/ncgs_files.py` (grid stacks), `ncts_files.py` (time series at cells), `ncps_files.py` (profiles),
`nccs_files.py` (cubes), and the calls of `topoflow/utils/model_output.py` and `topoflow/components/infil_base.py` that
open and fill profile and cube files.

The netCDF library is trusted: a variable along the unlimited dimension `time` is a map from indices to values, writing
index `k` makes the dimension at least `k + 1` long, and what was never written is `none` (the files are created with
`set_fill_off`, so it is arbitrary).  Rounding to float32 is left out.
-/

set_option autoImplicit false

namespace Nc

open TimeUtils

/-- A file with one grid per time: what `open_new_file` stores in the object (`time_units`, `start_datetime`,
`time_index`; ncgs_files.py:210, 478, 515) and the variables of the file (ncgs_files.py:602-617, 747). -/
structure Stack (G : Type*) where
  units : String
  start : Text
  index : ℕ
  len : ℕ
  time : ℕ → Option ℚ
  datetime : ℕ → Option Text
  data : ℕ → Option G
  count : ℕ

/-- The file after `open_new_file` (ncgs_files.py:450-757): nothing written yet, `n_grids = 0`. -/
def Stack.fresh (G : Type*) (units : String) (start : Text) : Stack G :=
  ⟨units, start, 0, 0, fun _ => none, fun _ => none, fun _ => none, 0⟩

/-- Assignment to one index of a netCDF variable (ncgs_files.py:797, 810, 829). -/
def put {A : Type*} (m : ℕ → Option A) (k : ℕ) (a : A) : ℕ → Option A := fun i => if i = k then some a else m i

/-- `add_grid`, ncgs_files.py:760-834: the file afterwards and the error, if there is one.  `at?` is the argument
`time_index` (`none` is the default `-1`).  A datetime is stored as `'S19'`, so only its first 19 characters are kept.  A scalar is saved as the
constant grid, so it is not a case of its own here. -/
def addGrid {G : Type*} (f : Stack G) (g : G) (time : Option ℚ) (units : Option String) (at? : Option ℕ) :
    Stack G × Option String :=
  let k := at?.getD f.index
  let u := units.getD f.units
  let t := time.getD (k : ℚ)
  let f1 := { f with len := max f.len (k + 1), time := put f.time k t }
  match TimeInfo.getCurrentDatetime f.start t u with
  | .error e => (f1, some e)
  | .ok d =>
    ({ f1 with datetime := put f.datetime k ((strDT d).take 19), count := f.count + 1, data := put f.data k g,
               index := f.index + 1 }, none)

/-- `add_cube`, nccs_files.py:532-592: as `add_grid`, but the time is required and the unit of the datetime is always
minutes. -/
def addCube {G : Type*} (f : Stack G) (g : G) (time : ℚ) (at? : Option ℕ) : Stack G × Option String :=
  addGrid f g (some time) (some "minutes") at?

/-- `get_grid`, ncgs_files.py:887-892, and `get_cube`, nccs_files.py:595-598. -/
def getGrid {G : Type*} (f : Stack G) (k : ℕ) : Except String (Option G) :=
  if k < f.len then .ok (f.data k) else .error "IndexError"

/-! ## Coordinates -/

/-- The part of `grid_info` that the writers use (ncgs_files.py:552-553, 566-569; ncts_files.py:398-405). -/
structure Grid (K : Type*) where
  ncols : ℕ
  nrows : ℕ
  xres : K
  yres : K
  west : K
  east : K
  south : K
  north : K

/-- `np.linspace(a, b, n)`, for ncgs_files.py:579-580 and nccs_files.py:357-358. -/
def linspace {K : Type*} [Field K] (a b : K) (n i : ℕ) : K :=
  if n = 1 then a else a + i * ((b - a) / (n - 1))

/-- The coordinate variable `X`: entry `j` belongs to column `j` (ncgs_files.py:579; nccs_files.py:357). -/
def xVector {K : Type*} [Field K] (g : Grid K) (j : ℕ) : K := linspace g.west g.east g.ncols j

/-- The coordinate variable `Y`: entry `i` belongs to row `i` (ncgs_files.py:580; nccs_files.py:358). -/
def yVector {K : Type*} [Field K] (g : Grid K) (i : ℕ) : K := linspace g.south g.north g.nrows i

/-- `geospatial_lon` of a cell of a time series (ncts_files.py:640-643; ncps_files.py:658-661). -/
def seriesLon {K : Type*} [Field K] (g : Grid K) (col : ℕ) : K := g.west + ((col : K) + 1 / 2) * (g.xres / 3600)

/-- `geospatial_lat` of a cell of a time series (ncts_files.py:640-643; ncps_files.py:658-661). -/
def seriesLat {K : Type*} [Field K] (g : Grid K) (row : ℕ) : K :=
  g.south + ((g.nrows : K) - 1 - ((row : K) - 1 / 2)) * (g.yres / 3600)

/-! ## Names of series -/

/-- `vname = var_name + '_' + str(row) + '_' + str(col)` (ncts_files.py:836-844, ncps_files.py:841-850,
model_output.py:352-360). -/
def vname (v : Text) (row col : ℕ) : Text := v ++ '_' :: (natStr row ++ '_' :: natStr col)

/-- The row and column that `open_new_file` takes from a name (ncts_files.py:621-623): `p = var_name.split('_')`,
`p[-2]`, `p[-1]`.  Simplified: `np.int16` is `int`, i.e. rows and columns are below 32768. -/
def cellOf (name : Text) : Except String (ℕ × ℕ) :=
  match (splitOn '_' name).reverse with
  | c :: r :: _ =>
    match parseNat r with
    | .error e => .error e
    | .ok row =>
      match parseNat c with
      | .error e => .error e
      | .ok col => .ok (row, col)
  | _ => .error "IndexError"

/-- `s[:s.rfind('_')]` (ncts_files.py:387-389; without an underscore the last character is dropped). -/
def cutLast (s : Text) : Text :=
  match Files.rfind '_' s with
  | some p => s.take p
  | none => s.dropLast

/-- The short name behind the standard name of all series of a file (ncts_files.py:386-391, ncps_files.py:417-422). -/
def shortName (name : Text) : Text := cutLast (cutLast name)

/-! ## Time series at cells -/

/-- A file with one series per cell (ncts_files.py:352-663): `names` are its variables (besides time and datetime). -/
structure Series (V : Type*) where
  units : String
  start : Text
  index : ℕ
  len : ℕ
  time : ℕ → Option ℚ
  datetime : ℕ → Option Text
  names : List Text
  data : Text → ℕ → Option V
  count : Text → ℕ

/-- The loop over the names in `open_new_file` (ncts_files.py:600-623): `createVariable` refuses a name that exists. -/
def createAll (names : List Text) : List Text → Except String (List Text)
  | [] => .ok names
  | n :: ns =>
    if n ∈ names then .error "RuntimeError: NetCDF: String match to name in use"
    else
      match cellOf n with
      | .error e => .error e
      | .ok _ => createAll (names ++ [n]) ns

/-- `open_new_ts_file` and `open_new_file` for the cells `ids` (model_output.py:330-388, ncts_files.py:352-663). -/
def openSeries (V : Type*) (v : Text) (ids : List (ℕ × ℕ)) (units : String) (start : Text) :
    Except String (Series V) :=
  match createAll ["time".toList, "datetime".toList] (ids.map fun p => vname v p.1 p.2) with
  | .error e => .error e
  | .ok _ =>
    .ok ⟨units, start, 0, 0, fun _ => none, fun _ => none, ids.map fun p => vname v p.1 p.2, fun _ _ => none,
      fun _ => 0⟩

/-- A model variable: one number, or a grid.  Used in the model of ncts_files.py:750-772. -/
inductive Var (V : Type*) where
  | scalar (x : V)
  | grid (rows cols : ℕ) (x : ℕ → ℕ → V)

/-- `values_at_IDs`, ncts_files.py:750-772. -/
def valuesAt {V : Type*} (var : Var V) (ids : List (ℕ × ℕ)) : Except String (List V) :=
  match var with
  | .scalar x => .ok (ids.map fun _ => x)
  | .grid rows cols x =>
    if ids.all (fun p => decide (p.1 < rows ∧ p.2 < cols)) then .ok (ids.map fun p => x p.1 p.2)
    else .error "IndexError"

/-- The loop of `add_values_at_IDs` over the cells (ncts_files.py:831-847). -/
def putAll {V : Type*} (v : Text) (k : ℕ) : List ((ℕ × ℕ) × V) → Series V → Series V × Option String
  | [], f => (f, none)
  | (p, x) :: r, f =>
    let n := vname v p.1 p.2
    if n ∈ f.names then
      putAll v k r { f with data := fun m => if m = n then put (f.data m) k x else f.data m
                            count := fun m => if m = n then f.count m + 1 else f.count m }
    else (f, some "KeyError")

/-- `add_values_at_IDs`, ncts_files.py:776-854.  The unit of the datetime is always minutes. -/
def addValues {V : Type*} (f : Series V) (time : ℚ) (var : Var V) (v : Text) (ids : List (ℕ × ℕ)) (at? : Option ℕ) :
    Series V × Option String :=
  let k := at?.getD f.index
  let f1 := { f with len := max f.len (k + 1), time := put f.time k time }
  match TimeInfo.getCurrentDatetime f.start time "minutes" with
  | .error e => (f1, some e)
  | .ok d =>
    let f2 := { f1 with datetime := put f.datetime k ((strDT d).take 19) }
    match valuesAt var ids with
    | .error e => (f2, some e)
    | .ok vals =>
      match putAll v k (ids.zip vals) f2 with
      | (f3, some e) => (f3, some e)
      | (f3, none) => ({ f3 with index := f.index + 1 }, none)

/-! ## Profiles and cubes -/

/-- How Python binds a call with `npos` positional arguments and the keywords `kws` to the parameters of a method (for
ncps_files.py:363-375 and nccs_files.py:237-248, whose parameters all have defaults except the first). -/
def bindCall (params : List String) (npos : ℕ) (kws : List String) : Except String Unit :=
  if params.length < npos then .error "TypeError: too many positional arguments"
  else if kws.any (fun k => ! params.contains k) then .error "TypeError: unexpected keyword argument"
  else if kws.any (fun k => (params.take npos).contains k) then .error "TypeError: multiple values"
  else .ok ()

/-- The parameters of `open_new_file` of the profile files (ncps_files.py:363-375). -/
def psParams : List String := ["file_name", "grid_info", "time_info", "z_values", "z_units", "var_names", "long_names",
  "units_names", "dtypes", "time_units", "time_res", "comment"]

/-- The parameters of `open_new_file` of the cube files (nccs_files.py:237-248). -/
def csParams : List String := ["file_name", "grid_info", "time_info", "z_values", "z_units", "var_name", "long_name",
  "units_name", "dtype", "time_units", "time_res", "comment", "MAKE_RTI", "MAKE_BOV"]

/-- `open_new_ps_file` (model_output.py:541-553): eight positional arguments and four keywords, not inside `try`. -/
def openPs : Except String Unit :=
  bindCall psParams 8 ["dtypes", "time_units", "time_res", "OVERWRITE_OK"]

/-- `open_new_cs_file` (model_output.py:699-715): six positional arguments and four keywords, inside `try`; says
whether a file was opened. -/
def openCs : Bool :=
  match bindCall csParams 6 ["dtype", "time_units", "time_res", "OVERWRITE_OK"] with
  | .ok _ => true
  | .error _ => false

/-- The switches of the four profile and the four cube files, in order (infil_base.py:1233-1296). -/
def profileSwitches : List String := ["SAVE_Q_PROFILES", "SAVE_P_PROFILES", "SAVE_K_PROFILES", "SAVE_V_PROFILES"]
/-- Used in the model of infil_base.py:1227-1296. -/
@[inherit_doc profileSwitches]
def cubeSwitches : List String := ["SAVE_Q_CUBES", "SAVE_P_CUBES", "SAVE_K_CUBES", "SAVE_V_CUBES"]

/-- The part of `open_output_files` for the Richards method (infil_base.py:1227-1296): the cube files that are open
afterwards. -/
def openRichards (on : String → Bool) : Except String (List String) :=
  if profileSwitches.any on then
    match openPs with
    | .error e => .error e
    | .ok _ => .ok (cubeSwitches.filter fun s => on s && openCs)
  else .ok (cubeSwitches.filter fun s => on s && openCs)

/-- An argument in the position of a name.  Used in the model of model_output.py:749-774. -/
inductive Arg where
  | name (s : String)
  | number
  | array
  deriving DecidableEq

/-- `add_cube` of model_output.py:749-774 with its arguments `(self, var, var_name, time)`: both attempts build an
expression from `"self." + var_name`, inside `try`.  Says whether a cube was added to a file. -/
def addCubeCall (isOpen : String → Bool) (_var varName _time : Arg) : Bool :=
  match varName with
  | .name s => isOpen s
  | _ => false

/-- `save_cubes` (infil_base.py:1512-1538): `add_cube(self, time, self.q, 'q')`; the switches whose cube was added. -/
def saveCubes (on : String → Bool) (isOpen : String → Bool) : List String :=
  cubeSwitches.filter fun s => on s && addCubeCall isOpen .number .array (.name s)

/-- `get_profile` and `get_profiles` (ncps_files.py:758-774): they look up the variables `var_name`, `time` and `z`. -/
def getProfile (vars : List Text) (v : Text) : Except String Unit :=
  if v ∉ vars then .error "KeyError"
  else if "time".toList ∉ vars then .error "KeyError"
  else if "z".toList ∉ vars then .error "KeyError"
  else .ok ()

/-- A variable of the soil: one profile for all cells, or a profile for every cell.
Used in the model of ncps_files.py:778-805. -/
inductive SoilVar (V : Type*) where
  | profile (x : ℕ → V)
  | cube (rows cols : ℕ) (x : ℕ → ℕ → ℕ → V)

/-- `profiles_at_IDs`, ncps_files.py:778-805: the first index of a cube is the level. -/
def profilesAt {V : Type*} (var : SoilVar V) (ids : List (ℕ × ℕ)) : Except String (List (ℕ → V)) :=
  match var with
  | .profile x => .ok (ids.map fun _ => x)
  | .cube rows cols x =>
    if ids.all (fun p => decide (p.1 < rows ∧ p.2 < cols)) then .ok (ids.map fun p => fun z => x z p.1 p.2)
    else .error "IndexError"

/-- `add_profiles_at_IDs`, ncps_files.py:810-860: no datetime is written.  The loop is that of `add_values_at_IDs`. -/
def addProfiles {V : Type*} (f : Series (ℕ → V)) (var : SoilVar V) (v : Text) (ids : List (ℕ × ℕ)) (time : Option ℚ)
    (at? : Option ℕ) : Series (ℕ → V) × Option String :=
  let k := at?.getD f.index
  let f1 := { f with len := max f.len (k + 1), time := put f.time k (time.getD (k : ℚ)) }
  match profilesAt var ids with
  | .error e => (f1, some e)
  | .ok vals =>
    match putAll v k (ids.zip vals) f1 with
    | (f3, some e) => (f3, some e)
    | (f3, none) => ({ f3 with index := f.index + 1 }, none)

/-- The variables of a profile file (ncps_files.py:557-558, 600, 617-620). -/
def profileVariables (v : Text) (ids : List (ℕ × ℕ)) : List Text :=
  ["time".toList, "datetime".toList, "Z".toList] ++ ids.map fun p => vname v p.1 p.2

/-! ## Metadata taken over from a file -/

/-- What a file says about its grid: `geospatial_bounds`, the sizes of the variables `X` and `Y`, and the attributes
`xres_arcsec` and `yres_arcsec` (ncgs_files.py:552-555, 662-663, 673, 687). -/
structure Meta (K : Type*) where
  bounds : List K
  xsize : ℕ
  ysize : ℕ
  xres : K
  yres : K

/-- The grid metadata that `open_new_file` writes (ncgs_files.py:552-555, 566-569, 662-663, 673, 687). -/
def writeMeta {K : Type*} (g : Grid K) : Meta K :=
  ⟨[g.west, g.south, g.east, g.north], g.ncols, g.nrows, g.xres, g.yres⟩

/-- `get_grid_info` (ncgs_files.py:894-928). -/
def getGridInfo {K : Type*} (m : Meta K) : Except String (Grid K) :=
  match m.bounds with
  | minlon :: minlat :: maxlon :: maxlat :: _ =>
    .ok ⟨m.xsize, m.ysize, m.xres, m.yres, minlon, maxlon, minlat, maxlat⟩
  | _ => .error "IndexError"

/-- `get_time_info` (ncgs_files.py:933-959): the attributes that `open_new_file` stored in the file, and the two
datetimes split at the blank. -/
def getTimeInfo (c : TimeInfo.Coverage) (units : String) : Except String TimeInfo.Info :=
  match splitOn ' ' c.start, splitOn ' ' c.stop with
  | sd :: st :: _, ed :: et :: _ =>
    .ok ⟨TimeInfo.set (TimeInfo.set (TimeInfo.set (TimeInfo.set (TimeInfo.set (TimeInfo.set (TimeInfo.set (fun _ => none)
      "start_date" sd) "start_time" st) "end_date" ed) "end_time" et) "start_datetime" c.start)
      "end_datetime" c.stop) "duration_units" units.toList, some c.duration⟩
  | _, _ => .error "IndexError"

end Nc
