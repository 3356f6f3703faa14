import Mathlib.Data.List.Basic
import Mathlib.Data.Rat.Defs

set_option autoImplicit false

/-!
# Preparing the input files of a run (utils/prepare_inputs.py): period, rainfall product, directories and settings

The object keeps what earlier calls have set, so everything is a function of the options and of the state that is left by
the calls before.  Attributes that are not set yet are `none`.  Files and directories are not modelled, only their names
and the names and values that are put into the templates (the substitution itself is `Template.makeNew`, TemplateModel).
-/

namespace Plan

/-- A text.  Used in the model of prepare_inputs.py:385-955. -/
abbrev Str := List Char

/-- The options of `get_inputs` (prepare_inputs.py:143-190, 234-237).  `ngenCsv` is `none` if nobody has set it: the
constructor does not. -/
structure Opts where
  nextgen : Bool
  eastAfrica : Bool
  ngenCsv : Option Bool
  testRain : Bool
  chirps : Bool
  chirps2 : Bool
  gldas : Bool
  gpm : Bool
  noMet : Bool
  site : Str
  case : Str
  testDir : Str
  outputDir : Str
  dataDir : Str
  chanDt : Str

/-- What `set_time_info` sets, always together (prepare_inputs.py:499-528). -/
structure TimeInfo where
  startDate : Str
  endDate : Str
  range : Str
  gmt : Str
  month : Str
  day : Str
  stop : Str
deriving DecidableEq

/-- What the object keeps from call to call: the attributes of `set_time_info` and `set_met_info`
(prepare_inputs.py:499-528, 777-827).  `rainRts` may be set to `None`. -/
structure State where
  time : Option TimeInfo
  srcDir : Option (Option Str)
  rainRts : Option (Option Str)
  rainCsv : Option Str
  metDt : Option Str
  rainType : Option Str
deriving DecidableEq

/-- A new object: none of these attributes is set by the constructor (prepare_inputs.py:143-230). -/
def fresh : State := ⟨none, none, none, none, none, none⟩

/-- prepare_inputs.py:501-507 -/
def period1 : TimeInfo where
  startDate := "2015-10-01".toList
  endDate := "2018-10-01".toList
  range := "2015-10_to_2018-10".toList
  gmt := "3".toList
  month := "October".toList
  day := "1".toList
  stop := "1578240".toList

/-- prepare_inputs.py:509-515 -/
def period2 : TimeInfo where
  startDate := "2005-01-01".toList
  endDate := "2015-01-01".toList
  range := "2005-01_to_2015-01".toList
  gmt := "3".toList
  month := "January".toList
  day := "1".toList
  stop := "5258880".toList

/-- prepare_inputs.py:522-528 -/
def period3 : TimeInfo where
  startDate := "2012-06-01".toList
  endDate := "2012-07-01".toList
  range := "2012-06_to_2012-07".toList
  gmt := "-5".toList
  month := "June".toList
  day := "1".toList
  stop := "43200".toList

/-- `set_time_info` (prepare_inputs.py:482-528). -/
def setTime (o : Opts) (s : State) : Except String State :=
  let s1 : State :=
    if o.eastAfrica then
      if o.chirps || o.gldas || o.gpm then { s with time := some period1 }
      else if o.chirps2 then { s with time := some period2 }
      else s
    else s
  match o.ngenCsv with
  | none => .error "AttributeError: 'get_inputs' object has no attribute 'NGEN_CSV'"
  | some true => .ok { s1 with time := some period3 }
  | some false => .ok s1

/-- The block of `set_met_info` for rainfall of the NextGen file (prepare_inputs.py:777-784). -/
def metNgen (o : Opts) (t : TimeInfo) (s : State) : State :=
  if o.ngenCsv = some true then
    { s with srcDir := some none, rainRts := some none,
             rainCsv := some (o.site ++ "_".toList ++ t.range ++ ".csv".toList),
             metDt := some "3600.0".toList, rainType := some "NGEN_CSV".toList }
  else s

/-- The block for test rainfall (prepare_inputs.py:786-794). -/
def metTest (o : Opts) (s : State) : State :=
  if o.testRain then
    { s with srcDir := some none, rainRts := some none,
             rainCsv := some (o.case ++ "_rain_rates.txt".toList),
             metDt := some "3600.0".toList, rainType := some "TEST_RAIN".toList }
  else s

/-- One of the blocks for CHIRPS, CHIRPS2 and GLDAS (prepare_inputs.py:796-818). -/
def metProduct (on : Bool) (src name dt : Str) (o : Opts) (t : TimeInfo) (s : State) : State :=
  if on then
    { s with srcDir := some (some (o.dataDir ++ src)),
             rainRts := some (some (name ++ "_Rain_".toList ++ o.site ++ ("_".toList ++ t.range ++ ".rts".toList))),
             metDt := some dt, rainType := some name }
  else s

/-- `set_met_info` (prepare_inputs.py:769-827) with the directories of `get_source_dirs` (367-370).  The block for GPM
uses a name `site_prefix` that is not defined (824). -/
def setMet (o : Opts) (s : State) : Except String State :=
  match s.time with
  | none => .error "AttributeError: 'get_inputs' object has no attribute 'date_range_str'"
  | some t =>
    let s1 := metNgen o t s
    let s2 := metTest o s1
    let s3 := metProduct o.chirps "CHIRPS_Rain_Africa_6hr_2015-10_to_2018-10_onedir/".toList "CHIRPS".toList
      "21600.0".toList o t s2
    let s4 := metProduct o.chirps2 "CHIRPS_Rain_Africa_6hr_2005-01_to_2015-01_onedir/".toList "CHIRPS".toList
      "21600.0".toList o t s3
    let s5 := metProduct o.gldas "GLDAS_Rain_Baro_2015-10_to_2018-10/".toList "GLDAS".toList "10800.0".toList o t s4
    if o.gpm then .error "NameError: name 'site_prefix' is not defined" else .ok s5

/-- `basin_dir` (prepare_inputs.py:391). -/
def basinDir (o : Opts) : Str := o.testDir ++ o.site ++ "/".toList

/-- `cfg_dir` of `create_output_dirs` (prepare_inputs.py:397-405). -/
def cfgDir (o : Opts) (s : State) : Except String Str :=
  if o.noMet then .ok (basinDir o ++ o.case ++ "_cfg/".toList)
  else
    match s.time, s.rainType with
    | some t, some r =>
      .ok (basinDir o ++ (o.case ++ "_".toList) ++ (t.range ++ "_".toList ++ r) ++ "_cfg/".toList)
    | _, _ => .error "AttributeError: 'get_inputs' object has no attribute 'rain_type_str'"

/-- The names and values that are put into one template (prepare_inputs.py:875-955). -/
abbrev Entries := List (String × Str)

/-- What is prepared: the directory of the configuration files and what is put into the six templates
(prepare_inputs.py:857-955). -/
structure Made where
  dir : Str
  path : Entries
  time : Entries
  driver : Entries
  met : Entries
  kinematic : Entries
  diffusive : Entries

/-- What is put into the template of the meteorology component (prepare_inputs.py:913-930): the values for given time
step, type, file name and option. -/
def metEntries (t : TimeInfo) (dt typ file ngen : Str) : Entries :=
  [("dt", dt), ("P_type", typ), ("P", file), ("GMT_offset", t.gmt), ("start_month", t.month),
   ("start_day", t.day), ("start_hour", "0.0".toList), ("save_grid_dt", dt), ("save_pixels_dt", dt), ("NGEN_CSV", ngen)]

/-- The file name of the rainfall and the branch of the options (prepare_inputs.py:915-930): type, name and option. -/
def metFile (o : Opts) (s : State) : Except String (Str × Str × Str) :=
  if o.ngenCsv = some true then
    match s.rainCsv with
    | some f => .ok ("Time_Series".toList, f, "Yes".toList)
    | none => .error "AttributeError: 'get_inputs' object has no attribute 'rain_csv_file'"
  else if o.testRain then
    match s.rainCsv with
    | some f => .ok ("Time_Series".toList, f, "No".toList)
    | none => .error "AttributeError: 'get_inputs' object has no attribute 'rain_csv_file'"
  else
    match s.rainRts with
    | some (some f) => .ok ("Grid_Sequence".toList, f, "No".toList)
    | some none => .ok ("Grid_Sequence".toList, "None".toList, "No".toList)
    | none => .error "AttributeError: 'get_inputs' object has no attribute 'rain_rts_file'"

/-- What is put into the template of a channel component (prepare_inputs.py:937-940, 948-951). -/
def chanEntries (o : Opts) (dt : Str) : Entries :=
  [("dt", o.chanDt), ("FLOOD_OPTION", "0".toList), ("ATTENUATE", "0".toList), ("save_grid_dt", dt),
   ("save_pixels_dt", dt)]

/-- `copy_cfg_file_templates` and `get_cfg_files` (prepare_inputs.py:833-955).  The shipped templates are all named
`Test1_...` and the names that are opened begin with the case prefix. -/
def cfgFiles (o : Opts) (s : State) (dir : Str) : Except String Made :=
  if o.case ≠ "Test1".toList then .error "FileNotFoundError: No such file or directory"
  else
    match s.time, s.metDt with
    | some t, some dt =>
      match metFile o s with
      | .error e => .error e
      | .ok (typ, file, ngen) =>
        .ok
          { dir := dir
            path := [("in_directory", basinDir o), ("out_directory", o.outputDir), ("site_prefix", o.site),
                     ("case_prefix", o.case)]
            time := [("start_date", t.startDate), ("start_time", "  00:00:00".toList), ("end_date", t.endDate),
                     ("end_time", "  00:00:00".toList)]
            driver := [("dt", o.chanDt), ("T_stop_model", t.stop),
                       ("COMPUTE_STAT_GRIDS", if o.chirps2 then "1".toList else "0".toList),
                       ("CREATE_INDICATORS", "0".toList), ("CREATE_MEDIA_FILES", "1".toList)]
            met := metEntries t dt typ file ngen
            kinematic := chanEntries o dt
            diffusive := chanEntries o dt }
    | _, _ => .error "AttributeError: 'get_inputs' object has no attribute 'met_dt_str'"

/-- A call of `prepare_all_inputs` up to the configuration files (prepare_inputs.py:240-265): the state that it leaves
and what it has made; nothing is made if neither of the two main options is set (240-246).  A call that fails leaves what
it had set before. -/
def prepare (o : Opts) (s : State) : State × Except String (Option Made) :=
  if !o.nextgen && !o.eastAfrica then (s, .ok none)
  else
    match setTime o s with
    | .error e =>
      (if o.eastAfrica then
         if o.chirps || o.gldas || o.gpm then { s with time := some period1 }
         else if o.chirps2 then { s with time := some period2 } else s
       else s, .error e)
    | .ok s1 =>
      match setMet o s1 with
      | .error e =>
        (match s1.time with
         | none => s1
         | some t =>
           { metProduct o.gldas "GLDAS_Rain_Baro_2015-10_to_2018-10/".toList "GLDAS".toList "10800.0".toList o t
               (metProduct o.chirps2 "CHIRPS_Rain_Africa_6hr_2005-01_to_2015-01_onedir/".toList "CHIRPS".toList
                 "21600.0".toList o t
                 (metProduct o.chirps "CHIRPS_Rain_Africa_6hr_2015-10_to_2018-10_onedir/".toList "CHIRPS".toList
                   "21600.0".toList o t (metTest o (metNgen o t s1)))) with
             srcDir := some (some (o.dataDir ++ "GPM_Rain_Ethiopia_30min_2015-10_to_2018-10/".toList)) },
         .error e)
      | .ok s2 =>
        match cfgDir o s2 with
        | .error e => (s2, .error e)
        | .ok dir =>
          match cfgFiles o s2 dir with
          | .error e => (s2, .error e)
          | .ok m => (s2, .ok (some m))

/-- The calls of one object, one after the other, each with the options that are set then (prepare_inputs.py:234-302):
the state after them. -/
def after : List Opts → State
  | [] => fresh
  | o :: os => (prepare o (after os)).1

/-! ## Basins -/

/-- What `set_basin_info` sets (prepare_inputs.py:551-766).  `res` and `bounds` are not set by the constructor. -/
structure Basin where
  res : Option (ℚ × ℚ)
  bounds : Option (ℚ × ℚ × ℚ × ℚ)
  width : ℚ
  area : ℚ
  base : ℚ
  bankfull : ℚ
  ocean : Bool
deriving DecidableEq

/-- The defaults of the constructor (prepare_inputs.py:201-209). -/
def basin0 : Basin := ⟨none, none, 10, 50, 1, 2, false⟩

/-- One of the blocks of `set_basin_info`; `ocean` is `none` in the blocks that do not set it
(prepare_inputs.py:619-766). -/
def setBasin (r : ℚ) (b : ℚ × ℚ × ℚ × ℚ) (w a q d : ℚ) (ocean : Option Bool) (old : Basin) : Basin :=
  ⟨some (r, r), some b, w, a, q, d, ocean.getD old.ocean⟩

/-- `set_basin_info` (prepare_inputs.py:551-766); the numbers are the decimal numbers of the source. -/
def basinInfo (site : String) (old : Basin) : Basin :=
  if site = "Tana_120sec" then
    setBasin 120 (36.4, -3.15, 40.75, 0.69) 120 94284.4 40 8 (some true) old
  else if site = "Galana_120sec" then
    setBasin 120 (36.3, -3.56, 40.23, -0.94) 140 41822 40 8 (some true) old
  else if site = "Baro-Gam_60sec" then
    setBasin 60 (34.221249999999, 7.362083333332, 36.450416666666, 9.503749999999) 140 23567.7 40 8 none old
  else if site = "Awash_120sec" then
    setBasin 120 (37.92, 7.75, 43.36, 12.44) 35 92638.1 5 8 (some false) old
  else if site = "Omo_120sec" then
    setBasin 120 (35.19, 4.00, 38.48, 9.41) 150 72736 5 9 (some false) old
  else if site = "Shebelle-Imi_60sec" then
    setBasin 60 (38.159583333333, 6.319583333333, 43.559583333333, 9.899583333333) 130 90662.1 50 7 none old
  else if site = "Ganale-Welmel_60sec" then
    setBasin 60 (39.174583333333, 5.527916666666, 41.124583333333, 7.098749999999) 40 15241.7 3 2 none old
  else if site = "Guder_30sec" then
    setBasin 30 (37.149583333333, 8.596250000000, 38.266250000000, 9.904583333333) 20 6487.8 2 2 none old
  else if site = "Muger_30sec" then
    setBasin 30 (37.807916666667, 8.929583333333, 39.032916666667, 10.112916666667) 45 6924.12 3 2 none old
  else old

/-- The basins prepared with one object, the last one first (prepare_inputs.py:551-766). -/
def basinAfter : List String → Basin
  | [] => basin0
  | site :: before => basinInfo site (basinAfter before)

/-! ## Output files -/

/-- The files of `set_output_filenames` (prepare_inputs.py:430-458). -/
def outputFiles (o : Opts) : List Str :=
  let topo := basinDir o ++ "__topo/".toList
  [topo ++ o.site ++ "_rawDEM.tif".toList, topo ++ o.site ++ "_rawDEM.rtg".toList, topo ++ o.site ++ "_DEM.rtg".toList,
   topo ++ o.site ++ ".rti".toList, topo ++ o.site ++ "_flow.rtg".toList, topo ++ o.site ++ "_d8-area.rtg".toList,
   topo ++ o.site ++ "_slope.rtg".toList, topo ++ o.site ++ "_aspect.rtg".toList, topo ++ o.site ++ "_chan-w.rtg".toList,
   topo ++ o.site ++ "_chan-n.rtg".toList, topo ++ o.site ++ "_sinu.rtg".toList, topo ++ o.site ++ "_d-bank.rtg".toList,
   topo ++ o.site ++ "_d0.rtg".toList, basinDir o ++ "__met/".toList ++ o.case ++ "_rain_rates.txt".toList]

end Plan
