import Verif.EmeliModel
import Verif.BMIModel
import Verif.TableModel

/-!
# The coupled model behind one BMI (topoflow/framework/multi_bmi.py)

Three parts: advancing the model (on top of `EmeliModel`), reading and setting values (with
references, so that shared arrays are covered), and setting up (provider file, component set,
file names).
-/

set_option autoImplicit false

namespace Multi

open Emeli

/-! ## Advancing the model -/

section step

variable {K : Type*} [Field K] [LinearOrder K] [FloorRing K]

/-- A `multi_bmi` object after `initialize`: the state of the coupled run, `self.dt`, and the
attribute `self.time_step`, which only `update_frac` sets.
Used in the model of multi_bmi.py:625-652. -/
structure M (K : Type*) where
  st : St K
  dt : K
  timeStep : Option K

/-- `initialize`, multi_bmi.py:625-652, from the check of users and providers on.  `none`: the
check failed and `initialize` returned early. -/
def start (cfg : Config K) : Except String (Option (M K)) :=
  if checkUsersProviders cfg then do
    let fdt ← frameworkDt cfg
    let s ← tiInit cfg cfg.provs initSt
    pure (some ⟨s, fdt, none⟩)
  else .ok none

/-- `update`, multi_bmi.py:655-715 (`update_time` 1911-1924): the same statements as the body of
the time loop of `run_model`, emeli.py:1019-1079. -/
def update (cfg : Config K) (m : M K) : Except String (M K) := do
  let s ← frameworkStep cfg m.dt m.st
  pure { m with st := s }

/-- `update_frac`, multi_bmi.py:720-726. -/
def updateFrac (cfg : Config K) (frac : K) (m : M K) : Except String (M K) := do
  let ts := m.dt
  let m1 ← update cfg { m with timeStep := some (frac * ts) }
  pure { m1 with timeStep := some ts }

/-- `for k in range(n): self.update()`.  Used in the model of multi_bmi.py:730-736. -/
def updateN (cfg : Config K) : ℕ → M K → Except String (M K)
  | 0, m => .ok m
  | n + 1, m => do
    let m1 ← update cfg m
    updateN cfg n m1

/-- `update_until`, multi_bmi.py:730-736.  The quotient is taken with `dt ≠ 0`; a framework time
step of zero is not modelled (the code gets `inf` and raises). -/
def updateUntil (cfg : Config K) (later : K) (m : M K) : Except String (M K) :=
  if m.dt = 0 then .error "OverflowError: cannot convert float infinity to integer"
  else do
    let n := (later - m.st.time) / m.dt
    let m1 ← updateN cfg (BMI.pyInt n).toNat m
    updateFrac cfg (n - BMI.pyInt n) m1

/-- The calls with which a caller can advance the model.
Built on the model of multi_bmi.py:655-715. -/
inductive Call (K : Type*) where
  | update
  | frac (f : K)
  | until (t : K)

/-- Built on the model of multi_bmi.py:730-736. -/
def call (cfg : Config K) : Call K → M K → Except String (M K)
  | .update, m => update cfg m
  | .frac f, m => updateFrac cfg f m
  | .until t, m => updateUntil cfg t m

/-- Built on the model of multi_bmi.py:730-736. -/
def calls (cfg : Config K) : List (Call K) → M K → Except String (M K)
  | [], m => .ok m
  | c :: cs, m => do
    let m1 ← call cfg c m
    calls cfg cs m1

end step

/-! ## Values -/

section values

variable {K : Type*} [Field K] [LinearOrder K] {R Mm I : Type*}

/-- What the framework does not know: `phys` is the `update` of a component, which may read and
write its own attributes and any memory it can reach; `interp` is the time interpolation
(`time_interpolator.get_values`, a new array); `tiUpd` is `time_interpolator.update2`, which reads
the provider's attributes.  `R` are references, `Mm` everything they refer to (and all other
state of the components), `I` the state of the interpolator.
Used in the model of multi_bmi.py:2174-2254. -/
structure Env (K R Mm I : Type*) where
  phys : String → K → (String → R) → Mm → (String → R) × Mm
  interp : I → String → K → Mm → R × Mm
  tiUpd : String → K → (String → R) → Mm → I → I × Mm

/-- Used in the model of BMI_base.py:634-652. -/
structure VSt (K R Mm I : Type*) where
  time : K
  ctime : String → K
  cstat : String → String
  /-- the attribute of a component that belongs to a long variable name -/
  attr : String → String → R
  mem : Mm
  ti : I

/-- `self.var_users`, multi_bmi.py:2063, 2087-2093 (emeli.py:1323-1329). -/
def varUsers (cfg : Config K) : String → Option (List String) :=
  (collect (fun c => (cfg.decl c).inputs) cfg.provs).2

/-- `bmi.set_value(name, value)`, BMI_base.py:634-652: binds the attribute. -/
def setAttr (s : VSt K R Mm I) (c v : String) (r : R) : VSt K R Mm I :=
  { s with attr := Function.update s.attr c (Function.update (s.attr c) v r) }

/-- One turn of the loop of `get_required_vars`, multi_bmi.py:2174-2254 (`get_values`,
time_interpolation.py:591-678). -/
def getRequired (env : Env K R Mm I) (cfg : Config K) (user : String) (t : K) (v : String)
    (s : VSt K R Mm I) : Except String (VSt K R Mm I) :=
  match varProviders cfg v with
  | none => .error "KeyError: var_providers"
  | some [] => .error "IndexError: list index out of range"
  | some (p :: _) =>
    if s.cstat p = "initialized" ∨ s.cstat p = "finalized" then .ok (setAttr s user v (s.attr p v))
    else
      let x := env.interp s.ti v t s.mem
      .ok (setAttr { s with mem := x.2 } user v x.1)

/-- `get_required_vars`, multi_bmi.py:2162-2254. -/
def getRequireds (env : Env K R Mm I) (cfg : Config K) (user : String) (t : K) :
    List String → VSt K R Mm I → Except String (VSt K R Mm I)
  | [], s => .ok s
  | v :: vs, s =>
    match getRequired env cfg user t v s with
    | .error e => .error e
    | .ok s1 => getRequireds env cfg user t vs s1

/-- `bmi.update()` of a component: nothing if it is disabled, otherwise its physics, its clock and
its status (see `Emeli.bmiUpdate`).  Used in the model of multi_bmi.py:669-699. -/
def vUpdate (env : Env K R Mm I) (cfg : Config K) (c : String) (s : VSt K R Mm I) :
    VSt K R Mm I :=
  if isDisabled (cfg.decl c).status then s
  else
    let x := env.phys c (s.ctime c) (s.attr c) s.mem
    { s with
      attr := Function.update s.attr c x.1
      mem := x.2
      ctime := Function.update s.ctime c (s.ctime c + (cfg.decl c).dt)
      cstat := Function.update s.cstat c "updated" }

/-- `time_interpolator.update2`, time_interpolation.py:479-574. -/
def vTiUpdate (env : Env K R Mm I) (c : String) (s : VSt K R Mm I) : VSt K R Mm I :=
  if s.cstat c = "initialized" then s
  else
    let x := env.tiUpd c (s.ctime c) (s.attr c) s.mem s.ti
    { s with ti := x.1, mem := x.2 }

/-- One turn of the loop of `update`, multi_bmi.py:669-699. -/
def vCompStep (env : Env K R Mm I) (cfg : Config K) (c : String) (s : VSt K R Mm I) :
    Except String (VSt K R Mm I) :=
  let t := convert (s.ctime c) (cfg.decl c).units
  if s.time > t then
    match getRequireds env cfg c t (cfg.decl c).inputs s with
    | .error e => .error e
    | .ok s1 =>
      let s2 := if (cfg.decl c).status = "Enabled" then vUpdate env cfg c s1 else s1
      .ok (vTiUpdate env c s2)
  else .ok s

/-- Used in the model of multi_bmi.py:655-715. -/
def vLoop (env : Env K R Mm I) (cfg : Config K) :
    List String → VSt K R Mm I → Except String (VSt K R Mm I)
  | [], s => .ok s
  | c :: cs, s =>
    match vCompStep env cfg c s with
    | .error e => .error e
    | .ok s1 => vLoop env cfg cs s1

/-- `update`, multi_bmi.py:655-715, on values. -/
def vStep (env : Env K R Mm I) (cfg : Config K) (dt : K) (s : VSt K R Mm I) :
    Except String (VSt K R Mm I) :=
  match vLoop env cfg cfg.provs s with
  | .error e => .error e
  | .ok s1 => .ok { s1 with time := s1.time + dt }

/-- Built on the model of multi_bmi.py:655-715. -/
def vSteps (env : Env K R Mm I) (cfg : Config K) (dt : K) :
    ℕ → VSt K R Mm I → Except String (VSt K R Mm I)
  | 0, s => .ok s
  | n + 1, s =>
    match vStep env cfg dt s with
    | .error e => .error e
    | .ok s1 => vSteps env cfg dt n s1

/-- `set_value`, multi_bmi.py:1018-1033: in all users of the variable. -/
def setValue (cfg : Config K) (v : String) (r : R) (s : VSt K R Mm I) :
    Except String (VSt K R Mm I) :=
  match varUsers cfg v with
  | none => .error "KeyError: var_users"
  | some us => .ok (us.foldl (fun s c => setAttr s c v r) s)

/-- `get_value`, `get_value_ptr`, multi_bmi.py:949-972 (`get_provider_bmi` 1247-1252): the array of
the provider. -/
def getValue (cfg : Config K) (v : String) (s : VSt K R Mm I) : Except String R :=
  match varProviders cfg v with
  | none => .error "KeyError: var_providers"
  | some [] => .error "IndexError: list index out of range"
  | some (p :: _) => .ok (s.attr p v)

/-- `get_value_at_indices`, multi_bmi.py:976-1013, on the flattened values `vals` of the variable:
the indices of the caller are replaced by the provider's `outlet_flat_ID` (an integer, outlets.py:182;
`none` if the provider has read no outlet file), and the one value taken (BMI_base.py:603-611) is
copied into every entry of `dest`. -/
def getAtIndices {V : Type*} (vals : List V) (outletFlatId : Option ℕ) (dest : List V)
    (_indices : List ℕ) : Except String (List V) :=
  match outletFlatId with
  | none => .error "AttributeError: outlet_flat_ID"
  | some i =>
    match vals[i]? with
    | none => .error "IndexError"
    | some x => .ok (dest.map fun _ => x)

/-- The attributes of a `multi_bmi` object that the grid functions read: `comp_list` (which no
statement of the class, multi_bmi.py:240-2257, assigns) and the number of rows and columns of the
components. -/
structure GridObj where
  compList : Option (List String)
  shape : String → ℕ × ℕ

/-- `get_grid_size`, multi_bmi.py:1070-1085. -/
def getGridSize (o : GridObj) (gridId : ℤ) : Except String ℕ :=
  if gridId = 0 then
    match o.compList with
    | none => .error "AttributeError: comp_list"
    | some [] => .error "IndexError: list index out of range"
    | some (c :: _) => .ok ((o.shape c).1 * (o.shape c).2)
  else .ok 1

/-- `get_grid_shape(grid_id, shape)`, multi_bmi.py:1089-1113; `dest` is the caller's array. -/
def getGridShape (o : GridObj) (gridId : ℤ) (dest : List ℕ) : Except String (List ℕ) :=
  if gridId = 0 then
    match o.compList with
    | none => .error "AttributeError: comp_list"
    | some [] => .error "IndexError: list index out of range"
    | some (c :: _) => .ok [(o.shape c).1, (o.shape c).2]
  else .ok dest

/-- `get_grid_rank`, multi_bmi.py:1061-1066. -/
def getGridRank (gridId : ℤ) : ℕ := if gridId = 0 then 2 else 0

/-- The object that `__init__` (multi_bmi.py:315-333) and `initialize` leave: without
`comp_list`. -/
def GridObj.made (shape : String → ℕ × ℕ) : GridObj := ⟨none, shape⟩

end values

/-! ## Setting up -/

/-- Used in the model of multi_bmi.py:1439-1448. -/
abbrev Text := List Char

/-- One line of `read_provider_file`, multi_bmi.py:1439-1448, emeli.py:447-456.  A line that
consists of its newline only has first character '\n' and no words. -/
def providerOf (line : Text) : Option Text :=
  if line.head? = some '#' then none
  else
    match Table.words line with
    | _ :: w :: _ => some w
    | _ => none

/-- `read_provider_file`, multi_bmi.py:1413-1448, emeli.py:421-456: both lists get the second word
of every line that is not a comment. -/
def readProviders (text : Text) : List Text :=
  (Rti.splitLines [] (Rti.universalNewlines text)).filterMap providerOf

/-- `instantiate_comp`, multi_bmi.py:1470-1536, emeli.py:487-553, on the keys of the dictionary
`self.comp_set`, which is created once per object (emeli.py:514-516).  A name that is not in the
repository is skipped with a message (500-501, 463-476). -/
def instantiate {α : Type*} [DecidableEq α] (valid : α → Bool) (keys : List α) (c : α) : List α :=
  if valid c then (if c ∈ keys then keys else keys ++ [c]) else keys

/-- The loop `for comp_name in self.comp_set_list`, emeli.py:951-952, multi_bmi.py:598-599. -/
def instantiateAll {α : Type*} [DecidableEq α] (valid : α → Bool) (keys l : List α) : List α :=
  l.foldl (instantiate valid) keys

/-- The components in `self.comp_set` after a series of `run_model` calls on one framework
object, each with its own provider file.  Built on the model of emeli.py:951-952. -/
def afterRuns {α : Type*} [DecidableEq α] (valid : α → Bool) (runs : List (List α)) : List α :=
  runs.foldl (instantiateAll valid) []

/-- `initialize_comp_set` on names, emeli.py:1459-1469, multi_bmi.py:2014-2024: the dictionary is
indexed with every name of the provider list. -/
def initLoop {α : Type*} [DecidableEq α] (keys : List α) : List α → Except String Unit
  | [] => .ok ()
  | c :: cs => if c ∈ keys then initLoop keys cs else .error "KeyError: comp_set"

/-- `path.split(os.sep)[-1]`.  Used in the model of multi_bmi.py:370-379. -/
def lastPart (s : Text) : Text := (s.reverse.takeWhile (· ≠ '/')).reverse

/-- `s.replace(pat, '')`; `skip` characters are still to be removed.  An empty `pat` removes
nothing.  Used in the model of multi_bmi.py:370-379. -/
def removeAux (pat : Text) : ℕ → Text → Text
  | _, [] => []
  | k + 1, _ :: t => removeAux pat k t
  | 0, c :: t =>
    if pat ≠ [] ∧ pat.isPrefixOf (c :: t) then removeAux pat (pat.length - 1) t
    else c :: removeAux pat 0 t

/-- Used in the model of multi_bmi.py:370-379. -/
def removeAll (pat s : Text) : Text := removeAux pat 0 s

/-- `sub in s`.  Used in the model of multi_bmi.py:370-379. -/
def hasSub (sub : Text) : Text → Bool
  | [] => sub.isEmpty
  | c :: t => sub.isPrefixOf (c :: t) || hasSub sub t

/-- Used in the model of multi_bmi.py:370-379. -/
structure Names where
  nextgen : Bool
  cfgPrefix : Text
  directory : Text
  deriving DecidableEq

/-- The names that `initialize` takes from the path of its configuration file,
multi_bmi.py:370-379 (`filename[0:-12]`, `filename[0:-14]`, `cfg_file.replace(filename, '')`);
`os.path.expanduser` (519) is not modelled: it changes only paths that begin with '~'. -/
def deriveNames (cfgFile : Text) : Names :=
  let filename := lastPart cfgFile
  let ng := hasSub "_nextgen".toList filename
  { nextgen := ng
    cfgPrefix := filename.take (filename.length - (if ng then 12 else 14))
    directory := removeAll filename cfgFile }

/-- The provider file, multi_bmi.py:585. -/
def providerFile (n : Names) : Text := n.directory ++ ['/'] ++ n.cfgPrefix ++ "_providers.txt".toList

/-- `get_cfg_filename`, multi_bmi.py:1720-1737, for a component with extension `ext`. -/
def compCfgFile (n : Names) (ext : Text) : Text := n.directory ++ (n.cfgPrefix ++ ext)

end Multi
