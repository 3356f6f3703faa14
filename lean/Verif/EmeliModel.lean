import Mathlib.Algebra.Order.Field.Basic
import Mathlib.Data.List.Basic

/-!
# EMELI: the coupling framework (topoflow/framework/emeli.py)

Times are exact numbers in a linearly ordered field (the code uses float64).
Python `dict`s are functions into `Option`; a missing key is `none`, and an
exception that leaves the function is `Except.error`.

Component *values* are not part of this file (see `TimeInterpModel`); what is
kept of each interpolated variable is the pair `(t1, t2)` of times at which its
two stored states were taken.  A component's own physics is not modelled: an
`update()` of an enabled component advances its clock by its own time step.
`nupd` (number of updates) and `log` (data requests answered by interpolation)
are ghost fields that no function reads.
-/

set_option autoImplicit false

namespace Emeli

/-- What the framework sees of a component: `comp_status` from its CFG file,
`get_time_units()`, `get_time_step()`, `get_input_var_names()`,
`get_output_var_names()`.  Used in the model of emeli.py:421-456. -/
structure CompDecl (K : Type*) where
  status : String
  units : String
  dt : K
  inputs : List String
  outputs : List String

/-- `provs` = `self.provider_list` = keys of `self.comp_set`
(emeli.py:421-456, 951-952, 553).  Repeated names in the provider file are not
modelled: theorems assume `provs.Nodup` where it matters. -/
structure Config (K : Type*) where
  provs : List String
  decl : String → CompDecl K

variable {K : Type*} [Field K] [LinearOrder K]

/-! ## Users and providers -/

/-- One entry of the output loop, emeli.py:1311-1316 (also the input loop
1323-1329, which has the same text with `var_users`). -/
def addName (comp v : String) (st : List String × (String → Option (List String))) :
    List String × (String → Option (List String)) :=
  if v ≠ "" then
    let st1 : List String × (String → Option (List String)) :=
      if v ∉ st.1 then (st.1 ++ [v], Function.update st.2 v (some [])) else st
    (st1.1, Function.update st1.2 v ((st1.2 v).map (· ++ [comp])))
  else st

/-- The two nested loops, emeli.py:1304-1316 and 1304-1329, for the name lists `names`. -/
def collect (names : String → List String) (comps : List String) :
    List String × (String → Option (List String)) :=
  comps.foldl (fun st c => (names c).foldl (fun st v => addName c v st) st)
    ([], fun _ => none)

/-- `self.all_input_var_names` (emeli.py:1301, 1327).  The `.sort()` at 1335 only
changes the order of the printed report and is not modelled. -/
def allInputs (cfg : Config K) : List String :=
  (collect (fun c => (cfg.decl c).inputs) cfg.provs).1

/-- `self.var_providers` (emeli.py:1298, 1315-1316). -/
def varProviders (cfg : Config K) : String → Option (List String) :=
  (collect (fun c => (cfg.decl c).outputs) cfg.provs).2

/-- `self.vars_provided[comp_name]` (emeli.py:1355-1362). -/
def varsProvided (cfg : Config K) (c : String) : List String :=
  (cfg.decl c).outputs.filter (fun v => decide (v ∈ allInputs cfg))

/-- `check_var_users_and_providers`, emeli.py:1366-1394. -/
def checkUsersProviders (cfg : Config K) : Bool :=
  (allInputs cfg).foldl (fun ok v =>
    match varProviders cfg v with
    | some l => if l.length > 1 then false else ok
    | none => false) true

/-! ## Time units and time steps -/

/-- `framework.convert_time_units`, emeli.py:1156-1180 (class constants 227-231). -/
def convert (t : K) (units : String) : K :=
  if units = "years" ∨ units = "y" then t * (365 * 24 * 60 * 60)
  else if units = "months" then t * (365 * 24 * 60 * 60 / 12)
  else if units = "days" ∨ units = "d" then t * (24 * 60 * 60)
  else if units = "hours" ∨ units = "h" then t * (60 * 60)
  else if units = "minutes" ∨ units = "m" then t * 60
  else t

/-- `time_interpolator.convert_time_units`, time_interpolation.py:693-717.  The
'hours' branch (line 710) refers to a bare name `secs_per_hour`, which does not
exist at module level. -/
def tiConvert (t : K) (units : String) : Except String K :=
  if units = "years" ∨ units = "y" then .ok (t * (365 * 24 * 60 * 60))
  else if units = "months" then .ok (t * (365 * 24 * 60 * 60 / 12))
  else if units = "days" ∨ units = "d" then .ok (t * (24 * 60 * 60))
  else if units = "hours" ∨ units = "h" then .error "NameError: secs_per_hour"
  else if units = "minutes" ∨ units = "m" then .ok (t * 60)
  else .ok t

/-- `comp_status.lower() == 'disabled'`.  Used in the model of emeli.py:1200-1236. -/
def isDisabled (status : String) : Bool := decide (status.toLower = "disabled")

/-- Entry of `dt_array` after both loops, emeli.py:1200-1236. -/
def dtEntry (cfg : Config K) (c : String) : K :=
  if isDisabled (cfg.decl c).status then convert 1000000 "seconds"
  else convert (cfg.decl c).dt (cfg.decl c).units

/-- `initialize_framework_dt`, emeli.py:1184-1246: the minimum.  `min()` of an empty
array raises. -/
def frameworkDt (cfg : Config K) : Except String K :=
  match cfg.provs with
  | [] => .error "ValueError: zero-size array to reduction operation minimum"
  | c :: cs => .ok (cs.foldl (fun m d => min m (dtEntry cfg d)) (dtEntry cfg c))

/-! ## The run -/

/-- Times of the two stored states of an interpolated variable
(`time_interp_data.t1`, `.t2`).  Used in the model of time_interpolation.py:252-257. -/
structure Win (K : Type*) where
  t1 : K
  t2 : K

/-- A data request answered by interpolation: `get_values(var, prov, time)` made on
behalf of `user`, with the times of the two states used.
Used in the model of emeli.py:1459-1470. -/
structure Request (K : Type*) where
  user : String
  prov : String
  var : String
  time : K
  win : Win K

/-- Used in the model of emeli.py:1459-1470. -/
structure St (K : Type*) where
  /-- framework clock `self.time`, in seconds -/
  time : K
  /-- each component's own clock, in its own units -/
  ctime : String → K
  /-- `get_status()` -/
  cstat : String → String
  /-- ghost: number of effective `update()` calls -/
  nupd : String → ℕ
  /-- `time_interp_vars` -/
  win : String → Option (Win K)
  /-- ghost: requests answered by interpolation, oldest first -/
  log : List (Request K)

/-- State after `initialize_comp_set` and `initialize_time_vars`: all clocks 0,
all statuses 'initialized' (emeli.py:1459-1470, 1095-1112; each component's
`initialize()` ends with `status = 'initialized'` and time 0). -/
def initSt : St K where
  time := 0
  ctime := fun _ => 0
  cstat := fun _ => "initialized"
  nupd := fun _ => 0
  win := fun _ => none
  log := []

/-- `bmi.update()`: returns immediately when disabled (e.g. snow_base.py:233-235,
met_base.py:753-755, channels_base.py:815), otherwise ends with `update_time`
(BMI_base.py:1029-1045) and `status = 'updated'`. -/
def bmiUpdate (cfg : Config K) (c : String) (s : St K) : St K :=
  if isDisabled (cfg.decl c).status then s
  else { s with
    ctime := Function.update s.ctime c (s.ctime c + (cfg.decl c).dt)
    cstat := Function.update s.cstat c "updated"
    nupd := Function.update s.nupd c (s.nupd c + 1) }

/-- `time_interp_data.__init__` for each variable, time_interpolation.py:252-257. -/
def createWins (vs : List String) (t : K) (w : String → Option (Win K)) :
    String → Option (Win K) :=
  vs.foldl (fun w v => Function.update w v (some ⟨t, t⟩)) w

/-- `i_vars.update(v2, t2)` for each variable, time_interpolation.py:282-289, 546-566,
63-97: `t1 = t2` (old), `t2 = t2` (new). -/
def shiftWins : List String → K → (String → Option (Win K)) → Except String (String → Option (Win K))
  | [], _, w => .ok w
  | v :: vs, t, w =>
    match w v with
    | none => .error "KeyError: time_interp_vars"
    | some x => shiftWins vs t (Function.update w v (some ⟨x.t2, t⟩))

/-- One turn of the loop of `time_interpolator.initialize` with method 'Linear',
time_interpolation.py:240-289. -/
def tiInitComp (cfg : Config K) (c : String) (s : St K) : Except String (St K) := do
  let t1 ← tiConvert (s.ctime c) (cfg.decl c).units
  let s1 := bmiUpdate cfg c { s with win := createWins (varsProvided cfg c) t1 s.win }
  let t2 ← tiConvert (s1.ctime c) (cfg.decl c).units
  let w ← shiftWins (varsProvided cfg c) t2 s1.win
  pure { s1 with win := w }

/-- `time_interpolator.initialize`, method 'Linear', time_interpolation.py:237-290. -/
def tiInit (cfg : Config K) : List String → St K → Except String (St K)
  | [], s => .ok s
  | c :: cs, s => do
    let s1 ← tiInitComp cfg c s
    tiInit cfg cs s1

/-- `time_interpolator.update2`, method 'Linear', time_interpolation.py:479-574. -/
def tiUpdate2 (cfg : Config K) (c : String) (s : St K) : Except String (St K) :=
  if s.cstat c = "initialized" then .ok s
  else do
    let t2 ← tiConvert (s.ctime c) (cfg.decl c).units
    let w ← shiftWins (varsProvided cfg c) t2 s.win
    pure { s with win := w }

/-- One turn of the loop of `get_required_vars`, emeli.py:1515-1595, with
`get_values` (time_interpolation.py:591-678, method 'Linear') inlined.  For a
provider that was never updated the value is a plain reference and nothing is
interpolated.  A request with `time > t2` only prints a message (662-668). -/
def getRequiredVar (cfg : Config K) (user : String) (bmiTime : K) (v : String) (s : St K) :
    Except String (St K) :=
  match varProviders cfg v with
  | none => .error "KeyError: var_providers"
  | some [] => .error "IndexError: list index out of range"
  | some (p :: _) =>
    if s.cstat p = "initialized" ∨ s.cstat p = "finalized" then .ok s
    else match s.win v with
      | none => .error "KeyError: time_interp_vars"
      | some w => .ok { s with log := s.log ++ [⟨user, p, v, bmiTime, w⟩] }

/-- `get_required_vars`, emeli.py:1503-1595. -/
def getRequiredVars (cfg : Config K) (user : String) (bmiTime : K) :
    List String → St K → Except String (St K)
  | [], s => .ok s
  | v :: vs, s => do
    let s1 ← getRequiredVar cfg user bmiTime v s
    getRequiredVars cfg user bmiTime vs s1

/-- Body of the `for comp_name in self.provider_list` loop, emeli.py:1035-1062. -/
def compStep (cfg : Config K) (c : String) (s : St K) : Except String (St K) :=
  let bmiTime := convert (s.ctime c) (cfg.decl c).units
  if s.time > bmiTime then do
    let s1 ← getRequiredVars cfg c bmiTime (cfg.decl c).inputs s
    let s2 := if (cfg.decl c).status = "Enabled" then bmiUpdate cfg c s1 else s1
    tiUpdate2 cfg c s2
  else .ok s

/-- The `for` loop, emeli.py:1035-1062. -/
def compLoop (cfg : Config K) : List String → St K → Except String (St K)
  | [], s => .ok s
  | c :: cs, s => do
    let s1 ← compStep cfg c s
    compLoop cfg cs s1

/-- One pass of the `while` body, emeli.py:1019-1079 (`update_time` 1254-1265). -/
def frameworkStep (cfg : Config K) (fdt : K) (s : St K) : Except String (St K) := do
  let s1 ← compLoop cfg cfg.provs s
  pure { s1 with time := s1.time + fdt }

/-- `n` passes of the `while` body.  Used in the model of emeli.py:890-1079. -/
def steps (cfg : Config K) (fdt : K) : ℕ → St K → Except String (St K)
  | 0, s => .ok s
  | n + 1, s => do
    let s1 ← steps cfg fdt n s
    frameworkStep cfg fdt s1

/-- `run_model` (method 'Linear') up to the state after `n` passes of the `while`
loop, emeli.py:890-1079.  `none`: `initialize_comp_set` reported a problem and
`run_model` returned without running.  The stopping condition is
`driver.DONE`; every prefix of every run is `runModel cfg n` for some `n`. -/
def runModel (cfg : Config K) (n : ℕ) : Except String (Option (St K)) :=
  if checkUsersProviders cfg then do
    let fdt ← frameworkDt cfg
    let s ← tiInit cfg cfg.provs initSt
    let s' ← steps cfg fdt n s
    pure (some s')
  else .ok none

end Emeli
