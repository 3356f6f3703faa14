import Mathlib.Algebra.Order.Field.Basic
import Mathlib.Algebra.Order.Floor.Defs
import Mathlib.Data.List.Basic

/-!
# The component base class (topoflow/utils/BMI_base.py)

Part 1: clocks (`update`, `update_frac`, `update_until`, `update_time`,
`check_finished`, `run_model`).  Part 2: the variable store (`set_value`, `get_value`, ...)
with numpy arrays as references.  Part 3: `get_run_time_string`.
Times are exact numbers (the code uses float64); int32 overflow of `time_index` is ignored.
-/

set_option autoImplicit false

namespace BMI

/-! ## Clocks -/

section clock
variable {K : Type*} [Field K] [LinearOrder K] [FloorRing K]

/-- The attributes used by the clock functions.  `timeStep` is the attribute `time_step` that
`update_frac` sets; `steady` stands for `dz_max < dz_tolerance`.
Used in the model of BMI_base.py:950-1027. -/
structure Clock (K : Type*) where
  units : String
  dt : K
  mode : String
  stopCode : ℤ
  nSteps : ℤ
  stopTime : K
  steady : Bool
  timeIndex : ℤ
  time : K
  timeSec : K
  timeMin : K
  timeStep : Option K
  done : Bool

/-- `initialize_time_vars`, BMI_base.py:950-1027 (the `units` argument is lower-cased). -/
def initTimeVars (c : Clock K) (units : String) : Clock K :=
  { c with units := units.toLower, timeIndex := 0, time := 0, done := false,
           timeSec := 0, timeMin := 0 }

/-- `check_finished`, BMI_base.py:1092-1131.  For an unknown `stop_code` the name `TIMES_UP`
is unbound and the function raises. -/
def checkFinished (c : Clock K) : Except String (Clock K) :=
  if c.mode ≠ "driver" then .ok c
  else if c.stopCode = 0 then .ok { c with done := c.done || decide (c.timeIndex ≥ c.nSteps) }
  else if c.stopCode = 1 then .ok { c with done := c.done || decide (c.time ≥ c.stopTime) }
  else if c.stopCode = 2 then .ok { c with done := c.done || c.steady }
  else .error "UnboundLocalError: TIMES_UP"

/-- Seconds clock from the time in the component's units, BMI_base.py:1052-1076. -/
def toSec (units : String) (t : K) : K :=
  if units = "seconds" then t
  else if units = "minutes" then t * 60
  else if units = "hours" then t * 3600
  else if units = "days" then t * 3600 * 24
  else if units = "weeks" then t * 3600 * 24 * 7
  else if units = "months" then t * (365 * 24 * 3600) / 12
  else if units = "years" then t * (365 * 24 * 3600)
  else t

/-- `update_time(dt)`, BMI_base.py:1029-1089; `dt = -1` means the component's own step. -/
def updateTime (c : Clock K) (dt : K) : Except String (Clock K) :=
  let t := if dt = -1 then c.time + c.dt else c.time + dt
  let sec := toSec c.units t
  checkFinished { c with timeIndex := c.timeIndex + 1, time := t, timeSec := sec,
                         timeMin := sec / 60 }

/-- `update()`, BMI_base.py:264-271 (each component's own `update` ends the same way). -/
def update (c : Clock K) : Except String (Clock K) := updateTime c (-1)

/-- `update(dt)` for a list of time step arguments.  Built on the model of BMI_base.py:1029-1089. -/
def updates : List K → Clock K → Except String (Clock K)
  | [], c => .ok c
  | d :: ds, c => do
    let c1 ← updateTime c d
    updates ds c1

/-- `n` calls of `update()`.  Used in the model of BMI_base.py:283-290. -/
def updateN : ℕ → Clock K → Except String (Clock K)
  | 0, c => .ok c
  | n + 1, c => do
    let c1 ← update c
    updateN n c1

/-- `update_frac`, BMI_base.py:273-280: sets the attribute `time_step`, but `update` uses
the attribute `dt`. -/
def updateFrac (c : Clock K) (frac : K) : Except String (Clock K) := do
  let ts := c.dt
  let c1 ← update { c with timeStep := some (frac * ts) }
  pure { c1 with timeStep := some ts }

/-- python's `int(x)`: truncation towards zero.  Used in the model of BMI_base.py:283-290. -/
def pyInt (x : K) : ℤ := if x < 0 then ⌈x⌉ else ⌊x⌋

/-- `update_until`, BMI_base.py:283-290. -/
def updateUntil (c : Clock K) (later : K) : Except String (Clock K) := do
  let n := (later - c.time) / c.dt
  let c1 ← updateN (pyInt n).toNat c
  updateFrac c1 (n - pyInt n)

/-- The `while not(self.DONE)` loop of `run_model`, BMI_base.py:919-942, with errors not
skipped; `none` when `fuel` passes were not enough. -/
def runLoop : ℕ → Clock K → Option (Except String (Clock K))
  | 0, c => if c.done then some (.ok c) else none
  | fuel + 1, c =>
    if c.done then some (.ok c)
    else match (do let c1 ← update c; checkFinished c1) with
      | .error e => some (.error e)
      | .ok c2 => runLoop fuel c2

/-- `get_end_time`, BMI_base.py:500-528, for a component without `stop_time`, with
fixed time steps; `none` is "Unable to compute". -/
def endTime (c : Clock K) : Option K :=
  if c.stopCode ≠ 0 then none else some (c.nSteps * c.dt)

end clock

/-! ## The variable store -/

section store
variable {K : Type*}

/-- A component object: array memory, attributes (python attribute name → reference), and the
component's fixed map of long names to attribute names (`_var_name_map`).
Used in the model of BMI_base.py:596-600. -/
structure Obj (K : Type*) where
  arr : ℕ → List K
  attr : String → Option ℕ
  nameOf : String → Option String

/-- `get_value_ptr`, BMI_base.py:596-600. -/
def getPtr (o : Obj K) (long : String) : Except String ℕ :=
  match o.nameOf long with
  | none => .error "KeyError"
  | some a => match o.attr a with
    | none => .error "AttributeError"
    | some r => .ok r

/-- `get_value(name, dest)`, BMI_base.py:564-593, into an array `dest` with as many entries as
the variable; a missing attribute gives zeros (the shape is then that of a scalar). -/
def getValue [Zero K] (o : Obj K) (long : String) : Except String (List K) :=
  match o.nameOf long with
  | none => .error "KeyError"
  | some a => match o.attr a with
    | none => .ok [0]
    | some r => .ok (o.arr r)

/-- `get_value_at_indices`, BMI_base.py:603-612: `.take(IDs)` (flat IDs; negative IDs not
modelled). -/
def getValueAt (o : Obj K) (long : String) (ids : List ℕ) : Except String (List K) :=
  match getPtr o long with
  | .error e => .error e
  | .ok r =>
    match ids.mapM (fun i => (o.arr r)[i]?) with
    | none => .error "IndexError"
    | some l => .ok l

/-- `set_value`, BMI_base.py:634-652: binds the attribute to the caller's array `r`. -/
def setValue (o : Obj K) (long : String) (r : ℕ) : Except String (Obj K) :=
  match o.nameOf long with
  | none => .error "KeyError"
  | some a => .ok { o with attr := Function.update o.attr a (some r) }

/-- `set_value_at_indices`, BMI_base.py:656-669: `setattr(self, var_name + '.flat[IDs]', value)`.
The IDs are not used at all. -/
def setValueAt (o : Obj K) (long : String) (_ids : List ℕ) (r : ℕ) : Except String (Obj K) :=
  match o.nameOf long with
  | none => .error "KeyError"
  | some a => .ok { o with attr := Function.update o.attr (a ++ ".flat[IDs]") (some r) }

/-- The caller (or any other holder of a reference) writes to an array.
Used in the model of BMI_base.py:2325-2361. -/
def poke (o : Obj K) (r : ℕ) (v : List K) : Obj K := { o with arr := Function.update o.arr r v }

/-- `update_var`, BMI_base.py:2325-2361, for a grid: `self.x[:] = value` (a value of the same
size; `none` for no new value).  `factor` multiplies the passed array in place. -/
def updateVar [Mul K] [One K] [DecidableEq K] (o : Obj K) (a : String) (value : Option ℕ) (factor : K) :
    Except String (Obj K) :=
  match value with
  | none => .ok o
  | some r =>
    let o1 := if factor ≠ 1 then poke o r ((o.arr r).map (· * factor)) else o
    match o1.attr a with
    | none => .error "AttributeError"
    | some x => .ok (poke o1 x (o1.arr r))

end store

/-! ## The time object -/

/-- `self.time` is a 0-d numpy array (BMI_base.py:975, 2230-2255): a reference `time` to a mutable
cell. -/
structure TimeObj (K : Type*) where
  cell : ℕ → K
  time : ℕ

/-- `get_current_time`, BMI_base.py:476-478: returns the object itself, not a copy. -/
def TimeObj.getCurrentTime {K : Type*} (o : TimeObj K) : ℕ := o.time

/-- `self.time += dt` (BMI_base.py:1041-1044) on a 0-d array is in place. -/
def TimeObj.advance {K : Type*} [Add K] (o : TimeObj K) (dt : K) : TimeObj K :=
  { o with cell := Function.update o.cell o.time (o.cell o.time + dt) }

/-! ## Run time string -/

/-- The numbers printed by `get_run_time_string` for a whole number of seconds,
BMI_base.py:1223-1229: (days, hours, minutes, seconds).  `/` is python 3's true division. -/
def runTimeParts (s : ℕ) : ℚ × ℚ × ℚ × ℚ :=
  let days : ℚ := (s : ℚ) / 86400
  let left := s % 86400
  let hours : ℚ := (left : ℚ) / 3600
  let left := left % 3600
  let minutes : ℚ := (left : ℚ) / 60
  let seconds : ℚ := ((left % 60 : ℕ) : ℚ)
  (days, hours, minutes, seconds)

end BMI
