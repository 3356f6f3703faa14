import Verif.D8Model
import Mathlib.Algebra.Order.Field.Basic

/-!
# Grids of floating point values with special values

The stability checks and the slope repair of the channel components
(topoflow/components/channels_base.py) depend on NaN and infinities.  A value is a number of an
ordered field (no rounding), an infinity or NaN; comparisons with NaN are false, as in IEEE 754.
-/

set_option autoImplicit false

namespace FloatGrid

open D8 (Cell)

/-- A floating point value.  Used in the model of channels_base.py:3193-3275. -/
inductive Fl (K : Type*)
  | fin (x : K)
  | pinf
  | ninf
  | nan

variable {K : Type*} [Field K] [LinearOrder K]

/-- `x < 0.0`.  Used in the model of channels_base.py:3193-3275. -/
def Fl.isNeg : Fl K → Bool
  | .fin x => decide (x < 0)
  | .pinf => false
  | .ninf => true
  | .nan => false

/-- `x == 0.0`.  Used in the model of channels_base.py:4213-4217. -/
def Fl.isZero : Fl K → Bool
  | .fin x => decide (x = 0)
  | _ => false

/-- `np.isnan(x)`.  Used in the model of channels_base.py:3352-3425. -/
def Fl.isNan : Fl K → Bool
  | .nan => true
  | _ => false

/-- `np.isinf(x)`.  Used in the model of channels_base.py:3193-3275. -/
def Fl.isInf : Fl K → Bool
  | .pinf => true
  | .ninf => true
  | _ => false

/-- `np.minimum` of two values (NaN wins), used by `.min()`.
Used in the model of channels_base.py:4164-4254. -/
def Fl.min : Fl K → Fl K → Fl K
  | .nan, _ => .nan
  | _, .nan => .nan
  | .ninf, _ => .ninf
  | _, .ninf => .ninf
  | .pinf, y => y
  | x, .pinf => x
  | .fin x, .fin y => .fin (if y < x then y else x)

variable {ny nx : ℕ}

/-- `np.size(np.where(cond)[0])`: the number of cells that satisfy a condition.
Used in the model of channels_base.py:3193-3275. -/
def count (g : Cell ny nx → Fl K) (f : Fl K → Bool) : ℕ :=
  ((D8.allCells ny nx).filter (fun c => f (g c))).length

/-- `check_flow_depth`, channels_base.py:3193-3275. -/
def checkFlowDepth (d : Cell ny nx → Fl K) : Except String Bool :=
  let nneg := count d Fl.isNeg
  let ninf := count d Fl.isInf
  if nneg = 0 ∧ ninf = 0 then .ok true
  else .error "RuntimeError: Negative or NaN depth found."

/-- `check_flow_velocity` with its default arguments, channels_base.py:3352-3425. -/
def checkFlowVelocity (u : Cell ny nx → Fl K) : Except String Bool :=
  let nneg := count u Fl.isNeg
  let nnan := count u Fl.isNan
  let ninf := count u Fl.isInf
  if nneg = 0 ∧ nnan = 0 ∧ ninf = 0 then .ok true
  else .error "RuntimeError: Found bad velocities."

/-- The stability part of `update()`, channels_base.py:931-960: the resulting status.  Both checks
raise or return `True`. -/
def checkStability (on : Bool) (d u : Cell ny nx → Fl K) : Except String String :=
  if on then
    match checkFlowDepth d with
    | .error e => .error e
    | .ok a =>
      match checkFlowVelocity u with
      | .error e => .error e
      | .ok b => .ok (if a && b then "updated" else "failed")
  else .ok "updated"

/-- The mask `bad` in `remove_bad_slopes`, channels_base.py:4213-4217. -/
def badSlope (x : Fl K) : Bool := x.isNan || x.isZero || x.isNeg || x.isInf

/-- `remove_bad_slopes`, channels_base.py:4164-4254 (messages and type conversion omitted); `.min()`
of an empty selection raises `ValueError`. -/
def removeBadSlopes (slope : Cell ny nx → Fl K) : Except String (Cell ny nx → Fl K) :=
  let nbad := count slope Fl.isNan + count slope Fl.isNeg + count slope Fl.isInf +
    count slope Fl.isZero
  if nbad = 0 then .ok slope
  else
    match ((D8.allCells ny nx).filter (fun c => !badSlope (slope c))).map slope with
    | [] => .error "ValueError"
    | x :: l =>
      let smin := l.foldl Fl.min x
      .ok (fun c => if badSlope (slope c) then smin else slope c)

end FloatGrid
