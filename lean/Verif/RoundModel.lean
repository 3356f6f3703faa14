import Mathlib.Algebra.Order.Field.Basic
import Mathlib.Data.Int.Log

/-!
# Floating point arithmetic

The other models compute with exact numbers.  Here the clocks (topoflow/utils/BMI_base.py,
topoflow/components/topoflow_driver.py, topoflow/framework/emeli.py) and the snow component
(topoflow/components/snow_base.py, snow_degree_day.py, snow_energy_balance.py) are modelled with every
`+`, `-`, `*` and `/` followed by the rounding of the result, one operation of the code at a time.

Numbers are elements of an ordered field; `rnd64` is the rounding to a double of IEEE 754 (53
significant bits, least exponent -1074, ties to the even neighbour).  The greatest exponent is not
modelled: results are taken not to overflow, and there are no infinities and NaNs here (those are in
`FloatGridModel.lean`).  `minimum`, `maximum` and comparisons are exact.
-/

set_option autoImplicit false

namespace Round

variable {K : Type*} [Field K] [LinearOrder K] [FloorRing K]

/-- The nearest integer, ties to even.  Used in the model of the float64 arithmetic of
BMI_base.py:1029-1089. -/
def rne (x : K) : ℤ :=
  if x - ⌊x⌋ < 1 / 2 then ⌊x⌋
  else if 1 / 2 < x - ⌊x⌋ then ⌊x⌋ + 1
  else if ⌊x⌋ % 2 = 0 then ⌊x⌋
  else ⌊x⌋ + 1

/-- The exponent of the last of the 53 bits of a number.  Used in the model of the float64 arithmetic
of BMI_base.py:1029-1089. -/
def expo (x : K) : ℤ :=
  if x = 0 then -1074 else max (Int.log 2 |x| - 52) (-1074)

/-- Rounding to float64.  Used in the model of the float64 arithmetic of BMI_base.py:1029-1089. -/
def rnd64 (x : K) : K := (rne (x / 2 ^ expo x) : K) * 2 ^ expo x

/-- What the theorems use of a rounding: it is monotone and odd, keeps 0, keeps the numbers it returns, has a
relative error of at most `u` up to an absolute error of `η` (results near zero), and only a relative
error for sums of two numbers of the format.  Used in the model of the float64 arithmetic of
BMI_base.py:1029-1089; `rnd64` is one (`binary64` in `RoundFormat.lean`). -/
structure Rounding (K : Type*) [Field K] [LinearOrder K] where
  rnd : K → K
  u : K
  η : K
  mono : ∀ x y, x ≤ y → rnd x ≤ rnd y
  zero : rnd 0 = 0
  idem : ∀ x, rnd (rnd x) = rnd x
  odd : ∀ x, rnd (-x) = -rnd x
  u_nonneg : 0 ≤ u
  u_small : u ≤ 1 / 64
  η_nonneg : 0 ≤ η
  err : ∀ x, |rnd x - x| ≤ u * |x| + η
  add_err : ∀ x y, rnd x = x → rnd y = y → |rnd (x + y) - (x + y)| ≤ u * |x + y|

/-! ## The snow component, one cell -/

/-- The melt method with its parameters in the cell.
Used in the model of snow_degree_day.py:293-358 and snow_energy_balance.py:329-456. -/
inductive Method (K : Type*)
  | degreeDay (c0 T0 : K)
  | energyBalance

/-- Inputs of an update in the cell.  Used in the model of snow_base.py:214-277. -/
structure Inp (K : Type*) where
  P_snow : K
  T_air : K
  Q_sum : K
  ratio : K

/-- State of the snowpack in the cell.  Used in the model of snow_base.py:214-277. -/
structure Snow (K : Type*) where
  SM : K
  h_swe : K
  h_snow : K
  Ecc : K

section snow

variable (r : K → K)

/-- `update_meltrate`, snow_degree_day.py:333 and snow_energy_balance.py:397-424. -/
def potentialMelt (m : Method K) (dt : K) (i : Inp K) (s : Snow K) : K :=
  match m with
  | .degreeDay c0 T0 => r (r (c0 / 86400000) * r (i.T_air - T0))
  | .energyBalance =>
    let E_in := r (i.Q_sum * dt)
    let E_rem := max (r (E_in - s.Ecc)) 0
    let Qm := r (E_rem / dt)
    r (Qm / 334000000)

/-- `enforce_max_meltrate`, snow_base.py:490-512. -/
def enforceMax (dt SM h_swe : K) : K := max (min SM (r (h_swe / dt))) 0

/-- `update_cold_content`, snow_base.py:548-557 (no change) and snow_energy_balance.py:458-478. -/
def coldContent (m : Method K) (dt : K) (i : Inp K) (s : Snow K) : K :=
  match m with
  | .degreeDay _ _ => s.Ecc
  | .energyBalance => max (r (s.Ecc - r (i.Q_sum * dt))) 0

/-- `update_swe`, snow_base.py:559-609. -/
def newSwe (dt P_snow SM h_swe : K) : K :=
  let dh1 := r (P_snow * dt)
  let h1 := r (h_swe + dh1)
  let dh2 := r (SM * dt)
  max (r (h1 - dh2)) 0

/-- `update`, snow_base.py:214-277, with `update_depth`, 673-703. -/
def snowStep (m : Method K) (dt : K) (i : Inp K) (s : Snow K) : Snow K :=
  let SM := enforceMax r dt (potentialMelt r m dt i s) s.h_swe
  let swe := newSwe r dt i.P_snow SM s.h_swe
  { SM := SM
    h_swe := swe
    h_snow := r (swe * i.ratio)
    Ecc := coldContent r m dt i s }

/-- The states after each update of a history, in order.
Built on the model of snow_base.py:214-277. -/
def snowStates (m : Method K) (dt : K) : Snow K → List (Inp K) → List (Snow K)
  | _, [] => []
  | s, i :: is => snowStep r m dt i s :: snowStates m dt (snowStep r m dt i s) is

/-- The state at the end of a history.  Built on the model of snow_base.py:214-277. -/
def snowRun (m : Method K) (dt : K) : Snow K → List (Inp K) → Snow K
  | s, [] => s
  | s, i :: is => snowRun m dt (snowStep r m dt i s) is

end snow

/-! ## Clocks -/

/-- The clock attributes of a component.  Used in the model of BMI_base.py:1029-1089. -/
structure Clk (K : Type*) where
  timeIndex : ℕ
  time : K
  timeSec : K
  timeMin : K

section clock

variable (r : K → K)

/-- The seconds clock from the time in the component's units, BMI_base.py:1051-1074; `sec_per_year` is
`np.float64(365) * 24 * 3600`, a whole number. -/
def toSec (units : String) (t : K) : K :=
  if units = "seconds" then t
  else if units = "minutes" then r (t * 60)
  else if units = "hours" then r (t * 3600)
  else if units = "days" then r (r (t * 3600) * 24)
  else if units = "weeks" then r (r (r (t * 3600) * 24) * 7)
  else if units = "months" then r (r (t * 31536000) / 12)
  else if units = "years" then r (t * 31536000)
  else t

/-- The clock at the start: `initialize_time_vars`, BMI_base.py:950-1027. -/
def clkInit : Clk K := { timeIndex := 0, time := 0, timeSec := 0, timeMin := 0 }

/-- `update_time(-1)`, BMI_base.py:1029-1079. -/
def tick (units : String) (dt : K) (c : Clk K) : Clk K :=
  let t := r (c.time + dt)
  let sec := toSec r units t
  { timeIndex := c.timeIndex + 1
    time := t
    timeSec := sec
    timeMin := r (sec / 60) }

/-- `n` updates.  Built on the model of BMI_base.py:1029-1079. -/
def ticks (units : String) (dt : K) : ℕ → Clk K
  | 0 => clkInit
  | n + 1 => tick r units dt (ticks units dt n)

/-- The two stopping rules of the driver that only look at the clock: `check_finished`,
topoflow_driver.py:697-712.  `T_stop` is in minutes. -/
inductive Rule (K : Type*)
  | nSteps (n : ℤ)
  | modelTime (T_stop : K)

/-- `DONE` after an update.  Models topoflow_driver.py:697-712. -/
def Rule.done (c : Clk K) : Rule K → Bool
  | .nSteps n => decide ((c.timeIndex : ℤ) ≥ n)
  | .modelTime T => decide (c.timeMin ≥ T)

/-- The loop `while not(DONE): update()` (emeli.py:1061-1080, BMI_base.py:919-942) of a driver, whose
time unit is seconds (topoflow_driver.py:495-546): the number of updates made and the clock at the
end; `none`: not finished within `fuel` updates. -/
def driverRun (rule : Rule K) (dt : K) : ℕ → Clk K → Option (Clk K)
  | 0, _ => none
  | fuel + 1, c =>
    let c' := tick r "seconds" dt c
    if rule.done c' then some c' else driverRun rule dt fuel c'

/-- `framework.convert_time_units`, emeli.py:1156-1180 (class constants 227-231, whole numbers). -/
def fwSec (units : String) (t : K) : K :=
  if units = "years" ∨ units = "y" then r (t * 31536000)
  else if units = "months" then r (t * 2628000)
  else if units = "days" ∨ units = "d" then r (t * 86400)
  else if units = "hours" ∨ units = "h" then r (t * 3600)
  else if units = "minutes" ∨ units = "m" then r (t * 60)
  else t

/-- The framework's clock in seconds, the clock of one enabled component of the set in its own units,
and the number of its updates.  Used in the model of emeli.py:1019-1079. -/
structure Pair (K : Type*) where
  time : K
  ctime : K
  nupd : ℕ

/-- The state when the loop starts: the time interpolator has updated each component once
(emeli.py:1012, time_interpolation.py:240-289). -/
def pairInit (cdt : K) : Pair K := { time := 0, ctime := r (0 + cdt), nupd := 1 }

/-- One pass of the loop for that component: it is updated if the framework's clock is past its own
(emeli.py:1042-1056); then the framework's clock advances (emeli.py:1079, 1254-1265). -/
def pairStep (units : String) (fdt cdt : K) (s : Pair K) : Pair K :=
  let late := decide (s.time > fwSec r units s.ctime)
  { time := r (s.time + fdt)
    ctime := if late then r (s.ctime + cdt) else s.ctime
    nupd := if late then s.nupd + 1 else s.nupd }

/-- The state after `n` passes.  Built on the model of emeli.py:1019-1079. -/
def pairRun (units : String) (fdt cdt : K) : ℕ → Pair K
  | 0 => pairInit r cdt
  | n + 1 => pairStep r units fdt cdt (pairRun units fdt cdt n)

end clock

end Round
