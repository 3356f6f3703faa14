import Mathlib.Analysis.SpecialFunctions.Pow.Real
import Mathlib.Analysis.SpecialFunctions.Log.Basic
import Mathlib.Data.Finset.Max

/-!
# Channel parameter grids from contributing area (topoflow/utils/parameterize.py) and the text of
the run time report (topoflow/utils/BMI_base.py)

`get_grid_from_TCA` makes a grid (channel width, Manning's n, bankfull depth, sinuosity) as a power
law of the contributing area.  Values are real numbers; the files hold float32.  Reading and writing
of the files is not modelled.
-/

set_option autoImplicit false

noncomputable section

namespace Param

variable {ι : Type*} [Fintype ι]

/-- The arguments (parameterize.py:93-97); `None` in the code is `none`. -/
structure Args where
  A1 : Option ℝ
  g1 : Option ℝ
  A2 : Option ℝ
  g2 : Option ℝ
  p : Option ℝ

/-- `np.log(g1/g2) / np.log(A1/A2)` (parameterize.py:138, 154); `none` if that is not a finite
number (equal areas, or values that are not positive). -/
def expo (A1 g1 A2 g2 : ℝ) : Option ℝ :=
  if 0 < A1 ∧ 0 < A2 ∧ 0 < g1 ∧ 0 < g2 ∧ A1 ≠ A2 then
    some (Real.log (g1 / g2) / Real.log (A1 / A2))
  else none

/-- `A.max()` and `A[A > 0].min()` (parameterize.py:144, 151-153); `none` for an empty array (an
error in the code). -/
def maxOf (A : ι → ℝ) : Option ℝ :=
  if h : (Finset.univ.image A).Nonempty then some ((Finset.univ.image A).max' h) else none

open Classical in
/-- See `maxOf`.  Used in the model of parameterize.py:93-217. -/
def minPos (A : ι → ℝ) : Option ℝ :=
  if h : ((Finset.univ.image A).filter (fun a => 0 < a)).Nonempty then
    some (((Finset.univ.image A).filter (fun a => 0 < a)).min' h) else none

/-- The power law (`grid = c * A**p`, then 1.0 where `A <= 0`; parameterize.py:168-195) with
`c = g1 / A1**p`.  The temporary value 1.0 for cells with `A <= 0` in the case `p < 0` is overwritten
by the last assignment. -/
def powGrid (A : ι → ℝ) (A1 g1 p : ℝ) (i : ι) : ℝ :=
  let c := g1 / A1 ^ p
  if A i ≤ 0 then 1 else c * A i ^ p

/-- What a call does.  Used in the model of parameterize.py:93-217. -/
inductive Result (ι : Type*)
  | grid (g : ι → ℝ)
  /-- "Sorry, not enough input parameters": no file is written. -/
  | nothing
  /-- The exponent is infinite or not a number, or a minimum of nothing is taken. -/
  | degenerate

/-- `get_grid_from_TCA`, parameterize.py:93-217. -/
def gridFromTCA (A : ι → ℝ) (a : Args) : Result ι :=
  match a.g1, a.g2, a.A1, a.A2, a.p with
  | some g1, some g2, some A1, some A2, _ =>
    match expo A1 g1 A2 g2 with
    | some p => .grid (powGrid A A1 g1 p)
    | none => .degenerate
  | some g1, _, _, _, some p =>
    match maxOf A with
    | some A1 => .grid (powGrid A A1 g1 p)
    | none => .degenerate
  | some g1, some g2, _, _, none =>
    match maxOf A, minPos A with
    | some A1, some A2 =>
      match expo A1 g1 A2 g2 with
      | some p => .grid (powGrid A A1 g1 p)
      | none => .degenerate
    | _, _ => .degenerate
  | _, _, _, _, _ => .nothing

/-! ## Run time text -/

/-- A number of something in the text, e.g. `2 hours`.
Used in the model of BMI_base.py:1193-1279. -/
inductive Part
  | days (x : ℚ)
  | hours (x : ℚ)
  | minutes (x : ℚ)
  | seconds (x : ℤ)

/-- `get_run_time_string`, BMI_base.py:1193-1279, for `s` whole seconds (`np.int32(seconds)`; the
decimal part is appended as digits).  The quotients are true divisions (`/` on numbers in
Python 3). -/
def runTimeParts (s : ℤ) : List Part :=
  let days : ℚ := (s : ℚ) / 86400
  let left := s % 86400
  let hours : ℚ := (left : ℚ) / 3600
  let left2 := left % 3600
  let minutes : ℚ := (left2 : ℚ) / 60
  let secs := left2 % 60
  (if 0 < days then [Part.days days] else []) ++
  (if 0 < hours then [Part.hours hours] else []) ++
  (if 0 < minutes then [Part.minutes minutes] else []) ++ [Part.seconds secs]

end Param
