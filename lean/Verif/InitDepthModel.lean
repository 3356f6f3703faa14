import Mathlib.Analysis.SpecialFunctions.Pow.Real
import Mathlib.Analysis.SpecialFunctions.Trigonometric.Basic

/-!
# Initial depth of water in the channels

topoflow/utils/init_depth.py over the reals, and `remove_bad_slopes` of topoflow/components/channels_base.py.
-/

set_option autoImplicit false

noncomputable section

namespace InitDepth

open Real

/-! ## Slopes -/

/-- A value in a slope grid: a finite number, NaN or an infinity.
Used in the model of init_depth.py:115-116. -/
inductive Val where
  | fin (x : ℝ)
  | nan
  | inf (neg : Bool)

/-- `(S <= 0.0) or not isfinite(S)` (init_depth.py:115-116); a comparison with NaN is false. -/
def bad : Val → Prop
  | .fin x => x ≤ 0
  | .nan => True
  | .inf _ => True

/-- The finite number of a good cell.  Used in the model of init_depth.py:86-155. -/
def goodValue : Val → Option ℝ
  | .fin x => if x ≤ 0 then none else some x
  | _ => none

open Classical in
/-- Bad cells get the value `m`: `S[ wb ] = S_min`.  Used in the model of init_depth.py:86-155. -/
def replaceBad (m : ℝ) (v : Val) : Val := if bad v then .fin m else v

/-- `min()` of a list of numbers; ValueError if it is empty.
Used in the model of init_depth.py:86-155. -/
def minimum : List ℝ → Except String ℝ
  | [] => .error "ValueError"
  | x :: xs => .ok (xs.foldl min x)

open Classical in
/-- `remove_bad_slopes` of init_depth.py:86-155; the result `none` is Python's None.  The grid is changed in place as
well: first component. -/
def removeBadSlopes (S : List Val) : Except String (List Val × Option (List Val)) :=
  let nbad := (S.filter (fun v => decide (bad v))).length
  let good := S.filterMap goodValue
  if nbad = 0 ∨ good.length = 0 then .ok (S, none)
  else
    match minimum good with
    | .error e => .error e
    | .ok m =>
      let S' := S.map (replaceBad m)
      .ok (S', some S')

open Classical in
/-- `remove_bad_slopes` of channels_base.py:4164-4260: the slopes afterwards. -/
def removeBadSlopesChannels (S : List Val) : Except String (List Val) :=
  let nbad := (S.filter (fun v => decide (bad v))).length
  if nbad = 0 then .ok S
  else
    match minimum (S.filterMap goodValue) with
    | .error e => .error e
    | .ok m => .ok (S.map (replaceBad m))

/-! ## Newton's method -/

/-- `get_baseflow_volume_flux` (init_depth.py:157-191). -/
def baseflowFlux (areaKm2 Qb : ℝ) (mmph : Bool) : ℝ :=
  let areaM2 := areaKm2 * 1000000
  let Bmps := Qb / areaM2
  let Bmmph := Bmps * 1000 * 3600
  if mmph then Bmmph else Bmps

/-- What one cell needs: width, bank angle (radians) and `K`.
Used in the model of init_depth.py:379-384. -/
structure Cell where
  w : ℝ
  theta : ℝ
  K : ℝ

/-- `K` (init_depth.py:359), with the slope already divided by the sinuosity; `areaKm2` is converted as in line 314. -/
def constK (B areaKm2 n S : ℝ) : ℝ := B * (areaKm2 * 1000000) * n / √S

/-- `Ac`, `P`, `numer`, `denom` (init_depth.py:379-384). -/
def Ac (c : Cell) (d : ℝ) : ℝ := d * (c.w + d * tan c.theta)
/-- Used in the model of init_depth.py:465. -/
def P (c : Cell) (d : ℝ) : ℝ := c.w + 2 * d / cos c.theta
/-- Used in the model of init_depth.py:385. -/
def numer (c : Cell) (d : ℝ) : ℝ := Ac c d ^ ((5 : ℝ) / 3) - c.K * P c d ^ ((2 : ℝ) / 3)
/-- Used in the model of init_depth.py:385. -/
def denom (c : Cell) (d : ℝ) : ℝ :=
  let term1 := (5 : ℝ) / 3 * Ac c d ^ ((2 : ℝ) / 3) * (c.w + 2 * d * tan c.theta)
  let term2 := (2 : ℝ) / 3 * c.K * P c d ^ ((1 : ℝ) / -3) * (2 / cos c.theta)
  term1 - term2

/-- One iteration in a cell (init_depth.py:385). -/
def newton (c : Cell) (d : ℝ) : ℝ := d - numer c d / denom c d

open Classical in
/-- The loop over the whole grid (init_depth.py:377-416): the depths and the number of iterations.  It goes on until
the change is within the tolerance in every cell or more than 40 iterations have been made. -/
def iterate (cells : List Cell) (tol : ℝ) : ℕ → ℕ → List ℝ → Option (List ℝ × ℕ)
  | 0, _, _ => none
  | fuel + 1, tries, d =>
    let d' := List.zipWith newton cells d
    let tries' := tries + 1
    let nb := ((List.zipWith (fun x y => |x - y|) d' d).filter (fun g => decide (g > tol))).length
    if nb = 0 ∨ tries' > 40 then some (d', tries') else iterate cells tol fuel tries' d'

/-- The depth grid that `compute_initial_depth` (init_depth.py:193-481) writes: 500 metres at the beginning. -/
def initialDepth (cells : List Cell) (tol : ℝ) (fuel : ℕ) : Option (List ℝ × ℕ) :=
  iterate cells tol fuel 0 (List.replicate cells.length 500)

/-- The velocity grid (init_depth.py:465), in one cell.  `Ac` and `P` are still those of the last pass of the loop, which
computed them from the depth `prev` before its update. -/
def initialVelocity (c : Cell) (n S prev : ℝ) : ℝ := (Ac c prev / P c prev) ^ ((2 : ℝ) / 3) * √S / n

end InitDepth
