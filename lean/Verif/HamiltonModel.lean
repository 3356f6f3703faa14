import Mathlib.Analysis.SpecialFunctions.Pow.Real
import Mathlib.Analysis.SpecialFunctions.Log.Basic

/-!
# The steady-state landform analysis (topoflow/utils/hamiltonian.py)

A grid is a function of row (counted from the top) and column; `none` is nan, which is also the value
of `nodata` and `S_bad` (hamiltonian.py:164-165).  Real numbers stand for the floating point numbers.
Not modelled: reading and writing of grids, plots, curve fitting, reports.
-/

set_option autoImplicit false

namespace Hamilton

noncomputable section

/-- Arithmetic hands nan on.  Used in the model of hamiltonian.py:308-323. -/
def lift2 (f : ℝ → ℝ → ℝ) : Option ℝ → Option ℝ → Option ℝ
  | some a, some b => some (f a b)
  | _, _ => none

/-- Used in the model of hamiltonian.py:318-319. -/
abbrev Grid := ℕ → ℕ → Option ℝ

/-- The DEM with its size and spacing.  Used in the model of hamiltonian.py:318-319. -/
structure Dem where
  ny : ℕ
  nx : ℕ
  dx : ℝ
  dy : ℝ
  z : Grid

/-- `np.roll(f, shift=-1, axis=1)` with nodata in the last column, hamiltonian.py:318-319. -/
def right (d : Dem) (f : Grid) : Grid := fun i j =>
  if j = d.nx - 1 then none else f i ((j + 1) % d.nx)

/-- `np.roll(f, shift=1, axis=1)` with nodata in the first column, hamiltonian.py:330-331. -/
def left (d : Dem) (f : Grid) : Grid := fun i j =>
  if j = 0 then none else f i ((j + d.nx - 1) % d.nx)

/-- `np.roll(f, shift=1, axis=0)` with nodata in the first row, hamiltonian.py:342-343. -/
def top (d : Dem) (f : Grid) : Grid := fun i j =>
  if i = 0 then none else f ((i + d.ny - 1) % d.ny) j

/-- `np.roll(f, shift=-1, axis=0)` with nodata in the last row, hamiltonian.py:354-355. -/
def bottom (d : Dem) (f : Grid) : Grid := fun i j =>
  if i = d.ny - 1 then none else f ((i + 1) % d.ny) j

/-- `get_d_dx_R`, hamiltonian.py:308-323. -/
def dxR (d : Dem) (f : Grid) : Grid := fun i j =>
  lift2 (fun a b => (a - b) / d.dx) (right d f i j) (f i j)

/-- `get_d_dx_L`, hamiltonian.py:325-335. -/
def dxL (d : Dem) (f : Grid) : Grid := fun i j =>
  lift2 (fun a b => -1 * (a - b) / d.dx) (left d f i j) (f i j)

/-- `get_d_dy_T`, hamiltonian.py:337-347. -/
def dyT (d : Dem) (f : Grid) : Grid := fun i j =>
  lift2 (fun a b => (a - b) / d.dy) (top d f i j) (f i j)

/-- `get_d_dy_B`, hamiltonian.py:349-359. -/
def dyB (d : Dem) (f : Grid) : Grid := fun i j =>
  lift2 (fun a b => -1 * (a - b) / d.dy) (bottom d f i j) (f i j)

/-- The four parts of a cell.  Used in the model of hamiltonian.py:361-367. -/
inductive Quarter
  | RT | RB | LT | LB
  deriving DecidableEq

/-- The x-derivative used in each quarter, hamiltonian.py:361-367 and 374-377. -/
def Quarter.dx (d : Dem) : Quarter → Grid → Grid
  | .RT => dxR d
  | .RB => dxR d
  | .LT => dxL d
  | .LB => dxL d

/-- The y-derivative used in each quarter, hamiltonian.py:361-367 and 374-377. -/
def Quarter.dy (d : Dem) : Quarter → Grid → Grid
  | .RT => dyT d
  | .RB => dyB d
  | .LT => dyT d
  | .LB => dyB d

open Classical in
/-- `get_qp_slopes`, hamiltonian.py:371-408: the length of the gradient, nan where it is zero. -/
def slope (d : Dem) (q : Quarter) : Grid := fun i j =>
  match lift2 (fun a b => Real.sqrt (a ^ 2 + b ^ 2)) (q.dx d d.z i j) (q.dy d d.z i j) with
  | none => none
  | some s => if s = 0 then none else some s

/-- `get_qp_slopes_power` and the first argument in `get_qp_divergence_args`,
hamiltonian.py:412-434. -/
def arg1 (d : Dem) (gamma : ℝ) (q : Quarter) : Grid := fun i j =>
  lift2 (fun s a => s ^ (gamma - 1) * a) (slope d q i j) (q.dx d d.z i j)

/-- `get_qp_slopes_power` and the second argument in `get_qp_divergence_args`,
hamiltonian.py:412-434. -/
def arg2 (d : Dem) (gamma : ℝ) (q : Quarter) : Grid := fun i j =>
  lift2 (fun s a => s ^ (gamma - 1) * a) (slope d q i j) (q.dy d d.z i j)

/-- `get_qp_divergence`, hamiltonian.py:438-467. -/
def div (d : Dem) (gamma : ℝ) (q : Quarter) : Grid := fun i j =>
  lift2 (· + ·) (q.dx d (arg1 d gamma q) i j) (q.dy d (arg2 d gamma q) i j)

/-- The part of `get_curvatures_RT` that the two curvatures share, hamiltonian.py:517-522, and their
formulas, 527-536. -/
def curvature (d : Dem) (num : ℝ → ℝ → ℝ → ℝ → ℝ → ℝ) (pow : ℕ) : Grid := fun i j =>
  let zx := dxR d d.z
  let zy := dyT d d.z
  match zx i j, zy i j, dxR d zx i j, dyT d zx i j, dyT d zy i j, slope d .RT i j with
  | some x, some y, some xx, some xy, some yy, some s => some (num x y xx xy yy * (-1 / s ^ pow))
  | _, _, _, _, _, _ => none

/-- `kappa_c_RT`, hamiltonian.py:527-529. -/
def kappaC (d : Dem) : Grid :=
  curvature d (fun x y xx xy yy => y ^ 2 * xx - 2 * x * y * xy + x ^ 2 * yy) 3

/-- `kappa_p_RT`, hamiltonian.py:534-536. -/
def kappaP (d : Dem) : Grid :=
  curvature d (fun x y xx xy yy => x ^ 2 * xx + 2 * x * y * xy + y ^ 2 * yy) 2

/-! ## Profiles -/

section
variable {K : Type} [Field K] [LinearOrder K]

/-- The slopes of a profile, hamiltonian.py:993-996: from every point to the next one (`np.roll`),
zero at the last point.  Distances between neighbours are not zero. -/
def slopes : List K → List K → List K
  | x :: x' :: xs, z :: z' :: zs => (z - z') / (x' - x) :: slopes (x' :: xs) (z' :: zs)
  | [_], [_] => [0]
  | _, _ => []

/-- What `read_profile` leaves behind.  Used in the model of hamiltonian.py:1006-1010. -/
structure Profile (K : Type) where
  x : List K
  z : List K
  S : List K
  x0 : K
  z0 : K
  S0 : K

/-- The clip from position `w0` on and the saved attributes, hamiltonian.py:1006-1010, 1016-1022. -/
def cutAt (x z S : List K) (w0 : ℕ) : Except String (Profile K) :=
  match x.drop w0, z.drop w0 with
  | a :: a' :: as, b :: b' :: bs =>
    .ok { x := a :: a' :: as
          z := b :: b' :: bs
          S := S.drop w0
          x0 := a
          z0 := b
          S0 := (b - b') / (a' - a) }
  | _, _ => .error "IndexError"

/-- `read_profile`, hamiltonian.py:982-1022, from the columns `x`, `z` on. -/
def readProfile (x z : List K) (head tail : ℕ) (hilltop : Bool) : Except String (Profile K) :=
  let x1 := x.drop head
  let z1 := z.drop head
  let x2 := if 0 < tail then x1.take (x1.length - tail) else x1
  let z2 := if 0 < tail then z1.take (z1.length - tail) else z1
  let S := slopes x2 z2
  match S with
  | [] => .error "IndexError"
  | s :: ss =>
    cutAt x2 z2 (s :: ss)
      (if hilltop then (s :: ss).findIdx (fun t => t == (s :: ss).foldl max s) else 0)

end

/-- The start of a profile: `x0`, `z0`, `S0`.  Used in the model of hamiltonian.py:1061-1071. -/
structure Start where
  x0 : ℝ
  z0 : ℝ
  S0 : ℝ

open Classical in
/-- The elevations of `get_peckham_profile`, hamiltonian.py:1061-1071. -/
def profileZ (p : Start) (gamma Rs x : ℝ) : ℝ :=
  if gamma ≠ -1 then
    let e := (gamma + 1) / gamma
    let term1 := p.S0 ^ (gamma + 1)
    let term2 := (p.S0 ^ gamma + Rs * (x - p.x0)) ^ e
    p.z0 + (term1 - term2) / (e * Rs)
  else p.z0 - (1 / Rs) * Real.log (1 + p.S0 * Rs * (x - p.x0))

/-- `S_peckham`, hamiltonian.py:1076-1077. -/
def profileS (p : Start) (gamma Rs x : ℝ) : ℝ :=
  (p.S0 ^ gamma + Rs * (x - p.x0)) ^ (1 / gamma)

/-- `kp_peckham`, hamiltonian.py:1078. -/
def profileK (p : Start) (gamma Rs x : ℝ) : ℝ :=
  1 / gamma * Rs * (p.S0 ^ gamma + Rs * (x - p.x0)) ^ (1 / gamma - 1)

/-- `get_whipple_profile`, hamiltonian.py:1086-1091. -/
def whipple (p : Start) (c e x : ℝ) : ℝ := p.z0 - (c / e) * (x ^ e - p.x0 ^ e)

/-- `kp_from_curvature_eqn`, hamiltonian.py:1266-1271. -/
def kpOf (S kc gamma Rs : ℝ) : ℝ := (S / gamma) * (Rs / S ^ gamma - kc)

/-- `kc_from_curvature_eqn`, hamiltonian.py:1275-1285. -/
def kcOf (S kp gamma Rs : ℝ) : ℝ := Rs / S ^ gamma - kp * gamma / S

end

end Hamilton
