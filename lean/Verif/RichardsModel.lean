import Mathlib.Analysis.SpecialFunctions.Pow.Real
import Mathlib.Algebra.BigOperators.Group.Finset.Basic

/-!
# Richards infiltration and the soil retention functions

Models `topoflow/utils/soil_trans_BC.py` (transitional Brooks-Corey functions) and
the solver of `topoflow/components/infil_richards_1D.py`.

One soil column: the code treats every grid cell by itself, with the same formulas
for a single profile and for three-dimensional arrays.  A profile is a function of
the node number `0 .. nz-1` (0 at the surface).  Values are real numbers: no
rounding, NaN or overflow.  The soil parameters are those in force during the run
(re-reading them from files is not modelled), `dz` may differ between nodes, the
`SIMPLE_AVG` branch of `update_Kbar` is the one in use (a constant in the code,
infil_richards_1D.py:1924).
-/

set_option autoImplicit false

namespace Richards

noncomputable section

/-! ## soil_trans_BC.py -/

/-- `psi_of_sat` without `MIN_VALUE` (soil_trans_BC.py:62-86). -/
def psiOfSat (Se lam c pB pA : ℝ) : ℝ :=
  let cpow := -c / lam
  let arg := (Se ^ cpow - 1) ^ (1 / c)
  pB * arg - pA

/-- `psi_of_sat` with `MIN_VALUE` (soil_trans_BC.py:83-84). -/
def psiOfSatMin (Se lam c pB pA minValue : ℝ) : ℝ := max (psiOfSat Se lam c pB pA) minValue

/-- `K_of_sat` (soil_trans_BC.py:90-123). -/
def kOfSat (Se Ks lam eta : ℝ) : ℝ :=
  let eps := eta / lam
  Ks * Se ^ eps

/-- `theta_of_psi` (soil_trans_BC.py:127-194). -/
def thetaOfPsi (p qs qr pB pA c lam : ℝ) (cmToM : Bool) : ℝ :=
  let ratio := if cmToM then (p / 100 + pA) / pB else (p + pA) / pB
  let Se := (1 + ratio ^ c) ^ (-lam / c)
  Se * (qs - qr) + qr

/-- `K_of_psi` (soil_trans_BC.py:198-240). -/
def kOfPsi (p pB pA Ks eta c : ℝ) : ℝ :=
  let epow := -eta / c
  let ratio := (p + pA) / pB
  let Kr := (1 + ratio ^ c) ^ epow
  Ks * max (min Kr 1) 0

/-- `psi_of_theta` without `MIN_VALUE` (soil_trans_BC.py:244-282). -/
def psiOfTheta (q qs qr lam c pB pA : ℝ) : ℝ :=
  let Se := (q - qr) / (qs - qr)
  let cpow := -c / lam
  let arg := (Se ^ cpow - 1) ^ (1 / c)
  pB * arg - pA

/-- `K_of_theta` (soil_trans_BC.py:286-323). -/
def kOfTheta (q Ks qs qr lam : ℝ) : ℝ :=
  let eta := 2 + 3 * lam
  let eps := eta / lam
  let Kr := ((q - qr) / (qs - qr)) ^ eps
  Ks * max (min Kr 1) 0

/-! ## infil_richards_1D.py -/

/-- The soil of one column: number of nodes, time step, node spacing and the
parameters of every node (`build_layered_var`, infil_richards_1D.py:597-611). -/
structure Soil where
  nz : ℕ
  dt : ℝ
  dz : ℕ → ℝ
  Ks : ℕ → ℝ
  qs : ℕ → ℝ
  qr : ℕ → ℝ
  pB : ℕ → ℝ
  pA : ℕ → ℝ
  lam : ℕ → ℝ
  c : ℕ → ℝ

/-- `eta = 2 + 3*lam` (infil_richards_1D.py:483). -/
def Soil.eta (S : Soil) (i : ℕ) : ℝ := 2 + 3 * S.lam i

/-- Depth of node `i`: `z = cumsum(dz)` (infil_base.py:431). -/
def Soil.z (S : Soil) (i : ℕ) : ℝ := ∑ j ∈ Finset.range (i + 1), S.dz j

/-- State of the column: soil moisture `q`, saturation, pressure head, conductivity,
flow rate at the bottom of each node, and the three rates reported to others.
Used in the model of infil_richards_1D.py:637-717. -/
structure St where
  q : ℕ → ℝ
  Se : ℕ → ℝ
  p : ℕ → ℝ
  K : ℕ → ℝ
  v : ℕ → ℝ
  IN : ℝ
  v0 : ℝ
  Rg : ℝ

/-- `initialize_computed_vars` (infil_richards_1D.py:637-717): moisture and conductivity
from the configuration, everything else zero.  (With grids, `Se` is computed from `q`
as well, line 699; it is recomputed before it is used.) -/
def initState (qi Ki : ℕ → ℝ) : St :=
  { q := qi, Se := fun _ => 0, p := fun _ => 0, K := Ki, v := fun _ => 0, IN := 0, v0 := 0, Rg := 0 }

/-- `np.roll(x, -1)` (infil_richards_1D.py:2626, 2701). -/
def below (nz : ℕ) (x : ℕ → ℝ) (i : ℕ) : ℝ := x ((i + 1) % nz)

/-- `np.roll(x, 1)` (infil_richards_1D.py:2630, 2719). -/
def above (nz : ℕ) (x : ℕ → ℝ) (i : ℕ) : ℝ := x ((i + nz - 1) % nz)

/-- `Z_Derivative_1D` and `_3D`, forward (infil_richards_1D.py:2625-2627, 2658-2664). -/
def derivF (nz : ℕ) (x dz : ℕ → ℝ) (i : ℕ) : ℝ := (below nz x i - x i) / dz i

/-- `Z_Derivative_1D` and `_3D`, backward (infil_richards_1D.py:2630-2631, 2671-2680). -/
def derivB (nz : ℕ) (x dz : ℕ → ℝ) (i : ℕ) : ℝ := (x i - above nz x i) / dz i

/-- `Z_Forward_Average` (infil_richards_1D.py:2691-2705). -/
def avgF (nz : ℕ) (x : ℕ → ℝ) (i : ℕ) : ℝ := (below nz x i + x i) / 2

/-- `Z_Backward_Average` (infil_richards_1D.py:2709-2723). -/
def avgB (nz : ℕ) (x : ℕ → ℝ) (i : ℕ) : ℝ := (x i + above nz x i) / 2

/-- `update_surface_influx` (infil_richards_1D.py:1050-1067). -/
def surfaceInflux (P SM ET : ℝ) : ℝ := (P + SM) - ET

/-- `update_theta` (infil_richards_1D.py:1071-1193). -/
def updateTheta (S : Soil) (s : St) : St :=
  let zdiff := fun i => below S.nz S.z i - above S.nz S.z i
  let term1 := fun i => avgF S.nz s.K i * (derivF S.nz s.p S.dz i - 1)
  let term2 := fun i => avgB S.nz s.K i * (derivB S.nz s.p S.dz i - 1)
  let dtheta := fun i =>
    if i = 0 ∨ i = S.nz - 1 then 0 else (2 * S.dt / zdiff i) * (term1 i - term2 i)
  { s with q := fun i => s.q i + dtheta i }

/-- `update_surface_BC_for_theta` (infil_richards_1D.py:1256-1297). -/
def surfaceBC (S : Soil) (r : ℝ) (s : St) : St :=
  { s with q := Function.update s.q 0 (s.q 0 + (r - s.v 0) * S.dt / S.dz 0) }

/-- `update_bottom_BC_for_theta` (infil_richards_1D.py:1309-1321). -/
def bottomBC (S : Soil) (s : St) : St :=
  { s with q := Function.update s.q (S.nz - 1) (s.q (S.nz - 1 - 1)) }

/-- `enforce_theta_range` (infil_richards_1D.py:1325-1349). -/
def enforceRange (S : Soil) (s : St) : St :=
  { s with q := fun i => max (min (s.q i) (S.qs i)) (S.qr i + 1 / 1000) }

/-- `update_saturation` (infil_richards_1D.py:1376-1419). -/
def updateSat (S : Soil) (s : St) : St :=
  { s with Se := fun i => (s.q i - S.qr i) / (S.qs i - S.qr i) }

/-- `update_psi` (infil_richards_1D.py:1438-1531). -/
def updatePsi (S : Soil) (s : St) : St :=
  { s with p := fun i => psiOfSat (s.Se i) (S.lam i) (S.c i) (S.pB i) (S.pA i) }

/-- `update_K` (infil_richards_1D.py:1841-1898). -/
def updateK (S : Soil) (s : St) : St :=
  { s with K := fun i => kOfSat (s.Se i) (S.Ks i) (S.lam i) (S.eta i) }

/-- `update_Kbar`, `update_v`, `update_bottom_BC_for_v` (infil_richards_1D.py:1924-1931,
2082-2155, 2162-2178). -/
def updateV (S : Soil) (s : St) : St :=
  let v := fun i => avgF S.nz s.K i * (1 - derivF S.nz s.p S.dz i)
  { s with v := Function.update v (S.nz - 1) (v (S.nz - 1 - 1)) }

/-- `update_infil_rate` (infil_richards_1D.py:2182-2267). -/
def updateInfil (S : Soil) (r : ℝ) (s : St) : St :=
  let vmax := s.v 0 + (S.qs 0 - s.q 0) * (S.dz 0 / S.dt)
  { s with IN := min r vmax, v0 := s.v 0 }

/-- `update_Rg` (infil_richards_1D.py:2289-2342). -/
def updateRg (S : Soil) (s : St) : St := { s with Rg := s.v (S.nz - 1) }

/-- `update` (infil_richards_1D.py:931-1043) for the surface influx `r`.  Not modelled:
integrals over the grid, `q0` (an alias of `q[0]`), checks, output, clock. -/
def update (S : Soil) (r : ℝ) (s : St) : St :=
  let s := updateTheta S s
  let s := surfaceBC S r s
  let s := bottomBC S s
  let s := enforceRange S s
  let s := updateSat S s
  let s := updatePsi S s
  let s := updateK S s
  let s := updateV S s
  let s := updateInfil S r s
  updateRg S s

/-- `update_total_storage` per unit area (infil_base.py:827-885): the water in all `nz`
nodes. -/
def totalStorage (S : Soil) (s : St) : ℝ := ∑ i ∈ Finset.range S.nz, s.q i * S.dz i

/-- `update` for rain, snowmelt and evapotranspiration rates (infil_richards_1D.py:960-1043). -/
def step (S : Soil) (P SM ET : ℝ) (s : St) : St := update S (surfaceInflux P SM ET) s

/-- A run: one influx per update.  Built on the model of infil_richards_1D.py:931-1043. -/
def run (S : Soil) : List ℝ → St → St
  | [], s => s
  | r :: rs, s => run S rs (update S r s)

end

end Richards
