import Verif.D8Model
import Mathlib.Data.Fintype.BigOperators
import Mathlib.Analysis.SpecialFunctions.Exp

/-!
# The infiltration components

topoflow/components/infil_base.py, infil_green_ampt.py, infil_smith_parlange.py, infil_beven.py.
A numpy variable is either a scalar or a grid over the cells of the DEM, and the code tests which of
the two it has (`np.size(x) == 1`), so the model keeps the distinction.  Values are real numbers:
rounding, NaN and overflow are not modelled here (see `FloatGridModel` for NaN).  One soil layer
(`n_layers == 1`), as the code says of these methods (infil_green_ampt.py:412-415).
The parameters are those in force during the run: re-reading them from files is not modelled.
-/

set_option autoImplicit false

noncomputable section

namespace Infil

open D8 (Cell)

variable {ny nx : ℕ}

/-- A numpy scalar or a numpy grid.  Used in the model of infil_base.py:435-500. -/
inductive Val (ny nx : ℕ)
  | sc (a : ℝ)
  | gr (g : Cell ny nx → ℝ)

/-- The value seen by a cell, with numpy broadcasting of scalars.
Used in the model of infil_base.py:954-995. -/
def Val.at : Val ny nx → Cell ny nx → ℝ
  | .sc a, _ => a
  | .gr g, c => g c

/-- `np.size(x) == 1`: a scalar, or a grid with a single cell.
Used in the model of infil_base.py:954-995. -/
def Val.sizeOne : Val ny nx → Bool
  | .sc _ => true
  | .gr _ => decide (ny * nx = 1)

/-- A numpy elementwise binary operation: the result is a scalar when both arguments are.
Used in the model of infil_base.py:562-573. -/
def Val.map2 (f : ℝ → ℝ → ℝ) : Val ny nx → Val ny nx → Val ny nx
  | .sc a, .sc b => .sc (f a b)
  | x, y => .gr (fun c => f (x.at c) (y.at c))

/-- The elements of the array seen as a scalar (used only when the size is one; any cell gives the
same value then).  For a grid that has no cells the value is irrelevant.
Used in the model of infil_base.py:954-995. -/
def Val.item : Val ny nx → ℝ
  | .sc a => a
  | .gr g => if h : 0 < ny ∧ 0 < nx then g (⟨0, h.1⟩, ⟨0, h.2⟩) else 0

/-- `fc` of `Green_Ampt_Infil_Rate_v1`, infil_green_ampt.py:540-542. -/
def greenAmpt (Ks Ki qs qi G I : ℝ) : ℝ :=
  let dK := Ks - Ki
  let dq := qs - qi
  (G * dK * dq / I) + Ks

/-- The capacity of `Smith_Parlange_Infil_Rate_v1`, infil_smith_parlange.py:562-572. -/
def smithParlange (Ks Ki qs qi G gam I : ℝ) : ℝ :=
  let dK := Ks - Ki
  let dq := qs - qi
  let t2 := Real.exp (gam * I / (G * dq)) - 1
  (gam * dK / t2) + Ks

/-- `fc` of `Beven_Exp_K_Infil_Rate_v1`, infil_beven.py:541-546 (`f` and `C` have one
layer; the code uses them as arrays over layers, so that some combinations of inputs fail:
see `InfilShapeModel.lean`). -/
def beven (Ks qs qi f C I : ℝ) : ℝ :=
  let dq := qs - qi
  let t1 := (Ks * f) / dq
  let t2 := C + I
  let t3 := 1 - Real.exp (-1 * f * I / dq)
  t1 * t2 / t3

/-- The parameters of a run.  `cap c I` is the infiltration capacity in cell `c` after the depth `I`
has infiltrated there, by one of the three formulas above with the parameters of that cell;
`Ks` is `Ks[0]` (a grid only if it was read as a grid, infil_base.py:435-500). -/
structure Params (ny nx : ℕ) where
  Ks : Val ny nx
  cap : Cell ny nx → ℝ → ℝ
  da : Cell ny nx → ℝ
  dt : ℝ
  elev : Cell ny nx → ℝ

/-- The inputs of one update: rain, snowmelt and the water table.
Used in the model of infil_base.py:562-573. -/
structure Inp (ny nx : ℕ) where
  P_rain : Val ny nx
  SM : Val ny nx
  h_table : Val ny nx

/-- The state: infiltration rate, recharge rate, infiltrated depth and the running volumes.
Used in the model of infil_base.py:301-356. -/
structure St (ny nx : ℕ) where
  IN : Val ny nx
  v0 : Val ny nx
  Rg : Val ny nx
  I : Val ny nx
  vol_v0 : ℝ
  vol_IN : ℝ
  vol_Rg : ℝ

/-- `update_surface_influx`, infil_base.py:562-573. -/
def surfaceInflux (inp : Inp ny nx) : Val ny nx := Val.map2 (· + ·) inp.P_rain inp.SM

/-- The infiltration capacity as an array.  Not all inputs are scalars as soon as the infiltrated
depth is a grid (infil_green_ampt.py:349-374), and then it is a grid.  With scalar depth all
parameters are scalars, so any cell gives the value. -/
def capacity (p : Params ny nx) (I : Val ny nx) : Val ny nx :=
  match I with
  | .sc a => if h : 0 < ny ∧ 0 < nx then .sc (p.cap (⟨0, h.1⟩, ⟨0, h.2⟩) a) else .sc 0
  | .gr g => .gr (fun c => p.cap c (g c))

/-- `IN = np.minimum(fc, P_total)`, infil_green_ampt.py:567-568, infil_smith_parlange.py:579-580,
infil_beven.py:554-555. -/
def infilRate (p : Params ny nx) (pt I : Val ny nx) : Val ny nx :=
  Val.map2 min (capacity p I) pt

/-- `check_low_rainrate`, infil_base.py:954-995.  When both the supply and the conductivity have size
one, `IN` is *replaced* by the supply; otherwise entries of `IN` are replaced. -/
def checkLowRain (Ks pt IN : Val ny nx) : Val ny nx :=
  if pt.sizeOne && Ks.sizeOne then
    if pt.item < Ks.item then pt else IN
  else
    .gr (fun c => if pt.at c < Ks.at c then pt.at c else IN.at c)

/-- `adjust_infil_rate`, infil_base.py:654-709 (`RICHARDS` is False). -/
def adjust (p : Params ny nx) (h pt IN : Val ny nx) : Val ny nx :=
  let IN1 := checkLowRain p.Ks pt IN
  if IN1.sizeOne then IN1
  else .gr (fun c => if p.elev c ≤ h.at c then 0 else IN1.at c)

/-- A volume integral, infil_base.py:711-743 and 766-779: `volume * n_pixels` when both
the flux and the pixel area are scalars, else `np.sum(volume)`; both are the sum over the cells, since
`n_pixels` is the number of cells. -/
def addVolume (p : Params ny nx) (vol : ℝ) (flux : Val ny nx) : ℝ :=
  vol + ∑ c, flux.at c * p.da c * p.dt

/-- `update`, infil_base.py:301-356: influx, rate, adjustment, integrals, recharge, depth.
Output, time keeping and the NaN check are modelled elsewhere. -/
def step (p : Params ny nx) (inp : Inp ny nx) (s : St ny nx) : St ny nx :=
  let pt := surfaceInflux inp
  let v0 := infilRate p pt s.I
  let IN := adjust p inp.h_table pt v0
  { IN := IN
    v0 := v0
    vol_v0 := addVolume p s.vol_v0 v0
    vol_IN := addVolume p s.vol_IN IN
    Rg := IN
    vol_Rg := addVolume p s.vol_Rg IN
    I := Val.map2 (fun i r => i + r * p.dt) s.I IN }

/-- `initialize_computed_vars`, infil_green_ampt.py:342-374 (the same in the other two files). -/
def initSt (allScalars : Bool) : St ny nx :=
  let mk (a : ℝ) : Val ny nx := if allScalars then .sc a else .gr (fun _ => a)
  { IN := mk 0, v0 := mk 0, Rg := mk 0, I := mk 1e-6, vol_v0 := 0, vol_IN := 0, vol_Rg := 0 }

/-- A run: the states after each update.  Built on the model of infil_base.py:301-356. -/
def run (p : Params ny nx) (s : St ny nx) : List (Inp ny nx) → St ny nx
  | [] => s
  | i :: is => run p (step p i s) is

end Infil
