import Mathlib.Analysis.SpecialFunctions.Pow.Real
import Mathlib.Analysis.SpecialFunctions.Log.Basic
import Mathlib.Analysis.SpecialFunctions.Trigonometric.DerivHyp

/-!
# Contrast stretches for images of grids (`topoflow/utils/visualize.py`)

A grid is a function on a finite non-empty set of cells.  Numbers are real numbers: rounding, infinities and not-a-number
values are not modelled, so the theorems ask for arguments in the domain of the power and the logarithm.  The histogram
of NumPy is modelled by its documented bins.
-/

set_option autoImplicit false

namespace Stretch

variable {ι : Type} [Fintype ι] [Nonempty ι]

/-- `grid.min()` (visualize.py: 90). -/
noncomputable def gmin (g : ι → ℝ) : ℝ := Finset.univ.inf' Finset.univ_nonempty g

/-- `grid.max()` (visualize.py: 91). -/
noncomputable def gmax (g : ι → ℝ) : ℝ := Finset.univ.sup' Finset.univ_nonempty g

/-- `normalize_grid` (visualize.py: 88-98). -/
noncomputable def normalize (g : ι → ℝ) : ι → ℝ :=
  if gmin g ≠ gmax g then fun c => (g c - gmin g) / (gmax g - gmin g) else fun _ => 0

/-- The bin of `np.histogram(grid, bins=256)` that counts a cell: 256 equal bins between the lowest and the highest
value, the last one closed; for a constant grid NumPy takes the range from half below to half above the value, so that
all cells fall into bin 128 (visualize.py: 105). -/
noncomputable def bin (g : ι → ℝ) (c : ι) : ℕ :=
  if gmin g ≠ gmax g then
    if g c = gmax g then 255 else ⌊256 * ((g c - gmin g) / (gmax g - gmin g))⌋₊
  else 128

open Classical in
/-- `hist.cumsum()` (visualize.py: 105-109): entry `k` counts the cells of the bins up to `k`. -/
noncomputable def cumsum (g : ι → ℝ) (k : ℕ) : ℝ :=
  ∑ j ∈ Finset.range (k + 1), ((Finset.univ.filter fun d => bin g d = j).card : ℝ)

/-- `cs.min()` and `cs.max()` over the 256 entries (visualize.py: 110). -/
noncomputable def csMin (g : ι → ℝ) : ℝ := (Finset.range 256).inf' ⟨0, by simp⟩ (cumsum g)
/-- See `csMin` (visualize.py: 110). -/
noncomputable def csMax (g : ι → ℝ) : ℝ := (Finset.range 256).sup' ⟨0, by simp⟩ (cumsum g)

/-- `ncs` (visualize.py: 110); the result of the `astype` on line 111 is not used. -/
noncomputable def ncs (g : ι → ℝ) (k : ℕ) : ℝ := (cumsum g k - csMin g) / (csMax g - csMin g)

/-- `histogram_equalize` (visualize.py: 102-124); `np.uint8` cuts off the fraction. -/
noncomputable def histEqualize (g : ι → ℝ) (c : ι) : ℝ :=
  if gmax g ≠ gmin g then ncs g ⌊255 * (g c - gmin g) / (gmax g - gmin g)⌋₊ else ncs g 0

/-- `power_stretch0` (visualize.py: 128-132). -/
noncomputable def power0 (g : ι → ℝ) (p : ℝ) (c : ι) : ℝ := normalize g c ^ p

/-- `power_stretch1` (visualize.py: 136-137). -/
noncomputable def power1 (g : ι → ℝ) (p : ℝ) (c : ι) : ℝ := g c ^ p

/-- `power_stretch2` (visualize.py: 141-145). -/
noncomputable def power2 (g : ι → ℝ) (a b : ℝ) (c : ι) : ℝ := 1 - (1 + a * normalize g c) ^ (-b)

/-- `power_stretch3` (visualize.py: 149-153). -/
noncomputable def power3 (g : ι → ℝ) (a b : ℝ) (c : ι) : ℝ := (1 - (1 - normalize g c ^ a) ^ b) ^ (1 / b)

/-- `log_stretch` (visualize.py: 157-158). -/
noncomputable def logStretch (g : ι → ℝ) (a : ℝ) (c : ι) : ℝ := Real.log (a * g c + 1)

/-- `linear_stretch` (visualize.py: 162-165). -/
noncomputable def linear (g : ι → ℝ) (c : ι) : ℝ := normalize g c

/-- `tanh_stretch` (visualize.py: 169-178). -/
noncomputable def tanhStretch (g : ι → ℝ) (a : ℝ) (c : ι) : ℝ := Real.tanh (a * normalize g c) / Real.tanh a

/-- `stretch_grid` (visualize.py: 182-208); an unknown name gives the grid back, with a message. -/
noncomputable def stretchGrid (g : ι → ℝ) (name : String) (a b p : ℝ) : ι → ℝ :=
  if name = "hist_equal" then histEqualize g
  else if name = "linear" then linear g
  else if name = "log" then logStretch g a
  else if name = "power" then power0 g p
  else if name = "power1" then power1 g p
  else if name = "power2" then power2 g a b
  else if name = "power3" then power3 g a b
  else if name = "tanh" then tanhStretch g a
  else g

end Stretch
