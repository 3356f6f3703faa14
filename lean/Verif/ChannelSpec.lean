import Verif.ChannelLemmas

/-!
# Specification vocabulary for the channel properties

Histories of updates, water balance terms in terms of observable variables (volumes, discharges,
runoff rate), and the running maximum of a hydrograph.
-/

set_option autoImplicit false

noncomputable section

open scoped BigOperators
open D8 (Cell)
open D8Spec (FlowsTo)

namespace ChanSpec

open Chan

variable {ny nx : ℕ}

/-- The network is the one computed from the flow codes of some DEM with real elevations. -/
def IsDemNet (codes : Cell ny nx → ℤ) (net : Net ny nx) : Prop :=
  ∃ (cfg : D8.Config ℝ) (fuel : ℕ) (z : Cell ny nx → ℝ) (hy : 0 < ny) (hx : 0 < nx),
    D8.updateFlowGrid cfg fuel z = some codes ∧
    d8Net hy hx cfg.lrPeriodic cfg.tbPeriodic codes = some net

/-- `History p net s0 h s`: starting in `s0`, some sequence of successful updates (with any inputs)
led through the states `h` (in order) to `s`. -/
inductive History (p : Params ny nx) (net : Net ny nx) (s0 : St ny nx) :
    List (St ny nx) → St ny nx → Prop
  | nil : History p net s0 [] s0
  | snoc {h : List (St ny nx)} {s s' : St ny nx} (inp : Inp ny nx) :
      History p net s0 h s → step p net inp s = .ok s' → History p net s0 (h ++ [s']) s'

/-- Water in a cell after an update from `s` to `s'`, if volumes were allowed to be negative: old
volume, water released from the attenuation storage, runoff, inflow from upstream minus outflow. -/
def balance (p : Params ny nx) (codes : Cell ny nx → ℤ) (s s' : St ny nx) (c : Cell ny nx) : ℝ :=
  s.vol c + (s.volStored c - s'.volStored c) + s'.R c * p.da c * p.dt
    + (inflow codes s'.Q c - s'.Q c) * p.dt

/-- Total water: in the cells, in attenuation storage, and gone through the boundary. -/
def totalWater (s : St ny nx) : ℝ := ∑ c, s.vol c + ∑ c, s.volStored c + s.volEdge

/-- Water created by an update: the amount by which cells would have been overdrawn. -/
def createdStep (p : Params ny nx) (codes : Cell ny nx → ℤ) (s s' : St ny nx) : ℝ :=
  ∑ c, max 0 (-(balance p codes s s' c))

/-- Water created over a history. -/
def created (p : Params ny nx) (codes : Cell ny nx → ℤ) : St ny nx → List (St ny nx) → ℝ
  | _, [] => 0
  | s, s' :: l => createdStep p codes s s' + created p codes s' l

/-- No cell is overdrawn in any update of a history. -/
def NoOverdraft (p : Params ny nx) (codes : Cell ny nx → ℤ) : St ny nx → List (St ny nx) → Prop
  | _, [] => True
  | s, s' :: l => (∀ c, 0 ≤ balance p codes s s' c) ∧ NoOverdraft p codes s' l

/-- `peak` and `t` are the maximum of the values `xs` (or zero, at time zero, if none is positive)
and the first time it occurs, the `k`-th value belonging to time `k * dtMin`. -/
def IsPeak (xs : List ℝ) (dtMin peak t : ℝ) : Prop :=
  (∀ x ∈ xs, x ≤ peak) ∧
  ((peak = 0 ∧ t = 0) ∨
   ∃ k : ℕ, xs[k]? = some peak ∧ 0 < peak ∧ t = k * dtMin ∧ ∀ j < k, ∀ x, xs[j]? = some x → x < peak)

/-- Channel geometry and roughness in their physical range. -/
structure Physical (p : Params ny nx) : Prop where
  dt : 0 < p.dt
  da : ∀ c, 0 < p.da c
  ds : ∀ c, 0 < p.ds c
  width : ∀ c, 0 < p.width c
  angle0 : ∀ c, 0 ≤ p.angle c
  angle1 : ∀ c, p.angle c < Real.pi / 2
  bankfull : ∀ c, 0 ≤ p.dBankfull c
  nval : ∀ c, 0 < p.nval c
  z0val : ∀ c, 0 < p.z0val c
  floodN : 0 < p.floodN
  widthRatio : 0 < p.widthRatio

end ChanSpec

namespace ChanSpec

variable {ny nx : ℕ}

/-- Volume of water of depth `d` in a channel reach of length `len` whose cross section is a
trapezoid with bottom width `w` and banks inclined by `angle` from the vertical: mean of bottom and
top width, times depth, times length. -/
def trapezoidVolume (w angle len d : ℝ) : ℝ :=
  (w + (w + 2 * (d * Real.tan angle))) / 2 * d * len

end ChanSpec
