import Verif.D8GeomModel
import Verif.D8IdProps
import Mathlib.Analysis.SpecialFunctions.Trigonometric.Basic

/-!
# D8 flow geometry: lengths, widths, slopes and flow angles (C84-C86)

The specification uses only the compass offsets of `D8Spec`: the displacement of a unit step in
direction `k` on a grid of `dx` by `dy` cells, east and north components, and its length.
-/

set_option autoImplicit false

namespace D8Geom
open D8 D8Spec

/-- East component of the step in direction `k` on cells of width `dx`. -/
def east (dx : ℝ) (k : Fin 8) : ℝ := dx * ((offset k).2 : ℝ)
/-- North component of the step in direction `k` on cells of height `dy` (rows go down). -/
def north (dy : ℝ) (k : Fin 8) : ℝ := - (dy * ((offset k).1 : ℝ))
/-- Distance between the centres of a cell and its neighbour in direction `k`. -/
noncomputable def stepLength (dx dy : ℝ) (k : Fin 8) : ℝ :=
  Real.sqrt (east dx k ^ 2 + north dy k ^ 2)

variable {ny nx : ℕ}

theorem offs (k : Fin 8) :
    (k = 0 ∧ offset k = (-1, 1)) ∨ (k = 1 ∧ offset k = (0, 1)) ∨ (k = 2 ∧ offset k = (1, 1)) ∨
    (k = 3 ∧ offset k = (1, 0)) ∨ (k = 4 ∧ offset k = (1, -1)) ∨ (k = 5 ∧ offset k = (0, -1)) ∨
    (k = 6 ∧ offset k = (-1, -1)) ∨ (k = 7 ∧ offset k = (-1, 0)) := by
  revert k; decide

/-- **C84 (lengths).** For every grid of flow codes and every pixel size per row (`dd` being the
diagonal), the flow length of a cell that flows in direction `k` is the distance between its
centre and the centre of that neighbour; a cell without flow direction gets its `dx`, so
that the lengths are positive everywhere. -/
theorem C84_flow_length (dx dy dd : Fin ny → ℝ) (hx : ∀ r, 0 < dx r) (hy : ∀ r, 0 < dy r)
    (hd : ∀ r, dd r = Real.sqrt (dx r ^ 2 + dy r ^ 2)) (d : Cell ny nx → ℤ)
    (old : Cell ny nx → ℝ) (c : Cell ny nx) :
    (∀ k : Fin 8, d c = 2 ^ k.val →
      flowLength dx dy dd d old c = stepLength (dx c.1) (dy c.1) k ∧
      0 < flowLength dx dy dd d old c) ∧
    (d c = 0 → flowLength dx dy dd d old c = dx c.1) := by
  have hxc := hx c.1
  have hyc := hy c.1
  have sx : Real.sqrt (dx c.1 ^ 2) = dx c.1 := Real.sqrt_sq hxc.le
  have sy : Real.sqrt (dy c.1 ^ 2) = dy c.1 := Real.sqrt_sq hyc.le
  have hdd : 0 < dd c.1 := by rw [hd]; positivity
  constructor
  · intro k hk
    rcases offs k with ⟨rfl, ho⟩ | ⟨rfl, ho⟩ | ⟨rfl, ho⟩ | ⟨rfl, ho⟩ | ⟨rfl, ho⟩ | ⟨rfl, ho⟩ |
        ⟨rfl, ho⟩ | ⟨rfl, ho⟩ <;>
      simp only [Nat.reduceMod, Nat.zero_mod, pow_zero,
        Nat.one_mod, pow_one, Int.reducePow, Fin.isValue, Fin.coe_ofNat_eq_mod] at hk <;>
      simp [flowLength, isDiag, isHoriz, isVert, hk, stepLength, east, north, ho, hd, sx, sy,
        hxc, hyc] <;> positivity
  · intro h
    simp [flowLength, h]

/-- **C84 (widths).** With the default method the width of the flow across a cell times its
length is the cell area for flow along a grid axis, and the width equals the diagonal for
diagonal flow. -/
theorem C84_flow_width (dx dy dd : Fin ny → ℝ) (hx : ∀ r, 0 < dx r) (hy : ∀ r, 0 < dy r)
    (hd : ∀ r, dd r = Real.sqrt (dx r ^ 2 + dy r ^ 2)) (d : Cell ny nx → ℤ)
    (old old' : Cell ny nx → ℝ) (c : Cell ny nx) (k : Fin 8) (hk : d c = 2 ^ k.val) :
    0 < flowWidth false dx dy dd d old c ∧
    ((offset k).1 = 0 ∨ (offset k).2 = 0 →
      flowWidth false dx dy dd d old c * flowLength dx dy dd d old' c = dx c.1 * dy c.1) ∧
    ((offset k).1 ≠ 0 ∧ (offset k).2 ≠ 0 →
      flowWidth false dx dy dd d old c = Real.sqrt (dx c.1 ^ 2 + dy c.1 ^ 2)) := by
  have hxc := hx c.1
  have hyc := hy c.1
  have hdd : 0 < Real.sqrt (dx c.1 ^ 2 + dy c.1 ^ 2) := by positivity
  rcases offs k with ⟨rfl, ho⟩ | ⟨rfl, ho⟩ | ⟨rfl, ho⟩ | ⟨rfl, ho⟩ | ⟨rfl, ho⟩ | ⟨rfl, ho⟩ |
      ⟨rfl, ho⟩ | ⟨rfl, ho⟩ <;>
    simp only [Nat.reduceMod, Nat.zero_mod, pow_zero,
      Nat.one_mod, pow_one, Int.reducePow, Fin.isValue, Fin.coe_ofNat_eq_mod] at hk <;>
    simp [flowWidth, flowLength, isDiag, isHoriz, isVert, hk, ho, hd, hdd, hxc, hyc, mul_comm]

/-- **C84 (second method).** With `METHOD2` the flow widths of the eight directions around a
cell add up to its perimeter. -/
theorem C84_width_perimeter (dx dy dd : Fin ny → ℝ) (old : Cell ny nx → ℝ) (c : Cell ny nx) :
    ∑ k : Fin 8, flowWidth true dx dy dd (fun _ => 2 ^ k.val) old c =
      2 * (dx c.1 + dy c.1) := by
  simp [Fin.sum_univ_succ, flowWidth, isDiag, isHoriz, isVert, Fin.val_succ]
  ring

/-- **C84 (second method).** For flow along a grid axis `METHOD2` halves the width, and for
diagonal flow it is an eighth of the perimeter. -/
theorem C84_width_method2 (dx dy dd : Fin ny → ℝ) (d : Cell ny nx → ℤ)
    (old old' : Cell ny nx → ℝ) (c : Cell ny nx) (k : Fin 8) (hk : d c = 2 ^ k.val) :
    ((offset k).1 = 0 ∨ (offset k).2 = 0 →
      flowWidth true dx dy dd d old c = flowWidth false dx dy dd d old' c / 2) ∧
    ((offset k).1 ≠ 0 ∧ (offset k).2 ≠ 0 →
      flowWidth true dx dy dd d old c = 2 * (dx c.1 + dy c.1) / 8) := by
  rcases offs k with ⟨rfl, ho⟩ | ⟨rfl, ho⟩ | ⟨rfl, ho⟩ | ⟨rfl, ho⟩ | ⟨rfl, ho⟩ | ⟨rfl, ho⟩ |
      ⟨rfl, ho⟩ | ⟨rfl, ho⟩ <;>
    simp only [Nat.reduceMod, Nat.zero_mod, pow_zero,
      Nat.one_mod, pow_one, Int.reducePow, Fin.isValue, Fin.coe_ofNat_eq_mod] at hk <;>
    simp [flowWidth, isDiag, isHoriz, isVert, hk, ho] <;> ring

/-- A cell without flow direction gets the width of the cell as flow width (the comment in the
code says zero). -/
theorem C84_width_no_flow (m : Bool) (dx dy dd : Fin ny → ℝ) (d : Cell ny nx → ℤ)
    (old : Cell ny nx → ℝ) (c : Cell ny nx) (h : d c = 0) :
    flowWidth m dx dy dd d old c = dx c.1 := by
  simp [flowWidth, h]

/-! ## Slopes -/

theorem cellOfID_flat (e : Cell ny nx) :
    cellOfID (ny := ny) (nx := nx) ((e.1.val : ℤ) * nx + e.2.val) = some e := by
  have h2 := e.2.isLt
  have h1 := e.1.isLt
  have hn : (nx : ℤ) ≠ 0 := by omega
  have hq : ((e.1.val : ℤ) * nx + e.2.val) / (nx : ℤ) = e.1.val := by
    rw [add_comm, Int.add_mul_ediv_right _ _ hn, Int.ediv_eq_zero_of_lt (by omega) (by omega)]
    simp
  have hr : ((e.1.val : ℤ) * nx + e.2.val) % (nx : ℤ) = e.2.val := by
    rw [add_comm, Int.add_mul_emod_self_right, Int.emod_eq_of_lt (by omega) (by omega)]
  unfold cellOfID
  rw [dif_pos (by rw [hq, hr]; omega)]
  congr 1
  ext
  · simp [hq]
  · simp [hr]

/-- **C85 (slopes).** For every DEM and configuration whose flow codes come from that DEM and
whose lengths come from those codes, the slope grid is computed without error whenever some cell
has no flow direction (in particular with non-periodic left and right borders, or top and bottom
borders); it is zero where there is no flow direction, and elsewhere it is the drop to the
downstream cell divided by the distance to it, and never negative. -/
theorem C85_slope {cfg : Config ℝ} (hpos : cfg.Pos) {fuel : ℕ} {z : Cell ny nx → ℝ}
    {codes : Cell ny nx → ℤ} (hu : updateFlowGrid cfg fuel z = some codes)
    (hz : ∃ c, codes c = 0)
    (dx dy dd : Fin ny → ℝ) (hx : ∀ r, 0 < dx r) (hy : ∀ r, 0 < dy r)
    (hd : ∀ r, dd r = Real.sqrt (dx r ^ 2 + dy r ^ 2)) (old : Cell ny nx → ℝ) :
    ∃ S, slopeGrid cfg.lrPeriodic cfg.tbPeriodic z (flowLength dx dy dd codes old) codes
        = some S ∧
      (∀ c, codes c = 0 → S c = 0) ∧
      (∀ c e (k : Fin 8), codes c = 2 ^ k.val → IsNbr k c e →
        S c = (z c - z e) / stepLength (dx c.1) (dy c.1) k ∧ 0 ≤ S c) := by
  obtain ⟨c0, hc0⟩ := hz
  have hcell : ∀ c, (codes c = 0 ∧ (cellOfID (ny := ny) (nx := nx)
        (parentID cfg.lrPeriodic cfg.tbPeriodic codes c)).isSome) ∨
      (∃ e, FlowsTo codes c e ∧ cellOfID (ny := ny) (nx := nx)
        (parentID cfg.lrPeriodic cfg.tbPeriodic codes c) = some e) := by
    intro c
    have hp := C03_parent_is_downstream_neighbour hu c
    rcases C04_codes_valid hu c with h | ⟨k, h⟩
    · left
      refine ⟨h, ?_⟩
      rw [hp.2 h]
      have h1 := c.1.isLt
      have h2 := c.2.isLt
      have := cellOfID_flat (ny := ny) (nx := nx) (⟨0, by omega⟩, ⟨0, by omega⟩)
      simp only [Nat.cast_zero, zero_mul, add_zero] at this
      rw [this]; rfl
    · right
      have hf : FlowsTo codes c (nbr k c) := flowsTo_iff.2 ⟨k, by rw [codeList_eq, h], rfl⟩
      exact ⟨nbr k c, hf, by rw [hp.1 _ hf, cellOfID_flat]⟩
  have hno := C03_noflow_ids hu
  obtain ⟨l, hl⟩ : ∃ l, noflowIDs codes = some l := by
    cases hn : noflowIDs codes with
    | none => exact absurd hc0 (hno.1.1 hn c0).ne'
    | some l => exact ⟨l, rfl⟩
  have hmem := hno.2.1 l hl
  unfold slopeGrid
  rw [if_pos, hl]
  · refine ⟨_, rfl, ?_, ?_⟩
    · intro c hc
      simp only [if_pos ((hmem c).2 hc)]
    · intro c e k hk hn
      have hf : FlowsTo codes c e := ⟨k, hk, hn⟩
      have hk0 : codes c ≠ 0 := by rw [hk]; positivity
      rcases hcell c with ⟨h0, _⟩ | ⟨e', hf', he'⟩
      · exact absurd h0 hk0
      · have : e' = e := flowsTo_det hf' hf
        subst this
        have hlen := (C84_flow_length dx dy dd hx hy hd codes old c).1 k hk
        simp only [if_neg (fun h => hk0 ((hmem c).1 h)), he']
        refine ⟨by rw [hlen.1], div_nonneg ?_ hlen.2.le⟩
        exact sub_nonneg.2 (C04_never_uphill hpos hu (Relation.ReflTransGen.single hf'))
  · rw [List.all_eq_true]
    intro c _
    rcases hcell c with ⟨_, h⟩ | ⟨e, _, h⟩
    · exact h
    · rw [h]; rfl

/-- **C85 (slopes, failure).** When every cell has a flow direction — possible only with periodic
borders — the slope grid cannot be computed: `update_noflow_IDs` raises. -/
theorem C85_slope_fails (lr tb : Bool) (z ds : Cell ny nx → ℝ) (d : Cell ny nx → ℤ)
    (h : ∀ c, 0 < d c) : slopeGrid lr tb z ds d = none := by
  have hn : noflowIDs d = none := by
    unfold noflowIDs
    simp only [ne_eq, ite_not, ite_eq_left_iff, reduceCtorEq, imp_false, not_not,
      List.length_eq_zero_iff, List.filter_eq_nil_iff, decide_eq_true_eq, not_le]
    exact fun c _ => h c
  unfold slopeGrid
  rw [hn]
  split_ifs <;> rfl

/-! ## Aspects -/

theorem cs1 : Real.cos (linspaceA 1) = Real.sqrt 2 / 2 ∧ Real.sin (linspaceA 1) = Real.sqrt 2 / 2 := by
  have : linspaceA 1 = Real.pi / 4 := by unfold linspaceA; push_cast; ring
  rw [this]; exact ⟨Real.cos_pi_div_four, Real.sin_pi_div_four⟩
theorem cs0 : Real.cos (linspaceA 0) = 1 ∧ Real.sin (linspaceA 0) = 0 := by
  simp [linspaceA]
theorem cs2 : Real.cos (linspaceA 2) = 0 ∧ Real.sin (linspaceA 2) = 1 := by
  have : linspaceA 2 = Real.pi / 2 := by unfold linspaceA; push_cast; ring
  rw [this]; simp
theorem cs_add4 (i : ℕ) : Real.cos (linspaceA (i + 4)) = - Real.cos (linspaceA i) ∧
    Real.sin (linspaceA (i + 4)) = - Real.sin (linspaceA i) := by
  have : linspaceA (i + 4) = linspaceA i + Real.pi := by unfold linspaceA; push_cast; ring
  rw [this]; exact ⟨Real.cos_add_pi _, Real.sin_add_pi _⟩
theorem cs3 : Real.cos (linspaceA 3) = - (Real.sqrt 2 / 2) ∧ Real.sin (linspaceA 3) = Real.sqrt 2 / 2 := by
  have : linspaceA 3 = Real.pi - Real.pi / 4 := by unfold linspaceA; push_cast; ring
  rw [this]; exact ⟨by rw [Real.cos_pi_sub, Real.cos_pi_div_four], by rw [Real.sin_pi_sub, Real.sin_pi_div_four]⟩

/-- The angle `a`, counterclockwise from east, points along the step in direction `k`. -/
def PointsAlong (a dx dy : ℝ) (k : Fin 8) : Prop :=
  east dx k = stepLength dx dy k * Real.cos a ∧ north dy k = stepLength dx dy k * Real.sin a

/-- **C86 (aspects).** The aspect is an angle in `[0, 2π)`, zero for cells without flow
direction.  On square cells it is the direction of flow, counterclockwise from east.  On
rectangular cells it is the direction of flow exactly for flow along a grid axis. -/
theorem C86_aspect (d : Cell ny nx → ℤ) (c : Cell ny nx) :
    (0 ≤ aspect d c ∧ aspect d c < 2 * Real.pi) ∧
    (d c = 0 → aspect d c = 0) ∧
    (∀ k : Fin 8, d c = 2 ^ k.val → ∀ dx dy : ℝ, 0 < dx → 0 < dy →
      (PointsAlong (aspect d c) dx dy k ↔
        dx = dy ∨ (offset k).1 = 0 ∨ (offset k).2 = 0)) := by
  have hpi := Real.pi_pos
  refine ⟨?_, fun h => by simp [aspect, h], ?_⟩
  · unfold aspect linspaceA
    dsimp only
    constructor
    · split_ifs <;> positivity
    · split_ifs <;> push_cast <;> linarith
  · intro k hk dx dy hx hy
    have sx : Real.sqrt (dx ^ 2) = dx := Real.sqrt_sq hx.le
    have sy : Real.sqrt (dy ^ 2) = dy := Real.sqrt_sq hy.le
    have hs : Real.sqrt 2 * Real.sqrt 2 = 2 := Real.mul_self_sqrt (by norm_num)
    have hs2 : 0 < Real.sqrt 2 := by positivity
    have hdiag : ∀ L, L = Real.sqrt (dx ^ 2 + dy ^ 2) → dx = dy →
        L * (Real.sqrt 2 / 2) = dx := by
      intro L hL h
      have : L = dx * Real.sqrt 2 := by
        rw [hL, ← h, show dx ^ 2 + dx ^ 2 = dx ^ 2 * 2 by ring,
          Real.sqrt_mul (by positivity), sx]
      rw [this, show dx * Real.sqrt 2 * (Real.sqrt 2 / 2) = dx * (Real.sqrt 2 * Real.sqrt 2) / 2 by ring,
        hs]
      ring
    have h4 := cs_add4 0
    have h5 := cs_add4 1
    have h6 := cs_add4 2
    have h7 := cs_add4 3
    rw [cs0.1, cs0.2] at h4
    rw [cs1.1, cs1.2] at h5
    rw [cs2.1, cs2.2] at h6
    rw [cs3.1, cs3.2] at h7
    norm_num at h4 h5 h6 h7
    generalize hL : Real.sqrt (dx ^ 2 + dy ^ 2) = L at *
    have hd := hdiag L rfl
    rcases offs k with ⟨rfl, ho⟩ | ⟨rfl, ho⟩ | ⟨rfl, ho⟩ | ⟨rfl, ho⟩ | ⟨rfl, ho⟩ | ⟨rfl, ho⟩ |
        ⟨rfl, ho⟩ | ⟨rfl, ho⟩ <;>
      simp only [Nat.reduceMod, Nat.zero_mod, pow_zero,
        Nat.one_mod, pow_one, Int.reducePow, Fin.isValue, Fin.coe_ofNat_eq_mod] at hk <;>
      simp [aspect, PointsAlong, hk, stepLength, east, north, ho, sx, sy, cs0, cs1, cs2, cs3,
        h4, h5, h6, h7, hL] <;>
      exact ⟨fun h => by linarith [h.1, h.2], fun h => by
        have := hd h; constructor <;> linarith⟩

/-- A tilted plane of 3 by 3 cells, 3 m wide and 4 m high: its codes meet the hypotheses of the
slope theorem, the centre cell flows downhill and its slope is positive. -/
example : ∃ (cfg : Config ℝ) (z : Cell 3 3 → ℝ) (codes : Cell 3 3 → ℤ) (S : Cell 3 3 → ℝ),
    updateFlowGrid cfg 10 z = some codes ∧
    slopeGrid false false z (flowLength (fun _ => 3) (fun _ => 4) (fun _ => 5) codes fun _ => 0)
      codes = some S ∧ S (0, 0) = 0 ∧ 0 < S (1, 1) := by
  let cfg : Config ℝ := ⟨3, 4, 5, -9999, true, true, false, false⟩
  have hpos : cfg.Pos := ⟨by norm_num [cfg], by norm_num [cfg], by norm_num [cfg]⟩
  let z : Cell 3 3 → ℝ := fun c => 2 - (c.2.val : ℝ)
  obtain ⟨codes, hu⟩ := C05_update_flow_grid_terminates cfg z
  have h0 : codes (0, 0) = 0 := border_LR_zero hu rfl (Or.inl rfl)
  have h5 : (5 : ℝ) = Real.sqrt (3 ^ 2 + 4 ^ 2) := by
    rw [show (3 : ℝ) ^ 2 + 4 ^ 2 = 5 ^ 2 by norm_num, Real.sqrt_sq (by norm_num)]
  obtain ⟨S, hS, hz, hf⟩ := C85_slope hpos hu ⟨_, h0⟩ (fun _ => 3) (fun _ => 4) (fun _ => 5)
    (fun _ => by norm_num) (fun _ => by norm_num) (fun _ => h5) (fun _ => 0)
  refine ⟨cfg, z, codes, S, hu, hS, hz _ h0, ?_⟩
  obtain ⟨k, e, hk, hn, hlt, _⟩ := C04_steepest_descent hpos hu rfl (1, 1)
    (by norm_num [cfg, z]) (by unfold OnBorder; decide)
    ⟨1, (1, 2), by unfold IsNbr; decide, by norm_num [z]⟩
  have := hf (1, 1) e k hk hn
  rw [this.1]
  refine div_pos (sub_pos.2 hlt) ?_
  have hl := (C84_flow_length (nx := 3) (fun _ : Fin 3 => 3) (fun _ => 4) (fun _ => 5)
    (fun _ => by norm_num) (fun _ => by norm_num) (fun _ => h5) codes (fun _ => 0) (1, 1)).1 k hk
  rw [← hl.1]; exact hl.2

end D8Geom
