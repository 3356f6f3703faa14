import Verif.ChannelStateProps

/-!
# C67: flow velocities, discharges and slopes follow the stated hydraulics

The formulas are stated again here, from the textbook, independently of the model.
-/

set_option autoImplicit false

noncomputable section

open D8 (Cell)
open D8Spec (FlowsTo)

namespace ChanSpec

/-- Area of a trapezoid filled to depth `d`: mean width times depth. -/
def trapArea (w angle d : ℝ) : ℝ := (w + (w + 2 * (d * Real.tan angle))) / 2 * d

/-- Wetted perimeter: bottom and two banks of length `d / cos angle`. -/
def trapPerimeter (w angle d : ℝ) : ℝ := w + (d / Real.cos angle + d / Real.cos angle)

/-- Hydraulic radius. -/
def hydRadius (w angle d : ℝ) : ℝ := trapArea w angle d / trapPerimeter w angle d

/-- Manning's formula in metric units. -/
def manning (n R S : ℝ) : ℝ := 1 / n * R ^ (2 / 3 : ℝ) * S ^ (1 / 2 : ℝ)

/-- Law of the wall, von Karman constant 0.408, `a = 0.476`, `g = 9.81`; the smoothness is
at least 1.1. -/
def lawOfWall (z0 R S d : ℝ) : ℝ :=
  Real.sqrt 9.81 / 0.408 * Real.sqrt (R * S) * Real.log (max (0.476 * d / z0) 1.1)

end ChanSpec

namespace Chan

open ChanSpec

variable {ny nx : ℕ}

/-- The driving slope of a state: bed slope for the kinematic wave, else water surface slope. -/
def driveSlope (p : Params ny nx) (s : St ny nx) (c : Cell ny nx) : ℝ :=
  match p.method with
  | .kinematic => p.sBed c
  | .diffusive => s.sFree c
  | .dynamic => s.sFree c

theorem slopeOf_eq (p : Params ny nx) (s : St ny nx) (c : Cell ny nx) :
    slopeOf p s c = driveSlope p s c := by
  unfold slopeOf driveSlope
  cases p.method <;> simp

theorem method_of_ok {p : Params ny nx} {net : Net ny nx} {s : St ny nx} {u : Cell ny nx → ℝ}
    (h : newU p net s = .ok u) : p.method ≠ .dynamic := by
  intro hm
  unfold newU at h
  rw [hm] at h
  cases h

theorem wetArea_trap (p : Params ny nx) (d : Cell ny nx → ℝ) (c : Cell ny nx) :
    wetArea p d c = trapArea (p.width c) (p.angle c) (d c) := by
  unfold wetArea trapArea; ring

/-- Geometry after an update: wetted area and hydraulic radius belong to the new depth. -/
theorem C67_geometry {codes : Cell ny nx → ℤ} {net : Net ny nx} (hd : IsDemNet codes net)
    {p : Params ny nx} {inp : Inp ny nx} {s s' : St ny nx} (h : step p net inp s = .ok s')
    (c : Cell ny nx) (hc : codes c ≠ 0) :
    s'.aWet c = trapArea (p.width c) (p.angle c) (s'.d c) ∧
    s'.rh c = hydRadius (p.width c) (p.angle c) (s'.d c) := by
  have hg := IsDemNet.good hd
  obtain ⟨u, hu, rfl, _⟩ := step_ok h
  have hm : c ∉ net.noflow := fun h => hc ((hg.noflow c).1 h)
  have hdyn := method_of_ok hu
  simp only [edgeVals, outletVals, routed, ne_eq, hdyn, not_false_eq_true, decide_true, if_true,
    hm, if_false]
  refine ⟨wetArea_trap _ _ _, ?_⟩
  unfold newRh hydRadius
  rw [if_neg hm, wetArea_trap]
  unfold trapPerimeter
  congr 1
  ring

theorem newU_eq {p : Params ny nx} {net : Net ny nx} {s : St ny nx} {u : Cell ny nx → ℝ}
    (h : newU p net s = .ok u) (c : Cell ny nx) (hc : c ∉ net.noflow) :
    (p.manning = true → p.lawOfWall = false →
      u c = manningU (s.rh c) (slopeOf p s c) (p.nval c)) ∧
    (p.lawOfWall = true → u c = lawU aval lawConst (s.rh c) (slopeOf p s c) (p.z0val c) (s.d c)) ∧
    (p.manning = false → p.lawOfWall = false → u c = s.u c) := by
  unfold newU at h
  split at h
  · cases h
  · cases h
    simp only [if_neg hc]
    refine ⟨fun h1 h2 => by simp [h1, h2], fun h1 => by simp [h1], fun h1 h2 => by simp [h1, h2]⟩

/-- With Manning's option the velocity after an update is Manning's formula at the new depth
and the driving slope of the method. -/
theorem C67_manning {codes : Cell ny nx → ℤ} {net : Net ny nx} (hd : IsDemNet codes net)
    {p : Params ny nx} {inp : Inp ny nx} {s s' : St ny nx} (h : step p net inp s = .ok s')
    (hM : p.manning = true) (hL : p.lawOfWall = false) (c : Cell ny nx) (hc : codes c ≠ 0) :
    s'.u c = manning (p.nval c) (hydRadius (p.width c) (p.angle c) (s'.d c))
      |driveSlope p s' c| := by
  have hgeo := C67_geometry hd h c hc
  have hg := IsDemNet.good hd
  obtain ⟨u, hu, rfl, _⟩ := step_ok h
  have hm : c ∉ net.noflow := fun h => hc ((hg.noflow c).1 h)
  have e := (newU_eq hu c hm).1 hM hL
  rw [← hgeo.2]
  change u c = _
  rw [e, slopeOf_eq]
  unfold manningU manning
  rw [Real.sqrt_eq_rpow]
  change (routed p net inp s).rh c ^ (2 / 3 : ℝ) * |driveSlope p (routed p net inp s) c| ^ (1 / 2 : ℝ) /
    p.nval c = 1 / p.nval c * (routed p net inp s).rh c ^ (2 / 3 : ℝ) *
    |driveSlope p (routed p net inp s) c| ^ (1 / 2 : ℝ)
  ring

/-- With the law-of-the-wall option the velocity after an update is the logarithmic law at the
new depth. -/
theorem C67_law_of_wall {codes : Cell ny nx → ℤ} {net : Net ny nx} (hd : IsDemNet codes net)
    {p : Params ny nx} {inp : Inp ny nx} {s s' : St ny nx} (h : step p net inp s = .ok s')
    (hL : p.lawOfWall = true) (c : Cell ny nx) (hc : codes c ≠ 0) :
    s'.u c = lawOfWall (p.z0val c) (hydRadius (p.width c) (p.angle c) (s'.d c))
      |driveSlope p s' c| (s'.d c) := by
  have hgeo := C67_geometry hd h c hc
  have hg := IsDemNet.good hd
  obtain ⟨u, hu, rfl, _⟩ := step_ok h
  have hm : c ∉ net.noflow := fun h => hc ((hg.noflow c).1 h)
  have e := (newU_eq hu c hm).2.1 hL
  rw [← hgeo.2]
  have hdd : (edgeVals p net (outletVals p { routed p net inp s with u := u })).d c =
      (routed p net inp s).d c := by
    simp [edgeVals, hm, outletVals]
  change u c = lawOfWall (p.z0val c) ((routed p net inp s).rh c)
    |driveSlope p (routed p net inp s) c|
    ((edgeVals p net (outletVals p { routed p net inp s with u := u })).d c)
  rw [hdd, e, slopeOf_eq]
  unfold lawU lawOfWall aval lawConst
  rw [show (11 / 10 : ℝ) = 1.1 by norm_num, div_mul_eq_mul_div (0.476 : ℝ)]

/-- Water surface slope after an update (diffusive wave): bed slope plus the difference of the
water depths along the flow path over the channel length. -/
theorem C67_surface_slope {codes : Cell ny nx → ℤ} {net : Net ny nx} (hd : IsDemNet codes net)
    {p : Params ny nx} (hp : Physical p) (hm : p.method = .diffusive) {inp : Inp ny nx}
    {s s' : St ny nx} (h : step p net inp s = .ok s') (c e : Cell ny nx) (hce : FlowsTo codes c e)
    (he : codes e ≠ 0) :
    s'.sFree c * p.ds c = p.sBed c * p.ds c +
      (if p.flood then (s'.d c + s'.dFlood c) - (s'.d e + s'.dFlood e) else s'.d c - s'.d e) := by
  have hg := IsDemNet.good hd
  obtain ⟨u, hu, rfl, _⟩ := step_ok h
  have hc : codes c ≠ 0 := fun h => noflow_not_flows h e hce
  have mc : c ∉ net.noflow := fun h => hc ((hg.noflow c).1 h)
  have me : e ∉ net.noflow := fun h => he ((hg.noflow e).1 h)
  obtain ⟨k, _, hpar⟩ := (hg.flow c e).1 hce
  have hds := (hp.ds c).ne'
  simp only [edgeVals, outletVals, routed, hm, reduceCtorEq, if_false, newSFree, hpar, mc, me]
  cases hf : p.flood
  · simp only [Bool.false_eq_true, if_false]
    field_simp
  · simp only [if_true, mc, me, if_false]
    field_simp

/-- Water surface slope after an update towards a cell `e` without flow direction: it is that of
the water which reached `e` in the same update (channel depth `D`, flood depth `F`, together
holding the water balance of `e`), although the depth reported for `e` is zero. -/
theorem C67_surface_slope_edge {codes : Cell ny nx → ℤ} {net : Net ny nx}
    (hd : IsDemNet codes net) {p : Params ny nx} (hp : Physical p) (hm : p.method = .diffusive)
    {inp : Inp ny nx} {s s' : St ny nx} (h : step p net inp s = .ok s') (c e : Cell ny nx)
    (hce : FlowsTo codes c e) (he : codes e = 0) :
    s'.d e = 0 ∧ (p.flood = true → s'.dFlood e = 0) ∧
    ∃ D F : ℝ, 0 ≤ D ∧ 0 ≤ F ∧
      (trapArea (p.width e) (p.angle e) D +
        (if p.flood then F * (p.widthRatio * p.width e) else 0)) * p.ds e =
          max 0 (balance p codes s s' e) ∧
      s'.sFree c * p.ds c = p.sBed c * p.ds c +
        (if p.flood then (s'.d c + s'.dFlood c) - (D + F) else s'.d c - D) := by
  have hg := IsDemNet.good hd
  obtain ⟨u, hu, rfl, _⟩ := step_ok h
  have hc : codes c ≠ 0 := fun h => noflow_not_flows h e hce
  have mc : c ∉ net.noflow := fun h => hc ((hg.noflow c).1 h)
  have me : e ∈ net.noflow := (hg.noflow e).2 he
  obtain ⟨k, _, hpar⟩ := (hg.flow c e).1 hce
  have hds := (hp.ds c).ne'
  have hdse := hp.ds e
  have hw := hp.width e
  have hr := hp.widthRatio
  have hvol : (routed p net inp s).vol e = max 0 (balance p codes s
      (edgeVals p net (outletVals p { routed p net inp s with u := u })) e) :=
    newVol_eq hg p s _ _ e
  have hvb : 0 ≤ volBankfull p e := by
    unfold volBankfull
    rw [wetArea_eq]
    unfold trapezoidVolume
    have := hp.bankfull e
    have := tan_nonneg_of (hp.angle0 e) (hp.angle1 e)
    positivity
  have hvc : 0 ≤ (routed p net inp s).volChan e := by
    simp only [routed]
    split_ifs
    · exact le_min (le_max_right _ _) hvb
    · exact le_max_right _ _
  have h24 := C24_depth_inverts_volume hvc (hp.width e) (hp.ds e) (hp.angle0 e) (hp.angle1 e)
  have hD : (routed p net inp s).d e =
      trapDepth ((routed p net inp s).volChan e) (p.width e) (p.angle e) (p.ds e) :=
    max_eq_left h24.1
  have hvD : trapArea (p.width e) (p.angle e) ((routed p net inp s).d e) * p.ds e =
      (routed p net inp s).volChan e := by
    rw [hD]
    refine Eq.trans ?_ h24.2.1
    unfold trapArea trapezoidVolume
    ring
  refine ⟨by simp [edgeVals, me], fun hf => by simp [edgeVals, me, hf],
    (routed p net inp s).d e,
    if p.flood then (routed p net inp s).dFlood e else 0, le_max_right _ _, ?_, ?_, ?_⟩
  · cases hf : p.flood
    · simp
    · simp only [if_true, routed, hf]
      exact le_max_right _ _
  · refine Eq.trans ?_ hvol
    rw [add_mul, hvD]
    cases hf : p.flood
    · simp [routed, hf]
    · simp only [if_true, routed, hf, newFloodDepth]
      rw [max_eq_left (by positivity)]
      have hne : p.widthRatio * p.width e * p.ds e ≠ 0 := by positivity
      rw [mul_assoc, div_mul_cancel₀ _ hne]
      rcases le_total (newVol p net s (excessR p inp s) (totalQ p s) e) (volBankfull p e) with h | h
      · rw [min_eq_left h, max_eq_right (by linarith)]; ring
      · rw [min_eq_right h, max_eq_left (by linarith)]; ring
  · simp only [edgeVals, outletVals, routed, hm, reduceCtorEq, if_false, newSFree, hpar, mc]
    cases hf : p.flood
    · simp only [Bool.false_eq_true, if_false]
      field_simp
    · simp only [if_true, mc, if_false]
      field_simp

/-- **C67 is violated** towards cells without flow direction: whenever water reaches such a cell
in an update, the water surface slope of the cells draining to it is smaller than the one of the
reported depths. -/
theorem C67_surface_slope_edge_violated {codes : Cell ny nx → ℤ} {net : Net ny nx}
    (hd : IsDemNet codes net) {p : Params ny nx} (hp : Physical p) (hm : p.method = .diffusive)
    {inp : Inp ny nx} {s s' : St ny nx} (h : step p net inp s = .ok s') (c e : Cell ny nx)
    (hce : FlowsTo codes c e) (he : codes e = 0) (hwater : 0 < balance p codes s s' e) :
    s'.sFree c * p.ds c < p.sBed c * p.ds c +
      (if p.flood then (s'.d c + s'.dFlood c) - (s'.d e + s'.dFlood e) else s'.d c - s'.d e) := by
  obtain ⟨h1, h2, D, F, hD, hF, hv, hs⟩ := C67_surface_slope_edge hd hp hm h c e hce he
  rw [hs]
  rw [max_eq_right hwater.le] at hv
  have hdse := hp.ds e
  cases hf : p.flood
  · simp only [hf, Bool.false_eq_true, if_false, add_zero] at hv ⊢
    have : D ≠ 0 := by
      rintro rfl
      simp [trapArea] at hv
      linarith
    have : 0 < D := lt_of_le_of_ne hD (Ne.symm this)
    linarith
  · simp only [hf, if_true] at hv ⊢
    have h3 := h2 hf
    have : 0 < D + F := by
      by_contra hn
      have d0 : D = 0 := by linarith
      have f0 : F = 0 := by linarith
      subst d0 f0
      simp [trapArea] at hv
      linarith
    linarith

/-- The discharge of an update is that of the state before it: velocity times wetted area,
plus, with the overbank option, Manning flow over the flood plain. -/
theorem C67_discharge {codes : Cell ny nx → ℤ} {net : Net ny nx} (hd : IsDemNet codes net)
    {p : Params ny nx} {inp inp' : Inp ny nx} {s s' s'' : St ny nx}
    (h : step p net inp s = .ok s') (h' : step p net inp' s' = .ok s'') (c : Cell ny nx)
    (hc : codes c ≠ 0) :
    s''.Q c = s'.u c * trapArea (p.width c) (p.angle c) (s'.d c) +
      (if p.flood then manning p.floodN (s'.dFlood c) |driveSlope p s' c| *
        (p.widthRatio * p.width c * s'.dFlood c) else 0) := by
  have hgeo := C67_geometry hd h c hc
  obtain ⟨u, hu, rfl, _⟩ := step_ok h'
  change totalQ p s' c = _
  unfold totalQ chanQ floodQ
  rw [hgeo.1]
  cases p.flood
  · simp
  · simp only [if_true, slopeOf_eq]
    unfold manning
    rw [Real.sqrt_eq_rpow]
    ring

/-- Cells without flow direction pass no water on. -/
theorem C67_edge_no_discharge {codes : Cell ny nx → ℤ} {net : Net ny nx} (hd : IsDemNet codes net)
    {p : Params ny nx} {inp inp' : Inp ny nx} {s s' s'' : St ny nx}
    (h : step p net inp s = .ok s') (h' : step p net inp' s' = .ok s'') (c : Cell ny nx)
    (hc : codes c = 0) : s'.u c = 0 ∧ s''.Q c = 0 := by
  have hi := edgeInv_step (IsDemNet.good hd) h c hc
  obtain ⟨u, hu, rfl, _⟩ := step_ok h'
  refine ⟨hi.1, ?_⟩
  change totalQ p s' c = 0
  unfold totalQ chanQ floodQ
  cases hf : p.flood
  · simp [hi.1]
  · simp [hi.1, hi.2 hf]

/-- The flood depth over a flood plain of `widthRatio` channel widths holds the flood volume. -/
theorem C67_flood_depth {codes : Cell ny nx → ℤ} {net : Net ny nx} (hd : IsDemNet codes net)
    {p : Params ny nx} (hp : Physical p) (hf : p.flood = true) {inp : Inp ny nx}
    {s s' : St ny nx} (h : step p net inp s = .ok s') (c : Cell ny nx) :
    s'.dFlood c * (p.widthRatio * p.width c) * p.ds c = s'.volFlood c := by
  have hg := IsDemNet.good hd
  obtain ⟨u, hu, rfl, _⟩ := step_ok h
  have h1 := hp.widthRatio
  have h2 := hp.width c
  have h3 := hp.ds c
  by_cases hm : c ∈ net.noflow
  · simp [edgeVals, hm, hf]
  · simp only [edgeVals, outletVals, routed, hf, if_true, hm, if_false, newFloodDepth]
    rw [max_eq_left (by positivity)]
    field_simp

/-! ## Deeper water flows faster -/

theorem hydRadius_strictMono {w angle d d' : ℝ} (hw : 0 < w) (h0 : 0 ≤ angle)
    (h1 : angle < Real.pi / 2) (hd : 0 ≤ d) (hdd : d < d') :
    hydRadius w angle d < hydRadius w angle d' := by
  have ht := tan_nonneg_of h0 h1
  have hc := cos_pos_of h0 h1
  unfold hydRadius trapArea trapPerimeter
  set t := Real.tan angle
  set k := Real.cos angle
  have e : ∀ x : ℝ, (w + (w + 2 * (x * t))) / 2 * x / (w + (x / k + x / k)) =
      (w + x * t) * x / (w + 2 * x / k) := by
    intro x
    congr 1
    · ring
    · ring
  rw [e, e]
  have hd' : 0 < d' := lt_of_le_of_lt hd hdd
  have hi : 0 < 1 / k := by positivity
  have p1 : 0 < w + 2 * d / k := by positivity
  have p2 : 0 < w + 2 * d' / k := by positivity
  rw [div_lt_div_iff₀ p1 p2]
  have key : (w + d' * t) * d' * (w + 2 * d / k) - (w + d * t) * d * (w + 2 * d' / k) =
      (d' - d) * (w * w + w * t * (d + d') + 2 * t * d * d' * (1 / k)) := by
    field_simp
    ring
  have : 0 < (d' - d) * (w * w + w * t * (d + d') + 2 * t * d * d' * (1 / k)) := by
    apply mul_pos (by linarith)
    positivity
  linarith

/-- Stage-discharge relation: at the same slope, roughness and cross section, deeper water is
strictly faster and carries strictly more. -/
theorem C67_stage_discharge {w angle n S d d' : ℝ} (hw : 0 < w) (h0 : 0 ≤ angle)
    (h1 : angle < Real.pi / 2) (hn : 0 < n) (hS : 0 < S) (hd : 0 ≤ d) (hdd : d < d') :
    manning n (hydRadius w angle d) S < manning n (hydRadius w angle d') S ∧
    manning n (hydRadius w angle d) S * trapArea w angle d <
      manning n (hydRadius w angle d') S * trapArea w angle d' := by
  have ht := tan_nonneg_of h0 h1
  have hc := cos_pos_of h0 h1
  have hR := hydRadius_strictMono hw h0 h1 hd hdd
  have hR0 : 0 ≤ hydRadius w angle d := by unfold hydRadius trapArea trapPerimeter; positivity
  have hv : manning n (hydRadius w angle d) S < manning n (hydRadius w angle d') S := by
    unfold manning
    have := Real.rpow_lt_rpow hR0 hR (by norm_num : (0 : ℝ) < 2 / 3)
    have hs : 0 < S ^ (1 / 2 : ℝ) := Real.rpow_pos_of_pos hS _
    exact mul_lt_mul_of_pos_right (mul_lt_mul_of_pos_left this (by positivity)) hs
  refine ⟨hv, ?_⟩
  have hm0 : 0 ≤ manning n (hydRadius w angle d) S := by
    unfold manning; positivity
  have ha : trapArea w angle d ≤ trapArea w angle d' := by
    unfold trapArea
    have : d * d ≤ d' * d' := by nlinarith
    nlinarith [mul_le_mul_of_nonneg_left this ht]
  have ha' : 0 < trapArea w angle d' := by
    unfold trapArea
    have : 0 < d' := lt_of_le_of_lt hd hdd
    positivity
  calc manning n (hydRadius w angle d) S * trapArea w angle d
      ≤ manning n (hydRadius w angle d) S * trapArea w angle d' :=
        mul_le_mul_of_nonneg_left ha hm0
    _ < _ := mul_lt_mul_of_pos_right hv ha'

/-- **C67 is violated** for backwater: with the diffusive wave and Manning's formula, a cell that
holds water and whose water surface slopes *upwards* along its flow path still gets a positive
velocity, that is, water moves to the cell with the higher surface. -/
theorem C67_backwater_violated {codes : Cell ny nx → ℤ} {net : Net ny nx} (hd : IsDemNet codes net)
    {p : Params ny nx} (hp : Physical p) (hm : p.method = .diffusive)
    (hM : p.manning = true) (hL : p.lawOfWall = false) {inp : Inp ny nx}
    {s s' : St ny nx} (h : step p net inp s = .ok s') (c : Cell ny nx) (hc : codes c ≠ 0)
    (hwater : 0 < s'.d c) (hup : s'.sFree c < 0) : 0 < s'.u c := by
  rw [C67_manning hd h hM hL c hc]
  have ht := tan_nonneg_of (hp.angle0 c) (hp.angle1 c)
  have hcos := cos_pos_of (hp.angle0 c) (hp.angle1 c)
  have hw := hp.width c
  have hn := hp.nval c
  have hS : 0 < |driveSlope p s' c| := by
    unfold driveSlope; rw [hm]; exact abs_pos.2 hup.ne
  have hR : 0 < hydRadius (p.width c) (p.angle c) (s'.d c) := by
    unfold hydRadius trapArea trapPerimeter; positivity
  unfold manning
  have a := Real.rpow_pos_of_pos hR (2 / 3 : ℝ)
  have b := Real.rpow_pos_of_pos hS (1 / 2 : ℝ)
  positivity

/-- Non-vacuity of the stage-discharge relation. -/
example : manning (3 / 100) (hydRadius 2 0 1) (1 / 1000) < manning (3 / 100) (hydRadius 2 0 2) (1 / 1000) :=
  (C67_stage_discharge (by norm_num) le_rfl (by positivity) (by norm_num) (by norm_num) (by norm_num)
    (by norm_num)).1

end Chan
