import Verif.ChannelDiagModel

/-!
# C122-C124: shear stress, friction, Froude number; reported extremes

The formulas of the specification are those of `ChanSpec` (trapezoid geometry) and the two textbook
relations written out in the theorems: bed shear stress = density · g · depth · slope, and Froude
number = velocity / √(g · depth).
-/

set_option autoImplicit false

noncomputable section

open D8 (Cell)

namespace Chan

open ChanSpec

variable {ny nx : ℕ}

theorem stepDiag_ok {p : Params ny nx} {net : Net ny nx} {rho : ℝ} {inp : Inp ny nx}
    {s s' : St ny nx} {g g' : Diag ny nx} (h : stepDiag p net rho inp s g = .ok (s', g')) :
    step p net inp s = .ok s' ∧
    g' = { tau := shearStress p rho (routed p net inp s)
           uStar := shearSpeed p rho (routed p net inp s)
           f := frictionFactor p (routed p net inp s) g.f
           froude := froudeNumber (routed p net inp s) s'.u } := by
  unfold stepDiag at h
  split at h
  · cases h
  · rename_i s2 hs
    simp only [Except.ok.injEq, Prod.mk.injEq] at h
    obtain ⟨rfl, rfl⟩ := h
    exact ⟨hs, rfl⟩

/-- The derived quantities are available after every successful update. -/
theorem stepDiag_exists {p : Params ny nx} {net : Net ny nx} (rho : ℝ) {inp : Inp ny nx}
    {s s' : St ny nx} (g : Diag ny nx) (h : step p net inp s = .ok s') :
    ∃ g', stepDiag p net rho inp s g = .ok (s', g') := by
  unfold stepDiag
  rw [h]
  exact ⟨_, rfl⟩

theorem depth_flow {codes : Cell ny nx → ℤ} {net : Net ny nx} (hd : IsDemNet codes net)
    {p : Params ny nx} {inp : Inp ny nx} {s s' : St ny nx} (h : step p net inp s = .ok s')
    (c : Cell ny nx) (hc : codes c ≠ 0) :
    (routed p net inp s).d c = s'.d c ∧ (routed p net inp s).sFree c = s'.sFree c := by
  have hg := IsDemNet.good hd
  obtain ⟨u, hu, rfl, _⟩ := step_ok h
  have hm : c ∉ net.noflow := fun h => hc ((hg.noflow c).1 h)
  simp [edgeVals, outletVals, hm]

/-- A physical slope: the kinematic wave needs a bed slope that is not negative. -/
def SlopeOK (p : Params ny nx) (c : Cell ny nx) : Prop := p.method = .kinematic → 0 ≤ p.sBed c

/-! ## C122 -/

/-- **C122**: after every update, in every cell with a flow direction, the bed shear stress is
density × g × new depth × driving slope, and the shear speed is the speed with
stress = density × speed². -/
theorem C122_shear {codes : Cell ny nx → ℤ} {net : Net ny nx} (hd : IsDemNet codes net)
    {p : Params ny nx} {rho : ℝ} (hr : 0 < rho) {inp : Inp ny nx}
    {s s' : St ny nx} {g g' : Diag ny nx} (h : stepDiag p net rho inp s g = .ok (s', g'))
    (c : Cell ny nx) (hc : codes c ≠ 0) (hs : SlopeOK p c) :
    g'.tau c = rho * 9.81 * s'.d c * |driveSlope p s' c| ∧ 0 ≤ g'.tau c ∧
    0 ≤ g'.uStar c ∧ rho * g'.uStar c ^ 2 = g'.tau c := by
  obtain ⟨hst, rfl⟩ := stepDiag_ok h
  obtain ⟨e1, e2⟩ := depth_flow hd hst c hc
  have hd0 : 0 ≤ s'.d c := (C23_any_state hst c).2.1
  have htau : shearStress p rho (routed p net inp s) c =
      rho * 9.81 * s'.d c * |driveSlope p s' c| := by
    unfold shearStress driveSlope gConst
    dsimp only
    rw [e1, e2]
    cases hm : p.method
    · simp [abs_of_nonneg (hs hm)]
    · simp
    · simp
  have h0 : 0 ≤ shearStress p rho (routed p net inp s) c := by
    rw [htau]; positivity
  refine ⟨htau, h0, Real.sqrt_nonneg _, ?_⟩
  dsimp only [shearSpeed]
  rw [Real.sq_sqrt (div_nonneg h0 hr.le)]
  field_simp

/-- A negative bed slope makes the kinematic wave's shear stress negative in every cell that holds
water (its square root, the shear speed, is then not a number in the code). -/
theorem C122_negative_slope {codes : Cell ny nx → ℤ} {net : Net ny nx} (hd : IsDemNet codes net)
    {p : Params ny nx} (hk : p.method = .kinematic) {rho : ℝ} (hr : 0 < rho) {inp : Inp ny nx}
    {s s' : St ny nx} {g g' : Diag ny nx} (h : stepDiag p net rho inp s g = .ok (s', g'))
    (c : Cell ny nx) (hc : codes c ≠ 0) (hs : p.sBed c < 0) (hw : 0 < s'.d c) : g'.tau c < 0 := by
  obtain ⟨hst, rfl⟩ := stepDiag_ok h
  obtain ⟨e1, _⟩ := depth_flow hd hst c hc
  unfold shearStress gConst
  dsimp only
  rw [e1, if_pos hk]
  exact mul_neg_of_pos_of_neg (by positivity) hs

/-- **C122**: the Froude number is velocity over √(g · depth) where there is water and zero where
there is none; it is not negative, and the flow is subcritical (below 1) exactly when
u² < g · depth. -/
theorem C122_froude {codes : Cell ny nx → ℤ} {net : Net ny nx} (hd : IsDemNet codes net)
    {p : Params ny nx} (hp : Physical p) {d0 : Cell ny nx → ℝ} (h0 : ∀ c, 0 ≤ d0 c)
    {hist : List (St ny nx)} {rho : ℝ} {inp : Inp ny nx} {s s' : St ny nx}
    (hh : History p net (initSt p d0) hist s) {g g' : Diag ny nx}
    (h : stepDiag p net rho inp s g = .ok (s', g')) (c : Cell ny nx) (hc : codes c ≠ 0) :
    (s'.d c = 0 → g'.froude c = 0) ∧
    (0 < s'.d c → g'.froude c = s'.u c / Real.sqrt (9.81 * s'.d c)) ∧
    0 ≤ g'.froude c ∧
    (0 < s'.d c → (g'.froude c < 1 ↔ s'.u c ^ 2 < 9.81 * s'.d c)) := by
  obtain ⟨hst, rfl⟩ := stepDiag_ok h
  obtain ⟨e1, _⟩ := depth_flow hd hst c hc
  have hu : 0 ≤ s'.u c := (C23_nonnegative hp h0 (.snoc inp hh hst) c).2.2.2.2.2.2.1
  unfold froudeNumber gConst
  dsimp only
  rw [e1]
  refine ⟨fun hz => by simp [hz], fun hw => by rw [if_pos hw], ?_, ?_⟩
  · split_ifs
    · exact div_nonneg hu (Real.sqrt_nonneg _)
    · exact le_rfl
  · intro hw
    rw [if_pos hw, div_lt_one (Real.sqrt_pos.2 (by positivity)), Real.lt_sqrt hu]

/-- Cells without flow direction have Froude number 0, whatever their depth was. -/
theorem C122_froude_edge {codes : Cell ny nx → ℤ} {net : Net ny nx} (hd : IsDemNet codes net)
    {p : Params ny nx} {rho : ℝ} {inp : Inp ny nx} {s s' : St ny nx} {g g' : Diag ny nx}
    (h : stepDiag p net rho inp s g = .ok (s', g')) (c : Cell ny nx) (hc : codes c = 0) :
    g'.froude c = 0 := by
  obtain ⟨hst, rfl⟩ := stepDiag_ok h
  have hi := edgeInv_step (IsDemNet.good hd) hst c hc
  unfold froudeNumber
  dsimp only
  rw [hi.1]
  simp

/-! ## C123 -/

/-- **C123** (what holds), Manning's formula: friction stress density · f · u² is the bed shear
stress times (hydraulic radius / depth)^(4/3). -/
theorem C123_manning_partial {codes : Cell ny nx → ℤ} {net : Net ny nx} (hd : IsDemNet codes net)
    {p : Params ny nx} (hp : Physical p) (hM : p.manning = true) (hL : p.lawOfWall = false)
    {rho : ℝ} (hr : 0 < rho) {inp : Inp ny nx} {s s' : St ny nx} {g g' : Diag ny nx}
    (h : stepDiag p net rho inp s g = .ok (s', g')) (c : Cell ny nx) (hc : codes c ≠ 0)
    (hs : SlopeOK p c) (hw : 0 < s'.d c) :
    rho * g'.f c * s'.u c ^ 2 =
      g'.tau c * (hydRadius (p.width c) (p.angle c) (s'.d c) / s'.d c) ^ (4 / 3 : ℝ) := by
  rw [(C122_shear hd hr h c hc hs).1]
  obtain ⟨hst, rfl⟩ := stepDiag_ok h
  obtain ⟨e1, _⟩ := depth_flow hd hst c hc
  rw [C67_manning hd hst hM hL c hc]
  have hn := hp.nval c
  have hR0 : 0 ≤ hydRadius (p.width c) (p.angle c) (s'.d c) := by
    have ht := tan_nonneg_of (hp.angle0 c) (hp.angle1 c)
    have hcos := cos_pos_of (hp.angle0 c) (hp.angle1 c)
    have hwd := hp.width c
    unfold hydRadius trapArea trapPerimeter; positivity
  set R := hydRadius (p.width c) (p.angle c) (s'.d c) with hRdef
  set S := |driveSlope p s' c| with hS
  have hS0 : 0 ≤ S := abs_nonneg _
  unfold frictionFactor gConst manning
  dsimp only
  rw [e1, hM, hL]
  simp only [if_true, Bool.false_eq_true, if_false, if_pos hw]
  have r1 : (R ^ (2 / 3 : ℝ)) ^ 2 = R ^ (4 / 3 : ℝ) := by
    rw [← Real.rpow_natCast, ← Real.rpow_mul hR0]; norm_num
  have r2 : (S ^ (1 / 2 : ℝ)) ^ 2 = S := by
    rw [← Real.rpow_natCast, ← Real.rpow_mul hS0]; norm_num
  have r3 : (s'.d c) ^ (4 / 3 : ℝ) = s'.d c * s'.d c ^ (1 / 3 : ℝ) := by
    rw [show (4 / 3 : ℝ) = 1 + 1 / 3 by norm_num, Real.rpow_add hw, Real.rpow_one]
  have hd3 : 0 < s'.d c ^ (1 / 3 : ℝ) := Real.rpow_pos_of_pos hw _
  rw [Real.div_rpow hR0 hw.le, r3, mul_pow, mul_pow, r1, r2]
  field_simp

/-- **C123** (what holds), law of the wall: friction stress is the bed shear stress times
hydraulic radius / depth. -/
theorem C123_law_of_wall_partial {codes : Cell ny nx → ℤ} {net : Net ny nx}
    (hd : IsDemNet codes net) {p : Params ny nx} (hp : Physical p) (hL : p.lawOfWall = true)
    {rho : ℝ} (hr : 0 < rho) {inp : Inp ny nx} {s s' : St ny nx} {g g' : Diag ny nx}
    (h : stepDiag p net rho inp s g = .ok (s', g')) (c : Cell ny nx) (hc : codes c ≠ 0)
    (hs : SlopeOK p c) (hw : 0 < s'.d c) :
    rho * g'.f c * s'.u c ^ 2 =
      g'.tau c * (hydRadius (p.width c) (p.angle c) (s'.d c) / s'.d c) := by
  rw [(C122_shear hd hr h c hc hs).1]
  obtain ⟨hst, rfl⟩ := stepDiag_ok h
  obtain ⟨e1, _⟩ := depth_flow hd hst c hc
  rw [C67_law_of_wall hd hst hL c hc]
  have hR0 : 0 ≤ hydRadius (p.width c) (p.angle c) (s'.d c) := by
    have ht := tan_nonneg_of (hp.angle0 c) (hp.angle1 c)
    have hcos := cos_pos_of (hp.angle0 c) (hp.angle1 c)
    have hwd := hp.width c
    unfold hydRadius trapArea trapPerimeter; positivity
  set R := hydRadius (p.width c) (p.angle c) (s'.d c) with hRdef
  set S := |driveSlope p s' c| with hS
  have hS0 : 0 ≤ S := abs_nonneg _
  unfold frictionFactor kappaConst lawOfWall aval
  dsimp only
  rw [e1, hL]
  simp only [if_true, if_pos hw]
  rw [show (11 / 10 : ℝ) = 1.1 by norm_num, div_mul_eq_mul_div (0.476 : ℝ)]
  set L := Real.log (max (0.476 * s'.d c / p.z0val c) 1.1) with hLdef
  have hLpos : 0 < L := by
    apply Real.log_pos
    exact lt_of_lt_of_le (by norm_num) (le_max_right _ _)
  rw [mul_pow, mul_pow, div_pow, div_pow, Real.sq_sqrt (by norm_num : (0 : ℝ) ≤ 9.81),
    Real.sq_sqrt (by positivity : 0 ≤ R * S)]
  field_simp

theorem hydRadius_lt_depth {w angle d : ℝ} (hw : 0 < w) (h0 : 0 ≤ angle)
    (h1 : angle < Real.pi / 2) (hd : 0 < d) : hydRadius w angle d < d ∧ 0 < hydRadius w angle d := by
  have ht := tan_nonneg_of h0 h1
  have hc := cos_pos_of h0 h1
  have hP : 0 < trapPerimeter w angle d := by unfold trapPerimeter; positivity
  refine ⟨?_, by unfold hydRadius trapArea; positivity⟩
  unfold hydRadius
  rw [div_lt_iff₀ hP]
  unfold trapArea trapPerimeter
  have hsin : Real.tan angle * Real.cos angle = Real.sin angle := Real.tan_mul_cos hc.ne'
  have hs1 : Real.sin angle ≤ 1 := Real.sin_le_one _
  have : d * Real.tan angle < d / Real.cos angle + d / Real.cos angle := by
    rw [← add_div, lt_div_iff₀ hc]
    have : d * Real.tan angle * Real.cos angle = d * Real.sin angle := by rw [mul_assoc, hsin]
    rw [this]
    nlinarith
  nlinarith

/-- **C123 is violated** everywhere: in every cell with water and a nonzero driving slope, with
either law, the friction stress of the reported friction factor and velocity is strictly smaller
than the reported bed shear stress (the code takes them to be equal). -/
theorem C123_violated {codes : Cell ny nx → ℤ} {net : Net ny nx} (hd : IsDemNet codes net)
    {p : Params ny nx} (hp : Physical p) (hlaw : p.manning = true ∨ p.lawOfWall = true)
    {rho : ℝ} (hr : 0 < rho) {inp : Inp ny nx} {s s' : St ny nx} {g g' : Diag ny nx}
    (h : stepDiag p net rho inp s g = .ok (s', g')) (c : Cell ny nx) (hc : codes c ≠ 0)
    (hs : SlopeOK p c) (hw : 0 < s'.d c) (hS : driveSlope p s' c ≠ 0) :
    rho * g'.f c * s'.u c ^ 2 < g'.tau c := by
  obtain ⟨hlt, hpos⟩ := hydRadius_lt_depth (hp.width c) (hp.angle0 c) (hp.angle1 c) hw
  have htau : 0 < g'.tau c := by
    rw [(C122_shear hd hr h c hc hs).1]
    have := abs_pos.2 hS
    positivity
  have hq : hydRadius (p.width c) (p.angle c) (s'.d c) / s'.d c < 1 := by rwa [div_lt_one hw]
  have hq0 : 0 ≤ hydRadius (p.width c) (p.angle c) (s'.d c) / s'.d c := by positivity
  cases hL : p.lawOfWall
  · rw [hL] at hlaw
    rw [C123_manning_partial hd hp (by simpa using hlaw) hL hr h c hc hs hw]
    have := Real.rpow_lt_one hq0 hq (by norm_num : (0 : ℝ) < 4 / 3)
    nlinarith
  · rw [C123_law_of_wall_partial hd hp hL hr h c hc hs hw]
    nlinarith

/-- The friction factor is positive where there is water and zero where there is none. -/
theorem C123_factor {codes : Cell ny nx → ℤ} {net : Net ny nx} (hd : IsDemNet codes net)
    {p : Params ny nx} (hp : Physical p) (hlaw : p.manning = true ∨ p.lawOfWall = true)
    {rho : ℝ} {inp : Inp ny nx} {s s' : St ny nx} {g g' : Diag ny nx}
    (h : stepDiag p net rho inp s g = .ok (s', g')) (c : Cell ny nx) (hc : codes c ≠ 0) :
    (0 < g'.f c ↔ 0 < s'.d c) ∧ (s'.d c = 0 → g'.f c = 0) := by
  obtain ⟨hst, rfl⟩ := stepDiag_ok h
  obtain ⟨e1, _⟩ := depth_flow hd hst c hc
  have hn := hp.nval c
  unfold frictionFactor gConst kappaConst
  dsimp only
  rw [e1]
  have hL : 0 < Real.log (max (aval / p.z0val c * s'.d c) (11 / 10)) :=
    Real.log_pos (lt_of_lt_of_le (by norm_num) (le_max_right _ _))
  cases hl : p.lawOfWall
  · rw [hl] at hlaw
    have hm : p.manning = true := by simpa using hlaw
    simp only [hm, if_true, Bool.false_eq_true, if_false]
    refine ⟨?_, fun hz => by simp [hz]⟩
    by_cases hw : 0 < s'.d c
    · have : 0 < s'.d c ^ (1 / 3 : ℝ) := Real.rpow_pos_of_pos hw _
      simp only [hw, if_true, iff_true]
      positivity
    · simp [hw]
  · simp only [if_true]
    refine ⟨?_, fun hz => by simp [hz]⟩
    by_cases hw : 0 < s'.d c
    · simp only [hw, if_true, iff_true]
      positivity
    · simp [hw]

/-- The hypotheses of the theorems above are met, with water in the cell: rain on a dry grid. -/
theorem diag_example {codes : Cell ny nx → ℤ} {net : Net ny nx} (hd : IsDemNet codes net)
    (c : Cell ny nx) (hc : codes c ≠ 0) (g : Diag ny nx) :
    ∃ s' g', stepDiag (unitParams ny nx c false) net 1000 (unitRain ny nx)
        (initSt (unitParams ny nx c false) (fun _ => 0)) g = .ok (s', g') ∧ 0 < s'.d c ∧
      driveSlope (unitParams ny nx c false) s' c ≠ 0 := by
  have hp := unitParams_physical c false
  obtain ⟨s', hs'⟩ := C48_update_completes hp (by simp [unitParams]) (net := net)
    (d0 := fun _ => 0) (fun _ => le_refl _) .nil (unitRain ny nx)
  obtain ⟨g', hg'⟩ := stepDiag_exists 1000 g hs'
  refine ⟨s', g', hg', ?_, by simp [driveSlope, unitParams]⟩
  obtain ⟨hd0, hvol⟩ := C24_depth_matches_volume hd hp hs' c hc
  have hQ : ∀ e, s'.Q e = 0 := by
    obtain ⟨u, _, rfl, _⟩ := step_ok hs'
    intro e
    show totalQ (unitParams ny nx c false) (initSt (unitParams ny nx c false) fun _ => 0) e = 0
    simp [totalQ, chanQ, floodQ, initSt]
  have hR : s'.R c = 1 := by
    obtain ⟨et, e1, e2, _⟩ := C22_runoff_rate hs' c
    rw [e1, e2 0 rfl]
    simp [unitRain]
  have hst : s'.volStored c = 0 := (C22_attenuation hs' c).1 rfl
  have hin : inflow codes s'.Q c = 0 := by
    unfold inflow
    exact Finset.sum_eq_zero (fun e _ => hQ e)
  have hb : balance (unitParams ny nx c false) codes
      (initSt (unitParams ny nx c false) fun _ => 0) s' c = 1 := by
    simp [balance, hR, hst, hQ, hin, initSt, unitParams, wetArea]
  have hv : s'.volChan c = 1 := by
    rw [C25_no_flood rfl hs', (C22_cell_balance hd hs').1 c hc, hb]
    norm_num
  rw [hv] at hvol
  rcases hd0.lt_or_eq with h | h
  · exact h
  · rw [← h] at hvol
    simp [trapezoidVolume] at hvol

/-- The hypotheses of `C67_surface_slope_edge_violated` are met: rain on a dry grid, diffusive
wave. -/
theorem edge_slope_example {codes : Cell ny nx → ℤ} {net : Net ny nx} (_hd : IsDemNet codes net)
    (e : Cell ny nx) :
    ∃ (p : Params ny nx) (s s' : St ny nx), Physical p ∧ p.method = .diffusive ∧
      step p net (unitRain ny nx) s = .ok s' ∧ 0 < balance p codes s s' e := by
  have hq := unitParams_physical e false
  let p : Params ny nx := { unitParams ny nx e false with method := .diffusive }
  have hp : Physical p := ⟨hq.dt, hq.da, hq.ds, hq.width, hq.angle0, hq.angle1, hq.bankfull,
    hq.nval, hq.z0val, hq.floodN, hq.widthRatio⟩
  obtain ⟨s', hs'⟩ := C48_update_completes hp (by simp [p]) (net := net)
    (d0 := fun _ => 0) (fun _ => le_refl _) .nil (unitRain ny nx)
  refine ⟨p, _, s', hp, rfl, hs', ?_⟩
  have hQ : ∀ e, s'.Q e = 0 := by
    obtain ⟨u, _, rfl, _⟩ := step_ok hs'
    intro e
    show totalQ p (initSt p fun _ => 0) e = 0
    simp [totalQ, chanQ, floodQ, initSt]
  have hR : s'.R e = 1 := by
    obtain ⟨et, e1, e2, _⟩ := C22_runoff_rate hs' e
    rw [e1, e2 0 rfl]
    simp [unitRain]
  have hst : s'.volStored e = 0 := (C22_attenuation hs' e).1 rfl
  have hin : inflow codes s'.Q e = 0 := by
    unfold inflow
    exact Finset.sum_eq_zero (fun e _ => hQ e)
  simp [balance, hR, hst, hQ, hin, initSt, p, unitParams, wetArea]

/-! ## C124 -/

theorem foldl_min_spec (xs : List ℝ) (x : ℝ) :
    (xs.foldl min x ∈ x :: xs) ∧ ∀ y ∈ x :: xs, xs.foldl min x ≤ y := by
  induction xs generalizing x with
  | nil => simp
  | cons a l ih =>
    obtain ⟨h1, h2⟩ := ih (min x a)
    rw [List.foldl_cons]
    constructor
    · rcases List.mem_cons.1 h1 with h | h
      · rw [h]; rcases min_choice x a with h' | h' <;> rw [h'] <;> simp
      · exact List.mem_cons_of_mem _ (List.mem_cons_of_mem _ h)
    · intro y hy
      have hm := h2 (min x a) (by simp)
      rcases List.mem_cons.1 hy with rfl | hy
      · exact hm.trans (min_le_left _ _)
      · rcases List.mem_cons.1 hy with rfl | hy
        · exact hm.trans (min_le_right _ _)
        · exact h2 y (List.mem_cons_of_mem _ hy)

theorem foldl_max_spec (xs : List ℝ) (x : ℝ) :
    (xs.foldl max x ∈ x :: xs) ∧ ∀ y ∈ x :: xs, y ≤ xs.foldl max x := by
  induction xs generalizing x with
  | nil => simp
  | cons a l ih =>
    obtain ⟨h1, h2⟩ := ih (max x a)
    rw [List.foldl_cons]
    constructor
    · rcases List.mem_cons.1 h1 with h | h
      · rw [h]; rcases max_choice x a with h' | h' <;> rw [h'] <;> simp
      · exact List.mem_cons_of_mem _ (List.mem_cons_of_mem _ h)
    · intro y hy
      have hm := h2 (max x a) (by simp)
      rcases List.mem_cons.1 hy with rfl | hy
      · exact (le_max_left _ _).trans hm
      · rcases List.mem_cons.1 hy with rfl | hy
        · exact (le_max_right _ _).trans hm
        · exact h2 y (List.mem_cons_of_mem _ hy)

/-- A cell that is not on the border of the grid. -/
def Inside (c : Cell ny nx) : Prop :=
  c.1.val ≠ 0 ∧ c.1.val + 1 ≠ ny ∧ c.2.val ≠ 0 ∧ c.2.val + 1 ≠ nx

theorem mem_interiorVals (x : Cell ny nx → ℝ) (y : ℝ) :
    y ∈ interiorVals x ↔ ∃ c, Inside c ∧ x c = y := by
  unfold interiorVals Inside
  simp only [List.mem_filterMap, List.mem_flatMap, List.mem_map, List.mem_finRange, true_and,
    Option.ite_none_right_eq_some, Option.some.injEq]
  constructor
  · rintro ⟨c, _, h, rfl⟩
    exact ⟨c, by omega, rfl⟩
  · rintro ⟨c, h, rfl⟩
    have h1 := c.1.isLt
    have h2 := c.2.isLt
    exact ⟨c, ⟨c.1, c.2, rfl⟩, by omega, rfl⟩

/-- What one reported pair says about a grid: lower and upper bound over all cells inside the
border, both attained. -/
def IsRange (x : Cell ny nx → ℝ) (lo hi : ℝ) : Prop :=
  (∀ c, Inside c → lo ≤ x c ∧ x c ≤ hi) ∧ (∃ c, Inside c ∧ x c = lo) ∧ ∃ c, Inside c ∧ x c = hi

theorem minMaxUpd_cases (x : Cell ny nx → ℝ) (lo hi : ℝ) :
    (∀ (_ : ¬ ∃ c : Cell ny nx, Inside c), ∃ e, minMaxUpd x lo hi = .error e) ∧
    (∀ (_ : ∃ c : Cell ny nx, Inside c), ∃ a b, IsRange x a b ∧
      minMaxUpd x lo hi = .ok (min a lo, max b hi)) := by
  constructor
  · intro hn
    have : interiorVals x = [] := by
      rw [List.eq_nil_iff_forall_not_mem]
      intro y hy
      obtain ⟨c, hc, _⟩ := (mem_interiorVals x y).1 hy
      exact hn ⟨c, hc⟩
    unfold minMaxUpd
    rw [this]
    exact ⟨_, rfl⟩
  · rintro ⟨c0, hc0⟩
    have hm := (mem_interiorVals x (x c0)).2 ⟨c0, hc0, rfl⟩
    unfold minMaxUpd
    cases hv : interiorVals x with
    | nil => rw [hv] at hm; cases hm
    | cons y ys =>
      refine ⟨ys.foldl min y, ys.foldl max y, ⟨?_, ?_, ?_⟩, ?_⟩
      · intro c hc
        have := (mem_interiorVals x (x c)).2 ⟨c, hc, rfl⟩
        rw [hv] at this
        exact ⟨(foldl_min_spec ys y).2 _ this, (foldl_max_spec ys y).2 _ this⟩
      · have := (foldl_min_spec ys y).1
        rw [← hv] at this
        exact (mem_interiorVals x _).1 this
      · have := (foldl_max_spec ys y).1
        rw [← hv] at this
        exact (mem_interiorVals x _).1 this
      · simp only [npMin, npMax, Except.ok.injEq, Prod.mk.injEq]
        constructor
        · rw [min_def]; split_ifs <;> linarith
        · rw [max_def]; split_ifs <;> linarith

/-- **C124**: the extremes reported at the end of a run are those of the *final* discharge,
velocity and depth grids over the cells inside the border (as long as the values stay within ±10⁶,
the limits the code starts from). -/
theorem C124_final_grids {s : St ny nx} {e : Extremes} (h : finalExtremes s = .ok e)
    (hb : ∀ c, |s.Q c| ≤ 1000000 ∧ |s.u c| ≤ 1000000 ∧ |s.d c| ≤ 1000000) :
    IsRange s.Q e.Q.1 e.Q.2 ∧ IsRange s.u e.u.1 e.u.2 ∧ IsRange s.d e.d.1 e.d.2 := by
  by_cases hn : ∃ c : Cell ny nx, Inside c
  · obtain ⟨a1, b1, r1, q1⟩ := (minMaxUpd_cases s.Q 1000000 (-1000000)).2 hn
    obtain ⟨a2, b2, r2, q2⟩ := (minMaxUpd_cases s.u 1000000 (-1000000)).2 hn
    obtain ⟨a3, b3, r3, q3⟩ := (minMaxUpd_cases s.d 1000000 (-1000000)).2 hn
    unfold finalExtremes at h
    rw [q1, q2, q3] at h
    simp only [Except.ok.injEq] at h
    subst h
    have key : ∀ (x : Cell ny nx → ℝ) (a b : ℝ), IsRange x a b → (∀ c, |x c| ≤ 1000000) →
        min a 1000000 = a ∧ max b (-1000000) = b := by
      rintro x a b ⟨_, ⟨c, _, rfl⟩, ⟨c', _, rfl⟩⟩ hx
      exact ⟨min_eq_left (abs_le.1 (hx c)).2, max_eq_left (abs_le.1 (hx c')).1⟩
    obtain ⟨k1, k1'⟩ := key _ _ _ r1 (fun c => (hb c).1)
    obtain ⟨k2, k2'⟩ := key _ _ _ r2 (fun c => (hb c).2.1)
    obtain ⟨k3, k3'⟩ := key _ _ _ r3 (fun c => (hb c).2.2)
    dsimp only
    rw [k1, k1', k2, k2', k3, k3']
    exact ⟨r1, r2, r3⟩
  · obtain ⟨e', he'⟩ := (minMaxUpd_cases s.Q 1000000 (-1000000)).1 hn
    unfold finalExtremes at h
    rw [he'] at h
    cases h

/-- Finishing fails exactly on grids without a cell inside the border (fewer than three rows or
columns). -/
theorem C124_small_grids (s : St ny nx) :
    (∃ e, finalExtremes s = .ok e) ↔ 3 ≤ ny ∧ 3 ≤ nx := by
  have hin : (∃ c : Cell ny nx, Inside c) ↔ 3 ≤ ny ∧ 3 ≤ nx := by
    constructor
    · rintro ⟨c, h⟩
      have h1 := c.1.isLt
      have h2 := c.2.isLt
      unfold Inside at h
      omega
    · rintro ⟨h1, h2⟩
      exact ⟨(⟨1, by omega⟩, ⟨1, by omega⟩), by unfold Inside; simp; omega⟩
  rw [← hin]
  constructor
  · rintro ⟨e, he⟩
    by_contra hn
    obtain ⟨e', he'⟩ := (minMaxUpd_cases s.Q 1000000 (-1000000)).1 hn
    unfold finalExtremes at he
    rw [he'] at he
    cases he
  · intro hn
    obtain ⟨a1, b1, r1, q1⟩ := (minMaxUpd_cases s.Q 1000000 (-1000000)).2 hn
    obtain ⟨a2, b2, r2, q2⟩ := (minMaxUpd_cases s.u 1000000 (-1000000)).2 hn
    obtain ⟨a3, b3, r3, q3⟩ := (minMaxUpd_cases s.d 1000000 (-1000000)).2 hn
    unfold finalExtremes
    rw [q1, q2, q3]
    exact ⟨_, rfl⟩

end Chan
