import Verif.ChannelProps
import Mathlib.Analysis.SpecialFunctions.Sqrt
import Mathlib.Analysis.Real.Pi.Bounds

/-!
# C23 (non-negative state), C24 (depth inverts the trapezoid), C25 (overbank partition),
C26 (peaks), C48 (updates complete)
-/

set_option autoImplicit false
set_option linter.unusedSectionVars false

noncomputable section

open scoped BigOperators
open D8 (Cell)
open D8Spec (FlowsTo)

namespace Chan

open ChanSpec

variable {ny nx : ℕ}

/-! ## C24 -/

theorem tan_pos_of {angle : ℝ} (h0 : 0 < angle) (h1 : angle < Real.pi / 2) : 0 < Real.tan angle :=
  Real.tan_pos_of_pos_of_lt_pi_div_two h0 h1

theorem tan_nonneg_of {angle : ℝ} (h0 : 0 ≤ angle) (h1 : angle < Real.pi / 2) :
    0 ≤ Real.tan angle := by
  rcases h0.eq_or_lt with h | h
  · rw [← h]; simp
  · exact (tan_pos_of h h1).le

/-- **C24**: for a non-negative volume, the computed depth is non-negative, holds exactly that
volume, and is the only non-negative depth that does. -/
theorem C24_depth_inverts_volume {vol w angle ds : ℝ} (hv : 0 ≤ vol) (hw : 0 < w) (hds : 0 < ds)
    (ha0 : 0 ≤ angle) (ha1 : angle < Real.pi / 2) :
    0 ≤ trapDepth vol w angle ds ∧
    trapezoidVolume w angle ds (trapDepth vol w angle ds) = vol ∧
    ∀ d, 0 ≤ d → trapezoidVolume w angle ds d = vol → d = trapDepth vol w angle ds := by
  have ht := tan_nonneg_of ha0 ha1
  have hmain : 0 ≤ trapDepth vol w angle ds ∧
      trapezoidVolume w angle ds (trapDepth vol w angle ds) = vol := by
    unfold trapDepth
    split_ifs with h0
    · subst h0
      refine ⟨by positivity, ?_⟩
      unfold trapezoidVolume
      rw [Real.tan_zero]
      field_simp
      ring
    · have htp : 0 < Real.tan angle := tan_pos_of (lt_of_le_of_ne ha0 (Ne.symm h0)) ha1
      dsimp only
      have harg : 0 ≤ 2 * (2 * Real.tan angle) * vol / ds + w ^ 2 := by positivity
      have hsq := Real.sq_sqrt harg
      have hge : w ≤ Real.sqrt (2 * (2 * Real.tan angle) * vol / ds + w ^ 2) := by
        apply Real.le_sqrt_of_sq_le
        have : 0 ≤ 2 * (2 * Real.tan angle) * vol / ds := by positivity
        linarith
      refine ⟨div_nonneg (by linarith) (by linarith), ?_⟩
      unfold trapezoidVolume
      generalize Real.sqrt (2 * (2 * Real.tan angle) * vol / ds + w ^ 2) = r at hsq hge ⊢
      generalize Real.tan angle = t at *
      have e1 : (w + (w + 2 * ((r - w) / (2 * t) * t))) / 2 * ((r - w) / (2 * t)) * ds =
          (r ^ 2 - w ^ 2) / (4 * t) * ds := by
        field_simp
        ring
      rw [e1, hsq]
      field_simp
      ring
  refine ⟨hmain.1, hmain.2, ?_⟩
  intro d hd h
  have h2 := hmain.2
  have h1 := hmain.1
  generalize trapDepth vol w angle ds = x at *
  rw [← h2] at h
  unfold trapezoidVolume at h
  generalize Real.tan angle = t at *
  have h3 : (d - x) * ((w + t * (d + x)) * ds) = 0 := by linear_combination h
  rcases mul_eq_zero.1 h3 with h4 | h4
  · linarith
  · have : 0 < (w + t * (d + x)) * ds := by positivity
    linarith

example : ∃ vol w angle ds : ℝ, 0 < vol ∧ 0 < w ∧ 0 < ds ∧ 0 < angle ∧ angle < Real.pi / 2 :=
  ⟨1, 1, 1, 1, by norm_num, by norm_num, by norm_num, by norm_num,
    by have := Real.one_le_pi_div_two; have := Real.pi_gt_d2; linarith⟩

theorem wetArea_eq (p : Params ny nx) (d : Cell ny nx → ℝ) (c : Cell ny nx) :
    wetArea p d c * p.ds c = trapezoidVolume (p.width c) (p.angle c) (p.ds c) (d c) := by
  unfold wetArea trapezoidVolume; ring

/-- **C24** in a run: after every update the reported channel depth in a cell with a flow direction
is the depth at which the channel holds the reported channel volume. -/
theorem C24_depth_matches_volume {codes : Cell ny nx → ℤ} {net : Net ny nx}
    (hd : IsDemNet codes net) {p : Params ny nx} (hp : Physical p) {inp : Inp ny nx}
    {s s' : St ny nx} (h : step p net inp s = .ok s') (c : Cell ny nx) (hc : codes c ≠ 0) :
    0 ≤ s'.d c ∧ trapezoidVolume (p.width c) (p.angle c) (p.ds c) (s'.d c) = s'.volChan c := by
  have hg := IsDemNet.good hd
  obtain ⟨u, _, rfl, _⟩ := step_ok h
  have hm : c ∉ net.noflow := fun h => hc ((hg.noflow c).1 h)
  have hvol : 0 ≤ (routed p net inp s).volChan c := by
    simp only [routed]
    split_ifs
    · refine le_min (le_max_right _ _) ?_
      unfold volBankfull
      rw [wetArea_eq]
      unfold trapezoidVolume
      have := hp.bankfull c
      have := tan_nonneg_of (hp.angle0 c) (hp.angle1 c)
      have := hp.width c
      have := hp.ds c
      positivity
    · exact le_max_right _ _
  have h24 := C24_depth_inverts_volume hvol (hp.width c) (hp.ds c) (hp.angle0 c) (hp.angle1 c)
  have e1 : ({ edgeVals p net (outletVals p { routed p net inp s with u := u }) with
        timeMin := s.timeMin + p.dt / 60 } : St ny nx).d c =
      max (trapDepth ((routed p net inp s).volChan c) (p.width c) (p.angle c) (p.ds c)) 0 := by
    simp only [edgeVals, hm, if_false]
    rfl
  have e2 : ({ edgeVals p net (outletVals p { routed p net inp s with u := u }) with
        timeMin := s.timeMin + p.dt / 60 } : St ny nx).volChan c =
      (routed p net inp s).volChan c := by
    by_cases hf : p.flood = true
    · simp only [edgeVals, hf, if_true]
      rfl
    · simp [edgeVals, outletVals, routed, hf, hm]
  rw [e1, e2, max_eq_left h24.1]
  exact ⟨h24.1, h24.2.1⟩

/-- **C24** at the start: the depth computed from the initial volume is the initial depth. -/
theorem C24_initial_depth_round_trip {p : Params ny nx} (hp : Physical p) {d0 : Cell ny nx → ℝ}
    (h0 : ∀ c, 0 ≤ d0 c) (c : Cell ny nx) :
    newDepth p (initSt p d0).volChan c = d0 c := by
  have hw := hp.width c
  have hds := hp.ds c
  have ht := tan_nonneg_of (hp.angle0 c) (hp.angle1 c)
  have hd := h0 c
  have e : (initSt p d0).volChan c = trapezoidVolume (p.width c) (p.angle c) (p.ds c) (d0 c) :=
    wetArea_eq p d0 c
  have hv : 0 ≤ (initSt p d0).volChan c := by
    rw [e]; unfold trapezoidVolume; positivity
  have h24 := C24_depth_inverts_volume hv hw hds (hp.angle0 c) (hp.angle1 c)
  unfold newDepth
  rw [max_eq_left h24.1]
  exact (h24.2.2 (d0 c) hd e.symm).symm

/-! ## C23 -/

/-- All volumes, depths, velocities and discharges are non-negative. -/
structure NonNeg (s : St ny nx) : Prop where
  vol : ∀ c, 0 ≤ s.vol c
  volChan : ∀ c, 0 ≤ s.volChan c
  volFlood : ∀ c, 0 ≤ s.volFlood c
  volStored : ∀ c, 0 ≤ s.volStored c
  d : ∀ c, 0 ≤ s.d c
  dFlood : ∀ c, 0 ≤ s.dFlood c
  u : ∀ c, 0 ≤ s.u c
  Q : ∀ c, 0 ≤ s.Q c
  aWet : ∀ c, 0 ≤ s.aWet c
  rh : ∀ c, 0 ≤ s.rh c

theorem cos_pos_of {angle : ℝ} (h0 : 0 ≤ angle) (h1 : angle < Real.pi / 2) : 0 < Real.cos angle :=
  Real.cos_pos_of_mem_Ioo ⟨by linarith [Real.pi_pos], h1⟩

theorem wetArea_nonneg {p : Params ny nx} (hp : Physical p) {d : Cell ny nx → ℝ} {c : Cell ny nx}
    (hd : 0 ≤ d c) : 0 ≤ wetArea p d c := by
  have := tan_nonneg_of (hp.angle0 c) (hp.angle1 c)
  have := hp.width c
  unfold wetArea
  positivity

theorem nonneg_init {p : Params ny nx} (hp : Physical p) {d0 : Cell ny nx → ℝ}
    (h0 : ∀ c, 0 ≤ d0 c) : NonNeg (initSt p d0) := by
  have hA : ∀ c, 0 ≤ wetArea p d0 c := fun c => wetArea_nonneg hp (h0 c)
  have hV : ∀ c, 0 ≤ wetArea p d0 c * p.ds c := fun c => mul_nonneg (hA c) (hp.ds c).le
  exact ⟨hV, hV, fun _ => le_refl _, fun _ => le_refl _, h0, fun _ => le_refl _, fun _ => le_refl _,
    fun _ => le_refl _, hA, fun _ => le_refl _⟩

theorem nonneg_routed {p : Params ny nx} (hp : Physical p) {net : Net ny nx} {inp : Inp ny nx}
    {s : St ny nx} (h : NonNeg s) : NonNeg (routed p net inp s) := by
  have hvol : ∀ R Q c, 0 ≤ newVol p net s R Q c := fun _ _ _ => le_max_right _ _
  have hbank : ∀ c, 0 ≤ volBankfull p c := fun c =>
    mul_nonneg (wetArea_nonneg hp (hp.bankfull c)) (hp.ds c).le
  have hd : ∀ v c, 0 ≤ newDepth p v c := fun _ _ => le_max_right _ _
  refine ⟨fun c => hvol _ _ c, ?_, ?_, ?_, fun c => hd _ c, ?_, h.u, ?_, ?_, ?_⟩
  · intro c
    simp only [routed]
    split_ifs
    · exact le_min (hvol _ _ c) (hbank c)
    · exact hvol _ _ c
  · intro c
    simp only [routed]
    split_ifs
    · exact le_max_right _ _
    · exact h.volFlood c
  · intro c
    simp only [routed, gain]
    split_ifs
    · exact le_max_right _ _
    · exact h.volStored c
  · intro c
    simp only [routed]
    split_ifs
    · exact le_max_right _ _
    · exact h.dFlood c
  · intro c
    have h1 : 0 ≤ chanQ s c := mul_nonneg (h.u c) (h.aWet c)
    show 0 ≤ totalQ p s c
    unfold totalQ
    split_ifs
    · refine add_nonneg h1 ?_
      unfold floodQ
      have := h.dFlood c
      have := hp.width c
      have := hp.floodN
      have := hp.widthRatio
      positivity
    · exact h1
  · intro c
    by_cases hm : p.method = .dynamic
    · simp only [routed, hm]
      exact h.aWet c
    · simp only [routed, hm, ne_eq, not_false_eq_true, decide_true, if_true]
      exact wetArea_nonneg hp (hd _ c)
  · intro c
    by_cases hm : p.method = .dynamic
    · simp only [routed, hm]
      exact h.rh c
    · simp only [routed, hm, ne_eq, not_false_eq_true, decide_true, if_true]
      unfold newRh
      by_cases hc : c ∈ net.noflow
      · rw [if_pos hc]
      · rw [if_neg hc]
        refine div_nonneg (wetArea_nonneg hp (hd _ c)) ?_
        have := hp.width c
        have h2 := cos_pos_of (hp.angle0 c) (hp.angle1 c)
        generalize hx : newDepth p _ c = x
        have hx' : 0 ≤ x := hx ▸ hd _ c
        positivity

theorem nonneg_newU {p : Params ny nx} (hp : Physical p) {net : Net ny nx} {s : St ny nx}
    (h : NonNeg s) {u : Cell ny nx → ℝ} (hu : newU p net s = .ok u) : ∀ c, 0 ≤ u c := by
  intro c
  have hman : 0 ≤ manningU (s.rh c) (slopeOf p s c) (p.nval c) := by
    unfold manningU
    have := h.rh c
    have := hp.nval c
    positivity
  have hlaw : 0 ≤ lawU aval lawConst (s.rh c) (slopeOf p s c) (p.z0val c) (s.d c) := by
    unfold lawU
    have h1 : 0 ≤ Real.log (max (aval / p.z0val c * s.d c) (11 / 10)) := by
      apply Real.log_nonneg
      exact le_trans (by norm_num) (le_max_right _ _)
    have h2 : 0 ≤ lawConst := by unfold lawConst; positivity
    positivity
  unfold newU at hu
  split at hu
  · cases hu
  · cases hu
    dsimp only
    split_ifs
    · exact le_refl _
    · exact hlaw
    · exact hman
    · exact h.u c

theorem nonneg_edge {p : Params ny nx} {net : Net ny nx} {s : St ny nx} (h : NonNeg s) :
    NonNeg (edgeVals p net s) := by
  have hz : ∀ (f : Cell ny nx → ℝ), (∀ c, 0 ≤ f c) → ∀ c, 0 ≤ (if c ∈ net.noflow then 0 else f c) := by
    intro f hf c
    split_ifs
    · exact le_refl _
    · exact hf c
  refine ⟨hz _ h.vol, ?_, ?_, h.volStored, hz _ h.d, ?_, h.u, h.Q, h.aWet, h.rh⟩
  · intro c
    simp only [edgeVals]
    by_cases hf : p.flood = true
    · simp only [hf, if_true]; exact h.volChan c
    · simp only [hf]; exact hz _ h.vol c
  · intro c
    simp only [edgeVals]
    by_cases hf : p.flood = true
    · simp only [hf, if_true]; exact hz _ h.volFlood c
    · simp only [hf]; exact h.volFlood c
  · intro c
    simp only [edgeVals]
    by_cases hf : p.flood = true
    · simp only [hf, if_true]; exact hz _ h.dFlood c
    · simp only [hf]; exact h.dFlood c

theorem nonneg_outlet {p : Params ny nx} {s : St ny nx} (h : NonNeg s) :
    NonNeg (outletVals p s) :=
  ⟨h.vol, h.volChan, h.volFlood, h.volStored, h.d, h.dFlood, h.u, h.Q, h.aWet, h.rh⟩

theorem nonneg_after {p : Params ny nx} (hp : Physical p) {net : Net ny nx} {inp : Inp ny nx}
    {s : St ny nx} (h : NonNeg s) {u : Cell ny nx → ℝ}
    (hu : newU p net (routed p net inp s) = .ok u) :
    NonNeg (edgeVals p net (outletVals p { routed p net inp s with u := u })) := by
  have h1 := nonneg_routed (net := net) (inp := inp) hp h
  apply nonneg_edge
  apply nonneg_outlet
  exact ⟨h1.vol, h1.volChan, h1.volFlood, h1.volStored, h1.d, h1.dFlood, nonneg_newU hp h1 hu, h1.Q,
    h1.aWet, h1.rh⟩

theorem nonneg_step {p : Params ny nx} (hp : Physical p) {net : Net ny nx} {inp : Inp ny nx}
    {s s' : St ny nx} (h : NonNeg s) (hs : step p net inp s = .ok s') : NonNeg s' := by
  obtain ⟨u, hu, rfl, _⟩ := step_ok hs
  have h1 := nonneg_after hp h hu
  exact ⟨h1.vol, h1.volChan, h1.volFlood, h1.volStored, h1.d, h1.dFlood, h1.u, h1.Q, h1.aWet, h1.rh⟩

/-- **C23**: after any number of updates, with any (also negative) runoff rates, flow volumes,
depths, velocities and discharges are non-negative in every cell. -/
theorem C23_nonnegative {p : Params ny nx} (hp : Physical p) {net : Net ny nx}
    {d0 : Cell ny nx → ℝ} (h0 : ∀ c, 0 ≤ d0 c) {h : List (St ny nx)} {s : St ny nx}
    (hh : History p net (initSt p d0) h s) (c : Cell ny nx) :
    0 ≤ s.vol c ∧ 0 ≤ s.volChan c ∧ 0 ≤ s.volFlood c ∧ 0 ≤ s.volStored c ∧ 0 ≤ s.d c ∧
    0 ≤ s.dFlood c ∧ 0 ≤ s.u c ∧ 0 ≤ s.Q c := by
  have := history_induct (P := NonNeg) (nonneg_init hp h0) (fun _ _ _ h1 h2 => nonneg_step hp h1 h2) hh
  exact ⟨this.vol c, this.volChan c, this.volFlood c, this.volStored c, this.d c, this.dFlood c,
    this.u c, this.Q c⟩

/-- **C23**: flow volumes and depths are non-negative after every update, whatever the state before
the update and whatever the channel parameters. -/
theorem C23_any_state {p : Params ny nx} {net : Net ny nx} {inp : Inp ny nx} {s s' : St ny nx}
    (hs : step p net inp s = .ok s') (c : Cell ny nx) :
    0 ≤ s'.vol c ∧ 0 ≤ s'.d c ∧ (p.flood = true → 0 ≤ s'.volFlood c ∧ 0 ≤ s'.dFlood c) := by
  obtain ⟨u, hu, rfl, _⟩ := step_ok hs
  have hz : ∀ (x : ℝ), 0 ≤ x → 0 ≤ (if c ∈ net.noflow then 0 else x) := by
    intro x hx
    split_ifs
    · exact le_refl _
    · exact hx
  refine ⟨hz _ (le_max_right _ _), hz _ (le_max_right _ _), ?_⟩
  intro hf
  constructor
  · simp only [edgeVals, outletVals, routed, hf, if_true]
    exact hz _ (le_max_right _ _)
  · simp only [edgeVals, outletVals, routed, hf, if_true]
    exact hz _ (le_max_right _ _)

/-! ## C48 -/

/-- **C48**: with physical parameters, a kinematic or diffusive wave update never fails (in exact
arithmetic), whatever inputs the other components deliver. -/
theorem C48_update_completes {p : Params ny nx} (hp : Physical p) (hm : p.method ≠ .dynamic)
    {net : Net ny nx} {d0 : Cell ny nx → ℝ} (h0 : ∀ c, 0 ≤ d0 c) {h : List (St ny nx)}
    {s : St ny nx} (hh : History p net (initSt p d0) h s) (inp : Inp ny nx) :
    ∃ s', step p net inp s = .ok s' := by
  have hn := history_induct (P := NonNeg) (nonneg_init hp h0) (fun _ _ _ h1 h2 => nonneg_step hp h1 h2) hh
  have hu : ∃ u, newU p net (routed p net inp s) = .ok u := by
    unfold newU
    cases hmm : p.method with
    | kinematic => exact ⟨_, rfl⟩
    | diffusive => exact ⟨_, rfl⟩
    | dynamic => exact absurd hmm hm
  obtain ⟨u, hu⟩ := hu
  have h1 := nonneg_after hp hn hu
  have hst : stable (edgeVals p net (outletVals p { routed p net inp s with u := u })) = true := by
    unfold stable
    simp only [decide_eq_true_eq]
    exact fun c => ⟨h1.d c, h1.u c⟩
  unfold step
  simp only [hu, hst, Bool.not_true, Bool.and_false]
  exact ⟨_, rfl⟩

/-- Histories of every length exist: every sequence of inputs can be run. -/
theorem exists_history {p : Params ny nx} (hp : Physical p) (hm : p.method ≠ .dynamic)
    {net : Net ny nx} {d0 : Cell ny nx → ℝ} (h0 : ∀ c, 0 ≤ d0 c) (inps : ℕ → Inp ny nx) (n : ℕ) :
    ∃ h s, h.length = n ∧ History p net (initSt p d0) h s := by
  induction n with
  | zero => exact ⟨[], _, rfl, .nil⟩
  | succ n ih =>
    obtain ⟨h, s, hl, hh⟩ := ih
    obtain ⟨s', hs'⟩ := C48_update_completes hp hm h0 hh (inps n)
    exact ⟨_, s', by simp [hl], .snoc (inps n) hh hs'⟩

/-- Every DEM with non-periodic left/right borders gives a drainage network (so the hypotheses about
networks in this file are met by every such DEM). -/
theorem demNet_exists (cfg : D8.Config ℝ) (hlr : cfg.lrPeriodic = false) (hy : 0 < ny) (hx : 0 < nx)
    (z : Cell ny nx → ℝ) : ∃ codes net, IsDemNet (ny := ny) (nx := nx) codes net := by
  obtain ⟨codes, hc⟩ := D8.C05_update_flow_grid_terminates cfg z
  have h := (D8.C03_noflow_ids hc).2.2 hlr hy hx
  obtain ⟨l, hl⟩ := Option.ne_none_iff_exists'.1 h
  exact ⟨codes, _, cfg, _, z, hy, hx, hc, by unfold d8Net; rw [hl]; rfl⟩

/-- **C48 is violated** for the dynamic wave method: every update fails, in every state and for
every input (an undefined name is used in the velocity update). -/
theorem C48_dynamic_wave_always_fails {p : Params ny nx} (hm : p.method = .dynamic)
    (net : Net ny nx) (inp : Inp ny nx) (s : St ny nx) :
    step p net inp s = .error "NameError: dinv" := by
  unfold step newU
  rw [hm]

/-! ## C25 -/

/-- **C25** (part): with the overbank option, in every cell with a flow direction the total volume is
the channel part plus the flood part, the channel part is at most the bankfull volume, and there is
flood water only if the channel is at bankfull.
Missing: cells without flow direction, where it is false, see `C25_violated`. -/
theorem C25_partition_partial {codes : Cell ny nx → ℤ} {net : Net ny nx} (hd : IsDemNet codes net)
    {p : Params ny nx} (hf : p.flood = true) {inp : Inp ny nx} {s s' : St ny nx}
    (h : step p net inp s = .ok s') (c : Cell ny nx) (hc : codes c ≠ 0) {full : ℝ}
    (hfull : full = trapezoidVolume (p.width c) (p.angle c) (p.ds c) (p.dBankfull c)) :
    s'.volChan c + s'.volFlood c = s'.vol c ∧ s'.volChan c ≤ full ∧
    (s'.volFlood c ≠ 0 → s'.volChan c = full) := by
  have hg := IsDemNet.good hd
  have hm : c ∉ net.noflow := fun h => hc ((hg.noflow c).1 h)
  obtain ⟨u, _, rfl, _⟩ := step_ok h
  have e : volBankfull p c = full := by rw [hfull]; exact wetArea_eq p p.dBankfull c
  simp only [edgeVals, outletVals, routed, hf, hm, if_true, if_false, e]
  generalize newVol p net s _ _ c = v
  refine ⟨?_, min_le_right _ _, ?_⟩
  · rcases le_total v full with h1 | h1
    · rw [min_eq_left h1, max_eq_right (by linarith)]; ring
    · rw [min_eq_right h1, max_eq_left (by linarith)]; ring
  · intro h1
    apply min_eq_right
    by_contra h2
    exact h1 (max_eq_right (by linarith))

/-- With the overbank option, a cell without flow direction keeps a channel volume although its
total volume is set to zero. -/
theorem C25_edge_channel_volume_kept {codes : Cell ny nx → ℤ} {net : Net ny nx}
    (hd : IsDemNet codes net) {p : Params ny nx} (hf : p.flood = true) {inp : Inp ny nx}
    {s s' : St ny nx} (h : step p net inp s = .ok s') (c : Cell ny nx) (hc : codes c = 0) :
    s'.vol c = 0 ∧ s'.volFlood c = 0 ∧
    s'.volChan c = min (max 0 (balance p codes s s' c))
      (trapezoidVolume (p.width c) (p.angle c) (p.ds c) (p.dBankfull c)) := by
  have hg := IsDemNet.good hd
  have hm := (hg.noflow c).2 hc
  obtain ⟨u, _, rfl, _⟩ := step_ok h
  refine ⟨by simp [edgeVals, hm], by simp [edgeVals, hf, hm], ?_⟩
  simp only [edgeVals, outletVals, routed, hf, if_true]
  rw [newVol_eq hg, show volBankfull p c = _ from wetArea_eq p p.dBankfull c]
  rfl

/-- The volumes added up in the final report: with the overbank option the channel and flood volumes
together exceed the water present by what is kept in cells without flow direction. -/
theorem C25_reported_total {codes : Cell ny nx → ℤ} {net : Net ny nx} (hd : IsDemNet codes net)
    {p : Params ny nx} (hf : p.flood = true) {inp : Inp ny nx} {s s' : St ny nx}
    (h : step p net inp s = .ok s') :
    ∑ c, s'.volChan c + ∑ c, s'.volFlood c =
      ∑ c, s'.vol c + ∑ c ∈ Finset.univ.filter (fun c => codes c = 0), s'.volChan c := by
  rw [Finset.sum_filter, ← Finset.sum_add_distrib, ← Finset.sum_add_distrib]
  refine Finset.sum_congr rfl (fun c _ => ?_)
  by_cases hc : codes c = 0
  · obtain ⟨h1, h2, _⟩ := C25_edge_channel_volume_kept hd hf h c hc
    rw [if_pos hc, h1, h2]; ring
  · rw [if_neg hc, (C25_partition_partial hd hf h c hc rfl).1]; ring

/-- Parameters for examples: everything is one, vertical banks. -/
def unitParams (ny nx : ℕ) (o : Cell ny nx) (flood : Bool) : Params ny nx where
  method := .kinematic
  flood := flood
  attenuate := false
  manning := true
  lawOfWall := false
  checkStability := true
  nDays := 1
  dt := 1
  da := fun _ => 1
  ds := fun _ => 1
  width := fun _ => 1
  angle := fun _ => 0
  dBankfull := fun _ => 1
  sBed := fun _ => 1
  nval := fun _ => 1
  z0val := fun _ => 1
  floodN := 1
  widthRatio := 5
  outlet := o

theorem unitParams_physical (o : Cell ny nx) (flood : Bool) : Physical (unitParams ny nx o flood) := by
  have := Real.pi_pos
  constructor <;> intros <;> simp [unitParams] <;> linarith

/-- Uniform rain of rate 1. -/
def unitRain (ny nx : ℕ) : Inp ny nx :=
  { P := fun _ => 1, SM := fun _ => 0, GW := fun _ => 0, MR := fun _ => 0, IN := fun _ => 0,
    ET := .inl 0 }

/-- **C25 is violated** in every network, at every cell without flow direction: rain on a dry domain
leaves the cell with total volume zero and channel volume one. -/
theorem C25_violated {codes : Cell ny nx → ℤ} {net : Net ny nx} (hd : IsDemNet codes net)
    (c : Cell ny nx) (hc : codes c = 0) :
    ∃ (p : Params ny nx) (inp : Inp ny nx) (s' : St ny nx), Physical p ∧ p.flood = true ∧
      step p net inp (initSt p (fun _ => 0)) = .ok s' ∧
      s'.vol c = 0 ∧ s'.volFlood c = 0 ∧ s'.volChan c = 1 := by
  have hp := unitParams_physical c true
  obtain ⟨s', hs'⟩ := C48_update_completes hp (by simp [unitParams]) (net := net)
    (d0 := fun _ => 0) (fun _ => le_refl _) .nil (unitRain ny nx)
  obtain ⟨h1, h2, h3⟩ := C25_edge_channel_volume_kept hd rfl hs' c hc
  refine ⟨_, _, s', hp, rfl, hs', h1, h2, ?_⟩
  have hQ : ∀ e, s'.Q e = 0 := by
    obtain ⟨u, _, rfl, _⟩ := step_ok hs'
    intro e
    show totalQ (unitParams ny nx c true) (initSt (unitParams ny nx c true) fun _ => 0) e = 0
    simp [totalQ, chanQ, floodQ, initSt]
  have hR : s'.R c = 1 := by
    obtain ⟨et, e1, e2, _⟩ := C22_runoff_rate hs' c
    rw [e1, e2 0 rfl]
    simp [unitRain]
  have hst : s'.volStored c = 0 := (C22_attenuation hs' c).1 rfl
  have hin : inflow codes s'.Q c = 0 := by
    unfold inflow
    exact Finset.sum_eq_zero (fun e _ => hQ e)
  rw [h3]
  have hb : balance (unitParams ny nx c true) codes
      (initSt (unitParams ny nx c true) fun _ => 0) s' c = 1 := by
    simp [balance, hR, hst, hQ, hin, initSt, unitParams, wetArea]
  rw [hb]
  simp [trapezoidVolume, unitParams]

/-- Without the overbank option channel volume and total volume are the same. -/
theorem C25_no_flood {p : Params ny nx} (hf : p.flood = false) {net : Net ny nx} {inp : Inp ny nx}
    {s s' : St ny nx} (h : step p net inp s = .ok s') : s'.volChan = s'.vol := by
  obtain ⟨u, _, rfl, _⟩ := step_ok h
  funext c
  simp [edgeVals, hf]

/-! ## C26 -/

theorem isPeak_snoc {xs : List ℝ} {dtMin pk t x : ℝ} (h : IsPeak xs dtMin pk t) :
    IsPeak (xs ++ [x]) dtMin (peakUpd x pk t (xs.length * dtMin)).1
      (peakUpd x pk t (xs.length * dtMin)).2 := by
  obtain ⟨h1, h2⟩ := h
  have hpk : 0 ≤ pk := by
    rcases h2 with ⟨h, _⟩ | ⟨_, _, h, _⟩
    · exact h.ge
    · exact h.le
  unfold peakUpd
  split_ifs with hx
  · dsimp only
    refine ⟨?_, Or.inr ⟨xs.length, by simp, by linarith, rfl, ?_⟩⟩
    · intro y hy
      rcases List.mem_append.1 hy with hy | hy
      · linarith [h1 y hy]
      · rw [List.mem_singleton.1 hy]
    · intro j hj y hy
      rw [List.getElem?_append_left hj] at hy
      linarith [h1 y (List.mem_of_getElem? hy)]
  · dsimp only
    refine ⟨?_, ?_⟩
    · intro y hy
      rcases List.mem_append.1 hy with hy | hy
      · exact h1 y hy
      · rw [List.mem_singleton.1 hy]; exact not_lt.1 hx
    · rcases h2 with h2 | ⟨k, hk, hk2, hk3, hk4⟩
      · exact Or.inl h2
      · have hlt : k < xs.length := (List.getElem?_eq_some_iff.1 hk).1
        refine Or.inr ⟨k, by rw [List.getElem?_append_left hlt]; exact hk, hk2, hk3, ?_⟩
        intro j hj y hy
        rw [List.getElem?_append_left (hj.trans hlt)] at hy
        exact hk4 j hj y hy

/-- The clock: after `n` updates it shows `n` time steps, in minutes. -/
theorem time_after {p : Params ny nx} {net : Net ny nx} {d0 : Cell ny nx → ℝ}
    {h : List (St ny nx)} {s : St ny nx} (hh : History p net (initSt p d0) h s) :
    s.timeMin = h.length * (p.dt / 60) := by
  induction hh with
  | nil => simp [initSt]
  | snoc inp hh hs ih =>
    obtain ⟨u, _, rfl, _⟩ := step_ok hs
    simp only [List.length_append, List.length_singleton, Nat.cast_add, Nat.cast_one]
    rw [ih]; ring

/-- **C26**: at every point of a run the reported peak discharge, velocity and depth are the maxima
of the outlet values of all updates so far, and the peak times are the times (at the start of the
step) when they were first reached. -/
theorem C26_peaks {p : Params ny nx} {net : Net ny nx} {d0 : Cell ny nx → ℝ}
    {h : List (St ny nx)} {s : St ny nx} (hh : History p net (initSt p d0) h s) :
    IsPeak (h.map St.Qout) (p.dt / 60) s.Qpeak s.Tpeak ∧
    IsPeak (h.map St.uOut) (p.dt / 60) s.upeak s.Tupeak ∧
    IsPeak (h.map St.dOut) (p.dt / 60) s.dpeak s.Tdpeak := by
  induction hh with
  | nil =>
    refine ⟨⟨by simp, Or.inl ⟨rfl, rfl⟩⟩, ⟨by simp, Or.inl ⟨rfl, rfl⟩⟩, ⟨by simp, Or.inl ⟨rfl, rfl⟩⟩⟩
  | @snoc h s s' inp hh hs ih =>
    have ht := time_after hh
    obtain ⟨u, _, rfl, _⟩ := step_ok hs
    obtain ⟨h1, h2, h3⟩ := ih
    simp only [List.map_append, List.map_cons, List.map_nil]
    have e1 := isPeak_snoc (x := ((routed p net inp s).Q p.outlet)) h1
    have e2 := isPeak_snoc (x := u p.outlet) h2
    have e3 := isPeak_snoc (x := ((routed p net inp s).d p.outlet)) h3
    rw [List.length_map, ← ht] at e1 e2 e3
    exact ⟨e1, e2, e3⟩

/-- The outlet values are the discharge and velocity at the outlet cell, and they are accumulated
into the outflow volume. -/
theorem C26_outlet_values {p : Params ny nx} {net : Net ny nx} {inp : Inp ny nx} {s s' : St ny nx}
    (hs : step p net inp s = .ok s') :
    s'.Qout = s'.Q p.outlet ∧ s'.uOut = s'.u p.outlet ∧
    (p.outlet ∉ net.noflow → s'.dOut = s'.d p.outlet) ∧ s'.volQ = s.volQ + s'.Qout * p.dt := by
  obtain ⟨u, _, rfl, _⟩ := step_ok hs
  refine ⟨rfl, rfl, ?_, rfl⟩
  intro hm
  simp [edgeVals, outletVals, hm]

end Chan
