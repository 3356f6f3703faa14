import Verif.ChannelSpec
import Mathlib.Tactic.LinearCombination
import Mathlib.Tactic.Positivity

/-!
# C22, C23, C25, C26, C48: channel routing
-/

set_option autoImplicit false
set_option linter.unusedSectionVars false

noncomputable section

open scoped BigOperators
open D8 (Cell)
open D8Spec (FlowsTo)

namespace Chan

open ChanSpec

variable {ny nx : ℕ}

theorem IsDemNet.good {codes : Cell ny nx → ℤ} {net : Net ny nx} (h : IsDemNet codes net) :
    GoodNet codes net := by
  obtain ⟨cfg, fuel, z, hy, hx, h1, h2⟩ := h
  exact goodNet_of_dem h1 hy hx h2

/-- What a successful update does. -/
theorem step_ok {p : Params ny nx} {net : Net ny nx} {inp : Inp ny nx} {s s' : St ny nx}
    (h : step p net inp s = .ok s') :
    ∃ u, newU p net (routed p net inp s) = .ok u ∧
      s' = { edgeVals p net (outletVals p { routed p net inp s with u := u }) with
        timeMin := s.timeMin + p.dt / 60 } ∧
      (p.checkStability = true →
        stable (edgeVals p net (outletVals p { routed p net inp s with u := u })) = true) := by
  unfold step at h
  dsimp only at h
  split at h
  · cases h
  · rename_i u hu
    split_ifs at h with hc
    refine ⟨u, hu, ?_, ?_⟩
    · cases h
      rfl
    · intro h1
      simpa [h1] using hc

/-- The invariant at cells without flow direction. -/
def EdgeInv (p : Params ny nx) (codes : Cell ny nx → ℤ) (s : St ny nx) : Prop :=
  ∀ c, codes c = 0 → s.u c = 0 ∧ (p.flood = true → s.dFlood c = 0)

theorem edgeInv_init (p : Params ny nx) (codes : Cell ny nx → ℤ) (d0 : Cell ny nx → ℝ) :
    EdgeInv p codes (initSt p d0) := fun _ _ => ⟨rfl, fun _ => rfl⟩

theorem newU_noflow {p : Params ny nx} {net : Net ny nx} {s : St ny nx} {u : Cell ny nx → ℝ}
    (h : newU p net s = .ok u) {c : Cell ny nx} (hc : c ∈ net.noflow) : u c = 0 := by
  unfold newU at h
  split at h
  · cases h
  · cases h
    simp [hc]

theorem edgeInv_step {codes : Cell ny nx → ℤ} {net : Net ny nx} (hg : GoodNet codes net)
    {p : Params ny nx} {inp : Inp ny nx} {s s' : St ny nx}
    (h : step p net inp s = .ok s') : EdgeInv p codes s' := by
  obtain ⟨u, hu, rfl, _⟩ := step_ok h
  intro c hc
  have hm := (hg.noflow c).2 hc
  refine ⟨newU_noflow hu hm, ?_⟩
  intro hf
  simp [edgeVals, hf, hm]

theorem totalQ_noflow {p : Params ny nx} {codes : Cell ny nx → ℤ} {s : St ny nx}
    (h : EdgeInv p codes s) {c : Cell ny nx} (hc : codes c = 0) : totalQ p s c = 0 := by
  obtain ⟨h1, h2⟩ := h c hc
  unfold totalQ chanQ
  split_ifs with hf
  · simp [floodQ, h1, h2 hf]
  · simp [h1]

theorem history_induct {p : Params ny nx} {net : Net ny nx} {s0 : St ny nx}
    {P : St ny nx → Prop} (h0 : P s0)
    (hstep : ∀ s s' inp, P s → step p net inp s = .ok s' → P s')
    {h : List (St ny nx)} {s : St ny nx} (hh : History p net s0 h s) : P s := by
  induction hh with
  | nil => exact h0
  | snoc inp _ hs ih => exact hstep _ _ inp ih hs

theorem gain_fst (p : Params ny nx) (s : St ny nx) (R : Cell ny nx → ℝ) (c : Cell ny nx) :
    (gain p s R c).1 = s.volStored c - (gain p s R c).2 + R c * p.da c * p.dt := by
  unfold gain
  split_ifs
  · dsimp only
    rw [max_eq_left]
    · ring
    · have := min_le_right ((s.volStored c + R c * p.da c * p.dt) / (3600 * 24 * p.nDays) * p.dt)
        (s.volStored c + R c * p.da c * p.dt)
      linarith
  · dsimp only; ring

theorem inflow_mul {codes : Cell ny nx → ℤ} (f : Cell ny nx → ℝ) (a : ℝ) (c : Cell ny nx) :
    inflow codes (fun e => a * f e) c = a * inflow codes f c := by
  unfold inflow
  rw [Finset.mul_sum]

theorem newVol_eq {codes : Cell ny nx → ℤ} {net : Net ny nx} (hg : GoodNet codes net)
    (p : Params ny nx) (s : St ny nx) (R Q : Cell ny nx → ℝ) (c : Cell ny nx) :
    newVol p net s R Q c = max 0 (s.vol c + (s.volStored c - (gain p s R c).2)
      + R c * p.da c * p.dt + (inflow codes Q c - Q c) * p.dt) := by
  unfold newVol rawVol
  rw [fold_inflow hg (fun e => p.dt * Q e), inflow_mul, gain_fst, max_comm]
  congr 1
  ring

theorem sum_noflow {codes : Cell ny nx → ℤ} {net : Net ny nx} (hg : GoodNet codes net)
    (f : Cell ny nx → ℝ) :
    (net.noflow.map f).sum = ∑ c ∈ Finset.univ.filter (fun c => codes c = 0), f c := by
  rw [← List.sum_toFinset f hg.noflow_nodup]
  refine Finset.sum_congr ?_ (fun _ _ => rfl)
  ext c
  simp [hg.noflow]

/-! ## C22 -/

/-- The runoff rate of an update: rain, snowmelt, baseflow and icemelt minus infiltration and
evaporation; evaporation is the given grid where enough water is present, zero elsewhere, and zero
when a single number is given. -/
theorem C22_runoff_rate {p : Params ny nx} {net : Net ny nx} {inp : Inp ny nx} {s s' : St ny nx}
    (h : step p net inp s = .ok s') (c : Cell ny nx) :
    ∃ et, s'.R c = inp.P c + inp.SM c + inp.GW c + inp.MR c - inp.IN c - et ∧
      (∀ e, inp.ET = .inl e → et = 0) ∧
      (∀ g, inp.ET = .inr g →
        (g c * p.da c * p.dt ≤ s.vol c ∧ et = g c) ∨ (s.vol c < g c * p.da c * p.dt ∧ et = 0)) := by
  obtain ⟨u, _, rfl, _⟩ := step_ok h
  refine ⟨actualET p inp s c, ?_, ?_, ?_⟩
  · show excessR p inp s c = _
    unfold excessR; ring
  · intro e he; simp [actualET, he]
  · intro g hg
    simp only [actualET, hg]
    split_ifs with hlt
    · exact Or.inr ⟨hlt, rfl⟩
    · exact Or.inl ⟨not_lt.1 hlt, rfl⟩

/-- **C22** (one cell): the new volume is the old volume plus released storage plus runoff plus
inflow minus outflow, or zero if that is negative; cells without flow direction are emptied and
what they held is counted as boundary outflow. -/
theorem C22_cell_balance {codes : Cell ny nx → ℤ} {net : Net ny nx} (hd : IsDemNet codes net)
    {p : Params ny nx} {inp : Inp ny nx} {s s' : St ny nx} (h : step p net inp s = .ok s') :
    (∀ c, codes c ≠ 0 → s'.vol c = max 0 (balance p codes s s' c)) ∧
    (∀ c, codes c = 0 → s'.vol c = 0) ∧
    s'.volEdge = s.volEdge +
      ∑ c ∈ Finset.univ.filter (fun c => codes c = 0), max 0 (balance p codes s s' c) ∧
    s'.volR = s.volR + ∑ c, s'.R c * p.da c * p.dt := by
  have hg := IsDemNet.good hd
  obtain ⟨u, _, rfl, _⟩ := step_ok h
  refine ⟨?_, ?_, ?_, rfl⟩
  · intro c hc
    have hm : c ∉ net.noflow := fun h => hc ((hg.noflow c).1 h)
    simp only [edgeVals, hm, if_false]
    exact newVol_eq hg p s _ _ c
  · intro c hc
    have hm := (hg.noflow c).2 hc
    simp [edgeVals, hm]
  · show s.volEdge + (net.noflow.map (newVol p net s _ _)).sum = _
    rw [sum_noflow hg]
    congr 1
    refine Finset.sum_congr rfl (fun c _ => ?_)
    exact newVol_eq hg p s _ _ c

/-- Cells without flow direction have no outflow, in every history from an initial state. -/
theorem C22_no_outflow_from_edges {codes : Cell ny nx → ℤ} {net : Net ny nx}
    (hd : IsDemNet codes net) {p : Params ny nx} {d0 : Cell ny nx → ℝ} {h : List (St ny nx)}
    {s s' : St ny nx} (hh : History p net (initSt p d0) h s) {inp : Inp ny nx}
    (hs : step p net inp s = .ok s') (c : Cell ny nx) (hc : codes c = 0) : s'.Q c = 0 := by
  have hg := IsDemNet.good hd
  have hinv : EdgeInv p codes s :=
    history_induct (edgeInv_init p codes d0) (fun _ _ _ _ h => edgeInv_step hg h) hh
  obtain ⟨u, _, rfl, _⟩ := step_ok hs
  exact totalQ_noflow hinv hc

theorem step_total {codes : Cell ny nx → ℤ} {net : Net ny nx} (hd : IsDemNet codes net)
    {p : Params ny nx} {inp : Inp ny nx} {s s' : St ny nx} (hinv : EdgeInv p codes s)
    (h : step p net inp s = .ok s') :
    totalWater s' = totalWater s + (s'.volR - s.volR) + createdStep p codes s s' := by
  obtain ⟨h1, h2, h3, h4⟩ := C22_cell_balance hd h
  have hg := IsDemNet.good hd
  have hQ : ∀ c, codes c = 0 → s'.Q c = 0 := by
    intro c hc
    obtain ⟨u, _, rfl, _⟩ := step_ok h
    exact totalQ_noflow hinv hc
  have hsum : ∑ c, s'.vol c + s'.volEdge = s.volEdge + ∑ c, max 0 (balance p codes s s' c) := by
    have e1 : ∑ c, s'.vol c =
        ∑ c ∈ Finset.univ.filter (fun c => ¬ codes c = 0), max 0 (balance p codes s s' c) := by
      rw [Finset.sum_filter]
      refine Finset.sum_congr rfl (fun c _ => ?_)
      by_cases hc : codes c = 0
      · rw [if_neg (not_not.2 hc), h2 c hc]
      · rw [if_pos hc, h1 c hc]
    rw [e1, h3, ← Finset.sum_filter_add_sum_filter_not Finset.univ (fun c => codes c = 0)
      (fun c => max 0 (balance p codes s s' c))]
    ring
  have hmax : ∀ x : ℝ, max 0 x = x + max 0 (-x) := by
    intro x
    rcases le_total 0 x with hx | hx
    · rw [max_eq_right hx, max_eq_left (by linarith)]; ring
    · rw [max_eq_left hx, max_eq_right (by linarith)]; ring
  have hbal : ∑ c, balance p codes s s' c = ∑ c, s.vol c + (∑ c, s.volStored c - ∑ c, s'.volStored c)
      + ∑ c, s'.R c * p.da c * p.dt := by
    unfold balance
    rw [Finset.sum_add_distrib, Finset.sum_add_distrib, Finset.sum_add_distrib,
      Finset.sum_sub_distrib]
    have e : ∑ c, (inflow codes s'.Q c - s'.Q c) * p.dt = 0 := by
      rw [← Finset.sum_mul, Finset.sum_sub_distrib, sum_inflow hg s'.Q hQ]
      ring
    rw [e]
    ring
  unfold totalWater createdStep
  rw [Finset.sum_congr rfl (fun c _ => hmax (balance p codes s s' c)), Finset.sum_add_distrib, hbal]
    at hsum
  linarith

theorem created_snoc (p : Params ny nx) (codes : Cell ny nx → ℤ) {net : Net ny nx}
    {s0 s s' : St ny nx} {h : List (St ny nx)} (hh : History p net s0 h s) :
    created p codes s0 (h ++ [s']) = created p codes s0 h + createdStep p codes s s' := by
  have hlast : (s0 :: h).getLast (by simp) = s := by
    cases hh with
    | nil => rfl
    | snoc _ _ _ => simp
  clear hh
  induction h generalizing s0 with
  | nil =>
    simp only [List.getLast_singleton] at hlast
    subst hlast
    simp [created]
  | cons a l ih =>
    simp only [List.cons_append, created]
    rw [ih (by simpa using hlast)]
    ring

/-- **C22**: over any number of updates, water in the cells plus water in attenuation storage plus
water that left through the boundary equals the initial amount plus all runoff added plus the water
created where cells were overdrawn. -/
theorem C22_water_balance {codes : Cell ny nx → ℤ} {net : Net ny nx} (hd : IsDemNet codes net)
    {p : Params ny nx} {d0 : Cell ny nx → ℝ} {h : List (St ny nx)} {s : St ny nx}
    (hh : History p net (initSt p d0) h s) :
    totalWater s = totalWater (initSt p d0) + s.volR + created p codes (initSt p d0) h := by
  have hg := IsDemNet.good hd
  induction hh with
  | nil => simp [created, initSt]
  | @snoc h s s' inp hh hs ih =>
    have hinv : EdgeInv p codes s :=
      history_induct (edgeInv_init p codes d0) (fun _ _ _ _ h => edgeInv_step hg h) hh
    rw [step_total hd hinv hs, ih, created_snoc p codes hh]
    ring

theorem createdStep_nonneg (p : Params ny nx) (codes : Cell ny nx → ℤ) (s s' : St ny nx) :
    0 ≤ createdStep p codes s s' := Finset.sum_nonneg (fun _ _ => le_max_left _ _)

theorem createdStep_zero_iff (p : Params ny nx) (codes : Cell ny nx → ℤ) (s s' : St ny nx) :
    createdStep p codes s s' = 0 ↔ ∀ c, 0 ≤ balance p codes s s' c := by
  unfold createdStep
  rw [Finset.sum_eq_zero_iff_of_nonneg (fun _ _ => le_max_left _ _)]
  constructor
  · intro h c
    have := h c (Finset.mem_univ c)
    have h2 := le_max_right 0 (-(balance p codes s s' c))
    linarith
  · intro h c _
    exact max_eq_left (by linarith [h c])

theorem created_nonneg (p : Params ny nx) (codes : Cell ny nx → ℤ) (h : List (St ny nx))
    (s : St ny nx) : 0 ≤ created p codes s h := by
  induction h generalizing s with
  | nil => exact le_refl _
  | cons a l ih => exact add_nonneg (createdStep_nonneg _ _ _ _) (ih a)

theorem created_zero_iff (p : Params ny nx) (codes : Cell ny nx → ℤ) (h : List (St ny nx))
    (s : St ny nx) : created p codes s h = 0 ↔ NoOverdraft p codes s h := by
  induction h generalizing s with
  | nil => simp [created, NoOverdraft]
  | cons a l ih =>
    simp only [created, NoOverdraft]
    rw [← ih a, ← createdStep_zero_iff]
    have h1 := createdStep_nonneg p codes s a
    have h2 := created_nonneg p codes l a
    constructor
    · intro h; constructor <;> linarith
    · rintro ⟨h, h'⟩; linarith

/-- **C22**: routing never loses water, and the balance is exact if and only if no cell was
overdrawn in any update. -/
theorem C22_exact_iff_no_overdraft {codes : Cell ny nx → ℤ} {net : Net ny nx}
    (hd : IsDemNet codes net) {p : Params ny nx} {d0 : Cell ny nx → ℝ} {h : List (St ny nx)}
    {s : St ny nx} (hh : History p net (initSt p d0) h s) :
    totalWater (initSt p d0) + s.volR ≤ totalWater s ∧
    (totalWater s = totalWater (initSt p d0) + s.volR ↔ NoOverdraft p codes (initSt p d0) h) := by
  have hb := C22_water_balance hd hh
  have h0 := created_nonneg p codes h (initSt p d0)
  refine ⟨by linarith, ?_⟩
  rw [← created_zero_iff]
  constructor <;> intro h <;> linarith

/-- **C22**, attenuation storage: with attenuation, the runoff of the step is added to the storage
first, which then releases the fraction `dt / t_drain` of its content (or all of it, if that is
less); without attenuation the storage does not change. -/
theorem C22_attenuation {p : Params ny nx} {net : Net ny nx} {inp : Inp ny nx} {s s' : St ny nx}
    (h : step p net inp s = .ok s') (c : Cell ny nx) :
    (p.attenuate = false → s'.volStored c = s.volStored c) ∧
    (p.attenuate = true → ∀ st, st = s.volStored c + s'.R c * p.da c * p.dt →
      s'.volStored c = st - min (st * (p.dt / (86400 * p.nDays))) st) := by
  obtain ⟨u, _, rfl, _⟩ := step_ok h
  have e : ∀ R', R' = excessR p inp s → (gain p s R' c).2 = (gain p s (excessR p inp s) c).2 := by
    rintro _ rfl; rfl
  constructor
  · intro ha
    show (gain p s (excessR p inp s) c).2 = _
    simp [gain, ha]
  · intro ha st hst
    show (gain p s (excessR p inp s) c).2 = _
    have hst' : st = s.volStored c + excessR p inp s c * p.da c * p.dt := hst
    simp only [gain, ha, if_true]
    rw [← hst']
    have e2 : st / (3600 * 24 * p.nDays) * p.dt = st * (p.dt / (86400 * p.nDays)) := by
      rw [show (3600 * 24 * p.nDays) = 86400 * p.nDays by ring]; ring
    rw [e2, max_eq_left]
    have := min_le_right (st * (p.dt / (86400 * p.nDays))) st
    linarith

end Chan
