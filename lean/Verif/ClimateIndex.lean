import Verif.ClimateModel
import Verif.SolarSeason
import Mathlib.Tactic.Linarith
import Mathlib.Tactic.FieldSimp
import Mathlib.Tactic.Positivity
import Mathlib.Analysis.Convex.SpecificFunctions.Deriv
import Mathlib.Analysis.SpecialFunctions.Trigonometric.Bounds

/-!
# Climate indicators of basins: properties C195-C199
-/

set_option autoImplicit false

namespace Climate

open Real

/-! ## C195, C196: timing of precipitation -/

/-- Specification: equation (13) of Woods (2009), the snow fraction of a climate whose temperature and precipitation
are sine curves, with mean temperature `T` (in amplitudes above the rain to snow threshold) and timing index `δ`. -/
noncomputable def woodsSnow (T δ : ℝ) : ℝ := 1 / 2 - arcsin T / π - δ * √(1 - T ^ 2) / π

theorem sqrt_pos_of {T : ℝ} (h1 : -1 < T) (h2 : T < 1) : 0 < √(1 - T ^ 2) := by
  apply Real.sqrt_pos.2; nlinarith

theorem woods_iff {T : ℝ} (h1 : -1 < T) (h2 : T < 1) (f δ : ℝ) :
    woodsSnow T δ = f ↔ (π - 2 * f * π - 2 * arcsin T) / (2 * √(1 - T ^ 2)) = δ := by
  have hs := sqrt_pos_of h1 h2
  have hp := pi_pos
  unfold woodsSnow
  rw [div_eq_iff (by positivity)]
  constructor
  · intro h; rw [← h]; field_simp; ring
  · intro h
    have : δ * √(1 - T ^ 2) = (π - 2 * f * π - 2 * arcsin T) / 2 := by linarith
    rw [this]; field_simp; ring

/-- **C195** Within the amplitude of the temperature the index is the solution of the equation of Woods, limited to
`[-0.999, 0.999]`; outside it is -1 or 1. -/
theorem C195_woods (f T : ℝ) :
    (-1 < T → T < 1 → ∃! δ, woodsSnow T δ = f ∧ timingOf f T = min (max δ (-0.999)) 0.999) ∧
      (T ≤ -1 → timingOf f T = -1) ∧ (1 ≤ T → timingOf f T = 1) := by
  refine ⟨fun h1 h2 => ?_, fun h => ?_, fun h => ?_⟩
  · refine ⟨(π - 2 * f * π - 2 * arcsin T) / (2 * √(1 - T ^ 2)), ⟨(woods_iff h1 h2 f _).2 rfl, ?_⟩, ?_⟩
    · unfold timingOf
      rw [if_pos ⟨h1, h2⟩]
    · rintro δ ⟨h, -⟩
      exact ((woods_iff h1 h2 f δ).1 h).symm
  · unfold timingOf
    rw [if_neg (fun hh => absurd hh.1 (not_lt.2 h)), if_pos h]
  · unfold timingOf
    rw [if_neg (fun hh => absurd hh.2 (not_lt.2 h)), if_neg (by linarith)]

/-- **C195** The index lies in `[-1, 1]`, and `-1` and `1` are only returned outside the amplitude. -/
theorem C195_range (f T : ℝ) : -1 ≤ timingOf f T ∧ timingOf f T ≤ 1 ∧
    (timingOf f T = -1 ↔ T ≤ -1) ∧ (timingOf f T = 1 ↔ 1 ≤ T) := by
  by_cases h1 : -1 < T
  · by_cases h2 : T < 1
    · obtain ⟨δ, ⟨-, h⟩, -⟩ := (C195_woods f T).1 h1 h2
      rw [h]
      have a : min (max δ (-0.999)) 0.999 ≤ 0.999 := min_le_right _ _
      have b : -0.999 ≤ min (max δ (-0.999)) 0.999 := le_min (le_max_right _ _) (by norm_num)
      refine ⟨by linarith, by linarith, ⟨fun e => ?_, fun e => ?_⟩, fun e => ?_, fun e => ?_⟩ <;> exfalso <;> linarith
    · have h2 := not_lt.1 h2
      rw [(C195_woods f T).2.2 h2]
      refine ⟨by norm_num, le_refl _, ⟨fun e => ?_, fun e => ?_⟩, fun _ => h2, fun _ => rfl⟩
      · norm_num at e
      · linarith
  · have h1 := not_lt.1 h1
    rw [(C195_woods f T).2.1 h1]
    refine ⟨le_refl _, by norm_num, ⟨fun _ => h1, fun _ => rfl⟩, fun e => ?_, fun e => ?_⟩
    · norm_num at e
    · linarith

/-- **C195** More snow means an earlier (more winter-dominant) timing. -/
theorem C195_snow (f f' T : ℝ) (h : f ≤ f') : timingOf f' T ≤ timingOf f T := by
  by_cases h1 : -1 < T
  · by_cases h2 : T < 1
    · unfold timingOf
      rw [if_pos ⟨h1, h2⟩, if_pos ⟨h1, h2⟩]
      have hs := sqrt_pos_of h1 h2
      have hp := pi_pos
      refine min_le_min_right _ (max_le_max_right _ ?_)
      exact div_le_div_of_nonneg_right (by nlinarith) (by positivity)
    · rw [(C195_woods f T).2.2 (not_lt.1 h2), (C195_woods f' T).2.2 (not_lt.1 h2)]
  · rw [(C195_woods f T).2.1 (not_lt.1 h1), (C195_woods f' T).2.1 (not_lt.1 h1)]

/-- **C195** Exchanging rain and snow, warm and cold, reverses the index. -/
theorem C195_mirror (f T : ℝ) : timingOf (1 - f) (-T) = -timingOf f T := by
  by_cases h1 : -1 < T
  · by_cases h2 : T < 1
    · have hl : timingOf (1 - f) (-T) = min (max ((π - 2 * (1 - f) * π - 2 * arcsin (-T)) /
          (2 * √(1 - (-T) ^ 2))) (-0.999)) 0.999 := by
        unfold timingOf
        rw [if_pos ⟨by linarith, by linarith⟩]
      rw [hl]
      unfold timingOf
      rw [if_pos ⟨h1, h2⟩]
      simp only [arcsin_neg, neg_sq]
      have e : (π - 2 * (1 - f) * π - 2 * -arcsin T) / (2 * √(1 - T ^ 2)) =
          -((π - 2 * f * π - 2 * arcsin T) / (2 * √(1 - T ^ 2))) := by
        rw [← neg_div]; congr 1; ring
      rw [e]
      generalize (π - 2 * f * π - 2 * arcsin T) / (2 * √(1 - T ^ 2)) = x
      rcases le_total x (-0.999) with h | h
      · rw [max_eq_right h, max_eq_left (by linarith), min_eq_right (by linarith), min_eq_left (by norm_num)]; norm_num
      · rcases le_total x 0.999 with h' | h'
        · rw [max_eq_left h, max_eq_left (by linarith), min_eq_left (by linarith), min_eq_left h']
        · rw [max_eq_left h, max_eq_right (by linarith), min_eq_left (by norm_num), min_eq_right h']
    · have h2 := not_lt.1 h2
      rw [(C195_woods f T).2.2 h2, (C195_woods (1 - f) (-T)).2.1 (by linarith)]
  · have h1 := not_lt.1 h1
    rw [(C195_woods f T).2.1 h1, (C195_woods (1 - f) (-T)).2.2 (by linarith)]; norm_num

theorem bot_le (v : Fin 12 → ℝ) (k : Fin 12) : bot v ≤ v k := Finset.inf'_le _ (Finset.mem_univ k)
theorem le_top (v : Fin 12 → ℝ) (k : Fin 12) : v k ≤ top v := Finset.le_sup' v (Finset.mem_univ k)
theorem exists_top (v : Fin 12 → ℝ) : ∃ k, v k = top v := by
  obtain ⟨k, -, h⟩ := Finset.exists_mem_eq_sup' (⟨0, Finset.mem_univ _⟩ : (Finset.univ : Finset (Fin 12)).Nonempty) v
  exact ⟨k, h.symm⟩
theorem exists_bot (v : Fin 12 → ℝ) : ∃ k, v k = bot v := by
  obtain ⟨k, -, h⟩ := Finset.exists_mem_eq_inf' (⟨0, Finset.mem_univ _⟩ : (Finset.univ : Finset (Fin 12)).Nonempty) v
  exact ⟨k, h.symm⟩

theorem range_zero_iff (v : Fin 12 → ℝ) : top v - bot v = 0 ↔ ∀ j k, v j = v k := by
  constructor
  · intro h j k
    have := bot_le v j; have := le_top v j; have := bot_le v k; have := le_top v k
    linarith
  · intro h
    obtain ⟨j, hj⟩ := exists_top v
    obtain ⟨k, hk⟩ := exists_bot v
    rw [← hj, ← hk, h j k, sub_self]

/-- **C195** From twelve monthly temperatures: the call fails exactly if every month is at one degree; otherwise, with
mean `m` and highest and lowest month `hi`, `lo`, it is the index at `(m - 1) / ((hi - lo) / 2)`, or the limit value
when all months are equal. -/
theorem C195_monthly (f : ℝ) (T : Fin 12 → ℝ) :
    ((∃ e, timingMonthly f T = .error e) ↔ ∀ k, T k = 1) ∧
      (∀ hi lo : ℝ, (∃ k, T k = hi) → (∀ k, T k ≤ hi) → (∃ k, T k = lo) → (∀ k, lo ≤ T k) →
        (lo < hi → timingMonthly f T = .ok (timingOf f (((∑ k, T k) / 12 - 1) / ((hi - lo) / 2)))) ∧
        (lo = hi → hi < 1 → timingMonthly f T = .ok (-1)) ∧ (lo = hi → 1 < hi → timingMonthly f T = .ok 1)) := by
  have hr0 : 0 ≤ top T - bot T := by linarith [bot_le T 0, le_top T 0]
  have habs : |top T - bot T| / 2 = (top T - bot T) / 2 := by rw [abs_of_nonneg hr0]
  have hsum : ∀ c, (∀ k, T k = c) → (∑ k, T k) / 12 = c := by
    intro c hc
    rw [Finset.sum_congr rfl (fun k _ => hc k)]; simp
  constructor
  · unfold timingMonthly timingIndex
    simp only [habs]
    by_cases h0 : (top T - bot T) / 2 = 0
    · have hz : top T - bot T = 0 := by linarith
      have hall := (range_zero_iff T).1 hz
      have hm := hsum (T 0) (fun k => hall k 0)
      rw [if_pos h0, hm]
      rcases lt_trichotomy (T 0) 1 with h | h | h
      · rw [if_pos h]
        simp only [reduceCtorEq, exists_false, false_iff, not_forall]
        exact ⟨0, h.ne⟩
      · rw [if_neg (by linarith), if_neg (by linarith)]
        simp only [Except.error.injEq, exists_eq', true_iff]
        intro k; rw [hall k 0, h]
      · rw [if_neg (by linarith), if_pos h]
        simp only [reduceCtorEq, exists_false, false_iff, not_forall]
        exact ⟨0, h.ne'⟩
    · rw [if_neg h0]
      simp only [reduceCtorEq, exists_false, false_iff]
      intro h
      exact h0 (by rw [(range_zero_iff T).2 (fun j k => by rw [h j, h k])]; norm_num)
  · rintro hi lo ⟨i, hhi⟩ hle ⟨j, hlo⟩ hge
    have e1 : top T = hi := by
      obtain ⟨k, hk⟩ := exists_top T
      exact le_antisymm (by rw [← hk]; exact hle k) (by rw [← hhi]; exact le_top T i)
    have e2 : bot T = lo := by
      obtain ⟨k, hk⟩ := exists_bot T
      exact le_antisymm (by rw [← hlo]; exact bot_le T j) (by rw [← hk]; exact hge k)
    unfold timingMonthly timingIndex
    rw [e1, e2] at habs
    simp only [e1, e2, habs]
    refine ⟨fun h => ?_, fun h h1 => ?_, fun h h1 => ?_⟩
    · rw [if_neg (by intro hh; linarith)]
    all_goals
      have hm := hsum hi (fun k => le_antisymm (hle k) (h ▸ hge k))
      rw [if_pos (by rw [h]; norm_num), hm]
    · rw [if_pos h1]
    · rw [if_neg (by linarith), if_pos h1]

/-- Non-vacuity: half of the precipitation as snow at a mean temperature at the threshold: no seasonality. -/
example : timingOf (1 / 2) 0 = 0 := by
  unfold timingOf
  rw [if_pos (by norm_num)]
  have : π - 2 * (1 / 2) * π - 2 * arcsin 0 = 0 := by rw [arcsin_zero]; ring
  simp only [this, zero_div]
  norm_num

/-! ### C196 -/

theorem sin_ratio {x y : ℝ} (h0 : 0 < x) (hxy : x < y) (hy : y < π) : x * sin y < y * sin x := by
  have hy0 : 0 < y := h0.trans hxy
  have hc := strictConcaveOn_sin_Icc.2 (⟨le_refl _, pi_pos.le⟩ : (0 : ℝ) ∈ Set.Icc 0 π)
    (⟨hy0.le, hy.le⟩ : y ∈ Set.Icc 0 π) hy0.ne
    (by rw [sub_pos, div_lt_one hy0]; exact hxy : 0 < 1 - x / y) (div_pos h0 hy0) (by ring)
  simp only [smul_eq_mul, mul_zero, sin_zero, zero_add] at hc
  rw [div_mul_cancel₀ _ (by linarith), div_mul_eq_mul_div, div_lt_iff₀ (by linarith)] at hc
  linarith

/-- The solution of the equation of Woods falls strictly with temperature. -/
theorem woods_decreasing {f T T' δ δ' : ℝ} (hf : 0 ≤ f) (hf' : f ≤ 1) (h1 : -1 < T) (h : T < T') (h2 : T' < 1)
    (e : woodsSnow T δ = f) (e' : woodsSnow T' δ' = f) : δ' < δ := by
  have hs := sqrt_pos_of h1 (h.trans h2)
  have hs' := sqrt_pos_of (h1.trans h) h2
  have hp := pi_pos
  rw [woods_iff h1 (h.trans h2)] at e
  rw [woods_iff (h1.trans h) h2] at e'
  rw [← e, ← e', div_lt_div_iff₀ (by positivity) (by positivity), ← sin_arccos, ← sin_arccos]
  have a : arcsin T = π / 2 - arccos T := by unfold arccos; ring
  have a' : arcsin T' = π / 2 - arccos T' := by unfold arccos; ring
  rw [a, a']
  have hlt : arccos T' < arccos T := by
    unfold arccos
    have := arcsin_lt_arcsin (x := T) (y := T') h1.le h h2.le
    linarith
  have hpos : 0 < arccos T' := arccos_pos.2 h2
  have hle : arccos T < π := by
    unfold arccos
    have := arcsin_lt_arcsin (x := -1) (y := T) (le_refl _) h1 (h.trans h2).le
    rw [arcsin_neg, arcsin_one] at this
    linarith
  generalize arccos T = y at *
  generalize arccos T' = x at *
  have k1 := sin_ratio hpos hlt hle
  have k2 := sin_ratio (x := π - y) (y := π - x) (by linarith) (by linarith) (by linarith)
  rw [sin_pi_sub, sin_pi_sub] at k2
  have : (1 - f) * (x * sin y) + f * ((π - y) * sin x) < (1 - f) * (y * sin x) + f * ((π - x) * sin y) := by
    rcases eq_or_lt_of_le hf with h0 | h0
    · rw [← h0]; linarith
    · have := mul_lt_mul_of_pos_left k2 h0
      have := mul_le_mul_of_nonneg_left k1.le (sub_nonneg.2 hf')
      linarith
  nlinarith

/-- **C196** Within the amplitude, at a fixed snow fraction, the index never rises with temperature. -/
theorem C196_temperature_partial (f T T' : ℝ) (hf : 0 ≤ f) (hf' : f ≤ 1) (h1 : -1 < T) (h : T ≤ T') (h2 : T' < 1) :
    timingOf f T' ≤ timingOf f T := by
  rcases eq_or_lt_of_le h with rfl | h
  · exact le_refl _
  obtain ⟨δ, ⟨e, g⟩, -⟩ := (C195_woods f T).1 h1 (h.trans h2)
  obtain ⟨δ', ⟨e', g'⟩, -⟩ := (C195_woods f T').1 (h1.trans h) h2
  rw [g, g']
  exact min_le_min_right _ (max_le_max_right _ (woods_decreasing hf hf' h1 h h2 e e').le)

/-- **C196** It jumps at the limits: for every snow fraction strictly between none and all, the index falls to -0.999 as
the temperature approaches the upper limit and is 1 from there on; and is 0.999 near the lower limit and -1 below. -/
theorem C196_violated (f : ℝ) (hf : 0 < f) (hf' : f < 1) :
    (∃ T₀ < 1, ∀ T, T₀ < T → T < 1 → timingOf f T = -0.999) ∧ (∀ T, 1 ≤ T → timingOf f T = 1) ∧
      (∃ T₀ > -1, ∀ T, -1 < T → T < T₀ → timingOf f T = 0.999) ∧ (∀ T, T ≤ -1 → timingOf f T = -1) := by
  have hp := pi_pos
  have up : ∀ g : ℝ, 0 < g → g < 1 → ∃ T₀, T₀ < 1 ∧ ∀ T, T₀ < T → T < 1 → timingOf g T = -0.999 := by
    intro g hg hg'
    -- choose the angle a with sin a + a small against g π
    refine ⟨cos (g * π / 2), ?_, fun T hT hT1 => ?_⟩
    · rw [← cos_zero]
      exact cos_lt_cos_of_nonneg_of_le_pi (le_refl _) (by nlinarith) (by positivity)
    · have hm : -1 < T := lt_of_le_of_lt (neg_one_le_cos _) hT
      obtain ⟨δ, ⟨e, q⟩, -⟩ := (C195_woods g T).1 hm hT1
      rw [q]
      have hs := sqrt_pos_of hm hT1
      rw [woods_iff hm hT1] at e
      have hsin : √(1 - T ^ 2) = sin (arccos T) := (sin_arccos T).symm
      have ha : arccos T < g * π / 2 := by
        have : arccos T < arccos (cos (g * π / 2)) := by
          unfold arccos
          have := arcsin_lt_arcsin (x := cos (g * π / 2)) (y := T) (neg_one_le_cos _) hT hT1.le
          linarith
        rwa [arccos_cos (by positivity) (by nlinarith)] at this
      have hpos : 0 < arccos T := arccos_pos.2 hT1
      have hsl : sin (arccos T) < arccos T := sin_lt hpos
      have harc : arcsin T = π / 2 - arccos T := by unfold arccos; ring
      have hδ : δ ≤ -0.999 := by
        rw [← e, div_le_iff₀ (by positivity), harc, hsin]
        nlinarith
      rw [max_eq_right hδ, min_eq_left (by norm_num)]
  refine ⟨up f hf hf', fun T h => (C195_woods f T).2.2 h, ?_, fun T h => (C195_woods f T).2.1 h⟩
  obtain ⟨T₀, h0, h⟩ := up (1 - f) (by linarith) (by linarith)
  refine ⟨-T₀, by linarith, fun T h1 h2 => ?_⟩
  have := C195_mirror f T
  rw [h (-T) (by linarith) (by linarith)] at this
  linarith

/-! ## C197: snow fraction of the table -/

/-- **C197** A percentage between 0 and 100 becomes a fraction between 0 and 1, a missing value (-9999) counts as no
snow, with every `UNITS` other than percent in any spelling. -/
theorem C197_fraction_partial (units : String) (pct : ℝ) (hu : units.toLower ≠ "percent") :
    (pct ≠ -9999 → snowFraction units pct = .ok (pct / 100)) ∧ snowFraction units (-9999) = .ok 0 ∧
      (0 ≤ pct → pct ≤ 100 → ∃ f, snowFraction units pct = .ok f ∧ 0 ≤ f ∧ f ≤ 1) := by
  unfold snowFraction
  simp only [if_pos hu]
  refine ⟨fun h => by rw [if_neg h], by simp, fun h h' => ?_⟩
  rw [if_neg (by linarith)]
  exact ⟨_, rfl, by positivity, by linarith⟩

/-- **C197** Asking for percent always fails. -/
theorem C197_violated (units : String) (pct : ℝ) (hu : units.toLower = "percent") :
    ∀ f, snowFraction units pct ≠ .ok f := by
  intro f h
  unfold snowFraction at h
  simp [hu] at h

example : "none".toLower ≠ "percent" ∧ "Percent".toLower = "percent" := by decide +kernel

/-! ## C198: indicators of Knoben -/

/-- Specification: the moisture index of Knoben et al. (2018): surplus over the larger of the two amounts. -/
theorem moistureIndex_eq {P E : ℝ} (hP : 0 ≤ P) (hE : 0 ≤ E) : moistureIndex P E = (P - E) / max P E := by
  unfold moistureIndex
  split_ifs with h1 h2
  · rw [max_eq_left h1.le]
    have : P ≠ 0 := by linarith
    field_simp
  · rw [h2, sub_self, zero_div]
  · have h : P < E := lt_of_le_of_ne (not_lt.1 h1) (fun e => h2 e.symm)
    rw [max_eq_right h.le]
    have : E ≠ 0 := by linarith
    field_simp

/-- **C198** The monthly moisture index is the surplus of precipitation over evaporation relative to the larger of the
two.  It lies in `[-1, 1]`, is 1 exactly without evaporation, -1 exactly without precipitation, 0 exactly when both
are equal, and exchanging the two reverses it. -/
theorem C198_month (P E : ℝ) (hP : 0 ≤ P) (hE : 0 ≤ E) :
    moistureIndex P E = (P - E) / max P E ∧ -1 ≤ moistureIndex P E ∧ moistureIndex P E ≤ 1 ∧
      (moistureIndex P E = 0 ↔ P = E) ∧ (moistureIndex P E = 1 ↔ E = 0 ∧ 0 < P) ∧
      (moistureIndex P E = -1 ↔ P = 0 ∧ 0 < E) ∧ moistureIndex E P = -moistureIndex P E := by
  have h := moistureIndex_eq hP hE
  have h' := moistureIndex_eq hE hP
  rw [h, h', max_comm E P]
  have e : E - P = -(P - E) := by ring
  rw [e, neg_div]
  rcases eq_or_lt_of_le (le_max_of_le_left hP : 0 ≤ max P E) with h0 | h0
  · have hP0 : P = 0 := le_antisymm (by rw [h0]; exact le_max_left _ _) hP
    have hE0 : E = 0 := le_antisymm (by rw [h0]; exact le_max_right _ _) hE
    subst hP0 hE0
    simp
  · have m1 := le_max_left P E
    have m2 := le_max_right P E
    refine ⟨rfl, ?_, ?_, ?_, ?_, ?_, rfl⟩
    · rw [le_div_iff₀ h0]; linarith
    · rw [div_le_iff₀ h0]; linarith
    · rw [div_eq_zero_iff]
      constructor
      · rintro (h | h) <;> linarith
      · rintro rfl; simp
    · rw [div_eq_iff h0.ne']
      constructor
      · intro hh
        have : E = 0 := by linarith
        exact ⟨this, by rcases max_choice P E with hc | hc <;> rw [hc] at h0 hh <;> linarith⟩
      · rintro ⟨rfl, hp⟩; rw [max_eq_left hP]; ring
    · rw [div_eq_iff h0.ne']
      constructor
      · intro hh
        have : P = 0 := by linarith
        exact ⟨this, by rcases max_choice P E with hc | hc <;> rw [hc] at h0 hh <;> linarith⟩
      · rintro ⟨rfl, hp⟩; rw [max_eq_right hE]; ring

/-- **C198** More precipitation raises the index, more evaporation lowers it. -/
theorem C198_monotone (P P' E E' : ℝ) (hP : 0 < P) (hPP : P ≤ P') (hE' : 0 ≤ E') (hEE : E' ≤ E) :
    moistureIndex P E ≤ moistureIndex P' E' := by
  rw [moistureIndex_eq hP.le (hE'.trans hEE), moistureIndex_eq (hP.le.trans hPP) hE']
  have h1 : 0 < max P E := lt_max_of_lt_left hP
  have h2 : 0 < max P' E' := lt_max_of_lt_left (hP.trans_le hPP)
  rw [div_le_div_iff₀ h1 h2]
  rcases max_cases P E with ⟨a, b⟩ | ⟨a, b⟩ <;> rcases max_cases P' E' with ⟨c, d⟩ | ⟨c, d⟩ <;> rw [a, c]
  · nlinarith [mul_le_mul hPP hEE hE' (hP.le.trans hPP)]
  · nlinarith
  · nlinarith [mul_nonneg hP.le hE', mul_le_mul hPP hEE hE' (hP.le.trans hPP)]
  · nlinarith [mul_le_mul hPP hEE hE' (hP.le.trans hPP)]

/-- **C198** The yearly indicators: aridity in `[-1, 1]`, seasonality in `[0, 2]` and zero exactly when all months have
the same index, snow fraction in `[0, 1]`. -/
theorem C198_year (P E T : Fin 12 → ℝ) (hP : ∀ k, 0 ≤ P k) (hE : ∀ k, 0 ≤ E k) :
    let MI := moistureArray P E
    (-1 ≤ knobenAridity MI ∧ knobenAridity MI ≤ 1) ∧ (0 ≤ knobenSeasonality MI ∧ knobenSeasonality MI ≤ 2) ∧
      (knobenSeasonality MI = 0 ↔ ∀ j k, MI j = MI k) ∧
      (0 < ∑ k, P k → 0 ≤ knobenSnow P T ∧ knobenSnow P T ≤ 1 ∧
        ((∀ k, 0 ≤ T k) → knobenSnow P T = 0) ∧ ((∀ k, T k < 0) → knobenSnow P T = 1)) := by
  intro MI
  have hb : ∀ k, -1 ≤ MI k ∧ MI k ≤ 1 := fun k =>
    ⟨(C198_month (P k) (E k) (hP k) (hE k)).2.1, (C198_month (P k) (E k) (hP k) (hE k)).2.2.1⟩
  refine ⟨⟨?_, ?_⟩, ⟨?_, ?_⟩, range_zero_iff MI, fun hS => ⟨?_, ?_, ?_, ?_⟩⟩
  · have : ∑ _k : Fin 12, (-1 : ℝ) ≤ ∑ k, MI k := Finset.sum_le_sum fun k _ => (hb k).1
    simp only [Finset.sum_const, Finset.card_univ, Fintype.card_fin, nsmul_eq_mul] at this
    unfold knobenAridity
    rw [le_div_iff₀ (by norm_num)]; push_cast at this; linarith
  · have : ∑ k, MI k ≤ ∑ _k : Fin 12, (1 : ℝ) := Finset.sum_le_sum fun k _ => (hb k).2
    simp only [Finset.sum_const, Finset.card_univ, Fintype.card_fin, nsmul_eq_mul] at this
    unfold knobenAridity
    rw [div_le_iff₀ (by norm_num)]; push_cast at this; linarith
  · unfold knobenSeasonality; linarith [bot_le MI 0, le_top MI 0]
  · obtain ⟨j, hj⟩ := exists_top MI
    obtain ⟨k, hk⟩ := exists_bot MI
    unfold knobenSeasonality
    rw [← hj, ← hk]; linarith [(hb j).2, (hb k).1]
  · unfold knobenSnow
    refine div_nonneg (Finset.sum_nonneg fun k _ => ?_) hS.le
    split_ifs
    · exact hP k
    · exact le_refl _
  · unfold knobenSnow
    rw [div_le_one hS]
    refine Finset.sum_le_sum fun k _ => ?_
    split_ifs
    · exact le_refl _
    · exact hP k
  · intro h
    unfold knobenSnow
    rw [Finset.sum_eq_zero (fun k _ => if_neg (not_lt.2 (h k))), zero_div]
  · intro h
    unfold knobenSnow
    rw [Finset.sum_congr rfl (fun k _ => if_pos (h k)), div_self hS.ne']

/-- **C198** The conversion back gives the ratio of evaporation to precipitation of a month, and of the year when this
ratio is the same in all months. -/
theorem C198_convert (P E : Fin 12 → ℝ) (hP : ∀ k, 0 < P k) (hE : ∀ k, 0 ≤ E k) :
    (∀ k, convertAridity (moistureIndex (P k) (E k)) = E k / P k) ∧
      ((∀ j k, E j / P j = E k / P k) →
        convertAridity (knobenAridity (moistureArray P E)) = annualAridity P E) := by
  have hone : ∀ k, convertAridity (moistureIndex (P k) (E k)) = E k / P k := by
    intro k
    have hp := hP k
    unfold convertAridity moistureIndex
    by_cases h1 : E k < P k
    · rw [if_pos h1, if_pos (by rw [sub_nonneg, div_le_one hp]; exact h1.le)]; ring
    · by_cases h2 : E k = P k
      · rw [if_neg h1, if_pos h2, if_pos (le_refl _), h2, div_self hp.ne']; ring
      · have h3 : P k < E k := lt_of_le_of_ne (not_lt.1 h1) (fun e => h2 e.symm)
        have he : 0 < E k := hp.trans h3
        rw [if_neg h1, if_neg h2, if_neg (by
          rw [not_le, sub_neg, div_lt_one he]; exact h3)]
        rw [sub_add_cancel, one_div, inv_div]
  refine ⟨hone, fun h => ?_⟩
  set r := E 0 / P 0 with hr
  have hEr : ∀ k, E k = r * P k := fun k => by
    have := h k 0
    rw [div_eq_iff (hP k).ne'] at this
    exact this
  have hmi : ∀ k, moistureArray P E k = moistureArray P E 0 := by
    intro k
    have : ∀ k, moistureArray P E k = (1 - r) / max 1 r := by
      intro k
      show moistureIndex (P k) (E k) = _
      rw [moistureIndex_eq (hP k).le (hE k), hEr k]
      have e1 : max (P k) (r * P k) = max 1 r * P k := by
        rw [max_mul_of_nonneg _ _ (hP k).le, one_mul]
      have e2 : P k - r * P k = (1 - r) * P k := by ring
      rw [e1, e2, mul_div_mul_right _ _ (hP k).ne']
    rw [this k, this 0]
  have hk : knobenAridity (moistureArray P E) = moistureIndex (P 0) (E 0) := by
    unfold knobenAridity
    rw [Finset.sum_congr rfl (fun k _ => hmi k)]
    simp [moistureArray]
  rw [hk, hone 0]
  unfold annualAridity
  rw [Finset.sum_congr rfl (fun k _ => hEr k), ← Finset.mul_sum, mul_div_assoc, div_self, mul_one]
  exact (Finset.sum_pos (fun k _ => hP k) ⟨0, Finset.mem_univ _⟩).ne'

/-- Non-vacuity: evaporation of a third of the precipitation. -/
example : moistureIndex 3 1 = 2 / 3 ∧ moistureIndex 1 3 = -(2 / 3) ∧ convertAridity (-(2 / 3)) = 3 := by
  refine ⟨?_, ?_, ?_⟩ <;> norm_num [moistureIndex, convertAridity]

end Climate
