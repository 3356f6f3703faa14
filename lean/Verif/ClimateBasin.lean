import Verif.ClimateProps
import Verif.ClimateIndex

set_option autoImplicit false

/-!
# The class of a basin of the GAGES-II table: property C226
-/

namespace Climate

open Real

/-- The seasonal water balance class of one row of the climate table, as in the loop of `get_swb_points`
(gages2_utils.py:1039-1067): snow percentage `SNOW_PCT_PRECIP`, twelve monthly temperatures, evaporation `PET` in mm and
precipitation `PPTAVG_BASIN` in cm.  The precipitation is not zero in the theorems. -/
noncomputable def basinClass (original useB3 : Bool) (pct : ℝ) (T : Fin 12 → ℝ) (pet p : ℝ) : Except String String :=
  match snowFraction "none" pct with
  | .error e => .error e
  | .ok fs =>
    match timingMonthly fs T with
    | .error e => .error e
    | .ok d => .ok (swbClass original useB3 d fs (aridityIndex pet p))

/-- Without snow the index is positive as soon as the mean temperature is not below the seasonal range. -/
theorem timingOf_zero_pos {T : ℝ} (h : -1 < T) : 0 < timingOf 0 T := by
  unfold timingOf
  by_cases h1 : T < 1
  · rw [if_pos ⟨h, h1⟩]
    have hs := sqrt_pos_of h h1
    have ha : arcsin T < π / 2 := arcsin_lt_pi_div_two.mpr h1
    refine lt_min (lt_max_of_lt_left (div_pos (by linarith) (by positivity))) (by norm_num)
  · rw [if_neg (fun hh => h1 hh.2), if_neg (by linarith)]
    norm_num

theorem snow_of_pct {pct : ℝ} (h : pct = -9999 ∨ (0 ≤ pct ∧ pct ≤ 100)) :
    ∃ f, snowFraction "none" pct = .ok f ∧ 0 ≤ f ∧ f ≤ 1 := by
  have hn : "none".toLower ≠ "percent" := by decide +kernel
  unfold snowFraction
  rcases h with h | ⟨h, h'⟩
  · exact ⟨0, by simp [hn, h], le_rfl, zero_le_one⟩
  · refine ⟨pct / 100, ?_, by positivity, by linarith⟩
    have : pct ≠ -9999 := by intro e; rw [e] at h; norm_num at h
    simp [hn, this]

/-- The class of a point by its timing index, when the index of a basin without snow is positive. -/
theorem none_iff {d f p : ℝ} (hd : -1 ≤ d) (hd' : d ≤ 1) (hf : 0 ≤ f) (hf' : f ≤ 1) (hp : 0 < p)
    (h0 : f = 0 → d = -1 ∨ 0 < d) :
    swbClass false true d f p = "None" ↔ d = -1 ∨ 58 / 10 < p := by
  by_cases hp' : p ≤ 58 / 10
  · rw [C192_gaps d f p hd hd' hf hf' hp hp']
    constructor
    · rintro (h | ⟨h, h'⟩ | ⟨h, h', -⟩)
      · exact Or.inl h
      · rcases h0 h with e | e
        · exact Or.inl e
        · linarith
      · rcases h0 h with e | e
        · exact Or.inl e
        · linarith
    · rintro (h | h)
      · exact Or.inl h
      · linarith
  · have h' := not_le.mp hp'
    simp only [(C192_violated d f p).2.2 h', h', or_true]

/-- **C226** The class of a basin, exactly.  The call fails exactly when every month is at one degree.  Otherwise the
basin is left without a class exactly when its mean temperature is below one degree by half of the seasonal range or
more (no rain in the sense of the index), or its evaporation is above 5.8 times its precipitation. -/
theorem C226_class_partial (pct : ℝ) (hpct : pct = -9999 ∨ (0 ≤ pct ∧ pct ≤ 100)) (T : Fin 12 → ℝ) {pet p : ℝ}
    (hpet : 0 < pet) (hp : 0 < p) {hi lo : ℝ} (hhi : ∃ k, T k = hi) (hhi' : ∀ k, T k ≤ hi) (hlo : ∃ k, T k = lo)
    (hlo' : ∀ k, lo ≤ T k) :
    ((∃ e, basinClass false true pct T pet p = .error e) ↔ ∀ k, T k = 1) ∧
      ((¬ ∀ k, T k = 1) → ∃ c, basinClass false true pct T pet p = .ok c ∧ c ∈ swbNames true ∧
        (c = "None" ↔ (∑ k, T k) / 12 - 1 ≤ -((hi - lo) / 2) ∨ 5.8 * (10 * p) < pet)) := by
  obtain ⟨f, hf, hf0, hf1⟩ := snow_of_pct hpct
  obtain ⟨he, hv⟩ := C195_monthly f T
  obtain ⟨hv1, hv2, hv3⟩ := hv hi lo hhi hhi' hlo hlo'
  have hari : 0 < aridityIndex pet p := by unfold aridityIndex; positivity
  have hari' : 58 / 10 < aridityIndex pet p ↔ 5.8 * (10 * p) < pet := by
    unfold aridityIndex
    rw [lt_div_iff₀ hp, lt_div_iff₀ (by norm_num)]
    constructor <;> intro h <;> nlinarith
  have hmean : ∀ c, (∀ k, T k = c) → (∑ k, T k) / 12 = c := by
    intro c hc
    rw [Finset.sum_congr rfl (fun k _ => hc k)]; simp
  have hall : (¬ ∀ k, T k = 1) → ∃ d, timingMonthly f T = .ok d ∧ -1 ≤ d ∧ d ≤ 1 ∧ (f = 0 → d = -1 ∨ 0 < d) ∧
      (d = -1 ↔ (∑ k, T k) / 12 - 1 ≤ -((hi - lo) / 2)) := by
    intro hno
    have hle : lo ≤ hi := by obtain ⟨k, rfl⟩ := hlo; exact hhi' k
    rcases eq_or_lt_of_le hle with e | e
    · have hc : ∀ k, T k = hi := fun k => le_antisymm (hhi' k) (e ▸ hlo' k)
      rw [hmean hi hc, e]
      rcases lt_trichotomy hi 1 with h | h | h
      · exact ⟨-1, hv2 e h, le_rfl, by norm_num, fun _ => Or.inl rfl, ⟨fun _ => by linarith, fun _ => rfl⟩⟩
      · exact absurd (fun k => (hc k).trans h) hno
      · exact ⟨1, hv3 e h, by norm_num, le_rfl, fun _ => Or.inr one_pos,
          ⟨fun hh => by norm_num at hh, fun hh => by linarith⟩⟩
    · refine ⟨_, hv1 e, (C195_range _ _).1, (C195_range _ _).2.1, ?_, ?_⟩
      · rintro rfl
        by_cases ht : -1 < ((∑ k, T k) / 12 - 1) / ((hi - lo) / 2)
        · exact Or.inr (timingOf_zero_pos ht)
        · exact Or.inl ((C195_range _ _).2.2.1.mpr (not_lt.mp ht))
      · rw [(C195_range _ _).2.2.1, div_le_iff₀ (by linarith)]
        constructor <;> intro h <;> linarith
  constructor
  · rw [← he]
    unfold basinClass
    rw [hf]
    dsimp only
    cases ht : timingMonthly f T with
    | error e => simp
    | ok d => simp
  · intro hno
    obtain ⟨d, hd, h1, h2, h3, h4⟩ := hall hno
    refine ⟨swbClass false true d f (aridityIndex pet p), ?_, ?_, ?_⟩
    · unfold basinClass
      rw [hf]
      dsimp only
      rw [hd]
    · exact (C194_names false true d f _).1
    · rw [none_iff h1 h2 hf0 hf1 hari h3, h4, hari']

/-- **C226** Basins without a class: a basin that is below freezing all year round, whatever its snow percentage,
evaporation and precipitation, and an arid basin (two metres of evaporation, thirty centimetres of rain). -/
theorem C226_violated :
    (∀ pct pet p : ℝ, (0 ≤ pct ∧ pct ≤ 100) → 0 < pet → 0 < p →
      basinClass false true pct (fun k => if k = 0 then -20 else -15) pet p = .ok "None") ∧
    basinClass false true 0 (fun k => if k = 0 then 10 else 20) 2000 30 = .ok "None" := by
  have hsum : ∀ a b : ℝ, ∑ k : Fin 12, (if k = 0 then a else b) = a + 11 * b := by
    intro a b
    rw [Fin.sum_univ_succ]
    simp [Fin.succ_ne_zero]
  constructor
  · intro pct pet p hpct hpet hp
    obtain ⟨-, h⟩ := C226_class_partial pct (Or.inr hpct) (fun k => if k = 0 then -20 else -15) hpet hp (hi := -15)
      (lo := -20) ⟨1, by simp⟩ (fun k => by split_ifs <;> norm_num) ⟨0, by simp⟩
      (fun k => by split_ifs <;> norm_num)
    obtain ⟨c, h1, -, h2⟩ := h (fun hh => by have := hh 0; norm_num at this)
    rw [h1, h2.mpr (Or.inl ?_)]
    rw [hsum]
    norm_num
  · obtain ⟨-, h⟩ := C226_class_partial 0 (Or.inr ⟨le_rfl, by norm_num⟩) (fun k => if k = 0 then 10 else 20)
      (pet := 2000) (p := 30) (by norm_num) (by norm_num) (hi := 20) (lo := 10) ⟨1, by simp⟩
      (fun k => by split_ifs <;> norm_num) ⟨0, by simp⟩ (fun k => by split_ifs <;> norm_num)
    obtain ⟨c, h1, -, h2⟩ := h (fun hh => by have := hh 0; norm_num at this)
    rw [h1, h2.mpr (Or.inr (by norm_num))]

/-- A basin with a class: ten degrees in one month, twenty in the others, one metre each of evaporation and rain. -/
example : ∃ c, basinClass false true 0 (fun k => if k = 0 then 10 else 20) 1000 100 = .ok c ∧ c ≠ "None" := by
  obtain ⟨-, h⟩ := C226_class_partial 0 (Or.inr ⟨le_rfl, by norm_num⟩) (fun k => if k = 0 then 10 else 20)
    (pet := 1000) (p := 100) (by norm_num) (by norm_num) (hi := 20) (lo := 10) ⟨1, by simp⟩
    (fun k => by split_ifs <;> norm_num) ⟨0, by simp⟩ (fun k => by split_ifs <;> norm_num)
  obtain ⟨c, h1, -, h2⟩ := h (fun hh => by have := hh 0; norm_num at this)
  refine ⟨c, h1, fun e => ?_⟩
  rcases h2.mp e with h | h
  · rw [Fin.sum_univ_succ] at h
    simp [Fin.succ_ne_zero] at h
    norm_num at h
  · norm_num at h

end Climate
