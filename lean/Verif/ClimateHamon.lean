import Verif.ClimateModel
import Verif.SolarSeason
import Mathlib.Tactic.Linarith
import Mathlib.Tactic.FieldSimp
import Mathlib.Tactic.Positivity
import Mathlib.Analysis.SpecialFunctions.Trigonometric.Bounds
import Mathlib.Algebra.BigOperators.Intervals

/-!
# Evaporation of Hamon: property C199
-/

set_option autoImplicit false

namespace Climate

open Real

/-- Specification: evaporation of a day after Hamon (1963), with the length of the day in hours: 0.1651 times the
length of the day in units of 12 hours times the saturation vapour density. -/
noncomputable def hamonDay (hours T : ℝ) : ℝ :=
  0.1651 * (hours / 12) * (216.7 * (0.6108 * exp (17.27 * T / (T + 237.3))) / (T + 273.16))

/-- Specification: the first day of each month of a year of 365 days, counted from zero, and the end of the year. -/
def firstDay : List ℕ := [0, 31, 59, 90, 120, 151, 181, 212, 243, 273, 304, 334, 365]

theorem daylight_eq (J lat : ℝ) (h : |tan (lat * (π / 180)) * tan (Solar.declination (Solar.dayAngle J))| ≤ 1) :
    daylight J lat = some (Solar.dayLength lat J) := by
  have e1 : declination (dayAngle J) = Solar.declination (Solar.dayAngle J) := rfl
  have hx : |-1 * (tan (lat * (π / 180)) * tan (declination (dayAngle J)))| ≤ 1 := by
    rw [e1, abs_mul, abs_neg, abs_one, one_mul]; exact h
  unfold daylight
  simp only []
  rw [if_pos hx, (Solar.C68_day_length lat J).2.2.2]
  congr 1
  have hb := abs_le.1 hx
  have e2 : Solar.riseArg lat (Solar.declination (Solar.dayAngle J)) =
      -1 * (tan (lat * (π / 180)) * tan (declination (dayAngle J))) := by
    unfold Solar.riseArg Solar.rad
    rw [mul_assoc, ← e1, max_eq_right hb.1, min_eq_left hb.2]
  unfold Solar.sunset
  rw [e2]
  unfold Solar.omega
  have := pi_pos
  field_simp
  ring

theorem daylight_none (J lat : ℝ) (h : 1 < |tan (lat * (π / 180)) * tan (Solar.declination (Solar.dayAngle J))|) :
    daylight J lat = none := by
  have e1 : declination (dayAngle J) = Solar.declination (Solar.dayAngle J) := rfl
  have hx : ¬ |-1 * (tan (lat * (π / 180)) * tan (declination (dayAngle J)))| ≤ 1 := by
    rw [e1, abs_mul, abs_neg, abs_one, one_mul, not_le]; exact h
  unfold daylight
  simp only []
  rw [if_neg hx]

theorem abs_tan_le {x y : ℝ} (h : |x| ≤ y) (hy : y < π / 2) : |tan x| ≤ tan y := by
  have hb := abs_le.1 h
  have mono : ∀ a b : ℝ, -(π / 2) < a → a ≤ b → b < π / 2 → tan a ≤ tan b := by
    intro a b h1 h2 h3
    rcases eq_or_lt_of_le h2 with rfl | h2
    · exact le_refl _
    · exact (tan_lt_tan_of_lt_of_lt_pi_div_two h1 h3 h2).le
  rw [abs_le]
  constructor
  · rw [← tan_neg]; exact mono _ _ (by linarith) hb.1 (by linarith)
  · exact mono _ _ (by linarith) hb.2 hy

/-- Between the polar circles the tangents multiply to at most one. -/
theorem tan_product (J lat : ℝ) (hlat : |lat| ≤ 66.5) :
    |tan (lat * (π / 180)) * tan (Solar.declination (Solar.dayAngle J))| ≤ 1 := by
  have hp := pi_pos
  have h1 : |lat * (π / 180)| ≤ 66.5 * π / 180 := by
    rw [abs_mul, abs_of_pos (by positivity : (0 : ℝ) < π / 180)]
    have := mul_le_mul_of_nonneg_right hlat (by positivity : (0 : ℝ) ≤ π / 180)
    linarith
  have a := abs_tan_le h1 (by linarith)
  have b := abs_tan_le (Solar.C68_obliquity J) (by linarith)
  rw [abs_mul]
  have e : (66.5 * π / 180 : ℝ) = π / 2 - 23.5 * π / 180 := by ring
  have hpos : 0 < tan (23.5 * π / 180) := tan_pos_of_pos_of_lt_pi_div_two (by positivity) (by linarith)
  rw [e, tan_pi_div_two_sub] at a
  calc _ ≤ (tan (23.5 * π / 180))⁻¹ * tan (23.5 * π / 180) :=
        mul_le_mul a b (abs_nonneg _) (inv_nonneg.2 hpos.le)
    _ = 1 := inv_mul_cancel₀ hpos.ne'

/-- **C199** Between the latitudes -66.5 and 66.5 degrees the evaporation of every day is that of Hamon with the length
of the day of the radiation functions: 12 hours at the equator, and together 24 hours in the two hemispheres. -/
theorem C199_day_partial (J T lat : ℝ) (hlat : |lat| ≤ 66.5) :
    petDay J T lat = some (hamonDay (Solar.dayLength lat J) T) := by
  unfold petDay
  rw [daylight_eq J lat (tan_product J lat hlat)]
  rfl

theorem petDays_eq (T lat : ℝ) (hlat : |lat| ≤ 66.5) (d : ℕ) : ∀ n : ℕ,
    petDays T lat d n = some (∑ J ∈ Finset.Ico d (d + n), hamonDay (Solar.dayLength lat J) T)
  | 0 => by simp [petDays]
  | n + 1 => by
    unfold petDays
    rw [petDays_eq T lat hlat d n, C199_day_partial _ _ _ hlat]
    simp only []
    rw [← add_assoc, Finset.sum_Ico_succ_top (by omega)]

theorem startDay_eq : ∀ k : ℕ, k ≤ 12 → startDay k = firstDay.getD k 0 := by decide

/-- **C199** The evaporation of a month is the sum over its days, and the months share out the days of the year. -/
theorem C199_months_partial (T : Fin 12 → ℝ) (lat : ℝ) (hlat : |lat| ≤ 66.5) :
    (∀ k : Fin 12, petArray T lat k =
      some (∑ J ∈ Finset.Ico (firstDay.getD k 0) (firstDay.getD (k + 1) 0), hamonDay (Solar.dayLength lat J) (T k))) ∧
    (∀ t, (∀ k, T k = t) → ∃ v : Fin 12 → ℝ, (∀ k, petArray T lat k = some (v k)) ∧
      ∑ k, v k = ∑ J ∈ Finset.range 365, hamonDay (Solar.dayLength lat J) t) := by
  have h1 : ∀ k : Fin 12, petArray T lat k =
      some (∑ J ∈ Finset.Ico (firstDay.getD k 0) (firstDay.getD (k + 1) 0),
        hamonDay (Solar.dayLength lat J) (T k)) := by
    intro k
    unfold petArray petMonth
    rw [petDays_eq _ _ hlat, Nat.add_sub_cancel]
    have hk := k.2
    rw [startDay_eq k (by omega), startDay_eq (k + 1) (by omega)]
    have hle : firstDay.getD k 0 ≤ firstDay.getD (k + 1) 0 := by
      have : ∀ j : Fin 12, firstDay.getD j 0 ≤ firstDay.getD (j + 1) 0 := by decide
      exact this k
    rw [Nat.add_sub_cancel' hle]
  refine ⟨h1, fun t ht => ⟨_, h1, ?_⟩⟩
  simp only [ht]
  generalize (fun J : ℕ => hamonDay (Solar.dayLength lat J) t) = g
  rw [Fin.sum_univ_eq_sum_range (fun k => ∑ J ∈ Finset.Ico (firstDay.getD k 0) (firstDay.getD (k + 1) 0), g J) 12,
    Finset.range_eq_Ico, Finset.range_eq_Ico]
  have tele : ∀ n ≤ 12, ∑ k ∈ Finset.Ico 0 n, ∑ J ∈ Finset.Ico (firstDay.getD k 0) (firstDay.getD (k + 1) 0), g J =
      ∑ J ∈ Finset.Ico 0 (firstDay.getD n 0), g J := by
    intro n
    induction n with
    | zero => intro _; simp [firstDay]
    | succ n ih =>
      intro hn
      rw [Finset.sum_Ico_succ_top (Nat.zero_le _), ih (by omega)]
      refine Finset.sum_Ico_consecutive g (Nat.zero_le _) ?_
      have : ∀ j : Fin 12, firstDay.getD j 0 ≤ firstDay.getD (j + 1) 0 := by decide
      exact this ⟨n, by omega⟩
  exact tele 12 (le_refl _)

/-- **C199** The evaporation of a day is positive on days with light and grows with temperature, above -237.3 degrees
and up to 3860 degrees. -/
theorem C199_temperature (hours T T' : ℝ) (hh : 0 < hours) (h1 : -237.3 < T) (h : T < T') (h2 : T' ≤ 3860) :
    0 < hamonDay hours T ∧ hamonDay hours T < hamonDay hours T' := by
  have a : 0 < T + 237.3 := by linarith
  have a' : 0 < T' + 237.3 := by linarith
  have b : 0 < T + 273.16 := by linarith
  have b' : 0 < T' + 273.16 := by linarith
  have e := exp_pos (17.27 * T / (T + 237.3))
  refine ⟨by unfold hamonDay; positivity, ?_⟩
  unfold hamonDay
  refine mul_lt_mul_of_pos_left ?_ (by positivity)
  rw [div_lt_div_iff₀ b b']
  have hx : exp (17.27 * T' / (T' + 237.3)) =
      exp (17.27 * T / (T + 237.3)) * exp (17.27 * T' / (T' + 237.3) - 17.27 * T / (T + 237.3)) := by
    rw [← exp_add]; congr 1; ring
  have hd : 17.27 * T' / (T' + 237.3) - 17.27 * T / (T + 237.3) =
      17.27 * 237.3 * (T' - T) / ((T' + 237.3) * (T + 237.3)) := by
    field_simp; ring
  have hlin := add_one_le_exp (17.27 * T' / (T' + 237.3) - 17.27 * T / (T + 237.3))
  have hgt : (T' + 273.16) / (T + 273.16) < exp (17.27 * T' / (T' + 237.3) - 17.27 * T / (T + 237.3)) := by
    refine lt_of_lt_of_le ?_ hlin
    have e2 : (T' + 273.16) / (T + 273.16) = (T' - T) / (T + 273.16) + 1 := by field_simp; ring
    rw [e2, hd]
    have hs : 0 < T' - T := by linarith
    have : (T' - T) / (T + 273.16) < 17.27 * 237.3 * (T' - T) / ((T' + 237.3) * (T + 237.3)) := by
      rw [div_lt_div_iff₀ b (by positivity)]
      have : (T' + 237.3) * (T + 237.3) < 17.27 * 237.3 * (T + 273.16) := by nlinarith
      nlinarith
    linarith
  rw [div_lt_iff₀ b] at hgt
  rw [hx]
  have := mul_lt_mul_of_pos_left hgt e
  nlinarith

/-- The declination on the first day of the year. -/
theorem declination_zero : Solar.declination (Solar.dayAngle 0) = -0.402449 := by
  unfold Solar.declination Solar.dayAngle
  simp only [mul_zero, zero_div, cos_zero, sin_zero]
  norm_num

theorem petDays_none (T lat : ℝ) (d : ℕ) (h : petDay d T lat = none) : ∀ n : ℕ, petDays T lat d (n + 1) = none
  | 0 => by simp [petDays, h]
  | n + 1 => by
    unfold petDays
    rw [petDays_none T lat d h n]

/-- **C199** Inside the polar circles the sun does not set or rise on some days and the arc cosine is not a number: from
67 degrees to the pole, in either hemisphere, January and with it the whole year have no evaporation. -/
theorem C199_violated (T lat : ℝ) (h1 : 67 ≤ |lat|) (h2 : |lat| < 90) :
    petDay 0 T lat = none ∧ petMonth 1 T lat = none := by
  have hp := pi_pos
  have hp3 := pi_gt_d4
  have hp4 := pi_lt_d4
  have hday : petDay 0 T lat = none := by
    unfold petDay
    rw [daylight_none]
    · rfl
    · rw [declination_zero, abs_mul, tan_neg, abs_neg]
      have ht : (0 : ℝ) < tan 0.402449 := tan_pos_of_pos_of_lt_pi_div_two (by norm_num) (by linarith)
      rw [abs_of_pos ht]
      have hl : |tan (lat * (π / 180))| = tan (|lat| * (π / 180)) := by
        have hnn : 0 ≤ tan (|lat| * (π / 180)) :=
          (tan_pos_of_pos_of_lt_pi_div_two (by positivity) (by nlinarith)).le
        rcases abs_cases lat with ⟨e, -⟩ | ⟨e, -⟩
        · rw [e] at hnn ⊢; exact abs_of_nonneg hnn
        · rw [e] at hnn ⊢
          rw [neg_mul, tan_neg] at hnn ⊢
          exact abs_of_nonpos (by linarith)
      rw [hl]
      have hgt : tan (π / 2 - 0.402449) < tan (|lat| * (π / 180)) := by
        refine tan_lt_tan_of_lt_of_lt_pi_div_two (by linarith) (by nlinarith) ?_
        nlinarith
      rw [tan_pi_div_two_sub] at hgt
      calc (1 : ℝ) = (tan 0.402449)⁻¹ * tan 0.402449 := (inv_mul_cancel₀ ht.ne').symm
        _ < _ := mul_lt_mul_of_pos_right hgt ht
  refine ⟨hday, ?_⟩
  unfold petMonth
  have e : startDay 1 - startDay (1 - 1) = 30 + 1 := by decide
  have e0 : startDay (1 - 1) = 0 := by decide
  rw [e, e0]
  exact petDays_none T lat 0 (by exact_mod_cast hday) 30

/-- Non-vacuity: at the equator every day has the evaporation of twelve hours of light. -/
example (J T : ℝ) : petDay J T 0 = some (hamonDay 12 T) := by
  rw [C199_day_partial J T 0 (by norm_num), Solar.C68_equator]

end Climate
