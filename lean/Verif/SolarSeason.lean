import Verif.SolarGeometry
import Mathlib.Analysis.Real.Pi.Bounds

/-!
# The course of the year, and the day on a slope (C68, C70)
-/

set_option autoImplicit false

noncomputable section

namespace Solar

open Real

/-! ## Specification -/

/-- A Fourier series in the day of the year, given by the pairs of its cosine and sine coefficients. -/
def yearSeries (coef : List (ℝ × ℝ)) (J : ℝ) : ℝ :=
  ((List.range coef.length).map (fun k =>
    (coef.getD k (0, 0)).1 * cos (k * (J / 365 * (2 * π))) +
    (coef.getD k (0, 0)).2 * sin (k * (J / 365 * (2 * π))))).sum

/-- The declination of the sun after Spencer (1971), radians. -/
def spencerDeclination : ℝ → ℝ :=
  yearSeries [(6918 / 10 ^ 6, 0), (-399912 / 10 ^ 6, 70257 / 10 ^ 6), (-6758 / 10 ^ 6, 907 / 10 ^ 6),
    (-2697 / 10 ^ 6, 1480 / 10 ^ 6)]

/-- The squared ratio of the mean distance and the distance to the sun after Spencer (1971). -/
def spencerDistance : ℝ → ℝ :=
  yearSeries [(1000110 / 10 ^ 6, 0), (34221 / 10 ^ 6, 1280 / 10 ^ 6), (719 / 10 ^ 6, 77 / 10 ^ 6)]

/-! ## C68, the year -/

/-- **C68.**  Declination and distance correction are the published series in the day of the year. -/
theorem C68_spencer (J : ℝ) : declination (dayAngle J) = spencerDeclination J ∧
    eccentricity (dayAngle J) = spencerDistance J := by
  have e : (2 * π) * J / 365 = J / 365 * (2 * π) := by ring
  constructor
  · unfold declination dayAngle spencerDeclination yearSeries
    simp only [List.length_cons, List.length_nil, List.range_succ, List.range_zero, List.nil_append,
      List.cons_append, List.map_cons, List.map_nil, List.sum_cons, List.sum_nil, List.getD_cons_zero,
      List.getD_cons_succ, e]
    norm_num
    ring
  · unfold eccentricity dayAngle spencerDistance yearSeries
    simp only [List.length_cons, List.length_nil, List.range_succ, List.range_zero, List.nil_append,
      List.cons_append, List.map_cons, List.map_nil, List.sum_cons, List.sum_nil, List.getD_cons_zero,
      List.getD_cons_succ, e]
    norm_num
    ring

/-- **C68.**  Everything repeats after 365 days. -/
theorem C68_year (lat J th : ℝ) : sunHeight lat (J + 365) th = sunHeight lat J th ∧
    dayLength lat (J + 365) = dayLength lat J ∧ etFlux lat (J + 365) th = etFlux lat J th := by
  have e : dayAngle (J + 365) = dayAngle J + 2 * π := by unfold dayAngle; ring
  have e2 : 2 * (dayAngle J + 2 * π) = 2 * dayAngle J + (2 : ℕ) * (2 * π) := by push_cast; ring
  have e3 : 3 * (dayAngle J + 2 * π) = 3 * dayAngle J + (3 : ℕ) * (2 * π) := by push_cast; ring
  have hd : declination (dayAngle (J + 365)) = declination (dayAngle J) := by
    unfold declination
    rw [e, e2, e3, cos_add_two_pi, sin_add_two_pi, cos_add_nat_mul_two_pi, sin_add_nat_mul_two_pi,
      cos_add_nat_mul_two_pi, sin_add_nat_mul_two_pi]
  have he : eccentricity (dayAngle (J + 365)) = eccentricity (dayAngle J) := by
    unfold eccentricity
    rw [e, e2, cos_add_two_pi, sin_add_two_pi, cos_add_nat_mul_two_pi, sin_add_nat_mul_two_pi]
  have hh : sunHeight lat (J + 365) th = sunHeight lat J th := by rw [sunHeight_eq, sunHeight_eq, hd]
  refine ⟨hh, ?_, ?_⟩
  · rw [(C68_day_length lat (J + 365)).2.2.2, (C68_day_length lat J).2.2.2, hd]
  · rw [C68_flux, C68_flux, hh, he]

/-- **C68.**  The sun stays within 23.5 degrees of the plane of the equator. -/
theorem C68_obliquity (J : ℝ) : |declination (dayAngle J)| ≤ 23.5 * π / 180 := by
  set Γ := dayAngle J
  have hpi := pi_gt_d4
  have d1 : cos (3 * Γ) * cos (2 * Γ) + sin (3 * Γ) * sin (2 * Γ) = cos Γ := by
    rw [← cos_sub]; ring_nf
  have d2 : cos (3 * Γ) * cos Γ + sin (3 * Γ) * sin Γ = cos (2 * Γ) := by
    rw [← cos_sub]; ring_nf
  have d3 : cos (2 * Γ) * cos Γ + sin (2 * Γ) * sin Γ = cos Γ := by
    rw [← cos_sub]; ring_nf
  have s1 : sin (3 * Γ) * cos (2 * Γ) - cos (3 * Γ) * sin (2 * Γ) = sin Γ := by
    rw [← sin_sub]; ring_nf
  have s2 : sin (3 * Γ) * cos Γ - cos (3 * Γ) * sin Γ = sin (2 * Γ) := by
    rw [← sin_sub]; ring_nf
  have s3 : sin (2 * Γ) * cos Γ - cos (2 * Γ) * sin Γ = sin Γ := by
    rw [← sin_sub]; ring_nf
  have u1 := cos_sq_add_sin_sq Γ
  have u2 := cos_sq_add_sin_sq (2 * Γ)
  have u3 := cos_sq_add_sin_sq (3 * Γ)
  have b1 := neg_one_le_cos Γ; have b2 := cos_le_one Γ
  have b3 := neg_one_le_sin Γ; have b4 := sin_le_one Γ
  have b5 := neg_one_le_cos (2 * Γ); have b6 := cos_le_one (2 * Γ)
  have b7 := neg_one_le_sin (2 * Γ); have b8 := sin_le_one (2 * Γ)
  have b9 := neg_one_le_cos (3 * Γ); have b10 := cos_le_one (3 * Γ)
  have b11 := neg_one_le_sin (3 * Γ); have b12 := sin_le_one (3 * Γ)
  generalize hc1 : cos Γ = c1 at *
  generalize hn1 : sin Γ = n1 at *
  generalize hc2 : cos (2 * Γ) = c2 at *
  generalize hn2 : sin (2 * Γ) = n2 at *
  generalize hc3 : cos (3 * Γ) = c3 at *
  generalize hn3 : sin (3 * Γ) = n3 at *
  have hd : declination Γ = 0.006918 - 0.399912 * c1 + 0.070257 * n1 - 0.006758 * c2 + 0.000907 * n2
      - 0.002697 * c3 + 0.001480 * n3 := by
    unfold declination; rw [hc1, hn1, hc2, hn2, hc3, hn3]
  rw [abs_le, hd]
  constructor
  · have q1 := sq_nonneg (-0.0028209 + (-0.0098292 * c1 - 0.0018979 * n1) + (-0.4274249 * c2 - 0.0736864 * n2)
      + 0.4780436 * c3)
    have q2 := sq_nonneg (0.001548 + (-0.0098292 * n1 + 0.0018979 * c1) + (-0.4274249 * n2 + 0.0736864 * c2)
      + 0.4780436 * n3)
    linarith only [q1, q2, d1, d2, d3, s1, s2, s3, u1, u2, u3, b1, b2, b3, b4, b5, b6, b7, b8, b9, b10, b11, b12, hpi]
  · have q1 := sq_nonneg (0.0029371 + (0.0043285 * c1 - 0.0000326 * n1) + (0.4314306 * c2 + 0.0772562 * n2)
      + 0.45912 * c3)
    have q2 := sq_nonneg (-0.0016118 + (0.0043285 * n1 + 0.0000326 * c1) + (0.4314306 * n2 - 0.0772562 * c2)
      + 0.45912 * n3)
    linarith only [q1, q2, d1, d2, d3, s1, s2, s3, u1, u2, u3, b1, b2, b3, b4, b5, b6, b7, b8, b9, b10, b11, b12, hpi]

theorem declination_neg {Γ : ℝ} (h : 1 / 2 ≤ cos Γ) : declination Γ < 0 := by
  have h3 := neg_one_le_sin Γ; have h4 := sin_le_one Γ
  have h5 := neg_one_le_cos (2 * Γ); have h6 := cos_le_one (2 * Γ)
  have h7 := neg_one_le_sin (2 * Γ); have h8 := sin_le_one (2 * Γ)
  have h9 := neg_one_le_cos (3 * Γ); have h10 := cos_le_one (3 * Γ)
  have h11 := neg_one_le_sin (3 * Γ); have h12 := sin_le_one (3 * Γ)
  unfold declination
  linarith

theorem declination_pos {Γ : ℝ} (h : cos Γ ≤ -(1 / 2)) : 0 < declination Γ := by
  have h3 := neg_one_le_sin Γ; have h4 := sin_le_one Γ
  have h5 := neg_one_le_cos (2 * Γ); have h6 := cos_le_one (2 * Γ)
  have h7 := neg_one_le_sin (2 * Γ); have h8 := sin_le_one (2 * Γ)
  have h9 := neg_one_le_cos (3 * Γ); have h10 := cos_le_one (3 * Γ)
  have h11 := neg_one_le_sin (3 * Γ); have h12 := sin_le_one (3 * Γ)
  unfold declination
  linarith

theorem tan_neg_of {x : ℝ} (h : |x| ≤ 0.49) (hx : x < 0) : tan x < 0 := by
  have := pi_gt_three
  have h' := abs_le.1 h
  exact tan_neg_of_neg_of_pi_div_two_lt hx (by linarith)

theorem dayLength_lt {lat J : ℝ} (h0 : 0 < lat) (h1 : lat < 90) (hd : declination (dayAngle J) < 0) :
    dayLength lat J < 12 := by
  have hp := pi_pos
  have ht := tan_neg_of (abs_declination _) hd
  have hr := rad_range (lat := lat) (by rw [abs_lt]; constructor <;> linarith)
  have hφ : 0 < tan (rad lat) := tan_pos_of_pos_of_lt_pi_div_two (by unfold rad; positivity) hr.2
  have hpos : 0 < riseArg lat (declination (dayAngle J)) := by
    unfold riseArg
    refine lt_min (lt_max_of_lt_right ?_) one_pos
    nlinarith
  rw [(C68_day_length lat J).2.2.2, sunset, omega_eq]
  have ha : arccos (riseArg lat (declination (dayAngle J))) < π / 2 := arccos_lt_pi_div_two.2 hpos
  rw [← mul_div_assoc, div_lt_iff₀ (by positivity)]
  linarith

theorem dayLength_gt {lat J : ℝ} (h0 : 0 < lat) (h1 : lat < 90) (hd : 0 < declination (dayAngle J)) :
    12 < dayLength lat J := by
  have hp := pi_pos
  have hab := abs_le.1 (abs_declination (dayAngle J))
  have ht : 0 < tan (declination (dayAngle J)) := by
    have := pi_gt_three
    exact tan_pos_of_pos_of_lt_pi_div_two hd (by linarith)
  have hr := rad_range (lat := lat) (by rw [abs_lt]; constructor <;> linarith)
  have hφ : 0 < tan (rad lat) := tan_pos_of_pos_of_lt_pi_div_two (by unfold rad; positivity) hr.2
  have hneg : riseArg lat (declination (dayAngle J)) < 0 := by
    unfold riseArg
    refine min_lt_of_left_lt (max_lt (by norm_num) ?_)
    nlinarith
  rw [(C68_day_length lat J).2.2.2, sunset, omega_eq]
  have ha : π / 2 < arccos (riseArg lat (declination (dayAngle J))) := by
    by_contra hn
    have := arccos_le_pi_div_two.1 (not_lt.1 hn)
    linarith
  rw [← mul_div_assoc, lt_div_iff₀ (by positivity)]
  linarith

/-- **C68.**  In the northern hemisphere the days are shorter than twelve hours within two months (a sixth of the year)
of New Year, and longer within two months of the middle of the year; in the southern hemisphere the other way round. -/
theorem C68_seasons (lat J : ℝ) (h0 : 0 < lat) (h1 : lat < 90) :
    (|J| ≤ 365 / 6 → dayLength lat J < 12 ∧ 12 < dayLength (-lat) J) ∧
    (|J - 365 / 2| ≤ 365 / 6 → 12 < dayLength lat J ∧ dayLength (-lat) J < 12) := by
  have hp := pi_pos
  have hh := C68_hemispheres lat J
  constructor
  · intro h
    have hc : 1 / 2 ≤ cos (dayAngle J) := by
      rw [← cos_abs, ← cos_pi_div_three]
      have hab : |dayAngle J| ≤ π / 3 := by
        unfold dayAngle
        rw [abs_div, abs_mul, abs_of_pos (by positivity : (0 : ℝ) < 2 * π), abs_of_pos (by norm_num : (0 : ℝ) < 365),
          div_le_iff₀ (by norm_num)]
        nlinarith
      exact cos_le_cos_of_nonneg_of_le_pi (abs_nonneg _) (by linarith) hab
    have := dayLength_lt h0 h1 (declination_neg hc)
    exact ⟨this, by linarith⟩
  · intro h
    have hc : cos (dayAngle J) ≤ -(1 / 2) := by
      have e : cos (dayAngle J) = -cos (dayAngle J - π) := by rw [cos_sub_pi]; ring
      rw [e, neg_le_neg_iff, ← cos_abs, ← cos_pi_div_three]
      have hab : |dayAngle J - π| ≤ π / 3 := by
        have e : dayAngle J - π = (2 * π) * (J - 365 / 2) / 365 := by unfold dayAngle; ring
        rw [e, abs_div, abs_mul, abs_of_pos (by positivity : (0 : ℝ) < 2 * π),
          abs_of_pos (by norm_num : (0 : ℝ) < 365), div_le_iff₀ (by norm_num)]
        nlinarith
      exact cos_le_cos_of_nonneg_of_le_pi (abs_nonneg _) (by linarith) hab
    have := dayLength_gt h0 h1 (declination_pos hc)
    exact ⟨this, by linarith⟩

example : dayLength 40 10 < 12 ∧ 12 < dayLength 40 172 :=
  ⟨((C68_seasons 40 10 (by norm_num) (by norm_num)).1 (by norm_num [abs_le])).1,
    ((C68_seasons 40 172 (by norm_num) (by norm_num)).2 (by norm_num [abs_le])).1⟩

/-! ## C70, the day on a slope -/

/-- The noon of a slope is less than six hours away from noon. -/
theorem abs_noonOffset (lat α β : ℝ) : |noonOffset lat α β| < 6 := by
  have hp := pi_pos
  have h1 := neg_pi_div_two_lt_arctan
    (sin β * sin α / (cos β * cos (rad lat) - sin β * sin (rad lat) * cos α))
  have h2 := arctan_lt_pi_div_two
    (sin β * sin α / (cos β * cos (rad lat) - sin β * sin (rad lat) * cos α))
  have e : noonOffset lat α β =
      -arctan (sin β * sin α / (cos β * cos (rad lat) - sin β * sin (rad lat) * cos α)) * 12 / π := by
    unfold noonOffset lonOffset
    rw [omega_eq]
    field_simp
    ring
  rw [e, abs_lt]
  constructor
  · rw [lt_div_iff₀ hp]; linarith
  · rw [div_lt_iff₀ hp]; linarith

/-- The beam on a slope is the height of the sun over the equivalent latitude, at the time counted from the slope's
noon. -/
theorem slope_height (lat J th α β : ℝ) (hx : 0 < (normalVec (lat * π / 180) α β).x) :
    (normalVec (lat * π / 180) α β).dot (sunAt J th) =
      sunHeight (eqLatDeg lat α β) J (th - noonOffset lat α β) := by
  have hp := pi_pos
  have hω := omega_pos
  rw [← rad_eq] at hx ⊢
  have e1 : rad (eqLatDeg lat α β) = eqLat lat α β := by
    unfold rad eqLatDeg; field_simp
  have e2 : omega * (th - noonOffset lat α β) = omega * th + lonOffset lat α β := by
    unfold noonOffset; field_simp; ring
  rw [sunHeight_eq, e1, e2, sin_eqLat, sunAt, dot_normal_sun, ← omega_mul]
  have := slope_term lat α β (omega * th) hx.ne'
  rw [abs_of_pos hx] at this
  have hne := hx.ne'
  have e3 : cos (eqLat lat α β) * cos (declination (dayAngle J)) * cos (omega * th + lonOffset lat α β) =
      cos (declination (dayAngle J)) * (cos (eqLat lat α β) * cos (omega * th + lonOffset lat α β)) := by ring
  rw [e3, this]
  field_simp
  ring

/-- **C70 (part).**  The day of a slope: for a slope whose normal does not lean over the pole, at every hour within
twelve hours of noon and of the slope's own noon, the hour lies between the computed sunrise and sunset of the slope
exactly if the sun is above the horizon and shines on the slope.  Missing: hours further from the slope's noon
(it is less than six hours from noon, `abs_noonOffset`), where the sun may shine on the slope a second time. -/
theorem C70_slope_sun_partial (lat J th α β : ℝ) (hlat : |lat| < 90)
    (hx : 0 < (normalVec (lat * π / 180) α β).x) (hth : |th| < 12)
    (hth' : |th - noonOffset lat α β| < 12) :
    (sunriseSlope lat J α β < th ∧ th < sunsetSlope lat J α β) ↔
      (0 < sunHeight lat J th ∧ 0 < (normalVec (lat * π / 180) α β).dot (sunAt J th)) := by
  have hp := pi_pos
  have hc : 0 < cos (eqLat lat α β) := by
    rw [← rad_eq] at hx
    rw [cos_eqLat]
    apply sqrt_pos.2
    have := pow_pos hx 2
    nlinarith [sq_nonneg (normalVec (rad lat) α β).y]
  have hq : |eqLatDeg lat α β| < 90 := by
    have h1 : -(π / 2) ≤ eqLat lat α β := neg_pi_div_two_le_arcsin _
    have h2 : eqLat lat α β ≤ π / 2 := arcsin_le_pi_div_two _
    have h3 : eqLat lat α β ≠ π / 2 := fun h => by rw [h, cos_pi_div_two] at hc; exact lt_irrefl _ hc
    have h4 : eqLat lat α β ≠ -(π / 2) := fun h => by
      rw [h, cos_neg, cos_pi_div_two] at hc; exact lt_irrefl _ hc
    have h5 := lt_of_le_of_ne h2 h3
    have h6 := lt_of_le_of_ne h1 (Ne.symm h4)
    have e : eqLatDeg lat α β = eqLat lat α β * 180 / π := by unfold eqLatDeg; ring
    rw [e, abs_lt]
    constructor
    · rw [lt_div_iff₀ hp]; linarith
    · rw [div_lt_iff₀ hp]; linarith
  rw [C68_sun_up lat J th hlat hth, slope_height lat J th α β hx, C68_sun_up _ J _ hq hth']
  unfold sunriseSlope sunsetSlope
  simp only [max_lt_iff, lt_min_iff]
  constructor
  · rintro ⟨⟨a, b⟩, c, d⟩
    exact ⟨⟨b, d⟩, by linarith, by linarith⟩
  · rintro ⟨⟨a, b⟩, c, d⟩
    exact ⟨⟨by linarith, a⟩, by linarith, b⟩

/-- A slope that meets the hypotheses: 30 degrees to the east at 45 degrees north, at eleven o'clock. -/
example : |(45 : ℝ)| < 90 ∧ 0 < (normalVec (45 * π / 180) (π / 2) (π / 6)).x ∧ |(-1 : ℝ)| < 12 ∧
    |-1 - noonOffset 45 (π / 2) (π / 6)| < 12 := by
  have hp := pi_pos
  have h := abs_lt.1 (abs_noonOffset 45 (π / 2) (π / 6))
  refine ⟨by norm_num [abs_lt], ?_, by norm_num, by rw [abs_lt]; constructor <;> linarith⟩
  rw [(normal_parts _ _ _).1, cos_pi_div_two]
  have h1 : 0 < cos (π / 6) := cos_pos_of_mem_Ioo ⟨by linarith, by linarith⟩
  have h2 : 0 < cos (45 * π / 180) := cos_pos_of_mem_Ioo ⟨by linarith, by linarith⟩
  nlinarith [mul_pos h1 h2]

end Solar
