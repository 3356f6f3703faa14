import Verif.SolarGeometry

/-!
# Clear-sky radiation (C69)

Energy bounds of the radiation fluxes: nothing is created in the atmosphere, nothing shines at night, and the
radiation a surface absorbs falls with its albedo.
-/

set_option autoImplicit false

noncomputable section

namespace Solar

open Real

theorem airMass_pos (lat δ th : ℝ) : 0 < airMass lat δ th := by
  have hp := pi_pos
  have hz0 : 0 ≤ zenith lat δ th := arccos_nonneg _
  simp only [airMass]
  set γ := max (90 - zenith lat δ th * (180 / π)) 0 with hγ
  have h0 : 0 ≤ γ := le_max_right _ _
  have h90 : γ ≤ 90 := by
    apply max_le
    · have : 0 ≤ zenith lat δ th * (180 / π) := by positivity
      linarith
    · norm_num
  have h1 : 0 ≤ sin (γ * (π / 180)) := by
    apply sin_nonneg_of_nonneg_of_le_pi
    · positivity
    · nlinarith
  have h2 : 0 < 0.50572 / (γ + 6.07995) ^ (1.6364 : ℝ) := by
    apply div_pos (by norm_num)
    apply rpow_pos_of_pos
    linarith
  positivity

/-- The relative optical air mass of Kasten and Young (1989) for a sun `e` degrees above the horizon. -/
def kastenYoung (e : ℝ) : ℝ := 1 / (sin (e * π / 180) + 0.50572 * (e + 6.07995) ^ (-1.6364 : ℝ))

/-- The height of the sun above the horizon in degrees. -/
def elevationDeg (lat J th : ℝ) : ℝ := arcsin (sunHeight lat J th) * 180 / π

/-- By day the air mass is that of Kasten and Young for the height of the sun in degrees. -/
theorem C69_air_mass_day (lat J th : ℝ) (h : 0 ≤ sunHeight lat J th) :
    airMass lat (declination (dayAngle J)) th = kastenYoung (elevationDeg lat J th) := by
  have hp := pi_pos
  have hz : zenith lat (declination (dayAngle J)) th = arccos (sunHeight lat J th) := by
    rw [sunHeight_eq]; rfl
  have he : 90 - zenith lat (declination (dayAngle J)) th * (180 / π) = elevationDeg lat J th := by
    rw [hz, elevationDeg, arccos]
    field_simp
    ring
  have h0 : 0 ≤ elevationDeg lat J th := by
    have := arcsin_nonneg.2 h
    unfold elevationDeg
    positivity
  simp only [airMass, he, max_eq_left h0, kastenYoung]
  rw [rpow_neg (by linarith), mul_div_assoc, div_eq_mul_inv 0.50572]

/-- At night the air mass of a sun on the horizon is used. -/
theorem C69_air_mass_night (lat J th : ℝ) (h : sunHeight lat J th ≤ 0) :
    airMass lat (declination (dayAngle J)) th = (6.07995 : ℝ) ^ (1.6364 : ℝ) / 0.50572 := by
  have hp := pi_pos
  have hz := C68_zenith lat J th
  have hge : π / 2 ≤ zenith lat (declination (dayAngle J)) th := by
    by_contra hn
    push Not at hn
    have := cos_pos_of_mem_Ioo ⟨by linarith [hz.2.1], hn⟩
    rw [hz.1] at this
    linarith
  have hmax : max (90 - zenith lat (declination (dayAngle J)) th * (180 / π)) 0 = 0 := by
    apply max_eq_right
    have : π / 2 * (180 / π) ≤ zenith lat (declination (dayAngle J)) th * (180 / π) :=
      mul_le_mul_of_nonneg_right hge (by positivity)
    have e : π / 2 * (180 / π) = 90 := by field_simp; norm_num
    linarith
  simp only [airMass, hmax, zero_mul, sin_zero, zero_add, one_div, inv_div]

theorem scatter_exp (lat δ th Wp : ℝ) (hW : 0 ≤ Wp) :
    exp (-0.0363 - 0.0084 * Wp + (-0.0572 - 0.0173 * Wp) * airMass lat δ th) ≤ 1 := by
  rw [exp_le_one_iff]
  nlinarith [airMass_pos lat δ th, mul_nonneg hW (airMass_pos lat δ th).le]

theorem transmit_le_scatter (lat δ th Wp : ℝ) (hW : 0 ≤ Wp) :
    exp (-0.1240 - 0.0207 * Wp + (-0.0682 - 0.0248 * Wp) * airMass lat δ th) ≤
    exp (-0.0363 - 0.0084 * Wp + (-0.0572 - 0.0173 * Wp) * airMass lat δ th) := by
  rw [exp_le_exp]
  nlinarith [airMass_pos lat δ th, mul_nonneg hW (airMass_pos lat δ th).le]

theorem etFlux_nonneg (lat J th : ℝ) : 0 ≤ etFlux lat J th := le_max_right _ _

theorem etFluxSlope_nonneg (lat J th α β : ℝ) : 0 ≤ etFluxSlope lat J th α β := le_max_right _ _

/-- The transmissivity of the atmosphere is a fraction, whatever the inputs. -/
theorem C69_transmissivity (lat J Wp th dust : ℝ) :
    0 ≤ transmissivity lat J Wp th dust ∧ transmissivity lat J Wp th dust ≤ 1 := by
  unfold transmissivity
  exact ⟨le_min (le_max_right _ _) (by norm_num), min_le_right _ _⟩

theorem scattering_bounds (lat J Wp th dust : ℝ) (hW : 0 ≤ Wp) (hd : 0 ≤ dust) :
    0 ≤ scattering lat J Wp th dust ∧ scattering lat J Wp th dust ≤ 1 + dust := by
  simp only [scattering]
  have h1 := scatter_exp lat (declination (dayAngle J)) th Wp hW
  have h2 := exp_pos (-0.0363 - 0.0084 * Wp + (-0.0572 - 0.0173 * Wp) *
    airMass lat (declination (dayAngle J)) th)
  constructor <;> linarith

/-- Transmitted and forward-scattered shares together are at most one. -/
theorem shares (lat J Wp th dust : ℝ) (hW : 0 ≤ Wp) (hd : 0 ≤ dust) (hd1 : dust ≤ 1) :
    transmissivity lat J Wp th dust + 0.5 * scattering lat J Wp th dust ≤ 1 := by
  simp only [transmissivity, scattering]
  set A := airMass lat (declination (dayAngle J)) th
  have h1 := scatter_exp lat (declination (dayAngle J)) th Wp hW
  have h2 := transmit_le_scatter lat (declination (dayAngle J)) th Wp hW
  have h3 := exp_pos (-0.0363 - 0.0084 * Wp + (-0.0572 - 0.0173 * Wp) * A)
  change exp (-0.0363 - 0.0084 * Wp + (-0.0572 - 0.0173 * Wp) * A) ≤ 1 at h1
  change exp (-0.1240 - 0.0207 * Wp + (-0.0682 - 0.0248 * Wp) * A) ≤
    exp (-0.0363 - 0.0084 * Wp + (-0.0572 - 0.0173 * Wp) * A) at h2
  have h4 : min (max (exp (-0.1240 - 0.0207 * Wp + (-0.0682 - 0.0248 * Wp) * A) - dust) 0) 1 ≤
      max (exp (-0.1240 - 0.0207 * Wp + (-0.0682 - 0.0248 * Wp) * A) - dust) 0 := min_le_left _ _
  rcases le_total (exp (-0.1240 - 0.0207 * Wp + (-0.0682 - 0.0248 * Wp) * A) - dust) 0 with h | h
  · rw [max_eq_right h] at h4 ⊢
    linarith
  · rw [max_eq_left h] at h4 ⊢
    linarith

/-- **C69, no energy from the air.**  The direct and the diffuse radiation that reach level ground are not negative
and together at most the radiation above the atmosphere, and that is at most 1.04 times the solar constant. -/
theorem C69_global_bounds (lat J Wp th dust : ℝ) (hW : 0 ≤ Wp) (hd : 0 ≤ dust) (hd1 : dust ≤ 1) :
    0 ≤ directFlux lat J Wp th dust ∧ 0 ≤ diffuseFlux lat J Wp th dust ∧
    globalFlux lat J Wp th dust = directFlux lat J Wp th dust + diffuseFlux lat J Wp th dust ∧
    globalFlux lat J Wp th dust ≤ etFlux lat J th ∧ etFlux lat J th ≤ 1361.5 * 1.04 := by
  have hK := etFlux_nonneg lat J th
  have ht := C69_transmissivity lat J Wp th dust
  have hs := scattering_bounds lat J Wp th dust hW hd
  have hsh := shares lat J Wp th dust hW hd hd1
  refine ⟨mul_nonneg ht.1 hK, mul_nonneg (mul_nonneg (by norm_num) hs.1) hK, rfl, ?_, ?_⟩
  · unfold globalFlux directFlux diffuseFlux
    nlinarith
  · rw [C68_flux]
    have hE := eccentricity_bounds (dayAngle J)
    have hab := (abs_le.1 (abs_dot_up_sun (lat * π / 180) (declination (dayAngle J)) (th * (15 * π / 180)))).2
    have hm : max (sunHeight lat J th) 0 ≤ 1 := max_le hab (by norm_num)
    have hm0 : 0 ≤ max (sunHeight lat J th) 0 := le_max_right _ _
    nlinarith [hE.1, hE.2]

/-- **C69, night.**  From sunset to sunrise, on level ground or on the slope, no shortwave radiation is absorbed. -/
theorem C69_night (lat J Wp th α β albedo dust : ℝ)
    (h : th ≤ sunrise lat (declination (dayAngle J)) ∨ sunset lat (declination (dayAngle J)) ≤ th ∨
      th ≤ sunriseSlope lat J α β ∨ sunsetSlope lat J α β ≤ th) :
    clearSky lat J Wp th α β albedo dust = 0 ∧ netShortwave lat J Wp th α β albedo dust = 0 := by
  have hd := C70_slope_day lat J α β
  have h' : th ≤ sunriseSlope lat J α β ∨ sunsetSlope lat J α β ≤ th := by
    rcases h with h | h | h | h
    · exact Or.inl (h.trans hd.1)
    · exact Or.inr (hd.2.1.trans h)
    · exact Or.inl h
    · exact Or.inr h
  have e : clearSky lat J Wp th α β albedo dust = 0 := if_pos h'
  exact ⟨e, by rw [netShortwave, e, zero_mul]⟩

theorem clearSky_day (lat J Wp th α β albedo dust : ℝ) (h1 : sunriseSlope lat J α β < th)
    (h2 : th < sunsetSlope lat J α β) :
    clearSky lat J Wp th α β albedo dust =
      transmissivity lat J Wp th dust * etFluxSlope lat J th α β + diffuseFlux lat J Wp th dust
        + 0.5 * scattering lat J Wp th dust * albedo * globalFlux lat J Wp th dust := by
  apply if_neg
  push Not
  exact ⟨h1, h2⟩

/-- **C69, bounds on the radiation of a slope.**  It is never negative and never more than the radiation above the
atmosphere on the better lit of the slope and the level ground, plus the share that the ground reflects and the sky
returns. -/
theorem C69_clear_sky_bounds (lat J Wp th α β albedo dust : ℝ) (hW : 0 ≤ Wp) (hd : 0 ≤ dust) (hd1 : dust ≤ 1)
    (ha : 0 ≤ albedo) :
    0 ≤ clearSky lat J Wp th α β albedo dust ∧
    clearSky lat J Wp th α β albedo dust ≤
      (1 + albedo * (1 + dust) / 2) * max (etFluxSlope lat J th α β) (etFlux lat J th) := by
  have hK := etFlux_nonneg lat J th
  have hS := etFluxSlope_nonneg lat J th α β
  have ht := C69_transmissivity lat J Wp th dust
  have hs := scattering_bounds lat J Wp th dust hW hd
  have hsh := shares lat J Wp th dust hW hd hd1
  have hg := C69_global_bounds lat J Wp th dust hW hd hd1
  set m := max (etFluxSlope lat J th α β) (etFlux lat J th) with hm
  have m1 : etFluxSlope lat J th α β ≤ m := le_max_left _ _
  have m2 : etFlux lat J th ≤ m := le_max_right _ _
  have m0 : 0 ≤ m := hK.trans m2
  by_cases h : th ≤ sunriseSlope lat J α β ∨ sunsetSlope lat J α β ≤ th
  · rw [(C69_night lat J Wp th α β albedo dust (Or.inr (Or.inr h))).1]
    refine ⟨le_rfl, mul_nonneg ?_ m0⟩
    positivity
  · push Not at h
    rw [clearSky_day _ _ _ _ _ _ _ _ h.1 h.2]
    have hg0 : 0 ≤ globalFlux lat J Wp th dust := by rw [hg.2.2.1]; linarith [hg.1, hg.2.1]
    constructor
    · have := mul_nonneg ht.1 hS
      have := mul_nonneg (mul_nonneg (mul_nonneg (by norm_num : (0 : ℝ) ≤ 0.5) hs.1) ha) hg0
      linarith [hg.2.1]
    · have b1 : transmissivity lat J Wp th dust * etFluxSlope lat J th α β ≤
          transmissivity lat J Wp th dust * m := mul_le_mul_of_nonneg_left m1 ht.1
      have b2 : diffuseFlux lat J Wp th dust ≤ 0.5 * scattering lat J Wp th dust * m :=
        mul_le_mul_of_nonneg_left m2 (mul_nonneg (by norm_num) hs.1)
      have b3 : 0.5 * scattering lat J Wp th dust * albedo * globalFlux lat J Wp th dust ≤
          0.5 * (1 + dust) * albedo * m := by
        apply mul_le_mul _ (hg.2.2.2.1.trans m2) hg0 (by positivity)
        apply mul_le_mul_of_nonneg_right _ ha
        linarith [hs.2]
      have b4 : (transmissivity lat J Wp th dust + 0.5 * scattering lat J Wp th dust) * m ≤ 1 * m :=
        mul_le_mul_of_nonneg_right hsh m0
      nlinarith

/-- **C69, the absorbed radiation** is never negative for an albedo between 0 and 1, and it never increases when the
albedo does. -/
theorem C69_net_shortwave (lat J Wp th α β dust a b : ℝ) (hW : 0 ≤ Wp) (hd : 0 ≤ dust) (hd1 : dust ≤ 1)
    (ha : 0 ≤ a) (hab : a ≤ b) (hb : b ≤ 1) :
    0 ≤ netShortwave lat J Wp th α β b dust ∧
    netShortwave lat J Wp th α β b dust ≤ netShortwave lat J Wp th α β a dust ∧
    netShortwave lat J Wp th α β 1 dust = 0 := by
  refine ⟨?_, ?_, ?_⟩
  · exact mul_nonneg (C69_clear_sky_bounds lat J Wp th α β b dust hW hd hd1 (ha.trans hab)).1 (by linarith)
  · by_cases h : th ≤ sunriseSlope lat J α β ∨ sunsetSlope lat J α β ≤ th
    · rw [(C69_night lat J Wp th α β a dust (Or.inr (Or.inr h))).2,
        (C69_night lat J Wp th α β b dust (Or.inr (Or.inr h))).2]
    · push Not at h
      rw [netShortwave, netShortwave, clearSky_day _ _ _ _ _ _ _ _ h.1 h.2, clearSky_day _ _ _ _ _ _ _ _ h.1 h.2]
      have hg := C69_global_bounds lat J Wp th dust hW hd hd1
      have hs := scattering_bounds lat J Wp th dust hW hd
      have ht := C69_transmissivity lat J Wp th dust
      have hS := mul_nonneg ht.1 (etFluxSlope_nonneg lat J th α β)
      have hB : 0.5 * scattering lat J Wp th dust * globalFlux lat J Wp th dust ≤ diffuseFlux lat J Wp th dust :=
        mul_le_mul_of_nonneg_left hg.2.2.2.1 (mul_nonneg (by norm_num) hs.1)
      have hg0 : 0 ≤ globalFlux lat J Wp th dust := by rw [hg.2.2.1]; linarith [hg.1, hg.2.1]
      have hB0 : 0 ≤ 0.5 * scattering lat J Wp th dust * globalFlux lat J Wp th dust :=
        mul_nonneg (mul_nonneg (by norm_num) hs.1) hg0
      generalize transmissivity lat J Wp th dust * etFluxSlope lat J th α β = X at *
      generalize diffuseFlux lat J Wp th dust = D at *
      have e : ∀ c : ℝ, 0.5 * scattering lat J Wp th dust * c * globalFlux lat J Wp th dust =
        (0.5 * scattering lat J Wp th dust * globalFlux lat J Wp th dust) * c := by intro c; ring
      rw [e, e]
      generalize 0.5 * scattering lat J Wp th dust * globalFlux lat J Wp th dust = B at *
      have e2 : (X + D + B * a) * (1 - a) - (X + D + B * b) * (1 - b) =
        (b - a) * ((X + D - B) + B * (a + b)) := by ring
      have : 0 ≤ (b - a) * ((X + D - B) + B * (a + b)) := by
        apply mul_nonneg (by linarith)
        have := mul_nonneg hB0 (show 0 ≤ a + b by linarith)
        linarith
      linarith
  · rw [netShortwave]; ring

/-- More water or more dust in the air never lets more of the beam through. -/
theorem C69_transmissivity_antitone (lat J Wp Wp' th dust dust' : ℝ) (hW : Wp ≤ Wp') (hd : dust ≤ dust') :
    transmissivity lat J Wp' th dust' ≤ transmissivity lat J Wp th dust := by
  simp only [transmissivity]
  have hA := airMass_pos lat (declination (dayAngle J)) th
  have : exp (-0.1240 - 0.0207 * Wp' + (-0.0682 - 0.0248 * Wp') * airMass lat (declination (dayAngle J)) th) ≤
      exp (-0.1240 - 0.0207 * Wp + (-0.0682 - 0.0248 * Wp) * airMass lat (declination (dayAngle J)) th) := by
    rw [exp_le_exp]
    nlinarith [mul_nonneg (sub_nonneg.2 hW) hA.le]
  exact min_le_min_right _ (max_le_max_right _ (by linarith))

/-- **C69, absorption by the air.**  By day, the logarithm of the share of the beam that is left before the dust takes
its part, and that of the light not scattered, fall linearly with the air mass, with coefficients linear in the water
content of the air. -/
theorem C69_beer_lambert (lat J Wp th dust : ℝ) (hup : 0 < sunHeight lat J th)
    (hdir : 0 < directFlux lat J Wp th dust) (hd : 0 ≤ dust) (hW : 0 ≤ Wp) :
    log (directFlux lat J Wp th dust / etFlux lat J th + dust) =
      -(0.1240 + 0.0207 * Wp) - (0.0682 + 0.0248 * Wp) * kastenYoung (elevationDeg lat J th) ∧
    log (1 + dust - 2 * diffuseFlux lat J Wp th dust / etFlux lat J th) =
      -(0.0363 + 0.0084 * Wp) - (0.0572 + 0.0173 * Wp) * kastenYoung (elevationDeg lat J th) := by
  have hE := (eccentricity_bounds (dayAngle J)).1
  have hK : 0 < etFlux lat J th := by
    rw [C68_flux]
    exact mul_pos (by linarith) (lt_max_of_lt_left hup)
  have hA := C69_air_mass_day lat J th hup.le
  constructor
  · have ht : 0 < transmissivity lat J Wp th dust := by
      by_contra hn
      have : directFlux lat J Wp th dust ≤ 0 := mul_nonpos_of_nonpos_of_nonneg (not_lt.1 hn) hK.le
      linarith
    rw [directFlux, mul_div_cancel_right₀ _ hK.ne']
    have hle := (transmit_le_scatter lat (declination (dayAngle J)) th Wp hW).trans
      (scatter_exp lat (declination (dayAngle J)) th Wp hW)
    simp only [transmissivity] at ht ⊢
    rw [min_eq_left (max_le (by linarith) (by norm_num))] at ht ⊢
    rw [max_eq_left (by
      by_contra hn
      rw [max_eq_right (not_le.1 hn).le] at ht
      exact lt_irrefl _ ht)]
    rw [sub_add_cancel, log_exp, hA]
    ring
  · have e : 2 * diffuseFlux lat J Wp th dust / etFlux lat J th = scattering lat J Wp th dust := by
      rw [diffuseFlux]
      have := hK.ne'
      field_simp
      norm_num
    rw [e]
    simp only [scattering]
    rw [hA, show ∀ x : ℝ, 1 + dust - (1 - x + dust) = x by intro x; ring, log_exp]
    ring

/-- **C69, the components.**  By day the radiation of a slope is the transmitted share of the beam on the slope, the
diffuse light, and what the ground around reflects and the sky scatters back. -/
theorem C69_components (lat J Wp th α β albedo dust : ℝ) (h1 : sunriseSlope lat J α β < th)
    (h2 : th < sunsetSlope lat J α β) (hK : 0 < etFlux lat J th) :
    clearSky lat J Wp th α β albedo dust =
      directFlux lat J Wp th dust / etFlux lat J th * etFluxSlope lat J th α β
      + diffuseFlux lat J Wp th dust
      + albedo * (directFlux lat J Wp th dust + diffuseFlux lat J Wp th dust) *
          (diffuseFlux lat J Wp th dust / etFlux lat J th) := by
  rw [clearSky_day _ _ _ _ _ _ _ _ h1 h2, directFlux, mul_div_cancel_right₀ _ hK.ne', globalFlux, directFlux]
  have e : diffuseFlux lat J Wp th dust / etFlux lat J th = 0.5 * scattering lat J Wp th dust := by
    rw [diffuseFlux, mul_div_cancel_right₀ _ hK.ne']
  rw [e]
  ring

/-- The hypotheses hold for the default dust attenuation, 1.5 cm of water and fresh snow; the radiation of level ground
at the equator at noon of every day is then positive. -/
example (J : ℝ) : 0 ≤ dustAttenuation ∧ dustAttenuation ≤ 1 ∧
    0 < clearSky 0 J 1.5 0 0 0 0.8 dustAttenuation := by
  have hd := C68_day_length 0 J
  have h12 := C68_equator J
  have hl := C70_level_day 0 J 0 (by norm_num)
  refine ⟨by norm_num [dustAttenuation], by norm_num [dustAttenuation], ?_⟩
  rw [clearSky_day _ _ _ _ _ _ _ _ (by rw [hl.1, hd.1]; linarith [hd.2.2.2]) (by rw [hl.2]; linarith [hd.2.2.2])]
  have hs : 0 < scattering 0 J 1.5 0 dustAttenuation := by
    simp only [scattering, dustAttenuation]
    have := scatter_exp 0 (declination (dayAngle J)) 0 1.5 (by norm_num)
    linarith
  have hK : 0 < etFlux 0 J 0 := by
    rw [C68_flux_day 0 J 0 (by norm_num) (by norm_num), hd.1]
    constructor <;> linarith [hd.2.2.2]
  have ht := C69_transmissivity 0 J 1.5 0 dustAttenuation
  have h1 : 0 < diffuseFlux 0 J 1.5 0 dustAttenuation := mul_pos (mul_pos (by norm_num) hs) hK
  have h2 : 0 ≤ transmissivity 0 J 1.5 0 dustAttenuation * etFluxSlope 0 J 0 0 0 :=
    mul_nonneg ht.1 (etFluxSlope_nonneg _ _ _ _ _)
  have h3 : 0 ≤ globalFlux 0 J 1.5 0 dustAttenuation := by
    rw [globalFlux, directFlux]
    have := mul_nonneg ht.1 hK.le
    linarith
  have h4 : 0 ≤ 0.5 * scattering 0 J 1.5 0 dustAttenuation * 0.8 * globalFlux 0 J 1.5 0 dustAttenuation := by
    positivity
  linarith

end Solar
