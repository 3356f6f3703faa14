import Verif.MetEnergyModel
import Mathlib.Tactic.FieldSimp
import Mathlib.Tactic.Positivity
import Mathlib.Tactic.Linarith
import Mathlib.Tactic.NormNum
import Mathlib.Tactic.GCongr
import Mathlib.Analysis.Complex.ExponentialBounds

/-!
# Energy fluxes: dew point (C55), turbulent fluxes (C56), snow albedo (C57), emissivity (C58)
-/

set_option autoImplicit false

noncomputable section

namespace MetEnergy

/-! ### Vapour pressure and dew point -/

theorem eSat_pos (b : Bool) (T : ℝ) : 0 < eSat b T := by
  unfold eSat
  cases b
  · simp only [Bool.false_eq_true, if_false]; positivity
  · simp only [if_true]; positivity

/-- Temperatures for which the formulas are meant: above the pole of the chosen formula. -/
def InRange (b : Bool) (T : ℝ) : Prop := if b then -273.15 < T else -237.3 < T

theorem eSat_strictMono (b : Bool) {T T' : ℝ} (hT : InRange b T) (hTT : T < T') :
    eSat b T < eSat b T' := by
  unfold eSat
  cases b
  · simp only [InRange, Bool.false_eq_true, if_false] at *
    have h1 : 0 < T + 237.3 := by linarith
    have h2 : 0 < T' + 237.3 := by linarith
    have : (17.3 * T) / (T + 237.3) < (17.3 * T') / (T' + 237.3) := by
      rw [div_lt_div_iff₀ h1 h2]; nlinarith
    have := Real.exp_lt_exp.mpr this
    linarith
  · simp only [InRange, if_true] at *
    have h1 : 0 < T + 273.15 := by linarith
    have h2 : 0 < T' + 273.15 := by linarith
    have h3 : (2353 : ℝ) / (T' + 273.15) < 2353 / (T + 273.15) := by
      apply div_lt_div_of_pos_left <;> linarith
    have := Real.rpow_lt_rpow_of_exponent_lt (by norm_num : (1 : ℝ) < 10)
      (by linarith : (11.4 : ℝ) - 2353 / (T + 273.15) < 11.4 - 2353 / (T' + 273.15))
    linarith

/-- **C56.**  The vapour pressure of the air is positive, and grows with temperature and humidity. -/
theorem C56_vapor_pressure (b : Bool) (RH RH' T T' : ℝ) (hR : 0 < RH) (hT : InRange b T) :
    0 < vaporPressure RH (eSat b T) ∧
    (T < T' → vaporPressure RH (eSat b T) < vaporPressure RH (eSat b T')) ∧
    (RH < RH' → vaporPressure RH (eSat b T) < vaporPressure RH' (eSat b T)) := by
  refine ⟨mul_pos hR (eSat_pos b T), fun h => ?_, fun h => ?_⟩
  · exact mul_lt_mul_of_pos_left (eSat_strictMono b hT h) hR
  · exact mul_lt_mul_of_pos_right h (eSat_pos b T)

/-- The logarithm taken by the dew point formula, for the default vapour pressure formula. -/
theorem log_air (RH T : ℝ) (hR : 0 < RH) :
    Real.log (vaporPressure RH (eSat false T) / 6.1121)
      = Real.log RH + Real.log (6.11 / 6.1121) + (17.3 * T) / (T + 237.3) := by
  have e : vaporPressure RH (eSat false T) / 6.1121
      = RH * (6.11 / 6.1121) * Real.exp ((17.3 * T) / (T + 237.3)) := by
    simp only [vaporPressure, eSat, Bool.false_eq_true, if_false]
    ring
  rw [e, Real.log_mul (by positivity) (Real.exp_ne_zero _), Real.log_mul hR.ne' (by norm_num),
    Real.log_exp]

/-- **C55** up to one hundredth of a degree: with the default formula, at any temperature above the
pole of the formula and any relative humidity up to 100%, the computed dew point exceeds the air
temperature by less than 0.01 degrees. -/
theorem C55_dew_point_partial (RH T : ℝ) (hR : 0 < RH) (hR1 : RH ≤ 1) (hT : -237.3 < T) :
    dewPoint (vaporPressure RH (eSat false T)) < T + 0.01 := by
  unfold dewPoint
  simp only
  rw [log_air RH T hR]
  have l1 : Real.log RH ≤ 0 := Real.log_nonpos hR.le hR1
  have l2 : Real.log (6.11 / 6.1121) ≤ -0.0003435 := by
    have := Real.log_le_sub_one_of_pos (by norm_num : (0 : ℝ) < 6.11 / 6.1121)
    refine le_trans this (by norm_num)
  have h1 : 0 < T + 237.3 := by linarith
  set q := (17.3 * T) / (T + 237.3) with hq
  have hq2 : q * (T + 237.3) = 17.3 * T := by rw [hq]; field_simp
  have hq3 : q < 17.3 := by rw [hq, div_lt_iff₀ h1]; linarith
  set L := Real.log RH + Real.log (6.11 / 6.1121) + q with hL
  have hLq : L ≤ q - 0.0003435 := by linarith
  have hb : 0 < 18.678 - L := by linarith
  rw [div_lt_iff₀ hb]
  have key : (q - 0.0003435) * (T + 257.15) < 18.678 * (T + 0.01) := by
    by_contra hcon
    push Not at hcon
    have h2 := mul_le_mul_of_nonneg_right hcon h1.le
    have h3 : (q - 0.0003435) * (T + 257.15) * (T + 237.3)
        = (17.3 * T - 0.0003435 * (T + 237.3)) * (T + 257.15) := by
      rw [← hq2]; ring
    rw [h3] at h2
    nlinarith [sq_nonneg (T - 5.82)]
  have : L * (T + 257.15) ≤ (q - 0.0003435) * (T + 257.15) :=
    mul_le_mul_of_nonneg_right hLq (by linarith)
  nlinarith

/-- **C55** for air at or below freezing, and for air at 11.8 degrees or more: the dew point does not
exceed the air temperature. -/
theorem C55_dew_point_cold_or_warm_partial (RH T : ℝ) (hR : 0 < RH) (hR1 : RH ≤ 1)
    (hT : -237.3 < T) (hT2 : T ≤ 0 ∨ 11.8 ≤ T) :
    dewPoint (vaporPressure RH (eSat false T)) ≤ T := by
  unfold dewPoint
  simp only
  rw [log_air RH T hR]
  have l1 : Real.log RH ≤ 0 := Real.log_nonpos hR.le hR1
  have l2 : Real.log (6.11 / 6.1121) ≤ 0 := Real.log_nonpos (by norm_num) (by norm_num)
  have h1 : 0 < T + 237.3 := by linarith
  set q := (17.3 * T) / (T + 237.3) with hq
  have hq2 : q * (T + 237.3) = 17.3 * T := by rw [hq]; field_simp
  have hq3 : q < 17.3 := by rw [hq, div_lt_iff₀ h1]; linarith
  set L := Real.log RH + Real.log (6.11 / 6.1121) + q with hL
  have hLq : L ≤ q := by linarith
  have hb : 0 < 18.678 - L := by linarith
  rw [div_le_iff₀ hb]
  have key : q * (T + 257.14) ≤ 18.678 * T := by
    by_contra hcon
    push Not at hcon
    have h2 := mul_lt_mul_of_pos_right hcon h1
    have h3 : q * (T + 257.14) * (T + 237.3) = (17.3 * T) * (T + 257.14) := by
      rw [← hq2]; ring
    rw [h3] at h2
    rcases hT2 with h | h <;> nlinarith
  have : L * (T + 257.14) ≤ q * (T + 257.14) := mul_le_mul_of_nonneg_right hLq (by linarith)
  nlinarith

/-- **C55 is violated** at every air temperature from 2 to 10 degrees: saturated air has a computed dew
point above the air temperature, because the vapour pressure and its inverse use different constants. -/
theorem C55_violated (T : ℝ) (h2 : 2 ≤ T) (h10 : T ≤ 10) :
    T < dewPoint (vaporPressure 1 (eSat false T)) := by
  unfold dewPoint
  simp only
  rw [log_air 1 T one_pos, Real.log_one, zero_add]
  have l2 : -0.0003438 ≤ Real.log (6.11 / 6.1121) := by
    have h := Real.one_sub_inv_le_log_of_pos (by norm_num : (0 : ℝ) < 6.11 / 6.1121)
    refine le_trans (by norm_num) h
  have l2' : Real.log (6.11 / 6.1121) ≤ 0 := Real.log_nonpos (by norm_num) (by norm_num)
  have h1 : 0 < T + 237.3 := by linarith
  set q := (17.3 * T) / (T + 237.3) with hq
  have hq2 : q * (T + 237.3) = 17.3 * T := by rw [hq]; field_simp
  have hq3 : q < 17.3 := by rw [hq, div_lt_iff₀ h1]; linarith
  set L := Real.log (6.11 / 6.1121) + q with hL
  have hLq : q - 0.0003438 ≤ L := by linarith
  have hb : 0 < 18.678 - L := by linarith
  rw [lt_div_iff₀ hb]
  have key : 18.678 * T < (q - 0.0003438) * (T + 257.14) := by
    by_contra hcon
    push Not at hcon
    have h2 := mul_le_mul_of_nonneg_right hcon h1.le
    have h3 : (q - 0.0003438) * (T + 257.14) * (T + 237.3)
        = (17.3 * T - 0.0003438 * (T + 237.3)) * (T + 257.14) := by
      rw [← hq2]; ring
    rw [h3] at h2
    nlinarith [mul_nonneg (sub_nonneg.mpr ‹2 ≤ T›) (sub_nonneg.mpr h10)]
  have : (q - 0.0003438) * (T + 257.14) ≤ L * (T + 257.14) :=
    mul_le_mul_of_nonneg_right hLq (by linarith)
  nlinarith

/-! ### Turbulent fluxes -/

/-- **C56.**  Where the wind blows and the snow does not reach the height `z` of the wind measurement,
sensible and latent heat flow from the warmer to the colder side: each flux is positive, zero or negative
exactly when the air is warmer than, as warm as or colder than the surface. -/
theorem C56_flux_direction (b : Bool) (z uz z0 h_snow RH p0 T_air T_surf : ℝ)
    (hu : 0 < uz) (hz0 : 0 < z0) (hs : z0 < z - h_snow) (hR : 0 < RH) (hp : 0 < p0)
    (hTa : InRange b T_air) (hTs : InRange b T_surf) :
    let D := conductance (neutralConductance z h_snow z0 uz) (richardson z uz T_air T_surf)
    let Qh := sensibleHeat D T_air T_surf
    let Qe := latentHeat D (vaporPressure RH (eSat b T_air)) (vaporPressure RH (eSat b T_surf)) p0
    0 < D ∧ (0 < Qh ↔ T_surf < T_air) ∧ (Qh < 0 ↔ T_air < T_surf) ∧
      (0 < Qe ↔ T_surf < T_air) ∧ (Qe < 0 ↔ T_air < T_surf) := by
  intro D Qh Qe
  have hlog : 0 < Real.log ((z - h_snow) / z0) :=
    Real.log_pos ((one_lt_div hz0).mpr hs)
  have hDn : 0 < neutralConductance z h_snow z0 uz := by
    unfold neutralConductance; positivity
  have hD : 0 < D := by
    show 0 < conductance _ _
    unfold conductance
    split_ifs with h
    · exact div_pos hDn (by linarith)
    · exact mul_pos hDn (by linarith)
  have hQh : Qh = (1.2614 * 1005.7 * D) * (T_air - T_surf) := rfl
  have hQe : Qe = (1.2614 * 2500000 * D * (0.622 / p0) * RH) * (eSat b T_air - eSat b T_surf) := by
    show (1.2614 * 2500000 * D) * (RH * eSat b T_air - RH * eSat b T_surf) * (0.622 / p0) = _
    ring
  have k1 : 0 < 1.2614 * 1005.7 * D := by positivity
  have k2 : 0 < 1.2614 * 2500000 * D * (0.622 / p0) * RH := by positivity
  have mono : ∀ x y, InRange b x → InRange b y → (eSat b x < eSat b y ↔ x < y) := by
    intro x y hx hy
    refine ⟨fun h => ?_, eSat_strictMono b hx⟩
    by_contra hc
    rcases (not_lt.mp hc).lt_or_eq with h' | h'
    · exact absurd (eSat_strictMono b hy h') (not_lt.mpr h.le)
    · rw [h'] at h; exact lt_irrefl _ h
  refine ⟨hD, ?_, ?_, ?_, ?_⟩
  · rw [hQh, mul_pos_iff_of_pos_left k1, sub_pos]
  · rw [hQh, ← sub_neg (a := T_air), ← not_le, ← not_le, mul_nonneg_iff_of_pos_left k1]
  · rw [hQe, mul_pos_iff_of_pos_left k2, sub_pos, mono _ _ hTs hTa]
  · rw [← mono _ _ hTa hTs, hQe, ← sub_neg (a := eSat b T_air), ← not_le, ← not_le, mul_nonneg_iff_of_pos_left k2]

/-- **C56.**  Stable air exchanges less heat than neutral air and unstable air more; the coefficient does
not jump at neutral stability and never grows with the Richardson number. -/
theorem C56_stability (Dn Ri Ri' : ℝ) (hD : 0 < Dn) :
    conductance Dn 0 = Dn ∧ (0 < Ri → conductance Dn Ri < Dn) ∧ (Ri < 0 → Dn < conductance Dn Ri) ∧
      (Ri ≤ Ri' → conductance Dn Ri' ≤ conductance Dn Ri) := by
  have stable : ∀ r, 0 < r → conductance Dn r = Dn / (1 + 10 * r) := fun r h => if_pos h
  have unstable : ∀ r, r ≤ 0 → conductance Dn r = Dn * (1 - 10 * r) :=
    fun r h => if_neg (not_lt.mpr h)
  have s1 : ∀ r, 0 < r → conductance Dn r < Dn := by
    intro r h
    rw [stable r h]
    exact div_lt_self hD (by linarith)
  refine ⟨by rw [unstable 0 le_rfl]; ring, s1 Ri, ?_, ?_⟩
  · intro h
    rw [unstable Ri h.le]; nlinarith
  · intro h
    by_cases h1 : 0 < Ri
    · rw [stable Ri h1, stable Ri' (by linarith)]
      exact div_le_div_of_nonneg_left hD.le (by linarith) (by linarith)
    · have h1' := not_lt.mp h1
      rw [unstable Ri h1']
      by_cases h2 : 0 < Ri'
      · exact le_trans (s1 Ri' h2).le (by nlinarith)
      · rw [unstable Ri' (not_lt.mp h2)]
        nlinarith

/-- **C56.**  The surface temperature computed from the dew point never exceeds the dew point, and never
exceeds freezing where there is snow or ice. -/
theorem C56_surface_temperature (h_snow h_ice T_dew : ℝ) :
    surfaceTemp h_snow h_ice T_dew ≤ T_dew ∧
      (0 < h_snow ∨ 0 < h_ice → surfaceTemp h_snow h_ice T_dew ≤ 0) := by
  unfold surfaceTemp
  split_ifs with h
  · exact ⟨min_le_left _ _, fun _ => min_le_right _ _⟩
  · exact ⟨le_rfl, fun h' => absurd h' h⟩

example : InRange false 5 ∧ InRange true (-3) := by
  constructor <;> norm_num [InRange]

/-! ### Snow albedo -/

/-- The window of snowfall depths after a history. -/
def windows : List ℝ → List ℝ → Option (List ℝ)
  | w, [] => some w
  | w, d :: ds => (rollWindow w d).bind (fun w' => windows w' ds)

theorem windows_eq (w ds : List ℝ) (hw : w ≠ []) :
    windows w ds = some ((w ++ ds).drop ds.length) := by
  induction ds generalizing w with
  | nil => simp [windows]
  | cons d ds ih =>
    cases w with
    | nil => exact absurd rfl hw
    | cons a w =>
      simp only [windows, rollWindow, Option.bind_some]
      rw [ih (w ++ [d]) (by simp)]
      simp

/-- **C57.**  With at least one time step in three days, the snowfall total behind the albedo is, after
every history, the sum of the last `N` snowfall depths, where `N` is the number of steps in three days
(before the start there was no snowfall). -/
theorem C57_three_day_total (N : ℕ) (hN : 0 < N) (ds : List ℝ) :
    ∃ w, windows (List.replicate N 0) ds = some w ∧
      w.length = N ∧ w.sum = (ds.drop (ds.length - N)).sum := by
  refine ⟨_, windows_eq _ _ ?_, ?_, ?_⟩
  · intro h
    have := congrArg List.length h
    simp at this
    omega
  · simp
  · rw [List.drop_append, List.sum_append, List.length_replicate]
    simp

/-- **C57**: with a time step of more than three days the window is empty, and the first update stops
with an error. -/
theorem C57_long_step (d : ℝ) (ds : List ℝ) : windows [] (d :: ds) = none := rfl

/-- The age of the snow surface after a history of three-day totals. -/
def ages (days n : ℝ) : List ℝ → ℝ
  | [] => n
  | t :: ts => ages days (snowAge days t n) ts

/-- **C57.**  The age that enters the albedo is the time since the last step at which the three-day
snowfall was at least 3 cm, or since the start if there was none. -/
theorem C57_age (days n0 : ℝ) (before after : List ℝ) (major : ℝ)
    (hmajor : 0.03 ≤ major) (hafter : ∀ t ∈ after, t < 0.03) :
    ages days n0 (before ++ major :: after) = after.length * days ∧
    ages days 0 after = after.length * days := by
  have h1 : ∀ (ts : List ℝ) (n : ℝ), (∀ t ∈ ts, t < 0.03) → ages days n ts = n + ts.length * days := by
    intro ts
    induction ts with
    | nil => intro n _; simp [ages]
    | cons t ts ih =>
      intro n h
      have ht : t < 0.03 := h t (List.mem_cons_self ..)
      have : snowAge days t n = n + days := by
        simp only [snowAge, ge_iff_le, not_le.mpr ht, ht, if_false, if_true]
      rw [ages, this, ih _ (fun t h' => h t (List.mem_cons_of_mem _ h')), List.length_cons]
      push_cast; ring
  have h2 : ∀ (ts rest : List ℝ) (n : ℝ), ages days n (ts ++ rest) = ages days (ages days n ts) rest := by
    intro ts
    induction ts with
    | nil => intro rest n; rfl
    | cons t ts ih => intro rest n; exact ih rest _
  constructor
  · rw [h2, ages]
    have : ∀ n, snowAge days major n = 0 := by
      intro n
      simp only [snowAge, ge_iff_le, hmajor, not_lt.mpr hmajor, if_false, if_true]
    rw [this, h1 after 0 hafter, zero_add]
  · rw [h1 after 0 hafter, zero_add]

/-- **C57.**  Snow covered, ice covered and bare cells have albedos in their ranges, so that the albedo
of every cell is between 0.15 and 0.84. -/
theorem C57_range (old h_snow h_ice T n : ℝ) (hs : 0 ≤ h_snow) (hi : 0 ≤ h_ice) (hn : 0 ≤ n) :
    (0 < h_snow → 0.4 < albedo old h_snow h_ice T n ∧ albedo old h_snow h_ice T n ≤ 0.84) ∧
    (h_snow = 0 → 0 < h_ice → albedo old h_snow h_ice T n = 0.3) ∧
    (h_snow = 0 → h_ice = 0 → albedo old h_snow h_ice T n = 0.15) ∧
    0.15 ≤ albedo old h_snow h_ice T n ∧ albedo old h_snow h_ice T n ≤ 0.84 := by
  have a1 : 0 < h_snow → albedo old h_snow h_ice T n = snowAlbedo T n := by
    intro h; simp [albedo, h, h.ne']
  have a2 : h_snow = 0 → 0 < h_ice → albedo old h_snow h_ice T n = 0.3 := by
    intro h h'; simp [albedo, h, h', h'.ne']
  have a3 : h_snow = 0 → h_ice = 0 → albedo old h_snow h_ice T n = 0.15 := by
    intro h h'; simp [albedo, h, h']
  have b : 0.4 < snowAlbedo T n ∧ snowAlbedo T n ≤ 0.84 := by
    unfold snowAlbedo
    simp only
    generalize hr : (if T > 0 then (0.12 : ℝ) else 0.05) = r
    have hr0 : 0 ≤ r := by rw [← hr]; split_ifs <;> norm_num
    have e1 := Real.exp_pos (-n * r)
    have e2 : Real.exp (-n * r) ≤ 1 := Real.exp_le_one_iff.mpr (by nlinarith)
    constructor <;> linarith
  refine ⟨fun h => by rw [a1 h]; exact b, a2, a3, ?_⟩
  rcases hs.lt_or_eq with h | h
  · rw [a1 h]; exact ⟨by linarith [b.1], b.2⟩
  · rcases hi.lt_or_eq with h' | h'
    · rw [a2 h.symm h']; norm_num
    · rw [a3 h.symm h'.symm]; norm_num

/-- **C57**, partly: between major snowfalls the albedo of snow falls as long as the air stays on the
same side of freezing, or passes from below to above freezing. -/
theorem C57_darkens_partial (T T' n n' : ℝ) (hn : 0 ≤ n) (hnn : n < n') (hT : 0 < T → 0 < T') :
    snowAlbedo T' n' < snowAlbedo T n := by
  have : ∀ r r' : ℝ, 0 < r → r ≤ r' → Real.exp (-n' * r') < Real.exp (-n * r) := by
    intro r r' h0 h1
    apply Real.exp_lt_exp.mpr
    nlinarith
  unfold snowAlbedo
  simp only
  by_cases h : T > 0
  · rw [if_pos h, if_pos (hT h)]
    have := this 0.12 0.12 (by norm_num) le_rfl
    linarith
  · rw [if_neg h]
    by_cases h' : T' > 0
    · rw [if_pos h']; have := this 0.05 0.12 (by norm_num) (by norm_num); linarith
    · rw [if_neg h']; have := this 0.05 0.05 (by norm_num) le_rfl; linarith

/-- **C57 is violated** whenever the air turns from above to below freezing over snow that has aged for
more than five sevenths of a time step: the computed albedo of the snow rises without any snowfall. -/
theorem C57_violated (T T' n days : ℝ) (hT : 0 < T) (hT' : T' ≤ 0) (hn : 5 / 7 * days < n) :
    snowAlbedo T n < snowAlbedo T' (snowAge days 0 n) := by
  have e : snowAge days 0 n = n + days := by simp [snowAge]; norm_num
  rw [e]
  unfold snowAlbedo
  simp only
  rw [if_pos hT, if_neg (not_lt.mpr hT')]
  have : Real.exp (-n * 0.12) < Real.exp (-(n + days) * 0.05) := by
    apply Real.exp_lt_exp.mpr
    linarith
  linarith

/-! ### Longwave radiation -/

/-- **C58.**  Net longwave radiation is what the surface absorbs minus what it emits: the part of the
incoming radiation given by the emissivity of the surface, minus the emission of the surface. -/
theorem C58_net_longwave (em_air em_surf T_air T_surf : ℝ) :
    netLongwave em_air em_surf T_air T_surf
      = em_surf * (em_air * 5.67e-8 * (T_air + 273.15) ^ 4 - 5.67e-8 * (T_surf + 273.15) ^ 4) := by
  simp only [netLongwave]; ring

/-- **C58**, partly: the emissivity of the air is not negative and grows with vapour pressure and cloud
cover; it is at most one exactly when the bracket below is. -/
theorem C58_emissivity_partial (F C e e' C' T : ℝ) (hF1 : F < 1) (he : 0 ≤ e)
    (hee : e ≤ e') (hC : 0 ≤ C) (hCC : C ≤ C') (hT : -273.15 < T) :
    F ≤ airEmissivity false F C e T ∧
    airEmissivity false F C e T ≤ airEmissivity false F C' e' T ∧
    (airEmissivity false F C e T ≤ 1 ↔
      1.72 * (e / 10 / (T + 273.15)) ^ ((1 : ℝ) / 7) * (1 + 0.22 * C ^ 2) ≤ 1) := by
  have hK : 0 < T + 273.15 := by linarith
  simp only [airEmissivity, Bool.false_eq_true, if_false]
  have p1 : 0 ≤ (e / 10 / (T + 273.15)) ^ ((1 : ℝ) / 7) := by positivity
  have p2 : (e / 10 / (T + 273.15)) ^ ((1 : ℝ) / 7) ≤ (e' / 10 / (T + 273.15)) ^ ((1 : ℝ) / 7) := by
    apply Real.rpow_le_rpow (by positivity) _ (by norm_num)
    gcongr
  set x := (e / 10 / (T + 273.15)) ^ ((1 : ℝ) / 7)
  set y := (e' / 10 / (T + 273.15)) ^ ((1 : ℝ) / 7)
  have hF' : 0 < 1 - F := by linarith
  refine ⟨?_, ?_, ?_⟩
  · have : 0 ≤ (1 - F) * 1.72 * x * (1 + 0.22 * C ^ 2) := by positivity
    linarith
  · have : 0 ≤ (1 - F) * 1.72 * y := mul_nonneg (by positivity) (le_trans p1 p2)
    gcongr
  · have e1 : (1 - F) * 1.72 * x * (1 + 0.22 * C ^ 2) + F
        = 1 - (1 - F) * (1 - 1.72 * x * (1 + 0.22 * C ^ 2)) := by ring
    rw [e1]
    constructor
    · intro h
      have : 0 ≤ (1 - F) * (1 - 1.72 * x * (1 + 0.22 * C ^ 2)) := by linarith
      have := nonneg_of_mul_nonneg_right this hF'
      linarith
    · intro h
      have : 0 ≤ (1 - F) * (1 - 1.72 * x * (1 + 0.22 * C ^ 2)) :=
        mul_nonneg hF'.le (by linarith)
      linarith

/-- **C58 is violated** for humid air under an overcast sky: without canopy, saturated air at 20 degrees
or more gets an emissivity above one. -/
theorem C58_violated (T : ℝ) (h20 : 20 ≤ T) (h60 : T ≤ 60) :
    1 < airEmissivity false 0 1 (vaporPressure 1 (eSat false T)) T := by
  have hK : 0 < T + 273.15 := by linarith
  have hmono : eSat false 20 ≤ eSat false T := by
    rcases h20.lt_or_eq with h | h
    · exact (eSat_strictMono false (by norm_num [InRange]) h).le
    · rw [h]
  have hexp : 3.2 ≤ Real.exp ((17.3 * 20) / (20 + 237.3)) := by
    have := Real.quadratic_le_exp_of_nonneg (by norm_num : (0 : ℝ) ≤ (17.3 * 20) / (20 + 237.3))
    refine le_trans (by norm_num) this
  have h19 : 19.5 ≤ eSat false T := by
    refine le_trans ?_ hmono
    simp only [eSat, Bool.false_eq_true, if_false]
    linarith
  have hx : (0.4766 : ℝ) ^ 7 ≤ vaporPressure 1 (eSat false T) / 10 / (T + 273.15) := by
    rw [le_div_iff₀ hK]
    simp only [vaporPressure, one_mul]
    have : (0.4766 : ℝ) ^ 7 * (T + 273.15) ≤ (0.4766 : ℝ) ^ 7 * 333.15 :=
      mul_le_mul_of_nonneg_left (by linarith) (by norm_num)
    refine le_trans this ?_
    have : (0.4766 : ℝ) ^ 7 * 333.15 ≤ 1.95 := by norm_num
    linarith
  have hr : 0.4766 ≤ (vaporPressure 1 (eSat false T) / 10 / (T + 273.15)) ^ ((1 : ℝ) / 7) := by
    have h := Real.rpow_le_rpow (by positivity) hx (by norm_num : (0 : ℝ) ≤ 1 / 7)
    have e : ((0.4766 : ℝ) ^ 7) ^ ((1 : ℝ) / 7) = 0.4766 := by
      rw [one_div]
      exact Real.pow_rpow_inv_natCast (by norm_num) (by norm_num)
    rwa [e] at h
  simp only [airEmissivity, Bool.false_eq_true, if_false]
  nlinarith

end MetEnergy
