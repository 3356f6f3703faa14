import Verif.ProjModel
import Mathlib.Analysis.SpecialFunctions.PolarCoord
import Mathlib.Analysis.SpecialFunctions.Trigonometric.Bounds
import Mathlib.Analysis.SpecialFunctions.Trigonometric.Angle
import Mathlib.Analysis.SpecialFunctions.Trigonometric.Deriv
import Mathlib.Analysis.SpecialFunctions.Pow.Deriv
import Mathlib.Analysis.Calculus.MeanValue
import Mathlib.MeasureTheory.Function.Jacobian
import Mathlib.Tactic.LinearCombination
import Mathlib.Tactic.FieldSimp

/-!
# Properties of the map projections
-/

set_option autoImplicit false

set_option linter.unnecessarySeqFocus false

noncomputable section

namespace Proj

open Real MeasureTheory Set

/-! ## Specification -/

/-- The part of the globe around the meridian `lon0`: longitude and latitude in degrees, without the poles. -/
def Globe (lon0 : ℝ) : Set (ℝ × ℝ) := {p | |p.1 - lon0| < 180 ∧ |p.2| < 90}

/-- The area on a sphere of radius `R` of a region given in degrees: the area element is
`R² cos(lat) dlon dlat` (in radians). -/
def sphereArea (R : ℝ) (s : Set (ℝ × ℝ)) : ENNReal :=
  ∫⁻ p in s, ENNReal.ofReal (R ^ 2 * cos (p.2 * (π / 180)) * (π / 180) ^ 2)

/-- The radius of curvature in the meridian of an ellipsoid with semi-major axis `a` and eccentricity `e`. -/
def meridianRadius (a e lat : ℝ) : ℝ := a * (1 - e ^ 2) / (1 - e ^ 2 * sin lat ^ 2) ^ (3 / 2 : ℝ)

/-- The radius of curvature in the prime vertical; the radius of a parallel is this times `cos lat`. -/
def normalRadius (a e lat : ℝ) : ℝ := a / √(1 - e ^ 2 * sin lat ^ 2)

/-- The area on an ellipsoid of a region given in degrees. -/
def ellipsoidArea (a e : ℝ) (s : Set (ℝ × ℝ)) : ENNReal :=
  ∫⁻ p in s, ENNReal.ofReal (meridianRadius a e (p.2 * (π / 180)) *
    (normalRadius a e (p.2 * (π / 180)) * cos (p.2 * (π / 180))) * (π / 180) ^ 2)

/-! ## Area under a differentiable map -/

/-- The derivative with matrix `!![a, b; c, d]`. -/
def mat (a b c d : ℝ) : ℝ × ℝ →L[ℝ] ℝ × ℝ :=
  (Matrix.toLin (.finTwoProd ℝ) (.finTwoProd ℝ) !![a, b; c, d]).toContinuousLinearMap

theorem mat_det (a b c d : ℝ) : (mat a b c d).det = a * d - b * c := by
  unfold mat
  simp only [LinearMap.det_toContinuousLinearMap, LinearMap.det_toLin, Matrix.det_fin_two_of]

theorem area_image {f : ℝ × ℝ → ℝ × ℝ} {f' : ℝ × ℝ → (ℝ × ℝ →L[ℝ] ℝ × ℝ)} {J : ℝ × ℝ → ℝ} {s : Set (ℝ × ℝ)}
    (hs : MeasurableSet s) (hf : ∀ p ∈ s, HasFDerivAt f (f' p) p) (hJ : ∀ p ∈ s, |(f' p).det| = J p)
    (hi : InjOn f s) : volume (f '' s) = ∫⁻ p in s, ENNReal.ofReal (J p) := by
  rw [← lintegral_abs_det_fderiv_eq_addHaar_image volume hs
    (fun p hp => (hf p hp).hasFDerivWithinAt) hi]
  apply setLIntegral_congr_fun hs
  intro p hp
  simp only [hJ p hp]

theorem hasFDerivAt_pair {g h : ℝ × ℝ → ℝ} {p : ℝ × ℝ} {a b c d : ℝ}
    (hg : HasFDerivAt g (a • ContinuousLinearMap.fst ℝ ℝ ℝ + b • ContinuousLinearMap.snd ℝ ℝ ℝ) p)
    (hh : HasFDerivAt h (c • ContinuousLinearMap.fst ℝ ℝ ℝ + d • ContinuousLinearMap.snd ℝ ℝ ℝ) p) :
    HasFDerivAt (fun q => (g q, h q)) (mat a b c d) p := by
  unfold mat
  rw [Matrix.toLin_finTwoProd_toContinuousLinearMap]
  exact hg.prodMk hh

/-! ## Conic maps -/

/-- The map of a cone: polar coordinates with radius `ρ(lat)` and angle `n (lon - lon0)`. -/
def conic (d n l0 ρ0 : ℝ) (ρ : ℝ → ℝ) (p : ℝ × ℝ) : ℝ × ℝ :=
  (ρ (p.2 * d) * sin (n * (p.1 * d - l0)), ρ0 - ρ (p.2 * d) * cos (n * (p.1 * d - l0)))

theorem conic_deriv {d n l0 ρ0 r : ℝ} {ρ : ℝ → ℝ} {p : ℝ × ℝ} (hr : HasDerivAt ρ r (p.2 * d)) :
    HasFDerivAt (conic d n l0 ρ0 ρ)
      (mat (ρ (p.2 * d) * (cos (n * (p.1 * d - l0)) * (n * d))) (r * d * sin (n * (p.1 * d - l0)))
        (ρ (p.2 * d) * (sin (n * (p.1 * d - l0)) * (n * d))) (-(r * d * cos (n * (p.1 * d - l0))))) p := by
  have h1 : HasFDerivAt (fun q : ℝ × ℝ => q.2 * d) (d • ContinuousLinearMap.snd ℝ ℝ ℝ) p :=
    hasFDerivAt_snd.mul_const d
  have h2 : HasFDerivAt (fun q : ℝ × ℝ => n * (q.1 * d - l0)) (n • d • ContinuousLinearMap.fst ℝ ℝ ℝ) p :=
    ((hasFDerivAt_fst.mul_const d).sub_const l0).const_mul n
  have h3 := hr.comp_hasFDerivAt p h1
  have h4 := (hasDerivAt_sin _).comp_hasFDerivAt p h2
  have h5 := (hasDerivAt_cos _).comp_hasFDerivAt p h2
  refine hasFDerivAt_pair ?_ ?_
  · refine (h3.mul h4).congr_fderiv ?_
    ext <;> simp <;> ring
  · refine ((h3.mul h5).const_sub ρ0).congr_fderiv ?_
    ext <;> simp <;> ring

theorem conic_inj {d n l0 ρ0 : ℝ} {ρ : ℝ → ℝ} {s : Set (ℝ × ℝ)} (hd : 0 < d) (hn : 0 < n) (hn1 : n ≤ 1)
    (hpos : ∀ p ∈ s, 0 < ρ (p.2 * d)) (hinj : ∀ p ∈ s, ∀ q ∈ s, ρ (p.2 * d) = ρ (q.2 * d) → p.2 * d = q.2 * d)
    (hlon : ∀ p ∈ s, |p.1 * d - l0| < π) : InjOn (conic d n l0 ρ0 ρ) s := by
  intro p hp q hq h
  simp only [conic, Prod.mk.injEq] at h
  obtain ⟨h1, h2⟩ := h
  have h2 : ρ (p.2 * d) * cos (n * (p.1 * d - l0)) = ρ (q.2 * d) * cos (n * (q.1 * d - l0)) := by linarith
  have hr : ρ (p.2 * d) = ρ (q.2 * d) := by
    have e : ρ (p.2 * d) ^ 2 = ρ (q.2 * d) ^ 2 := by
      have a := sin_sq_add_cos_sq (n * (p.1 * d - l0))
      have b := sin_sq_add_cos_sq (n * (q.1 * d - l0))
      calc ρ (p.2 * d) ^ 2 = (ρ (p.2 * d) * sin (n * (p.1 * d - l0))) ^ 2 +
            (ρ (p.2 * d) * cos (n * (p.1 * d - l0))) ^ 2 := by linear_combination -(ρ (p.2 * d) ^ 2) * a
        _ = (ρ (q.2 * d) * sin (n * (q.1 * d - l0))) ^ 2 +
            (ρ (q.2 * d) * cos (n * (q.1 * d - l0))) ^ 2 := by rw [h1, h2]
        _ = ρ (q.2 * d) ^ 2 := by linear_combination (ρ (q.2 * d) ^ 2) * b
    exact (sq_eq_sq₀ (hpos p hp).le (hpos q hq).le).1 e
  have hlat : p.2 = q.2 := mul_right_cancel₀ hd.ne' (hinj p hp q hq hr)
  rw [hr] at h1 h2
  have hs := mul_left_cancel₀ (hpos q hq).ne' h1
  have hc := mul_left_cancel₀ (hpos q hq).ne' h2
  have hb : ∀ u : ℝ, |u| < π → |n * u| < π := by
    intro u hu
    rw [abs_mul, abs_of_pos hn]
    calc n * |u| ≤ 1 * |u| := mul_le_mul_of_nonneg_right hn1 (abs_nonneg _)
      _ < π := by simpa using hu
  have hp' := abs_lt.1 (hb _ (hlon p hp))
  have hq' := abs_lt.1 (hb _ (hlon q hq))
  have hang : (n * (p.1 * d - l0)) = (n * (q.1 * d - l0)) := by
    have : ((n * (p.1 * d - l0) : ℝ) : Real.Angle) = ((n * (q.1 * d - l0) : ℝ) : Real.Angle) :=
      Real.Angle.cos_sin_inj hc hs
    rw [Real.Angle.angle_eq_iff_two_pi_dvd_sub] at this
    obtain ⟨k, hk⟩ := this
    have hk0 : k = 0 := by
      have h1 : (k : ℝ) < 1 := by
        by_contra hc
        have := mul_le_mul_of_nonneg_left (not_lt.1 hc) (by positivity : (0 : ℝ) ≤ 2 * π)
        linarith
      have h2 : (-1 : ℝ) < k := by
        by_contra hc
        have := mul_le_mul_of_nonneg_left (not_lt.1 hc) (by positivity : (0 : ℝ) ≤ 2 * π)
        linarith
      have h1' : k < 1 := by exact_mod_cast h1
      have h2' : -1 < k := by exact_mod_cast h2
      omega
    rw [hk0] at hk
    simp at hk
    linarith
  have hlon : p.1 = q.1 := by
    have := mul_left_cancel₀ hn.ne' hang
    exact mul_right_cancel₀ hd.ne' (by linarith)
  exact Prod.ext hlon hlat

theorem globe_rad {lon0 : ℝ} {p : ℝ × ℝ} (hp : p ∈ Globe lon0) :
    |p.1 * d2r - lon0 * d2r| < π ∧ p.2 * d2r ∈ Ioo (-(π / 2)) (π / 2) := by
  obtain ⟨h1, h2⟩ := hp
  have hd : 0 < d2r := by unfold d2r; positivity
  constructor
  · rw [← sub_mul, abs_mul, abs_of_pos hd]
    calc |p.1 - lon0| * d2r < 180 * d2r := mul_lt_mul_of_pos_right h1 hd
      _ = π := by unfold d2r; ring
  · have := abs_lt.1 h2
    constructor
    · calc -(π / 2) = -90 * d2r := by unfold d2r; ring
        _ < p.2 * d2r := mul_lt_mul_of_pos_right this.1 hd
    · calc p.2 * d2r < 90 * d2r := mul_lt_mul_of_pos_right this.2 hd
        _ = π / 2 := by unfold d2r; ring

/-- An equal-area cone: if `ρ² = (a/n)² (C - n Q)` then areas are those with density `a² Q' / 2`. -/
theorem conic_equal_area {a n C ρ0 lon0 : ℝ} {Q q : ℝ → ℝ} {s : Set (ℝ × ℝ)} (ha : 0 < a) (hn : 0 < n)
    (hn1 : n ≤ 1) (hs : MeasurableSet s) (hsub : s ⊆ Globe lon0)
    (hQ : ∀ φ ∈ Ioo (-(π / 2)) (π / 2), HasDerivAt Q (q φ) φ)
    (hq : ∀ φ ∈ Ioo (-(π / 2)) (π / 2), 0 < q φ)
    (hC : ∀ φ ∈ Ioo (-(π / 2)) (π / 2), 0 < C - n * Q φ) :
    InjOn (conic d2r n (lon0 * d2r) ρ0 fun φ => a / n * √(C - n * Q φ)) s ∧
    volume (conic d2r n (lon0 * d2r) ρ0 (fun φ => a / n * √(C - n * Q φ)) '' s) =
      ∫⁻ p in s, ENNReal.ofReal (a ^ 2 * q (p.2 * d2r) / 2 * d2r ^ 2) := by
  have hd : 0 < d2r := by unfold d2r; positivity
  have hmono : StrictMonoOn Q (Ioo (-(π / 2)) (π / 2)) := by
    apply strictMonoOn_of_deriv_pos (convex_Ioo _ _)
    · intro φ hφ
      exact (hQ φ hφ).continuousAt.continuousWithinAt
    · intro φ hφ
      rw [interior_Ioo] at hφ
      rw [(hQ φ hφ).deriv]
      exact hq φ hφ
  have hinj : InjOn (conic d2r n (lon0 * d2r) ρ0 fun φ => a / n * √(C - n * Q φ)) s := by
    apply conic_inj hd hn hn1
    · intro p hp
      have := hC _ (globe_rad (hsub hp)).2
      positivity
    · intro p hp q' hq' h
      have h1 := hC _ (globe_rad (hsub hp)).2
      have h2 := hC _ (globe_rad (hsub hq')).2
      have h3 := mul_left_cancel₀ (by positivity : a / n ≠ 0) h
      rw [Real.sqrt_inj h1.le h2.le] at h3
      have h4 : Q (p.2 * d2r) = Q (q'.2 * d2r) := mul_left_cancel₀ hn.ne' (by linarith)
      exact hmono.injOn (globe_rad (hsub hp)).2 (globe_rad (hsub hq')).2 h4
    · intro p hp
      exact (globe_rad (hsub hp)).1
  refine ⟨hinj, ?_⟩
  have hρ : ∀ φ ∈ Ioo (-(π / 2)) (π / 2), HasDerivAt (fun φ => a / n * √(C - n * Q φ))
      (a / n * (-(n * q φ) / (2 * √(C - n * Q φ)))) φ := by
    intro φ hφ
    exact ((((hQ φ hφ).const_mul n).const_sub C).sqrt (hC φ hφ).ne').const_mul (a / n)
  refine area_image hs (fun p hp => conic_deriv (hρ _ (globe_rad (hsub hp)).2)) ?_ hinj
  intro p hp
  have hpos := hC _ (globe_rad (hsub hp)).2
  have hsq : 0 < √(C - n * Q (p.2 * d2r)) := Real.sqrt_pos.2 hpos
  rw [mat_det]
  have e : ∀ θ r w : ℝ, 0 < r → a / n * r * (cos θ * (n * d2r)) * -(a / n * (-(n * w) / (2 * r)) * d2r * cos θ) -
      a / n * (-(n * w) / (2 * r)) * d2r * sin θ * (a / n * r * (sin θ * (n * d2r))) =
      a ^ 2 * w / 2 * d2r ^ 2 := by
    intro θ r w hr
    have h1 := sin_sq_add_cos_sq θ
    field_simp
    linear_combination w * h1
  rw [e _ _ _ hsq, abs_of_nonneg]
  have := hq _ (globe_rad (hsub hp)).2
  positivity

/-! ## Albers, sphere (C153) -/

theorem parallels : 0 < sin (29.5 * d2r) ∧ sin (29.5 * d2r) < sin (45.5 * d2r) ∧ sin (45.5 * d2r) < 1 := by
  have hp := Real.pi_pos
  have e1 : (29.5 : ℝ) * d2r = π * (29.5 / 180) := by unfold d2r; ring
  have e2 : (45.5 : ℝ) * d2r = π * (45.5 / 180) := by unfold d2r; ring
  refine ⟨sin_pos_of_pos_of_lt_pi (by rw [e1]; positivity) ?_, ?_, ?_⟩
  · rw [e1]; nlinarith
  · apply Real.sin_lt_sin_of_lt_of_le_pi_div_two <;> (try rw [e1]) <;> (try rw [e2]) <;> nlinarith
  · rw [← Real.sin_pi_div_two]
    apply Real.sin_lt_sin_of_lt_of_le_pi_div_two <;> (try rw [e2]) <;> nlinarith

theorem sin_lt_one_of_mem {φ : ℝ} (h : φ ∈ Ioo (-(π / 2)) (π / 2)) : sin φ < 1 ∧ -1 < sin φ := by
  constructor
  · rw [← Real.sin_pi_div_two]
    exact Real.sin_lt_sin_of_lt_of_le_pi_div_two (by linarith [h.1]) le_rfl h.2
  · have := Real.sin_lt_sin_of_lt_of_le_pi_div_two (x := -(π / 2)) (y := φ) le_rfl h.2.le h.1
    rwa [Real.sin_neg, Real.sin_pi_div_two] at this

theorem sphN_bounds : 0 < sphN ∧ sphN < 1 := by
  obtain ⟨h1, h2, h3⟩ := parallels
  unfold sphN
  constructor <;> linarith

theorem sphC_pos {φ : ℝ} (h : sin φ < 1) : 0 < sphC - sphN * (2 * sin φ) := by
  obtain ⟨h1, h2, h3⟩ := parallels
  have e : sphC - sphN * (2 * sin φ) =
      (1 - sin (29.5 * d2r)) * (1 - sin (45.5 * d2r)) + 2 * sphN * (1 - sin φ) := by
    have := sin_sq_add_cos_sq (29.5 * d2r)
    unfold sphC sphN
    linear_combination this
  rw [e]
  have := sphN_bounds.1
  have a1 : 0 < 1 - sin (29.5 * d2r) := by linarith
  have a2 : 0 < 1 - sin (45.5 * d2r) := by linarith
  have a3 : 0 < 1 - sin φ := by linarith
  positivity

theorem albersSphere_conic (p : ℝ × ℝ) : albersSphere p.1 p.2 =
    conic d2r sphN (-96 * d2r) (sphRho (23 * d2r))
      (fun φ => 6378137 / sphN * √(sphC - sphN * (2 * sin φ))) p := by
  have e : ∀ φ, sphRho φ = 6378137 / sphN * √(sphC - sphN * (2 * sin φ)) := by
    intro φ
    unfold sphRho
    ring_nf
  simp only [albersSphere, conic, e]
  norm_num

/-- **C153**: the spherical Albers map keeps areas: every region of the globe (that does not cross the
meridian opposite to 96° west) has on the map the area it has on the sphere; different points have different
images. -/
theorem C153_albers_sphere {s : Set (ℝ × ℝ)} (hs : MeasurableSet s) (hsub : s ⊆ Globe (-96)) :
    InjOn (fun p : ℝ × ℝ => albersSphere p.1 p.2) s ∧
    volume ((fun p : ℝ × ℝ => albersSphere p.1 p.2) '' s) = sphereArea 6378137 s := by
  have h := conic_equal_area (a := 6378137) (n := sphN) (C := sphC) (ρ0 := sphRho (23 * d2r)) (lon0 := -96)
    (Q := fun φ => 2 * sin φ) (q := fun φ => 2 * cos φ) (by norm_num) sphN_bounds.1 sphN_bounds.2.le hs hsub
    (fun φ _ => (hasDerivAt_sin φ).const_mul 2)
    (fun φ hφ => by have := cos_pos_of_mem_Ioo hφ; positivity)
    (fun φ hφ => sphC_pos (sin_lt_one_of_mem hφ).1)
  have e : (fun p : ℝ × ℝ => albersSphere p.1 p.2) = conic d2r sphN (-96 * d2r) (sphRho (23 * d2r))
      (fun φ => 6378137 / sphN * √(sphC - sphN * (2 * sin φ))) := funext albersSphere_conic
  rw [e]
  refine ⟨h.1, h.2.trans ?_⟩
  unfold sphereArea
  congr 1
  funext p
  congr 1
  simp only [d2r]
  ring

/-! ## Albers, ellipsoid (C154) -/

/-- `albersQ` as a function of the sine of the latitude. -/
def qs (e t : ℝ) : ℝ := (1 - e ^ 2) * (t / (1 - (e * t) ^ 2) - log ((1 - e * t) / (1 + e * t)) / (2 * e))

/-- The square of `m1`, `m2` as a function of the sine of the latitude. -/
def ms (e t : ℝ) : ℝ := (1 - t ^ 2) / (1 - (e * t) ^ 2)

theorem et_bounds {e t : ℝ} (he : 0 < e) (he1 : e < 1) (ht : t ≤ 1) (ht' : -1 ≤ t) :
    0 < 1 - e * t ∧ 0 < 1 + e * t ∧ 0 < 1 - (e * t) ^ 2 := by
  have h1 : 0 < 1 - e * t := by nlinarith
  have h2 : 0 < 1 + e * t := by nlinarith
  refine ⟨h1, h2, ?_⟩
  have : 1 - (e * t) ^ 2 = (1 - e * t) * (1 + e * t) := by ring
  rw [this]
  positivity

theorem qs_deriv {e t : ℝ} (he : 0 < e) (he1 : e < 1) (ht : t ≤ 1) (ht' : -1 ≤ t) :
    HasDerivAt (qs e) (2 * (1 - e ^ 2) / (1 - (e * t) ^ 2) ^ 2) t := by
  obtain ⟨h1, h2, h3⟩ := et_bounds he he1 ht ht'
  have d1 : HasDerivAt (fun t : ℝ => e * t) e t := by simpa using (hasDerivAt_id t).const_mul e
  have d2 : HasDerivAt (fun t : ℝ => 1 - (e * t) ^ 2) (-(2 * (e * t) * e)) t := by
    simpa using (d1.pow 2).const_sub 1
  have d3 := (hasDerivAt_id t).div d2 h3.ne'
  have d4 := (d1.const_sub 1).div (d1.const_add 1) h2.ne'
  have d5 := d4.log (by simpa using (div_pos h1 h2).ne')
  have d6 := (d3.sub (d5.div_const (2 * e))).const_mul (1 - e ^ 2)
  refine d6.congr_deriv ?_
  simp only [id, Pi.div_apply]
  have h3' : (1 - e ^ 2 * t ^ 2) ≠ 0 := by rw [← mul_pow]; exact h3.ne'
  field_simp
  ring

theorem ms_deriv {e t : ℝ} (he : 0 < e) (he1 : e < 1) (ht : t ≤ 1) (ht' : -1 ≤ t) :
    HasDerivAt (ms e) (-t * (2 * (1 - e ^ 2) / (1 - (e * t) ^ 2) ^ 2)) t := by
  obtain ⟨h1, h2, h3⟩ := et_bounds he he1 ht ht'
  have d1 : HasDerivAt (fun t : ℝ => e * t) e t := by simpa using (hasDerivAt_id t).const_mul e
  have d2 : HasDerivAt (fun t : ℝ => 1 - (e * t) ^ 2) (-(2 * (e * t) * e)) t := by
    simpa using (d1.pow 2).const_sub 1
  have d3 : HasDerivAt (fun t : ℝ => 1 - t ^ 2) (-(2 * t)) t := by
    simpa using ((hasDerivAt_id t).pow 2).const_sub 1
  refine (d3.div d2 h3.ne').congr_deriv ?_
  have h3' : (1 - e ^ 2 * t ^ 2) ≠ 0 := by rw [← mul_pow]; exact h3.ne'
  field_simp
  ring

theorem qs_mono {e : ℝ} (he : 0 < e) (he1 : e < 1) : StrictMonoOn (qs e) (Icc (-1) 1) := by
  apply strictMonoOn_of_deriv_pos (convex_Icc _ _)
  · intro t ht
    exact (qs_deriv he he1 ht.2 ht.1).continuousAt.continuousWithinAt
  · intro t ht
    rw [interior_Icc] at ht
    rw [(qs_deriv he he1 ht.2.le ht.1.le).deriv]
    have := (et_bounds he he1 ht.2.le ht.1.le).2.2
    have h1 : 0 < 1 - e ^ 2 := by nlinarith
    positivity

theorem cone_constants {e s1 s2 n C : ℝ} (he : 0 < e) (he1 : e < 1) (h0 : 0 < s1) (h12 : s1 < s2) (h2 : s2 < 1)
    (hn : n = (ms e s1 - ms e s2) / (qs e s2 - qs e s1)) (hC : C = ms e s1 + n * qs e s1) :
    s1 < n ∧ n < s2 ∧ C = ms e s2 + n * qs e s2 ∧ ∀ t, -1 ≤ t → t ≤ 1 → 0 < C - n * qs e t := by
  have hq : 0 < qs e s2 - qs e s1 := by
    have := qs_mono he he1 (a := s1) (b := s2) ⟨by linarith, by linarith⟩ ⟨by linarith, h2.le⟩ h12
    linarith
  have hn' : n * (qs e s2 - qs e s1) = ms e s1 - ms e s2 := by
    rw [hn]; field_simp
  have hC2 : C = ms e s2 + n * qs e s2 := by rw [hC]; linarith
  have hg : ∀ t, -1 ≤ t → t ≤ 1 → HasDerivAt (fun t => ms e t + n * qs e t)
      ((n - t) * (2 * (1 - e ^ 2) / (1 - (e * t) ^ 2) ^ 2)) t := by
    intro t ht ht'
    refine ((ms_deriv he he1 ht' ht).add ((qs_deriv he he1 ht' ht).const_mul n)).congr_deriv ?_
    ring
  have hpos : ∀ t, -1 ≤ t → t ≤ 1 → 0 < 2 * (1 - e ^ 2) / (1 - (e * t) ^ 2) ^ 2 := by
    intro t ht ht'
    have := (et_bounds he he1 ht' ht).2.2
    have h1 : 0 < 1 - e ^ 2 := by nlinarith
    positivity
  have hrolle : s1 < n ∧ n < s2 := by
    obtain ⟨c, hc, hd⟩ := exists_hasDerivAt_eq_zero (f := fun t => ms e t + n * qs e t)
      (f' := fun t => (n - t) * (2 * (1 - e ^ 2) / (1 - (e * t) ^ 2) ^ 2)) h12
      (fun t ht => (hg t (by linarith [ht.1]) (by linarith [ht.2])).continuousAt.continuousWithinAt)
      (show ms e s1 + n * qs e s1 = ms e s2 + n * qs e s2 by linarith)
      (fun t ht => hg t (by linarith [ht.1]) (by linarith [ht.2]))
    have := hpos c (by linarith [hc.1]) (by linarith [hc.2])
    have : n = c := by
      rcases mul_eq_zero.1 hd with h | h
      · linarith
      · exact absurd h this.ne'
    rw [this]
    exact hc
  refine ⟨hrolle.1, hrolle.2, hC2, ?_⟩
  intro t ht ht'
  have hn0 : 0 < n := by linarith [hrolle.1]
  have hq1 : qs e t ≤ qs e 1 := (qs_mono he he1).monotoneOn ⟨ht, ht'⟩ ⟨by norm_num, le_rfl⟩ ht'
  have hanti : StrictAntiOn (fun t => ms e t + n * qs e t) (Icc s2 1) := by
    apply strictAntiOn_of_deriv_neg (convex_Icc _ _)
    · intro t ht
      exact (hg t (by linarith [ht.1]) ht.2).continuousAt.continuousWithinAt
    · intro t ht
      rw [interior_Icc] at ht
      rw [(hg t (by linarith [ht.1]) ht.2.le).deriv]
      have := hpos t (by linarith [ht.1]) ht.2.le
      have h3 : n - t < 0 := by linarith [hrolle.2, ht.1]
      exact mul_neg_of_neg_of_pos h3 this
  have h := hanti (a := s2) (b := 1) ⟨le_rfl, h2.le⟩ ⟨h2.le, le_rfl⟩ h2
  have hm : ms e 1 = 0 := by unfold ms; simp
  simp only [hm] at h
  have := mul_le_mul_of_nonneg_left hq1 hn0.le
  linarith

theorem ellE_bounds : 0 < ellE ∧ ellE < 1 ∧ ellE ^ 2 = ellF * (2 - ellF) := by
  have h : 0 < ellF * (2 - ellF) := by unfold ellF; norm_num
  have h1 : ellF * (2 - ellF) < 1 := by unfold ellF; norm_num
  refine ⟨Real.sqrt_pos.2 h, ?_, Real.sq_sqrt h.le⟩
  unfold ellE
  rw [Real.sqrt_lt' one_pos]
  simpa using h1

theorem ellM_sq (φ : ℝ) : ellM φ ^ 2 = ms ellE (sin φ) := by
  obtain ⟨h1, h2, _⟩ := ellE_bounds
  have := (et_bounds h1 h2 (sin_le_one φ) (neg_one_le_sin φ)).2.2
  unfold ellM ms
  rw [div_pow, Real.sq_sqrt this.le, Real.cos_sq']

theorem ell_constants : sin (29.5 * d2r) < ellN ∧ ellN < sin (45.5 * d2r) ∧
    ellC = ms ellE (sin (29.5 * d2r)) + ellN * qs ellE (sin (29.5 * d2r)) ∧
    ellC = ms ellE (sin (45.5 * d2r)) + ellN * qs ellE (sin (45.5 * d2r)) ∧
    ∀ t, -1 ≤ t → t ≤ 1 → 0 < ellC - ellN * qs ellE t := by
  obtain ⟨h1, h2, h3⟩ := parallels
  obtain ⟨a1, a2, a3, a4⟩ := cone_constants (n := ellN) (C := ellC) ellE_bounds.1 ellE_bounds.2.1 h1 h2 h3
    (by rw [← ellM_sq, ← ellM_sq]; rfl) (by rw [← ellM_sq]; rfl)
  exact ⟨a1, a2, by rw [← ellM_sq]; rfl, a3, a4⟩

theorem meridian_normal {a e φ : ℝ} (he : 0 < e) (he1 : e < 1) :
    meridianRadius a e φ * (normalRadius a e φ * cos φ) =
      a ^ 2 * (2 * (1 - e ^ 2) / (1 - (e * sin φ) ^ 2) ^ 2 * cos φ) / 2 := by
  have h := (et_bounds he he1 (sin_le_one φ) (neg_one_le_sin φ)).2.2
  unfold meridianRadius normalRadius
  rw [← mul_pow]
  generalize 1 - (e * sin φ) ^ 2 = w at *
  rw [Real.sqrt_eq_rpow]
  have e1 : w ^ 2 = w ^ (3 / 2 : ℝ) * w ^ (1 / 2 : ℝ) := by
    rw [← Real.rpow_add h, ← Real.rpow_natCast]; norm_num
  rw [e1]
  have h1 : 0 < w ^ (3 / 2 : ℝ) := Real.rpow_pos_of_pos h _
  have h2 : 0 < w ^ (1 / 2 : ℝ) := Real.rpow_pos_of_pos h _
  field_simp

/-- **C154**: the ellipsoidal Albers map keeps areas: every region of the globe (that does not cross the
meridian opposite to 96° west) has on the map the area it has on the ellipsoid; different points have
different images. -/
theorem C154_albers_ellipsoid {s : Set (ℝ × ℝ)} (hs : MeasurableSet s) (hsub : s ⊆ Globe (-96)) :
    InjOn (fun p : ℝ × ℝ => albersEllipsoid p.1 p.2) s ∧
    volume ((fun p : ℝ × ℝ => albersEllipsoid p.1 p.2) '' s) = ellipsoidArea 6378137 ellE s := by
  obtain ⟨he, he1, _⟩ := ellE_bounds
  obtain ⟨c1, c2, _, _, c3⟩ := ell_constants
  obtain ⟨p1, p2, p3⟩ := parallels
  have h := conic_equal_area (a := 6378137) (n := ellN) (C := ellC) (ρ0 := ellRho (23 * d2r)) (lon0 := -96)
    (Q := fun φ => qs ellE (sin φ)) (q := fun φ => 2 * (1 - ellE ^ 2) / (1 - (ellE * sin φ) ^ 2) ^ 2 * cos φ)
    (by norm_num) (by linarith) (by linarith) hs hsub
    (fun φ _ => (qs_deriv he he1 (sin_le_one φ) (neg_one_le_sin φ)).comp φ (hasDerivAt_sin φ))
    (fun φ hφ => by
      have := cos_pos_of_mem_Ioo hφ
      have := (et_bounds he he1 (sin_le_one φ) (neg_one_le_sin φ)).2.2
      have h1 : 0 < 1 - ellE ^ 2 := by nlinarith
      positivity)
    (fun φ _ => c3 _ (neg_one_le_sin φ) (sin_le_one φ))
  have e : (fun p : ℝ × ℝ => albersEllipsoid p.1 p.2) = conic d2r ellN (-96 * d2r) (ellRho (23 * d2r))
      (fun φ => 6378137 / ellN * √(ellC - ellN * qs ellE (sin φ))) := by
    funext p
    have e : ∀ φ, ellRho φ = 6378137 / ellN * √(ellC - ellN * qs ellE (sin φ)) := fun φ => rfl
    simp only [albersEllipsoid, conic, e]
    norm_num
  rw [e]
  refine ⟨h.1, h.2.trans ?_⟩
  unfold ellipsoidArea
  congr 1
  funext p
  congr 1
  rw [meridian_normal he he1]
  rfl

/-! ## Lambert (C155) -/

/-- The components of the point in a frame whose third axis goes through the origin of the map. -/
def la (φ Δ : ℝ) : ℝ := cos φ * sin Δ
def lb (φ1 φ Δ : ℝ) : ℝ := cos φ1 * sin φ - sin φ1 * cos φ * cos Δ
def lc (φ1 φ Δ : ℝ) : ℝ := sin φ1 * sin φ + cos φ1 * cos φ * cos Δ

theorem unit_sphere (φ1 φ Δ : ℝ) : la φ Δ ^ 2 + lb φ1 φ Δ ^ 2 + lc φ1 φ Δ ^ 2 = 1 := by
  have h1 := sin_sq_add_cos_sq φ1
  have h2 := sin_sq_add_cos_sq φ
  have h3 := sin_sq_add_cos_sq Δ
  unfold la lb lc
  linear_combination (sin φ ^ 2 + cos φ ^ 2 * cos Δ ^ 2) * h1 + h2 + cos φ ^ 2 * h3

theorem lc_gt {φ1 φ Δ : ℝ} (h1 : φ1 ∈ Icc (-(π / 2)) (π / 2)) (h : φ ∈ Ioo (-(π / 2)) (π / 2)) (hΔ : |Δ| < π) :
    0 < 1 + lc φ1 φ Δ := by
  have hc := cos_pos_of_mem_Ioo h
  have hc1 := cos_nonneg_of_mem_Icc h1
  have hs := sin_lt_one_of_mem h
  have hΔ' : -1 < cos Δ := by
    have := Real.cos_lt_cos_of_nonneg_of_le_pi (x := |Δ|) (y := π) (abs_nonneg _) le_rfl hΔ
    rwa [Real.cos_abs, Real.cos_pi] at this
  unfold lc
  rcases hc1.eq_or_lt with h0 | h0
  · rw [← h0]
    have := sin_sq_add_cos_sq φ1
    rw [← h0] at this
    have h2 : (sin φ1 - 1) * (sin φ1 + 1) = 0 := by linarith
    rcases mul_eq_zero.1 h2 with h3 | h3
    · rw [show sin φ1 = 1 by linarith]; linarith
    · rw [show sin φ1 = -1 by linarith]; linarith
  · have h2 : -(cos φ1 * cos φ) < cos φ1 * cos φ * cos Δ := by
      have := mul_lt_mul_of_pos_left hΔ' (mul_pos h0 hc)
      linarith
    have h3 : -1 ≤ sin φ1 * sin φ - cos φ1 * cos φ := by
      have := Real.cos_le_one (φ1 + φ)
      rw [Real.cos_add] at this
      linarith
    linarith

/-- The Lambert map in radians. -/
def lam (R d l0 φ1 : ℝ) (p : ℝ × ℝ) : ℝ × ℝ :=
  (R * (√(2 / (1 + lc φ1 (p.2 * d) (p.1 * d - l0))) * la (p.2 * d) (p.1 * d - l0)),
   R * (√(2 / (1 + lc φ1 (p.2 * d) (p.1 * d - l0))) * lb φ1 (p.2 * d) (p.1 * d - l0)))

theorem lambert_eq (lon0 lat1 : ℝ) (p : ℝ × ℝ) :
    lambert p.1 p.2 lon0 lat1 = lam 6370997 d2r (lon0 * d2r) (lat1 * d2r) p := by
  simp only [lambert, lam, la, lb, lc]
  ring_nf

theorem scale_deriv {c : ℝ} (h : 0 < 1 + c) :
    HasDerivAt (fun c : ℝ => √(2 / (1 + c))) (-(√(2 / (1 + c)) / (2 * (1 + c)))) c := by
  have h1 : HasDerivAt (fun c : ℝ => 1 + c) 1 c := (hasDerivAt_id c).const_add 1
  have h2 := (hasDerivAt_const c (2 : ℝ)).div h1 h.ne'
  have hp : 0 < 2 / (1 + c) := by positivity
  refine (h2.sqrt hp.ne').congr_deriv ?_
  have hs : 0 < √(2 / (1 + c)) := Real.sqrt_pos.2 hp
  have hsq : √(2 / (1 + c)) ^ 2 = 2 / (1 + c) := Real.sq_sqrt hp.le
  simp only [Pi.div_apply]
  rw [div_eq_iff (by positivity)]
  rw [show -(√(2 / (1 + c)) / (2 * (1 + c))) * (2 * √(2 / (1 + c))) = -(√(2 / (1 + c)) ^ 2 / (1 + c)) by
    field_simp]
  rw [hsq]
  field_simp
  ring

theorem hasFDerivAt_prod {K A : ℝ × ℝ → ℝ} {p : ℝ × ℝ} {k1 k2 a1 a2 : ℝ} (R : ℝ)
    (hK : HasFDerivAt K (k1 • ContinuousLinearMap.fst ℝ ℝ ℝ + k2 • ContinuousLinearMap.snd ℝ ℝ ℝ) p)
    (hA : HasFDerivAt A (a1 • ContinuousLinearMap.fst ℝ ℝ ℝ + a2 • ContinuousLinearMap.snd ℝ ℝ ℝ) p) :
    HasFDerivAt (fun q => R * (K q * A q)) ((R * (K p * a1 + A p * k1)) • ContinuousLinearMap.fst ℝ ℝ ℝ +
      (R * (K p * a2 + A p * k2)) • ContinuousLinearMap.snd ℝ ℝ ℝ) p := by
  refine ((hK.mul hA).const_mul R).congr_fderiv ?_
  ext <;> simp <;> ring

theorem lam_det {R k d A B C a1 a2 b1 b2 c1 c2 w : ℝ} (hC : 1 + C ≠ 0) (hk : k ^ 2 * (1 + C) = 2)
    (hu : A ^ 2 + B ^ 2 + C ^ 2 = 1) (j1 : a1 * b2 - a2 * b1 = C * w * d ^ 2) (j2 : b1 * c2 - b2 * c1 = A * w * d ^ 2)
    (j3 : c1 * a2 - c2 * a1 = B * w * d ^ 2) :
    R * (k * a1 + A * (-(k / (2 * (1 + C))) * c1)) * (R * (k * b2 + B * (-(k / (2 * (1 + C))) * c2))) -
    R * (k * a2 + A * (-(k / (2 * (1 + C))) * c2)) * (R * (k * b1 + B * (-(k / (2 * (1 + C))) * c1))) =
      R ^ 2 * w * d ^ 2 := by
  have h : ∀ m : ℝ, R * (k * a1 + A * (-(k * m) * c1)) * (R * (k * b2 + B * (-(k * m) * c2))) -
    R * (k * a2 + A * (-(k * m) * c2)) * (R * (k * b1 + B * (-(k * m) * c1))) =
      R ^ 2 * k ^ 2 * (C * w * d ^ 2 + m * (A ^ 2 + B ^ 2) * w * d ^ 2) := by
    intro m
    linear_combination R ^ 2 * k ^ 2 * j1 + R ^ 2 * k ^ 2 * m * A * j2 + R ^ 2 * k ^ 2 * m * B * j3
  have e : k / (2 * (1 + C)) = k * (1 / (2 * (1 + C))) := by ring
  rw [e, h, show A ^ 2 + B ^ 2 = (1 - C) * (1 + C) by linarith]
  have h2 : 1 / (2 * (1 + C)) * ((1 - C) * (1 + C)) = (1 - C) / 2 := by field_simp
  rw [h2]
  linear_combination (R ^ 2 * w * d ^ 2 / 2) * hk

theorem lam_deriv {R d l0 φ1 : ℝ} {p : ℝ × ℝ} (h : 0 < 1 + lc φ1 (p.2 * d) (p.1 * d - l0)) :
    ∃ f', HasFDerivAt (lam R d l0 φ1) f' p ∧ f'.det = R ^ 2 * cos (p.2 * d) * d ^ 2 := by
  have h1 : HasFDerivAt (fun q : ℝ × ℝ => q.2 * d) (d • ContinuousLinearMap.snd ℝ ℝ ℝ) p :=
    hasFDerivAt_snd.mul_const d
  have h2 : HasFDerivAt (fun q : ℝ × ℝ => q.1 * d - l0) (d • ContinuousLinearMap.fst ℝ ℝ ℝ) p :=
    (hasFDerivAt_fst.mul_const d).sub_const l0
  have s1 := (hasDerivAt_sin _).comp_hasFDerivAt p h1
  have c1 := (hasDerivAt_cos _).comp_hasFDerivAt p h1
  have s2 := (hasDerivAt_sin _).comp_hasFDerivAt p h2
  have c2 := (hasDerivAt_cos _).comp_hasFDerivAt p h2
  have hA : HasFDerivAt (fun q : ℝ × ℝ => la (q.2 * d) (q.1 * d - l0))
      ((cos (p.2 * d) * cos (p.1 * d - l0) * d) • ContinuousLinearMap.fst ℝ ℝ ℝ +
       (-(sin (p.2 * d) * sin (p.1 * d - l0) * d)) • ContinuousLinearMap.snd ℝ ℝ ℝ) p := by
    refine (c1.mul s2).congr_fderiv ?_
    ext <;> simp <;> ring
  have hB : HasFDerivAt (fun q : ℝ × ℝ => lb φ1 (q.2 * d) (q.1 * d - l0))
      ((sin φ1 * cos (p.2 * d) * sin (p.1 * d - l0) * d) • ContinuousLinearMap.fst ℝ ℝ ℝ +
       ((cos φ1 * cos (p.2 * d) + sin φ1 * sin (p.2 * d) * cos (p.1 * d - l0)) * d) •
         ContinuousLinearMap.snd ℝ ℝ ℝ) p := by
    refine ((s1.const_mul (cos φ1)).sub ((c1.const_mul (sin φ1)).mul c2)).congr_fderiv ?_
    ext <;> simp <;> ring
  have hC : HasFDerivAt (fun q : ℝ × ℝ => lc φ1 (q.2 * d) (q.1 * d - l0))
      ((-(cos φ1 * cos (p.2 * d) * sin (p.1 * d - l0)) * d) • ContinuousLinearMap.fst ℝ ℝ ℝ +
       ((sin φ1 * cos (p.2 * d) - cos φ1 * sin (p.2 * d) * cos (p.1 * d - l0)) * d) •
         ContinuousLinearMap.snd ℝ ℝ ℝ) p := by
    refine ((s1.const_mul (sin φ1)).add ((c1.const_mul (cos φ1)).mul c2)).congr_fderiv ?_
    ext <;> simp <;> ring
  have hk := (scale_deriv h).comp_hasFDerivAt p hC
  rw [smul_add, smul_smul, smul_smul] at hk
  refine ⟨_, hasFDerivAt_pair (hasFDerivAt_prod R hk hA) (hasFDerivAt_prod R hk hB), ?_⟩
  rw [mat_det]
  have e1 := sin_sq_add_cos_sq φ1
  have e2 := sin_sq_add_cos_sq (p.2 * d)
  have e3 := sin_sq_add_cos_sq (p.1 * d - l0)
  apply lam_det h.ne'
  · rw [Real.sq_sqrt (by positivity), div_mul_cancel₀ _ h.ne']
  · exact unit_sphere _ _ _
  · unfold lc
    linear_combination (sin φ1 * sin (p.2 * d) * cos (p.2 * d) * d ^ 2) * e3
  · unfold la
    linear_combination (cos (p.2 * d) ^ 2 * sin (p.1 * d - l0) * d ^ 2) * e1
  · unfold lb
    linear_combination (cos (p.2 * d) * cos φ1 * sin (p.2 * d) * d ^ 2) * e3

theorem angle_inj {u v : ℝ} (hu : |u| < π) (hv : |v| < π) (hc : cos u = cos v) (hs : sin u = sin v) : u = v := by
  have hp' := abs_lt.1 hu
  have hq' := abs_lt.1 hv
  have : (u : Real.Angle) = (v : Real.Angle) := Real.Angle.cos_sin_inj hc hs
  rw [Real.Angle.angle_eq_iff_two_pi_dvd_sub] at this
  obtain ⟨k, hk⟩ := this
  have hk0 : k = 0 := by
    have h1 : (k : ℝ) < 1 := by
      by_contra hc
      have := mul_le_mul_of_nonneg_left (not_lt.1 hc) (by positivity : (0 : ℝ) ≤ 2 * π)
      linarith
    have h2 : (-1 : ℝ) < k := by
      by_contra hc
      have := mul_le_mul_of_nonneg_left (not_lt.1 hc) (by positivity : (0 : ℝ) ≤ 2 * π)
      linarith
    have h1' : k < 1 := by exact_mod_cast h1
    have h2' : -1 < k := by exact_mod_cast h2
    omega
  rw [hk0] at hk
  simp at hk
  linarith

theorem lam_norm {R d l0 φ1 : ℝ} {p : ℝ × ℝ} (h : 0 < 1 + lc φ1 (p.2 * d) (p.1 * d - l0)) :
    (lam R d l0 φ1 p).1 ^ 2 + (lam R d l0 φ1 p).2 ^ 2 =
      2 * R ^ 2 * (1 - lc φ1 (p.2 * d) (p.1 * d - l0)) := by
  have hu := unit_sphere φ1 (p.2 * d) (p.1 * d - l0)
  have hk : √(2 / (1 + lc φ1 (p.2 * d) (p.1 * d - l0))) ^ 2 * (1 + lc φ1 (p.2 * d) (p.1 * d - l0)) = 2 := by
    rw [Real.sq_sqrt (by positivity), div_mul_cancel₀ _ h.ne']
  simp only [lam]
  generalize √(2 / (1 + lc φ1 (p.2 * d) (p.1 * d - l0))) = k at *
  linear_combination (R ^ 2 * k ^ 2) * hu + (R ^ 2 * (1 - lc φ1 (p.2 * d) (p.1 * d - l0))) * hk

theorem lam_inj {R d l0 φ1 : ℝ} {s : Set (ℝ × ℝ)} (hR : 0 < R) (hd : 0 < d)
    (h1 : ∀ p ∈ s, 0 < 1 + lc φ1 (p.2 * d) (p.1 * d - l0))
    (h2 : ∀ p ∈ s, |p.1 * d - l0| < π ∧ p.2 * d ∈ Ioo (-(π / 2)) (π / 2)) : InjOn (lam R d l0 φ1) s := by
  intro p hp q hq h
  have n1 := lam_norm (R := R) (h1 p hp)
  have n2 := lam_norm (R := R) (h1 q hq)
  rw [h, n2] at n1
  have hc : lc φ1 (p.2 * d) (p.1 * d - l0) = lc φ1 (q.2 * d) (q.1 * d - l0) := by
    have := mul_left_cancel₀ (by positivity : 2 * R ^ 2 ≠ 0) n1
    linarith
  have hkp : 0 < √(2 / (1 + lc φ1 (q.2 * d) (q.1 * d - l0))) := Real.sqrt_pos.2 (by have := h1 q hq; positivity)
  simp only [lam, Prod.mk.injEq, hc] at h
  obtain ⟨hx, hy⟩ := h
  have ha := mul_left_cancel₀ hkp.ne' (mul_left_cancel₀ hR.ne' hx)
  have hb := mul_left_cancel₀ hkp.ne' (mul_left_cancel₀ hR.ne' hy)
  have e1 := sin_sq_add_cos_sq φ1
  unfold la at ha
  unfold lb at hb
  unfold lc at hc
  have hsin : sin (p.2 * d) = sin (q.2 * d) := by
    linear_combination cos φ1 * hb + sin φ1 * hc - (sin (p.2 * d) - sin (q.2 * d)) * e1
  have hlat : p.2 * d = q.2 * d :=
    Real.injOn_sin ⟨(h2 p hp).2.1.le, (h2 p hp).2.2.le⟩ ⟨(h2 q hq).2.1.le, (h2 q hq).2.2.le⟩ hsin
  have hcc : cos (p.2 * d) * cos (p.1 * d - l0) = cos (q.2 * d) * cos (q.1 * d - l0) := by
    linear_combination cos φ1 * hc - sin φ1 * hb -
      (cos (p.2 * d) * cos (p.1 * d - l0) - cos (q.2 * d) * cos (q.1 * d - l0)) * e1
  rw [hlat] at ha hcc
  have hpos := cos_pos_of_mem_Ioo (h2 q hq).2
  have hlon := angle_inj (h2 p hp).1 (h2 q hq).1 (mul_left_cancel₀ hpos.ne' hcc) (mul_left_cancel₀ hpos.ne' ha)
  exact Prod.ext (mul_right_cancel₀ hd.ne' (by linarith)) (mul_right_cancel₀ hd.ne' hlat)

theorem lat1_rad {lat1 : ℝ} (h : |lat1| ≤ 90) : lat1 * d2r ∈ Icc (-(π / 2)) (π / 2) := by
  have hd : 0 < d2r := by unfold d2r; positivity
  obtain ⟨h1, h2⟩ := abs_le.1 h
  constructor
  · calc -(π / 2) = -90 * d2r := by unfold d2r; ring
      _ ≤ lat1 * d2r := mul_le_mul_of_nonneg_right h1 hd.le
  · calc lat1 * d2r ≤ 90 * d2r := mul_le_mul_of_nonneg_right h2 hd.le
      _ = π / 2 := by unfold d2r; ring

/-- **C155**: for any origin, the Lambert map keeps areas: every region of the globe (without the meridian
opposite to the origin) has on the map the area it has on the sphere; different points have different
images. -/
theorem C155_lambert_equal_area {lon0 lat1 : ℝ} (h1 : |lat1| ≤ 90) {s : Set (ℝ × ℝ)} (hs : MeasurableSet s)
    (hsub : s ⊆ Globe lon0) :
    InjOn (fun p : ℝ × ℝ => lambert p.1 p.2 lon0 lat1) s ∧
    volume ((fun p : ℝ × ℝ => lambert p.1 p.2 lon0 lat1) '' s) = sphereArea 6370997 s := by
  have hd : 0 < d2r := by unfold d2r; positivity
  have e : (fun p : ℝ × ℝ => lambert p.1 p.2 lon0 lat1) = lam 6370997 d2r (lon0 * d2r) (lat1 * d2r) :=
    funext (lambert_eq lon0 lat1)
  have hpos : ∀ p ∈ s, 0 < 1 + lc (lat1 * d2r) (p.2 * d2r) (p.1 * d2r - lon0 * d2r) := fun p hp =>
    lc_gt (lat1_rad h1) (globe_rad (hsub hp)).2 (globe_rad (hsub hp)).1
  have hinj : InjOn (lam 6370997 d2r (lon0 * d2r) (lat1 * d2r)) s :=
    lam_inj (by norm_num) hd hpos (fun p hp => globe_rad (hsub hp))
  rw [e]
  refine ⟨hinj, ?_⟩
  classical
  have hex : ∀ p : ℝ × ℝ, ∃ f', p ∈ s → HasFDerivAt (lam 6370997 d2r (lon0 * d2r) (lat1 * d2r)) f' p ∧
      f'.det = 6370997 ^ 2 * cos (p.2 * d2r) * d2r ^ 2 := by
    intro p
    by_cases hp : p ∈ s
    · obtain ⟨f', hf⟩ := lam_deriv (R := 6370997) (hpos p hp)
      exact ⟨f', fun _ => hf⟩
    · exact ⟨0, fun h => absurd h hp⟩
  choose f' hf' using hex
  rw [area_image (J := fun p => 6370997 ^ 2 * cos (p.2 * d2r) * d2r ^ 2) hs (fun p hp => (hf' p hp).1) _ hinj]
  · rfl
  · intro p hp
    rw [(hf' p hp).2, abs_of_nonneg]
    have := cos_pos_of_mem_Ioo (globe_rad (hsub hp)).2
    positivity

/-- A point of the sphere of radius `R` in space; longitude and latitude in degrees. -/
def space (R lon lat : ℝ) : ℝ × ℝ × ℝ :=
  (R * (cos (lat * (π / 180)) * cos (lon * (π / 180))), R * (cos (lat * (π / 180)) * sin (lon * (π / 180))),
    R * sin (lat * (π / 180)))

/-- **C155**: the distance of a point from the origin of the Lambert map is its straight-line distance, through
the sphere, from the origin; in particular the origin itself is at `(0, 0)`. -/
theorem C155_lambert_distance {lon0 lat1 : ℝ} (h1 : |lat1| ≤ 90) {p : ℝ × ℝ} (hp : p ∈ Globe lon0) :
    (lambert p.1 p.2 lon0 lat1).1 ^ 2 + (lambert p.1 p.2 lon0 lat1).2 ^ 2 =
      ((space 6370997 p.1 p.2).1 - (space 6370997 lon0 lat1).1) ^ 2 +
      ((space 6370997 p.1 p.2).2.1 - (space 6370997 lon0 lat1).2.1) ^ 2 +
      ((space 6370997 p.1 p.2).2.2 - (space 6370997 lon0 lat1).2.2) ^ 2 := by
  rw [lambert_eq, lam_norm (lc_gt (lat1_rad h1) (globe_rad hp).2 (globe_rad hp).1)]
  simp only [space, lc]
  rw [Real.cos_sub]
  change 2 * (6370997 : ℝ) ^ 2 * _ = (6370997 * (cos (p.2 * d2r) * cos (p.1 * d2r)) - 6370997 * (cos (lat1 * d2r) * cos (lon0 * d2r))) ^ 2
    + (6370997 * (cos (p.2 * d2r) * sin (p.1 * d2r)) - 6370997 * (cos (lat1 * d2r) * sin (lon0 * d2r))) ^ 2 +
    (6370997 * sin (p.2 * d2r) - 6370997 * sin (lat1 * d2r)) ^ 2
  have e1 := sin_sq_add_cos_sq (p.2 * d2r)
  have e2 := sin_sq_add_cos_sq (lat1 * d2r)
  have e3 := sin_sq_add_cos_sq (p.1 * d2r)
  have e4 := sin_sq_add_cos_sq (lon0 * d2r)
  linear_combination -(6370997 ^ 2) * e1 - 6370997 ^ 2 * e2 - 6370997 ^ 2 * cos (p.2 * d2r) ^ 2 * e3 -
    6370997 ^ 2 * cos (lat1 * d2r) ^ 2 * e4

/-- East is to the right: the sign of `x` is that of the difference in longitude, and the map is mirrored when
the point is mirrored. -/
theorem C155_lambert_mirror (u lat lon0 lat1 : ℝ) :
    (lambert (lon0 - u) lat lon0 lat1).1 = -(lambert (lon0 + u) lat lon0 lat1).1 ∧
    (lambert (lon0 - u) lat lon0 lat1).2 = (lambert (lon0 + u) lat lon0 lat1).2 := by
  have e1 : (lon0 - u) * d2r - lon0 * d2r = -(u * d2r) := by ring
  have e2 : (lon0 + u) * d2r - lon0 * d2r = u * d2r := by ring
  simp only [lambert, e1, e2, Real.sin_neg, Real.cos_neg]
  constructor
  · ring
  · trivial

theorem C155_lambert_east {lon0 lat1 : ℝ} (h1 : |lat1| ≤ 90) {p : ℝ × ℝ} (hp : p ∈ Globe lon0) :
    0 < (lambert p.1 p.2 lon0 lat1).1 ↔ lon0 < p.1 := by
  have hd : 0 < d2r := by unfold d2r; positivity
  have g := globe_rad hp
  have hpos := lc_gt (lat1_rad h1) g.2 g.1
  have hc := cos_pos_of_mem_Ioo g.2
  rw [lambert_eq]
  simp only [lam, la]
  have hk : 0 < √(2 / (1 + lc (lat1 * d2r) (p.2 * d2r) (p.1 * d2r - lon0 * d2r))) :=
    Real.sqrt_pos.2 (by positivity)
  rw [mul_pos_iff_of_pos_left (by norm_num), mul_pos_iff_of_pos_left hk, mul_pos_iff_of_pos_left hc]
  obtain ⟨g1, g2⟩ := abs_lt.1 g.1
  constructor
  · intro hs
    by_contra hle
    have : p.1 * d2r - lon0 * d2r ≤ 0 := by
      have := mul_le_mul_of_nonneg_right (not_lt.1 hle) hd.le
      linarith
    have := Real.sin_nonpos_of_nonpos_of_neg_pi_le this g1.le
    linarith
  · intro hlt
    have := mul_lt_mul_of_pos_right hlt hd
    exact Real.sin_pos_of_pos_of_lt_pi (by linarith) g2

/-- **C155**: north is up: on the meridian of the origin the Lambert map gives `x = 0` and `y` twice the radius times
the sine of half the difference in latitude. -/
theorem C155_lambert_north {lon0 lat1 lat : ℝ} (h1 : |lat1| ≤ 90) (h : |lat| < 90) :
    lambert lon0 lat lon0 lat1 = (0, 2 * 6370997 * sin ((lat - lat1) * (π / 180) / 2)) := by
  have a1 := lat1_rad h1
  have a2 := (globe_rad (lon0 := 0) (p := (0, lat)) ⟨by simp, h⟩).2
  simp only at a2
  have hδ : (lat * d2r - lat1 * d2r) / 2 ∈ Ioo (-(π / 2)) (π / 2) :=
    ⟨by linarith [a1.2, a2.1], by linarith [a1.1, a2.2]⟩
  have hc := cos_pos_of_mem_Ioo hδ
  have ek : 1 + sin (lat1 * d2r) * sin (lat * d2r) + cos (lat1 * d2r) * cos (lat * d2r) * 1 =
      2 * cos ((lat * d2r - lat1 * d2r) / 2) ^ 2 := by
    have := Real.cos_two_mul ((lat * d2r - lat1 * d2r) / 2)
    rw [show 2 * ((lat * d2r - lat1 * d2r) / 2) = lat * d2r - lat1 * d2r by ring, Real.cos_sub] at this
    linarith
  have es : cos (lat1 * d2r) * sin (lat * d2r) - sin (lat1 * d2r) * cos (lat * d2r) * 1 =
      2 * sin ((lat * d2r - lat1 * d2r) / 2) * cos ((lat * d2r - lat1 * d2r) / 2) := by
    rw [← Real.sin_two_mul, show 2 * ((lat * d2r - lat1 * d2r) / 2) = lat * d2r - lat1 * d2r by ring, Real.sin_sub]
    ring
  simp only [lambert, sub_self, Real.sin_zero, Real.cos_zero, mul_zero, Prod.mk.injEq, true_and]
  rw [ek, es, show (lat - lat1) * (π / 180) / 2 = (lat * d2r - lat1 * d2r) / 2 by unfold d2r; ring]
  generalize cos ((lat * d2r - lat1 * d2r) / 2) = c at hc
  rw [show 2 / (2 * c ^ 2) = (1 / c) ^ 2 by field_simp, Real.sqrt_sq (by positivity)]
  field_simp

/-! ## Mercator (C156) -/

theorem gd_deriv {φ : ℝ} (h : φ ∈ Ioo (-(π / 2)) (π / 2)) :
    0 < tan (π / 4 + φ / 2) ∧ HasDerivAt (fun φ => log (tan (π / 4 + φ / 2))) (1 / cos φ) φ := by
  have hm : π / 4 + φ / 2 ∈ Ioo 0 (π / 2) := ⟨by linarith [h.1], by linarith [h.2]⟩
  have ht := Real.tan_pos_of_pos_of_lt_pi_div_two hm.1 hm.2
  refine ⟨ht, ?_⟩
  have hc : 0 < cos (π / 4 + φ / 2) := cos_pos_of_mem_Ioo ⟨by linarith [hm.1, Real.pi_pos], hm.2⟩
  have hs : 0 < sin (π / 4 + φ / 2) := sin_pos_of_pos_of_lt_pi hm.1 (by linarith [hm.2, Real.pi_pos])
  have d1 : HasDerivAt (fun φ : ℝ => π / 4 + φ / 2) (1 / 2) φ := ((hasDerivAt_id φ).div_const 2).const_add _
  have d2 := (Real.hasDerivAt_tan hc.ne').comp φ d1
  refine (d2.log ht.ne').congr_deriv ?_
  have e : cos φ = 2 * sin (π / 4 + φ / 2) * cos (π / 4 + φ / 2) := by
    rw [← Real.sin_two_mul, show 2 * (π / 4 + φ / 2) = φ + π / 2 by ring, Real.sin_add_pi_div_two]
  rw [e]
  simp only [Function.comp]
  rw [Real.tan_eq_sin_div_cos]
  field_simp

theorem lat_deriv {f : ℝ → ℝ} {f' lat : ℝ} (h : HasDerivAt f f' (lat * d2r)) :
    HasDerivAt (fun lat => f (lat * d2r)) (f' * d2r) lat := by
  have d1 : HasDerivAt (fun lat : ℝ => lat * d2r) d2r lat := by simpa using (hasDerivAt_id lat).mul_const d2r
  exact h.comp lat d1

theorem lat_mem {lat : ℝ} (h : |lat| < 90) : lat * d2r ∈ Ioo (-(π / 2)) (π / 2) :=
  (globe_rad (lon0 := 0) (p := (0, lat)) ⟨by simp, h⟩).2

/-- **C156**: the spherical Mercator map keeps angles: meridians and parallels are mapped to vertical and
horizontal lines, and at every point the scale `k` along the meridian is the scale along the parallel. -/
theorem C156_mercator_sphere (lon0 lon : ℝ) {lat : ℝ} (h : |lat| < 90) :
    ∃ k, 0 < k ∧
      (∀ lat', (mercator lon lat' lon0 true).1 = (mercator lon lat lon0 true).1) ∧
      (∀ lon', (mercator lon' lat lon0 true).2 = (mercator lon lat lon0 true).2) ∧
      HasDerivAt (fun u => (mercator u lat lon0 true).1) (k * (6370997 * cos (lat * (π / 180)) * (π / 180))) lon ∧
      HasDerivAt (fun v => (mercator lon v lon0 true).2) (k * (6370997 * (π / 180))) lat := by
  have hc := cos_pos_of_mem_Ioo (lat_mem h)
  refine ⟨1 / cos (lat * d2r), by positivity, fun _ => rfl, fun _ => rfl, ?_, ?_⟩
  · have d1 : HasDerivAt (fun u : ℝ => 6370997 * (u * d2r - lon0 * d2r)) (6370997 * d2r) lon := by
      simpa using (((hasDerivAt_id lon).mul_const d2r).sub_const (lon0 * d2r)).const_mul (6370997 : ℝ)
    refine d1.congr_deriv ?_
    change 6370997 * d2r = 1 / cos (lat * d2r) * (6370997 * cos (lat * d2r) * d2r)
    generalize cos (lat * d2r) = c at hc
    field_simp
  · refine ((lat_deriv (gd_deriv (lat_mem h)).2).const_mul (6370997 : ℝ)).congr_deriv ?_
    change _ = 1 / cos (lat * d2r) * (6370997 * d2r)
    ring

theorem mercE_bounds : 0 < mercE ∧ mercE < 1 := by
  have h : 0 < 1 - (6356752.314245 / 6378137 : ℝ) ^ (2 : ℝ) := by
    rw [show (2 : ℝ) = ((2 : ℕ) : ℝ) by norm_num, Real.rpow_natCast]; norm_num
  have h1 : 1 - (6356752.314245 / 6378137 : ℝ) ^ (2 : ℝ) < 1 := by
    have : 0 < (6356752.314245 / 6378137 : ℝ) ^ (2 : ℝ) := by positivity
    linarith
  refine ⟨Real.sqrt_pos.2 h, ?_⟩
  unfold mercE
  rw [Real.sqrt_lt' one_pos]
  simpa using h1

/-- The northing of the ellipsoidal Mercator map, split into a sum. -/
theorem merc_y {φ : ℝ} (h : φ ∈ Ioo (-(π / 2)) (π / 2)) :
    log (tan (π / 4 + φ / 2) * ((1 - mercE * sin φ) / (1 + mercE * sin φ)) ^ (mercE / 2)) =
      log (tan (π / 4 + φ / 2)) + mercE / 2 * log ((1 - mercE * sin φ) / (1 + mercE * sin φ)) := by
  obtain ⟨he, he1⟩ := mercE_bounds
  obtain ⟨h1, h2, h3⟩ := et_bounds he he1 (sin_le_one φ) (neg_one_le_sin φ)
  have hq : 0 < (1 - mercE * sin φ) / (1 + mercE * sin φ) := div_pos h1 h2
  rw [Real.log_mul (gd_deriv h).1.ne' (Real.rpow_pos_of_pos hq _).ne', Real.log_rpow hq]

theorem merc_algebra {E s c : ℝ} (hc : 0 < c) (h1 : 0 < 1 - E * s) (h2 : 0 < 1 + E * s) (h : s ^ 2 + c ^ 2 = 1) :
    1 / c + E / 2 * ((-(E * c) * (1 + E * s) - (1 - E * s) * (E * c)) / (1 + E * s) ^ 2 / ((1 - E * s) / (1 + E * s))) =
      (1 - E ^ 2) / (c * (1 - (E * s) ^ 2)) := by
  have e : 1 - (E * s) ^ 2 = (1 - E * s) * (1 + E * s) := by ring
  rw [e]
  field_simp
  linear_combination -(2 * E ^ 2) * h

theorem merc_deriv {φ : ℝ} (h : φ ∈ Ioo (-(π / 2)) (π / 2)) :
    HasDerivAt (fun φ => log (tan (π / 4 + φ / 2) * ((1 - mercE * sin φ) / (1 + mercE * sin φ)) ^ (mercE / 2)))
      ((1 - mercE ^ 2) / (cos φ * (1 - (mercE * sin φ) ^ 2))) φ := by
  obtain ⟨he, he1⟩ := mercE_bounds
  obtain ⟨h1, h2, h3⟩ := et_bounds he he1 (sin_le_one φ) (neg_one_le_sin φ)
  have hc := cos_pos_of_mem_Ioo h
  have d1 : HasDerivAt (fun φ : ℝ => mercE * sin φ) (mercE * cos φ) φ := (hasDerivAt_sin φ).const_mul mercE
  have d4 := (d1.const_sub 1).div (d1.const_add 1) h2.ne'
  have d5 := d4.log (by simpa using (div_pos h1 h2).ne')
  have d6 := (gd_deriv h).2.add (d5.const_mul (mercE / 2))
  have d7 := d6.congr_of_eventuallyEq (f₁ := fun φ => log (tan (π / 4 + φ / 2) *
    ((1 - mercE * sin φ) / (1 + mercE * sin φ)) ^ (mercE / 2))) (by
      filter_upwards [isOpen_Ioo.mem_nhds h] with ψ hψ
      exact merc_y hψ)
  refine d7.congr_deriv ?_
  simp only [Pi.div_apply]
  exact merc_algebra hc h1 h2 (sin_sq_add_cos_sq φ)

/-- **C156**: the ellipsoidal Mercator map keeps angles: meridians and parallels are mapped to vertical and
horizontal lines, and at every point the scale `k` along the meridian (relative to its radius of curvature) is the
scale along the parallel (relative to its radius). -/
theorem C156_mercator_ellipsoid (lon0 lon : ℝ) {lat : ℝ} (h : |lat| < 90) :
    ∃ k, 0 < k ∧
      (∀ lat', (mercator lon lat' lon0 false).1 = (mercator lon lat lon0 false).1) ∧
      (∀ lon', (mercator lon' lat lon0 false).2 = (mercator lon lat lon0 false).2) ∧
      HasDerivAt (fun u => (mercator u lat lon0 false).1)
        (k * (normalRadius 6378137 mercE (lat * (π / 180)) * cos (lat * (π / 180)) * (π / 180))) lon ∧
      HasDerivAt (fun v => (mercator lon v lon0 false).2)
        (k * (meridianRadius 6378137 mercE (lat * (π / 180)) * (π / 180))) lat := by
  have hc := cos_pos_of_mem_Ioo (lat_mem h)
  obtain ⟨he, he1⟩ := mercE_bounds
  obtain ⟨_, _, h3⟩ := et_bounds he he1 (sin_le_one (lat * d2r)) (neg_one_le_sin (lat * d2r))
  have e1 : normalRadius 6378137 mercE (lat * (π / 180)) = 6378137 / √(1 - (mercE * sin (lat * d2r)) ^ 2) := by
    unfold normalRadius d2r; rw [mul_pow]
  have e2 : meridianRadius 6378137 mercE (lat * (π / 180)) =
      6378137 * (1 - mercE ^ 2) / (1 - (mercE * sin (lat * d2r)) ^ 2) ^ (3 / 2 : ℝ) := by
    unfold meridianRadius d2r; rw [mul_pow]
  have hw := Real.sqrt_pos.2 h3
  refine ⟨√(1 - (mercE * sin (lat * d2r)) ^ 2) / cos (lat * d2r), by positivity, fun _ => rfl, fun _ => rfl, ?_, ?_⟩
  · have d1 : HasDerivAt (fun u : ℝ => 6378137 * (u * d2r - lon0 * d2r)) (6378137 * d2r) lon := by
      simpa using (((hasDerivAt_id lon).mul_const d2r).sub_const (lon0 * d2r)).const_mul (6378137 : ℝ)
    refine d1.congr_deriv ?_
    rw [e1]
    change 6378137 * d2r = _ * (_ * cos (lat * d2r) * d2r)
    generalize cos (lat * d2r) = c at hc
    generalize √(1 - (mercE * sin (lat * d2r)) ^ 2) = w at hw
    field_simp
  · refine ((lat_deriv (merc_deriv (lat_mem h))).const_mul (6378137 : ℝ)).congr_deriv ?_
    rw [e2]
    change _ = _ * (_ * d2r)
    generalize cos (lat * d2r) = c at hc
    generalize 1 - (mercE * sin (lat * d2r)) ^ 2 = w at h3 hw
    have e3 : w ^ (3 / 2 : ℝ) = w * √w := by
      rw [Real.sqrt_eq_rpow, ← Real.rpow_one_add' h3.le (by norm_num)]; norm_num
    rw [e3]
    field_simp

/-- **C156**: the equator is at zero, north and south are mirror images, and a more northern point is always
higher on the map; a more eastern one is further right. -/
theorem C156_mercator_order (lon0 : ℝ) (sph : Bool) :
    (∀ lon, (mercator lon 0 lon0 sph).2 = 0 ∧ (lon = lon0 → (mercator lon 0 lon0 sph).1 = 0)) ∧
    (∀ lon lat, |lat| < 90 → (mercator lon (-lat) lon0 sph).2 = -(mercator lon lat lon0 sph).2) ∧
    (∀ lon lat lat', |lat| < 90 → |lat'| < 90 → lat < lat' →
      (mercator lon lat lon0 sph).2 < (mercator lon lat' lon0 sph).2) ∧
    (∀ lon lon' lat, lon < lon' → (mercator lon lat lon0 sph).1 < (mercator lon' lat lon0 sph).1) := by
  have hd : 0 < d2r := by unfold d2r; positivity
  obtain ⟨he, he1⟩ := mercE_bounds
  have hodd : ∀ φ : ℝ, log (tan (π / 4 + -φ / 2)) = -log (tan (π / 4 + φ / 2)) := by
    intro φ
    rw [← Real.log_inv, ← Real.tan_pi_div_two_sub]
    congr 2
    ring
  have hm1 : StrictMonoOn (fun φ => log (tan (π / 4 + φ / 2))) (Ioo (-(π / 2)) (π / 2)) := by
    apply strictMonoOn_of_deriv_pos (convex_Ioo _ _)
    · intro φ hφ
      exact (gd_deriv hφ).2.continuousAt.continuousWithinAt
    · intro φ hφ
      rw [interior_Ioo] at hφ
      rw [(gd_deriv hφ).2.deriv]
      have := cos_pos_of_mem_Ioo hφ
      positivity
  have hm2 : StrictMonoOn (fun φ => log (tan (π / 4 + φ / 2) *
      ((1 - mercE * sin φ) / (1 + mercE * sin φ)) ^ (mercE / 2))) (Ioo (-(π / 2)) (π / 2)) := by
    apply strictMonoOn_of_deriv_pos (convex_Ioo _ _)
    · intro φ hφ
      exact (merc_deriv hφ).continuousAt.continuousWithinAt
    · intro φ hφ
      rw [interior_Ioo] at hφ
      rw [(merc_deriv hφ).deriv]
      have := cos_pos_of_mem_Ioo hφ
      have := (et_bounds he he1 (sin_le_one φ) (neg_one_le_sin φ)).2.2
      have h1 : 0 < 1 - mercE ^ 2 := by nlinarith
      positivity
  refine ⟨?_, ?_, ?_, ?_⟩
  · intro lon
    constructor
    · cases sph <;> simp [mercator, Real.tan_pi_div_four]
    · rintro rfl
      cases sph <;> simp [mercator]
  · intro lon lat h
    have h' : |-lat| < 90 := by rwa [abs_neg]
    have e : -lat * d2r = -(lat * d2r) := by ring
    cases sph
    · have a1 := merc_y (lat_mem h)
      have a2 := merc_y (lat_mem h')
      simp only [mercator, Bool.false_eq_true, if_false]
      rw [a1, a2, e, hodd, Real.sin_neg]
      obtain ⟨h1, h2, h3⟩ := et_bounds he he1 (sin_le_one (lat * d2r)) (neg_one_le_sin (lat * d2r))
      have : (1 - mercE * -sin (lat * d2r)) / (1 + mercE * -sin (lat * d2r)) =
          ((1 - mercE * sin (lat * d2r)) / (1 + mercE * sin (lat * d2r)))⁻¹ := by
        rw [inv_div]; congr 1 <;> ring
      rw [this, Real.log_inv]
      ring
    · simp only [mercator, if_true]
      rw [e, hodd]
      ring
  · intro lon lat lat' h h' hlt
    have hφ := mul_lt_mul_of_pos_right hlt hd
    cases sph
    · simp only [mercator, Bool.false_eq_true, if_false]
      exact mul_lt_mul_of_pos_left (hm2 (lat_mem h) (lat_mem h') hφ) (by norm_num)
    · simp only [mercator, if_true]
      exact mul_lt_mul_of_pos_left (hm1 (lat_mem h) (lat_mem h') hφ) (by norm_num)
  · intro lon lon' lat hlt
    have hφ := mul_lt_mul_of_pos_right hlt hd
    cases sph <;> simp only [mercator, Bool.false_eq_true, if_false, if_true] <;>
      exact mul_lt_mul_of_pos_left (by linarith) (by norm_num)

/-! ## Albers: position and true parallels (C153, C154) -/

/-- Both Albers maps: the origin of the map is at 96° west, 23° north; mirrored points are mirrored; on the
central meridian `x` is zero. -/
theorem C153_albers_origin (u lat : ℝ) :
    albersSphere (-96) 23 = (0, 0) ∧
    albersSphere (-96 - u) lat = (-(albersSphere (-96 + u) lat).1, (albersSphere (-96 + u) lat).2) := by
  constructor
  · simp only [albersSphere, Prod.mk.injEq]
    norm_num
  · have e1 : sphN * ((-96 - u) * d2r - -96.0 * d2r) = -(sphN * (u * d2r)) := by norm_num; ring
    have e2 : sphN * ((-96 + u) * d2r - -96.0 * d2r) = sphN * (u * d2r) := by
      rw [show (-96.0 : ℝ) = -96 by norm_num]; ring
    simp only [albersSphere, e1, e2, Real.sin_neg, Real.cos_neg]
    simp

theorem C154_albers_origin (u lat : ℝ) :
    albersEllipsoid (-96) 23 = (0, 0) ∧
    albersEllipsoid (-96 - u) lat = (-(albersEllipsoid (-96 + u) lat).1, (albersEllipsoid (-96 + u) lat).2) := by
  constructor
  · simp only [albersEllipsoid, Prod.mk.injEq]
    norm_num
  · have e1 : ellN * ((-96 - u) * d2r - -96.0 * d2r) = -(ellN * (u * d2r)) := by norm_num; ring
    have e2 : ellN * ((-96 + u) * d2r - -96.0 * d2r) = ellN * (u * d2r) := by
      rw [show (-96.0 : ℝ) = -96 by norm_num]; ring
    simp only [albersEllipsoid, e1, e2, Real.sin_neg, Real.cos_neg]
    simp

/-- The velocity of the image when moving along a parallel. -/
theorem conic_parallel (d n l0 ρ0 : ℝ) (ρ : ℝ → ℝ) (lon lat : ℝ) :
    HasDerivAt (fun u => conic d n l0 ρ0 ρ (u, lat))
      (ρ (lat * d) * (cos (n * (lon * d - l0)) * (n * d)), ρ (lat * d) * (sin (n * (lon * d - l0)) * (n * d))) lon := by
  have d1 : HasDerivAt (fun u : ℝ => n * (u * d - l0)) (n * d) lon := by
    simpa using (((hasDerivAt_id lon).mul_const d).sub_const l0).const_mul n
  have d2 := ((hasDerivAt_sin _).comp lon d1).const_mul (ρ (lat * d))
  have d3 := (((hasDerivAt_cos _).comp lon d1).const_mul (ρ (lat * d))).const_sub ρ0
  refine (d2.prodMk d3).congr_deriv ?_
  simp

theorem parallel_speed {a n r d s c : ℝ} (hn : 0 < n) (h : s ^ 2 + c ^ 2 = 1) :
    (a / n * r * (c * (n * d))) ^ 2 + (a / n * r * (s * (n * d))) ^ 2 = a ^ 2 * r ^ 2 * d ^ 2 := by
  field_simp
  linear_combination (a ^ 2 * r ^ 2 * d ^ 2) * h

/-- **C153**: along the two standard parallels, 29.5° and 45.5° north, the spherical map keeps lengths. -/
theorem C153_albers_parallels (lon : ℝ) {lat : ℝ} (h : lat = 29.5 ∨ lat = 45.5) :
    ∃ v : ℝ × ℝ, HasDerivAt (fun u => albersSphere u lat) v lon ∧
      v.1 ^ 2 + v.2 ^ 2 = (6378137 * cos (lat * (π / 180)) * (π / 180)) ^ 2 := by
  have e : (fun u => albersSphere u lat) = fun u => conic d2r sphN (-96 * d2r) (sphRho (23 * d2r))
      (fun φ => 6378137 / sphN * √(sphC - sphN * (2 * sin φ))) (u, lat) :=
    funext fun u => albersSphere_conic (u, lat)
  rw [e]
  refine ⟨_, conic_parallel _ _ _ _ _ _ _, ?_⟩
  have hC : sphC - sphN * (2 * sin (lat * d2r)) = cos (lat * d2r) ^ 2 := by
    have e1 := sin_sq_add_cos_sq (29.5 * d2r)
    have e2 := sin_sq_add_cos_sq (45.5 * d2r)
    rcases h with rfl | rfl
    · unfold sphC; ring
    · unfold sphC sphN
      linear_combination e1 - e2
  have hn := sphN_bounds.1
  have hsq : √(sphC - sphN * (2 * sin (lat * d2r))) ^ 2 = cos (lat * d2r) ^ 2 := by
    rw [Real.sq_sqrt (by rw [hC]; positivity), hC]
  change _ = (6378137 * cos (lat * d2r) * d2r) ^ 2
  refine (parallel_speed hn (sin_sq_add_cos_sq _)).trans ?_
  rw [hsq]
  ring

/-- **C154**: along the two standard parallels the ellipsoidal map keeps lengths. -/
theorem C154_albers_parallels (lon : ℝ) {lat : ℝ} (h : lat = 29.5 ∨ lat = 45.5) :
    ∃ v : ℝ × ℝ, HasDerivAt (fun u => albersEllipsoid u lat) v lon ∧
      v.1 ^ 2 + v.2 ^ 2 =
        (normalRadius 6378137 ellE (lat * (π / 180)) * cos (lat * (π / 180)) * (π / 180)) ^ 2 := by
  obtain ⟨he, he1, _⟩ := ellE_bounds
  obtain ⟨c1, c2, c4, c5, c3⟩ := ell_constants
  obtain ⟨p1, p2, p3⟩ := parallels
  have e : (fun u => albersEllipsoid u lat) = fun u => conic d2r ellN (-96 * d2r) (ellRho (23 * d2r))
      (fun φ => 6378137 / ellN * √(ellC - ellN * qs ellE (sin φ))) (u, lat) := by
    funext p
    have e : ∀ φ, ellRho φ = 6378137 / ellN * √(ellC - ellN * qs ellE (sin φ)) := fun φ => rfl
    simp only [albersEllipsoid, conic, e]
    norm_num
  rw [e]
  refine ⟨_, conic_parallel _ _ _ _ _ _ _, ?_⟩
  have hC : ellC - ellN * qs ellE (sin (lat * d2r)) = ms ellE (sin (lat * d2r)) := by
    rcases h with rfl | rfl
    · linarith
    · linarith
  have h3 := (et_bounds he he1 (sin_le_one (lat * d2r)) (neg_one_le_sin (lat * d2r))).2.2
  have hn : 0 < ellN := by linarith
  have hsq : √(ellC - ellN * qs ellE (sin (lat * d2r))) ^ 2 =
      cos (lat * d2r) ^ 2 / (1 - (ellE * sin (lat * d2r)) ^ 2) := by
    rw [Real.sq_sqrt (c3 _ (neg_one_le_sin _) (sin_le_one _)).le, hC, Real.cos_sq']
    rfl
  change _ = (normalRadius 6378137 ellE (lat * d2r) * cos (lat * d2r) * d2r) ^ 2
  have e2 : normalRadius 6378137 ellE (lat * d2r) ^ 2 = 6378137 ^ 2 / (1 - (ellE * sin (lat * d2r)) ^ 2) := by
    unfold normalRadius; rw [div_pow, ← mul_pow, Real.sq_sqrt h3.le]
  refine (parallel_speed hn (sin_sq_add_cos_sq _)).trans ?_
  rw [hsq, mul_pow (normalRadius _ _ _ * _), mul_pow (normalRadius _ _ _), e2]
  ring

theorem conic_orientation {a n C ρ0 : ℝ} {Q : ℝ → ℝ} (ha : 0 < a) (hn : 0 < n) (hn1 : n ≤ 1)
    (hQ : StrictMonoOn Q (Ioo (-(π / 2)) (π / 2))) (hC : ∀ φ ∈ Ioo (-(π / 2)) (π / 2), 0 < C - n * Q φ) :
    (∀ lat lat', |lat| < 90 → |lat'| < 90 → lat < lat' →
      (conic d2r n (-96 * d2r) ρ0 (fun φ => a / n * √(C - n * Q φ)) (-96, lat)).2 <
      (conic d2r n (-96 * d2r) ρ0 (fun φ => a / n * √(C - n * Q φ)) (-96, lat')).2) ∧
    ∀ p ∈ Globe (-96), -96 < p.1 → 0 < (conic d2r n (-96 * d2r) ρ0 (fun φ => a / n * √(C - n * Q φ)) p).1 := by
  have hd : 0 < d2r := by unfold d2r; positivity
  constructor
  · intro lat lat' h h' hlt
    have h1 := hQ (lat_mem h) (lat_mem h') (mul_lt_mul_of_pos_right hlt hd)
    have h2 : √(C - n * Q (lat' * d2r)) < √(C - n * Q (lat * d2r)) := by
      apply Real.sqrt_lt_sqrt (hC _ (lat_mem h')).le
      have := mul_lt_mul_of_pos_left h1 hn
      linarith
    have h3 := mul_lt_mul_of_pos_left h2 (div_pos ha hn)
    simp only [conic, sub_self, mul_zero, Real.cos_zero, mul_one]
    linarith
  · intro p hp hlt
    have g := globe_rad hp
    have h1 := Real.sqrt_pos.2 (hC _ g.2)
    have h2 := mul_lt_mul_of_pos_right hlt hd
    obtain ⟨_, g2⟩ := abs_lt.1 g.1
    have hpos : 0 < p.1 * d2r - -96 * d2r := by linarith
    have h4 : 0 < sin (n * (p.1 * d2r - -96 * d2r)) := by
      apply sin_pos_of_pos_of_lt_pi (by positivity)
      calc n * (p.1 * d2r - -96 * d2r) ≤ 1 * (p.1 * d2r - -96 * d2r) := mul_le_mul_of_nonneg_right hn1 hpos.le
        _ < π := by linarith
    simp only [conic]
    positivity

/-- **C153**: on the spherical map north is up (on the central meridian) and east is to the right. -/
theorem C153_albers_orientation :
    (∀ lat lat', |lat| < 90 → |lat'| < 90 → lat < lat' →
      (albersSphere (-96) lat).2 < (albersSphere (-96) lat').2) ∧
    ∀ lon lat, (lon, lat) ∈ Globe (-96) → -96 < lon → 0 < (albersSphere lon lat).1 := by
  have h := conic_orientation (a := 6378137) (n := sphN) (C := sphC) (ρ0 := sphRho (23 * d2r))
    (Q := fun φ => 2 * sin φ) (by norm_num) sphN_bounds.1 sphN_bounds.2.le
    (fun x hx y hy hxy => by
      have := Real.strictMonoOn_sin ⟨hx.1.le, hx.2.le⟩ ⟨hy.1.le, hy.2.le⟩ hxy
      simp only; linarith)
    (fun φ hφ => sphC_pos (sin_lt_one_of_mem hφ).1)
  constructor
  · intro lat lat' h1 h2 h3
    rw [albersSphere_conic (-96, lat), albersSphere_conic (-96, lat')]
    exact h.1 lat lat' h1 h2 h3
  · intro lon lat h1 h2
    rw [albersSphere_conic (lon, lat)]
    exact h.2 _ h1 h2

/-- **C154**: on the ellipsoidal map north is up (on the central meridian) and east is to the right. -/
theorem C154_albers_orientation :
    (∀ lat lat', |lat| < 90 → |lat'| < 90 → lat < lat' →
      (albersEllipsoid (-96) lat).2 < (albersEllipsoid (-96) lat').2) ∧
    ∀ lon lat, (lon, lat) ∈ Globe (-96) → -96 < lon → 0 < (albersEllipsoid lon lat).1 := by
  obtain ⟨he, he1, _⟩ := ellE_bounds
  obtain ⟨c1, c2, c4, c5, c3⟩ := ell_constants
  obtain ⟨p1, p2, p3⟩ := parallels
  have h := conic_orientation (a := 6378137) (n := ellN) (C := ellC) (ρ0 := ellRho (23 * d2r))
    (Q := fun φ => qs ellE (sin φ)) (by norm_num) (by linarith) (by linarith)
    (fun x hx y hy hxy => qs_mono he he1 ⟨neg_one_le_sin x, sin_le_one x⟩ ⟨neg_one_le_sin y, sin_le_one y⟩
      (Real.strictMonoOn_sin ⟨hx.1.le, hx.2.le⟩ ⟨hy.1.le, hy.2.le⟩ hxy))
    (fun φ _ => c3 _ (neg_one_le_sin φ) (sin_le_one φ))
  have e : ∀ lon lat, albersEllipsoid lon lat = conic d2r ellN (-96 * d2r) (ellRho (23 * d2r))
      (fun φ => 6378137 / ellN * √(ellC - ellN * qs ellE (sin φ))) (lon, lat) := by
    intro lon lat
    have e : ∀ φ, ellRho φ = 6378137 / ellN * √(ellC - ellN * qs ellE (sin φ)) := fun φ => rfl
    simp only [albersEllipsoid, conic, e]
    norm_num
  constructor
  · intro lat lat' h1 h2 h3
    rw [e, e]
    exact h.1 lat lat' h1 h2 h3
  · intro lon lat h1 h2
    rw [e]
    exact h.2 _ h1 h2

/-! ## Cases -/

/-- A region that meets the hypotheses: the contiguous United States. -/
example : MeasurableSet (Icc (-124.7 : ℝ) (-66.9) ×ˢ Icc (24.5 : ℝ) 49.4) ∧
    Icc (-124.7 : ℝ) (-66.9) ×ˢ Icc (24.5 : ℝ) 49.4 ⊆ Globe (-96) := by
  refine ⟨measurableSet_Icc.prod measurableSet_Icc, ?_⟩
  rintro ⟨x, y⟩ ⟨hx, hy⟩
  simp only [Globe, mem_ofPred_eq, abs_lt]
  simp only [mem_Icc] at hx hy
  refine ⟨⟨?_, ?_⟩, ?_, ?_⟩ <;> linarith [hx.1, hx.2, hy.1, hy.2]

end Proj
