import Mathlib.Tactic.Ring
import Mathlib.Tactic.Linarith
import Mathlib.Tactic.NormNum
import Mathlib.Tactic.FieldSimp
import Mathlib.Tactic.Positivity
import Mathlib.Analysis.Calculus.Deriv.Inv
import Mathlib.Analysis.SpecialFunctions.Sqrt
import Mathlib.Analysis.SpecialFunctions.Trigonometric.Deriv
import Verif.PixelModel

/-!
# Pixel dimensions are arc lengths on the ellipsoid (C74)

The specification: the point of the ellipse with semi-axes `a` (equator) and `b` (pole) whose normal has the geodetic
latitude `φ` as its angle with the equator, raised by an elevation along the normal.
-/

set_option autoImplicit false

noncomputable section

namespace Pixel

open Real

/-! ## Specification -/

/-- Distance from the axis and height above the equator of the point with geodetic latitude `φ` (radians), `h` above
the ellipsoid. -/
def axisDist (a b h φ : ℝ) : ℝ := a ^ 2 * cos φ / √(a ^ 2 * cos φ ^ 2 + b ^ 2 * sin φ ^ 2) + h * cos φ
def height (a b h φ : ℝ) : ℝ := b ^ 2 * sin φ / √(a ^ 2 * cos φ ^ 2 + b ^ 2 * sin φ ^ 2) + h * sin φ

theorem denom_pos {a b : ℝ} (ha : 0 < a) (hb : 0 < b) (φ : ℝ) : 0 < a ^ 2 * cos φ ^ 2 + b ^ 2 * sin φ ^ 2 := by
  by_cases h : cos φ = 0
  · have : sin φ ^ 2 = 1 := by have := sin_sq_add_cos_sq φ; rw [h] at this; linarith
    rw [h, this]
    positivity
  · positivity

/-- The point without elevation lies on the ellipse, and the normal of the ellipse there (the gradient of its equation)
has the direction `(cos φ, sin φ)`. -/
theorem spec_on_ellipse (a b φ : ℝ) (ha : 0 < a) (hb : 0 < b) :
    axisDist a b 0 φ ^ 2 / a ^ 2 + height a b 0 φ ^ 2 / b ^ 2 = 1 ∧
    ∃ k > 0, axisDist a b 0 φ / a ^ 2 = k * cos φ ∧ height a b 0 φ / b ^ 2 = k * sin φ := by
  have hd := denom_pos ha hb φ
  have hs := sqrt_pos.2 hd
  have hsq := sq_sqrt hd.le
  unfold axisDist height
  generalize √(a ^ 2 * cos φ ^ 2 + b ^ 2 * sin φ ^ 2) = s at *
  constructor
  · rw [zero_mul, zero_mul, add_zero, add_zero]
    field_simp
    linarith
  · refine ⟨1 / s, by positivity, ?_, ?_⟩ <;> field_simp <;> ring

/-! ## The formulas -/

theorem ecc_sq (a b : ℝ) (hb : 0 < b) (hab : b ≤ a) : ecc a b ^ 2 = 1 - (b / a) ^ 2 := by
  have ha : 0 < a := lt_of_lt_of_le hb hab
  unfold ecc
  have e : 2 * ((a - b) / a) - ((a - b) / a) ^ 2 = 1 - (b / a) ^ 2 := by
    field_simp
    ring
  simp only [e]
  apply sq_sqrt
  have : b / a ≤ 1 := (div_le_one ha).2 hab
  have h0 : 0 ≤ b / a := by positivity
  nlinarith

theorem radicand (a b φ : ℝ) (hb : 0 < b) (hab : b ≤ a) :
    1 - (ecc a b * sin φ) ^ 2 = (a ^ 2 * cos φ ^ 2 + b ^ 2 * sin φ ^ 2) / a ^ 2 := by
  have ha : 0 < a := lt_of_lt_of_le hb hab
  rw [mul_pow, ecc_sq a b hb hab]
  have : cos φ ^ 2 = 1 - sin φ ^ 2 := by have := sin_sq_add_cos_sq φ; linarith
  rw [this]
  field_simp
  ring

theorem sqrt_radicand (a b φ : ℝ) (hb : 0 < b) (hab : b ≤ a) :
    √(1 - (ecc a b * sin φ) ^ 2) = √(a ^ 2 * cos φ ^ 2 + b ^ 2 * sin φ ^ 2) / a := by
  have ha : 0 < a := lt_of_lt_of_le hb hab
  rw [radicand a b φ hb hab, sqrt_div' _ (by positivity), sqrt_sq ha.le]

/-- **C74, along a parallel.**  A degree of longitude is a degree of the circle that the point describes about the
axis. -/
theorem C74_lon (a b h lat : ℝ) (hb : 0 < b) (hab : b ≤ a) :
    metersPerDegreeLon a b h lat = 2 * π * axisDist a b h (lat * π / 180) / 360 := by
  have ha : 0 < a := lt_of_lt_of_le hb hab
  simp only [metersPerDegreeLon]
  have e : lat * (π / 180) = lat * π / 180 := by ring
  rw [sqrt_radicand a b _ hb hab, e, axisDist]
  have hs := (sqrt_pos.2 (denom_pos ha hb (lat * π / 180))).ne'
  generalize √(a ^ 2 * cos (lat * π / 180) ^ 2 + b ^ 2 * sin (lat * π / 180) ^ 2) = s at *
  field_simp
  ring

/-- The radius of curvature of the meridian. -/
def meridianRadius (a b φ : ℝ) : ℝ := a ^ 2 * b ^ 2 / √(a ^ 2 * cos φ ^ 2 + b ^ 2 * sin φ ^ 2) ^ 3

theorem deriv_denom (a b φ : ℝ) : HasDerivAt (fun φ => a ^ 2 * cos φ ^ 2 + b ^ 2 * sin φ ^ 2)
    (2 * (b ^ 2 - a ^ 2) * sin φ * cos φ) φ := by
  have h1 := ((hasDerivAt_cos φ).fun_pow 2).const_mul (a ^ 2)
  have h2 := ((hasDerivAt_sin φ).fun_pow 2).const_mul (b ^ 2)
  have h := h1.fun_add h2
  refine h.congr_deriv ?_
  push_cast
  ring

theorem deriv_axisDist (a b h φ : ℝ) (ha : 0 < a) (hb : 0 < b) :
    HasDerivAt (axisDist a b h) (-((meridianRadius a b φ + h) * sin φ)) φ := by
  have hd := denom_pos ha hb φ
  have hs := sqrt_pos.2 hd
  have hsq := sq_sqrt hd.le
  have h1 := (deriv_denom a b φ).sqrt hd.ne'
  have h2 := ((hasDerivAt_cos φ).const_mul (a ^ 2)).fun_div h1 hs.ne'
  have h3 := h2.fun_add ((hasDerivAt_cos φ).const_mul h)
  refine h3.congr_deriv ?_
  unfold meridianRadius
  generalize √(a ^ 2 * cos φ ^ 2 + b ^ 2 * sin φ ^ 2) = s at *
  have e := sin_sq_add_cos_sq φ
  have hc : cos φ ^ 2 = 1 - sin φ ^ 2 := by linarith
  field_simp
  have : s ^ 2 = a ^ 2 * (1 - sin φ ^ 2) + b ^ 2 * sin φ ^ 2 := by rw [hsq, hc]
  ring_nf
  rw [this, hc]
  ring_nf

theorem deriv_height (a b h φ : ℝ) (ha : 0 < a) (hb : 0 < b) :
    HasDerivAt (height a b h) ((meridianRadius a b φ + h) * cos φ) φ := by
  have hd := denom_pos ha hb φ
  have hs := sqrt_pos.2 hd
  have hsq := sq_sqrt hd.le
  have h1 := (deriv_denom a b φ).sqrt hd.ne'
  have h2 := ((hasDerivAt_sin φ).const_mul (b ^ 2)).fun_div h1 hs.ne'
  have h3 := h2.fun_add ((hasDerivAt_sin φ).const_mul h)
  refine h3.congr_deriv ?_
  unfold meridianRadius
  generalize √(a ^ 2 * cos φ ^ 2 + b ^ 2 * sin φ ^ 2) = s at *
  have e := sin_sq_add_cos_sq φ
  have hc : sin φ ^ 2 = 1 - cos φ ^ 2 := by linarith
  field_simp
  have : s ^ 2 = a ^ 2 * cos φ ^ 2 + b ^ 2 * (1 - cos φ ^ 2) := by rw [hsq, hc]
  ring_nf
  rw [this, hc]
  ring_nf

theorem lat_formula (a b h lat : ℝ) (hb : 0 < b) (hab : b ≤ a) :
    metersPerDegreeLat a b h lat = π / 180 * (meridianRadius a b (lat * π / 180) + h) := by
  have ha : 0 < a := lt_of_lt_of_le hb hab
  simp only [metersPerDegreeLat]
  have e : lat * (π / 180) = lat * π / 180 := by ring
  rw [e]
  have hr := sqrt_radicand a b (lat * π / 180) hb hab
  have hd := denom_pos ha hb (lat * π / 180)
  have h0 : 0 ≤ 1 - (ecc a b * sin (lat * π / 180)) ^ 2 := by
    rw [radicand a b _ hb hab]; positivity
  have hp : (1 - (ecc a b * sin (lat * π / 180)) ^ 2) ^ (1.5 : ℝ) =
      √(1 - (ecc a b * sin (lat * π / 180)) ^ 2) ^ 3 := by
    generalize 1 - (ecc a b * sin (lat * π / 180)) ^ 2 = y at h0
    rw [sqrt_eq_rpow, ← rpow_natCast, ← rpow_mul h0]
    norm_num
  rw [hp, hr, ecc_sq a b hb hab, meridianRadius]
  have hs := (sqrt_pos.2 hd).ne'
  generalize √(a ^ 2 * cos (lat * π / 180) ^ 2 + b ^ 2 * sin (lat * π / 180) ^ 2) = s at *
  field_simp
  ring

/-- **C74, along a meridian.**  The length of a degree of latitude is a degree, in radians, times the speed with which
the point moves when its latitude changes. -/
theorem C74_lat (a b h lat : ℝ) (hb : 0 < b) (hab : b ≤ a) (hh : 0 ≤ h) :
    ∃ vx vz : ℝ, HasDerivAt (axisDist a b h) vx (lat * π / 180) ∧ HasDerivAt (height a b h) vz (lat * π / 180) ∧
      metersPerDegreeLat a b h lat = π / 180 * √(vx ^ 2 + vz ^ 2) := by
  have ha : 0 < a := lt_of_lt_of_le hb hab
  refine ⟨_, _, deriv_axisDist a b h _ ha hb, deriv_height a b h _ ha hb, ?_⟩
  rw [lat_formula a b h lat hb hab]
  congr 1
  have hs := sqrt_pos.2 (denom_pos ha hb (lat * π / 180))
  have hM : 0 ≤ meridianRadius a b (lat * π / 180) + h := by
    unfold meridianRadius
    positivity
  have e : (-((meridianRadius a b (lat * π / 180) + h) * sin (lat * π / 180))) ^ 2 +
      ((meridianRadius a b (lat * π / 180) + h) * cos (lat * π / 180)) ^ 2 =
      (meridianRadius a b (lat * π / 180) + h) ^ 2 := by
    have := sin_sq_add_cos_sq (lat * π / 180)
    generalize lat * π / 180 = φ at *
    have hc : cos φ ^ 2 = 1 - sin φ ^ 2 := by linarith
    rw [neg_sq, mul_pow, mul_pow, hc]
    ring
  rw [e, sqrt_sq hM]

theorem wgs : 0 < bWGS ∧ bWGS ≤ aWGS := by unfold aWGS bWGS; norm_num

/-- A degree of longitude shrinks to nothing, a degree of latitude grows from the equator to the pole. -/
theorem C74_monotone (lat lat' : ℝ) (h0 : 0 ≤ lat) (h : lat < lat') (h90 : lat' ≤ 90) :
    metersPerDegreeLon aWGS bWGS 0 lat' < metersPerDegreeLon aWGS bWGS 0 lat ∧
    metersPerDegreeLat aWGS bWGS 0 lat < metersPerDegreeLat aWGS bWGS 0 lat' ∧
    metersPerDegreeLon aWGS bWGS 0 90 = 0 := by
  obtain ⟨hb, hab⟩ := wgs
  have ha : 0 < aWGS := lt_of_lt_of_le hb hab
  have hlt : bWGS ^ 2 < aWGS ^ 2 := by unfold aWGS bWGS; norm_num
  have hp := pi_pos
  have hcos : cos (lat' * π / 180) < cos (lat * π / 180) := by
    apply cos_lt_cos_of_nonneg_of_le_pi_div_two
    · positivity
    · nlinarith
    · nlinarith
  have hc0 : 0 ≤ cos (lat' * π / 180) := cos_nonneg_of_mem_Icc ⟨by
    have h0' : 0 ≤ lat' := h0.trans h.le
    have : 0 ≤ lat' * π / 180 := by positivity
    linarith, by nlinarith⟩
  have hcsq : cos (lat' * π / 180) ^ 2 < cos (lat * π / 180) ^ 2 := by nlinarith
  have hsq : ∀ φ, aWGS ^ 2 * cos φ ^ 2 + bWGS ^ 2 * sin φ ^ 2 =
      bWGS ^ 2 + (aWGS ^ 2 - bWGS ^ 2) * cos φ ^ 2 := by
    intro φ
    have : sin φ ^ 2 = 1 - cos φ ^ 2 := by have := sin_sq_add_cos_sq φ; linarith
    rw [this]; ring
  have hS : √(aWGS ^ 2 * cos (lat' * π / 180) ^ 2 + bWGS ^ 2 * sin (lat' * π / 180) ^ 2) <
      √(aWGS ^ 2 * cos (lat * π / 180) ^ 2 + bWGS ^ 2 * sin (lat * π / 180) ^ 2) := by
    apply sqrt_lt_sqrt (denom_pos ha hb _).le
    rw [hsq, hsq]
    nlinarith
  have p1 := sqrt_pos.2 (denom_pos ha hb (lat' * π / 180))
  have p2 := sqrt_pos.2 (denom_pos ha hb (lat * π / 180))
  refine ⟨?_, ?_, ?_⟩
  · rw [C74_lon _ _ _ _ hb hab, C74_lon _ _ _ _ hb hab]
    have hx : axisDist aWGS bWGS 0 (lat' * π / 180) < axisDist aWGS bWGS 0 (lat * π / 180) := by
      unfold axisDist
      rw [zero_mul, zero_mul, add_zero, add_zero, div_lt_div_iff₀ p1 p2]
      have q1 := sq_sqrt (denom_pos ha hb (lat' * π / 180)).le
      have q2 := sq_sqrt (denom_pos ha hb (lat * π / 180)).le
      rw [hsq] at q1 q2
      rw [mul_assoc, mul_assoc]
      apply mul_lt_mul_of_pos_left _ (by positivity)
      apply lt_of_pow_lt_pow_left₀ 2 (by
        have : 0 ≤ cos (lat * π / 180) := hc0.trans hcos.le
        positivity)
      rw [mul_pow, mul_pow, hsq, hsq, q1, q2]
      have : 0 < bWGS ^ 2 := by positivity
      nlinarith
    have : 2 * π * axisDist aWGS bWGS 0 (lat' * π / 180) < 2 * π * axisDist aWGS bWGS 0 (lat * π / 180) :=
      mul_lt_mul_of_pos_left hx (by positivity)
    linarith
  · rw [lat_formula _ _ _ _ hb hab, lat_formula _ _ _ _ hb hab]
    apply mul_lt_mul_of_pos_left _ (by positivity)
    rw [add_zero, add_zero]
    unfold meridianRadius
    apply div_lt_div_of_pos_left (by positivity) (by positivity)
    exact pow_lt_pow_left₀ hS p1.le (by norm_num)
  · rw [C74_lon _ _ _ _ hb hab, axisDist]
    have : (90 : ℝ) * π / 180 = π / 2 := by ring
    rw [this, cos_pi_div_two]
    ring

/-- **C74, the cells.**  On a geographic grid between the poles the cell sizes of a row are the lengths, at the south
edge of the row, of its extent in longitude and latitude; in metres, or in kilometres by default. -/
theorem C74_row_sizes (g : Info) (hg : g.geom = 0) (i : ℕ) (meters : Bool) :
    let lat := g.yN - ((i : ℝ) + 1) * (g.yres / 3600)
    let u : ℝ := if meters then 1 else 1000
    (sizesByRow g meters i).1 * u = (g.xres / 3600) * (2 * π * axisDist 6378137 6356752.3 0 (lat * π / 180) / 360) ∧
    (sizesByRow g meters i).2.1 * u = (g.yres / 3600) * metersPerDegreeLat 6378137 6356752.3 0 lat ∧
    (sizesByRow g meters i).2.2 ^ 2 = (sizesByRow g meters i).1 ^ 2 + (sizesByRow g meters i).2.1 ^ 2 ∧
    0 ≤ (sizesByRow g meters i).2.2 := by
  intro lat u
  have ha : (6378137 : ℝ) = aWGS := rfl
  have hbb : (6356752.3 : ℝ) = bWGS := by norm_num [bWGS]
  rw [ha, hbb]
  have hu : u ≠ 0 := by simp only [u]; split_ifs <;> norm_num
  have hl : rowLat g i = lat := by simp only [rowLat, lat]; ring
  obtain ⟨hb, hab⟩ := wgs
  have hu' : (if meters = true then (1 : ℝ) else 1000) ≠ 0 := hu
  simp only [sizesByRow, hg, if_true, hl]
  rw [← C74_lon _ _ _ _ hb hab]
  refine ⟨?_, ?_, ?_, sqrt_nonneg _⟩
  · exact div_mul_cancel₀ _ hu'
  · exact div_mul_cancel₀ _ hu'
  · exact sq_sqrt (by positivity)

/-- On a grid of fixed-length pixels the sizes are the resolution. -/
theorem C74_fixed_length (g : Info) (hg : g.geom = 1) (i j : ℕ) :
    (sizesByRow g true i).1 = g.xres ∧ (sizesByRow g true i).2.1 = g.yres ∧
    (sizesByRow g false i).1 = g.xres / 1000 ∧ (sizesByRow g false i).2.1 = g.yres / 1000 ∧
    (sizesByRow g true i).2.2 = √(g.xres ^ 2 + g.yres ^ 2) ∧
    cellArea g i j = g.xres * g.yres := by
  have : ¬ g.geom = 0 := by omega
  simp [sizesByRow, cellArea, hg]

theorem getD_flatMap_replicate (f : ℕ → ℝ) (nx : ℕ) (j : ℕ) (hj : j < nx) :
    ∀ (ny i : ℕ) (s : ℕ), i < ny →
      (((List.range' s ny).map f).flatMap fun v => List.replicate nx v).getD (i * nx + j) 0 = f (s + i) := by
  intro ny
  induction ny with
  | zero => intro i s hi; omega
  | succ n ih =>
    intro i s hi
    rw [List.range'_succ, List.map_cons, List.flatMap_cons]
    rcases i with _ | i
    · rw [List.getD_eq_getElem?_getD, List.getElem?_append_left (by simpa using hj)]
      simp [hj]
    · have h1 : (List.replicate nx (f s)).length ≤ (i + 1) * nx + j := by
        rw [List.length_replicate]; nlinarith
      rw [List.getD_eq_getElem?_getD, List.getElem?_append_right h1, List.length_replicate]
      have h2 : (i + 1) * nx + j - nx = i * nx + j := by
        rw [Nat.add_mul, one_mul]; omega
      rw [h2, ← List.getD_eq_getElem?_getD, ih i (s + 1) (by omega)]
      congr 1
      omega

/-- **C74, areas.**  The area of every cell is the product of the sizes of its row, and positive between the poles. -/
theorem C74_area (g : Info) (hg : g.geom = 0) (i j : ℕ) (hi : i < g.nrows) (hj : j < g.ncols) :
    cellArea g i j = (sizesByRow g true i).1 * (sizesByRow g true i).2.1 ∧
    (0 < g.xres → 0 < g.yres → |g.yN - ((i : ℝ) + 1) * (g.yres / 3600)| < 90 → 0 < cellArea g i j) := by
  have e : cellArea g i j = (sizesByRow g true i).1 * (sizesByRow g true i).2.1 := by
    have := getD_flatMap_replicate (fun k => (sizesByRow g true k).1 * (sizesByRow g true k).2.1) g.ncols j hj
      g.nrows i 0 hi
    rw [← List.range_eq_range', zero_add] at this
    simp only [cellArea, hg]
    rw [if_neg (by norm_num)]
    exact this
  refine ⟨e, ?_⟩
  intro hx hy hlat
  rw [e]
  have hr := C74_row_sizes g hg i true
  simp only [if_true, mul_one] at hr
  obtain ⟨r1, r2, -, -⟩ := hr
  rw [show (6378137 : ℝ) = aWGS from rfl, show (6356752.3 : ℝ) = bWGS by norm_num [bWGS]] at r1 r2
  rw [r1, r2]
  obtain ⟨hb, hab⟩ := wgs
  have ha : 0 < aWGS := lt_of_lt_of_le hb hab
  have hp := pi_pos
  rw [lat_formula _ _ _ _ hb hab, meridianRadius, axisDist]
  generalize g.yN - ((i : ℝ) + 1) * (g.yres / 3600) = lat at *
  have hl := abs_lt.1 hlat
  have hc : 0 < cos (lat * π / 180) := cos_pos_of_mem_Ioo ⟨by nlinarith, by nlinarith⟩
  have hs := sqrt_pos.2 (denom_pos ha hb (lat * π / 180))
  positivity

/-- North of the equator a row is given a width that is too large for it, since it is measured at its south edge: more
than the width at any other latitude of the row, its centre included. -/
theorem C74_south_edge (g : Info) (hg : g.geom = 0) (i : ℕ) (hx : 0 < g.xres) (hy : 0 < g.yres)
    (hS : 0 ≤ g.yN - ((i : ℝ) + 1) * (g.yres / 3600)) (hN : g.yN ≤ 90) (lat : ℝ)
    (h1 : g.yN - ((i : ℝ) + 1) * (g.yres / 3600) < lat) (h2 : lat ≤ g.yN - (i : ℝ) * (g.yres / 3600)) :
    (g.xres / 3600) * metersPerDegreeLon aWGS bWGS 0 lat < (sizesByRow g true i).1 ∧
    (sizesByRow g true i).2.1 < (g.yres / 3600) * metersPerDegreeLat aWGS bWGS 0 lat := by
  have hr := C74_row_sizes g hg i true
  simp only [if_true, mul_one] at hr
  obtain ⟨r1, r2, -, -⟩ := hr
  rw [show (6378137 : ℝ) = aWGS from rfl, show (6356752.3 : ℝ) = bWGS by norm_num [bWGS]] at r1 r2
  obtain ⟨hb, hab⟩ := wgs
  have hi : 0 ≤ (i : ℝ) * (g.yres / 3600) := by positivity
  obtain ⟨m1, m2, -⟩ := C74_monotone _ lat hS h1 (by linarith)
  rw [r1, r2, ← C74_lon _ _ _ _ hb hab]
  exact ⟨mul_lt_mul_of_pos_left m1 (by positivity), mul_lt_mul_of_pos_left m2 (by positivity)⟩

/-- A grid that meets the hypotheses. -/
example : ∃ g : Info, g.geom = 0 ∧ 0 < g.nrows ∧ 0 < g.ncols ∧ 0 < g.xres ∧
    |g.yN - (((0 : ℕ) : ℝ) + 1) * (g.yres / 3600)| < 90 :=
  ⟨⟨0, 44, 29, 30, 30, 38.4⟩, rfl, by norm_num, by norm_num, by norm_num, by norm_num [abs_lt]⟩

/-- At the equator a degree of longitude is that of a circle with the equatorial radius. -/
example : metersPerDegreeLon aWGS bWGS 0 0 = 2 * π * 6378137 / 360 := by
  obtain ⟨hb, hab⟩ := wgs
  rw [C74_lon _ _ _ _ hb hab, axisDist]
  have : √(aWGS ^ 2) = aWGS := sqrt_sq (by unfold aWGS; norm_num)
  have ha : aWGS ≠ 0 := by unfold aWGS; norm_num
  simp only [zero_mul, zero_div, cos_zero, sin_zero, one_pow, mul_one, ne_eq, OfNat.ofNat_ne_zero,
    not_false_eq_true, zero_pow, mul_zero, add_zero, this]
  rw [pow_two, mul_div_assoc aWGS aWGS aWGS, div_self ha]
  unfold aWGS
  ring

end Pixel
