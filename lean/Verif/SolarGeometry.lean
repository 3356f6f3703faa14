import Mathlib.Tactic.Ring
import Mathlib.Tactic.Linarith
import Mathlib.Tactic.NormNum
import Mathlib.Tactic.FieldSimp
import Mathlib.Tactic.Positivity
import Mathlib.Analysis.Real.Pi.Bounds
import Verif.SolarModel

/-!
# Where the sun stands (C68) and how it shines on slopes (C70)

The specification is vector geometry in the frame of the equator: first axis in the plane of the equator at the
meridian of the site, second axis to the east, third axis to the north pole.  Everything is stated with scalar
products of unit vectors in that frame.
-/

set_option autoImplicit false

noncomputable section

namespace Solar

open Real

/-! ## Specification -/

/-- Vectors in space. -/
structure Vec where
  x : ℝ
  y : ℝ
  z : ℝ

def Vec.dot (a b : Vec) : ℝ := a.x * b.x + a.y * b.y + a.z * b.z

/-- The direction of the sun, for declination `δ` and hour angle `h` (positive in the afternoon, to the west). -/
def sunVec (δ h : ℝ) : Vec := ⟨cos δ * cos h, -(cos δ * sin h), sin δ⟩

/-- Up, north and east at latitude `φ`. -/
def upVec (φ : ℝ) : Vec := ⟨cos φ, 0, sin φ⟩
def northVec (φ : ℝ) : Vec := ⟨-sin φ, 0, cos φ⟩
def eastVec : Vec := ⟨0, 1, 0⟩

/-- The unit normal of a plane with slope angle `β` that falls towards the azimuth `α`, clockwise from north. -/
def normalVec (φ α β : ℝ) : Vec :=
  let u := upVec φ
  let n := northVec φ
  let e := eastVec
  ⟨sin β * sin α * e.x + sin β * cos α * n.x + cos β * u.x,
   sin β * sin α * e.y + sin β * cos α * n.y + cos β * u.y,
   sin β * sin α * e.z + sin β * cos α * n.z + cos β * u.z⟩

/-- The direction of the sun on day `J` of the year, `th` hours after solar noon: 15 degrees per hour. -/
def sunAt (J th : ℝ) : Vec := sunVec (declination (dayAngle J)) (th * (15 * π / 180))

/-- Sine of the height of the sun above the horizon of a site. -/
def sunHeight (lat J th : ℝ) : ℝ := (upVec (lat * π / 180)).dot (sunAt J th)

/-! ## Small facts -/

theorem rad_eq (lat : ℝ) : rad lat = lat * π / 180 := by unfold rad; ring

theorem omega_eq : omega = 15 * π / 180 := by unfold omega; ring

theorem omega_pos : 0 < omega := by
  rw [omega_eq]; have := pi_pos; positivity

theorem omega_mul (th : ℝ) : omega * th = th * (15 * π / 180) := by rw [omega_eq]; ring

theorem abs_declination (Γ : ℝ) : |declination Γ| ≤ 0.49 := by
  have h1 := neg_one_le_cos Γ; have h2 := cos_le_one Γ
  have h3 := neg_one_le_sin Γ; have h4 := sin_le_one Γ
  have h5 := neg_one_le_cos (2 * Γ); have h6 := cos_le_one (2 * Γ)
  have h7 := neg_one_le_sin (2 * Γ); have h8 := sin_le_one (2 * Γ)
  have h9 := neg_one_le_cos (3 * Γ); have h10 := cos_le_one (3 * Γ)
  have h11 := neg_one_le_sin (3 * Γ); have h12 := sin_le_one (3 * Γ)
  unfold declination
  rw [abs_le]
  constructor <;> linarith

theorem cos_declination_pos (Γ : ℝ) : 0 < cos (declination Γ) := by
  have h := abs_le.1 (abs_declination Γ)
  have := pi_gt_three
  exact cos_pos_of_mem_Ioo ⟨by linarith, by linarith⟩

theorem eccentricity_bounds (Γ : ℝ) : 0.96 ≤ eccentricity Γ ∧ eccentricity Γ ≤ 1.04 := by
  have h1 := neg_one_le_cos Γ; have h2 := cos_le_one Γ
  have h3 := neg_one_le_sin Γ; have h4 := sin_le_one Γ
  have h5 := neg_one_le_cos (2 * Γ); have h6 := cos_le_one (2 * Γ)
  have h7 := neg_one_le_sin (2 * Γ); have h8 := sin_le_one (2 * Γ)
  unfold eccentricity
  constructor <;> linarith

theorem rad_range {lat : ℝ} (h : |lat| < 90) : -(π / 2) < rad lat ∧ rad lat < π / 2 := by
  have hp := pi_pos
  have h' := abs_lt.1 h
  unfold rad
  constructor <;> nlinarith

theorem cos_rad_pos {lat : ℝ} (h : |lat| < 90) : 0 < cos (rad lat) :=
  cos_pos_of_mem_Ioo ⟨(rad_range h).1, (rad_range h).2⟩

theorem dot_up_sun (φ δ h : ℝ) : (upVec φ).dot (sunVec δ h) = sin φ * sin δ + cos φ * cos δ * cos h := by
  simp only [Vec.dot, upVec, sunVec]; ring

theorem abs_dot_up_sun (φ δ h : ℝ) : |(upVec φ).dot (sunVec δ h)| ≤ 1 := by
  rw [dot_up_sun, abs_le]
  have e1 := sin_sq_add_cos_sq φ
  have e2 := sin_sq_add_cos_sq δ
  have e3 := sin_sq_add_cos_sq h
  have hc := neg_one_le_cos h
  have hc' := cos_le_one h
  have k : (cos φ * cos h) ^ 2 ≤ cos φ ^ 2 := by
    have : cos h ^ 2 ≤ 1 := by nlinarith [sq_nonneg (sin h)]
    nlinarith [sq_nonneg (cos φ)]
  constructor
  · nlinarith [sq_nonneg (sin φ + sin δ), sq_nonneg (cos φ * cos h + cos δ)]
  · nlinarith [sq_nonneg (sin φ - sin δ), sq_nonneg (cos φ * cos h - cos δ)]

theorem sunHeight_eq (lat J th : ℝ) : sunHeight lat J th =
    sin (rad lat) * sin (declination (dayAngle J)) +
      cos (rad lat) * cos (declination (dayAngle J)) * cos (omega * th) := by
  rw [sunHeight, sunAt, dot_up_sun, omega_mul, rad_eq]

/-- The sun is above the horizon exactly when the cosine of the hour angle exceeds the argument of the arc
cosine. -/
theorem height_pos_iff {lat δ c : ℝ} (hlat : |lat| < 90) (hδ : 0 < cos δ) :
    0 < sin (rad lat) * sin δ + cos (rad lat) * cos δ * c ↔ -1 * tan (rad lat) * tan δ < c := by
  have hφ := cos_rad_pos hlat
  have e : sin (rad lat) * sin δ + cos (rad lat) * cos δ * c =
      (cos (rad lat) * cos δ) * (c - (-1 * tan (rad lat) * tan δ)) := by
    rw [tan_eq_sin_div_cos, tan_eq_sin_div_cos]
    field_simp
    ring
  rw [e, mul_pos_iff_of_pos_left (mul_pos hφ hδ), sub_pos]

theorem cos_gt_clip {x t : ℝ} (ht : |t| < π) : x < cos t ↔ |t| < arccos (min (max (-1) x) 1) := by
  have h0 : 0 ≤ |t| := abs_nonneg t
  have hc : cos t = cos |t| := (cos_abs t).symm
  have hgt : -1 < cos |t| := by
    have := strictAntiOn_cos ⟨h0, ht.le⟩ (Set.right_mem_Icc.2 pi_pos.le) ht
    rwa [cos_pi] at this
  rw [hc]
  rcases le_or_gt 1 x with h1 | h1
  · have : min (max (-1) x) 1 = 1 := min_eq_right (le_max_of_le_right h1)
    rw [this, arccos_one]
    have := cos_le_one |t|
    constructor <;> intro h <;> linarith
  · rcases le_or_gt x (-1) with h2 | h2
    · have : min (max (-1) x) 1 = -1 := by
        rw [max_eq_left h2]; norm_num
      rw [this, arccos_neg_one]
      exact ⟨fun _ => ht, fun _ => by linarith⟩
    · have : min (max (-1) x) 1 = x := by
        rw [max_eq_right h2.le, min_eq_left h1.le]
      rw [this]
      have hx : cos (arccos x) = x := cos_arccos h2.le h1.le
      constructor
      · intro h
        by_contra hn
        push Not at hn
        have := antitoneOn_cos ⟨arccos_nonneg x, arccos_le_pi x⟩ ⟨h0, ht.le⟩ hn
        linarith
      · intro h
        have := strictAntiOn_cos ⟨h0, ht.le⟩ ⟨arccos_nonneg x, arccos_le_pi x⟩ h
        linarith

/-! ## C68 -/

/-- The zenith angle is the angle between the sun and the vertical. -/
theorem C68_zenith (lat J th : ℝ) :
    cos (zenith lat (declination (dayAngle J)) th) = sunHeight lat J th ∧
    0 ≤ zenith lat (declination (dayAngle J)) th ∧ zenith lat (declination (dayAngle J)) th ≤ π ∧
    sin (elevation lat (declination (dayAngle J)) th) = sunHeight lat J th := by
  have hab := abs_le.1 (abs_dot_up_sun (lat * π / 180) (declination (dayAngle J)) (th * (15 * π / 180)))
  have hz : zenith lat (declination (dayAngle J)) th = arccos (sunHeight lat J th) := by
    rw [sunHeight_eq]; rfl
  have hh : -1 ≤ sunHeight lat J th ∧ sunHeight lat J th ≤ 1 := hab
  refine ⟨?_, ?_, ?_, ?_⟩
  · rw [hz, cos_arccos hh.1 hh.2]
  · rw [hz]; exact arccos_nonneg _
  · rw [hz]; exact arccos_le_pi _
  · rw [elevation, sin_pi_div_two_sub, hz, cos_arccos hh.1 hh.2]

/-- At every site between the poles, on every day and at every hour of it, the sun is up exactly between the computed
sunrise and sunset. -/
theorem C68_sun_up (lat J th : ℝ) (hlat : |lat| < 90) (hth : |th| < 12) :
    0 < sunHeight lat J th ↔
      sunrise lat (declination (dayAngle J)) < th ∧ th < sunset lat (declination (dayAngle J)) := by
  have hω := omega_pos
  have ht : |omega * th| < π := by
    rw [abs_mul, abs_of_pos hω, omega_eq]
    have := pi_pos
    have : 15 * π / 180 * |th| < 15 * π / 180 * 12 := by
      apply mul_lt_mul_of_pos_left hth; positivity
    linarith
  rw [sunHeight_eq, height_pos_iff hlat (cos_declination_pos _), cos_gt_clip ht, ← riseArg, abs_lt]
  unfold sunrise sunset
  rw [div_lt_iff₀ hω, lt_div_iff₀ hω]
  constructor <;> intro h <;> constructor <;> linarith [h.1, h.2, mul_comm omega th]

/-- Sunrise and sunset are symmetric about noon and lie within the day; the length of the day is between 0 and 24
hours. -/
theorem C68_day_length (lat J : ℝ) :
    sunrise lat (declination (dayAngle J)) = -sunset lat (declination (dayAngle J)) ∧
    0 ≤ sunset lat (declination (dayAngle J)) ∧ sunset lat (declination (dayAngle J)) ≤ 12 ∧
    dayLength lat J = 2 * sunset lat (declination (dayAngle J)) := by
  have hω := omega_pos
  have e : sunrise lat (declination (dayAngle J)) = -sunset lat (declination (dayAngle J)) := by
    unfold sunrise sunset; ring
  refine ⟨e, div_nonneg (arccos_nonneg _) hω.le, ?_, ?_⟩
  · rw [sunset, div_le_iff₀ hω, omega_eq]
    have := arccos_le_pi (riseArg lat (declination (dayAngle J)))
    linarith
  · rw [dayLength, e]; ring

/-- Twelve hours of day at the equator. -/
theorem C68_equator (J : ℝ) : dayLength 0 J = 12 := by
  have h : riseArg 0 (declination (dayAngle J)) = 0 := by
    simp [riseArg, rad]
  rw [(C68_day_length 0 J).2.2.2, sunset, h, arccos_zero, omega_eq]
  have := pi_pos
  field_simp
  norm_num

/-- The day is as long at one latitude as the night at the opposite latitude. -/
theorem C68_hemispheres (lat J : ℝ) : dayLength lat J + dayLength (-lat) J = 24 := by
  have hω := omega_pos
  have e : riseArg (-lat) (declination (dayAngle J)) = -riseArg lat (declination (dayAngle J)) := by
    have e1 : rad (-lat) = -rad lat := by unfold rad; ring
    unfold riseArg
    rw [e1, tan_neg]
    generalize ht : -1 * tan (rad lat) * tan (declination (dayAngle J)) = t
    have ht' : -1 * -tan (rad lat) * tan (declination (dayAngle J)) = -t := by rw [← ht]; ring
    rw [ht']
    rcases le_total t (-1) with h | h
    · rw [max_eq_left h, max_eq_right (by linarith), min_eq_right (by linarith), min_eq_left (by norm_num)]
      norm_num
    · rcases le_total t 1 with h' | h'
      · rw [max_eq_right h, max_eq_right (by linarith), min_eq_left (by linarith), min_eq_left h']
      · rw [max_eq_right h, max_eq_left (by linarith), min_eq_left (by norm_num), min_eq_right h']
  rw [(C68_day_length lat J).2.2.2, (C68_day_length (-lat) J).2.2.2, sunset, sunset, e, arccos_neg, omega_eq]
  have := pi_pos
  field_simp
  ring

/-- Where there is a sunrise and a sunset, the sun stands on the horizon at both. -/
theorem C68_horizon (lat J : ℝ) (hlat : |lat| < 90)
    (h : |tan (rad lat) * tan (declination (dayAngle J))| ≤ 1) :
    sunHeight lat J (sunrise lat (declination (dayAngle J))) = 0 ∧
    sunHeight lat J (sunset lat (declination (dayAngle J))) = 0 := by
  have hω := omega_pos
  have hφ := cos_rad_pos hlat
  have hδ := cos_declination_pos (dayAngle J)
  have h' := abs_le.1 h
  have hr : riseArg lat (declination (dayAngle J)) = -1 * tan (rad lat) * tan (declination (dayAngle J)) := by
    rw [riseArg, max_eq_right (by linarith), min_eq_left (by linarith)]
  have key : cos (omega * sunset lat (declination (dayAngle J))) =
      -1 * tan (rad lat) * tan (declination (dayAngle J)) := by
    rw [sunset, mul_div_cancel₀ _ hω.ne', cos_arccos, hr]
    · rw [hr]; linarith
    · rw [hr]; linarith
  have zero : sin (rad lat) * sin (declination (dayAngle J)) + cos (rad lat) * cos (declination (dayAngle J)) *
      (-1 * tan (rad lat) * tan (declination (dayAngle J))) = 0 := by
    rw [tan_eq_sin_div_cos, tan_eq_sin_div_cos]
    field_simp
    ring
  constructor
  · rw [sunHeight_eq, (C68_day_length lat J).1, mul_neg, cos_neg, key, zero]
  · rw [sunHeight_eq, key, zero]

/-- The flux above the atmosphere is the solar constant, corrected for the distance to the sun, times the sine of the
sun's height, and zero at night. -/
theorem C68_flux (lat J th : ℝ) :
    etFlux lat J th = 1361.5 * eccentricity (dayAngle J) * max (sunHeight lat J th) 0 := by
  have hE := (eccentricity_bounds (dayAngle J)).1
  rw [sunHeight_eq, etFlux]
  simp only [solarConstant]
  rw [mul_max_of_nonneg _ _ (by linarith), mul_zero]
  congr 1
  ring

theorem C68_flux_day (lat J th : ℝ) (hlat : |lat| < 90) (hth : |th| < 12) :
    (0 < etFlux lat J th ↔
      sunrise lat (declination (dayAngle J)) < th ∧ th < sunset lat (declination (dayAngle J))) := by
  have hE := (eccentricity_bounds (dayAngle J)).1
  rw [← C68_sun_up lat J th hlat hth, C68_flux, mul_pos_iff_of_pos_left (by linarith)]
  constructor
  · intro h
    by_contra hn
    rw [max_eq_right (not_lt.1 hn)] at h
    exact lt_irrefl _ h
  · intro h
    exact lt_max_of_lt_left h

/-! ## C70 -/

/-- The component of the normal in the plane of the equator, at the meridian. -/
def meridianPart (φ α β : ℝ) : ℝ := (normalVec φ α β).x

theorem normal_parts (φ α β : ℝ) :
    (normalVec φ α β).x = cos β * cos φ - sin β * sin φ * cos α ∧
    (normalVec φ α β).y = sin β * sin α ∧
    (normalVec φ α β).z = sin β * cos α * cos φ + cos β * sin φ := by
  simp only [normalVec, upVec, northVec, eastVec]
  refine ⟨by ring, by ring, by ring⟩

theorem normal_unit (φ α β : ℝ) : (normalVec φ α β).dot (normalVec φ α β) = 1 := by
  obtain ⟨h1, h2, h3⟩ := normal_parts φ α β
  rw [Vec.dot, h1, h2, h3]
  have e1 := sin_sq_add_cos_sq φ
  have e2 := sin_sq_add_cos_sq α
  have e3 := sin_sq_add_cos_sq β
  have f1 : sin φ ^ 2 = 1 - cos φ ^ 2 := by linarith
  have f2 : sin α ^ 2 = 1 - cos α ^ 2 := by linarith
  have f3 : sin β ^ 2 = 1 - cos β ^ 2 := by linarith
  ring_nf
  rw [f1, f2, f3]
  ring

theorem dot_normal_sun (φ α β δ h : ℝ) : (normalVec φ α β).dot (sunVec δ h) =
    cos δ * ((normalVec φ α β).x * cos h - (normalVec φ α β).y * sin h) + (normalVec φ α β).z * sin δ := by
  simp only [Vec.dot, sunVec]; ring

theorem sin_eqLat (lat α β : ℝ) : sin (eqLat lat α β) = (normalVec (rad lat) α β).z := by
  have hu := normal_unit (rad lat) α β
  rw [Vec.dot] at hu
  have hz : (normalVec (rad lat) α β).z ^ 2 ≤ 1 := by
    nlinarith [sq_nonneg (normalVec (rad lat) α β).x, sq_nonneg (normalVec (rad lat) α β).y]
  have hz' := abs_le.1 (abs_le_one_of_sq_le hz)
  have : eqLat lat α β = arcsin (normalVec (rad lat) α β).z := by
    rw [(normal_parts _ _ _).2.2]; rfl
  rw [this, sin_arcsin hz'.1 hz'.2]
where
  abs_le_one_of_sq_le {x : ℝ} (h : x ^ 2 ≤ 1) : |x| ≤ 1 := by
    rw [abs_le]; constructor <;> nlinarith

theorem cos_eqLat (lat α β : ℝ) : cos (eqLat lat α β) =
    √((normalVec (rad lat) α β).x ^ 2 + (normalVec (rad lat) α β).y ^ 2) := by
  have hu := normal_unit (rad lat) α β
  rw [Vec.dot] at hu
  have : eqLat lat α β = arcsin (normalVec (rad lat) α β).z := by
    rw [(normal_parts _ _ _).2.2]; rfl
  rw [this, cos_arcsin]
  congr 1
  linarith

theorem cos_sin_lonOffset (lat α β : ℝ) :
    cos (lonOffset lat α β) =
      1 / √(1 + ((normalVec (rad lat) α β).y / (normalVec (rad lat) α β).x) ^ 2) ∧
    sin (lonOffset lat α β) = ((normalVec (rad lat) α β).y / (normalVec (rad lat) α β).x) /
      √(1 + ((normalVec (rad lat) α β).y / (normalVec (rad lat) α β).x) ^ 2) := by
  have : lonOffset lat α β = arctan ((normalVec (rad lat) α β).y / (normalVec (rad lat) α β).x) := by
    rw [(normal_parts _ _ _).1, (normal_parts _ _ _).2.1]; rfl
  rw [this]
  exact ⟨cos_arctan _, sin_arctan _⟩

/-- The two products of the equivalent-slope method. -/
theorem equivalent (lat α β : ℝ) (hx : (normalVec (rad lat) α β).x ≠ 0) :
    cos (eqLat lat α β) * cos (lonOffset lat α β) = |(normalVec (rad lat) α β).x| ∧
    cos (eqLat lat α β) * sin (lonOffset lat α β) =
      |(normalVec (rad lat) α β).x| * ((normalVec (rad lat) α β).y / (normalVec (rad lat) α β).x) := by
  rw [cos_eqLat, (cos_sin_lonOffset lat α β).1, (cos_sin_lonOffset lat α β).2]
  generalize (normalVec (rad lat) α β).x = x at hx
  generalize (normalVec (rad lat) α β).y = y
  have hs : √(x ^ 2 + y ^ 2) = |x| * √(1 + (y / x) ^ 2) := by
    rw [← sqrt_sq_eq_abs, ← sqrt_mul (sq_nonneg x)]
    congr 1
    field_simp
  have hp : √(1 + (y / x) ^ 2) ≠ 0 := by
    have : 0 < 1 + (y / x) ^ 2 := by positivity
    exact (sqrt_pos.2 this).ne'
  rw [hs]
  generalize √(1 + (y / x) ^ 2) = s at hp
  constructor <;> field_simp

theorem slope_term (lat α β h : ℝ) (hx : (normalVec (rad lat) α β).x ≠ 0) :
    cos (eqLat lat α β) * cos (h + lonOffset lat α β) =
      |(normalVec (rad lat) α β).x| *
        (cos h - (normalVec (rad lat) α β).y / (normalVec (rad lat) α β).x * sin h) := by
  obtain ⟨e1, e2⟩ := equivalent lat α β hx
  rw [cos_add]
  calc cos (eqLat lat α β) * (cos h * cos (lonOffset lat α β) - sin h * sin (lonOffset lat α β))
      = cos h * (cos (eqLat lat α β) * cos (lonOffset lat α β))
        - sin h * (cos (eqLat lat α β) * sin (lonOffset lat α β)) := by ring
    _ = _ := by rw [e1, e2]; ring

theorem etFluxSlope_eq (lat J th α β : ℝ) : etFluxSlope lat J th α β = 1361.5 * eccentricity (dayAngle J) *
    max (cos (declination (dayAngle J)) * (cos (eqLat lat α β) * cos (omega * th + lonOffset lat α β)) +
      (normalVec (rad lat) α β).z * sin (declination (dayAngle J))) 0 := by
  have hE := (eccentricity_bounds (dayAngle J)).1
  rw [etFluxSlope]
  simp only [solarConstant]
  rw [mul_max_of_nonneg _ _ (by linarith), mul_zero, sin_eqLat]
  congr 1
  ring

/-- **C70.**  On a slope whose normal does not lean over the pole, the computed flux is that of the beam on the tilted
plane: the scalar product of its normal with the direction of the sun, and nothing if the plane faces away.  Missing
from the full claim: slopes whose normal leans over the pole (`C70_over_the_pole_violated`). -/
theorem C70_beam_on_slope_partial (lat J th α β : ℝ)
    (hx : 0 < (normalVec (lat * π / 180) α β).x) :
    etFluxSlope lat J th α β = 1361.5 * eccentricity (dayAngle J) *
      max ((normalVec (lat * π / 180) α β).dot (sunAt J th)) 0 := by
  rw [etFluxSlope_eq]
  rw [← rad_eq] at hx ⊢
  rw [slope_term lat α β _ hx.ne', abs_of_pos hx, sunAt, dot_normal_sun, ← omega_mul]
  congr 2
  have := hx.ne'
  field_simp

/-- In particular on every plane no steeper than the angle to the pole (`β + |φ| < 90°`), whatever its aspect. -/
theorem C70_gentle (lat J th α β : ℝ) (hβ0 : 0 ≤ β) (hβ : β + |lat * π / 180| < π / 2) :
    etFluxSlope lat J th α β = 1361.5 * eccentricity (dayAngle J) *
      max ((normalVec (lat * π / 180) α β).dot (sunAt J th)) 0 := by
  apply C70_beam_on_slope_partial
  rw [(normal_parts _ _ _).1]
  set φ := lat * π / 180 with hφ
  have hp := pi_pos
  have ha := abs_nonneg φ
  have hs : 0 ≤ sin β := sin_nonneg_of_nonneg_of_le_pi hβ0 (by linarith)
  have hc : cos (β + |φ|) = cos β * cos φ - sin β * |sin φ| := by
    rw [cos_add, cos_abs]
    rcases le_total 0 φ with h | h
    · rw [abs_of_nonneg h] at hβ ⊢
      rw [abs_of_nonneg (sin_nonneg_of_nonneg_of_le_pi h (by linarith))]
    · rw [abs_of_nonpos h] at hβ ⊢
      rw [abs_of_nonpos (sin_nonpos_of_nonpos_of_neg_pi_le h (by linarith)), sin_neg]
  have hpos : 0 < cos (β + |φ|) := cos_pos_of_mem_Ioo ⟨by linarith, by linarith⟩
  have hle : sin φ * cos α ≤ |sin φ| := by
    calc sin φ * cos α ≤ |sin φ * cos α| := le_abs_self _
      _ = |sin φ| * |cos α| := abs_mul _ _
      _ ≤ |sin φ| * 1 := mul_le_mul_of_nonneg_left (abs_cos_le_one α) (abs_nonneg _)
      _ = |sin φ| := mul_one _
  have : sin β * (sin φ * cos α) ≤ sin β * |sin φ| := mul_le_mul_of_nonneg_left hle hs
  nlinarith

/-- Level ground gets the flux of the horizontal plane. -/
theorem C70_level (lat J th α : ℝ) (hlat : |lat| < 90) : etFluxSlope lat J th α 0 = etFlux lat J th := by
  have hp := pi_pos
  have h := abs_lt.1 hlat
  rw [C70_gentle lat J th α 0 le_rfl, C68_flux, sunHeight]
  · congr 2
    simp [normalVec, Vec.dot, upVec, northVec, eastVec]
  · rw [zero_add, abs_lt]
    constructor <;> nlinarith

/-- If the normal leans over the pole, the code computes the beam of a sun twelve hours away. -/
theorem C70_over_the_pole_violated (lat J th α β : ℝ) (hx : (normalVec (lat * π / 180) α β).x < 0) :
    etFluxSlope lat J th α β = 1361.5 * eccentricity (dayAngle J) *
      max ((normalVec (lat * π / 180) α β).dot (sunAt J (th + 12))) 0 := by
  rw [etFluxSlope_eq]
  rw [← rad_eq] at hx ⊢
  rw [slope_term lat α β _ hx.ne, abs_of_neg hx, sunAt, dot_normal_sun]
  have e : (th + 12) * (15 * π / 180) = omega * th + π := by rw [omega_eq]; ring
  rw [e, cos_add_pi, sin_add_pi]
  congr 2
  have := hx.ne
  field_simp
  ring

theorem normal_60_60 : normalVec (60 * π / 180) 0 (π / 3) = ⟨-(1 / 2), 0, √3 / 2⟩ := by
  obtain ⟨h1, h2, h3⟩ := normal_parts (60 * π / 180) 0 (π / 3)
  have e : 60 * π / 180 = π / 3 := by ring
  have hs : √3 * √3 = 3 := Real.mul_self_sqrt (by norm_num)
  rw [e, cos_pi_div_three, sin_pi_div_three, cos_zero] at h1
  rw [sin_zero] at h2
  rw [e, cos_pi_div_three, sin_pi_div_three, cos_zero] at h3
  rw [show (⟨-(1 / 2), 0, √3 / 2⟩ : Vec) = ⟨1 / 2 * (1 / 2) - √3 / 2 * (√3 / 2) * 1, sin (π / 3) * 0,
    √3 / 2 * 1 * (1 / 2) + 1 / 2 * (√3 / 2)⟩ by congr 1 <;> [linarith; ring; ring]]
  rw [e] at *
  exact (show ∀ v : Vec, ∀ a b c, v.x = a → v.y = b → v.z = c → v = ⟨a, b, c⟩ by
    intro v a b c h1 h2 h3; subst h1 h2 h3; rfl) _ _ _ _ h1 h2 h3

/-- A north-facing slope of 60 degrees at 60 degrees north faces away from the sun at every noon of the year, and the
code computes sunshine on it every time. -/
theorem C70_north_face_violated (J α : ℝ) (hα : α = 0) :
    (normalVec (60 * π / 180) α (π / 3)).dot (sunAt J 0) < 0 ∧ 0 < etFluxSlope 60 J 0 α (π / 3) := by
  subst hα
  have hb := abs_le.1 (abs_declination (dayAngle J))
  have hp := pi_gt_three
  have hE := (eccentricity_bounds (dayAngle J)).1
  have s1 : 0 < sin (declination (dayAngle J) + π / 6) := sin_pos_of_pos_of_lt_pi (by linarith) (by linarith)
  have s2 : sin (declination (dayAngle J) - π / 6) < 0 :=
    sin_neg_of_neg_of_neg_pi_lt (by linarith) (by linarith)
  rw [sin_add, sin_pi_div_six, cos_pi_div_six] at s1
  rw [sin_sub, sin_pi_div_six, cos_pi_div_six] at s2
  constructor
  · rw [normal_60_60, sunAt]
    simp only [Vec.dot, sunVec, zero_mul, cos_zero, sin_zero]
    linarith
  · rw [C70_over_the_pole_violated 60 J 0 0 (π / 3) (by rw [normal_60_60]; norm_num), normal_60_60, sunAt]
    have e : (0 + 12) * (15 * π / 180) = π := by ring
    rw [e]
    simp only [Vec.dot, sunVec, cos_pi, sin_pi]
    apply mul_pos (by linarith)
    apply lt_max_of_lt_left
    linarith

/-- A gentle slope meets the hypotheses of `C70_gentle`: 10 degrees at 45 degrees north. -/
example (J th α : ℝ) : etFluxSlope 45 J th α (π / 18) = 1361.5 * eccentricity (dayAngle J) *
    max ((normalVec (45 * π / 180) α (π / 18)).dot (sunAt J th)) 0 := by
  have := pi_pos
  apply C70_gentle
  · positivity
  · rw [abs_of_pos (by positivity)]; linarith

/-- A site and hour that meet the hypotheses of `C68_sun_up`. -/
example (J : ℝ) : |(39.7 : ℝ)| < 90 ∧ |(-5.5 : ℝ)| < 12 ∧ 0 < sunHeight 0 J (-5.5) := by
  refine ⟨by norm_num [abs_lt], by norm_num [abs_lt], ?_⟩
  have h12 := C68_equator J
  have hd := C68_day_length 0 J
  rw [C68_sun_up 0 J (-5.5) (by norm_num) (by norm_num [abs_lt])]
  rw [hd.1]
  constructor <;> linarith [hd.2.2.2]

/-- The sun never rises earlier and never sets later on a slope than on level ground. -/
theorem C70_slope_day (lat J α β : ℝ) :
    sunrise lat (declination (dayAngle J)) ≤ sunriseSlope lat J α β ∧
    sunsetSlope lat J α β ≤ sunset lat (declination (dayAngle J)) ∧
    dayLengthSlope lat J α β ≤ dayLength lat J := by
  have h1 : sunrise lat (declination (dayAngle J)) ≤ sunriseSlope lat J α β := le_max_right _ _
  have h2 : sunsetSlope lat J α β ≤ sunset lat (declination (dayAngle J)) := min_le_right _ _
  refine ⟨h1, h2, ?_⟩
  rw [dayLengthSlope, dayLength]
  linarith

/-- On level ground the slope versions of sunrise and sunset are the plain ones. -/
theorem C70_level_day (lat J α : ℝ) (hlat : |lat| ≤ 90) :
    sunriseSlope lat J α 0 = sunrise lat (declination (dayAngle J)) ∧
    sunsetSlope lat J α 0 = sunset lat (declination (dayAngle J)) := by
  have hp := pi_pos
  have h := abs_le.1 hlat
  have e1 : eqLatDeg lat α 0 = lat := by
    have : arcsin (sin (rad lat)) = rad lat := by
      apply arcsin_sin <;> unfold rad <;> nlinarith
    simp only [eqLatDeg, eqLat, sin_zero, zero_mul, cos_zero, one_mul, zero_add, this]
    rw [rad]
    field_simp
  have e2 : noonOffset lat α 0 = 0 := by simp [noonOffset, lonOffset]
  simp only [sunriseSlope, sunsetSlope, e1, e2, add_zero, max_self, min_self, and_self]

/-! ### The angles read from the slope and aspect files -/

theorem pyMod_of_lt {a b : ℝ} (h0 : 0 ≤ a) (h1 : a < b) : pyMod a b = a := by
  have hb : 0 < b := lt_of_le_of_lt h0 h1
  have : ⌊a / b⌋ = 0 := by
    rw [Int.floor_eq_zero_iff]
    exact ⟨div_nonneg h0 hb.le, (div_lt_one hb).2 h1⟩
  simp [pyMod, this]

theorem pyMod_add_self {a b : ℝ} (hb : 0 < b) : pyMod (b + a) b = pyMod a b := by
  unfold pyMod
  have : (b + a) / b = a / b + 1 := by field_simp; ring
  rw [this, Int.floor_add_one]
  push_cast
  ring

theorem pyMod_range (a : ℝ) {b : ℝ} (hb : 0 < b) : 0 ≤ pyMod a b ∧ pyMod a b < b := by
  unfold pyMod
  have h1 := Int.floor_le (a / b)
  have h2 := Int.lt_floor_add_one (a / b)
  rw [le_div_iff₀ hb] at h1
  rw [div_lt_iff₀ hb] at h2
  constructor <;> nlinarith

/-- The slope angle is the arc tangent of a slope that is not negative, and zero where the slope is missing. -/
theorem C70_slope_angle (s : ℝ) (hs : 0 ≤ s) :
    slopeAngle (some s) = arctan s ∧ tan (slopeAngle (some s)) = s ∧
    0 ≤ slopeAngle (some s) ∧ slopeAngle (some s) < π / 2 ∧ slopeAngle none = 0 := by
  have hp := pi_pos
  have h0 : 0 ≤ arctan s := arctan_nonneg.2 hs
  have h1 := arctan_lt_pi_div_two s
  have e : slopeAngle (some s) = arctan s := by
    rw [slopeAngle, pyMod_add_self (by linarith), pyMod_of_lt h0 (by linarith)]
  refine ⟨e, ?_, ?_, ?_, rfl⟩
  · rw [e, tan_arctan]
  · rw [e]; exact h0
  · rw [e]; exact h1

/-- A grid of such slopes is accepted, a grid with a single negative slope is refused as a whole. -/
theorem C70_slope_grid (slopes : List (Option ℝ)) :
    ((∀ s, some s ∈ slopes → 0 ≤ s) → setSlopeAngle slopes = some (slopes.map slopeAngle)) ∧
    (∀ s, some s ∈ slopes → s < 0 → setSlopeAngle slopes = none) := by
  have hp := pi_pos
  unfold setSlopeAngle
  constructor
  · intro h
    apply if_neg
    rintro ⟨b, hb, hbad⟩
    obtain ⟨o, ho, rfl⟩ := List.mem_map.1 hb
    cases o with
    | none =>
      simp only [slopeAngle] at hbad
      rcases hbad with hbad | hbad <;> linarith
    | some s =>
      have := C70_slope_angle s (h s ho)
      rcases hbad with hbad | hbad <;> linarith [this.2.2.1, this.2.2.2.1]
  · intro s hs hneg
    apply if_pos
    refine ⟨slopeAngle (some s), List.mem_map.2 ⟨_, hs, rfl⟩, Or.inr ?_⟩
    have h1 : arctan s < 0 := arctan_lt_zero.2 hneg
    have h2 := neg_pi_div_two_lt_arctan s
    rw [slopeAngle, pyMod_of_lt (by linarith) (by linarith)]
    linarith

/-- The aspect angle turns an angle counterclockwise from east into the azimuth clockwise from north of the same
direction. -/
theorem C70_aspect (a : ℝ) :
    sin (aspectAngle (some a)) = cos a ∧ cos (aspectAngle (some a)) = sin a ∧
    0 ≤ aspectAngle (some a) ∧ aspectAngle (some a) < 2 * π := by
  have hp := pi_pos
  have hr := pyMod_range (2 * π + (π / 2 - a)) (b := 2 * π) (by linarith)
  have e : aspectAngle (some a) =
      (π / 2 - a) - (⌊(π / 2 - a) / (2 * π)⌋ : ℝ) * (2 * π) := by
    rw [aspectAngle, pyMod_add_self (by linarith), pyMod]; ring
  refine ⟨?_, ?_, hr.1, hr.2⟩
  · rw [e, sin_sub_int_mul_two_pi, sin_pi_div_two_sub]
  · rw [e, cos_sub_int_mul_two_pi, cos_pi_div_two_sub]

end Solar
