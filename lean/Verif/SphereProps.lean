import Verif.SphereModel
import Mathlib.Analysis.InnerProductSpace.PiL2
import Mathlib.Geometry.Euclidean.Angle.Unoriented.TriangleInequality
import Mathlib.Tactic.Linarith
import Mathlib.Tactic.Ring
import Mathlib.Tactic.NormNum
import Mathlib.Tactic.Positivity
import Mathlib.Tactic.FieldSimp

/-!
# Specification and theorems C258 to C262 for places on the sphere
-/

set_option autoImplicit false

noncomputable section

open Real

namespace SphereSpec

/-- The point of the unit sphere with this longitude and latitude (in degrees). -/
def unit (lon lat : ℝ) : EuclideanSpace ℝ (Fin 3) :=
  !₂[cos (lat * (π / 180)) * cos (lon * (π / 180)), cos (lat * (π / 180)) * sin (lon * (π / 180)),
    sin (lat * (π / 180))]

/-- The great-circle distance on a sphere of radius 6371 km: the radius times the angle, seen from the
center, between the two points. -/
def greatCircle (lon1 lat1 lon2 lat2 : ℝ) : ℝ :=
  6371 * InnerProductGeometry.angle (unit lon1 lat1) (unit lon2 lat2)

/-- The coordinate written with a sign, whole degrees, minutes and seconds. -/
def dms (neg : Bool) (d m s : ℝ) : ℝ := if neg then -(d + m / 60 + s / 3600) else d + m / 60 + s / 3600

/-- The point lies in the box, borders included. -/
def InBox (lon lat : ℝ) (b : Sphere.Box) : Prop :=
  b.minlon ≤ lon ∧ lon ≤ b.maxlon ∧ b.minlat ≤ lat ∧ lat ≤ b.maxlat

/-- The point (x, y) lies in the cell of row `r` (counted from the top) and column `c`: left and upper border
included. -/
def InCell (g : Sphere.GridInfo) (r c : ℕ) (x y : ℝ) : Prop :=
  g.xmin + c * g.dx ≤ x ∧ x < g.xmin + (c + 1) * g.dx ∧ g.ymax - (r + 1) * g.dy < y ∧ y ≤ g.ymax - r * g.dy

end SphereSpec

namespace Sphere

open SphereSpec

/-! ## C258: distances -/

theorem unit_inner (a b c d : ℝ) : inner ℝ (unit a b) (unit c d)
    = cos (b * (π / 180)) * cos (d * (π / 180)) * cos ((c - a) * (π / 180))
      + sin (b * (π / 180)) * sin (d * (π / 180)) := by
  rw [sub_mul, cos_sub]
  simp [unit, PiLp.inner_apply, Fin.sum_univ_three]
  ring

theorem unit_norm (a b : ℝ) : ‖unit a b‖ = 1 := by
  have h : inner ℝ (unit a b) (unit a b) = (1 : ℝ) := by
    rw [unit_inner, sub_self, zero_mul, cos_zero]
    nlinarith [sin_sq_add_cos_sq (b * (π / 180))]
  rw [real_inner_self_eq_norm_sq] at h
  have := norm_nonneg (unit a b)
  nlinarith

theorem haversine_eq (a b c d : ℝ) :
    haversine a b c d = (1 - inner ℝ (unit a b) (unit c d)) / 2 := by
  rw [unit_inner]
  unfold haversine
  simp only []
  rw [show (d - b) * (π / 180) = d * (π / 180) - b * (π / 180) by ring, cos_sub]
  ring

/-- **C258**: for all longitudes and latitudes, the reported distance is the great-circle distance. -/
theorem C258_great_circle (lon1 lat1 lon2 lat2 : ℝ) :
    distanceOnSphere lon1 lat1 lon2 lat2 = greatCircle lon1 lat1 lon2 lat2 := by
  unfold distanceOnSphere greatCircle
  rw [haversine_eq, InnerProductGeometry.inner_eq_cos_angle_of_norm_eq_one (unit_norm _ _) (unit_norm _ _)]
  set θ := InnerProductGeometry.angle (unit lon1 lat1) (unit lon2 lat2) with hθ
  have h0 : 0 ≤ θ := InnerProductGeometry.angle_nonneg _ _
  have h1 : θ ≤ π := InnerProductGeometry.angle_le_pi _ _
  have hs : (1 - cos θ) / 2 = sin (θ / 2) ^ 2 := by
    have h2 := cos_two_mul (θ / 2)
    rw [show 2 * (θ / 2) = θ by ring] at h2
    nlinarith [sin_sq_add_cos_sq (θ / 2)]
  rw [hs, sqrt_sq (sin_nonneg_of_nonneg_of_le_pi (by linarith) (by linarith [pi_pos])),
    arcsin_sin (by linarith [pi_pos]) (by linarith)]
  ring

/-- **C258**: the distance is never negative, at most half the circumference, the same in both directions,
zero exactly for the same point of the sphere, and obeys the triangle inequality. -/
theorem C258_metric (a b c d e f : ℝ) :
    0 ≤ distanceOnSphere a b c d ∧ distanceOnSphere a b c d ≤ 6371 * π ∧
    distanceOnSphere a b c d = distanceOnSphere c d a b ∧
    (distanceOnSphere a b c d = 0 ↔ unit a b = unit c d) ∧
    distanceOnSphere a b e f ≤ distanceOnSphere a b c d + distanceOnSphere c d e f := by
  simp only [C258_great_circle]
  unfold greatCircle
  have h0 := InnerProductGeometry.angle_nonneg (unit a b) (unit c d)
  have h1 := InnerProductGeometry.angle_le_pi (unit a b) (unit c d)
  have h2 := InnerProductGeometry.angle_le_angle_add_angle (unit a b) (unit c d) (unit e f)
  refine ⟨by linarith, by linarith, by rw [InnerProductGeometry.angle_comm], ⟨fun h => ?_, fun h => ?_⟩,
    by linarith⟩
  · have h3 : InnerProductGeometry.angle (unit a b) (unit c d) = 0 := by linarith
    have h4 := InnerProductGeometry.inner_eq_cos_angle_of_norm_eq_one (unit_norm a b) (unit_norm c d)
    rw [h3, cos_zero] at h4
    exact (inner_eq_one_iff_of_norm_eq_one (unit_norm a b) (unit_norm c d)).mp h4
  · rw [h, InnerProductGeometry.angle_self, mul_zero]
    intro h5
    have := unit_norm c d
    rw [h5, norm_zero] at this
    norm_num at this

/-- A turn of 360 degrees in longitude changes no distance. -/
theorem C258_turn (a b c d : ℝ) : distanceOnSphere (a + 360) b c d = distanceOnSphere a b c d := by
  unfold distanceOnSphere haversine
  simp only []
  rw [show (c - (a + 360)) * (π / 180) = (c - a) * (π / 180) - 2 * π by ring, cos_sub_two_pi]

/-- From the equator to the pole is a quarter of the circumference, 10007.5 km. -/
example : distanceOnSphere 0 0 0 90 = 6371 * (π / 2) := by
  unfold distanceOnSphere haversine
  simp only []
  rw [show ((90 : ℝ) - 0) * (π / 180) = π / 2 by ring, sub_self, zero_mul, cos_zero, cos_pi_div_two]
  have h : arcsin (√(0.5 - 0 / 2 + 1 * cos (90 * (π / 180)) * ((1 - 1) / 2))) = π / 4 := by
    rw [show (0.5 - 0 / 2 + 1 * cos (90 * (π / 180)) * ((1 - 1) / 2) : ℝ) = (√2 / 2) ^ 2 by
      rw [div_pow, sq_sqrt (by norm_num)]; norm_num, sqrt_sq (by positivity), ← sin_pi_div_four,
      arcsin_sin (by linarith [pi_pos]) (by linarith [pi_pos])]
  rw [h]
  ring

/-! ## C259: the closest site -/

theorem argminFrom_spec (d : Site → ℝ) (rest : List Site) : ∀ best : Site,
    ∃ pre post, best :: rest = pre ++ argminFrom d best rest :: post ∧
      (∀ t ∈ pre, d (argminFrom d best rest) < d t) ∧ (∀ t ∈ post, d (argminFrom d best rest) ≤ d t) := by
  induction rest with
  | nil => intro best; exact ⟨[], [], rfl, (by simp), (by simp)⟩
  | cons s rest ih =>
    intro best
    by_cases h : d s < d best
    · obtain ⟨pre, post, h1, h2, h3⟩ := ih s
      have he : argminFrom d best (s :: rest) = argminFrom d s rest := by
        simp only [argminFrom]; rw [if_pos h]
      rw [he]
      refine ⟨best :: pre, post, by rw [h1]; rfl, ?_, h3⟩
      intro t ht
      rcases List.mem_cons.mp ht with rfl | ht
      · rcases pre with _ | ⟨p, pre⟩
        · simp only [List.nil_append, List.cons.injEq] at h1
          rw [← h1.1]; exact h
        · simp only [List.cons_append, List.cons.injEq] at h1
          have := h2 p (List.mem_cons_self ..)
          rw [← h1.1] at this
          linarith
      · exact h2 t ht
    · obtain ⟨pre, post, h1, h2, h3⟩ := ih best
      have he : argminFrom d best (s :: rest) = argminFrom d best rest := by
        simp only [argminFrom]; rw [if_neg h]
      rw [he]
      rcases pre with _ | ⟨p, pre⟩
      · simp only [List.nil_append, List.cons.injEq] at h1
        refine ⟨[], s :: post, ?_, (by simp), ?_⟩
        · simp only [List.nil_append]
          rw [← h1.2, ← h1.1]
        · intro t ht
          rcases List.mem_cons.mp ht with rfl | ht
          · rw [← h1.1]; linarith
          · exact h3 t ht
      · simp only [List.cons_append, List.cons.injEq] at h1
        refine ⟨best :: s :: pre, post, ?_, ?_, h3⟩
        · exact congrArg (fun l => best :: s :: l) h1.2
        · have hb := h2 p (List.mem_cons_self ..)
          rw [← h1.1] at hb
          intro t ht
          rcases List.mem_cons.mp ht with rfl | ht
          · exact hb
          rcases List.mem_cons.mp ht with rfl | ht
          · linarith
          · exact h2 t (List.mem_cons_of_mem _ ht)

/-- **C259**: for every nonempty table of sites and all valid coordinates, a site of the table is returned
together with its great-circle distance; no site is closer, and the sites before it are farther away. -/
theorem C259_closest (sites : List Site) (lon lat : ℝ) (hs : sites ≠ []) (h1 : -999 < lon) (h2 : -90 ≤ lat)
    (h3 : lat ≤ 90) :
    ∃ (s : Site) (pre post : List Site),
      getClosestSite sites lon lat = some (.site s (greatCircle s.lon s.lat lon lat)) ∧
      sites = pre ++ s :: post ∧
      (∀ t ∈ pre, greatCircle s.lon s.lat lon lat < greatCircle t.lon t.lat lon lat) ∧
      (∀ t ∈ post, greatCircle s.lon s.lat lon lat ≤ greatCircle t.lon t.lat lon lat) := by
  rcases sites with _ | ⟨s, rest⟩
  · exact absurd rfl hs
  have hc : ¬ (lon ≤ -999 ∨ lat < -90 ∨ lat > 90) := by
    rintro (h | h | h) <;> linarith
  obtain ⟨pre, post, e1, e2, e3⟩ := argminFrom_spec (fun s => distanceOnSphere s.lon s.lat lon lat) rest s
  simp only [C258_great_circle] at e1 e2 e3
  refine ⟨_, pre, post, ?_, e1, e2, e3⟩
  unfold getClosestSite
  rw [if_neg hc]
  simp only [C258_great_circle]

/-- **C259**: "unknown" is returned exactly for missing longitudes (-999 or less) and latitudes outside
[-90, 90]; the call fails exactly for an empty table and valid coordinates. -/
theorem C259_unknown (sites : List Site) (lon lat : ℝ) :
    (getClosestSite sites lon lat = some .unknown ↔ lon ≤ -999 ∨ lat < -90 ∨ 90 < lat) ∧
    (getClosestSite sites lon lat = none ↔ sites = [] ∧ -999 < lon ∧ -90 ≤ lat ∧ lat ≤ 90) := by
  unfold getClosestSite
  by_cases h : lon ≤ -999 ∨ lat < -90 ∨ lat > 90
  · rw [if_pos h]
    refine ⟨⟨fun _ => h, fun _ => rfl⟩, ⟨fun e => (by cases e), ?_⟩⟩
    rintro ⟨_, h1, h2, h3⟩
    rcases h with h | h | h <;> linarith
  · rw [if_neg h]
    push Not at h
    refine ⟨⟨fun e => ?_, ?_⟩, ⟨fun e => ?_, ?_⟩⟩
    · rcases sites with _ | ⟨s, rest⟩ <;> simp at e
    · rintro (h1 | h1 | h1) <;> linarith [h.1, h.2.1, h.2.2]
    · rcases sites with _ | ⟨s, rest⟩
      · exact ⟨rfl, h.1, h.2.1, h.2.2⟩
      · simp at e
    · rintro ⟨rfl, _⟩; rfl

/-- The hypotheses of C259 are met by two gauges in Colorado, and the coordinates of Boulder. -/
example : ∃ s d, getClosestSite [⟨"06730200", -105.178, 40.0519⟩, ⟨"06719505", -105.235, 39.753⟩] (-105.27) 40.01
    = some (.site s d) := by
  obtain ⟨s, _, _, h, _⟩ := C259_closest [⟨"06730200", -105.178, 40.0519⟩, ⟨"06719505", -105.235, 39.753⟩]
    (-105.27) 40.01 (by simp) (by norm_num) (by norm_num) (by norm_num)
  exact ⟨s, _, h⟩

/-! ## C260: degrees, minutes and seconds -/

/-- **C260** (violated): "-0 30 0" (30 minutes south of the equator, or west of Greenwich) becomes plus half
a degree. -/
theorem C260_minus_zero_violated :
    convertDms ⟨true, 0⟩ 30 0 = 1 / 2 ∧ dms true 0 30 0 = -(1 / 2) := by
  unfold convertDms dms Signed.val
  norm_num

/-- **C260** (partial): the conversion is right for every coordinate except the ones with minus zero
degrees. -/
theorem C260_dms_partial (neg : Bool) (d m s : ℝ) (hd : 0 ≤ d) (hm : 0 ≤ m) (hs : 0 ≤ s) :
    convertDms ⟨neg, d⟩ m s = dms neg d m s ↔ ¬ (neg = true ∧ d = 0 ∧ 0 < m + s) := by
  unfold convertDms dms Signed.val
  cases neg
  · simp only [Bool.false_eq_true, if_false, false_and, not_false_eq_true, iff_true]
    rw [if_neg (by linarith)]
  · simp only [if_true, true_and]
    rcases hd.eq_or_lt with h | h
    · rw [← h]
      simp only [neg_zero, lt_self_iff_false, if_false, true_and, zero_add]
      constructor
      · intro e h1; nlinarith
      · intro h1
        have : m = 0 ∧ s = 0 := by constructor <;> nlinarith
        rw [this.1, this.2]; norm_num
    · rw [if_pos (by linarith)]
      constructor
      · intro _ h1; linarith [h1.1]
      · intro _; ring

example : convertDms ⟨true, 105⟩ 16 12 = -105.27 := by
  unfold convertDms Signed.val; norm_num

/-! ## C261: boxes -/

theorem around_near (n : ℕ) (x : ℝ) : |around n x - x| ≤ 1 / 2 / 10 ^ n := by
  unfold around
  simp only []
  have hp : (0 : ℝ) < 10 ^ n := by positivity
  set y := x * 10 ^ n with hy
  have h1 := Int.floor_le y
  have h2 := Int.lt_floor_add_one y
  have key : ∀ k : ℤ, |(k : ℝ) - y| ≤ 1 / 2 → |(k : ℝ) / 10 ^ n - x| ≤ 1 / 2 / 10 ^ n := by
    intro k hk
    have : (k : ℝ) / 10 ^ n - x = ((k : ℝ) - y) / 10 ^ n := by rw [hy]; field_simp
    rw [this, abs_div, abs_of_pos hp]
    exact div_le_div_of_nonneg_right hk hp.le
  apply key
  by_cases ha : y - ⌊y⌋ < 1 / 2
  · rw [if_pos ha, abs_le]; constructor <;> linarith
  · rw [if_neg ha]
    by_cases hb : 1 / 2 < y - ⌊y⌋
    · rw [if_pos hb, abs_le]; push_cast; constructor <;> linarith
    · rw [if_neg hb]
      by_cases hc : ⌊y⌋ % 2 = 0
      · rw [if_pos hc, abs_le]; constructor <;> linarith
      · rw [if_neg hc, abs_le]; push_cast; constructor <;> linarith

theorem minFrom_spec (l : List ℝ) : ∀ m, (∀ x ∈ m :: l, minFrom m l ≤ x) ∧ minFrom m l ∈ m :: l := by
  induction l with
  | nil => intro m; simp [minFrom]
  | cons a l ih =>
    intro m
    obtain ⟨h1, h2⟩ := ih (min m a)
    have h3 := h1 _ (List.mem_cons_self ..)
    simp only [minFrom]
    constructor
    · intro x hx
      rcases List.mem_cons.mp hx with rfl | hx
      · exact h3.trans (min_le_left _ _)
      rcases List.mem_cons.mp hx with rfl | hx
      · exact h3.trans (min_le_right _ _)
      · exact h1 x (List.mem_cons_of_mem _ hx)
    · rcases List.mem_cons.mp h2 with h | h
      · rw [h]
        rcases min_choice m a with e | e <;> rw [e] <;> simp
      · exact List.mem_cons_of_mem _ (List.mem_cons_of_mem _ h)

theorem maxFrom_spec (l : List ℝ) : ∀ m, (∀ x ∈ m :: l, x ≤ maxFrom m l) ∧ maxFrom m l ∈ m :: l := by
  induction l with
  | nil => intro m; simp [maxFrom]
  | cons a l ih =>
    intro m
    obtain ⟨h1, h2⟩ := ih (max m a)
    have h3 := h1 _ (List.mem_cons_self ..)
    simp only [maxFrom]
    constructor
    · intro x hx
      rcases List.mem_cons.mp hx with rfl | hx
      · exact (le_max_left _ _).trans h3
      rcases List.mem_cons.mp hx with rfl | hx
      · exact (le_max_right _ _).trans h3
      · exact h1 x (List.mem_cons_of_mem _ hx)
    · rcases List.mem_cons.mp h2 with h | h
      · rw [h]
        rcases max_choice m a with e | e <;> rw [e] <;> simp
      · exact List.mem_cons_of_mem _ (List.mem_cons_of_mem _ h)

/-- **C261**: every vertex of the polygon lies in the box, at least `buffer` minus half a unit of the last
decimal inside each border; and each border is within `buffer` plus that of some vertex. -/
theorem C261_box (pts : List (ℝ × ℝ)) (buffer : ℝ) (n : ℕ) (hp : pts ≠ []) :
    ∃ b, getBoundingBox pts buffer n = some b ∧
      (∀ p ∈ pts, b.minlon + (buffer - 1 / 2 / 10 ^ n) ≤ p.1 ∧ p.1 ≤ b.maxlon - (buffer - 1 / 2 / 10 ^ n) ∧
        b.minlat + (buffer - 1 / 2 / 10 ^ n) ≤ p.2 ∧ p.2 ≤ b.maxlat - (buffer - 1 / 2 / 10 ^ n)) ∧
      (∃ p ∈ pts, p.1 ≤ b.minlon + (buffer + 1 / 2 / 10 ^ n)) ∧
      (∃ p ∈ pts, b.maxlon - (buffer + 1 / 2 / 10 ^ n) ≤ p.1) ∧
      (∃ p ∈ pts, p.2 ≤ b.minlat + (buffer + 1 / 2 / 10 ^ n)) ∧
      (∃ p ∈ pts, b.maxlat - (buffer + 1 / 2 / 10 ^ n) ≤ p.2) := by
  rcases pts with _ | ⟨p, rest⟩
  · exact absurd rfl hp
  obtain ⟨a1, a2⟩ := minFrom_spec (rest.map Prod.fst) p.1
  obtain ⟨b1, b2⟩ := maxFrom_spec (rest.map Prod.fst) p.1
  obtain ⟨c1, c2⟩ := minFrom_spec (rest.map Prod.snd) p.2
  obtain ⟨d1, d2⟩ := maxFrom_spec (rest.map Prod.snd) p.2
  have ra := abs_le.mp (around_near n (minFrom p.1 (rest.map Prod.fst) - buffer))
  have rb := abs_le.mp (around_near n (maxFrom p.1 (rest.map Prod.fst) + buffer))
  have rc := abs_le.mp (around_near n (minFrom p.2 (rest.map Prod.snd) - buffer))
  have rd := abs_le.mp (around_near n (maxFrom p.2 (rest.map Prod.snd) + buffer))
  refine ⟨_, rfl, ?_, ?_, ?_, ?_, ?_⟩
  · intro q hq
    have m1 : q.1 ∈ p.1 :: rest.map Prod.fst := by
      rw [← List.map_cons (f := Prod.fst)]; exact List.mem_map_of_mem hq
    have m2 : q.2 ∈ p.2 :: rest.map Prod.snd := by
      rw [← List.map_cons (f := Prod.snd)]; exact List.mem_map_of_mem hq
    have := a1 _ m1; have := b1 _ m1; have := c1 _ m2; have := d1 _ m2
    refine ⟨?_, ?_, ?_, ?_⟩ <;> dsimp only <;> linarith [ra.1, ra.2, rb.1, rb.2, rc.1, rc.2, rd.1, rd.2]
  · rw [← List.map_cons (f := Prod.fst)] at a2
    obtain ⟨q, hq, e⟩ := List.mem_map.mp a2
    exact ⟨q, hq, by dsimp only; linarith [ra.1, ra.2]⟩
  · rw [← List.map_cons (f := Prod.fst)] at b2
    obtain ⟨q, hq, e⟩ := List.mem_map.mp b2
    exact ⟨q, hq, by dsimp only; linarith [rb.1, rb.2]⟩
  · rw [← List.map_cons (f := Prod.snd)] at c2
    obtain ⟨q, hq, e⟩ := List.mem_map.mp c2
    exact ⟨q, hq, by dsimp only; linarith [rc.1, rc.2]⟩
  · rw [← List.map_cons (f := Prod.snd)] at d2
    obtain ⟨q, hq, e⟩ := List.mem_map.mp d2
    exact ⟨q, hq, by dsimp only; linarith [rd.1, rd.2]⟩

/-- **C261**: with the default buffer (0.02) and decimals (5) every vertex is inside the box, and the test
`check_bounding_box` says so. -/
theorem C261_default (pts : List (ℝ × ℝ)) (b : Box) (h : getBoundingBox pts 0.02 5 = some b) :
    ∀ p ∈ pts, InBox p.1 p.2 b ∧ checkBoundingBox p.1 p.2 b = true := by
  have hp : pts ≠ [] := by rintro rfl; simp [getBoundingBox] at h
  obtain ⟨b', h1, h2, _⟩ := C261_box pts 0.02 5 hp
  rw [h1] at h
  obtain rfl : b' = b := Option.some.inj h
  intro p hpm
  obtain ⟨x1, x2, x3, x4⟩ := h2 p hpm
  norm_num at x1 x2 x3 x4
  have hb : InBox p.1 p.2 b' := ⟨by linarith, by linarith, by linarith, by linarith⟩
  refine ⟨hb, ?_⟩
  obtain ⟨y1, y2, y3, y4⟩ := hb
  unfold checkBoundingBox
  simp only []
  rw [if_neg (show ¬ (p.2 < b'.minlat ∨ p.2 > b'.maxlat) by rintro (h | h) <;> linarith),
    if_neg (show ¬ (p.1 < b'.minlon ∨ p.1 > b'.maxlon) by rintro (h | h) <;> linarith)]

/-- **C261**: the two tests say "inside" exactly for the points in the box, borders included. -/
theorem C261_tests (lon lat : ℝ) (b : Box) :
    (checkBoundingBox lon lat b = true ↔ InBox lon lat b) ∧
    (pointInRectangle lon lat b.minlon b.maxlat b.maxlon b.minlat = true ↔ InBox lon lat b) := by
  constructor
  · unfold checkBoundingBox InBox
    simp only []
    by_cases h1 : lat < b.minlat ∨ lat > b.maxlat
    · rw [if_pos h1]
      refine ⟨fun h => by simp at h, ?_⟩
      rintro ⟨_, _, h3, h4⟩
      rcases h1 with h | h <;> linarith
    · rw [if_neg h1]
      by_cases h2 : lon < b.minlon ∨ lon > b.maxlon
      · rw [if_pos h2]
        refine ⟨fun h => by simp at h, ?_⟩
        rintro ⟨h3, h4, _, _⟩
        rcases h2 with h | h <;> linarith
      · rw [if_neg h2]
        push Not at h1 h2
        exact ⟨fun _ => ⟨h2.1, h2.2, h1.1, h1.2⟩, fun _ => rfl⟩
  · unfold pointInRectangle InBox
    simp only [Bool.and_eq_true, decide_eq_true_eq, ge_iff_le]
    tauto

/-- A polygon with three vertices has a box; the middle of it is inside, a point to the west is not. -/
example : ∃ b, getBoundingBox [(-105, 40), (-104, 40), (-104, 41)] 0.02 5 = some b ∧
    ∀ p ∈ [((-105 : ℝ), (40 : ℝ)), (-104, 40), (-104, 41)], InBox p.1 p.2 b := by
  obtain ⟨b, h, _⟩ := C261_box [(-105, 40), (-104, 40), (-104, 41)] 0.02 5 (by simp)
  exact ⟨b, h, fun p hp => (C261_default _ b h p hp).1⟩

/-! ## C262: codes -/

/-- The limits of the grid agree with its shape. -/
def Consistent (g : GridInfo) : Prop :=
  0 < g.dx ∧ 0 < g.dy ∧ g.xmax = g.xmin + g.ncols * g.dx ∧ g.ymax = g.ymin + g.nrows * g.dy

theorem hlr_consistent : Consistent hlrGridInfo := by
  unfold Consistent hlrGridInfo
  norm_num

theorem npInt_eq {x : ℝ} (h : 0 ≤ x) : npInt x = ⌊x⌋ := by unfold npInt; rw [if_pos h]

theorem npIndex_eq {n k : ℕ} (h : k < n) : npIndex n (k : ℤ) = some k := by
  unfold npIndex
  rw [if_pos (by positivity), if_pos (by exact_mod_cast h)]
  simp

theorem codeAt_inside {g : GridInfo} (hg : Consistent g) (code : ℕ → ℕ → ℤ) {x y : ℝ} (h1 : g.xmin < x)
    (h2 : x < g.xmax) (h3 : g.ymin < y) (h4 : y < g.ymax) :
    ∃ r c, r < g.nrows ∧ c < g.ncols ∧ InCell g r c x y ∧ codeAt g code x y = some (toString (code r c)) := by
  obtain ⟨gx, gy, ex, ey⟩ := hg
  have px : 0 ≤ (x - g.xmin) / g.dx := div_nonneg (by linarith) gx.le
  have py : 0 ≤ (g.ymax - y) / g.dy := div_nonneg (by linarith) gy.le
  have qx : (x - g.xmin) / g.dx < g.ncols := by rw [div_lt_iff₀ gx]; linarith
  have qy : (g.ymax - y) / g.dy < g.nrows := by rw [div_lt_iff₀ gy]; linarith
  set u := (x - g.xmin) / g.dx with hu
  set v := (g.ymax - y) / g.dy with hv
  have eu : x = g.xmin + u * g.dx := by rw [hu]; field_simp; ring
  have ev : y = g.ymax - v * g.dy := by rw [hv]; field_simp; ring
  obtain ⟨c, hc⟩ := Int.eq_ofNat_of_zero_le (Int.floor_nonneg.mpr px)
  obtain ⟨r, hr⟩ := Int.eq_ofNat_of_zero_le (Int.floor_nonneg.mpr py)
  have c1 : (c : ℝ) ≤ u := by have := Int.floor_le u; rw [hc] at this; exact_mod_cast this
  have c2 : u < c + 1 := by have := Int.lt_floor_add_one u; rw [hc] at this; exact_mod_cast this
  have r1 : (r : ℝ) ≤ v := by have := Int.floor_le v; rw [hr] at this; exact_mod_cast this
  have r2 : v < r + 1 := by have := Int.lt_floor_add_one v; rw [hr] at this; exact_mod_cast this
  have hcn : c < g.ncols := by exact_mod_cast (lt_of_le_of_lt c1 qx : (c : ℝ) < g.ncols)
  have hrn : r < g.nrows := by exact_mod_cast (lt_of_le_of_lt r1 qy : (r : ℝ) < g.nrows)
  refine ⟨r, c, hrn, hcn, ⟨?_, ?_, ?_, ?_⟩, ?_⟩
  · rw [eu]; nlinarith
  · rw [eu]; nlinarith
  · rw [ev]; nlinarith
  · rw [ev]; nlinarith
  · unfold codeAt
    simp only []
    rw [if_neg (not_not.mpr ⟨⟨h1, h2⟩, ⟨h3, h4⟩⟩), ← hu, ← hv, npInt_eq px, npInt_eq py, hc, hr,
      npIndex_eq hcn, npIndex_eq hrn]

/-- **C262**: for every grid whose limits agree with its shape (the one shipped with the code does, see
`hlr_consistent`), the code of a point that falls inside the grid is the one stored for the cell that contains
it, and no index is ever out of range. -/
theorem C262_inside {g : GridInfo} (hg : Consistent g) (number : String → Option ℝ) (code : ℕ → ℕ → ℤ)
    (lon lat : String) (u v : ℝ) (hu : number lon = some u) (hv : number lat = some v) (n1 : lon ≠ "-9999")
    (n2 : lat ≠ "-9999") (hne : unit u v ≠ -unit (-100) 45) (x y : ℝ) (hxy : Proj.lambert u v (-100) 45 = (x, y))
    (h1 : g.xmin < x) (h2 : x < g.xmax) (h3 : g.ymin < y) (h4 : y < g.ymax) :
    ∃ r c, r < g.nrows ∧ c < g.ncols ∧ InCell g r c x y ∧
      hlrCodeForPoint number g code lon lat = some (toString (code r c)) := by
  obtain ⟨r, c, a1, a2, a3, a4⟩ := codeAt_inside hg code h1 h2 h3 h4
  refine ⟨r, c, a1, a2, a3, ?_⟩
  unfold hlrCodeForPoint
  rw [hu, hv]
  simp only []
  rw [if_neg (by rintro (h | h); exacts [n1 h, n2 h]), if_neg ?_, hxy]
  · exact a4
  intro h0
  apply hne
  have hi : inner ℝ (unit (-100) 45) (unit u v) = (-1 : ℝ) := by
    rw [unit_inner, show (u - (-100)) * (π / 180) = u * (π / 180) - (-100) * (π / 180) by ring]
    linarith
  have h5 : inner ℝ (-unit (-100) 45) (unit u v) = (1 : ℝ) := by rw [inner_neg_left, hi]; norm_num
  have := (inner_eq_one_iff_of_norm_eq_one (by rw [norm_neg]; exact unit_norm _ _) (unit_norm u v)).mp h5
  exact this.symm

/-- **C262**: a coordinate that is not a number, the missing value "-9999" and a point outside the grid all
give the code "0". -/
theorem C262_outside (number : String → Option ℝ) (g : GridInfo) (code : ℕ → ℕ → ℤ) (lon lat : String)
    (h : number lon = none ∨ number lat = none ∨ lon = "-9999" ∨ lat = "-9999" ∨
      ∃ u v, number lon = some u ∧ number lat = some v ∧
        ¬ ((g.xmin < (Proj.lambert u v (-100) 45).1 ∧ (Proj.lambert u v (-100) 45).1 < g.xmax) ∧
          (g.ymin < (Proj.lambert u v (-100) 45).2 ∧ (Proj.lambert u v (-100) 45).2 < g.ymax))) :
    hlrCodeForPoint number g code lon lat = some "0" := by
  unfold hlrCodeForPoint
  rcases hlon : number lon with _ | u
  · rfl
  rcases hlat : number lat with _ | v
  · rfl
  simp only []
  by_cases h9 : lon = "-9999" ∨ lat = "-9999"
  · rw [if_pos h9]
  rw [if_neg h9]
  rcases h with h | h | h | h | ⟨u', v', e1, e2, h⟩
  · rw [hlon] at h; cases h
  · rw [hlat] at h; cases h
  · exact absurd (Or.inl h) h9
  · exact absurd (Or.inr h) h9
  · rw [hlon] at e1; rw [hlat] at e2
    cases e1; cases e2
    split
    · rfl
    · unfold codeAt
      simp only []
      rw [if_pos h]

/-- The origin of the map, 100 degrees west and 45 degrees north, is inside the shipped grid: row 4324,
column 6175. -/
example (number : String → Option ℝ) (code : ℕ → ℕ → ℤ) (hu : number "-100" = some (-100))
    (hv : number "45" = some 45) :
    ∃ r c, InCell hlrGridInfo r c 0 0 ∧
      hlrCodeForPoint number hlrGridInfo code "-100" "45" = some (toString (code r c)) := by
  have hxy : Proj.lambert (-100) 45 (-100) 45 = (0, 0) := by
    unfold Proj.lambert
    simp only [sub_self, sin_zero, cos_zero, mul_zero, mul_one, Prod.mk.injEq, true_and]
    ring
  have hne : unit (-100) 45 ≠ -unit (-100) 45 := by
    intro h
    have h1 := unit_norm (-100) 45
    have : unit (-100) 45 = 0 := by
      have h2 : (2 : ℝ) • unit (-100) 45 = 0 := by
        rw [two_smul]; nth_rewrite 2 [h]; exact add_neg_cancel _
      exact (smul_eq_zero.mp h2).resolve_left (by norm_num)
    rw [this, norm_zero] at h1
    norm_num at h1
  obtain ⟨r, c, _, _, h3, h4⟩ := C262_inside hlr_consistent number code "-100" "45" _ _ hu hv (by decide)
    (by decide) hne 0 0 hxy (by unfold hlrGridInfo; norm_num) (by unfold hlrGridInfo; norm_num)
    (by unfold hlrGridInfo; norm_num) (by unfold hlrGridInfo; norm_num)
  exact ⟨r, c, h3, h4⟩

end Sphere
