import Mathlib.Analysis.SpecialFunctions.Pow.Deriv
import Mathlib.Analysis.SpecialFunctions.Log.Deriv
import Verif.HamiltonModel

/-!
# Properties C215 to C218: differences on quarter cells, ideal profiles, clipping of profiles
-/

set_option autoImplicit false

set_option linter.unusedSectionVars false

namespace Hamilton

/-! ## C215: differences, slopes and the landform operator -/

theorem right_eq (d : Dem) (f : Grid) (i j : ℕ) (hj : j < d.nx) :
    right d f i j = if j + 1 < d.nx then f i (j + 1) else none := by
  unfold right
  by_cases h : j + 1 < d.nx
  · rw [if_pos h, if_neg (by omega), Nat.mod_eq_of_lt h]
  · rw [if_neg h, if_pos (by omega)]

theorem left_eq (d : Dem) (f : Grid) (i j : ℕ) (hj : j < d.nx) :
    left d f i j = if 1 ≤ j then f i (j - 1) else none := by
  unfold left
  by_cases h : 1 ≤ j
  · rw [if_pos h, if_neg (by omega), show j + d.nx - 1 = (j - 1) + d.nx by omega,
      Nat.add_mod_right, Nat.mod_eq_of_lt (by omega)]
  · rw [if_neg h, if_pos (by omega)]

theorem top_eq (d : Dem) (f : Grid) (i j : ℕ) (hi : i < d.ny) :
    top d f i j = if 1 ≤ i then f (i - 1) j else none := by
  unfold top
  by_cases h : 1 ≤ i
  · rw [if_pos h, if_neg (by omega), show i + d.ny - 1 = (i - 1) + d.ny by omega,
      Nat.add_mod_right, Nat.mod_eq_of_lt (by omega)]
  · rw [if_neg h, if_pos (by omega)]

theorem bottom_eq (d : Dem) (f : Grid) (i j : ℕ) (hi : i < d.ny) :
    bottom d f i j = if i + 1 < d.ny then f (i + 1) j else none := by
  unfold bottom
  by_cases h : i + 1 < d.ny
  · rw [if_pos h, if_neg (by omega), Nat.mod_eq_of_lt h]
  · rw [if_neg h, if_pos (by omega)]

theorem lift2_eq_some (f : ℝ → ℝ → ℝ) (a b : Option ℝ) (v : ℝ) :
    lift2 f a b = some v ↔ ∃ x y, a = some x ∧ b = some y ∧ v = f x y := by
  cases a <;> cases b <;> simp [lift2, eq_comm]

/-- The neighbour that the x-difference of a quarter looks at: one column to the right or left. -/
def nbX : Quarter → ℕ → ℕ → ℕ → Prop
  | .RT, _, j, j' => j' = j + 1
  | .RB, _, j, j' => j' = j + 1
  | .LT, _, j, j' => j = j' + 1
  | .LB, _, j, j' => j = j' + 1

/-- The neighbour that the y-difference of a quarter looks at: one row up or down. -/
def nbY : Quarter → ℕ → ℕ → ℕ → Prop
  | .RT, i, _, i' => i = i' + 1
  | .RB, i, _, i' => i' = i + 1
  | .LT, i, _, i' => i = i' + 1
  | .LB, i, _, i' => i' = i + 1

/-- Each x-difference is the slope of the chord to the neighbour in its direction, and it is a number
exactly when both cells hold numbers and the neighbour exists. -/
theorem C215_dx (d : Dem) (q : Quarter) (f : Grid) (i j : ℕ) (hj : j < d.nx) (v : ℝ) :
    q.dx d f i j = some v ↔ ∃ j' a b, nbX q i j j' ∧ j' < d.nx ∧ f i j = some a ∧
      f i j' = some b ∧ v = (b - a) / (((j' : ℝ) - (j : ℝ)) * d.dx) := by
  cases q
  case RT | RB =>
    simp only [Quarter.dx, dxR, lift2_eq_some, right_eq d f i j hj, nbX]
    constructor
    · rintro ⟨b, a, h1, h2, rfl⟩
      by_cases h : j + 1 < d.nx
      · rw [if_pos h] at h1
        exact ⟨j + 1, a, b, rfl, h, h2, h1, by push_cast; ring⟩
      · rw [if_neg h] at h1; cases h1
    · rintro ⟨j', a, b, rfl, h, h1, h2, rfl⟩
      exact ⟨b, a, by rw [if_pos h, h2], h1, by push_cast; ring⟩
  case LT | LB =>
    simp only [Quarter.dx, dxL, lift2_eq_some, left_eq d f i j hj, nbX]
    constructor
    · rintro ⟨b, a, h1, h2, rfl⟩
      by_cases h : 1 ≤ j
      · rw [if_pos h] at h1
        refine ⟨j - 1, a, b, by omega, by omega, h2, h1, ?_⟩
        rw [Nat.cast_sub h]
        push_cast
        rw [show ((j : ℝ) - 1 - j) * d.dx = -d.dx by ring, div_neg]
        ring
      · rw [if_neg h] at h1; cases h1
    · rintro ⟨j', a, b, rfl, h, h1, h2, rfl⟩
      refine ⟨b, a, by rw [if_pos (by omega)]; simpa using h2, h1, ?_⟩
      push_cast
      rw [show ((j' : ℝ) - (j' + 1)) * d.dx = -d.dx by ring, div_neg]
      ring

/-- Each y-difference is the slope of the chord to the neighbour in its direction, y growing
upwards. -/
theorem C215_dy (d : Dem) (q : Quarter) (f : Grid) (i j : ℕ) (hi : i < d.ny) (v : ℝ) :
    q.dy d f i j = some v ↔ ∃ i' a b, nbY q i j i' ∧ i' < d.ny ∧ f i j = some a ∧
      f i' j = some b ∧ v = (b - a) / (((i : ℝ) - (i' : ℝ)) * d.dy) := by
  cases q
  case RB | LB =>
    simp only [Quarter.dy, dyB, lift2_eq_some, bottom_eq d f i j hi, nbY]
    constructor
    · rintro ⟨b, a, h1, h2, rfl⟩
      by_cases h : i + 1 < d.ny
      · rw [if_pos h] at h1
        refine ⟨i + 1, a, b, rfl, h, h2, h1, ?_⟩
        push_cast
        rw [show ((i : ℝ) - (i + 1)) * d.dy = -d.dy by ring, div_neg]
        ring
      · rw [if_neg h] at h1; cases h1
    · rintro ⟨i', a, b, rfl, h, h1, h2, rfl⟩
      refine ⟨b, a, by rw [if_pos h, h2], h1, ?_⟩
      push_cast
      rw [show ((i : ℝ) - (i + 1)) * d.dy = -d.dy by ring, div_neg]
      ring
  case RT | LT =>
    simp only [Quarter.dy, dyT, lift2_eq_some, top_eq d f i j hi, nbY]
    constructor
    · rintro ⟨b, a, h1, h2, rfl⟩
      by_cases h : 1 ≤ i
      · rw [if_pos h] at h1
        refine ⟨i - 1, a, b, by omega, by omega, h2, h1, ?_⟩
        rw [Nat.cast_sub h]
        push_cast
        rw [show ((i : ℝ) - (i - 1)) * d.dy = d.dy by ring]
      · rw [if_neg h] at h1; cases h1
    · rintro ⟨i', a, b, rfl, h, h1, h2, rfl⟩
      refine ⟨b, a, by rw [if_pos (by omega)]; simpa using h2, h1, ?_⟩
      push_cast
      rw [show ((i' : ℝ) + 1 - i') * d.dy = d.dy by ring]

/-- The cells with `n` neighbours in the two directions of a quarter. -/
def inside (d : Dem) : Quarter → ℕ → ℕ → ℕ → Prop
  | .RT, n, i, j => j + n < d.nx ∧ n ≤ i
  | .RB, n, i, j => j + n < d.nx ∧ i + n < d.ny
  | .LT, n, i, j => n ≤ j ∧ n ≤ i
  | .LB, n, i, j => n ≤ j ∧ i + n < d.ny

instance (d : Dem) (q : Quarter) (n i j : ℕ) : Decidable (inside d q n i j) := by
  cases q <;> unfold inside <;> infer_instance

/-- The DEM of a plane that rises by `a` per unit to the east and by `b` per unit to the north. -/
def IsPlane (d : Dem) (a b c : ℝ) : Prop :=
  ∀ i j, i < d.ny → j < d.nx → d.z i j = some (c + a * ((j : ℝ) * d.dx) - b * ((i : ℝ) * d.dy))

theorem eq_none_of (o : Option ℝ) (h : ∀ v, o ≠ some v) : o = none := by
  cases o with
  | none => rfl
  | some v => exact absurd rfl (h v)

theorem plane_dx (d : Dem) (a b c : ℝ) (hp : IsPlane d a b c) (hdx : d.dx ≠ 0) (q : Quarter)
    (i j : ℕ) (hi : i < d.ny) (hj : j < d.nx) (hin : inside d q 1 i j) :
    q.dx d d.z i j = some a := by
  rw [C215_dx d q d.z i j hj]
  have key : ∀ j' : ℕ, (j' : ℝ) - (j : ℝ) ≠ 0 → j' < d.nx → nbX q i j j' →
      ∃ j' x y, nbX q i j j' ∧ j' < d.nx ∧ d.z i j = some x ∧ d.z i j' = some y ∧
        a = (y - x) / (((j' : ℝ) - (j : ℝ)) * d.dx) := by
    intro j' h1 h2 h3
    refine ⟨j', _, _, h3, h2, hp i j hi hj, hp i j' hi h2, ?_⟩
    field_simp
    ring
  cases q
  case RT | RB =>
    exact key (j + 1) (by push_cast; simp) hin.1 rfl
  case LT | LB =>
    have h1 : 1 ≤ j := hin.1
    refine key (j - 1) ?_ (by omega) (by unfold nbX; dsimp only; omega)
    rw [Nat.cast_sub h1]
    simp

theorem plane_dy (d : Dem) (a b c : ℝ) (hp : IsPlane d a b c) (hdy : d.dy ≠ 0) (q : Quarter)
    (i j : ℕ) (hi : i < d.ny) (hj : j < d.nx) (hin : inside d q 1 i j) :
    q.dy d d.z i j = some b := by
  rw [C215_dy d q d.z i j hi]
  have key : ∀ i' : ℕ, (i : ℝ) - (i' : ℝ) ≠ 0 → i' < d.ny → nbY q i j i' →
      ∃ i' x y, nbY q i j i' ∧ i' < d.ny ∧ d.z i j = some x ∧ d.z i' j = some y ∧
        b = (y - x) / (((i : ℝ) - (i' : ℝ)) * d.dy) := by
    intro i' h1 h2 h3
    refine ⟨i', _, _, h3, h2, hp i j hi hj, hp i' j h2 hj, ?_⟩
    field_simp
    ring
  cases q
  case RB | LB =>
    exact key (i + 1) (by push_cast; simp) hin.2 rfl
  case RT | LT =>
    have h1 : 1 ≤ i := hin.2
    refine key (i - 1) ?_ (by omega) (by unfold nbY; dsimp only; omega)
    rw [Nat.cast_sub h1]
    simp

/-- On the border of its two directions a quarter has no slope at all. -/
theorem outside_slope (d : Dem) (q : Quarter) (i j : ℕ) (hi : i < d.ny) (hj : j < d.nx)
    (hin : ¬ inside d q 1 i j) : slope d q i j = none := by
  have h2 : q.dx d d.z i j = none ∨ q.dy d d.z i j = none := by
    by_cases hc : ∃ v, q.dx d d.z i j = some v
    · right
      obtain ⟨v, hv⟩ := hc
      rw [C215_dx d q d.z i j hj] at hv
      obtain ⟨j', x, y, hn, hj', -⟩ := hv
      refine eq_none_of _ fun w hw => ?_
      rw [C215_dy d q d.z i j hi] at hw
      obtain ⟨i', x', y', hn', hi', -⟩ := hw
      apply hin
      cases q <;> unfold nbX at hn <;> unfold nbY at hn' <;> unfold inside <;> dsimp only at * <;>
        omega
    · left
      exact eq_none_of _ fun v hv => hc ⟨v, hv⟩
  unfold slope
  rcases h2 with h | h
  · rw [h]; rfl
  · rw [h]
    cases q.dx d d.z i j <;> rfl

/-- The slope of a plane in every quarter of every cell: the length of its gradient, nan on the
border or when the plane is level. -/
theorem C215_plane_slope (d : Dem) (a b c : ℝ) (hp : IsPlane d a b c) (hdx : d.dx ≠ 0)
    (hdy : d.dy ≠ 0) (q : Quarter) (i j : ℕ) (hi : i < d.ny) (hj : j < d.nx) :
    slope d q i j =
      if inside d q 1 i j ∧ ¬ (a = 0 ∧ b = 0) then some (Real.sqrt (a ^ 2 + b ^ 2)) else none := by
  by_cases hin : inside d q 1 i j
  · unfold slope
    rw [plane_dx d a b c hp hdx q i j hi hj hin, plane_dy d a b c hp hdy q i j hi hj hin]
    simp only [lift2]
    have e : Real.sqrt (a ^ 2 + b ^ 2) = 0 ↔ a = 0 ∧ b = 0 := by
      rw [Real.sqrt_eq_zero (by positivity)]
      constructor
      · intro h
        constructor <;> nlinarith [sq_nonneg a, sq_nonneg b]
      · rintro ⟨rfl, rfl⟩; norm_num
    by_cases h0 : a = 0 ∧ b = 0
    · rw [if_pos (e.mpr h0), if_neg (by tauto)]
    · rw [if_neg (fun h => h0 (e.mp h)), if_pos ⟨hin, h0⟩]
  · rw [if_neg (by tauto), outside_slope d q i j hi hj hin]

/-- On a plane that is not level the landform operator is zero in every quarter that has two
neighbours in its directions, for every exponent, and nan in the others. -/
theorem C215_plane_operator (d : Dem) (a b c : ℝ) (hp : IsPlane d a b c) (hdx : d.dx ≠ 0)
    (hdy : d.dy ≠ 0) (hn : ¬ (a = 0 ∧ b = 0)) (gamma : ℝ) (q : Quarter) (i j : ℕ)
    (hi : i < d.ny) (hj : j < d.nx) :
    div d gamma q i j = if inside d q 2 i j then some 0 else none := by
  set S := Real.sqrt (a ^ 2 + b ^ 2) with hS
  have h1 : ∀ i j, i < d.ny → j < d.nx →
      arg1 d gamma q i j = if inside d q 1 i j then some (S ^ (gamma - 1) * a) else none := by
    intro i j hi hj
    unfold arg1
    rw [C215_plane_slope d a b c hp hdx hdy q i j hi hj]
    by_cases h : inside d q 1 i j
    · rw [if_pos ⟨h, hn⟩, if_pos h, plane_dx d a b c hp hdx q i j hi hj h]
      rfl
    · rw [if_neg (by tauto), if_neg h]
      rfl
  have h2 : ∀ i j, i < d.ny → j < d.nx →
      arg2 d gamma q i j = if inside d q 1 i j then some (S ^ (gamma - 1) * b) else none := by
    intro i j hi hj
    unfold arg2
    rw [C215_plane_slope d a b c hp hdx hdy q i j hi hj]
    by_cases h : inside d q 1 i j
    · rw [if_pos ⟨h, hn⟩, if_pos h, plane_dy d a b c hp hdy q i j hi hj h]
      rfl
    · rw [if_neg (by tauto), if_neg h]
      rfl
  by_cases hin : inside d q 2 i j
  · rw [if_pos hin]
    unfold div
    rw [lift2_eq_some]
    refine ⟨0, 0, ?_, ?_, by norm_num⟩
    · rw [C215_dx d q _ i j hj]
      have key : ∀ j', nbX q i j j' → j' < d.nx → inside d q 1 i j → inside d q 1 i j' →
          ∃ j' x y, nbX q i j j' ∧ j' < d.nx ∧ arg1 d gamma q i j = some x ∧
            arg1 d gamma q i j' = some y ∧ (0 : ℝ) = (y - x) / (((j' : ℝ) - (j : ℝ)) * d.dx) := by
        intro j' e1 e2 e3 e4
        refine ⟨j', _, _, e1, e2, by rw [h1 i j hi hj, if_pos e3], by rw [h1 i j' hi e2, if_pos e4],
          by simp⟩
      cases q
      case RT | RB =>
        obtain ⟨k1, k2⟩ := hin
        exact key (j + 1) rfl (by omega) ⟨by omega, by omega⟩ ⟨by omega, by omega⟩
      case LT | LB =>
        obtain ⟨k1, k2⟩ := hin
        exact key (j - 1) (by unfold nbX; dsimp only; omega) (by omega) ⟨by omega, by omega⟩
          ⟨by omega, by omega⟩
    · rw [C215_dy d q _ i j hi]
      have key : ∀ i', nbY q i j i' → i' < d.ny → inside d q 1 i j → inside d q 1 i' j →
          ∃ i' x y, nbY q i j i' ∧ i' < d.ny ∧ arg2 d gamma q i j = some x ∧
            arg2 d gamma q i' j = some y ∧ (0 : ℝ) = (y - x) / (((i : ℝ) - (i' : ℝ)) * d.dy) := by
        intro i' e1 e2 e3 e4
        refine ⟨i', _, _, e1, e2, by rw [h2 i j hi hj, if_pos e3], by rw [h2 i' j e2 hj, if_pos e4],
          by simp⟩
      cases q
      case RB | LB =>
        obtain ⟨k1, k2⟩ := hin
        exact key (i + 1) rfl (by omega) ⟨by omega, by omega⟩ ⟨by omega, by omega⟩
      case RT | LT =>
        obtain ⟨k1, k2⟩ := hin
        exact key (i - 1) (by unfold nbY; dsimp only; omega) (by omega) ⟨by omega, by omega⟩
          ⟨by omega, by omega⟩
  · rw [if_neg hin]
    refine eq_none_of _ fun v hv => ?_
    unfold div at hv
    rw [lift2_eq_some] at hv
    obtain ⟨x, y, hx, hy, -⟩ := hv
    rw [C215_dx d q _ i j hj] at hx
    rw [C215_dy d q _ i j hi] at hy
    obtain ⟨j', u, u', n1, n2, n3, n4, -⟩ := hx
    obtain ⟨i', w, w', m1, m2, m3, m4, -⟩ := hy
    rw [h1 i j' hi n2] at n4
    rw [h2 i' j m2 hj] at m4
    have i1 : inside d q 1 i j' := by
      by_contra hc
      rw [if_neg hc] at n4
      cases n4
    have i2 : inside d q 1 i' j := by
      by_contra hc
      rw [if_neg hc] at m4
      cases m4
    apply hin
    cases q <;> unfold nbX at n1 <;> unfold nbY at m1 <;> unfold inside at * <;> dsimp only at * <;>
      omega

/-- A surface that falls or rises along x only, like a ridge: plan curvature zero, profile curvature
the negative second difference. -/
theorem C215_ridge (d : Dem) (g : ℕ → ℝ) (hz : ∀ i j, i < d.ny → j < d.nx → d.z i j = some (g j))
    (hdx : d.dx ≠ 0) (i j : ℕ) (hi : i < d.ny) (hj : j + 2 < d.nx) (hi2 : 2 ≤ i)
    (hg : g (j + 1) ≠ g j) :
    kappaC d i j = some 0 ∧
      kappaP d i j = some (-((g (j + 2) - 2 * g (j + 1) + g j) / d.dx ^ 2)) := by
  have hx : ∀ i' j', i' < d.ny → j' + 1 < d.nx →
      dxR d d.z i' j' = some ((g (j' + 1) - g j') / d.dx) := by
    intro i' j' h1 h2
    unfold dxR
    rw [right_eq d _ _ _ (by omega), if_pos h2, hz i' _ h1 h2, hz i' j' h1 (by omega)]
    rfl
  have hy : ∀ i' j', 1 ≤ i' → i' < d.ny → j' < d.nx → dyT d d.z i' j' = some 0 := by
    intro i' j' h0 h1 h2
    unfold dyT
    rw [top_eq d _ _ _ h1, if_pos h0, hz _ _ (by omega) h2, hz _ _ h1 h2]
    simp [lift2]
  have hxx : dxR d (dxR d d.z) i j = some ((g (j + 2) - 2 * g (j + 1) + g j) / d.dx ^ 2) := by
    rw [dxR, right_eq d _ _ _ (by omega), if_pos (by omega), hx i (j + 1) hi (by omega),
      hx i j hi (by omega)]
    simp only [lift2, Option.some.injEq]
    field_simp
    ring
  have hxy : dyT d (dxR d d.z) i j = some 0 := by
    rw [dyT, top_eq d _ _ _ hi, if_pos (by omega), hx (i - 1) j (by omega) (by omega),
      hx i j hi (by omega)]
    simp [lift2]
  have hyy : dyT d (dyT d d.z) i j = some 0 := by
    rw [dyT, top_eq d _ _ _ hi, if_pos (by omega), hy (i - 1) j (by omega) (by omega) (by omega),
      hy i j (by omega) hi (by omega)]
    simp [lift2]
  have hne : (g (j + 1) - g j) / d.dx ≠ 0 := div_ne_zero (sub_ne_zero.mpr hg) hdx
  have hs : slope d .RT i j = some |(g (j + 1) - g j) / d.dx| := by
    unfold slope
    simp only [Quarter.dx, Quarter.dy]
    rw [hx i j hi (by omega), hy i j (by omega) hi (by omega)]
    simp only [lift2]
    rw [show ((0 : ℝ)) ^ 2 = 0 by norm_num, add_zero, Real.sqrt_sq_eq_abs,
      if_neg (abs_ne_zero.mpr hne)]
  set p := (g (j + 1) - g j) / d.dx with hp
  set w := (g (j + 2) - 2 * g (j + 1) + g j) / d.dx ^ 2 with hw
  constructor
  · unfold kappaC curvature
    dsimp only
    rw [hx i j hi (by omega), hy i j (by omega) hi (by omega), hxx, hxy, hyy, hs]
    simp
  · unfold kappaP curvature
    dsimp only
    rw [hx i j hi (by omega), hy i j (by omega) hi (by omega), hxx, hxy, hyy, hs]
    simp only [← hp, sq_abs, Option.some.injEq]
    field_simp
    ring

/-- With the exponent 1 the landform operator is the Laplacian: the sum of the second differences along x and
along y, on the side of the quarter. -/
theorem C215_laplacian (d : Dem) (f : ℕ → ℕ → ℝ) (hz : ∀ i j, i < d.ny → j < d.nx → d.z i j = some (f i j))
    (q : Quarter) (i i1 i2 j j1 j2 : ℕ) (hi : i < d.ny) (hj : j < d.nx) (hi1 : i1 < d.ny) (hj1 : j1 < d.nx)
    (hi2 : i2 < d.ny) (hj2 : j2 < d.nx) (x1 : nbX q i j j1) (x2 : nbX q i j1 j2) (y1 : nbY q i j i1) (y2 : nbY q i1 j i2)
    (hs : slope d q i j ≠ none) (hsx : slope d q i j1 ≠ none) (hsy : slope d q i1 j ≠ none) :
    div d 1 q i j = some ((f i j2 - 2 * f i j1 + f i j) / d.dx ^ 2 + (f i2 j - 2 * f i1 j + f i j) / d.dy ^ 2) := by
  have ex : ∀ a b c, a < d.ny → b < d.nx → c < d.nx → nbX q a b c → slope d q a b ≠ none →
      arg1 d 1 q a b = some ((f a c - f a b) / (((c : ℝ) - b) * d.dx)) := by
    intro a b c ha hb hc hn hsl
    obtain ⟨s, hs⟩ := Option.ne_none_iff_exists'.mp hsl
    have hdx : q.dx d d.z a b = some ((f a c - f a b) / (((c : ℝ) - b) * d.dx)) := by
      rw [C215_dx d q _ a b hb]
      exact ⟨c, _, _, hn, hc, hz a b ha hb, hz a c ha hc, rfl⟩
    unfold arg1
    rw [hs, hdx]
    simp [lift2]
  have ey : ∀ a b c, a < d.ny → b < d.nx → c < d.ny → nbY q a b c → slope d q a b ≠ none →
      arg2 d 1 q a b = some ((f c b - f a b) / (((a : ℝ) - c) * d.dy)) := by
    intro a b c ha hb hc hn hsl
    obtain ⟨s, hs⟩ := Option.ne_none_iff_exists'.mp hsl
    have hdy : q.dy d d.z a b = some ((f c b - f a b) / (((a : ℝ) - c) * d.dy)) := by
      rw [C215_dy d q _ a b ha]
      exact ⟨c, _, _, hn, hc, hz a b ha hb, hz c b hc hb, rfl⟩
    unfold arg2
    rw [hs, hdy]
    simp [lift2]
  unfold div
  rw [lift2_eq_some]
  refine ⟨(f i j2 - 2 * f i j1 + f i j) / d.dx ^ 2, (f i2 j - 2 * f i1 j + f i j) / d.dy ^ 2, ?_, ?_, rfl⟩
  · rw [C215_dx d q _ i j hj]
    refine ⟨j1, _, _, x1, hj1, ex i j j1 hi hj hj1 x1 hs, ex i j1 j2 hi hj1 hj2 x2 hsx, ?_⟩
    have hd : ((j1 : ℝ) - j = 1 ∧ (j2 : ℝ) - j1 = 1) ∨ ((j1 : ℝ) - j = -1 ∧ (j2 : ℝ) - j1 = -1) := by
      cases q <;> unfold nbX at x1 x2 <;> dsimp only at x1 x2
      case RT | RB => left; subst x2; subst x1; push_cast; constructor <;> ring
      case LT | LB => right; subst x1; subst x2; push_cast; constructor <;> ring
    rcases hd with ⟨e1, e2⟩ | ⟨e1, e2⟩ <;> rw [e1, e2]
    · by_cases h0 : d.dx = 0
      · rw [h0]; simp
      · field_simp; ring
    · by_cases h0 : d.dx = 0
      · rw [h0]; simp
      · field_simp; ring
  · rw [C215_dy d q _ i j hi]
    refine ⟨i1, _, _, y1, hi1, ey i j i1 hi hj hi1 y1 hs, ey i1 j i2 hi1 hj hi2 y2 hsy, ?_⟩
    have hd : ((i : ℝ) - i1 = 1 ∧ (i1 : ℝ) - i2 = 1) ∨ ((i : ℝ) - i1 = -1 ∧ (i1 : ℝ) - i2 = -1) := by
      cases q <;> unfold nbY at y1 y2 <;> dsimp only at y1 y2
      case RT | LT => left; subst y1; subst y2; push_cast; constructor <;> ring
      case RB | LB => right; subst y2; subst y1; push_cast; constructor <;> ring
    rcases hd with ⟨e1, e2⟩ | ⟨e1, e2⟩ <;> rw [e1, e2]
    · by_cases h0 : d.dy = 0
      · rw [h0]; simp
      · field_simp; ring
    · by_cases h0 : d.dy = 0
      · rw [h0]; simp
      · field_simp; ring

/-- A surface `a + b x + c y + e x y`, with `x` to the right and `y` up. -/
def IsSaddle (d : Dem) (a b c e : ℝ) : Prop :=
  ∀ i j, i < d.ny → j < d.nx → d.z i j =
    some (a + b * ((j : ℝ) * d.dx) + c * (-((i : ℝ) * d.dy)) + e * ((j : ℝ) * d.dx) * (-((i : ℝ) * d.dy)))

/-- On such a surface both curvatures are those of the surface itself, with its partial derivatives
`p = b + e y` and `q = c + e x` at the cell: plan curvature `2 e p q / s^3` and profile curvature `-2 e p q / s^2`
with `s^2 = p^2 + q^2`. -/
theorem C215_saddle (d : Dem) (a b c e : ℝ) (hz : IsSaddle d a b c e) (hdx : d.dx ≠ 0) (hdy : d.dy ≠ 0) (i j : ℕ)
    (hi : i < d.ny) (hj : j + 2 < d.nx) (hi2 : 2 ≤ i) (p q : ℝ) (hp : p = b + e * (-((i : ℝ) * d.dy)))
    (hq : q = c + e * ((j : ℝ) * d.dx)) (hne : ¬ (p = 0 ∧ q = 0)) :
    kappaC d i j = some (2 * e * p * q / Real.sqrt (p ^ 2 + q ^ 2) ^ 3) ∧
      kappaP d i j = some (-(2 * e * p * q) / (p ^ 2 + q ^ 2)) := by
  have hx : ∀ i' j', i' < d.ny → j' + 1 < d.nx → dxR d d.z i' j' = some (b + e * (-((i' : ℝ) * d.dy))) := by
    intro i' j' h1 h2
    unfold dxR
    rw [right_eq d _ _ _ (by omega), if_pos h2, hz i' _ h1 h2, hz i' j' h1 (by omega)]
    simp only [lift2, Option.some.injEq]
    push_cast
    field_simp
    ring
  have hy : ∀ i' j', 1 ≤ i' → i' < d.ny → j' < d.nx → dyT d d.z i' j' = some (c + e * ((j' : ℝ) * d.dx)) := by
    intro i' j' h0 h1 h2
    unfold dyT
    rw [top_eq d _ _ _ h1, if_pos h0, hz _ _ (by omega) h2, hz _ _ h1 h2]
    simp only [lift2, Option.some.injEq]
    rw [Nat.cast_sub h0]
    push_cast
    field_simp
    ring
  have hxx : dxR d (dxR d d.z) i j = some 0 := by
    rw [dxR, right_eq d _ _ _ (by omega), if_pos (by omega), hx i (j + 1) hi (by omega), hx i j hi (by omega)]
    simp [lift2]
  have hxy : dyT d (dxR d d.z) i j = some e := by
    rw [dyT, top_eq d _ _ _ hi, if_pos (by omega), hx (i - 1) j (by omega) (by omega), hx i j hi (by omega)]
    simp only [lift2, Option.some.injEq]
    rw [Nat.cast_sub (by omega)]
    push_cast
    field_simp
    ring
  have hyy : dyT d (dyT d d.z) i j = some 0 := by
    rw [dyT, top_eq d _ _ _ hi, if_pos (by omega), hy (i - 1) j (by omega) (by omega) (by omega),
      hy i j (by omega) hi (by omega)]
    simp [lift2]
  have hpos : 0 < p ^ 2 + q ^ 2 := by
    rcases not_and_or.mp hne with h | h
    · have := sq_nonneg q; have : 0 < p ^ 2 := by positivity
      linarith
    · have := sq_nonneg p; have : 0 < q ^ 2 := by positivity
      linarith
  have hs : slope d .RT i j = some (Real.sqrt (p ^ 2 + q ^ 2)) := by
    unfold slope
    simp only [Quarter.dx, Quarter.dy]
    rw [hx i j hi (by omega), hy i j (by omega) hi (by omega), ← hp, ← hq]
    simp only [lift2]
    rw [if_neg (Real.sqrt_ne_zero'.mpr hpos)]
  constructor
  · unfold kappaC curvature
    dsimp only
    rw [hx i j hi (by omega), hy i j (by omega) hi (by omega), hxx, hxy, hyy, hs, ← hp, ← hq]
    simp only [Option.some.injEq]
    ring
  · unfold kappaP curvature
    dsimp only
    rw [hx i j hi (by omega), hy i j (by omega) hi (by omega), hxx, hxy, hyy, hs, ← hp, ← hq]
    simp only [Option.some.injEq]
    rw [Real.sq_sqrt hpos.le]
    ring

/-- A plane of 3 by 4 cells that meets the hypotheses. -/
example : div ⟨3, 4, 2, 5, fun i j => some (1 + 3 * ((j : ℝ) * 2) - 7 * ((i : ℝ) * 5))⟩ (-0.7) .RT 2 1 =
    some 0 := by
  rw [C215_plane_operator _ 3 7 1 (fun _ _ _ _ => rfl) (by norm_num) (by norm_num) (by norm_num) _ _
    _ _ (by norm_num) (by norm_num)]
  rw [if_pos]
  unfold inside
  norm_num

/-- The saddle `x y` with unit cells: at row 2 and column 1, `p = -2` and `q = 1`. -/
noncomputable def saddle : Dem := ⟨3, 4, 1, 1, fun i j => some ((j : ℝ) * (-(i : ℝ)))⟩

example : kappaP saddle 2 1 = some (4 / 5) := by
  have h := (C215_saddle saddle 0 0 0 1 (by intro i j _ _; simp [saddle]) (by simp [saddle])
    (by simp [saddle]) 2 1 (by simp [saddle]) (by simp [saddle]) (by norm_num) (-2) 1
    (by simp [saddle]) (by simp [saddle]) (by norm_num)).2
  rw [h]
  norm_num

/-- A surface `x^2 + y^2` with unit cells, away from its lowest point: the operator is 4. -/
noncomputable def bowl : Dem :=
  ⟨3, 4, 1, 1, fun i j => some (((j : ℝ) + 1) ^ 2 + ((i : ℝ) + 1) ^ 2)⟩

example : div bowl 1 .RT 2 0 = some 4 := by
  have hx : ∀ i j : ℕ, i < 3 → j + 1 < 4 → dxR bowl bowl.z i j = some (2 * (j : ℝ) + 3) := by
    intro i j _ hj
    unfold dxR
    rw [right_eq bowl _ _ _ (by simp [bowl]; omega), if_pos (by simpa [bowl] using hj)]
    simp only [bowl, lift2, Option.some.injEq]
    push_cast
    ring
  have hy : ∀ i j : ℕ, 1 ≤ i → i < 3 → j < 4 → ∃ v, dyT bowl bowl.z i j = some v := by
    intro i j h0 hi _
    unfold dyT
    rw [top_eq bowl _ _ _ (by simpa [bowl] using hi), if_pos h0]
    exact ⟨_, rfl⟩
  have hs : ∀ i j : ℕ, 1 ≤ i → i < 3 → j + 1 < 4 → slope bowl .RT i j ≠ none := by
    intro i j h0 hi hj
    obtain ⟨v, hv⟩ := hy i j h0 hi (by omega)
    unfold slope
    simp only [Quarter.dx, Quarter.dy]
    rw [hx i j hi hj, hv]
    simp only [lift2]
    rw [if_neg]
    · simp
    · refine Real.sqrt_ne_zero'.mpr ?_
      have : (0 : ℝ) < 2 * (j : ℝ) + 3 := by positivity
      positivity
  have h := C215_laplacian bowl (fun i j => ((j : ℝ) + 1) ^ 2 + ((i : ℝ) + 1) ^ 2) (fun _ _ _ _ => rfl)
    .RT 2 1 0 0 1 2 (by simp [bowl]) (by simp [bowl]) (by simp [bowl]) (by simp [bowl])
    (by simp [bowl]) (by simp [bowl]) (by simp [nbX]) (by simp [nbX]) (by simp [nbY]) (by simp [nbY])
    (hs 2 0 (by norm_num) (by norm_num) (by norm_num)) (hs 2 1 (by norm_num) (by norm_num) (by norm_num))
    (hs 1 0 (by norm_num) (by norm_num) (by norm_num))
  rw [h]
  simp only [bowl, Option.some.injEq]
  norm_num

/-! ## C216: the ideal profile -/

/-- The ideal profile starts at the given point with the given slope. -/
theorem C216_start (p : Start) (gamma Rs : ℝ) (hS : 0 < p.S0) (hg : gamma ≠ 0) :
    profileZ p gamma Rs p.x0 = p.z0 ∧ profileS p gamma Rs p.x0 = p.S0 := by
  constructor
  · unfold profileZ
    by_cases h : gamma ≠ -1
    · rw [if_pos h]
      dsimp only
      rw [sub_self, mul_zero, add_zero, ← Real.rpow_mul hS.le,
        show gamma * ((gamma + 1) / gamma) = gamma + 1 by field_simp, sub_self, zero_div, add_zero]
    · rw [if_neg h]
      simp
  · unfold profileS
    rw [sub_self, mul_zero, add_zero, ← Real.rpow_mul hS.le, mul_one_div_cancel hg, Real.rpow_one]

/-- Everywhere downstream, its slope is the reported slope. -/
theorem C216_slope (p : Start) (gamma Rs x : ℝ) (hS : 0 < p.S0) (hg : gamma ≠ 0) (hR : Rs ≠ 0)
    (hu : 0 < p.S0 ^ gamma + Rs * (x - p.x0)) :
    HasDerivAt (fun t => profileZ p gamma Rs t) (-(profileS p gamma Rs x)) x := by
  have hlin : HasDerivAt (fun t => p.S0 ^ gamma + Rs * (t - p.x0)) Rs x := by
    have := (((hasDerivAt_id x).sub_const p.x0).const_mul Rs).const_add (p.S0 ^ gamma)
    simpa using this
  by_cases h : gamma ≠ -1
  · have hg1 : gamma + 1 ≠ 0 := fun e => h (by linarith)
    have h1 := hlin.rpow_const (p := (gamma + 1) / gamma) (Or.inl hu.ne')
    have h2 := (((h1.const_sub (p.S0 ^ (gamma + 1))).div_const ((gamma + 1) / gamma * Rs)).const_add
      p.z0)
    have e1 : (gamma + 1) / gamma - 1 = 1 / gamma := by field_simp; ring
    unfold profileZ profileS
    simp only [if_pos h]
    refine h2.congr_deriv ?_
    rw [e1]
    field_simp
  · have hg' : gamma = -1 := not_not.mp h
    subst hg'
    have e0 : p.S0 ^ (-1 : ℝ) = p.S0⁻¹ := Real.rpow_neg_one _
    have e2 : 1 + p.S0 * Rs * (x - p.x0) = p.S0 * (p.S0 ^ (-1 : ℝ) + Rs * (x - p.x0)) := by
      rw [e0]
      field_simp
    have hpos : 0 < 1 + p.S0 * Rs * (x - p.x0) := by rw [e2]; exact mul_pos hS hu
    have hl2 : HasDerivAt (fun t => 1 + p.S0 * Rs * (t - p.x0)) (p.S0 * Rs) x := by
      have := (((hasDerivAt_id x).sub_const p.x0).const_mul (p.S0 * Rs)).const_add 1
      simpa using this
    have h3 := ((hl2.log hpos.ne').const_mul (1 / Rs)).const_sub p.z0
    unfold profileZ profileS
    simp only [ne_eq, not_true_eq_false, if_false]
    refine h3.congr_deriv ?_
    rw [show (1 : ℝ) / -1 = -1 by norm_num, Real.rpow_neg_one, e2]
    field_simp

/-- The reported curvature is the rate of change of the slope. -/
theorem C216_curvature (p : Start) (gamma Rs x : ℝ) (hu : 0 < p.S0 ^ gamma + Rs * (x - p.x0)) :
    HasDerivAt (fun t => profileS p gamma Rs t) (profileK p gamma Rs x) x := by
  have hlin : HasDerivAt (fun t => p.S0 ^ gamma + Rs * (t - p.x0)) Rs x := by
    have := (((hasDerivAt_id x).sub_const p.x0).const_mul Rs).const_add (p.S0 ^ gamma)
    simpa using this
  have h1 := hlin.rpow_const (p := 1 / gamma) (Or.inl hu.ne')
  unfold profileS profileK
  convert h1 using 1
  ring

/-- The law behind it: `S ** gamma`, the discharge per width, grows in proportion to the distance. -/
theorem C216_discharge (p : Start) (gamma Rs x : ℝ) (hg : gamma ≠ 0)
    (hu : 0 < p.S0 ^ gamma + Rs * (x - p.x0)) :
    profileS p gamma Rs x ^ gamma = p.S0 ^ gamma + Rs * (x - p.x0) := by
  unfold profileS
  rw [← Real.rpow_mul hu.le, one_div_mul_cancel hg, Real.rpow_one]

/-- For the exponents in use (negative) and rain, slopes decrease downstream: the profile is concave
up. -/
theorem C216_concave (p : Start) (gamma Rs x : ℝ) (hg : gamma < 0) (hR : 0 < Rs)
    (hu : 0 < p.S0 ^ gamma + Rs * (x - p.x0)) : profileK p gamma Rs x < 0 := by
  unfold profileK
  have h1 : 1 / gamma * Rs < 0 := mul_neg_of_neg_of_pos (one_div_neg.mpr hg) hR
  exact mul_neg_of_neg_of_pos h1 (Real.rpow_pos_of_pos hu _)

/-- The power-law profile starts at the given elevation and has the slope `c * x ** (p - 1)`. -/
theorem C216_power_law (p : Start) (c e x : ℝ) (hx : 0 < x) (he : e ≠ 0) :
    whipple p c e p.x0 = p.z0 ∧
      HasDerivAt (fun t => whipple p c e t) (-(c * x ^ (e - 1))) x := by
  constructor
  · unfold whipple; simp
  · have h1 := ((((Real.hasDerivAt_rpow_const (Or.inl hx.ne') (p := e))).sub_const
      (p.x0 ^ e)).const_mul (c / e)).const_sub p.z0
    unfold whipple
    refine h1.congr_deriv ?_
    field_simp

example : 0 < (Start.mk 0 100 0.5).S0 ^ (-0.701 : ℝ) + 0.0035 * (1000 - (Start.mk 0 100 0.5).x0) := by
  have : (0 : ℝ) < (0.5 : ℝ) ^ (-0.701 : ℝ) := Real.rpow_pos_of_pos (by norm_num) _
  simp only
  linarith

/-! ## C217: the curvature equation -/

/-- Solving the curvature equation for either curvature and back is the identity. -/
theorem C217_inverse (S k gamma Rs : ℝ) (hS : S ≠ 0) (hg : gamma ≠ 0) :
    kpOf S (kcOf S k gamma Rs) gamma Rs = k ∧ kcOf S (kpOf S k gamma Rs) gamma Rs = k := by
  unfold kpOf kcOf
  constructor <;> field_simp <;> ring

/-- On the ideal profile the plan curvature is exactly zero, as the equation demands. -/
theorem C217_ideal (p : Start) (gamma Rs x : ℝ) (hg : gamma ≠ 0)
    (hu : 0 < p.S0 ^ gamma + Rs * (x - p.x0)) :
    kcOf (profileS p gamma Rs x) (profileK p gamma Rs x) gamma Rs = 0 ∧
      kpOf (profileS p gamma Rs x) 0 gamma Rs = profileK p gamma Rs x := by
  have h1 := C216_discharge p gamma Rs x hg hu
  have hSpos : 0 < profileS p gamma Rs x := Real.rpow_pos_of_pos hu _
  set u := p.S0 ^ gamma + Rs * (x - p.x0) with hu'
  have hK : profileK p gamma Rs x = 1 / gamma * Rs * (profileS p gamma Rs x / u) := by
    unfold profileK profileS
    rw [← hu', Real.rpow_sub hu, Real.rpow_one]
  have h0 : kcOf (profileS p gamma Rs x) (profileK p gamma Rs x) gamma Rs = 0 := by
    unfold kcOf
    rw [h1, hK]
    field_simp
    ring
  refine ⟨h0, ?_⟩
  have := (C217_inverse (profileS p gamma Rs x) (profileK p gamma Rs x) gamma Rs hSpos.ne' hg).1
  rw [h0] at this
  exact this

/-! ## C218: profiles read from a file -/

section
variable {K : Type} [Field K] [LinearOrder K]

theorem slopes_length (x z : List K) (h : x.length = z.length) : (slopes x z).length = x.length := by
  induction x generalizing z with
  | nil => cases z with
    | nil => rfl
    | cons b zs => simp at h
  | cons a xs ih =>
    cases z with
    | nil => simp at h
    | cons b zs =>
      cases xs with
      | nil =>
        cases zs with
        | nil => rfl
        | cons b' zs => simp at h
      | cons a' xs =>
        cases zs with
        | nil => simp at h
        | cons b' zs =>
          have := ih (b' :: zs) (by simpa using h)
          simp only [slopes, List.length_cons] at this ⊢
          omega

/-- Slopes: down to the next point for all points but the last, which has slope zero. -/
theorem C218_slopes (x z : List K) (h : x.length = z.length) (k : ℕ) :
    (k + 1 < x.length → (slopes x z)[k]? =
      some ((z.getD k 0 - z.getD (k + 1) 0) / (x.getD (k + 1) 0 - x.getD k 0))) ∧
    (k + 1 = x.length → (slopes x z)[k]? = some 0) := by
  induction x generalizing z k with
  | nil => simp
  | cons a xs ih =>
    cases z with
    | nil => simp at h
    | cons b zs =>
      cases xs with
      | nil =>
        cases zs with
        | nil =>
          constructor
          · intro hk; simp at hk
          · intro hk
            simp only [List.length_cons, List.length_nil, zero_add, Nat.add_eq_right] at hk
            subst hk
            rfl
        | cons b' zs => simp at h
      | cons a' xs =>
        cases zs with
        | nil => simp at h
        | cons b' zs =>
          cases k with
          | zero =>
            constructor
            · intro _; rfl
            · intro hk; simp at hk
          | succ k =>
            have := ih (b' :: zs) (by simpa using h) k
            constructor
            · intro hk
              have := this.1 (by simp only [List.length_cons] at hk ⊢; omega)
              simpa [slopes] using this
            · intro hk
              have := this.2 (by simp only [List.length_cons] at hk ⊢; omega)
              simpa [slopes] using this

theorem foldl_max_spec (l : List K) (s : K) :
    s ≤ l.foldl max s ∧ (∀ t ∈ l, t ≤ l.foldl max s) ∧ (l.foldl max s = s ∨ l.foldl max s ∈ l) := by
  induction l generalizing s with
  | nil => simp
  | cons a l ih =>
    obtain ⟨h1, h2, h3⟩ := ih (max s a)
    rw [List.foldl_cons]
    refine ⟨le_trans (le_max_left _ _) h1, ?_, ?_⟩
    · intro t ht
      rcases List.mem_cons.mp ht with rfl | ht
      · exact le_trans (le_max_right _ _) h1
      · exact h2 t ht
    · rcases h3 with h | h
      · rcases max_choice s a with e | e
        · left; rw [h, e]
        · right; rw [h, e]; simp
      · right; exact List.mem_cons_of_mem _ h

theorem getD_lt (l : List K) (n : ℕ) (h : n < l.length) : l.getD n 0 = l[n] := by
  rw [List.getD_eq_getElem?_getD, List.getElem?_eq_getElem h, Option.getD_some]

/-- The points kept after clipping `head` points at the start and `tail` at the end. -/
def kept (l : List K) (head tail : ℕ) : List K := (l.drop head).take (l.length - head - tail)

theorem kept_eq (l : List K) (head tail : ℕ) :
    (if 0 < tail then (l.drop head).take ((l.drop head).length - tail) else l.drop head) =
      kept l head tail := by
  unfold kept
  by_cases h : 0 < tail
  · rw [if_pos h, List.length_drop]
  · have : tail = 0 := by omega
    subst this
    rw [if_neg h, Nat.sub_zero, List.take_of_length_le (by rw [List.length_drop])]

/-- `w` is the first position of the largest value. -/
def FirstMax (S : List K) (w : ℕ) : Prop :=
  ∃ m, S[w]? = some m ∧ (∀ t ∈ S, t ≤ m) ∧ ∀ k < w, ∀ t, S[k]? = some t → t < m

theorem firstMax_findIdx (s : K) (ss : List K) (w : ℕ) :
    FirstMax (s :: ss) w ↔ (s :: ss).findIdx (fun t => t == (s :: ss).foldl max s) = w := by
  obtain ⟨h1, h2, h3⟩ := foldl_max_spec (s :: ss) s
  set M := (s :: ss).foldl max s with hM
  have hmem : M ∈ s :: ss := by
    rcases h3 with h | h
    · rw [h]; simp
    · exact h
  have hex : (s :: ss).findIdx (fun t => t == M) < (s :: ss).length :=
    List.findIdx_lt_length_of_exists ⟨M, hmem, by simp⟩
  have huniq : FirstMax (s :: ss) ((s :: ss).findIdx (fun t => t == M)) := by
    refine ⟨M, ?_, h2, ?_⟩
    · rw [List.getElem?_eq_getElem hex]
      have := List.findIdx_getElem (w := hex)
      congr 1
      exact eq_of_beq this
    · intro k hk t ht
      have hlt : k < (s :: ss).length := lt_trans hk hex
      rw [List.getElem?_eq_getElem hlt] at ht
      have hne := List.not_of_lt_findIdx hk
      have hle := h2 _ (List.getElem_mem hlt)
      rw [Option.some.inj ht] at hle hne
      refine lt_of_le_of_ne hle fun e => ?_
      simp [e] at hne
  constructor
  · rintro ⟨m, g1, g2, g3⟩
    obtain ⟨m', f1, f2, f3⟩ := huniq
    have e : m = m' := le_antisymm (f2 m (List.mem_of_getElem? g1)) (g2 m' (List.mem_of_getElem? f1))
    rcases lt_trichotomy ((s :: ss).findIdx (fun t => t == M)) w with h | h | h
    · have := g3 _ h m' f1
      rw [e] at this
      exact absurd this (lt_irrefl _)
    · exact h
    · have := f3 _ h m g1
      rw [e] at this
      exact absurd this (lt_irrefl _)
  · intro h
    rw [← h]
    exact huniq

/-- What a profile is after reading: the kept points from position `w` on, with their slopes, where
`w` is 0 without hilltop clipping and else the first point of steepest descent; at least two points
must be left.  The slope `S0` at the start is the slope of the first point. -/
theorem C218_read (x z : List K) (hl : x.length = z.length) (head tail : ℕ) (hill : Bool)
    (p : Profile K) :
    readProfile x z head tail hill = .ok p ↔
      ∃ w, w + 2 ≤ (kept x head tail).length ∧
        (if hill then FirstMax (slopes (kept x head tail) (kept z head tail)) w else w = 0) ∧
        p.x = (kept x head tail).drop w ∧ p.z = (kept z head tail).drop w ∧
        p.S = (slopes (kept x head tail) (kept z head tail)).drop w ∧
        p.x.head? = some p.x0 ∧ p.z.head? = some p.z0 ∧ p.S.head? = some p.S0 := by
  have hk : (kept x head tail).length = (kept z head tail).length := by
    unfold kept; simp [hl]
  unfold readProfile
  dsimp only
  rw [kept_eq, kept_eq]
  set X := kept x head tail with hX
  set Z := kept z head tail with hZ
  have hSl := slopes_length X Z hk
  cases hS : slopes X Z with
  | nil =>
    rw [hS] at hSl
    simp only [List.length_nil] at hSl
    simp only [reduceCtorEq, false_iff]
    rintro ⟨w, hw, -⟩
    omega
  | cons s ss =>
    dsimp only
    have hsucc : ∀ w, w + 2 ≤ X.length → ∃ a a' as b b' bs, X.drop w = a :: a' :: as ∧
        Z.drop w = b :: b' :: bs ∧ ((s :: ss).drop w).head? = some ((b - b') / (a' - a)) := by
      intro w hw
      have e1 : X.drop w = X[w] :: X[w + 1] :: X.drop (w + 2) := by
        rw [List.drop_eq_getElem_cons (by omega), List.drop_eq_getElem_cons (by omega)]
      have e2 : Z.drop w = Z[w] :: Z[w + 1] :: Z.drop (w + 2) := by
        rw [List.drop_eq_getElem_cons (by omega), List.drop_eq_getElem_cons (by omega)]
      refine ⟨_, _, _, _, _, _, e1, e2, ?_⟩
      rw [List.head?_drop, ← hS, (C218_slopes X Z hk w).1 (by omega),
        getD_lt _ _ (by omega), getD_lt _ _ (by omega), getD_lt _ _ (by omega),
        getD_lt _ _ (by omega)]
    have hfail : ∀ w, ¬ w + 2 ≤ X.length → ∀ a a' as, X.drop w ≠ a :: a' :: as := by
      intro w hw a a' as e
      have := congrArg List.length e
      simp only [List.length_drop, List.length_cons] at this
      omega
    have main : ∀ w0, cutAt X Z (s :: ss) w0 = .ok p ↔
        w0 + 2 ≤ X.length ∧ p.x = X.drop w0 ∧ p.z = Z.drop w0 ∧ p.S = (s :: ss).drop w0 ∧
          p.x.head? = some p.x0 ∧ p.z.head? = some p.z0 ∧ p.S.head? = some p.S0 := by
      intro w0
      unfold cutAt
      by_cases hw : w0 + 2 ≤ X.length
      · obtain ⟨a, a', as, b, b', bs, e1, e2, e3⟩ := hsucc w0 hw
        rw [e1, e2]
        simp only [Except.ok.injEq]
        constructor
        · rintro rfl
          exact ⟨hw, rfl, rfl, rfl, rfl, rfl, e3⟩
        · rintro ⟨-, h1, h2, h3, h4, h5, h6⟩
          obtain ⟨px, pz, pS, px0, pz0, pS0⟩ := p
          dsimp only at *
          subst h1 h2 h3
          rw [e3] at h6
          simp only [List.head?_cons, Option.some.injEq] at h4 h5 h6
          subst h4 h5 h6
          rfl
      · constructor
        · intro h
          exfalso
          have := hfail w0 hw
          split at h
          · rename_i heq _
            exact this _ _ _ heq
          · cases h
        · rintro ⟨h, -⟩
          exact absurd h hw
    cases hill with
    | false =>
      simp only [Bool.false_eq_true, if_false]
      rw [main 0]
      constructor
      · rintro ⟨h1, h2⟩
        exact ⟨0, h1, rfl, h2⟩
      · rintro ⟨w, h1, rfl, h2⟩
        exact ⟨h1, h2⟩
    | true =>
      simp only [if_true]
      rw [main]
      constructor
      · rintro ⟨h1, h2⟩
        exact ⟨_, h1, (firstMax_findIdx s ss _).mpr rfl, h2⟩
      · rintro ⟨w, h1, hw, h2⟩
        rw [(firstMax_findIdx s ss w).mp hw]
        exact ⟨h1, h2⟩

/-- The drops between neighbours add up to the whole relief. -/
theorem C218_relief (x z : List K) (h : x.length = z.length) (a b : K)
    (hd : (a :: x).IsChain (· ≠ ·)) :
    (List.zipWith (· * ·) (slopes (a :: x) (b :: z)) (List.zipWith (· - ·) x (a :: x))).sum =
      b - (b :: z).getLast (by simp) := by
  induction x generalizing z a b with
  | nil =>
    cases z with
    | nil => simp
    | cons b' z => simp at h
  | cons a' x ih =>
    cases z with
    | nil => simp at h
    | cons b' z =>
      rw [List.isChain_cons_cons] at hd
      have := ih z (by simpa using h) a' b' hd.2
      have e : (b :: b' :: z).getLast (by simp) = (b' :: z).getLast (by simp) :=
        List.getLast_cons_cons
      have e2 : slopes (a :: a' :: x) (b :: b' :: z) =
          (b - b') / (a' - a) :: slopes (a' :: x) (b' :: z) := rfl
      rw [e, e2, List.zipWith_cons_cons, List.zipWith_cons_cons, List.sum_cons, this,
        div_mul_cancel₀ _ (sub_ne_zero.mpr (Ne.symm hd.1))]
      ring

/-- With hilltop clipping, a profile that rises all the way has its steepest point at the end and
cannot be read. -/
theorem C218_rising (x z : List K) (hl : x.length = z.length) (head tail : ℕ)
    (hr : ∀ k, k + 1 < (kept x head tail).length →
      ∀ t, (slopes (kept x head tail) (kept z head tail))[k]? = some t → t < 0) (p : Profile K) :
    readProfile x z head tail true ≠ .ok p := by
  intro h
  rw [C218_read x z hl] at h
  obtain ⟨w, h1, h2, -⟩ := h
  simp only [if_true] at h2
  obtain ⟨m, g1, g2, -⟩ := h2
  have hk : (kept x head tail).length = (kept z head tail).length := by
    unfold kept; simp [hl]
  have := (C218_slopes _ _ hk ((kept x head tail).length - 1)).2 (by omega)
  have h0 := g2 0 (List.mem_of_getElem? this)
  exact absurd (hr w (by omega) m g1) (not_lt.mpr h0)

end

example : ∃ p, readProfile [0, 1, 2, 3, (5 : ℚ)] [9, 8, 5, 3, 2] 0 1 true = .ok p ∧
    p.x = [1, 2, 3] ∧ p.S0 = 3 := by
  refine ⟨⟨[1, 2, 3], [8, 5, 3], [3, 2, 0], 1, 8, 3⟩, ?_, rfl, rfl⟩
  rw [C218_read _ _ (by rfl)]
  refine ⟨1, by decide, ?_, by decide, by decide, ?_, rfl, rfl, rfl⟩
  · have e : slopes (kept [0, 1, 2, 3, (5 : ℚ)] 0 1) (kept [9, 8, 5, 3, 2] 0 1) = [1, 3, 2, 0] := by
      decide +kernel
    rw [if_pos rfl, e]
    refine ⟨3, rfl, by decide +kernel, ?_⟩
    intro k hk t ht
    have : k = 0 := by omega
    subst this
    simp only [List.getElem?_cons_zero, Option.some.injEq] at ht
    subst ht
    norm_num
  · decide +kernel

end Hamilton
