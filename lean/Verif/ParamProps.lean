import Verif.ParamModel
import Mathlib.Tactic.Positivity
import Mathlib.Tactic.FieldSimp
import Mathlib.Tactic.Linarith
import Mathlib.Tactic.Ring

/-!
# C125, C126: parameter grids from contributing area; the run time report
-/

set_option autoImplicit false
set_option linter.unusedSectionVars false

noncomputable section

namespace Param

variable {ι : Type*} [Fintype ι]

/-! ## Specification -/

/-- `m` is the largest value of the grid. -/
def IsMax (A : ι → ℝ) (m : ℝ) : Prop := (∃ i, A i = m) ∧ ∀ i, A i ≤ m

/-- `m` is the smallest positive value of the grid. -/
def IsMinPos (A : ι → ℝ) (m : ℝ) : Prop := 0 < m ∧ (∃ i, A i = m) ∧ ∀ i, 0 < A i → m ≤ A i

/-- A text like "1 hour, 2 minutes, 5 seconds" in seconds. -/
def Part.inSeconds : Part → ℚ
  | .days x => x * 86400
  | .hours x => x * 3600
  | .minutes x => x * 60
  | .seconds x => x

/-! ## Lemmas -/

theorem maxOf_eq {A : ι → ℝ} {m : ℝ} : maxOf A = some m ↔ IsMax A m := by
  classical
  unfold maxOf IsMax
  constructor
  · intro h
    split_ifs at h with hn
    · cases h
      refine ⟨?_, fun i => Finset.le_max' _ _ (by simp)⟩
      have := Finset.max'_mem _ hn
      simpa using this
  · rintro ⟨⟨i, hi⟩, hm⟩
    have hn : (Finset.univ.image A).Nonempty := ⟨A i, by simp⟩
    rw [dif_pos hn, Option.some.injEq]
    apply le_antisymm
    · apply Finset.max'_le
      intro y hy
      obtain ⟨j, _, rfl⟩ := Finset.mem_image.1 hy
      exact hm j
    · rw [← hi]; exact Finset.le_max' _ _ (by simp)

theorem minPos_eq {A : ι → ℝ} {m : ℝ} : minPos A = some m ↔ IsMinPos A m := by
  classical
  unfold minPos IsMinPos
  constructor
  · intro h
    split_ifs at h with hn
    · cases h
      have := Finset.min'_mem _ hn
      rw [Finset.mem_filter, Finset.mem_image] at this
      obtain ⟨⟨i, _, hi⟩, hp⟩ := this
      refine ⟨hp, ⟨i, hi⟩, fun j hj => Finset.min'_le _ _ ?_⟩
      simp [hj]
  · rintro ⟨hp, ⟨i, hi⟩, hm⟩
    have hmem : m ∈ (Finset.univ.image A).filter (fun a => 0 < a) := by
      rw [Finset.mem_filter]; exact ⟨by rw [← hi]; simp, hp⟩
    have hn : ((Finset.univ.image A).filter (fun a => 0 < a)).Nonempty := ⟨m, hmem⟩
    rw [dif_pos hn, Option.some.injEq]
    apply le_antisymm (Finset.min'_le _ _ hmem)
    apply Finset.le_min'
    intro y hy
    rw [Finset.mem_filter, Finset.mem_image] at hy
    obtain ⟨⟨j, _, rfl⟩, hj⟩ := hy
    exact hm j hj

theorem powGrid_pos_cell {A : ι → ℝ} {A1 g1 p : ℝ} (hA1 : 0 < A1) {i : ι} (hi : 0 < A i) :
    powGrid A A1 g1 p i = g1 * (A i / A1) ^ p := by
  unfold powGrid
  rw [if_neg (not_le.2 hi), Real.div_rpow hi.le hA1.le]
  ring

theorem expo_some {A1 g1 A2 g2 p : ℝ} (h : expo A1 g1 A2 g2 = some p) :
    0 < A1 ∧ 0 < A2 ∧ 0 < g1 ∧ 0 < g2 ∧ A1 ≠ A2 ∧
      p = Real.log (g1 / g2) / Real.log (A1 / A2) := by
  unfold expo at h
  split_ifs at h with hc
  cases h
  exact ⟨hc.1, hc.2.1, hc.2.2.1, hc.2.2.2.1, hc.2.2.2.2, rfl⟩

theorem ratio_pow {A1 g1 A2 g2 p : ℝ} (h : expo A1 g1 A2 g2 = some p) :
    g1 * (A2 / A1) ^ p = g2 := by
  obtain ⟨h1, h2, h3, h4, hne, rfl⟩ := expo_some h
  have hl : Real.log (A1 / A2) ≠ 0 := by
    apply Real.log_ne_zero_of_pos_of_ne_one (by positivity)
    intro e
    rw [div_eq_one_iff_eq h2.ne'] at e
    exact hne e
  have e1 : Real.log (A2 / A1) = - Real.log (A1 / A2) := by
    rw [← Real.log_inv, inv_div]
  rw [Real.rpow_def_of_pos (by positivity), e1]
  have : -Real.log (A1 / A2) * (Real.log (g1 / g2) / Real.log (A1 / A2)) =
      Real.log (g2 / g1) := by
    rw [show Real.log (g2 / g1) = - Real.log (g1 / g2) by rw [← Real.log_inv, inv_div]]
    field_simp
  rw [this, Real.exp_log (by positivity)]
  field_simp

/-! ## C125 -/

/-- **C125**, value and exponent given: the cell with the largest area gets the value, every
positive area a value in proportion to (area / largest area)^p, all other cells 1. -/
theorem C125_exponent {A : ι → ℝ} {g1 p m : ℝ} (hm : IsMax A m) (hm0 : 0 < m) (a2 : Option ℝ) :
    ∃ g, gridFromTCA A ⟨none, some g1, a2, none, some p⟩ = .grid g ∧
      (∀ i, A i = m → g i = g1) ∧ (∀ i, 0 < A i → g i = g1 * (A i / m) ^ p) ∧
      (∀ i, A i ≤ 0 → g i = 1) := by
  refine ⟨powGrid A m g1 p, ?_, ?_, fun i hi => powGrid_pos_cell hm0 hi, ?_⟩
  · unfold gridFromTCA
    simp only [maxOf_eq.2 hm]
  · intro i hi
    rw [powGrid_pos_cell hm0 (by rw [hi]; exact hm0), hi, div_self hm0.ne', Real.one_rpow, mul_one]
  · intro i hi
    unfold powGrid
    rw [if_pos hi]

/-- **C125**, values at the largest and the smallest positive area given: these two are met, every
other positive area gets a value between them, larger areas get values closer to the first, and
the remaining cells get 1. -/
theorem C125_range {A : ι → ℝ} {g1 g2 lo m : ℝ} (hm : IsMax A m) (hl : IsMinPos A lo)
    (hne : lo ≠ m) (h1 : 0 < g1) (h2 : 0 < g2) :
    ∃ g, gridFromTCA A ⟨none, some g1, none, some g2, none⟩ = .grid g ∧
      (∀ i, A i = m → g i = g1) ∧ (∀ i, A i = lo → g i = g2) ∧
      (∀ i, 0 < A i → min g1 g2 ≤ g i ∧ g i ≤ max g1 g2) ∧
      (∀ i j, 0 < A i → A i ≤ A j → if g2 ≤ g1 then g i ≤ g j else g j ≤ g i) ∧
      (∀ i, A i ≤ 0 → g i = 1) := by
  obtain ⟨hl0, ⟨il, hil⟩, hlmin⟩ := hl
  have hlm : lo ≤ m := by rw [← hil]; exact hm.2 il
  have hm0 : 0 < m := lt_of_lt_of_le hl0 hlm
  have hex : expo m g1 lo g2 = some (Real.log (g1 / g2) / Real.log (m / lo)) := by
    unfold expo
    rw [if_pos ⟨hm0, hl0, h1, h2, fun e => hne e.symm⟩]
  set p := Real.log (g1 / g2) / Real.log (m / lo) with hp
  have hr := ratio_pow hex
  have hlogpos : 0 < Real.log (m / lo) := by
    apply Real.log_pos
    rw [one_lt_div hl0]
    exact lt_of_le_of_ne hlm hne
  have hmono : ∀ i j, 0 < A i → A i ≤ A j →
      if g2 ≤ g1 then powGrid A m g1 p i ≤ powGrid A m g1 p j
      else powGrid A m g1 p j ≤ powGrid A m g1 p i := by
    intro i j hi hij
    have hj : 0 < A j := lt_of_lt_of_le hi hij
    rw [powGrid_pos_cell hm0 hi, powGrid_pos_cell hm0 hj]
    have hq : A i / m ≤ A j / m := div_le_div_of_nonneg_right hij hm0.le
    split_ifs with hg
    · apply mul_le_mul_of_nonneg_left _ h1.le
      apply Real.rpow_le_rpow (by positivity) hq
      apply div_nonneg _ hlogpos.le
      exact Real.log_nonneg ((one_le_div h2).2 hg)
    · apply mul_le_mul_of_nonneg_left _ h1.le
      apply Real.rpow_le_rpow_of_nonpos (by positivity) hq
      apply div_nonpos_of_nonpos_of_nonneg _ hlogpos.le
      exact Real.log_nonpos (by positivity) ((div_le_one h2).2 (not_le.1 hg).le)
  have hmax : ∀ i, A i = m → powGrid A m g1 p i = g1 := by
    intro i hi
    rw [powGrid_pos_cell hm0 (by rw [hi]; exact hm0), hi, div_self hm0.ne', Real.one_rpow, mul_one]
  have hmin : ∀ i, A i = lo → powGrid A m g1 p i = g2 := by
    intro i hi
    rw [powGrid_pos_cell hm0 (by rw [hi]; exact hl0), hi, hr]
  refine ⟨powGrid A m g1 p, ?_, hmax, hmin, ?_, hmono, ?_⟩
  · unfold gridFromTCA
    simp only [maxOf_eq.2 hm, minPos_eq.2 ⟨hl0, ⟨il, hil⟩, hlmin⟩, hex]
  · intro i hi
    obtain ⟨⟨im, him⟩, hmm⟩ := hm
    have a := hmono i im hi (by rw [him]; exact hmm i)
    have b := hmono il i (by rw [hil]; exact hl0) (by rw [hil]; exact hlmin i hi)
    rw [hmax im him] at a
    rw [hmin il hil] at b
    split_ifs at a b with hg
    · exact ⟨(min_le_right _ _).trans b, a.trans (le_max_left _ _)⟩
    · exact ⟨(min_le_left _ _).trans a, b.trans (le_max_right _ _)⟩
  · intro i hi
    unfold powGrid
    rw [if_pos hi]

/-- **C125**, two points given: the law passes through both, whatever the grid; a given exponent
is ignored. -/
theorem C125_two_points {A : ι → ℝ} {A1 g1 A2 g2 : ℝ} (h1 : 0 < A1) (h2 : 0 < A2) (h3 : 0 < g1)
    (h4 : 0 < g2) (hne : A1 ≠ A2) (q : Option ℝ) :
    ∃ (g : ι → ℝ) (p : ℝ), gridFromTCA A ⟨some A1, some g1, some A2, some g2, q⟩ = .grid g ∧
      (∀ i, A i = A1 → g i = g1) ∧ (∀ i, A i = A2 → g i = g2) ∧
      (∀ i, 0 < A i → g i = g1 * (A i / A1) ^ p) ∧ (∀ i, A i ≤ 0 → g i = 1) := by
  have hex : expo A1 g1 A2 g2 = some (Real.log (g1 / g2) / Real.log (A1 / A2)) := by
    unfold expo
    rw [if_pos ⟨h1, h2, h3, h4, hne⟩]
  have hr := ratio_pow hex
  refine ⟨powGrid A A1 g1 (Real.log (g1 / g2) / Real.log (A1 / A2)),
    Real.log (g1 / g2) / Real.log (A1 / A2), ?_, ?_, ?_, fun i hi => powGrid_pos_cell h1 hi, ?_⟩
  · unfold gridFromTCA
    simp only [hex]
  · intro i hi
    rw [powGrid_pos_cell h1 (by rw [hi]; exact h1), hi, div_self h1.ne', Real.one_rpow, mul_one]
  · intro i hi
    rw [powGrid_pos_cell h1 (by rw [hi]; exact h2), hi, hr]
  · intro i hi
    unfold powGrid
    rw [if_pos hi]

/-- Every grid that is made from positive values is positive everywhere (so widths and Manning's n
can be divided by), whatever combination of arguments is given. -/
theorem C125_positive {A : ι → ℝ} {a : Args} {g : ι → ℝ} (h : gridFromTCA A a = .grid g)
    (hg : ∀ g1, a.g1 = some g1 → 0 < g1) (i : ι) : 0 < g i := by
  have key : ∀ A1 g1 p : ℝ, 0 < g1 → (0 < A1 ∨ IsMax A A1) → 0 < powGrid A A1 g1 p i := by
    intro A1 g1 p h1 hA
    by_cases hi : A i ≤ 0
    · unfold powGrid; rw [if_pos hi]; norm_num
    · have hi' := not_le.1 hi
      have hA1 : 0 < A1 := by
        rcases hA with h | h
        · exact h
        · exact lt_of_lt_of_le hi' (h.2 i)
      rw [powGrid_pos_cell hA1 hi']
      exact mul_pos h1 (Real.rpow_pos_of_pos (by positivity) _)
  obtain ⟨A1, g1, A2, g2, p⟩ := a
  unfold gridFromTCA at h
  dsimp only at h hg
  split at h
  · split at h
    · rename_i p' hp'
      cases h
      obtain ⟨q1, _, q3, _⟩ := expo_some hp'
      exact key _ _ _ q3 (Or.inl q1)
    · cases h
  · split at h
    · rename_i A1' hA1'
      cases h
      exact key _ _ _ (hg _ rfl) (Or.inr (maxOf_eq.1 hA1'))
    · cases h
  · split at h
    · split at h
      · rename_i p' hp'
        cases h
        obtain ⟨q1, _, q3, _⟩ := expo_some hp'
        exact key _ _ _ q3 (Or.inl q1)
      · cases h
    · cases h
  · cases h

/-- The unit of area does not matter: with all areas multiplied by the same positive factor the
same grid results. -/
theorem C125_area_unit {A : ι → ℝ} {k : ℝ} (hk : 0 < k) {g1 g2 lo m : ℝ} (hm : IsMax A m)
    (hl : IsMinPos A lo) (hne : lo ≠ m) (h1 : 0 < g1) (h2 : 0 < g2) :
    gridFromTCA (fun i => k * A i) ⟨none, some g1, none, some g2, none⟩ =
      gridFromTCA A ⟨none, some g1, none, some g2, none⟩ := by
  have hl0 := hl.1
  have hm0 : 0 < m := by
    obtain ⟨_, ⟨i, hi⟩, _⟩ := hl
    exact lt_of_lt_of_le hl0 (by rw [← hi]; exact hm.2 i)
  have hm' : IsMax (fun i => k * A i) (k * m) := by
    obtain ⟨⟨i, hi⟩, hmm⟩ := hm
    exact ⟨⟨i, by simp [hi]⟩, fun j => mul_le_mul_of_nonneg_left (hmm j) hk.le⟩
  have hl' : IsMinPos (fun i => k * A i) (k * lo) := by
    obtain ⟨h0, ⟨i, hi⟩, hmm⟩ := hl
    exact ⟨by positivity, ⟨i, by simp [hi]⟩, fun j hj =>
      mul_le_mul_of_nonneg_left (hmm j (by simpa [hk] using hj)) hk.le⟩
  have e1 : expo m g1 lo g2 = some (Real.log (g1 / g2) / Real.log (m / lo)) := by
    unfold expo
    rw [if_pos ⟨hm0, hl0, h1, h2, fun e => hne e.symm⟩]
  have e2 : expo (k * m) g1 (k * lo) g2 = some (Real.log (g1 / g2) / Real.log (m / lo)) := by
    unfold expo
    rw [if_pos ⟨by positivity, by positivity, h1, h2,
      fun e => hne (mul_left_cancel₀ hk.ne' e).symm⟩, mul_div_mul_left _ _ hk.ne']
  unfold gridFromTCA
  simp only [maxOf_eq.2 hm, maxOf_eq.2 hm', minPos_eq.2 hl, minPos_eq.2 hl', e1, e2]
  refine congrArg Result.grid (funext fun i => ?_)
  by_cases hi : A i ≤ 0
  · unfold powGrid
    rw [if_pos hi, if_pos (mul_nonpos_of_nonneg_of_nonpos hk.le hi)]
  · have hi' := not_le.1 hi
    rw [powGrid_pos_cell (A := fun i => k * A i) (by positivity) (by positivity), powGrid_pos_cell hm0 hi',
      mul_div_mul_left _ _ hk.ne']

theorem maxOf_scale (A : ι → ℝ) {k : ℝ} (hk : 0 < k) :
    maxOf (fun i => k * A i) = (maxOf A).map (k * ·) := by
  cases h : maxOf A with
  | some m =>
    obtain ⟨⟨i, hi⟩, hmm⟩ := maxOf_eq.1 h
    exact maxOf_eq.2 ⟨⟨i, by simp [hi]⟩, fun j => mul_le_mul_of_nonneg_left (hmm j) hk.le⟩
  | none =>
    cases h' : maxOf (fun i => k * A i) with
    | none => rfl
    | some m =>
      obtain ⟨⟨i, -⟩, -⟩ := maxOf_eq.1 h'
      unfold maxOf at h
      rw [dif_pos ⟨A i, by simp⟩] at h
      cases h

theorem minPos_scale (A : ι → ℝ) {k : ℝ} (hk : 0 < k) :
    minPos (fun i => k * A i) = (minPos A).map (k * ·) := by
  cases h : minPos A with
  | some m =>
    obtain ⟨h0, ⟨i, hi⟩, hmm⟩ := minPos_eq.1 h
    exact minPos_eq.2 ⟨by positivity, ⟨i, by simp [hi]⟩, fun j hj =>
      mul_le_mul_of_nonneg_left (hmm j (by simpa [hk] using hj)) hk.le⟩
  | none =>
    cases h' : minPos (fun i => k * A i) with
    | none => rfl
    | some m =>
      obtain ⟨h0, ⟨i, hi⟩, -⟩ := minPos_eq.1 h'
      have : 0 < A i := by rw [← hi] at h0; simpa [hk] using h0
      unfold minPos at h
      rw [dif_pos ⟨A i, by simp [this]⟩] at h
      cases h

theorem expo_scale {k : ℝ} (hk : 0 < k) (A1 g1 A2 g2 : ℝ) :
    expo (k * A1) g1 (k * A2) g2 = expo A1 g1 A2 g2 := by
  unfold expo
  simp only [mul_pos_iff_of_pos_left hk, ne_eq, mul_right_inj' hk.ne', mul_div_mul_left _ _ hk.ne']

theorem powGrid_scale (A : ι → ℝ) {k : ℝ} (hk : 0 < k) (A1 g1 p : ℝ) (h : ∀ i, 0 < A i → 0 < A1) :
    powGrid (fun i => k * A i) (k * A1) g1 p = powGrid A A1 g1 p := by
  funext i
  by_cases hi : A i ≤ 0
  · unfold powGrid
    rw [if_pos hi, if_pos (mul_nonpos_of_nonneg_of_nonpos hk.le hi)]
  · have hi' := not_le.1 hi
    have h1 := h i hi'
    rw [powGrid_pos_cell (A := fun i => k * A i) (by positivity) (by positivity),
      powGrid_pos_cell h1 hi', mul_div_mul_left _ _ hk.ne']

/-- The unit of area does not matter for any combination of arguments: with the areas of the grid
and the given areas multiplied by the same positive factor the call has the same result. -/
theorem C125_area_unit_all (A : ι → ℝ) {k : ℝ} (hk : 0 < k) (a : Args) :
    gridFromTCA (fun i => k * A i) { a with A1 := a.A1.map (k * ·), A2 := a.A2.map (k * ·) } =
      gridFromTCA A a := by
  have hmax : ∀ m, maxOf A = some m → ∀ i, 0 < A i → 0 < m :=
    fun m hm i hi => lt_of_lt_of_le hi ((maxOf_eq.1 hm).2 i)
  have e1 : ∀ g1 p, (match (maxOf A).map (k * ·) with
      | some A1 => Result.grid (powGrid (fun i => k * A i) A1 g1 p)
      | none => .degenerate) = (match maxOf A with
      | some A1 => Result.grid (powGrid A A1 g1 p)
      | none => .degenerate) := by
    intro g1 p
    cases h : maxOf A with
    | none => rfl
    | some m => simp only [Option.map_some, powGrid_scale A hk m g1 p (hmax m h)]
  have e2 : ∀ g1 g2, (match (maxOf A).map (k * ·), (minPos A).map (k * ·) with
      | some A1, some A2 =>
        match expo A1 g1 A2 g2 with
        | some p => Result.grid (powGrid (fun i => k * A i) A1 g1 p)
        | none => .degenerate
      | _, _ => .degenerate) = (match maxOf A, minPos A with
      | some A1, some A2 =>
        match expo A1 g1 A2 g2 with
        | some p => Result.grid (powGrid A A1 g1 p)
        | none => .degenerate
      | _, _ => .degenerate) := by
    intro g1 g2
    cases h : maxOf A with
    | none => rfl
    | some m =>
      cases minPos A with
      | none => rfl
      | some lo =>
        simp only [Option.map_some, expo_scale hk, powGrid_scale A hk m g1 _ (hmax m h)]
  have e3 : ∀ A1 g1 A2 g2, (match expo (k * A1) g1 (k * A2) g2 with
        | some p => Result.grid (powGrid (fun i => k * A i) (k * A1) g1 p)
        | none => .degenerate) = (match expo A1 g1 A2 g2 with
        | some p => Result.grid (powGrid A A1 g1 p)
        | none => .degenerate) := by
    intro A1 g1 A2 g2
    rw [expo_scale hk]
    cases h : expo A1 g1 A2 g2 with
    | none => rfl
    | some p =>
      have h1 : 0 < A1 := by
        unfold expo at h
        split_ifs at h with hc
        exact hc.1
      simp only [powGrid_scale A hk A1 g1 p (fun _ _ => h1)]
  obtain ⟨A1, g1, A2, g2, p⟩ := a
  unfold gridFromTCA
  simp only [maxOf_scale A hk, minPos_scale A hk]
  rcases g1 with - | g1 <;> rcases g2 with - | g2 <;> rcases A1 with - | A1 <;>
    rcases A2 with - | A2 <;> rcases p with - | p <;>
    first
    | rfl
    | exact e3 A1 g1 A2 g2
    | exact e1 g1 p
    | exact e2 g1 g2

/-- No file is written exactly when the first value is missing, or only it is given without an
exponent or a second value. -/
theorem C125_nothing_iff (A : ι → ℝ) (a : Args) :
    gridFromTCA A a = .nothing ↔ a.g1 = none ∨ (a.p = none ∧ a.g2 = none) := by
  obtain ⟨A1, g1, A2, g2, p⟩ := a
  unfold gridFromTCA
  dsimp only
  constructor
  · intro h
    split at h
    · split at h <;> cases h
    · split at h <;> cases h
    · split at h
      · split at h <;> cases h
      · cases h
    · cases g1 with
      | none => exact Or.inl rfl
      | some x => cases p <;> cases g2 <;> simp_all
  · rintro (h | ⟨h, h'⟩)
    · subst h; rfl
    · subst h; subst h'
      cases g1 <;> rfl

/-- Where the area is not positive (the border of a D8 area grid) the value is always
1, whether or not that lies between the given values. -/
theorem C125_border_value {A : ι → ℝ} {a : Args} {g : ι → ℝ} (h : gridFromTCA A a = .grid g)
    (i : ι) (hi : A i ≤ 0) : g i = 1 := by
  have key : ∀ A1 g1 p : ℝ, powGrid A A1 g1 p i = 1 := by
    intro A1 g1 p
    unfold powGrid
    rw [if_pos hi]
  unfold gridFromTCA at h
  split at h
  · split at h
    · cases h; exact key _ _ _
    · cases h
  · split at h
    · cases h; exact key _ _ _
    · cases h
  · split at h
    · split at h
      · cases h; exact key _ _ _
      · cases h
    · cases h
  · cases h

/-- An area grid with a single positive value gives no usable grid. -/
theorem C125_single_area {A : ι → ℝ} {m : ℝ} (hm : IsMax A m) (hl : IsMinPos A m)
    (g1 g2 : ℝ) : gridFromTCA A ⟨none, some g1, none, some g2, none⟩ = .degenerate := by
  have : expo m g1 m g2 = none := by unfold expo; rw [if_neg (by simp)]
  unfold gridFromTCA
  simp only [maxOf_eq.2 hm, minPos_eq.2 hl, this]

/-- A case: areas 0, 1, 100; Manning's n between 0.3 and 0.03. -/
example : ∃ g, gridFromTCA (![0, 1, 100] : Fin 3 → ℝ)
      ⟨none, some 0.03, none, some 0.3, none⟩ = .grid g ∧ g 1 = 0.3 ∧ g 2 = 0.03 ∧ g 0 = 1 := by
  obtain ⟨g, h, h1, h2, _, _, h3⟩ := C125_range (A := (![0, 1, 100] : Fin 3 → ℝ)) (g1 := 0.03)
    (g2 := 0.3) (lo := 1) (m := 100)
    ⟨⟨2, rfl⟩, by intro i; fin_cases i <;> simp⟩
    ⟨by norm_num, ⟨1, rfl⟩, by intro i; fin_cases i <;> simp⟩ (by norm_num) (by norm_num)
    (by norm_num)
  exact ⟨g, h, h2 1 rfl, h1 2 rfl, h3 0 le_rfl⟩

/-! ## C126 -/

/-- The time that the text states, in seconds. -/
def stated (s : ℤ) : ℚ := ((runTimeParts s).map Part.inSeconds).sum

/-- What the text states: the elapsed time plus the parts of it already counted in larger units. -/
theorem C126_stated {s : ℤ} (hs : 0 ≤ s) :
    stated s = s + (s % 86400 : ℤ) + (s % 3600 : ℤ) + (s % 60 : ℤ) := by
  have e1 : s % 86400 % 3600 = s % 3600 := Int.emod_emod_of_dvd s (by norm_num)
  have e2 : s % 3600 % 60 = s % 60 := Int.emod_emod_of_dvd s (by norm_num)
  have n1 : 0 ≤ s % 86400 := Int.emod_nonneg _ (by norm_num)
  have n2 : 0 ≤ s % 3600 := Int.emod_nonneg _ (by norm_num)
  have key : ∀ (n : ℤ) (k : ℚ) (P : ℚ → Part), 0 < k → 0 ≤ n →
      (∀ x, (P x).inSeconds = x * k) →
      ((if 0 < (n : ℚ) / k then [P ((n : ℚ) / k)] else []).map Part.inSeconds).sum = n := by
    intro n k P hk hn hP
    split_ifs with h
    · simp [hP, hk.ne']
    · have : (n : ℚ) = 0 := by
        have h1 : (0 : ℚ) ≤ n := by exact_mod_cast hn
        by_contra hne
        exact h (div_pos (lt_of_le_of_ne h1 (Ne.symm hne)) hk)
      simp [this]
  unfold stated runTimeParts
  dsimp only
  rw [List.map_append, List.map_append, List.map_append, List.sum_append, List.sum_append,
    List.sum_append, key s 86400 Part.days (by norm_num) hs (fun _ => rfl),
    key (s % 86400) 3600 Part.hours (by norm_num) n1 (fun _ => rfl),
    key (s % 86400 % 3600) 60 Part.minutes (by norm_num) (by rw [e1]; exact n2) (fun _ => rfl),
    e1, e2]
  simp [Part.inSeconds]

/-- **C126 is violated** for every run that takes at least one second, except whole days: the
stated parts add up to more than the elapsed time. -/
theorem C126_violated {s : ℤ} (hs : 0 < s) : stated s ≠ s ↔ ¬ (86400 ∣ s) := by
  rw [C126_stated hs.le]
  have n1 : 0 ≤ s % 86400 := Int.emod_nonneg _ (by norm_num)
  have n2 : 0 ≤ s % 3600 := Int.emod_nonneg _ (by norm_num)
  have n3 : 0 ≤ s % 60 := Int.emod_nonneg _ (by norm_num)
  have : ((s : ℚ) + (s % 86400 : ℤ) + (s % 3600 : ℤ) + (s % 60 : ℤ) = s) ↔ s % 86400 = 0 := by
    constructor
    · intro h
      have h' : s + s % 86400 + s % 3600 + s % 60 = s := by exact_mod_cast h
      omega
    · intro h
      have : s + s % 86400 + s % 3600 + s % 60 = s := by omega
      exact_mod_cast this
  rw [ne_eq, this, Int.dvd_iff_emod_eq_zero]

/-- **C126** (what holds): the stated time is right for runs of less than a second, and for whole
days; the last part is the number of seconds within the minute. -/
theorem C126_partial {s : ℤ} (hs : 0 ≤ s) (h : 86400 ∣ s) :
    stated s = s ∧ (runTimeParts s).getLast? = some (Part.seconds (s % 60)) := by
  rw [C126_stated hs]
  have h0 : s % 86400 = 0 := Int.emod_eq_zero_of_dvd h
  have h1 : s % 3600 = 0 := by omega
  have h2 : s % 60 = 0 := by omega
  constructor
  · rw [h0, h1, h2]; simp
  · unfold runTimeParts
    simp [h0, h2]

/-- A run of 90 seconds: "0.00104… day, 0.025 hour, 1.5 minutes, 30 seconds", that is 300 seconds. -/
example : stated 90 = 300 := by rw [C126_stated (by norm_num)]; norm_num

end Param
