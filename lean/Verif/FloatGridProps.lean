import Verif.FloatGridModel
import Verif.D8IdProps

/-!
# C27 (instability is detected), C28 (bad slopes are repaired)
-/

set_option autoImplicit false
set_option linter.unusedSectionVars false

namespace FloatGridSpec

open FloatGrid

/-- A finite value that is not negative. -/
def NonNeg {K : Type*} [Field K] [LinearOrder K] (x : Fl K) : Prop := ∃ r, x = .fin r ∧ 0 ≤ r

/-- A usable slope: finite and positive. -/
def Pos {K : Type*} [Field K] [LinearOrder K] (x : Fl K) : Prop := ∃ r, x = .fin r ∧ 0 < r

end FloatGridSpec

namespace FloatGrid

open D8 (Cell)
open FloatGridSpec

variable {K : Type*} [Field K] [LinearOrder K] [IsStrictOrderedRing K]
variable {ny nx : ℕ}

theorem count_zero {g : Cell ny nx → Fl K} {f : Fl K → Bool} :
    count g f = 0 ↔ ∀ c, f (g c) = false := by
  unfold count
  rw [List.length_eq_zero_iff, List.filter_eq_nil_iff]
  constructor
  · intro h c
    simpa using h c (D8.mem_allCells c)
  · intro h c _
    simp [h c]

theorem depth_ok_iff {x : Fl K} : (x.isNeg = false ∧ x.isInf = false) ↔ (NonNeg x ∨ x = .nan) := by
  cases x <;> simp [Fl.isNeg, Fl.isInf, NonNeg]

theorem vel_ok_iff {x : Fl K} :
    (x.isNeg = false ∧ x.isNan = false ∧ x.isInf = false) ↔ NonNeg x := by
  cases x <;> simp [Fl.isNeg, Fl.isInf, Fl.isNan, NonNeg]

/-- **C27**: with stability checking on, an update completes (with status "updated") if and only if
every depth is a non-negative number or NaN and every velocity is a non-negative number; otherwise
an error is raised. -/
theorem C27_checked_update (d u : Cell ny nx → Fl K) :
    ((∀ c, NonNeg (d c) ∨ d c = .nan) ∧ (∀ c, NonNeg (u c)) →
      checkStability true d u = .ok "updated") ∧
    (¬ ((∀ c, NonNeg (d c) ∨ d c = .nan) ∧ (∀ c, NonNeg (u c))) →
      ∃ e, checkStability true d u = .error e) := by
  have hd : (count d Fl.isNeg = 0 ∧ count d Fl.isInf = 0) ↔ ∀ c, NonNeg (d c) ∨ d c = .nan := by
    rw [count_zero, count_zero, ← forall_and]
    exact forall_congr' (fun c => depth_ok_iff)
  have hu : (count u Fl.isNeg = 0 ∧ count u Fl.isNan = 0 ∧ count u Fl.isInf = 0) ↔
      ∀ c, NonNeg (u c) := by
    rw [count_zero, count_zero, count_zero, ← forall_and, ← forall_and]
    exact forall_congr' (fun c => vel_ok_iff)
  constructor
  · rintro ⟨h1, h2⟩
    simp only [checkStability, checkFlowDepth, checkFlowVelocity, if_pos (hd.2 h1), if_pos (hu.2 h2)]
    rfl
  · intro h
    by_cases h1 : ∀ c, NonNeg (d c) ∨ d c = .nan
    · have h2 : ¬ ∀ c, NonNeg (u c) := fun h2 => h ⟨h1, h2⟩
      refine ⟨"RuntimeError: Found bad velocities.", ?_⟩
      simp only [checkStability, checkFlowDepth, checkFlowVelocity, if_pos (hd.2 h1),
        if_neg (fun h3 => h2 (hu.1 h3))]
      rfl
    · refine ⟨"RuntimeError: Negative or NaN depth found.", ?_⟩
      simp only [checkStability, checkFlowDepth, if_neg (fun h3 => h1 (hd.1 h3))]
      rfl

/-- A single bad velocity anywhere, or a single negative or infinite depth, aborts the run. -/
theorem C27_one_bad_cell (d u : Cell ny nx → Fl K) (c : Cell ny nx)
    (h : d c = .pinf ∨ d c = .ninf ∨ (∃ r, d c = .fin r ∧ r < 0) ∨
      u c = .nan ∨ u c = .pinf ∨ u c = .ninf ∨ (∃ r, u c = .fin r ∧ r < 0)) :
    ∃ e, checkStability true d u = .error e := by
  apply (C27_checked_update d u).2
  rintro ⟨h1, h2⟩
  have h1 := h1 c
  have h2 := h2 c
  unfold NonNeg at h1 h2
  rcases h with h | h | ⟨r, h, hr⟩ | h | h | h | ⟨r, h, hr⟩
  · simp [h] at h1
  · simp [h] at h1
  · simp [h] at h1
    exact absurd hr (not_lt.2 h1)
  · simp [h] at h2
  · simp [h] at h2
  · simp [h] at h2
  · simp [h] at h2
    exact absurd hr (not_lt.2 h2)

/-- Depths that are NaN in every cell pass the depth check, although the error message says that it
looks for NaN. -/
theorem C27_nan_depths_pass (u : Cell ny nx → Fl K) (hu : ∀ c, NonNeg (u c)) :
    checkStability true (fun _ => .nan) u = .ok "updated" :=
  (C27_checked_update _ u).1 ⟨fun _ => Or.inr rfl, hu⟩

/-- With stability checking off nothing is detected. -/
theorem C27_unchecked (d u : Cell ny nx → Fl K) : checkStability false d u = .ok "updated" := rfl

example : ∃ e, checkStability (K := ℚ) (ny := 2) (nx := 2) true
    (fun c => if c = (1, 0) then .fin (-1) else .fin 1) (fun _ => .fin 0) = .error e :=
  C27_one_bad_cell _ _ (1, 0) (Or.inr (Or.inr (Or.inl ⟨-1, by simp, by norm_num⟩)))

/-! ## C28 -/

theorem badSlope_iff {x : Fl K} : badSlope x = false ↔ Pos x := by
  cases x <;> simp [badSlope, Fl.isNan, Fl.isZero, Fl.isNeg, Fl.isInf, Pos]
  rename_i x
  constructor
  · rintro ⟨h1, h2⟩; exact lt_of_le_of_ne h2 (Ne.symm h1)
  · intro h; exact ⟨h.ne', h.le⟩

theorem foldl_min_pos (l : List (Fl K)) (x : Fl K) (hx : Pos x) (hl : ∀ y ∈ l, Pos y) :
    ∃ r, l.foldl Fl.min x = .fin r ∧ (.fin r ∈ x :: l) ∧ ∀ t, .fin t ∈ x :: l → r ≤ t := by
  induction l generalizing x with
  | nil =>
    obtain ⟨r, rfl, _⟩ := hx
    refine ⟨r, rfl, by simp, ?_⟩
    intro t ht
    simp at ht
    exact ht.ge
  | cons y l ih =>
    obtain ⟨a, rfl, ha⟩ := hx
    obtain ⟨b, rfl, hb⟩ := hl y List.mem_cons_self
    simp only [List.foldl_cons, Fl.min]
    obtain ⟨r, h1, h2, h3⟩ := ih (.fin (if b < a then b else a)) (by
      split_ifs
      · exact ⟨b, rfl, hb⟩
      · exact ⟨a, rfl, ha⟩) (fun y hy => hl y (List.mem_cons_of_mem _ hy))
    refine ⟨r, h1, ?_, ?_⟩
    · rcases List.mem_cons.1 h2 with h2 | h2
      · split_ifs at h2 <;> simp [h2]
      · simp [h2]
    · intro t ht
      have hm : r ≤ if b < a then b else a := h3 _ List.mem_cons_self
      simp only [List.mem_cons, Fl.fin.injEq] at ht
      rcases ht with rfl | rfl | ht
      · split_ifs at hm with h
        · exact hm.trans h.le
        · exact hm
      · split_ifs at hm with h
        · exact hm
        · exact hm.trans (not_lt.1 h)
      · exact h3 t (List.mem_cons_of_mem _ ht)

/-- **C28**: if some slope is finite and positive, repairing the slopes succeeds; good slopes are
unchanged, and every other slope becomes the smallest good slope.  So all slopes are finite and
positive afterwards. -/
theorem C28_slopes_repaired (slope : Cell ny nx → Fl K) (hgood : ∃ c, Pos (slope c)) :
    ∃ out, removeBadSlopes slope = .ok out ∧
      (∀ c, Pos (out c)) ∧
      (∀ c, Pos (slope c) → out c = slope c) ∧
      (∀ c, ¬ Pos (slope c) → ∃ m, out c = .fin m ∧ (∃ e, slope e = .fin m) ∧
        ∀ e r, slope e = .fin r → 0 < r → m ≤ r) := by
  unfold removeBadSlopes
  dsimp only
  split_ifs with hn
  · have hall : ∀ c, Pos (slope c) := by
      intro c
      have h1 : count slope Fl.isNan = 0 := by omega
      have h2 : count slope Fl.isNeg = 0 := by omega
      have h3 : count slope Fl.isInf = 0 := by omega
      have h4 : count slope Fl.isZero = 0 := by omega
      rw [← badSlope_iff]
      unfold badSlope
      rw [count_zero.1 h1 c, count_zero.1 h2 c, count_zero.1 h3 c, count_zero.1 h4 c]
      rfl
    exact ⟨slope, rfl, hall, fun _ _ => rfl, fun c hc => absurd (hall c) hc⟩
  · obtain ⟨c0, hc0⟩ := hgood
    have hmem : ∀ x, x ∈ ((D8.allCells ny nx).filter (fun c => !badSlope (slope c))).map slope ↔
        ∃ c, Pos (slope c) ∧ slope c = x := by
      intro x
      simp only [List.mem_map, List.mem_filter, D8.mem_allCells, true_and, Bool.not_eq_true',
        badSlope_iff]
    cases hl : ((D8.allCells ny nx).filter (fun c => !badSlope (slope c))).map slope with
    | nil =>
      have := (hmem (slope c0)).2 ⟨c0, hc0, rfl⟩
      rw [hl] at this
      cases this
    | cons x l =>
      rw [hl] at hmem
      have hpos : ∀ y ∈ x :: l, Pos y := by
        intro y hy
        obtain ⟨c, hc, rfl⟩ := (hmem y).1 hy
        exact hc
      obtain ⟨r, h1, h2, h3⟩ := foldl_min_pos l x (hpos x List.mem_cons_self)
        (fun y hy => hpos y (List.mem_cons_of_mem _ hy))
      have hr : Pos (Fl.fin r) := hpos _ h2
      refine ⟨_, rfl, ?_, ?_, ?_⟩
      · intro c
        split_ifs with hb
        · rw [h1]; exact hr
        · exact badSlope_iff.1 (by simpa using hb)
      · intro c hc
        rw [if_neg (by simp [badSlope_iff.2 hc])]
      · intro c hc
        have hb : badSlope (slope c) = true := by
          by_contra hb
          exact hc (badSlope_iff.1 (by simpa using hb))
        rw [if_pos hb, h1]
        refine ⟨r, rfl, ?_, ?_⟩
        · obtain ⟨e, _, he⟩ := (hmem _).1 h2
          exact ⟨e, he⟩
        · intro e t he ht
          exact h3 t ((hmem _).2 ⟨e, ⟨t, he, ht⟩, he⟩)

/-- **C28**: on a non-empty grid without any good slope the repair fails. -/
theorem C28_no_good_slope (slope : Cell ny nx → Fl K) (c : Cell ny nx)
    (hbad : ∀ c, ¬ Pos (slope c)) : removeBadSlopes slope = .error "ValueError" := by
  have hb : ∀ c, badSlope (slope c) = true := by
    intro c
    by_contra hb
    exact hbad c (badSlope_iff.1 (by simpa using hb))
  have hn : count slope Fl.isNan + count slope Fl.isNeg + count slope Fl.isInf +
      count slope Fl.isZero ≠ 0 := by
    intro hn
    have h1 : count slope Fl.isNan = 0 := by omega
    have h2 : count slope Fl.isNeg = 0 := by omega
    have h3 : count slope Fl.isInf = 0 := by omega
    have h4 : count slope Fl.isZero = 0 := by omega
    have := hb c
    unfold badSlope at this
    rw [count_zero.1 h1 c, count_zero.1 h2 c, count_zero.1 h3 c, count_zero.1 h4 c] at this
    cases this
  unfold removeBadSlopes
  dsimp only
  rw [if_neg hn]
  have : (D8.allCells ny nx).filter (fun c => !badSlope (slope c)) = [] := by
    rw [List.filter_eq_nil_iff]
    intro a _
    simp [hb a]
  rw [this]
  rfl

example : ∃ c, Pos ((fun c : Cell 2 2 => if c = (0, 1) then Fl.fin (1 / 2 : ℚ) else .nan) c) :=
  ⟨(0, 1), 1 / 2, by simp, by norm_num⟩

end FloatGrid
