import Verif.D8LocalProps
import Mathlib.Tactic.Tauto

/-!
# Properties of the local D8 component, continued: the 3 x 3 neighbourhood
-/

set_option autoImplicit false

namespace D8Local

open D8 D8Spec

/-! ## C169: the 3 x 3 neighbourhood of a cell -/

/-- Positions `p` and `q` on an axis of `n` cells coincide or are next to each other, the ends
being next to each other when the axis is periodic. -/
def AxisNear (n : ℕ) (periodic : Bool) (p q : ℕ) : Prop :=
  |(q : ℤ) - p| ≤ 1 ∨ (periodic = true ∧ ((p = 0 ∧ q + 1 = n) ∨ (q = 0 ∧ p + 1 = n)))

/-- The position is an end of an axis that is not periodic. -/
def AtEnd (n : ℕ) (periodic : Bool) (p : ℕ) : Prop := periodic = false ∧ (p = 0 ∨ p + 1 = n)

instance (n : ℕ) (per : Bool) (p : ℕ) : Decidable (AtEnd n per p) := by
  unfold AtEnd; infer_instance

theorem axis_cols (n : ℕ) (per : Bool) (p : ℕ) :
    axisIDs n per (incs9.map Prod.snd) p =
      if ¬ AtEnd n per p then
        some [((p : ℤ) + -1) % n, (p + 0) % n, (p + 1) % n, (p + -1) % n, (p + 0) % n, (p + 1) % n,
          (p + -1) % n, (p + 0) % n, (p + 1) % n]
      else if n = 1 ∧ p = 0 then none
      else if p = 0 then
        some [((p : ℤ) + 0) % n, (p + 1) % n, (p + 0) % n, (p + 1) % n, (p + 0) % n, (p + 1) % n]
      else
        some [((p : ℤ) + -1) % n, (p + 0) % n, (p + -1) % n, (p + 0) % n, (p + -1) % n, (p + 0) % n] := by
  unfold axisIDs AtEnd
  cases per
  · by_cases h0 : p = 0
    · subst h0
      by_cases h1 : n = 1
      · subst h1
        rfl
      · have hh : ¬ ((0 : ℕ) : ℤ) = (n : ℤ) - 1 := by omega
        simp only [Bool.false_eq_true, if_false, Nat.cast_zero, if_true]
        rw [if_neg (by simp), if_neg (by tauto)]
        have h2 : ¬ (0 : ℤ) = (n : ℤ) - 1 := by omega
        simp only [h2, if_false]
        rfl
    · have hh : ¬ (p : ℤ) = 0 := by omega
      simp only [Bool.false_eq_true, if_false, hh, h0]
      by_cases h1 : p + 1 = n
      · have h2 : (p : ℤ) = (n : ℤ) - 1 := by omega
        have h3 : ¬ ¬ (True ∧ (False ∨ p + 1 = n)) := by simp [h1]
        rw [if_neg h3, if_neg (by simp)]
        show (if (p : ℤ) = (n : ℤ) - 1 then _ else _) = _
        rw [if_pos h2]
        rfl
      · have h2 : ¬ (p : ℤ) = (n : ℤ) - 1 := by omega
        have h3 : ¬ (True ∧ (False ∨ p + 1 = n)) := by simp [h1]
        rw [if_pos h3]
        simp only [h2, if_false]
        rfl
  · simp
    rfl

theorem axis_rows (n : ℕ) (per : Bool) (p : ℕ) :
    axisIDs n per (incs9.map Prod.fst) p =
      if ¬ AtEnd n per p then
        some [((p : ℤ) + -1) % n, (p + -1) % n, (p + -1) % n, (p + 0) % n, (p + 0) % n, (p + 0) % n,
          (p + 1) % n, (p + 1) % n, (p + 1) % n]
      else if p = 0 then
        some [((p : ℤ) + 0) % n, (p + 0) % n, (p + 0) % n, (p + 1) % n, (p + 1) % n, (p + 1) % n]
      else
        some [((p : ℤ) + -1) % n, (p + -1) % n, (p + -1) % n, (p + 0) % n, (p + 0) % n, (p + 0) % n] := by
  unfold axisIDs AtEnd
  cases per
  · by_cases h0 : p = 0
    · subst h0
      by_cases h1 : n = 1
      · subst h1
        rfl
      · simp only [Bool.false_eq_true, if_false, Nat.cast_zero, if_true]
        rw [if_neg (by simp)]
        have h2 : ¬ (0 : ℤ) = (n : ℤ) - 1 := by omega
        simp only [h2, if_false]
        rfl
    · have hh : ¬ (p : ℤ) = 0 := by omega
      simp only [Bool.false_eq_true, if_false, hh, h0]
      by_cases h1 : p + 1 = n
      · have h2 : (p : ℤ) = (n : ℤ) - 1 := by omega
        have h3 : ¬ ¬ (True ∧ (False ∨ p + 1 = n)) := by simp [h1]
        rw [if_neg h3]
        show (if (p : ℤ) = (n : ℤ) - 1 then _ else _) = _
        rw [if_pos h2]
        rfl
      · have h2 : ¬ (p : ℤ) = (n : ℤ) - 1 := by omega
        have h3 : ¬ (True ∧ (False ∨ p + 1 = n)) := by simp [h1]
        rw [if_pos h3]
        simp only [h2, if_false]
        rfl
  · simp
    rfl

/-- `(p - 1) % n` for a position of the axis. -/
theorem pred_mod {n p : ℕ} (hp : p < n) :
    ((p : ℤ) + -1) % n = if p = 0 then (n : ℤ) - 1 else (p : ℤ) - 1 := by
  split_ifs with h
  · subst h
    rw [← Int.add_emod_right]
    exact Int.emod_eq_of_lt (by omega) (by omega) |>.trans (by omega)
  · exact Int.emod_eq_of_lt (by omega) (by omega)

theorem succ_mod {n p : ℕ} (hp : p < n) :
    ((p : ℤ) + 1) % n = if p + 1 = n then 0 else (p : ℤ) + 1 := by
  split_ifs with h
  · rw [← h]; push_cast; exact Int.emod_self
  · exact Int.emod_eq_of_lt (by omega) (by omega)

theorem same_mod {n p : ℕ} (hp : p < n) : ((p : ℤ) + 0) % n = p :=
  (Int.emod_eq_of_lt (by omega) (by omega)).trans (by omega)

/-- The values on one axis. -/
def axisVals (n : ℕ) (per : Bool) (p : ℕ) (x : ℤ) : Prop :=
  ∃ q : ℕ, q < n ∧ x = q ∧ AxisNear n per p q

theorem vals9 {n : ℕ} {per : Bool} {p : ℕ} (hp : p < n) (h : ¬ AtEnd n per p) (x : ℤ) :
    (x = ((p : ℤ) + -1) % n ∨ x = ((p : ℤ) + 0) % n ∨ x = ((p : ℤ) + 1) % n) ↔ axisVals n per p x := by
  rw [pred_mod hp, succ_mod hp, same_mod hp]
  unfold axisVals AxisNear
  unfold AtEnd at h
  simp only [abs_le]
  constructor
  · intro hx
    have h0 : 0 ≤ x ∧ x < n := by split_ifs at hx <;> omega
    obtain ⟨q, rfl⟩ := Int.eq_ofNat_of_zero_le h0.1
    refine ⟨q, by omega, rfl, ?_⟩
    cases per
    · simp at h
      split_ifs at hx <;> omega
    · simp only [true_and]
      split_ifs at hx <;> omega
  · rintro ⟨q, hq, rfl, hx⟩
    cases per
    · simp at h hx
      split_ifs <;> omega
    · simp only [true_and] at hx
      split_ifs <;> omega

theorem vals6a {n : ℕ} {per : Bool} (hp : 0 < n) (h : AtEnd n per 0) (x : ℤ) :
    (x = (((0 : ℕ) : ℤ) + 0) % n ∨ x = (((0 : ℕ) : ℤ) + 1) % n) ↔ axisVals n per 0 x := by
  rw [succ_mod hp, same_mod hp]
  unfold axisVals AxisNear
  rw [h.1]
  simp only [abs_le, Bool.false_eq_true, false_and, or_false]
  constructor
  · intro hx
    have h0 : 0 ≤ x ∧ x < n := by split_ifs at hx <;> omega
    obtain ⟨q, rfl⟩ := Int.eq_ofNat_of_zero_le h0.1
    exact ⟨q, by omega, rfl, by split_ifs at hx <;> omega⟩
  · rintro ⟨q, hq, rfl, hx⟩
    split_ifs <;> omega

theorem vals6b {n : ℕ} {per : Bool} {p : ℕ} (hp : p < n) (h0 : p ≠ 0) (h : AtEnd n per p) (x : ℤ) :
    (x = ((p : ℤ) + -1) % n ∨ x = ((p : ℤ) + 0) % n) ↔ axisVals n per p x := by
  rw [pred_mod hp, same_mod hp, if_neg h0]
  unfold axisVals AxisNear
  obtain ⟨h1, h2⟩ := h
  rw [h1]
  simp only [abs_le, Bool.false_eq_true, false_and, or_false]
  constructor
  · intro hx
    obtain ⟨q, rfl⟩ := Int.eq_ofNat_of_zero_le (show 0 ≤ x by omega)
    exact ⟨q, by omega, rfl, by omega⟩
  · rintro ⟨q, hq, rfl, hx⟩
    omega

/-- What the two axes of `update_neighborhood_IDs` give, when neither fails. -/
theorem near_zip {ny nx r c : ℕ} {lr tb : Bool} (hr : r < ny) (hc : c < nx)
    (h1 : ¬ (lr = false ∧ nx = 1)) :
    (AtEnd nx lr c ↔ AtEnd ny tb r) →
    ∃ l, nearIDs ny nx lr tb (idOf nx r c) = .ok l ∧
      ∀ j, j ∈ l ↔ ∃ x y, axisVals ny tb r x ∧ axisVals nx lr c y ∧ j = x * nx + y := by
  intro hiff
  unfold nearIDs
  rw [idOf_div hc, idOf_mod hc, axis_cols, axis_rows]
  by_cases hC : AtEnd nx lr c
  · have hR := hiff.1 hC
    simp only [hC, hR, not_true_eq_false, if_false]
    rw [if_neg (by rintro ⟨h, -⟩; exact h1 ⟨hC.1, h⟩)]
    by_cases hc0 : c = 0 <;> by_cases hr0 : r = 0
    · subst hc0; subst hr0
      refine ⟨_, rfl, fun j => ?_⟩
      simp only [← vals6a hr hR, ← vals6a hc hC, List.zipWith_cons_cons, List.zipWith_nil_right,
        List.mem_cons, List.not_mem_nil, or_false]
      constructor
      · rintro (h | h | h | h | h | h) <;> exact ⟨_, _, by simp, by simp, h⟩
      · rintro ⟨x, y, hx | hx, hy | hy, rfl⟩ <;> subst hx <;> subst hy <;> simp
    · subst hc0
      simp only [hr0, if_true, if_false]
      refine ⟨_, rfl, fun j => ?_⟩
      simp only [← vals6b hr hr0 hR, ← vals6a hc hC, List.zipWith_cons_cons, List.zipWith_nil_right,
        List.mem_cons, List.not_mem_nil, or_false]
      constructor
      · rintro (h | h | h | h | h | h) <;> exact ⟨_, _, by simp, by simp, h⟩
      · rintro ⟨x, y, hx | hx, hy | hy, rfl⟩ <;> subst hx <;> subst hy <;> simp
    · subst hr0
      simp only [hc0, if_true, if_false]
      refine ⟨_, rfl, fun j => ?_⟩
      simp only [← vals6a hr hR, ← vals6b hc hc0 hC, List.zipWith_cons_cons, List.zipWith_nil_right,
        List.mem_cons, List.not_mem_nil, or_false]
      constructor
      · rintro (h | h | h | h | h | h) <;> exact ⟨_, _, by simp, by simp, h⟩
      · rintro ⟨x, y, hx | hx, hy | hy, rfl⟩ <;> subst hx <;> subst hy <;> simp
    · simp only [hc0, hr0, if_false]
      refine ⟨_, rfl, fun j => ?_⟩
      simp only [← vals6b hr hr0 hR, ← vals6b hc hc0 hC, List.zipWith_cons_cons, List.zipWith_nil_right,
        List.mem_cons, List.not_mem_nil, or_false]
      constructor
      · rintro (h | h | h | h | h | h) <;> exact ⟨_, _, by simp, by simp, h⟩
      · rintro ⟨x, y, hx | hx, hy | hy, rfl⟩ <;> subst hx <;> subst hy <;> simp
  · have hR : ¬ AtEnd ny tb r := fun h => hC (hiff.2 h)
    simp only [hC, hR, not_false_eq_true, if_true]
    refine ⟨_, rfl, fun j => ?_⟩
    simp only [← vals9 hr hR, ← vals9 hc hC, List.zipWith_cons_cons, List.zipWith_nil_right,
      List.mem_cons, List.not_mem_nil, or_false]
    constructor
    · rintro (h | h | h | h | h | h | h | h | h) <;> exact ⟨_, _, by simp, by simp, h⟩
    · rintro ⟨x, y, hx | hx | hx, hy | hy | hy, rfl⟩ <;> subst hx <;> subst hy <;> simp

theorem near_ok_or {ny nx r c : ℕ} {lr tb : Bool} (hc : c < nx) :
    ((lr = false ∧ nx = 1) ∨ ¬ (AtEnd nx lr c ↔ AtEnd ny tb r) →
      ∃ m, nearIDs ny nx lr tb (idOf nx r c) = .error m) := by
  intro h
  unfold nearIDs
  rw [idOf_div hc, idOf_mod hc, axis_cols, axis_rows]
  rcases h with ⟨rfl, rfl⟩ | h
  · have hc0 : c = 0 := by omega
    subst hc0
    have hC : AtEnd 1 false 0 := ⟨rfl, Or.inl rfl⟩
    simp only [hC, not_true_eq_false, if_false, and_self, if_true]
    exact ⟨_, rfl⟩
  · by_cases hC : AtEnd nx lr c
    · have hR : ¬ AtEnd ny tb r := fun hR => h ⟨fun _ => hR, fun _ => hC⟩
      simp only [hC, hR, not_true_eq_false, if_false, not_false_eq_true, if_true]
      split_ifs
      · exact ⟨_, rfl⟩
      · exact ⟨_, rfl⟩
      · exact ⟨_, rfl⟩
    · have hR : AtEnd ny tb r := by
        by_contra hR
        exact h ⟨fun a => absurd a hC, fun a => absurd a hR⟩
      simp only [hC, hR, not_true_eq_false, if_false, not_false_eq_true, if_true]
      split_ifs
      · exact ⟨_, rfl⟩
      · exact ⟨_, rfl⟩

/-- Where it is defined, the neighbourhood of a cell holds exactly the cells of the grid next to
it (and itself), wrapping around on periodic axes only. -/
theorem C169_neighborhood_partial {ny nx r c : ℕ} {lr tb : Bool} (hr : r < ny) (hc : c < nx)
    {l : List ℤ} (h : nearIDs ny nx lr tb (idOf nx r c) = .ok l) (j : ℤ) :
    j ∈ l ↔ ∃ r' c' : ℕ, r' < ny ∧ c' < nx ∧ j = idOf nx r' c' ∧
      AxisNear ny tb r r' ∧ AxisNear nx lr c c' := by
  have hn : ¬ ((lr = false ∧ nx = 1) ∨ ¬ (AtEnd nx lr c ↔ AtEnd ny tb r)) := by
    intro hn
    obtain ⟨m, hm⟩ := near_ok_or hc hn
    rw [h] at hm; cases hm
  push Not at hn
  obtain ⟨l', hl', hm⟩ := near_zip (tb := tb) hr hc (by simpa using hn.1)
    (by have := hn.2; tauto)
  rw [h] at hl'
  cases hl'
  rw [hm]
  constructor
  · rintro ⟨x, y, ⟨r', hr', rfl, h1⟩, ⟨c', hc', rfl, h2⟩, rfl⟩
    exact ⟨r', c', hr', hc', rfl, h1, h2⟩
  · rintro ⟨r', c', hr', hc', rfl, h1, h2⟩
    exact ⟨r', c', ⟨r', hr', rfl, h1⟩, ⟨c', hc', rfl, h2⟩, rfl⟩

/-- The call fails exactly on the sides of the grid that are not periodic, corners excepted, and
everywhere when there is a single column and the columns are not periodic. -/
theorem C169_fails_iff {ny nx r c : ℕ} {lr tb : Bool} (hr : r < ny) (hc : c < nx) :
    (∃ m, nearIDs ny nx lr tb (idOf nx r c) = .error m) ↔
      (lr = false ∧ nx = 1) ∨ ¬ (AtEnd nx lr c ↔ AtEnd ny tb r) := by
  refine ⟨?_, near_ok_or hc⟩
  rintro ⟨m, hm⟩
  by_contra hn
  push Not at hn
  obtain ⟨l', hl', -⟩ := near_zip (tb := tb) hr hc (by simpa using hn.1)
    (by have := hn.2; tauto)
  rw [hl'] at hm; cases hm

/-- On a side of a grid of 4 x 5 cells that is not periodic, away from the corners, the
neighbourhood cannot be computed; in a corner and inside it can. -/
theorem C169_side_violated : (∃ m, nearIDs 4 5 false false (idOf 5 1 0) = .error m) ∧
    (∃ m, nearIDs 4 5 false false (idOf 5 0 2) = .error m) ∧
    nearIDs 4 5 false false (idOf 5 0 0) = .ok [0, 1, 0, 6, 5, 6] ∧
    nearIDs 4 5 false false (idOf 5 1 1) = .ok [0, 1, 2, 5, 6, 7, 10, 11, 12] ∧
    nearIDs 4 5 true true (idOf 5 0 0) = .ok [19, 15, 16, 4, 0, 1, 9, 5, 6] := by
  refine ⟨⟨_, rfl⟩, ⟨_, rfl⟩, by decide +kernel, by decide +kernel, by decide +kernel⟩

theorem not_atEnd_periodic (n p : ℕ) : ¬ AtEnd n true p := by simp [AtEnd]

/-- The IDs with all their neighbours added: exactly the cells next to one of the given cells (or
given), where the grid is taken to wrap around in both directions whatever the settings; each once,
in increasing order. -/
theorem C169_add_neighbors {ny nx : ℕ} {ids : List ℤ}
    (hids : ∀ i ∈ ids, 0 ≤ i ∧ i < (ny * nx : ℕ)) :
    (addNeighborsToIDs ny nx ids).Pairwise (· < ·) ∧
    ∀ j, j ∈ addNeighborsToIDs ny nx ids ↔ ∃ r c r' c' : ℕ, r < ny ∧ c < nx ∧ r' < ny ∧ c' < nx ∧
      idOf nx r c ∈ ids ∧ j = idOf nx r' c' ∧ AxisNear ny true r r' ∧ AxisNear nx true c c' := by
  refine ⟨npUnique_sorted _, fun j => ?_⟩
  unfold addNeighborsToIDs
  simp only [mem_npUnique, List.mem_append, List.mem_flatMap, List.mem_map]
  constructor
  · rintro (h | ⟨d, hd, i, hi, rfl⟩)
    · obtain ⟨r, c, hr, hc, rfl⟩ := exists_idOf (hids j h).1 (hids j h).2
      exact ⟨r, c, r, c, hr, hc, hr, hc, h, rfl, Or.inl (by simp), Or.inl (by simp)⟩
    · obtain ⟨r, c, hr, hc, rfl⟩ := exists_idOf (hids i hi).1 (hids i hi).2
      rw [idOf_div hc, idOf_mod hc]
      have h1 : d.1 = -1 ∨ d.1 = 0 ∨ d.1 = 1 := by
        revert hd; simp only [incs8]; intro hd; fin_cases hd <;> simp
      have h2 : d.2 = -1 ∨ d.2 = 0 ∨ d.2 = 1 := by
        revert hd; simp only [incs8]; intro hd; fin_cases hd <;> simp
      obtain ⟨r', hr', e1, n1⟩ := (vals9 hr (not_atEnd_periodic ny r) (((r : ℤ) + d.1) % ny)).1
        (by rcases h1 with h | h | h <;> rw [h] <;> simp)
      obtain ⟨c', hc', e2, n2⟩ := (vals9 hc (not_atEnd_periodic nx c) (((c : ℤ) + d.2) % nx)).1
        (by rcases h2 with h | h | h <;> rw [h] <;> simp)
      exact ⟨r, c, r', c', hr, hc, hr', hc', hi, by rw [e1, e2]; rfl, n1, n2⟩
  · rintro ⟨r, c, r', c', hr, hc, hr', hc', hi, rfl, n1, n2⟩
    have e1 := (vals9 hr (not_atEnd_periodic ny r) (r' : ℤ)).2 ⟨r', hr', rfl, n1⟩
    have e2 := (vals9 hc (not_atEnd_periodic nx c) (c' : ℤ)).2 ⟨c', hc', rfl, n2⟩
    have key : ∀ a b : ℤ, (r' : ℤ) = ((r : ℤ) + a) % ny → (c' : ℤ) = ((c : ℤ) + b) % nx →
        (a, b) ∈ incs8 → idOf nx r' c' ∈ ids ∨ ∃ d ∈ incs8, ∃ i ∈ ids,
          (i / (nx : ℤ) + d.1) % (ny : ℤ) * (nx : ℤ) + (i % (nx : ℤ) + d.2) % (nx : ℤ) = idOf nx r' c' := by
      intro a b ha hb hab
      refine Or.inr ⟨(a, b), hab, _, hi, ?_⟩
      rw [idOf_div hc, idOf_mod hc, ← ha, ← hb]; rfl
    rcases e1 with h1 | h1 | h1 <;> rcases e2 with h2 | h2 | h2
    all_goals first
      | exact key _ _ h1 h2 (by decide)
      | (left
         rw [same_mod hr] at h1; rw [same_mod hc] at h2
         have e1 : r' = r := by exact_mod_cast h1
         have e2 : c' = c := by exact_mod_cast h2
         rw [e1, e2]; exact hi)

example : addNeighborsToIDs 3 4 [0] = [0, 1, 3, 4, 5, 7, 8, 9, 11] := by decide +kernel

end D8Local
