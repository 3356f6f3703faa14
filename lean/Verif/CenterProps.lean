import Verif.CenterModel
import Mathlib.Tactic.Linarith
import Mathlib.Tactic.NormNum
import Mathlib.Tactic.Positivity

/-!
# Sites next to the centers of clusters: C298
-/

set_option autoImplicit false

namespace CenterSpec

open Center (Ind)

/-- The square of the Euclidean distance. -/
noncomputable def euclid (c x : Ind) : ℝ := (x.fs - c.fs) ^ 2 + (x.phi - c.phi) ^ 2 + (x.delta - c.delta) ^ 2

/-- The sum of the fourth powers of the differences. -/
noncomputable def fourth (c x : Ind) : ℝ := (x.fs - c.fs) ^ 4 + (x.phi - c.phi) ^ 4 + (x.delta - c.delta) ^ 4

/-- The ID is that of the first site for which the measure is smallest. -/
def First {I : Type} (f : Ind → ℝ) (sites : List (I × Ind)) (id : I) : Prop :=
  ∃ (i : ℕ) (x : Ind), sites[i]? = some (id, x) ∧ (∀ s ∈ sites, f x ≤ f s.2) ∧
    ∀ j < i, ∀ s, sites[j]? = some s → f x < f s.2

end CenterSpec

namespace Center

open CenterSpec

theorem dist_eq (c x : Ind) : dist c x = Real.sqrt (fourth c x) := by
  unfold dist fourth
  congr 1
  simp only [← pow_mul]

theorem fourth_nonneg (c x : Ind) : 0 ≤ fourth c x := by unfold fourth; positivity

theorem dist_le {c x y : Ind} : dist c x ≤ dist c y ↔ fourth c x ≤ fourth c y := by
  rw [dist_eq, dist_eq, Real.sqrt_le_sqrt_iff (fourth_nonneg c y)]

theorem dist_lt {c x y : Ind} : dist c x < dist c y ↔ fourth c x < fourth c y := by
  rw [← not_le, dist_le, not_le]

theorem argmin_spec (l : List ℝ) (h : l ≠ []) : l[(argmin l).1]? = some (argmin l).2 ∧
    (∀ d ∈ l, (argmin l).2 ≤ d) ∧ ∀ j < (argmin l).1, ∀ d, l[j]? = some d → (argmin l).2 < d := by
  induction l with
  | nil => exact absurd rfl h
  | cons d r ih =>
    cases r with
    | nil => simp [argmin]
    | cons e r =>
      obtain ⟨h1, h2, h3⟩ := ih (by simp)
      by_cases hd : d ≤ (argmin (e :: r)).2
      · have e0 : argmin (d :: e :: r) = (0, d) := by rw [argmin]; simp only [if_pos hd]
        rw [e0]
        refine ⟨rfl, ?_, by simp⟩
        intro x hx
        rcases List.mem_cons.1 hx with rfl | hx
        · exact le_refl _
        · exact hd.trans (h2 x hx)
      · have e0 : argmin (d :: e :: r) = ((argmin (e :: r)).1 + 1, (argmin (e :: r)).2) := by
          rw [argmin]; simp only [if_neg hd]
        rw [e0]
        refine ⟨by simpa using h1, ?_, ?_⟩
        · intro x hx
          rcases List.mem_cons.1 hx with rfl | hx
          · exact (not_le.1 hd).le
          · exact h2 x hx
        · intro j hj x hx
          cases j with
          | zero => simp only [List.getElem?_cons_zero, Option.some.injEq] at hx; exact hx ▸ not_le.1 hd
          | succ j => exact h3 j (by simpa using hj) x (by simpa using hx)

/-- **C298**, part that holds.  If the number of places is that of the sites, the ID is found, and it is that of the
first site with the smallest sum of fourth powers. -/
theorem C298_fourth_partial {I : Type} (c : Ind) (sites : List (I × Ind)) (h : sites ≠ []) :
    ∃ id, closest sites.length c sites = .ok id ∧ First (fourth c) sites id := by
  have hne : sites.map (fun s => dist c s.2) ≠ [] := by simpa using h
  obtain ⟨h1, h2, h3⟩ := argmin_spec _ hne
  generalize hi : (argmin (sites.map (fun s => dist c s.2))).1 = i at h1 h3
  rw [List.getElem?_map] at h1
  obtain ⟨⟨id, x⟩, hs, hx⟩ := Option.map_eq_some_iff.1 h1
  refine ⟨id, ?_, i, x, hs, ?_, ?_⟩
  · unfold closest
    rw [if_neg (lt_irrefl _), if_neg (by simpa using h), Nat.sub_self, List.replicate_zero, List.append_nil, hi, hs]
  · intro s hs'
    have := h2 (dist c s.2) (List.mem_map.2 ⟨s, hs', rfl⟩)
    rw [← hx] at this
    exact dist_le.1 this
  · intro j hj s hs'
    have := h3 j hj (dist c s.2) (by rw [List.getElem?_map, hs']; rfl)
    rw [← hx] at this
    exact dist_lt.1 this

/-- **C298**, part that holds.  The Euclidean distance of the site that is found is at most the fourth root of three
times that of any other site. -/
theorem C298_bound_partial {I : Type} (c : Ind) (sites : List (I × Ind)) (id : I)
    (h : closest sites.length c sites = .ok id) :
    ∃ x, (id, x) ∈ sites ∧ ∀ s ∈ sites, (euclid c x) ^ 2 ≤ 3 * (euclid c s.2) ^ 2 := by
  have hne : sites ≠ [] := by
    rintro rfl
    simp [closest] at h
  obtain ⟨id', h1, i, x, h2, h3, -⟩ := C298_fourth_partial c sites hne
  rw [h1] at h
  cases h
  refine ⟨x, List.mem_of_getElem? h2, fun s hs => ?_⟩
  have a := h3 s hs
  have b1 : (euclid c x) ^ 2 ≤ 3 * fourth c x := by
    unfold euclid fourth
    generalize (x.fs - c.fs) = p
    generalize (x.phi - c.phi) = q
    generalize (x.delta - c.delta) = r
    nlinarith [sq_nonneg (p ^ 2 - q ^ 2), sq_nonneg (p ^ 2 - r ^ 2), sq_nonneg (q ^ 2 - r ^ 2)]
  have b2 : fourth c s.2 ≤ (euclid c s.2) ^ 2 := by
    unfold euclid fourth
    generalize (s.2.fs - c.fs) = p
    generalize (s.2.phi - c.phi) = q
    generalize (s.2.delta - c.delta) = r
    nlinarith [mul_nonneg (sq_nonneg p) (sq_nonneg q), mul_nonneg (sq_nonneg p) (sq_nonneg r),
      mul_nonneg (sq_nonneg q) (sq_nonneg r)]
  linarith

example : ∃ id : ℕ, closest 1 ⟨0, 0, 0⟩ [(7, ⟨1, 0, 0⟩)] = .ok id := by
  obtain ⟨id, h, -⟩ := C298_fourth_partial (⟨0, 0, 0⟩ : Ind) [(7, ⟨1, 0, 0⟩)] (by simp)
  exact ⟨id, h⟩

/-- **C298, negated.**  The site that is found need not be the one with the smallest Euclidean distance. -/
theorem C298_euclid_violated : ∃ (c : Ind) (sites : List (ℕ × Ind)) (id : ℕ),
    closest sites.length c sites = .ok id ∧ ¬ First (euclid c) sites id := by
  refine ⟨⟨0, 0, 0⟩, [(1, ⟨1, 0, 0⟩), (2, ⟨4 / 5, 4 / 5, 0⟩)], ?_⟩
  obtain ⟨id, h, i, x, h1, h2, -⟩ := C298_fourth_partial (⟨0, 0, 0⟩ : Ind)
    [(1, ⟨1, 0, 0⟩), (2, ⟨4 / 5, 4 / 5, 0⟩)] (by simp)
  refine ⟨id, h, ?_⟩
  have hid : id = 2 := by
    have := List.mem_of_getElem? h1
    simp only [List.mem_cons, Prod.mk.injEq, List.not_mem_nil, or_false] at this
    rcases this with ⟨-, rfl⟩ | ⟨e, -⟩
    · have := h2 (2, ⟨4 / 5, 4 / 5, 0⟩) (by simp)
      unfold fourth at this
      norm_num at this
    · exact e
  subst hid
  rintro ⟨j, y, k1, k2, -⟩
  have := List.mem_of_getElem? k1
  simp only [List.mem_cons, Prod.mk.injEq, List.not_mem_nil, or_false] at this
  rcases this with ⟨e, -⟩ | ⟨-, rfl⟩
  · exact absurd e (by decide)
  · have := k2 (1, ⟨1, 0, 0⟩) (by simp)
    unfold euclid at this
    norm_num at this

/-- **C298, negated.**  If the array has more places than there are sites, the search ends with an error, unless a site
lies exactly at the center; so it does for fewer than 1451 sites of the second data set.  If it has fewer places, it
ends with an error always. -/
theorem C298_places_violated {I : Type} (n : ℕ) (c : Ind) (sites : List (I × Ind)) (id : I)
    (h : n < sites.length ∨ (sites.length < n ∧ ∀ s ∈ sites, 0 < euclid c s.2)) : closest n c sites ≠ .ok id := by
  intro hk
  unfold closest at hk
  rcases h with h | ⟨h, hs⟩
  · rw [if_pos h] at hk; cases hk
  rw [if_neg (by omega), if_neg (by omega)] at hk
  set l := sites.map (fun s => dist c s.2) ++ List.replicate (n - sites.length) 0 with hl
  have h0 : (0 : ℝ) ∈ l := by
    rw [hl]
    apply List.mem_append_right
    rw [List.mem_replicate]
    exact ⟨by omega, rfl⟩
  obtain ⟨h1, h2, -⟩ := argmin_spec l (List.ne_nil_of_mem h0)
  split at hk
  · rename_i s hget
    have hd : l[(argmin l).1]? = some (dist c s.2) := by
      rw [hl, List.getElem?_append_left, List.getElem?_map, hget]
      · rfl
      · rw [List.length_map]; exact (List.getElem?_eq_some_iff.1 hget).1
    rw [h1] at hd
    have e := Option.some.inj hd
    have := h2 0 h0
    rw [e, dist_eq] at this
    have hp := hs s (List.mem_of_getElem? hget)
    have b1 : (euclid c s.2) ^ 2 ≤ 3 * fourth c s.2 := by
      unfold euclid fourth
      generalize (s.2.fs - c.fs) = p
      generalize (s.2.phi - c.phi) = q
      generalize (s.2.delta - c.delta) = r
      nlinarith [sq_nonneg (p ^ 2 - q ^ 2), sq_nonneg (p ^ 2 - r ^ 2), sq_nonneg (q ^ 2 - r ^ 2)]
    have : 0 < fourth c s.2 := by
      have : 0 < (euclid c s.2) ^ 2 := by positivity
      linarith
    exact absurd (Real.sqrt_pos.2 this) (by linarith)
  · cases hk

end Center
