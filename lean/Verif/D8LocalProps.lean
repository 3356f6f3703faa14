import Verif.D8LocalModel
import Verif.D8IdProps
import Mathlib.Tactic.Ring
import Mathlib.Tactic.Linarith

/-!
# Properties of the local D8 component

Cells are given by their row and column, IDs are `row * nx + col`.
-/

set_option autoImplicit false

namespace D8Local

open D8 D8Spec

/-! ## Specification vocabulary -/

/-- The ID of the cell in row `r`, column `c`. -/
def idOf (nx r c : ℕ) : ℤ := (r : ℤ) * nx + c

/-- The two cells coincide or touch, without wrapping around. -/
def Touch (r c r' c' : ℕ) : Prop := |(r : ℤ) - r'| ≤ 1 ∧ |(c : ℤ) - c'| ≤ 1

instance (r c r' c' : ℕ) : Decidable (Touch r c r' c') := by unfold Touch; infer_instance

/-! ## Lemmas -/

theorem idOf_div {nx r c : ℕ} (hc : c < nx) : idOf nx r c / nx = r := by
  unfold idOf
  rw [Int.add_comm, Int.add_mul_ediv_right _ _ (by omega)]
  rw [Int.ediv_eq_zero_of_lt (by omega) (by omega)]; simp

theorem idOf_mod {nx r c : ℕ} (hc : c < nx) : idOf nx r c % nx = c := by
  unfold idOf
  rw [Int.add_comm, Int.add_mul_emod_self_right]
  exact Int.emod_eq_of_lt (by omega) (by omega)

theorem idOf_inj {nx r c r' c' : ℕ} (hc : c < nx) (hc' : c' < nx)
    (h : idOf nx r c = idOf nx r' c') : r = r' ∧ c = c' := by
  have h1 := congrArg (· / (nx : ℤ)) h
  have h2 := congrArg (· % (nx : ℤ)) h
  simp only [idOf_div hc, idOf_div hc', idOf_mod hc, idOf_mod hc'] at h1 h2
  omega

theorem idOf_lt {ny nx r c : ℕ} (hr : r < ny) (hc : c < nx) :
    0 ≤ idOf nx r c ∧ idOf nx r c < (ny * nx : ℕ) := by
  unfold idOf
  refine ⟨by positivity, ?_⟩
  have : r * nx + c < ny * nx := by nlinarith
  exact_mod_cast this

theorem exists_idOf {ny nx : ℕ} {i : ℤ} (h0 : 0 ≤ i) (h : i < (ny * nx : ℕ)) :
    ∃ r c : ℕ, r < ny ∧ c < nx ∧ i = idOf nx r c := by
  obtain ⟨n, rfl⟩ := Int.eq_ofNat_of_zero_le h0
  have hn : n < ny * nx := by exact_mod_cast h
  have hx : 0 < nx := Nat.pos_of_ne_zero (by rintro rfl; simp at hn)
  refine ⟨n / nx, n % nx, (Nat.div_lt_iff_lt_mul hx).2 hn, Nat.mod_lt _ hx, ?_⟩
  unfold idOf
  exact_mod_cast (Nat.div_add_mod' n nx).symm

theorem mem_npUnique {l : List ℤ} {i : ℤ} : i ∈ npUnique l ↔ i ∈ l := by
  unfold npUnique
  rw [List.mem_dedup, List.mem_insertionSort]

theorem npUnique_sorted (l : List ℤ) : (npUnique l).Pairwise (· < ·) := by
  unfold npUnique
  have h1 := (List.pairwise_insertionSort (r := ((· ≤ ·) : ℤ → ℤ → Prop)) l).sublist
    (List.dedup_sublist _)
  have h2 := List.nodup_dedup (l.insertionSort (· ≤ ·))
  refine (h1.and h2).imp ?_
  rintro a b ⟨h, h'⟩
  omega

theorem mem_incs9 {d : ℤ × ℤ} : d ∈ incs9 ↔ |d.1| ≤ 1 ∧ |d.2| ≤ 1 := by
  obtain ⟨a, b⟩ := d
  constructor
  · intro h
    simp only [incs9, List.mem_cons, Prod.mk.injEq, List.not_mem_nil, or_false] at h
    simp only [abs_le]
    omega
  · rintro ⟨h1, h2⟩
    simp only [abs_le] at h1 h2
    simp only [incs9, List.mem_cons, Prod.mk.injEq, List.not_mem_nil, or_false]
    omega

theorem mem_shifted {nx : ℕ} {ids : List ℤ} {p : ℤ × ℤ} :
    p ∈ shifted nx ids ↔ ∃ i ∈ ids, |p.1 - i / nx| ≤ 1 ∧ |p.2 - i % nx| ≤ 1 := by
  have key : ∀ i : ℤ, (∃ d ∈ incs9, (i / nx + d.1, i % nx + d.2) = p) ↔
      |p.1 - i / nx| ≤ 1 ∧ |p.2 - i % nx| ≤ 1 := by
    intro i
    constructor
    · rintro ⟨d, hd, rfl⟩
      have := mem_incs9.1 hd
      simpa using this
    · intro h
      exact ⟨(p.1 - i / nx, p.2 - i % nx), mem_incs9.2 h, by ext <;> simp⟩
  unfold shifted
  split
  · rename_i i
    simp only [List.mem_map, List.mem_singleton, exists_eq_left]
    exact key i
  · simp only [List.mem_flatMap, List.mem_map]
    constructor
    · rintro ⟨d, hd, i, hi, rfl⟩
      exact ⟨i, hi, (key i).1 ⟨d, hd, rfl⟩⟩
    · rintro ⟨i, hi, h⟩
      obtain ⟨d, hd, e⟩ := (key i).2 h
      exact ⟨d, hd, i, hi, e⟩

theorem mem_cutIfAny {α : Type*} {p : α → Bool} {l : List α} {x : α} (y : α) (hy : y ∈ l)
    (hp : p y = true) : x ∈ cutIfAny p l ↔ x ∈ l ∧ p x = true := by
  unfold cutIfAny
  have : (l.filter p).length > 0 := List.length_pos_of_mem (List.mem_filter.2 ⟨hy, hp⟩)
  rw [if_pos this, List.mem_filter]

theorem shifted_nil (nx : ℕ) : shifted nx [] = [] := by simp [shifted]

/-- Membership in the neighbourhood of a list of cells of the grid. -/
theorem mem_near {ny nx : ℕ} {ids : List ℤ} (hids : ∀ i ∈ ids, 0 ≤ i ∧ i < (ny * nx : ℕ)) {j : ℤ} :
    j ∈ getNeighbors ny nx ids true ↔ ∃ r c r' c' : ℕ, r < ny ∧ c < nx ∧ r' < ny ∧ c' < nx ∧
      j = idOf nx r c ∧ idOf nx r' c' ∈ ids ∧ Touch r c r' c' := by
  have expand : getNeighbors ny nx ids true = npUnique
      ((cutIfAny (fun p : ℤ × ℤ => decide (p.2 > -1 ∧ p.2 < (nx : ℤ)))
        (cutIfAny (fun p : ℤ × ℤ => decide (p.1 > -1 ∧ p.1 < (ny : ℤ))) (shifted nx ids))).map
        (fun p : ℤ × ℤ => p.1 * (nx : ℤ) + p.2)) := by
    simp [getNeighbors]
  rw [expand, mem_npUnique, List.mem_map]
  rcases ids with _ | ⟨i0, tl⟩
  · simp [shifted_nil, cutIfAny]
  · obtain ⟨r0, c0, hr0, hc0, e0⟩ := exists_idOf (hids i0 List.mem_cons_self).1
      (hids i0 List.mem_cons_self).2
    have hm : ((r0 : ℤ), (c0 : ℤ)) ∈ shifted nx (i0 :: tl) := by
      rw [mem_shifted]
      refine ⟨i0, List.mem_cons_self, ?_, ?_⟩
      · simp [e0, idOf_div hc0]
      · simp [e0, idOf_mod hc0]
    have hp1 : decide (((r0 : ℤ), (c0 : ℤ)).1 > -1 ∧ ((r0 : ℤ), (c0 : ℤ)).1 < (ny : ℤ)) = true := by
      simp only [decide_eq_true_eq]; omega
    have hp2 : decide (((r0 : ℤ), (c0 : ℤ)).2 > -1 ∧ ((r0 : ℤ), (c0 : ℤ)).2 < (nx : ℤ)) = true := by
      simp only [decide_eq_true_eq]; omega
    have hm2 := (mem_cutIfAny (p := fun p : ℤ × ℤ => decide (p.1 > -1 ∧ p.1 < (ny : ℤ)))
      (x := ((r0 : ℤ), (c0 : ℤ))) _ hm hp1).2 ⟨hm, hp1⟩
    constructor
    · rintro ⟨p, hp, rfl⟩
      rw [mem_cutIfAny _ hm2 hp2, mem_cutIfAny _ hm hp1, mem_shifted] at hp
      obtain ⟨⟨⟨i, hi, h1, h2⟩, h3⟩, h4⟩ := hp
      obtain ⟨r', c', hr', hc', rfl⟩ := exists_idOf (hids i hi).1 (hids i hi).2
      obtain ⟨a, b⟩ := p
      simp only [decide_eq_true_eq] at h3 h4
      obtain ⟨r, rfl⟩ := Int.eq_ofNat_of_zero_le (show 0 ≤ a by omega)
      obtain ⟨c, rfl⟩ := Int.eq_ofNat_of_zero_le (show 0 ≤ b by omega)
      rw [idOf_div hc'] at h1
      rw [idOf_mod hc'] at h2
      exact ⟨r, c, r', c', by omega, by omega, hr', hc', rfl, hi, h1, h2⟩
    · rintro ⟨r, c, r', c', hr, hc, hr', hc', rfl, hi, h1, h2⟩
      refine ⟨((r : ℤ), (c : ℤ)), ?_, rfl⟩
      rw [mem_cutIfAny _ hm2 hp2, mem_cutIfAny _ hm hp1, mem_shifted]
      refine ⟨⟨⟨_, hi, ?_, ?_⟩, ?_⟩, ?_⟩
      · rw [idOf_div hc']; exact h1
      · rw [idOf_mod hc']; exact h2
      · simp only [decide_eq_true_eq]; omega
      · simp only [decide_eq_true_eq]; omega

theorem getNeighbors_false (ny nx : ℕ) (ids : List ℤ) :
    getNeighbors ny nx ids false = (getNeighbors ny nx ids true).filter (fun i => i ∉ ids) := by
  simp [getNeighbors]

/-! ## C166: neighbours -/

/-- For any list of cells of the grid, the neighbourhood holds exactly the cells of the grid that
are in the list or touch one of them (no wrapping around), each once, in increasing order; without
the option, exactly those of them that are not in the list. -/
theorem C166_neighbors {ny nx : ℕ} {ids : List ℤ} (hids : ∀ i ∈ ids, 0 ≤ i ∧ i < (ny * nx : ℕ)) :
    (∀ j, j ∈ getNeighbors ny nx ids true ↔ ∃ r c r' c' : ℕ, r < ny ∧ c < nx ∧ r' < ny ∧ c' < nx ∧
      j = idOf nx r c ∧ idOf nx r' c' ∈ ids ∧ Touch r c r' c') ∧
    (∀ j, j ∈ getNeighbors ny nx ids false ↔ j ∈ getNeighbors ny nx ids true ∧ j ∉ ids) ∧
    (getNeighbors ny nx ids true).Pairwise (· < ·) ∧
    (getNeighbors ny nx ids false).Pairwise (· < ·) := by
  have hs : (getNeighbors ny nx ids true).Pairwise (· < ·) := by
    simp only [getNeighbors, if_true]
    exact npUnique_sorted _
  refine ⟨fun j => mem_near hids, fun j => ?_, hs, ?_⟩
  · rw [getNeighbors_false, List.mem_filter]; simp
  · rw [getNeighbors_false]
    exact hs.sublist List.filter_sublist

/-- The two cells 0 and 5 of a grid with 3 rows of 4: corner and interior. -/
example : (∀ i ∈ ([0, 5] : List ℤ), 0 ≤ i ∧ i < ((3 * 4 : ℕ) : ℤ)) ∧
    getNeighbors 3 4 [0, 5] true = [0, 1, 2, 4, 5, 6, 8, 9, 10] ∧
    getNeighbors 3 4 [0, 5] false = [1, 2, 4, 6, 8, 9, 10] ∧
    getNeighbors 3 4 [7] false = [2, 3, 6, 10, 11] := by decide +kernel

theorem exists_touch {ny nx r c : ℕ} (h : 2 ≤ ny * nx) (hr : r < ny) (hc : c < nx) :
    ∃ r' c' : ℕ, r' < ny ∧ c' < nx ∧ (r', c') ≠ (r, c) ∧ Touch r' c' r c := by
  unfold Touch
  simp only [abs_le]
  by_cases h1 : c + 1 < nx
  · exact ⟨r, c + 1, hr, h1, by simp, by omega⟩
  by_cases h2 : 0 < c
  · exact ⟨r, c - 1, hr, by omega, by simp; omega, by omega⟩
  have hnx : nx = 1 := by omega
  subst hnx
  by_cases h3 : r + 1 < ny
  · exact ⟨r + 1, c, h3, hc, by simp, by omega⟩
  · exact ⟨r - 1, c, by omega, hc, by simp; omega, by omega⟩

/-- With two or more cells in the grid, every cell has a neighbour. -/
theorem C166_has_neighbor {ny nx r c : ℕ} (h : 2 ≤ ny * nx) (hr : r < ny) (hc : c < nx) :
    getNeighbors ny nx [idOf nx r c] false ≠ [] := by
  have hids : ∀ i ∈ [idOf nx r c], 0 ≤ i ∧ i < (ny * nx : ℕ) := by
    intro i hi; rw [List.mem_singleton.1 hi]; exact idOf_lt hr hc
  obtain ⟨r', c', hr', hc', hne, ht⟩ := exists_touch h hr hc
  have : idOf nx r' c' ∈ getNeighbors ny nx [idOf nx r c] false := by
    rw [(C166_neighbors hids).2.1, mem_near hids]
    refine ⟨⟨r', c', r, c, hr', hc', hr, hc, rfl, List.mem_singleton.2 rfl, ht⟩, ?_⟩
    intro hm
    have := idOf_inj hc' hc (List.mem_singleton.1 hm)
    exact hne (by rw [this.1, this.2])
  exact List.ne_nil_of_mem this

/-! ## C167: pits -/

section
variable {K : Type*} [LinearOrder K]

/-- The cell is reported as a pit exactly when every other cell that touches it is strictly
higher. -/
theorem C167_pit {ny nx r c : ℕ} (hr : r < ny) (hc : c < nx) (z : ℤ → K) :
    isAPit ny nx z (idOf nx r c) = true ↔
      ∀ r' c' : ℕ, r' < ny → c' < nx → (r', c') ≠ (r, c) → Touch r' c' r c →
        z (idOf nx r c) < z (idOf nx r' c') := by
  have hids : ∀ i ∈ [idOf nx r c], 0 ≤ i ∧ i < (ny * nx : ℕ) := by
    intro i hi; rw [List.mem_singleton.1 hi]; exact idOf_lt hr hc
  unfold isAPit
  rw [decide_eq_true_eq, List.length_eq_zero_iff, List.filter_eq_nil_iff]
  constructor
  · intro h r' c' hr' hc' hne ht
    have hm : idOf nx r' c' ∈ getNeighbors ny nx [idOf nx r c] false := by
      rw [(C166_neighbors hids).2.1, mem_near hids]
      refine ⟨⟨r', c', r, c, hr', hc', hr, hc, rfl, List.mem_singleton.2 rfl, ht⟩, ?_⟩
      intro hm
      have := idOf_inj hc' hc (List.mem_singleton.1 hm)
      exact hne (by rw [this.1, this.2])
    have := h _ hm
    simpa using this
  · intro h j hj
    rw [(C166_neighbors hids).2.1, mem_near hids] at hj
    obtain ⟨⟨r', c', r2, c2, hr', hc', hr2, hc2, rfl, hm, ht⟩, hnot⟩ := hj
    obtain ⟨rfl, rfl⟩ := idOf_inj hc2 hc (List.mem_singleton.1 hm)
    have := h r' c' hr' hc' (by
      intro he
      rw [Prod.mk.injEq] at he
      exact hnot (by rw [he.1, he.2]; exact List.mem_singleton.2 rfl)) ht
    simpa using this

/-- An interior pit is a pit that is not on the border of the grid. -/
theorem C167_interior_pit {ny nx r c : ℕ} (hr : r < ny) (hc : c < nx) (z : ℤ → K) :
    isAnInteriorPit ny nx z (idOf nx r c) = true ↔
      isAPit ny nx z (idOf nx r c) = true ∧ r ≠ 0 ∧ r + 1 ≠ ny ∧ c ≠ 0 ∧ c + 1 ≠ nx := by
  unfold isAnInteriorPit
  rw [idOf_div hc, idOf_mod hc]
  split_ifs with h
  · constructor
    · intro h'; exact absurd h' (by simp)
    · rintro ⟨-, h1, h2, h3, h4⟩; omega
  · constructor
    · intro h'; exact ⟨h', by omega, by omega, by omega, by omega⟩
    · intro h'; exact h'.1

end

/-- A pit in the middle of a 3 x 3 grid, and one in a corner that is no interior pit. -/
example : isAPit 3 3 (fun i => ([1, 5, 5, 5, 2, 5, 5, 5, 5] : List ℚ).getD i.toNat 0) 0 = true ∧
    isAPit 3 3 (fun i => ([1, 5, 5, 5, 2, 5, 5, 5, 5] : List ℚ).getD i.toNat 0) 4 = false ∧
    isAnInteriorPit 3 3 (fun i => ([1, 5, 5, 5, 2, 5, 5, 5, 5] : List ℚ).getD i.toNat 0) 0 = false ∧
    isAnInteriorPit 3 3 (fun i => ([5, 5, 5, 5, 2, 5, 5, 5, 5] : List ℚ).getD i.toNat 0) 4 = true := by
  decide +kernel

/-! ## C168: the cells that flow into a cell -/

/-- The list of the eight shifted positions with the code that flows from there to `i`. -/
def kidList (nx : ℕ) (i : ℤ) : List (ℤ × ℤ × ℤ) :=
  (incs8.zip [16, 32, 64, 128, 1, 2, 4, 8]).map
    (fun q => (i / (nx : ℤ) + q.1.1, i % (nx : ℤ) + q.1.2, q.2))

theorem mem_kidList {nx : ℕ} {i : ℤ} {p : ℤ × ℤ × ℤ} :
    p ∈ kidList nx i ↔ ∃ k : Fin 8, i / (nx : ℤ) = p.1 + (offset k).1 ∧
      i % (nx : ℤ) = p.2.1 + (offset k).2 ∧ p.2.2 = 2 ^ k.val := by
  obtain ⟨a, b, h⟩ := p
  simp only [kidList, incs8, List.zip_cons_cons, List.zip_nil_right, List.map_cons, List.map_nil,
    List.mem_cons, List.not_mem_nil, or_false, Prod.mk.injEq]
  generalize i / (nx : ℤ) = x
  generalize i % (nx : ℤ) = y
  constructor
  · rintro (h | h | h | h | h | h | h | h)
    · exact ⟨4, by simp [offset]; omega⟩
    · exact ⟨5, by simp [offset]; omega⟩
    · exact ⟨6, by simp [offset]; omega⟩
    · exact ⟨7, by simp [offset]; omega⟩
    · exact ⟨0, by simp [offset]; omega⟩
    · exact ⟨1, by simp [offset]; omega⟩
    · exact ⟨2, by simp [offset]; omega⟩
    · exact ⟨3, by simp [offset]; omega⟩
  · rintro ⟨k, h1, h2, h3⟩
    fin_cases k <;> simp [offset] at h1 h2 h3 <;> omega

theorem kidList_nodup (nx : ℕ) (i : ℤ) : ((kidList nx i).map (fun p => (p.1, p.2.1))).Nodup := by
  simp only [kidList, incs8, List.zip_cons_cons, List.zip_nil_right, List.map_cons, List.map_nil]
  generalize i / (nx : ℤ) = x
  generalize i % (nx : ℤ) = y
  simp

/-- The kid list cut down to the cells of the grid. -/
theorem kids_cut {ny nx r c : ℕ} (h2 : 2 ≤ ny * nx) (hr : r < ny) (hc : c < nx) :
    ∀ p, p ∈ cutIfAny (fun p : ℤ × ℤ × ℤ => decide (p.2.1 > -1 ∧ p.2.1 < (nx : ℤ)))
        (cutIfAny (fun p : ℤ × ℤ × ℤ => decide (p.1 > -1 ∧ p.1 < (ny : ℤ))) (kidList nx (idOf nx r c))) ↔
      ∃ r' c' : ℕ, r' < ny ∧ c' < nx ∧ p.1 = r' ∧ p.2.1 = c' ∧ ∃ k : Fin 8,
        (r : ℤ) = r' + (offset k).1 ∧ (c : ℤ) = c' + (offset k).2 ∧ p.2.2 = 2 ^ k.val := by
  obtain ⟨r0, c0, hr0, hc0, hne, ht⟩ := exists_touch h2 hr hc
  have hoff : ∃ k : Fin 8, (r : ℤ) = r0 + (offset k).1 ∧ (c : ℤ) = c0 + (offset k).2 := by
    have h9 : ((r : ℤ) - r0, (c : ℤ) - c0) ∈ incs9 := by
      rw [mem_incs9]; unfold Touch at ht
      simp only [abs_le] at ht ⊢; omega
    simp only [incs9, List.mem_cons, Prod.mk.injEq, List.not_mem_nil, or_false] at h9
    simp only [ne_eq, Prod.mk.injEq] at hne
    rcases h9 with h | h | h | h | h | h | h | h | h
    · exact ⟨6, by simp [offset]; omega⟩
    · exact ⟨7, by simp [offset]; omega⟩
    · exact ⟨0, by simp [offset]; omega⟩
    · exact ⟨5, by simp [offset]; omega⟩
    · omega
    · exact ⟨1, by simp [offset]; omega⟩
    · exact ⟨4, by simp [offset]; omega⟩
    · exact ⟨3, by simp [offset]; omega⟩
    · exact ⟨2, by simp [offset]; omega⟩
  obtain ⟨k0, hk1, hk2⟩ := hoff
  have hm : ((r0 : ℤ), (c0 : ℤ), (2 : ℤ) ^ k0.val) ∈ kidList nx (idOf nx r c) := by
    rw [mem_kidList, idOf_div hc, idOf_mod hc]
    exact ⟨k0, hk1, hk2, rfl⟩
  have hp1 : decide (((r0 : ℤ), (c0 : ℤ), (2 : ℤ) ^ k0.val).1 > -1 ∧
      ((r0 : ℤ), (c0 : ℤ), (2 : ℤ) ^ k0.val).1 < (ny : ℤ)) = true := by
    simp only [decide_eq_true_eq]; omega
  have hp2 : decide (((r0 : ℤ), (c0 : ℤ), (2 : ℤ) ^ k0.val).2.1 > -1 ∧
      ((r0 : ℤ), (c0 : ℤ), (2 : ℤ) ^ k0.val).2.1 < (nx : ℤ)) = true := by
    simp only [decide_eq_true_eq]; omega
  have hm2 := (mem_cutIfAny (p := fun p : ℤ × ℤ × ℤ => decide (p.1 > -1 ∧ p.1 < (ny : ℤ)))
    (x := ((r0 : ℤ), (c0 : ℤ), (2 : ℤ) ^ k0.val)) _ hm hp1).2 ⟨hm, hp1⟩
  rintro ⟨a, b, h⟩
  rw [mem_cutIfAny _ hm2 hp2, mem_cutIfAny _ hm hp1, mem_kidList, idOf_div hc, idOf_mod hc]
  simp only [decide_eq_true_eq]
  constructor
  · rintro ⟨⟨⟨k, h1, h2, h3⟩, h4⟩, h5⟩
    obtain ⟨r', rfl⟩ := Int.eq_ofNat_of_zero_le (show 0 ≤ a by omega)
    obtain ⟨c', rfl⟩ := Int.eq_ofNat_of_zero_le (show 0 ≤ b by omega)
    exact ⟨r', c', by omega, by omega, rfl, rfl, k, h1, h2, h3⟩
  · rintro ⟨r', c', hr', hc', rfl, rfl, k, h1, h2, h3⟩
    exact ⟨⟨⟨k, h1, h2, h3⟩, by omega⟩, by omega⟩

theorem cutIfAny_sublist {α : Type*} (p : α → Bool) (l : List α) : (cutIfAny p l).Sublist l := by
  unfold cutIfAny; split_ifs
  · exact List.filter_sublist
  · exact List.Sublist.refl _

theorem flatGet_in {ny nx : ℕ} (d8 : ℤ → ℤ) {r c : ℕ} (hr : r < ny) (hc : c < nx) :
    flatGet ny nx d8 (idOf nx r c) = some (d8 (idOf nx r c)) := by
  unfold flatGet; rw [if_pos (idOf_lt hr hc)]

/-- In a grid of two or more cells, the kids of a cell are exactly the cells of the grid from
which one step in the direction of their flow code (`2^k` for direction `k`) leads to the cell,
each once. -/
theorem C168_kids {ny nx r c : ℕ} (h2 : 2 ≤ ny * nx) (hr : r < ny) (hc : c < nx) (d8 : ℤ → ℤ) :
    ∃ l, getKidIDs ny nx d8 (idOf nx r c) = .ok l ∧ l.Nodup ∧
      ∀ j, j ∈ l ↔ ∃ r' c' : ℕ, r' < ny ∧ c' < nx ∧ j = idOf nx r' c' ∧
        ∃ k : Fin 8, d8 j = 2 ^ k.val ∧
          (r : ℤ) = r' + (offset k).1 ∧ (c : ℤ) = c' + (offset k).2 := by
  have hcut := kids_cut h2 hr hc
  have hsub : (cutIfAny (fun p : ℤ × ℤ × ℤ => decide (p.2.1 > -1 ∧ p.2.1 < (nx : ℤ)))
      (cutIfAny (fun p : ℤ × ℤ × ℤ => decide (p.1 > -1 ∧ p.1 < (ny : ℤ)))
        (kidList nx (idOf nx r c)))).Sublist (kidList nx (idOf nx r c)) :=
    (cutIfAny_sublist _ _).trans (cutIfAny_sublist _ _)
  unfold getKidIDs
  change ∃ l, (if (cutIfAny (fun p : ℤ × ℤ × ℤ => decide (p.2.1 > -1 ∧ p.2.1 < (nx : ℤ)))
      (cutIfAny (fun p : ℤ × ℤ × ℤ => decide (p.1 > -1 ∧ p.1 < (ny : ℤ)))
        (kidList nx (idOf nx r c)))).all (fun p => (flatGet ny nx d8 (p.1 * nx + p.2.1)).isSome) then
        .ok (((cutIfAny (fun p : ℤ × ℤ × ℤ => decide (p.2.1 > -1 ∧ p.2.1 < (nx : ℤ)))
      (cutIfAny (fun p : ℤ × ℤ × ℤ => decide (p.1 > -1 ∧ p.1 < (ny : ℤ)))
        (kidList nx (idOf nx r c)))).filter
          (fun p => decide (flatGet ny nx d8 (p.1 * nx + p.2.1) = some p.2.2))).map
            (fun p => p.1 * nx + p.2.1))
      else (.error "IndexError: index out of bounds" : Except String (List ℤ))) = .ok l ∧ _
  generalize hL : cutIfAny (fun p : ℤ × ℤ × ℤ => decide (p.2.1 > -1 ∧ p.2.1 < (nx : ℤ)))
      (cutIfAny (fun p : ℤ × ℤ × ℤ => decide (p.1 > -1 ∧ p.1 < (ny : ℤ)))
        (kidList nx (idOf nx r c))) = L at hcut hsub
  have hid : ∀ p ∈ L, ∃ r' c' : ℕ, r' < ny ∧ c' < nx ∧ p.1 = r' ∧ p.2.1 = c' := by
    intro p hp
    obtain ⟨r', c', h1, h2, h3, h4, -⟩ := (hcut p).1 hp
    exact ⟨r', c', h1, h2, h3, h4⟩
  have hall : L.all (fun p => (flatGet ny nx d8 (p.1 * nx + p.2.1)).isSome) = true := by
    rw [List.all_eq_true]
    intro p hp
    obtain ⟨r', c', h1, h2, h3, h4⟩ := hid p hp
    have := flatGet_in d8 h1 h2
    unfold idOf at this
    rw [h3, h4, this]; rfl
  rw [if_pos hall]
  refine ⟨_, rfl, ?_, ?_⟩
  · have hnd : (L.map (fun p => (p.1, p.2.1))).Nodup :=
      (kidList_nodup nx (idOf nx r c)).sublist (hsub.map _)
    have hnd2 := hnd.sublist ((List.filter_sublist
      (p := fun p => decide (flatGet ny nx d8 (p.1 * nx + p.2.1) = some p.2.2)) (l := L)).map
        (fun p => (p.1, p.2.1)))
    rw [List.nodup_iff_pairwise_ne, List.pairwise_map] at hnd2 ⊢
    refine hnd2.imp_of_mem ?_
    intro p q hp hq hne he
    obtain ⟨r1, c1, h1, h2, h3, h4⟩ := hid p (List.mem_filter.1 hp).1
    obtain ⟨r2, c2, h5, h6, h7, h8⟩ := hid q (List.mem_filter.1 hq).1
    apply hne
    rw [h3, h4, h7, h8] at he ⊢
    obtain ⟨e1, e2⟩ := idOf_inj (r := r1) (r' := r2) h2 h6 he
    rw [e1, e2]
  · intro j
    simp only [List.mem_map, List.mem_filter, decide_eq_true_eq]
    constructor
    · rintro ⟨p, ⟨hp, hd⟩, rfl⟩
      obtain ⟨r', c', h1, h2, h3, h4, k, h5, h6, h7⟩ := (hcut p).1 hp
      rw [h3, h4] at hd ⊢
      have := flatGet_in d8 h1 h2
      unfold idOf at this
      rw [this, h7] at hd
      exact ⟨r', c', h1, h2, rfl, k, Option.some.inj hd, h5, h6⟩
    · rintro ⟨r', c', h1, h2, rfl, k, h5, h6, h7⟩
      refine ⟨((r' : ℤ), (c' : ℤ), (2 : ℤ) ^ k.val),
        ⟨(hcut _).2 ⟨r', c', h1, h2, rfl, rfl, k, h6, h7, rfl⟩, ?_⟩, rfl⟩
      have := flatGet_in d8 h1 h2
      unfold idOf at this
      rw [this, ← h5]; rfl

/-- When the cells on the border carry no flow code, as is the case without periodic boundaries,
the kids are exactly the cells that flow into the cell. -/
theorem C168_kids_flow {ny nx : ℕ} (h2 : 2 ≤ ny * nx) (codes : Cell ny nx → ℤ)
    (hb : ∀ e, OnBorder e → codes e = 0) (d8 : ℤ → ℤ) (hd : ∀ e, d8 (flatID e) = codes e)
    (c : Cell ny nx) :
    ∃ l, getKidIDs ny nx d8 (flatID c) = .ok l ∧ l.Nodup ∧
      ∀ j, j ∈ l ↔ ∃ e, j = flatID e ∧ FlowsTo codes e c := by
  have hf : ∀ e : Cell ny nx, flatID e = idOf nx e.1 e.2 := by
    intro e; simp [flatID, idOf]
  obtain ⟨l, hl, hn, hm⟩ := C168_kids h2 c.1.isLt c.2.isLt d8
  refine ⟨l, by rw [hf]; exact hl, hn, fun j => ?_⟩
  rw [hm]
  constructor
  · rintro ⟨r', c', hr', hc', rfl, k, h1, h3, h4⟩
    refine ⟨(⟨r', hr'⟩, ⟨c', hc'⟩), by rw [hf], k, ?_, ?_, ?_⟩
    · rw [← hd, hf]; exact h1
    · rw [h3]
    · rw [h4]
  · rintro ⟨e, rfl, k, h1, h3, h4⟩
    have hnb : ¬ OnBorder e := by
      intro hb'
      have := hb e hb'
      rw [this] at h1
      have : (0 : ℤ) < 2 ^ k.val := by positivity
      omega
    unfold OnBorder at hnb
    have hoff : ∀ k : Fin 8, |(offset k).1| ≤ 1 ∧ |(offset k).2| ≤ 1 := by decide
    have hk := hoff k
    simp only [abs_le] at hk
    have e1 := e.1.isLt
    have e2 := e.2.isLt
    have c1 := c.1.isLt
    have c2 := c.2.isLt
    refine ⟨e.1, e.2, e1, e2, by rw [hf], k, by rw [hd]; exact h1, ?_, ?_⟩
    · unfold Int.ModEq at h3
      rw [Int.emod_eq_of_lt (by omega) (by omega), Int.emod_eq_of_lt (by omega) (by omega)] at h3
      exact h3
    · unfold Int.ModEq at h4
      rw [Int.emod_eq_of_lt (by omega) (by omega), Int.emod_eq_of_lt (by omega) (by omega)] at h4
      exact h4

/-- With a single cell the call fails, whatever the flow code. -/
theorem C168_single_cell (d8 : ℤ → ℤ) :
    ∃ m, getKidIDs 1 1 d8 0 = .error m := by
  refine ⟨"IndexError: index out of bounds", ?_⟩
  have h : (cutIfAny (fun p : ℤ × ℤ × ℤ => decide (p.2.1 > -1 ∧ p.2.1 < ((1 : ℕ) : ℤ)))
      (cutIfAny (fun p : ℤ × ℤ × ℤ => decide (p.1 > -1 ∧ p.1 < ((1 : ℕ) : ℤ))) (kidList 1 0))) =
      [(0, 1, 32), (0, -1, 2)] := by decide +kernel
  unfold getKidIDs
  change (if (cutIfAny (fun p : ℤ × ℤ × ℤ => decide (p.2.1 > -1 ∧ p.2.1 < ((1 : ℕ) : ℤ)))
      (cutIfAny (fun p : ℤ × ℤ × ℤ => decide (p.1 > -1 ∧ p.1 < ((1 : ℕ) : ℤ)))
        (kidList 1 0))).all _ then _ else _) = _
  rw [h]
  simp [flatGet]

/-- Three kids of the middle cell of a 3 x 3 grid: from above, from the right, from below left. -/
example : getKidIDs 3 3 (fun i => ([0, 8, 0, 8, 4, 32, 1, 4, 0] : List ℤ).getD i.toNat 0) 4 =
    .ok [5, 6, 1] := by decide +kernel

/-- A grid as in `C168_kids_flow`: only the interior cells flow. -/
example : (∀ e : Cell 3 4, OnBorder e → (fun e : Cell 3 4 => if e = (1, 1) then (2 : ℤ) else
    if e = (1, 2) then 8 else 0) e = 0) ∧
    getKidIDs 3 4 (fun i => if i = 5 then 2 else if i = 6 then 8 else 0) 6 = .ok [5] := by
  refine ⟨?_, by decide +kernel⟩
  unfold OnBorder
  decide

end D8Local
