import Verif.FillLemmas
import Mathlib.Tactic.IntervalCases
import Mathlib.Tactic.NormNum
import Mathlib.Data.List.Range
import Mathlib.Data.Finset.Max

/-! # Depression filling: properties C07–C12 -/

set_option linter.unusedSectionVars false

namespace Fill
open FillSpec

/-! ## The neighbour IDs -/

theorem mem_nbrIDs {ny nx v w : ℕ} :
    w ∈ nbrIDs ny nx v ↔ w < nx * ny ∧ ∃ i ∈ incs nx, (w : ℤ) = v + i := by
  unfold nbrIDs
  simp only [List.mem_map, List.mem_filter, decide_eq_true_eq]
  constructor
  · rintro ⟨x, ⟨⟨i, hi, rfl⟩, h1, h2⟩, rfl⟩
    have h3 : (((v:ℤ) + i).toNat : ℤ) = v + i := Int.toNat_of_nonneg h1
    refine ⟨by omega, i, hi, h3⟩
  · rintro ⟨h1, i, hi, h2⟩
    refine ⟨(w:ℤ), ⟨⟨i, hi, h2.symm⟩, by omega, by exact_mod_cast h1⟩, by simp⟩

theorem nbrIDs_lt {ny nx : ℕ} : ∀ u, ∀ w ∈ nbrIDs ny nx u, w < ny * nx := by
  intro u w h
  rw [mem_nbrIDs] at h
  rw [Nat.mul_comm]; exact h.1

theorem nbrIDs_length (ny nx u : ℕ) : (nbrIDs ny nx u).length ≤ 8 := by
  unfold nbrIDs
  rw [List.length_map]
  refine (List.length_filter_le _ _).trans ?_
  simp [incs]

theorem nbrIDs_nodup {ny nx : ℕ} (hx : 3 ≤ nx) (u : ℕ) : (nbrIDs ny nx u).Nodup := by
  unfold nbrIDs
  refine List.Nodup.map_on ?_ ?_
  · intro a ha b hb h
    simp only [List.mem_filter, decide_eq_true_eq] at ha hb
    omega
  · refine List.Nodup.filter _ (List.Nodup.map (fun a b h => by simpa using h) ?_)
    simp only [incs, List.nodup_cons, List.mem_cons, List.not_mem_nil, or_false, not_or,
      not_false_eq_true, List.nodup_nil, and_true]
    omega

theorem succ_mem_nbrIDs {ny nx v : ℕ} (h : v + 1 < ny * nx) : v + 1 ∈ nbrIDs ny nx v := by
  rw [mem_nbrIDs, Nat.mul_comm]
  exact ⟨h, 1, by simp [incs], by push_cast; ring⟩

theorem dm {nx w q m : ℕ} (h : w = nx * q + m) (hm : m < nx) : w / nx = q ∧ w % nx = m := by
  subst h
  rw [Nat.mul_add_div (by omega), Nat.mul_add_mod, Nat.mod_eq_of_lt hm, Nat.div_eq_of_lt hm]
  simp

/-- true neighbours are found by the ID arithmetic -/
theorem gridNbr_mem {ny nx v w : ℕ} (h : GridNbr ny nx v w) : w ∈ nbrIDs ny nx v := by
  obtain ⟨h1, h2, h3, h4, h5, h6, h7⟩ := h
  rw [mem_nbrIDs]
  refine ⟨by rwa [Nat.mul_comm], ?_⟩
  have ev := Nat.div_add_mod v nx
  have ew := Nat.div_add_mod w nx
  generalize v / nx = r at *
  generalize w / nx = r' at *
  generalize v % nx = c at *
  generalize w % nx = c' at *
  have ev' : (v:ℤ) = nx * r + c := by exact_mod_cast ev.symm
  have ew' : (w:ℤ) = nx * r' + c' := by exact_mod_cast ew.symm
  refine ⟨(w:ℤ) - v, ?_, by ring⟩
  have hr : (r':ℤ) = r - 1 ∨ (r':ℤ) = r ∨ (r':ℤ) = r + 1 := by omega
  have hc : (c':ℤ) = c - 1 ∨ (c':ℤ) = c ∨ (c':ℤ) = c + 1 := by omega
  have key : (w:ℤ) - v = nx * ((r':ℤ) - r) + ((c':ℤ) - c) := by rw [ew', ev']; ring
  rw [key]
  have hne : ¬ (r' = r ∧ c' = c) := by
    rintro ⟨rfl, rfl⟩; exact h3 (by rw [← ev, ← ew])
  simp only [incs, List.mem_cons, List.not_mem_nil, or_false]
  rcases hr with h | h | h <;> rcases hc with h' | h' | h' <;>
    first
    | exact absurd ⟨by exact_mod_cast h, by exact_mod_cast h'⟩ hne
    | (rw [h, h']; ring_nf; try simp)

/-- ID arithmetic finds a true neighbour, or wraps around onto the first or last column -/
theorem mem_nbr_cases {ny nx v w : ℕ} (hv : v < ny * nx) (h : w ∈ nbrIDs ny nx v) :
    GridNbr ny nx v w ∨ w % nx = 0 ∨ w % nx = nx - 1 := by
  rw [mem_nbrIDs] at h
  obtain ⟨hw, i, hi, hwi⟩ := h
  have hnx : 0 < nx := by
    rcases Nat.eq_zero_or_pos nx with h | h
    · subst h; simp at hv
    · exact h
  rw [Nat.mul_comm] at hw
  by_cases hvw : v = w
  · -- only for nx = 1
    subst hvw
    have : i = 0 := by omega
    subst this
    simp only [incs, List.mem_cons, List.not_mem_nil, or_false] at hi
    have : nx = 1 := by omega
    subst this
    right; left; exact Nat.mod_one v
  have ev := Nat.div_add_mod v nx
  have hc := Nat.mod_lt v hnx
  have hr : GridNbr ny nx v w ↔ (v / nx ≤ w / nx + 1 ∧ w / nx ≤ v / nx + 1 ∧
      v % nx ≤ w % nx + 1 ∧ w % nx ≤ v % nx + 1) := by
    unfold GridNbr; simp [hv, hw, hvw]
  rw [hr]
  generalize v / nx = r at *
  generalize v % nx = c at *
  have ev' : (v:ℤ) = nx * r + c := by exact_mod_cast ev.symm
  -- the candidate row/column of w
  have fin : ∀ q m : ℕ, m < nx → (w:ℤ) = nx * q + m → w / nx = q ∧ w % nx = m := by
    intro q m hm hq
    exact dm (by exact_mod_cast hq) hm
  simp only [incs, List.mem_cons, List.not_mem_nil, or_false] at hi
  have up : ∀ m : ℤ, (w:ℤ) = nx * r - nx + m → 0 ≤ m → m < nx → r = 0 → False := by
    rintro m h1 h2 h3 rfl
    simp at h1
    omega
  -- w = nx*(r+a) + m for a ∈ {-2,-1,0,1,2}, 0 ≤ m < nx
  have row : ∀ (a m : ℤ), (w:ℤ) = nx * (r + a) + m → 0 ≤ m → m < nx →
      ((w / nx : ℕ) : ℤ) = r + a ∧ ((w % nx : ℕ) : ℤ) = m := by
    intro a m h1 h2 h3
    have hq : 0 ≤ (r:ℤ) + a := by
      by_contra hneg
      have : (nx:ℤ) * (r + a) ≤ nx * (-1) := by
        apply mul_le_mul_of_nonneg_left (by omega) (by omega)
      omega
    obtain ⟨q, hq'⟩ := Int.eq_ofNat_of_zero_le hq
    obtain ⟨m', hm'⟩ := Int.eq_ofNat_of_zero_le h2
    rw [hq', hm'] at h1
    have := fin q m' (by omega) h1
    rw [this.1, this.2, hq', hm']; simp
  have last : ∀ (a m : ℤ), (w:ℤ) = nx * (r + a) + m → -1 ≤ a → a ≤ 1 →
      (m = c ∨ m = c - 1 ∨ m = c + 1) →
      ((r ≤ w / nx + 1 ∧ w / nx ≤ r + 1 ∧ c ≤ w % nx + 1 ∧ w % nx ≤ c + 1) ∨
        w % nx = 0 ∨ w % nx = nx - 1) := by
    intro a m h1 h2 h3 h4
    by_cases h5 : m < 0
    · have := row (a - 1) (m + nx) (by rw [h1]; ring) (by omega) (by omega)
      right; right
      omega
    · by_cases h6 : (nx:ℤ) ≤ m
      · have := row (a + 1) (m - nx) (by rw [h1]; ring) (by omega) (by omega)
        right; left
        omega
      · have := row a m h1 (by omega) (by omega)
        left
        omega
  rcases hi with h | h | h | h | h | h | h | h
  · exact last (-1) (c - 1) (by rw [hwi, ev', h]; ring) (by omega) (by omega) (by omega)
  · exact last (-1) c (by rw [hwi, ev', h]; ring) (by omega) (by omega) (by omega)
  · exact last (-1) (c + 1) (by rw [hwi, ev', h]; ring) (by omega) (by omega) (by omega)
  · exact last 0 (c - 1) (by rw [hwi, ev', h]; ring) (by omega) (by omega) (by omega)
  · exact last 0 (c + 1) (by rw [hwi, ev', h]; ring) (by omega) (by omega) (by omega)
  · exact last 1 (c - 1) (by rw [hwi, ev', h]; ring) (by omega) (by omega) (by omega)
  · exact last 1 c (by rw [hwi, ev', h]; ring) (by omega) (by omega) (by omega)
  · exact last 1 (c + 1) (by rw [hwi, ev', h]; ring) (by omega) (by omega) (by omega)

section
variable {K : Type*} [LinearOrder K] {ny nx : ℕ} {z : ℕ → K} {marked start : List ℕ} {n0 fuel : ℕ}
  {s : St K}

/-! ## C07 -/

/-- **C07a.** Filling terminates for every DEM and every list of starting cells. -/
theorem C07_fill_terminates (ny nx : ℕ) (z : ℕ → K) (marked start : List ℕ) (n0 : ℕ) :
    ∃ s, loop (nbrIDs ny nx) (start.length + 8 * (ny * nx)) (initSt z marked n0 start) = some s := by
  refine loop_isSome (ny * nx) 8 nbrIDs_lt (nbrIDs_length ny nx) _ _
    (Inv.init (nbrIDs ny nx) z start marked n0) ?_
  have h1 : (initSt z marked n0 start).heap.length = start.length := by simp [initSt]
  have h2 : nOpen (ny * nx) (initSt z marked n0 start) ≤ ny * nx := by
    unfold nOpen
    exact (Finset.card_filter_le _ _).trans (by simp)
  rw [h1]
  have := Nat.mul_le_mul_left 8 h2
  omega

/-- **C07b.** On grids with at least three columns, starting from distinct cells, at most
`ny * nx` cells are taken from the queue, i.e. no cell is processed twice (`n_closed` counts the
processed cells, starting at `n0`). -/
theorem C07_each_cell_once (hx : 3 ≤ nx) (hnd : start.Nodup) (hlt : ∀ v ∈ start, v < ny * nx)
    (h : loop (nbrIDs ny nx) fuel (initSt z marked n0 start) = some s) :
    s.nClosed ≤ n0 + ny * nx := by
  have := loop_count (ny * nx) nbrIDs_lt (nbrIDs_nodup hx) fuel _ _
    (Inv.init (nbrIDs ny nx) z start marked n0) h
  have h1 : (initSt z marked n0 start).heap.length = start.length := by simp [initSt]
  have h2 : nOpen (ny * nx) (initSt z marked n0 start) + start.length ≤ ny * nx := by
    unfold nOpen
    rw [← List.toFinset_card_of_nodup hnd, ← Finset.card_union_of_disjoint]
    · refine (Finset.card_le_card ?_).trans (Finset.card_range _).le
      intro v hv
      simp only [Finset.mem_union, Finset.mem_filter, List.mem_toFinset] at hv
      rcases hv with hv | hv
      · exact hv.1
      · exact Finset.mem_range.2 (hlt v hv)
    · rw [Finset.disjoint_left]
      intro v h1 h2
      rw [List.mem_toFinset] at h2
      rw [Finset.mem_filter] at h1
      simp [initSt, h2] at h1
  rw [h1] at this
  have h3 : (initSt z marked n0 start).nClosed = n0 := rfl
  omega

/-! ## C08 – C11 for an arbitrary starting list

`start` are the outlets, `marked` the cells flagged CLOSED beforehand. -/

/-- **C08.** Filling never lowers a cell and leaves the starting cells as they are. -/
theorem C08_only_raises (h : loop (nbrIDs ny nx) fuel (initSt z marked n0 start) = some s) :
    (∀ v, z v ≤ s.dem v) ∧ (∀ v ∈ start, s.dem v = z v) := by
  obtain ⟨hI, he⟩ := loop_inv fuel _ _ (Inv.init (nbrIDs ny nx) z start marked n0) h
  have h1 : ∀ v, z v ≤ s.dem v := by
    intro v
    by_cases ht : Touched start marked s v
    · exact Spills.le (hI.reach v ht)
    · rw [hI.untouched v ht]
  refine ⟨h1, fun v hv => le_antisymm ?_ (h1 v)⟩
  exact hI.least v ⟨hI.start_t v hv, Or.inl hv⟩ _ (.outlet hv le_rfl)

/-- **C09a.** The filled elevation is the lowest level at which water can get from the cell to
an outlet, over all paths; cells that cannot be reached from an outlet are unchanged.  Adjacency
is that of the ID arithmetic of the code. -/
theorem C09_filled_is_least_spill_level
    (h : loop (nbrIDs ny nx) fuel (initSt z marked n0 start) = some s) (v : ℕ) :
    let Sp := Spills (fun u w => w ∈ nbrIDs ny nx u) (· ∉ marked) (· ∈ start) z v
    ((∃ l, Sp l) → IsLeast {l | Sp l} (s.dem v)) ∧ ((¬ ∃ l, Sp l) → s.dem v = z v) := by
  obtain ⟨hI, he⟩ := loop_inv fuel _ _ (Inv.init (nbrIDs ny nx) z start marked n0) h
  intro Sp
  constructor
  · rintro ⟨l, hl⟩
    have ht := hI.final he hl
    exact ⟨hI.reach v ht, fun l' hl' => hI.least v ht l' hl'⟩
  · intro hno
    apply hI.untouched
    intro ht
    exact hno ⟨_, hI.reach v ht⟩

/-- with the whole first and last column among the outlets, wrapped adjacency is harmless -/
theorem spills_grid_iff (hlt : ∀ v ∈ start, v < ny * nx)
    (hcol : ∀ v < ny * nx, v % nx = 0 ∨ v % nx = nx - 1 → v ∈ start) (v : ℕ) (l : K) :
    Spills (fun u w => w ∈ nbrIDs ny nx u) (· ∉ marked) (· ∈ start) z v l ↔
    Spills (GridNbr ny nx) (· ∉ marked) (· ∈ start) z v l := by
  constructor
  · intro h
    suffices Spills (GridNbr ny nx) (· ∉ marked) (· ∈ start) z v l ∧ v < ny * nx from this.1
    induction h with
    | outlet hs hz => exact ⟨.outlet hs hz, hlt _ hs⟩
    | step hu ha hok hz ih =>
      have hw := nbrIDs_lt _ _ ha
      refine ⟨?_, hw⟩
      rcases mem_nbr_cases ih.2 ha with h | h
      · exact .step ih.1 h hok hz
      · exact .outlet (hcol _ hw h) hz
  · intro h
    induction h with
    | outlet hs hz => exact .outlet hs hz
    | step hu ha hok hz ih => exact .step ih (gridNbr_mem ha) hok hz

/-- **C09b.** If every cell of the first and last column is an outlet (as the code intends), the
filled elevation is the lowest spill level over paths of true grid neighbours. -/
theorem C09_filled_is_least_spill_level_grid (hlt : ∀ v ∈ start, v < ny * nx)
    (hcol : ∀ v < ny * nx, v % nx = 0 ∨ v % nx = nx - 1 → v ∈ start)
    (h : loop (nbrIDs ny nx) fuel (initSt z marked n0 start) = some s) (v : ℕ) :
    let Sp := Spills (GridNbr ny nx) (· ∉ marked) (· ∈ start) z v
    ((∃ l, Sp l) → IsLeast {l | Sp l} (s.dem v)) ∧ ((¬ ∃ l, Sp l) → s.dem v = z v) := by
  have h1 := C09_filled_is_least_spill_level h v
  simp only [spills_grid_iff hlt hcol] at h1
  exact h1

theorem tdesc_drains {s : St K} {v : ℕ}
    (h : TDesc (nbrIDs ny nx) start marked s v) :
    DrainsTo (fun u w => w ∈ nbrIDs ny nx u) (· ∉ marked) (· ∈ start) s.dem v := by
  induction h with
  | outlet hs => exact .outlet hs
  | step _ ha hok _ hz ih => exact .step ih ha hok hz

/-- **C10a.** After filling, every cell that can be reached from an outlet has a path to an
outlet along which the filled elevation never increases. -/
theorem C10_no_pit_remains (h : loop (nbrIDs ny nx) fuel (initSt z marked n0 start) = some s)
    (v : ℕ) (hr : ∃ l, Spills (fun u w => w ∈ nbrIDs ny nx u) (· ∉ marked) (· ∈ start) z v l) :
    DrainsTo (fun u w => w ∈ nbrIDs ny nx u) (· ∉ marked) (· ∈ start) s.dem v := by
  obtain ⟨hI, he⟩ := loop_inv fuel _ _ (Inv.init (nbrIDs ny nx) z start marked n0) h
  obtain ⟨l, hl⟩ := hr
  exact tdesc_drains (hI.desc v (hI.final he hl))

/-- **C10b.** Same on the true grid, when the first and last columns are outlets. -/
theorem C10_no_pit_remains_grid (hlt : ∀ v ∈ start, v < ny * nx)
    (hcol : ∀ v < ny * nx, v % nx = 0 ∨ v % nx = nx - 1 → v ∈ start)
    (h : loop (nbrIDs ny nx) fuel (initSt z marked n0 start) = some s)
    (v : ℕ) (hr : ∃ l, Spills (GridNbr ny nx) (· ∉ marked) (· ∈ start) z v l) :
    DrainsTo (GridNbr ny nx) (· ∉ marked) (· ∈ start) s.dem v := by
  obtain ⟨l, hl⟩ := hr
  have h1 := C10_no_pit_remains h v ⟨l, (spills_grid_iff hlt hcol v l).2 hl⟩
  suffices DrainsTo (GridNbr ny nx) (· ∉ marked) (· ∈ start) s.dem v ∧ v < ny * nx from this.1
  clear hl
  induction h1 with
  | outlet hs => exact ⟨.outlet hs, hlt _ hs⟩
  | step hu ha hok hz ih =>
    have hw := nbrIDs_lt _ _ ha
    refine ⟨?_, hw⟩
    rcases mem_nbr_cases ih.2 ha with h | h
    · exact .step ih.1 h hok hz
    · exact .outlet (hcol _ hw h)

theorem drains_spills {adj : ℕ → ℕ → Prop} {ok outlet : ℕ → Prop} {z : ℕ → K} {v : ℕ}
    (h : DrainsTo adj ok outlet z v) : Spills adj ok outlet z v (z v) := by
  induction h with
  | outlet hs => exact .outlet hs le_rfl
  | step _ ha hok hz ih => exact .step (Spills.mono ih hz) ha hok le_rfl

/-- **C11.** Filling an already filled DEM with the same outlets changes nothing. -/
theorem C11_fill_idempotent {fuel' n1 : ℕ} {s' : St K}
    (h : loop (nbrIDs ny nx) fuel (initSt z marked n0 start) = some s)
    (h' : loop (nbrIDs ny nx) fuel' (initSt s.dem marked n1 start) = some s') :
    s'.dem = s.dem := by
  funext v
  refine le_antisymm ?_ ((C08_only_raises h').1 v)
  have h2 := C09_filled_is_least_spill_level h' v
  simp only at h2
  by_cases hr : ∃ l, Spills (fun u w => w ∈ nbrIDs ny nx u) (· ∉ marked) (· ∈ start) z v l
  · have h3 := drains_spills (C10_no_pit_remains h v hr)
    exact (h2.1 ⟨_, h3⟩).2 h3
  · refine (h2.2 ?_).le
    rintro ⟨l, hl⟩
    apply hr
    refine ⟨l, ?_⟩
    clear hr h2
    induction hl with
    | outlet hs hz => exact .outlet hs (((C08_only_raises h).1 _).trans hz)
    | step _ ha hok hz ih => exact .step ih ha hok (((C08_only_raises h).1 _).trans hz)

end

/-! ## C12: the starting cells -/

section
variable {K : Type*} [LinearOrder K] {ny nx : ℕ} {nodata closedBasin : K} {z : ℕ → K}
  {l : List ℕ}

theorem mem_startPixels (h : startPixels ny nx nodata closedBasin z = some l) (v : ℕ) :
    v ∈ l ↔ (v < nx ∧ nodata < z v) ∨
      (∃ i, i < ny - 2 ∧ nodata < z ((i + 1) * nx) ∧ v = i * nx) ∨
      (∃ i, i < ny - 2 ∧ nodata < z ((i + 1) * nx + (nx - 1)) ∧ v = i * nx + (nx - 1)) ∨
      (∃ c, c < nx ∧ nodata < z ((ny - 1) * nx + c) ∧ v = c + nx * (ny - 1)) ∨
      (∃ i j, i < ny - 2 ∧ j < nx - 2 ∧
        (zcRoll ny nx z i j = closedBasin ∨
          (nodata < zcRoll ny nx z i j ∧ zs ny nx z i j ≤ nodata)) ∧
        v = (i + 1) * nx + (j + 1)) := by
  unfold startPixels at h
  dsimp only at h
  split_ifs at h
  cases h
  simp only [List.mem_append, topIDs, leftIDs, rightIDs, bottomIDs, interiorIDs, List.mem_filter,
    List.mem_map, List.mem_flatMap, List.mem_range, decide_eq_true_eq]
  constructor
  · rintro ((((h | ⟨i, h, rfl⟩) | ⟨i, h, rfl⟩) | ⟨i, h, rfl⟩) | ⟨i, hi, j, h, rfl⟩)
    · exact Or.inl h
    · exact Or.inr (Or.inl ⟨i, h.1, h.2, rfl⟩)
    · exact Or.inr (Or.inr (Or.inl ⟨i, h.1, h.2, rfl⟩))
    · exact Or.inr (Or.inr (Or.inr (Or.inl ⟨i, h.1, h.2, rfl⟩)))
    · exact Or.inr (Or.inr (Or.inr (Or.inr ⟨i, j, hi, h.1, h.2, rfl⟩)))
  · rintro (h | ⟨i, h1, h2, rfl⟩ | ⟨i, h1, h2, rfl⟩ | ⟨i, h1, h2, rfl⟩ | ⟨i, j, h1, h2, h3, rfl⟩)
    · exact Or.inl (Or.inl (Or.inl (Or.inl h)))
    · exact Or.inl (Or.inl (Or.inl (Or.inr ⟨i, ⟨h1, h2⟩, rfl⟩)))
    · exact Or.inl (Or.inl (Or.inr ⟨i, ⟨h1, h2⟩, rfl⟩))
    · exact Or.inl (Or.inr ⟨i, ⟨h1, h2⟩, rfl⟩)
    · exact Or.inr ⟨i, h1, j, ⟨h2, h3⟩, rfl⟩

/-- **C12a (negative).** For every DEM with at least three rows and two columns, the left and
right border cells of the last-but-one row are never starting cells. -/
theorem C12_border_cells_missed (hy : 3 ≤ ny) (hx : 2 ≤ nx)
    (h : startPixels ny nx nodata closedBasin z = some l) :
    (ny - 2) * nx ∉ l ∧ (ny - 2) * nx + (nx - 1) ∉ l := by
  have key : ∀ r c q m : ℕ, c < nx → m < nx → r * nx + c = q * nx + m → r = q ∧ c = m := by
    intro r c q m hc hm h
    have h1 := dm (w := r * nx + c) (q := r) (m := c) (by ring) hc
    have h2 := dm (w := r * nx + c) (q := q) (m := m) (by rw [h]; ring) hm
    exact ⟨h1.1.symm.trans h2.1, h1.2.symm.trans h2.2⟩
  have hnx : 1 * nx ≤ (ny - 2) * nx := Nat.mul_le_mul_right _ (by omega)
  constructor
  · rw [mem_startPixels h]
    rintro (⟨h1, _⟩ | ⟨i, h1, _, h2⟩ | ⟨i, h1, _, h2⟩ | ⟨i, h1, _, h2⟩ | ⟨i, j, h1, h2, _, h3⟩)
    · omega
    · have := key (ny - 2) 0 i 0 (by omega) (by omega) (by omega)
      omega
    · have := key (ny - 2) 0 i (nx - 1) (by omega) (by omega) (by omega)
      omega
    · have := key (ny - 2) 0 (ny - 1) i (by omega) (by omega) (by rw [Nat.mul_comm (ny - 1)]; omega)
      omega
    · have := key (ny - 2) 0 (i + 1) (j + 1) (by omega) (by omega) (by omega)
      omega
  · rw [mem_startPixels h]
    rintro (⟨h1, _⟩ | ⟨i, h1, _, h2⟩ | ⟨i, h1, _, h2⟩ | ⟨i, h1, _, h2⟩ | ⟨i, j, h1, h2, _, h3⟩)
    · omega
    · have := key (ny - 2) (nx - 1) i 0 (by omega) (by omega) (by omega)
      omega
    · have := key (ny - 2) (nx - 1) i (nx - 1) (by omega) (by omega) (by omega)
      omega
    · have := key (ny - 2) (nx - 1) (ny - 1) i (by omega) (by omega)
        (by rw [Nat.mul_comm (ny - 1)]; omega)
      omega
    · have := key (ny - 2) (nx - 1) (i + 1) (j + 1) (by omega) (by omega) (by omega)
      omega

/-- **C12b (partial).** Every data cell of the top and bottom rows is a starting cell, and a
left/right border cell of row `r ≤ ny - 3` is one if the border cell *below* it has data.
Missing: rows decided by the cell itself, and row `ny - 2` (see the negative result). -/
theorem C12_border_cells_partial (h : startPixels ny nx nodata closedBasin z = some l) :
    (∀ c < nx, nodata < z c → c ∈ l) ∧
    (∀ c < nx, nodata < z ((ny - 1) * nx + c) → (ny - 1) * nx + c ∈ l) ∧
    (∀ r < ny - 2, nodata < z ((r + 1) * nx) → r * nx ∈ l) ∧
    (∀ r < ny - 2, nodata < z ((r + 1) * nx + (nx - 1)) → r * nx + (nx - 1) ∈ l) := by
  refine ⟨?_, ?_, ?_, ?_⟩
  · intro c hc hz; rw [mem_startPixels h]; exact Or.inl ⟨hc, hz⟩
  · intro c hc hz; rw [mem_startPixels h]
    exact Or.inr (Or.inr (Or.inr (Or.inl ⟨c, hc, hz, by rw [Nat.mul_comm nx]; omega⟩)))
  · intro r hr hz; rw [mem_startPixels h]
    exact Or.inr (Or.inl ⟨r, hr, hz, rfl⟩)
  · intro r hr hz; rw [mem_startPixels h]
    exact Or.inr (Or.inr (Or.inl ⟨r, hr, hz, rfl⟩))

/-- All starting cells are cells of the grid (no `IndexError`). -/
theorem C12_start_in_range (hy : 1 ≤ ny) (hx : 1 ≤ nx)
    (h : startPixels ny nx nodata closedBasin z = some l) : ∀ v ∈ l, v < ny * nx := by
  intro v hv
  have row : ∀ r c : ℕ, r < ny → c < nx → r * nx + c < ny * nx := by
    intro r c hr hc
    have : (r + 1) * nx ≤ ny * nx := Nat.mul_le_mul_right _ hr
    rw [Nat.succ_mul] at this
    omega
  rw [mem_startPixels h] at hv
  rcases hv with ⟨h1, _⟩ | ⟨i, h1, _, h2⟩ | ⟨i, h1, _, h2⟩ | ⟨i, h1, _, h2⟩ | ⟨i, j, h1, h2, _, h3⟩
  · have := row 0 v (by omega) h1; omega
  · have := row i 0 (by omega) (by omega); omega
  · have := row i (nx - 1) (by omega) (by omega); omega
  · have := row (ny - 1) i (by omega) h1
    rw [Nat.mul_comm nx] at h2; omega
  · have := row (i + 1) (j + 1) (by omega) (by omega); omega

/-- **C12c.** The `EDGES_ONLY` variant returns exactly the border cells, so with it every
hypothesis of the grid versions of C09 and C10 is met. -/
theorem C12_edges_only_is_border (hy : 1 ≤ ny) (hx : 1 ≤ nx) :
    (∀ v ∈ startEdgesOnly ny nx, v < ny * nx) ∧
    (∀ r c, r < ny → c < nx → (r = 0 ∨ r + 1 = ny ∨ c = 0 ∨ c + 1 = nx) →
      r * nx + c ∈ startEdgesOnly ny nx) ∧
    (∀ v < ny * nx, v % nx = 0 ∨ v % nx = nx - 1 → v ∈ startEdgesOnly ny nx) := by
  have row : ∀ r c : ℕ, r < ny → c < nx → r * nx + c < ny * nx := by
    intro r c hr hc
    have : (r + 1) * nx ≤ ny * nx := Nat.mul_le_mul_right _ hr
    rw [Nat.succ_mul] at this
    omega
  have hmem : ∀ v, v ∈ startEdgesOnly ny nx ↔ v < nx ∨ (∃ c < nx, c + (ny - 1) * nx = v) ∨
      (∃ i < ny - 2, (1 + i) * nx = v) ∨ (∃ i < ny - 2, (1 + i) * nx + (nx - 1) = v) := by
    intro v
    simp [startEdgesOnly]
  have hb : ∀ r c, r < ny → c < nx → (r = 0 ∨ r + 1 = ny ∨ c = 0 ∨ c + 1 = nx) →
      r * nx + c ∈ startEdgesOnly ny nx := by
    intro r c hr hc h
    rw [hmem]
    by_cases h0 : r = 0
    · left; rw [h0]; omega
    by_cases h1 : r + 1 = ny
    · right; left
      refine ⟨c, hc, ?_⟩
      have : r = ny - 1 := by omega
      rw [this]; omega
    have e : 1 + (r - 1) = r := by omega
    rcases h with h | h | h | h
    · exact absurd h h0
    · exact absurd h h1
    · right; right; left
      exact ⟨r - 1, by omega, by rw [e, h]; rfl⟩
    · right; right; right
      exact ⟨r - 1, by omega, by rw [e]; omega⟩
  refine ⟨?_, hb, ?_⟩
  · intro v hv
    rw [hmem] at hv
    rcases hv with h | ⟨c, h, rfl⟩ | ⟨i, h, rfl⟩ | ⟨i, h, rfl⟩
    · have := row 0 v (by omega) h; omega
    · have := row (ny - 1) c (by omega) h; omega
    · have := row (1 + i) 0 (by omega) (by omega); omega
    · exact row (1 + i) (nx - 1) (by omega) (by omega)
  · intro v hv h
    have hc := Nat.mod_lt v (show 0 < nx by omega)
    have hr : v / nx < ny := by
      rw [Nat.div_lt_iff_lt_mul (by omega)]; exact hv
    have e : v / nx * nx + v % nx = v := by
      have := Nat.div_add_mod v nx
      rw [Nat.mul_comm] at this; exact this
    have := hb (v / nx) (v % nx) hr hc (by omega)
    rwa [e] at this

/-! ## The whole `fill_pits` on DEMs without missing values -/

theorem row_lt {ny nx r c : ℕ} (hr : r < ny) (hc : c < nx) : r * nx + c < ny * nx := by
  have : (r + 1) * nx ≤ ny * nx := Nat.mul_le_mul_right _ hr
  rw [Nat.succ_mul] at this
  omega

/-- starting cells of a DEM in which every cell has data -/
theorem startPixels_valid (hy : 1 ≤ ny) (hx : 1 ≤ nx) (hcb : closedBasin ≤ nodata)
    (hz : ∀ v < ny * nx, nodata < z v) :
    startPixels ny nx nodata closedBasin z = some
      (List.range nx ++ (List.range (ny - 2)).map (fun i => i * nx) ++
        (List.range (ny - 2)).map (fun i => i * nx + (nx - 1)) ++
        (List.range nx).map (fun c => c + nx * (ny - 1))) := by
  have hzc : ∀ i j, i < ny - 2 → j < nx - 2 → ∀ a b, nodata < zcRoll ny nx z a b := by
    intro i j hi hj a b
    refine hz _ (row_lt ?_ ?_)
    · have := Nat.mod_lt a (show 0 < ny - 2 by omega); omega
    · have := Nat.mod_lt b (show 0 < nx - 2 by omega); omega
  have hint : interiorIDs ny nx nodata closedBasin z = [] := by
    unfold interiorIDs
    rw [List.flatMap_eq_nil_iff]
    intro i hi
    rw [List.map_eq_nil_iff, List.filter_eq_nil_iff]
    intro j hj
    rw [List.mem_range] at hi hj
    have h1 := hzc i j hi hj
    simp only [decide_eq_true_eq, not_or, not_and, not_le]
    refine ⟨((hcb.trans_lt (h1 i j))).ne', fun _ => ?_⟩
    simp only [zs, lt_min_iff]
    exact ⟨⟨⟨⟨⟨⟨⟨h1 _ _, h1 _ _⟩, h1 _ _⟩, h1 _ _⟩, h1 _ _⟩, h1 _ _⟩, h1 _ _⟩, h1 _ _⟩
  have hf : ∀ (n : ℕ) (g : ℕ → ℕ), (∀ i < n, g i < ny * nx) →
      (List.range n).filter (fun i => decide (nodata < z (g i))) = List.range n := by
    intro n g hg
    rw [List.filter_eq_self]
    intro i hi
    simpa using hz _ (hg i (List.mem_range.1 hi))
  have h1 : topIDs nx nodata z = List.range nx := hf nx (fun c => c)
    (fun i hi => by have := row_lt (r := 0) (ny := ny) (by omega) hi; simpa using this)
  have h2 : leftIDs ny nx nodata z = (List.range (ny - 2)).map (fun i => i * nx) := by
    unfold leftIDs
    rw [hf (ny - 2) (fun i => (i + 1) * nx)]
    intro i hi
    have := row_lt (r := i + 1) (c := 0) (ny := ny) (nx := nx) (by omega) (by omega)
    simpa using this
  have h3 : rightIDs ny nx nodata z = (List.range (ny - 2)).map (fun i => i * nx + (nx - 1)) := by
    unfold rightIDs
    rw [hf (ny - 2) (fun i => (i + 1) * nx + (nx - 1))]
    intro i hi
    exact row_lt (by omega) (by omega)
  have h4 : bottomIDs ny nx nodata z = (List.range nx).map (fun c => c + nx * (ny - 1)) := by
    unfold bottomIDs
    rw [hf nx (fun c => (ny - 1) * nx + c)]
    intro i hi
    exact row_lt (by omega) hi
  unfold startPixels
  rw [hint, h1, h2, h3, h4]
  simp only [List.append_nil]
  rw [if_pos]
  simp only [List.length_append, List.length_map, List.length_range]
  omega

theorem markedIDs_valid (hz : ∀ v < ny * nx, nodata < z v) : markedIDs ny nx nodata z = [] := by
  unfold markedIDs
  rw [List.map_eq_nil_iff, List.filter_eq_nil_iff]
  intro v hv
  simpa using hz v (List.mem_range.1 hv)

/-- every cell of the DEM has data with respect to both nodata values in use -/
def ValidDEM (ny nx : ℕ) (nodata0 nodata : K) (raw : ℕ → Option K) : Prop :=
  ∀ v < ny * nx, ∃ x, raw v = some x ∧ nodata0 < x ∧ nodata < x

theorem ValidDEM.clean {nodata0 : K} {raw : ℕ → Option K} (h : ValidDEM ny nx nodata0 nodata raw) :
    (∀ v < ny * nx, nodata0 < clean nodata0 raw v) ∧ (∀ v < ny * nx, nodata < clean nodata0 raw v) := by
  constructor <;> intro v hv <;> obtain ⟨x, hx, h⟩ := h v hv
  · simpa [Fill.clean, hx] using h.1
  · simpa [Fill.clean, hx] using h.2

/-- On a DEM in which every cell has data, `fill_pits` raises no exception and terminates. -/
theorem C07_fill_pits_terminates (hy : 1 ≤ ny) (hx : 1 ≤ nx) {nodata0 nodata closedBasin : K}
    {raw : ℕ → Option K} (hcb : closedBasin ≤ nodata0) (hv : ValidDEM ny nx nodata0 nodata raw) :
    ∃ fuel s, fillPits ny nx nodata0 closedBasin nodata raw fuel = some (some s) := by
  unfold fillPits
  simp only [startPixels_valid hy hx hcb hv.clean.1, Option.map_some, markedIDs_valid hv.clean.2,
    Option.some.injEq]
  exact ⟨_, C07_fill_terminates ny nx _ _ _ _⟩

/-- **C09c, C10c.** On a DEM in which every cell has data, whenever `fill_pits` returns, every
cell of the DEM has been set to the least level at which it spills to a starting cell, and has a
non-increasing path to a starting cell. -/
theorem C09_fill_pits_valid_dem (hy : 1 ≤ ny) (hx : 1 ≤ nx) {nodata0 nodata closedBasin : K}
    {raw : ℕ → Option K} (hcb : closedBasin ≤ nodata0) (hv : ValidDEM ny nx nodata0 nodata raw)
    {fuel : ℕ} {s : St K}
    (h : fillPits ny nx nodata0 closedBasin nodata raw fuel = some (some s)) :
    ∃ start, startPixels ny nx nodata0 closedBasin (clean nodata0 raw) = some start ∧
      ∀ v < ny * nx,
        IsLeast {lev | Spills (fun u w => w ∈ nbrIDs ny nx u) (fun _ => True)
          (· ∈ start) (clean nodata0 raw) v lev} (s.dem v) ∧
        DrainsTo (fun u w => w ∈ nbrIDs ny nx u) (fun _ => True) (· ∈ start) s.dem v := by
  have hstart := startPixels_valid hy hx hcb hv.clean.1
  unfold fillPits at h
  simp only [hstart, Option.map_some, markedIDs_valid hv.clean.2, Option.some.injEq] at h
  refine ⟨_, hstart, ?_⟩
  generalize (List.range nx ++ _ ++ _ ++ _) = start at h hstart
  intro v hvlt
  have hsp : ∀ w, w ≤ v → ∃ l, Spills (fun u w => w ∈ nbrIDs ny nx u) (fun v => v ∉ ([] : List ℕ))
      (· ∈ start) (clean nodata0 raw) w l := by
    intro w
    induction w with
    | zero =>
      intro _
      refine ⟨clean nodata0 raw 0, .outlet ?_ le_rfl⟩
      exact (C12_border_cells_partial hstart).1 0 (by omega) (hv.clean.1 0 (by omega))
    | succ w ih =>
      intro hw
      obtain ⟨l, hl⟩ := ih (by omega)
      exact ⟨max l (clean nodata0 raw (w + 1)), .step (Spills.mono hl (le_max_left _ _))
        (succ_mem_nbrIDs (by omega)) (by simp) (le_max_right _ _)⟩
  have hsp := hsp v le_rfl
  have h1 := (C09_filled_is_least_spill_level h v).1 hsp
  have h2 := C10_no_pit_remains h v hsp
  constructor
  · simpa using h1
  · simpa using h2

/-- **C11b.** On a DEM in which every cell has data, running `fill_pits` on its own output
changes nothing. -/
theorem C11_fill_pits_idempotent (hy : 1 ≤ ny) (hx : 1 ≤ nx) {nodata0 nodata closedBasin : K}
    {raw : ℕ → Option K} (hcb : closedBasin ≤ nodata0) (hv : ValidDEM ny nx nodata0 nodata raw)
    {fuel fuel' : ℕ} {s s' : St K}
    (h : fillPits ny nx nodata0 closedBasin nodata raw fuel = some (some s))
    (h' : fillPits ny nx nodata0 closedBasin nodata (fun v => some (s.dem v)) fuel' = some (some s')) :
    s'.dem = s.dem := by
  unfold fillPits at h
  simp only [startPixels_valid hy hx hcb hv.clean.1, Option.map_some,
    markedIDs_valid hv.clean.2, Option.some.injEq] at h
  have hge := (C08_only_raises h).1
  have hv' : ValidDEM ny nx nodata0 nodata (fun v => some (s.dem v)) := fun v hvlt =>
    ⟨s.dem v, rfl, (hv.clean.1 v hvlt).trans_le (hge v), (hv.clean.2 v hvlt).trans_le (hge v)⟩
  unfold fillPits at h'
  simp only [startPixels_valid hy hx hcb hv'.clean.1, Option.map_some,
    markedIDs_valid hv'.clean.2, Option.some.injEq] at h'
  exact C11_fill_idempotent h h'

end

/-! ## Concrete cases -/

/-- 5×5 DEM with a pit in the middle, rim at 3 and a notch at level 2. -/
def pitDEM : ℕ → Option ℤ := fun v =>
  some ((([9,9,9,9,9, 9,3,3,3,9, 9,3,1,2,0, 9,3,3,3,9, 9,9,9,9,9] : List ℤ)[v]?).getD 9)

/-- The pit (cell 12) is raised to the level 2 of the notch (cell 13). -/
example : ((fillPits 5 5 (-9999) (-32000) (-9999) pitDEM 40).bind id).map
    (fun s => (s.dem 12, s.dem 13, s.dem 14, s.nRaised)) = some (2, 2, 0, 1) := by
  decide +kernel

/-- The DEM of the example has data everywhere. -/
example : ValidDEM 5 5 (-9999 : ℤ) (-9999) pitDEM := by
  have h : ∀ v < 25, (-9999 : ℤ) < ((([9,9,9,9,9, 9,3,3,3,9, 9,3,1,2,0, 9,3,3,3,9, 9,9,9,9,9] :
      List ℤ)[v]?).getD 9) := by decide +kernel
  intro v hv
  exact ⟨_, rfl, h v (by omega), h v (by omega)⟩

/-- **C12d (negative).** A left border cell is raised: in a 4×4 DEM with value 0 at row 2,
column 0 (ID 8) and 5 elsewhere, `fill_pits` raises that border cell to 5. -/
theorem C12_border_cell_raised :
    ((fillPits 4 4 (-9999) (-32000) (-9999)
      (fun v => some (if v = 8 then 0 else 5 : ℤ)) 40).bind id).map (fun s => s.dem 8) = some 5 := by
  decide +kernel

/-- **C44 (negative).** A missing-data cell does not stay missing: in a 5×5 DEM of value 5 with
nodata in the centre (ID 12), `fill_pits` writes 5 into the nodata cell. -/
theorem C44_nodata_cell_raised :
    ((fillPits 5 5 (-9999) (-32000) (-9999)
      (fun v => some (if v = 12 then -9999 else 5 : ℤ)) 60).bind id).map (fun s => s.dem 12) =
      some 5 := by
  decide +kernel

/-- **C10 (negative).** With missing data present a pit can remain: in a 12×3 DEM with nodata
at row 10, column 1 (ID 31) the cell with ID 10 (row 3, column 1), a pit of depth 5, is left
unfilled because the *row number* 10 is flagged CLOSED. -/
theorem C10_pit_remains_with_nodata :
    ((fillPits 12 3 (-9999) (-32000) (-9999)
      (fun v => some (if v = 31 then -9999 else if v = 10 then 0 else 5 : ℤ)) 100).bind id).map
      (fun s => (s.dem 10, (nbrIDs 12 3 10).map s.dem)) = some (0, [5, 5, 5, 5, 5, 5, 5, 5]) := by
  decide +kernel

/-- **C44 (partial).** A missing-data cell that was flagged CLOSED beforehand and is not a
starting cell keeps its value (missing: the code flags the wrong cells). -/
theorem C44_marked_cells_kept_partial {K : Type*} [LinearOrder K] {ny nx : ℕ} {z : ℕ → K}
    {marked start : List ℕ} {n0 fuel : ℕ} {s : St K}
    (h : loop (nbrIDs ny nx) fuel (initSt z marked n0 start) = some s) (v : ℕ)
    (hm : v ∈ marked) : s.dem v = z v := by
  by_cases hs : v ∈ start
  · exact (C08_only_raises h).2 v hs
  · refine (C09_filled_is_least_spill_level h v).2 ?_
    rintro ⟨l, hl⟩
    cases hl with
    | outlet h _ => exact hs h
    | step _ _ h _ => exact h hm

end Fill
