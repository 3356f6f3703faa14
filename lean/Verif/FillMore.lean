import Verif.FillProps

/-!
# Depression filling: which interior cells are starting cells, and the reported counts
-/

set_option autoImplicit false
set_option linter.unusedSectionVars false

namespace Fill
open FillSpec

section
variable {K : Type*} [LinearOrder K] {ny nx : ℕ} {nodata closedBasin : K} {z : ℕ → K} {l : List ℕ}

theorem split_unique {nx a b c d : ℕ} (hb : b < nx) (hd : d < nx) (h : a * nx + b = c * nx + d) :
    a = c ∧ b = d := by
  have h1 := dm (nx := nx) (w := a * nx + b) (q := a) (m := b) (by ring) hb
  have h2 := dm (nx := nx) (w := a * nx + b) (q := c) (m := d) (by rw [h]; ring) hd
  exact ⟨h1.1.symm.trans h2.1, h1.2.symm.trans h2.2⟩

/-- **C12 (interior).** A cell at least two cells away from the border is a starting cell exactly
when it is marked as a closed basin, or has data and one of its eight neighbours has none. -/
theorem C12_interior_start (h : startPixels ny nx nodata closedBasin z = some l) {r c : ℕ}
    (hr : 2 ≤ r) (hr' : r + 2 < ny) (hc : 2 ≤ c) (hc' : c + 2 < nx) :
    r * nx + c ∈ l ↔ z (r * nx + c) = closedBasin ∨
      (nodata < z (r * nx + c) ∧ ∃ r' c', r ≤ r' + 1 ∧ r' ≤ r + 1 ∧ c ≤ c' + 1 ∧ c' ≤ c + 1 ∧
        ¬ (r' = r ∧ c' = c) ∧ z (r' * nx + c') ≤ nodata) := by
  obtain ⟨i, rfl⟩ : ∃ i, r = i + 2 := ⟨r - 2, by omega⟩
  obtain ⟨j, rfl⟩ : ∃ j, c = j + 2 := ⟨c - 2, by omega⟩
  have roll : ∀ a b, a < ny - 2 → b < nx - 2 → zcRoll ny nx z a b = z ((a + 1) * nx + (b + 1)) := by
    intro a b ha hb
    unfold zcRoll; rw [Nat.mod_eq_of_lt ha, Nat.mod_eq_of_lt hb]
  have hup : (i + 1 + (ny - 2 - 1)) % (ny - 2) = i := by
    rw [show i + 1 + (ny - 2 - 1) = i + (ny - 2) by omega, Nat.add_mod_right,
      Nat.mod_eq_of_lt (by omega)]
  have hlf : (j + 1 + (nx - 2 - 1)) % (nx - 2) = j := by
    rw [show j + 1 + (nx - 2 - 1) = j + (nx - 2) by omega, Nat.add_mod_right,
      Nat.mod_eq_of_lt (by omega)]
  have hzs : zs ny nx z (i + 1) (j + 1) ≤ nodata ↔ ∃ r' c', i + 2 ≤ r' + 1 ∧ r' ≤ i + 2 + 1 ∧
      j + 2 ≤ c' + 1 ∧ c' ≤ j + 2 + 1 ∧ ¬ (r' = i + 2 ∧ c' = j + 2) ∧ z (r' * nx + c') ≤ nodata := by
    have m1 : ∀ a, a < ny - 2 → a % (ny - 2) = a := fun a => Nat.mod_eq_of_lt
    have m2 : ∀ a, a < nx - 2 → a % (nx - 2) = a := fun a => Nat.mod_eq_of_lt
    simp only [zs, min_le_iff, zcRoll, hup, hlf, m1 (i + 1) (by omega), m1 (i + 1 + 1) (by omega),
      m2 (j + 1) (by omega), m2 (j + 1 + 1) (by omega)]
    constructor
    · rintro (((((((h | h) | h) | h) | h) | h) | h) | h)
      all_goals exact ⟨_, _, by omega, by omega, by omega, by omega, by omega, h⟩
    · rintro ⟨r', c', a1, a2, a3, a4, a5, a6⟩
      have e1 : r' = i + 1 ∨ r' = i + 1 + 1 ∨ r' = i + 1 + 1 + 1 := by omega
      have e2 : c' = j + 1 ∨ c' = j + 1 + 1 ∨ c' = j + 1 + 1 + 1 := by omega
      rcases e1 with rfl | rfl | rfl <;> rcases e2 with rfl | rfl | rfl <;>
        first
        | exact absurd ⟨by omega, by omega⟩ a5
        | (simp only [a6, true_or, or_true])
  rw [mem_startPixels h]
  constructor
  · rintro (⟨h1, -⟩ | ⟨a, h1, -, h2⟩ | ⟨a, h1, -, h2⟩ | ⟨a, h1, -, h2⟩ | ⟨a, b, h1, h2, h3, h4⟩)
    · exfalso
      have : nx ≤ (i + 2) * nx := Nat.le_mul_of_pos_left _ (by omega)
      omega
    · have := (split_unique (nx := nx) (a := i + 2) (b := j + 2) (c := a) (d := 0) (by omega) (by omega)
        (by rw [h2, Nat.add_zero])).2; omega
    · have := (split_unique (by omega) (by omega) h2).2; omega
    · have := (split_unique (nx := nx) (a := i + 2) (b := j + 2) (c := ny - 1) (d := a) (by omega) h1
        (by rw [h2]; ring)).1; omega
    · obtain ⟨e1, e2⟩ := split_unique (by omega) (by omega) h4
      obtain rfl : a = i + 1 := by omega
      obtain rfl : b = j + 1 := by omega
      rw [roll _ _ h1 h2, hzs] at h3
      exact h3
  · intro h3
    refine Or.inr (Or.inr (Or.inr (Or.inr ⟨i + 1, j + 1, by omega, by omega, ?_, rfl⟩)))
    rw [roll _ _ (by omega) (by omega), hzs]
    exact h3

/-- The list of starting cells is refused exactly when it has more than `500 * (nx + ny)` entries. -/
theorem C12_too_many_start_cells : startPixels ny nx nodata closedBasin z = none ↔
    500 * (nx + ny) < (topIDs nx nodata z).length + (leftIDs ny nx nodata z).length +
      (rightIDs ny nx nodata z).length + (bottomIDs ny nx nodata z).length +
      (interiorIDs ny nx nodata closedBasin z).length := by
  unfold startPixels
  dsimp only
  simp only [List.length_append]
  split_ifs with h
  · simp only [false_iff]; omega
  · simp only [true_iff]; omega

/-- A 5 by 5 DEM with one cell without data next to the middle. -/
example : ∃ l, startPixels 5 5 (-9999 : ℤ) (-32000) (fun v => if v = 6 then -9999 else 1) = some l ∧
    12 ∈ l := by
  refine ⟨_, rfl, ?_⟩
  exact (C12_interior_start (ny := 5) (nx := 5) (nodata := (-9999 : ℤ)) (closedBasin := -32000)
    (z := fun v => if v = 6 then -9999 else 1) rfl (r := 2) (c := 2) (by omega) (by omega)
    (by omega) (by omega)).2 (Or.inr ⟨by decide, 1, 1, by omega, by omega, by omega, by omega,
      by omega, by decide⟩)

end

/-! ## The number of raised cells (C08) -/

section
variable {K : Type*} [LinearOrder K]

/-- The number of cells whose elevation differs from the original one. -/
def changed (N : ℕ) (z dem : ℕ → K) : ℕ := ((Finset.range N).filter (fun v => dem v ≠ z v)).card

theorem changed_update {N : ℕ} {z dem : ℕ → K} {v : ℕ} {a : K} (hv : v < N) (h1 : dem v = z v)
    (h2 : a ≠ z v) : changed N z (Function.update dem v a) = changed N z dem + 1 := by
  unfold changed
  have : (Finset.range N).filter (fun u => Function.update dem v a u ≠ z u) =
      insert v ((Finset.range N).filter (fun u => dem u ≠ z u)) := by
    ext u
    simp only [Finset.mem_filter, Finset.mem_range, Finset.mem_insert, Function.update_apply]
    by_cases hu : u = v
    · subst hu; simp [hv, h2]
    · simp [hu]
  rw [this, Finset.card_insert_of_notMem]
  simp [h1]

theorem fold_raised {N : ℕ} {z : ℕ → K} (zmin : K) : ∀ (ids : List ℕ) (s : St K),
    (∀ v ∈ ids, v < N ∧ (s.dem v = z v ∨ zmin ≤ s.dem v)) →
    s.nRaised = changed N z s.dem →
    (ids.foldl (processNbr zmin) s).nRaised = changed N z (ids.foldl (processNbr zmin) s).dem
  | [], _, _, h => h
  | v :: ids, s, h1, h2 => by
    rw [List.foldl_cons]
    obtain ⟨hv, hd⟩ := h1 v (by simp)
    by_cases hlt : s.dem v < zmin
    · have hz : s.dem v = z v := by
        rcases hd with hd | hd
        · exact hd
        · exact absurd hlt (not_lt.2 hd)
      apply fold_raised zmin ids
      · intro u hu
        refine ⟨(h1 u (by simp [hu])).1, ?_⟩
        simp only [processNbr, hlt, if_true, Function.update_apply]
        by_cases huv : u = v
        · subst huv; simp
        · simp only [huv, if_false]; exact (h1 u (by simp [hu])).2
      · simp only [processNbr, hlt, if_true]
        rw [changed_update hv hz (by rw [← hz]; exact hlt.ne'), h2]
    · apply fold_raised zmin ids
      · intro u hu
        refine ⟨(h1 u (by simp [hu])).1, ?_⟩
        simp only [processNbr, hlt, if_false]
        exact (h1 u (by simp [hu])).2
      · simp only [processNbr, hlt, if_false]; exact h2

theorem loop_raised {N : ℕ} {z : ℕ → K} {nbrs : ℕ → List ℕ} (hn : ∀ u, ∀ w ∈ nbrs u, w < N) :
    ∀ (fuel : ℕ) (s s' : St K), (∀ v, s.st v = .opened → s.dem v = z v) →
      s.nRaised = changed N z s.dem → loop nbrs fuel s = some s' →
      s'.nRaised = changed N z s'.dem := by
  intro fuel
  induction fuel with
  | zero =>
    intro s s' h1 h2 h
    rw [loop] at h
    split at h
    · simp only [Option.some.injEq] at h; subst h; exact h2
    · cases h
  | succ fuel ih =>
    intro s s' h1 h2 h
    rw [loop] at h
    split at h
    · simp only [Option.some.injEq] at h; subst h; exact h2
    · next zmin v rest hp =>
      refine ih _ _ ?_ ?_ h
      · intro u hu
        unfold visit at hu ⊢
        dsimp only at hu ⊢
        obtain ⟨f1, f2, -⟩ := fold_spec zmin ((nbrs v).filter (fun u =>
          decide ((Function.update s.st v .closed) u = .opened)))
          { s with heap := rest, st := Function.update s.st v .closed, nClosed := s.nClosed + 1 }
        rw [f2] at hu
        rw [f1]
        split_ifs at hu with hm
        rw [if_neg hm]
        dsimp only at hu ⊢
        refine h1 u ?_
        simp only [Function.update_apply] at hu
        split_ifs at hu
        exact hu
      · unfold visit
        dsimp only
        apply fold_raised zmin
        · intro u hu
          rw [List.mem_filter] at hu
          refine ⟨hn v u hu.1, Or.inl (h1 u ?_)⟩
          have := hu.2
          simp only [decide_eq_true_eq, Function.update_apply] at this
          split_ifs at this
          exact this
        · exact h2

/-- **C08.** The number of raised cells that is reported is the number of cells whose elevation
was changed. -/
theorem C08_raised_count {ny nx fuel n0 : ℕ} {z : ℕ → K} {marked start : List ℕ} {s : St K}
    (h : loop (nbrIDs ny nx) fuel (initSt z marked n0 start) = some s) :
    s.nRaised = ((Finset.range (ny * nx)).filter (fun v => s.dem v ≠ z v)).card := by
  refine loop_raised (N := ny * nx) nbrIDs_lt fuel _ _ (fun v _ => rfl) ?_ h
  simp [initSt, changed]

end

/-- **C09 (negative).** Filling takes the two ends of consecutive rows for neighbours: in a 4×4 DEM of value 5 with 0 at
row 2, column 0 (ID 8, one of the border cells that are not starting cells, see C12) and 1 at row 1, column 3 (ID 7),
the cell is raised to 1 only, although it is not a starting cell and all its neighbours are at 5: it is still a pit, and
its level is not that of any path of neighbours. -/
theorem C09_wraps_around_violated : ∃ (start : List ℕ) (s : St ℤ),
    startPixels 4 4 (-9999) (-32000) (fun v => if v = 8 then (0 : ℤ) else if v = 7 then 1 else 5) = some start ∧
    8 ∉ start ∧
    fillPits 4 4 (-9999) (-32000) (-9999) (fun v => some (if v = 8 then (0 : ℤ) else if v = 7 then 1 else 5)) 40 =
      some (some s) ∧
    s.dem 8 = 1 ∧ ∀ w, GridNbr 4 4 8 w → s.dem w = 5 := by
  have h1 : (startPixels 4 4 (-9999) (-32000) (fun v => if v = 8 then (0 : ℤ) else if v = 7 then 1 else 5)).map
      (fun l => decide (8 ∈ l)) = some false := by decide +kernel
  have h2 : ((fillPits 4 4 (-9999) (-32000) (-9999)
      (fun v => some (if v = 8 then 0 else if v = 7 then 1 else 5 : ℤ)) 40).bind id).map
      (fun s => (s.dem 8, s.dem 4, s.dem 5, s.dem 9, s.dem 12, s.dem 13)) = some (1, 5, 5, 5, 5, 5) := by
    decide +kernel
  rw [Option.map_eq_some_iff] at h1 h2
  obtain ⟨start, e1, e2⟩ := h1
  obtain ⟨s, e3, e4⟩ := h2
  simp only [Prod.mk.injEq] at e4
  obtain ⟨d8, d4, d5, d9, d12, d13⟩ := e4
  rw [Option.bind_eq_some_iff] at e3
  obtain ⟨o, e5, e6⟩ := e3
  refine ⟨start, s, e1, by simpa using e2, ?_, d8, ?_⟩
  · rw [e5]; exact congrArg some e6
  · rintro w ⟨-, hw, hne, h5, h6, h7, h8⟩
    interval_cases w <;> first | assumption | omega

/-! ## How often cells are processed (C07) -/

section
variable {K : Type*} [LinearOrder K]

theorem dedup_length_start {ny nx : ℕ} (hy : 3 ≤ ny) (hx : 3 ≤ nx) :
    ((Finset.range (ny * nx)).filter fun v => v ∉ (List.range nx ++ (List.range (ny - 2)).map (fun i => i * nx) ++
        (List.range (ny - 2)).map (fun i => i * nx + (nx - 1)) ++
        (List.range nx).map (fun c => c + nx * (ny - 1)))).card +
      (List.range nx ++ (List.range (ny - 2)).map (fun i => i * nx) ++
        (List.range (ny - 2)).map (fun i => i * nx + (nx - 1)) ++
        (List.range nx).map (fun c => c + nx * (ny - 1))).length = ny * nx + 2 := by
  obtain ⟨m, rfl⟩ : ∃ m, ny = m + 3 := ⟨ny - 3, by omega⟩
  set L := List.range nx ++ (List.range (m + 3 - 2)).map (fun i => i * nx) ++
        (List.range (m + 3 - 2)).map (fun i => i * nx + (nx - 1)) ++
        (List.range nx).map (fun c => c + nx * (m + 3 - 1)) with hL
  -- the same cells, each once
  set L' := List.range nx ++ (List.range m).map (fun i => (i + 1) * nx) ++
        (List.range m).map (fun i => (i + 1) * nx + (nx - 1)) ++
        (List.range nx).map (fun c => c + nx * (m + 2)) with hL'
  have hmem : ∀ v, v ∈ L ↔ v ∈ L' := by
    intro v
    simp only [hL, hL', List.mem_append, List.mem_map, List.mem_range, or_assoc]
    constructor
    · rintro (h | ⟨i, hi, rfl⟩ | ⟨i, hi, rfl⟩ | ⟨c, hc, rfl⟩)
      · exact Or.inl h
      · rcases i with _ | i
        · left; omega
        · right; left; exact ⟨i, by omega, rfl⟩
      · rcases i with _ | i
        · left; omega
        · right; right; left; exact ⟨i, by omega, rfl⟩
      · right; right; right; exact ⟨c, hc, rfl⟩
    · rintro (h | ⟨i, hi, rfl⟩ | ⟨i, hi, rfl⟩ | ⟨c, hc, rfl⟩)
      · exact Or.inl h
      · right; left; exact ⟨i + 1, by omega, rfl⟩
      · right; right; left; exact ⟨i + 1, by omega, rfl⟩
      · right; right; right; exact ⟨c, hc, rfl⟩
  have hnd : L'.Nodup := by
    have e : ∀ c, c + nx * (m + 2) = (m + 2) * nx + c := fun c => by ring
    have key := @split_unique nx
    simp only [hL', List.nodup_append, List.mem_append, List.mem_map, List.mem_range, e]
    refine ⟨⟨⟨List.nodup_range, ?_, ?_⟩, ?_, ?_⟩, ?_, ?_⟩
    · refine List.Nodup.map_on (fun a _ b _ h => ?_) List.nodup_range
      have := key (a := a + 1) (b := 0) (c := b + 1) (d := 0) (by omega) (by omega) (by simpa using h)
      omega
    · rintro a ha _ ⟨i, hi, rfl⟩ h
      have := key (a := 0) (b := a) (c := i + 1) (d := 0) (by omega) (by omega) (by simpa using h)
      omega
    · refine List.Nodup.map_on (fun a _ b _ h => ?_) List.nodup_range
      have := key (a := a + 1) (b := nx - 1) (c := b + 1) (d := nx - 1) (by omega) (by omega) h
      omega
    · rintro a (ha | ⟨i, hi, rfl⟩) _ ⟨j, hj, rfl⟩ h
      · have := key (a := 0) (b := a) (c := j + 1) (d := nx - 1) (by omega) (by omega) (by simpa using h)
        omega
      · have := key (a := i + 1) (b := 0) (c := j + 1) (d := nx - 1) (by omega) (by omega) (by simpa using h)
        omega
    · refine List.Nodup.map_on (fun a _ b _ h => ?_) List.nodup_range
      omega
    · rintro a ((ha | ⟨i, hi, rfl⟩) | ⟨i, hi, rfl⟩) _ ⟨j, hj, rfl⟩ h
      · have := key (a := 0) (b := a) (c := m + 2) (d := j) (by omega) (by omega) (by simpa using h)
        omega
      · have := key (a := i + 1) (b := 0) (c := m + 2) (d := j) (by omega) (by omega) (by simpa using h)
        omega
      · have := key (a := i + 1) (b := nx - 1) (c := m + 2) (d := j) (by omega) (by omega) (by simpa using h)
        omega
  have hlt : ∀ v ∈ L', v < (m + 3) * nx := by
    intro v hv
    simp only [hL', List.mem_append, List.mem_map, List.mem_range, or_assoc] at hv
    have row : ∀ r c : ℕ, r < m + 3 → c < nx → r * nx + c < (m + 3) * nx := by
      intro r c hr hc
      have : (r + 1) * nx ≤ (m + 3) * nx := Nat.mul_le_mul_right _ hr
      rw [Nat.succ_mul] at this
      omega
    rcases hv with h | ⟨i, hi, rfl⟩ | ⟨i, hi, rfl⟩ | ⟨c, hc, rfl⟩
    · have := row 0 v (by omega) h; omega
    · have := row (i + 1) 0 (by omega) (by omega); omega
    · exact row (i + 1) (nx - 1) (by omega) (by omega)
    · have := row (m + 2) c (by omega) (by omega); rw [Nat.mul_comm nx]; omega
  have hlen : L.length = L'.length + 2 := by
    simp only [hL, hL', List.length_append, List.length_map, List.length_range]
    omega
  have hcard : ((Finset.range ((m + 3) * nx)).filter fun v => v ∉ L).card + L'.length = (m + 3) * nx := by
    rw [← List.toFinset_card_of_nodup hnd, ← Finset.card_union_of_disjoint]
    · conv_rhs => rw [← Finset.card_range ((m + 3) * nx)]
      congr 1
      ext v
      simp only [Finset.mem_union, Finset.mem_filter, Finset.mem_range, List.mem_toFinset, hmem]
      constructor
      · rintro (h | h)
        · exact h.1
        · exact hlt v h
      · intro h
        by_cases hv : v ∈ L'
        · exact Or.inr hv
        · exact Or.inl ⟨h, hv⟩
    · rw [Finset.disjoint_left]
      intro v h1 h2
      rw [List.mem_toFinset] at h2
      simp only [Finset.mem_filter, hmem] at h1
      exact h1.2 h2
  omega

/-- **C07 (the code's own starting cells).** On every DEM of at least three rows and columns without
missing data, pit filling takes exactly two cells more from the queue than there are cells: the two
upper corners are listed twice among the starting cells and are processed twice. -/
theorem C07_each_cell_once_violated {ny nx : ℕ} (hy : 3 ≤ ny) (hx : 3 ≤ nx) {nodata0 nodata closedBasin : K}
    {raw : ℕ → Option K} (hcb : closedBasin ≤ nodata0) (hv : ValidDEM ny nx nodata0 nodata raw)
    {fuel : ℕ} {s : St K}
    (h : fillPits ny nx nodata0 closedBasin nodata raw fuel = some (some s)) :
    s.nClosed = ny * nx + 2 := by
  have hstart := startPixels_valid (by omega) (by omega) hcb hv.clean.1
  unfold fillPits at h
  simp only [hstart, Option.map_some, markedIDs_valid hv.clean.2, Option.some.injEq, List.length_nil] at h
  have hd := dedup_length_start hy hx
  have h0 : 0 ∈ (List.range nx ++ (List.range (ny - 2)).map (fun i => i * nx) ++
        (List.range (ny - 2)).map (fun i => i * nx + (nx - 1)) ++
        (List.range nx).map (fun c => c + nx * (ny - 1))) := by
    simp only [List.mem_append, List.mem_range]
    left; left; left; omega
  generalize (List.range nx ++ (List.range (ny - 2)).map (fun i => i * nx) ++
        (List.range (ny - 2)).map (fun i => i * nx + (nx - 1)) ++
        (List.range nx).map (fun c => c + nx * (ny - 1))) = start at h hstart hd h0
  have hI := Inv.init (nbrIDs ny nx) (clean nodata0 raw) start [] 0
  have hc := loop_count (ny * nx) nbrIDs_lt (nbrIDs_nodup hx) fuel _ _ hI h
  obtain ⟨hI', he⟩ := loop_inv fuel _ _ hI h
  have hno : ∀ v, v < ny * nx → s.st v ≠ .opened := by
    intro v
    induction v with
    | zero => intro _; exact hI'.start_t 0 h0
    | succ v ih =>
      intro hlt
      have hn := ih (by omega)
      have hcl : s.st v = .closed := by
        cases hs : s.st v with
        | opened => exact absurd hs hn
        | closed => rfl
        | onHeap =>
          obtain ⟨⟨p, hp, _⟩, _⟩ := hI'.onheap v hs
          rw [he] at hp
          simp at hp
      exact hI'.closed v hcl (Or.inr (by simp)) _ (succ_mem_nbrIDs hlt)
  have e1 : nOpen (ny * nx) s = 0 := by
    unfold nOpen
    rw [Finset.card_eq_zero, Finset.filter_eq_empty_iff]
    intro v hv
    exact hno v (Finset.mem_range.1 hv)
  have e2 : nOpen (ny * nx) (initSt (clean nodata0 raw) [] 0 start) =
      ((Finset.range (ny * nx)).filter fun v => v ∉ start).card := by
    unfold nOpen
    congr 1
    apply Finset.filter_congr
    intro v _
    by_cases hvs : v ∈ start <;> simp [initSt, hvs]
  have e3 : (initSt (clean nodata0 raw) [] 0 start).heap.length = start.length := by simp [initSt]
  have e4 : (initSt (clean nodata0 raw) [] 0 start).nClosed = 0 := rfl
  omega

end

/-- With two columns some cells are processed more than once even if the starting cells are
different from each other. -/
theorem C07_two_columns_violated : ∃ s : St ℤ,
    loop (nbrIDs 3 2) 48 (initSt (fun _ => 0) [] 0 [0]) = some s ∧ 6 < s.nClosed := by
  refine ⟨_, rfl, ?_⟩
  decide +kernel

end Fill
