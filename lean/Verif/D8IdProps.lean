import Verif.D8Props
import Mathlib.Data.List.Nodup
import Mathlib.Data.List.Range
import Mathlib.Data.List.FinRange

/-! # D8 IDs: edge cells (C02) and parent cells (C03) -/

set_option linter.unusedSectionVars false

namespace D8
open D8Spec

/-! ## C02: edge IDs -/

/-- membership in the edge ID list, any grid size -/
theorem mem_edgeIDs {ny nx : ℕ} (hy : 1 ≤ ny) (hx : 1 ≤ nx) (r c : ℕ) (hr : r < ny)
    (hc : c < nx) :
    r * nx + c ∈ edgeIDs ny nx ↔ r = 0 ∨ r + 1 = ny ∨ c = 0 ∨ c + 1 = nx := by
  unfold edgeIDs
  simp only [List.mem_append, List.mem_range, List.mem_map, exists_exists_and_eq_and]
  have hinj : ∀ r' c' : ℕ, c' < nx → r * nx + c = r' * nx + c' → r = r' ∧ c = c' := by
    intro r' c' hc' h
    have h1 : (r * nx + c) / nx = (r' * nx + c') / nx := by rw [h]
    have h2 : (r * nx + c) % nx = (r' * nx + c') % nx := by rw [h]
    rw [Nat.mul_comm r, Nat.mul_comm r', Nat.mul_add_div (by omega), Nat.mul_add_div (by omega),
      Nat.div_eq_of_lt hc, Nat.div_eq_of_lt hc'] at h1
    rw [Nat.mul_comm r, Nat.mul_comm r', Nat.mul_add_mod, Nat.mul_add_mod, Nat.mod_eq_of_lt hc,
      Nat.mod_eq_of_lt hc'] at h2
    exact ⟨by omega, h2⟩
  constructor
  · rintro (((h | ⟨i, hi, h⟩) | ⟨i, hi, h⟩) | ⟨i, hi, h⟩)
    · left
      by_contra h0
      have : 1 * nx ≤ r * nx := Nat.mul_le_mul_right _ (by omega)
      omega
    · have := hinj (ny - 1) i hi (by omega)
      omega
    · have := hinj (1 + i) 0 (by omega) (by omega)
      omega
    · have := hinj (1 + i) (nx - 1) (by omega) (by omega)
      omega
  · intro h
    by_cases h0 : r = 0
    · subst h0
      left; left; left; omega
    by_cases h1 : r + 1 = ny
    · left; left; right
      refine ⟨c, hc, ?_⟩
      have : r = ny - 1 := by omega
      subst this; omega
    rcases h with h | h | h | h
    · exact absurd h h0
    · exact absurd h h1
    · left; right
      refine ⟨r - 1, by omega, ?_⟩
      have : 1 + (r - 1) = r := by omega
      rw [this, h]; omega
    · right
      refine ⟨r - 1, by omega, ?_⟩
      have : 1 + (r - 1) = r := by omega
      rw [this]; omega

/-- **C02a.** Every listed edge ID is a cell of the grid, and a cell is listed iff it lies in
the first/last row or column. -/
theorem C02_edge_ids_are_border {ny nx : ℕ} (hy : 1 ≤ ny) (hx : 1 ≤ nx) :
    (∀ i ∈ edgeIDs ny nx, i < ny * nx) ∧
    (∀ c : Cell ny nx, c.1.val * nx + c.2.val ∈ edgeIDs ny nx ↔ OnBorder c) := by
  refine ⟨?_, fun c => mem_edgeIDs hy hx _ _ c.1.isLt c.2.isLt⟩
  intro i hi
  unfold edgeIDs at hi
  simp only [List.mem_append, List.mem_range, List.mem_map, exists_exists_and_eq_and] at hi
  rcases hi with ((h | ⟨j, hj, h⟩) | ⟨j, hj, h⟩) | ⟨j, hj, h⟩
  · have : 1 * nx ≤ ny * nx := Nat.mul_le_mul_right _ hy
    omega
  · have : (ny - 1) * nx + nx = ny * nx := by
      rw [← Nat.succ_mul]; congr 1; omega
    omega
  · have : (1 + j) * nx + nx ≤ ny * nx := by
      rw [← Nat.succ_mul]; exact Nat.mul_le_mul_right _ (by omega)
    omega
  · have : (1 + j) * nx + nx ≤ ny * nx := by
      rw [← Nat.succ_mul]; exact Nat.mul_le_mul_right _ (by omega)
    omega

/-- **C02b.** With at least two rows and two columns, no edge cell is listed twice. -/
theorem C02_edge_ids_nodup {ny nx : ℕ} (hy : 2 ≤ ny) (hx : 2 ≤ nx) : (edgeIDs ny nx).Nodup := by
  unfold edgeIDs
  simp only
  have hL : ((List.range (ny - 2)).map (fun i => (1 + i) * nx)).Nodup := by
    apply List.nodup_range.map
    intro a b h
    have := Nat.eq_of_mul_eq_mul_right (by omega) h
    omega
  refine List.Nodup.append (List.Nodup.append (List.Nodup.append List.nodup_range ?_ ?_) hL ?_)
    ?_ ?_
  · exact List.nodup_range.map (fun a b h => by simpa using h)
  · intro a h1 h2
    simp only [List.mem_range, List.mem_map] at h1 h2
    obtain ⟨i, hi, h⟩ := h2
    have : 1 * nx ≤ (ny - 1) * nx := Nat.mul_le_mul_right _ (by omega)
    omega
  · intro a h1 h2
    simp only [List.mem_append, List.mem_range, List.mem_map] at h1 h2
    obtain ⟨i, hi, h⟩ := h2
    rcases h1 with h1 | ⟨j, hj, h1⟩
    · have : 1 * nx ≤ (1 + i) * nx := Nat.mul_le_mul_right _ (by omega)
      omega
    · have : (1 + i) * nx + nx ≤ (ny - 1) * nx := by
        rw [← Nat.succ_mul]; exact Nat.mul_le_mul_right _ (by omega)
      omega
  · exact hL.map (fun a b h => by simpa using h)
  · intro a h1 h2
    simp only [List.mem_append, List.mem_range, List.mem_map, exists_exists_and_eq_and] at h1 h2
    obtain ⟨i, hi, h⟩ := h2
    rcases h1 with (h1 | ⟨j, hj, h1⟩) | ⟨j, hj, h1⟩
    · have : 1 * nx ≤ (1 + i) * nx := Nat.mul_le_mul_right _ (by omega)
      omega
    · have : (1 + i) * nx + nx ≤ (ny - 1) * nx := by
        rw [← Nat.succ_mul]; exact Nat.mul_le_mul_right _ (by omega)
      omega
    · have h3 : (1 + j) * nx % nx = ((1 + i) * nx + (nx - 1)) % nx := by rw [h1, h]
      rw [Nat.mul_mod_left, Nat.mul_comm, Nat.mul_add_mod, Nat.mod_eq_of_lt (by omega)] at h3
      omega

/-- Number of listed edge cells (with two rows or more, this is the size of the border). -/
theorem C02_edge_ids_count {ny nx : ℕ} :
    (edgeIDs ny nx).length = 2 * nx + 2 * (ny - 2) := by
  simp [edgeIDs]; omega

/-- On one-row (or one-column) grids cells *are* listed twice. -/
theorem C02_edge_ids_dup_one_row : ¬ (edgeIDs 1 3).Nodup ∧ ¬ (edgeIDs 3 1).Nodup := by decide

example : edgeIDs 3 4 = [0, 1, 2, 3, 8, 9, 10, 11, 4, 7] := by decide

/-! ## C03: parents -/

variable {ny nx : ℕ}

theorem inc_val {n : ℕ} (i : Fin n) : (inc i).val = if i.val = n - 1 then 0 else i.val + 1 := by
  have := i.isLt
  unfold inc
  simp only
  split_ifs with h
  · rw [h, show n - 1 + 1 = n by omega, Nat.mod_self]
  · exact Nat.mod_eq_of_lt (by omega)

theorem dec_val {n : ℕ} (i : Fin n) : (dec i).val = if i.val = 0 then n - 1 else i.val - 1 := by
  have := i.isLt
  unfold dec
  simp only
  split_ifs with h
  · rw [h, Nat.zero_add]; exact Nat.mod_eq_of_lt (by omega)
  · rw [show i.val + n - 1 = (i.val - 1) + n by omega, Nat.add_mod_right]
    exact Nat.mod_eq_of_lt (by omega)

theorem inc_cast {n : ℕ} (i : Fin n) :
    ((inc i).val : ℤ) = i.val + 1 - (if i.val = n - 1 then (n:ℤ) else 0) := by
  have := i.isLt
  rw [inc_val]; split_ifs with h <;> push_cast <;> omega

theorem dec_cast {n : ℕ} (i : Fin n) :
    ((dec i).val : ℤ) = i.val - 1 + (if i.val = 0 then (n:ℤ) else 0) := by
  have := i.isLt
  rw [dec_val]; split_ifs with h <;> omega

/-- Parent ID for a code `codeList k` when borders are either periodic or not involved. -/
theorem parentID_eq (lr tb : Bool) (d : Cell ny nx → ℤ) (c : Cell ny nx) (k : Fin 8)
    (hk : d c = codeList k)
    (hlr : lr = true ∨ (c.2.val ≠ 0 ∧ c.2.val ≠ nx - 1))
    (htb : tb = true ∨ (c.1.val ≠ 0 ∧ c.1.val ≠ ny - 1)) :
    parentID lr tb d c = flatID (nbr k c) := by
  have hkpos := codeList_pos k
  unfold parentID
  simp only [hk, if_neg (not_le.2 hkpos)]
  have h1 : ∀ p : ℤ, (if lr = true then
        (let p := if decide (c.2.val = nx - 1) = true ∧ (codeList k = 1 ∨ codeList k = 2 ∨ codeList k = 4) then p - nx else p
         if decide (c.2.val = 0) = true ∧ (codeList k = 16 ∨ codeList k = 32 ∨ codeList k = 64) then p + nx else p)
      else if decide (c.2.val = nx - 1) = true ∨ decide (c.2.val = 0) = true then 0 else p)
      = p - (if c.2.val = nx - 1 ∧ (codeList k = 1 ∨ codeList k = 2 ∨ codeList k = 4) then (nx:ℤ) else 0)
          + (if c.2.val = 0 ∧ (codeList k = 16 ∨ codeList k = 32 ∨ codeList k = 64) then (nx:ℤ) else 0) := by
    intro p
    rcases hlr with h | ⟨h, h'⟩
    · simp only [h, if_true, decide_eq_true_eq]
      split_ifs <;> omega
    · simp [h, h']
  have h2 : ∀ p : ℤ, (if tb = true then
        (let p := if decide (c.1.val = 0) = true ∧ (codeList k = 1 ∨ codeList k = 64 ∨ codeList k = 128) then p + (nx * ny : ℕ) else p
         if decide (c.1.val = ny - 1) = true ∧ (codeList k = 4 ∨ codeList k = 8 ∨ codeList k = 16) then p - (nx * ny : ℕ) else p)
      else if decide (c.1.val = 0) = true ∨ decide (c.1.val = ny - 1) = true then 0 else p)
      = p + (if c.1.val = 0 ∧ (codeList k = 1 ∨ codeList k = 64 ∨ codeList k = 128) then (nx:ℤ) * ny else 0)
          - (if c.1.val = ny - 1 ∧ (codeList k = 4 ∨ codeList k = 8 ∨ codeList k = 16) then (nx:ℤ) * ny else 0) := by
    intro p
    rcases htb with h | ⟨h, h'⟩
    · simp only [h, if_true, decide_eq_true_eq]
      split_ifs <;> push_cast <;> ring
    · simp [h, h']
  rw [h1, h2]
  unfold flatID
  fin_cases k <;>
    simp [codeList, incMap, incs, nbr, inc_cast, dec_cast] <;>
    split_ifs <;> ring

/-- Linking and tie breaking keep a zero code. -/
theorem zero_code_stays {K : Type*} [Field K] [LinearOrder K] [IsStrictOrderedRing K]
    {cfg : Config K} {fuel : ℕ} {z : Cell ny nx → K} {codes : Cell ny nx → ℤ}
    (hu : updateFlowGrid cfg fuel z = some codes) {c : Cell ny nx}
    (h0 : startCode cfg z c = 0) : codes c = 0 := by
  unfold updateFlowGrid at hu
  dsimp only at hu
  rw [Option.map_eq_some_iff] at hu
  obtain ⟨d, hd, hc⟩ := hu
  have h1 : (if cfg.breakTies = true then breakTies (startCode cfg z) else startCode cfg z) c = 0 := by
    split_ifs
    · simp [breakTies, h0]
    · exact h0
  generalize (if cfg.breakTies = true then breakTies (startCode cfg z)
    else startCode cfg z) = g at hd h1
  have h2 : d c = 0 := by
    split_ifs at hd with hl
    · rw [linkLoop_preserves hd c (by rw [h1]), h1]
    · cases hd; exact h1
  rw [← hc]; simp [h2, validCodeMap]

section
variable {K : Type*} [Field K] [LinearOrder K] [IsStrictOrderedRing K]

theorem border_LR_zero {cfg : Config K} {fuel : ℕ} {z : Cell ny nx → K} {codes : Cell ny nx → ℤ}
    (hu : updateFlowGrid cfg fuel z = some codes) (hp : cfg.lrPeriodic = false) {c : Cell ny nx}
    (hc : c.2.val = 0 ∨ c.2.val = nx - 1) : codes c = 0 := by
  refine zero_code_stays hu ?_
  unfold startCode
  simp [hp, onLR, hc]

theorem border_TB_zero {cfg : Config K} {fuel : ℕ} {z : Cell ny nx → K} {codes : Cell ny nx → ℤ}
    (hu : updateFlowGrid cfg fuel z = some codes) (hp : cfg.tbPeriodic = false) {c : Cell ny nx}
    (hc : c.1.val = 0 ∨ c.1.val = ny - 1) : codes c = 0 := by
  refine zero_code_stays hu ?_
  unfold startCode
  simp [hp, onTB, hc]

/-- **C03a.** For every DEM and configuration, the parent ID of a cell that flows to `e` is the
ID (row · nx + col) of `e`; a cell without flow direction has parent ID 0. -/
theorem C03_parent_is_downstream_neighbour {cfg : Config K} {fuel : ℕ} {z : Cell ny nx → K}
    {codes : Cell ny nx → ℤ} (hu : updateFlowGrid cfg fuel z = some codes) (c : Cell ny nx) :
    (∀ e, FlowsTo codes c e →
      parentID cfg.lrPeriodic cfg.tbPeriodic codes c = (e.1.val : ℤ) * nx + e.2.val) ∧
    (codes c = 0 → parentID cfg.lrPeriodic cfg.tbPeriodic codes c = 0) := by
  constructor
  · intro e he
    obtain ⟨k, hk, rfl⟩ := flowsTo_iff.1 he
    have hk0 : codes c ≠ 0 := by rw [hk]; exact (codeList_pos k).ne'
    rw [parentID_eq _ _ _ _ k hk]
    · simp [flatID]
    · by_cases h : cfg.lrPeriodic = true
      · exact Or.inl h
      · right
        have h' : cfg.lrPeriodic = false := by simpa using h
        exact ⟨fun hx => hk0 (border_LR_zero hu h' (Or.inl hx)),
          fun hx => hk0 (border_LR_zero hu h' (Or.inr hx))⟩
    · by_cases h : cfg.tbPeriodic = true
      · exact Or.inl h
      · right
        have h' : cfg.tbPeriodic = false := by simpa using h
        exact ⟨fun hx => hk0 (border_TB_zero hu h' (Or.inl hx)),
          fun hx => hk0 (border_TB_zero hu h' (Or.inr hx))⟩
  · intro h0
    unfold parentID
    simp [h0]

/-- **C03b.** Without periodic boundaries the downstream cell is the ordinary neighbour: its row
and column differ from those of the cell by exactly the offset of its code (no wrap-around). -/
theorem C03_no_wraparound {cfg : Config K} {fuel : ℕ} {z : Cell ny nx → K}
    {codes : Cell ny nx → ℤ} (hu : updateFlowGrid cfg fuel z = some codes)
    (hlr : cfg.lrPeriodic = false) (htb : cfg.tbPeriodic = false) {c e : Cell ny nx}
    (h : FlowsTo codes c e) :
    ∃ k : Fin 8, codes c = 2 ^ k.val ∧ (e.1.val : ℤ) = c.1.val + (offset k).1 ∧
      (e.2.val : ℤ) = c.2.val + (offset k).2 := by
  obtain ⟨k, hk, rfl⟩ := flowsTo_iff.1 h
  have hk0 : codes c ≠ 0 := by rw [hk]; exact (codeList_pos k).ne'
  have h1 : c.2.val ≠ 0 := fun hx => hk0 (border_LR_zero hu hlr (Or.inl hx))
  have h2 : c.2.val ≠ nx - 1 := fun hx => hk0 (border_LR_zero hu hlr (Or.inr hx))
  have h3 : c.1.val ≠ 0 := fun hx => hk0 (border_TB_zero hu htb (Or.inl hx))
  have h4 : c.1.val ≠ ny - 1 := fun hx => hk0 (border_TB_zero hu htb (Or.inr hx))
  refine ⟨k, by rw [hk, codeList_eq], ?_⟩
  fin_cases k <;> simp [nbr, offset, inc_cast, dec_cast, h1, h2, h3, h4] <;> constructor <;> ring

theorem allCells_nodup : (allCells ny nx).Nodup := by
  unfold allCells
  rw [List.nodup_flatMap]
  constructor
  · intro r _
    exact (List.nodup_finRange nx).map (fun a b h => by simpa using h)
  · refine (List.nodup_finRange ny).imp_of_mem ?_
    intro a b _ _ hab x h1 h2
    simp only [List.mem_map, List.mem_finRange, true_and] at h1 h2
    obtain ⟨_, rfl⟩ := h1
    obtain ⟨_, h⟩ := h2
    exact hab (by simpa using (congrArg Prod.fst h).symm)

theorem mem_allCells (c : Cell ny nx) : c ∈ allCells ny nx := by
  unfold allCells
  simp only [List.mem_flatMap, List.mem_finRange, List.mem_map, true_and]
  exact ⟨c.1, c.2, rfl⟩

theorem flatID_inj : Function.Injective (flatID : Cell ny nx → ℤ) := by
  intro a b h
  unfold flatID at h
  have h : a.1.val * nx + a.2.val = b.1.val * nx + b.2.val := by exact_mod_cast h
  have ha := a.2.isLt; have hb := b.2.isLt
  have h1 : (a.1.val * nx + a.2.val) / nx = (b.1.val * nx + b.2.val) / nx := by rw [h]
  have h2 : (a.1.val * nx + a.2.val) % nx = (b.1.val * nx + b.2.val) % nx := by rw [h]
  rw [Nat.mul_comm a.1.val, Nat.mul_comm b.1.val, Nat.mul_add_div (by omega),
    Nat.mul_add_div (by omega), Nat.div_eq_of_lt ha, Nat.div_eq_of_lt hb] at h1
  rw [Nat.mul_comm a.1.val, Nat.mul_comm b.1.val, Nat.mul_add_mod, Nat.mul_add_mod,
    Nat.mod_eq_of_lt ha, Nat.mod_eq_of_lt hb] at h2
  exact Prod.ext (Fin.ext (by omega)) (Fin.ext h2)

/-- **C03c.** The flow-from list of direction `k` contains exactly the cells whose code is that
direction, each once; the flow-to list pairs them (same position) with their downstream cell and
lists no downstream cell twice, so that `x[p_k] += y[w_k]` loses no contribution. -/
theorem C03_flow_lists {cfg : Config K} {fuel : ℕ} {z : Cell ny nx → K}
    {codes : Cell ny nx → ℤ} (hu : updateFlowGrid cfg fuel z = some codes) (k : Fin 8) :
    (flowFromIDs codes k).Nodup ∧
    (∀ c, c ∈ flowFromIDs codes k ↔ codes c = 2 ^ k.val) ∧
    (flowToIDs cfg.lrPeriodic cfg.tbPeriodic codes k).Nodup ∧
    (∀ (i : ℕ) (c : Cell ny nx), (flowFromIDs codes k)[i]? = some c →
      ∃ e, FlowsTo codes c e ∧
      (flowToIDs cfg.lrPeriodic cfg.tbPeriodic codes k)[i]? = some ((e.1.val : ℤ) * nx + e.2.val)) := by
  have hmem : ∀ c, c ∈ flowFromIDs codes k ↔ codes c = 2 ^ k.val := by
    intro c
    simp [flowFromIDs, mem_allCells, codeList_eq]
  have hnd : (flowFromIDs codes k).Nodup := allCells_nodup.filter _
  have hpar : ∀ c, c ∈ flowFromIDs codes k →
      parentID cfg.lrPeriodic cfg.tbPeriodic codes c = flatID (nbr k c) := by
    intro c hc
    have h1 : codes c = codeList k := by rw [codeList_eq]; exact (hmem c).1 hc
    have := (C03_parent_is_downstream_neighbour hu c).1 (nbr k c) (flowsTo_iff.2 ⟨k, h1, rfl⟩)
    rw [this]; simp [flatID]
  refine ⟨hnd, hmem, ?_, ?_⟩
  · unfold flowToIDs
    refine hnd.map_on ?_
    intro a ha b hb h
    rw [hpar a ha, hpar b hb] at h
    have h := flatID_inj h
    have := congrArg (nbr (opp k)) h
    rwa [nbr_opp, nbr_opp] at this
  · intro i c hi
    have hc : c ∈ flowFromIDs codes k := List.mem_of_getElem? hi
    have h1 : codes c = codeList k := by rw [codeList_eq]; exact (hmem c).1 hc
    refine ⟨nbr k c, flowsTo_iff.2 ⟨k, h1, rfl⟩, ?_⟩
    unfold flowToIDs
    rw [List.getElem?_map, hi, Option.map_some, hpar c hc]
    simp [flatID]

/-- **C03d (negative).** `update_noflow_IDs` fails (TypeError) exactly when every cell has a
flow direction; with non-periodic borders on a non-empty grid it always succeeds. -/
theorem C03_noflow_ids {cfg : Config K} {fuel : ℕ} {z : Cell ny nx → K}
    {codes : Cell ny nx → ℤ} (hu : updateFlowGrid cfg fuel z = some codes) :
    (noflowIDs codes = none ↔ ∀ c, 0 < codes c) ∧
    (∀ l, noflowIDs codes = some l → ∀ c, c ∈ l ↔ codes c = 0) ∧
    (cfg.lrPeriodic = false → 1 ≤ ny → 1 ≤ nx → noflowIDs codes ≠ none) := by
  have h1 : noflowIDs codes = none ↔ ∀ c, 0 < codes c := by
    unfold noflowIDs
    simp only [ne_eq, ite_not, ite_eq_left_iff, reduceCtorEq, imp_false, not_not,
      List.length_eq_zero_iff, List.filter_eq_nil_iff, decide_eq_true_eq, not_le]
    exact ⟨fun h c => h c (mem_allCells c), fun h c _ => h c⟩
  refine ⟨h1, ?_, ?_⟩
  · intro l hl c
    unfold noflowIDs at hl
    dsimp only at hl
    split_ifs at hl
    cases hl
    simp only [List.mem_filter, mem_allCells, true_and, decide_eq_true_eq]
    rcases C04_codes_valid hu c with h | ⟨k, h⟩
    · omega
    · have : (0:ℤ) < 2 ^ k.val := by positivity
      omega
  · intro hlr hy hx hnone
    have := h1.1 hnone (⟨0, hy⟩, ⟨0, hx⟩)
    rw [border_LR_zero hu hlr (Or.inl rfl)] at this
    exact lt_irrefl _ this

end

/-- Concrete case: on the demo DEM (4 rows, 5 columns) the parent of cell (1,3) is cell (1,4). -/
example : ∃ codes, updateFlowGrid demoCfg 21 demoDEM = some codes ∧
    parentID false false codes (1, 3) = 9 ∧ parentID false false codes (2, 2) = 8 ∧
    flowToIDs false false codes 0 = [8, 9] := by
  obtain ⟨codes, h⟩ := C05_update_flow_grid_terminates demoCfg demoDEM
  refine ⟨codes, h, ?_⟩
  have key : ((updateFlowGrid demoCfg 21 demoDEM).map fun f =>
      (parentID false false f (1, 3), parentID false false f (2, 2), flowToIDs false false f 0)) =
      some (9, 8, [8, 9]) := by decide +kernel
  rw [h] at key
  simpa using key

end D8
