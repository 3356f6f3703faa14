import Verif.CanalModel
import Mathlib.Tactic.Linarith
import Mathlib.Tactic.FieldSimp
import Mathlib.Tactic.Ring
import Mathlib.Data.Rat.Floor

/-!
# Properties of canals and sources (C36)
-/

set_option autoImplicit false
set_option linter.unusedSectionVars false

namespace CanalSpec

variable {K : Type*} [Field K]

/-- The outflow of a delay line in step `n` (counted from 0): the inflow `delay` steps before, zero
before that. -/
def delayed (delay : ℕ) (qs : List K) (n : ℕ) : K :=
  if delay ≤ n then qs.getD (n - delay) 0 else 0

end CanalSpec

namespace Canal

open CanalSpec

variable {K : Type*} [Field K] [LinearOrder K] [IsStrictOrderedRing K] [FloorRing K]

theorem roll_append {α : Type*} (l : List α) (x : α) : roll (l ++ [x]) = x :: l := by
  simp [roll]

theorem roll_length {α : Type*} (l : List α) : (roll l).length = l.length := by
  unfold roll
  cases h : l.getLast? with
  | none => simp [List.getLast?_eq_none_iff.1 h]
  | some x =>
    have : l ≠ [] := by rintro rfl; simp at h
    have := List.length_pos_of_ne_nil this
    simp; omega

theorem roll_getD (l : List K) (i : ℕ) (hi : i + 1 < l.length) :
    (roll l)[i + 1]? = l[i]? := by
  unfold roll
  cases h : l.getLast? with
  | none => rw [List.getLast?_eq_none_iff.1 h] at hi; simp at hi
  | some x =>
    rw [List.getElem?_cons_succ, List.getElem?_dropLast]
    rw [if_pos (by omega)]

/-- The state of a canal after the inflows `qs`: position `j ≥ 1` holds what entered `j` steps ago. -/
theorem run_spec (m : ℕ) (hm : 0 < m) (d : ℕ) (hdm : d < m) (nt : ℤ)
    (hidx : ∀ l : List K, l.length = m → pyIndex l (nt - 1) = l[d]?) (qs : List K) :
    ∀ (past : List K) (row : List K), row.length = m →
      (∀ j, 0 < j → j < m → row[j]? = some (past.getD (j - 1) 0)) →
      ∃ c' outs, run .old ⟨nt, row⟩ qs = .ok (c', outs) ∧ outs.length = qs.length ∧
        ∀ n, n < qs.length → outs[n]? =
          some (if d ≤ n then qs.getD (n - d) 0 else past.getD (d - n - 1) 0) := by
  induction qs with
  | nil =>
    intro past row _ _
    exact ⟨_, [], rfl, rfl, by simp⟩
  | cons q qs ih =>
    intro past row hl hrow
    cases hr : row with
    | nil => rw [hr] at hl; simp at hl; omega
    | cons a rest =>
      rw [hr] at hl hrow
      have hl' : (q :: rest).length = m := by simpa using hl
      have hout : ∃ o, pyIndex (q :: rest) (nt - 1) = some o ∧
          o = (if d = 0 then q else past.getD (d - 1) 0) := by
        rw [hidx _ hl']
        by_cases h0 : d = 0
        · subst h0; exact ⟨q, by simp, by simp⟩
        · refine ⟨past.getD (d - 1) 0, ?_, by simp [h0]⟩
          have := hrow d (by omega) hdm
          obtain ⟨e, rfl⟩ := Nat.exists_eq_succ_of_ne_zero h0
          simpa using this
      obtain ⟨o, ho, hov⟩ := hout
      have hroll : ∀ j, 0 < j → j < m →
          (roll (q :: rest))[j]? = some ((q :: past).getD (j - 1) 0) := by
        intro j h0 hj
        obtain ⟨e, rfl⟩ := Nat.exists_eq_succ_of_ne_zero (by omega : j ≠ 0)
        rw [Nat.succ_eq_add_one, roll_getD _ _ (by rw [hl']; exact hj)]
        rw [Nat.add_sub_cancel]
        cases e with
        | zero => simp
        | succ e =>
          have := hrow (e + 1) (by omega) (by omega)
          simpa using this
      obtain ⟨c', outs, hrun, hlen, hval⟩ :=
        ih (q :: past) (roll (q :: rest)) (by rw [roll_length, hl']) hroll
      refine ⟨c', o :: outs, ?_, by simp [hlen], ?_⟩
      · simp only [run, updateCanal, ho, hrun]
      · intro n hn
        cases n with
        | zero =>
          simp only [List.getElem?_cons_zero, hov]
          by_cases h0 : d = 0
          · simp [h0]
          · rw [if_neg h0, if_neg (by omega)]
            simp
        | succ n =>
          rw [List.getElem?_cons_succ, hval n (by simpa using hn)]
          congr 1
          by_cases h1 : d ≤ n
          · rw [if_pos h1, if_pos (by omega)]
            rw [show n + 1 - d = (n - d) + 1 by omega]
            simp
          · rw [if_neg h1]
            by_cases h2 : d ≤ n + 1
            · have : d = n + 1 := by omega
              subst this
              simp
            · rw [if_neg h2, show d - n - 1 = (d - (n + 1) - 1) + 1 by omega]
              simp

theorem pyIndex_pos {l : List K} {nt : ℤ} (h1 : 1 ≤ nt) :
    pyIndex l (nt - 1) = l[(nt - 1).toNat]? := by
  unfold pyIndex
  rw [if_pos (by omega)]

theorem pyIndex_zero {l : List K} {m : ℕ} (hl : l.length = m) (hm : 0 < m) :
    pyIndex l (0 - 1) = l[m - 1]? := by
  unfold pyIndex
  rw [if_neg (by omega), if_pos (by omega), hl]
  congr 1
  omega

theorem setup_row {dt : K} {travel : List K} {rows : List (Row K)}
    (h : setup dt travel = some rows) {k : ℕ} {c : Row K} (hk : rows[k]? = some c) :
    ∃ t m, travel[k]? = some t ∧ c.nt = ntCanal t dt ∧ c.row = List.replicate m 0 ∧
      (c.nt ≤ m) ∧ ((m : ℤ) ∈ travel.map (fun t => ntCanal t dt)) ∧
      ∀ x ∈ travel.map (fun t => ntCanal t dt), x ≤ m := by
  unfold setup at h
  simp only at h
  cases hm : (travel.map (fun t => ntCanal t dt)).max? with
  | none => rw [hm] at h; simp at h
  | some m =>
    rw [hm] at h
    simp only at h
    split_ifs at h with h0
    cases h
    rw [List.getElem?_map, List.getElem?_map] at hk
    cases ht : travel[k]? with
    | none => rw [ht] at hk; simp at hk
    | some t =>
      rw [ht] at hk
      simp only [Option.map_some, Option.some.injEq] at hk
      subst hk
      have hmm := List.max?_eq_some_iff.1 hm
      have hcast : ((m.toNat : ℕ) : ℤ) = m := Int.toNat_of_nonneg (not_lt.1 h0)
      refine ⟨t, m.toNat, rfl, rfl, rfl, ?_, ?_, ?_⟩
      · rw [hcast]
        exact hmm.2 _ (List.mem_map.2 ⟨t, List.mem_of_getElem? ht, rfl⟩)
      · rw [hcast]; exact hmm.1
      · rw [hcast]; exact hmm.2

/-- **C36**, partial (numpy up to 1.11, canals with a positive travel time): for every inflow
history, every canal delivers in step `n` exactly what entered `ceil(travel time / dt) - 1` steps
before, and zero before that. -/
theorem C36_delay_line_partial {dt : K} (hdt : 0 < dt) {travel : List K} {rows : List (Row K)}
    (h : setup dt travel = some rows) {k : ℕ} {c : Row K} (hk : rows[k]? = some c) {t : K}
    (ht : travel[k]? = some t) (hpos : 0 < t) (qs : List K) :
    ∃ c' outs, run .old c qs = .ok (c', outs) ∧ outs.length = qs.length ∧
      ∀ n, n < qs.length → outs[n]? = some (delayed (⌈t / dt⌉₊ - 1) qs n) := by
  obtain ⟨t', m, ht', hnt, hrow, hle, _, _⟩ := setup_row h hk
  rw [ht] at ht'
  cases ht'
  have hc : 0 < ntCanal t dt := Int.ceil_pos.2 (div_pos hpos hdt)
  have hceil : (⌈t / dt⌉₊ : ℤ) = ntCanal t dt := Int.natCast_ceil_eq_ceil (div_pos hpos hdt).le
  obtain ⟨nt, row⟩ := c
  simp only at hnt hrow hle
  subst hnt hrow
  have hm : 0 < m := by omega
  have hd : (ntCanal t dt - 1).toNat = ⌈t / dt⌉₊ - 1 := by omega
  obtain ⟨c', outs, h1, h2, h3⟩ := run_spec (K := K) m hm (⌈t / dt⌉₊ - 1) (by omega) (ntCanal t dt)
    (fun l _ => by rw [pyIndex_pos (by omega), hd]) qs [] (List.replicate m 0) (by simp)
    (by intro j _ hj; simp [hj])
  refine ⟨c', outs, h1, h2, ?_⟩
  intro n hn
  rw [h3 n hn]
  simp [delayed]

/-- **C36 is violated** for a canal with travel time zero, when another canal has a longer one: it
delivers only after the travel time of the longest canal. -/
theorem C36_zero_time_violated {dt : K} (hdt : 0 < dt) {travel : List K} {rows : List (Row K)}
    (h : setup dt travel = some rows) {k j : ℕ} {c : Row K} (hk : rows[k]? = some c)
    (h0 : travel[k]? = some 0) {T : K} (hj : travel[j]? = some T) (hT : 0 < T)
    (hmax : ∀ t ∈ travel, t ≤ T) (qs : List K) :
    ∃ c' outs, run .old c qs = .ok (c', outs) ∧ outs.length = qs.length ∧
      ∀ n, n < qs.length → outs[n]? = some (delayed (⌈T / dt⌉₊ - 1) qs n) := by
  obtain ⟨t', m, ht', hnt, hrow, hle, hmem, hub⟩ := setup_row h hk
  rw [h0] at ht'
  cases ht'
  have e0 : ntCanal (0 : K) dt = 0 := by simp [ntCanal]
  have hc : 0 < ntCanal T dt := Int.ceil_pos.2 (div_pos hT hdt)
  have hceil : (⌈T / dt⌉₊ : ℤ) = ntCanal T dt := Int.natCast_ceil_eq_ceil (div_pos hT hdt).le
  have hm1 : ntCanal T dt ≤ m := hub _ (List.mem_map.2 ⟨T, List.mem_of_getElem? hj, rfl⟩)
  have hm2 : (m : ℤ) ≤ ntCanal T dt := by
    obtain ⟨t, ht, e⟩ := List.mem_map.1 hmem
    rw [← e]
    exact Int.ceil_le_ceil (div_le_div_of_nonneg_right (hmax t ht) hdt.le)
  obtain ⟨nt, row⟩ := c
  simp only at hnt hrow
  rw [e0] at hnt
  subst hnt hrow
  have hm : 0 < m := by omega
  obtain ⟨c', outs, h1, h2, h3⟩ := run_spec (K := K) m hm (m - 1) (by omega) 0
    (fun l hl => pyIndex_zero hl hm) qs [] (List.replicate m 0) (by simp)
    (by intro j _ hj; simp [hj])
  refine ⟨c', outs, h1, h2, ?_⟩
  intro n hn
  rw [h3 n hn, show m - 1 = ⌈T / dt⌉₊ - 1 by omega]
  simp [delayed]

/-- **C36 is violated** with every numpy since version 1.12: the first update with a canal raises
IndexError, because the number of steps is a floating point number. -/
theorem C36_float_index_violated (c : Row K) (q : K) (qs : List K) :
    run .since112 c (q :: qs) = .error "IndexError" := by
  unfold run updateCanal
  cases c.row <;> rfl

theorem delayed_succ_sum (d : ℕ) (qs : List K) (n : ℕ) (hn : n + d < qs.length) :
    ((List.range (n + d + 1)).map (delayed d qs)).sum = (qs.take (n + 1)).sum := by
  induction n with
  | zero =>
    rw [List.range_succ, List.map_append, List.sum_append]
    have : ((List.range (0 + d)).map (delayed d qs)).sum = 0 := by
      apply List.sum_eq_zero
      intro x hx
      obtain ⟨i, hi, rfl⟩ := List.mem_map.1 hx
      have := List.mem_range.1 hi
      unfold delayed
      rw [if_neg (by omega)]
    rw [this]
    cases qs with
    | nil => simp at hn
    | cons q qs => simp [delayed]
  | succ n ih =>
    rw [show n + 1 + d + 1 = (n + d + 1) + 1 by ring, List.range_succ, List.map_append,
      List.sum_append, ih (by omega), List.take_add_one (i := n + 1), List.sum_append]
    have hlt : n + 1 < qs.length := by omega
    simp only [List.map_cons, List.map_nil, List.sum_cons, List.sum_nil, add_zero]
    rw [List.getElem?_eq_getElem hlt]
    simp only [Option.toList_some, List.sum_cons, List.sum_nil, add_zero]
    congr 1
    unfold delayed
    rw [if_pos (by omega), show n + d + 1 - d = n + 1 by omega]
    simp [hlt]

/-- **C36** (nothing is lost or duplicated): the total delivered by a delay line up to step `n + d`
is the total that entered up to step `n`. -/
theorem C36_totals (d : ℕ) (qs : List K) (n : ℕ) (hn : n + d < qs.length) :
    ((List.range (n + d + 1)).map (delayed d qs)).sum = (qs.take (n + 1)).sum :=
  delayed_succ_sum d qs n hn

theorem padded (vals : List K) (k n : ℕ) :
    sourceQ (vals ++ List.replicate k 0) n = vals.getD n 0 := by
  unfold sourceQ
  by_cases h1 : n < vals.length
  · rw [List.getElem?_append_left h1]
    simp [h1]
  · rw [List.getElem?_append_right (by omega), List.getElem?_replicate]
    have e : vals.getD n 0 = 0 := by simp [List.getElem?_eq_none (by omega : vals.length ≤ n)]
    rw [e]
    split_ifs <;> rfl

/-- **C36** (sources): a record with the announced number of values that fits the table is accepted;
the source then delivers its `n`-th value in step `n` and nothing after the last. -/
theorem C36_sources {ntMax nt : ℕ} {vals : List K} (hl : vals.length = nt) (hn : nt ≤ ntMax) :
    ∃ row, sourceRow ntMax nt vals = some row ∧ row.length = ntMax ∧
      ∀ n, sourceQ row n = vals.getD n 0 := by
  refine ⟨vals ++ List.replicate (ntMax - nt) 0, ?_, ?_, padded vals _⟩
  · simp only [sourceRow]
    rw [min_eq_left hn, if_pos hl]
  · rw [List.length_append, List.length_replicate]; omega

/-- **C36** (sources): a record is accepted exactly if it has one value, or as many as announced or,
if more are announced than the table has columns, as many as the table has columns.  It then fills one
line of the table; a single value is delivered in every announced step. -/
theorem C36_sources_accepted (ntMax nt : ℕ) (vals : List K) :
    ((∃ row, sourceRow ntMax nt vals = some row) ↔
      (vals.length = min nt ntMax ∨ vals.length = 1)) ∧
    (∀ row, sourceRow ntMax nt vals = some row → row.length = ntMax) ∧
    (∀ (v : K) n, ∃ row, sourceRow ntMax nt [v] = some row ∧
      sourceQ row n = if n < min nt ntMax then v else 0) := by
  refine ⟨⟨?_, ?_⟩, ?_, ?_⟩
  · rintro ⟨row, h⟩
    by_cases hl : vals.length = min nt ntMax
    · exact .inl hl
    · simp only [sourceRow, if_neg hl] at h
      match vals, h with
      | [v], _ => exact .inr rfl
  · intro h
    by_cases hl : vals.length = min nt ntMax
    · exact ⟨_, by simp only [sourceRow, if_pos hl]; rfl⟩
    · obtain ⟨v, rfl⟩ := List.length_eq_one_iff.1 (h.resolve_left hl)
      exact ⟨_, by simp only [sourceRow, if_neg hl]; rfl⟩
  · intro row h
    by_cases hl : vals.length = min nt ntMax
    · simp only [sourceRow, if_pos hl, Option.some.injEq] at h
      subst h
      rw [List.length_append, List.length_replicate]
      have := min_le_right nt ntMax
      omega
    · simp only [sourceRow, if_neg hl] at h
      match vals, h with
      | [v], h =>
        simp only [Option.some.injEq] at h
        subst h
        rw [List.length_append, List.length_replicate, List.length_replicate]
        have := min_le_right nt ntMax
        omega
  · intro v n
    by_cases hl : [v].length = min nt ntMax
    · refine ⟨_, by simp only [sourceRow, if_pos hl]; rfl, ?_⟩
      rw [padded]
      have e : min nt ntMax = 1 := hl.symm
      rw [e]
      cases n <;> simp
    · refine ⟨_, by simp only [sourceRow, if_neg hl]; rfl, ?_⟩
      rw [padded, List.getD_eq_getElem?_getD, List.getElem?_replicate]
      split_ifs <;> rfl

/-- Two canals, of 25 and 40 seconds, with a time step of 10 seconds. -/
example : (setup (10 : ℚ) [25, 40]).isSome = true := by decide +kernel
example : (match setup (10 : ℚ) [25, 40] with
    | some (c :: _) => (match run .old c [7, 8, 9, 1] with | .ok (_, outs) => outs | _ => [])
    | _ => []) = [0, 0, 7, 8] := by decide +kernel
example : (match setup (10 : ℚ) [0, 40] with
    | some (c :: _) => (match run .old c [7, 8, 9, 1] with | .ok (_, outs) => outs | _ => [])
    | _ => []) = [0, 0, 0, 7] := by decide +kernel
example : sourceRow 5 3 [(4 : ℚ), 5, 6] = some [4, 5, 6, 0, 0] := by decide +kernel
example : sourceRow 5 3 [(4 : ℚ)] = some [4, 4, 4, 0, 0] := by decide +kernel
example : sourceRow 5 3 [(4 : ℚ), 5] = none := by decide +kernel

end Canal
