import Verif.DivertModel
import Verif.CanalProps
import Verif.RepoModel

/-!
# Key-value lines (C235), diversion files (C236), diverted water (C237)
-/

set_option autoImplicit false

namespace Divert

/-! ## Specification -/

/-- The line says `rest` after its key: `key: rest`. -/
def Line (line rest : Text) : Prop := ∃ key : Text, ':' ∉ key ∧ line = key ++ ':' :: rest

/-- The first word after the key is a number with value `q`. -/
def Says (ev : Text → Option ℚ) (line : Text) (q : ℚ) : Prop :=
  ∃ rest tok more, Line line rest ∧ Table.words rest = tok :: more ∧ ev tok = some q

/-- The words after the key are numbers with the values `qs`. -/
def SaysList (ev : Text → Option ℚ) (line : Text) (qs : List ℚ) : Prop :=
  ∃ rest, Line line rest ∧ List.Forall₂ (fun w q => ev w = some q) (Table.words rest) qs

/-! ## Words of a stripped line -/

theorem words_dropWhile (s : Text) : Table.words (s.dropWhile Rti.isWs) = Table.words s := by
  induction s with
  | nil => rfl
  | cons c t ih =>
    by_cases h : Rti.isWs c = true
    · rw [List.dropWhile_cons_of_pos h, ih]
      simp [Table.words, Table.wordsAux, h]
    · rw [List.dropWhile_cons_of_neg h]

theorem wordsAux_ws (w : Text) (hw : ∀ c ∈ w, Rti.isWs c = true) :
    ∀ acc, Table.wordsAux acc w = Table.wordsAux acc [] := by
  induction w with
  | nil => intro acc; rfl
  | cons c t ih =>
    intro acc
    have hc := hw c (by simp)
    have ih' := ih (fun x hx => hw x (by simp [hx]))
    have e : Table.wordsAux acc (c :: t) =
        if acc.isEmpty then Table.wordsAux [] t else acc.reverse :: Table.wordsAux [] t := by
      simp [Table.wordsAux, hc]
    rw [e, ih']
    simp [Table.wordsAux]

theorem wordsAux_trail (s w : Text) (hw : ∀ c ∈ w, Rti.isWs c = true) :
    ∀ acc, Table.wordsAux acc (s ++ w) = Table.wordsAux acc s := by
  induction s with
  | nil => exact wordsAux_ws w hw
  | cons c t ih =>
    intro acc
    rw [List.cons_append, Table.wordsAux, Table.wordsAux, ih, ih]

theorem words_strip (s : Text) : Table.words (Rti.strip s) = Table.words s := by
  have hs : Rti.strip s = ((s.dropWhile Rti.isWs).reverse.dropWhile Rti.isWs).reverse := rfl
  rw [hs, ← words_dropWhile s]
  generalize s.dropWhile Rti.isWs = t
  have h : t = (t.reverse.dropWhile Rti.isWs).reverse ++ (t.reverse.takeWhile Rti.isWs).reverse := by
    rw [← List.reverse_append, List.takeWhile_append_dropWhile, List.reverse_reverse]
  have e := wordsAux_trail (t.reverse.dropWhile Rti.isWs).reverse
    (t.reverse.takeWhile Rti.isWs).reverse
    (fun c hc => by
      rw [List.mem_reverse] at hc
      exact List.all_eq_true.1 List.all_takeWhile c hc) []
  rw [← h] at e
  exact e.symm

theorem afterFirst_colon (key rest : Text) (hk : ':' ∉ key) :
    afterFirst [':'] (key ++ ':' :: rest) = some rest := by
  induction key with
  | nil => simp [afterFirst]
  | cons c t ih =>
    have hc : ¬ ':' = c := fun e => hk (e ▸ List.mem_cons_self)
    rw [List.cons_append, afterFirst, if_neg (by simp [hc]), ih (fun h => hk (by simp [h]))]

theorem afterKey_line {line rest : Text} (h : Line line rest) (ls : List Text) :
    readLineAfterKey [':'] (line :: ls) = (Rti.strip rest, ls) := by
  obtain ⟨key, hk, rfl⟩ := h
  simp only [readLineAfterKey, readline]
  rw [afterFirst_colon key rest hk]

/-! ## C235 -/

/-- **C235** (partial: the delimiter is a colon, the line has a value).  A value of type file is all
that stands after the key without the white space around it; a string is the first word; a boolean is
true exactly for the words 1, true, on, yes and ok in any mixture of cases; a number is the number
written, cut to its integer part for integers. -/
theorem C235_value_partial (ev : Text → Option ℚ) {line rest : Text} (h : Line line rest)
    (ls : List Text) :
    readValue ev .file [':'] (line :: ls) = .ok (.str (Rti.strip rest), ls) ∧
    ∀ tok more, Table.words rest = tok :: more →
      readValue ev .string [':'] (line :: ls) = .ok (.str tok, ls) ∧
      readValue ev .boolean [':'] (line :: ls) =
        .ok (.bool (decide (lower tok ∈ ["1".toList, "true".toList, "on".toList, "yes".toList,
          "ok".toList])), ls) ∧
      ∀ q, ev tok = some q →
        readValue ev .float64 [':'] (line :: ls) = .ok (.num q, ls) ∧
        readValue ev .int32 [':'] (line :: ls) = .ok (.num (Table.trunc q), ls) := by
  refine ⟨by simp only [readValue, afterKey_line h], fun tok more hw => ?_⟩
  have hs : Table.words (Rti.strip rest) = tok :: more := by rw [words_strip, hw]
  refine ⟨by simp only [readValue, afterKey_line h, hs], ?_, fun q hq => ⟨?_, ?_⟩⟩
  · simp only [readValue, afterKey_line h, hs]
    rfl
  · simp only [readValue, afterKey_line h, hs, hq, convert]
  · simp only [readValue, afterKey_line h, hs, hq, convert]

theorem listEntries_floats (ev : Text → Option ℚ) {ws : List Text} {qs : List ℚ}
    (h : List.Forall₂ (fun w q => ev w = some q) ws qs) :
    listEntries ev (List.replicate ws.length .float64) ws = .ok (qs.map .num) := by
  induction h with
  | nil => rfl
  | cons hw _ ih =>
    rw [List.length_cons, List.replicate_succ, listEntries, ih]
    simp only [listEntry, hw, convert, List.map_cons]

theorem listEntries_strings (ev : Text → Option ℚ) (ws : List Text) :
    listEntries ev (List.replicate ws.length .string) ws = .ok (ws.map .str) := by
  induction ws with
  | nil => rfl
  | cons w ws ih =>
    rw [List.length_cons, List.replicate_succ, listEntries, ih]
    simp only [listEntry, List.map_cons]

/-- **C235** (lists; partial as above).  A list of numbers gives every number of the line in order, a
list of strings every word. -/
theorem C235_list_partial (ev : Text → Option ℚ) {line : Text} (ls : List Text) :
    (∀ qs, SaysList ev line qs →
      readListAfterKey ev none .float64 [':'] (line :: ls) = .ok (some (qs.map .num), ls)) ∧
    (∀ rest, Line line rest →
      readListAfterKey ev none .string [':'] (line :: ls) =
        .ok (some ((Table.words rest).map .str), ls)) := by
  constructor
  · rintro qs ⟨rest, hl, hq⟩
    simp only [readListAfterKey, afterKey_line hl, words_strip, listEntries_floats ev hq]
  · intro rest hl
    simp only [readListAfterKey, afterKey_line hl, words_strip, listEntries_strings ev]

theorem afterFirst_none (line : Text) (h : ':' ∉ line) : afterFirst [':'] line = none := by
  induction line with
  | nil => rfl
  | cons c t ih =>
    have hc : ¬ ':' = c := fun e => h (e ▸ List.mem_cons_self)
    rw [afterFirst, if_neg (by simp [hc]), ih (fun h' => h (by simp [h']))]

/-- **C235 is violated** for other delimiters: only values of type file use the delimiter given.  Any
line without a colon fails for all other types, whatever delimiter is asked for. -/
theorem C235_delimiter_violated (ev : Text → Option ℚ) (d line : Text) (ls : List Text)
    (hl : ':' ∉ line) :
    readValue ev .string d (line :: ls) = .error "IndexError" ∧
    readValue ev .boolean d (line :: ls) = .error "IndexError" ∧
    readValue ev .int32 d (line :: ls) = .error "IndexError" ∧
    readValue ev .float64 d (line :: ls) = .error "IndexError" := by
  have e : readLineAfterKey [':'] (line :: ls) = ([], ls) := by
    simp only [readLineAfterKey, readline, afterFirst_none line hl]
  refine ⟨?_, ?_, ?_, ?_⟩ <;> simp only [readValue, e] <;> rfl

/-- **C235 is violated** for delimiters of several characters: all but the first stay in the value. -/
theorem C235_long_delimiter_violated (ev : Text → Option ℚ) (a b : Char) (ds key rest : Text)
    (ls : List Text) (hk : a ∉ key) :
    readValue ev .file (a :: b :: ds) ((key ++ (a :: b :: ds) ++ rest) :: ls) =
      .ok (.str (Rti.strip (b :: ds ++ rest)), ls) := by
  have e : afterFirst (a :: b :: ds) (key ++ (a :: b :: ds) ++ rest) = some (b :: ds ++ rest) := by
    induction key with
    | nil =>
      have hp : (a :: b :: ds).isPrefixOf (a :: b :: (ds ++ rest)) = true :=
        List.isPrefixOf_iff_prefix.2 ⟨rest, by simp⟩
      have : ([] ++ (a :: b :: ds) ++ rest : Text) = a :: (b :: (ds ++ rest)) := by simp
      rw [this, afterFirst, if_pos hp]
      rfl
    | cons c t ih =>
      have hc : ¬ a = c := fun e => hk (e ▸ List.mem_cons_self)
      rw [List.cons_append, List.cons_append, afterFirst, if_neg (by simp [hc]),
        ih (fun h => hk (by simp [h]))]
  simp only [readValue, readLineAfterKey, readline, e]

/-- **C235 is violated** when a number of words is required: there is no result exactly when the line
has enough words. -/
theorem C235_enough_words_violated (n : ℕ) {line rest : Text} (h : Line line rest)
    (ls : List Text) :
    (readWordsAfterKey [':'] (some n) (line :: ls)).1 = none ↔ n ≤ (Table.words rest).length := by
  simp only [readWordsAfterKey, afterKey_line h, words_strip]
  by_cases hn : (Table.words rest).length < n
  · rw [if_pos hn]
    exact ⟨fun h => by simp at h, fun h => by omega⟩
  · rw [if_neg hn]
    exact ⟨fun _ => by omega, fun _ => rfl⟩

/-- **C235 is violated** for booleans in a list: a word that means yes for a single value, but is not in
lower case, means no in a list. -/
theorem C235_boolean_list_violated (ev : Text → Option ℚ) {line rest w : Text} (h : Line line rest)
    (ls : List Text) (hw : Table.words rest = [w]) (hy : lower w ∈ yesWords) (hn : w ∉ yesWords) :
    readValue ev .boolean [':'] (line :: ls) = .ok (.bool true, ls) ∧
    readListAfterKey ev (some [.boolean]) .string [':'] (line :: ls) =
      .ok (some [.bool false], ls) := by
  have hs : Table.words (Rti.strip rest) = [w] := by rw [words_strip, hw]
  constructor
  · simp only [readValue, afterKey_line h, hs, hy, decide_true]
  · simp only [readListAfterKey, afterKey_line h, hs]
    rw [if_neg (by simp)]
    simp only [listEntries, listEntry, hn, decide_false]

/-- An instance: `use: Yes`. -/
example (ev : Text → Option ℚ) :
    readValue ev .boolean [':'] ["use: Yes".toList] = .ok (.bool true, []) ∧
    readListAfterKey ev (some [.boolean]) .string [':'] ["use: Yes".toList] =
      .ok (some [.bool false], []) :=
  C235_boolean_list_violated ev (rest := " Yes".toList) (w := "Yes".toList)
    ⟨"use".toList, by decide +kernel, by decide +kernel⟩ [] (by decide +kernel)
    (by decide +kernel) (by decide +kernel)

/-! ## C236 -/

theorem num_int {ev : Text → Option ℚ} {line : Text} {q : ℚ} (h : Says ev line q)
    (ls : List Text) : num ev .int32 (line :: ls) = .ok (Table.trunc q, ls) := by
  obtain ⟨rest, tok, more, hl, hw, hq⟩ := h
  have := ((C235_value_partial ev hl ls).2 tok more hw).2.2 q hq
  simp only [num, this.2, asNum]

theorem num_float {ev : Text → Option ℚ} {line : Text} {q : ℚ} (h : Says ev line q)
    (ls : List Text) : num ev .float64 (line :: ls) = .ok (q, ls) := by
  obtain ⟨rest, tok, more, hl, hw, hq⟩ := h
  have := ((C235_value_partial ev hl ls).2 tok more hw).2.2 q hq
  simp only [num, this.1, asNum]

theorem trunc_int (n : ℤ) : Table.trunc (n : ℚ) = n := by
  unfold Table.trunc
  split_ifs
  · rw [← Int.cast_neg, Int.floor_intCast, neg_neg]
  · exact Int.floor_intCast n

/-- What the documentation says about one source: the number of its cell and its discharges. -/
structure Src where
  id : ℤ
  q : List ℚ

/-- The three lines of a source: cell, number of discharges, discharges. -/
def SrcLines (ev : Text → Option ℚ) (ls : List Text) (s : Src) : Prop :=
  ∃ l1 l2 l3, ls = [l1, l2, l3] ∧ Says ev l1 s.id ∧ Says ev l2 (s.q.length : ℤ) ∧ SaysList ev l3 s.q

/-- A source file as documented: the number of sources, the largest number of discharges, the time step
and the lines of every source. -/
def SrcFile (ev : Text → Option ℚ) (f : List Text) (ntMax : ℕ) (dt : ℚ) (srcs : List Src) : Prop :=
  ∃ h1 h2 h3 blocks rest, f = h1 :: h2 :: h3 :: (List.flatten blocks ++ rest) ∧
    Says ev h1 (srcs.length : ℤ) ∧ Says ev h2 (ntMax : ℤ) ∧ Says ev h3 dt ∧
    List.Forall₂ (SrcLines ev) blocks srcs ∧ ∀ s ∈ srcs, s.q.length ≤ ntMax

theorem nums_map (qs : List ℚ) : nums (qs.map .num) = qs := by
  induction qs with
  | nil => rfl
  | cons q qs ih => simp [nums]

theorem sliceLen_nat (m n : ℕ) : sliceLen m ((n : ℤ) : ℚ) = n := by
  unfold sliceLen
  rw [if_neg (by push_cast; exact not_lt.2 (Nat.cast_nonneg n)), trunc_int]
  simp

theorem readBlocks_spec (ev : Text → Option ℚ) (ntMax : ℕ) (rest : List Text) :
    ∀ (blocks : List (List Text)) (srcs : List Src), List.Forall₂ (SrcLines ev) blocks srcs →
      (∀ s ∈ srcs, s.q.length ≤ ntMax) →
      readBlocks ev ntMax srcs.length (blocks.flatten ++ rest) =
        .ok (srcs.map fun s => ((s.id : ℚ), s.q ++ List.replicate (ntMax - s.q.length) 0)) := by
  intro blocks srcs h
  induction h with
  | nil => intro _; rfl
  | @cons b s bs ss hb _ ih =>
    intro hm
    obtain ⟨l1, l2, l3, rfl, h1, h2, h3⟩ := hb
    have hs := hm s (by simp)
    have hl := (C235_list_partial ev (bs.flatten ++ rest) (line := l3)).1 s.q h3
    have hr : Canal.sourceRow ntMax s.q.length s.q =
        some (s.q ++ List.replicate (ntMax - s.q.length) 0) := by
      simp only [Canal.sourceRow]
      rw [min_eq_left hs, if_pos rfl]
    have ih' := ih (fun t ht => hm t (by simp [ht]))
    have e : (List.flatten ([l1, l2, l3] :: bs) ++ rest) = l1 :: l2 :: l3 :: (bs.flatten ++ rest) := by
      simp
    rw [e, List.length_cons, readBlocks]
    simp only [bind, Except.bind, num_int h1, num_int h2, hl, Option.getD, nums_map, trunc_int,
      sliceLen_nat, hr, ih', List.map_cons]

/-- **C236** (sources; partial: the coordinates `y` are wrong, and the attributes for the cell size must
exist).  A source file as documented gives the cell and the discharges of every source: source `k`
delivers its `n`-th discharge in step `n` and nothing after the last one.  `x` is the distance of the
western edge of the cell. -/
theorem C236_sources_partial (ev : Text → Option ℚ) (nx : ℕ) (dx dy : ℚ) (f : List Text)
    (ntMax : ℕ) (dt : ℚ) (srcs : List Src) (h : SrcFile ev f ntMax dt srcs) :
    ∃ s, readSourceData ev nx (some dx) (some dy) f = .ok s ∧
      s.ids = srcs.map (fun s => (s.id : ℚ)) ∧ s.dt = dt ∧
      s.xs = srcs.map (fun s => ((s.id % (nx : ℤ) : ℤ) : ℚ) * dx) ∧
      s.ys = srcs.map (fun s => (s.id : ℚ) / nx * dy) ∧
      ∀ n, s.rows.map (fun r => Canal.sourceQ r n) = srcs.map (fun s => s.q.getD n 0) := by
  obtain ⟨h1, h2, h3, blocks, rest, rfl, e1, e2, e3, hb, hm⟩ := h
  have hbl := readBlocks_spec ev ntMax rest blocks srcs hb hm
  have n1 : ¬ (((Table.trunc ((srcs.length : ℤ) : ℚ) : ℤ) : ℚ) < 0 ∨
      ((Table.trunc ((ntMax : ℤ) : ℚ) : ℤ) : ℚ) < 0) := by
    rw [trunc_int, trunc_int]
    push_cast
    exact not_or.2 ⟨not_lt.2 (Nat.cast_nonneg _), not_lt.2 (Nat.cast_nonneg _)⟩
  refine ⟨⟨dt, srcs.map (fun s => (s.id : ℚ)),
    srcs.map (fun s => s.q ++ List.replicate (ntMax - s.q.length) 0),
    srcs.map (fun s => ((s.id % (nx : ℤ) : ℤ) : ℚ) * dx),
    srcs.map (fun s => (s.id : ℚ) / nx * dy)⟩, ?_, rfl, rfl, rfl, rfl, fun n => ?_⟩
  · simp only [readSourceData, bind, Except.bind, num_int e1, num_int e2, num_float e3]
    rw [if_neg n1]
    simp only [trunc_int, Int.floor_intCast, Int.toNat_natCast, hbl, coords, List.map_map]
    simp only [Function.comp_def, Int.floor_intCast]
  · rw [List.map_map]
    apply List.map_congr_left
    intro s _
    exact Canal.padded s.q _ n

/-- **C236 is violated** for the position of sources and canals: `y` is the distance of the cell's row
exactly when the cell lies in the first column; otherwise it is a fraction of a row too large. -/
theorem C236_y_violated (nx : ℕ) (hnx : 0 < nx) (dx dy : ℚ) (hdy : 0 < dy) (id : ℤ) :
    ∃ xs y, coords nx (some dx) (some dy) [(id : ℚ)] = .ok (xs, [y]) ∧
      (y = ((id / (nx : ℤ) : ℤ) : ℚ) * dy ↔ id % (nx : ℤ) = 0) := by
  refine ⟨_, (id : ℚ) / nx * dy, rfl, ?_⟩
  have hn : (nx : ℚ) ≠ 0 := by positivity
  have hz : (nx : ℤ) * (id / nx) + id % nx = id := Int.mul_ediv_add_emod id nx
  have hq : (nx : ℚ) * ((id / (nx : ℤ) : ℤ) : ℚ) + ((id % (nx : ℤ) : ℤ) : ℚ) = id := by
    exact_mod_cast hz
  constructor
  · intro h
    have h' : (id : ℚ) / nx = ((id / (nx : ℤ) : ℤ) : ℚ) := mul_right_cancel₀ hdy.ne' h
    rw [div_eq_iff hn] at h'
    have : ((id % (nx : ℤ) : ℤ) : ℚ) = 0 := by linarith
    exact_mod_cast this
  · intro h
    rw [h] at hq
    have : (id : ℚ) / nx = ((id / (nx : ℤ) : ℤ) : ℚ) := by
      rw [div_eq_iff hn]
      push_cast at hq ⊢
      linarith
    rw [this]

/-- **C236 is violated**: without the attributes `dx` and `dy`, which no enabled diversions component
sets, every source file is rejected. -/
theorem C236_cell_size_violated (ev : Text → Option ℚ) (nx : ℕ) (f : List Text) :
    ∃ e, readSourceData ev nx none none f = .error e := by
  cases h : readSourceData ev nx none none f with
  | error e => exact ⟨e, rfl⟩
  | ok s =>
    exfalso
    simp only [readSourceData, bind, Except.bind, coords] at h
    split at h
    · simp at h
    · split at h
      · simp at h
      · split at h
        · simp at h
        · split at h
          · simp at h
          · split at h <;> simp at h

/-- **C236 is violated** for the time step of the file: the discharges do not depend on it.  Two files
that differ only in the time step give the same discharge in every step of the component. -/
theorem C236_time_step_violated (ev : Text → Option ℚ) (nx : ℕ) (dx dy : ℚ) (f g : List Text)
    (ntMax : ℕ) (dt dt' : ℚ) (srcs : List Src) (hf : SrcFile ev f ntMax dt srcs)
    (hg : SrcFile ev g ntMax dt' srcs) :
    ∃ s t, readSourceData ev nx (some dx) (some dy) f = .ok s ∧
      readSourceData ev nx (some dx) (some dy) g = .ok t ∧ s.dt = dt ∧ t.dt = dt' ∧
      ∀ n, s.rows.map (fun r => Canal.sourceQ r n) = t.rows.map (fun r => Canal.sourceQ r n) := by
  obtain ⟨s, hs, _, h1, _, _, h2⟩ := C236_sources_partial ev nx dx dy f ntMax dt srcs hf
  obtain ⟨t, ht, _, h3, _, _, h4⟩ := C236_sources_partial ev nx dx dy g ntMax dt' srcs hg
  exact ⟨s, t, hs, ht, h1, h3, fun n => by rw [h2, h4]⟩

/-- **C236 is violated** for sinks: no file with a sink is accepted. -/
theorem C236_sinks_violated (ev : Text → Option ℚ) (nx : ℕ) (dx dy : Option ℚ) (h1 : Text)
    (ls : List Text) (n : ℤ) (hn : n ≠ 0) (hs : Says ev h1 n) :
    ∃ e, readSinkData ev nx dx dy (h1 :: ls) = .error e := by
  cases h : readSinkData ev nx dx dy (h1 :: ls) with
  | error e => exact ⟨e, rfl⟩
  | ok s =>
    exfalso
    simp only [readSinkData, bind, Except.bind, num_int hs, trunc_int] at h
    have hq : ¬ ((n : ℚ) = 0) := by exact_mod_cast hn
    simp only [hq, if_false] at h
    repeat' (split at h)
    all_goals simp at h

/-- The four lines of a canal: entrance, exit, fraction, travel time. -/
def CanalLines (ev : Text → Option ℚ) (ls : List Text) (c : ℤ × ℤ × ℚ × ℚ) : Prop :=
  ∃ l1 l2 l3 l4, ls = [l1, l2, l3, l4] ∧ Says ev l1 c.1 ∧ Says ev l2 c.2.1 ∧ Says ev l3 c.2.2.1 ∧
    Says ev l4 c.2.2.2

/-- **C236** (canals; partial as above).  A canal file as documented gives entrance, exit, fraction and
travel time of every canal. -/
theorem C236_canals_partial (ev : Text → Option ℚ) (h1 : Text) (blocks : List (List Text))
    (rest : List Text) (cs : List (ℤ × ℤ × ℚ × ℚ)) (hn : Says ev h1 (cs.length : ℤ))
    (hb : List.Forall₂ (CanalLines ev) blocks cs) :
    readCanalFile ev (h1 :: (blocks.flatten ++ rest)) =
      .ok (cs.map fun c => ⟨c.1, c.2.1, c.2.2.1, c.2.2.2⟩) := by
  have loop : readCanals ev cs.length (blocks.flatten ++ rest) =
      .ok (cs.map fun c => ⟨c.1, c.2.1, c.2.2.1, c.2.2.2⟩) := by
    clear hn
    induction hb with
    | nil => rfl
    | @cons b c bs cs hb _ ih =>
      obtain ⟨l1, l2, l3, l4, rfl, e1, e2, e3, e4⟩ := hb
      have e : (List.flatten ([l1, l2, l3, l4] :: bs) ++ rest) =
          l1 :: l2 :: l3 :: l4 :: (bs.flatten ++ rest) := by simp
      rw [e, List.length_cons, readCanals]
      simp only [bind, Except.bind, num_int e1, num_int e2, num_float e3, num_float e4, trunc_int,
        ih, List.map_cons]
  have n1 : ¬ (((Table.trunc ((cs.length : ℤ) : ℚ) : ℤ) : ℚ) < 0) := by
    rw [trunc_int]
    push_cast
    exact not_lt.2 (Nat.cast_nonneg _)
  simp only [readCanalFile, bind, Except.bind, num_int hn]
  rw [if_neg n1]
  simp only [trunc_int, Int.floor_intCast, Int.toNat_natCast, loop]

/-- **C236 is violated** for the layout of the example that comes with the program
(`examples/Diversion_on_a_Plane/plane_canals.txt`), which gives a column and a row for each end: the
column of the entrance is taken as its cell, its row as the cell of the exit, the column of the exit as
the fraction of the discharge and its row as the travel time. -/
theorem C236_example_layout_violated (ev : Text → Option ℚ) (h1 l1 l2 l3 l4 : Text)
    (rest : List Text) (inCol inRow outCol outRow : ℤ) (hn : Says ev h1 (1 : ℤ))
    (e1 : Says ev l1 inCol) (e2 : Says ev l2 inRow) (e3 : Says ev l3 outCol)
    (e4 : Says ev l4 outRow) :
    readCanalFile ev (h1 :: l1 :: l2 :: l3 :: l4 :: rest) =
      .ok [⟨inCol, inRow, outCol, outRow⟩] := by
  have := C236_canals_partial ev h1 [[l1, l2, l3, l4]] rest [(inCol, inRow, (outCol : ℚ), (outRow : ℚ))]
    (by simpa using hn) (List.Forall₂.cons ⟨l1, l2, l3, l4, rfl, e1, e2, e3, e4⟩ List.Forall₂.nil)
  simpa using this

/-- Plain decimal numbers, for the examples. -/
def evDec (w : Text) : Option ℚ :=
  match Table.parseReal w with
  | .ok q => some q
  | .error _ => none

/-- The canal file of the example: a canal that takes three times the discharge. -/
example : (match readCanalFile evDec ["n_canals:       1".toList, "canal_in_col:   16".toList,
    "canal_in_row:   10".toList, "canal_out_col:  3".toList, "canal_out_row:  10          ".toList,
    "Q_fraction:     1.0".toList, "travel_time:    240.0  [seconds]".toList] with
    | .ok cs => some (cs.map fun c => (c.inID, c.outID, c.fraction, c.time))
    | .error _ => none) = some [(16, 10, 3, 10)] := by decide +kernel

theorem says_of (ev : Text → Option ℚ) (key rest tok : Text) (more : List Text) (q : ℚ)
    (hk : ':' ∉ key) (hw : Table.words rest = tok :: more) (hq : ev tok = some q) :
    Says ev (key ++ ':' :: rest) q := ⟨rest, tok, more, ⟨key, hk, rfl⟩, hw, hq⟩

/-- A file with one source in cell 65 with two discharges. -/
example : SrcFile evDec ["n_sources: 1".toList, "nt_max: 2".toList, "dt: 60.0".toList,
    "source_ID: 65".toList, "nt: 2".toList, "Q: 0.5 0.25".toList] 2 60 [⟨65, [1 / 2, 1 / 4]⟩] :=
  ⟨"n_sources: 1".toList, "nt_max: 2".toList, "dt: 60.0".toList,
    [["source_ID: 65".toList, "nt: 2".toList, "Q: 0.5 0.25".toList]], [], by simp,
    ⟨" 1".toList, "1".toList, [], ⟨"n_sources".toList, by decide +kernel, by decide +kernel⟩,
      by decide +kernel, by decide +kernel⟩,
    ⟨" 2".toList, "2".toList, [], ⟨"nt_max".toList, by decide +kernel, by decide +kernel⟩,
      by decide +kernel, by decide +kernel⟩,
    ⟨" 60.0".toList, "60.0".toList, [], ⟨"dt".toList, by decide +kernel, by decide +kernel⟩,
      by decide +kernel, by decide +kernel⟩,
    List.Forall₂.cons ⟨_, _, _, rfl,
      ⟨" 65".toList, "65".toList, [], ⟨"source_ID".toList, by decide +kernel, by decide +kernel⟩,
        by decide +kernel, by decide +kernel⟩,
      ⟨" 2".toList, "2".toList, [], ⟨"nt".toList, by decide +kernel, by decide +kernel⟩,
        by decide +kernel, by decide +kernel⟩,
      ⟨" 0.5 0.25".toList, ⟨"Q".toList, by decide +kernel, by decide +kernel⟩, by
        have : Table.words " 0.5 0.25".toList = ["0.5".toList, "0.25".toList] := by decide +kernel
        rw [this]
        exact .cons (by decide +kernel) (.cons (by decide +kernel) .nil)⟩⟩ .nil,
    by simp⟩

/-! ## C237 -/

/-- **C237 is violated**: no component of the repository asks for anything the diversions component
provides, so nothing it computes reaches another component. -/
theorem C237_violated (c : Repo.Comp) (v : Repo.Var) (hv : v ∈ (Repo.decl c).inputs) :
    v ∉ (Repo.decl .tf_diversions_fraction_method).outputs := by
  revert hv v
  cases c <;> decide +kernel

end Divert
