import Verif.TableModel
import Verif.RtiProps

/-!
# Text tables: monitored cells (C87, C88) and text time series (C89)
-/

set_option autoImplicit false

namespace Table

/-! ## Words of a line of columns -/

theorem wordsAux_blanks : ∀ (n : ℕ) (t : Text),
    wordsAux [] (List.replicate n ' ' ++ t) = wordsAux [] t
  | 0, t => by simp
  | n + 1, t => by
    rw [List.replicate_succ, List.cons_append, wordsAux, if_pos (by decide), if_pos (by rfl)]
    exact wordsAux_blanks n t

theorem wordsAux_word : ∀ (s acc t : Text), (∀ c ∈ s, Rti.isWs c = false) →
    wordsAux acc (s ++ t) = wordsAux (s.reverse ++ acc) t
  | [], acc, t, _ => by simp
  | c :: s, acc, t, h => by
    rw [List.cons_append, wordsAux, if_neg (by simp [h c (by simp)]),
      wordsAux_word s (c :: acc) t (fun x hx => h x (List.mem_cons_of_mem _ hx))]
    simp

/-- A word without white space: `Solid`. -/
def Solid (s : Text) : Prop := s ≠ [] ∧ ∀ c ∈ s, Rti.isWs c = false

theorem words_cols : ∀ (l : List (ℕ × Text)), (∀ p ∈ l, Solid p.2) →
    (∀ p ∈ l, p.2.length < p.1) → ∀ (s0 : Text), Solid s0 →
    wordsAux s0.reverse (l.flatMap fun p => rjust p.1 p.2) = s0 :: l.map (·.2)
  | [], _, _, s0, h0 => by
    have : s0.reverse ≠ [] := by simpa using h0.1
    simp [wordsAux, h0.1]
  | p :: l, hs, hw, s0, h0 => by
    have hp := hw p (by simp)
    obtain ⟨m, hm⟩ : ∃ m, p.1 - p.2.length = m + 1 := ⟨p.1 - p.2.length - 1, by omega⟩
    rw [List.flatMap_cons, rjust, hm, List.replicate_succ, List.cons_append, List.cons_append,
      wordsAux, if_pos (by decide), if_neg (by simpa using h0.1), List.append_assoc,
      wordsAux_blanks, wordsAux_word _ _ _ (hs p (by simp)).2, List.append_nil,
      words_cols l (fun q hq => hs q (List.mem_cons_of_mem _ hq))
        (fun q hq => hw q (List.mem_cons_of_mem _ hq)) p.2 (hs p (by simp))]
    simp

/-- The words of a line of right-justified columns are the column entries, if every entry after
the first is shorter than its column. -/
theorem words_line (w0 : ℕ) (s0 : Text) (h0 : Solid s0) (l : List (ℕ × Text))
    (hs : ∀ p ∈ l, Solid p.2) (hw : ∀ p ∈ l, p.2.length < p.1) :
    words (rjust w0 s0 ++ l.flatMap fun p => rjust p.1 p.2) = s0 :: l.map (·.2) := by
  rw [words, rjust, List.append_assoc, wordsAux_blanks, wordsAux_word _ _ _ h0.2, List.append_nil,
    words_cols l hs hw s0 h0]

/-! ## Printed numbers -/

/-- The value printed with `k` digits after the point. -/
def printed (k : ℕ) (q : ℚ) : ℚ :=
  let v : ℚ := (Rti.roundHalfEven (|q| * 10 ^ k) : ℚ) / 10 ^ k
  if q < 0 then -v else v

theorem printed_close (k : ℕ) (q : ℚ) : |printed k q - q| ≤ 1 / 2 / 10 ^ k := by
  have h := Rti.roundHalfEven_close (q := |q| * 10 ^ k) (by positivity)
  have hk : (0 : ℚ) < 10 ^ k := by positivity
  have h2 : |(Rti.roundHalfEven (|q| * 10 ^ k) : ℚ) / 10 ^ k - (|q|)| ≤ 1 / 2 / 10 ^ k := by
    have : (Rti.roundHalfEven (|q| * 10 ^ k) : ℚ) / 10 ^ k - |q|
        = ((Rti.roundHalfEven (|q| * 10 ^ k) : ℚ) - |q| * 10 ^ k) / 10 ^ k := by
      field_simp
    rw [this, abs_div, abs_of_pos hk]
    exact div_le_div_of_nonneg_right h hk.le
  unfold printed
  simp only
  by_cases hq : q < 0
  · rw [if_pos hq]
    rw [abs_of_neg hq] at h2 ⊢
    rw [← abs_neg]
    convert h2 using 2
    ring
  · rw [if_neg hq]
    rw [abs_of_nonneg (not_lt.1 hq)] at h2 ⊢
    exact h2

theorem fmtFix_chars (k : ℕ) (q : ℚ) :
    ∀ c ∈ fmtFix k q, c.isDigit = true ∨ c = '.' ∨ c = '-' := by
  intro c hc
  unfold fmtFix at hc
  simp only [List.mem_append, List.mem_singleton] at hc
  rcases hc with ((h | h) | h) | h
  · split at h
    · simp only [List.mem_singleton] at h; exact Or.inr (Or.inr h)
    · simp at h
  · exact Or.inl (Rti.digits_all _ c h)
  · exact Or.inr (Or.inl h)
  · exact Or.inl (Rti.fracDigits_all _ _ c h)

theorem solid_of_chars {s : Text} (h0 : s ≠ [])
    (h : ∀ c ∈ s, c.isDigit = true ∨ c = '.' ∨ c = '-') : Solid s := by
  refine ⟨h0, fun c hc => ?_⟩
  rcases h c hc with h | h | h
  · exact Rti.isWs_digit h
  · rw [h]; decide
  · rw [h]; decide

theorem fmtFix_solid (k : ℕ) (q : ℚ) : Solid (fmtFix k q) :=
  solid_of_chars (by simp [fmtFix]) (fmtFix_chars k q)

theorem fmtInt_solid (n : ℤ) : Solid (fmtInt n) := by
  refine solid_of_chars (by simp [fmtInt, Nat.toDigits_ne_nil]) ?_
  intro c hc
  unfold fmtInt at hc
  rw [List.mem_append] at hc
  rcases hc with h | h
  · split at h
    · simp only [List.mem_singleton] at h; exact Or.inr (Or.inr h)
    · simp at h
  · exact Or.inl (Rti.digits_all _ c h)

theorem head_digit {n : ℕ} {r t : Text} : Nat.toDigits 10 n ++ r ≠ '-' :: t := by
  intro ht
  have h1 := Rti.digits_all n
  cases hd : Nat.toDigits 10 n with
  | nil => exact absurd hd Nat.toDigits_ne_nil
  | cons c r =>
    rw [hd] at ht h1
    simp only [List.cons_append, List.cons.injEq] at ht
    have := h1 c (by simp)
    rw [ht.1] at this
    simp at this

theorem parseAbs_fix (k n : ℕ) (hk : k ≠ 0) :
    parseAbs (Nat.toDigits 10 (n / 10 ^ k) ++ '.' :: Rti.fracDigits k (n % 10 ^ k))
      = .ok ((n : ℚ) / 10 ^ k) := by
  have := Rti.parseUnsigned_gen k n hk
  simp only [List.append_assoc, List.singleton_append] at this
  unfold parseAbs
  rw [if_pos (by simp), this]

theorem parseReal_fix (k : ℕ) (hk : k ≠ 0) (q : ℚ) :
    parseReal (fmtFix k q) = .ok (printed k q) := by
  unfold fmtFix printed
  simp only [List.append_assoc, List.singleton_append]
  by_cases hq : q < 0
  · rw [if_pos hq, if_pos hq]
    simp only [List.cons_append, List.nil_append]
    rw [parseReal, parseAbs_fix k _ hk]
  · rw [if_neg hq, if_neg hq, List.nil_append]
    rw [parseReal]
    · exact parseAbs_fix k _ hk
    · intro t; exact head_digit

theorem parseAbs_nat (n : ℕ) : parseAbs (Nat.toDigits 10 n) = .ok (n : ℚ) := by
  unfold parseAbs
  rw [if_neg, Rti.parseNat_digits]
  intro h
  have := Rti.digits_all n _ h
  simp at this

theorem parseReal_int (n : ℤ) : parseReal (fmtInt n) = .ok (n : ℚ) := by
  unfold fmtInt
  by_cases hn : n < 0
  · rw [if_pos hn]
    simp only [List.cons_append, List.nil_append]
    rw [parseReal, parseAbs_nat]
    simp only [Except.ok.injEq]
    have : (n.natAbs : ℤ) = -n := by omega
    have h2 : ((n.natAbs : ℤ) : ℚ) = -(n : ℚ) := by rw [this]; push_cast; ring
    rw [← Int.cast_natCast (n.natAbs), h2]; ring
  · rw [if_neg hn, List.nil_append]
    have : (n.natAbs : ℤ) = n := by omega
    rw [parseReal]
    · rw [parseAbs_nat, ← Int.cast_natCast (n.natAbs), this]
    · intro t h
      exact head_digit (r := []) (t := t) (by rw [List.append_nil]; exact h)

theorem trunc_int (n : ℤ) : trunc (n : ℚ) = n := by
  unfold trunc
  split
  · rw [← Int.cast_neg, Int.floor_intCast]; omega
  · exact Int.floor_intCast n

/-- Width of a printed number: at most `m` digits before the point, the point, `k` digits and a
sign if negative. -/
theorem fmtFix_length (k m : ℕ) (hm : 0 < m) (q : ℚ) (h : |q| + 1 ≤ 10 ^ m) :
    (fmtFix k q).length ≤ m + 1 + k + (if q < 0 then 1 else 0) := by
  have hn : Rti.roundHalfEven (|q| * 10 ^ k) / 10 ^ k < 10 ^ m := by
    rw [Nat.div_lt_iff_lt_mul (by positivity)]
    have hc := (abs_le.1 (Rti.roundHalfEven_close (q := |q| * 10 ^ k) (by positivity))).2
    have h10 : (1 : ℚ) ≤ 10 ^ k := one_le_pow₀ (by norm_num)
    have : (Rti.roundHalfEven (|q| * 10 ^ k) : ℚ) < 10 ^ m * 10 ^ k := by nlinarith
    exact_mod_cast this
  have hd := (Nat.length_toDigits_le_iff (b := 10) (by omega) hm).2 hn
  unfold fmtFix
  simp only [List.length_append, List.length_singleton, Rti.fracDigits_length]
  split_ifs <;> simp <;> omega

/-! ## C87: the file of monitored cells round trips -/

/-- The values fit the columns of the file: rows below a thousand million, areas below a million
million square kilometres, geographic coordinates in degrees. -/
structure Fits (row : ℤ) (area relief lon lat : ℚ) : Prop where
  row_nonneg : 0 ≤ row
  row_lt : row < 10 ^ 9
  area_nonneg : 0 ≤ area
  area_le : area ≤ 10 ^ 12 - 1
  relief_le : |relief| ≤ 10 ^ 11 - 1
  lon_le : |lon| ≤ 360
  lat_le : |lat| ≤ 360

theorem outlet_words (col row : ℤ) (area relief lon lat : ℚ) (h : Fits row area relief lon lat) :
    words (outletLine col row area relief lon lat) =
      [fmtInt col, fmtInt row, fmtFix 2 area, fmtFix 2 relief, fmtFix 8 lon, fmtFix 8 lat] := by
  have hlrow : (fmtInt row).length < 10 := by
    have hn : row.natAbs < 10 ^ 9 := by
      have h1 := h.row_nonneg; have h2 := h.row_lt
      omega
    have := (Nat.length_toDigits_le_iff (b := 10) (by omega) (by omega)).2 hn
    have h1 := h.row_nonneg
    unfold fmtInt
    rw [if_neg (by omega)]
    simpa using Nat.lt_succ_of_le this
  have hl2 : (fmtFix 2 area).length < 16 := by
    have := fmtFix_length 2 12 (by omega) area
      (by rw [abs_of_nonneg h.area_nonneg]; linarith [h.area_le])
    rw [if_neg (by linarith [h.area_nonneg])] at this
    omega
  have hlr : (fmtFix 2 relief).length < 16 := by
    have := fmtFix_length 2 11 (by omega) relief (by linarith [h.relief_le])
    split_ifs at this <;> omega
  have hl8 : ∀ q : ℚ, |q| ≤ 360 → (fmtFix 8 q).length < 16 := by
    intro q hq
    have := fmtFix_length 8 3 (by omega) q (by norm_num; linarith)
    split_ifs at this <;> omega
  have := words_line 10 (fmtInt col) (fmtInt_solid col)
    [(10, fmtInt row), (16, fmtFix 2 area), (16, fmtFix 2 relief), (16, fmtFix 8 lon),
      (16, fmtFix 8 lat)] ?_ ?_
  · simpa [outletLine, List.append_assoc] using this
  · intro p hp
    simp only [List.mem_cons, List.not_mem_nil, or_false] at hp
    rcases hp with rfl | rfl | rfl | rfl | rfl
    · exact fmtInt_solid _
    all_goals exact fmtFix_solid _ _
  · intro p hp
    simp only [List.mem_cons, List.not_mem_nil, or_false] at hp
    rcases hp with rfl | rfl | rfl | rfl | rfl
    · exact hlrow
    · exact hl2
    · exact hlr
    · exact hl8 _ h.lon_le
    · exact hl8 _ h.lat_le

theorem rjust_clean (w : ℕ) (s : Text) (h : Solid s) : '\n' ∉ rjust w s ∧ '\r' ∉ rjust w s := by
  have h1 : '\n' ∉ s := fun hc => by have := h.2 _ hc; revert this; decide
  have h2 : '\r' ∉ s := fun hc => by have := h.2 _ hc; revert this; decide
  simp [rjust, List.mem_replicate, h1, h2]

theorem outletLine_clean (col row : ℤ) (area relief lon lat : ℚ) :
    '\n' ∉ outletLine col row area relief lon lat ∧
    '\r' ∉ outletLine col row area relief lon lat := by
  have h1 := rjust_clean 10 _ (fmtInt_solid col)
  have h2 := rjust_clean 10 _ (fmtInt_solid row)
  have h3 := rjust_clean 16 _ (fmtFix_solid 2 area)
  have h4 := rjust_clean 16 _ (fmtFix_solid 2 relief)
  have h5 := rjust_clean 16 _ (fmtFix_solid 8 lon)
  have h6 := rjust_clean 16 _ (fmtFix_solid 8 lat)
  simp only [outletLine, List.mem_append, not_or]
  exact ⟨⟨⟨⟨⟨⟨h1.1, h2.1⟩, h3.1⟩, h4.1⟩, h5.1⟩, h6.1⟩,
    ⟨⟨⟨⟨⟨h1.2, h2.2⟩, h3.2⟩, h4.2⟩, h5.2⟩, h6.2⟩⟩

/-- One entry of a file: the values of a monitored cell. -/
structure Entry where
  col : ℤ
  row : ℤ
  area : ℚ
  relief : ℚ
  lon : ℚ
  lat : ℚ

/-- The lines of a file of entries (`none` stands for a line to be skipped, here blank). -/
def entryLine : Option Entry → Text
  | some e => outletLine e.col e.row e.area e.relief e.lon e.lat
  | none => []

theorem readRows_entries : ∀ (es : List (Option Entry)),
    (∀ e, some e ∈ es → Fits e.row e.area e.relief e.lon e.lat) →
    readRows (es.map entryLine) = .ok (es.filterMap fun o => o.map fun e =>
      ⟨e.col, e.row, printed 2 e.area, printed 2 e.relief⟩)
  | [], _ => rfl
  | none :: es, h => by
    rw [List.map_cons, List.filterMap_cons]
    have : words (entryLine none) = [] := rfl
    rw [readRows, this]
    exact readRows_entries es (fun e he => h e (List.mem_cons_of_mem _ he))
  | some e :: es, h => by
    have hw := outlet_words e.col e.row e.area e.relief e.lon e.lat (h e (by simp))
    rw [List.map_cons, readRows]
    have hl : entryLine (some e) = outletLine e.col e.row e.area e.relief e.lon e.lat := rfl
    rw [hl, hw]
    simp only [parseReal_int, parseReal_fix 2 (by omega : 2 ≠ 0), trunc_int,
      readRows_entries es (fun e he => h e (List.mem_cons_of_mem _ he))]
    rfl

theorem checkIDs_iff (ids : List ℤ) (n : ℤ) :
    checkIDs ids n = true ↔ ∀ i ∈ ids, 0 ≤ i ∧ i < n := by
  unfold checkIDs
  simp only [Bool.not_eq_true', List.any_eq_false, Bool.or_eq_true, decide_eq_true_eq, not_or]
  constructor
  · intro h i hi; have := h i hi; omega
  · intro h i hi; have := h i hi; omega

/-- The lines of the file, whatever the five header lines and the entries are. -/
theorem readOutlet_lines (hdr : List Text) (hh : hdr.length = 5)
    (hc : ∀ l ∈ hdr, '\n' ∉ l ∧ '\r' ∉ l) (es : List (Option Entry)) (nx n : ℤ) :
    readOutlet nx n ((hdr ++ es.map entryLine).flatMap (fun l => l ++ ['\n'])) =
      match readRows (es.map entryLine) with
      | .error e => .error e
      | .ok [] => .error "IndexError: index 0 is out of bounds"
      | .ok (o :: os) =>
        .ok ⟨o.area, o.relief,
          if checkIDs ((o :: os).map fun o => o.row * nx + o.col) n then
            some ((o :: os).map fun o => (o.row, o.col)) else none⟩ := by
  have hall : ∀ l ∈ hdr ++ es.map entryLine, '\n' ∉ l ∧ '\r' ∉ l := by
    intro l hl
    rw [List.mem_append, List.mem_map] at hl
    rcases hl with hl | ⟨e, _, rfl⟩
    · exact hc l hl
    · cases e with
      | none => simp [entryLine]
      | some e => exact outletLine_clean _ _ _ _ _ _
  unfold readOutlet
  rw [Rti.universalNewlines_id, Rti.splitLines_flatMap _ (fun l hl => (hall l hl).1),
    List.drop_left' hh]
  · rfl
  · rw [List.mem_flatMap]
    rintro ⟨l, hl, hcm⟩
    rw [List.mem_append] at hcm
    rcases hcm with hcm | hcm
    · exact (hall l hl).2 hcm
    · simp at hcm

/-- **C87 (reading).** A file of five header lines and any number of entries in the format of the
writer, with blank lines anywhere between them, is read as exactly these cells in this order;
they are accepted if and only if every ID `row · nx + col` lies in the grid; the stored area and
relief are those of the first entry, to half a hundredth. -/
theorem C87_read (hdr : List Text) (hh : hdr.length = 5)
    (hc : ∀ l ∈ hdr, '\n' ∉ l ∧ '\r' ∉ l) (pre : List (Option Entry)) (e : Entry)
    (es : List (Option Entry)) (hpre : ∀ o ∈ pre, o = none)
    (hf : ∀ x ∈ e :: es.filterMap id, Fits x.row x.area x.relief x.lon x.lat) (nx n : ℤ) :
    ∃ a h, readOutlet nx n ((hdr ++ (pre ++ some e :: es).map entryLine).flatMap
        (fun l => l ++ ['\n'])) = .ok ⟨a, h,
          if ∀ x ∈ e :: es.filterMap id, 0 ≤ x.row * nx + x.col ∧ x.row * nx + x.col < n then
            some ((e :: es.filterMap id).map fun x => (x.row, x.col)) else none⟩ ∧
      |a - e.area| ≤ 1 / 200 ∧ |h - e.relief| ≤ 1 / 200 := by
  refine ⟨printed 2 e.area, printed 2 e.relief, ?_, ?_, ?_⟩
  · rw [readOutlet_lines hdr hh hc, readRows_entries]
    · have hp : pre.filterMap (fun o => o.map fun e : Entry =>
          (⟨e.col, e.row, printed 2 e.area, printed 2 e.relief⟩ : Outlet)) = [] := by
        rw [List.filterMap_eq_nil_iff]
        intro o ho; rw [hpre o ho]; rfl
      rw [List.filterMap_append, hp, List.nil_append, List.filterMap_cons]
      simp only [Option.map_some]
      have hm : (es.filterMap fun o => o.map fun e : Entry =>
          (⟨e.col, e.row, printed 2 e.area, printed 2 e.relief⟩ : Outlet)) =
          (es.filterMap id).map fun e : Entry =>
            (⟨e.col, e.row, printed 2 e.area, printed 2 e.relief⟩ : Outlet) := by
        rw [List.map_filterMap]; rfl
      rw [hm]
      simp only [List.map_cons, List.map_map, Function.comp_def]
      congr 2
      have hiff : checkIDs ((e.row * nx + e.col) :: (es.filterMap id).map fun x =>
            x.row * nx + x.col) n = true ↔
          ∀ x ∈ e :: es.filterMap id, 0 ≤ x.row * nx + x.col ∧ x.row * nx + x.col < n := by
        rw [checkIDs_iff, ← List.map_cons (f := fun x : Entry => x.row * nx + x.col)]
        simp only [List.forall_mem_map]
      by_cases hx : checkIDs ((e.row * nx + e.col) :: (es.filterMap id).map fun x =>
            x.row * nx + x.col) n = true
      · rw [if_pos hx, if_pos (hiff.1 hx)]
      · rw [if_neg hx, if_neg (fun h => hx (hiff.2 h))]
    · intro x hx
      rcases List.mem_append.1 hx with hx | hx
      · exact absurd (hpre _ hx) (by simp)
      · rcases List.mem_cons.1 hx with hx | hx
        · cases hx; exact hf _ (by simp)
        · exact hf x (List.mem_cons_of_mem _ (by simpa using hx))
  · have := printed_close 2 e.area; norm_num at this ⊢; exact this
  · have := printed_close 2 e.relief; norm_num at this ⊢; exact this

/-- **C87 (round trip).** The file written for a monitored cell is read back as that one cell,
row and column exactly, area and relief to half a hundredth. -/
theorem C87_round_trip (col row nx n : ℤ) (area relief lon lat : ℚ)
    (hf : Fits row area relief lon lat) (hid : 0 ≤ row * nx + col ∧ row * nx + col < n) :
    ∃ a h, readOutlet nx n (writeOutlet col row area relief lon lat) =
      .ok ⟨a, h, some [(row, col)]⟩ ∧ |a - area| ≤ 1 / 200 ∧ |h - relief| ≤ 1 / 200 := by
  obtain ⟨a, h, hr, ha, hh⟩ := C87_read
    ((outletLines col row area relief lon lat).take 5) (by simp [outletLines])
    (by
      intro l hl
      simp only [outletLines, List.take_succ_cons, List.take_zero, List.mem_cons,
        List.not_mem_nil, or_false] at hl
      rcases hl with rfl | rfl | rfl | rfl | rfl <;> decide)
    [] ⟨col, row, area, relief, lon, lat⟩ [] (by simp)
    (by intro x hx; simp at hx; subst hx; exact hf) nx n
  refine ⟨a, h, ?_, ha, hh⟩
  have : writeOutlet col row area relief lon lat =
      (((outletLines col row area relief lon lat).take 5) ++
        ([] ++ [some (⟨col, row, area, relief, lon, lat⟩ : Entry)]).map entryLine).flatMap
        (fun l => l ++ ['\n']) := rfl
  rw [this, hr, if_pos]
  · rfl
  · intro x hx; simp at hx; subst hx; exact hid

/-- **C87 (no cell).** A file without any entry ends in an exception. -/
theorem C87_no_entry (hdr : List Text) (hh : hdr.length = 5)
    (hc : ∀ l ∈ hdr, '\n' ∉ l ∧ '\r' ∉ l) (k : ℕ) (nx n : ℤ) :
    ∃ e, readOutlet nx n ((hdr ++ (List.replicate k none).map entryLine).flatMap
      (fun l => l ++ ['\n'])) = .error e := by
  rw [readOutlet_lines hdr hh hc, readRows_entries _ (by simp)]
  have : (List.replicate k (none : Option Entry)).filterMap (fun o => o.map fun e =>
      (⟨e.col, e.row, printed 2 e.area, printed 2 e.relief⟩ : Outlet)) = [] := by
    rw [List.filterMap_eq_nil_iff]
    intro o ho; rw [(List.mem_replicate.1 ho).2]; rfl
  rw [this]
  exact ⟨_, rfl⟩

/-- A realistic outlet meets the hypotheses: cell (row 41, column 29) of the Treynor basin. -/
example : Fits 41 (12 / 25) (4837 / 100) (-9538 / 100) (4117 / 100) :=
  ⟨by norm_num, by norm_num, by norm_num, by norm_num, by norm_num, by norm_num [abs_le],
    by norm_num [abs_le]⟩

/-! ## C88: monitored cells lie in the grid -/

/-- **C88 (partial).** If all columns given in the file are columns of the grid, every accepted
cell is a cell of the grid. -/
theorem C88_in_grid_partial (nx ny : ℕ) (text : Text) (st : Stored) (cells : List (ℤ × ℤ))
    (h : readOutlet nx ((nx : ℤ) * ny) text = .ok st) (hs : st.cells = some cells)
    (hcol : ∀ c ∈ cells, 0 ≤ c.2 ∧ c.2 < nx) :
    ∀ c ∈ cells, (0 ≤ c.1 ∧ c.1 < ny) ∧ ∀ {α : Type} (g : ℤ → ℤ → α), gridAt ny nx g c = .ok (g c.1 c.2) := by
  have key : ∀ c ∈ cells, 0 ≤ c.1 * nx + c.2 ∧ c.1 * nx + c.2 < (nx : ℤ) * ny := by
    unfold readOutlet at h
    dsimp only at h
    split at h
    · cases h
    · cases h
    · cases h
      dsimp only at hs
      split at hs
      · rename_i hchk
        cases hs
        rw [checkIDs_iff] at hchk
        intro c hc
        obtain ⟨o, ho, rfl⟩ := List.mem_map.1 hc
        exact hchk _ (List.mem_map.2 ⟨o, ho, rfl⟩)
      · cases hs
  intro c hc
  have h1 := key c hc
  have h2 := hcol c hc
  have hr : 0 ≤ c.1 ∧ c.1 < ny := by
    constructor
    · by_contra hn; push Not at hn; nlinarith
    · by_contra hn; push Not at hn; nlinarith
  refine ⟨hr, fun g => ?_⟩
  unfold gridAt
  simp only [if_pos hr, if_pos h2]

/-- **C88 (violated).** In every grid with at least two rows, a cell with column `nx` in row 0 is
accepted although it is not in the grid, and reading a value there raises `IndexError`; a cell
with column `-1` in row 1 is accepted and silently monitors the last column. -/
theorem C88_violated (nx ny : ℕ) (hx : 1 ≤ nx) (hy : 2 ≤ ny) :
    (∃ st, readOutlet nx ((nx : ℤ) * ny) (writeOutlet nx 0 1 1 0 0) = .ok st ∧
      st.cells = some [(0, (nx : ℤ))] ∧
      ∀ g : ℤ → ℤ → ℚ, gridAt ny nx g (0, (nx : ℤ)) = .error "IndexError") ∧
    (∃ st, readOutlet nx ((nx : ℤ) * ny) (writeOutlet (-1) 1 1 1 0 0) = .ok st ∧
      st.cells = some [(1, -1)] ∧
      ∀ g : ℤ → ℤ → ℚ, gridAt ny nx g (1, -1) = .ok (g 1 (nx - 1))) := by
  have hx' : (1 : ℤ) ≤ nx := by exact_mod_cast hx
  have hy' : (2 : ℤ) ≤ ny := by exact_mod_cast hy
  constructor
  · obtain ⟨a, h, hr, _⟩ := C87_round_trip nx 0 nx ((nx : ℤ) * ny) 1 1 0 0
      ⟨by norm_num, by norm_num, by norm_num, by norm_num, by norm_num, by norm_num, by norm_num⟩
      ⟨by omega, by nlinarith⟩
    refine ⟨_, hr, rfl, fun g => ?_⟩
    unfold gridAt
    have h1 : ¬ (0 ≤ (nx : ℤ) ∧ (nx : ℤ) < nx) := by omega
    have h2 : ¬ (-(nx : ℤ) ≤ (nx : ℤ) ∧ (nx : ℤ) < 0) := by omega
    simp only [if_neg h1, if_neg h2]
    rw [if_pos (by omega)]
  · obtain ⟨a, h, hr, _⟩ := C87_round_trip (-1) 1 nx ((nx : ℤ) * ny) 1 1 0 0
      ⟨by norm_num, by norm_num, by norm_num, by norm_num, by norm_num, by norm_num, by norm_num⟩
      ⟨by omega, by nlinarith⟩
    refine ⟨_, hr, rfl, fun g => ?_⟩
    unfold gridAt
    have h0 : (0 : ℤ) ≤ 1 ∧ (1 : ℤ) < ny := by omega
    have h1 : ¬ (0 ≤ (-1 : ℤ) ∧ (-1 : ℤ) < nx) := by omega
    have h2 : -(nx : ℤ) ≤ -1 ∧ (-1 : ℤ) < 0 := by omega
    simp only [if_pos h0, if_neg h1, if_pos h2]
    rw [show (-1 : ℤ) + nx = nx - 1 by omega]

/-! ## C89: text time series -/

theorem rjust_rjust (w : ℕ) (s : Text) : rjust w (rjust w s) = rjust w s := by
  unfold rjust
  rw [show w - (List.replicate (w - s.length) ' ' ++ s).length = 0 by simp; omega]
  simp

theorem rowLine_eq (time : ℚ) (values : List ℚ) :
    rowLine time values = rjust 20 (fmtFix 7 time) ++
      (values.map fun v => (20, fmtFix 7 v)).flatMap fun p => rjust p.1 p.2 := by
  unfold rowLine
  simp only [rjust_rjust, List.flatMap_map]

/-- **C89 (values).** For every time and every list of values below ten thousand million, the line
written for them, split at white space, is the time and the values in order, each to half a unit
of the seventh decimal. -/
theorem C89_row (time : ℚ) (values : List ℚ) (h : ∀ v ∈ values, |v| ≤ 10 ^ 10 - 1) :
    List.Forall₂ (fun w v => ∃ x, parseReal w = .ok x ∧ |x - v| ≤ 1 / 2 / 10 ^ 7)
      (words (rowLine time values)) (time :: values) := by
  rw [rowLine_eq, words_line]
  · have hp : ∀ v, ∃ x, parseReal (fmtFix 7 v) = .ok x ∧ |x - v| ≤ 1 / 2 / 10 ^ 7 :=
      fun v => ⟨printed 7 v, parseReal_fix 7 (by omega) v, printed_close 7 v⟩
    refine List.Forall₂.cons (hp time) ?_
    simp only [List.map_map, Function.comp_def]
    clear h
    induction values with
    | nil => exact List.Forall₂.nil
    | cons v vs ih => exact List.Forall₂.cons (hp v) ih
  · exact fmtFix_solid _ _
  · intro p hp
    obtain ⟨v, _, rfl⟩ := List.mem_map.1 hp
    exact fmtFix_solid _ _
  · intro p hp
    obtain ⟨v, hv, rfl⟩ := List.mem_map.1 hp
    have := fmtFix_length 7 10 (by omega) v (by linarith [h v hv])
    dsimp only
    split_ifs at this <;> omega

/-- **C89 (cells).** The values written for cells of the grid: a scalar variable gives its value
once per monitored cell, a grid variable the value of the grid in each of them, in order. -/
theorem C89_values_at (ny nx : ℕ) (cells : List (ℤ × ℤ))
    (hin : ∀ c ∈ cells, (0 ≤ c.1 ∧ c.1 < ny) ∧ (0 ≤ c.2 ∧ c.2 < nx)) :
    (∀ x, valuesAt ny nx (.scalar x) cells = .ok (List.replicate cells.length x)) ∧
    (∀ g, valuesAt ny nx (.grid g) cells = .ok (cells.map fun c => g c.1 c.2)) := by
  constructor
  · intro x
    simp [valuesAt, List.map_const']
  · intro g
    unfold valuesAt
    induction cells with
    | nil => rfl
    | cons c cs ih =>
      have hc := hin c (by simp)
      have h1 : gridAt ny nx g c = .ok (g c.1 c.2) := by
        unfold gridAt
        simp only [if_pos hc.1, if_pos hc.2]
      simp only at ih ⊢
      rw [List.mapM_cons, h1, ih (fun d hd => hin d (List.mem_cons_of_mem _ hd))]
      rfl

/-- **C89 (violated).** Numbers of a hundred thousand million or more run into the number before
them: the line of a time and one such value is a single word. -/
theorem C89_wide_violated (time v : ℚ) (h : 10 ^ 11 ≤ v) :
    (words (rowLine time [v])).length = 1 := by
  have hlen : 20 ≤ (fmtFix 7 v).length := by
    have hn : 10 ^ 11 ≤ Rti.roundHalfEven (|v| * 10 ^ 7) / 10 ^ 7 := by
      rw [Nat.le_div_iff_mul_le (by positivity)]
      have hfl : (10 ^ 11 * 10 ^ 7 : ℕ) ≤ ⌊|v| * 10 ^ 7⌋₊ := by
        apply Nat.le_floor
        push_cast
        rw [abs_of_pos (by linarith)]
        linarith
      refine hfl.trans ?_
      unfold Rti.roundHalfEven
      dsimp only
      split_ifs <;> omega
    have hd : 12 ≤ (Nat.toDigits 10 (Rti.roundHalfEven (|v| * 10 ^ 7) / 10 ^ 7)).length := by
      by_contra hlt
      have := (Nat.length_toDigits_le_iff (b := 10) (k := 11)
        (n := Rti.roundHalfEven (|v| * 10 ^ 7) / 10 ^ 7) (by omega) (by omega)).1 (by omega)
      omega
    unfold fmtFix
    simp only [List.length_append, List.length_singleton, Rti.fracDigits_length]
    omega
  have hr : rjust 20 (fmtFix 7 v) = fmtFix 7 v := by
    unfold rjust
    rw [show 20 - (fmtFix 7 v).length = 0 by omega]; rfl
  rw [rowLine_eq]
  simp only [List.map_cons, List.map_nil, List.flatMap_cons, List.flatMap_nil, List.append_nil, hr]
  rw [words, rjust, List.append_assoc, wordsAux_blanks, ← List.append_nil (fmtFix 7 v),
    ← List.append_assoc, wordsAux_word]
  · have : (fmtFix 7 time ++ fmtFix 7 v).reverse ≠ [] := by
      simp [(fmtFix_solid 7 v).1]
    simp only [wordsAux, List.append_nil]
    rw [if_neg (by simpa using this)]
    rfl
  · intro c hc
    rcases List.mem_append.1 hc with hc | hc
    · exact (fmtFix_solid 7 time).2 c hc
    · exact (fmtFix_solid 7 v).2 c hc

theorem drop_take_block {α : Type} (w : ℕ) (f : α → Text) : ∀ (l : List α),
    (∀ a ∈ l, (f a).length = w) → ∀ (k : ℕ) (a : α), l[k]? = some a →
    ((l.flatMap f).drop (w * k)).take w = f a
  | [], _, k, a, h => by simp at h
  | b :: l, hw, 0, a, h => by
    simp only [List.getElem?_cons_zero, Option.some.injEq] at h
    subst h
    have := hw b (by simp)
    simp [List.flatMap_cons, this]
  | b :: l, hw, k + 1, a, h => by
    simp only [List.getElem?_cons_succ] at h
    have hb := hw b (by simp)
    rw [List.flatMap_cons, Nat.mul_succ, Nat.add_comm, ← List.drop_drop, List.drop_left' hb]
    exact drop_take_block w f l (fun x hx => hw x (List.mem_cons_of_mem _ hx)) k a h

theorem rjust_length {w : ℕ} {s : Text} (h : s.length ≤ w) : (rjust w s).length = w := by
  simp [rjust]; omega

/-- **C89 (header).** Labels of at most fifteen characters stand in columns of fifteen, the values
in columns of twenty, each in its own order. -/
theorem C89_columns (units : String) (names : List Text) (hdr : List Text) (time : ℚ)
    (values : List ℚ) (hh : headerLines units names = some hdr)
    (hn : ∀ s ∈ names, s.length ≤ 15) (hv : ∀ v ∈ values, |v| ≤ 10 ^ 10 - 1)
    (ht : |time| ≤ 10 ^ 10 - 1) (k : ℕ) (s : Text) (v : ℚ) (hs : names[k]? = some s)
    (hk : values[k]? = some v) :
    ∃ l1 l2, hdr = [l1, l2] ∧ (l1.drop (15 * (k + 1))).take 15 = rjust 15 s ∧
      ((rowLine time values).drop (20 * (k + 1))).take 20 = rjust 20 (fmtFix 7 v) := by
  unfold headerLines at hh
  split at hh
  · cases hh
  · rename_i u hu
    cases hh
    refine ⟨_, _, rfl, ?_, ?_⟩
    · have hlen : (rjust 15 (("Time [" ++ u ++ "]").toList)).length = 15 := by
        unfold unitLabel at hu
        split_ifs at hu <;> cases hu <;> decide
      rw [Nat.mul_succ, Nat.add_comm, ← List.drop_drop, List.drop_left' hlen]
      exact drop_take_block 15 (rjust 15) names (fun a ha => rjust_length (hn a ha)) k s hs
    · have hf : ∀ q : ℚ, |q| ≤ 10 ^ 10 - 1 → (rjust 20 (fmtFix 7 q)).length = 20 := by
        intro q hq
        apply rjust_length
        have := fmtFix_length 7 10 (by omega) q (by linarith)
        split_ifs at this <;> omega
      unfold rowLine
      simp only [rjust_rjust]
      rw [Nat.mul_succ, Nat.add_comm, ← List.drop_drop, List.drop_left' (hf time ht)]
      exact drop_take_block 20 (fun v => rjust 20 (fmtFix 7 v)) values
        (fun a ha => hf a (hv a ha)) k v hk

theorem split_block {t b : Text} {m w : ℕ} (h : (t.drop m).take w = b) (hb : b.length = w)
    (hw : 0 < w) : t = t.take m ++ b ++ t.drop (m + w) ∧ (t.take m).length = m := by
  have hlen : (t.drop m).length ≥ w := by
    by_contra hlt
    rw [← h] at hb
    simp at hb hlt
    omega
  constructor
  · conv_lhs => rw [← List.take_append_drop m t, ← List.take_append_drop w (t.drop m), h]
    rw [List.drop_drop, List.append_assoc]
  · simp at hlen ⊢; omega

/-- **C89 (header, violated).** In every file, from the third variable on the label ends before
the column of its values begins: no character of the label stands over the values. -/
theorem C89_header_violated (units : String) (names : List Text) (hdr : List Text) (time : ℚ)
    (values : List ℚ) (hh : headerLines units names = some hdr)
    (hn : ∀ s ∈ names, s.length ≤ 15) (hv : ∀ v ∈ values, |v| ≤ 10 ^ 10 - 1)
    (ht : |time| ≤ 10 ^ 10 - 1) (k : ℕ) (h2 : 2 ≤ k) (s : Text) (v : ℚ) (hs : names[k]? = some s)
    (hk : values[k]? = some v) :
    ∃ l1 l2 a b a' b', hdr = [l1, l2] ∧ l1 = a ++ rjust 15 s ++ b ∧
      rowLine time values = a' ++ rjust 20 (fmtFix 7 v) ++ b' ∧
      (a ++ rjust 15 s).length ≤ a'.length := by
  obtain ⟨l1, l2, h, hl, hr⟩ := C89_columns units names hdr time values hh hn hv ht k s v hs hk
  have hs15 : (rjust 15 s).length = 15 := rjust_length (hn s (List.mem_of_getElem? hs))
  have hv20 : (rjust 20 (fmtFix 7 v)).length = 20 := by
    apply rjust_length
    have := fmtFix_length 7 10 (by omega) v (by linarith [hv v (List.mem_of_getElem? hk)])
    split_ifs at this <;> omega
  obtain ⟨e1, n1⟩ := split_block hl hs15 (by omega)
  obtain ⟨e2, n2⟩ := split_block hr hv20 (by omega)
  refine ⟨l1, l2, _, _, _, _, h, e1, e2, ?_⟩
  rw [List.length_append, n1, n2, hs15]
  omega

/-- A file of three discharges in minutes meets the hypotheses. -/
example : headerLines "minutes" ["Q_1_1".toList, "Q_2_2".toList, "Q_4_4".toList] =
    some ["     Time [min]          Q_1_1          Q_2_2          Q_4_4".toList,
      List.replicate 60 '-'] ∧
    rowLine 5 [1 / 3, -2, 70] =
      ("           5.0000000           0.3333333          -2.0000000" ++
        "          70.0000000").toList := by decide +kernel

end Table
