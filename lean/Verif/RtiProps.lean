import Verif.RtiModel
import Mathlib.Tactic.Ring
import Mathlib.Tactic.Linarith
import Mathlib.Tactic.NormNum
import Mathlib.Tactic.FieldSimp
import Mathlib.Tactic.IntervalCases

/-!
# C38: grid information files round trip
-/

set_option autoImplicit false

namespace RtiSpec
open Rti

/-- A one-line text without white space at its ends. -/
def Line (s : Text) : Prop :=
  '\n' ∉ s ∧ '\r' ∉ s ∧ (∀ c, s.head? = some c → isWs c = false) ∧
    (∀ c, s.getLast? = some c → isWs c = false)

/-- A text without lower-case letters. -/
def Upper (s : Text) : Prop := ∀ c ∈ s, c.toUpper = c

/-- `y` is the number `x` up to the precision of twelve printed decimals. -/
def Close (x y : Num) : Prop :=
  ∃ p q, x = .fin p ∧ y = .fin q ∧ |q - p| ≤ 1 / 2 / 10 ^ 12

/-- The number is finite. -/
def Finite (x : Num) : Prop := ∃ q, x = .fin q

end RtiSpec

namespace Rti
open RtiSpec

/-! ### Lines -/

theorem universalNewlines_id : ∀ (t : Text), '\r' ∉ t → universalNewlines t = t
  | [], _ => rfl
  | c :: t, h => by
    have hc : c ≠ '\r' := fun hh => h (by simp [hh])
    have ht : '\r' ∉ t := fun hh => h (List.mem_cons_of_mem _ hh)
    rw [universalNewlines]
    · rw [universalNewlines_id t ht]
    · rintro t' rfl; exact absurd rfl hc
    · rintro rfl; exact absurd rfl hc

theorem splitLines_line : ∀ (l acc t : Text), '\n' ∉ l →
    splitLines acc (l ++ '\n' :: t) = (acc.reverse ++ l) :: splitLines [] t
  | [], acc, t, _ => by simp [splitLines]
  | c :: l, acc, t, h => by
    have hc : c ≠ '\n' := fun hh => h (by simp [hh])
    rw [List.cons_append, splitLines, if_neg hc,
      splitLines_line l (c :: acc) t (fun hh => h (List.mem_cons_of_mem _ hh))]
    simp

theorem splitLines_flatMap : ∀ (ls : List Text), (∀ l ∈ ls, '\n' ∉ l) →
    splitLines [] (ls.flatMap (fun l => l ++ ['\n'])) = ls
  | [], _ => rfl
  | l :: ls, h => by
    rw [List.flatMap_cons, List.append_assoc, List.singleton_append,
      splitLines_line l [] _ (h l (by simp)),
      splitLines_flatMap ls (fun l hl => h l (List.mem_cons_of_mem _ hl))]
    rfl

/-! ### Stripping -/

theorem dropWhile_ws_pad : ∀ (pad v : Text), (∀ c ∈ pad, isWs c = true) →
    (pad ++ v).dropWhile isWs = v.dropWhile isWs
  | [], _, _ => rfl
  | c :: pad, v, h => by
    rw [List.cons_append, List.dropWhile_cons, if_pos (h c (by simp))]
    exact dropWhile_ws_pad pad v (fun c hc => h c (List.mem_cons_of_mem _ hc))

theorem strip_pad {pad v : Text} (h : ∀ c ∈ pad, isWs c = true) : strip (pad ++ v) = strip v := by
  unfold strip; rw [dropWhile_ws_pad pad v h]

theorem dropWhile_clean {v : Text} (h : ∀ c, v.head? = some c → isWs c = false) :
    v.dropWhile isWs = v := by
  cases v with
  | nil => rfl
  | cons c t => rw [List.dropWhile_cons, if_neg (by rw [h c rfl]; decide)]

theorem strip_clean {v : Text} (h : ∀ c, v.head? = some c → isWs c = false)
    (h' : ∀ c, v.getLast? = some c → isWs c = false) : strip v = v := by
  unfold strip
  rw [dropWhile_clean h, dropWhile_clean, List.reverse_reverse]
  intro c hc
  rw [List.head?_reverse] at hc
  exact h' c hc

theorem strip_all {v : Text} (h : ∀ c ∈ v, isWs c = false) : strip v = v :=
  strip_clean (fun c hc => h c (List.mem_of_mem_head? hc))
    (fun c hc => h c (List.mem_of_mem_getLast? hc))

theorem isWs_digit {c : Char} (h : c.isDigit = true) : isWs c = false := by
  have : 48 ≤ c.toNat ∧ c.toNat ≤ 57 := by
    simp only [Char.isDigit, Bool.and_eq_true, decide_eq_true_eq] at h
    obtain ⟨h1, h2⟩ := h
    constructor
    · have := UInt32.le_iff_toNat_le.1 h1; simpa using this
    · have := UInt32.le_iff_toNat_le.1 h2; simpa using this
  unfold isWs
  simp
  omega

theorem upper_clean {v : Text} (h : Upper v) : upper v = v := by
  unfold upper
  conv_rhs => rw [← List.map_id v]
  exact List.map_congr_left (fun c hc => h c hc)

/-! ### Fields -/

/-- Lines that `read_value` skips. -/
def isField (l : Text) : Bool := decide (l.head? ≠ some ';' ∧ ':' ∈ l)

theorem nextField_skip {l : Text} {ls : List Text} (h : isField l = false) :
    nextField (l :: ls) = nextField ls := by
  unfold isField at h
  rw [nextField, if_neg (by simpa using h)]

/-- A label as used by `write_info`. -/
def goodLabel (label pad : String) : Bool :=
  (decide (label.toList.head? ≠ none) && decide (label.toList.head? ≠ some ';') &&
    decide (':' ∉ label.toList)) && pad.toList.all isWs

theorem nextField_labelled {label pad : String} {v : Text} {ls : List Text}
    (h : goodLabel label pad = true) :
    nextField (labelled label pad v :: ls) = .ok (strip v, ls) := by
  simp only [goodLabel, Bool.and_eq_true, decide_eq_true_eq, List.all_eq_true] at h
  obtain ⟨⟨⟨h1, h2⟩, h3⟩, h4⟩ := h
  have hdw : ∀ (a b : Text), ':' ∉ a →
      (a ++ [':'] ++ b).dropWhile (fun c => decide (c ≠ ':')) = ':' :: b := by
    intro a b
    induction a with
    | nil => intro _; simp
    | cons c t ih =>
      intro h
      have hc : c ≠ ':' := fun hh => h (by simp [hh])
      rw [List.cons_append, List.cons_append, List.dropWhile_cons,
        if_pos (by simpa using hc)]
      exact ih (fun hh => h (List.mem_cons_of_mem _ hh))
  unfold nextField labelled
  rw [if_pos, hdw _ _ h3]
  · simp only [List.drop_one, List.tail_cons]
    rw [strip_pad h4]
  · constructor
    · cases hl : label.toList with
      | nil => simp [hl] at h1
      | cons c t =>
        rw [hl] at h2
        simpa using h2
    · simp

/-! ### Numbers -/

theorem digits_all (n : ℕ) : ∀ c ∈ Nat.toDigits 10 n, c.isDigit = true :=
  fun _ hc => Nat.isDigit_of_mem_toDigits (by omega) (by omega) hc

theorem parseNat_digits (n : ℕ) : parseNat (Nat.toDigits 10 n) = .ok n := by
  unfold parseNat
  rw [if_pos ⟨Nat.toDigits_ne_nil, by simpa using digits_all n⟩, Nat.ofDigitChars_ten_toDigits]

theorem strip_digits (n : ℕ) : strip (Nat.toDigits 10 n) = Nat.toDigits 10 n :=
  strip_all (fun c hc => isWs_digit (digits_all n c hc))

theorem digitChar_isDigit {d : ℕ} (h : d < 10) : (Nat.digitChar d).isDigit = true := by
  interval_cases d <;> decide

theorem digitChar_val {d : ℕ} (h : d < 10) : (Nat.digitChar d).toNat - '0'.toNat = d := by
  interval_cases d <;> decide

theorem fracDigits_all : ∀ (k n : ℕ), ∀ c ∈ fracDigits k n, c.isDigit = true
  | 0, _, _, h => by simp [fracDigits] at h
  | k + 1, n, c, h => by
    rw [fracDigits, List.mem_append] at h
    rcases h with h | h
    · exact fracDigits_all k _ c h
    · simp only [List.mem_singleton] at h
      rw [h]; exact digitChar_isDigit (Nat.mod_lt _ (by omega))

theorem fracDigits_length : ∀ (k n : ℕ), (fracDigits k n).length = k
  | 0, _ => rfl
  | k + 1, n => by rw [fracDigits, List.length_append, fracDigits_length k]; rfl

theorem fracDigits_val : ∀ (k n : ℕ), n < 10 ^ k → Nat.ofDigitChars 10 (fracDigits k n) 0 = n
  | 0, n, h => by
    simp only [pow_zero] at h
    have : n = 0 := by omega
    subst this; rfl
  | k + 1, n, h => by
    have h1 : n / 10 < 10 ^ k := by
      rw [pow_succ] at h
      exact Nat.div_lt_of_lt_mul (by linarith)
    have ih := fracDigits_val k (n / 10) h1
    unfold Nat.ofDigitChars at ih ⊢
    rw [fracDigits, List.foldl_append, ih]
    simp only [List.foldl_cons, List.foldl_nil]
    rw [digitChar_val (Nat.mod_lt _ (by omega))]
    omega

/-- The value that `fmt` prints. -/
def printed (q : ℚ) : ℚ :=
  let v : ℚ := (roundHalfEven (|q| * 10 ^ 12) : ℚ) / 10 ^ 12
  if q < 0 then -v else v

theorem parseUnsigned_gen (k n : ℕ) (hk : k ≠ 0) :
    parseUnsigned (Nat.toDigits 10 (n / 10 ^ k) ++ ['.'] ++ fracDigits k (n % 10 ^ k))
      = .ok ((n : ℚ) / 10 ^ k) := by
  have hnodot : ∀ c ∈ Nat.toDigits 10 (n / 10 ^ k), (decide (c ≠ '.')) = true := by
    intro c hc
    have := digits_all _ c hc
    rw [decide_eq_true_eq]
    rintro rfl
    simp at this
  have e : Nat.toDigits 10 (n / 10 ^ k) ++ ['.'] ++ fracDigits k (n % 10 ^ k)
      = Nat.toDigits 10 (n / 10 ^ k) ++ '.' :: fracDigits k (n % 10 ^ k) := by simp
  have ht : (Nat.toDigits 10 (n / 10 ^ k) ++ '.' :: fracDigits k (n % 10 ^ k)).takeWhile
      (fun c => decide (c ≠ '.')) = Nat.toDigits 10 (n / 10 ^ k) := by
    rw [List.takeWhile_append_of_pos hnodot]; simp
  have hd : (Nat.toDigits 10 (n / 10 ^ k) ++ '.' :: fracDigits k (n % 10 ^ k)).dropWhile
      (fun c => decide (c ≠ '.')) = '.' :: fracDigits k (n % 10 ^ k) := by
    rw [List.dropWhile_append_of_pos hnodot]; simp
  unfold parseUnsigned
  rw [e, ht, hd]
  simp only [List.drop_one, List.tail_cons]
  have hf : parseNat (fracDigits k (n % 10 ^ k)) = .ok (n % 10 ^ k) := by
    unfold parseNat
    rw [if_pos, fracDigits_val k _ (Nat.mod_lt _ (by positivity))]
    refine ⟨?_, by simpa using fracDigits_all k (n % 10 ^ k)⟩
    intro h0
    have := fracDigits_length k (n % 10 ^ k)
    rw [h0] at this; exact hk this.symm
  rw [parseNat_digits, hf]
  simp only [fracDigits_length]
  congr 1
  have h1 : (n : ℚ) = ((n / 10 ^ k : ℕ) : ℚ) * 10 ^ k + ((n % 10 ^ k : ℕ) : ℚ) := by
    have := Nat.div_add_mod n (10 ^ k)
    calc (n : ℚ) = ((10 ^ k * (n / 10 ^ k) + n % 10 ^ k : ℕ) : ℚ) := by rw [this]
      _ = _ := by push_cast; ring
  conv_rhs => rw [h1]
  field_simp

theorem parseUnsigned_fmt (n : ℕ) :
    parseUnsigned (Nat.toDigits 10 (n / 10 ^ 12) ++ ['.'] ++ fracDigits 12 (n % 10 ^ 12))
      = .ok ((n : ℚ) / 10 ^ 12) := parseUnsigned_gen 12 n (by omega)

theorem fmt_chars (q : ℚ) : ∀ c ∈ fmt (.fin q), c.isDigit = true ∨ c = '.' ∨ c = '-' := by
  intro c hc
  unfold fmt at hc
  simp only [List.mem_append, List.mem_singleton] at hc
  rcases hc with ((h | h) | h) | h
  · split at h
    · simp only [List.mem_singleton] at h; exact Or.inr (Or.inr h)
    · simp at h
  · exact Or.inl (digits_all _ c h)
  · exact Or.inr (Or.inl h)
  · exact Or.inl (fracDigits_all _ _ c h)

theorem strip_fmt (q : ℚ) : strip (fmt (.fin q)) = fmt (.fin q) := by
  apply strip_all
  intro c hc
  rcases fmt_chars q c hc with h | h | h
  · exact isWs_digit h
  · rw [h]; decide
  · rw [h]; decide

theorem parseDec_fmt (q : ℚ) : parseDec (fmt (.fin q)) = .ok (printed q) := by
  unfold fmt printed
  simp only
  by_cases hq : q < 0
  · rw [if_pos hq, if_pos hq]
    simp only [List.cons_append]
    rw [parseDec]
    have := parseUnsigned_fmt (roundHalfEven (|q| * 10 ^ 12))
    simp only [List.append_assoc, List.singleton_append, List.nil_append] at this ⊢
    rw [this]
  · rw [if_neg hq, if_neg hq, List.nil_append]
    have hne : ∀ t, Nat.toDigits 10 (roundHalfEven (|q| * 10 ^ 12) / 10 ^ 12) ++ ['.'] ++
        fracDigits 12 (roundHalfEven (|q| * 10 ^ 12) % 10 ^ 12) ≠ '-' :: t := by
      intro t ht
      have h1 := digits_all (roundHalfEven (|q| * 10 ^ 12) / 10 ^ 12)
      cases hd : Nat.toDigits 10 (roundHalfEven (|q| * 10 ^ 12) / 10 ^ 12) with
      | nil => exact absurd hd Nat.toDigits_ne_nil
      | cons c r =>
        rw [hd] at ht h1
        simp only [List.cons_append, List.cons.injEq] at ht
        have := h1 c (by simp)
        rw [ht.1] at this
        simp at this
    rw [parseDec]
    · exact parseUnsigned_fmt _
    · exact hne

theorem roundHalfEven_close {q : ℚ} (hq : 0 ≤ q) : |(roundHalfEven q : ℚ) - q| ≤ 1 / 2 := by
  have h1 : (⌊q⌋₊ : ℚ) ≤ q := Nat.floor_le hq
  have h2 : q < (⌊q⌋₊ : ℚ) + 1 := Nat.lt_floor_add_one q
  unfold roundHalfEven
  simp only
  rw [abs_le]
  split
  · constructor <;> linarith
  · split
    · push_cast; constructor <;> linarith
    · split
      · constructor <;> linarith
      · push_cast; constructor <;> linarith

theorem printed_close (q : ℚ) : |printed q - q| ≤ 1 / 2 / 10 ^ 12 := by
  have h := roundHalfEven_close (q := |q| * 10 ^ 12) (by positivity)
  have h2 : |(roundHalfEven (|q| * 10 ^ 12) : ℚ) / 10 ^ 12 - (|q|)| ≤ 1 / 2 / 10 ^ 12 := by
    have : (roundHalfEven (|q| * 10 ^ 12) : ℚ) / 10 ^ 12 - |q|
        = ((roundHalfEven (|q| * 10 ^ 12) : ℚ) - |q| * 10 ^ 12) / 10 ^ 12 := by
      field_simp
    rw [this, abs_div, abs_of_pos (show (0:ℚ) < 10 ^ 12 by norm_num)]
    exact div_le_div_of_nonneg_right h (by norm_num)
  unfold printed
  simp only
  by_cases hq : q < 0
  · rw [if_pos hq]
    rw [abs_of_neg hq] at h2 ⊢
    rw [← abs_neg]
    convert h2 using 2
    ring
  · rw [if_neg hq]
    rw [abs_of_nonneg (not_lt.1 hq)] at h2 ⊢
    exact h2

/-! ### Reading one field -/

theorem readString_skip {l : Text} {ls : List Text} {u : Bool} (h : isField l = false) :
    readString u (l :: ls) = readString u ls := by
  unfold readString; rw [nextField_skip h]

theorem readLong_skip {l : Text} {ls : List Text} (h : isField l = false) :
    readLong (l :: ls) = readLong ls := by
  unfold readLong; rw [nextField_skip h]

theorem readByte_skip {l : Text} {ls : List Text} (h : isField l = false) :
    readByte (l :: ls) = readByte ls := by
  unfold readByte; rw [nextField_skip h]

theorem readFloat_skip {l : Text} {ls : List Text} (h : isField l = false) :
    readFloat (l :: ls) = readFloat ls := by
  unfold readFloat; rw [nextField_skip h]

theorem strip_strip_of {v : Text} (h : Line v) : strip (strip v) = v := by
  rw [strip_clean h.2.2.1 h.2.2.2, strip_clean h.2.2.1 h.2.2.2]

theorem readString_raw {label pad : String} {v : Text} {ls : List Text}
    (h : goodLabel label pad = true) (hv : Line v) :
    readString false (labelled label pad v :: ls) = .ok (v, ls) := by
  unfold readString
  rw [nextField_labelled h]
  simp [strip_strip_of hv]

theorem readString_up {label pad : String} {v : Text} {ls : List Text}
    (h : goodLabel label pad = true) (hv : Line v) :
    readString true (labelled label pad v :: ls) = .ok (upper v, ls) := by
  unfold readString
  rw [nextField_labelled h]
  simp [strip_strip_of hv]

theorem readLong_lab {label pad : String} {n : ℕ} {ls : List Text}
    (h : goodLabel label pad = true) (hn : n < 2 ^ 31) :
    readLong (labelled label pad (Nat.toDigits 10 n) :: ls) = .ok (n, ls) := by
  unfold readLong
  rw [nextField_labelled h]
  simp only [strip_digits, parseNat_digits]
  rw [if_pos hn]

theorem readByte_lab {label pad : String} {n : ℕ} {ls : List Text}
    (h : goodLabel label pad = true) (hn : n < 2 ^ 8) :
    readByte (labelled label pad (Nat.toDigits 10 n) :: ls) = .ok (n, ls) := by
  unfold readByte
  rw [nextField_labelled h]
  simp only [strip_digits, parseNat_digits]
  rw [if_pos hn]

theorem readFloat_lab {label pad : String} {q : ℚ} {ls : List Text}
    (h : goodLabel label pad = true) :
    readFloat (labelled label pad (fmt (.fin q)) :: ls) = .ok (.fin (printed q), ls) := by
  unfold readFloat
  rw [nextField_labelled h]
  simp only [strip_fmt, parseDec_fmt]

/-! ### The whole file -/

theorem digits_noNl (n : ℕ) : '\n' ∉ Nat.toDigits 10 n ∧ '\r' ∉ Nat.toDigits 10 n := by
  constructor <;> intro h <;> have := digits_all n _ h <;> simp at this

theorem fmt_noNl (q : ℚ) : '\n' ∉ fmt (.fin q) ∧ '\r' ∉ fmt (.fin q) := by
  constructor <;> intro h <;> rcases fmt_chars q _ h with h | h | h <;> simp at h

/-- A line without newline characters. -/
def OneLine (l : Text) : Prop := '\n' ∉ l ∧ '\r' ∉ l

theorem oneLine_labelled {label pad : String} {v : Text}
    (h : '\n' ∉ label.toList ++ [':'] ++ pad.toList ∧ '\r' ∉ label.toList ++ [':'] ++ pad.toList)
    (hv : OneLine v) : OneLine (labelled label pad v) := by
  unfold labelled OneLine at *
  simp only [List.mem_append, not_or] at h ⊢
  exact ⟨⟨h.1.1, h.1.2, hv.1⟩, ⟨h.2.1, h.2.2, hv.2⟩⟩

theorem trailer_oneLine : ∀ l ∈ trailer, OneLine l := by
  unfold OneLine trailer
  decide +kernel

/-- The record read back is the record written, up to the precision of the
printed numbers and the case of the unit names. -/
structure SameGrid (r r' : Rec) : Prop where
  ncols : r'.ncols = r.ncols
  nrows : r'.nrows = r.nrows
  dataType : r'.dataType = r.dataType
  byteOrder : r'.byteOrder = r.byteOrder
  pixelGeom : r'.pixelGeom = r.pixelGeom
  gridFile : r'.gridFile = r.gridFile
  dataSource : r'.dataSource = r.dataSource
  zUnits : r'.zUnits = r.zUnits.map Char.toUpper
  boxUnits : r'.boxUnits = r.boxUnits.map Char.toUpper
  xres : Close r.xres r'.xres
  yres : Close r.yres r'.yres
  zres : Close r.zres r'.zres
  ySouth : Close r.ySouth r'.ySouth
  yNorth : Close r.yNorth r'.yNorth
  xEast : Close r.xEast r'.xEast
  xWest : Close r.xWest r'.xWest
  gmin : Close r.gmin r'.gmin
  gmax : Close r.gmax r'.gmax

theorem close_printed (q : ℚ) : Close (.fin q) (.fin (printed q)) :=
  ⟨q, printed q, rfl, rfl, printed_close q⟩

/-- **C38.**  Reading back a written grid information record yields the same
dimensions, data type, byte order, pixel geometry and names, and the same
resolutions, extents and minimum/maximum up to half a unit of the twelfth decimal.
For every record whose texts are single lines without white space at the ends,
whose data type and byte order are in upper case and whose numbers are finite
(without these: see `C38_nan_violated` and `C38_newline_violated`). -/
theorem C38_round_trip_partial (r : Rec)
    (hfile : Line r.gridFile) (hsrc : Line r.dataSource)
    (hdt : Line r.dataType) (hdtU : Upper r.dataType)
    (hdtK : ∃ b, Rts.getBpe (String.ofList r.dataType) = .ok b)
    (hbo : Line r.byteOrder) (hboU : Upper r.byteOrder)
    (hz : Line r.zUnits) (hb : Line r.boxUnits) (hu : Line r.utmZone)
    (hnx : r.ncols < 2 ^ 31) (hny : r.nrows < 2 ^ 31) (hpg : r.pixelGeom < 2 ^ 8)
    (h1 : Finite r.xres) (h2 : Finite r.yres) (h3 : Finite r.zres)
    (h4 : Finite r.ySouth) (h5 : Finite r.yNorth) (h6 : Finite r.xEast) (h7 : Finite r.xWest)
    (h8 : Finite r.gmin) (h9 : Finite r.gmax) :
    ∃ r', readInfo (writeInfo r) = .ok r' ∧ SameGrid r r' := by
  obtain ⟨gridFile, dataSource, ncols, nrows, dataType, byteOrder, pixelGeom, xres, yres, zres,
    zUnits, ySouth, yNorth, xEast, xWest, boxUnits, gmin, gmax, utmZone⟩ := r
  simp only at *
  obtain ⟨q1, rfl⟩ := h1
  obtain ⟨q2, rfl⟩ := h2
  obtain ⟨q3, rfl⟩ := h3
  obtain ⟨q4, rfl⟩ := h4
  obtain ⟨q5, rfl⟩ := h5
  obtain ⟨q6, rfl⟩ := h6
  obtain ⟨q7, rfl⟩ := h7
  obtain ⟨q8, rfl⟩ := h8
  obtain ⟨q9, rfl⟩ := h9
  obtain ⟨b, hdtK⟩ := hdtK
  generalize hr : (Rec.mk gridFile dataSource ncols nrows dataType byteOrder pixelGeom (.fin q1)
    (.fin q2) (.fin q3) zUnits (.fin q4) (.fin q5) (.fin q6) (.fin q7) boxUnits (.fin q8) (.fin q9)
    utmZone) = r
  have hlines : ∀ l ∈ writeLines r, OneLine l := by
    subst hr
    unfold writeLines
    intro l hl
    rw [List.mem_append] at hl
    rcases hl with hl | hl
    · simp only [List.mem_cons, List.not_mem_nil, or_false] at hl
      rcases hl with rfl | rfl | rfl | rfl | rfl | rfl | rfl | rfl | rfl | rfl | rfl | rfl | rfl | rfl |
        rfl | rfl | rfl | rfl | rfl | rfl | rfl | rfl | rfl | rfl | rfl | rfl | rfl | rfl | rfl | rfl |
        rfl | rfl | rfl | rfl | rfl | rfl | rfl | rfl | rfl | rfl | rfl | rfl | rfl | rfl
      all_goals first
        | exact oneLine_labelled (by decide) (digits_noNl _)
        | exact oneLine_labelled (by decide) (fmt_noNl _)
        | exact oneLine_labelled (by decide) ⟨hfile.1, hfile.2.1⟩
        | exact oneLine_labelled (by decide) ⟨hsrc.1, hsrc.2.1⟩
        | exact oneLine_labelled (by decide) ⟨hdt.1, hdt.2.1⟩
        | exact oneLine_labelled (by decide) ⟨hbo.1, hbo.2.1⟩
        | exact oneLine_labelled (by decide) ⟨hz.1, hz.2.1⟩
        | exact oneLine_labelled (by decide) ⟨hb.1, hb.2.1⟩
        | exact oneLine_labelled (by decide) ⟨hu.1, hu.2.1⟩
        | (unfold OneLine; decide)
    · exact trailer_oneLine l hl
  have hsplit : splitLines [] (universalNewlines (writeInfo r)) = writeLines r := by
    have hcr : '\r' ∉ writeInfo r := by
      unfold writeInfo
      rw [List.mem_flatMap]
      rintro ⟨l, hl, hm⟩
      rcases List.mem_append.1 hm with h | h
      · exact (hlines l hl).2 h
      · simp at h
    rw [universalNewlines_id _ hcr]
    exact splitLines_flatMap _ (fun l hl => (hlines l hl).1)
  have hhead : strip (upper "RiverTools Info File".toList) = "RIVERTOOLS INFO FILE".toList := by
    decide +kernel
  have hupd := upper_clean hdtU
  have hupb := upper_clean hboU
  have key : readInfo (writeInfo r) = .ok
      { gridFile := gridFile, dataSource := dataSource, ncols := ncols, nrows := nrows
        dataType := dataType, byteOrder := byteOrder, pixelGeom := pixelGeom
        xres := .fin (printed q1), yres := .fin (printed q2), zres := .fin (printed q3)
        zUnits := upper zUnits, ySouth := .fin (printed q4), yNorth := .fin (printed q5)
        xEast := .fin (printed q6), xWest := .fin (printed q7), boxUnits := upper boxUnits
        gmin := .fin (printed q8), gmax := .fin (printed q9)
        utmZone := if upper utmZone = "-1".toList then "unknown".toList else upper utmZone } := by
    unfold readInfo
    rw [hsplit]
    subst hr
    simp only [writeLines, List.cons_append, List.nil_append]
    rw [if_neg (not_not.2 hhead)]
    rw [readString_skip (by decide), readString_skip (by decide), readString_skip (by decide),
      readString_skip (by decide), readString_raw (by decide) hfile]
    simp only [Except.bind, bind, pure, Except.pure]
    rw [readString_raw (by decide) hsrc]
    simp only
    rw [readLong_skip (by decide), readLong_skip (by decide), readLong_skip (by decide),
      readLong_skip (by decide), readLong_lab (by decide) hnx]
    simp only
    rw [readLong_lab (by decide) hny]
    simp only
    rw [readString_up (by decide) hdt]
    simp only
    rw [readString_up (by decide) hbo]
    simp only
    rw [readByte_skip (by decide), readByte_skip (by decide), readByte_skip (by decide),
      readByte_skip (by decide), readByte_lab (by decide) hpg]
    simp only
    rw [readFloat_lab (by decide)]
    simp only
    rw [readFloat_lab (by decide)]
    simp only
    rw [readFloat_lab (by decide)]
    simp only
    rw [readString_up (by decide) hz]
    simp only
    rw [readFloat_skip (by decide), readFloat_skip (by decide), readFloat_skip (by decide),
      readFloat_skip (by decide), readFloat_lab (by decide)]
    simp only
    rw [readFloat_lab (by decide)]
    simp only
    rw [readFloat_lab (by decide)]
    simp only
    rw [readFloat_lab (by decide)]
    simp only
    rw [readString_up (by decide) hb]
    simp only
    rw [readFloat_skip (by decide), readFloat_skip (by decide), readFloat_skip (by decide),
      readFloat_skip (by decide), readFloat_lab (by decide)]
    simp only
    rw [readFloat_lab (by decide)]
    simp only
    rw [readString_skip (by decide), readString_skip (by decide), readString_skip (by decide),
      readString_skip (by decide), readString_up (by decide) hu]
    simp only
    rw [hupd, hupb, hdtK]
  refine ⟨_, key, ?_⟩
  subst hr
  exact ⟨rfl, rfl, rfl, rfl, rfl, rfl, rfl, rfl, rfl, close_printed _, close_printed _,
    close_printed _, close_printed _, close_printed _, close_printed _, close_printed _,
    close_printed _, close_printed _⟩

/-- **C38 (missing values, violated).**  A record whose minimum is NaN (what the
minimum of a grid with NaN nodata values is) is written as `nan`, which cannot be
read back: reading the file fails for every such record. -/
theorem C38_nan_violated (r : Rec)
    (hfile : Line r.gridFile) (hsrc : Line r.dataSource)
    (hdt : Line r.dataType)
    (hbo : Line r.byteOrder)
    (hz : Line r.zUnits) (hb : Line r.boxUnits) (hu : Line r.utmZone)
    (hnx : r.ncols < 2 ^ 31) (hny : r.nrows < 2 ^ 31) (hpg : r.pixelGeom < 2 ^ 8)
    (h1 : Finite r.xres) (h2 : Finite r.yres) (h3 : Finite r.zres)
    (h4 : Finite r.ySouth) (h5 : Finite r.yNorth) (h6 : Finite r.xEast) (h7 : Finite r.xWest)
    (h8 : r.gmin = .nan) (h9 : Finite r.gmax) :
    ∃ e, readInfo (writeInfo r) = .error e := by
  obtain ⟨gridFile, dataSource, ncols, nrows, dataType, byteOrder, pixelGeom, xres, yres, zres,
    zUnits, ySouth, yNorth, xEast, xWest, boxUnits, gmin, gmax, utmZone⟩ := r
  simp only at *
  obtain ⟨q1, rfl⟩ := h1
  obtain ⟨q2, rfl⟩ := h2
  obtain ⟨q3, rfl⟩ := h3
  obtain ⟨q4, rfl⟩ := h4
  obtain ⟨q5, rfl⟩ := h5
  obtain ⟨q6, rfl⟩ := h6
  obtain ⟨q7, rfl⟩ := h7
  subst h8
  obtain ⟨q9, rfl⟩ := h9
  generalize hr : (Rec.mk gridFile dataSource ncols nrows dataType byteOrder pixelGeom (.fin q1)
    (.fin q2) (.fin q3) zUnits (.fin q4) (.fin q5) (.fin q6) (.fin q7) boxUnits .nan (.fin q9)
    utmZone) = r
  have hlines : ∀ l ∈ writeLines r, OneLine l := by
    subst hr
    unfold writeLines
    intro l hl
    rw [List.mem_append] at hl
    rcases hl with hl | hl
    · simp only [List.mem_cons, List.not_mem_nil, or_false] at hl
      rcases hl with rfl | rfl | rfl | rfl | rfl | rfl | rfl | rfl | rfl | rfl | rfl | rfl | rfl | rfl |
        rfl | rfl | rfl | rfl | rfl | rfl | rfl | rfl | rfl | rfl | rfl | rfl | rfl | rfl | rfl | rfl |
        rfl | rfl | rfl | rfl | rfl | rfl | rfl | rfl | rfl | rfl | rfl | rfl | rfl | rfl
      all_goals first
        | exact oneLine_labelled (by decide) (digits_noNl _)
        | exact oneLine_labelled (by decide) (fmt_noNl _)
        | exact oneLine_labelled (v := fmt .nan) (by decide) (by unfold OneLine; decide)
        | exact oneLine_labelled (by decide) ⟨hfile.1, hfile.2.1⟩
        | exact oneLine_labelled (by decide) ⟨hsrc.1, hsrc.2.1⟩
        | exact oneLine_labelled (by decide) ⟨hdt.1, hdt.2.1⟩
        | exact oneLine_labelled (by decide) ⟨hbo.1, hbo.2.1⟩
        | exact oneLine_labelled (by decide) ⟨hz.1, hz.2.1⟩
        | exact oneLine_labelled (by decide) ⟨hb.1, hb.2.1⟩
        | exact oneLine_labelled (by decide) ⟨hu.1, hu.2.1⟩
        | (unfold OneLine; decide)
    · exact trailer_oneLine l hl
  have hsplit : splitLines [] (universalNewlines (writeInfo r)) = writeLines r := by
    have hcr : '\r' ∉ writeInfo r := by
      unfold writeInfo
      rw [List.mem_flatMap]
      rintro ⟨l, hl, hm⟩
      rcases List.mem_append.1 hm with h | h
      · exact (hlines l hl).2 h
      · simp at h
    rw [universalNewlines_id _ hcr]
    exact splitLines_flatMap _ (fun l hl => (hlines l hl).1)
  have hhead : strip (upper "RiverTools Info File".toList) = "RIVERTOOLS INFO FILE".toList := by
    decide +kernel
  unfold readInfo
  rw [hsplit]
  subst hr
  simp only [writeLines, List.cons_append, List.nil_append]
  rw [if_neg (not_not.2 hhead)]
  rw [readString_skip (by decide), readString_skip (by decide), readString_skip (by decide),
    readString_skip (by decide), readString_raw (by decide) hfile]
  simp only [Except.bind, bind, pure, Except.pure]
  rw [readString_raw (by decide) hsrc]
  simp only
  rw [readLong_skip (by decide), readLong_skip (by decide), readLong_skip (by decide),
    readLong_skip (by decide), readLong_lab (by decide) hnx]
  simp only
  rw [readLong_lab (by decide) hny]
  simp only
  rw [readString_up (by decide) hdt]
  simp only
  rw [readString_up (by decide) hbo]
  simp only
  rw [readByte_skip (by decide), readByte_skip (by decide), readByte_skip (by decide),
    readByte_skip (by decide), readByte_lab (by decide) hpg]
  simp only
  rw [readFloat_lab (by decide)]
  simp only
  rw [readFloat_lab (by decide)]
  simp only
  rw [readFloat_lab (by decide)]
  simp only
  rw [readString_up (by decide) hz]
  simp only
  rw [readFloat_skip (by decide), readFloat_skip (by decide), readFloat_skip (by decide),
    readFloat_skip (by decide), readFloat_lab (by decide)]
  simp only
  rw [readFloat_lab (by decide)]
  simp only
  rw [readFloat_lab (by decide)]
  simp only
  rw [readFloat_lab (by decide)]
  simp only
  rw [readString_up (by decide) hb]
  simp only
  rw [readFloat_skip (by decide), readFloat_skip (by decide), readFloat_skip (by decide),
    readFloat_skip (by decide)]
  have hnan : ∀ ls, readFloat (labelled "Minimum value" "  " (fmt .nan) :: ls)
      = .error "NameError or SyntaxError" := by
    intro ls
    unfold readFloat
    rw [nextField_labelled (by decide)]
    rfl
  rw [hnan]
  exact ⟨_, rfl⟩

/-- A typical record. -/
def demoRec : Rec :=
  { gridFile := "Treynor_DEM.rtg".toList, dataSource := "TopoFlow 3.0".toList
    ncols := 44, nrows := 29, dataType := "FLOAT".toList, byteOrder := "LSB".toList
    pixelGeom := 1, xres := .fin 30, yres := .fin 30, zres := .fin (1/3)
    zUnits := "meters".toList, ySouth := .fin (-4560090.42/10), yNorth := .fin 4560960.42
    xEast := .fin 278655.45, xWest := .fin 277335.45, boxUnits := "METERS".toList
    gmin := .fin (-9999), gmax := .fin (-9999), utmZone := "UNKNOWN".toList }

instance (s : Text) : Decidable (Upper s) := by unfold Upper; infer_instance

/-- The hypotheses of `C38_round_trip_partial` are met by the typical record. -/
example : ∃ r', readInfo (writeInfo demoRec) = .ok r' ∧ SameGrid demoRec r' :=
  C38_round_trip_partial demoRec
    ⟨by decide, by decide, by decide, by decide⟩ ⟨by decide, by decide, by decide, by decide⟩
    ⟨by decide, by decide, by decide, by decide⟩ (by decide) ⟨4, by decide⟩
    ⟨by decide, by decide, by decide, by decide⟩ (by decide)
    ⟨by decide, by decide, by decide, by decide⟩ ⟨by decide, by decide, by decide, by decide⟩
    ⟨by decide, by decide, by decide, by decide⟩ (by decide) (by decide) (by decide)
    ⟨_, rfl⟩ ⟨_, rfl⟩ ⟨_, rfl⟩ ⟨_, rfl⟩ ⟨_, rfl⟩ ⟨_, rfl⟩ ⟨_, rfl⟩ ⟨_, rfl⟩ ⟨_, rfl⟩

/-- **C38 (text fields, violated).**  A data source with a line break shifts the
fields after it: the number of columns is read from the text of the data source. -/
theorem C38_newline_violated :
    ∃ r, r.ncols = 44 ∧ (readInfo (writeInfo r)).toOption.map Rec.ncols = some 7 := by
  refine ⟨{ demoRec with
    dataSource := "survey\ncols: 7\nrows: 5\ntype: FLOAT\norder: MSB\ngeom: 0\nx: 1.0\ny: 1.0\nz: 1.0\nunits: M\ns: 0.0\nn: 5.0\ne: 7.0\nw: 0.0\nbox: M\nmin: 0.0\nmax: 9.0\nzone: 1".toList }, rfl, ?_⟩
  decide +kernel

end Rti
