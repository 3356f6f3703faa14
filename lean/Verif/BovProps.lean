import Verif.BovModel
import Verif.CfgProps
import Mathlib.Tactic.FieldSimp
import Mathlib.Tactic.IntervalCases

/-!
# Headers for visualization beside grid files: C289
-/

set_option autoImplicit false

namespace Bov

open Cfg

/-! ## Specification -/

namespace Spec

/-- A text of complete lines. -/
def Lines (text : Str) (ls : List Str) : Prop :=
  text = (ls.map (· ++ ['\n'])).flatten ∧ ∀ l ∈ ls, '\n' ∉ l

/-- The text has exactly one line that begins with the key and a colon, and after
blanks this line gives the value. -/
def Says (text key v : Str) : Prop :=
  ∃ before after l, ∃ n : ℕ, Lines text (before ++ l :: after) ∧
    l = key ++ ':' :: (List.replicate n ' ' ++ v) ∧ v.head? ≠ some ' ' ∧
    ∀ l' ∈ before ++ after, ¬ (key ++ [':']) <+: l'

/-- A name or value that can stand at the end of a line. -/
def Plain (v : Str) : Prop := '\n' ∉ v ∧ v.head? ≠ some ' '

/-- The bytes of a value in a file of byte order `o`, against those in the memory of
a machine of byte order `m`. -/
def BytesIn (o m : Order) (inMemory inFile : List ℕ) : Prop :=
  (o = m ∧ inFile = inMemory) ∨ (o ≠ m ∧ inFile = inMemory.reverse)

/-- The name of a byte order in a header. -/
def OrderName (o : Order) (v : Str) : Prop :=
  (o = .little ∧ v = "LITTLE".toList) ∨ (o = .big ∧ v = "BIG".toList)

/-- Three numbers with one blank between them. -/
def three (a b c : Str) : Str := a ++ [' '] ++ b ++ [' '] ++ c

/-- The decimal digits of a count. -/
def decimal (n : ℕ) : Str := Nat.toDigits 10 n

end Spec

open Spec

theorem digit_plain (n : ℕ) : ∀ c ∈ Nat.toDigits 10 n, c ≠ '\n' ∧ c ≠ ' ' := by
  intro c hc
  have h := Nat.isDigit_of_mem_toDigits (by norm_num) (by norm_num) hc
  constructor <;> (rintro rfl; revert h; decide)

theorem plain_three {a b c : Str} (ha : Plain a) (hn : a ≠ []) (hb : '\n' ∉ b) (hc : '\n' ∉ c) :
    Plain (three a b c) := by
  obtain ⟨h1, h2⟩ := ha
  refine ⟨by simp [three, h1, hb, hc], ?_⟩
  obtain ⟨x, xs, rfl⟩ := List.exists_cons_of_ne_nil hn
  simpa [three] using h2

/-- The lines of the header, without their ends. -/
def entries (name dims ty var ord origin : Str) : List Str :=
  ["TIME:          ".toList ++ "0.0".toList, "DATA_FILE:     ".toList ++ name,
   "DATA_SIZE:     ".toList ++ dims, "DATA_FORMAT:   ".toList ++ ty, "VARIABLE:      ".toList ++ var,
   "DATA_ENDIAN:   ".toList ++ ord, "CENTERING:     ".toList ++ "zonal".toList,
   "BRICK_ORIGIN:  ".toList ++ origin, "BRICK_SIZE:    ".toList ++ dims]

theorem header_lines (m : Order) (name : Str) (info : Info) (var : Str)
    (h1 : Plain name) (h2 : Plain var) (h3 : Plain info.dataType) (h4 : '\n' ∉ info.westEdge)
    (h5 : '\n' ∉ info.southEdge) :
    Lines (writeInfo m name info var).2
      (entries name (three (decimal info.ncols) (decimal info.nrows) ['1']) info.dataType var m.upper
        (three info.westEdge info.southEdge "0.0".toList)) := by
  have hd : '\n' ∉ three (decimal info.ncols) (decimal info.nrows) ['1'] := by
    intro h
    simp only [three, List.mem_append, List.mem_singleton] at h
    rcases h with (((h | h) | h) | h) | h
    · exact (digit_plain _ _ h).1 rfl
    · revert h; decide
    · exact (digit_plain _ _ h).1 rfl
    · revert h; decide
    · revert h; decide
  have ho : '\n' ∉ three info.westEdge info.southEdge "0.0".toList := by
    intro h
    simp only [three, List.mem_append, List.mem_singleton] at h
    rcases h with (((h | h) | h) | h) | h
    · exact h4 h
    · revert h; decide
    · exact h5 h
    · revert h; decide
    · revert h; decide
  have hu : '\n' ∉ m.upper := by cases m <;> decide
  constructor
  · have e1 : Nat.toDigits 10 1 = ['1'] := by decide
    have e2 : " 0.0".toList = ' ' :: "0.0".toList := by decide
    simp only [writeInfo, writeBov, line, entries, strNat, e1, e2, three, decimal, List.map_cons, List.map_nil,
      List.flatten_cons, List.flatten_nil, List.append_assoc, List.cons_append, List.nil_append, List.append_nil]
  · intro l hl
    simp only [entries] at hl
    have key : ∀ (a b : Str), '\n' ∉ a → '\n' ∉ b → '\n' ∉ a ++ b := by
      intro a b ha hb h
      rcases List.mem_append.1 h with h | h
      · exact ha h
      · exact hb h
    rcases List.mem_cons.1 hl with rfl | hl
    · decide
    rcases List.mem_cons.1 hl with rfl | hl
    · exact key _ _ (by decide) h1.1
    rcases List.mem_cons.1 hl with rfl | hl
    · exact key _ _ (by decide) hd
    rcases List.mem_cons.1 hl with rfl | hl
    · exact key _ _ (by decide) h3.1
    rcases List.mem_cons.1 hl with rfl | hl
    · exact key _ _ (by decide) h2.1
    rcases List.mem_cons.1 hl with rfl | hl
    · exact key _ _ (by decide) hu
    rcases List.mem_cons.1 hl with rfl | hl
    · decide
    rcases List.mem_cons.1 hl with rfl | hl
    · exact key _ _ (by decide) ho
    rcases List.mem_cons.1 hl with rfl | hl
    · exact key _ _ (by decide) hd
    · simp at hl

/-- A label that is no longer than the text before the value decides whether a line begins with it. -/
theorem not_prefix (k a b : Str) (hlen : k.length ≤ a.length) (h : ¬ k <+: a) : ¬ k <+: a ++ b := by
  intro hk
  exact h (List.prefix_of_prefix_length_le hk (List.prefix_append a b) hlen)

/-- What is said by one of the lines of the header. -/
theorem says_of (text : Str) (before after : List Str) (key label v : Str) (n : ℕ)
    (hl : Lines text (before ++ (label ++ v) :: after)) (he : label = key ++ ':' :: List.replicate n ' ')
    (hv : v.head? ≠ some ' ')
    (ho : ∀ l ∈ before ++ after, ∃ a b, l = a ++ b ∧ (key ++ [':']).length ≤ a.length ∧
      ¬ (key ++ [':']) <+: a) : Says text key v := by
  refine ⟨before, after, label ++ v, n, hl, by rw [he]; simp, hv, ?_⟩
  intro l h
  obtain ⟨a, b, rfl, h1, h2⟩ := ho l h
  exact not_prefix _ _ _ h1 h2

/-- **C289 (part).**  The header has one line for each key; the name of the grid file, its
numbers of columns and rows, data type, variable and corner are those of the grid.
Missing: byte order and extent, for which the claim is false (below). -/
theorem C289_header_partial (m : Order) (name : Str) (info : Info) (var : Str)
    (h1 : Plain name) (h2 : Plain var) (h3 : Plain info.dataType) (h4 : Plain info.westEdge)
    (hw : info.westEdge ≠ []) (h5 : '\n' ∉ info.southEdge) :
    let text := (writeInfo m name info var).2
    Says text "DATA_FILE".toList name ∧
    Says text "DATA_SIZE".toList (three (decimal info.ncols) (decimal info.nrows) ['1']) ∧
    Says text "DATA_FORMAT".toList info.dataType ∧
    Says text "VARIABLE".toList var ∧
    Says text "BRICK_ORIGIN".toList (three info.westEdge info.southEdge "0.0".toList) ∧
    Says text "TIME".toList "0.0".toList ∧
    Says text "CENTERING".toList "zonal".toList := by
  intro text
  have hl := header_lines m name info var h1 h2 h3 h4.1 h5
  have hd : (three (decimal info.ncols) (decimal info.nrows) ['1']).head? ≠ some ' ' := by
    obtain ⟨x, xs, e⟩ := List.exists_cons_of_ne_nil (Nat.toDigits_ne_nil (n := info.ncols) (b := 10))
    have := (digit_plain info.ncols x (by rw [e]; simp)).2
    simpa [three, decimal, e] using this
  have hor : (three info.westEdge info.southEdge "0.0".toList).head? ≠ some ' ' := by
    obtain ⟨x, xs, e⟩ := List.exists_cons_of_ne_nil hw
    have := h4.2
    rw [e] at this
    simpa [three, e] using this
  simp only [entries] at hl
  refine ⟨?_, ?_, ?_, ?_, ?_, ?_, ?_⟩
  · refine says_of _ [_] _ _ "DATA_FILE:     ".toList _ 5 hl (by decide) h1.2 ?_
    simp only [List.cons_append, List.nil_append, List.forall_mem_cons]
    refine ⟨⟨_, _, rfl, ?_⟩, ⟨_, _, rfl, ?_⟩, ⟨_, _, rfl, ?_⟩, ⟨_, _, rfl, ?_⟩, ⟨_, _, rfl, ?_⟩, ⟨_, _, rfl, ?_⟩,
      ⟨_, _, rfl, ?_⟩, ⟨_, _, rfl, ?_⟩, by simp⟩ <;> decide
  · refine says_of _ [_, _] _ _ "DATA_SIZE:     ".toList _ 5 hl (by decide) hd ?_
    simp only [List.cons_append, List.nil_append, List.forall_mem_cons]
    refine ⟨⟨_, _, rfl, ?_⟩, ⟨_, _, rfl, ?_⟩, ⟨_, _, rfl, ?_⟩, ⟨_, _, rfl, ?_⟩, ⟨_, _, rfl, ?_⟩, ⟨_, _, rfl, ?_⟩,
      ⟨_, _, rfl, ?_⟩, ⟨_, _, rfl, ?_⟩, by simp⟩ <;> decide
  · refine says_of _ [_, _, _] _ _ "DATA_FORMAT:   ".toList _ 3 hl (by decide) h3.2 ?_
    simp only [List.cons_append, List.nil_append, List.forall_mem_cons]
    refine ⟨⟨_, _, rfl, ?_⟩, ⟨_, _, rfl, ?_⟩, ⟨_, _, rfl, ?_⟩, ⟨_, _, rfl, ?_⟩, ⟨_, _, rfl, ?_⟩, ⟨_, _, rfl, ?_⟩,
      ⟨_, _, rfl, ?_⟩, ⟨_, _, rfl, ?_⟩, by simp⟩ <;> decide
  · refine says_of _ [_, _, _, _] _ _ "VARIABLE:      ".toList _ 6 hl (by decide) h2.2 ?_
    simp only [List.cons_append, List.nil_append, List.forall_mem_cons]
    refine ⟨⟨_, _, rfl, ?_⟩, ⟨_, _, rfl, ?_⟩, ⟨_, _, rfl, ?_⟩, ⟨_, _, rfl, ?_⟩, ⟨_, _, rfl, ?_⟩, ⟨_, _, rfl, ?_⟩,
      ⟨_, _, rfl, ?_⟩, ⟨_, _, rfl, ?_⟩, by simp⟩ <;> decide
  · refine says_of _ [_, _, _, _, _, _, _] _ _ "BRICK_ORIGIN:  ".toList _ 2 hl (by decide) hor ?_
    simp only [List.cons_append, List.nil_append, List.forall_mem_cons]
    refine ⟨⟨_, _, rfl, ?_⟩, ⟨_, _, rfl, ?_⟩, ⟨_, _, rfl, ?_⟩, ⟨_, _, rfl, ?_⟩, ⟨_, _, rfl, ?_⟩, ⟨_, _, rfl, ?_⟩,
      ⟨_, _, rfl, ?_⟩, ⟨_, _, rfl, ?_⟩, by simp⟩ <;> decide
  · refine says_of _ [] _ _ "TIME:          ".toList _ 10 hl (by decide) (by decide) ?_
    simp only [List.nil_append, List.forall_mem_cons]
    refine ⟨⟨_, _, rfl, ?_⟩, ⟨_, _, rfl, ?_⟩, ⟨_, _, rfl, ?_⟩, ⟨_, _, rfl, ?_⟩, ⟨_, _, rfl, ?_⟩, ⟨_, _, rfl, ?_⟩,
      ⟨_, _, rfl, ?_⟩, ⟨_, _, rfl, ?_⟩, by simp⟩ <;> decide
  · refine says_of _ [_, _, _, _, _, _] _ _ "CENTERING:     ".toList _ 5 hl (by decide) (by decide) ?_
    simp only [List.cons_append, List.nil_append, List.forall_mem_cons]
    refine ⟨⟨_, _, rfl, ?_⟩, ⟨_, _, rfl, ?_⟩, ⟨_, _, rfl, ?_⟩, ⟨_, _, rfl, ?_⟩, ⟨_, _, rfl, ?_⟩, ⟨_, _, rfl, ?_⟩,
      ⟨_, _, rfl, ?_⟩, ⟨_, _, rfl, ?_⟩, by simp⟩ <;> decide

/-- A grid of 44 columns and 29 rows of big-endian values. -/
def sample : Info :=
  ⟨44, 29, "FLOAT".toList, .big, 30, 30, "-98.25".toList, "38.1".toList⟩

example : Plain "DEM.rtg".toList ∧ Plain "Z".toList ∧ Plain sample.dataType ∧ Plain sample.westEdge ∧
    sample.westEdge ≠ [] ∧ '\n' ∉ sample.southEdge := by
  refine ⟨⟨?_, ?_⟩, ⟨?_, ?_⟩, ⟨?_, ?_⟩, ⟨?_, ?_⟩, ?_, ?_⟩ <;> decide +kernel

/-- **C289 (part).**  The header of a grid file with an extension has the same name with the
extension `bov`. -/
theorem C289_name_partial (m : Order) (stem ext : Str) (info : Info) (var : Str) (h : '.' ∉ ext) :
    (writeInfo m (stem ++ ['.'] ++ ext) info var).1 = stem ++ ".bov".toList := by
  have e : stem ++ ['.'] ++ ext = stem ++ '.' :: ext := by simp
  simp only [writeInfo, filePrefix]
  rw [e, rfind_last '.' stem ext h, if_neg (by omega)]
  simp

example : (writeInfo .little "out/DEM.rtg".toList sample []).1 = "out/DEM.bov".toList := by decide +kernel

/-- **C289, negated.**  Without an extension the last character of the name is lost, so that grids
whose names differ there share one header. -/
theorem C289_name_violated (m : Order) (stem : Str) (a b : Char) (i j : Info) (v w : Str)
    (hs : '.' ∉ stem) (ha : a ≠ '.') (hb : b ≠ '.') :
    (writeInfo m (stem ++ [a]) i v).1 = stem ++ ".bov".toList ∧
    (writeInfo m (stem ++ [a]) i v).1 = (writeInfo m (stem ++ [b]) j w).1 := by
  have key : ∀ c : Char, c ≠ '.' → ∀ (k : Info) (u : Str),
      (writeInfo m (stem ++ [c]) k u).1 = stem ++ ".bov".toList := by
    intro c hc k u
    simp only [writeInfo, filePrefix]
    rw [rfind_no '.' _ (by simp [hs, hc.symm]), if_pos rfl]
    simp
  exact ⟨key a ha i v, by rw [key a ha i v, key b hb j w]⟩

example : (writeInfo .little "DEM1".toList sample []).1 = (writeInfo .little "DEM2".toList sample []).1 := by
  decide +kernel

/-- **C289, byte order.**  The values are written in the byte order of the grid information, but the
header names that of the machine; this is the byte order of the file exactly if the two agree. -/
theorem C289_order (m : Order) (name : Str) (info : Info) (var : Str)
    (h1 : Plain name) (h2 : Plain var) (h3 : Plain info.dataType) (h4 : '\n' ∉ info.westEdge)
    (h5 : '\n' ∉ info.southEdge) :
    (∀ mem, BytesIn info.byteOrder m mem (valueBytes m info mem)) ∧
    (∃ v, Says (writeInfo m name info var).2 "DATA_ENDIAN".toList v ∧ OrderName m v ∧
      (OrderName info.byteOrder v ↔ info.byteOrder = m)) := by
  constructor
  · intro mem
    unfold valueBytes swapNeeded BytesIn
    generalize info.byteOrder = o
    cases o <;> cases m <;> simp
  · refine ⟨m.upper, ?_, ?_, ?_⟩
    · have hl := header_lines m name info var h1 h2 h3 h4 h5
      simp only [entries] at hl
      refine says_of _ [_, _, _, _, _] _ _ "DATA_ENDIAN:   ".toList _ 3 hl (by decide)
        (by cases m <;> decide) ?_
      simp only [List.cons_append, List.nil_append, List.forall_mem_cons]
      refine ⟨⟨_, _, rfl, ?_⟩, ⟨_, _, rfl, ?_⟩, ⟨_, _, rfl, ?_⟩, ⟨_, _, rfl, ?_⟩, ⟨_, _, rfl, ?_⟩,
        ⟨_, _, rfl, ?_⟩, ⟨_, _, rfl, ?_⟩, ⟨_, _, rfl, ?_⟩, by simp⟩ <;> decide
    · cases m
      · exact Or.inl ⟨rfl, rfl⟩
      · exact Or.inr ⟨rfl, rfl⟩
    · generalize info.byteOrder = o
      cases o <;> cases m <;> simp [OrderName, Order.upper]

/-- **C289, negated.**  For the sample grid on a little-endian machine the header gives the wrong
byte order: a value with bytes 1 2 3 4 in memory is in the file as 4 3 2 1. -/
theorem C289_order_violated :
    valueBytes .little sample [1, 2, 3, 4] = [4, 3, 2, 1] ∧
    Says (writeInfo .little "DEM.rtg".toList sample "Z".toList).2 "DATA_ENDIAN".toList "LITTLE".toList := by
  refine ⟨by decide, ?_⟩
  obtain ⟨-, v, h, hv, -⟩ := C289_order .little "DEM.rtg".toList sample "Z".toList
    (by constructor <;> decide +kernel) (by constructor <;> decide +kernel)
    (by constructor <;> decide +kernel) (by decide +kernel) (by decide +kernel)
  rcases hv with ⟨-, rfl⟩ | ⟨h', -⟩
  · exact h
  · cases h'

/-- **C289, extent.**  The size of the brick is given by the numbers of columns and rows.  This is
the extent of the grid exactly if the cells are one unit wide and high. -/
theorem C289_extent (m : Order) (name : Str) (info : Info) (var : Str)
    (h1 : Plain name) (h2 : Plain var) (h3 : Plain info.dataType) (h4 : '\n' ∉ info.westEdge)
    (h5 : '\n' ∉ info.southEdge) (hx : 0 < info.ncols) (hy : 0 < info.nrows) :
    Says (writeInfo m name info var).2 "BRICK_SIZE".toList
      (three (decimal info.ncols) (decimal info.nrows) ['1']) ∧
    (((info.ncols : ℚ) = info.ncols * info.xres ∧ (info.nrows : ℚ) = info.nrows * info.yres) ↔
      info.xres = 1 ∧ info.yres = 1) := by
  constructor
  · have hl := header_lines m name info var h1 h2 h3 h4 h5
    simp only [entries] at hl
    have hd : (three (decimal info.ncols) (decimal info.nrows) ['1']).head? ≠ some ' ' := by
      obtain ⟨x, xs, e⟩ := List.exists_cons_of_ne_nil (Nat.toDigits_ne_nil (n := info.ncols) (b := 10))
      have := (digit_plain info.ncols x (by rw [e]; simp)).2
      simpa [three, decimal, e] using this
    refine says_of _ [_, _, _, _, _, _, _, _] _ _ "BRICK_SIZE:    ".toList _ 4 hl (by decide) hd ?_
    simp only [List.cons_append, List.nil_append, List.forall_mem_cons]
    refine ⟨⟨_, _, rfl, ?_⟩, ⟨_, _, rfl, ?_⟩, ⟨_, _, rfl, ?_⟩, ⟨_, _, rfl, ?_⟩, ⟨_, _, rfl, ?_⟩,
      ⟨_, _, rfl, ?_⟩, ⟨_, _, rfl, ?_⟩, ⟨_, _, rfl, ?_⟩, by simp⟩ <;> decide
  · have hx' : (info.ncols : ℚ) ≠ 0 := by exact_mod_cast hx.ne'
    have hy' : (info.nrows : ℚ) ≠ 0 := by exact_mod_cast hy.ne'
    rw [eq_comm, mul_eq_left₀ hx', eq_comm (a := (info.nrows : ℚ)), mul_eq_left₀ hy']

/-- **C289, negated.**  The header is the same for every size of the cells. -/
theorem C289_extent_violated (m : Order) (name : Str) (info : Info) (var : Str) (dx dy : ℚ) :
    writeInfo m name { info with xres := dx, yres := dy } var = writeInfo m name info var := rfl

example : 0 < sample.ncols ∧ 0 < sample.nrows ∧ sample.xres ≠ 1 := by
  refine ⟨?_, ?_, ?_⟩ <;> decide +kernel

end Bov
