import Verif.FlowCodeModel
import Mathlib.Tactic.IntervalCases

/-!
# C248: flow grids are converted from ARC to RiverTools codes
-/

set_option autoImplicit false

/-! ## Specification -/
namespace FlowCodeSpec

/-- The eight neighbours. -/
inductive Dir where
  | NE | E | SE | S | SW | W | NW | N
  deriving DecidableEq

/-- The flow codes of ARC/INFO. -/
def arc : Dir → ℤ
  | .E => 1
  | .SE => 2
  | .S => 4
  | .SW => 8
  | .W => 16
  | .NW => 32
  | .N => 64
  | .NE => 128

/-- The flow codes of RiverTools and TopoFlow. -/
def rt : Dir → ℤ
  | .NE => 1
  | .E => 2
  | .SE => 4
  | .S => 8
  | .SW => 16
  | .W => 32
  | .NW => 64
  | .N => 128

/-- `d` is what `c` becomes: the same direction, or 0 if `c` is no direction. -/
def Becomes (c d : ℤ) : Prop :=
  (∃ a, c = arc a ∧ d = rt a) ∨ ((∀ a, c ≠ arc a) ∧ d = 0)

/-- Bytes of an item in the file. -/
def bytes : FlowCode.Ty → ℕ
  | .byte => 1
  | .integer => 2
  | .long => 4

/-- What a table of codes makes of the code `c`: the last entry for it, stored as a byte; 0 if there is none.  The
255 places of the table are counted modulo 255. -/
def translate (icodes ocodes : List ℤ) (c : ℤ) : ℤ :=
  match (icodes.zip ocodes).reverse.find? (fun p => p.1 % 255 = c % 255) with
  | some p => p.2 % 256
  | none => 0

end FlowCodeSpec

namespace FlowCode

open FlowCodeSpec

/-- The table for the default codes. -/
def table (j : ℕ) : ℤ :=
  if j = 64 then 128 else if j = 32 then 64 else if j = 16 then 32 else if j = 8 then 16
  else if j = 4 then 8 else if j = 2 then 4 else if j = 1 then 2 else if j = 128 then 1 else 0

lemma setCodes_default : setCodes arcCodes rtCodes (fun _ => 0) = .ok table := by
  have h : ∀ c : ℤ, 0 ≤ c → c < 255 → index 255 c = .ok c.toNat := by
    intro c h0 h1
    unfold index
    rw [if_pos ⟨h0, by exact_mod_cast h1⟩]
  simp only [arcCodes, rtCodes, setCodes, h 128 (by decide) (by decide), h 1 (by decide) (by decide),
    h 2 (by decide) (by decide), h 4 (by decide) (by decide), h 8 (by decide) (by decide),
    h 16 (by decide) (by decide), h 32 (by decide) (by decide), h 64 (by decide) (by decide)]
  rfl

lemma table_becomes (c : ℤ) (h0 : 0 ≤ c) : Becomes c (table c.toNat) := by
  obtain ⟨n, rfl⟩ := Int.eq_ofNat_of_zero_le h0
  simp only [Int.toNat_natCast]
  unfold table
  by_cases h1 : n = 64
  · subst h1; exact .inl ⟨.N, rfl, rfl⟩
  rw [if_neg h1]
  by_cases h2 : n = 32
  · subst h2; exact .inl ⟨.NW, rfl, rfl⟩
  rw [if_neg h2]
  by_cases h3 : n = 16
  · subst h3; exact .inl ⟨.W, rfl, rfl⟩
  rw [if_neg h3]
  by_cases h4 : n = 8
  · subst h4; exact .inl ⟨.SW, rfl, rfl⟩
  rw [if_neg h4]
  by_cases h5 : n = 4
  · subst h5; exact .inl ⟨.S, rfl, rfl⟩
  rw [if_neg h5]
  by_cases h6 : n = 2
  · subst h6; exact .inl ⟨.SE, rfl, rfl⟩
  rw [if_neg h6]
  by_cases h7 : n = 1
  · subst h7; exact .inl ⟨.E, rfl, rfl⟩
  rw [if_neg h7]
  by_cases h8 : n = 128
  · subst h8; exact .inl ⟨.NE, rfl, rfl⟩
  rw [if_neg h8]
  refine .inr ⟨?_, rfl⟩
  intro a
  cases a <;> simp only [arc] <;> omega

/-- Codes that the table has. -/
def Small (c : ℤ) : Prop := 0 ≤ c ∧ c < 255

lemma mapBlock_small (m : ℕ → ℤ) (l : List ℤ) (h : ∀ c ∈ l, Small c) :
    mapBlock m l = .ok (l.map (fun c => m c.toNat)) := by
  induction l with
  | nil => rfl
  | cons c cs ih =>
    have hc := h c (by simp)
    have e : index 255 c = .ok c.toNat := by
      unfold index
      rw [if_pos ⟨hc.1, by exact_mod_cast hc.2⟩]
    simp only [mapBlock, e, ih (fun d hd => h d (by simp [hd])), List.map_cons]

lemma blocks_small (m : ℕ → ℤ) (n : ℕ) (items out : List ℤ) (h : ∀ c ∈ items, Small c)
    (hn : items.length ≤ 1024 * n) :
    blocks m n items out = ([], out ++ items.map (fun c => m c.toNat), none) := by
  induction n generalizing items out with
  | zero =>
    have : items = [] := List.eq_nil_of_length_eq_zero (by omega)
    subst this
    simp [blocks]
  | succ n ih =>
    have e := mapBlock_small m (items.take 1024) (fun c hc => h c (List.mem_of_mem_take hc))
    simp only [blocks, e]
    rw [ih (items.drop 1024) _ (fun c hc => h c (List.mem_of_mem_drop hc))
      (by rw [List.length_drop]; omega)]
    rw [List.append_assoc, ← List.map_append, List.take_append_drop]

lemma runs_enough (ty : Ty) (n : ℕ) : n ≤ 1024 * runs (ty.size * n) := by
  unfold runs
  have : 1 ≤ ty.size := by cases ty <;> decide
  have : n ≤ ty.size * n := Nat.le_mul_of_pos_left n this
  omega

/-- **C248**: every cell gets the code of the same direction, and 0 if it has none, for grids of every
length and type with codes from 0 to 254.  Partial: unless the size of the file is a multiple of 1024
bytes, the function then raises an exception, with the whole grid written. -/
theorem C248_codes_partial (ty : Ty) (items : List ℤ) (h : ∀ c ∈ items, 0 ≤ c ∧ c < 255) :
    List.Forall₂ Becomes items (convert ty arcCodes rtCodes items).1 ∧
    ((convert ty arcCodes rtCodes items).2 = none ↔ bytes ty * items.length % 1024 = 0) := by
  have hb : bytes ty = ty.size := by cases ty <;> rfl
  rw [hb]
  have e := blocks_small table (runs (ty.size * items.length)) items [] h (runs_enough ty _)
  have hf : List.Forall₂ Becomes items (items.map (fun c => table c.toNat)) := by
    clear e
    induction items with
    | nil => exact .nil
    | cons c cs ih =>
      exact .cons (table_becomes c (h c (by simp)).1) (ih (fun d hd => h d (by simp [hd])))
  unfold convert
  rw [setCodes_default]
  simp only [e, List.nil_append]
  by_cases hr : ty.size * items.length % 1024 = 0
  · rw [if_neg (by simpa using hr)]
    exact ⟨hf, by simp [hr]⟩
  · rw [if_pos hr]
    exact ⟨hf, by simp [hr]⟩

/-- The hypotheses can be met, with a flow to each side, a cell without flow and a code that is none. -/
example : (convert .byte arcCodes rtCodes [1, 2, 4, 8, 16, 32, 64, 128, 0, 3]).1
    = [2, 4, 8, 16, 32, 64, 128, 1, 0, 0] := by decide +kernel

/-! ### Any codes -/

lemma index_mod (c : ℤ) (h0 : -255 ≤ c) (h1 : c < 255) : index 255 c = .ok (c % 255).toNat := by
  unfold index
  by_cases h : 0 ≤ c
  · rw [if_pos ⟨h, by exact_mod_cast h1⟩, Int.emod_eq_of_lt h h1]
  · rw [if_neg (fun hc => h hc.1), if_pos ⟨by omega, by exact_mod_cast h0⟩]
    congr 2
    push_cast
    omega

lemma mapBlock_any (m : ℕ → ℤ) (l : List ℤ) (h : ∀ c ∈ l, -255 ≤ c ∧ c < 255) :
    mapBlock m l = .ok (l.map (fun c => m (c % 255).toNat)) := by
  induction l with
  | nil => rfl
  | cons c cs ih =>
    have hc := h c (by simp)
    simp only [mapBlock, index_mod c hc.1 hc.2, ih (fun d hd => h d (by simp [hd])), List.map_cons]

lemma blocks_any (m : ℕ → ℤ) (n : ℕ) (items out : List ℤ) (h : ∀ c ∈ items, -255 ≤ c ∧ c < 255)
    (hn : items.length ≤ 1024 * n) :
    blocks m n items out = ([], out ++ items.map (fun c => m (c % 255).toNat), none) := by
  induction n generalizing items out with
  | zero =>
    have : items = [] := List.eq_nil_of_length_eq_zero (by omega)
    subst this
    simp [blocks]
  | succ n ih =>
    have e := mapBlock_any m (items.take 1024) (fun c hc => h c (List.mem_of_mem_take hc))
    simp only [blocks, e]
    rw [ih (items.drop 1024) _ (fun c hc => h c (List.mem_of_mem_drop hc))
      (by rw [List.length_drop]; omega)]
    rw [List.append_assoc, ← List.map_append, List.take_append_drop]

lemma setCodes_any (is os : List ℤ) (hl : is.length = os.length) (h : ∀ c ∈ is, -255 ≤ c ∧ c < 255) :
    ∀ m : ℕ → ℤ, ∃ m', setCodes is os m = .ok m' ∧ ∀ c : ℤ, m' (c % 255).toNat =
      match (is.zip os).reverse.find? (fun p => p.1 % 255 = c % 255) with
      | some p => p.2 % 256
      | none => m (c % 255).toNat := by
  induction is generalizing os with
  | nil =>
    intro m
    rcases os with _ | ⟨o, os⟩
    · exact ⟨m, rfl, fun c => rfl⟩
    · cases hl
  | cons i is ih =>
    intro m
    rcases os with _ | ⟨o, os⟩
    · cases hl
    have hi := h i (by simp)
    obtain ⟨m', e1, e2⟩ := ih os (by simpa using hl) (fun c hc => h c (by simp [hc]))
      (fun j => if j = (i % 255).toNat then o % 256 else m j)
    refine ⟨m', ?_, fun c => ?_⟩
    · simp only [setCodes, index_mod i hi.1 hi.2]
      exact e1
    · rw [e2 c, List.zip_cons_cons, List.reverse_cons, List.find?_append]
      generalize (is.zip os).reverse.find? (fun p => p.1 % 255 = c % 255) = r
      rcases r with _ | p
      · simp only [Option.none_or]
        by_cases hc : i % 255 = c % 255
        · rw [if_pos (by rw [hc]), List.find?_cons_of_pos (by simpa using hc)]
        · rw [if_neg (by omega), List.find?_cons_of_neg (by simpa using hc)]
          rfl
      · rfl

/-- **C248** for any tables of codes of equal length and any grid with codes from -255 to 254: every cell gets what the
table says, negative codes being counted from the end.  Partial: as above, and the property asks for this only
with the codes themselves, not with their places in the table. -/
theorem C248_any_codes_partial (ty : Ty) (icodes ocodes items : List ℤ) (hl : icodes.length = ocodes.length)
    (hi : ∀ c ∈ icodes, -255 ≤ c ∧ c < 255) (h : ∀ c ∈ items, -255 ≤ c ∧ c < 255) :
    (convert ty icodes ocodes items).1 = items.map (translate icodes ocodes) ∧
    ((convert ty icodes ocodes items).2 = none ↔ bytes ty * items.length % 1024 = 0) := by
  have hb : bytes ty = ty.size := by cases ty <;> rfl
  rw [hb]
  obtain ⟨m, e1, e2⟩ := setCodes_any icodes ocodes hl hi (fun _ => 0)
  have e := blocks_any m (runs (ty.size * items.length)) items [] h (runs_enough ty _)
  have hm : items.map (fun c => m (c % 255).toNat) = items.map (translate icodes ocodes) := by
    apply List.map_congr_left
    intro c _
    rw [e2 c]
    rfl
  unfold convert
  rw [e1]
  simp only [e, List.nil_append]
  by_cases hr : ty.size * items.length % 1024 = 0
  · rw [if_neg (by simpa using hr)]
    exact ⟨hm, by simp [hr]⟩
  · rw [if_pos hr]
    exact ⟨hm, by simp [hr]⟩

example : (convert .integer [10, 20] [-1, 300] [20, 10, -245, -255, 7]).1 = [44, 255, 255, 0, 0] := by
  decide +kernel

/-- **C248 is violated** by every grid whose size in bytes is no multiple of 1024: an exception is
raised, whatever the grid and the codes. -/
theorem C248_remainder_violated (ty : Ty) (icodes ocodes items : List ℤ)
    (h : bytes ty * items.length % 1024 ≠ 0) : ∃ e, (convert ty icodes ocodes items).2 = some e := by
  have hb : bytes ty = ty.size := by cases ty <;> rfl
  rw [hb] at h
  unfold convert
  cases setCodes icodes ocodes (fun _ => 0) with
  | error e => exact ⟨e, rfl⟩
  | ok m =>
    dsimp only
    rcases hb : blocks m (runs (ty.size * items.length)) items [] with ⟨r, out, o⟩
    cases o with
    | some e => exact ⟨e, rfl⟩
    | none => exact ⟨"NameError", by dsimp only; rw [if_pos h]⟩

example : (convert .byte arcCodes rtCodes [1, 2, 4]).2 = some "NameError" := by decide +kernel

/-- **C248 is violated** by other codes: 255 (a usual mark for cells without data) stops the conversion
with nothing written, and -127 becomes the direction NE. -/
theorem C248_other_codes_violated :
    convert .byte arcCodes rtCodes [1, 255] = ([], some "IndexError") ∧
    (convert .integer arcCodes rtCodes [1, -127]).1 = [2, 1] ∧ ¬ Becomes (-127) 1 := by
  refine ⟨by decide +kernel, by decide +kernel, ?_⟩
  rintro (⟨a, h, -⟩ | ⟨-, h⟩)
  · cases a <;> simp [arc] at h
  · cases h

end FlowCode
