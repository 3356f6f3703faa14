import Mathlib.Data.List.Forall2
import Mathlib.Data.List.Dedup
import Verif.CfgProps
import Verif.SiteIdModel

/-!
# Site numbers of two tables (C284)
-/

set_option autoImplicit false

open Cfg (Str Trimmed)

namespace SiteIdSpec

/-- The line consists of these fields with the separator between them. -/
def Fields (d : Char) (l : Str) (ws : List Str) : Prop :=
  ws ≠ [] ∧ l = List.intercalate [d] ws ∧ ∀ w ∈ ws, d ∉ w

/-- The row (without newline character) has this site number in this column, spaces around it not counted. -/
def HasId (d : Char) (col : ℕ) (l id : Str) : Prop := ∃ ws w, Fields d l ws ∧ ws[col]? = some w ∧ Trimmed w id

/-- The row has the column. -/
def HasCol (d : Char) (col : ℕ) (l : Str) : Prop := ∃ ws, Fields d l ws ∧ col < ws.length

/-- A number: one digit or more. -/
def Number (s : Str) : Prop := s ≠ [] ∧ ∀ c ∈ s, c.isDigit = true

/-- The lines of a text file in which every line is ended by a newline character. -/
def text (rows : List Str) : List Str := rows.map (· ++ ['\n'])

/-- The site number is one of those of the table. -/
def Listed (d : Char) (col : ℕ) (rows : List Str) (numeric : Bool) (id : Str) : Prop :=
  (∃ r ∈ rows, HasId d col r id) ∧ (numeric = true → Number id)

/-- The data sets with separator and column of the site number. -/
def tables : List (String × Char × ℕ) :=
  [("knoben", ';', 0), ("sb3", '\t', 0), ("gages2", '\t', 0), ("gages2_psi", '\t', 0), ("gages2_all", '\t', 0),
   ("harbor", '\t', 0), ("noaa_rfc", '\t', 0), ("ngen_gages", '\t', 2)]

end SiteIdSpec

namespace SiteId

open SiteIdSpec
open Cfg (split strip)

theorem split_fields (d : Char) (l : Str) : Fields d l (split d l) := by
  refine ⟨Cfg.split_ne_nil _ _, ?_, ?_⟩
  · induction hn : l.length using Nat.strong_induction_on generalizing l with
    | _ n ih =>
      cases hs : split d l with
      | nil => exact absurd hs (Cfg.split_ne_nil _ _)
      | cons w ws =>
        obtain ⟨_, ⟨e1, e2⟩ | ⟨r, e1, e2⟩⟩ := Cfg.split_cons_inv _ _ _ _ hs
        · simp [e1, e2, List.intercalate]
        · have := ih r.length (by rw [← hn, e1, List.length_append, List.length_cons]; omega) r rfl
          rw [e2] at this
          cases ws with
          | nil => exact absurd e2 (Cfg.split_ne_nil _ _)
          | cons v vs =>
            rw [e1, this]
            simp [List.intercalate, List.intersperse]
  · intro w hw
    induction hn : l.length using Nat.strong_induction_on generalizing l with
    | _ n ih =>
      cases hs : split d l with
      | nil => rw [hs] at hw; simp at hw
      | cons v vs =>
        obtain ⟨h1, h2⟩ := Cfg.split_cons_inv _ _ _ _ hs
        rw [hs] at hw
        rcases List.mem_cons.1 hw with rfl | hw
        · exact h1
        · rcases h2 with ⟨e1, _⟩ | ⟨r, e1, e2⟩
          · rw [e1] at hw; simp at hw
          · exact ih r.length (by rw [← hn, e1, List.length_append, List.length_cons]; omega) r (by rw [e2]; exact hw) rfl

theorem fields_split {d : Char} {l : Str} {ws : List Str} (h : Fields d l ws) : split d l = ws := by
  obtain ⟨h1, h2, h3⟩ := h
  subst h2
  induction ws with
  | nil => exact absurd rfl h1
  | cons w ws ih =>
    cases ws with
    | nil =>
      have : List.intercalate [d] [w] = w := by simp [List.intercalate]
      rw [this]
      exact Cfg.split_no _ _ (h3 w (by simp))
    | cons v vs =>
      have : List.intercalate [d] (w :: v :: vs) = w ++ d :: List.intercalate [d] (v :: vs) := by
        simp [List.intercalate, List.intersperse]
      rw [this, Cfg.split_append _ _ _ (h3 w (by simp)), ih (by simp) (fun x hx => h3 x (by simp [hx]))]

theorem fields_iff {d : Char} {l : Str} {ws : List Str} : Fields d l ws ↔ split d l = ws :=
  ⟨fields_split, fun h => h ▸ split_fields d l⟩

theorem hasId_iff (d : Char) (col : ℕ) (l id : Str) :
    HasId d col l id ↔ ∃ w, (split d l)[col]? = some w ∧ strip w = id := by
  unfold HasId
  simp only [fields_iff, ← Cfg.strip_iff]
  constructor
  · rintro ⟨_, w, rfl, h⟩; exact ⟨w, h⟩
  · rintro ⟨w, h⟩; exact ⟨_, w, rfl, h⟩

theorem hasCol_iff (d : Char) (col : ℕ) (l : Str) : HasCol d col l ↔ col < (split d l).length := by
  unfold HasCol
  simp only [fields_iff, exists_eq_left']

theorem isDigits_iff (s : Str) : isDigits s = true ↔ Number s := by
  unfold isDigits Number
  simp

theorem readIds_ok {d : Char} {col : ℕ} (rows : List Str) (ids : List Str) :
    readIds col d (text rows) = .ok ids ↔ List.Forall₂ (HasId d col) rows ids := by
  induction rows generalizing ids with
  | nil => simp [text, readIds, eq_comm]
  | cons r rows ih =>
    have e : (r ++ ['\n']).dropLast = r := by simp
    have ih' : ∀ ids, readIds col d (List.map (· ++ ['\n']) rows) = .ok ids ↔ List.Forall₂ (HasId d col) rows ids := ih
    simp only [text, List.map_cons, readIds, e]
    cases hv : (split d r)[col]? with
    | none =>
      simp only [reduceCtorEq, false_iff]
      intro h
      cases h with
      | cons h _ =>
        rw [hasId_iff, hv] at h
        obtain ⟨w, h, _⟩ := h
        cases h
    | some v =>
      dsimp only
      cases hr : readIds col d (List.map (· ++ ['\n']) rows) with
      | error e =>
        simp only [reduceCtorEq, false_iff]
        intro h
        cases h with
        | cons _ h =>
          rw [(ih' _).2 h] at hr
          cases hr
      | ok rest =>
        simp only [Except.ok.injEq]
        constructor
        · rintro rfl
          exact .cons ((hasId_iff ..).2 ⟨v, hv, rfl⟩) ((ih' _).1 hr)
        · intro h
          cases h with
          | cons h1 h2 =>
            rw [hasId_iff, hv] at h1
            obtain ⟨w, h1, rfl⟩ := h1
            cases h1
            rw [(ih' _).2 h2] at hr
            cases hr
            rfl

theorem readIds_total {d : Char} {col : ℕ} (rows : List Str) :
    (∃ ids, readIds col d (text rows) = .ok ids) ↔ ∀ r ∈ rows, HasCol d col r := by
  induction rows with
  | nil => simp [text, readIds]
  | cons r rows ih =>
    have e : (r ++ ['\n']).dropLast = r := by simp
    simp only [List.mem_cons, forall_eq_or_imp, ← ih]
    simp only [text, List.map_cons, readIds, e, hasCol_iff]
    cases hv : (split d r)[col]? with
    | none =>
      rw [List.getElem?_eq_none_iff] at hv
      simp only [reduceCtorEq, exists_false, false_iff]
      rintro ⟨h, _⟩
      omega
    | some v =>
      have : col < (split d r).length := by
        rw [List.getElem?_eq_some_iff] at hv
        exact hv.1
      dsimp only
      cases hr : readIds col d (List.map (· ++ ['\n']) rows) with
      | error e => simp
      | ok rest => simp [this]

theorem forall₂_mem {d : Char} {col : ℕ} {rows ids : List Str} (h : List.Forall₂ (HasId d col) rows ids) (id : Str) :
    id ∈ ids ↔ ∃ r ∈ rows, HasId d col r id := by
  induction h with
  | nil => simp
  | cons h1 h2 ih =>
    rename_i a b l1 l2
    simp only [List.mem_cons, ih, exists_eq_or_imp]
    constructor
    · rintro (rfl | h)
      · exact Or.inl h1
      · exact Or.inr h
    · rintro (h | h)
      · left
        rw [hasId_iff] at h h1
        obtain ⟨w, e1, e2⟩ := h
        obtain ⟨w', e1', e2'⟩ := h1
        rw [e1] at e1'
        cases e1'
        rw [← e2, ← e2']
      · exact Or.inr h

/-- **C284**, a single table.  For a table in which every line is ended: the site numbers of the rows are returned in
order of their characters, each as often as it occurs, only those that are numbers if that is asked for; it fails exactly
if a row lacks the column. -/
theorem C284_table_partial (head : Str) (rows : List Str) (col : ℕ) (d : Char) (numeric : Bool) :
    (∀ ids, siteIds (text (head :: rows)) col d numeric = .ok ids ↔
      ids.Pairwise (· ≤ ·) ∧ ∃ all, List.Forall₂ (HasId d col) rows all ∧
        ((numeric = false ∧ ids.Perm all) ∨
         (numeric = true ∧ ∃ nums rest, all.Perm (nums ++ rest) ∧ ids.Perm nums ∧ (∀ x ∈ nums, Number x) ∧
            ∀ x ∈ rest, ¬ Number x))) ∧
    ((∃ e, siteIds (text (head :: rows)) col d numeric = .error e) ↔ ∃ r ∈ rows, ¬ HasCol d col r) := by
  have hd : (text (head :: rows)).drop 1 = text rows := rfl
  have srt : ∀ l : List Str, (l.insertionSort (· ≤ ·)).Pairwise (· ≤ ·) := fun l => List.pairwise_insertionSort _ l
  have uniq : ∀ l m : List Str, l.Pairwise (· ≤ ·) → l.Perm m → m.insertionSort (· ≤ ·) = l := by
    intro l m h1 h2
    exact List.Perm.eq_of_pairwise (fun a b _ _ => le_antisymm) (srt m) h1 ((List.perm_insertionSort _ m).trans h2.symm)
  unfold siteIds
  rw [hd]
  have tot := readIds_total (d := d) (col := col) rows
  have ok := readIds_ok (d := d) (col := col) rows
  cases hr : readIds col d (text rows) with
  | error e =>
    rw [hr] at tot
    have nt : ¬ ∀ r ∈ rows, HasCol d col r := by rw [← tot]; simp
    refine ⟨?_, ?_⟩
    · intro ids
      simp only [reduceCtorEq, false_iff]
      rintro ⟨_, all, ha, _⟩
      have := (ok all).2 ha
      rw [hr] at this
      cases this
    · push Not at nt
      exact ⟨fun _ => nt, fun _ => ⟨e, rfl⟩⟩
  | ok all =>
    have ha := (ok all).1 hr
    refine ⟨?_, ?_⟩
    · intro ids
      simp only [Except.ok.injEq]
      have un : ∀ all', List.Forall₂ (HasId d col) rows all' → all' = all := by
        intro all' h
        have := (ok all').2 h
        rw [hr] at this
        cases this
        rfl
      cases numeric with
      | false =>
        constructor
        · rintro rfl
          exact ⟨srt _, all, ha, Or.inl ⟨rfl, List.perm_insertionSort _ _⟩⟩
        · rintro ⟨h1, all', ha', ⟨_, hp⟩ | ⟨h, _⟩⟩
          · rw [un _ ha'] at hp
            exact uniq _ _ h1 hp
          · cases h
      | true =>
        constructor
        · rintro rfl
          refine ⟨srt _, all, ha, Or.inr ⟨rfl, all.filter isDigits, all.filter (fun x => !isDigits x), ?_, ?_, ?_, ?_⟩⟩
          · exact (List.filter_append_perm isDigits all).symm
          · exact List.perm_insertionSort _ _
          · intro x hx
            exact (isDigits_iff x).1 (List.mem_filter.1 hx).2
          · intro x hx hn
            have := (List.mem_filter.1 hx).2
            rw [(isDigits_iff x).2 hn] at this
            cases this
        · rintro ⟨h1, all', ha', ⟨h, _⟩ | ⟨_, nums, rest, p1, p2, q1, q2⟩⟩
          · cases h
          · rw [un _ ha'] at p1
            refine uniq _ _ h1 (p2.trans ?_)
            have := p1.filter isDigits
            rw [List.filter_append, List.filter_eq_self.2 (fun x hx => (isDigits_iff x).2 (q1 x hx)),
              List.filter_eq_nil_iff.2 (fun x hx h => q2 x hx ((isDigits_iff x).1 h)), List.append_nil] at this
            exact this.symm
    · rw [hr] at tot
      have nt : ∀ r ∈ rows, HasCol d col r := tot.1 ⟨all, rfl⟩
      constructor
      · rintro ⟨e, h⟩; cases h
      · rintro ⟨r, h1, h2⟩; exact absurd (nt r h1) h2

theorem siteIds_mem {head : Str} {rows ids : List Str} {col : ℕ} {d : Char} {numeric : Bool}
    (h : siteIds (text (head :: rows)) col d numeric = .ok ids) (id : Str) :
    id ∈ ids ↔ Listed d col rows numeric id := by
  unfold siteIds at h
  have hd : (text (head :: rows)).drop 1 = text rows := rfl
  rw [hd] at h
  cases hr : readIds col d (text rows) with
  | error e => rw [hr] at h; cases h
  | ok all =>
    rw [hr] at h
    simp only [Except.ok.injEq] at h
    have ha := (readIds_ok rows all).1 hr
    subst h
    unfold Listed
    rw [List.mem_insertionSort, ← forall₂_mem ha id]
    cases numeric
    · simp
    · simp [isDigits_iff]

theorem setSorted_spec (l : List Str) :
    (setSorted l).Pairwise (· < ·) ∧ ∀ x, x ∈ setSorted l ↔ x ∈ l := by
  unfold setSorted
  constructor
  · have h1 : (l.dedup.insertionSort (· ≤ ·)).Pairwise (· ≤ ·) := List.pairwise_insertionSort _ _
    have h2 : (l.dedup.insertionSort (· ≤ ·)).Nodup := (List.perm_insertionSort _ _).nodup_iff.2 (List.nodup_dedup l)
    exact (h1.and h2).imp (fun h => lt_of_le_of_ne h.1 h.2)
  · intro x
    rw [List.mem_insertionSort, List.mem_dedup]

theorem layout_iff (ds : String) (d : Char) (c : ℕ) : layout ds = some (d, c) ↔ (ds.toLower, d, c) ∈ tables := by
  unfold layout
  generalize ds.toLower = n
  simp only [tables, List.mem_cons, Prod.mk.injEq, List.not_mem_nil, or_false]
  split_ifs with h1 h2 h3
  · subst h1; simp [eq_comm]
  · subst h2; simp [eq_comm]
  · rcases h3 with rfl | rfl | rfl | rfl | rfl | rfl <;> simp [eq_comm]
  · simp only [not_or] at h3
    simp [h1, h2, h3]

/-- **C284**, two tables.  For known data sets whose tables have every line ended and have the column of the site number
in every row: the option `common` gives exactly the site numbers of both tables and the option `in1not2` exactly those of
the first that are not in the second, in strictly increasing order of their characters, so without repetition. -/
theorem C284_common_partial (files : String → List Str) (ds1 ds2 : String) (numeric : Bool) (d1 d2 : Char) (c1 c2 : ℕ)
    (h1 : (ds1.toLower, d1, c1) ∈ tables) (h2 : (ds2.toLower, d2, c2) ∈ tables) (head1 head2 : Str)
    (rows1 rows2 : List Str) (f1 : files ds1.toLower = text (head1 :: rows1))
    (f2 : files ds2.toLower = text (head2 :: rows2)) (g1 : ∀ r ∈ rows1, HasCol d1 c1 r)
    (g2 : ∀ r ∈ rows2, HasCol d2 c2 r) :
    (∃ ids, commonIds files ds1 ds2 numeric "common" = .ok (some ids) ∧ ids.Pairwise (· < ·) ∧
      ∀ id, id ∈ ids ↔ Listed d1 c1 rows1 numeric id ∧ Listed d2 c2 rows2 numeric id) ∧
    (∃ ids, commonIds files ds1 ds2 numeric "in1not2" = .ok (some ids) ∧ ids.Pairwise (· < ·) ∧
      ∀ id, id ∈ ids ↔ Listed d1 c1 rows1 numeric id ∧ ¬ Listed d2 c2 rows2 numeric id) := by
  have get : ∀ (head : Str) (rows : List Str) (c : ℕ) (d : Char), (∀ r ∈ rows, HasCol d c r) →
      ∃ ids, siteIds (text (head :: rows)) c d numeric = .ok ids := by
    intro head rows c d g
    cases h : siteIds (text (head :: rows)) c d numeric with
    | ok ids => exact ⟨ids, rfl⟩
    | error e =>
      obtain ⟨r, hr, hn⟩ := (C284_table_partial head rows c d numeric).2.1 ⟨e, h⟩
      exact absurd (g r hr) hn
  obtain ⟨a, ha⟩ := get head1 rows1 c1 d1 g1
  obtain ⟨b, hb⟩ := get head2 rows2 c2 d2 g2
  have l1 := (layout_iff ds1 d1 c1).2 h1
  have l2 := (layout_iff ds2 d2 c2).2 h2
  refine ⟨⟨setSorted (a.filter (fun x => decide (x ∈ b))), ?_, (setSorted_spec _).1, ?_⟩,
    ⟨setSorted (a.filter (fun x => decide (x ∉ b))), ?_, (setSorted_spec _).1, ?_⟩⟩
  · simp only [commonIds, l1, l2, f1, f2, ha, hb, if_true]
  · intro id
    rw [(setSorted_spec _).2, List.mem_filter, decide_eq_true_iff, siteIds_mem ha, siteIds_mem hb]
  · simp only [commonIds, l1, l2, f1, f2, ha, hb, String.reduceEq, if_true, if_false]
  · intro id
    rw [(setSorted_spec _).2, List.mem_filter, decide_eq_true_iff, siteIds_mem ha, siteIds_mem hb]

/-- The tables of the example: the first is sorted, the second not. -/
def exampleFiles : String → List Str := fun ds =>
  if ds = "knoben" then ["id;x\n".toList, "05;1\n".toList, "07;2\n".toList, "A9;3\n".toList]
  else ["a\tb\tid\n".toList, "1\t2\t 07 \n".toList, "1\t2\t05\n".toList, "1\t2\t08\n".toList]

/-- The list that was returned. -/
def idsOf (r : Except String (Option (List Str))) : Option (List Str) :=
  match r with
  | .ok o => o
  | .error _ => none

example : idsOf (commonIds exampleFiles "Knoben" "NGEN_Gages" true "common") = some ["05".toList, "07".toList] ∧
    idsOf (commonIds exampleFiles "Knoben" "NGEN_Gages" true "in1not2") = some [] ∧
    idsOf (commonIds exampleFiles "Knoben" "NGEN_Gages" false "in1not2") = some ["A9".toList] := by
  decide +kernel

/-- **C284** fails in the code if the last line of a table is not ended by a newline character: the last character of the
site number is taken for it. -/
theorem C284_last_line_violated (head id : Str) (d : Char) (hd : d ∉ id) (hn : ∀ c ∈ id, c.isWhitespace = false)
    (h2 : 2 ≤ id.length) :
    siteIds [head ++ ['\n'], id] 0 d false = .ok [id.dropLast] ∧ id.dropLast ≠ id := by
  have hs : split d id.dropLast = [id.dropLast] := Cfg.split_no _ _ (fun h => hd (List.dropLast_subset _ h))
  have ht : strip id.dropLast = id.dropLast := by
    rw [Cfg.strip_iff]
    refine ⟨[], [], by simp, by simp, by simp, ?_, ?_⟩
    · intro c hc
      exact hn c (List.dropLast_subset _ (List.mem_of_mem_head? hc))
    · intro c hc
      exact hn c (List.dropLast_subset _ (List.mem_of_getLast? hc))
  refine ⟨?_, ?_⟩
  · simp [siteIds, readIds, hs, ht]
  · intro h
    have := congrArg List.length h
    rw [List.length_dropLast] at this
    omega

/-- **C284** fails in the code for an option that is not known: nothing is returned and there is no error. -/
theorem C284_option_violated (files : String → List Str) (ds1 ds2 : String) (numeric : Bool) (option : String)
    (h1 : option ≠ "common") (h2 : option ≠ "in1not2") (r : Option (List Str))
    (h : commonIds files ds1 ds2 numeric option = .ok r) : r = none := by
  unfold commonIds at h
  split at h
  · split at h
    · cases h
    · split at h
      · cases h
      · rw [if_neg h1, if_neg h2] at h
        cases h
        rfl
  · cases h

end SiteId
