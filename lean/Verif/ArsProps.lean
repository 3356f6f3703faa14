import Verif.ArsModel
import Verif.SiteIdProps
import Mathlib.Tactic.Linarith
import Mathlib.Tactic.NormNum

/-!
# The table of the ARS watersheds: C295, C296, C297
-/

set_option autoImplicit false

namespace ArsSpec

open Cfg (Str)
open Cfg (Trimmed)

/-- The text is what stands in the columns `a`, ..., `b - 1` of the line. -/
def Cols (a b : ℕ) (l w : Str) : Prop := ∀ i : ℕ, w[i]? = if i < b - a then l[a + i]? else none

/-- The text has no other characters than spaces. -/
def Blank (w : Str) : Prop := ∀ c ∈ w, c.isWhitespace = true

/-- The text is that of the columns in the last of the lines in which they are not blank. -/
def Latest (a b : ℕ) (lines : List Str) (w : Str) : Prop :=
  ∃ pre l post, lines = pre ++ l :: post ∧ Cols a b l w ∧ ¬ Blank w ∧ ∀ x ∈ post, ∀ v, Cols a b x v → Blank v

/-- The lines of the file with watersheds: those after the eighth that are not empty. -/
def data (file : List Str) : List Str := (file.drop 8).filter (fun l => decide (l ≠ ['\n']))

end ArsSpec

namespace Ars

open Cfg (Str strip lower)
open Cfg (Trimmed)
open SiteIdSpec (Fields)
open ArsSpec

theorem slice_get (a b : ℕ) (l : Str) (i : ℕ) : (slice a b l)[i]? = if i < b - a then l[a + i]? else none := by
  unfold slice
  rw [List.getElem?_take]
  split_ifs <;> simp [List.getElem?_drop]

theorem slice_iff (a b : ℕ) (l w : Str) : slice a b l = w ↔ Cols a b l w := by
  constructor
  · rintro rfl i; exact slice_get a b l i
  · intro h
    apply List.ext_getElem?
    intro i
    rw [slice_get, h i]

theorem strip_nil_iff (w : Str) : strip w = [] ↔ Blank w := by
  rw [Cfg.strip_iff]
  constructor
  · rintro ⟨p, s, rfl, h1, h2, -⟩ c hc
    simp only [List.append_nil, List.mem_append] at hc
    exact hc.elim (h1 c) (h2 c)
  · intro h
    exact ⟨w, [], by simp, h, by simp, by simp, by simp⟩

theorem mem_slice {a b : ℕ} {l : Str} {c : Char} (h : c ∈ slice a b l) : c ∈ l :=
  List.mem_of_mem_drop (List.mem_of_mem_take h)

theorem mem_strip {w : Str} {c : Char} (h : c ∈ strip w) : c ∈ w := by
  obtain ⟨p, s, e, -⟩ := (Cfg.strip_iff w (strip w)).1 rfl
  rw [e]; simp [h]

theorem latest_self {a b : ℕ} {seen : List Str} {l : Str} (h : strip (slice a b l) ≠ []) :
    Latest a b (seen ++ [l]) (slice a b l) :=
  ⟨seen, l, [], rfl, (slice_iff _ _ _ _).1 rfl, fun hb => h ((strip_nil_iff _).2 hb), by simp⟩

theorem latest_next {a b : ℕ} {seen : List Str} {l w : Str} (h : strip (slice a b l) = []) (hw : Latest a b seen w) :
    Latest a b (seen ++ [l]) w := by
  obtain ⟨pre, x, post, rfl, hc, hb, hp⟩ := hw
  refine ⟨pre, x, post ++ [l], by simp, hc, hb, ?_⟩
  intro y hy v hv
  rcases List.mem_append.1 hy with hy | hy
  · exact hp y hy v hv
  · simp only [List.mem_singleton] at hy
    subst hy
    rw [← slice_iff] at hv
    subst hv
    exact (strip_nil_iff _).1 h

theorem latest_mem {a b : ℕ} {seen : List Str} {w : Str} (h : Latest a b seen w) (ht : ∀ l ∈ seen, '\t' ∉ l) :
    '\t' ∉ w := by
  obtain ⟨pre, l, post, rfl, hc, -⟩ := h
  rw [← slice_iff] at hc
  subst hc
  exact fun hm => ht l (by simp) (mem_slice hm)

/-- What is kept from the lines read. -/
structure Kept (seen : List Str) (k : Last) : Prop where
  id : Latest 0 5 seen k.id
  loc : ∃ w, Latest 5 20 seen w ∧ strip w = k.loc
  st : Latest 20 22 seen k.st

theorem orLast_some {blank : Bool} {own v : Str} {last : Option Str} (h : orLast blank own last = some v) :
    (blank = true ∧ last = some v) ∨ (blank = false ∧ v = own) := by
  unfold orLast at h
  cases blank
  · right; simp at h; exact ⟨rfl, h.symm⟩
  · left; simp at h; exact ⟨rfl, h⟩

/-- The cells of a line one by one. -/
theorem cells_some {num : Num} {last : Option Last} {l : Str} {cs : List Str} {k : Last}
    (h : cells num last l = some (cs, k)) :
    ∃ name0 n latDeg lonDeg area,
      orLast (strip (slice 0 5 l) == []) (slice 0 5 l) (last.map Last.id) = some k.id ∧
      orLast (strip (slice 5 20 l) == []) (strip (slice 5 20 l)) (last.map Last.loc) = some k.loc ∧
      orLast (strip (slice 20 22 l) == []) (slice 20 22 l) (last.map Last.st) = some k.st ∧
      orLast (strip (slice 23 36 l) == []) (strip (slice 23 36 l)) (last.map Last.name) = some name0 ∧
      num.int k.id = some n ∧ k.name = (if n = 9002 then "W-II".toList else name0) ∧
      latCell num (strip (slice 76 82 l)) = some latDeg ∧ lonCell num (lonDms n l) = some lonDeg ∧
      areaCell num (strip (slice 36 47 l)) = some area ∧
      cs = [k.id, k.loc, k.st, altName n, k.name, strip (slice 76 82 l), lonDmsCell (lonDms n l), latDeg, lonDeg,
        strip (slice 36 47 l), area, startCell l, endCell l, strip (slice 65 76 l),
        if k.st ∈ stateCodes then url k.st else [], note n] := by
  unfold cells at h
  simp only [Option.bind_eq_bind, Option.bind_eq_some_iff, Option.pure_def, Option.some.injEq, Prod.mk.injEq] at h
  obtain ⟨id, h1, loc, h2, st, h3, name0, h4, n, h5, la, h6, lo, h7, ar, h8, h9, rfl⟩ := h
  exact ⟨name0, n, la, lo, ar, h1, h2, h3, h4, h5, rfl, h6, h7, h8, h9.symm⟩

theorem kept_step {num : Num} {last : Option Last} {seen : List Str} {l : Str} {cs : List Str} {k : Last}
    (hk : ∀ k', last = some k' → Kept seen k') (h : cells num last l = some (cs, k)) : Kept (seen ++ [l]) k := by
  obtain ⟨_, _, _, _, _, h1, h2, h3, -⟩ := cells_some h
  refine ⟨?_, ?_, ?_⟩
  · rcases orLast_some h1 with ⟨e, h⟩ | ⟨e, h⟩
    · obtain ⟨k', hl, he⟩ := Option.map_eq_some_iff.1 h
      exact he ▸ latest_next (by simpa using e) (hk k' hl).id
    · rw [h]; exact latest_self (by simpa using e)
  · rcases orLast_some h2 with ⟨e, h⟩ | ⟨e, h⟩
    · obtain ⟨k', hl, he⟩ := Option.map_eq_some_iff.1 h
      obtain ⟨w, hw, hs⟩ := (hk k' hl).loc
      exact ⟨w, latest_next (by simpa using e) hw, hs.trans he⟩
    · exact ⟨_, latest_self (by simpa using e), h.symm⟩
  · rcases orLast_some h3 with ⟨e, h⟩ | ⟨e, h⟩
    · obtain ⟨k', hl, he⟩ := Option.map_eq_some_iff.1 h
      exact he ▸ latest_next (by simpa using e) (hk k' hl).st
    · rw [h]; exact latest_self (by simpa using e)

theorem loop_filter (num : Num) (last : Option Last) (ls : List Str) :
    loop num last ls = loop num last (ls.filter (fun l => decide (l ≠ ['\n']))) := by
  induction ls generalizing last with
  | nil => rfl
  | cons l r ih =>
    by_cases e : l = ['\n']
    · rw [loop, if_pos e, List.filter_cons_of_neg (by simp [e])]; exact ih last
    · rw [loop, if_neg e, List.filter_cons_of_pos (by simpa using e), loop, if_neg e]
      simp only [← ih]

/-- Each row comes from the line with its number. -/
theorem loop_rows {num : Num} {last : Option Last} {seen ls : List Str} {rows : List (List Str)}
    (hn : ∀ l ∈ ls, l ≠ ['\n']) (hk : ∀ k', last = some k' → Kept seen k') (h : loop num last ls = some rows) :
    rows.length = ls.length ∧ ∀ (j : ℕ) (cs : List Str), rows[j]? = some cs →
      ∃ l last' k, ls[j]? = some l ∧ (∀ k', last' = some k' → Kept (seen ++ ls.take j) k') ∧
        cells num last' l = some (cs, k) := by
  induction ls generalizing last seen rows with
  | nil => simp only [loop, Option.some.injEq] at h; subst h; simp
  | cons l r ih =>
    rw [loop, if_neg (hn l (by simp))] at h
    simp only [Option.bind_eq_bind, Option.bind_eq_some_iff, Option.pure_def, Option.some.injEq] at h
    obtain ⟨⟨cs0, k⟩, h1, rest, h2, rfl⟩ := h
    have hk' := kept_step hk h1
    obtain ⟨e, ih⟩ := ih (seen := seen ++ [l]) (fun x hx => hn x (by simp [hx]))
      (fun k' he => by cases he; exact hk') h2
    refine ⟨by simp [e], ?_⟩
    intro j cs hj
    cases j with
    | zero =>
      simp only [List.getElem?_cons_zero, Option.some.injEq] at hj
      subst hj
      exact ⟨l, last, k, rfl, by simpa using hk, h1⟩
    | succ j =>
      obtain ⟨l', last', k', h3, h4, h5⟩ := ih j cs (by simpa using hj)
      exact ⟨l', last', k', by simpa using h3, by simpa using h4, h5⟩

theorem ite_tab {p : Prop} [Decidable p] {a b : String} (ha : '\t' ∉ a.toList) (hb : '\t' ∉ b.toList) :
    '\t' ∉ (if p then a else b).toList := by
  split_ifs
  · exact ha
  · exact hb

theorem altName_tab (n : ℤ) : '\t' ∉ altName n := by
  unfold altName
  repeat refine ite_tab (by decide +kernel) ?_
  decide +kernel

theorem note_tab (n : ℤ) : '\t' ∉ note n := by
  unfold note
  repeat refine ite_tab (by decide +kernel) ?_
  decide +kernel

theorem mem_tail {n : ℕ} {s : Str} {c : Char} (h : c ∈ tail n s) : c ∈ s := List.mem_of_mem_drop h

theorem iso_tab {s : Str} (h : '\t' ∉ s) : '\t' ∉ iso s := by
  unfold iso
  simp only [List.mem_append, List.mem_cons, not_or]
  exact ⟨⟨by decide, fun m => h (mem_tail m)⟩, by decide, fun m => h (List.mem_of_mem_take m), by decide,
    fun m => h (mem_slice m)⟩

theorem url_tab {st : Str} (h : st ∈ stateCodes) : '\t' ∉ url st := by
  have : ∀ s ∈ stateCodes, '\t' ∉ url s := by decide +kernel
  exact this st h

theorem lonDms_tab {n : ℤ} {l : Str} (h : '\t' ∉ l) : '\t' ∉ lonDms n l := by
  unfold lonDms
  split_ifs
  · simp only [List.mem_append, not_or]
    exact ⟨by decide, fun m => h (mem_slice (mem_strip (mem_tail m)))⟩
  · exact fun m => h (mem_slice (mem_strip m))

/-- No cell of a row has a tab. -/
theorem cells_tab {num : Num} (hd : ∀ q, '\t' ∉ num.deg q) (ha : ∀ s t, num.km2 s = some t → '\t' ∉ t)
    {last : Option Last} {l : Str} {cs : List Str} {k : Last} (h : cells num last l = some (cs, k)) (hl : '\t' ∉ l)
    (hk : ∀ k', last = some k' → '\t' ∉ k'.id ∧ '\t' ∉ k'.loc ∧ '\t' ∉ k'.st ∧ '\t' ∉ k'.name) :
    (∀ c ∈ cs, '\t' ∉ c) ∧ cs.length = 16 ∧ '\t' ∉ k.id ∧ '\t' ∉ k.loc ∧ '\t' ∉ k.st ∧ '\t' ∉ k.name := by
  obtain ⟨name0, n, la, lo, ar, h1, h2, h3, h4, h5, h6, h7, h8, h9, rfl⟩ := cells_some h
  have s1 : ∀ a b, '\t' ∉ slice a b l := fun a b m => hl (mem_slice m)
  have s2 : ∀ a b, '\t' ∉ strip (slice a b l) := fun a b m => s1 a b (mem_strip m)
  have pick : ∀ {blank : Bool} {own v : Str} {f : Last → Str}, orLast blank own (last.map f) = some v → '\t' ∉ own →
      (∀ k', last = some k' → '\t' ∉ f k') → '\t' ∉ v := by
    intro blank own v f ho hown hf
    rcases orLast_some ho with ⟨-, e⟩ | ⟨-, e⟩
    · obtain ⟨k', hl, he⟩ := Option.map_eq_some_iff.1 e
      exact he ▸ hf k' hl
    · exact e ▸ hown
  have t1 := pick h1 (s1 _ _) (fun k' e => (hk k' e).1)
  have t2 := pick h2 (s2 _ _) (fun k' e => (hk k' e).2.1)
  have t3 := pick h3 (s1 _ _) (fun k' e => (hk k' e).2.2.1)
  have t4 := pick h4 (s2 _ _) (fun k' e => (hk k' e).2.2.2)
  have t5 : '\t' ∉ k.name := by
    rw [h6]; split_ifs
    · decide
    · exact t4
  have t6 : '\t' ∉ la := by
    unfold latCell at h7
    split_ifs at h7
    · cases h7; simp
    · obtain ⟨q, -, rfl⟩ := Option.map_eq_some_iff.1 h7; exact hd q
  have t7 : '\t' ∉ lo := by
    unfold lonCell at h8
    split at h8
    · cases h8; simp
    · obtain ⟨q, -, rfl⟩ := Option.map_eq_some_iff.1 h8
      simp only [List.mem_cons, not_or]; exact ⟨by decide, hd q⟩
  have t8 : '\t' ∉ ar := by
    unfold areaCell at h9
    split_ifs at h9
    · cases h9; simp
    · exact ha _ _ h9
  have t9 : '\t' ∉ lonDmsCell (lonDms n l) := by
    unfold lonDmsCell
    split_ifs
    · simp
    · simp only [List.mem_cons, not_or]; exact ⟨by decide, lonDms_tab hl⟩
  have t10 : '\t' ∉ startCell l := by
    unfold startCell
    simp only
    split_ifs
    · simp
    · exact iso_tab (s1 _ _)
  have t11 : '\t' ∉ endCell l := by
    unfold endCell
    simp only
    split_ifs
    · simp
    · decide
    · exact iso_tab (s2 _ _)
  have t12 : '\t' ∉ (if k.st ∈ stateCodes then url k.st else []) := by
    split_ifs with hs
    · exact url_tab hs
    · simp
  refine ⟨?_, rfl, t1, t2, t3, t5⟩
  intro c hc
  simp only [List.mem_cons, List.not_mem_nil, or_false] at hc
  rcases hc with rfl | rfl | rfl | rfl | rfl | rfl | rfl | rfl | rfl | rfl | rfl | rfl | rfl | rfl | rfl | rfl
  exacts [t1, t2, t3, altName_tab n, t5, s2 _ _, t9, t6, t7, s2 _ _, t8, t10, t11, s2 _ _, t12, note_tab n]

theorem loop_tab {num : Num} (hd : ∀ q, '\t' ∉ num.deg q) (ha : ∀ s t, num.km2 s = some t → '\t' ∉ t)
    {last : Option Last} {ls : List Str} {rows : List (List Str)} (h : loop num last ls = some rows)
    (hl : ∀ l ∈ ls, '\t' ∉ l)
    (hk : ∀ k', last = some k' → '\t' ∉ k'.id ∧ '\t' ∉ k'.loc ∧ '\t' ∉ k'.st ∧ '\t' ∉ k'.name) :
    ∀ cs ∈ rows, (∀ c ∈ cs, '\t' ∉ c) ∧ cs.length = 16 := by
  induction ls generalizing last rows with
  | nil => simp only [loop, Option.some.injEq] at h; subst h; simp
  | cons l r ih =>
    rw [loop] at h
    split_ifs at h with e
    · exact ih h (fun x hx => hl x (by simp [hx])) hk
    · simp only [Option.bind_eq_bind, Option.bind_eq_some_iff, Option.pure_def, Option.some.injEq] at h
      obtain ⟨⟨cs0, k⟩, h1, rest, h2, rfl⟩ := h
      obtain ⟨c1, c2, c3⟩ := cells_tab hd ha h1 (hl l (by simp)) hk
      intro cs hcs
      rcases List.mem_cons.1 hcs with rfl | hcs
      · exact ⟨c1, c2⟩
      · exact ih h2 (fun x hx => hl x (by simp [hx])) (fun k' e' => by cases e'; exact c3) cs hcs

theorem createTsv_some {num : Num} {file out : List Str} (h : createTsv num file = some out) :
    ∃ rows, loop num none (data file) = some rows ∧ out = header :: rows.map rowLine := by
  unfold createTsv at h
  obtain ⟨rows, h1, rfl⟩ := Option.map_eq_some_iff.1 h
  exact ⟨rows, by rw [loop_filter] at h1; exact h1, rfl⟩

theorem data_ne (file : List Str) : ∀ l ∈ data file, l ≠ ['\n'] := by
  intro l hl
  simpa using (List.mem_filter.1 hl).2

theorem data_mem {file : List Str} {l : Str} (h : l ∈ data file) : l ∈ file :=
  List.mem_of_mem_drop (List.mem_filter.1 h).1

/-- **C295.**  There is one row for each line with a watershed, in the order of the lines.  Each row has sixteen
cells.  ID, location and state are those of the last line, up to this one, in which they are not blank. -/
theorem C295_rows_partial (num : Num) (hd : ∀ q, '\t' ∉ num.deg q) (ha : ∀ s t, num.km2 s = some t → '\t' ∉ t)
    (file out : List Str) (hf : ∀ l ∈ file, '\t' ∉ l) (h : createTsv num file = some out) :
    out.length = (data file).length + 1 ∧
      ∀ (j : ℕ) (row : Str), out[j + 1]? = some row →
        ∃ l cs, row = l ++ ['\n'] ∧ Fields '\t' l cs ∧ cs.length = 16 ∧
          (∃ w, Latest 0 5 ((data file).take (j + 1)) w ∧ cs[0]? = some w) ∧
          (∃ w v, Latest 5 20 ((data file).take (j + 1)) w ∧ Trimmed w v ∧ cs[1]? = some v) ∧
          (∃ w, Latest 20 22 ((data file).take (j + 1)) w ∧ cs[2]? = some w) := by
  obtain ⟨rows, h1, rfl⟩ := createTsv_some h
  obtain ⟨e, hr⟩ := loop_rows (seen := []) (data_ne file) (by simp) h1
  refine ⟨by simp [e], ?_⟩
  intro j row hj
  simp only [List.getElem?_cons_succ, List.getElem?_map, Option.map_eq_some_iff] at hj
  obtain ⟨cs, hcs, rfl⟩ := hj
  obtain ⟨c1, c2⟩ := loop_tab hd ha h1 (fun l hl => hf l (data_mem hl)) (by simp) cs (List.mem_of_getElem? hcs)
  obtain ⟨l, last', k, hl, hk, hc⟩ := hr j cs hcs
  have hkept := kept_step hk hc
  have ht : (data file).take j ++ [l] = (data file).take (j + 1) := by
    rw [List.take_add_one, hl]; rfl
  rw [List.nil_append, ht] at hkept
  refine ⟨_, cs, rfl, ⟨?_, rfl, c1⟩, c2, ?_⟩
  · intro e; rw [e] at c2; simp at c2
  obtain ⟨_, _, _, _, _, -, -, -, -, -, -, -, -, -, rfl⟩ := cells_some hc
  obtain ⟨w, hw, hs⟩ := hkept.loc
  exact ⟨⟨_, hkept.id, rfl⟩, ⟨w, _, hw, (Cfg.strip_iff _ _).1 hs, rfl⟩, ⟨_, hkept.st, rfl⟩⟩

/-- **C295, negated.**  The first line of the table names fifteen columns, so the cells of every row from the fifth
on stand under the name of the next column, and the last has no name. -/
theorem C295_headings_violated : ∃ l ws, header = l ++ ['\n'] ∧ Fields '\t' l ws ∧ ws.length = 15 ∧
    ws[4]? = some "Latitude (DMS)".toList ∧ ws[14]? = some "Notes".toList := by
  refine ⟨header.dropLast, headings, by decide +kernel, ⟨by decide +kernel, by decide +kernel, by decide +kernel⟩, ?_⟩
  decide +kernel

/-- A reader of whole numbers, for the examples: every ID is read as 26010, every other number as 40. -/
def sample : Num := ⟨fun _ => some 26010, fun _ => some 40, fun _ => "40.67778".toList, fun _ => some "1.0".toList⟩

/-- Two lines of an index, for the examples: the second repeats ID, location and state of the first. -/
def sampleFile : List Str := List.replicate 8 ['\n'] ++
  ["26010Coshocton      OH 110              1.27 01/01/39 12/31/71 1939-1971  402151 0814731\n".toList, ['\n'],
   "                         W-2             1.27          present             402151 0814731\n".toList]

example : (createTsv sample sampleFile).isSome = true ∧ (∀ l ∈ sampleFile, '\t' ∉ l) ∧
    (∀ q, '\t' ∉ sample.deg q) ∧ (data sampleFile).length = 2 := by
  refine ⟨by decide +kernel, by decide +kernel, fun q => ?_, by decide +kernel⟩
  show '\t' ∉ "40.67778".toList
  decide

/-- Position and dates of a row come from the line with its number. -/
theorem row_line {num : Num} (hd : ∀ q, '\t' ∉ num.deg q) (ha : ∀ s t, num.km2 s = some t → '\t' ∉ t)
    {file out : List Str} (hf : ∀ l ∈ file, '\t' ∉ l) (h : createTsv num file = some out) {j : ℕ} {l row : Str}
    {cs : List Str} (hl : (data file)[j]? = some l) (hj : out[j + 1]? = some (row ++ ['\n']))
    (hc : Fields '\t' row cs) : ∃ last k, cells num last l = some (cs, k) := by
  obtain ⟨rows, h1, rfl⟩ := createTsv_some h
  obtain ⟨e, hr⟩ := loop_rows (seen := []) (data_ne file) (by simp) h1
  simp only [List.getElem?_cons_succ, List.getElem?_map, Option.map_eq_some_iff] at hj
  obtain ⟨cs', hcs, he⟩ := hj
  obtain ⟨c1, c2⟩ := loop_tab hd ha h1 (fun l hl => hf l (data_mem hl)) (by simp) cs' (List.mem_of_getElem? hcs)
  have he' : List.intercalate ['\t'] cs' = row := List.append_cancel_right he
  have hc' : Fields '\t' row cs' := ⟨by intro e; rw [e] at c2; simp at c2, he'.symm, c1⟩
  have : cs = cs' := by rw [SiteId.fields_iff] at hc hc'; exact hc.symm.trans hc'
  subst this
  obtain ⟨l', last, k, hl', -, hk⟩ := hr j cs hcs
  rw [hl] at hl'
  cases hl'
  exact ⟨last, k, hk⟩

/-- **C295, names.**  The name of the watershed is that of the line, if it has one; the watershed 9002 is always
`W-II`. -/
theorem C295_names (num : Num) (hd : ∀ q, '\t' ∉ num.deg q) (ha : ∀ s t, num.km2 s = some t → '\t' ∉ t)
    (file out : List Str) (hf : ∀ l ∈ file, '\t' ∉ l) (h : createTsv num file = some out) (j : ℕ) (l row : Str)
    (cs : List Str) (hl : (data file)[j]? = some l) (hj : out[j + 1]? = some (row ++ ['\n']))
    (hc : Fields '\t' row cs) (id : Str) (n : ℤ) (hid : cs[0]? = some id) (hn : num.int id = some n) :
    (n = 9002 → cs[4]? = some "W-II".toList) ∧
    (n ≠ 9002 → ∀ w v, Cols 23 36 l w → Trimmed w v → v ≠ [] → cs[4]? = some v) := by
  obtain ⟨last, k, hk⟩ := row_line hd ha hf h hl hj hc
  obtain ⟨name0, n', la, lo, ar, h1, h2, h3, h4, h5, h6, h7, h8, h9, rfl⟩ := cells_some hk
  cases hid
  rw [h5] at hn
  cases hn
  refine ⟨fun e => ?_, fun e w v hw htr hv => ?_⟩
  · show some k.name = _
    rw [h6, if_pos e]
  · show some k.name = _
    rw [← slice_iff] at hw
    rw [← Cfg.strip_iff] at htr
    rw [hw, htr] at h4
    rcases orLast_some h4 with ⟨b, -⟩ | ⟨-, b⟩
    · exact absurd (by simpa using b) hv
    · rw [h6, if_neg e, b]

theorem loop_pair {num : Num} {last : Option Last} {ls : List Str} {rows : List (List Str)}
    (hn : ∀ l ∈ ls, l ≠ ['\n']) (h : loop num last ls = some rows) {j : ℕ} {a b : List Str} {l : Str}
    (ha : rows[j]? = some a) (hb : rows[j + 1]? = some b) (hl : ls[j + 1]? = some l) :
    ∃ ka kb, a[4]? = some ka.name ∧ cells num (some ka) l = some (b, kb) := by
  induction ls generalizing last rows j with
  | nil => simp at hl
  | cons l0 r ih =>
    rw [loop, if_neg (hn l0 (by simp))] at h
    simp only [Option.bind_eq_bind, Option.bind_eq_some_iff, Option.pure_def, Option.some.injEq] at h
    obtain ⟨⟨cs0, k⟩, h1, rest, h2, rfl⟩ := h
    have hn' : ∀ l ∈ r, l ≠ ['\n'] := fun x hx => hn x (by simp [hx])
    cases j with
    | succ j => exact ih hn' h2 (by simpa using ha) (by simpa using hb) (by simpa using hl)
    | zero =>
      simp only [List.getElem?_cons_zero, Option.some.injEq] at ha
      subst ha
      obtain ⟨_, _, _, _, _, -, -, -, -, -, -, -, -, -, rfl⟩ := cells_some h1
      cases r with
      | nil => simp at hl
      | cons l1 r =>
        simp only [List.getElem?_cons_succ, List.getElem?_cons_zero, Option.some.injEq] at hl
        subst hl
        rw [loop, if_neg (hn' l1 (by simp))] at h2
        simp only [Option.bind_eq_bind, Option.bind_eq_some_iff, Option.pure_def, Option.some.injEq] at h2
        obtain ⟨⟨cs1, k1⟩, h3, rest', -, rfl⟩ := h2
        simp only [List.getElem?_cons_succ, List.getElem?_cons_zero, Option.some.injEq] at hb
        subst hb
        exact ⟨k, k1, rfl, h3⟩

/-- **C295, blank names.**  A watershed other than 9002 whose name is blank in its line has the name of the row
before; if it is the first, there is no table. -/
theorem C295_blank_names (num : Num) (hd : ∀ q, '\t' ∉ num.deg q) (ha : ∀ s t, num.km2 s = some t → '\t' ∉ t)
    (file out : List Str) (hf : ∀ l ∈ file, '\t' ∉ l) (h : createTsv num file = some out) (j : ℕ) (l w : Str)
    (hl : (data file)[j]? = some l) (hw : Cols 23 36 l w) (hb : Blank w) :
    ∃ i, j = i + 1 ∧ ∀ (rowa rowb : Str) (a b : List Str), out[j]? = some (rowa ++ ['\n']) → Fields '\t' rowa a →
      out[j + 1]? = some (rowb ++ ['\n']) → Fields '\t' rowb b →
      ∀ id n, b[0]? = some id → num.int id = some n → n ≠ 9002 → b[4]? = a[4]? := by
  obtain ⟨rows, h1, rfl⟩ := createTsv_some h
  rw [← slice_iff] at hw
  have hs : strip (slice 23 36 l) = [] := by rw [hw]; exact (strip_nil_iff _).2 hb
  have cellsOf : ∀ {i : ℕ} {r : Str} {cs : List Str}, (header :: rows.map rowLine)[i + 1]? = some (r ++ ['\n']) →
      Fields '\t' r cs → rows[i]? = some cs := by
    intro i r cs hi hc
    simp only [List.getElem?_cons_succ, List.getElem?_map, Option.map_eq_some_iff] at hi
    obtain ⟨cs', hcs, he⟩ := hi
    obtain ⟨c1, c2⟩ := loop_tab hd ha h1 (fun l hl => hf l (data_mem hl)) (by simp) cs' (List.mem_of_getElem? hcs)
    have he' : List.intercalate ['\t'] cs' = r := List.append_cancel_right he
    have hc' : Fields '\t' r cs' := ⟨by intro e; rw [e] at c2; simp at c2, he'.symm, c1⟩
    have : cs = cs' := by rw [SiteId.fields_iff] at hc hc'; exact hc.symm.trans hc'
    rw [this]; exact hcs
  cases j with
  | zero =>
    exfalso
    have hne := data_ne file
    cases hd' : data file with
    | nil => rw [hd'] at hl; simp at hl
    | cons x xs =>
      rw [hd'] at hl h1 hne
      simp only [List.getElem?_cons_zero, Option.some.injEq] at hl
      subst hl
      rw [loop, if_neg (hne x (by simp))] at h1
      simp only [Option.bind_eq_bind, Option.bind_eq_some_iff, Option.pure_def, Option.some.injEq] at h1
      obtain ⟨⟨cs0, k⟩, h1, -⟩ := h1
      obtain ⟨_, _, _, _, _, -, -, -, h4, -⟩ := cells_some h1
      rw [hs] at h4
      simp [orLast] at h4
  | succ i =>
    refine ⟨i, rfl, ?_⟩
    intro rowa rowb a b pa fa pb fb id n hid hn hne
    obtain ⟨ka, kb, e1, e2⟩ := loop_pair (data_ne file) h1 (cellsOf pa fa) (cellsOf pb fb) hl
    obtain ⟨name0, n', la, lo, ar, -, -, -, h4, h5, h6, -, -, -, rfl⟩ := cells_some e2
    cases hid
    rw [h5] at hn
    cases hn
    rw [hs] at h4
    simp only [orLast, Option.map_some] at h4
    rw [e1]
    show some kb.name = _
    rw [h6, if_neg hne]
    simpa using h4.symm

theorem slice_mid (p w s : Str) : slice p.length (p.length + w.length) (p ++ (w ++ s)) = w := by
  unfold slice
  rw [List.drop_left, Nat.add_sub_cancel_left, List.take_left]

theorem degrees_eq {num : Num} {d m t : Str} {D M S : ℚ} (hm : m.length = 2) (ht : t.length = 2)
    (h1 : num.real d = some D) (h2 : num.real m = some M)
    (h3 : (t = ['-', '-'] ∧ S = 0) ∨ (t ≠ ['-', '-'] ∧ num.real t = some S)) (hD : 0 ≤ D) :
    degrees num d.length (d ++ m ++ t) = some (D + M / 60 + S / 3600) := by
  have e1 : slice 0 d.length (d ++ m ++ t) = d := by
    have := slice_mid [] d (m ++ t)
    simpa using this
  have e2 : slice d.length (d.length + 2) (d ++ m ++ t) = m := by
    have := slice_mid d m t
    rw [hm] at this; simpa using this
  have e3 : slice (d.length + 2) (d.length + 4) (d ++ m ++ t) = t := by
    have := slice_mid (d ++ m) t []
    rw [List.length_append, hm, ht] at this; simpa using this
  unfold degrees
  rw [e1, e2, e3, h1, h2]
  rcases h3 with ⟨e, rfl⟩ | ⟨e, h3⟩
  · simp [e, not_lt.2 hD]
  · simp [e, h3, not_lt.2 hD]

/-- **C296, positions.**  A latitude `DDMMSS` is written as the degrees `D + M/60 + S/3600`, a western longitude
`DDMMSS` or `DDDMMSS` as a hyphen and those degrees; two hyphens stand for no seconds.  A blank position stays
blank.  The three watersheds whose longitude is put right are left out. -/
theorem C296_positions (num : Num) (hd : ∀ q, '\t' ∉ num.deg q) (ha : ∀ s t, num.km2 s = some t → '\t' ∉ t)
    (file out : List Str) (hf : ∀ l ∈ file, '\t' ∉ l) (h : createTsv num file = some out) (j : ℕ) (l row : Str)
    (cs : List Str) (hl : (data file)[j]? = some l) (hj : out[j + 1]? = some (row ++ ['\n']))
    (hc : Fields '\t' row cs) :
    (∀ w, Cols 76 82 l w → Blank w → cs[7]? = some []) ∧
    (∀ w d m t D M S q, Cols 76 82 l w → Trimmed w (d ++ m ++ t) → d.length = 2 → m.length = 2 → t.length = 2 →
      num.real d = some D → num.real m = some M →
      (t = ['-', '-'] ∧ S = 0 ∨ t ≠ ['-', '-'] ∧ num.real t = some S) → 0 ≤ D →
      3600 * q = 3600 * D + 60 * M + S → cs[7]? = some (num.deg q)) ∧
    (∀ id n, cs[0]? = some id → num.int id = some n → ¬ (69051 ≤ n ∧ n ≤ 69053) →
      (∀ w, Cols 83 90 l w → Blank w → cs[8]? = some []) ∧
      (∀ w d m t D M S q, Cols 83 90 l w → Trimmed w (d ++ m ++ t) → d.length = 2 ∨ d.length = 3 → m.length = 2 →
        t.length = 2 → num.real d = some D → num.real m = some M →
        (t = ['-', '-'] ∧ S = 0 ∨ t ≠ ['-', '-'] ∧ num.real t = some S) → 0 ≤ D →
        3600 * q = 3600 * D + 60 * M + S → cs[8]? = some ('-' :: num.deg q))) := by
  obtain ⟨last, k, hk⟩ := row_line hd ha hf h hl hj hc
  obtain ⟨name0, n, la, lo, ar, h1, h2, h3, h4, h5, h6, h7, h8, h9, rfl⟩ := cells_some hk
  have hq : ∀ {D M S q : ℚ}, 3600 * q = 3600 * D + 60 * M + S → D + M / 60 + S / 3600 = q := by
    intro D M S q e; linarith
  have hne : ∀ {d m t : Str}, m.length = 2 → ¬ strip (d ++ m ++ t) = d ++ m ++ t ∨ strip (d ++ m ++ t) ≠ [] := by
    intro d m t hm
    by_cases e : strip (d ++ m ++ t) = d ++ m ++ t
    · right
      rw [e]; intro e'
      have := congrArg List.length e'
      simp only [List.length_append, List.length_nil] at this
      omega
    · exact Or.inl e
  have hss : ∀ {w v : Str}, Trimmed w v → strip v = v := by
    rintro w v ⟨_, _, -, -, -, a, b⟩
    rw [Cfg.strip_iff]
    exact ⟨[], [], by simp, by simp, by simp, a, b⟩
  refine ⟨?_, ?_, ?_⟩
  · intro w hw hb
    rw [← slice_iff] at hw
    rw [hw, (strip_nil_iff _).2 hb] at h7
    simp only [latCell] at h7
    rw [if_pos (by rfl)] at h7
    cases h7; rfl
  · intro w d m t D M S q hw htr hd2 hm ht g1 g2 g3 hD e
    rw [← slice_iff] at hw
    have hs := hss htr
    rw [hw, (Cfg.strip_iff _ _).2 htr] at h7
    unfold latCell at h7
    rw [if_neg ((hne hm).resolve_left (not_not.2 hs)), ← hd2, degrees_eq hm ht g1 g2 g3 hD, hq e] at h7
    cases h7; rfl
  · intro id n' hid hn hno
    cases hid
    rw [h5] at hn
    cases hn
    have hlon : lonDms n l = strip (slice 83 90 l) := if_neg hno
    rw [hlon] at h8
    refine ⟨?_, ?_⟩
    · intro w hw hb
      rw [← slice_iff] at hw
      rw [hw, (strip_nil_iff _).2 hb] at h8
      simp only [lonCell] at h8
      rw [if_pos (by rfl)] at h8
      cases h8; rfl
    · intro w d m t D M S q hw htr hd2 hm ht g1 g2 g3 hD e
      rw [← slice_iff] at hw
      have hs := hss htr
      rw [hw, (Cfg.strip_iff _ _).2 htr] at h8
      unfold lonCell at h8
      have hi : (if (d ++ m ++ t).length = 6 then 2 else 3) = d.length := by
        simp only [List.length_append]
        split_ifs <;> omega
      rw [if_neg ((hne hm).resolve_left (not_not.2 hs)), hi, degrees_eq hm ht g1 g2 g3 hD, hq e] at h8
      cases h8; rfl

/-- **C296, corrected longitudes.**  For the watersheds 69051 to 69053 the degrees of the longitude are 97 whatever the
index gives; minutes and seconds are those of the index. -/
theorem C296_corrected (num : Num) (hd : ∀ q, '\t' ∉ num.deg q) (ha : ∀ s t, num.km2 s = some t → '\t' ∉ t)
    (file out : List Str) (hf : ∀ l ∈ file, '\t' ∉ l) (h : createTsv num file = some out) (j : ℕ) (l row : Str)
    (cs : List Str) (hl : (data file)[j]? = some l) (hj : out[j + 1]? = some (row ++ ['\n']))
    (hc : Fields '\t' row cs) (id : Str) (n : ℤ) (hid : cs[0]? = some id) (hn : num.int id = some n)
    (h1 : 69051 ≤ n) (h2 : n ≤ 69053) (w d m t : Str) (D M S q : ℚ) (hw : Cols 83 90 l w)
    (htr : Trimmed w (d ++ m ++ t)) (hm : m.length = 2) (ht : t.length = 2)
    (g1 : num.real "97".toList = some D)
    (g2 : num.real m = some M) (g3 : t = ['-', '-'] ∧ S = 0 ∨ t ≠ ['-', '-'] ∧ num.real t = some S) (hD : 0 ≤ D)
    (e : 3600 * q = 3600 * D + 60 * M + S) :
    cs[6]? = some ("-97".toList ++ m ++ t) ∧ cs[8]? = some ('-' :: num.deg q) := by
  obtain ⟨last, k, hk⟩ := row_line hd ha hf h hl hj hc
  obtain ⟨name0, n', la, lo, ar, -, -, -, -, h5, -, -, h8, -, rfl⟩ := cells_some hk
  cases hid
  rw [h5] at hn
  cases hn
  rw [← slice_iff] at hw
  have hlon : lonDms n l = "97".toList ++ m ++ t := by
    unfold lonDms
    rw [if_pos ⟨h1, h2⟩, hw, (Cfg.strip_iff _ _).2 htr]
    unfold tail
    have : (d ++ m ++ t).length - 4 = d.length := by simp only [List.length_append]; omega
    rw [this, List.append_assoc d, List.drop_left, List.append_assoc]
  have hs : strip ("97".toList ++ m ++ t) = "97".toList ++ m ++ t := by
    rw [Cfg.strip_iff]
    refine ⟨[], [], by simp, by simp, by simp, ?_, ?_⟩
    · intro c hc; simp at hc; subst hc; decide
    · intro c hc
      have htn : t ≠ [] := by rintro rfl; simp at ht
      rw [List.getLast?_append_of_ne_nil _ htn] at hc
      obtain ⟨_, _, -, -, -, -, b⟩ := htr
      exact b c (by rw [List.getLast?_append_of_ne_nil _ htn]; exact hc)
  refine ⟨?_, ?_⟩
  · show some (lonDmsCell (lonDms n l)) = _
    rw [hlon]; rfl
  · rw [hlon] at h8
    unfold lonCell at h8
    have hi : (if ("97".toList ++ m ++ t).length = 6 then 2 else 3) = "97".toList.length := by
      simp [hm, ht]
    have hne : strip ("97".toList ++ m ++ t) ≠ [] := by rw [hs]; simp
    rw [if_neg hne, hi, degrees_eq hm ht g1 g2 g3 hD] at h8
    have : D + M / 60 + S / 3600 = q := by linarith
    rw [this] at h8
    cases h8; rfl

/-- **C296, dates.**  A date `MM/DD/YY` is written as `19YY-MM-DD`; a blank last date stays blank, and `present` in
any case of the letters is written as `Present`. -/
theorem C296_dates_partial (num : Num) (hd : ∀ q, '\t' ∉ num.deg q) (ha : ∀ s t, num.km2 s = some t → '\t' ∉ t)
    (file out : List Str) (hf : ∀ l ∈ file, '\t' ∉ l) (h : createTsv num file = some out) (j : ℕ) (l row : Str)
    (cs : List Str) (hl : (data file)[j]? = some l) (hj : out[j + 1]? = some (row ++ ['\n']))
    (hc : Fields '\t' row cs) :
    (∀ m1 m2 d1 d2 y1 y2 : Char, Cols 47 55 l [m1, m2, '/', d1, d2, '/', y1, y2] →
      cs[11]? = some ['1', '9', y1, y2, '-', m1, m2, '-', d1, d2]) ∧
    (∀ m1 m2 d1 d2 y1 y2 : Char, m1.isDigit = true → y2.isDigit = true →
      Cols 56 64 l [m1, m2, '/', d1, d2, '/', y1, y2] →
      cs[12]? = some ['1', '9', y1, y2, '-', m1, m2, '-', d1, d2]) ∧
    (∀ w, Cols 56 64 l w → Blank w → cs[12]? = some []) ∧
    (∀ w v, Cols 56 64 l w → Trimmed w v → v.map Char.toLower = "present".toList →
      cs[12]? = some "Present".toList) := by
  obtain ⟨last, k, hk⟩ := row_line hd ha hf h hl hj hc
  obtain ⟨name0, n, la, lo, ar, h1, h2, h3, h4, h5, h6, h7, h8, h9, rfl⟩ := cells_some hk
  have hdig : ∀ {c : Char}, c.isDigit = true → c.isWhitespace = false := by
    intro c hc
    by_contra hw
    simp only [Bool.not_eq_false] at hw
    simp only [Char.isWhitespace, Bool.or_eq_true, decide_eq_true_eq] at hw
    rcases hw with ((rfl | rfl) | rfl) | rfl <;> simp [Char.isDigit] at hc
  refine ⟨?_, ?_, ?_, ?_⟩
  · intro m1 m2 d1 d2 y1 y2 hw
    rw [← slice_iff] at hw
    show some (startCell l) = _
    simp only [startCell, hw]
    simp [iso, tail, slice]
  · intro m1 m2 d1 d2 y1 y2 hm hy hw
    rw [← slice_iff] at hw
    show some (endCell l) = _
    have hs : strip [m1, m2, '/', d1, d2, '/', y1, y2] = [m1, m2, '/', d1, d2, '/', y1, y2] := by
      rw [Cfg.strip_iff]
      refine ⟨[], [], by simp, by simp, by simp, ?_, ?_⟩
      · intro c e; simp at e; exact e ▸ hdig hm
      · intro c e; simp at e; exact e ▸ hdig hy
    have hp : ¬ lower [m1, m2, '/', d1, d2, '/', y1, y2] = "present".toList := by
      intro e
      have := congrArg List.length e
      simp [lower] at this
    simp only [endCell, hw, hs]
    rw [if_neg (by simp), if_neg hp]
    simp [iso, tail, slice]
  · intro w hw hb
    rw [← slice_iff] at hw
    show some (endCell l) = _
    simp only [endCell, hw]
    rw [if_pos ((strip_nil_iff _).2 hb)]
  · intro w v hw htr hv
    rw [← slice_iff] at hw
    show some (endCell l) = _
    simp only [endCell, hw, (Cfg.strip_iff _ _).2 htr]
    rw [if_neg (by rintro rfl; exact absurd hv (by decide)), if_pos (show lower v = _ from hv)]

/-- **C296, negated.**  A blank first date does not stay blank: it is written as `19`, blanks and hyphens. -/
theorem C296_start_violated : ∃ (file out : List Str) (l row : Str) (cs : List Str),
    (∀ x ∈ file, '\t' ∉ x) ∧ createTsv sample file = some out ∧ (data file)[1]? = some l ∧
    out[2]? = some (row ++ ['\n']) ∧ Fields '\t' row cs ∧ Cols 47 55 l (List.replicate 8 ' ') ∧
    cs[11]? = some "19  -  -  ".toList := by
  have e : ∃ cs0 cs1, loop sample none (data sampleFile) = some [cs0, cs1] ∧ cs1[11]? = some "19  -  -  ".toList ∧
      cs1 ≠ [] ∧ ∀ w ∈ cs1, '\t' ∉ w := by
    refine ⟨_, _, rfl, ?_⟩
    decide +kernel
  obtain ⟨cs0, cs1, h1, h2, h3, h4⟩ := e
  refine ⟨sampleFile, [header, rowLine cs0, rowLine cs1], _, List.intercalate ['\t'] cs1, cs1, by decide +kernel, ?_,
    rfl, rfl, ⟨h3, rfl, h4⟩, ?_, h2⟩
  · unfold createTsv; rw [loop_filter]; change Option.map _ (loop sample none (data sampleFile)) = _; rw [h1]; rfl
  · rw [← slice_iff]; decide +kernel

/-- **C297.**  For every row of the table, the name is the name of the watershed, the location and the state with
commas between them, and the long name is the same after the alternate name, if the row has one. -/
theorem C297_names (row id loc st alt name v1 v2 v3 v4 : Str) (rest : List Str)
    (h : Fields '\t' row (id :: loc :: st :: alt :: name :: rest)) (h1 : Trimmed loc v1) (h2 : Trimmed st v2)
    (h3 : Trimmed alt v3) (h4 : Trimmed name v4) :
    arsName (Cfg.split '\t' row) = some (v4 ++ ", ".toList ++ v1 ++ ", ".toList ++ v2) ∧
    (v3 = ['-'] → arsLongName (Cfg.split '\t' row) = some (v4 ++ ", ".toList ++ v1 ++ ", ".toList ++ v2)) ∧
    (v3 ≠ ['-'] → arsLongName (Cfg.split '\t' row) =
      some (v3 ++ ", ".toList ++ (v4 ++ ", ".toList ++ v1 ++ ", ".toList ++ v2))) := by
  rw [SiteId.fields_iff] at h
  rw [← Cfg.strip_iff] at h1 h2 h3 h4
  subst h1 h2 h3 h4
  rw [h]
  refine ⟨by simp [arsName], fun e => by simp [arsLongName, e], fun e => by simp [arsLongName, e]⟩

example : arsLongName (Cfg.split '\t' "63001\tTombstone\tAZ\tWalnut Gulch\tW-1\t\n".toList) =
    some "Walnut Gulch, W-1, Tombstone, AZ".toList := by decide +kernel

end Ars
