import Verif.ClimTabModel
import Verif.SiteIdProps

/-!
# The table of climate indicators of the GAGES-II sites: C299
-/

set_option autoImplicit false

namespace ClimTabSpec

open Cfg (Str)
open SiteIdSpec (Fields)

/-- The IDs that lack their zero in the source. -/
def wrongIds : List Str :=
  ["136230002", "142400103", "143400680", "163626650", "204382800", "208111310", "208650112", "21536097",
   "344894205", "357479650", "423401815", "72632962", "72632971", "72632982", "73274406", "810464660"].map String.toList

/-- The right ID for one in the source. -/
def right (id : Str) : Str := if id ∈ wrongIds then '0' :: id else id

/-- The names of the computed columns. -/
def added : List Str :=
  ["SNOW_FRACTION", "TEMP_RANGE", "SEASONALITY1", "ARIDITY", "SWB_CLASS", "LATITUDE", "LONGITUDE", "ARIDITY2",
   "ARIDITY_DIFF", "K_ARIDITY", "K_SEASONALITY", "K_SNOW_FRAC"].map String.toList

/-- The dictionary gives each name the value in the same place, and nothing to other names. -/
def Dict (hs vs : List Str) (d : Str → Option Str) : Prop :=
  (∀ (k : ℕ) (h v : Str), hs[k]? = some h → vs[k]? = some v → d h = some v) ∧ ∀ h, h ∉ hs → d h = none

/-- The line, ended by a newline character, has this ID and these other values. -/
def Line (l id : Str) (vs : List Str) : Prop := ∃ t, l = t ++ ['\n'] ∧ Fields ',' t (id :: vs)

end ClimTabSpec

namespace ClimTab

open Cfg (Str strip split)
open SiteIdSpec (Fields)
open ClimTabSpec

theorem line_split {l id : Str} {vs : List Str} (h : Line l id vs) : split ',' l.dropLast = id :: vs := by
  obtain ⟨t, rfl, h⟩ := h
  rw [List.dropLast_concat]
  exact SiteId.fields_iff.1 h

theorem line_values {l id : Str} {vs : List Str} (h : Line l id vs) : values l = right id :: vs := by
  unfold values
  rw [line_split h]
  rfl

theorem line_id {l id : Str} {vs : List Str} (h : Line l id vs) : siteId l = id := by
  unfold siteId
  rw [line_split h]
  rfl

theorem lookup_mem {α β : Type} [BEq α] [LawfulBEq α] {l : List (α × β)} {a : α} {b : β}
    (hn : (l.map Prod.fst).Nodup) (h : (a, b) ∈ l) : l.lookup a = some b := by
  induction l with
  | nil => simp at h
  | cons p r ih =>
    simp only [List.map_cons, List.nodup_cons] at hn
    rcases List.mem_cons.1 h with rfl | h'
    · simp [List.lookup]
    · have : (a == p.1) = false := by
        rw [beq_eq_false_iff_ne]
        rintro rfl
        exact hn.1 (List.mem_map.2 ⟨_, h', rfl⟩)
      obtain ⟨p1, p2⟩ := p
      simp only [List.lookup]
      simp only at this
      rw [this]
      exact ih hn.2 h'

theorem lookup_none {α β : Type} [BEq α] [LawfulBEq α] {l : List (α × β)} {a : α} (h : a ∉ l.map Prod.fst) :
    l.lookup a = none := by
  induction l with
  | nil => rfl
  | cons p r ih =>
    obtain ⟨p1, p2⟩ := p
    simp only [List.map_cons, List.mem_cons, not_or] at h
    simp only [List.lookup]
    rw [beq_eq_false_iff_ne.2 h.1]
    exact ih h.2

theorem get_of {hs vs : List Str} (hn : hs.Nodup) (hl : vs.length = hs.length) {k : ℕ} {h v : Str}
    (h1 : hs[k]? = some h) (h2 : vs[k]? = some v) : get hs vs h = some v := by
  unfold get
  have e : (hs.zip vs).map Prod.fst = hs := List.map_fst_zip (by omega)
  refine lookup_mem ?_ ?_
  · rw [List.map_reverse, e]; exact List.nodup_reverse.2 hn
  · rw [List.mem_reverse]
    apply List.mem_of_getElem? (i := k)
    rw [List.getElem?_zip_eq_some]
    exact ⟨h1, h2⟩

theorem get_new {hs vs : List Str} (hl : vs.length = hs.length) {h : Str} (hh : h ∉ hs) : get hs vs h = none := by
  unfold get
  apply lookup_none
  rw [List.map_reverse, List.mem_reverse, List.map_fst_zip (by omega)]
  exact hh

/-- The cells are the values of the line and the computed texts. -/
theorem cells_eq {Info : Type} {comp : Info → (Str → Option Str) → Option (Str → Str)} {hs vs : List Str} {i : Info}
    (hn : hs.Nodup) (hd : ∀ h ∈ newHeadings, h ∉ hs) (hl : vs.length = hs.length) {f : Str → Str}
    (hf : comp i (get hs vs) = some f) : cells comp hs vs i = some (vs ++ newHeadings.map f) := by
  unfold cells
  rw [if_neg (by omega), hf, Option.map_some, List.map_append]
  congr 2
  · apply List.ext_getElem?
    intro k
    rw [List.getElem?_map]
    rcases h1 : hs[k]? with _ | h
    · rw [List.getElem?_eq_none_iff] at h1
      simp only [Option.map_none]
      exact (List.getElem?_eq_none_iff.2 (by omega)).symm
    · have hk : k < vs.length := by rw [hl]; exact (List.getElem?_eq_some_iff.1 h1).1
      rw [Option.map_some, get_of hn hl h1 (List.getElem?_eq_getElem hk), Option.getD_some,
        List.getElem?_eq_getElem hk]
  · apply List.map_congr_left
    intro h hh
    rw [get_new hl (hd h hh)]
    rfl

theorem headings_eq {head : Str} {ws hs : List Str} (hf : Fields ',' head ws) (hw : List.Forall₂ Cfg.Trimmed ws hs) :
    headings head = hs := by
  unfold headings
  rw [SiteId.fields_iff.1 hf]
  clear hf
  induction hw with
  | nil => rfl
  | cons h _ ih => rw [List.map_cons, ih, (Cfg.strip_iff _ _).2 h]

/-- **C299**, part that holds.  Each site that is in the dictionary *under the ID of the source* gets one row, in the
order of the source; its cells are the right ID, the other values and the computed texts, under the names of the source
and the twelve new ones.  Other sites get no row. -/
theorem C299_rows_partial {Info : Type} (comp : Info → (Str → Option Str) → Option (Str → Str))
    (info : Str → Option Info) (head : Str) (ws hs : List Str) (src : List (Str × Str × List Str))
    (hf : Fields ',' head ws) (hw : List.Forall₂ Cfg.Trimmed ws hs) (hn : hs.Nodup) (hd : ∀ h ∈ hs, h ∉ added)
    (hl : ∀ s ∈ src, Line s.1 s.2.1 s.2.2 ∧ s.2.2.length + 1 = hs.length)
    (out : List (List Str)) (h : table comp info (head :: src.map Prod.fst) = some out) :
    ∃ rows, out = (hs ++ added) :: rows ∧
      List.Forall₂ (fun s row => ∃ i d f, info s.2.1 = some i ∧ Dict hs (right s.2.1 :: s.2.2) d ∧
        comp i d = some f ∧ row = right s.2.1 :: s.2.2 ++ added.map f)
        (src.filter (fun s => (info s.2.1).isSome)) rows := by
  unfold table at h
  simp only at h
  rw [headings_eq hf hw] at h
  obtain ⟨rows, h1, rfl⟩ := Option.map_eq_some_iff.1 h
  refine ⟨rows, rfl, ?_⟩
  clear h
  induction src generalizing rows with
  | nil => simp only [List.map_nil, loop, Option.some.injEq] at h1; subst h1; exact List.Forall₂.nil
  | cons s r ih =>
    obtain ⟨hs1, hs2⟩ := hl s (by simp)
    rw [List.map_cons, loop, line_values hs1, if_neg (by simp only [List.length_cons]; omega), line_id hs1] at h1
    rcases hi : info s.2.1 with _ | i
    · rw [hi] at h1
      rw [List.filter_cons_of_neg (by simp [hi])]
      exact ih (fun x hx => hl x (by simp [hx])) rows h1
    · rw [hi] at h1
      simp only [Option.bind_eq_bind, Option.bind_eq_some_iff, Option.pure_def, Option.some.injEq] at h1
      obtain ⟨cs, h2, rest, h3, rfl⟩ := h1
      rw [List.filter_cons_of_pos (by simp [hi])]
      refine List.Forall₂.cons ?_ (ih (fun x hx => hl x (by simp [hx])) rest h3)
      have hlen : (right s.2.1 :: s.2.2).length = hs.length := by simp only [List.length_cons]; omega
      rcases hf' : comp i (get hs (right s.2.1 :: s.2.2)) with _ | f
      · unfold cells at h2
        rw [if_neg (by omega), hf'] at h2
        cases h2
      · rw [cells_eq hn (fun h a b => hd h b a) hlen hf'] at h2
        cases h2
        exact ⟨i, get hs (right s.2.1 :: s.2.2), f, hi,
          ⟨fun k h v a b => get_of hn hlen a b, fun h a => get_new hlen a⟩, hf', rfl⟩

/-- A source with two sites, for the examples; the ID of the second lacks its zero. -/
def sampleFile : List Str :=
  ["STAID,PET\n".toList, "01013500,504.7\n".toList, "136230002,541.9\n".toList]

example : table (fun (_ : ℕ) _ => some id) (fun s => if s = "01013500".toList then some 1 else none) sampleFile =
    some [["STAID".toList, "PET".toList] ++ added, ["01013500".toList, "504.7".toList] ++ added] := by decide +kernel

/-- **C299, negated.**  A site whose ID lacks its zero in the source gets no row if the dictionary has it under the right
ID only, for every such ID and all other values. -/
theorem C299_zero_violated {Info : Type} (comp : Info → (Str → Option Str) → Option (Str → Str))
    (info : Str → Option Info) (head : Str) (ws hs : List Str) (l id : Str) (vs : List Str)
    (hf : Fields ',' head ws) (hw : List.Forall₂ Cfg.Trimmed ws hs) (hl : Line l id vs)
    (hlen : vs.length + 1 = hs.length) (hid : id ∈ wrongIds) (_ : (info (right id)).isSome) (h1 : info id = none) :
    right id = '0' :: id ∧ table comp info [head, l] = some [hs ++ added] := by
  refine ⟨if_pos hid, ?_⟩
  unfold table
  simp only
  rw [headings_eq hf hw, loop, line_values hl, if_neg (by simp only [List.length_cons]; omega), line_id hl, h1]
  rfl

example : Line "136230002,541.9\n".toList "136230002".toList ["541.9".toList] ∧ "136230002".toList ∈ wrongIds :=
  ⟨⟨"136230002,541.9".toList, by decide +kernel, by decide +kernel, by decide +kernel, by decide +kernel⟩,
    by decide +kernel⟩

end ClimTab
