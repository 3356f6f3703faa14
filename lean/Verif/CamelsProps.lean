import Verif.CamelsModel
import Verif.SiteIdProps
import Mathlib.Data.List.Chain
import Mathlib.Algebra.Order.Ring.Rat

/-!
# Boxes of the CAMELS basins (C293) and their table (C294)
-/

set_option autoImplicit false

namespace Camels

open Cfg (Str)
open SiteIdSpec (Fields)

/-! ## Specification -/

namespace Spec

variable {K : Type} [Field K] [LinearOrder K]

/-- The smallest box that holds all boxes: it holds them, and each of its sides is that of one of them. -/
def Hull (bs : List (Box K)) (b : Box K) : Prop :=
  (∀ x ∈ bs, b.w ≤ x.w ∧ x.e ≤ b.e ∧ b.s ≤ x.s ∧ x.n ≤ b.n) ∧
  (∃ x ∈ bs, b.w = x.w) ∧ (∃ x ∈ bs, b.e = x.e) ∧ (∃ x ∈ bs, b.s = x.s) ∧ (∃ x ∈ bs, b.n = x.n)

/-- Geographic coordinates. -/
def Geographic (b : Box K) : Prop := b.w ≤ 180 ∧ -180 ≤ b.e ∧ b.s ≤ 90 ∧ -90 ≤ b.n

/-- The features are those of the basins, one basin after the other, each with one unit or more. -/
def Basins (feats : List (Str × Box K)) (basins : List (Str × List (Box K))) : Prop :=
  feats = (basins.map fun g => g.2.map (Prod.mk g.1)).flatten ∧
  (∀ g ∈ basins, g.2 ≠ [] ∧ g.1 ≠ "00000000".toList ∧ ∀ b ∈ g.2, Geographic b) ∧
  basins.IsChain (fun a b => a.1 ≠ b.1)

/-- A row of one of the files: eight characters of an ID, a semicolon, and the rest. -/
def Row (id rest line : Str) : Prop := id.length = 8 ∧ ';' ∉ id ∧ line = id ++ [';'] ++ rest ++ ['\n']

/-- No tab and no newline character. -/
def Clean (s : Str) : Prop := '\t' ∉ s ∧ '\n' ∉ s

end Spec

open Spec

variable {K : Type} [Field K] [LinearOrder K]

/-! ## C293 -/

theorem rows1_eq (nb n : ℕ) (fs : List (Str × Box K)) :
    rows1 nb n fs = (fs.map fun f => (gaugeId f.1, f.2)).take (max nb (n + 1) - n) := by
  induction fs generalizing n with
  | nil => simp [rows1]
  | cons f fs ih =>
    obtain ⟨g, b⟩ := f
    simp only [rows1, List.map_cons]
    obtain ⟨k, hk⟩ : ∃ k, max nb (n + 1) - n = k + 1 := ⟨max nb (n + 1) - n - 1, by omega⟩
    rw [hk, List.take_succ_cons]
    split_ifs with h
    · have : k = 0 := by omega
      rw [this, List.take_zero]
    · rw [ih, show max nb (n + 1 + 1) - (n + 1) = k by omega]

/-- **C293 (first file).**  With the boxes of whole basins, the file has one row for each basin, up to the number
asked for (but at least one), with the ID filled up to eight characters. -/
theorem C293_whole (nb : ℕ) (fs : List (Str × Box K)) :
    ∃ ids, rows1 nb 0 fs = (List.zip ids (fs.map Prod.snd)).take (max nb 1) ∧
      List.Forall₂ (fun (f : Str × Box K) id => (f.1.length = 7 ∧ id = "0".toList ++ f.1) ∨ (f.1.length ≠ 7 ∧ id = f.1))
        fs ids := by
  refine ⟨fs.map (fun f => gaugeId f.1), ?_, ?_⟩
  · rw [rows1_eq]
    simp only [Nat.zero_add, Nat.sub_zero]
    congr 1
    induction fs with
    | nil => rfl
    | cons f fs ih => simp only [List.map_cons, List.zip_cons_cons, ih]
  · rw [List.forall₂_map_right_iff, List.forall₂_same]
    intro f _
    by_cases h : f.1.length = 7
    · left; refine ⟨h, ?_⟩; rw [gaugeId, if_pos h]; rfl
    · right; exact ⟨h, by rw [gaugeId, if_neg h]⟩

/-- The box of a basin. -/
def hull : List (Box K) → Box K
  | [] => ⟨0, 0, 0, 0⟩
  | b :: bs => bs.foldl (fun a x => join x a) b

theorem hull_spec (b : Box K) (bs : List (Box K)) : Hull (b :: bs) (bs.foldl (fun a x => join x a) b) := by
  induction bs using List.reverseRecOn with
  | nil =>
    refine ⟨?_, ?_, ?_, ?_, ?_⟩ <;> simp
  | append_singleton bs x ih =>
    obtain ⟨h1, ⟨a, ha, ea⟩, ⟨c, hc, ec⟩, ⟨d, hd, ed⟩, ⟨f, hf, ef⟩⟩ := ih
    rw [List.foldl_append, List.foldl_cons, List.foldl_nil]
    have hx : x ∈ b :: (bs ++ [x]) := by simp
    have hs : ∀ y ∈ b :: bs, y ∈ b :: (bs ++ [x]) := by
      intro y hy
      rcases List.mem_cons.1 hy with rfl | hy <;> simp [*]
    refine ⟨?_, ?_, ?_, ?_, ?_⟩
    · intro y hy
      have hy : y ∈ b :: bs ∨ y = x := by
        rcases List.mem_cons.1 hy with rfl | hy
        · left; simp
        · rcases List.mem_append.1 hy with hy | hy
          · left; simp [hy]
          · right; simpa using hy
      rcases hy with hy | rfl
      · obtain ⟨p, q, r, t⟩ := h1 y hy
        exact ⟨min_le_of_right_le p, le_max_of_le_right q, min_le_of_right_le r, le_max_of_le_right t⟩
      · exact ⟨min_le_left _ _, le_max_left _ _, min_le_left _ _, le_max_left _ _⟩
    · rcases min_choice x.w (bs.foldl (fun a x => join x a) b).w with h | h
      · exact ⟨x, hx, h⟩
      · exact ⟨a, hs a ha, h.trans ea⟩
    · rcases max_choice x.e (bs.foldl (fun a x => join x a) b).e with h | h
      · exact ⟨x, hx, h⟩
      · exact ⟨c, hs c hc, h.trans ec⟩
    · rcases min_choice x.s (bs.foldl (fun a x => join x a) b).s with h | h
      · exact ⟨x, hx, h⟩
      · exact ⟨d, hs d hd, h.trans ed⟩
    · rcases max_choice x.n (bs.foldl (fun a x => join x a) b).n with h | h
      · exact ⟨x, hx, h⟩
      · exact ⟨f, hs f hf, h.trans ef⟩

theorem loop_same (nb : ℕ) (bs : List (Box K)) (r : List (Str × Box K)) (g : Str) (box : Box K) (n : ℕ) :
    loop nb (bs.map (Prod.mk g) ++ r) g box n = loop nb r g (bs.foldl (fun a x => join x a) box) n := by
  induction bs generalizing box with
  | nil => rfl
  | cons b bs ih => simp only [List.map_cons, List.cons_append, loop, true_or, if_true, ih, List.foldl_cons]

theorem loop_groups (nb : ℕ) (gs : List (Str × List (Box K))) (last : Str) (box : Box K) (n : ℕ)
    (hz : last ≠ zeros) (hg : ∀ g ∈ gs, g.2 ≠ [] ∧ g.1 ≠ zeros)
    (hc : ((last, [box]) :: gs).IsChain (fun a b => a.1 ≠ b.1)) :
    loop nb (gs.map fun g => g.2.map (Prod.mk g.1)).flatten last box n =
      (((last, box) :: gs.map fun g => (g.1, hull g.2)).dropLast).take (max nb (n + 1) - n) := by
  induction gs generalizing last box n with
  | nil => simp [loop]
  | cons g gs ih =>
    obtain ⟨g, bs⟩ := g
    obtain ⟨h1, h2⟩ := hg _ (List.mem_cons_self ..)
    obtain ⟨b, bs, rfl⟩ := List.exists_cons_of_ne_nil h1
    rw [List.isChain_cons_cons] at hc
    have hne : ¬ (g = last ∨ last = zeros) := by
      rintro (e | e)
      · exact hc.1 e.symm
      · exact hz e
    have hc' : ((g, [hull (b :: bs)]) :: gs).IsChain (fun a b => a.1 ≠ b.1) := by
      have := hc.2
      cases gs with
      | nil => simp
      | cons x xs =>
        rw [List.isChain_cons_cons] at this ⊢
        exact this
    have := ih g (hull (b :: bs)) (n + 1) h2 (fun x hx => hg x (List.mem_cons_of_mem _ hx)) hc'
    simp only [List.map_cons, List.flatten_cons, List.cons_append, loop]
    rw [if_neg hne, loop_same]
    obtain ⟨k, hk⟩ : ∃ k, max nb (n + 1) - n = k + 1 := ⟨max nb (n + 1) - n - 1, by omega⟩
    rw [hk, List.dropLast_cons₂, List.take_succ_cons]
    congr 1
    split_ifs with h
    · have : k = 0 := by omega
      rw [this, List.take_zero]
    · rw [show max nb (n + 1 + 1) - (n + 1) = k by omega] at this
      exact this

theorem join_start (b : Box K) (h : Geographic b) : join b ⟨180, -180, 90, -90⟩ = b := by
  obtain ⟨h1, h2, h3, h4⟩ := h
  simp only [join, min_eq_left h1, max_eq_left h2, min_eq_left h3, max_eq_left h4]

theorem rows2_eq (nb : ℕ) (fs : List (Str × Box K)) (basins : List (Str × List (Box K))) (h : Basins fs basins) :
    rows2 nb fs = ((basins.map fun g => (g.1, hull g.2)).dropLast).take (max nb 1) := by
  obtain ⟨rfl, hg, hc⟩ := h
  cases basins with
  | nil => simp [rows2, loop]
  | cons g gs =>
    obtain ⟨g, bs⟩ := g
    obtain ⟨h1, h2, h3⟩ := hg _ (List.mem_cons_self ..)
    obtain ⟨b, bs, rfl⟩ := List.exists_cons_of_ne_nil h1
    simp only [rows2, List.map_cons, List.flatten_cons, List.cons_append, loop, or_true, if_true]
    rw [join_start b (h3 b (List.mem_cons_self ..)), loop_same, loop_groups]
    · simp [hull]
    · exact h2
    · intro x hx
      exact ⟨(hg x (List.mem_cons_of_mem _ hx)).1, (hg x (List.mem_cons_of_mem _ hx)).2.1⟩
    · cases gs with
      | nil => simp
      | cons x xs =>
        rw [List.isChain_cons_cons] at hc ⊢
        exact hc

/-- **C293 (part, second file).**  With the boxes of the units of basins that follow one another, every basin but the last
has a row with the smallest box that holds those of its units, up to the number asked for (but at least one).
Missing: the last basin, for which the claim is false (below). -/
theorem C293_units_partial (nb : ℕ) (fs : List (Str × Box K)) (basins : List (Str × List (Box K)))
    (h : Basins fs basins) :
    List.Forall₂ (fun g r => r.1 = g.1 ∧ Hull g.2 r.2) (basins.dropLast.take (max nb 1)) (rows2 nb fs) := by
  rw [rows2_eq nb fs basins h, ← List.map_dropLast, ← List.map_take, List.forall₂_map_right_iff, List.forall₂_same]
  intro g hg
  refine ⟨rfl, ?_⟩
  have hm : g ∈ basins := List.dropLast_subset _ (List.take_subset _ _ hg)
  obtain ⟨b, bs, e⟩ := List.exists_cons_of_ne_nil (h.2.1 g hm).1
  rw [e]
  exact hull_spec b bs

/-- **C293, negated.**  The last basin never has a row; a file with the units of one basin has none at all. -/
theorem C293_last_violated (nb : ℕ) (fs : List (Str × Box K)) (basins : List (Str × List (Box K))) (g : Str)
    (bs : List (Box K)) (h : Basins fs (basins ++ [(g, bs)])) (hg : ∀ x ∈ basins, x.1 ≠ g) :
    (∀ r ∈ rows2 nb fs, r.1 ≠ g) ∧ (basins = [] → rows2 nb fs = []) := by
  rw [rows2_eq nb fs _ h, ← List.map_dropLast, List.dropLast_concat]
  constructor
  · intro r hr
    have := List.take_subset _ _ hr
    obtain ⟨x, hx, rfl⟩ := List.mem_map.1 this
    exact hg x hx
  · rintro rfl; simp

/-- A unit square. -/
def sq (x : ℚ) : Box ℚ := ⟨x, x + 1, 40, 41⟩

def sampleFeats : List (Str × Box ℚ) :=
  [("01013500".toList, sq (-70)), ("01013500".toList, sq (-69)), ("01022500".toList, sq (-68))]

example : Basins sampleFeats [("01013500".toList, [sq (-70), sq (-69)]), ("01022500".toList, [sq (-68)])] := by
  refine ⟨rfl, ?_, ?_⟩
  · intro g hg
    rcases List.mem_cons.1 hg with rfl | hg
    · refine ⟨by simp, by decide +kernel, ?_⟩
      intro b hb
      rcases List.mem_cons.1 hb with rfl | hb
      · refine ⟨?_, ?_, ?_, ?_⟩ <;> decide +kernel
      · rw [List.mem_singleton] at hb; subst hb
        refine ⟨?_, ?_, ?_, ?_⟩ <;> decide +kernel
    · rw [List.mem_singleton] at hg; subst hg
      refine ⟨by simp, by decide +kernel, ?_⟩
      intro b hb
      rw [List.mem_singleton] at hb; subst hb
      refine ⟨?_, ?_, ?_, ?_⟩ <;> decide +kernel
  · rw [List.isChain_cons_cons]
    exact ⟨by decide +kernel, by simp⟩

example : rows2 700 sampleFeats = [("01013500".toList, ⟨-70, -68, 40, 41⟩)] := by decide +kernel

/-- **C293, negated.**  Units that do not follow one another give several rows for a basin. -/
theorem C293_order_violated :
    rows2 700 [("a".toList, sq 1), ("b".toList, sq 2), ("a".toList, sq 3), ("b".toList, sq 4)] =
      [("a".toList, sq 1), ("b".toList, sq 2), ("a".toList, sq 3)] := by decide +kernel

/-! ## C294 -/

theorem tabs_append (a b : Str) : tabs (a ++ b) = tabs a ++ tabs b := List.map_append ..

theorem tabs_length (a : Str) : (tabs a).length = a.length := List.length_map ..

theorem tabs_no (a : Str) (h : ';' ∉ a) : tabs a = a := by
  unfold tabs
  conv_rhs => rw [← List.map_id a]
  apply List.map_congr_left
  intro c hc
  rw [if_neg (fun e : c = ';' => h (e ▸ hc))]; rfl

theorem tail_of_row {id rest line : Str} (h : Row id rest line) : ((tabs line).drop 9).dropLast = tabs rest := by
  obtain ⟨h1, -, rfl⟩ := h
  have e : tabs (id ++ [';'] ++ rest ++ ['\n']) = (tabs id ++ ['\t']) ++ (tabs rest ++ ['\n']) := by
    simp only [tabs_append, List.append_assoc]; rfl
  rw [e, List.drop_left' (by simp [tabs_length, h1])]
  simp

theorem name_of_row {id rest line : Str} (h : Row id rest line) :
    (tabs line).dropLast = id ++ '\t' :: tabs rest := by
  obtain ⟨-, h2, rfl⟩ := h
  have e : tabs (id ++ [';'] ++ rest ++ ['\n']) = id ++ '\t' :: tabs rest ++ ['\n'] := by
    simp only [tabs_append, tabs_no id h2, List.append_assoc]; rfl
  rw [e, List.dropLast_concat]

/-- Semicolons as tabs. -/
theorem fields_tabs {l : Str} {ws : List Str} (h : Fields ';' l ws) (hl : '\t' ∉ l) : Fields '\t' (tabs l) ws := by
  rw [SiteId.fields_iff] at h ⊢
  subst h
  induction l with
  | nil => rfl
  | cons x xs ih =>
    simp only [List.mem_cons, not_or] at hl
    have := ih hl.2
    simp only [tabs, List.map_cons, Cfg.split]
    by_cases e : x = ';'
    · rw [if_pos e, if_pos rfl, if_pos e]; rw [← this]; rfl
    · rw [if_neg e, if_neg (fun h => hl.1 h.symm), if_neg e, ← this]; rfl

theorem fields_append {d : Char} {a b : Str} {u v : List Str} (ha : Fields d a u) (hb : Fields d b v) :
    Fields d (a ++ d :: b) (u ++ v) := by
  rw [SiteId.fields_iff] at ha hb ⊢
  subst ha hb
  induction a with
  | nil => simp [Cfg.split]
  | cons x xs ih =>
    simp only [List.cons_append, Cfg.split]
    split_ifs with h
    · rw [ih, List.cons_append]
    · rw [ih]
      obtain ⟨w, ws, e⟩ := List.exists_cons_of_ne_nil (Cfg.split_ne_nil d xs)
      rw [e]; simp

theorem rows_at (as bs cs ds : List Str) (hb : as.length ≤ bs.length) (hc : as.length ≤ cs.length)
    (hd : as.length ≤ ds.length) (i : ℕ) (a b c d : Str) (ha : as[i]? = some a) (hbi : bs[i]? = some b)
    (hci : cs[i]? = some c) (hdi : ds[i]? = some d) :
    (tsvRows as bs cs ds)[i]? = some ((tabs a).dropLast ++ '\t' :: (((tabs b).drop 9).dropLast ++ '\t' ::
      (((tabs c).drop 9).dropLast ++ '\t' :: (((tabs d).drop 9).dropLast ++ ['\n'])))) := by
  induction i generalizing as bs cs ds with
  | zero =>
    cases as with
    | nil => simp at ha
    | cons a' as =>
      cases bs <;> cases cs <;> cases ds <;> simp_all [tsvRows, next]
  | succ i ih =>
    cases as with
    | nil => simp at ha
    | cons a' as =>
      cases bs <;> cases cs <;> cases ds <;> simp_all [tsvRows]

theorem tsv_length (as bs cs ds : List Str) : (tsvRows as bs cs ds).length = as.length := by
  induction as generalizing bs cs ds with
  | nil => rfl
  | cons a as ih => simp [tsvRows, ih]

/-- **C294 (part).**  If line `i` of each of the four files is that of the same basin, row `i` of the table has the
columns of the four lines, the ID once.  Missing: files in another order, and a last line without newline
character, for which the claim is false (below). -/
theorem C294_rows_partial (ha hb hc hd : Str) (as bs cs ds : List Str) (h1 : as.length ≤ bs.length)
    (h2 : as.length ≤ cs.length) (h3 : as.length ≤ ds.length) (i : ℕ) (a b c d id ra rb rc rd : Str)
    (wa wb wc wd : List Str)
    (ea : as[i]? = some a) (eb : bs[i]? = some b) (ec : cs[i]? = some c) (ed : ds[i]? = some d)
    (qa : Row id ra a) (qb : Row id rb b) (qc : Row id rc c) (qd : Row id rd d)
    (fa : Fields ';' ra wa) (fb : Fields ';' rb wb) (fc : Fields ';' rc wc) (fd : Fields ';' rd wd)
    (ci : Clean id) (ca : Clean ra) (cb : Clean rb) (cc : Clean rc) (cd : Clean rd) :
    (createTsv (ha :: as) (hb :: bs) (hc :: cs) (hd :: ds)).length = as.length + 1 ∧
    ∃ row, (createTsv (ha :: as) (hb :: bs) (hc :: cs) (hd :: ds))[i + 1]? = some (row ++ ['\n']) ∧
      Fields '\t' row ([id] ++ wa ++ wb ++ wc ++ wd) := by
  refine ⟨by simp [createTsv, tsv_length], id ++ '\t' :: (tabs ra ++ '\t' :: (tabs rb ++ '\t' ::
    (tabs rc ++ '\t' :: tabs rd))), ?_, ?_⟩
  · simp only [createTsv, List.tail_cons, List.getElem?_cons_succ]
    rw [rows_at as bs cs ds h1 h2 h3 i a b c d ea eb ec ed, name_of_row qa, tail_of_row qb, tail_of_row qc,
      tail_of_row qd]
    simp
  · have hid : Fields '\t' id [id] := ⟨by simp, by simp [List.intercalate], by simpa using ci.1⟩
    have := fields_append hid (fields_append (fields_tabs fa ca.1) (fields_append (fields_tabs fb cb.1)
      (fields_append (fields_tabs fc cc.1) (fields_tabs fd cd.1))))
    simpa using this

theorem tabs_clean {s : Str} (h : '\n' ∉ s) : noNewline (tabs s) = tabs s := by
  unfold noNewline
  rw [List.filter_eq_self]
  intro c hc
  obtain ⟨x, hx, rfl⟩ := List.mem_map.1 hc
  simp only [decide_eq_true_eq]
  split_ifs with h'
  · decide
  · exact fun e => h (e ▸ hx)

/-- **C294 (header).**  The header has the names of the columns of the four files, that of the ID once. -/
theorem C294_header (a b c d ra rb rc rd : Str) (as bs cs ds : List Str) (wa wb wc wd : List Str)
    (qa : Row "gauge_id".toList ra a) (qb : Row "gauge_id".toList rb b) (qc : Row "gauge_id".toList rc c)
    (qd : Row "gauge_id".toList rd d)
    (fa : Fields ';' ra wa) (fb : Fields ';' rb wb) (fc : Fields ';' rc wc) (fd : Fields ';' rd wd)
    (ca : Clean ra) (cb : Clean rb) (cc : Clean rc) (cd : Clean rd) :
    ∃ row, (createTsv (a :: as) (b :: bs) (c :: cs) (d :: ds))[0]? = some (row ++ ['\n']) ∧
      Fields '\t' row (["gauge_id".toList] ++ wa ++ wb ++ wc ++ wd) := by
  have hn : ∀ {rest line : Str}, Row "gauge_id".toList rest line → '\n' ∉ rest →
      noNewline (tabs line) = "gauge_id".toList ++ '\t' :: tabs rest := by
    rintro rest line ⟨-, -, rfl⟩ h
    have e : tabs ("gauge_id".toList ++ [';'] ++ rest ++ ['\n']) =
        ("gauge_id".toList ++ ['\t']) ++ tabs rest ++ ['\n'] := by
      simp only [tabs_append]; rfl
    have e1 : noNewline ("gauge_id".toList ++ ['\t']) = "gauge_id".toList ++ ['\t'] := by decide +kernel
    have e2 : noNewline (tabs rest) = tabs rest := tabs_clean h
    have e3 : noNewline ['\n'] = [] := by decide
    rw [e, noNewline, List.filter_append, List.filter_append, ← noNewline, ← noNewline, ← noNewline, e1, e2, e3]
    simp
  have ht : ∀ {rest line : Str}, Row "gauge_id".toList rest line → '\n' ∉ rest →
      noNewline ((tabs line).drop 9) = tabs rest := by
    rintro rest line ⟨-, -, rfl⟩ h
    have e : tabs ("gauge_id".toList ++ [';'] ++ rest ++ ['\n']) =
        ("gauge_id".toList ++ ['\t']) ++ (tabs rest ++ ['\n']) := by
      simp only [tabs_append, List.append_assoc]; rfl
    have e2 : noNewline (tabs rest) = tabs rest := tabs_clean h
    have e3 : noNewline ['\n'] = [] := by decide
    rw [e, List.drop_left' (by decide), noNewline, List.filter_append, ← noNewline, ← noNewline, e2, e3, List.append_nil]
  refine ⟨"gauge_id".toList ++ '\t' :: (tabs ra ++ '\t' :: (tabs rb ++ '\t' :: (tabs rc ++ '\t' :: tabs rd))), ?_, ?_⟩
  · simp only [createTsv, next, List.headD_cons, List.getElem?_cons_zero, hn qa ca.2, ht qb cb.2, ht qc cc.2, ht qd cd.2]
    simp
  · have hid : Fields '\t' "gauge_id".toList ["gauge_id".toList] :=
      ⟨by simp, by simp [List.intercalate], by decide +kernel⟩
    have := fields_append hid (fields_append (fields_tabs fa ca.1) (fields_append (fields_tabs fb cb.1)
      (fields_append (fields_tabs fc cc.1) (fields_tabs fd cd.1))))
    simpa only [List.append_assoc, List.singleton_append, List.cons_append, List.nil_append] using this

/-- **C294, negated.**  The IDs of the files of boxes, topography and climate are not looked at: the row is the same
whatever they are. -/
theorem C294_order_violated (ha hb hc hd : Str) (a b c d b' c' d' id idb idc idd ra rb rc rd : Str)
    (qa : Row id ra a) (qb : Row id rb b) (qc : Row id rc c) (qd : Row id rd d)
    (qb' : Row idb rb b') (qc' : Row idc rc c') (qd' : Row idd rd d') :
    createTsv [ha, a] [hb, b'] [hc, c'] [hd, d'] = createTsv [ha, a] [hb, b] [hc, c] [hd, d] ∧
    (createTsv [ha, a] [hb, b'] [hc, c'] [hd, d'])[1]? =
      some (id ++ ['\t'] ++ tabs ra ++ ['\t'] ++ tabs rb ++ ['\t'] ++ tabs rc ++ ['\t'] ++ tabs rd ++ ['\n']) := by
  constructor
  · simp only [createTsv, tsvRows, next, List.tail_cons, List.headD_cons, tail_of_row qb, tail_of_row qc,
      tail_of_row qd, tail_of_row qb', tail_of_row qc', tail_of_row qd']
  · simp only [createTsv, tsvRows, next, List.tail_cons, List.headD_cons, tail_of_row qb', tail_of_row qc',
      tail_of_row qd', name_of_row qa, List.getElem?_cons_succ, List.getElem?_cons_zero]
    simp

example : Row "01013500".toList "x;y".toList "01013500;x;y\n".toList ∧
    Row "01022500".toList "x;y".toList "01022500;x;y\n".toList := by
  constructor <;> (refine ⟨?_, ?_, ?_⟩ <;> decide +kernel)

example : Fields ';' "x;y".toList ["x".toList, "y".toList] := by
  rw [SiteId.fields_iff]; decide +kernel

/-- **C294, negated.**  A last line without newline character loses its last character. -/
theorem C294_newline_violated :
    createTsv ["gauge_id;n\n".toList, "01013500;Fish".toList] ["gauge_id;w\n".toList, "01013500;12".toList]
      ["gauge_id;z\n".toList, "01013500;34".toList] ["gauge_id;p\n".toList, "01013500;56".toList] =
    ["gauge_id\tn\tw\tz\tp\n".toList, "01013500\tFis\t1\t3\t5\n".toList] := by decide +kernel

end Camels
