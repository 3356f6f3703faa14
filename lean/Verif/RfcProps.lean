import Mathlib.Tactic.Linarith
import Mathlib.Data.List.Basic
import Mathlib.Data.List.Forall2
import Verif.CfgProps
import Verif.RfcModel

/-!
# Tables of the river forecast centers (C277, C278, C279)
-/

set_option autoImplicit false

open Cfg (Str Trimmed)

namespace RfcSpec

/-- The line consists of the fields `ws` with commas between them. -/
def Fields (l : Str) (ws : List Str) : Prop :=
  ws ≠ [] ∧ l = List.intercalate [','] ws ∧ ∀ w ∈ ws, ',' ∉ w

/-- The row is that of a platform of a US state network: its last field is a code of two characters followed by
`_DCP`, other than Guam and the Pacific networks. -/
def StatePlatform (l code : Str) : Prop :=
  (∃ ws w, Fields l (ws ++ [w]) ∧ Trimmed w (code ++ "_DCP".toList)) ∧ code.length = 2 ∧
    code ≠ "GU".toList ∧ code ≠ "P1".toList ∧ code ≠ "P2".toList ∧ code ≠ "P3".toList ∧ code ≠ "P4".toList

/-- The row has at least eight fields: site, position, hydrologic unit and center at the places 0, 1, 2, 6 and 7. -/
def SiteRow (l sid lat lon huc rfc : Str) : Prop :=
  ∃ w0 w1 w2 w3 w4 w5 w6 w7 ws, Fields l (w0 :: w1 :: w2 :: w3 :: w4 :: w5 :: w6 :: w7 :: ws) ∧
    Trimmed w0 sid ∧ Trimmed w1 lat ∧ Trimmed w2 lon ∧ Trimmed w6 huc ∧ Trimmed w7 rfc

open Rfc in
/-- What a row of the file with type `t` says about a site: the entries of the row or, if its position is `NA`, those
of the site table. -/
def Says (site : Str → Option Info) (t l sid : Str) (e : Entry) : Prop :=
  ∃ lat lon huc rfc, SiteRow l sid lat lon huc rfc ∧
    ((lat ≠ "NA".toList ∧ e = ⟨t, rfc, huc, lat, lon⟩) ∨
     (lat = "NA".toList ∧ ∃ i, site sid = some i ∧ i.lat ≠ "NA".toList ∧
       e = ⟨t, "-".toList, i.huc, i.lat, i.lon⟩))

/-- The heading `name` is the `k`-th of the header line, and none before. -/
def Heading (header : Str) (name : String) (k : ℕ) : Prop :=
  ∃ ws, Fields header ws ∧ ws[k]? = some name.toList ∧ ∀ j < k, ws[j]? ≠ some name.toList

/-- No heading is `name`. -/
def NoHeading (header : Str) (name : String) : Prop := ∀ ws, Fields header ws → name.toList ∉ ws

/-- All rows of the six files with the type that each file stands for, in order; the first line of a file is its
header. -/
def listed (files : List (List Str)) : List (Str × Str) :=
  (["flashy".toList, "slow".toList, "regulated".toList, "snow-dom".toList, "normal".toList,
    "low-flow".toList].zip files).flatMap (fun x => x.2.tail.map (fun l => (x.1, l)))

/-- The column with the identifiers of the basins: the first of these headings that the file has. -/
def IdColumn (header : Str) (k : ℕ) : Prop :=
  Heading header "NWS_ID" k ∨ (NoHeading header "NWS_ID" ∧
  (Heading header "NWSID" k ∨ (NoHeading header "NWSID" ∧
  (Heading header "CH5_ID" k ∨ (NoHeading header "CH5_ID" ∧
  (Heading header "BASIN" k ∨ (NoHeading header "BASIN" ∧ Heading header "NAME" k)))))))

/-- The `k`-th field of the line, without spaces around it. -/
def FieldAt (l : Str) (k : ℕ) (v : Str) : Prop := ∃ ws w, Fields l ws ∧ ws[k]? = some w ∧ Trimmed w v

/-- A line of seven columns separated by tabs. -/
def tabLine (cols : List Str) : Str := List.intercalate ['\t'] cols ++ ['\n']

/-- `out` is the line of the table for the row `l` of the file of a center with this header: center, identifier (or
name, if that is empty), bounding box with five decimals, name. -/
def BasinLine (fmt : Str → Option Str) (rfc header l out : Str) : Prop :=
  ∃ kn ka kb kc kd ki n a b c d i a' b' c' d', Heading header "NAME" kn ∧ Heading header "MIN_X_AXIS_" ka ∧
    Heading header "MAX_X_AXIS_" kb ∧ Heading header "MIN_Y_AXIS_" kc ∧ Heading header "MAX_Y_AXIS_" kd ∧
    IdColumn header ki ∧ FieldAt l kn n ∧ FieldAt l ka a ∧ FieldAt l kb b ∧ FieldAt l kc c ∧ FieldAt l kd d ∧
    FieldAt l ki i ∧ fmt a = some a' ∧ fmt b = some b' ∧ fmt c = some c' ∧ fmt d = some d' ∧
    out = tabLine [rfc, if i = [] then n else i, a', b', c', d', n]

/-- The header has the columns that are needed. -/
def HasColumns (header : Str) : Prop :=
  ∀ name ∈ ["NAME", "MIN_X_AXIS_", "MAX_X_AXIS_", "MIN_Y_AXIS_", "MAX_Y_AXIS_"], ∃ k, Heading header name k

/-- `out` is the line of the table for the row `l` of the West Gulf file: fields 1 to 6. -/
def WestLine (l out : Str) : Prop :=
  ∃ a b c d e f, FieldAt l 1 a ∧ FieldAt l 2 b ∧ FieldAt l 3 c ∧ FieldAt l 4 d ∧ FieldAt l 5 e ∧ FieldAt l 6 f ∧
    out = tabLine ["WGRFC".toList, a, b, c, d, e, f]

/-- The twelve centers with a file of their own. -/
def centerNames : List Str :=
  ["ABRFC", "APRFC", "CBRFC", "CNRFC", "LMRFC", "MARFC", "MBRFC", "NCRFC", "NERFC", "NWRFC", "OHRFC", "SERFC"].map
    String.toList

end RfcSpec

namespace Rfc

open Cfg (split strip)
open RfcSpec

theorem split_fields (l : Str) : Fields l (split ',' l) := by
  refine ⟨Cfg.split_ne_nil _ _, ?_, ?_⟩
  · induction hn : l.length using Nat.strong_induction_on generalizing l with
    | _ n ih =>
      cases hs : split ',' l with
      | nil => exact absurd hs (Cfg.split_ne_nil _ _)
      | cons w ws =>
        obtain ⟨_, ⟨e1, e2⟩ | ⟨r, e1, e2⟩⟩ := Cfg.split_cons_inv _ _ _ _ hs
        · simp [e1, e2, List.intercalate]
        · have := ih r.length (by rw [← hn, e1, List.length_append, List.length_cons]; omega) r rfl
          rw [e2] at this
          cases ws with
          | nil => exact absurd e2 (Cfg.split_ne_nil _ _)
          | cons v vs =>
            rw [e1, this]
            simp [List.intercalate, List.intersperse]
  · intro w hw
    induction hn : l.length using Nat.strong_induction_on generalizing l with
    | _ n ih =>
      cases hs : split ',' l with
      | nil => rw [hs] at hw; simp at hw
      | cons v vs =>
        obtain ⟨h1, h2⟩ := Cfg.split_cons_inv _ _ _ _ hs
        rw [hs] at hw
        rcases List.mem_cons.1 hw with rfl | hw
        · exact h1
        · rcases h2 with ⟨e1, _⟩ | ⟨r, e1, e2⟩
          · rw [e1] at hw; simp at hw
          · exact ih r.length (by rw [← hn, e1, List.length_append, List.length_cons]; omega) r (by rw [e2]; exact hw) rfl

theorem fields_split {l : Str} {ws : List Str} (h : Fields l ws) : split ',' l = ws := by
  obtain ⟨h1, h2, h3⟩ := h
  subst h2
  induction ws with
  | nil => exact absurd rfl h1
  | cons w ws ih =>
    cases ws with
    | nil =>
      have : List.intercalate [','] [w] = w := by simp [List.intercalate]
      rw [this]
      exact Cfg.split_no _ _ (h3 w (by simp))
    | cons v vs =>
      have : List.intercalate [','] (w :: v :: vs) = w ++ ',' :: List.intercalate [','] (v :: vs) := by
        simp [List.intercalate, List.intersperse]
      rw [this, Cfg.split_append _ _ _ (h3 w (by simp)), ih (by simp) (fun x hx => h3 x (by simp [hx]))]

theorem fields_iff {l : Str} {ws : List Str} : Fields l ws ↔ split ',' l = ws :=
  ⟨fields_split, fun h => h ▸ split_fields l⟩

/-! ### C277 -/

theorem name_iff (l n : Str) : networkName l = n ↔ ∃ ws w, Fields l (ws ++ [w]) ∧ Trimmed w n := by
  unfold networkName
  rw [Cfg.strip_iff]
  constructor
  · intro h
    refine ⟨(split ',' l).dropLast, (split ',' l).getLast (Cfg.split_ne_nil _ _), ?_, ?_⟩
    · rw [List.dropLast_append_getLast]; exact split_fields l
    · rw [List.getLast?_eq_getLast_of_ne_nil (Cfg.split_ne_nil _ _)] at h
      exact h
  · rintro ⟨ws, w, h1, h2⟩
    rw [fields_split h1]
    simpa using h2

theorem platform_iff (l code : Str) :
    StatePlatform l code ↔ keeps l = true ∧ (networkName l).take 2 = code := by
  unfold StatePlatform
  rw [← name_iff]
  constructor
  · rintro ⟨h, hl, h1, h2, h3, h4, h5⟩
    have ht : (code ++ "_DCP".toList).take 2 = code := by rw [← hl]; simp
    refine ⟨?_, by rw [h, ht]⟩
    unfold keeps
    rw [h]
    have hs : (code ++ "_DCP".toList) ∉ skipList := by
      intro hm
      have e : ∀ x ∈ skipList, x.take 2 ∈ ["GU".toList, "P1".toList, "P2".toList, "P3".toList, "P4".toList] := by
        decide +kernel
      have := e _ hm
      rw [ht] at this
      simp only [List.mem_cons, List.not_mem_nil, or_false] at this
      tauto
    have hsuf : "_DCP".toList.isSuffixOf (code ++ "_DCP".toList) = true := by
      rw [List.isSuffixOf_iff_suffix]; exact ⟨code, rfl⟩
    have hlen : (code ++ "_DCP".toList).length = 6 := by rw [List.length_append, hl]; rfl
    have hc : skipList.contains (code ++ "_DCP".toList) = false := by
      rw [Bool.eq_false_iff]; exact fun hh => hs (List.contains_iff_mem.1 hh)
    rw [hsuf, hlen, hc]
    rfl
  · rintro ⟨hk, ht⟩
    unfold keeps at hk
    simp only [Bool.and_eq_true, Bool.not_eq_true', beq_iff_eq] at hk
    obtain ⟨⟨h1, h2⟩, h3⟩ := hk
    rw [List.isSuffixOf_iff_suffix] at h2
    obtain ⟨p, hp⟩ := h2
    have hl : p.length = 2 := by
      have := congrArg List.length hp
      rw [h3, List.length_append] at this
      have e : ("_DCP".toList).length = 4 := rfl
      omega
    have hpc : p = code := by
      rw [← ht, ← hp, ← hl]; simp
    have hns : networkName l ∉ skipList := by
      intro hm
      rw [List.contains_iff_mem.2 hm] at h1
      cases h1
    refine ⟨by rw [← hpc, hp], by rw [← hpc]; exact hl, ?_⟩
    rw [← hp, hpc] at hns
    refine ⟨?_, ?_, ?_, ?_, ?_⟩ <;> (rintro rfl; exact hns (by decide +kernel))

theorem bump_spec (d : Str → Option ℕ) (code k : Str) (n : ℕ)
    (h : d k = if n = 0 then none else some (n - 1)) :
    bump d code k = if (n + if k = code then 1 else 0) = 0 then none
      else some ((n + if k = code then 1 else 0) - 1) := by
  unfold bump
  by_cases hk : k = code
  · subst hk
    simp only [if_true]
    rw [h, if_neg (Nat.succ_ne_zero n)]
    rcases Nat.eq_zero_or_pos n with h0 | h0
    · simp [h0]
    · rw [if_neg (by omega)]
      simp only [Option.some.injEq]
      omega
  · rw [if_neg hk, if_neg hk, h]
    rfl

open Classical in
theorem cull_inv (rows : List Str) (s : CullSt) :
    let r := rows.foldl cullRow s
    r.out = s.out ++ rows.filter (fun l => decide (∃ c, StatePlatform l c)) ∧
    r.nIn = s.nIn + rows.length ∧
    r.nOut = s.nOut + rows.countP (fun l => decide (∃ c, StatePlatform l c)) ∧
    r.nSkip = s.nSkip + rows.countP (fun l => decide (¬ ∃ c, StatePlatform l c)) ∧
    ∀ k n, s.counts k = (if n = 0 then none else some (n - 1)) →
      r.counts k = (if n + rows.countP (fun l => decide (StatePlatform l k)) = 0 then none
        else some (n + rows.countP (fun l => decide (StatePlatform l k)) - 1)) := by
  induction rows generalizing s with
  | nil => simp
  | cons l ls ih =>
    have hk : keeps l = true ↔ ∃ c, StatePlatform l c :=
      ⟨fun h => ⟨_, (platform_iff l _).2 ⟨h, rfl⟩⟩, fun ⟨c, h⟩ => ((platform_iff l c).1 h).1⟩
    obtain ⟨i1, i2, i3, i4, i5⟩ := ih (cullRow s l)
    dsimp only at i1 i2 i3 i4 i5 ⊢
    rw [List.foldl_cons]
    by_cases h : keeps l = true
    · have hp : ∃ c, StatePlatform l c := hk.1 h
      have e : cullRow s l = ⟨s.out ++ [l], s.nIn + 1, s.nOut + 1, s.nSkip,
          bump s.counts ((networkName l).take 2)⟩ := by
        unfold cullRow; rw [if_pos h]
      rw [e] at i1 i2 i3 i4 i5 ⊢
      refine ⟨?_, ?_, ?_, ?_, ?_⟩
      · rw [i1, List.filter_cons_of_pos (by simpa using hp)]; simp
      · rw [i2]; simp; omega
      · rw [i3, List.countP_cons_of_pos (by simpa using hp)]; dsimp only; omega
      · rw [i4, List.countP_cons_of_neg (by simpa using hp)]
      · intro k n hn
        have hb := bump_spec s.counts ((networkName l).take 2) k n hn
        have hi := i5 k _ hb
        rw [hi, List.countP_cons]
        have : decide (StatePlatform l k) = decide (k = (networkName l).take 2) := by
          rw [decide_eq_decide, platform_iff]
          exact ⟨fun h => h.2.symm, fun h' => ⟨h, h'.symm⟩⟩
        rw [this]
        by_cases hkk : k = (networkName l).take 2
        · simp only [hkk, if_true, decide_true]
          have : ∀ a, n + 1 + a = n + (a + 1) := by intro a; omega
          rw [this]
        · simp [hkk]
    · have hp : ¬ ∃ c, StatePlatform l c := fun hh => h (hk.2 hh)
      have e : cullRow s l = ⟨s.out, s.nIn + 1, s.nOut, s.nSkip + 1, s.counts⟩ := by
        unfold cullRow; rw [if_neg h]
      rw [e] at i1 i2 i3 i4 i5 ⊢
      refine ⟨?_, ?_, ?_, ?_, ?_⟩
      · rw [i1, List.filter_cons_of_neg (by simpa using hp)]
      · rw [i2]; simp; omega
      · rw [i3, List.countP_cons_of_neg (by simpa using hp)]
      · rw [i4, List.countP_cons_of_pos (by simpa using hp)]; dsimp only; omega
      · intro k n hn
        rw [i5 k n hn, List.countP_cons_of_neg]
        simpa using fun hh => hp ⟨k, hh⟩

open Classical in
/-- **C277**: the new file has the first line and then, unchanged and in order, the rows of the US state platforms;
the numbers of rows read, written and skipped that are reported are right. -/
theorem C277_rows (header : Str) (rows : List Str) :
    (cull (header :: rows)).out = header :: rows.filter (fun l => decide (∃ c, StatePlatform l c)) ∧
    (cull (header :: rows)).nIn = rows.length ∧
    (cull (header :: rows)).nOut = rows.countP (fun l => decide (∃ c, StatePlatform l c)) ∧
    (cull (header :: rows)).nSkip = rows.countP (fun l => decide (¬ ∃ c, StatePlatform l c)) := by
  obtain ⟨h1, h2, h3, h4, -⟩ := cull_inv rows
    { out := [header], nIn := 0, nOut := 0, nSkip := 0, counts := fun _ => none }
  refine ⟨h1, ?_, ?_, ?_⟩
  · exact h2.trans (Nat.zero_add _)
  · exact h3.trans (Nat.zero_add _)
  · exact h4.trans (Nat.zero_add _)

open Classical in
/-- C277, the counts by code: the codes reported are those of the rows written, but the number reported for a code is
one less than the number of its rows. -/
theorem C277_codes_partial (header : Str) (rows : List Str) (code : Str) :
    (cull (header :: rows)).counts code =
      if (∃ l ∈ rows, StatePlatform l code) then
        some (rows.countP (fun l => decide (StatePlatform l code)) - 1)
      else none := by
  obtain ⟨-, -, -, -, h5⟩ := cull_inv rows
    { out := [header], nIn := 0, nOut := 0, nSkip := 0, counts := fun _ => none }
  have h := h5 code 0 rfl
  simp only [Nat.zero_add] at h
  refine Eq.trans h ?_
  by_cases he : ∃ l ∈ rows, StatePlatform l code
  · rw [if_pos he, if_neg]
    obtain ⟨l, hl, hs⟩ := he
    have : 0 < rows.countP (fun l => decide (StatePlatform l code)) :=
      List.countP_pos_iff.2 ⟨l, hl, by simpa using hs⟩
    omega
  · rw [if_neg he, if_pos]
    rw [List.countP_eq_zero]
    intro l hl
    simpa using fun hs => he ⟨l, hl, hs⟩

open Classical in
/-- **C277 is violated** for the counts by code: no count that is reported is the number of rows. -/
theorem C277_codes_violated (header : Str) (rows : List Str) (code : Str) (n : ℕ)
    (h : (cull (header :: rows)).counts code = some n) :
    n ≠ rows.countP (fun l => decide (StatePlatform l code)) := by
  rw [C277_codes_partial] at h
  by_cases he : ∃ l ∈ rows, StatePlatform l code
  · rw [if_pos he] at h
    obtain ⟨l, hl, hs⟩ := he
    have : 0 < rows.countP (fun l => decide (StatePlatform l code)) :=
      List.countP_pos_iff.2 ⟨l, hl, by simpa using hs⟩
    simp only [Option.some.injEq] at h
    omega
  · rw [if_neg he] at h
    cases h

/-- A file with platforms in Colorado, Guam and Canada. -/
example : let r := cull ["id,network\n".toList, "A,CO_DCP\n".toList, "B,GU_DCP\n".toList, "C,CA_AB_DCP\n".toList,
      "D, CO_DCP \n".toList, "E,AK_DCP\n".toList]
    r.out = ["id,network\n".toList, "A,CO_DCP\n".toList, "D, CO_DCP \n".toList, "E,AK_DCP\n".toList] ∧
    (r.nIn, r.nOut, r.nSkip) = (5, 3, 2) ∧ r.counts "CO".toList = some 1 ∧ r.counts "AK".toList = some 0 ∧
    r.counts "GU".toList = none := by
  decide +kernel

/-! ### C278 -/

theorem siteRow_iff (l sid lat lon huc rfc : Str) : SiteRow l sid lat lon huc rfc ↔
    ∃ w0 w1 w2 w3 w4 w5 w6 w7 ws, split ',' l = w0 :: w1 :: w2 :: w3 :: w4 :: w5 :: w6 :: w7 :: ws ∧
      strip w0 = sid ∧ strip w1 = lat ∧ strip w2 = lon ∧ strip w6 = huc ∧ strip w7 = rfc := by
  unfold SiteRow
  simp only [fields_iff, ← Cfg.strip_iff]

/-- Whether a row has the eight fields. -/
theorem typeRow_cases (site : Str → Option Info) (t : Str) (d : Dict) (l : Str) :
    (∃ sid lat lon huc rfc, SiteRow l sid lat lon huc rfc ∧
      typeRow site t d l = if lat = "NA".toList then
          (match site sid with
            | some i => if i.lat = "NA".toList then .ok d else .ok (put d sid ⟨t, "-".toList, i.huc, i.lat, i.lon⟩)
            | none => .ok d)
        else .ok (put d sid ⟨t, rfc, huc, lat, lon⟩)) ∨
    ((∀ sid lat lon huc rfc, ¬ SiteRow l sid lat lon huc rfc) ∧ typeRow site t d l = .error "IndexError") := by
  unfold typeRow
  split
  · next v0 v1 v2 a b c v6 v7 r h =>
    exact .inl ⟨strip v0, strip v1, strip v2, strip v6, strip v7,
      (siteRow_iff ..).2 ⟨v0, v1, v2, a, b, c, v6, v7, r, h, rfl, rfl, rfl, rfl, rfl⟩, rfl⟩
  · next h =>
    refine .inr ⟨?_, rfl⟩
    intro sid lat lon huc rfc hs
    obtain ⟨w0, w1, w2, w3, w4, w5, w6, w7, ws, e, -⟩ := (siteRow_iff ..).1 hs
    exact h _ _ _ _ _ _ _ _ _ e

theorem siteRow_unique {l a b c d e a' b' c' d' e' : Str} (h : SiteRow l a b c d e) (h' : SiteRow l a' b' c' d' e') :
    a = a' ∧ b = b' ∧ c = c' ∧ d = d' ∧ e = e' := by
  obtain ⟨w0, w1, w2, w3, w4, w5, w6, w7, ws, e1, rfl, rfl, rfl, rfl, rfl⟩ := (siteRow_iff ..).1 h
  obtain ⟨x0, x1, x2, x3, x4, x5, x6, x7, xs, e2, rfl, rfl, rfl, rfl, rfl⟩ := (siteRow_iff ..).1 h'
  rw [e1] at e2
  simp only [List.cons.injEq] at e2
  obtain ⟨rfl, rfl, rfl, -, -, -, rfl, rfl, -⟩ := e2
  exact ⟨rfl, rfl, rfl, rfl, rfl⟩

theorem typeRow_spec {site : Str → Option Info} {t : Str} {d d' : Dict} {l : Str}
    (h : typeRow site t d l = .ok d') (k : Str) (e : Entry) :
    d' k = some e ↔ Says site t l k e ∨ ((¬ ∃ e', Says site t l k e') ∧ d k = some e) := by
  rcases typeRow_cases site t d l with ⟨sid, lat, lon, huc, rfc, hs, hr⟩ | ⟨_, hr⟩
  swap
  · rw [hr] at h; cases h
  -- what the row says
  have key : ∀ v : Entry, ((lat ≠ "NA".toList ∧ v = ⟨t, rfc, huc, lat, lon⟩) ∨
      (lat = "NA".toList ∧ ∃ i, site sid = some i ∧ i.lat ≠ "NA".toList ∧ v = ⟨t, "-".toList, i.huc, i.lat, i.lon⟩)) →
      ∀ k e, Says site t l k e ↔ k = sid ∧ e = v := by
    intro v hv k e
    constructor
    · rintro ⟨a, b, c, f, hs', hc⟩
      obtain ⟨rfl, rfl, rfl, rfl, rfl⟩ := siteRow_unique hs hs'
      refine ⟨rfl, ?_⟩
      rcases hc with ⟨h1, rfl⟩ | ⟨h1, i, hi, h2, rfl⟩ <;> rcases hv with ⟨h3, rfl⟩ | ⟨h3, j, hj, h4, rfl⟩
      · rfl
      · exact absurd h3 h1
      · exact absurd h1 h3
      · rw [hi] at hj
        simp only [Option.some.injEq] at hj
        rw [hj]
    · rintro ⟨rfl, rfl⟩
      exact ⟨lat, lon, huc, rfc, hs, hv⟩
  have keyput : ∀ v : Entry, (∀ k e, Says site t l k e ↔ k = sid ∧ e = v) → d' = put d sid v →
      (d' k = some e ↔ Says site t l k e ∨ ((¬ ∃ e', Says site t l k e') ∧ d k = some e)) := by
    intro v hv hd
    rw [hd]
    unfold put
    by_cases hk : k = sid
    · subst hk
      rw [if_pos rfl]
      have : ¬ ¬ ∃ e', Says site t l k e' := fun h => h ⟨v, (hv k v).2 ⟨rfl, rfl⟩⟩
      simp only [Option.some.injEq, hv, true_and]
      constructor
      · exact fun h => .inl h.symm
      · rintro (h | ⟨h, _⟩)
        · exact h.symm
        · exact absurd ⟨v, rfl⟩ h
    · rw [if_neg hk]
      simp [hv, hk]
  have keynone : (∀ k e, ¬ Says site t l k e) → d' = d →
      (d' k = some e ↔ Says site t l k e ∨ ((¬ ∃ e', Says site t l k e') ∧ d k = some e)) := by
    intro hv hd
    rw [hd]
    simp [hv]
  rw [hr] at h
  by_cases hl : lat = "NA".toList
  · rw [if_pos hl] at h
    cases hi : site sid with
    | none =>
      rw [hi] at h
      dsimp only at h
      refine keynone ?_ (by injection h with h; exact h.symm)
      rintro k e ⟨a, b, c, f, hs', hc⟩
      obtain ⟨rfl, rfl, rfl, rfl, rfl⟩ := siteRow_unique hs hs'
      rcases hc with ⟨h1, _⟩ | ⟨_, i, h2, _⟩
      · exact h1 hl
      · rw [hi] at h2; cases h2
    | some i =>
      rw [hi] at h
      dsimp only at h
      by_cases hil : i.lat = "NA".toList
      · rw [if_pos hil] at h
        refine keynone ?_ (by injection h with h; exact h.symm)
        rintro k e ⟨a, b, c, f, hs', hc⟩
        obtain ⟨rfl, rfl, rfl, rfl, rfl⟩ := siteRow_unique hs hs'
        rcases hc with ⟨h1, _⟩ | ⟨_, j, h2, h3, _⟩
        · exact h1 hl
        · rw [hi] at h2
          simp only [Option.some.injEq] at h2
          exact h3 (h2 ▸ hil)
      · rw [if_neg hil] at h
        exact keyput _ (key _ (.inr ⟨hl, i, hi, hil, rfl⟩)) (by injection h with h; exact h.symm)
  · rw [if_neg hl] at h
    exact keyput _ (key _ (.inl ⟨hl, rfl⟩)) (by injection h with h; exact h.symm)

/-- The rows one after the other, whatever file they are in. -/
def rowsFold (site : Str → Option Info) : Dict → List (Str × Str) → Except String Dict
  | d, [] => .ok d
  | d, (t, l) :: xs =>
    match typeRow site t d l with
    | .error e => .error e
    | .ok d' => rowsFold site d' xs

theorem rowsFold_append (site : Str → Option Info) (xs ys : List (Str × Str)) (d : Dict) :
    rowsFold site d (xs ++ ys) = match rowsFold site d xs with
      | .error e => .error e
      | .ok d' => rowsFold site d' ys := by
  induction xs generalizing d with
  | nil => rfl
  | cons x xs ih =>
    obtain ⟨t, l⟩ := x
    simp only [List.cons_append, rowsFold]
    cases typeRow site t d l with
    | error e => rfl
    | ok d' => exact ih d'

theorem typeRows_fold (site : Str → Option Info) (t : Str) (ls : List Str) (d : Dict) :
    typeRows site t d ls = rowsFold site d (ls.map (fun l => (t, l))) := by
  induction ls generalizing d with
  | nil => rfl
  | cons l ls ih =>
    simp only [typeRows, List.map_cons, rowsFold]
    cases typeRow site t d l with
    | error e => rfl
    | ok d' => exact ih d'

theorem typeFiles_fold (site : Str → Option Info) (fs : List (Str × List Str)) (d : Dict) :
    typeFiles site d fs = rowsFold site d (fs.flatMap (fun x => x.2.tail.map (fun l => (x.1, l)))) := by
  induction fs generalizing d with
  | nil => rfl
  | cons f fs ih =>
    obtain ⟨t, f⟩ := f
    simp only [typeFiles, List.flatMap_cons, rowsFold_append, typeRows_fold, List.drop_one]
    cases rowsFold site d (f.tail.map (fun l => (t, l))) with
    | error e => rfl
    | ok d' => exact ih d'

theorem rowsFold_spec {site : Str → Option Info} {xs : List (Str × Str)} {d d' : Dict}
    (h : rowsFold site d xs = .ok d') (k : Str) (e : Entry) :
    d' k = some e ↔ (∃ pre t l post, xs = pre ++ (t, l) :: post ∧ Says site t l k e ∧
        ∀ x ∈ post, ¬ ∃ e', Says site x.1 x.2 k e') ∨
      ((∀ x ∈ xs, ¬ ∃ e', Says site x.1 x.2 k e') ∧ d k = some e) := by
  induction xs generalizing d with
  | nil =>
    simp only [rowsFold, Except.ok.injEq] at h
    subst h
    simp
  | cons x xs ih =>
    obtain ⟨t, l⟩ := x
    simp only [rowsFold] at h
    cases hr : typeRow site t d l with
    | error m => rw [hr] at h; cases h
    | ok d1 =>
      rw [hr] at h
      dsimp only at h
      rw [ih h, typeRow_spec hr]
      constructor
      · rintro (⟨pre, t', l', post, rfl, h1, h2⟩ | ⟨h1, h2 | ⟨h2, h3⟩⟩)
        · exact .inl ⟨(t, l) :: pre, t', l', post, rfl, h1, h2⟩
        · exact .inl ⟨[], t, l, xs, rfl, h2, h1⟩
        · refine .inr ⟨?_, h3⟩
          intro x hx
          rcases List.mem_cons.1 hx with rfl | hx
          · exact h2
          · exact h1 x hx
      · rintro (⟨pre, t', l', post, he, h1, h2⟩ | ⟨h1, h2⟩)
        · cases pre with
          | nil =>
            simp only [List.nil_append, List.cons.injEq, Prod.mk.injEq] at he
            obtain ⟨⟨rfl, rfl⟩, rfl⟩ := he
            exact .inr ⟨h2, .inl h1⟩
          | cons p pre =>
            simp only [List.cons_append, List.cons.injEq] at he
            exact .inl ⟨pre, t', l', post, he.2, h1, h2⟩
        · exact .inr ⟨fun x hx => h1 x (List.mem_cons_of_mem _ hx), .inr ⟨h1 (t, l) (List.mem_cons_self ..), h2⟩⟩

theorem rowsFold_ok (site : Str → Option Info) (xs : List (Str × Str)) (d : Dict) :
    (∃ d', rowsFold site d xs = .ok d') ↔ ∀ x ∈ xs, ∃ sid lat lon huc rfc, SiteRow x.2 sid lat lon huc rfc := by
  induction xs generalizing d with
  | nil => simp [rowsFold]
  | cons x xs ih =>
    obtain ⟨t, l⟩ := x
    have hd : (∃ d1, typeRow site t d l = .ok d1) ↔ ∃ sid lat lon huc rfc, SiteRow l sid lat lon huc rfc := by
      rcases typeRow_cases site t d l with ⟨sid, lat, lon, huc, rfc, hs, hr⟩ | ⟨hn, hr⟩
      · refine ⟨fun _ => ⟨sid, lat, lon, huc, rfc, hs⟩, fun _ => ?_⟩
        rw [hr]
        split_ifs
        · cases site sid with
          | none => exact ⟨_, rfl⟩
          | some i => dsimp only; split_ifs <;> exact ⟨_, rfl⟩
        · exact ⟨_, rfl⟩
      · rw [hr]
        constructor
        · rintro ⟨_, h⟩; cases h
        · rintro ⟨a, b, c, f, g, h⟩; exact absurd h (hn a b c f g)
    simp only [rowsFold, List.forall_mem_cons]
    rw [← hd]
    cases hr : typeRow site t d l with
    | error m => simp
    | ok d1 => simp [ih d1]

/-- **C278** (no dictionary saved before): a site is in the dictionary exactly if a row says something about it, and
its entry is that of the last such row, in the order of the six files; the call fails exactly if a row has fewer than
eight fields. -/
theorem C278_entries_partial (site : Str → Option Info) (files : List (List Str)) (saveToFile : Bool) :
    ((∃ r, hydrographTypes none site files saveToFile = .ok r) ↔
      ∀ x ∈ listed files, ∃ sid lat lon huc rfc, SiteRow x.2 sid lat lon huc rfc) ∧
    ∀ d saved, hydrographTypes none site files saveToFile = .ok (d, saved) →
      (saved = if saveToFile then some d else none) ∧
      ∀ k e, d k = some e ↔ ∃ pre t l post, listed files = pre ++ (t, l) :: post ∧ Says site t l k e ∧
        ∀ x ∈ post, ¬ ∃ e', Says site x.1 x.2 k e' := by
  have hf : typeFiles site (fun _ => none) (htypes.zip files) = rowsFold site (fun _ => none) (listed files) :=
    typeFiles_fold site _ _
  unfold hydrographTypes
  dsimp only
  rw [hf]
  constructor
  · rw [← rowsFold_ok site _ (fun _ => none)]
    cases rowsFold site (fun _ => none) (listed files) with
    | error m => simp
    | ok d => simp
  · intro d saved h
    cases hr : rowsFold site (fun _ => none) (listed files) with
    | error m => rw [hr] at h; cases h
    | ok d1 =>
      rw [hr] at h
      simp only [Except.ok.injEq, Prod.mk.injEq] at h
      obtain ⟨rfl, rfl⟩ := h
      refine ⟨rfl, fun k e => ?_⟩
      rw [rowsFold_spec hr]
      simp

/-- **C278 is violated** by every call after one that has saved its dictionary: whatever the files and the site table
contain now, the result is that of the first call. -/
theorem C278_saved_violated {site site' : Str → Option Info} {files files' : List (List Str)} {b : Bool}
    {d : Dict} {saved : Option Dict} (h : hydrographTypes none site files true = .ok (d, saved)) :
    hydrographTypes saved site' files' b = .ok (d, saved) := by
  have := ((C278_entries_partial site files true).2 d saved h).1
  simp only [if_true] at this
  subst this
  rfl

/-- A site in two files gets the type of the second; a row without position gets it from the site table; after a change
of the files the result stays the same. -/
example :
    let site : Str → Option Info := fun k => if k = "02".toList then some ⟨"40.1".toList, "-105".toList, "1019".toList⟩ else none
    let f1 : List (List Str) := [["head\n".toList, "01,39.5,-104,a,b,c,1018,MBRFC\n".toList],
      ["head\n".toList, "02,NA,NA,a,b,c,NA,NA\n".toList, "01,39.5,-104,a,b,c,1018,MBRFC\n".toList,
        "03,NA,NA,a,b,c,NA,NA\n".toList], [], [], [], []]
    let r := fun saved f => match hydrographTypes saved site f true with
      | .ok (d, s) => some (d "01".toList, d "02".toList, d "03".toList, s.isSome)
      | .error _ => none
    r none f1 = some (some ⟨"slow".toList, "MBRFC".toList, "1018".toList, "39.5".toList, "-104".toList⟩,
      some ⟨"slow".toList, "-".toList, "1019".toList, "40.1".toList, "-105".toList⟩, none, true) ∧
    r none [] = some (none, none, none, true) ∧
    (match hydrographTypes none site f1 true with
      | .ok (_, s) => r s []
      | .error _ => none) = r none f1 := by
  decide +kernel

/-! ### C279 -/

theorem idxOf_spec (hs : List Str) (n : Str) (k : ℕ) :
    (n ∈ hs ∧ hs.idxOf n = k) ↔ hs[k]? = some n ∧ ∀ j < k, hs[j]? ≠ some n := by
  induction hs generalizing k with
  | nil => simp
  | cons x xs ih =>
    by_cases hx : x = n
    · subst hx
      rw [List.idxOf_cons_self]
      constructor
      · rintro ⟨-, rfl⟩; simp
      · rintro ⟨-, h⟩
        refine ⟨by simp, ?_⟩
        by_contra hk
        exact h 0 (Nat.pos_of_ne_zero (Ne.symm hk)) (by simp)
    · rw [List.idxOf_cons_ne _ hx]
      cases k with
      | zero => simp [hx]
      | succ k =>
        have hm : n ∈ x :: xs ↔ n ∈ xs := by simp [Ne.symm hx]
        rw [hm, List.getElem?_cons_succ, Nat.succ_inj, ih]
        constructor
        · rintro ⟨h1, h2⟩
          refine ⟨h1, fun j hj => ?_⟩
          cases j with
          | zero => simpa using hx
          | succ j => simpa using h2 j (by omega)
        · rintro ⟨h1, h2⟩
          exact ⟨h1, fun j hj => by simpa using h2 (j + 1) (by omega)⟩

theorem colOf_some (header : Str) (name : String) (k : ℕ) :
    colOf (split ',' header) name = some k ↔ Heading header name k := by
  unfold Heading
  simp only [fields_iff]
  have : (∃ ws, split ',' header = ws ∧ ws[k]? = some name.toList ∧ ∀ j < k, ws[j]? ≠ some name.toList) ↔
      ((split ',' header)[k]? = some name.toList ∧ ∀ j < k, (split ',' header)[j]? ≠ some name.toList) := by
    constructor
    · rintro ⟨_, rfl, h⟩; exact h
    · intro h; exact ⟨_, rfl, h⟩
  rw [this, ← idxOf_spec]
  unfold colOf
  split_ifs with h
  · simp [h]
  · simp [h]

theorem colOf_none (header : Str) (name : String) :
    colOf (split ',' header) name = none ↔ NoHeading header name := by
  unfold NoHeading colOf
  simp only [fields_iff]
  split_ifs with h
  · simp [h]
  · simp [h]

theorem heading_unique {header : Str} {name : String} {j k : ℕ} (h : Heading header name j)
    (h' : Heading header name k) : j = k := by
  rw [← colOf_some] at h h'
  rw [h] at h'
  exact Option.some.inj h'

theorem idCol_spec (header : Str) (n k : ℕ) (hn : Heading header "NAME" n) :
    idCol (split ',' header) n = k ↔ IdColumn header k := by
  have hno : ∀ {name : String} {k : ℕ}, NoHeading header name → ¬ Heading header name k := by
    intro name k h1 h2
    rw [← colOf_none] at h1
    rw [← colOf_some, h1] at h2
    cases h2
  have step : ∀ (name : String) (rest : ℕ) (P : Prop), (rest = k ↔ P) →
      ((match colOf (split ',' header) name with | some k => k | none => rest) = k ↔
        Heading header name k ∨ (NoHeading header name ∧ P)) := by
    intro name rest P hP
    cases h : colOf (split ',' header) name with
    | some m =>
      have hm := (colOf_some ..).1 h
      dsimp only
      constructor
      · rintro rfl; exact .inl hm
      · rintro (h' | ⟨h', -⟩)
        · exact heading_unique hm h'
        · exact absurd hm (hno h')
    | none =>
      have hm := (colOf_none ..).1 h
      dsimp only
      rw [hP]
      constructor
      · exact fun h => .inr ⟨hm, h⟩
      · rintro (h' | ⟨-, h'⟩)
        · exact absurd h' (hno hm)
        · exact h'
  unfold idCol IdColumn
  exact step _ _ _ (step _ _ _ (step _ _ _ (step _ _ _
    ⟨fun h => h ▸ hn, fun h => heading_unique hn h⟩)))

theorem fieldAt_iff (l : Str) (k : ℕ) (v : Str) :
    FieldAt l k v ↔ ∃ w, (split ',' l)[k]? = some w ∧ strip w = v := by
  unfold FieldAt
  simp only [fields_iff, ← Cfg.strip_iff]
  constructor
  · rintro ⟨_, w, rfl, h⟩; exact ⟨w, h⟩
  · rintro ⟨w, h⟩; exact ⟨_, w, rfl, h⟩

theorem tsvLine_eq (a b c d e f g : Str) : tsvLine a b c d e f g = tabLine [a, b, c, d, e, f, g] := by
  simp [tsvLine, tabLine, List.intercalate, List.intersperse]

theorem findCols_spec (header : Str) :
    (∃ c, findCols (split ',' header) = .ok c ∧ Heading header "NAME" c.name ∧
      Heading header "MIN_X_AXIS_" c.minlon ∧ Heading header "MAX_X_AXIS_" c.maxlon ∧
      Heading header "MIN_Y_AXIS_" c.minlat ∧ Heading header "MAX_Y_AXIS_" c.maxlat ∧ IdColumn header c.id) ∨
    (findCols (split ',' header) = .error "ValueError" ∧ ¬ HasColumns header) := by
  unfold findCols
  split
  · next n a b c d h1 h2 h3 h4 h5 =>
    rw [colOf_some] at h1 h2 h3 h4 h5
    exact .inl ⟨_, rfl, h1, h2, h3, h4, h5, (idCol_spec header n _ h1).1 rfl⟩
  · next h =>
    refine .inr ⟨rfl, fun hc => ?_⟩
    obtain ⟨k1, e1⟩ := hc "NAME" (by simp)
    obtain ⟨k2, e2⟩ := hc "MIN_X_AXIS_" (by simp)
    obtain ⟨k3, e3⟩ := hc "MAX_X_AXIS_" (by simp)
    obtain ⟨k4, e4⟩ := hc "MIN_Y_AXIS_" (by simp)
    obtain ⟨k5, e5⟩ := hc "MAX_Y_AXIS_" (by simp)
    exact h _ _ _ _ _ ((colOf_some ..).2 e1) ((colOf_some ..).2 e2) ((colOf_some ..).2 e3)
      ((colOf_some ..).2 e4) ((colOf_some ..).2 e5)

theorem basinRow_spec {header : Str} {c : Cols} (fmt : Str → Option Str) (rfc l out : Str)
    (h1 : Heading header "NAME" c.name) (h2 : Heading header "MIN_X_AXIS_" c.minlon)
    (h3 : Heading header "MAX_X_AXIS_" c.maxlon) (h4 : Heading header "MIN_Y_AXIS_" c.minlat)
    (h5 : Heading header "MAX_Y_AXIS_" c.maxlat) (h6 : IdColumn header c.id) :
    basinRow fmt rfc c l = .ok out ↔ BasinLine fmt rfc header l out := by
  constructor
  · intro h
    unfold basinRow at h
    dsimp only at h
    split at h
    · next i n a b p q e1 e2 e3 e4 e5 e6 =>
      split at h
      · next a' b' p' q' f1 f2 f3 f4 =>
        simp only [Except.ok.injEq] at h
        refine ⟨c.name, c.minlon, c.maxlon, c.minlat, c.maxlat, c.id, strip n, strip a, strip b, strip p, strip q,
          strip i, a', b', p', q', h1, h2, h3, h4, h5, h6, (fieldAt_iff ..).2 ⟨n, e2, rfl⟩,
          (fieldAt_iff ..).2 ⟨a, e3, rfl⟩, (fieldAt_iff ..).2 ⟨b, e4, rfl⟩, (fieldAt_iff ..).2 ⟨p, e5, rfl⟩,
          (fieldAt_iff ..).2 ⟨q, e6, rfl⟩, (fieldAt_iff ..).2 ⟨i, e1, rfl⟩, f1, f2, f3, f4, ?_⟩
        rw [← h, tsvLine_eq]
      · cases h
    · cases h
  · rintro ⟨kn, ka, kb, kc, kd, ki, n, a, b, p, q, i, a', b', p', q', g1, g2, g3, g4, g5, g6, x1, x2, x3, x4, x5, x6,
      f1, f2, f3, f4, rfl⟩
    obtain rfl := heading_unique h1 g1
    obtain rfl := heading_unique h2 g2
    obtain rfl := heading_unique h3 g3
    obtain rfl := heading_unique h4 g4
    obtain rfl := heading_unique h5 g5
    have hid : c.id = ki := by
      rw [← idCol_spec header c.name _ h1] at h6 g6
      exact h6.symm.trans g6
    subst hid
    obtain ⟨w1, e1, rfl⟩ := (fieldAt_iff ..).1 x1
    obtain ⟨w2, e2, rfl⟩ := (fieldAt_iff ..).1 x2
    obtain ⟨w3, e3, rfl⟩ := (fieldAt_iff ..).1 x3
    obtain ⟨w4, e4, rfl⟩ := (fieldAt_iff ..).1 x4
    obtain ⟨w5, e5, rfl⟩ := (fieldAt_iff ..).1 x5
    obtain ⟨w6, e6, rfl⟩ := (fieldAt_iff ..).1 x6
    unfold basinRow
    dsimp only
    rw [e6, e1, e2, e3, e4, e5]
    dsimp only
    rw [f1, f2, f3, f4]
    dsimp only
    rw [tsvLine_eq]

theorem basinRows_spec {header : Str} {c : Cols} (fmt : Str → Option Str) (rfc : Str) (ls outs : List Str)
    (h1 : Heading header "NAME" c.name) (h2 : Heading header "MIN_X_AXIS_" c.minlon)
    (h3 : Heading header "MAX_X_AXIS_" c.maxlon) (h4 : Heading header "MIN_Y_AXIS_" c.minlat)
    (h5 : Heading header "MAX_Y_AXIS_" c.maxlat) (h6 : IdColumn header c.id) :
    basinRows fmt rfc c ls = .ok outs ↔ List.Forall₂ (BasinLine fmt rfc header) ls outs := by
  induction ls generalizing outs with
  | nil =>
    simp only [basinRows, Except.ok.injEq, List.forall₂_nil_left_iff]
    exact eq_comm
  | cons l ls ih =>
    simp only [basinRows, List.forall₂_cons_left_iff]
    constructor
    · intro h
      cases hr : basinRow fmt rfc c l with
      | error m => rw [hr] at h; cases h
      | ok t =>
        rw [hr] at h
        dsimp only at h
        cases hs : basinRows fmt rfc c ls with
        | error m => rw [hs] at h; cases h
        | ok ts =>
          rw [hs] at h
          simp only [Except.ok.injEq] at h
          exact ⟨t, ts, (basinRow_spec fmt rfc l t h1 h2 h3 h4 h5 h6).1 hr, (ih ts).1 hs, h.symm⟩
    · rintro ⟨t, ts, a, b, rfl⟩
      rw [(basinRow_spec fmt rfc l t h1 h2 h3 h4 h5 h6).2 a, (ih ts).2 b]

theorem westRow_spec (l out : Str) : westRow l = .ok out ↔ WestLine l out := by
  unfold westRow WestLine
  simp only [fieldAt_iff]
  constructor
  · intro h
    split at h
    · next v0 v1 v2 v3 v4 v5 v6 r e =>
      simp only [Except.ok.injEq] at h
      refine ⟨_, _, _, _, _, _, ⟨v1, by simp [e], rfl⟩, ⟨v2, by simp [e], rfl⟩, ⟨v3, by simp [e], rfl⟩,
        ⟨v4, by simp [e], rfl⟩, ⟨v5, by simp [e], rfl⟩, ⟨v6, by simp [e], rfl⟩, ?_⟩
      rw [← h, tsvLine_eq]
    · cases h
  · rintro ⟨a, b, c, d, e, f, ⟨w1, e1, rfl⟩, ⟨w2, e2, rfl⟩, ⟨w3, e3, rfl⟩, ⟨w4, e4, rfl⟩, ⟨w5, e5, rfl⟩,
      ⟨w6, e6, rfl⟩, rfl⟩
    rw [← tsvLine_eq]
    generalize split ',' l = v at *
    match v, e1, e2, e3, e4, e5, e6 with
    | _ :: _ :: _ :: _ :: _ :: _ :: _ :: _, e1, e2, e3, e4, e5, e6 =>
      simp only [List.getElem?_cons_succ, List.getElem?_cons_zero, Option.some.injEq] at e1 e2 e3 e4 e5 e6
      subst e1 e2 e3 e4 e5 e6
      rfl

theorem westRows_spec (ls outs : List Str) : westRows ls = .ok outs ↔ List.Forall₂ WestLine ls outs := by
  induction ls generalizing outs with
  | nil =>
    simp only [westRows, Except.ok.injEq, List.forall₂_nil_left_iff]
    exact eq_comm
  | cons l ls ih =>
    simp only [westRows, List.forall₂_cons_left_iff]
    constructor
    · intro h
      cases hr : westRow l with
      | error m => rw [hr] at h; cases h
      | ok t =>
        rw [hr] at h
        dsimp only at h
        cases hs : westRows ls with
        | error m => rw [hs] at h; cases h
        | ok ts =>
          rw [hs] at h
          simp only [Except.ok.injEq] at h
          exact ⟨t, ts, (westRow_spec l t).1 hr, (ih ts).1 hs, h.symm⟩
    · rintro ⟨t, ts, a, b, rfl⟩
      rw [(westRow_spec l t).2 a, (ih ts).2 b]

/-- The header has more than one column. -/
theorem header_comma (header : Str) : (split ',' header).length ≤ 1 ↔ ',' ∉ header := by
  constructor
  · intro h hc
    obtain ⟨a, b, rfl, ha⟩ := List.eq_append_cons_of_mem hc
    rw [Cfg.split_append _ _ _ ha, List.length_cons] at h
    have := List.length_pos_iff.2 (Cfg.split_ne_nil ',' b)
    omega
  · intro h
    rw [Cfg.split_no _ _ h]
    rfl

theorem centers_spec (fmt : Str → Option Str) (fs : List (Str × List Str)) (outs : List Str)
    (hcol : ∀ f ∈ fs, ',' ∈ f.2.headD []) :
    centers fmt fs = .ok outs ↔
      (∀ f ∈ fs, HasColumns (f.2.headD [])) ∧
      ∃ tss, List.Forall₂ (fun f ts => List.Forall₂ (BasinLine fmt f.1 (f.2.headD [])) f.2.tail ts) fs tss ∧
        outs = tss.flatten := by
  induction fs generalizing outs with
  | nil =>
    simp only [centers, Except.ok.injEq, List.not_mem_nil, false_imp_iff, implies_true, true_and,
      List.forall₂_nil_left_iff]
    constructor
    · rintro rfl; exact ⟨[], rfl, rfl⟩
    · rintro ⟨_, rfl, rfl⟩; rfl
  | cons f fs ih =>
    obtain ⟨rfc, f⟩ := f
    have hlen : ¬ (split ',' (f.headD [])).length ≤ 1 := by
      rw [header_comma]; exact fun h => h (hcol (rfc, f) (by simp))
    have ih := fun o => ih o (fun g hg => hcol g (by simp [hg]))
    simp only [centers, hlen, if_false]
    rcases findCols_spec (f.headD []) with ⟨c, hc, h1, h2, h3, h4, h5, h6⟩ | ⟨he, hn⟩
    · rw [hc]
      have hcols : HasColumns (f.headD []) := by
        intro name hname
        simp only [List.mem_cons, List.not_mem_nil, or_false] at hname
        rcases hname with rfl | rfl | rfl | rfl | rfl
        exacts [⟨_, h1⟩, ⟨_, h2⟩, ⟨_, h3⟩, ⟨_, h4⟩, ⟨_, h5⟩]
      have hb := fun o => basinRows_spec (header := f.headD []) (c := c) fmt rfc f.tail o h1 h2 h3 h4 h5 h6
      simp only [List.drop_one, List.forall_mem_cons, hcols, true_and]
      constructor
      · intro h
        cases hr : basinRows fmt rfc c f.tail with
        | error m => rw [hr] at h; cases h
        | ok ts =>
          rw [hr] at h
          dsimp only at h
          cases hs : centers fmt fs with
          | error m => rw [hs] at h; cases h
          | ok us =>
            rw [hs] at h
            simp only [Except.ok.injEq] at h
            obtain ⟨g1, tss, g2, rfl⟩ := (ih us).1 hs
            exact ⟨g1, ts :: tss, .cons ((hb ts).1 hr) g2, by rw [← h]; simp⟩
      · rintro ⟨g1, tss, g2, rfl⟩
        obtain ⟨ts, us, a, b, rfl⟩ := List.forall₂_cons_left_iff.1 g2
        rw [(hb ts).2 a, (ih us.flatten).2 ⟨g1, us, b, rfl⟩]
        simp
    · rw [he]
      constructor
      · intro h; cases h
      · rintro ⟨h, -⟩; exact absurd (h (rfc, f) (by simp)) hn

/-- **C279** (every file has a header of at least two columns): the table is written exactly if all headers have the
columns needed and every row has the fields and numbers needed; then it has its header, a line for every basin of
every center in order, and a line for every basin of the West Gulf file. -/
theorem C279_rows_partial (fmt : Str → Option Str) (files : List (List Str)) (west outs : List Str)
    (hcol : ∀ f ∈ centerNames.zip files, ',' ∈ f.2.headD []) :
    merge fmt files west = .ok outs ↔
      (∀ f ∈ centerNames.zip files, HasColumns (f.2.headD [])) ∧
      ∃ tss ws, List.Forall₂ (fun f ts => List.Forall₂ (BasinLine fmt f.1 (f.2.headD [])) f.2.tail ts)
          (centerNames.zip files) tss ∧
        List.Forall₂ WestLine west.tail ws ∧
        outs = tabLine ["RFC_ID".toList, "NWS_loc_ID".toList, "MINLON".toList, "MAXLON".toList, "MINLAT".toList,
          "MAXLAT".toList, "NAME".toList] :: (tss.flatten ++ ws) := by
  have hn : rfcNames = centerNames := by decide +kernel
  unfold merge
  rw [hn, List.drop_one]
  have hh : tsvHead = tabLine ["RFC_ID".toList, "NWS_loc_ID".toList, "MINLON".toList, "MAXLON".toList,
      "MINLAT".toList, "MAXLAT".toList, "NAME".toList] := tsvLine_eq ..
  rw [← hh]
  constructor
  · intro h
    cases hr : centers fmt (centerNames.zip files) with
    | error m => rw [hr] at h; cases h
    | ok ts =>
      rw [hr] at h
      dsimp only at h
      cases hs : westRows west.tail with
      | error m => rw [hs] at h; cases h
      | ok us =>
        rw [hs] at h
        simp only [Except.ok.injEq] at h
        obtain ⟨g1, tss, g2, rfl⟩ := (centers_spec fmt _ ts hcol).1 hr
        exact ⟨g1, tss, us, g2, (westRows_spec _ _).1 hs, h.symm⟩
  · rintro ⟨g1, tss, ws, g2, g3, rfl⟩
    rw [(centers_spec fmt _ _ hcol).2 ⟨g1, tss, g2, rfl⟩, (westRows_spec _ _).2 g3]

theorem centers_break (fmt : Str → Option Str) (pre post : List (Str × List Str)) (rfc : Str) (f : List Str)
    (h : ',' ∉ f.headD []) : centers fmt (pre ++ (rfc, f) :: post) = centers fmt pre := by
  induction pre with
  | nil =>
    simp only [List.nil_append, centers]
    rw [if_pos ((header_comma _).2 h)]
  | cons p pre ih =>
    obtain ⟨r, g⟩ := p
    simp only [List.cons_append, centers]
    rw [ih]

/-- **C279 is violated** by a file with one column or none (for instance an empty file): the table is the one without
this center and all centers after it, and no error is raised for them. -/
theorem C279_short_header_violated (fmt : Str → Option Str) (pre post : List (List Str)) (f west : List Str)
    (h : ',' ∉ f.headD []) (hk : pre.length < 12) :
    merge fmt (pre ++ f :: post) west = merge fmt pre west := by
  have hl : rfcNames.length = 12 := rfl
  have e : rfcNames.zip (pre ++ f :: post) =
      (rfcNames.zip pre) ++ (rfcNames[pre.length]'(by omega), f) :: (rfcNames.drop (pre.length + 1)).zip post := by
    have hs : rfcNames = rfcNames.take pre.length ++ rfcNames[pre.length]'(by omega) :: rfcNames.drop (pre.length + 1) := by
      rw [List.getElem_cons_drop, List.take_append_drop]
    have ht : (rfcNames.take pre.length).length = pre.length := by rw [List.length_take]; omega
    have hz : rfcNames.zip pre = (rfcNames.take pre.length).zip pre := by
      conv_lhs => rw [hs]
      have := List.zip_append (r₁ := rfcNames[pre.length]'(by omega) :: rfcNames.drop (pre.length + 1)) (r₂ := []) ht
      simpa using this
    rw [hz]
    conv_lhs => rw [hs]
    rw [List.zip_append ht]
    rfl
  unfold merge
  rw [e, centers_break fmt _ _ _ _ h]

/-- **C279 is violated** by files whose last column is one of those needed: the heading is read together with the
newline character, and the merge fails although the column is there. -/
theorem C279_last_column_violated (fmt : Str → Option Str) (f : List Str) (files : List (List Str)) (west : List Str)
    (ws : List Str) (hws : ws ≠ []) (hc : ∀ w ∈ ws, ',' ∉ w)
    (name : String) (hname : name ∈ ["NAME", "MIN_X_AXIS_", "MAX_X_AXIS_", "MIN_Y_AXIS_", "MAX_Y_AXIS_"])
    (hn : name.toList ∉ ws) (hf : f.headD [] = List.intercalate [','] (ws ++ [name.toList ++ ['\n']])) :
    merge fmt (f :: files) west = .error "ValueError" := by
  have hnl : ',' ∉ name.toList ++ ['\n'] := by
    simp only [List.mem_cons, List.not_mem_nil, or_false] at hname
    rcases hname with rfl | rfl | rfl | rfl | rfl <;> decide +kernel
  have hF : Fields (f.headD []) (ws ++ [name.toList ++ ['\n']]) := by
    refine ⟨by simp, hf, ?_⟩
    intro w hw
    rcases List.mem_append.1 hw with h | h
    · exact hc w h
    · rw [List.mem_singleton.1 h]; exact hnl
  have hs := fields_split hF
  have hlen : ¬ (split ',' (f.headD [])).length ≤ 1 := by
    rw [hs, List.length_append, List.length_singleton]
    have := List.length_pos_iff.2 hws
    omega
  have hno : name.toList ∉ split ',' (f.headD []) := by
    rw [hs, List.mem_append, List.mem_singleton]
    rintro (h | h)
    · exact hn h
    · have := congrArg List.length h
      simp at this
  have he : findCols (split ',' (f.headD [])) = .error "ValueError" := by
    rcases findCols_spec (f.headD []) with ⟨c, hc, h1, h2, h3, h4, h5, h6⟩ | ⟨he, -⟩
    · exfalso
      have hh : ∀ {k}, Heading (f.headD []) name k → False := by
        rintro k ⟨vs, hv, hk, -⟩
        rw [fields_iff] at hv
        rw [hv] at hno
        exact hno (List.mem_of_getElem? hk)
      simp only [List.mem_cons, List.not_mem_nil, or_false] at hname
      rcases hname with rfl | rfl | rfl | rfl | rfl
      exacts [hh h1, hh h2, hh h3, hh h4, hh h5]
    · exact he
  unfold merge
  have : rfcNames = "ABRFC".toList :: rfcNames.tail := rfl
  rw [this, List.zip_cons_cons]
  simp only [centers, hlen, if_false, he]

/-- Two centers; the second has no identifier in its row; with an empty file in between, the second is lost. -/
example :
    let f1 : List Str := ["NWS_ID,NAME,MIN_X_AXIS_,MAX_X_AXIS_,MIN_Y_AXIS_,MAX_Y_AXIS_,X\n".toList,
      "AAAA1,Alpha,1,2,3,4,0\n".toList]
    let f2 : List Str := ["CH5_ID,NAME,MIN_X_AXIS_,MAX_X_AXIS_,MIN_Y_AXIS_,MAX_Y_AXIS_,X\n".toList,
      ",Beta,5,6,7,8,0\n".toList]
    let west : List Str := ["head\n".toList, "0,WW1,1,2,3,4,Gulf\n".toList]
    let r := fun fs => match merge some fs west with | .ok o => o.tail.map String.ofList | .error e => [e]
    r [f1, f2] = ["ABRFC\tAAAA1\t1\t2\t3\t4\tAlpha\n", "APRFC\tBeta\t5\t6\t7\t8\tBeta\n",
      "WGRFC\tWW1\t1\t2\t3\t4\tGulf\n"] ∧
    r [f1, [], f2] = ["ABRFC\tAAAA1\t1\t2\t3\t4\tAlpha\n", "WGRFC\tWW1\t1\t2\t3\t4\tGulf\n"] ∧
    r [["NWS_ID,NAME,MIN_X_AXIS_,MAX_X_AXIS_,MIN_Y_AXIS_,MAX_Y_AXIS_\n".toList]] = ["ValueError"] := by
  decide +kernel

/-- The last heading can also be the identifier: then the names are written as identifiers. -/
example :
    (match merge some [["NAME,MIN_X_AXIS_,MAX_X_AXIS_,MIN_Y_AXIS_,MAX_Y_AXIS_,NWS_ID\n".toList,
      "Alpha,1,2,3,4,AAAA1\n".toList]] [] with | .ok o => o.tail.map String.ofList | .error e => [e]) =
      ["ABRFC\tAlpha\t1\t2\t3\t4\tAlpha\n"] := by
  decide +kernel

end Rfc
