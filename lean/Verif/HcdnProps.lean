import Verif.HcdnModel
import Verif.SiteIdProps

/-!
# Station tables with columns of fixed width (C291); sites of the critical zone observatories (C292)
-/

set_option autoImplicit false

namespace Hcdn

open Cfg (Str Trimmed)
open SiteIdSpec (Fields)

/-! ## Specification -/

namespace Spec

/-- The widths of the columns of a station line; the last column is the rest. -/
def widths : List ℕ := [9, 49, 9, 9, 1, 2, 3, 3, 3, 4, 8, 8, 9, 4]

/-- The line cut into columns of these widths and a rest; where it ends early, the columns that follow are empty. -/
inductive Cut : List ℕ → Str → List Str → Prop
  | rest (l : Str) : Cut [] l [l]
  | full (w : ℕ) (ws : List ℕ) (p r : Str) (ps : List Str) : p.length = w → Cut ws r ps → Cut (w :: ws) (p ++ r) (p :: ps)
  | short (w : ℕ) (ws : List ℕ) (p : Str) : p.length < w → Cut (w :: ws) p (p :: List.replicate (ws.length + 1) [])

/-- The row has the columns of the station line, blanks around them removed. -/
def RowOf (l row : Str) : Prop :=
  ∃ ps fs, Cut widths l ps ∧ List.Forall₂ Trimmed ps fs ∧ Fields '\t' row fs ∧ fs.length = 15

/-- No tab within a column. -/
def NoTab (l : Str) : Prop := ∀ ps fs, Cut widths l ps → List.Forall₂ Trimmed ps fs → ∀ f ∈ fs, '\t' ∉ f

/-- The value is a name followed by an abbreviation in parentheses, blanks around it not counted. -/
def Named (v name ab : Str) : Prop :=
  Trimmed v (name ++ " (".toList ++ ab ++ ")".toList) ∧ Trimmed name name ∧ '(' ∉ name ∧ '(' ∉ ab

end Spec

open Spec

/-! ## C291 -/

/-- Cutting by widths. -/
def cut : List ℕ → Str → List Str
  | [], l => [l]
  | w :: ws, l => l.take w :: cut ws (l.drop w)

theorem cut_nil (ws : List ℕ) : cut ws [] = List.replicate (ws.length + 1) [] := by
  induction ws with
  | nil => rfl
  | cons w ws ih => simp only [cut, List.take_nil, List.drop_nil, ih, List.length_cons]; rfl

theorem cut_iff (ws : List ℕ) (l : Str) (ps : List Str) : Cut ws l ps ↔ cut ws l = ps := by
  constructor
  · intro h
    induction h with
    | rest l => rfl
    | full w ws p r ps hp _ ih => simp only [cut]; rw [← hp]; simp [ih]
    | short w ws p hp =>
      simp only [cut, List.take_of_length_le hp.le, List.drop_of_length_le hp.le, cut_nil]
  · rintro rfl
    induction ws generalizing l with
    | nil => exact .rest l
    | cons w ws ih =>
      by_cases h : l.length < w
      · simp only [cut, List.take_of_length_le h.le, List.drop_of_length_le h.le, cut_nil]
        exact .short w ws l h
      · have := Cut.full w ws (l.take w) (l.drop w) _ (by simp; omega) (ih (l.drop w))
        rw [List.take_append_drop] at this
        exact this

theorem columns_eq (l : Str) : columns l = (cut widths l).map Cfg.strip := by
  simp only [columns, cut, widths, slice, List.drop_take, List.drop_drop, List.drop_zero]

theorem trimmed_iff (ps fs : List Str) : List.Forall₂ Trimmed ps fs ↔ ps.map Cfg.strip = fs := by
  rw [← List.forall₂_eq_eq_eq, List.forall₂_map_left_iff]
  constructor <;> intro h <;> refine h.imp (fun a b hab => ?_)
  · exact (Cfg.strip_iff _ _).2 hab
  · exact (Cfg.strip_iff _ _).1 hab

theorem joined_eq (ws : List Str) : joined ws = List.intercalate ['\t'] ws := by
  induction ws with
  | nil => rfl
  | cons w ws ih =>
    cases ws with
    | nil => simp [joined, List.intercalate]
    | cons v ws => simp only [joined, ih]; simp [List.intercalate, List.intersperse]

theorem columns_length (l : Str) : (columns l).length = 15 := by simp [columns]

/-- **C291 (part).**  The table has the header and one row for each station line, in order, with the columns of
the line.  Missing: lines with a tab within a column, for which the claim is false (below). -/
theorem C291_table_partial (lines : List Str) (h : ∀ l ∈ lines, NoTab l) :
    ∃ head rows, convert lines = head :: rows ∧
      Fields '\t' head ["usgs_stn_id".toList, "usgs_stn_name".toList, "huc".toList, "area_sqmi".toList,
        "time_scale_cd".toList, "record_part_cd".toList, "n_comment_lines".toList, "district_code".toList,
        "state_code".toList, "county_code".toList, "gage_lat_dms".toList, "gage_lon_dms".toList,
        "gage_elev_ft".toList, "non_tca_pct".toList, "stn_type_code".toList] ∧
      List.Forall₂ RowOf lines rows := by
  refine ⟨_, _, rfl, ⟨by simp, joined_eq _, by decide +kernel⟩, ?_⟩
  rw [List.forall₂_map_right_iff, List.forall₂_same]
  intro l hl
  refine ⟨cut widths l, columns l, (cut_iff _ _ _).2 rfl, (trimmed_iff _ _).2 (columns_eq l).symm, ⟨?_, joined_eq _, ?_⟩,
    columns_length l⟩
  · intro h; have := columns_length l; rw [h] at this; simp at this
  · exact h l hl _ _ ((cut_iff _ _ _).2 rfl) ((trimmed_iff _ _).2 (columns_eq l).symm)

/-- The columns of a line are determined, and every line has them. -/
theorem C291_columns_unique (l : Str) : ∃! ps, Cut widths l ps :=
  ⟨_, (cut_iff _ _ _).2 rfl, fun _ h => ((cut_iff _ _ _).1 h).symm⟩

theorem fields_length {d : Char} {l : Str} {ws : List Str} (h : Fields d l ws) : ws.length = l.count d + 1 := by
  obtain ⟨h1, rfl, h3⟩ := h
  induction ws with
  | nil => exact absurd rfl h1
  | cons w ws ih =>
    cases ws with
    | nil => simp [List.intercalate, List.count_eq_zero_of_not_mem (h3 w (by simp))]
    | cons v ws =>
      have e : List.intercalate [d] (w :: v :: ws) = w ++ d :: List.intercalate [d] (v :: ws) := by
        simp [List.intercalate, List.intersperse]
      have := ih (by simp) (fun x hx => h3 x (by simp [hx]))
      rw [e, List.count_append, List.count_cons_self, List.count_eq_zero_of_not_mem (h3 w (by simp)), List.length_cons,
        this]
      omega

theorem le_sum (l : List ℕ) (x : ℕ) (h : x ∈ l) : x ≤ l.sum := by
  induction l with
  | nil => cases h
  | cons y l ih =>
    rw [List.sum_cons]
    rcases List.mem_cons.1 h with rfl | h
    · omega
    · have := ih h; omega

theorem count_joined (ws : List Str) (h : ws ≠ []) :
    (joined ws).count '\t' + 1 = ws.length + (ws.map (List.count '\t')).sum := by
  induction ws with
  | nil => exact absurd rfl h
  | cons w ws ih =>
    cases ws with
    | nil => simp [joined]; omega
    | cons v ws =>
      have := ih (by simp)
      simp only [joined, List.count_append, List.count_cons_self, List.length_cons, List.map_cons, List.sum_cons] at this ⊢
      omega

/-- **C291, negated.**  A tab within a column gives a row with more columns than the header. -/
theorem C291_tab_violated (l : Str) (ps fs : List Str) (hc : Cut widths l ps) (ht : List.Forall₂ Trimmed ps fs)
    (f : Str) (hf : f ∈ fs) (h : '\t' ∈ f) :
    ∃ head row gs, convert [l] = [head, row] ∧ Fields '\t' row gs ∧ 15 < gs.length := by
  refine ⟨_, _, Cfg.split '\t' (joined (columns l)), rfl, SiteId.fields_iff.2 rfl, ?_⟩
  have e := fields_length (SiteId.fields_iff.2 (rfl : Cfg.split '\t' (joined (columns l)) = _))
  have hcol : columns l = fs := by
    rw [columns_eq, (cut_iff _ _ _).1 hc]; exact (trimmed_iff _ _).1 ht
  have hn := count_joined (columns l) (by intro h; have := columns_length l; rw [h] at this; simp at this)
  rw [columns_length] at hn
  have : 1 ≤ ((columns l).map (List.count '\t')).sum := by
    have h1 : 1 ≤ f.count '\t' := List.count_pos_iff.2 h
    have h2 : f.count '\t' ≤ ((columns l).map (List.count '\t')).sum :=
      le_sum _ _ (List.mem_map.2 ⟨f, hcol ▸ hf, rfl⟩)
    omega
  omega

/-- A short station line. -/
def sampleLine : Str := "01013500 FISH RIVER NEAR FORT KENT, ME".toList

example : NoTab sampleLine := by
  intro ps fs hc ht
  rw [cut_iff] at hc
  rw [trimmed_iff, ← hc] at ht
  rw [← ht]
  decide +kernel

/-! ## C292 -/

theorem dropWhile_name (a r : Str) (h : '(' ∉ a) : (a ++ '(' :: r).dropWhile (· ≠ '(') = '(' :: r := by
  induction a with
  | nil => simp
  | cons x xs ih =>
    simp only [List.mem_cons, not_or] at h
    have hx : decide (x ≠ '(') = true := decide_eq_true (fun e => h.1 e.symm)
    rw [List.cons_append, List.dropWhile_cons, if_pos hx, ih h.2]

theorem takeWhile_name (a r : Str) (h : '(' ∉ a) : (a ++ '(' :: r).takeWhile (· ≠ '(') = a := by
  induction a with
  | nil => simp
  | cons x xs ih =>
    simp only [List.mem_cons, not_or] at h
    have hx : decide (x ≠ '(') = true := decide_eq_true (fun e => h.1 e.symm)
    rw [List.cons_append, List.takeWhile_cons, if_pos hx, ih h.2]

theorem named_eq (name ab : Str) :
    name ++ " (".toList ++ ab ++ ")".toList = (name ++ [' ']) ++ '(' :: (ab ++ [')']) := by
  have e1 : " (".toList = [' ', '('] := by decide
  have e2 : ")".toList = [')'] := by decide
  rw [e1, e2]; simp

theorem abbr_named (v name ab : Str) (h : Named v name ab) : abbr (Cfg.strip v) = ab := by
  obtain ⟨h1, -, h3, -⟩ := h
  rw [(Cfg.strip_iff _ _).2 h1, named_eq]
  have hn : '(' ∉ name ++ [' '] := by simp [h3]
  simp only [abbr]
  rw [if_pos (by simp), dropWhile_name _ _ hn]
  simp

/-- Trimming a name with a blank after it. -/
theorem strip_blank (name : Str) (h : Trimmed name name) : Cfg.strip (name ++ [' ']) = name := by
  rw [← Cfg.strip_iff] at h
  have hh := (Cfg.strip_iff _ _).1 h
  obtain ⟨p, s, e, hp, hs, hh, hl⟩ := hh
  rw [Cfg.strip_iff]
  exact ⟨[], [' '], by simp, by simp, by simp, hh, hl⟩

theorem prefix_tag (a : Str) (c : Char) (s t : Str) (ha : c ∉ a) (ht : c ∉ t) :
    (c :: s) <:+: a ++ c :: t ↔ s <+: t := by
  constructor
  · rintro ⟨u, w, e⟩
    have : u = a := by
      induction a generalizing u with
      | nil =>
        cases u with
        | nil => rfl
        | cons x u =>
          simp only [List.cons_append, List.nil_append, List.cons.injEq] at e
          exact absurd (by rw [← e.2]; simp) ht
      | cons y a ih =>
        simp only [List.mem_cons, not_or] at ha
        cases u with
        | nil =>
          simp only [List.nil_append, List.cons_append, List.cons.injEq] at e
          exact absurd e.1 ha.1
        | cons x u =>
          simp only [List.cons_append, List.cons.injEq] at e
          rw [e.1, ih ha.2 u (by simpa using e.2)]
    subst this
    refine ⟨w, ?_⟩
    have := List.append_cancel_left ((List.append_assoc ..).symm.trans e)
    simpa using this
  · rintro ⟨w, rfl⟩
    exact ⟨a, w, by simp⟩

/-- **C292 (part).**  A site whose observatory and catchment are given with abbreviations in parentheses has the
abbreviations in its ID; its long name is the name of the catchment and the state, with the abbreviation only for the
subcatchments P30.  Missing: values without parentheses, for which the claim is false (below). -/
theorem C292_names_partial (obs cat state o oa c ca st : Str) (h1 : Named obs o oa) (h2 : Named cat c ca)
    (h3 : Trimmed state st) :
    siteId obs cat = "CZO-".toList ++ oa ++ "-".toList ++ ca ∧
    (("P30".toList <+: ca → longName cat state = c ++ " (".toList ++ ca ++ ")".toList ++ ", ".toList ++ st) ∧
     (¬ "P30".toList <+: ca → longName cat state = c ++ ", ".toList ++ st)) := by
  have e0 : "-".toList = ['-'] := by decide
  refine ⟨?_, ?_⟩
  · rw [siteId, abbr_named _ _ _ h1, abbr_named _ _ _ h2, e0]; simp
  · have hs := (Cfg.strip_iff _ _).2 h3
    obtain ⟨k1, k2, k3, k4⟩ := h2
    have hc := (Cfg.strip_iff _ _).2 k1
    have hn : '(' ∉ c ++ [' '] := by simp [k3]
    have hin : "(P30".toList <:+: (c ++ [' ']) ++ '(' :: (ca ++ [')']) ↔ "P30".toList <+: ca := by
      have ht : '(' ∉ ca ++ [')'] := by simp [k4]
      have := prefix_tag (c ++ [' ']) '(' "P30".toList (ca ++ [')']) hn ht
      rw [show "(P30".toList = '(' :: "P30".toList by decide, this]
      constructor
      · intro hp
        rcases List.prefix_concat_iff.1 hp with hp | hp
        · have := congrArg List.getLast? hp
          rw [List.getLast?_append] at this
          revert this; simp
        · exact hp
      · intro hp; exact hp.trans (List.prefix_append _ _)
    constructor
    · intro hp
      simp only [longName, hc, hs]
      rw [named_eq, if_pos (hin.2 hp)]
    · intro hp
      simp only [longName, hc, hs]
      rw [named_eq, if_neg (fun h => hp (hin.1 h)), if_pos (by simp), takeWhile_name _ _ hn, strip_blank _ k2]

example : Named " Boulder Creek (BC) ".toList "Boulder Creek".toList "BC".toList := by
  refine ⟨(Cfg.strip_iff _ _).1 (by decide +kernel), (Cfg.strip_iff _ _).1 (by decide +kernel), ?_, ?_⟩ <;> decide +kernel

/-- **C292, negated.**  Without parentheses there is no abbreviation, so that all such sites share one ID, and the last
character of the name is lost. -/
theorem C292_plain_violated (obs cat state o c st : Str) (x : Char) (h1 : Trimmed obs o) (h2 : Trimmed cat (c ++ [x]))
    (h3 : Trimmed state st) (h4 : Trimmed c c) (ho : '(' ∉ o) (hc : '(' ∉ c) (hx : x ≠ '(') :
    siteId obs cat = "CZO--".toList ∧ longName cat state = c ++ ", ".toList ++ st := by
  have key : ∀ s : Str, '(' ∉ s → abbr s = [] := by
    intro s h
    simp only [abbr]
    rw [if_neg h]
    apply List.eq_nil_of_length_eq_zero
    simp; omega
  have hcx : '(' ∉ c ++ [x] := by simp [hc, hx.symm]
  rw [← Cfg.strip_iff] at h1 h2 h3 h4
  constructor
  · rw [siteId, h1, h2, key _ ho, key _ hcx]; decide
  · simp only [longName, h2, h3]
    rw [if_neg, if_neg hcx]
    · simp [h4]
    · intro h
      exact hcx (h.subset (by decide +kernel))

example : siteId "Boulder".toList "Gordon Gulch".toList = "CZO--".toList ∧
    longName "Gordon Gulch".toList "CO".toList = "Gordon Gulc, CO".toList := by
  constructor <;> decide +kernel

/-- **C292 (part).**  For a site of the table and without report, the address is that of the site in the archive, or of
its observatory or its group if the option for sites is off. -/
theorem C292_url_partial (id czo site : String) (num : ℕ) (h : (id, czo, site, num) ∈ siteMap) (base hydro : Bool) :
    siteUrl siteMap id.toList false true base hydro = .ok (some
      ("https://czo-archive.criticalzone.org/".toList ++ czo.toList ++ "/".toList ++
        "infrastructure/field-area/".toList ++ site.toList ++ "/".toList)) ∧
    siteUrl siteMap id.toList false false true hydro = .ok (some
      ("https://czo-archive.criticalzone.org/".toList ++ czo.toList ++ "/".toList)) ∧
    siteUrl siteMap id.toList false false false true = .ok (some
      ("https://www.hydroshare.org/group/".toList ++ Nat.toDigits 10 num)) := by
  have hf : siteMap.find? (fun r => r.1.toList = id.toList) = some (id, czo, site, num) := by
    have hnd : (siteMap.map Prod.fst).Nodup := by decide +kernel
    have : ∀ m : List (String × String × String × ℕ), (m.map Prod.fst).Nodup → (id, czo, site, num) ∈ m →
        m.find? (fun r => r.1.toList = id.toList) = some (id, czo, site, num) := by
      intro m
      induction m with
      | nil => intro _ h; cases h
      | cons r m ih =>
        intro hn hm
        rw [List.map_cons, List.nodup_cons] at hn
        by_cases e : r.1.toList = id.toList
        · rw [List.find?_cons_of_pos (by simpa using e)]
          rcases List.mem_cons.1 hm with rfl | hm
          · rfl
          · exfalso
            apply hn.1
            rw [String.toList_inj.1 e]
            exact List.mem_map.2 ⟨_, hm, rfl⟩
        · rw [List.find?_cons_of_neg (by simpa using e)]
          rcases List.mem_cons.1 hm with rfl | hm
          · exact absurd rfl e
          · exact ih hn.2 hm
    exact this siteMap hnd h
  have e : "/".toList = ['/'] := by decide
  refine ⟨?_, ?_, ?_⟩ <;> simp only [siteUrl, hf, e, if_true, if_false, Bool.false_eq_true]

/-- The observatories: abbreviation in the IDs of their sites, name in addresses and number of the group. -/
def observatories : List (String × String × ℕ) :=
  [("BC", "boulder", 140), ("CH", "calhoun", 148), ("CRB", "christina", 146), ("ER", "eel", 141), ("IML", "iml", 150),
   ("JRB", "catalina-jemez", 142), ("LUQ", "luquillo", 144), ("RC", "reynolds", 143), ("SCM", "catalina-jemez", 142),
   ("SS", "sierra", 145), ("SH", "shale-hills", 147)]

/-- **C292 (part).**  Every site of the table belongs to the observatory whose abbreviation its ID has, and on request the
address is that of this observatory or of its group. -/
theorem C292_observatory_partial (id czo site : String) (num : ℕ) (h : (id, czo, site, num) ∈ siteMap) :
    ∃ a name group, (a, name, group) ∈ observatories ∧ ("CZO-".toList ++ a.toList ++ "-".toList) <+: id.toList ∧
      (∀ hydro, siteUrl siteMap id.toList false false true hydro = .ok (some
        ("https://czo-archive.criticalzone.org/".toList ++ name.toList ++ "/".toList))) ∧
      siteUrl siteMap id.toList false false false true = .ok (some
        ("https://www.hydroshare.org/group/".toList ++ Nat.toDigits 10 group)) := by
  have hk : ∀ r ∈ siteMap, ∃ o ∈ observatories, ("CZO-".toList ++ o.1.toList ++ "-".toList) <+: r.1.toList ∧
      o.2.1 = r.2.1 ∧ o.2.2 = r.2.2.2 := by decide +kernel
  obtain ⟨⟨a, name, group⟩, ho, hp, e1, e2⟩ := hk _ h
  simp only at e1 e2
  subst e1 e2
  exact ⟨a, name, group, ho, hp, fun hydro => (C292_url_partial id _ site _ h false hydro).2.1,
    (C292_url_partial id _ site _ h false false).2.2⟩

/-- **C292, negated.**  A report ends with an error for every site; the option for the group is ignored unless the
option for sites is switched off; the addresses of the two catchments of the Luquillo observatory are exchanged. -/
theorem C292_url_violated :
    (∀ m id sites base hydro, ∃ e, siteUrl m id true sites base hydro = .error e) ∧
    (∀ m id base, siteUrl m id false true base true = siteUrl m id false true base false) ∧
    siteUrl siteMap "CZO-LUQ-MAM".toList false true false false = .ok (some
      "https://czo-archive.criticalzone.org/luquillo/infrastructure/field-area/rio-icacos/".toList) ∧
    siteUrl siteMap "CZO-LUQ-IC".toList false true false false = .ok (some
      "https://czo-archive.criticalzone.org/luquillo/infrastructure/field-area/rio-mameyes/".toList) := by
  refine ⟨?_, ?_, ?_, ?_⟩
  · intro m id sites base hydro
    simp only [siteUrl]
    cases m.find? (fun r => r.1.toList = id) with
    | none => exact ⟨_, rfl⟩
    | some r => exact ⟨_, rfl⟩
  · intro m id base
    simp only [siteUrl]
    cases m.find? (fun r => r.1.toList = id) <;> rfl
  · rfl
  · rfl

end Hcdn
