import Verif.CollateModel
import Verif.CfgProps

/-!
# Specification and theorems C263 to C266 for the collation of basin datasets
-/

set_option autoImplicit false

open Cfg (Str split strip)
open Collate

namespace CollateSpec

/-- The id on a line: the text in the id column, without surrounding blanks; seven characters get a leading
zero. -/
def idOf (key : Key) (line : Str) : Str :=
  let v := strip ((split '\t' line).getD (idColumn key) [])
  if v.length = 7 then '0' :: v else v

/-- The file of the dataset has a line with this id. -/
def Listed (ds : Key → Dataset) (key : Key) (s : Str) : Prop := ∃ l ∈ (ds key).lines, idOf key l = s

/-- An id in the style of the USGS: at least seven characters, the first one not a letter. -/
def UsgsStyle (env : Env) (s : Str) : Prop := 7 ≤ s.length ∧ ∀ c, s.head? = some c → env.alpha c = false

/-- The nine datasets that count. -/
def nine : List Key := [.nwis, .gages2all, .gages2ref, .sb3, .fps, .hcdn, .hads, .camels, .mopex]

/-- The first `n` of a list; all of it for `n = 0`. -/
def firstN (n : ℕ) (l : List Str) : List Str := if n = 0 then l else l.take n

/-- A line without its newline. -/
def content (l : Str) : Str := if l.getLast? = some '\n' then l.dropLast else l

/-- The rows of a file, up to the first blank line, each with its id. -/
def rows (key : Key) (d : Dataset) : List (Str × Str) :=
  ((d.lines.map content).takeWhile (fun l => l ≠ [])).map fun l => (idOf key l, l)

open Classical in
/-- The row of a sorted file that is used for the site `s`: the first one with this id; but none if an earlier
row has an id that is not in the list of sites. -/
noncomputable def usedRow (rs : List (Str × Str)) (sites : List Str) (s : Str) : Option Str :=
  if ∃ q ∈ rs, q.1 < s ∧ q.1 ∉ sites then none else (rs.find? fun q => q.1 = s).map Prod.snd

/-- The value of the dataset's row for an attribute, if the dataset has a column for it. -/
def offer (key : Key) (d : Dataset) (att : String) (line : Str) : Option Str :=
  ((fields key).find? fun f => f.2 = att).map fun f =>
    strip ((split '\t' line).getD (d.headings.idxOf f.1.toList) [])

/-- The words that mean "not set". -/
def Unset (v : Str) : Prop := v = "-".toList ∨ v = "unknown".toList ∨ v = "-9999".toList

instance (v : Str) : Decidable (Unset v) := by unfold Unset; infer_instance

/-- The first of the values that is set; the last one if none is. -/
def firstSet (v : Str) (offers : List Str) : Str :=
  match (v :: offers).find? (fun x => ¬ Unset x) with
  | some x => x
  | none => (v :: offers).getLast (by simp)

/-- The columns that come straight from the datasets. -/
def plainAtts : List String :=
  ["nws_loc_id", "rfc", "site_name", "pedts_obs", "lon", "lat", "elev", "area", "minlon", "maxlon", "minlat",
    "maxlat", "status", "start_date", "end_date", "eco_region"]

/-- The value of such a column when no dataset has one. -/
def noValue (att : String) : Str :=
  if att ∈ ["lon", "lat", "elev", "area", "minlon", "maxlon", "minlat", "maxlat"] then "-9999".toList
  else "-".toList

/-- The first row of a file with the id `s`. -/
def rowOf (rs : List (Str × Str)) (s : Str) : Option Str := (rs.find? fun q => q.1 = s).map Prod.snd

/-- The unit of the drainage areas in a dataset. -/
def areaUnit : Key → Str
  | .gages2all => "km2".toList
  | _ => "mi2".toList

/-- The ten datasets in the order of preference. -/
def ten : List Key := nine ++ [.api]

end CollateSpec

namespace Collate

open CollateSpec

/-! ## The dictionary of sites -/

theorem nextId_eq {key : Key} {l id : Str} (h : nextId key l = some id) : idOf key l = id := by
  unfold nextId at h
  unfold idOf
  rcases hv : (split '\t' l)[idColumn key]? with _ | v
  · rw [hv] at h; cases h
  · rw [hv] at h
    simp only [Option.some.injEq] at h
    rw [List.getD_eq_getElem?_getD, hv]
    simp only [Option.getD_some]
    rw [← h]
    rfl

theorem basinIds_mem {key : Key} {lines ids : List Str} (h : basinIds key lines = some ids) (s : Str) :
    s ∈ ids ↔ ∃ l ∈ lines, idOf key l = s := by
  induction lines generalizing ids with
  | nil => simp only [basinIds, Option.some.injEq] at h; subst h; simp
  | cons l rest ih =>
    simp only [basinIds] at h
    rcases h1 : nextId key l with _ | id
    · rw [h1] at h; cases h
    rcases h2 : basinIds key rest with _ | ids'
    · rw [h1, h2] at h; cases h
    rw [h1, h2] at h
    simp only [Option.some.injEq] at h
    subst h
    rw [List.mem_cons, ih h2]
    have h3 := nextId_eq h1
    constructor
    · rintro (h | ⟨x, hx, e⟩)
      · exact ⟨l, List.mem_cons_self .., h3.trans h.symm⟩
      · exact ⟨x, List.mem_cons_of_mem _ hx, e⟩
    · rintro ⟨x, hx, e⟩
      rcases List.mem_cons.mp hx with rfl | hx
      · exact Or.inl (e.symm.trans h3)
      · exact Or.inr ⟨x, hx, e⟩

/-- The dictionary holds exactly the flags `P`. -/
def DictOk (d : Dict) (P : Key → Str → Prop) : Prop :=
  (d.map Prod.fst).Nodup ∧ (∀ s, s ∈ d.map Prod.fst ↔ ∃ k, P k s) ∧ (∀ e ∈ d, ∀ k, e.2 k = true ↔ P k e.1)

theorem addFlag_keys (key : Key) (sid : Str) (d : Dict) (s : Str) :
    s ∈ (addFlag key sid d).map Prod.fst ↔ s ∈ d.map Prod.fst ∨ s = sid := by
  induction d with
  | nil => simp [addFlag]
  | cons e d ih =>
    obtain ⟨a, f⟩ := e
    simp only [addFlag]
    by_cases h : a = sid
    · rw [if_pos h]
      simp only [List.map_cons, List.mem_cons]
      subst h
      tauto
    · rw [if_neg h]
      simp only [List.map_cons, List.mem_cons]
      rw [ih]
      tauto

theorem addFlag_nodup (key : Key) (sid : Str) (d : Dict) (h : (d.map Prod.fst).Nodup) :
    ((addFlag key sid d).map Prod.fst).Nodup := by
  induction d with
  | nil => simp [addFlag]
  | cons e d ih =>
    obtain ⟨a, f⟩ := e
    simp only [addFlag]
    simp only [List.map_cons, List.nodup_cons] at h
    by_cases h1 : a = sid
    · rw [if_pos h1]
      simp only [List.map_cons, List.nodup_cons]
      exact h
    · rw [if_neg h1]
      simp only [List.map_cons, List.nodup_cons]
      refine ⟨fun hm => ?_, ih h.2⟩
      rcases (addFlag_keys key sid d a).mp hm with hm | hm
      · exact h.1 hm
      · exact h1 hm

theorem addFlag_flags (key : Key) (sid : Str) (d : Dict) (P : Key → Str → Prop)
    (hn : (d.map Prod.fst).Nodup) (h : ∀ e ∈ d, ∀ k, e.2 k = true ↔ P k e.1)
    (hs : sid ∉ d.map Prod.fst → ∀ k, ¬ P k sid) :
    ∀ e ∈ addFlag key sid d, ∀ k, e.2 k = true ↔ P k e.1 ∨ (k = key ∧ e.1 = sid) := by
  induction d with
  | nil =>
    intro e he k
    simp only [addFlag, List.mem_singleton] at he
    subst he
    have := hs (by simp) k
    simp only [decide_eq_true_eq, and_true]
    tauto
  | cons e d ih =>
    obtain ⟨a, f⟩ := e
    simp only [List.map_cons, List.nodup_cons] at hn
    have ha := h (a, f) (List.mem_cons_self ..)
    have hd := fun e he => h e (List.mem_cons_of_mem _ he)
    simp only [addFlag]
    by_cases h1 : a = sid
    · rw [if_pos h1]
      intro e he k
      rcases List.mem_cons.mp he with rfl | he
      · simp only [Bool.or_eq_true, decide_eq_true_eq]
        have := ha k
        simp only at this
        rw [this]
        tauto
      · rw [hd e he k]
        refine ⟨Or.inl, ?_⟩
        rintro (h2 | ⟨_, h2⟩)
        · exact h2
        · exfalso
          apply hn.1
          rw [h1, ← h2]
          exact List.mem_map_of_mem he
    · rw [if_neg h1]
      intro e he k
      rcases List.mem_cons.mp he with rfl | he
      · rw [ha k]
        simp only
        tauto
      · refine ih hn.2 hd (fun hns => hs ?_) e he k
        simp only [List.map_cons, List.mem_cons, not_or]
        exact ⟨fun e => h1 e.symm, hns⟩

theorem addFlag_ok (key : Key) (sid : Str) (d : Dict) (P : Key → Str → Prop) (h : DictOk d P) :
    DictOk (addFlag key sid d) (fun k s => P k s ∨ (k = key ∧ s = sid)) := by
  obtain ⟨h1, h2, h3⟩ := h
  refine ⟨addFlag_nodup key sid d h1, fun s => ?_, ?_⟩
  · rw [addFlag_keys, h2]
    constructor
    · rintro (⟨k, hk⟩ | rfl)
      · exact ⟨k, Or.inl hk⟩
      · exact ⟨key, Or.inr ⟨rfl, rfl⟩⟩
    · rintro ⟨k, hk | ⟨_, hk⟩⟩
      · exact Or.inl ⟨k, hk⟩
      · exact Or.inr hk
  · refine addFlag_flags key sid d P h1 h3 ?_
    intro hns k hk
    exact hns ((h2 sid).mpr ⟨k, hk⟩)

theorem DictOk.congr {d : Dict} {P Q : Key → Str → Prop} (h : DictOk d P) (e : ∀ k s, P k s ↔ Q k s) :
    DictOk d Q := by
  have : P = Q := by funext k s; exact propext (e k s)
  rw [← this]; exact h

theorem includeAll_ok (env : Env) (key : Key) (ids : List Str) : ∀ (d : Dict) (P : Key → Str → Prop),
    DictOk d P →
    DictOk (includeAll env key ids d) (fun k s => P k s ∨ (k = key ∧ s ∈ ids ∧ excluded env s = false)) := by
  induction ids with
  | nil => intro d P h; exact h.congr (by simp)
  | cons sid rest ih =>
    intro d P h
    simp only [includeAll]
    by_cases hx : excluded env sid = true
    · rw [if_pos hx]
      refine (ih d P h).congr fun k s => ?_
      constructor
      · rintro (h | ⟨h1, h2, h3⟩)
        · exact Or.inl h
        · exact Or.inr ⟨h1, List.mem_cons_of_mem _ h2, h3⟩
      · rintro (h | ⟨h1, h2, h3⟩)
        · exact Or.inl h
        · rcases List.mem_cons.mp h2 with rfl | h2
          · rw [hx] at h3; cases h3
          · exact Or.inr ⟨h1, h2, h3⟩
    · rw [if_neg hx]
      refine (ih _ _ (addFlag_ok key sid d P h)).congr fun k s => ?_
      constructor
      · rintro ((h | ⟨h1, h2⟩) | ⟨h1, h2, h3⟩)
        · exact Or.inl h
        · exact Or.inr ⟨h1, h2 ▸ List.mem_cons_self .., by rw [h2]; exact Bool.eq_false_iff.mpr hx⟩
        · exact Or.inr ⟨h1, List.mem_cons_of_mem _ h2, h3⟩
      · rintro (h | ⟨h1, h2, h3⟩)
        · exact Or.inl (Or.inl h)
        · rcases List.mem_cons.mp h2 with rfl | h2
          · exact Or.inl (Or.inr ⟨h1, rfl⟩)
          · exact Or.inr ⟨h1, h2, h3⟩

theorem inclusionDict_ok (env : Env) (ds : Key → Dataset) (keys : List Key) :
    ∀ (d : Dict) (P : Key → Str → Prop) (d' : Dict), DictOk d P → inclusionDict env ds keys d = some d' →
    DictOk d' (fun k s => P k s ∨ (k ∈ keys ∧ Listed ds k s ∧ excluded env s = false)) := by
  induction keys with
  | nil =>
    intro d P d' h e
    simp only [inclusionDict, Option.some.injEq] at e
    subst e
    exact h.congr (by simp)
  | cons key rest ih =>
    intro d P d' h e
    simp only [inclusionDict] at e
    rcases hb : basinIds key (ds key).lines with _ | ids
    · rw [hb] at e; cases e
    rw [hb] at e
    refine (ih _ _ d' (includeAll_ok env key ids d P h) e).congr fun k s => ?_
    have hm := basinIds_mem hb s
    constructor
    · rintro ((h | ⟨h1, h2, h3⟩) | ⟨h1, h2, h3⟩)
      · exact Or.inl h
      · exact Or.inr ⟨h1 ▸ List.mem_cons_self .., by rw [h1]; exact hm.mp h2, h3⟩
      · exact Or.inr ⟨List.mem_cons_of_mem _ h1, h2, h3⟩
    · rintro (h | ⟨h1, h2, h3⟩)
      · exact Or.inl (Or.inl h)
      · rcases List.mem_cons.mp h1 with h1 | h1
        · exact Or.inl (Or.inr ⟨h1, hm.mpr (h1 ▸ h2), h3⟩)
        · exact Or.inr ⟨h1, h2, h3⟩

theorem excluded_iff (env : Env) (s : Str) : excluded env s = false ↔ UsgsStyle env s := by
  unfold excluded UsgsStyle
  rcases s with _ | ⟨c, s⟩
  · simp
  · simp [Bool.or_eq_false_iff]

/-- The flags after reading the nine datasets. -/
theorem inclusionDict_spec {env : Env} {ds : Key → Dataset} {d : Dict}
    (h : inclusionDict env ds inclusionKeys [] = some d) :
    DictOk d (fun k s => k ∈ nine ∧ Listed ds k s ∧ UsgsStyle env s) := by
  have h0 : DictOk ([] : Dict) (fun _ _ => False) := ⟨by simp, by simp, by simp⟩
  refine (inclusionDict_ok env ds inclusionKeys [] _ d h0 h).congr fun k s => ?_
  rw [excluded_iff]
  simp only [false_or]
  rfl

theorem allSiteIds_mem (d : Dict) (s : Str) : s ∈ allSiteIds d ↔ s ∈ d.map Prod.fst := by
  unfold allSiteIds
  exact List.mem_insertionSort _

theorem allSiteIds_sorted (d : Dict) (h : (d.map Prod.fst).Nodup) : (allSiteIds d).Pairwise (· < ·) := by
  have h1 : (allSiteIds d).Pairwise (· ≤ ·) := List.pairwise_insertionSort (· ≤ ·) _
  have h2 : (allSiteIds d).Nodup := (List.perm_insertionSort (· ≤ ·) _).nodup_iff.mpr h
  exact (h1.and h2).imp fun ⟨a, b⟩ => lt_of_le_of_ne a b

/-! ## C263: the lines and their flags -/

/-- The list of sites that are written. -/
def taken (counter n : ℕ) (ids : List Str) : List Str := if counter < n then ids.take (n - counter) else ids

theorem siteLoop_rows (env : Env) (ds : Key → Dataset) (d : Dict) (n : ℕ) (ids : List Str) :
    ∀ (counter : ℕ) (cs : Key → Cursor) (out : List (List Str)),
    siteLoop env ds d n counter ids cs = some out →
    List.Forall₂ (fun s row => ∃ cs cs', siteRow env ds d s cs = some (row, cs')) (taken counter n ids) out := by
  induction ids with
  | nil =>
    intro counter cs out h
    simp only [siteLoop, Option.some.injEq] at h
    subst h
    unfold taken
    simp
  | cons s rest ih =>
    intro counter cs out h
    simp only [siteLoop] at h
    rcases h1 : siteRow env ds d s cs with _ | ⟨row, cs'⟩
    · rw [h1] at h; cases h
    rw [h1] at h
    simp only at h
    by_cases hc : counter + 1 = n
    · rw [if_pos hc] at h
      simp only [Option.some.injEq] at h
      subst h
      have : taken counter n (s :: rest) = [s] := by
        unfold taken
        rw [if_pos (by omega), show n - counter = 1 by omega]
        simp
      rw [this]
      exact .cons ⟨cs, cs', h1⟩ .nil
    · rw [if_neg hc] at h
      rcases h2 : siteLoop env ds d n (counter + 1) rest cs' with _ | rs
      · rw [h2] at h; cases h
      rw [h2] at h
      simp only [Option.some.injEq] at h
      subst h
      have : taken counter n (s :: rest) = s :: taken (counter + 1) n rest := by
        unfold taken
        by_cases hl : counter < n
        · rw [if_pos hl, if_pos (by omega), show n - counter = (n - (counter + 1)) + 1 by omega]
          rfl
        · rw [if_neg hl, if_neg (by omega)]
      rw [this]
      exact .cons ⟨cs, cs', h1⟩ (ih _ _ _ h2)

theorem taken_zero (n : ℕ) (ids : List Str) : taken 0 n ids = firstN n ids := by
  unfold taken firstN
  by_cases h : n = 0
  · subst h; simp
  · rw [if_neg h, if_pos (by omega)]; simp

theorem set_ne {a : Atts} {k x : String} {v : Str} (h : x ≠ k) : set a k v x = a x := by
  unfold set; rw [if_neg h]

theorem set_self {a : Atts} {k : String} {v : Str} : set a k v k = v := by
  unfold set; rw [if_pos rfl]

theorem setDash_ne {a : Atts} {k x v : String} (h : x ≠ k) : setDash a k v x = a x := by
  unfold setDash; split
  · exact set_ne h
  · rfl

/-- The attributes that `units` assigns. -/
def unitAtts : List String :=
  ["elev_units", "area_units", "stage_data", "vert_datum", "horiz_datum", "site_type", "country_code",
    "swb_class", "aridity", "snow_fraction"]

theorem units_other {key : Key} {headings vals : List Str} {a b : Atts} {x : String} (hx : x ∉ unitAtts)
    (h : units key headings vals a = some b) : b x = a x := by
  simp only [unitAtts, List.mem_cons, List.not_mem_nil, or_false, not_or] at hx
  obtain ⟨x1, x2, x3, x4, x5, x6, x7, x8, x9, x10⟩ := hx
  cases key <;> simp only [units] at h
  case nwis =>
    rcases h1 : index headings "data_types_cd" with _ | dcol
    · rw [h1] at h; cases h
    rw [h1] at h
    simp only at h
    rcases h2 : vals[dcol]? with _ | v
    · rw [h2] at h; cases h
    rw [h2] at h
    simp only at h
    rcases h3 : strip v with _ | ⟨c1, _ | ⟨c2, t⟩⟩ <;> rw [h3] at h <;> simp only [Option.some.injEq] at h <;>
      subst h
    · rw [set_ne x2, set_ne x1]
    · rw [set_ne x2, set_ne x1]
    · rw [set_ne x3, set_ne x2, set_ne x1]
  case gages2all =>
    rcases h1 : vals[25]? with _ | v1
    · rw [h1] at h; simp at h
    rcases h2 : vals[22]? with _ | v2
    · rw [h1, h2] at h; simp at h
    rcases h3 : vals[24]? with _ | v3
    · rw [h1, h2, h3] at h; simp at h
    rw [h1, h2, h3] at h
    simp only [Option.some.injEq] at h
    subst h
    rw [set_ne x10, set_ne x9, set_ne x8, setDash_ne x7, setDash_ne x6, setDash_ne x5, setDash_ne x4,
      setDash_ne x1, setDash_ne x2]
  case hcdn =>
    simp only [Option.some.injEq] at h; subst h
    rw [setDash_ne x1, setDash_ne x2]
  case mopex =>
    simp only [Option.some.injEq] at h; subst h
    rw [setDash_ne x1, setDash_ne x2]
  all_goals simp only [Option.some.injEq] at h; rw [h]

theorem unset_eq (v : Str) : unset v = true ↔ Unset v := by
  have e : "-".toList = dash := rfl
  unfold unset Unset
  rw [e, Bool.or_eq_true, Bool.or_eq_true, decide_eq_true_eq, decide_eq_true_eq, decide_eq_true_eq, or_assoc]

theorem fill_set {headings vals : List Str} {x : String} (fs : List (String × String)) :
    ∀ {a b : Atts}, ¬ Unset (a x) → fill headings vals fs a = some b → b x = a x := by
  induction fs with
  | nil => intro a b _ h; simp only [fill, Option.some.injEq] at h; rw [h]
  | cons f fs ih =>
    obtain ⟨hd, k⟩ := f
    intro a b hu h
    simp only [fill] at h
    rcases h1 : index headings hd with _ | col
    · rw [h1] at h; cases h
    rw [h1] at h
    simp only at h
    by_cases hk : unset (a k) = true
    · rw [if_pos hk] at h
      rcases h2 : vals[col]? with _ | v
      · rw [h2] at h; cases h
      rw [h2] at h
      simp only at h
      have hx : x ≠ k := by
        rintro rfl
        exact hu ((unset_eq _).mp hk)
      have := ih (by rw [set_ne hx]; exact hu) h
      rw [this, set_ne hx]
    · rw [if_neg hk] at h
      exact ih hu h

theorem fill_other {headings vals : List Str} {x : String} (fs : List (String × String)) :
    ∀ {a b : Atts}, (∀ f ∈ fs, f.2 ≠ x) → fill headings vals fs a = some b → b x = a x := by
  induction fs with
  | nil => intro a b _ h; simp only [fill, Option.some.injEq] at h; rw [h]
  | cons f fs ih =>
    obtain ⟨hd, k⟩ := f
    intro a b hf h
    have hx : x ≠ k := fun e => hf _ (List.mem_cons_self ..) e.symm
    have hf' := fun g hg => hf g (List.mem_cons_of_mem _ hg)
    simp only [fill] at h
    rcases h1 : index headings hd with _ | col
    · rw [h1] at h; cases h
    rw [h1] at h
    simp only at h
    by_cases hk : unset (a k) = true
    · rw [if_pos hk] at h
      rcases h2 : vals[col]? with _ | v
      · rw [h2] at h; cases h
      rw [h2] at h
      simp only at h
      rw [ih hf' h, set_ne hx]
    · rw [if_neg hk] at h
      exact ih hf' h

/-- What the loop over the headings does to an attribute with one column. -/
theorem fill_spec {headings vals : List Str} {x : String} (hx : x ≠ "horiz_datum") (fs : List (String × String))
    (hn : (fs.map Prod.snd).Nodup) :
    ∀ {a b : Atts}, fill headings vals fs a = some b →
    b x = match fs.find? (fun f => f.2 = x) with
      | none => a x
      | some f => if Unset (a x) then strip (vals.getD (headings.idxOf f.1.toList) []) else a x := by
  induction fs with
  | nil => intro a b h; simp only [fill, Option.some.injEq] at h; rw [h]; rfl
  | cons f fs ih =>
    obtain ⟨hd, k⟩ := f
    simp only [List.map_cons, List.nodup_cons] at hn
    intro a b h
    simp only [fill] at h
    rcases h1 : index headings hd with _ | col
    · rw [h1] at h; cases h
    rw [h1] at h
    simp only at h
    have hcol : headings.idxOf hd.toList = col := by
      unfold index at h1
      simp only at h1
      split at h1
      · exact Option.some.inj h1
      · cases h1
    by_cases hxk : k = x
    · subst hxk
      rw [List.find?_cons_of_pos (by simp)]
      simp only
      have hno : ∀ f ∈ fs, f.2 ≠ k := fun f hf e => hn.1 (e ▸ List.mem_map_of_mem hf)
      by_cases hk : unset (a k) = true
      · rw [if_pos hk] at h
        rcases h2 : vals[col]? with _ | v
        · rw [h2] at h; cases h
        rw [h2] at h
        simp only at h
        rw [fill_other fs hno h, set_self, if_neg hx, if_pos ((unset_eq _).mp hk), hcol,
          List.getD_eq_getElem?_getD, h2]
        rfl
      · rw [if_neg hk] at h
        rw [fill_other fs hno h, if_neg (fun e => hk ((unset_eq _).mpr e))]
    · rw [List.find?_cons_of_neg (by simpa using hxk)]
      by_cases hk : unset (a k) = true
      · rw [if_pos hk] at h
        rcases h2 : vals[col]? with _ | v
        · rw [h2] at h; cases h
        rw [h2] at h
        simp only at h
        rw [ih hn.2 h, set_ne (fun e => hxk e.symm)]
      · rw [if_neg hk] at h
        exact ih hn.2 h

theorem fields_nodup (key : Key) : ((fields key).map Prod.snd).Nodup := by
  cases key <;> decide +kernel

/-- What a row does to an attribute that only comes from columns. -/
theorem updateAttributes_spec {key : Key} {d : Dataset} {line : Str} {a b : Atts} {x : String}
    (hx : x ∉ unitAtts) (h : updateAttributes key d.headings (split '\t' line) a = some b) :
    b x = match offer key d x line with
      | none => a x
      | some v => if Unset (a x) then v else a x := by
  unfold updateAttributes at h
  rcases h1 : units key d.headings (split '\t' line) a with _ | a1
  · rw [h1] at h; cases h
  rw [h1] at h
  simp only at h
  have hh : x ≠ "horiz_datum" := by rintro rfl; exact hx (by decide)
  rw [fill_spec hh _ (fields_nodup key) h, units_other hx h1]
  unfold offer
  generalize (fields key).find? (fun f => decide (f.2 = x)) = o
  rcases o with _ | f <;> rfl

/-- The attributes that `lookups` assigns. -/
def lookupAtts : List String :=
  ["long_name", "huc", "huc_url", "nws_url", "wfo", "goes_id", "hsa", "state_code", "site_type", "hlr_code",
    "hgraph_type", "rfc_name", "huc8", "closest_site_id", "closest_site_dist"]

theorem lookups_other {env : Env} {s : Str} {a b : Atts} {x : String} (hx : x ∉ lookupAtts)
    (h : lookups env s a = some b) : b x = a x := by
  simp only [lookupAtts, List.mem_cons, List.not_mem_nil, or_false, not_or] at hx
  obtain ⟨x1, x2, x3, x4, x5, x6, x7, x8, x9, x10, x11, x12, x13, x14, x15⟩ := hx
  unfold lookups at h
  have g1 : ∀ a, lookName env a x = a x := by
    intro a
    unfold lookName
    by_cases hn : a "site_name" ≠ dash
    · rw [if_pos hn]; exact set_ne x1
    · rw [if_neg hn]
  have g2 : ∀ a, lookHuc env s a x = a x := by
    intro a
    unfold lookHuc
    rcases env.huc12 s with _ | hu
    · exact set_ne x3
    · exact (set_ne x3).trans (set_ne x2)
  have g3 : ∀ a, lookNws env a x = a x := by
    intro a
    unfold lookNws
    rcases env.rfc2 (a "nws_loc_id") with _ | w <;> rcases env.rfc1 (a "nws_loc_id") with _ | ⟨w', g, h'⟩
    · exact set_ne x4
    · exact (set_ne x7).trans ((set_ne x6).trans ((set_ne x5).trans (set_ne x4)))
    · exact (set_ne x5).trans (set_ne x4)
    · exact (set_ne x7).trans ((set_ne x6).trans ((set_ne x5).trans (set_ne x4)))
  have g4 : ∀ a b, lookFips env a = some b → b x = a x := by
    intro a b hb
    unfold lookFips at hb
    by_cases hnu : env.numeric (a "state_code") = true
    · rw [if_pos hnu] at hb
      generalize env.fips (a "state_code") = o at hb
      rcases o with _ | f
      · cases hb
      · rw [← Option.some.inj hb]; exact set_ne x8
    · rw [if_neg hnu] at hb
      rw [← Option.some.inj hb]
  have g4' : ∀ st a b, lookState env st a = some b → b x = a x := by
    intro st a b hb
    unfold lookState at hb
    by_cases hd : st = dash ∧ a "long_name" ≠ dash
    · rw [if_pos hd] at hb
      generalize env.stateCode (a "site_id") (a "long_name") = o at hb
      rcases o with _ | f
      · cases hb
      · rw [← Option.some.inj hb, set_ne x8]
    · rw [if_neg hd] at hb
      rw [← Option.some.inj hb]
  have g5 : ∀ a, lookRest env s a x = a x := by
    intro a
    unfold lookRest
    rcases env.siteType (a "site_type") with _ | t <;> rcases env.hgraph s with _ | ⟨p, q, r⟩ <;>
      simp only [set_ne x15, set_ne x14, set_ne x13, set_ne x12, set_ne x11, set_ne x10, set_ne x9]
  simp only at h
  rcases hf : lookFips env (lookNws env (lookHuc env s (lookName env a))) with _ | c
  · rw [hf] at h; cases h
  rw [hf] at h
  simp only at h
  rcases hs : lookState env (lookNws env (lookHuc env s (lookName env a)) "state_code") c with _ | c'
  · rw [hs] at h; cases h
  · rw [hs] at h
    simp only [Option.some.injEq] at h
    rw [← h, g5, g4' _ _ _ hs, g4 _ _ hf, g3, g2, g1]

theorem stepKeys_set (ds : Key → Dataset) (s : Str) (x : String) (hx : x ∉ unitAtts) (keys : List Key) :
    ∀ (cs cs' : Key → Cursor) (a b : Atts), ¬ Unset (a x) → stepKeys ds s keys cs a = some (b, cs') →
    b x = a x := by
  induction keys with
  | nil =>
    intro cs cs' a b _ h
    simp only [stepKeys, Option.some.injEq, Prod.mk.injEq] at h
    rw [h.1]
  | cons key rest ih =>
    intro cs cs' a b hu h
    simp only [stepKeys] at h
    rcases h1 : stepOne key s (cs key) with _ | ⟨_ | line, c'⟩
    · rw [h1] at h; cases h
    · rw [h1] at h; exact ih _ _ _ _ hu h
    · rw [h1] at h
      simp only at h
      rcases h2 : updateAttributes key (ds key).headings (split '\t' line) a with _ | a1
      · rw [h2] at h; cases h
      rw [h2] at h
      simp only at h
      have h3 : a1 x = a x := by
        rw [updateAttributes_spec hx h2]
        rcases offer key (ds key) x line with _ | v
        · rfl
        · simp only; rw [if_neg hu]
      rw [ih _ _ _ _ (by rw [h3]; exact hu) h, h3]

open Classical in
/-- **C263**: whatever the files hold, if `collate` ends normally it writes one line for each USGS-style id that
one of the nine datasets lists, in increasing order (the first `max_count` of them), and the nine flags say
exactly which of the datasets list the id; each line has as many fields as the header. -/
theorem C263_lines {env : Env} {ds : Key → Dataset} {n : ℕ} {out : List (List Str)}
    (h : collate env ds n = some out) :
    ∃ sites : List Str, sites.Pairwise (· < ·) ∧
      (∀ s, s ∈ sites ↔ UsgsStyle env s ∧ ∃ k ∈ nine, Listed ds k s) ∧
      out.map (fun r => r.head?) = (firstN n sites).map some ∧
      out.map (fun r => (r.drop 40).take 9)
        = (firstN n sites).map (fun s => nine.map fun k => if Listed ds k s then ['Y'] else ['N']) ∧
      ∀ r ∈ out, r.length = (attHeadings ++ inclHeadings).length := by
  unfold collate at h
  rcases h1 : openAll ds primaryKeys with _ | cs
  · rw [h1] at h; cases h
  rcases h2 : inclusionDict env ds inclusionKeys [] with _ | d
  · rw [h1, h2] at h; cases h
  rw [h1, h2] at h
  simp only at h
  obtain ⟨d1, d2, d3⟩ := inclusionDict_spec h2
  have hmem : ∀ s, s ∈ allSiteIds d ↔ UsgsStyle env s ∧ ∃ k ∈ nine, Listed ds k s := by
    intro s
    rw [allSiteIds_mem, d2]
    constructor
    · rintro ⟨k, a, b, c⟩; exact ⟨c, k, a, b⟩
    · rintro ⟨c, k, a, b⟩; exact ⟨k, a, b, c⟩
  have hl := siteLoop_rows env ds d n _ 0 cs out h
  rw [taken_zero] at hl
  have hsub : ∀ s ∈ firstN n (allSiteIds d), s ∈ allSiteIds d := by
    intro s hs
    unfold firstN at hs
    split at hs
    · exact hs
    · exact List.mem_of_mem_take hs
  -- every row
  have key : ∀ s ∈ allSiteIds d, ∀ row, (∃ cs cs', siteRow env ds d s cs = some (row, cs')) →
      row.head? = some s ∧ (row.drop 40).take 9 = (nine.map fun k => if Listed ds k s then ['Y'] else ['N']) ∧
      row.length = (attHeadings ++ inclHeadings).length := by
    rintro s hs row ⟨cs, cs', hr⟩
    unfold siteRow at hr
    rcases r1 : inclusionList d s with _ | incl
    · rw [r1] at hr; cases hr
    rw [r1] at hr
    simp only at hr
    rcases r2 : stepKeys ds s primaryKeys cs (defaultAtts env s) with _ | ⟨a, cs2⟩
    · rw [r2] at hr; cases hr
    rw [r2] at hr
    simp only at hr
    rcases r3 : lookups env s a with _ | b
    · rw [r3] at hr; cases hr
    rw [r3] at hr
    simp only [Option.some.injEq, Prod.mk.injEq] at hr
    obtain ⟨hr, -⟩ := hr
    subst hr
    have hlen : (attKeys.map b).length = 40 := by rw [List.length_map]; rfl
    unfold inclusionList at r1
    rcases r4 : d.find? (fun e => e.1 = s) with _ | e
    · rw [r4] at r1; cases r1
    rw [r4] at r1
    simp only [Option.some.injEq] at r1
    have he1 : e.1 = s := by simpa using List.find?_some r4
    have he2 := List.mem_of_find?_eq_some r4
    have hincl : incl = nine.map fun k => if Listed ds k s then ['Y'] else ['N'] := by
      rw [← r1]
      apply List.map_congr_left
      intro k hk
      have := d3 e he2 k
      rw [he1] at this
      have hst := ((hmem s).mp hs).1
      by_cases hL : Listed ds k s
      · rw [if_pos hL, this.mpr ⟨hk, hL, hst⟩]; rfl
      · rw [if_neg hL]
        have : e.2 k = false := by
          rw [← Bool.not_eq_true]
          intro h'; exact hL (this.mp h').2.1
        rw [this]; rfl
    have hilen : incl.length = 9 := by rw [hincl, List.length_map]; rfl
    refine ⟨?_, ?_, ?_⟩
    · have hu : ¬ Unset (defaultAtts env s "site_id") := by
        have : defaultAtts env s "site_id" = s := rfl
        rw [this]
        have hst := ((hmem s).mp hs).1.1
        have hal := ((hmem s).mp hs)
        rintro (h' | h' | h')
        · rw [h'] at hst; revert hst; decide
        · -- "unknown" has seven letters; it is excluded only if 'u' is a letter, but no id has length seven
          exfalso
          obtain ⟨k, _, l, _, hl⟩ := hal.2
          unfold idOf at hl
          simp only at hl
          split at hl
          · rename_i h7
            rw [h'] at hl
            have := congrArg List.head? hl
            rw [show "unknown".toList.head? = some 'u' from rfl, List.head?_cons] at this
            exact absurd (Option.some.inj this) (by decide)
          · rename_i h7
            apply h7
            rw [hl, h']
            decide
        · rw [h'] at hst; revert hst; decide
      have e1 : a "site_id" = s := stepKeys_set ds s "site_id" (by decide) _ _ _ _ _ hu r2
      have e2 : b "site_id" = s := (lookups_other (by decide) r3).trans e1
      have : (attKeys.map b ++ (incl ++ extraList env s)).head? = some (b "site_id") := rfl
      rw [this, e2]
    · rw [List.drop_append_of_le_length (by omega), List.drop_of_length_le (by omega), List.nil_append,
        List.take_append_of_le_length (by omega), List.take_of_length_le (by omega), hincl]
    · rw [List.length_append, List.length_append, hlen, hilen]
      rfl
  have hall : ∀ (l : List Str) (o : List (List Str)), (∀ s ∈ l, s ∈ allSiteIds d) →
      List.Forall₂ (fun s row => ∃ cs cs', siteRow env ds d s cs = some (row, cs')) l o →
      o.map (fun r => r.head?) = l.map some ∧
      o.map (fun r => (r.drop 40).take 9)
        = l.map (fun s => nine.map fun k => if Listed ds k s then ['Y'] else ['N']) ∧
      ∀ r ∈ o, r.length = (attHeadings ++ inclHeadings).length := by
    intro l o hl hf
    induction hf with
    | nil => simp
    | @cons s row l o hr hf ih =>
      obtain ⟨i1, i2, i3⟩ := ih (fun s hs => hl s (List.mem_cons_of_mem _ hs))
      obtain ⟨k1, k2, k3⟩ := key s (hl s (List.mem_cons_self ..)) row hr
      refine ⟨by rw [List.map_cons, List.map_cons, k1, i1], by rw [List.map_cons, List.map_cons, k2, i2], ?_⟩
      intro r hr
      rcases List.mem_cons.mp hr with rfl | hr
      · exact k3
      · exact i3 r hr
  obtain ⟨i1, i2, i3⟩ := hall _ _ hsub hl
  exact ⟨allSiteIds d, allSiteIds_sorted d d1, hmem, i1, i2, i3⟩

/-- **C263**: a written line splits at its tabs into the values again, if none of them has a tab. -/
theorem C263_fields (vals : List Str) (hne : vals ≠ []) (h : ∀ v ∈ vals, '\t' ∉ v) :
    split '\t' (writeValues vals) = vals := by
  induction vals with
  | nil => exact absurd rfl hne
  | cons v rest ih =>
    have hv := h v (List.mem_cons_self ..)
    have hr := fun w hw => h w (List.mem_cons_of_mem _ hw)
    by_cases he : rest = []
    · subst he
      have : writeValues [v] = v := by simp [writeValues]
      rw [this]
      exact Cfg.split_no _ _ hv
    · have : writeValues (v :: rest) = v ++ '\t' :: writeValues rest := by
        unfold writeValues
        rw [List.flatMap_cons, List.append_assoc]
        have hx : (rest.flatMap fun v => v ++ ['\t']) ≠ [] := by
          rcases rest with _ | ⟨w, r⟩
          · exact absurd rfl he
          · simp
        rw [List.dropLast_append_of_ne_nil (by simp), List.dropLast_append_of_ne_nil hx]
        rfl
      rw [this, Cfg.split_append _ _ _ hv, ih he hr]

end Collate
