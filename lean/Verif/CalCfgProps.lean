import Mathlib.Data.List.Basic
import Mathlib.Tactic.Push
import Verif.CfgProps
import Verif.TemplateProps
import Verif.CalCfgModel

/-!
# The configuration file of a calibration (C288)
-/

set_option autoImplicit false

open Cfg (Str Trimmed)

namespace CalCfgSpec

open CalCfg (Val)

/-- A number written with decimal digits. -/
inductive Dec : Str → ℕ → Prop
  | one (c : Char) (h : c.isDigit = true) : Dec [c] (c.toNat - 48)
  | snoc (s : Str) (n : ℕ) (c : Char) (hs : Dec s n) (h : c.isDigit = true) : Dec (s ++ [c]) (10 * n + (c.toNat - 48))

/-- A whole number: digits with or without a sign. -/
def Whole (t : Str) (z : ℤ) : Prop :=
  ∃ s n, Dec s n ∧ ((t = s ∧ z = n) ∨ (t = '+' :: s ∧ z = n) ∨ (t = '-' :: s ∧ z = -(n : ℤ)))

/-- What a text stands for: a whole number if it is one, otherwise a number if it is one, otherwise a truth value or None,
and otherwise the text itself. -/
def Means {F : Type} (toFloat : Str → Option F) (t : Str) (v : Val F) : Prop :=
  (∃ z, Whole t z ∧ v = .int z) ∨
    ((∀ z, ¬ Whole t z) ∧
      ((∃ x, toFloat t = some x ∧ v = .flt x) ∨
        (toFloat t = none ∧
          ((t = "True".toList ∧ v = .bool true) ∨ (t = "False".toList ∧ v = .bool false) ∨
            (t = "None".toList ∧ v = .none) ∨
            (t ≠ "True".toList ∧ t ≠ "False".toList ∧ t ≠ "None".toList ∧ v = .str t)))))

/-- The line sets this name to this text: it does not begin with `#`, and has the name before and the text after its first
equals sign, spaces around them not counted. -/
def Sets (l k t : Str) : Prop :=
  l.head? ≠ some '#' ∧ ∃ w v, l = w ++ '=' :: v ∧ '=' ∉ w ∧ Trimmed w k ∧ Trimmed v t

/-- The last line that sets the name sets it to this text. -/
def Last (ls : List Str) (k t : Str) : Prop :=
  ∃ pre l post, ls = pre ++ l :: post ∧ Sets l k t ∧ ∀ m ∈ post, ∀ u, ¬ Sets m k u

/-- No line sets the name. -/
def Unset (ls : List Str) (k : Str) : Prop := ∀ l ∈ ls, ∀ u, ¬ Sets l k u

/-- Letters, digits and underscores, no digit at the beginning. -/
def Name (k : Str) : Prop :=
  ∃ c s, k = c :: s ∧ (c.isAlpha = true ∨ c = '_') ∧ ∀ d ∈ s, d.isAlphanum = true ∨ d = '_'

/-- Every line that does not begin with `#` has at most one equals sign, and a name before it. -/
def Proper (ls : List Str) : Prop :=
  ∀ l ∈ ls, l.head? ≠ some '#' → '=' ∈ l → ∃ w v k, l = w ++ '=' :: v ∧ '=' ∉ w ∧ '=' ∉ v ∧ Trimmed w k ∧ Name k

/-- A directory given by this text: the placeholder at its beginning, if it has one, is replaced, and a separator is added
if there is none at the end. -/
def Dir (tag base t d : Str) : Prop :=
  ∃ e, ((¬ tag <:+: t ∧ e = t) ∨ ∃ r, t = tag ++ '/' :: r ∧ '[' ∉ r ∧ e = base ++ r) ∧
    ((e.getLast? = some '/' ∧ d = e) ∨ (∃ c, e.getLast? = some c ∧ c ≠ '/' ∧ d = e ++ ['/']))

/-- The names of the directories. -/
def dirNames : List Str :=
  ["basin_dir".toList, "topo_dir".toList, "cfg_dir".toList, "output_dir".toList, "obs_dir".toList]

end CalCfgSpec

namespace CalCfg

open CalCfgSpec
open Cfg (split strip)

theorem asNat_iff (s : Str) (n : ℕ) : asNat s = some n ↔ Dec s n := by
  have key : ∀ s : Str, s ≠ [] → s.all Char.isDigit = true →
      Dec s (s.foldl (fun a c => 10 * a + (c.toNat - 48)) 0) := by
    intro s
    induction s using List.reverseRecOn with
    | nil => exact fun h => absurd rfl h
    | append_singleton s c ih =>
      intro _ hd
      simp only [List.all_append, List.all_cons, List.all_nil, Bool.and_true, Bool.and_eq_true] at hd
      by_cases h0 : s = []
      · subst h0
        simpa using Dec.one c hd.2
      · rw [List.foldl_append]
        exact Dec.snoc s _ c (ih h0 hd.1) hd.2
  constructor
  · intro h
    unfold asNat at h
    split_ifs at h with hc
    rw [← Option.some.inj h]
    exact key s hc.1 hc.2
  · intro h
    have : s ≠ [] ∧ s.all Char.isDigit = true ∧ s.foldl (fun a c => 10 * a + (c.toNat - 48)) 0 = n := by
      induction h with
      | one c h => exact ⟨by simp, by simp [h], by simp⟩
      | snoc s n c hs h ih => exact ⟨by simp, by simp [ih.2.1, h], by rw [List.foldl_append, ih.2.2]; rfl⟩
    rw [asNat, if_pos ⟨this.1, this.2.1⟩, this.2.2]

theorem dec_head {s : Str} {n : ℕ} (h : Dec s n) : ∃ c r, s = c :: r ∧ c.isDigit = true := by
  have := (asNat_iff s n).2 h
  unfold asNat at this
  split_ifs at this with hc
  cases s with
  | nil => exact absurd rfl hc.1
  | cons c r => exact ⟨c, r, rfl, by have := hc.2; simp only [List.all_cons, Bool.and_eq_true] at this; exact this.1⟩

theorem asInt_iff (t : Str) (z : ℤ) : asInt t = some z ↔ Whole t z := by
  constructor
  · intro h
    unfold asInt at h
    split at h
    · rename_i s
      obtain ⟨n, hn, e⟩ := Option.map_eq_some_iff.1 h
      exact ⟨s, n, (asNat_iff _ _).1 hn, Or.inr (Or.inr ⟨rfl, e.symm⟩)⟩
    · rename_i s
      obtain ⟨n, hn, e⟩ := Option.map_eq_some_iff.1 h
      exact ⟨s, n, (asNat_iff _ _).1 hn, Or.inr (Or.inl ⟨rfl, e.symm⟩)⟩
    · obtain ⟨n, hn, e⟩ := Option.map_eq_some_iff.1 h
      exact ⟨t, n, (asNat_iff _ _).1 hn, Or.inl ⟨rfl, e.symm⟩⟩
  · rintro ⟨s, n, hd, ⟨rfl, rfl⟩ | ⟨rfl, rfl⟩ | ⟨rfl, rfl⟩⟩
    · obtain ⟨c, r, e, hc⟩ := dec_head hd
      have h1 := (asNat_iff _ _).2 hd
      unfold asInt
      split
      · rename_i s'
        rw [List.cons.injEq] at e
        rw [← e.1] at hc; exact absurd hc (by decide)
      · rename_i s'
        rw [List.cons.injEq] at e
        rw [← e.1] at hc; exact absurd hc (by decide)
      · rw [h1]; rfl
    · show (asNat s).map _ = _
      rw [(asNat_iff _ _).2 hd]; rfl
    · show (asNat s).map _ = _
      rw [(asNat_iff _ _).2 hd]; rfl

variable {F : Type}

theorem conv_iff (toFloat : Str → Option F) (t : Str) (v : Val F) : conv toFloat t = v ↔ Means toFloat t v := by
  have hm : Means toFloat t (conv toFloat t) := by
    unfold conv
    split
    · next n h => exact Or.inl ⟨n, (asInt_iff _ _).1 h, rfl⟩
    · next h =>
      refine Or.inr ⟨fun z hz => ?_, ?_⟩
      · rw [(asInt_iff _ _).2 hz] at h; simp at h
      · split
        · next x hx => exact Or.inl ⟨x, hx, rfl⟩
        · next hx =>
          refine Or.inr ⟨hx, ?_⟩
          split_ifs with a b c
          · exact Or.inl ⟨a, rfl⟩
          · exact Or.inr (Or.inl ⟨b, rfl⟩)
          · exact Or.inr (Or.inr (Or.inl ⟨c, rfl⟩))
          · exact Or.inr (Or.inr (Or.inr ⟨a, b, c, rfl⟩))
  constructor
  · rintro rfl; exact hm
  · rintro (⟨z, hz, rfl⟩ | ⟨hn, ⟨x, hx, rfl⟩ | ⟨hx, h⟩⟩)
    · unfold conv; rw [(asInt_iff _ _).2 hz]
    · have : asInt t = none := by
        cases e : asInt t with
        | none => rfl
        | some z => exact absurd ((asInt_iff _ _).1 e) (hn z)
      unfold conv; rw [this]; dsimp only; rw [hx]
    · have : asInt t = none := by
        cases e : asInt t with
        | none => rfl
        | some z => exact absurd ((asInt_iff _ _).1 e) (hn z)
      unfold conv; rw [this]; dsimp only; rw [hx]; dsimp only
      rcases h with ⟨a, rfl⟩ | ⟨a, rfl⟩ | ⟨a, rfl⟩ | ⟨a, b, c, rfl⟩
      · rw [if_pos a]
      · subst a; rw [if_neg (by decide), if_pos rfl]
      · subst a; rw [if_neg (by decide), if_neg (by decide), if_pos rfl]
      · rw [if_neg a, if_neg b, if_neg c]

theorem ident_iff (k : Str) : ident k = true ↔ Name k := by
  constructor
  · intro h
    cases k with
    | nil => simp [ident] at h
    | cons c s =>
      simp only [ident, Bool.and_eq_true, Bool.or_eq_true, decide_eq_true_eq, List.all_eq_true] at h
      exact ⟨c, s, rfl, h.1, h.2⟩
  · rintro ⟨c, s, rfl, h1, h2⟩
    simp only [ident, Bool.and_eq_true, Bool.or_eq_true, decide_eq_true_eq, List.all_eq_true]
    exact ⟨h1, h2⟩

/-- What a proper line does. -/
theorem line_set (toFloat : Str → Option F) (ls : List Str) (hp : Proper ls) (l : Str) (hl : l ∈ ls) (a : Attrs F) :
    (∃ k t, Sets l k t ∧ (∀ k' t', Sets l k' t' → k' = k ∧ t' = t) ∧ line toFloat l a = .ok ((k, conv toFloat t) :: a)) ∨
      ((∀ k t, ¬ Sets l k t) ∧ line toFloat l a = .ok a) := by
  by_cases hc : l.head? ≠ some '#' ∧ '=' ∈ l
  · obtain ⟨w, v, k, e, hw, hv, hk, hn⟩ := hp l hl hc.1 hc.2
    have hsp : split '=' l = [w, v] := by rw [e, Cfg.split_append _ _ _ hw, Cfg.split_no _ _ hv]
    have hsk : strip w = k := (Cfg.strip_iff _ _).2 hk
    refine Or.inl ⟨k, strip v, ⟨hc.1, w, v, e, hw, hk, (Cfg.strip_iff _ _).1 rfl⟩, ?_, ?_⟩
    · rintro k' t' ⟨_, w', v', e', hw', hk', ht'⟩
      have h1 : split '=' l = w' :: split '=' v' := by rw [e', Cfg.split_append _ _ _ hw']
      rw [hsp] at h1
      simp only [List.cons.injEq] at h1
      obtain ⟨_, ⟨_, e2⟩ | ⟨r, _, e2⟩⟩ := Cfg.split_cons_inv _ _ _ _ h1.2.symm
      · subst e2
        rw [← h1.1] at hk'
        exact ⟨((Cfg.strip_iff _ _).2 hk').symm.trans hsk, ((Cfg.strip_iff _ _).2 ht').symm⟩
      · exact absurd e2 (Cfg.split_ne_nil _ _)
    · rw [line, if_pos hc, hsp]
      dsimp only
      rw [hsk, if_pos ((ident_iff k).2 hn)]
  · refine Or.inr ⟨?_, by rw [line, if_neg hc]⟩
    rintro k t ⟨h1, w, v, e, _⟩
    exact hc ⟨h1, by rw [e]; simp⟩

theorem readLines_ok (toFloat : Str → Option F) (all : List Str) (hp : Proper all) :
    ∀ ls : List Str, (∀ l ∈ ls, l ∈ all) → ∀ a : Attrs F, ∃ a', readLines toFloat ls a = .ok a' ∧
      (∀ k t, Last ls k t → get a' k = some (conv toFloat t)) ∧ (∀ k, Unset ls k → get a' k = get a k)
  | [], _, a => ⟨a, rfl, by rintro k t ⟨pre, l, post, e, _⟩; simp at e, fun _ _ => rfl⟩
  | l :: ls, hsub, a => by
    have hsub' : ∀ m ∈ ls, m ∈ all := fun m hm => hsub m (by simp [hm])
    rw [readLines]
    rcases line_set toFloat all hp l (hsub l (by simp)) a with ⟨k0, t0, hs, hu, e⟩ | ⟨hno, e⟩
    · rw [e]
      dsimp only
      obtain ⟨a', e', h1, h2⟩ := readLines_ok toFloat all hp ls hsub' ((k0, conv toFloat t0) :: a)
      refine ⟨a', e', ?_, ?_⟩
      · rintro k t ⟨pre, m, post, em, hm, hpost⟩
        cases pre with
        | nil =>
          simp only [List.nil_append, List.cons.injEq] at em
          obtain ⟨rfl, rfl⟩ := em
          obtain ⟨rfl, rfl⟩ := hu k t hm
          rw [h2 k hpost, get, if_pos rfl]
        | cons p pre =>
          simp only [List.cons_append, List.cons.injEq] at em
          exact h1 k t ⟨pre, m, post, em.2, hm, hpost⟩
      · intro k hk
        rw [h2 k (fun m hm => hk m (by simp [hm])), get, if_neg]
        rintro rfl
        exact hk l (by simp) t0 hs
    · rw [e]
      dsimp only
      obtain ⟨a', e', h1, h2⟩ := readLines_ok toFloat all hp ls hsub' a
      refine ⟨a', e', ?_, fun k hk => h2 k (fun m hm => hk m (by simp [hm]))⟩
      rintro k t ⟨pre, m, post, em, hm, hpost⟩
      cases pre with
      | nil =>
        simp only [List.nil_append, List.cons.injEq] at em
        obtain ⟨rfl, rfl⟩ := em
        exact absurd hm (hno k t)
      | cons p pre =>
        simp only [List.cons_append, List.cons.injEq] at em
        exact h1 k t ⟨pre, m, post, em.2, hm, hpost⟩

theorem text_of {a : Attrs F} {k s : Str} (h : get a k = some (.str s)) : text a k = .ok s := by rw [text, h]

theorem replace_none (p : Str) (new : Str) : ∀ r : Str, '[' ∉ r → Template.replaceGo ('[' :: p) new 0 r = r
  | [], _ => rfl
  | c :: r, h => by
    rw [Template.go_miss, replace_none p new r (fun m => h (List.mem_cons_of_mem _ m))]
    rintro ⟨q, e⟩
    simp only [List.cons_append, List.cons.injEq] at e
    exact h (by rw [← e.1]; simp)

/-- One replacement. -/
theorem expand_ok {a : Attrs F} {k base t b p : Str} (hk : get a k = some (.str t)) (hb : get a base = some (.str b))
    (ht : ¬ ('[' :: p) <:+: t ∨ ∃ r, t = ('[' :: p) ++ '/' :: r ∧ '[' ∉ r) :
    ∃ a' e, expand a k ('[' :: p) base = .ok a' ∧ get a' k = some (.str e) ∧ (∀ k', k' ≠ k → get a' k' = get a k') ∧
      ((¬ ('[' :: p) <:+: t ∧ e = t) ∨ ∃ r, t = ('[' :: p) ++ '/' :: r ∧ '[' ∉ r ∧ e = b ++ r) := by
  rw [expand, text_of hk]
  dsimp only
  by_cases hi : ('[' :: p) <:+: t
  · rw [if_pos hi, text_of hb]
    rcases ht with h | ⟨r, e, hr⟩
    · exact absurd hi h
    · refine ⟨_, _, rfl, by rw [get, if_pos rfl], fun k' h' => by rw [get, if_neg (fun x => h' x.symm)], Or.inr ⟨r, e, hr, ?_⟩⟩
      have e2 : t = ('[' :: p ++ ['/']) ++ r := by rw [e]; simp
      rw [e2, Template.replaceAll, Template.go_hit (by simp)]
      rw [show '[' :: p ++ ['/'] = '[' :: (p ++ ['/']) from rfl, replace_none _ _ _ hr]
  · rw [if_neg hi]
    exact ⟨a, t, rfl, hk, fun _ _ => rfl, Or.inl ⟨hi, rfl⟩⟩

/-- One separator. -/
theorem slash_ok {a : Attrs F} {k e : Str} (hk : get a k = some (.str e)) (he : e ≠ []) :
    ∃ a' d, slash a k = .ok a' ∧ get a' k = some (.str d) ∧ (∀ k', k' ≠ k → get a' k' = get a k') ∧
      ((e.getLast? = some '/' ∧ d = e) ∨ (∃ c, e.getLast? = some c ∧ c ≠ '/' ∧ d = e ++ ['/'])) := by
  rw [slash, text_of hk]
  dsimp only
  cases hl : e.getLast? with
  | none => exact absurd (List.getLast?_eq_none_iff.1 hl) he
  | some c =>
    dsimp only
    by_cases hc : c ≠ '/'
    · rw [if_pos hc]
      exact ⟨_, _, rfl, by rw [get, if_pos rfl], fun k' h' => by rw [get, if_neg (fun x => h' x.symm)],
        Or.inr ⟨c, rfl, hc, rfl⟩⟩
    · rw [if_neg hc]
      push Not at hc
      exact ⟨a, e, rfl, hk, fun _ _ => rfl, Or.inl ⟨by rw [hc], rfl⟩⟩

/-- C288 (missing: values with an equals sign, texts that look like numbers, placeholders at other places).  If every line
is proper, the five directories, the prefix, the file of observations and the start of observations are given as texts,
no directory is empty, and a placeholder stands at most at the beginning of its directory, the file is read without
error, and then: every other setting has the value that the text of its last line stands for; names that are not set
are missing; the directories have their placeholder replaced and end with a separator; the file of observations lies in
its directory; the simulated file is named after directory and prefix; and the start has its date and time separated by
a space. -/
theorem C288_read_partial (toFloat : Str → Option F) (home examples : Str) (ls : List Str) (hp : Proper ls)
    (hh : Unset ls "home_dir".toList) (hx : Unset ls "examples_dir".toList) (hhome : home ≠ []) (hexa : examples ≠ [])
    (given : Str → Str)
    (hg : ∀ k ∈ dirNames ++ ["cfg_prefix".toList, "obs_data_file".toList, "obs_start_datetime".toList],
      Last ls k (given k) ∧ Means toFloat (given k) (.str (given k)))
    (hne : ∀ k ∈ dirNames, given k ≠ [])
    (htag : ∀ k ∈ dirNames,
      let tag := if k = "output_dir".toList then "[home_dir]".toList else "[examples_dir]".toList
      ¬ tag <:+: given k ∨ ∃ r, given k = tag ++ '/' :: r ∧ '[' ∉ r) :
    ∃ a, setInfo toFloat home examples (some ls) = .ok a ∧
      (∀ k ∉ dirNames ++ ["obs_data_file".toList, "obs_start_datetime".toList, "sim_dir".toList, "sim_data_file".toList,
          "home_dir".toList, "examples_dir".toList],
        (∀ t, Last ls k t → ∃ v, get a k = some v ∧ Means toFloat t v) ∧ (Unset ls k → get a k = none)) ∧
      (∀ k ∈ dirNames, ∃ d, get a k = some (.str d) ∧
        (if k = "output_dir".toList then Dir "[home_dir]".toList home (given k) d
         else Dir "[examples_dir]".toList examples (given k) d)) ∧
      (∃ d, get a "obs_dir".toList = some (.str d) ∧
        get a "obs_data_file".toList = some (.str (d ++ given "obs_data_file".toList))) ∧
      (∃ d, get a "output_dir".toList = some (.str d) ∧ get a "sim_dir".toList = some (.str d) ∧
        get a "sim_data_file".toList = some (.str (d ++ given "cfg_prefix".toList ++ "_0D-Q.txt".toList))) ∧
      get a "obs_start_datetime".toList = some (.str ((given "obs_start_datetime".toList).take 10 ++ ' ' ::
        (given "obs_start_datetime".toList).drop ((given "obs_start_datetime".toList).length - 8))) := by
  obtain ⟨a0, e0, hlast, hunset⟩ := readLines_ok toFloat ls hp ls (fun _ h => h)
    [("examples_dir".toList, .str examples), ("home_dir".toList, .str home)]
  have hgv : ∀ k ∈ dirNames ++ ["cfg_prefix".toList, "obs_data_file".toList, "obs_start_datetime".toList],
      get a0 k = some (.str (given k)) := by
    intro k hk
    rw [hlast k _ (hg k hk).1, (conv_iff _ _ _).2 (hg k hk).2]
  have hhv : get a0 "home_dir".toList = some (.str home) := by rw [hunset _ hh]; rfl
  have hxv : get a0 "examples_dir".toList = some (.str examples) := by rw [hunset _ hx]; rfl
  -- replacements
  have nee : ∀ {t b e tag : Str}, t ≠ [] → b ≠ [] →
      ((¬ tag <:+: t ∧ e = t) ∨ ∃ r, t = tag ++ '/' :: r ∧ '[' ∉ r ∧ e = b ++ r) → e ≠ [] := by
    rintro t b e tag ht hb (⟨_, rfl⟩ | ⟨r, _, _, rfl⟩)
    · exact ht
    · simp [hb]
  obtain ⟨a1, x1, f1, g1, o1, s1⟩ := expand_ok (hgv "basin_dir".toList (by decide)) hxv
    (htag "basin_dir".toList (by decide))
  obtain ⟨a2, x2, f2, g2, o2, s2⟩ := expand_ok (a := a1) (k := "topo_dir".toList) (base := "examples_dir".toList)
    (by rw [o1 _ (by decide)]; exact hgv _ (by decide)) (by rw [o1 _ (by decide)]; exact hxv)
    (htag "topo_dir".toList (by decide))
  obtain ⟨a3, x3, f3, g3, o3, s3⟩ := expand_ok (a := a2) (k := "obs_dir".toList) (base := "examples_dir".toList)
    (by rw [o2 _ (by decide), o1 _ (by decide)]; exact hgv _ (by decide))
    (by rw [o2 _ (by decide), o1 _ (by decide)]; exact hxv) (htag "obs_dir".toList (by decide))
  obtain ⟨a4, x4, f4, g4, o4, s4⟩ := expand_ok (a := a3) (k := "cfg_dir".toList) (base := "examples_dir".toList)
    (by rw [o3 _ (by decide), o2 _ (by decide), o1 _ (by decide)]; exact hgv _ (by decide))
    (by rw [o3 _ (by decide), o2 _ (by decide), o1 _ (by decide)]; exact hxv) (htag "cfg_dir".toList (by decide))
  obtain ⟨a5, x5, f5, g5, o5, s5⟩ := expand_ok (a := a4) (k := "output_dir".toList) (base := "home_dir".toList)
    (by rw [o4 _ (by decide), o3 _ (by decide), o2 _ (by decide), o1 _ (by decide)]; exact hgv _ (by decide))
    (by rw [o4 _ (by decide), o3 _ (by decide), o2 _ (by decide), o1 _ (by decide)]; exact hhv)
    (htag "output_dir".toList (by decide))
  have eT : expandAll tags a0 = .ok a5 := by
    rw [tags, expandAll]
    erw [f1]
    dsimp only
    rw [expandAll]
    erw [f2]
    dsimp only
    rw [expandAll]
    erw [f3]
    dsimp only
    rw [expandAll]
    erw [f4]
    dsimp only
    rw [expandAll]
    erw [f5]
    rfl
  -- separators
  obtain ⟨b1, d1, q1, r1, p1, t1⟩ := slash_ok (a := a5) (k := "basin_dir".toList)
    (by rw [o5 _ (by decide), o4 _ (by decide), o3 _ (by decide), o2 _ (by decide)]; exact g1)
    (nee (hne _ (by decide)) hexa s1)
  obtain ⟨b2, d2, q2, r2, p2, t2⟩ := slash_ok (a := b1) (k := "topo_dir".toList)
    (by rw [p1 _ (by decide), o5 _ (by decide), o4 _ (by decide), o3 _ (by decide)]; exact g2)
    (nee (hne _ (by decide)) hexa s2)
  obtain ⟨b3, d3, q3, r3, p3, t3⟩ := slash_ok (a := b2) (k := "cfg_dir".toList)
    (by rw [p2 _ (by decide), p1 _ (by decide), o5 _ (by decide)]; exact g4) (nee (hne _ (by decide)) hexa s4)
  obtain ⟨b4, d4, q4, r4, p4, t4⟩ := slash_ok (a := b3) (k := "output_dir".toList)
    (by rw [p3 _ (by decide), p2 _ (by decide), p1 _ (by decide)]; exact g5) (nee (hne _ (by decide)) hhome s5)
  obtain ⟨b5, d5, q5, r5, p5, t5⟩ := slash_ok (a := b4) (k := "obs_dir".toList)
    (by rw [p4 _ (by decide), p3 _ (by decide), p2 _ (by decide), p1 _ (by decide), o5 _ (by decide),
      o4 _ (by decide)]; exact g3) (nee (hne _ (by decide)) hexa s3)
  have eS : slashAll dirs a5 = .ok b5 := by
    rw [dirs, slashAll, q1]
    dsimp only
    rw [slashAll, q2]
    dsimp only
    rw [slashAll, q3]
    dsimp only
    rw [slashAll, q4]
    dsimp only
    rw [slashAll, q5]
    rfl
  have other : ∀ k ∉ dirNames, get b5 k = get a0 k := by
    intro k hk
    simp only [dirNames, List.mem_cons, List.not_mem_nil, or_false, not_or] at hk
    obtain ⟨n1, n2, n3, n4, n5⟩ := hk
    rw [p5 _ n5, p4 _ n4, p3 _ n3, p2 _ n2, p1 _ n1, o5 _ n4, o4 _ n3, o3 _ n5, o2 _ n2, o1 _ n1]
  have hout : get b5 "output_dir".toList = some (.str d4) := by rw [p5 _ (by decide)]; exact r4
  have hpre : get b5 "cfg_prefix".toList = some (.str (given "cfg_prefix".toList)) := by
    rw [other _ (by decide)]; exact hgv _ (by decide)
  have hdt : get b5 "obs_start_datetime".toList = some (.str (given "obs_start_datetime".toList)) := by
    rw [other _ (by decide)]; exact hgv _ (by decide)
  have hof : get b5 "obs_data_file".toList = some (.str (given "obs_data_file".toList)) := by
    rw [other _ (by decide)]; exact hgv _ (by decide)
  have eD : derive b5 = .ok (("obs_data_file".toList, .str (d5 ++ given "obs_data_file".toList)) ::
      ("obs_start_datetime".toList, .str (standard (given "obs_start_datetime".toList))) ::
      ("sim_data_file".toList, .str (d4 ++ given "cfg_prefix".toList ++ "_0D-Q.txt".toList)) ::
      ("sim_dir".toList, .str d4) :: b5) := by
    rw [derive, text_of hout]
    dsimp only
    rw [text_of hpre]
    dsimp only
    rw [text_of hdt]
    dsimp only
    rw [text_of r5]
    dsimp only
    rw [text_of hof]
  have skip : ∀ k, k ≠ "obs_data_file".toList → k ≠ "obs_start_datetime".toList → k ≠ "sim_data_file".toList →
      k ≠ "sim_dir".toList → get (("obs_data_file".toList, .str (d5 ++ given "obs_data_file".toList)) ::
      ("obs_start_datetime".toList, .str (standard (given "obs_start_datetime".toList))) ::
      ("sim_data_file".toList, .str (d4 ++ given "cfg_prefix".toList ++ "_0D-Q.txt".toList)) ::
      ("sim_dir".toList, .str d4) :: b5) k = get b5 k := by
    intro k h1 h2 h3 h4
    rw [get, if_neg (Ne.symm h1), get, if_neg (Ne.symm h2), get, if_neg (Ne.symm h3), get, if_neg (Ne.symm h4)]
  have eI : setInfo toFloat home examples (some ls) = derive b5 := by
    rw [setInfo, e0]
    dsimp only
    rw [eT]
    dsimp only
    rw [eS]
  refine ⟨_, eI.trans eD, ?_, ?_, ?_, ?_, ?_⟩
  · intro k hk
    simp only [List.mem_append, List.mem_cons, List.not_mem_nil, or_false, not_or] at hk
    obtain ⟨hd, n1, n2, n3, n4, n5, n6⟩ := hk
    rw [skip k n1 n2 n4 n3, other k hd]
    refine ⟨fun t ht => ⟨_, hlast k t ht, (conv_iff _ _ _).1 rfl⟩, fun hu => ?_⟩
    rw [hunset k hu, get, if_neg (Ne.symm n6), get, if_neg (Ne.symm n5)]
    rfl
  · intro k hk
    have hk' := hk
    simp only [dirNames, List.mem_cons, List.not_mem_nil, or_false] at hk
    rcases hk with rfl | rfl | rfl | rfl | rfl
    · rw [skip _ (by decide) (by decide) (by decide) (by decide)]
      exact ⟨d1, by rw [p5 _ (by decide), p4 _ (by decide), p3 _ (by decide), p2 _ (by decide)]; exact r1,
        by rw [if_neg (by decide)]; exact ⟨x1, s1, t1⟩⟩
    · rw [skip _ (by decide) (by decide) (by decide) (by decide)]
      exact ⟨d2, by rw [p5 _ (by decide), p4 _ (by decide), p3 _ (by decide)]; exact r2,
        by rw [if_neg (by decide)]; exact ⟨x2, s2, t2⟩⟩
    · rw [skip _ (by decide) (by decide) (by decide) (by decide)]
      exact ⟨d3, by rw [p5 _ (by decide), p4 _ (by decide)]; exact r3,
        by rw [if_neg (by decide)]; exact ⟨x4, s4, t3⟩⟩
    · rw [skip _ (by decide) (by decide) (by decide) (by decide)]
      exact ⟨d4, hout, by rw [if_pos rfl]; exact ⟨x5, s5, t4⟩⟩
    · rw [skip _ (by decide) (by decide) (by decide) (by decide)]
      exact ⟨d5, r5, by rw [if_neg (by decide)]; exact ⟨x3, s3, t5⟩⟩
  · exact ⟨d5, by rw [skip _ (by decide) (by decide) (by decide) (by decide)]; exact r5, by rw [get, if_pos rfl]⟩
  · refine ⟨d4, by rw [skip _ (by decide) (by decide) (by decide) (by decide)]; exact hout, ?_, ?_⟩
    · rw [get, if_neg (by decide), get, if_neg (by decide), get, if_neg (by decide), get, if_pos rfl]
    · rw [get, if_neg (by decide), get, if_neg (by decide), get, if_pos rfl]
  · rw [get, if_neg (by decide), get, if_pos rfl]
    rfl

/-- C288 is false of the code: a prefix that consists of digits is not kept as text, and then the file cannot be read,
whatever else it has. -/
theorem C288_prefix_violated (toFloat : Str → Option F) (home examples : Str) (ls : List Str) (hp : Proper ls) (t : Str)
    (z : ℤ) (ht : Last ls "cfg_prefix".toList t) (hz : Whole t z) :
    ∃ e, setInfo toFloat home examples (some ls) = .error e := by
  obtain ⟨a0, e0, hlast, _⟩ := readLines_ok toFloat ls hp ls (fun _ h => h)
    [("examples_dir".toList, .str examples), ("home_dir".toList, .str home)]
  have h0 : get a0 "cfg_prefix".toList = some (.int z) := by
    rw [hlast _ _ ht, (conv_iff _ _ _).2 (Or.inl ⟨z, hz, rfl⟩)]
  have hexp : ∀ (ts : List (Str × Str × Str)), (∀ x ∈ ts, x.1 ≠ "cfg_prefix".toList) → ∀ a a' : Attrs F,
      expandAll ts a = .ok a' → get a' "cfg_prefix".toList = get a "cfg_prefix".toList := by
    intro ts
    induction ts with
    | nil => intro _ a a' h; rw [expandAll] at h; rw [Except.ok.inj h]
    | cons x ts ih =>
      obtain ⟨k, tag, base⟩ := x
      intro hx a a' h
      rw [expandAll] at h
      split at h
      · simp at h
      · next a1 e1 =>
        rw [ih (fun y hy => hx y (by simp [hy])) _ _ h]
        rw [expand] at e1
        split at e1
        · simp at e1
        · split at e1
          · split at e1
            · simp at e1
            · rw [← Except.ok.inj e1, get, if_neg (hx (k, tag, base) (by simp))]
          · rw [Except.ok.inj e1]
  have hsl : ∀ (ks : List Str), (∀ x ∈ ks, x ≠ "cfg_prefix".toList) → ∀ a a' : Attrs F,
      slashAll ks a = .ok a' → get a' "cfg_prefix".toList = get a "cfg_prefix".toList := by
    intro ks
    induction ks with
    | nil => intro _ a a' h; rw [slashAll] at h; rw [Except.ok.inj h]
    | cons k ks ih =>
      intro hx a a' h
      rw [slashAll] at h
      split at h
      · simp at h
      · next a1 e1 =>
        rw [ih (fun y hy => hx y (by simp [hy])) _ _ h]
        rw [slash] at e1
        split at e1
        · simp at e1
        · split at e1
          · simp at e1
          · rw [← Except.ok.inj e1]
            split
            · rw [get, if_neg (hx _ (by simp))]
            · rfl
  rw [setInfo, e0]
  dsimp only
  split
  · exact ⟨_, rfl⟩
  · next a1 e1 =>
    split
    · exact ⟨_, rfl⟩
    · next a2 e2 =>
      have h2 : get a2 "cfg_prefix".toList = some (.int z) := by
        rw [hsl _ (by decide) _ _ e2, hexp _ (by decide) _ _ e1, h0]
      rw [derive]
      split
      · exact ⟨_, rfl⟩
      · rw [text, h2]; exact ⟨_, rfl⟩

/-- C288 is false of the code: the text of a value ends before a second equals sign. -/
theorem C288_equals_violated (toFloat : Str → Option F) (h : toFloat "run".toList = none) :
    line toFloat "note = run=2\n".toList [] = .ok [("note".toList, (.str "run".toList : Val F))] ∧
      Sets "note = run=2\n".toList "note".toList "run=2".toList := by
  constructor
  · have e : split '=' "note = run=2\n".toList = ["note ".toList, " run".toList, "2\n".toList] := by decide
    have e2 : strip "note ".toList = "note".toList := by decide
    have e3 : strip " run".toList = "run".toList := by decide
    rw [line, if_pos (by decide), e]
    dsimp only
    rw [e2, e3, if_pos (by decide), conv]
    have : asInt "run".toList = none := by decide
    rw [this]
    dsimp only
    rw [h]
    rfl
  · exact ⟨by decide, "note ".toList, " run=2\n".toList, by decide, by decide,
      (Cfg.strip_iff _ _).1 (by decide), (Cfg.strip_iff _ _).1 (by decide)⟩

/-- C288 is false of the code: a placeholder without a separator behind it is not replaced, and the placeholder of the
home directory is replaced only in the directory of the output. -/
theorem C288_placeholder_violated (a : Attrs F) (k b : Str) :
    (get a k = some (.str "[examples_dir]".toList) → get a "examples_dir".toList = some (.str b) →
      ∃ a', expand a k "[examples_dir]".toList "examples_dir".toList = .ok a' ∧
        get a' k = some (.str "[examples_dir]".toList)) ∧
    (get a "basin_dir".toList = some (.str "[home_dir]/basin/".toList) →
      expand a "basin_dir".toList "[examples_dir]".toList "examples_dir".toList = .ok a) := by
  constructor
  · intro h1 h2
    rw [expand, text_of h1]
    dsimp only
    rw [if_pos (List.infix_refl _), text_of h2]
    refine ⟨_, rfl, ?_⟩
    rw [get, if_pos rfl]
    rfl
  · intro h1
    rw [expand, text_of h1]
    dsimp only
    rw [if_neg (by decide)]

/-- C288 is false of the code: without a configuration file neither series can be read, as the separator of its columns is
not set. -/
theorem C288_defaults_violated (two one : F) (home examples : Str) (observed : Bool) :
    ∃ e, settings (defaults two one home examples) (needed observed) = .error e := by
  cases observed
  · exact ⟨_, rfl⟩
  · exact ⟨_, rfl⟩

/-! ### Cases -/

/-- A file with all settings that are used. -/
def sample : List Str :=
  ["# basin_dir = nowhere\n".toList, "basin_dir = [examples_dir]/B\n".toList, "topo_dir = /t/\n".toList,
   "cfg_dir = /c\n".toList, "output_dir = [home_dir]/out/\n".toList, "obs_dir = /o\n".toList, "cfg_prefix = Case\n".toList,
   "obs_data_file = q.txt\n".toList, "obs_start_datetime = 1967-06-20T20:57:00\n".toList, "obs_header_lines = 5\n".toList,
   "obs_header_lines = 6\n".toList, "obs_data_delim = None\n".toList]

/-- The value of an attribute after the file was read. -/
def sampleGet (k : String) : Option (Val ℕ) :=
  match setInfo (fun _ => (none : Option ℕ)) "/home/u/".toList "/ex/".toList (some sample) with
  | .ok a => get a k.toList
  | .error _ => Option.none

example : sampleGet "basin_dir" = some (.str "/ex/B/".toList) := by decide +kernel
example : sampleGet "sim_data_file" = some (.str "/home/u/out/Case_0D-Q.txt".toList) := by decide +kernel
example : sampleGet "obs_data_file" = some (.str "/o/q.txt".toList) := by decide +kernel
example : sampleGet "obs_start_datetime" = some (.str "1967-06-20 20:57:00".toList) := by decide +kernel
example : sampleGet "obs_header_lines" = some (.int 6) := by decide +kernel
example : sampleGet "obs_data_delim" = some .none := by decide +kernel

/-- Name and text that a line sets, for the cases. -/
def setsB (l : Str) : Option (Str × Str) :=
  if l.head? ≠ some '#' then
    match split '=' l with
    | w :: _ :: _ => some (strip w, strip (l.drop (w.length + 1)))
    | _ => none
  else none

theorem sets_iff (l k t : Str) : Sets l k t ↔ setsB l = some (k, t) := by
  constructor
  · rintro ⟨h1, w, v, e, hw, hk, ht⟩
    have h2 : split '=' l = w :: split '=' v := by rw [e, Cfg.split_append _ _ _ hw]
    rw [setsB, if_pos h1, h2]
    cases hv : split '=' v with
    | nil => exact absurd hv (Cfg.split_ne_nil _ _)
    | cons x xs =>
      dsimp only
      have h3 : l.drop (w.length + 1) = v := by
        rw [e, show w ++ '=' :: v = (w ++ ['=']) ++ v by simp]
        exact List.drop_left' (by simp)
      rw [h3, (Cfg.strip_iff _ _).2 hk, (Cfg.strip_iff _ _).2 ht]
  · intro h
    unfold setsB at h
    split_ifs at h with h1
    split at h
    · next w x xs e =>
      obtain ⟨hw, ⟨e1, _⟩ | ⟨r, e1, _⟩⟩ := Cfg.split_cons_inv _ _ _ _ e
      · simp at e1
      · have h3 : l.drop (w.length + 1) = r := by
          rw [e1, show w ++ '=' :: r = (w ++ ['=']) ++ r by simp]
          exact List.drop_left' (by simp)
        rw [h3] at h
        simp only [Option.some.injEq, Prod.mk.injEq] at h
        exact ⟨h1, w, r, e1, hw, (Cfg.strip_iff _ _).1 h.1, (Cfg.strip_iff _ _).1 h.2⟩
    · simp at h

theorem last_of (ls : List Str) (k t : Str) (i : ℕ) (h1 : (ls[i]?).bind setsB = some (k, t))
    (h2 : ∀ m ∈ ls.drop (i + 1), (setsB m).map Prod.fst ≠ some k) : Last ls k t := by
  obtain ⟨l, hl, hs⟩ := Option.bind_eq_some_iff.1 h1
  obtain ⟨hi, e⟩ := List.getElem?_eq_some_iff.1 hl
  refine ⟨ls.take i, l, ls.drop (i + 1), ?_, (sets_iff _ _ _).2 hs, ?_⟩
  · rw [← e, ← List.drop_eq_getElem_cons hi, List.take_append_drop]
  · intro m hm u hu
    exact h2 m hm (by rw [(sets_iff _ _ _).1 hu]; rfl)

theorem unset_of (ls : List Str) (k : Str) (h : ∀ m ∈ ls, (setsB m).map Prod.fst ≠ some k) : Unset ls k :=
  fun m hm u hu => h m hm (by rw [(sets_iff _ _ _).1 hu]; rfl)

theorem proper_of (ls : List Str)
    (h : ∀ l ∈ ls, l.head? = some '#' ∨ '=' ∉ l ∨
      ((split '=' l).length = 2 ∧ ident (strip ((split '=' l).headD [])) = true)) : Proper ls := by
  intro l hl h1 h2
  rcases h l hl with h | h | ⟨h3, h4⟩
  · exact absurd h h1
  · exact absurd h2 h
  · cases e : split '=' l with
    | nil => rw [e] at h3; simp at h3
    | cons w ws =>
      obtain ⟨hw, ⟨e1, _⟩ | ⟨r, e1, e2⟩⟩ := Cfg.split_cons_inv _ _ _ _ e
      · rw [e, e1] at h3; simp at h3
      · have h5 : (split '=' r).length = 1 := by
          rw [e, ← e2] at h3; simpa using h3
        cases e3 : split '=' r with
        | nil => rw [e3] at h5; simp at h5
        | cons x xs =>
          obtain ⟨hx, ⟨_, e4⟩ | ⟨q, _, e4⟩⟩ := Cfg.split_cons_inv _ _ _ _ e3
          · refine ⟨w, r, strip w, e1, hw, by rw [e4]; exact hx, (Cfg.strip_iff _ _).1 rfl, (ident_iff _).1 ?_⟩
            rw [e] at h4; exact h4
          · rw [e3] at h5
            simp only [List.length_cons] at h5
            have : xs = [] := List.length_eq_zero_iff.1 (by omega)
            rw [this] at e4
            exact absurd e4 (Cfg.split_ne_nil _ _)

/-- The texts of the settings in the file. -/
def sampleGiven (k : Str) : Str :=
  if k = "basin_dir".toList then "[examples_dir]/B".toList
  else if k = "topo_dir".toList then "/t/".toList
  else if k = "cfg_dir".toList then "/c".toList
  else if k = "output_dir".toList then "[home_dir]/out/".toList
  else if k = "obs_dir".toList then "/o".toList
  else if k = "cfg_prefix".toList then "Case".toList
  else if k = "obs_data_file".toList then "q.txt".toList
  else "1967-06-20T20:57:00".toList

/-- The file meets the hypotheses of `C288_read_partial`. -/
example : Proper sample ∧ Unset sample "home_dir".toList ∧ Unset sample "examples_dir".toList ∧
    (∀ k ∈ dirNames ++ ["cfg_prefix".toList, "obs_data_file".toList, "obs_start_datetime".toList],
      Last sample k (sampleGiven k) ∧ Means (fun _ => (none : Option ℕ)) (sampleGiven k) (.str (sampleGiven k))) ∧
    (∀ k ∈ dirNames, sampleGiven k ≠ []) ∧
    (∀ k ∈ dirNames,
      let tag := if k = "output_dir".toList then "[home_dir]".toList else "[examples_dir]".toList
      ¬ tag <:+: sampleGiven k ∨ ∃ r, sampleGiven k = tag ++ '/' :: r ∧ '[' ∉ r) := by
  refine ⟨proper_of _ (by decide +kernel), unset_of _ _ (by decide +kernel), unset_of _ _ (by decide +kernel), ?_,
    by decide +kernel, ?_⟩
  · intro k hk
    simp only [dirNames, List.cons_append, List.nil_append, List.mem_cons, List.not_mem_nil, or_false] at hk
    rcases hk with rfl | rfl | rfl | rfl | rfl | rfl | rfl | rfl
    · exact ⟨last_of _ _ _ 1 (by decide +kernel) (by decide +kernel), (conv_iff _ _ _).1 (by decide +kernel)⟩
    · exact ⟨last_of _ _ _ 2 (by decide +kernel) (by decide +kernel), (conv_iff _ _ _).1 (by decide +kernel)⟩
    · exact ⟨last_of _ _ _ 3 (by decide +kernel) (by decide +kernel), (conv_iff _ _ _).1 (by decide +kernel)⟩
    · exact ⟨last_of _ _ _ 4 (by decide +kernel) (by decide +kernel), (conv_iff _ _ _).1 (by decide +kernel)⟩
    · exact ⟨last_of _ _ _ 5 (by decide +kernel) (by decide +kernel), (conv_iff _ _ _).1 (by decide +kernel)⟩
    · exact ⟨last_of _ _ _ 6 (by decide +kernel) (by decide +kernel), (conv_iff _ _ _).1 (by decide +kernel)⟩
    · exact ⟨last_of _ _ _ 7 (by decide +kernel) (by decide +kernel), (conv_iff _ _ _).1 (by decide +kernel)⟩
    · exact ⟨last_of _ _ _ 8 (by decide +kernel) (by decide +kernel), (conv_iff _ _ _).1 (by decide +kernel)⟩
  · intro k hk
    simp only [dirNames, List.mem_cons, List.not_mem_nil, or_false] at hk
    rcases hk with rfl | rfl | rfl | rfl | rfl
    · exact Or.inr ⟨"B".toList, by decide +kernel, by decide⟩
    · exact Or.inl (by decide +kernel)
    · exact Or.inl (by decide +kernel)
    · exact Or.inr ⟨"out/".toList, by decide +kernel, by decide⟩
    · exact Or.inl (by decide +kernel)

example : Last sample "obs_header_lines".toList "6".toList := last_of _ _ _ 10 (by decide +kernel) (by decide +kernel)

example : Whole "2015".toList 2015 :=
  (asInt_iff _ _).1 (by decide)

example : Means (fun _ => (none : Option ℕ)) "Case".toList (.str "Case".toList) :=
  (conv_iff _ _ _).1 (by decide +kernel)

end CalCfg
