import Verif.DialogModel
import Verif.SiteIdProps

/-!
# Configuration files as dialogs: C290
-/

set_option autoImplicit false

namespace Dialog

open Cfg (Str)
open SiteId SiteIdSpec

/-! ## Specification -/

namespace Spec

/-- A setting: seven columns of a line. -/
structure Setting where
  name : Str
  label : Str
  type : Str
  value : Str
  min : Str
  max : Str
  help : Str

/-- What a line says. -/
inductive Item where
  | group (name : Str)
  | help (url : Str)
  | remark
  | setting (s : Setting)

/-- The line says this: a group, the help file, nothing, or a setting. -/
def Says (l : Str) : Item → Prop
  | .group n => HasId '|' 0 l "PPF_GROUP_NAME".toList ∧ HasId '|' 1 l n
  | .help u => HasId '|' 0 l "HTML_HELP_FILE".toList ∧ HasId '|' 3 l u
  | .remark => ∃ w, HasId '|' 0 l w ∧ (w = [] ∨ w.head? = some '#')
  | .setting s => HasId '|' 0 l s.name ∧ HasId '|' 1 l s.label ∧ HasId '|' 2 l s.type ∧ HasId '|' 3 l s.value ∧
      HasId '|' 4 l s.min ∧ HasId '|' 5 l s.max ∧ HasId '|' 6 l s.help ∧
      s.name ≠ "PPF_GROUP_NAME".toList ∧ s.name ≠ "HTML_HELP_FILE".toList ∧ s.name ≠ [] ∧ s.name.head? ≠ some '#'

/-- The items without help file and remarks are these settings and then these groups. -/
def Grouped (items : List Item) (loose : List Setting) (groups : List (Str × List Setting)) : Prop :=
  items.filter (fun | .group _ => true | .setting _ => true | _ => false) =
    loose.map .setting ++ (groups.map fun g => Item.group g.1 :: g.2.map .setting).flatten

/-- The help files that are named, in order. -/
def urls (items : List Item) : List Str := items.filterMap (fun | .help u => some u | _ => none)

/-- A tag with a text. -/
def leaf (tag : String) (s : Str) : List Tok := [.op tag none, .txt s, .cl tag]

/-- The default shown for a setting; the input directory is that of the shared data. -/
def shown (s : Setting) : Str :=
  if s.name = "in_directory".toList then
    Template.replaceAll "/data/sims/topoflow".toList "/home/csdms/models/topoflow/3.1/share/data".toList s.value
  else s.value

/-- The entry of a setting; only settings that are not texts have a range. -/
def entry (model : Str) (s : Setting) : List Tok :=
  [.op "entry" (some ("/".toList ++ model ++ "/Input/Var/".toList ++ s.name))] ++ leaf "label" s.label ++
    leaf "default" (shown s) ++ leaf "type" s.type ++
    (if s.type.map Char.toLower = "string".toList then []
     else [.op "range" none] ++ leaf "min" s.min ++ leaf "max" s.max ++ [.cl "range"]) ++
    leaf "help_brief" s.help ++ [.cl "entry"]

/-- The tab of a group. -/
def tab (model : Str) (g : Str × List Setting) : List Tok :=
  [.op "tab" (some g.1)] ++ (g.2.map (entry model)).flatten ++ [.cl "tab"]

/-- An entry of the About tab. -/
def aboutEntry (name label help value : Str) : List Tok :=
  [.op "entry" (some name)] ++ leaf "label" label ++ leaf "help_brief" help ++ leaf "default" value ++
    leaf "type" "String".toList ++ [.cl "entry"]

/-- The About tab. -/
def about (model url : Str) : List Tok :=
  [.op "tab" (some "About".toList)] ++
    aboutEntry ("/".toList ++ model ++ "/ModelName".toList) "Model name:".toList "Name of the model".toList model ++
    aboutEntry ("/".toList ++ model ++ "/ModelAuthor".toList) "Author name:".toList "Name of the model author".toList
      "Scott D. Peckham ".toList ++
    aboutEntry "HTML_HELP_FILE".toList "HTML help file:".toList "URL for HTML help file".toList url ++ [.cl "tab"]

/-- Every tag is closed, in the reverse order of opening. -/
inductive Balanced : List Tok → Prop
  | nil : Balanced []
  | text (s : Str) (r : List Tok) : Balanced r → Balanced (.txt s :: r)
  | node (t : String) (n : Option Str) (a r : List Tok) : Balanced a → Balanced r →
      Balanced (.op t n :: (a ++ .cl t :: r))

/-- The file that is meant: the tabs of the groups and the About tab. -/
def meant (model url : Str) (loose : List Setting) (groups : List (Str × List Setting)) : List Tok :=
  [.op "dialog" none] ++ (loose.map (entry model)).flatten ++ (groups.map (tab model)).flatten ++ about model url ++
    [.cl "dialog"]

end Spec

open Spec

/-! ## Words -/

theorem word_iff (l : Str) (i : ℕ) (v : Str) : word l i = some v ↔ HasId '|' i l v := by
  rw [hasId_iff, word, Option.map_eq_some_iff]

/-- The output for the items, for both values of the flag. -/
def toks (model : Str) : Bool → List Item → List Tok
  | _, [] => []
  | b, .group n :: r => (if b then [] else [Tok.cl "tab"]) ++ (.op "tab" (some n) :: toks model false r)
  | b, .help _ :: r => toks model b r
  | b, .remark :: r => toks model b r
  | b, .setting s :: r => entry model s ++ toks model b r

theorem entry_writes (model l : Str) (s : Setting) (h : Says l (.setting s)) :
    doWrites l (entryWrites ('/' :: (model ++ "/Input/Var/".toList)) l) = (none, entry model s) := by
  obtain ⟨h0, h1, h2, h3, h4, h5, h6, -⟩ := h
  rw [← word_iff] at h0 h1 h2 h3 h4 h5 h6
  have e : "/".toList = ['/'] := by decide
  by_cases ht : s.type.map Char.toLower = "string".toList
  · simp only [entryWrites, h0, h2, Option.getD_some, Cfg.lower, ht, ne_eq, not_true_eq_false, if_false, if_true,
      List.nil_append, List.cons_append, doWrites, h1, h3, h6, entry, shown, leaf, elem, e, List.append_nil,
      List.append_assoc]
  · simp only [entryWrites, h0, h2, Option.getD_some, Cfg.lower, ht, ne_eq, not_false_eq_true, if_false, if_true,
      List.nil_append, List.cons_append, doWrites, h1, h3, h4, h5, h6, entry, shown, leaf, elem, e, List.append_nil,
      List.append_assoc]

theorem run_items (model : Str) (ls : List Str) (items : List Item) (h : List.Forall₂ Says ls items) (st : St) :
    (run ('/' :: (model ++ "/Input/Var/".toList)) st ls).1 = none ∧
    (run ('/' :: (model ++ "/Input/Var/".toList)) st ls).2.1 = toks model st.first items ∧
    (run ('/' :: (model ++ "/Input/Var/".toList)) st ls).2.2.help = ((urls items).getLast?.or st.help) := by
  induction h generalizing st with
  | nil => simp [run, toks, urls]
  | @cons l i ls is hi _ ih =>
    cases i with
    | group n =>
      obtain ⟨h0, h1⟩ := hi
      rw [← word_iff] at h0 h1
      have e : step ('/' :: (model ++ "/Input/Var/".toList)) st l =
          (none, (if st.first then [] else [Tok.cl "tab"]) ++ [.op "tab" (some n)], { st with first := false }) := by
        simp only [step, h0, Option.getD_some, if_true, h1]
      obtain ⟨a, b, c⟩ := ih { st with first := false }
      simp only [run, e, a, b, c, toks, urls, List.filterMap_cons, List.append_assoc, List.singleton_append, and_self]
    | help u =>
      obtain ⟨h0, h1⟩ := hi
      rw [← word_iff] at h0 h1
      have e : step ('/' :: (model ++ "/Input/Var/".toList)) st l = (none, [], { st with help := some u }) := by
        simp only [step, h0, Option.getD_some, h1]
        rw [if_neg (by decide +kernel), if_pos trivial]
      obtain ⟨a, b, c⟩ := ih { st with help := some u }
      simp only [run, e, a, b, c, toks, List.nil_append, true_and]
      show (urls is).getLast?.or (some u) = (u :: urls is).getLast?.or st.help
      rw [List.getLast?_cons]
      cases (urls is).getLast? <;> simp
    | remark =>
      obtain ⟨w, h0, hw⟩ := hi
      rw [← word_iff] at h0
      have e : step ('/' :: (model ++ "/Input/Var/".toList)) st l = (none, [], st) := by
        simp only [step, h0, Option.getD_some]
        have n1 : w ≠ "PPF_GROUP_NAME".toList := by
          rintro rfl; revert hw; decide +kernel
        have n2 : w ≠ "HTML_HELP_FILE".toList := by
          rintro rfl; revert hw; decide +kernel
        rw [if_neg n1, if_neg n2]
        by_cases hn : w = []
        · rw [if_pos hn]
        · rw [if_neg hn, if_pos (hw.resolve_left hn)]
      obtain ⟨a, b, c⟩ := ih st
      simp only [run, e, a, b, c, toks, urls, List.filterMap_cons, List.nil_append, and_self]
    | setting s =>
      have he := entry_writes model l s hi
      obtain ⟨h0, -, -, -, -, -, -, n1, n2, n3, n4⟩ := hi
      rw [← word_iff] at h0
      have e : step ('/' :: (model ++ "/Input/Var/".toList)) st l = (none, entry model s, st) := by
        simp only [step, h0, Option.getD_some]
        rw [if_neg n1, if_neg n2, if_neg n3, if_neg n4, he]
      obtain ⟨a, b, c⟩ := ih st
      simp only [run, e, a, b, c, toks, urls, List.filterMap_cons, and_self]

/-! ## Groups -/

theorem toks_filter (model : Str) (b : Bool) (items : List Item) :
    toks model b items =
      toks model b (items.filter (fun | .group _ => true | .setting _ => true | _ => false)) := by
  induction items generalizing b with
  | nil => rfl
  | cons i is ih => cases i <;> simp only [List.filter_cons, if_true, toks, ih] <;> first | rfl | skip

theorem toks_settings (model : Str) (b : Bool) (ss : List Setting) (r : List Item) :
    toks model b (ss.map .setting ++ r) = (ss.map (entry model)).flatten ++ toks model b r := by
  induction ss with
  | nil => rfl
  | cons s ss ih => simp only [List.map_cons, List.cons_append, toks, ih, List.flatten_cons, List.append_assoc]

theorem toks_groups (model : Str) (gs : List (Str × List Setting)) :
    toks model false (gs.map fun g => Item.group g.1 :: g.2.map .setting).flatten ++ [.cl "tab"] =
      .cl "tab" :: (gs.map (tab model)).flatten := by
  induction gs with
  | nil => rfl
  | cons g gs ih =>
    simp only [List.map_cons, List.flatten_cons, List.cons_append, toks, toks_settings, List.append_assoc, ih, tab,
      Bool.false_eq_true, if_false, List.nil_append]

theorem toks_first (model : Str) (gs : List (Str × List Setting)) (hg : gs ≠ []) :
    toks model true (gs.map fun g => Item.group g.1 :: g.2.map .setting).flatten ++ [.cl "tab"] =
      (gs.map (tab model)).flatten := by
  cases gs with
  | nil => exact absurd rfl hg
  | cons g gs =>
    simp only [List.map_cons, List.flatten_cons, List.cons_append, toks, toks_settings, List.append_assoc, toks_groups,
      tab, if_true, List.nil_append]

theorem about_eq (model u : Str) : aboutHead model ++ aboutTail u = about model u ++ [.cl "dialog"] := by
  have e : "/".toList = ['/'] := by decide
  simp only [aboutHead, aboutTail, about, aboutEntry, leaf, elem, e, List.append_assoc, List.cons_append,
    List.nil_append]

/-- **C290 (part).**  The file has the entries of the settings before the first group, then for each
group its tab with its settings in order, and the About tab with the last help file that is named; only the
closing tag of the last group is missing.  The first four lines are skipped, and an XML file that exists is left
alone. -/
theorem C290_content_partial (model : Str) (h1 h2 h3 h4 : Str) (ls : List Str) (items : List Item)
    (loose : List Setting) (groups : List (Str × List Setting)) (url : Str)
    (h : List.Forall₂ Says ls items) (hg : Grouped items loose groups) (hu : (urls items).getLast? = some url) :
    ∃ body, ((groups = [] ∧ body = []) ∨ (groups ≠ [] ∧ body ++ [.cl "tab"] = (groups.map (tab model)).flatten)) ∧
      convert model (h1 :: h2 :: h3 :: h4 :: ls) =
        (none, [.op "dialog" none] ++ (loose.map (entry model)).flatten ++ body ++ about model url ++
          [.cl "dialog"]) ∧
      fileAfter none model (h1 :: h2 :: h3 :: h4 :: ls) =
        some ([.op "dialog" none] ++ (loose.map (entry model)).flatten ++ body ++ about model url ++
          [.cl "dialog"]) ∧
      ∀ t, fileAfter (some t) model (h1 :: h2 :: h3 :: h4 :: ls) = some t := by
  obtain ⟨a, b, c⟩ := run_items model ls items h ⟨true, none⟩
  have hb : toks model true items = (loose.map (entry model)).flatten ++
      toks model true (groups.map fun g => Item.group g.1 :: g.2.map .setting).flatten := by
    rw [toks_filter, hg, toks_settings]
  have key : convert model (h1 :: h2 :: h3 :: h4 :: ls) =
      (none, [.op "dialog" none] ++ (loose.map (entry model)).flatten ++
        toks model true (groups.map fun g => Item.group g.1 :: g.2.map .setting).flatten ++ about model url ++
          [.cl "dialog"]) := by
    simp only [convert, List.drop_succ_cons, List.drop_zero, a, b, c, hu, Option.some_or, hb, about_eq]
    simp only [List.append_assoc, List.cons_append, List.nil_append]
  refine ⟨toks model true (groups.map fun g => Item.group g.1 :: g.2.map .setting).flatten, ?_, key, ?_, fun _ => rfl⟩
  · by_cases hn : groups = []
    · left; subst hn; exact ⟨rfl, rfl⟩
    · right; exact ⟨hn, toks_first model groups hn⟩
  · simp only [fileAfter, key]

/-! ## Balance -/

theorem Spec.Balanced.append {a b : List Tok} (ha : Balanced a) (hb : Balanced b) : Balanced (a ++ b) := by
  induction ha with
  | nil => exact hb
  | text s r _ ih => exact .text s _ ih
  | node t n a r h1 _ _ ih2 =>
    have := Balanced.node t n a _ h1 ih2
    simpa using this

theorem Spec.Balanced.one (t : String) (s : Str) : Balanced (leaf t s) :=
  .node t none [.txt s] [] (.text s _ .nil) .nil

theorem Spec.Balanced.wrap (t : String) (n : Option Str) {a : List Tok} (h : Balanced a) :
    Balanced ([.op t n] ++ a ++ [.cl t]) := by
  have := Balanced.node t n a [] h .nil
  simpa using this

theorem Spec.Balanced.all {α : Type} (f : α → List Tok) (l : List α) (h : ∀ x, Balanced (f x)) :
    Balanced (l.map f).flatten := by
  induction l with
  | nil => exact .nil
  | cons x xs ih => simpa using (h x).append ih

theorem balanced_entry (model : Str) (s : Setting) : Balanced (entry model s) := by
  have h : Balanced (leaf "label" s.label ++ leaf "default" (shown s) ++ leaf "type" s.type ++
    (if s.type.map Char.toLower = "string".toList then []
     else [.op "range" none] ++ leaf "min" s.min ++ leaf "max" s.max ++ [.cl "range"]) ++
    leaf "help_brief" s.help) := by
    refine ((((Balanced.one _ _).append (.one _ _)).append (.one _ _)).append ?_).append (.one _ _)
    split_ifs
    · exact .nil
    · have := Balanced.wrap "range" none ((Balanced.one "min" s.min).append (.one "max" s.max))
      simpa [List.append_assoc] using this
  have := Balanced.wrap "entry" (some ("/".toList ++ model ++ "/Input/Var/".toList ++ s.name)) h
  simpa only [entry, List.append_assoc] using this

theorem balanced_about (model url : Str) : Balanced (about model url) := by
  have he : ∀ n l h v, Balanced (aboutEntry n l h v) := by
    intro n l h v
    have := Balanced.wrap "entry" (some n) ((((Balanced.one "label" l).append (.one "help_brief" h)).append
      (.one "default" v)).append (.one "type" "String".toList))
    simpa only [aboutEntry, List.append_assoc] using this
  have := Balanced.wrap "tab" (some "About".toList) (((he ("/".toList ++ model ++ "/ModelName".toList)
    "Model name:".toList "Name of the model".toList model).append (he ("/".toList ++ model ++ "/ModelAuthor".toList)
    "Author name:".toList "Name of the model author".toList "Scott D. Peckham ".toList)).append
    (he "HTML_HELP_FILE".toList "HTML help file:".toList "URL for HTML help file".toList url))
  simpa only [about, List.append_assoc] using this

/-- The file that is meant is balanced. -/
theorem meant_balanced (model url : Str) (loose : List Setting) (groups : List (Str × List Setting)) :
    Balanced (meant model url loose groups) := by
  have h := (((Balanced.all (entry model) loose (balanced_entry model)).append
    (Balanced.all (tab model) groups
      (fun g => Balanced.wrap "tab" (some g.1) (Balanced.all (entry model) g.2 (balanced_entry model))))).append
    (balanced_about model url))
  have := Balanced.wrap "dialog" none h
  simpa only [meant, List.append_assoc] using this

/-- Opening less closing tags of a kind. -/
def net (t : String) : List Tok → ℤ
  | [] => 0
  | .op t' _ :: r => (if t' = t then 1 else 0) + net t r
  | .cl t' :: r => (if t' = t then -1 else 0) + net t r
  | .txt _ :: r => net t r

theorem net_append (t : String) (a b : List Tok) : net t (a ++ b) = net t a + net t b := by
  induction a with
  | nil => simp [net]
  | cons x xs ih => cases x <;> simp only [List.cons_append, net, ih] <;> omega

theorem net_balanced (t : String) (a : List Tok) (h : Balanced a) : net t a = 0 := by
  induction h with
  | nil => rfl
  | text s r _ ih => exact ih
  | node t' n a r _ _ ih1 ih2 =>
    simp only [net, net_append, ih1, ih2]
    split_ifs <;> rfl

/-- **C290, negated.**  With one group or more the file is never well-formed; it would be with one more closing
tag before the About tab. -/
theorem C290_balanced_violated (model : Str) (h1 h2 h3 h4 : Str) (ls : List Str) (items : List Item)
    (loose : List Setting) (groups : List (Str × List Setting)) (url : Str)
    (h : List.Forall₂ Says ls items) (hg : Grouped items loose groups) (hu : (urls items).getLast? = some url)
    (hn : groups ≠ []) :
    ∃ a b, convert model (h1 :: h2 :: h3 :: h4 :: ls) = (none, a ++ b) ∧ ¬ Balanced (a ++ b) ∧
      a ++ [.cl "tab"] ++ b = meant model url loose groups ∧ Balanced (a ++ [.cl "tab"] ++ b) := by
  obtain ⟨body, hbody, hc, -⟩ := C290_content_partial model h1 h2 h3 h4 ls items loose groups url h hg hu
  obtain ⟨hgn, -⟩ | ⟨-, hb⟩ := hbody
  · exact absurd hgn hn
  have hm : [.op "dialog" none] ++ (loose.map (entry model)).flatten ++ body ++ [.cl "tab"] ++
      (about model url ++ [.cl "dialog"]) = meant model url loose groups := by
    rw [meant, ← hb]; simp only [List.append_assoc]
  refine ⟨[.op "dialog" none] ++ (loose.map (entry model)).flatten ++ body, about model url ++ [.cl "dialog"], ?_, ?_,
    hm, hm ▸ meant_balanced _ _ _ _⟩
  · rw [hc]; simp only [List.append_assoc]
  · intro hbal
    have e1 := net_balanced "tab" _ hbal
    have e2 := net_balanced "tab" _ (meant_balanced model url loose groups)
    rw [← hm] at e2
    simp only [net_append] at e1 e2
    have e3 : net "tab" [Tok.cl "tab"] = -1 := by simp [net]
    rw [e3] at e2
    omega

/-- **C290, negated.**  Without a line for the help file the call ends with an error and leaves a file whose dialog
is not closed. -/
theorem C290_help_violated (model : Str) (h1 h2 h3 h4 : Str) (ls : List Str) (items : List Item)
    (loose : List Setting) (groups : List (Str × List Setting))
    (h : List.Forall₂ Says ls items) (hg : Grouped items loose groups) (hu : urls items = []) :
    ∃ e out, convert model (h1 :: h2 :: h3 :: h4 :: ls) = (some e, out) ∧
      fileAfter none model (h1 :: h2 :: h3 :: h4 :: ls) = some out ∧ ¬ Balanced out := by
  obtain ⟨a, b, c⟩ := run_items model ls items h ⟨true, none⟩
  have hb : toks model true items = (loose.map (entry model)).flatten ++
      toks model true (groups.map fun g => Item.group g.1 :: g.2.map .setting).flatten := by
    rw [toks_filter, hg, toks_settings]
  have key : convert model (h1 :: h2 :: h3 :: h4 :: ls) = (some "UnboundLocalError: help_url",
      .op "dialog" none :: (toks model true items ++ aboutHead model)) := by
    simp only [convert, List.drop_succ_cons, List.drop_zero, a, b, c, hu, List.getLast?_nil, Option.or_none]
  refine ⟨_, _, key, by rw [fileAfter, key], ?_⟩
  intro hbal
  have e := net_balanced "dialog" _ hbal
  have e1 : net "dialog" (loose.map (entry model)).flatten = 0 :=
    net_balanced _ _ (Balanced.all (entry model) loose (balanced_entry model))
  have e2 : net "dialog" (toks model true
      (groups.map fun g => Item.group g.1 :: g.2.map .setting).flatten) = 0 := by
    by_cases hn : groups = []
    · subst hn; rfl
    · have := congrArg (net "dialog") (toks_first model groups hn)
      rw [net_append, net_balanced "dialog" (groups.map (tab model)).flatten (Balanced.all (tab model) groups
        (fun g => Balanced.wrap "tab" (some g.1) (Balanced.all (entry model) g.2 (balanced_entry model))))] at this
      simpa [net] using this
  have e3 : net "dialog" (aboutHead model) = 0 := by simp [aboutHead, elem, net]
  simp only [net, net_append, hb, e1, e2, e3] at e
  simp at e

theorem doWrites_missing (l : Str) (ws : List (ℕ × (Str → List Tok))) (p : ℕ × (Str → List Tok)) (hp : p ∈ ws)
    (h : word l p.1 = none) : (doWrites l ws).1 ≠ none := by
  induction ws with
  | nil => cases hp
  | cons q qs ih =>
    obtain ⟨i, f⟩ := q
    rcases List.mem_cons.1 hp with rfl | hq
    · simp only [doWrites]; rw [h]; simp
    · simp only [doWrites]
      cases word l i with
      | none => simp
      | some w => exact ih hq

/-- **C290, negated.**  A setting with at most six columns, as in the configuration files of this version, ends the
conversion with an error, whatever comes before and after it. -/
theorem C290_columns_violated (model : Str) (h1 h2 h3 h4 : Str) (ls : List Str) (items : List Item) (l : Str)
    (rest : List Str) (h : List.Forall₂ Says ls items) (w : Str) (h0 : HasId '|' 0 l w)
    (hw : w ≠ "PPF_GROUP_NAME".toList ∧ w ≠ "HTML_HELP_FILE".toList ∧ w ≠ [] ∧ w.head? ≠ some '#')
    (hc : ¬ HasCol '|' 6 l) :
    ∃ e out, convert model (h1 :: h2 :: h3 :: h4 :: (ls ++ l :: rest)) = (some e, out) := by
  have h6 : word l 6 = none := by
    rw [hasCol_iff] at hc
    rw [word, List.getElem?_eq_none (by omega)]; rfl
  rw [← word_iff] at h0
  have hstep : ∀ vp st, (step vp st l).1 ≠ none := by
    intro vp st
    simp only [step, h0, Option.getD_some]
    rw [if_neg hw.1, if_neg hw.2.1, if_neg hw.2.2.1, if_neg hw.2.2.2]
    refine doWrites_missing l _ (6, fun w => elem "help_brief" w) ?_ h6
    exact List.mem_append_right _ (List.mem_append_right _ (List.mem_cons_self ..))
  have happ : ∀ (vp : Str) (a b : List Str) st, (run vp st a).1 = none → (∀ st', (run vp st' b).1 ≠ none) →
      (run vp st (a ++ b)).1 ≠ none := by
    intro vp a b
    induction a with
    | nil => intro st _ hb; exact hb st
    | cons x xs ih =>
      intro st ha hb
      simp only [List.cons_append, run] at ha ⊢
      generalize step vp st x = o at ha ⊢
      obtain ⟨e, o, st'⟩ := o
      cases e with
      | some e => simp at ha
      | none => exact ih st' ha hb
  have hr : (run ('/' :: (model ++ "/Input/Var/".toList)) ⟨true, none⟩ (ls ++ l :: rest)).1 ≠ none := by
    refine happ _ _ _ _ (run_items model ls items h ⟨true, none⟩).1 (fun st' => ?_)
    simp only [run]
    have := hstep ('/' :: (model ++ "/Input/Var/".toList)) st'
    generalize step ('/' :: (model ++ "/Input/Var/".toList)) st' l = o at this ⊢
    obtain ⟨e, o, st''⟩ := o
    cases e with
    | some e => simp
    | none => exact absurd rfl this
  simp only [convert, List.drop_succ_cons, List.drop_zero]
  generalize run ('/' :: (model ++ "/Input/Var/".toList)) ⟨true, none⟩ (ls ++ l :: rest) = o at hr ⊢
  obtain ⟨e, o, st⟩ := o
  cases e with
  | none => exact absurd rfl hr
  | some e => exact ⟨_, _, rfl⟩

example : HasId '|' 0 "dt | 2.0 | float | in seconds".toList "dt".toList ∧
    ¬ HasCol '|' 6 "dt | 2.0 | float | in seconds".toList := by
  rw [← word_iff, hasCol_iff]
  constructor <;> decide +kernel

/-! ## An example -/

/-- A group with a number and a text. -/
def sampleLines : List Str :=
  ["PPF_GROUP_NAME | Input".toList, "HTML_HELP_FILE | a | b | http://x".toList, "# remark".toList,
   "dt | Time step | float | 2.0 | 0 | 100 | in seconds".toList,
   "in_directory | Directory | string | /data | x | x | of the input".toList]

def s1 : Setting := ⟨"dt".toList, "Time step".toList, "float".toList, "2.0".toList, "0".toList, "100".toList,
  "in seconds".toList⟩
def s2 : Setting := ⟨"in_directory".toList, "Directory".toList, "string".toList, "/data".toList, "x".toList, "x".toList,
  "of the input".toList⟩

def sampleItems : List Item :=
  [.group "Input".toList, .help "http://x".toList, .remark, .setting s1, .setting s2]

example : List.Forall₂ Says sampleLines sampleItems := by
  refine .cons ?_ (.cons ?_ (.cons ?_ (.cons ?_ (.cons ?_ .nil))))
  · constructor <;> (rw [← word_iff]; decide +kernel)
  · constructor <;> (rw [← word_iff]; decide +kernel)
  · refine ⟨"# remark".toList, ?_, Or.inr (by decide +kernel)⟩
    rw [← word_iff]; decide +kernel
  · refine ⟨?_, ?_, ?_, ?_, ?_, ?_, ?_, ?_, ?_, ?_, ?_⟩ <;> first | decide +kernel | (rw [← word_iff]; decide +kernel)
  · refine ⟨?_, ?_, ?_, ?_, ?_, ?_, ?_, ?_, ?_, ?_, ?_⟩ <;> first | decide +kernel | (rw [← word_iff]; decide +kernel)

example : Grouped sampleItems [] [("Input".toList, [s1, s2])] := rfl
example : (urls sampleItems).getLast? = some "http://x".toList := rfl

end Dialog
