import Mathlib.Data.List.Chain
import Verif.TemplateModel

set_option autoImplicit false

/-!
# Configuration files made from templates: properties C227, C228
-/

namespace Template

/-! ## Specification: templates as they are meant -/

/-- A template is made of characters and of placeholders with names. -/
inductive Tok
  | lit (c : Char)
  | hole (name : Text)

/-- How a placeholder is written: two opening characters, the name, a closing text. -/
structure Marks where
  o1 : Char
  o2 : Char
  cl : Text

/-- A placeholder as it stands in the file. -/
def Marks.place (m : Marks) (n : Text) : Text := m.o1 :: m.o2 :: (n ++ m.cl)

/-- The template file. -/
def render (m : Marks) : List Tok → Text
  | [] => []
  | .lit c :: t => c :: render m t
  | .hole n :: t => m.place n ++ render m t

/-- The file that is meant: every placeholder with a value is replaced by it, the rest is kept. -/
def filled (m : Marks) (val : Text → Option Text) : List Tok → Text
  | [] => []
  | .lit c :: t => c :: filled m val t
  | .hole n :: t => (val n).getD (m.place n) ++ filled m val t

/-- The text of a template without its placeholders. -/
def lits : List Tok → Text
  | [] => []
  | .lit c :: t => c :: lits t
  | .hole _ :: t => lits t

/-- The names of the placeholders, in order. -/
def holes : List Tok → List Text
  | [] => []
  | .lit _ :: t => holes t
  | .hole n :: t => n :: holes t

/-- A name has no character of the marks. -/
def Marks.NameOk (m : Marks) (n : Text) : Prop := m.o1 ∉ n ∧ m.o2 ∉ n ∧ ∀ c ∈ m.cl, c ∉ n

/-- A template that means one thing only: its text without the placeholders has no opening mark, and the names have no
character of the marks. -/
def Marks.Clean (m : Marks) (t : List Tok) : Prop :=
  (lits t).IsChain (fun a b => ¬ (a = m.o1 ∧ b = m.o2)) ∧ ∀ n ∈ holes t, m.NameOk n

/-- A value has no opening character. -/
def Marks.ValueOk (m : Marks) (v : Text) : Prop := m.o1 ∉ v ∧ m.o2 ∉ v

/-- The marks of `cfg_templates`. -/
def braces : Marks := ⟨'{', '{', ['}', '}']⟩

/-- The marks of `template_files`. -/
def dollar : Marks := ⟨'$', '{', ['}']⟩

/-- The closing text is not empty and does not contain an opening character. -/
structure Marks.Good (m : Marks) : Prop where
  ne : m.cl ≠ []
  o1 : m.o1 ∉ m.cl
  o2 : m.o2 ∉ m.cl

theorem braces_good : braces.Good := ⟨by decide, by decide, by decide⟩
theorem dollar_good : dollar.Good := ⟨by decide, by decide, by decide⟩

/-! ## Replacing -/

theorem go_skip (old new xs ys : Text) : replaceGo old new xs.length (xs ++ ys) = replaceGo old new 0 ys := by
  induction xs with
  | nil => rfl
  | cons x xs ih => exact ih

theorem go_hit {old new : Text} (h : old ≠ []) (ys : Text) :
    replaceGo old new 0 (old ++ ys) = new ++ replaceGo old new 0 ys := by
  cases old with
  | nil => exact absurd rfl h
  | cons c cs =>
    have hp : (c :: cs).isPrefixOf (c :: (cs ++ ys)) = true := by
      rw [List.isPrefixOf_iff_prefix]
      exact ⟨ys, rfl⟩
    rw [List.cons_append, replaceGo, if_pos hp]
    congr 1
    exact go_skip _ _ cs ys

theorem go_miss {old new : Text} {c : Char} {cs : Text} (h : ¬ old <+: (c :: cs)) :
    replaceGo old new 0 (c :: cs) = c :: replaceGo old new 0 cs := by
  rw [replaceGo, if_neg]
  rwa [List.isPrefixOf_iff_prefix]

theorem go_pass {old new : Text} (xs ys : Text) (h : ∀ a b, xs = a ++ b → b ≠ [] → ¬ old <+: (b ++ ys)) :
    replaceGo old new 0 (xs ++ ys) = xs ++ replaceGo old new 0 ys := by
  induction xs with
  | nil => rfl
  | cons x xs ih =>
    have hx : ¬ old <+: (x :: (xs ++ ys)) := h [] (x :: xs) rfl (by simp)
    rw [List.cons_append, go_miss hx, ih]
    · rfl
    · intro a b e hb
      exact h (x :: a) b (by rw [e]; rfl) hb

theorem not_prefix_of_head {a b : Char} {l l' : Text} (h : a ≠ b) : ¬ (a :: l) <+: (b :: l') := by
  rintro ⟨t, ht⟩
  injection ht with h1 _
  exact h h1

theorem prefix_tail {a b : Char} {l l' : Text} (h : (a :: l) <+: (b :: l')) : l <+: l' := by
  obtain ⟨t, ht⟩ := h
  injection ht with _ h2
  exact ⟨t, h2⟩

theorem head_name {m : Marks} (hm : m.Good) {n : Text} (hn : m.NameOk n) {rest : Text} {x : Char}
    (h : (n ++ m.cl ++ rest).head? = some x) : x ≠ m.o1 ∧ x ≠ m.o2 := by
  cases n with
  | nil =>
    cases hc : m.cl with
    | nil => exact absurd hc hm.ne
    | cons c cs =>
      rw [hc] at h
      simp only [List.nil_append, List.cons_append, List.head?_cons, Option.some.injEq] at h
      subst h
      refine ⟨fun e => hm.o1 (by rw [hc, e]; exact List.mem_cons_self), fun e => hm.o2 (by rw [hc, e]; exact List.mem_cons_self)⟩
  | cons c cs =>
    simp only [List.cons_append, List.head?_cons, Option.some.injEq] at h
    subst h
    exact ⟨fun e => hn.1 (by rw [e]; exact List.mem_cons_self), fun e => hn.2.1 (by rw [e]; exact List.mem_cons_self)⟩

/-- Two names are told apart by their closing text. -/
theorem name_inj {m : Marks} (hm : m.Good) {n n' : Text} (hn : m.NameOk n) (hn' : m.NameOk n') {r : Text}
    (h : (n ++ m.cl) <+: (n' ++ m.cl ++ r)) : n = n' := by
  obtain ⟨c, cs, hc⟩ : ∃ c cs, m.cl = c :: cs := by
    cases h : m.cl with
    | nil => exact absurd h hm.ne
    | cons c cs => exact ⟨c, cs, rfl⟩
  have h1 : c ∉ n := hn.2.2 c (by rw [hc]; exact List.mem_cons_self)
  have h2 : c ∉ n' := hn'.2.2 c (by rw [hc]; exact List.mem_cons_self)
  rw [hc] at h
  clear hn hn' hm
  induction n generalizing n' with
  | nil =>
    cases n' with
    | nil => rfl
    | cons x xs =>
      obtain ⟨t, ht⟩ := h
      injection ht with e _
      exact absurd (by rw [e]; exact List.mem_cons_self) h2
  | cons y ys ih =>
    cases n' with
    | nil =>
      obtain ⟨t, ht⟩ := h
      injection ht with e _
      exact absurd (by rw [← e]; exact List.mem_cons_self) h1
    | cons x xs =>
      have ht := prefix_tail h
      obtain ⟨t, ht'⟩ := h
      injection ht' with e _
      rw [e, ih ht (fun hh => h1 (List.mem_cons_of_mem _ hh)) (fun hh => h2 (List.mem_cons_of_mem _ hh))]

/-- One name replaced in a template. -/
def subst1 (n v : Text) : List Tok → List Tok
  | [] => []
  | .lit c :: t => .lit c :: subst1 n v t
  | .hole n' :: t => if n' = n then v.map Tok.lit ++ subst1 n v t else .hole n' :: subst1 n v t

theorem render_lits (m : Marks) (v : Text) (t : List Tok) : render m (v.map Tok.lit ++ t) = v ++ render m t := by
  induction v with
  | nil => rfl
  | cons c v ih => simp only [List.map_cons, List.cons_append, render, ih]

theorem clean_tail {m : Marks} {a : Tok} {t : List Tok} (h : m.Clean (a :: t)) : m.Clean t := by
  obtain ⟨h1, h2⟩ := h
  cases a with
  | lit c => exact ⟨(List.isChain_cons.mp h1).2, h2⟩
  | hole n => exact ⟨h1, fun k hk => h2 k (List.mem_cons_of_mem _ hk)⟩

/-- At a character of the text no placeholder begins. -/
theorem lit_no_place {m : Marks} (hm : m.Good) {n : Text} (hn : m.NameOk n) {c : Char} {t : List Tok}
    (h : m.Clean (.lit c :: t)) : ¬ m.place n <+: (c :: render m t) := by
  intro hp
  by_cases hc : c = m.o1
  · have ht := prefix_tail hp
    cases t with
    | nil =>
      obtain ⟨r, hr⟩ := ht
      cases hr
    | cons a t =>
      cases a with
      | lit d =>
        have hd := ((List.isChain_cons.mp h.1).1 d (by simp [lits]))
        apply hd
        refine ⟨hc, ?_⟩
        obtain ⟨r, hr⟩ := ht
        injection hr with e _
        exact e.symm
      | hole n' =>
        have h2 := prefix_tail ht
        obtain ⟨r, hr⟩ := h2
        have := head_name hm hn (rest := r) (x := m.o2) (by rw [hr]; rfl)
        exact this.2 rfl
  · exact not_prefix_of_head (fun e => hc e.symm) hp

/-- Inside another placeholder no placeholder with the name begins. -/
theorem hole_no_place {m : Marks} (hm : m.Good) {n n' : Text} (hn : m.NameOk n) (hn' : m.NameOk n') (hne : n' ≠ n)
    (r : Text) (a b : Text) (he : m.place n' = a ++ b) (hb : b ≠ []) : ¬ m.place n <+: (b ++ r) := by
  intro hp
  cases a with
  | nil =>
    rw [List.nil_append] at he
    rw [← he] at hp
    have := prefix_tail (prefix_tail hp)
    exact hne (name_inj hm hn hn' this).symm
  | cons x a =>
    injection he with _ he
    cases a with
    | nil =>
      have he : m.o2 :: (n' ++ m.cl) = b := he
      rw [← he] at hp
      have h2 := prefix_tail hp
      obtain ⟨s, hs⟩ := h2
      have hs : m.o2 :: ((n ++ m.cl) ++ s) = n' ++ m.cl ++ r := hs
      have := head_name hm hn' (rest := r) (x := m.o2) (by rw [← hs]; rfl)
      exact this.2 rfl
    | cons y a =>
      injection he with _ he
      cases b with
      | nil => exact hb rfl
      | cons z b =>
        obtain ⟨s, hs⟩ := hp
        injection hs with hz _
        have hmem : z ∈ n' ++ m.cl := by rw [he]; simp
        rw [← hz] at hmem
        rcases List.mem_append.mp hmem with h | h
        · exact hn'.1 h
        · exact hm.o1 h

/-- Replacing one placeholder in the file of a template. -/
theorem replace_render {m : Marks} (hm : m.Good) {n : Text} (hn : m.NameOk n) (v : Text) (t : List Tok) (h : m.Clean t) :
    replaceAll (m.place n) v (render m t) = render m (subst1 n v t) := by
  unfold replaceAll
  induction t with
  | nil => rfl
  | cons a t ih =>
    have ih := ih (clean_tail h)
    cases a with
    | lit c =>
      change replaceGo _ _ 0 (c :: render m t) = c :: render m (subst1 n v t)
      rw [go_miss (lit_no_place hm hn h), ih]
    | hole n' =>
      change replaceGo _ _ 0 (m.place n' ++ render m t) = render m (if n' = n then _ else _)
      by_cases e : n' = n
      · subst e
        rw [if_pos rfl, go_hit (by simp [Marks.place]), render_lits, ih]
      · rw [if_neg e, go_pass _ _ (hole_no_place hm hn (h.2 n' (by simp [holes])) e _), ih]
        rfl

theorem lits_append (v : Text) (t : List Tok) : lits (v.map Tok.lit ++ t) = v ++ lits t := by
  induction v with
  | nil => rfl
  | cons c v ih => simp only [List.map_cons, List.cons_append, lits, ih]

theorem holes_append (v : Text) (t : List Tok) : holes (v.map Tok.lit ++ t) = holes t := by
  induction v with
  | nil => rfl
  | cons c v ih => simp only [List.map_cons, List.cons_append, holes, ih]

theorem head_subst {m : Marks} (n : Text) {v : Text} (hv : m.ValueOk v) (t : List Tok) :
    ∀ b ∈ (lits (subst1 n v t)).head?, b ≠ m.o2 ∨ b ∈ (lits t).head? := by
  induction t with
  | nil => intro b hb; cases hb
  | cons a t ih =>
    intro b hb
    cases a with
    | lit c => exact Or.inr hb
    | hole n' =>
      unfold subst1 at hb
      split_ifs at hb with e
      · rw [lits_append] at hb
        cases v with
        | nil => exact ih b hb
        | cons x v =>
          left
          have : x = b := by simpa using hb
          rw [← this]
          intro e
          exact hv.2 (by rw [e]; exact List.mem_cons_self)
      · exact ih b hb

theorem chain_append {m : Marks} {v l : Text} (hv : m.o1 ∉ v) (h : l.IsChain (fun a b => ¬ (a = m.o1 ∧ b = m.o2))) :
    (v ++ l).IsChain (fun a b => ¬ (a = m.o1 ∧ b = m.o2)) := by
  induction v with
  | nil => exact h
  | cons x v ih =>
    rw [List.cons_append, List.isChain_cons]
    refine ⟨fun b _ hb => hv (by rw [← hb.1]; exact List.mem_cons_self), ih (fun hh => hv (List.mem_cons_of_mem _ hh))⟩

theorem clean_subst {m : Marks} (n : Text) {v : Text} (hv : m.ValueOk v) {t : List Tok} (h : m.Clean t) :
    m.Clean (subst1 n v t) := by
  constructor
  · have h1 := h.1
    clear h
    induction t with
    | nil => exact h1
    | cons a t ih =>
      cases a with
      | lit c =>
        change (c :: lits t).IsChain _ at h1
        rw [List.isChain_cons] at h1
        change (c :: lits (subst1 n v t)).IsChain _
        rw [List.isChain_cons]
        refine ⟨fun b hb hbb => ?_, ih h1.2⟩
        rcases head_subst n hv t b hb with e | e
        · exact e hbb.2
        · exact h1.1 b e hbb
      | hole n' =>
        unfold subst1
        split_ifs with e
        · rw [lits_append]
          exact chain_append hv.1 (ih h1)
        · exact ih h1
  · have h2 := h.2
    clear h
    induction t with
    | nil => exact h2
    | cons a t ih =>
      cases a with
      | lit c => exact ih h2
      | hole n' =>
        unfold subst1
        split_ifs with e
        · rw [holes_append]
          exact ih (fun k hk => h2 k (List.mem_cons_of_mem _ hk))
        · intro k hk
          rcases List.mem_cons.mp hk with rfl | hk
          · exact h2 k List.mem_cons_self
          · exact ih (fun k hk => h2 k (List.mem_cons_of_mem _ hk)) k hk

theorem filled_lits (m : Marks) (val : Text → Option Text) (v : Text) (t : List Tok) :
    filled m val (v.map Tok.lit ++ t) = v ++ filled m val t := by
  induction v with
  | nil => rfl
  | cons c v ih => simp only [List.map_cons, List.cons_append, filled, ih]

/-- The value given for a name: the first one in the list. -/
def lookup : List (Text × Text) → Text → Option Text
  | [], _ => none
  | (n, v) :: ps, k => if k = n then some v else lookup ps k

theorem filled_subst (m : Marks) (n v : Text) (ps : List (Text × Text)) (t : List Tok) :
    filled m (lookup ps) (subst1 n v t) = filled m (lookup ((n, v) :: ps)) t := by
  induction t with
  | nil => rfl
  | cons a t ih =>
    cases a with
    | lit c => simp only [subst1, filled, ih]
    | hole n' =>
      by_cases e : n' = n
      · simp only [subst1, if_pos e, filled_lits, filled, lookup, Option.getD_some, ih]
      · simp only [subst1, if_neg e, filled, lookup, ih]

theorem filled_none (m : Marks) (t : List Tok) : filled m (lookup []) t = render m t := by
  induction t with
  | nil => rfl
  | cons a t ih =>
    cases a with
    | lit c => exact congrArg (c :: ·) ih
    | hole n => exact congrArg (m.place n ++ ·) ih

/-- Replacing a list of names one after another. -/
theorem fold_replace {m : Marks} (hm : m.Good) (ps : List (Text × Text))
    (hps : ∀ p ∈ ps, m.NameOk p.1 ∧ m.ValueOk p.2) (t : List Tok) (h : m.Clean t) :
    ps.foldl (fun l p => replaceAll (m.place p.1) p.2 l) (render m t) = filled m (lookup ps) t := by
  induction ps generalizing t with
  | nil => exact (filled_none m t).symm
  | cons p ps ih =>
    obtain ⟨hp1, hp2⟩ := hps p List.mem_cons_self
    rw [List.foldl_cons, replace_render hm hp1 _ _ h,
      ih (fun q hq => hps q (List.mem_cons_of_mem _ hq)) _ (clean_subst _ hp2 h), filled_subst]

/-! ## C227 -/

theorem makeNew_eq (vars vals : List Text) (hl : vars.length ≤ vals.length) (text : Text) :
    makeNew vars vals text = .ok ((vars.zip vals).foldl (fun l p => replaceAll (braces.place p.1) p.2 l) text) := by
  induction vars generalizing vals text with
  | nil => rfl
  | cons var vars ih =>
    cases vals with
    | nil => simp at hl
    | cons val vals =>
      rw [makeNew, ih _ (by simpa using hl)]
      rfl

/-- **C227** The file made from a template: every placeholder whose name is listed is replaced by its value (the first one,
if it is listed twice), everything else is kept. -/
theorem C227_filled (vars vals : List Text) (hl : vars.length ≤ vals.length)
    (hvars : ∀ n ∈ vars, '{' ∉ n ∧ '}' ∉ n) (hvals : ∀ v ∈ vals, '{' ∉ v) (t : List Tok) (ht : braces.Clean t) :
    makeNew vars vals (render braces t) = .ok (filled braces (lookup (vars.zip vals)) t) := by
  rw [makeNew_eq _ _ hl, fold_replace braces_good _ _ _ ht]
  rintro ⟨n, v⟩ hp
  obtain ⟨h1, h2⟩ := List.of_mem_zip hp
  refine ⟨⟨(hvars n h1).1, (hvars n h1).1, ?_⟩, hvals v h2, hvals v h2⟩
  intro c hc
  have : c = '}' := by simpa [braces] using hc
  rw [this]
  exact (hvars n h1).2

/-- **C227** With fewer values than names nothing is written. -/
theorem C227_few_values (vars vals : List Text) (hl : vals.length < vars.length) (text : Text) :
    ∃ e, makeNew vars vals text = .error e := by
  induction vars generalizing vals text with
  | nil => simp at hl
  | cons var vars ih =>
    cases vals with
    | nil => exact ⟨_, rfl⟩
    | cons val vals => exact ih vals (by simpa using hl) _

/-- **C227** A value that is itself a placeholder is replaced in its turn when its name comes later in the list, and kept
when it came earlier. -/
theorem C227_nested : makeNew ["a".toList, "b".toList] ["{{b}}".toList, "x".toList] "p={{a}}".toList = .ok "p=x".toList ∧
    makeNew ["b".toList, "a".toList] ["x".toList, "{{b}}".toList] "p={{a}}".toList = .ok "p={{b}}".toList := by
  constructor <;> rfl

/-! ## C228 -/

theorem find_skip (xs ys : Text) : findGo xs.length (xs ++ ys) = findGo 0 ys := by
  induction xs with
  | nil => rfl
  | cons x xs ih => exact ih

theorem find_miss {c : Char} {cs : Text} (h : ¬ (c = '$' ∧ cs.head? = some '{')) : findGo 0 (c :: cs) = findGo 0 cs := by
  rw [findGo]
  intro rest h1 h2
  exact h ⟨h1, by rw [h2]; rfl⟩

theorem takeWhile_name {n : Text} (h : '}' ∉ n) (r : Text) :
    (n ++ '}' :: r).takeWhile (fun x => decide (x ≠ '}')) = n := by
  induction n with
  | nil => simp
  | cons c n ih =>
    have hc : c ≠ '}' := fun e => h (by rw [e]; exact List.mem_cons_self)
    rw [List.cons_append, List.takeWhile_cons_of_pos (by simpa using hc), ih (fun hh => h (List.mem_cons_of_mem _ hh))]

theorem find_hit {n : Text} (h0 : n ≠ []) (h : '}' ∉ n) (r : Text) :
    findGo 0 (dollar.place n ++ r) = dollar.place n :: findGo 0 r := by
  have e : dollar.place n ++ r = '$' :: '{' :: (n ++ '}' :: r) := by simp [Marks.place, dollar]
  have e2 : dollar.place n = '$' :: '{' :: (n ++ ['}']) := rfl
  rw [e, findGo]
  simp only [takeWhile_name h]
  rw [if_pos ⟨h0, by simp⟩, e2]
  congr 1
  have := find_skip ('{' :: (n ++ ['}'])) r
  simpa using this

/-- The placeholders found in a line are those of the template. -/
theorem find_render (t : List Tok) (h : dollar.Clean t) (h0 : ∀ n ∈ holes t, n ≠ []) :
    findGo 0 (render dollar t) = (holes t).map dollar.place := by
  induction t with
  | nil => rfl
  | cons a t ih =>
    cases a with
    | lit c =>
      change findGo 0 (c :: render dollar t) = (holes t).map _
      rw [find_miss, ih (clean_tail h) h0]
      rintro ⟨hc, hd⟩
      cases t with
      | nil => cases hd
      | cons b t =>
        cases b with
        | lit d =>
          have := (List.isChain_cons.mp h.1).1 d (by simp [lits])
          refine this ⟨hc, ?_⟩
          have hd : some d = some '{' := hd
          injection hd
        | hole n =>
          have : some '$' = some '{' := hd
          simp at this
    | hole n =>
      change findGo 0 (dollar.place n ++ render dollar t) = dollar.place n :: (holes t).map _
      rw [find_hit (h0 n (by simp [holes])) ((h.2 n (by simp [holes])).2.2 '}' (by simp [dollar])),
        ih (clean_tail h) (fun k hk => h0 k (List.mem_cons_of_mem _ hk))]

theorem lookup_found (val : Text → Option Text) (hs : List Text) (n : Text) (hn : n ∈ hs) :
    lookup (hs.filterMap (fun k => (val k).map (fun v => (k, v)))) n = val n := by
  induction hs with
  | nil => cases hn
  | cons k hs ih =>
    cases hv : val k with
    | none =>
      rw [List.filterMap_cons_none (by simp [hv])]
      rcases List.mem_cons.mp hn with rfl | hn
      · rw [hv]
        by_cases hm : n ∈ hs
        · rw [ih hm, hv]
        · clear ih hn
          induction hs with
          | nil => rfl
          | cons k hs ih =>
            have hk : n ≠ k := fun e => hm (by rw [e]; exact List.mem_cons_self)
            have hm' : n ∉ hs := fun hh => hm (List.mem_cons_of_mem _ hh)
            cases hv' : val k with
            | none => rw [List.filterMap_cons_none (by simp [hv']), ih hm']
            | some w =>
              rw [List.filterMap_cons_some (b := (k, w)) (by simp [hv'])]
              rw [lookup, if_neg hk, ih hm']
      · exact ih hn
    | some w =>
      rw [List.filterMap_cons_some (b := (k, w)) (by simp [hv]), lookup]
      by_cases e : n = k
      · rw [if_pos e, e, hv]
      · rw [if_neg e]
        exact ih ((List.mem_cons.mp hn).resolve_left e)

theorem filled_congr (m : Marks) {f g : Text → Option Text} (t : List Tok) (h : ∀ n ∈ holes t, f n = g n) :
    filled m f t = filled m g t := by
  induction t with
  | nil => rfl
  | cons a t ih =>
    cases a with
    | lit c => simp only [filled, ih h]
    | hole n =>
      simp only [filled, h n (by simp [holes]), ih (fun k hk => h k (List.mem_cons_of_mem _ hk))]

theorem fold_dict (dict : Text → Option Text) (hs : List Text) (l : Text) :
    (hs.map dollar.place).foldl (replaceOne dict) l =
    (hs.filterMap (fun k => (dict (dollar.place k)).map (fun v => (k, v)))).foldl
      (fun l p => replaceAll (dollar.place p.1) p.2 l) l := by
  induction hs generalizing l with
  | nil => rfl
  | cons k hs ih =>
    rw [List.map_cons, List.foldl_cons]
    cases hv : dict (dollar.place k) with
    | none => rw [List.filterMap_cons_none (by simp [hv]), replaceOne, hv, ih]
    | some w => rw [List.filterMap_cons_some (b := (k, w)) (by simp [hv]), List.foldl_cons, replaceOne, hv, ih]

/-- **C228** One line: every placeholder in the dictionary is replaced by its value, everything else is kept. -/
theorem C228_line (dict : Text → Option Text) (hd : ∀ k v, dict k = some v → '$' ∉ v ∧ '{' ∉ v) (t : List Tok)
    (ht : dollar.Clean t) (h0 : ∀ n ∈ holes t, n ≠ []) :
    replaceLine dict (render dollar t) = filled dollar (fun n => dict (dollar.place n)) t := by
  unfold replaceLine
  rw [find_render t ht h0, fold_dict, fold_replace dollar_good _ _ _ ht]
  · exact filled_congr _ _ (fun n hn => lookup_found (fun k => dict (dollar.place k)) _ n hn)
  · rintro ⟨n, v⟩ hp
    obtain ⟨k, hk, he⟩ := List.mem_filterMap.mp hp
    cases hv : dict (dollar.place k) with
    | none => rw [hv] at he; cases he
    | some w =>
      rw [hv] at he
      injection he with he
      injection he with e1 e2
      subst e1 e2
      exact ⟨ht.2 _ hk, hd _ _ hv⟩

/-- **C228** The whole file, line by line. -/
theorem C228_file (dict : Text → Option Text) (hd : ∀ k v, dict k = some v → '$' ∉ v ∧ '{' ∉ v) (ts : List (List Tok))
    (ht : ∀ t ∈ ts, dollar.Clean t ∧ ∀ n ∈ holes t, n ≠ []) :
    replaceFile dict (ts.map (render dollar)) = filled dollar (fun n => dict (dollar.place n)) ts.flatten := by
  unfold replaceFile
  induction ts with
  | nil => rfl
  | cons t ts ih =>
    have happ : ∀ (a b : List Tok) (f : Text → Option Text), filled dollar f (a ++ b) = filled dollar f a ++ filled dollar f b := by
      intro a b f
      induction a with
      | nil => rfl
      | cons x a ih => cases x <;> simp [filled, ih]
    obtain ⟨h1, h2⟩ := ht t List.mem_cons_self
    simp only [List.map_cons, List.flatten_cons, happ]
    rw [C228_line dict hd t h1 h2, ih (fun t h => ht t (List.mem_cons_of_mem _ h))]

/-! ## Examples -/

/-- The line `dt | {{dt}} {s; h}` of a template. -/
def demo : List Tok := "dt | ".toList.map Tok.lit ++ [.hole "dt".toList] ++ " {s; h}".toList.map Tok.lit

theorem demo_clean : braces.Clean demo ∧ dollar.Clean demo := by
  refine ⟨⟨?_, ?_⟩, ?_, ?_⟩
  · simp [demo, lits, braces]
  · simp [demo, holes, Marks.NameOk, braces]
  · simp [demo, lits, dollar]
  · simp [demo, holes, Marks.NameOk, dollar]

example : render braces demo = "dt | {{dt}} {s; h}".toList ∧
    makeNew ["dt".toList] ["60.0".toList] (render braces demo) = .ok "dt | 60.0 {s; h}".toList := by
  constructor <;> rfl

example : replaceLine (fun k => if k = "${dt}".toList then some "60".toList else none) (render dollar demo) =
    "dt | 60 {s; h}".toList := by
  decide +kernel

end Template
