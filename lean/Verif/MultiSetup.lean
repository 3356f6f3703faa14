import Verif.MultiModel
import Verif.RepoProps
import Verif.TableProps

/-!
# Setting up a coupled model: C103 - C105
-/

set_option autoImplicit false
set_option linter.unusedSectionVars false

namespace Multi

open RepoSpec

/-! ## The provider file (C103) -/

/-- What a user writes in a provider file. -/
inductive Item where
  /-- a comment or header line -/
  | comment (t : Text)
  /-- an empty line -/
  | blank (k : ℕ)
  /-- process type and component name, with any number of blanks; text after the name is ignored -/
  | entry (indent : ℕ) (ty : Text) (gap : ℕ) (name : Text) (rest : Text)

def Item.line : Item → Text
  | .comment t => '#' :: t
  | .blank k => List.replicate k ' '
  | .entry a ty b name rest =>
    List.replicate a ' ' ++ (ty ++ (List.replicate (b + 1) ' ' ++ (name ++ rest)))

/-- One line of text; words have no white space; the type does not look like a comment; the rest is
separated from the name. -/
def Item.Ok : Item → Prop
  | .comment t => '\n' ∉ t ∧ '\r' ∉ t
  | .blank _ => True
  | .entry _ ty _ name rest => Table.Solid ty ∧ ty.head? ≠ some '#' ∧ Table.Solid name ∧
      '\n' ∉ rest ∧ '\r' ∉ rest ∧ (∀ c, rest.head? = some c → Rti.isWs c = true)

/-- The component an item names. -/
def Item.comp : Item → Option Text
  | .entry _ _ _ name _ => some name
  | _ => none

theorem wordsAux_flush {acc t : Text} (ha : acc ≠ []) (h : ∀ c, t.head? = some c → Rti.isWs c = true) :
    Table.wordsAux acc t = acc.reverse :: Table.wordsAux [] t := by
  have he : acc.isEmpty = false := by simpa using ha
  cases t with
  | nil => simp [Table.wordsAux, he]
  | cons c t =>
    have hc := h c rfl
    simp [Table.wordsAux, hc, he]

theorem providerOf_item {i : Item} (h : i.Ok) : providerOf i.line = i.comp := by
  cases i with
  | comment t => rfl
  | blank k =>
    have h1 : (Item.blank k).line.head? ≠ some '#' := by
      cases k with
      | zero => simp [Item.line]
      | succ k => simp [Item.line, List.replicate_succ]
    unfold providerOf
    rw [if_neg h1]
    have : Table.words (Item.blank k).line = [] := by
      have := Table.wordsAux_blanks k []
      simpa [Item.line, Table.words, Table.wordsAux] using this
    rw [this]; rfl
  | entry a ty b name rest =>
    obtain ⟨h1, h2, h3, h4, h5, h6⟩ := h
    have hh : (Item.entry a ty b name rest).line.head? ≠ some '#' := by
      cases a with
      | zero =>
        obtain ⟨c, t, rfl⟩ := List.exists_cons_of_ne_nil h1.1
        simpa [Item.line] using h2
      | succ a => simp [Item.line, List.replicate_succ]
    unfold providerOf
    rw [if_neg hh]
    have : Table.words (Item.entry a ty b name rest).line = ty :: name :: Table.wordsAux [] rest := by
      unfold Table.words Item.line
      rw [Table.wordsAux_blanks, Table.wordsAux_word _ _ _ h1.2, List.append_nil,
        wordsAux_flush (by simpa using h1.1) (by
          intro c hc; rw [List.replicate_succ] at hc; simp at hc; subst hc; decide),
        Table.wordsAux_blanks, Table.wordsAux_word _ _ _ h3.2, List.append_nil,
        wordsAux_flush (by simpa using h3.1) h6]
      simp
    rw [this]; rfl

theorem solid_no_newline {s : Text} (h : Table.Solid s) : '\n' ∉ s ∧ '\r' ∉ s :=
  ⟨fun hm => absurd (h.2 _ hm) (by decide), fun hm => absurd (h.2 _ hm) (by decide)⟩

theorem line_no_newline {i : Item} (h : i.Ok) : '\n' ∉ i.line ∧ '\r' ∉ i.line := by
  cases i with
  | comment t =>
    obtain ⟨h1, h2⟩ := h
    simp [Item.line, h1, h2]
  | blank k => simp [Item.line]
  | entry a ty b name rest =>
    obtain ⟨h1, h2, h3, h4, h5, h6⟩ := h
    have a1 := solid_no_newline h1; have a2 := solid_no_newline h3
    simp [Item.line, a1.1, a1.2, a2.1, a2.2, h4, h5]

/-- **C103.** For every provider file made of comment lines, empty lines and entries (with any
spacing and any text after the names): the components of the model are the names of the entries,
in the order of the file. -/
theorem C103_provider_file (items : List Item) (h : ∀ i ∈ items, i.Ok) :
    readProviders (items.flatMap (fun i => i.line ++ ['\n'])) = items.filterMap Item.comp := by
  unfold readProviders
  have e : items.flatMap (fun i => i.line ++ ['\n']) =
      (items.map Item.line).flatMap (fun l => l ++ ['\n']) := by
    rw [List.flatMap_map]
  rw [Rti.universalNewlines_id, e, Rti.splitLines_flatMap]
  · rw [List.filterMap_map]
    clear e
    induction items with
    | nil => rfl
    | cons i items ih =>
      have hi := providerOf_item (h i (by simp))
      have := ih (fun j hj => h j (List.mem_cons_of_mem _ hj))
      rw [List.filterMap_cons, List.filterMap_cons, this, Function.comp_apply, hi]
  · intro l hl
    obtain ⟨i, hi, rfl⟩ := List.mem_map.1 hl
    exact (line_no_newline (h i hi)).1
  · intro hm
    obtain ⟨i, hi, hm⟩ := List.mem_flatMap.1 hm
    have := (line_no_newline (h i hi)).2
    simp only [List.mem_append, List.mem_singleton] at hm
    rcases hm with hm | hm
    · exact this hm
    · exact absurd hm (by decide)

/-- A file of the usual form. -/
example : readProviders "# Provider list\n\nmeteorology   tf_meteorology\nchannels tf_channels_kin_wave  # best\n".toList
    = ["tf_meteorology".toList, "tf_channels_kin_wave".toList] := by decide +kernel

/-- A comment that does not start in the first column is taken for an entry. -/
example : readProviders " # no infiltration\n".toList = ["no".toList] := by decide +kernel

section sets
variable {α : Type*} [DecidableEq α]

theorem instantiateAll_mem (valid : α → Bool) : ∀ (l keys : List α) (c : α),
    c ∈ instantiateAll valid keys l ↔ c ∈ keys ∨ (c ∈ l ∧ valid c = true)
  | [], keys, c => by simp [instantiateAll]
  | d :: l, keys, c => by
    have ih := instantiateAll_mem valid l (instantiate valid keys d) c
    rw [instantiateAll] at ih
    rw [instantiateAll, List.foldl_cons, ih]
    unfold instantiate
    by_cases hv : valid d = true
    · by_cases hd : d ∈ keys
      · simp only [hv, if_true, hd, List.mem_cons]
        constructor
        · rintro (h | h)
          · exact Or.inl h
          · exact Or.inr ⟨Or.inr h.1, h.2⟩
        · rintro (h | ⟨rfl | h, h'⟩)
          · exact Or.inl h
          · exact Or.inl hd
          · exact Or.inr ⟨h, h'⟩
      · simp only [hv, if_true, hd, if_false, List.mem_append, List.mem_cons, List.not_mem_nil,
          or_false]
        constructor
        · rintro ((h | rfl) | h)
          · exact Or.inl h
          · exact Or.inr ⟨Or.inl rfl, hv⟩
          · exact Or.inr ⟨Or.inr h.1, h.2⟩
        · rintro (h | ⟨rfl | h, h'⟩)
          · exact Or.inl (Or.inl h)
          · exact Or.inl (Or.inr rfl)
          · exact Or.inr ⟨h, h'⟩
    · rw [if_neg hv]
      simp only [List.mem_cons]
      constructor
      · rintro (h | h)
        · exact Or.inl h
        · exact Or.inr ⟨Or.inr h.1, h.2⟩
      · rintro (h | ⟨rfl | h, h'⟩)
        · exact Or.inl h
        · exact absurd h' hv
        · exact Or.inr ⟨h, h'⟩

theorem instantiateAll_nodup (valid : α → Bool) : ∀ (l keys : List α), keys.Nodup →
    (instantiateAll valid keys l).Nodup
  | [], keys, h => h
  | d :: l, keys, h => by
    rw [instantiateAll, List.foldl_cons]
    apply instantiateAll_nodup valid l
    unfold instantiate
    split_ifs with h1 h2
    · exact h
    · rw [List.nodup_append]
      exact ⟨h, by simp, fun a ha b hb => by simp at hb; subst hb; rintro rfl; exact h2 ha⟩
    · exact h

theorem afterRuns_mem (valid : α → Bool) : ∀ (runs : List (List α)) (keys : List α) (c : α),
    c ∈ runs.foldl (instantiateAll valid) keys ↔
      c ∈ keys ∨ ∃ l ∈ runs, c ∈ l ∧ valid c = true
  | [], keys, c => by simp
  | l :: runs, keys, c => by
    rw [List.foldl_cons, afterRuns_mem valid runs, instantiateAll_mem]
    constructor
    · rintro ((h | h) | ⟨l', h, h'⟩)
      · exact Or.inl h
      · exact Or.inr ⟨l, by simp, h⟩
      · exact Or.inr ⟨l', by simp [h], h'⟩
    · rintro (h | ⟨l', h, h'⟩)
      · exact Or.inl (Or.inl h)
      · rcases List.mem_cons.1 h with rfl | h
        · exact Or.inl (Or.inr h')
        · exact Or.inr ⟨l', h, h'⟩

theorem afterRuns_nodup (valid : α → Bool) : ∀ (runs : List (List α)) (keys : List α), keys.Nodup →
    (runs.foldl (instantiateAll valid) keys).Nodup
  | [], _, h => h
  | l :: runs, keys, h => by
    rw [List.foldl_cons]
    exact afterRuns_nodup valid runs _ (instantiateAll_nodup valid l keys h)

theorem initLoop_ok_iff (keys : List α) : ∀ (l : List α),
    initLoop keys l = .ok () ↔ ∀ c ∈ l, c ∈ keys
  | [] => by simp [initLoop]
  | c :: l => by
    rw [initLoop]
    split_ifs with h
    · rw [initLoop_ok_iff keys l]; simp [h]
    · simp [h]

/-- **C103.** A new framework gets past the initialization of its components only if every name
in the provider file is a component of the repository; otherwise it raises an exception there
(or has been stopped before by the check of the other components). -/
theorem C103_unknown_name_refused (valid : α → Bool) (l : List α) :
    initLoop (instantiateAll valid [] l) l = .ok () ↔ ∀ c ∈ l, valid c = true := by
  rw [initLoop_ok_iff]
  constructor
  · intro h c hc
    have := (instantiateAll_mem valid l [] c).1 (h c hc)
    simpa [hc] using this
  · intro h c hc
    exact (instantiateAll_mem valid l [] c).2 (Or.inr ⟨hc, h c hc⟩)

end sets

/-! ## Several runs of one framework object (C104) -/

section runs

variable {K : Type*} [Field K] [LinearOrder K] [IsStrictOrderedRing K]

/-- The framework object after the runs `before`, asked to run the components `l`: the outcome of
the check.  All names are names of repository components. -/
noncomputable def accepted (nv : Repo.Var → String) (nc : Repo.Comp → String) (status units : Repo.Comp → String)
    (dt : Repo.Comp → K) (before : List (List Repo.Comp)) (l : List Repo.Comp) : Bool :=
  Emeli.checkUsersProviders
    (Repo.config nv nc (afterRuns (fun _ => true) (before ++ [l])) status units dt)

/-- The components of all runs so far. -/
def AllRuns (before : List (List Repo.Comp)) (l : List Repo.Comp) (c : Repo.Comp) : Prop :=
  c ∈ l ∨ ∃ b ∈ before, c ∈ b

/-- **C104, exactly.** For every history of runs with one framework object: the next run is
accepted exactly when the components of *all* runs together, the old ones included, have exactly
one component for every process that any of them needs. -/
theorem C104_accepted_iff {nv : Repo.Var → String} {nc : Repo.Comp → String}
    (hv : Function.Injective nv) (hne : ∀ v, nv v ≠ "") (hc : Function.Injective nc)
    (status units : Repo.Comp → String) (dt : Repo.Comp → K)
    (before : List (List Repo.Comp)) (l : List Repo.Comp) :
    accepted nv nc status units dt before l = true ↔
      ∀ c, AllRuns before l c → ∀ p ∈ needs c, ∃! d, AllRuns before l d ∧ d ∈ p.members := by
  unfold accepted
  have hmem : ∀ c, c ∈ afterRuns (fun _ => true) (before ++ [l]) ↔ AllRuns before l c := by
    intro c
    unfold afterRuns AllRuns
    rw [afterRuns_mem]
    constructor
    · rintro (h | ⟨b, hb, h⟩)
      · simp at h
      · rcases List.mem_append.1 hb with hb | hb
        · exact Or.inr ⟨b, hb, h.1⟩
        · simp at hb; subst hb; exact Or.inl h.1
    · rintro (h | ⟨b, hb, h⟩)
      · exact Or.inr ⟨l, by simp, h, rfl⟩
      · exact Or.inr ⟨b, by simp [hb], h, rfl⟩
  have hnd : (afterRuns (fun _ => true) (before ++ [l])).Nodup := afterRuns_nodup _ _ _ List.nodup_nil
  rw [Repo.C95_accepted_iff_complete hv hne hc hnd]
  constructor
  · intro h c hcc p hp
    obtain ⟨d, ⟨h1, h2⟩, h3⟩ := h c ((hmem c).2 hcc) p hp
    exact ⟨d, ⟨(hmem d).1 h1, h2⟩, fun y hy => h3 y ⟨(hmem y).2 hy.1, hy.2⟩⟩
  · intro h c hcc p hp
    obtain ⟨d, ⟨h1, h2⟩, h3⟩ := h c ((hmem c).1 hcc) p hp
    exact ⟨d, ⟨(hmem d).2 h1, h2⟩, fun y hy => h3 y ⟨(hmem y).1 hy.1, hy.2⟩⟩

/-- What remains true of C104: a run with at least the components of all earlier runs (in
particular a repetition of the first run, in any order) is judged like a first run. -/
theorem C104_independent_partial {nv : Repo.Var → String} {nc : Repo.Comp → String}
    (hv : Function.Injective nv) (hne : ∀ v, nv v ≠ "") (hc : Function.Injective nc)
    (status units : Repo.Comp → String) (dt : Repo.Comp → K)
    (before : List (List Repo.Comp)) (l : List Repo.Comp)
    (h : ∀ b ∈ before, ∀ c ∈ b, c ∈ l) :
    accepted nv nc status units dt before l = accepted nv nc status units dt [] l := by
  have e : ∀ c, AllRuns before l c ↔ AllRuns [] l c := by
    intro c
    unfold AllRuns
    constructor
    · rintro (h1 | ⟨b, hb, h1⟩)
      · exact Or.inl h1
      · exact Or.inl (h b hb c h1)
    · rintro (h1 | ⟨b, hb, _⟩)
      · exact Or.inl h1
      · simp at hb
  rw [Bool.eq_iff_iff, C104_accepted_iff hv hne hc, C104_accepted_iff hv hne hc]
  simp only [e]

/-- **C104 is violated**: after a run with the hydrologic driver, a run with a different channel
component is rejected, whatever else is in the two models. -/
theorem C104_other_channels_rejected {nv : Repo.Var → String} {nc : Repo.Comp → String}
    (hv : Function.Injective nv) (hne : ∀ v, nv v ≠ "") (hc : Function.Injective nc)
    (status units : Repo.Comp → String) (dt : Repo.Comp → K)
    {before : List (List Repo.Comp)} {l b : List Repo.Comp} (hb : b ∈ before)
    (hd : Repo.Comp.topoflow_driver ∈ l) {c c' : Repo.Comp} (hne' : c ≠ c')
    (h1 : c ∈ b ∧ c ∈ Process.channels.members) (h2 : c' ∈ l ∧ c' ∈ Process.channels.members) :
    accepted nv nc status units dt before l = false := by
  rw [← Bool.not_eq_true, C104_accepted_iff hv hne hc]
  intro h
  obtain ⟨d, _, hu⟩ := h _ (Or.inl hd) .channels (by simp [needs])
  have e1 := hu c ⟨Or.inr ⟨b, hb, h1.1⟩, h1.2⟩
  have e2 := hu c' ⟨Or.inl h2.1, h2.2⟩
  exact hne' (e1.trans e2.symm)

/-- In the other direction: after an accepted run, every selection of its components is accepted,
also one that lacks a component it needs and would be rejected as a first run. -/
theorem C104_incomplete_accepted {nv : Repo.Var → String} {nc : Repo.Comp → String}
    (hv : Function.Injective nv) (hne : ∀ v, nv v ≠ "") (hc : Function.Injective nc)
    (status units : Repo.Comp → String) (dt : Repo.Comp → K)
    {l b : List Repo.Comp} (hb : accepted nv nc status units dt [] b = true)
    (hsub : ∀ c ∈ l, c ∈ b) : accepted nv nc status units dt [b] l = true := by
  rw [C104_accepted_iff hv hne hc] at hb ⊢
  have e : ∀ c, AllRuns [b] l c ↔ AllRuns [] b c := by
    intro c
    unfold AllRuns
    constructor
    · rintro (h1 | ⟨b', hb, h1⟩)
      · exact Or.inl (hsub c h1)
      · simp at hb; subst hb; exact Or.inl h1
    · rintro (h1 | ⟨b', hb, _⟩)
      · exact Or.inr ⟨b, by simp, h1⟩
      · simp at hb
  simpa only [e] using hb

/-- A complete model, and the same model without meteorology. -/
def demoSet : List Repo.Comp :=
  [.tf_meteorology, .tf_channels_kin_wave, .tf_snow_degree_day, .tf_ice_gc2d,
    .tf_evap_priestley_taylor, .tf_infil_green_ampt, .tf_satzone_darcy_layers, .topoflow_driver]

theorem exactlyOne_of_filter {l : List Repo.Comp} {p : Process} (hl : l.Nodup)
    (h : (l.filter (fun d => decide (d ∈ p.members))).length = 1) : ExactlyOne l p :=
  (Repo.length_filter_one hl _).1 h

/-- The first of them is accepted as a first run, the second is not; but it is accepted after the
first. -/
theorem C104_violated {nv : Repo.Var → String} {nc : Repo.Comp → String}
    (hv : Function.Injective nv) (hne : ∀ v, nv v ≠ "") (hc : Function.Injective nc)
    (status units : Repo.Comp → String) (dt : Repo.Comp → K) :
    accepted nv nc status units dt [] demoSet = true ∧
    accepted nv nc status units dt [] demoSet.tail = false ∧
    accepted nv nc status units dt [demoSet] demoSet.tail = true := by
  have h1 : accepted nv nc status units dt [] demoSet = true := by
    rw [C104_accepted_iff hv hne hc]
    have h0 : ∀ c ∈ demoSet, ∀ p ∈ needs c,
        (demoSet.filter (fun d => decide (d ∈ p.members))).length = 1 := by decide +kernel
    intro c hcc p hp
    have hcd : c ∈ demoSet := by rcases hcc with h | ⟨_, h, _⟩; exacts [h, by simp at h]
    obtain ⟨d, h2, h3⟩ := exactlyOne_of_filter (by decide) (h0 c hcd p hp)
    refine ⟨d, ⟨Or.inl h2.1, h2.2⟩, fun y hy => h3 y ⟨?_, hy.2⟩⟩
    rcases hy.1 with h | ⟨_, h, _⟩; exacts [h, by simp at h]
  refine ⟨h1, ?_, C104_incomplete_accepted hv hne hc status units dt h1
    (fun c hcc => List.mem_of_mem_tail hcc)⟩
  rw [← Bool.not_eq_true, C104_accepted_iff hv hne hc]
  intro h
  obtain ⟨d, ⟨h2, h3⟩, _⟩ := h .topoflow_driver (Or.inl (by decide)) .met (by simp [needs])
  rcases h2 with h2 | ⟨_, h2, _⟩
  · simp only [Process.members, List.mem_cons, List.not_mem_nil, or_false] at h3
    subst h3
    revert h2; decide
  · simp at h2

end runs

/-! ## File names (C105) -/

theorem takeWhile_append_of_all {p : Char → Bool} : ∀ (l t : List Char), (∀ c ∈ l, p c = true) →
    (l ++ t).takeWhile p = l ++ t.takeWhile p
  | [], t, _ => rfl
  | c :: l, t, h => by
    rw [List.cons_append, List.takeWhile_cons, if_pos (h c (by simp)),
      takeWhile_append_of_all l t (fun x hx => h x (List.mem_cons_of_mem _ hx)), List.cons_append]

theorem lastPart_slash {d f : Text} (h : '/' ∉ f) : lastPart (d ++ '/' :: f) = f := by
  unfold lastPart
  rw [List.reverse_append, List.reverse_cons, List.append_assoc, takeWhile_append_of_all]
  · simp
  · intro c hc
    rw [List.mem_reverse] at hc
    simp only [ne_eq, decide_eq_true_eq]
    rintro rfl; exact h hc

theorem lastPart_bare {f : Text} (h : '/' ∉ f) : lastPart f = f := by
  unfold lastPart
  have := takeWhile_append_of_all (p := fun c => decide (c ≠ '/')) f.reverse [] (by
    intro c hc
    rw [List.mem_reverse] at hc
    simp only [ne_eq, decide_eq_true_eq]
    rintro rfl; exact h hc)
  rw [List.append_nil] at this
  rw [this]; simp

theorem removeAux_drop (pat : Text) : ∀ (t : Text), removeAux pat t.length t = []
  | [] => rfl
  | c :: t => by rw [List.length_cons, removeAux]; exact removeAux_drop pat t

theorem removeAll_self {f : Text} (h : f ≠ []) : removeAux f 0 f = [] := by
  obtain ⟨c, t, rfl⟩ := List.exists_cons_of_ne_nil h
  rw [removeAux, if_pos ⟨by simp, by simp⟩]
  simpa using removeAux_drop (c :: t) t

/-- `f` does not occur in `s`. -/
def Absent (f s : Text) : Prop := ∀ a b, s ≠ a ++ f ++ b

theorem removeAll_path {f : Text} (hf : f ≠ []) (hs : '/' ∉ f) : ∀ (d : Text), Absent f d →
    removeAux f 0 (d ++ '/' :: f) = d ++ ['/']
  | [], _ => by
    rw [List.nil_append, removeAux, if_neg, removeAll_self hf]
    · rfl
    · rintro ⟨-, h⟩
      rw [List.isPrefixOf_iff_prefix] at h
      obtain ⟨c, t, rfl⟩ := List.exists_cons_of_ne_nil hf
      obtain ⟨r, hr⟩ := h
      simp only [List.cons_append, List.cons.injEq] at hr
      exact hs (by simp [hr.1])
  | c :: d, ha => by
    have ha' : Absent f d := fun a b hab => ha (c :: a) b (by rw [hab]; simp)
    rw [List.cons_append, removeAux, if_neg, removeAll_path hf hs d ha']
    · rfl
    · rintro ⟨-, h⟩
      rw [List.isPrefixOf_iff_prefix] at h
      obtain ⟨r, hr⟩ := h
      by_cases hl : f.length ≤ (c :: d).length
      · have := List.prefix_of_prefix_length_le (l₁ := f) (l₂ := c :: d)
          (l₃ := (c :: d) ++ '/' :: f) ⟨r, by simpa using hr⟩ ⟨_, rfl⟩ hl
        obtain ⟨b, hb⟩ := this
        exact ha [] b (by simpa using hb.symm)
      · have h2 := List.prefix_of_prefix_length_le (l₁ := (c :: d) ++ ['/']) (l₂ := f)
          (l₃ := (c :: d) ++ '/' :: f) ⟨f, by simp⟩ ⟨r, by simpa using hr⟩ (by
            simp only [List.length_append, List.length_cons, List.length_nil]
            simp only [List.length_cons] at hl; omega)
        obtain ⟨b, hb⟩ := h2
        exact hs (by rw [← hb]; simp)

theorem hasSub_iff (sub : Text) : ∀ (s : Text), hasSub sub s = true ↔ ∃ a b, s = a ++ sub ++ b
  | [] => by
    rw [hasSub, List.isEmpty_iff]
    constructor
    · rintro rfl; exact ⟨[], [], rfl⟩
    · rintro ⟨a, b, h⟩
      have := congrArg List.length h
      simp only [List.length_nil, List.length_append] at this
      exact List.eq_nil_of_length_eq_zero (by omega)
  | c :: t => by
    rw [hasSub, Bool.or_eq_true, List.isPrefixOf_iff_prefix, hasSub_iff sub t]
    constructor
    · rintro (⟨b, hb⟩ | ⟨a, b, h⟩)
      · exact ⟨[], b, by simp [hb]⟩
      · exact ⟨c :: a, b, by simp [h]⟩
    · rintro ⟨a, b, h⟩
      cases a with
      | nil => exact Or.inl ⟨b, by simp [h]⟩
      | cons x a =>
        simp only [List.cons_append, List.cons.injEq] at h
        exact Or.inr ⟨a, b, h.2⟩

/-- **C105** for `_nextgen.cfg` files: for every directory and prefix (as long as the name of the
file does not occur in the name of a directory), the files of the components are looked for in that
directory and with that prefix. -/
theorem C105_nextgen_names (d pre ext : Text) (hs : '/' ∉ pre)
    (ha : Absent (pre ++ "_nextgen.cfg".toList) d) :
    let n := deriveNames (d ++ '/' :: (pre ++ "_nextgen.cfg".toList))
    n.nextgen = true ∧ n.cfgPrefix = pre ∧ compCfgFile n ext = d ++ '/' :: (pre ++ ext) ∧
      providerFile n = d ++ "//".toList ++ pre ++ "_providers.txt".toList := by
  have hs' : '/' ∉ pre ++ "_nextgen.cfg".toList := by
    rw [List.mem_append]; rintro (h | h)
    · exact hs h
    · revert h; decide
  have hne : pre ++ "_nextgen.cfg".toList ≠ [] := by simp
  have hng : hasSub "_nextgen".toList (pre ++ "_nextgen.cfg".toList) = true :=
    (hasSub_iff _ _).2 ⟨pre, ".cfg".toList, by simp⟩
  have hrem := removeAll_path hne hs' d ha
  unfold deriveNames removeAll compCfgFile providerFile
  simp only [lastPart_slash hs', hng, if_true, hrem]
  refine ⟨trivial, ?_, by simp, by simp⟩
  rw [List.length_append, show ("_nextgen.cfg".toList).length = 12 from rfl, Nat.add_sub_cancel,
    List.take_left']
  rfl

/-- **C105** for `_multi-bmi.cfg` files: the same, for prefixes without "_nextgen". -/
theorem C105_multi_bmi_names_partial (d pre ext : Text) (hs : '/' ∉ pre)
    (ha : Absent (pre ++ "_multi-bmi.cfg".toList) d)
    (hn : Absent "_nextgen".toList (pre ++ "_multi-bmi.cfg".toList)) :
    let n := deriveNames (d ++ '/' :: (pre ++ "_multi-bmi.cfg".toList))
    n.nextgen = false ∧ n.cfgPrefix = pre ∧ compCfgFile n ext = d ++ '/' :: (pre ++ ext) ∧
      providerFile n = d ++ "//".toList ++ pre ++ "_providers.txt".toList := by
  have hs' : '/' ∉ pre ++ "_multi-bmi.cfg".toList := by
    rw [List.mem_append]; rintro (h | h)
    · exact hs h
    · revert h; decide
  have hne : pre ++ "_multi-bmi.cfg".toList ≠ [] := by simp
  have hng : hasSub "_nextgen".toList (pre ++ "_multi-bmi.cfg".toList) = false := by
    rw [← Bool.not_eq_true, hasSub_iff]
    rintro ⟨a, b, h⟩; exact hn a b h
  have hrem := removeAll_path hne hs' d ha
  unfold deriveNames removeAll compCfgFile providerFile
  simp only [lastPart_slash hs', hng, if_false, hrem, Bool.false_eq_true]
  refine ⟨trivial, ?_, by simp, by simp⟩
  rw [List.length_append, show ("_multi-bmi.cfg".toList).length = 14 from rfl, Nat.add_sub_cancel,
    List.take_left']
  rfl

/-- **C105 is violated** for a file in the current directory that is named without a directory:
the provider file is looked for in the root directory. -/
theorem C105_bare_name_violated (pre : Text) (hs : '/' ∉ pre) :
    providerFile (deriveNames (pre ++ "_nextgen.cfg".toList)) =
      '/' :: (pre ++ "_providers.txt".toList) := by
  have hs' : '/' ∉ pre ++ "_nextgen.cfg".toList := by
    rw [List.mem_append]; rintro (h | h)
    · exact hs h
    · revert h; decide
  have hng : hasSub "_nextgen".toList (pre ++ "_nextgen.cfg".toList) = true :=
    (hasSub_iff _ _).2 ⟨pre, ".cfg".toList, by simp⟩
  unfold deriveNames removeAll providerFile
  simp only [lastPart_bare hs', hng, if_true, removeAll_self (f := pre ++ "_nextgen.cfg".toList) (by simp)]
  rw [List.length_append, show ("_nextgen.cfg".toList).length = 12 from rfl, Nat.add_sub_cancel,
    List.take_left' rfl]
  simp

/-- It is also violated for `_multi-bmi.cfg` files whose prefix contains "_nextgen": the
prefix of all component files gets two characters of the extension. -/
theorem C105_nextgen_prefix_violated (d pre : Text) (hs : '/' ∉ pre)
    (hn : hasSub "_nextgen".toList pre = true) :
    (deriveNames (d ++ '/' :: (pre ++ "_multi-bmi.cfg".toList))).cfgPrefix = pre ++ "_m".toList := by
  have hs' : '/' ∉ pre ++ "_multi-bmi.cfg".toList := by
    rw [List.mem_append]; rintro (h | h)
    · exact hs h
    · revert h; decide
  have hng : hasSub "_nextgen".toList (pre ++ "_multi-bmi.cfg".toList) = true := by
    obtain ⟨a, b, h⟩ := (hasSub_iff _ _).1 hn
    exact (hasSub_iff _ _).2 ⟨a, b ++ "_multi-bmi.cfg".toList, by rw [h]; simp⟩
  unfold deriveNames
  simp only [lastPart_slash hs', hng, if_true]
  rw [List.length_append, show ("_multi-bmi.cfg".toList).length = 14 from rfl,
    show pre.length + 14 - 12 = pre.length + 2 by omega, List.take_append,
    List.take_of_length_le (by omega)]
  simp

/-- A usual path; and one whose directory has the name of the file, which is cut out. -/
example : deriveNames "/data/Test1_cfg/Test1_multi-bmi.cfg".toList =
    ⟨false, "Test1".toList, "/data/Test1_cfg/".toList⟩ := by decide +kernel

example : deriveNames "/data/T_nextgen.cfg_old/T_nextgen.cfg".toList =
    ⟨true, "T".toList, "/data/_old/".toList⟩ := by decide +kernel

example : Absent "Test1_multi-bmi.cfg".toList "/data/Test1_cfg".toList ∧
    Absent "_nextgen".toList "Test1_multi-bmi.cfg".toList := by
  constructor
  · intro a b h
    have : hasSub "Test1_multi-bmi.cfg".toList "/data/Test1_cfg".toList = true :=
      (hasSub_iff _ _).2 ⟨a, b, h⟩
    revert this; decide +kernel
  · intro a b h
    have : hasSub "_nextgen".toList "Test1_multi-bmi.cfg".toList = true :=
      (hasSub_iff _ _).2 ⟨a, b, h⟩
    revert this; decide +kernel

end Multi
