import Verif.StartModel
import Verif.DisableProps
import Verif.RepoSpec

/-!
# C219, C222, C223: which models can be started
-/

set_option autoImplicit false
set_option maxRecDepth 100000

namespace Start

open Repo Disable RepoSpec

/-! ## Specification -/

/-- No component is asked for a variable that it does not have to offer. -/
def NothingWithheld (su : Setup) (l : List Comp) : Prop :=
  ∀ p u v, Exchanged l p u v → withheld su.scalarP (su.off p) p v = false

/-- Component `c` finds the attribute `a` when the components `pre` have been initialised before
it: it is an entry of its CFG file, or one of `pre` provides the variable that `c` keeps in `a`. -/
def Found (su : Setup) (pre : List Comp) (c : Comp) (a : Name) : Prop :=
  a ∈ su.extra c ∨ ∃ p ∈ pre, ∃ v ∈ (decl p).outputs, v ∈ (decl c).inputs ∧
    ∃ x, getVarName c v = .ok x ∧ a = .var x

/-- Every component that is on finds all it reads; evaporation that is read from files is not
among them (it makes a call that fails in any case). -/
def AllFound (su : Setup) (l : List Comp) : Prop :=
  ∀ pre c post, l = pre ++ c :: post → su.off c = false → c ≠ .tf_evap_read_file ∧
    ∀ a ∈ reads (su.fromFile c) c, Found su pre c a

/-! ## The loop -/

theorem mem_given {p u : Comp} {a : Name} :
    a ∈ given p u ↔ ∃ v ∈ (decl p).outputs, v ∈ (decl u).inputs ∧
      ∃ x, getVarName u v = .ok x ∧ a = .var x := by
  simp only [given, List.mem_filterMap, List.mem_filter, decide_eq_true_eq]
  constructor
  · rintro ⟨v, ⟨h1, h2⟩, h3⟩
    cases hx : getVarName u v with
    | error e => rw [hx] at h3; simp [Except.toOption] at h3
    | ok x =>
      rw [hx] at h3
      simp only [Except.toOption, Option.map_some, Option.some.injEq] at h3
      exact ⟨v, h1, h2, x, hx, h3.symm⟩
  · rintro ⟨v, h1, h2, x, hx, rfl⟩
    exact ⟨v, ⟨h1, h2⟩, by rw [hx]; rfl⟩

theorem initOne_iff (su : Setup) (c : Comp) (got : List Name) :
    (initOne su c got = .ok () ↔
      (su.off c = false → c ≠ .tf_evap_read_file ∧
        ∀ a ∈ reads (su.fromFile c) c, a ∈ su.extra c ∨ a ∈ got)) := by
  unfold initOne
  cases ho : su.off c with
  | true => simp
  | false =>
    simp only [Bool.false_eq_true, if_false, true_imp_iff]
    by_cases he : c = .tf_evap_read_file
    · rw [if_pos he]; simp [he]
    rw [if_neg he]
    simp only [ne_eq, he, not_false_eq_true, true_and]
    by_cases h : (reads (su.fromFile c) c).all (fun a => (su.extra c ++ got).elem a) = true
    · rw [if_pos h]
      simp only [true_iff]
      intro a ha
      have := List.mem_of_elem_eq_true (List.all_eq_true.1 h a ha)
      simpa using this
    · rw [if_neg h]
      simp only [reduceCtorEq, false_iff]
      intro hh
      refine h (List.all_eq_true.2 fun a ha => List.elem_eq_true_of_mem ?_)
      simpa using hh a ha

theorem initOne_error (su : Setup) (c : Comp) (got : List Name) (h : initOne su c got ≠ .ok ()) :
    ∃ e, initOne su c got = .error e := by
  cases hx : initOne su c got with
  | error e => exact ⟨e, rfl⟩
  | ok u => exact absurd hx h

theorem mem_links {l : List Comp} {p : Comp} {x : Comp × Var} :
    x ∈ (decl p).outputs.flatMap (fun v => (usersOf l v).map (fun u => (u, v))) ↔
      x.1 ∈ l ∧ x.2 ∈ (decl p).outputs ∧ x.2 ∈ (decl x.1).inputs := by
  obtain ⟨u, v⟩ := x
  simp [usersOf, List.mem_flatMap]
  tauto

section
variable {su : Setup} {l : List Comp} (h : Comp.erode_d8_local ∉ l ∧ Comp.dem_smoother ∉ l)
include h

theorem var_ne_none {u : Comp} {v : Var} (hu : u ∈ l) (hi : v ∈ (decl u).inputs) : v ≠ .None := by
  rintro rfl
  rcases none_inputs hi with rfl | rfl
  · exact h.1 hu
  · exact h.2 hu

theorem links_ok (p : Comp)
    (hw : ∀ u v, u ∈ l → v ∈ (decl p).outputs → v ∈ (decl u).inputs →
      withheld su.scalarP (su.off p) p v = false) :
    ((decl p).outputs.flatMap (fun v => (usersOf l v).map (fun u => (u, v)))).mapM
      (fun x => connectLive su.scalarP su.off p x.1 x.2) =
    .ok (((decl p).outputs.flatMap (fun v => (usersOf l v).map (fun u => (u, v)))).map
      fun _ => Connected.plain) := by
  refine mapM_ok _ Connected.plain _ (fun x hx => ?_)
  obtain ⟨h1, h2, h3⟩ := mem_links.1 hx
  exact connectLive_ok _ _ h2 h3 (var_ne_none h h1 h3) (hw _ _ h1 h2 h3)

theorem links_error (p : Comp)
    (hw : ∃ u v, u ∈ l ∧ v ∈ (decl p).outputs ∧ v ∈ (decl u).inputs ∧
      withheld su.scalarP (su.off p) p v = true) :
    ∃ e, ((decl p).outputs.flatMap (fun v => (usersOf l v).map (fun u => (u, v)))).mapM
      (fun x => connectLive su.scalarP su.off p x.1 x.2) = .error e := by
  obtain ⟨u, v, h1, h2, h3, h4⟩ := hw
  obtain ⟨e, he⟩ := connectLive_error su.scalarP su.off h2 h3 (var_ne_none h h1 h3) h4
  exact mapM_error _ _ ⟨(u, v), mem_links.2 ⟨h1, h2, h3⟩, e, he⟩

theorem initLoop_iff : ∀ (rest : List Comp) (got : Comp → List Name),
    ((∃ r, initLoop su l rest got = .ok r) ↔
      (∀ pre c post, rest = pre ++ c :: post → su.off c = false → c ≠ .tf_evap_read_file ∧
        ∀ a ∈ reads (su.fromFile c) c, a ∈ su.extra c ∨ a ∈ got c ∨ ∃ p ∈ pre, a ∈ given p c) ∧
      (∀ p ∈ rest, ∀ u v, u ∈ l → v ∈ (decl p).outputs → v ∈ (decl u).inputs →
        withheld su.scalarP (su.off p) p v = false)) ∧
    ∀ r, initLoop su l rest got = .ok r → ∀ x ∈ r, x = .plain := by
  intro rest
  induction rest with
  | nil =>
    intro got
    refine ⟨⟨fun _ => ⟨?_, ?_⟩, fun _ => ⟨[], rfl⟩⟩, ?_⟩
    · intro pre c post he; simp at he
    · intro p hp; simp at hp
    · intro r hr x hx
      simp only [initLoop, Except.ok.injEq] at hr
      subst hr; simp at hx
  | cons p rest ih =>
    intro got
    by_cases hi : initOne su p (got p) = .ok ()
    · by_cases hw : ∀ u v, u ∈ l → v ∈ (decl p).outputs → v ∈ (decl u).inputs →
          withheld su.scalarP (su.off p) p v = false
      · have hl := links_ok h p hw
        have ih := ih (fun u => got u ++ given p u)
        have e : initLoop su l (p :: rest) got =
            (do let r' ← initLoop su l rest (fun u => got u ++ given p u)
                Except.ok ((((decl p).outputs.flatMap (fun v => (usersOf l v).map
                  (fun u => (u, v)))).map fun _ => Connected.plain) ++ r')) := by
          rw [initLoop, hi, hl]; rfl
        refine ⟨?_, ?_⟩
        · rw [e]
          constructor
          · rintro ⟨r, hr⟩
            have hr' : ∃ r', initLoop su l rest (fun u => got u ++ given p u) = .ok r' := by
              cases hx : initLoop su l rest (fun u => got u ++ given p u) with
              | error e => rw [hx] at hr; simp [bind, Except.bind] at hr
              | ok r' => exact ⟨r', rfl⟩
            obtain ⟨h1, h2⟩ := ih.1.1 hr'
            refine ⟨?_, ?_⟩
            · intro pre c post he ho
              cases pre with
              | nil =>
                simp only [List.nil_append, List.cons.injEq] at he
                obtain ⟨rfl, rfl⟩ := he
                refine ⟨((initOne_iff su p (got p)).1 hi ho).1, fun a ha => ?_⟩
                rcases ((initOne_iff su p (got p)).1 hi ho).2 a ha with h3 | h3
                · exact .inl h3
                · exact .inr (.inl h3)
              | cons q pre =>
                simp only [List.cons_append, List.cons.injEq] at he
                obtain ⟨rfl, rfl⟩ := he
                refine ⟨(h1 pre c post rfl ho).1, fun a ha => ?_⟩
                rcases (h1 pre c post rfl ho).2 a ha with h3 | h3 | ⟨q, hq, h3⟩
                · exact .inl h3
                · rcases List.mem_append.1 h3 with h3 | h3
                  · exact .inr (.inl h3)
                  · exact .inr (.inr ⟨p, by simp, h3⟩)
                · exact .inr (.inr ⟨q, by simp [hq], h3⟩)
            · intro q hq
              rcases List.mem_cons.1 hq with rfl | hq
              · exact hw
              · exact h2 q hq
          · rintro ⟨h1, h2⟩
            have : ∃ r', initLoop su l rest (fun u => got u ++ given p u) = .ok r' := by
              refine ih.1.2 ⟨?_, fun q hq => h2 q (by simp [hq])⟩
              intro pre c post he ho
              refine ⟨(h1 (p :: pre) c post (by simp [he]) ho).1, fun a ha => ?_⟩
              rcases (h1 (p :: pre) c post (by simp [he]) ho).2 a ha with h3 | h3 | ⟨q, hq, h3⟩
              · exact .inl h3
              · exact .inr (.inl (List.mem_append.2 (.inl h3)))
              · rcases List.mem_cons.1 hq with rfl | hq
                · exact .inr (.inl (List.mem_append.2 (.inr h3)))
                · exact .inr (.inr ⟨q, hq, h3⟩)
            obtain ⟨r', hr'⟩ := this
            exact ⟨_, by rw [hr']; rfl⟩
        · intro r hr x hx
          rw [e] at hr
          cases hy : initLoop su l rest (fun u => got u ++ given p u) with
          | error e => rw [hy] at hr; simp [bind, Except.bind] at hr
          | ok r' =>
            rw [hy] at hr
            simp only [bind, Except.bind, Except.ok.injEq] at hr
            subst hr
            rcases List.mem_append.1 hx with hx | hx
            · obtain ⟨_, _, rfl⟩ := List.mem_map.1 hx
              rfl
            · exact ih.2 r' hy x hx
      · have hw' : ∃ u v, u ∈ l ∧ v ∈ (decl p).outputs ∧ v ∈ (decl u).inputs ∧
            withheld su.scalarP (su.off p) p v = true := by
          push Not at hw
          obtain ⟨u, v, h1, h2, h3, h4⟩ := hw
          exact ⟨u, v, h1, h2, h3, by simpa using h4⟩
        obtain ⟨e, he⟩ := links_error h p hw'
        have e' : initLoop su l (p :: rest) got = .error e := by
          rw [initLoop, hi, he]; rfl
        refine ⟨⟨?_, fun hh => absurd (hh.2 p (by simp)) hw⟩, ?_⟩
        · rintro ⟨r, hr⟩; rw [e'] at hr; cases hr
        · intro r hr; rw [e'] at hr; cases hr
    · obtain ⟨e, he⟩ := initOne_error su p (got p) hi
      have e' : initLoop su l (p :: rest) got = .error e := by
        rw [initLoop, he]; rfl
      refine ⟨⟨?_, fun hh => absurd ((initOne_iff su p (got p)).2 ?_) hi⟩, ?_⟩
      · rintro ⟨r, hr⟩; rw [e'] at hr; cases hr
      · intro ho
        refine ⟨(hh.1 [] p rest rfl ho).1, fun a ha => ?_⟩
        rcases (hh.1 [] p rest rfl ho).2 a ha with h3 | h3 | ⟨q, hq, _⟩
        · exact .inl h3
        · exact .inr h3
        · simp at hq
      · intro r hr; rw [e'] at hr; cases hr

/-- **Which models start.** A model made of components with declarations of their own is initialised
and connected, in the order of its provider file, exactly if evaporation read from files is not on,
every component that is on finds all the attributes it reads and no component is asked for a variable it does not have to offer; all
variables then arrive without a warning. -/
theorem C222_starts_iff :
    ((∃ r, initSet su l = .ok r) ↔ AllFound su l ∧ NothingWithheld su l) ∧
    ∀ r, initSet su l = .ok r → ∀ x ∈ r, x = .plain := by
  have key := initLoop_iff (su := su) h l (fun _ => [])
  refine ⟨key.1.trans ?_, key.2⟩
  constructor
  · rintro ⟨h1, h2⟩
    refine ⟨?_, ?_⟩
    · intro pre c post he ho
      refine ⟨(h1 pre c post he ho).1, fun a ha => ?_⟩
      rcases (h1 pre c post he ho).2 a ha with h3 | h3 | ⟨p, hp, h3⟩
      · exact .inl h3
      · simp at h3
      · exact .inr ⟨p, hp, mem_given.1 h3⟩
    · rintro p u v ⟨hp, hu, ho, hi⟩
      exact h2 p hp u v hu ho hi
  · rintro ⟨h1, h2⟩
    refine ⟨?_, fun p hp u v hu ho hi => h2 p u v ⟨hp, hu, ho, hi⟩⟩
    intro pre c post he ho
    refine ⟨(h1 pre c post he ho).1, fun a ha => ?_⟩
    rcases (h1 pre c post he ho).2 a ha with h3 | ⟨p, hp, h3⟩
    · exact .inl h3
    · exact .inr (.inr ⟨p, hp, mem_given.2 h3⟩)

end

/-! ## C222: components that never start -/

/-- The CFG files have the entries of the shipped ones and no others that matter, no parameters are
read from files and no source, sink or canal is in use. -/
def shipped (off : Comp → Bool) (scalarP : Bool) : Setup where
  off := off
  scalarP := scalarP
  extra := fun _ => []
  fromFile := fun _ => []

/-- The seven components that cannot be started with the CFG files shipped for them: three
infiltration methods, two evaporation methods, and groundwater in both forms (no CFG file is shipped
for the second, so that of the first stands for it). -/
def neverStarts : List Comp :=
  [.tf_infil_green_ampt, .tf_infil_smith_parlange, .tf_infil_beven, .tf_evap_energy_balance,
   .tf_evap_read_file, .tf_satzone_darcy_layers, .tf_satzone_attenuate]

/-- The processes that must have been initialised before a component. -/
def startsAfter : Comp → List Process
  | .tf_evap_priestley_taylor | .tf_glacier_energy_balance | .tf_snow_degree_day
  | .tf_snow_energy_balance => [.met]
  | .tf_infil_richards_1d => [.met, .melt, .evap]
  | .topoflow_driver => [.channels]
  | _ => []

/-- Every process that a component which is on has to follow has been initialised before it. -/
def InOrder (off : Comp → Bool) (l : List Comp) : Prop :=
  ∀ pre c post, l = pre ++ c :: post → off c = false →
    ∀ q ∈ startsAfter c, ∃ p ∈ pre, p ∈ q.members

/-- The components that give `c` the attribute `a`. -/
def giversOf (c : Comp) (a : Name) : List Comp := repoList.filter (fun p => (given p c).elem a)

/-- All processes. -/
def processes : List Process :=
  [.channels, .evap, .infil, .satzone, .met, .melt, .ice, .topo, .placeholder]

theorem mem_giversOf {c p : Comp} {a : Name} : p ∈ giversOf c a ↔ a ∈ given p c := by
  simp [giversOf, mem_repoList]

theorem never_unfed : (neverStarts.all fun c =>
    (reads [] c).any fun a => decide (giversOf c a = [])) = true := by decide +kernel

theorem reads_process : (repoList.all fun c => neverStarts.elem c || ((reads [] c).all fun a =>
    processes.any fun q => (startsAfter c).any (fun q' => decide (q.members = q'.members)) &&
      q.members.all fun p => (giversOf c a).elem p)) = true := by decide +kernel

theorem process_reads : (repoList.all fun c => neverStarts.elem c || ((startsAfter c).all fun q =>
    (reads [] c).any fun a => (giversOf c a).all fun p => q.members.elem p)) = true := by
  decide +kernel

theorem found_shipped {off : Comp → Bool} {sp : Bool} {pre : List Comp} {c : Comp} {a : Name} :
    Found (shipped off sp) pre c a ↔ ∃ p ∈ pre, p ∈ giversOf c a := by
  simp only [Found, shipped, List.not_mem_nil, false_or, mem_giversOf, mem_given]

/-- **C222, C223.** With the shipped CFG files a model starts exactly if none of the seven components
is on, the components are listed in an order that respects `startsAfter`, and no component is asked
for a variable it does not have to offer. -/
theorem C223_order_iff (off : Comp → Bool) (sp : Bool) {l : List Comp}
    (h : Comp.erode_d8_local ∉ l ∧ Comp.dem_smoother ∉ l) :
    (∃ r, initSet (shipped off sp) l = .ok r) ↔
      (∀ c ∈ neverStarts, c ∈ l → off c = true) ∧ InOrder off l ∧
      ∀ p u v, Exchanged l p u v → withheld sp (off p) p v = false := by
  rw [(C222_starts_iff h).1, ← and_assoc]
  refine and_congr ?_ Iff.rfl
  constructor
  · intro hf
    have hn : ∀ c ∈ neverStarts, c ∈ l → off c = true := by
      intro c hc hl
      by_contra ho
      have ho : off c = false := by simpa using ho
      obtain ⟨pre, post, he⟩ := List.append_of_mem hl
      obtain ⟨a, ha, hg⟩ := List.any_eq_true.1 (List.all_eq_true.1 never_unfed c hc)
      obtain ⟨p, -, hp⟩ := found_shipped.1 ((hf pre c post he ho).2 a ha)
      rw [of_decide_eq_true hg] at hp
      simp at hp
    refine ⟨hn, ?_⟩
    intro pre c post he ho q hq
    have hc : neverStarts.elem c = false := by
      cases hx : neverStarts.elem c with
      | false => rfl
      | true =>
        have := hn c (List.mem_of_elem_eq_true hx) (by simp [he])
        rw [show off c = false from ho] at this; cases this
    have h1 := List.all_eq_true.1 process_reads c (mem_repoList c)
    rw [hc, Bool.false_or] at h1
    obtain ⟨a, ha, hg⟩ := List.any_eq_true.1 (List.all_eq_true.1 h1 q hq)
    obtain ⟨p, hp, hpa⟩ := found_shipped.1 ((hf pre c post he ho).2 a ha)
    exact ⟨p, hp, List.mem_of_elem_eq_true (List.all_eq_true.1 hg p hpa)⟩
  · rintro ⟨hn, hi⟩ pre c post he ho
    have hc : neverStarts.elem c = false := by
      cases hx : neverStarts.elem c with
      | false => rfl
      | true =>
        have := hn c (List.mem_of_elem_eq_true hx) (by simp [he])
        rw [show off c = false from ho] at this; cases this
    refine ⟨by rintro rfl; revert hc; decide, fun a ha => ?_⟩
    have h1 := List.all_eq_true.1 reads_process c (mem_repoList c)
    rw [hc, Bool.false_or] at h1
    obtain ⟨q, -, hg⟩ := List.any_eq_true.1 (List.all_eq_true.1 h1 a ha)
    rw [Bool.and_eq_true] at hg
    obtain ⟨q', hq', he'⟩ := List.any_eq_true.1 hg.1
    obtain ⟨p, hp, hm⟩ := hi pre c post he ho q' hq'
    rw [← of_decide_eq_true he'] at hm
    exact found_shipped.2 ⟨p, hp, List.mem_of_elem_eq_true (List.all_eq_true.1 hg.2 p hm)⟩

/-- **C222 is violated**: none of the seven components can be switched on in any model, with the CFG
files as shipped. -/
theorem C222_violated {c : Comp} (hc : c ∈ neverStarts) (off : Comp → Bool) (sp : Bool)
    (ho : off c = false) {l : List Comp} (hl : c ∈ l)
    (h : Comp.erode_d8_local ∉ l ∧ Comp.dem_smoother ∉ l) :
    ¬ ∃ r, initSet (shipped off sp) l = .ok r := by
  intro hr
  have := ((C223_order_iff off sp h).1 hr).1 c hc hl
  rw [ho] at this; cases this

/-- Attributes that no component provides. -/
theorem own_unfound {su : Setup} {pre : List Comp} {c : Comp} {s : String}
    (h : Found su pre c (.own s)) : .own s ∈ su.extra c := by
  rcases h with h | ⟨p, -, v, -, -, x, -, hx⟩
  · exact h
  · cases hx

theorem extra_of_starts {su : Setup} {l : List Comp}
    (h : Comp.erode_d8_local ∉ l ∧ Comp.dem_smoother ∉ l) (hr : ∃ r, initSet su l = .ok r)
    {c : Comp} (hc : c ∈ l) (ho : su.off c = false) {s : String}
    (hs : .own s ∈ reads (su.fromFile c) c) : .own s ∈ su.extra c := by
  obtain ⟨pre, post, he⟩ := List.append_of_mem hc
  exact own_unfound ((((C222_starts_iff h).1.1 hr).1 pre c post he ho).2 _ hs)

/-- No CFG files let evaporation be read from files. -/
theorem C222_read_file_violated {su : Setup} {l : List Comp}
    (h : Comp.erode_d8_local ∉ l ∧ Comp.dem_smoother ∉ l) (hl : Comp.tf_evap_read_file ∈ l)
    (ho : su.off .tf_evap_read_file = false) : ¬ ∃ r, initSet su l = .ok r := by
  intro hr
  obtain ⟨pre, post, he⟩ := List.append_of_mem hl
  exact (((C222_starts_iff h).1.1 hr).1 pre _ post he ho).1 rfl

/-- What the CFG files would have to contain, whatever the rest of the model: entries `dz` and `q`
for Green-Ampt, Smith-Parlange and Beven infiltration, a list for every Smith-Parlange parameter
that is read from a file, the type of `alpha` and names of output files for the energy balance
evaporation, names of output files for groundwater, and `dx` and `dy` for diversions with a source,
sink or canal in use. -/
theorem C222_missing_entries {su : Setup} {l : List Comp}
    (h : Comp.erode_d8_local ∉ l ∧ Comp.dem_smoother ∉ l) (hr : ∃ r, initSet su l = .ok r)
    {c : Comp} (hc : c ∈ l) (ho : su.off c = false) :
    (c ∈ [Comp.tf_infil_green_ampt, .tf_infil_smith_parlange, .tf_infil_beven] →
      .own "dz" ∈ su.extra c ∧ .own "q" ∈ su.extra c) ∧
    (c = .tf_infil_smith_parlange → ∀ x ∈ su.fromFile c, .own (x ++ "_list") ∈ su.extra c) ∧
    (c = .tf_evap_energy_balance → .own "alpha_type" ∈ su.extra c ∧
      .own "ET_gs_file" ∈ su.extra c ∧ .own "ET_ts_file" ∈ su.extra c) ∧
    (c ∈ [Comp.tf_satzone_darcy_layers, .tf_satzone_attenuate] →
      ∀ x ∈ ["GW", "h_table", "d_freeze", "d_thaw"],
        .own (x ++ "_gs_file") ∈ su.extra c ∧ .own (x ++ "_ts_file") ∈ su.extra c) ∧
    (c = .tf_diversions_fraction_method → su.fromFile c ≠ [] →
      .own "dx" ∈ su.extra c ∧ .own "dy" ∈ su.extra c) := by
  refine ⟨?_, ?_, ?_, ?_, ?_⟩
  · intro hm
    have hm' : c = .tf_infil_green_ampt ∨ c = .tf_infil_smith_parlange ∨ c = .tf_infil_beven := by
      simpa using hm
    rcases hm' with rfl | rfl | rfl <;>
    exact ⟨extra_of_starts h hr hc ho (by simp [reads]),
      extra_of_starts h hr hc ho (by simp [reads])⟩
  · rintro rfl x hx
    refine extra_of_starts h hr hc ho ?_
    simp only [reads, List.mem_append, List.mem_map]
    exact .inl (.inr ⟨x, hx, rfl⟩)
  · rintro rfl
    exact ⟨extra_of_starts h hr hc ho (by simp [reads]),
      extra_of_starts h hr hc ho (by simp [reads]), extra_of_starts h hr hc ho (by simp [reads])⟩
  · intro hm x hx
    have hm' : c = .tf_satzone_darcy_layers ∨ c = .tf_satzone_attenuate := by simpa using hm
    have hx' : x = "GW" ∨ x = "h_table" ∨ x = "d_freeze" ∨ x = "d_thaw" := by simpa using hx
    rcases hm' with rfl | rfl <;> rcases hx' with rfl | rfl | rfl | rfl <;>
    exact ⟨extra_of_starts h hr hc ho (by simp [reads]),
      extra_of_starts h hr hc ho (by simp [reads])⟩
  · rintro rfl hf
    exact ⟨extra_of_starts h hr hc ho (by simp [reads, hf]),
      extra_of_starts h hr hc ho (by simp [reads, hf])⟩

/-- What a component has received when the components `pre` have been connected. -/
def received (pre : List Comp) (c : Comp) : List Name := pre.flatMap (fun p => given p c)

theorem reads_inputs : (repoList.all fun c => neverStarts.elem c || ((reads [] c).all fun a =>
    (decl c).inputs.any fun v => match getVarName c v with
      | .ok x => decide (a = .var x)
      | .error _ => false)) = true := by decide +kernel

/-- **C222, the part that holds.** Every other component that is on starts with its shipped CFG file
once all its inputs have been provided by components initialised before. -/
theorem C222_others_start_partial {c : Comp} (hc : c ∉ neverStarts) (off : Comp → Bool) (sp : Bool)
    {pre : List Comp} (hp : ∀ v ∈ (decl c).inputs, ∃ p ∈ pre, v ∈ (decl p).outputs) :
    initOne (shipped off sp) c (received pre c) = .ok () := by
  rw [initOne_iff]
  intro _
  refine ⟨by rintro rfl; exact hc (by decide), fun a ha => ?_⟩
  have h1 := List.all_eq_true.1 reads_inputs c (mem_repoList c)
  have hn : neverStarts.elem c = false := by
    cases hx : neverStarts.elem c with
    | false => rfl
    | true => exact absurd (List.mem_of_elem_eq_true hx) hc
  rw [hn, Bool.false_or] at h1
  obtain ⟨v, hv, hx⟩ := List.any_eq_true.1 (List.all_eq_true.1 h1 a ha)
  obtain ⟨p, hpp, hpo⟩ := hp v hv
  refine .inr (List.mem_flatMap.2 ⟨p, hpp, mem_given.2 ⟨v, hpo, hv, ?_⟩⟩)
  split at hx
  · rename_i x e; exact ⟨x, e, of_decide_eq_true hx⟩
  · cases hx

/-- The provider file of the examples (with Richards' method), without diversions. -/
def wholeModel : List Comp :=
  [.tf_meteorology, .tf_channels_kin_wave, .tf_snow_degree_day, .tf_satzone_darcy_layers,
   .tf_evap_priestley_taylor, .tf_infil_richards_1d, .tf_ice_gc2d, .topoflow_driver]

/-- Groundwater is switched off, as in the CFG files of the examples; everything else is on. -/
def dryGround (c : Comp) : Bool := decide (c = .tf_satzone_darcy_layers)

/-- The degree-day snow component after the meteorology. -/
example : initOne (shipped (fun _ => false) true) .tf_snow_degree_day
    (received [.tf_meteorology] .tf_snow_degree_day) = .ok () :=
  C222_others_start_partial (by decide) _ _ (by decide +kernel)

/-- Boolean form of `Found`. -/
theorem found_of {su : Setup} {pre : List Comp} {c : Comp} {a : Name}
    (h : a ∈ su.extra c ++ received pre c) : Found su pre c a := by
  rcases List.mem_append.1 h with h | h
  · exact .inl h
  · obtain ⟨p, hp, hg⟩ := List.mem_flatMap.1 h
    exact .inr ⟨p, hp, mem_given.1 hg⟩

/-- Boolean form of `AllFound`. -/
def allFoundB (su : Setup) : List Comp → List Comp → Bool
  | _, [] => true
  | pre, c :: post => (su.off c || (reads (su.fromFile c) c).all fun a =>
      (su.extra c ++ received pre c).elem a) && allFoundB su (pre ++ [c]) post

theorem allFoundB_sound (su : Setup) : ∀ (rest pre0 : List Comp),
    allFoundB su pre0 rest = true → ∀ pre c post, rest = pre ++ c :: post → su.off c = false →
    ∀ a ∈ reads (su.fromFile c) c, Found su (pre0 ++ pre) c a
  | [], _, _, pre, c, post, he, _, _, _ => by simp at he
  | d :: rest, pre0, hb, pre, c, post, he, ho, a, ha => by
    rw [allFoundB, Bool.and_eq_true] at hb
    cases pre with
    | nil =>
      simp only [List.nil_append, List.cons.injEq] at he
      obtain ⟨rfl, rfl⟩ := he
      rw [ho, Bool.false_or] at hb
      rw [List.append_nil]
      exact found_of (List.mem_of_elem_eq_true (List.all_eq_true.1 hb.1 a ha))
    | cons e pre =>
      simp only [List.cons_append, List.cons.injEq] at he
      obtain ⟨rfl, rfl⟩ := he
      have := allFoundB_sound su _ _ hb.2 pre c post rfl ho a ha
      simpa using this

/-- CFG files in which the missing entries have been added by hand. -/
def patched : Setup where
  off := fun _ => false
  scalarP := true
  extra := fun c => if c = .tf_infil_smith_parlange then [.own "dz", .own "q", .own "Ks_list"]
    else if c = .tf_diversions_fraction_method then [.own "dx", .own "dy"]
    else if c = .tf_satzone_darcy_layers then
      ["GW_gs_file", "h_table_gs_file", "d_freeze_gs_file", "d_thaw_gs_file", "GW_ts_file",
       "h_table_ts_file", "d_freeze_ts_file", "d_thaw_ts_file", "SAVE_GW_GRIDS",
       "SAVE_GW_PIXELS"].map .own
    else []
  fromFile := fun c => if c = .tf_infil_smith_parlange then ["Ks"]
    else if c = .tf_diversions_fraction_method then ["canals"] else []

/-- The model with Smith-Parlange infiltration and a canal. -/
def patchedModel : List Comp :=
  [.tf_meteorology, .tf_diversions_fraction_method, .tf_channels_kin_wave, .tf_snow_degree_day,
   .tf_satzone_darcy_layers, .tf_evap_priestley_taylor, .tf_infil_smith_parlange, .tf_ice_gc2d,
   .topoflow_driver]

/-- It starts: the hypotheses of `C222_missing_entries` are met by a model with these components. -/
example : ∃ r, initSet patched patchedModel = .ok r := by
  refine (C222_starts_iff (by decide)).1.2 ⟨?_, ?_⟩
  · intro pre c post he ho
    have hn : Comp.tf_evap_read_file ∉ patchedModel := by decide
    refine ⟨by rintro rfl; exact hn (by simp [he]), fun a ha => ?_⟩
    simpa using allFoundB_sound patched patchedModel [] (by decide +kernel) pre c post he ho a ha
  · rintro p u v ⟨hp, -, -, -⟩
    have hne : p ≠ .erode_d8_global := by rintro rfl; revert hp; decide
    show withheld true false p v = false
    simp [withheld, hne]

/-! ## C223: the order of the provider file -/

/-- Boolean form of `InOrder`. -/
def inOrderB (off : Comp → Bool) : List Comp → List Comp → Bool
  | _, [] => true
  | pre, c :: post => (off c || (startsAfter c).all fun q => pre.any fun p => q.members.elem p) &&
      inOrderB off (pre ++ [c]) post

theorem inOrderB_sound (off : Comp → Bool) : ∀ (rest pre0 : List Comp),
    inOrderB off pre0 rest = true → ∀ pre c post, rest = pre ++ c :: post → off c = false →
    ∀ q ∈ startsAfter c, ∃ p ∈ pre0 ++ pre, p ∈ q.members
  | [], _, _, pre, c, post, he, _, _, _ => by simp at he
  | d :: rest, pre0, hb, pre, c, post, he, ho, q, hq => by
    rw [inOrderB, Bool.and_eq_true] at hb
    cases pre with
    | nil =>
      simp only [List.nil_append, List.cons.injEq] at he
      obtain ⟨rfl, rfl⟩ := he
      rw [ho, Bool.false_or] at hb
      obtain ⟨p, hp, hm⟩ := List.any_eq_true.1 (List.all_eq_true.1 hb.1 q hq)
      exact ⟨p, by simpa using hp, List.mem_of_elem_eq_true hm⟩
    | cons e pre =>
      simp only [List.cons_append, List.cons.injEq] at he
      obtain ⟨rfl, rfl⟩ := he
      obtain ⟨p, hp, hm⟩ := inOrderB_sound off _ _ hb.2 pre c post rfl ho q hq
      exact ⟨p, by simpa using hp, hm⟩

theorem inOrder_of (off : Comp → Bool) {l : List Comp} (hb : inOrderB off [] l = true) :
    InOrder off l := fun pre c post he ho q hq => by
  simpa using inOrderB_sound off l [] hb pre c post he ho q hq

/-- Nothing is withheld when all components are on and none is the eroding landscape. -/
theorem withheld_on (sp : Bool) {p : Comp} (v : Var) (hp : p ≠ .erode_d8_global) :
    withheld sp false p v = false := by
  simp [withheld, hp]

/-- **C223, the part that holds.** The lines of the provider file may be put in any order that
lists meteorology before snow, glacier, evaporation and infiltration, snow or glacier and
evaporation before infiltration, and channels before the driver, as far as these are on. -/
theorem C223_order_partial (off : Comp → Bool) (sp : Bool) {l l' : List Comp}
    (h : Comp.erode_d8_local ∉ l ∧ Comp.dem_smoother ∉ l) (hp : l'.Perm l)
    (hr : ∃ r, initSet (shipped off sp) l = .ok r) :
    (∃ r, initSet (shipped off sp) l' = .ok r) ↔ InOrder off l' := by
  have hm : ∀ c, c ∈ l' ↔ c ∈ l := fun c => hp.mem_iff
  obtain ⟨h1, -, h3⟩ := (C223_order_iff off sp h).1 hr
  rw [C223_order_iff off sp ⟨fun hh => h.1 ((hm _).1 hh), fun hh => h.2 ((hm _).1 hh)⟩]
  refine ⟨fun hh => hh.2.1, fun hi => ⟨fun c hc hl => h1 c hc ((hm c).1 hl), hi, ?_⟩⟩
  rintro p u v ⟨a, b, c, d⟩
  exact h3 p u v ⟨(hm p).1 a, (hm u).1 b, c, d⟩

theorem whole_starts (sp : Bool) : ∃ r, initSet (shipped dryGround sp) wholeModel = .ok r := by
  refine (C223_order_iff _ sp (by decide)).2 ⟨by decide, inOrder_of _ (by decide), ?_⟩
  rintro p u v ⟨hp, -, -, -⟩
  by_cases hg : p = .tf_satzone_darcy_layers
  · subst hg; simp [withheld, isChannels]
  · have : dryGround p = false := decide_eq_false hg
    rw [this]
    refine withheld_on sp v ?_
    rintro rfl
    revert hp; decide

/-- **C223 is violated**: the whole model with the line of the driver moved to the front (or that
of the snow component put before the meteorology) does not start. -/
theorem C223_violated : ∃ l l' : List Comp, l'.Perm l ∧
    (∃ r, initSet (shipped dryGround true) l = .ok r) ∧
    ¬ ∃ r, initSet (shipped dryGround true) l' = .ok r := by
  refine ⟨wholeModel, .topoflow_driver :: wholeModel.dropLast, by decide, whole_starts true, ?_⟩
  rw [C223_order_iff _ true (by decide)]
  rintro ⟨-, hi, -⟩
  obtain ⟨p, hp, -⟩ := hi [] .topoflow_driver _ rfl rfl .channels (by simp [startsAfter])
  simp at hp

/-- The ice may come first and the groundwater last. -/
example : ∃ r, initSet (shipped dryGround true)
    [.tf_ice_gc2d, .tf_meteorology, .tf_channels_kin_wave, .topoflow_driver, .tf_snow_degree_day,
     .tf_evap_priestley_taylor, .tf_infil_richards_1d, .tf_satzone_darcy_layers] = .ok r :=
  (C223_order_partial _ true (l := wholeModel) (by decide) (by decide) (whole_starts true)).2
    (inOrder_of _ (by decide))

/-- With Green-Ampt instead of Richards' method it starts only if the infiltration is off. -/
example : ∃ r, initSet (shipped (fun c => decide (c = .tf_infil_green_ampt) || dryGround c) true)
    [.tf_meteorology, .tf_channels_kin_wave, .tf_snow_degree_day, .tf_satzone_darcy_layers,
     .tf_evap_priestley_taylor, .tf_infil_green_ampt, .tf_ice_gc2d, .topoflow_driver] = .ok r := by
  refine (C223_order_iff _ true (by decide)).2 ⟨by decide, inOrder_of _ (by decide), ?_⟩
  rintro p u v ⟨hp, -, -, -⟩
  by_cases hg : p = .tf_infil_green_ampt
  · subst hg; simp [withheld, isChannels]
  · by_cases hd : p = .tf_satzone_darcy_layers
    · subst hd; simp [withheld, isChannels]
    · have : (decide (p = Comp.tf_infil_green_ampt) || dryGround p) = false := by
        simp [dryGround, hg, hd]
      rw [this]
      refine withheld_on true v ?_
      rintro rfl
      revert hp; decide

/-! ## C219: switching processes off -/

/-- The components that can be switched off in every model: all but channels, meteorology and the
valley glacier. -/
def mayBeOff (c : Comp) : Bool :=
  !(isChannels c || decide (c = .tf_meteorology) || decide (c = .tf_ice_gc2d))

/-- The same CFG files with other components switched off. -/
def Setup.switch (su : Setup) (off : Comp → Bool) : Setup := { su with off := off }

/-- **C219, the part that holds.** In a model that starts, snow, evaporation, infiltration,
groundwater, glacier, diversions and driver may be switched off in any combination: the model still
starts. -/
theorem C219_may_be_off_partial {su : Setup} (off : Comp → Bool) {l : List Comp}
    (h : Comp.erode_d8_local ∉ l ∧ Comp.dem_smoother ∉ l)
    (hs : ∃ r, initSet su l = .ok r)
    (hmono : ∀ c ∈ l, su.off c = true → off c = true)
    (ho : ∀ c ∈ l, off c = true → su.off c = true ∨ mayBeOff c = true) :
    ∃ r, initSet (su.switch off) l = .ok r := by
  obtain ⟨h1, h2⟩ := (C222_starts_iff h).1.1 hs
  refine (C222_starts_iff h).1.2 ⟨?_, ?_⟩
  · intro pre c post he hof
    have hc : c ∈ l := by simp [he]
    refine h1 pre c post he ?_
    cases hx : su.off c with
    | false => rfl
    | true =>
      have := hmono c hc hx
      rw [show off c = false from hof] at this; cases this
  · rintro p u v hx
    have hw := h2 p u v hx
    show withheld su.scalarP (off p) p v = false
    cases hof : off p with
    | false =>
      have : su.off p = false := by
        cases hy : su.off p with
        | false => rfl
        | true => rw [hmono p hx.1 hy] at hof; cases hof
      rw [this] at hw; exact hw
    | true =>
      rcases ho p hx.1 hof with hy | hm
      · rw [hy] at hw; exact hw
      · simp only [mayBeOff, Bool.not_eq_true', Bool.or_eq_false_iff, decide_eq_false_iff_not] at hm
        have he : ¬ (p = .erode_d8_global ∧ v = .«land_surface__elevation») := by
          rintro ⟨rfl, rfl⟩
          simp [withheld] at hw
        simp [withheld, hm.1.1, hm.1.2, hm.2]
        tauto

/-- In a model with a driver, neither channels nor meteorology can be switched off; in a model with
meteorology, neither can the valley glacier. -/
theorem C219_must_be_on (su : Setup) {l : List Comp}
    (h : Comp.erode_d8_local ∉ l ∧ Comp.dem_smoother ∉ l) {c : Comp} (hc : c ∈ l)
    (ho : su.off c = true)
    (hk : (isChannels c = true ∧ Comp.topoflow_driver ∈ l) ∨
      (c = .tf_meteorology ∧ Comp.topoflow_driver ∈ l) ∨
      (c = .tf_ice_gc2d ∧ Comp.tf_meteorology ∈ l)) :
    ¬ ∃ r, initSet su l = .ok r := by
  intro hr
  have hw := ((C222_starts_iff h).1.1 hr).2
  rcases hk with ⟨h1, h2⟩ | ⟨rfl, h2⟩ | ⟨rfl, h2⟩
  · have hd : Var.«channel_water_x-section__domain_max_of_mean_depth» ∈ (decl c).outputs := by
      cases c <;> revert h1 <;> decide +kernel
    have hx := hw c .topoflow_driver .«channel_water_x-section__domain_max_of_mean_depth»
      ⟨hc, h2, hd, by decide +kernel⟩
    simp [withheld, ho, h1] at hx
  · have hx := hw _ .topoflow_driver .«atmosphere_water__domain_time_max_of_precipitation_leq-volume_flux»
      ⟨hc, h2, by decide +kernel, by decide +kernel⟩
    rw [ho] at hx
    revert hx; cases su.scalarP <;> decide +kernel
  · have hx := hw _ .tf_meteorology .«glacier_ice__thickness»
      ⟨hc, h2, by decide +kernel, by decide +kernel⟩
    rw [ho] at hx
    revert hx; cases su.scalarP <;> decide +kernel

/-- **C219 is violated**: there is a complete model that starts (with groundwater off) and not with
its valley glacier switched off. -/
theorem C219_violated : ∃ l : List Comp, ∃ c ∈ l,
    (∃ r, initSet (shipped dryGround true) l = .ok r) ∧
    ¬ ∃ r, initSet (shipped (fun x => decide (x = c) || dryGround x) true) l = .ok r :=
  ⟨wholeModel, .tf_ice_gc2d, by decide, whole_starts true,
    C219_must_be_on _ (by decide) (by decide) (by decide) (.inr (.inr ⟨rfl, by decide⟩))⟩

/-- Every process of the whole model but these three is off. -/
example : ∃ r, initSet (shipped mayBeOff false) wholeModel = .ok r :=
  C219_may_be_off_partial (su := shipped dryGround false) mayBeOff (by decide)
    (whole_starts false) (by decide) (fun _ _ h => .inr h)

end Start
