import Verif.MultiProps
import Verif.EmeliRun

/-!
# What a component computes with in a coupled model (C165)

The model of values (`MultiModel`, part *Values*) goes through the same clocks and statuses as the framework's
run (`EmeliModel`), and every update of a component computes with the values its providers supply for
the component's own time.
-/

set_option autoImplicit false
set_option linter.unusedSectionVars false

namespace Multi
open Emeli

variable {K : Type*} [Field K] [LinearOrder K] [IsStrictOrderedRing K] {R Mm I : Type*}

/-! ## Clocks -/

/-- The state of the values and the state of the clocks belong together. -/
structure Clocks (s : VSt K R Mm I) (e : Emeli.St K) : Prop where
  time : s.time = e.time
  ctime : s.ctime = e.ctime
  cstat : s.cstat = e.cstat

theorem getRequired_clocks (env : Env K R Mm I) {cfg : Config K} {c v : String} {t : K}
    {s : VSt K R Mm I} {e e' : Emeli.St K} (h : Clocks s e)
    (he : getRequiredVar cfg c t v e = .ok e') :
    ∃ s', getRequired env cfg c t v s = .ok s' ∧ Clocks s' e' := by
  unfold getRequiredVar at he
  unfold getRequired
  cases hp : varProviders cfg v with
  | none => simp [hp] at he
  | some l =>
    rw [hp] at he
    cases l with
    | nil => simp at he
    | cons p ps =>
      dsimp only at he ⊢
      rw [h.cstat]
      split_ifs at he ⊢ with h1
      · cases he
        exact ⟨_, rfl, h.1, h.2, h.3⟩
      · cases hw : e.win v with
        | none => simp [hw] at he
        | some w =>
          rw [hw] at he
          cases he
          exact ⟨_, rfl, h.1, h.2, rfl⟩

theorem getRequireds_clocks (env : Env K R Mm I) {cfg : Config K} {c : String} {t : K} :
    ∀ (l : List String) {s : VSt K R Mm I} {e e' : Emeli.St K}, Clocks s e →
      getRequiredVars cfg c t l e = .ok e' → ∃ s', getRequireds env cfg c t l s = .ok s' ∧ Clocks s' e'
  | [], s, e, e', h, he => by cases he; exact ⟨s, rfl, h⟩
  | v :: l, s, e, e', h, he => by
    unfold getRequiredVars at he
    cases h1 : getRequiredVar cfg c t v e with
    | error x => rw [h1] at he; cases he
    | ok e1 =>
      rw [h1] at he
      obtain ⟨s1, h2, h3⟩ := getRequired_clocks env h h1
      obtain ⟨s', h4, h5⟩ := getRequireds_clocks env l h3 he
      exact ⟨s', by simp [getRequireds, h2, h4], h5⟩

theorem vUpdate_clocks (env : Env K R Mm I) {cfg : Config K} {c : String} {s : VSt K R Mm I}
    {e : Emeli.St K} (h : Clocks s e) : Clocks (vUpdate env cfg c s) (bmiUpdate cfg c e) := by
  unfold vUpdate bmiUpdate
  split_ifs
  · exact h
  · exact ⟨h.1, by simp [h.2], by simp [h.3]⟩

theorem vTiUpdate_clocks (env : Env K R Mm I) {cfg : Config K} {c : String} {s : VSt K R Mm I}
    {e e' : Emeli.St K} (h : Clocks s e) (he : tiUpdate2 cfg c e = .ok e') :
    Clocks (vTiUpdate env c s) e' := by
  unfold tiUpdate2 at he
  have h0 : Clocks (vTiUpdate env c s) e := by
    unfold vTiUpdate
    split_ifs
    · exact h
    · exact ⟨h.1, h.2, h.3⟩
  split_ifs at he
  · cases he; exact h0
  · cases h1 : tiConvert (e.ctime c) (cfg.decl c).units with
    | error x => rw [h1] at he; cases he
    | ok t2 =>
      rw [h1] at he
      cases h2 : shiftWins (varsProvided cfg c) t2 e.win with
      | error x => simp [h2, Bind.bind, Except.bind] at he
      | ok w =>
        simp only [h2, Bind.bind, Except.bind, pure, Except.pure, Except.ok.injEq] at he
        subst he
        exact ⟨h0.1, h0.2, h0.3⟩

theorem vCompStep_clocks (env : Env K R Mm I) {cfg : Config K} {c : String} {s : VSt K R Mm I}
    {e e' : Emeli.St K} (h : Clocks s e) (he : compStep cfg c e = .ok e') :
    ∃ s', vCompStep env cfg c s = .ok s' ∧ Clocks s' e' := by
  unfold compStep at he
  unfold vCompStep
  dsimp only at he ⊢
  rw [h.time, h.ctime]
  split_ifs at he ⊢ with h1 h2
  · cases h3 : getRequiredVars cfg c (convert (e.ctime c) (cfg.decl c).units) (cfg.decl c).inputs e with
    | error x => rw [h3] at he; cases he
    | ok e1 =>
      rw [h3] at he
      obtain ⟨s1, h4, h5⟩ := getRequireds_clocks env _ h h3
      rw [h4]
      exact ⟨_, rfl, vTiUpdate_clocks env (vUpdate_clocks env h5) he⟩
  · cases h3 : getRequiredVars cfg c (convert (e.ctime c) (cfg.decl c).units) (cfg.decl c).inputs e with
    | error x => rw [h3] at he; cases he
    | ok e1 =>
      rw [h3] at he
      obtain ⟨s1, h4, h5⟩ := getRequireds_clocks env _ h h3
      rw [h4]
      exact ⟨_, rfl, vTiUpdate_clocks env h5 he⟩
  · cases he
    exact ⟨s, rfl, h⟩

theorem vLoop_clocks (env : Env K R Mm I) {cfg : Config K} :
    ∀ (l : List String) {s : VSt K R Mm I} {e e' : Emeli.St K}, Clocks s e →
      compLoop cfg l e = .ok e' → ∃ s', vLoop env cfg l s = .ok s' ∧ Clocks s' e'
  | [], s, e, e', h, he => by cases he; exact ⟨s, rfl, h⟩
  | c :: l, s, e, e', h, he => by
    unfold compLoop at he
    cases h1 : compStep cfg c e with
    | error x => rw [h1] at he; cases he
    | ok e1 =>
      rw [h1] at he
      obtain ⟨s1, h2, h3⟩ := vCompStep_clocks env h h1
      obtain ⟨s', h4, h5⟩ := vLoop_clocks env l h3 he
      exact ⟨s', by simp [vLoop, h2, h4], h5⟩

theorem vStep_clocks (env : Env K R Mm I) {cfg : Config K} {dt : K} {s : VSt K R Mm I}
    {e e' : Emeli.St K} (h : Clocks s e) (he : frameworkStep cfg dt e = .ok e') :
    ∃ s', vStep env cfg dt s = .ok s' ∧ Clocks s' e' := by
  unfold frameworkStep at he
  cases h1 : compLoop cfg cfg.provs e with
  | error x => rw [h1] at he; cases he
  | ok e1 =>
    rw [h1] at he
    cases he
    obtain ⟨s1, h2, h3⟩ := vLoop_clocks env _ h h1
    refine ⟨{ s1 with time := s1.time + dt }, by simp [vStep, h2], ?_, h3.2, h3.3⟩
    show s1.time + dt = e1.time + dt
    rw [h3.1]

theorem vSteps_succ (env : Env K R Mm I) (cfg : Config K) (dt : K) (n : ℕ) (s s1 : VSt K R Mm I)
    (h : vSteps env cfg dt n s = .ok s1) : vSteps env cfg dt (n + 1) s = vStep env cfg dt s1 := by
  induction n generalizing s with
  | zero =>
    cases h
    simp only [vSteps]
    cases vStep env cfg dt s1 <;> rfl
  | succ n ih =>
    unfold vSteps at h ⊢
    cases h2 : vStep env cfg dt s with
    | error x => rw [h2] at h; cases h
    | ok s2 =>
      rw [h2] at h
      exact ih s2 h

/-- **C165 (clocks).** Whatever the components compute, a coupled model that starts with the clocks of the
framework's run has these clocks, and the statuses of the components, after any number of steps. -/
theorem C165_clocks (env : Env K R Mm I) {cfg : Config K} {dt : K} {s : VSt K R Mm I} {e e' : Emeli.St K}
    (h : Clocks s e) (n : ℕ) (he : steps cfg dt n e = .ok e') :
    ∃ s', vSteps env cfg dt n s = .ok s' ∧ s'.time = e'.time ∧ s'.ctime = e'.ctime ∧ s'.cstat = e'.cstat := by
  suffices ∃ s', vSteps env cfg dt n s = .ok s' ∧ Clocks s' e' by
    obtain ⟨s', h1, h2⟩ := this
    exact ⟨s', h1, h2.1, h2.2, h2.3⟩
  induction n generalizing e' with
  | zero => cases he; exact ⟨s, rfl, h⟩
  | succ n ih =>
    unfold steps at he
    cases h1 : steps cfg dt n e with
    | error x => rw [h1] at he; cases he
    | ok e1 =>
      rw [h1] at he
      obtain ⟨s1, h2, h3⟩ := ih h1
      obtain ⟨s', h4, h5⟩ := vStep_clocks env h3 he
      exact ⟨s', by rw [vSteps_succ env cfg dt n s s1 h2, h4], h5⟩

/-! ## Inputs -/

/-- The value that the providers supply for variable `v` at time `t`: the array of the provider itself while
the provider has made no update (or is finished), an interpolated one otherwise.  `m` is the memory
the interpolation reads. -/
inductive Supplied (env : Env K R Mm I) (cfg : Config K) (s : VSt K R Mm I) (t : K) (v : String) : R → Prop
  | current (p : String) (ps : List String) (hp : varProviders cfg v = some (p :: ps))
      (hs : s.cstat p = "initialized" ∨ s.cstat p = "finalized") : Supplied env cfg s t v (s.attr p v)
  | interpolated (p : String) (ps : List String) (m : Mm) (hp : varProviders cfg v = some (p :: ps))
      (h1 : s.cstat p ≠ "initialized") (h2 : s.cstat p ≠ "finalized") :
      Supplied env cfg s t v (env.interp s.ti v t m).1

/-- Nothing but variables of `user` and the memory differs. -/
structure Frame (user : String) (s s' : VSt K R Mm I) : Prop where
  time : s'.time = s.time
  ctime : s'.ctime = s.ctime
  cstat : s'.cstat = s.cstat
  ti : s'.ti = s.ti
  attr : ∀ c, c ≠ user → s'.attr c = s.attr c

theorem setAttr_frame (s : VSt K R Mm I) (c v : String) (r : R) : Frame c s (setAttr s c v r) :=
  ⟨rfl, rfl, rfl, rfl, fun c' h => by simp [setAttr, h]⟩

theorem setAttr_self (s : VSt K R Mm I) (c v : String) (r : R) (w : String) :
    (setAttr s c v r).attr c w = if w = v then r else s.attr c w := by
  simp [setAttr, Function.update_apply]

theorem getRequireds_spec (env : Env K R Mm I) {cfg : Config K} {c : String} {t : K} :
    ∀ (l : List String) {s0 s s' : VSt K R Mm I} (done : List String), Frame c s0 s →
      (∀ v ∈ done, Supplied env cfg s0 t v (s.attr c v)) → (∀ v ∉ done, s.attr c v = s0.attr c v) →
      getRequireds env cfg c t l s = .ok s' →
      Frame c s0 s' ∧ (∀ v ∈ done ++ l, Supplied env cfg s0 t v (s'.attr c v)) ∧
        (∀ v ∉ done ++ l, s'.attr c v = s0.attr c v)
  | [], s0, s, s', done, hf, hd, hn, h => by
    cases h
    exact ⟨hf, by simpa using hd, by simpa using hn⟩
  | v :: l, s0, s, s', done, hf, hd, hn, h => by
    unfold getRequireds at h
    cases h1 : getRequired env cfg c t v s with
    | error x => rw [h1] at h; cases h
    | ok s1 =>
      rw [h1] at h
      dsimp only at h
      have key : Frame c s0 s1 ∧ Supplied env cfg s0 t v (s1.attr c v) ∧
          ∀ w, w ≠ v → s1.attr c w = s.attr c w := by
        unfold getRequired at h1
        cases hp : varProviders cfg v with
        | none => simp [hp] at h1
        | some ps =>
          rw [hp] at h1
          cases ps with
          | nil => simp at h1
          | cons p ps =>
            dsimp only at h1
            have hst := congrFun hf.cstat p
            split_ifs at h1 with h2
            · cases h1
              refine ⟨?_, ?_, fun w hw => by rw [setAttr_self, if_neg hw]⟩
              · have := setAttr_frame s c v (s.attr p v)
                exact ⟨this.1.trans hf.1, this.2.trans hf.2, this.3.trans hf.3, this.4.trans hf.4,
                  fun c' h' => (this.5 c' h').trans (hf.5 c' h')⟩
              · rw [setAttr_self, if_pos rfl]
                rw [hst] at h2
                by_cases hpc : p = c
                · subst hpc
                  by_cases hv : v ∈ done
                  · exact hd v hv
                  · rw [hn v hv]
                    exact .current p ps hp h2
                · rw [hf.attr p hpc]
                  exact .current p ps hp h2
            · cases h1
              rw [not_or, hst] at h2
              refine ⟨?_, ?_, fun w hw => by rw [setAttr_self, if_neg hw]⟩
              · have := setAttr_frame { s with mem := (env.interp s.ti v t s.mem).2 } c v
                  (env.interp s.ti v t s.mem).1
                exact ⟨this.1.trans hf.1, this.2.trans hf.2, this.3.trans hf.3, this.4.trans hf.4,
                  fun c' h' => (this.5 c' h').trans (hf.5 c' h')⟩
              · rw [setAttr_self, if_pos rfl, hf.ti]
                exact .interpolated p ps s.mem hp h2.1 h2.2
      obtain ⟨k1, k2, k3⟩ := key
      have := getRequireds_spec env l (s0 := s0) (done ++ [v]) k1
        (by
          intro w hw
          rw [List.mem_append, List.mem_singleton] at hw
          by_cases hwv : w = v
          · subst hwv; exact k2
          · rw [k3 w hwv]
            exact hd w (hw.resolve_right hwv))
        (by
          intro w hw
          rw [List.mem_append, List.mem_singleton, not_or] at hw
          rw [k3 w hw.2, hn w hw.1]) h
      simpa [List.append_assoc] using this

/-- **C165 (inputs).** In a step of the framework a component whose clock is behind the framework's is
updated (if it is enabled) with exactly the values that the providers of its input variables supply for the
component's own time, and with its own values of all other variables; afterwards its clock has advanced by
its time step and the interpolator has seen its new values.  No value, clock or status of another component
changes. -/
theorem C165_inputs (env : Env K R Mm I) {cfg : Config K} {c : String} {s s' : VSt K R Mm I}
    (he : (cfg.decl c).status = "Enabled") (ht : convert (s.ctime c) (cfg.decl c).units < s.time)
    (h : vCompStep env cfg c s = .ok s') :
    ∃ (x : String → R) (m : Mm),
      (∀ v ∈ (cfg.decl c).inputs, Supplied env cfg s (convert (s.ctime c) (cfg.decl c).units) v (x v)) ∧
      (∀ v ∉ (cfg.decl c).inputs, x v = s.attr c v) ∧
      s'.attr c = (env.phys c (s.ctime c) x m).1 ∧
      s'.ctime c = s.ctime c + (cfg.decl c).dt ∧ s'.cstat c = "updated" ∧
      (s'.ti, s'.mem) = env.tiUpd c (s'.ctime c) (s'.attr c) (env.phys c (s.ctime c) x m).2 s.ti ∧
      s'.time = s.time ∧
      ∀ c', c' ≠ c → s'.attr c' = s.attr c' ∧ s'.ctime c' = s.ctime c' ∧ s'.cstat c' = s.cstat c' := by
  unfold vCompStep at h
  dsimp only at h
  rw [if_pos ht] at h
  cases h1 : getRequireds env cfg c (convert (s.ctime c) (cfg.decl c).units) (cfg.decl c).inputs s with
  | error x => rw [h1] at h; cases h
  | ok s1 =>
    rw [h1] at h
    dsimp only at h
    rw [if_pos he] at h
    obtain ⟨hf, h2, h3⟩ := getRequireds_spec env (cfg.decl c).inputs (s0 := s) []
      ⟨rfl, rfl, rfl, rfl, fun _ _ => rfl⟩ (by simp) (by simp) h1
    rw [List.nil_append] at h2 h3
    have hdis : isDisabled (cfg.decl c).status = false := enabled_not_disabled he
    have hup : vUpdate env cfg c s1 =
        { s1 with
          attr := Function.update s1.attr c (env.phys c (s1.ctime c) (s1.attr c) s1.mem).1
          mem := (env.phys c (s1.ctime c) (s1.attr c) s1.mem).2
          ctime := Function.update s1.ctime c (s1.ctime c + (cfg.decl c).dt)
          cstat := Function.update s1.cstat c "updated" } := by
      unfold vUpdate
      simp [hdis]
    rw [hup] at h
    unfold vTiUpdate at h
    simp only [Function.update_self] at h
    rw [if_neg (by decide)] at h
    cases h
    refine ⟨s1.attr c, s1.mem, h2, h3, ?_⟩
    simp only [Function.update_self, hf.ctime, hf.ti, hf.time, hf.cstat, true_and]
    intro c' hc'
    simp [hc', hf.attr c' hc']

/-- **C165 (others).** A component that is ahead of the framework's clock changes nothing; one that is not
enabled only gets its inputs. -/
theorem C165_not_updated (env : Env K R Mm I) {cfg : Config K} {c : String} {s s' : VSt K R Mm I}
    (h : vCompStep env cfg c s = .ok s') :
    (s.time ≤ convert (s.ctime c) (cfg.decl c).units → s' = s) ∧
    ((cfg.decl c).status ≠ "Enabled" → s'.ctime = s.ctime ∧ s'.cstat = s.cstat ∧
      (∀ v ∉ (cfg.decl c).inputs, s'.attr c v = s.attr c v) ∧ ∀ c', c' ≠ c → s'.attr c' = s.attr c') := by
  unfold vCompStep at h
  dsimp only at h
  constructor
  · intro ht
    rw [if_neg (not_lt.2 ht)] at h
    cases h; rfl
  · intro he
    split_ifs at h
    · cases h1 : getRequireds env cfg c (convert (s.ctime c) (cfg.decl c).units) (cfg.decl c).inputs s with
      | error x => rw [h1] at h; cases h
      | ok s1 =>
        rw [h1] at h
        cases h
        obtain ⟨hf, h2, h3⟩ := getRequireds_spec env (cfg.decl c).inputs (s0 := s) []
          ⟨rfl, rfl, rfl, rfl, fun _ _ => rfl⟩ (by simp) (by simp) h1
        have hv : (vTiUpdate env c s1).ctime = s1.ctime ∧ (vTiUpdate env c s1).cstat = s1.cstat ∧
            (vTiUpdate env c s1).attr = s1.attr := by
          unfold vTiUpdate
          split_ifs <;> exact ⟨rfl, rfl, rfl⟩
        rw [hv.1, hv.2.1, hv.2.2]
        exact ⟨hf.ctime, hf.cstat, fun v hv => h3 v (by simpa using hv), hf.attr⟩
    · cases h
      exact ⟨rfl, rfl, fun _ _ => rfl, fun _ _ => rfl⟩

/-- In the two-component model of `MultiProps` the channels are behind the framework's clock and get the
interpolated rain. -/
example : (demoVals.decl "channels").status = "Enabled" ∧
    convert (demoState.ctime "channels") (demoVals.decl "channels").units < demoState.time ∧
    ∃ s', vCompStep demoEnv demoVals "channels" demoState = .ok s' ∧ s'.attr "channels" "Q" = 5 ∧
      s'.ctime "channels" = 1 ∧ s'.ctime "met" = 0 := by
  refine ⟨by decide +kernel, by decide +kernel, ?_⟩
  have h : (match vCompStep demoEnv demoVals "channels" demoState with
      | .ok a => some (a.attr "channels" "Q", a.ctime "channels", a.ctime "met")
      | _ => none) = some (5, 1, 0) := by decide +kernel
  cases h1 : vCompStep demoEnv demoVals "channels" demoState with
  | error e => rw [h1] at h; cases h
  | ok a =>
    rw [h1] at h
    simp only [Option.some.injEq, Prod.mk.injEq] at h
    exact ⟨a, rfl, h⟩

end Multi
