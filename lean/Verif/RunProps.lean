import Verif.RunModel
import Verif.BMIProps

/-!
# C244: running one component by itself
-/

set_option autoImplicit false

namespace Run

/-- **C244 is violated**: `run_model` of every component raises TypeError before anything is
initialised, whatever the arguments, because no `initialize` has a parameter `cfg_prefix`. -/
theorem C244_violated {S : Type*} (c : Cls) (m : Machine S) (hm : m.params = initParams c)
    (skip : Bool) (cfgPrefix : Option String) (nSteps : ℤ) (fuel : ℕ) (s0 : S) :
    runModel m skip cfgPrefix nSteps fuel s0 = some ⟨s0, [], some "TypeError"⟩ := by
  have hb : badKeyword m.params ["cfg_prefix", "mode"] = true := by
    rw [hm]; cases c <;> decide
  rw [runModel, if_pos hb]

/-- **C244 is violated** also if `initialize` is given that parameter: the number of steps that is
asked for has no effect on the run. -/
theorem C244_steps_argument_violated {S : Type*} (m : Machine S) (skip : Bool)
    (cfgPrefix : Option String) (n n' : ℤ) (fuel : ℕ) (s0 : S) :
    runModel m skip cfgPrefix n fuel s0 = runModel m skip cfgPrefix n' fuel s0 := rfl

section
variable {S : Type*} (m : Machine S)

/-- The state after one more pass without an exception. -/
def next (s : S) : S := (m.check (m.update s).1).1

/-- The first `n` passes, from state `s`, are made and raise no exception. -/
def Clean (n : ℕ) (s : S) : Prop :=
  ∀ k < n, m.done ((next m)^[k] s) = false ∧ (m.update ((next m)^[k] s)).2 = none ∧
    (m.check (m.update ((next m)^[k] s)).1).2 = none

theorem loop_clean (skip : Bool) : ∀ (n : ℕ) (s : S) (calls : List Call) (fuel : ℕ),
    Clean m n s →
    loop m skip (fuel + n) s calls =
      loop m skip fuel ((next m)^[n] s) (calls ++ List.replicate n .update) := by
  intro n
  induction n with
  | zero => intro s calls fuel _; simp
  | succ n ih =>
    intro s calls fuel hk
    obtain ⟨h1, h2, h3⟩ := hk 0 (by omega)
    simp only [Function.iterate_zero, id_eq] at h1 h2 h3
    have hp : pass m skip s = (next m s, none) := by
      unfold pass next
      rcases hu : m.update s with ⟨s1, o⟩
      rw [hu] at h2 h3
      simp only at h2 h3
      subst h2
      simp only
      exact Prod.ext rfl h3
    rw [show fuel + (n + 1) = (fuel + n) + 1 by omega, loop, if_neg (by rw [h1]; simp)]
    simp only [hp]
    rw [ih (next m s) _ fuel ?_]
    · simp [List.replicate_succ]
    · intro k hk'
      have := hk (k + 1) (by omega)
      simpa using this

/-- **C244, the part that holds.** With an `initialize` that takes these keywords, and if nothing
raises an exception, the component is initialised once, updated until it is done and finalised once. -/
theorem C244_run_partial (skip : Bool) (cfgPrefix : Option String) (nSteps : ℤ) (s0 s : S) (n : ℕ)
    (hp : "cfg_prefix" ∈ m.params ∧ "mode" ∈ m.params)
    (hi : m.initialize' cfgPrefix "driver" = (s, none))
    (hk : Clean m n s) (hd : m.done ((next m)^[n] s) = true) :
    ∀ fuel ≥ n, runModel m skip cfgPrefix nSteps fuel s0 =
      some ⟨(m.finalize ((next m)^[n] s)).1,
        .init :: (List.replicate n .update ++ [.finalize]),
        (m.finalize ((next m)^[n] s)).2⟩ := by
  intro fuel hf
  rw [runModel, if_neg (by simp [badKeyword, hp.1, hp.2]), hi]
  have h := loop_clean m skip n s [.init] (fuel - n) hk
  rw [show fuel - n + n = fuel by omega] at h
  simp only
  rw [h, loop.eq_def]
  dsimp only
  rw [if_pos hd]
  simp

/-- **C244**: with `SKIP_ERRORS`, an update that raises an exception is the last one, and the
component is finalised all the same; without it the exception ends the run and nothing is finalised. -/
theorem C244_errors_partial (skip : Bool) (cfgPrefix : Option String) (nSteps : ℤ) (s0 s t : S)
    (n : ℕ) {e : String} (hp : "cfg_prefix" ∈ m.params ∧ "mode" ∈ m.params)
    (hi : m.initialize' cfgPrefix "driver" = (s, none)) (hk : Clean m n s)
    (ht : (next m)^[n] s = t) (hd : m.done t = false) (hu : (m.update t).2 = some e)
    (hc : (m.check (m.failed (m.update t).1)).2 = none ∧
      m.done (m.check (m.failed (m.update t).1)).1 = true) :
    ∀ fuel ≥ n + 1, runModel m skip cfgPrefix nSteps fuel s0 = some
      (if skip then
        ⟨(m.finalize (m.check (m.failed (m.update t).1)).1).1,
          .init :: (List.replicate (n + 1) .update ++ [.finalize]),
          (m.finalize (m.check (m.failed (m.update t).1)).1).2⟩
      else ⟨(m.update t).1, .init :: List.replicate (n + 1) .update, some e⟩) := by
  intro fuel hf
  obtain ⟨f, rfl⟩ : ∃ f, fuel = f + 1 + n := ⟨fuel - 1 - n, by omega⟩
  rw [runModel, if_neg (by simp [badKeyword, hp.1, hp.2]), hi]
  rcases hx : m.update t with ⟨s1, o⟩
  rw [hx] at hu hc
  simp only at hu hc
  subst hu
  rcases hy : m.check (m.failed s1) with ⟨s2, o2⟩
  rw [hy] at hc
  simp only at hc
  obtain ⟨rfl, hc⟩ := hc
  simp only
  rw [loop_clean m skip n s [.init] (f + 1) hk, ht, loop, if_neg (by rw [hd]; simp)]
  cases skip with
  | false => simp [pass, hx, List.replicate_succ']
  | true =>
    have hp : pass m true t = (s2, none) := by simp [pass, hx, hy]
    simp only [hp]
    rw [loop.eq_def]
    dsimp only
    rw [if_pos hc]
    simp [List.replicate_succ']

end

/-- A component with 3 steps in its CFG file makes 3 updates although 5 are asked for, -/
example : (runModel (clockMachine 60 (some 3)) false (some "Test") 5 9 ((clockMachine 60 none).initialize'
    none "driver").1).map (fun e => (e.calls, e.state.time, e.raised)) =
    some ([.init, .update, .update, .update, .finalize], 180, none) := by decide +kernel

/-- and one without an entry for the number of steps makes 1. -/
example : (runModel (clockMachine 60 none) false (some "Test") 5 9 ((clockMachine 60 none).initialize'
    none "driver").1).map (fun e => (e.calls, e.state.time, e.raised)) =
    some ([.init, .update, .finalize], 60, none) := by decide +kernel

/-- The hypotheses of `C244_violated` are met by the clock with the parameters of a real component. -/
example : runModel { clockMachine 60 (some 3) with params := initParams .met } true (some "Test") 5 9
    ((clockMachine 60 none).initialize' none "driver").1 =
    some ⟨((clockMachine 60 none).initialize' none "driver").1, [], some "TypeError"⟩ :=
  C244_violated .met _ rfl _ _ _ _ _

/-- A counter that is done at 2, and fails at 1 if `bad`. -/
def counter (bad : Bool) : Machine ℕ where
  params := ["cfg_prefix", "mode"]
  initialize' := fun _ _ => (0, none)
  update := fun s => if bad && s == 1 then (7, some "ValueError") else (s + 1, none)
  check := fun s => (s, none)
  finalize := fun s => (s + 100, none)
  done := fun s => decide (2 ≤ s)
  nSteps := fun _ => none
  failed := fun s => s + 3

/-- The hypotheses of `C244_run_partial` and `C244_errors_partial` are met. -/
example : runModel (counter false) false none 5 4 0 =
    some ⟨102, [.init, .update, .update, .finalize], none⟩ :=
  C244_run_partial (counter false) false none 5 0 0 2 (by decide) rfl
    (by unfold Clean; decide) (by decide) 4 (by decide)

example : runModel (counter true) true none 5 4 0 =
    some ⟨110, [.init, .update, .update, .finalize], none⟩ :=
  C244_errors_partial (counter true) true none 5 0 0 1 1 (by decide) rfl
    (by unfold Clean; decide) rfl (by decide) rfl (by decide) 4 (by decide)

end Run
