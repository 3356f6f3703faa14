import Verif.MultiModel
import Verif.EmeliProps
import Verif.RepoProps
import Mathlib.Tactic.FieldSimp

/-!
# The coupled model behind one BMI: C99 - C102
-/

set_option autoImplicit false
set_option linter.unusedSectionVars false

namespace Multi

open Emeli EmeliSpec

/-! ## Advancing (C99, C100) -/

section step

variable {K : Type*} [Field K] [LinearOrder K] [IsStrictOrderedRing K] [FloorRing K]

/-- The object is in the state of the framework's own run after `n` passes of its time loop, and
its time step is the framework's. -/
def After (cfg : Config K) (n : ℕ) (m : M K) : Prop :=
  runModel cfg n = .ok (some m.st) ∧ frameworkDt cfg = .ok m.dt

theorem after_start {cfg : Config K} {m : M K} (h : start cfg = .ok (some m)) :
    After cfg 0 m := by
  unfold start at h
  split_ifs at h with hck
  · simp only [bind_ok, pure, Except.pure, Except.ok.injEq, Option.some.injEq] at h
    obtain ⟨fdt, h1, s, h2, rfl⟩ := h
    refine ⟨?_, h1⟩
    unfold runModel
    rw [if_pos hck]
    simp only [bind_ok, pure, Except.pure, Except.ok.injEq, Option.some.injEq]
    exact ⟨fdt, h1, s, h2, s, rfl, rfl⟩
  · cases h

theorem runModel_of {cfg : Config K} {n : ℕ} {fdt : K} {s0 s : St K}
    (hck : checkUsersProviders cfg = true) (h1 : frameworkDt cfg = .ok fdt)
    (h2 : tiInit cfg cfg.provs initSt = .ok s0) (h3 : steps cfg fdt n s0 = .ok s) :
    runModel cfg n = .ok (some s) := by
  unfold runModel
  rw [if_pos hck]
  simp only [bind_ok, pure, Except.pure, Except.ok.injEq, Option.some.injEq]
  exact ⟨fdt, h1, s0, h2, s, h3, rfl⟩

theorem after_update {cfg : Config K} {n : ℕ} {m m' : M K} (h : After cfg n m)
    (hu : update cfg m = .ok m') : After cfg (n + 1) m' := by
  obtain ⟨hr, hd⟩ := h
  unfold update at hu
  simp only [bind_ok, pure, Except.pure, Except.ok.injEq] at hu
  obtain ⟨s, h1, rfl⟩ := hu
  obtain ⟨hck, fdt, s0, e1, e2, e3⟩ := runModel_some hr
  rw [hd] at e1; injection e1 with e; subst e
  refine ⟨runModel_of hck hd e2 ?_, hd⟩
  rw [steps, bind_ok]
  exact ⟨_, e3, h1⟩

theorem after_timeStep {cfg : Config K} {n : ℕ} {m : M K} (h : After cfg n m) (x : Option K) :
    After cfg n { m with timeStep := x } := h

/-- **C100.** A fractional update does what a full update does to the model, whatever the
fraction. -/
theorem C100_fraction_ignored (cfg : Config K) (f : K) (m : M K) :
    (updateFrac cfg f m).map M.st = (update cfg m).map M.st := by
  unfold updateFrac update
  cases h : frameworkStep cfg m.dt m.st with
  | error e => simp [h, bind, Except.bind, Except.map]
  | ok s => simp [h, bind, Except.bind, Except.map, pure, Except.pure]

theorem after_frac {cfg : Config K} {n : ℕ} {m m' : M K} (f : K) (h : After cfg n m)
    (hu : updateFrac cfg f m = .ok m') : After cfg (n + 1) m' := by
  unfold updateFrac at hu
  simp only [bind_ok, pure, Except.pure, Except.ok.injEq] at hu
  obtain ⟨m1, h1, rfl⟩ := hu
  exact after_timeStep (after_update (after_timeStep h _) h1) _

theorem after_updateN {cfg : Config K} : ∀ (k : ℕ) {n : ℕ} {m m' : M K}, After cfg n m →
    updateN cfg k m = .ok m' → After cfg (n + k) m'
  | 0, n, m, m', h, hu => by
    simp only [updateN, Except.ok.injEq] at hu; subst hu; exact h
  | k + 1, n, m, m', h, hu => by
    rw [updateN, bind_ok] at hu
    obtain ⟨m1, h1, h2⟩ := hu
    have := after_updateN k (after_update h h1) h2
    rwa [show n + (k + 1) = n + 1 + k by omega]

/-- The number of passes made by `update_until`: the whole steps that fit, and one more. -/
theorem after_until {cfg : Config K} {n : ℕ} {m m' : M K} {later : K} (h : After cfg n m)
    (hu : updateUntil cfg later m = .ok m') :
    m.dt ≠ 0 ∧ After cfg (n + (BMI.pyInt ((later - m.st.time) / m.dt)).toNat + 1) m' := by
  unfold updateUntil at hu
  split_ifs at hu with h0
  rw [bind_ok] at hu
  obtain ⟨m1, h1, h2⟩ := hu
  exact ⟨h0, after_frac _ (after_updateN _ h h1) h2⟩

theorem after_call {cfg : Config K} {n : ℕ} {m m' : M K} (c : Call K) (h : After cfg n m)
    (hu : call cfg c m = .ok m') : ∃ k, After cfg (n + k + 1) m' := by
  cases c with
  | update => exact ⟨0, after_update h hu⟩
  | frac f => exact ⟨0, after_frac f h hu⟩
  | «until» t => exact ⟨_, (after_until h hu).2⟩

/-- **C100.** For every sequence of calls that advance the model (whole updates, fractional
updates, updates until a time, in any order and number): the model is in a state of the
framework's own run, after at least as many passes as there were calls.  So every statement about
all states of that run (clocks, update counts, interpolation windows) holds here too. -/
theorem C100_history_is_a_run {cfg : Config K} {m0 : M K} (h0 : start cfg = .ok (some m0)) :
    ∀ (cs : List (Call K)) {m : M K}, calls cfg cs m0 = .ok m →
      ∃ n, cs.length ≤ n ∧ After cfg n m := by
  have key : ∀ (cs : List (Call K)) (n : ℕ) (m1 m : M K), After cfg n m1 →
      calls cfg cs m1 = .ok m → ∃ k, cs.length ≤ k ∧ After cfg (n + k) m := by
    intro cs
    induction cs with
    | nil =>
      intro n m1 m h hu
      simp only [calls, Except.ok.injEq] at hu; subst hu; exact ⟨0, le_refl _, h⟩
    | cons c cs ih =>
      intro n m1 m h hu
      rw [calls, bind_ok] at hu
      obtain ⟨m2, h2, h3⟩ := hu
      obtain ⟨k, hk⟩ := after_call c h h2
      obtain ⟨j, hj, hm⟩ := ih _ _ _ hk h3
      refine ⟨k + 1 + j, by simp only [List.length_cons]; omega, ?_⟩
      rwa [show n + (k + 1 + j) = n + k + 1 + j by omega]
  intro cs m hu
  obtain ⟨k, hk, h⟩ := key cs 0 m0 m (after_start h0) hu
  exact ⟨k, hk, by simpa using h⟩

theorem after_time {cfg : Config K} (hg : WellFormed cfg) {n : ℕ} {m : M K}
    (h : After cfg n m) : m.st.time = n * m.dt ∧ 0 < m.dt := by
  obtain ⟨fdt, hf, hr⟩ := runInv_of_run hg h.1
  rw [h.2] at hf; injection hf with e; subst e
  exact ⟨hr.time, fdt_pos (good_of hg) h.2⟩

/-- The time reported after any calls is a whole number of framework time steps. -/
theorem C100_time_on_grid {cfg : Config K} (hg : WellFormed cfg) {m0 m : M K}
    (h0 : start cfg = .ok (some m0)) {cs : List (Call K)} (h : calls cfg cs m0 = .ok m) :
    m.dt = m0.dt ∧ ∃ n : ℕ, cs.length ≤ n ∧ m.st.time = n * m0.dt := by
  obtain ⟨n, hn, ha⟩ := C100_history_is_a_run h0 cs h
  have e : m.dt = m0.dt := by
    have := (after_start h0).2
    rw [ha.2] at this; injection this
  exact ⟨e, n, hn, by rw [(after_time hg ha).1, e]⟩

theorem update_error {cfg : Config K} {n : ℕ} {m : M K} {e : String} (h : After cfg n m)
    (hu : update cfg m = .error e) : runModel cfg (n + 1) = .error e := by
  obtain ⟨hck, fdt, s0, e1, e2, e3⟩ := runModel_some h.1
  have hd := h.2
  rw [e1] at hd; injection hd with hd; subst hd
  have hs : frameworkStep cfg m.dt m.st = .error e := by
    unfold update at hu
    cases hf : frameworkStep cfg m.dt m.st with
    | ok s => rw [hf] at hu; cases hu
    | error e' => rw [hf] at hu; injection hu with hu; subst hu; rfl
  unfold runModel
  rw [if_pos hck, e1]
  simp only [bind, Except.bind]
  rw [e2]
  simp only [steps, bind, Except.bind, e3, hs]

theorem frac_error {cfg : Config K} {n : ℕ} {m : M K} {e : String} (f : K) (h : After cfg n m)
    (hu : updateFrac cfg f m = .error e) : runModel cfg (n + 1) = .error e := by
  refine update_error (after_timeStep h (some (f * m.dt))) ?_
  unfold updateFrac at hu
  cases hf : update cfg { m with timeStep := some (f * m.dt) } with
  | ok s => simp only [hf, bind, Except.bind, pure, Except.pure] at hu; cases hu
  | error e' => simp only [hf, bind, Except.bind] at hu; injection hu with hu; rw [hu]

theorem updateN_error {cfg : Config K} : ∀ (k : ℕ) {n : ℕ} {m : M K} {e : String}, After cfg n m →
    updateN cfg k m = .error e → ∃ j, runModel cfg j = .error e
  | 0, n, m, e, h, hu => by cases hu
  | k + 1, n, m, e, h, hu => by
    rw [updateN] at hu
    cases h1 : update cfg m with
    | error e' =>
      simp only [h1, bind, Except.bind] at hu; injection hu with hu; subst hu
      exact ⟨_, update_error h h1⟩
    | ok m1 =>
      simp only [h1, bind, Except.bind] at hu
      exact updateN_error k (after_update h h1) hu

/-- **C100.** A call raises only where the framework's own run raises, with the same error. -/
theorem C100_raises_only_as_run {cfg : Config K} (hg : WellFormed cfg) {m0 : M K}
    (h0 : start cfg = .ok (some m0)) (cs : List (Call K)) {e : String}
    (h : calls cfg cs m0 = .error e) : ∃ n, runModel cfg n = .error e := by
  have key : ∀ (cs : List (Call K)) (n : ℕ) (m : M K), After cfg n m →
      calls cfg cs m = .error e → ∃ j, runModel cfg j = .error e := by
    intro cs
    induction cs with
    | nil => intro n m _ hu; cases hu
    | cons c cs ih =>
      intro n m ha hu
      rw [calls] at hu
      cases h1 : call cfg c m with
      | ok m1 =>
        simp only [h1, bind, Except.bind] at hu
        obtain ⟨k, hk⟩ := after_call c ha h1
        exact ih _ _ hk hu
      | error e' =>
        simp only [h1, bind, Except.bind] at hu
        injection hu with hu; subst hu
        cases c with
        | update => exact ⟨_, update_error ha h1⟩
        | frac f => exact ⟨_, frac_error f ha h1⟩
        | «until» t =>
          simp only [call, updateUntil] at h1
          rw [if_neg (after_time hg ha).2.ne'] at h1
          cases h2 : updateN cfg (BMI.pyInt ((t - m.st.time) / m.dt)).toNat m with
          | error e2 =>
            simp only [h2, bind, Except.bind] at h1
            injection h1 with h1; subst h1
            exact updateN_error _ ha h2
          | ok m1 =>
            simp only [h2, bind, Except.bind] at h1
            exact ⟨_, frac_error _ (after_updateN _ ha h2) h1⟩
  exact key cs 0 m0 (after_start h0) h

/-- No sequence of calls raises, under the conditions of `C14_run_never_raises`. -/
theorem C100_calls_never_raise {cfg : Config K} (hg : WellFormed cfg)
    (hp : ∀ u ∈ cfg.provs, ∀ v ∈ (cfg.decl u).inputs, v ≠ "" ∧ ListedOnce cfg v)
    (hu : ∀ c ∈ cfg.provs, (cfg.decl c).units ∉ ["hours", "h"]) (hne : cfg.provs ≠ []) :
    ∃ m0, start cfg = .ok (some m0) ∧
      ∀ cs : List (Call K), ∃ m, calls cfg cs m0 = .ok m := by
  have hrun := C14_run_never_raises hg hne hp hu
  obtain ⟨s, hs⟩ := hrun 0
  obtain ⟨hck, fdt, s0, e1, e2, e3⟩ := runModel_some hs
  have hstart : start cfg = .ok (some ⟨s0, fdt, none⟩) := by
    unfold start
    rw [if_pos hck]
    simp only [bind_ok, pure, Except.pure, Except.ok.injEq]
    exact ⟨fdt, e1, s0, e2, rfl⟩
  have hupd : ∀ {n : ℕ} {m : M K}, After cfg n m → ∃ m', update cfg m = .ok m' := by
    intro n m h
    obtain ⟨s', hs'⟩ := hrun (n + 1)
    obtain ⟨_, f', t0, k1, k2, k3⟩ := runModel_some hs'
    obtain ⟨_, f2, t2, j1, j2, j3⟩ := runModel_some h.1
    rw [j1] at k1; injection k1 with e; subst e
    rw [j2] at k2; injection k2 with e; subst e
    have := h.2
    rw [j1] at this; injection this with e; subst e
    rw [steps, bind_ok] at k3
    obtain ⟨s1, a1, a2⟩ := k3
    rw [j3] at a1; injection a1 with e; subst e
    exact ⟨{ m with st := s' }, by unfold update; rw [a2]; rfl⟩
  have hfrac : ∀ {n : ℕ} {m : M K} (f : K), After cfg n m → ∃ m', updateFrac cfg f m = .ok m' := by
    intro n m f h
    obtain ⟨m', hm'⟩ := hupd (after_timeStep h (some (f * m.dt)))
    exact ⟨_, by unfold updateFrac; simp only [hm']; rfl⟩
  have hN : ∀ (k : ℕ) {n : ℕ} {m : M K}, After cfg n m → ∃ m', updateN cfg k m = .ok m' := by
    intro k
    induction k with
    | zero => intro n m h; exact ⟨m, rfl⟩
    | succ k ih =>
      intro n m h
      obtain ⟨m1, h1⟩ := hupd h
      obtain ⟨m2, h2⟩ := ih (after_update h h1)
      exact ⟨m2, by rw [updateN, bind_ok]; exact ⟨m1, h1, h2⟩⟩
  have hcall : ∀ (c : Call K) {n : ℕ} {m : M K}, After cfg n m → ∃ m', call cfg c m = .ok m' := by
    intro c n m h
    cases c with
    | update => exact hupd h
    | frac f => exact hfrac f h
    | «until» t =>
      show ∃ m', updateUntil cfg t m = .ok m'
      unfold updateUntil
      rw [if_neg (after_time hg h).2.ne']
      obtain ⟨m1, h1⟩ := hN (BMI.pyInt ((t - m.st.time) / m.dt)).toNat h
      obtain ⟨m2, h2⟩ := hfrac ((t - m.st.time) / m.dt - BMI.pyInt ((t - m.st.time) / m.dt))
        (after_updateN _ h h1)
      exact ⟨m2, by rw [bind_ok]; exact ⟨m1, h1, h2⟩⟩
  refine ⟨_, hstart, ?_⟩
  have key : ∀ (cs : List (Call K)) (n : ℕ) (m : M K), After cfg n m →
      ∃ m', calls cfg cs m = .ok m' := by
    intro cs
    induction cs with
    | nil => intro n m _; exact ⟨m, rfl⟩
    | cons c cs ih =>
      intro n m h
      obtain ⟨m1, h1⟩ := hcall c h
      obtain ⟨k, hk⟩ := after_call c h h1
      obtain ⟨m2, h2⟩ := ih _ _ hk
      exact ⟨m2, by rw [calls, bind_ok]; exact ⟨m1, h1, h2⟩⟩
  exact fun cs => key cs 0 _ (after_start hstart)

/-- **C99, violated for every target.** After any calls, a request to advance to a time that is
not in the past ends later than that time, by at most one framework time step. -/
theorem C99_until_overshoots {cfg : Config K} (hg : WellFormed cfg) {m0 m m' : M K}
    (h0 : start cfg = .ok (some m0)) {cs : List (Call K)} (h : calls cfg cs m0 = .ok m)
    {later : K} (hl : m.st.time ≤ later) (hu : updateUntil cfg later m = .ok m') :
    later < m'.st.time ∧ m'.st.time ≤ later + m.dt := by
  obtain ⟨n, -, ha⟩ := C100_history_is_a_run h0 cs h
  obtain ⟨ht, hd⟩ := after_time hg ha
  obtain ⟨-, ha'⟩ := after_until ha hu
  have ht' := (after_time hg ha').1
  have e : m'.dt = m.dt := by have := ha'.2; rw [ha.2] at this; injection this with e; exact e.symm
  rw [e] at ht'
  set x := (later - m.st.time) / m.dt with hx
  have hx0 : 0 ≤ x := div_nonneg (by linarith) hd.le
  have hl' : later = m.st.time + x * m.dt := by rw [hx]; field_simp; ring
  have hp : BMI.pyInt x = ⌊x⌋ := by unfold BMI.pyInt; rw [if_neg (not_lt.2 hx0)]
  have hcast : (((BMI.pyInt x).toNat : ℕ) : K) = (⌊x⌋ : K) := by
    rw [hp]
    have : ((⌊x⌋.toNat : ℕ) : ℤ) = ⌊x⌋ := Int.toNat_of_nonneg (Int.floor_nonneg.2 hx0)
    exact_mod_cast congrArg (Int.cast : ℤ → K) this
  have h1 := Int.floor_le x
  have h2 := Int.lt_floor_add_one x
  have hval : m'.st.time = m.st.time + ((⌊x⌋ : K) + 1) * m.dt := by
    rw [ht', ht]; push_cast; rw [hcast]; ring
  rw [hval, hl']
  constructor
  · have : x * m.dt < ((⌊x⌋ : K) + 1) * m.dt := mul_lt_mul_of_pos_right h2 hd
    linarith
  · have : ((⌊x⌋ : K) + 1) * m.dt ≤ (x + 1) * m.dt :=
      mul_le_mul_of_nonneg_right (by linarith) hd.le
    linarith

/-- A target in the past still advances the model by one step. -/
theorem C99_past_target_advances {cfg : Config K} (hg : WellFormed cfg) {m0 m m' : M K}
    (h0 : start cfg = .ok (some m0)) {cs : List (Call K)} (h : calls cfg cs m0 = .ok m)
    {later : K} (hl : later < m.st.time) (hu : updateUntil cfg later m = .ok m') :
    m'.st.time = m.st.time + m.dt := by
  obtain ⟨n, -, ha⟩ := C100_history_is_a_run h0 cs h
  obtain ⟨ht, hd⟩ := after_time hg ha
  obtain ⟨-, ha'⟩ := after_until ha hu
  have ht' := (after_time hg ha').1
  have e : m'.dt = m.dt := by have := ha'.2; rw [ha.2] at this; injection this with e; exact e.symm
  have hx0 : (later - m.st.time) / m.dt < 0 := div_neg_of_neg_of_pos (by linarith) hd
  have : (BMI.pyInt ((later - m.st.time) / m.dt)).toNat = 0 := by
    rw [Int.toNat_eq_zero]
    unfold BMI.pyInt; rw [if_pos hx0]
    exact Int.ceil_le.2 (by simpa using hx0.le)
  rw [this, e] at ht'
  rw [ht', ht]; push_cast; ring

/-- What remains true of C99: the target is reached, and overshot by at most one step. -/
theorem C99_reaches_target_partial {cfg : Config K} (hg : WellFormed cfg) {m0 m m' : M K}
    (h0 : start cfg = .ok (some m0)) {cs : List (Call K)} (h : calls cfg cs m0 = .ok m)
    {later : K} (hl : m.st.time ≤ later) (hu : updateUntil cfg later m = .ok m') :
    later ≤ m'.st.time ∧ m'.st.time ≤ later + m.dt ∧
      ∃ k : ℕ, m'.st.time = m.st.time + (k + 1) * m.dt := by
  obtain ⟨n, -, ha⟩ := C100_history_is_a_run h0 cs h
  obtain ⟨ht, hd⟩ := after_time hg ha
  obtain ⟨-, ha'⟩ := after_until ha hu
  have ht' := (after_time hg ha').1
  have e : m'.dt = m.dt := by have := ha'.2; rw [ha.2] at this; injection this with e; exact e.symm
  obtain ⟨h1, h2⟩ := C99_until_overshoots hg h0 h hl hu
  refine ⟨h1.le, h2, (BMI.pyInt ((later - m.st.time) / m.dt)).toNat, ?_⟩
  · rw [ht', e, ht]; push_cast; ring

/-- The demonstration model of `EmeliProps` can be started and advanced, so the theorems above
are not vacuous. -/
example : ∃ m0 m : M ℚ, start (demoCfg ["f", "p", "u"] 4 6) = .ok (some m0) ∧
    calls (demoCfg ["f", "p", "u"] 4 6) [.update, .until 3, .frac (1/2)] m0 = .ok m ∧
    m0.dt = 2 ∧ m.st.time = 6 := by
  have h : (match start (demoCfg ["f", "p", "u"] 4 6) with
      | .ok (some m0) => (match calls (demoCfg ["f", "p", "u"] 4 6) [.update, .until 3, .frac (1/2)] m0 with
        | .ok m => some (m0.dt, m.st.time)
        | _ => none)
      | _ => none) = some (2, 6) := by decide +kernel
  split at h
  · next m0 h1 =>
    split at h
    · next m h2 =>
      simp only [Option.some.injEq, Prod.mk.injEq] at h
      exact ⟨m0, m, h1, h2, h.1, h.2⟩
    · cases h
  · cases h

end step

/-! ## Values (C101) -/

section values

variable {K : Type*} [Field K] [LinearOrder K] [IsStrictOrderedRing K] {R Mm I : Type*}

theorem mem_varUsers {cfg : Config K} {v : String} {us : List String}
    (h : varUsers cfg v = some us) (c : String) :
    c ∈ us ↔ c ∈ cfg.provs ∧ v ∈ (cfg.decl c).inputs := by
  have h2 := (rep_collect (fun c => (cfg.decl c).inputs) cfg.provs).2 v
  unfold varUsers at h
  rw [h] at h2
  split_ifs at h2 with hc
  simp only [Option.some.injEq] at h2
  rw [h2, mem_occ, mem_pairs]

theorem setAttr_attr (s : VSt K R Mm I) (c v : String) (r : R) (d w : String) :
    (setAttr s c v r).attr d w = if d = c ∧ w = v then r else s.attr d w := by
  unfold setAttr
  by_cases h : d = c
  · subst h
    simp only [Function.update_self, true_and]
    by_cases hw : w = v
    · subst hw; simp
    · simp [Function.update_of_ne hw, hw]
  · simp [Function.update_of_ne h, h]

theorem foldl_setAttr (v : String) (r : R) : ∀ (us : List String) (s : VSt K R Mm I),
    let s' := us.foldl (fun s c => setAttr s c v r) s
    s'.time = s.time ∧ s'.ctime = s.ctime ∧ s'.cstat = s.cstat ∧ s'.mem = s.mem ∧ s'.ti = s.ti ∧
      ∀ d w, s'.attr d w = if d ∈ us ∧ w = v then r else s.attr d w
  | [], s => by simp
  | c :: us, s => by
    obtain ⟨a, b, c', d, e, f⟩ := foldl_setAttr v r us (setAttr s c v r)
    refine ⟨a, b, c', d, e, fun x w => ?_⟩
    rw [List.foldl_cons, f, setAttr_attr]
    by_cases hw : w = v <;> by_cases hx : x = c <;> by_cases hm : x ∈ us <;> simp [hw, hx, hm]

/-- **C101.** What `set_value` does: the variable of every component that uses it refers to the
caller's value; every other variable of every component, all clocks and all memory are
unchanged. -/
theorem C101_set_reaches_users {cfg : Config K} {v : String} {r : R} {s s' : VSt K R Mm I}
    (h : setValue cfg v r s = .ok s') :
    (∀ c ∈ cfg.provs, v ∈ (cfg.decl c).inputs → s'.attr c v = r) ∧
    (∀ c w, ¬ (c ∈ cfg.provs ∧ v ∈ (cfg.decl c).inputs ∧ w = v) → s'.attr c w = s.attr c w) ∧
    s'.time = s.time ∧ s'.ctime = s.ctime ∧ s'.cstat = s.cstat ∧ s'.mem = s.mem ∧ s'.ti = s.ti := by
  unfold setValue at h
  split at h
  · cases h
  · next us hus =>
    simp only [Except.ok.injEq] at h
    obtain ⟨a, b, c', d, e, f⟩ := foldl_setAttr v r us s
    rw [h] at a b c' d e f
    refine ⟨fun c h1 h2 => ?_, fun c w hn => ?_, a, b, c', d, e⟩
    · rw [f, if_pos ⟨(mem_varUsers hus c).2 ⟨h1, h2⟩, rfl⟩]
    · rw [f, if_neg]
      rintro ⟨h1, h2⟩
      exact hn ⟨((mem_varUsers hus c).1 h1).1, ((mem_varUsers hus c).1 h1).2, h2⟩

/-- `set_value` is refused exactly for variables that no component uses. -/
theorem C101_set_refused_iff (cfg : Config K) (v : String) (hv : v ≠ "") (r : R)
    (s : VSt K R Mm I) :
    (∃ e, setValue cfg v r s = .error e) ↔ ∀ c ∈ cfg.provs, v ∉ (cfg.decl c).inputs := by
  have h2 := (rep_collect (fun c => (cfg.decl c).inputs) cfg.provs).2 v
  have hu : varUsers cfg v = if v ≠ "" ∧ occ (pairs (fun c => (cfg.decl c).inputs) cfg.provs) v ≠ []
      then some (occ (pairs (fun c => (cfg.decl c).inputs) cfg.provs) v) else none := h2
  unfold setValue
  rw [hu]
  by_cases ho : occ (pairs (fun c => (cfg.decl c).inputs) cfg.provs) v = []
  · simp only [ho, ne_eq, not_true_eq_false, and_false, if_false]
    refine ⟨fun _ c hc hi => ?_, fun _ => ⟨_, rfl⟩⟩
    have : c ∈ occ (pairs (fun c => (cfg.decl c).inputs) cfg.provs) v := by
      rw [mem_occ, mem_pairs]; exact ⟨hc, hi⟩
    rw [ho] at this; simp at this
  · simp only [ne_eq, hv, not_false_eq_true, ho, and_self, if_true]
    constructor
    · rintro ⟨e, he⟩; cases he
    · intro hall
      obtain ⟨c, l, hc⟩ := List.exists_cons_of_ne_nil ho
      have : c ∈ occ (pairs (fun c => (cfg.decl c).inputs) cfg.provs) v := by rw [hc]; simp
      rw [mem_occ, mem_pairs] at this
      exact absurd this.2 (hall c this.1)

/-- Reading a variable back after setting it gives the value that was set if the component that
provides the variable also uses it, and the old value otherwise. -/
theorem C101_set_then_get {cfg : Config K} {v : String} {r : R} {s s' : VSt K R Mm I}
    (h : setValue cfg v r s = .ok s') {p : String} {ps : List String}
    (hp : varProviders cfg v = some (p :: ps)) :
    (p ∈ cfg.provs ∧ v ∈ (cfg.decl p).inputs → getValue cfg v s' = .ok r) ∧
    (v ∉ (cfg.decl p).inputs → getValue cfg v s' = getValue cfg v s) := by
  obtain ⟨h1, h2, -⟩ := C101_set_reaches_users h
  unfold getValue
  rw [hp]
  refine ⟨fun hq => ?_, fun hq => ?_⟩
  · show Except.ok (s'.attr p v) = _
    rw [h1 p hq.1 hq.2]
  · show Except.ok (s'.attr p v) = Except.ok (s.attr p v)
    rw [h2 p v (fun hh => hq hh.2.1)]

/-- The two states are the same up to the variable `v` of its users. -/
def Same (cfg : Config K) (v : String) (s s' : VSt K R Mm I) : Prop :=
  s'.time = s.time ∧ s'.ctime = s.ctime ∧ s'.cstat = s.cstat ∧ s'.mem = s.mem ∧ s'.ti = s.ti ∧
    ∀ c w, ¬ (v ∈ (cfg.decl c).inputs ∧ w = v) → s'.attr c w = s.attr c w

/-- Both runs fail in the same way, or both go on with related states. -/
def Both {α : Type*} (P : α → α → Prop) (x y : Except String α) : Prop :=
  (∃ e, x = .error e ∧ y = .error e) ∨ ∃ a b, x = .ok a ∧ y = .ok b ∧ P a b

/-- The provider of `v` does not use it. -/
def Foreign (cfg : Config K) (v : String) : Prop :=
  ∀ p ps, varProviders cfg v = some (p :: ps) → v ∉ (cfg.decl p).inputs

theorem getRequired_same (env : Env K R Mm I) {cfg : Config K} {v : String} (hf : Foreign cfg v)
    (user : String) (t : K) (w : String) {s s' : VSt K R Mm I} (h : Same cfg v s s') :
    Both (fun a b => Same cfg v a b ∧
        (w = v ∨ s'.attr user v = s.attr user v → b.attr user v = a.attr user v))
      (getRequired env cfg user t w s) (getRequired env cfg user t w s') := by
  obtain ⟨h1, h2, h3, h4, h5, h6⟩ := h
  unfold getRequired
  cases hp : varProviders cfg w with
  | none => exact Or.inl ⟨_, rfl, rfl⟩
  | some l =>
    cases l with
    | nil => exact Or.inl ⟨_, rfl, rfl⟩
    | cons p ps =>
      refine Or.inr ?_
      have hpa : s'.attr p w = s.attr p w := h6 p w (by
        rintro ⟨ha, rfl⟩; exact hf p ps hp ha)
      dsimp only
      rw [h3]
      split_ifs with hc
      · refine ⟨_, _, rfl, rfl, ⟨h1, h2, h3, h4, h5, fun c x hx => ?_⟩, fun hor => ?_⟩
        · rw [setAttr_attr, setAttr_attr, hpa, h6 c x hx]
        · rw [setAttr_attr, setAttr_attr, hpa]
          split_ifs with hq
          · rfl
          · rcases hor with hor | hor
            · exact absurd ⟨rfl, hor.symm⟩ hq
            · exact hor
      · rw [h4, h5]
        refine ⟨_, _, rfl, rfl, ⟨h1, h2, rfl, rfl, rfl, fun c x hx => ?_⟩, fun hor => ?_⟩
        · rw [setAttr_attr, setAttr_attr]
          split_ifs
          · rfl
          · exact h6 c x hx
        · rw [setAttr_attr, setAttr_attr]
          split_ifs with hq
          · rfl
          · rcases hor with hor | hor
            · exact absurd ⟨rfl, hor.symm⟩ hq
            · exact hor

theorem getRequireds_same (env : Env K R Mm I) {cfg : Config K} {v : String} (hf : Foreign cfg v)
    (user : String) (t : K) : ∀ (l : List String) {s s' : VSt K R Mm I}, Same cfg v s s' →
    Both (fun a b => Same cfg v a b ∧
        (v ∈ l ∨ s'.attr user v = s.attr user v → b.attr user v = a.attr user v))
      (getRequireds env cfg user t l s) (getRequireds env cfg user t l s')
  | [], s, s', h => Or.inr ⟨s, s', rfl, rfl, h, fun hh => by simpa using hh⟩
  | w :: l, s, s', h => by
    rcases getRequired_same env hf user t w h with ⟨e, h1, h2⟩ | ⟨a, b, h1, h2, h3, h4⟩
    · exact Or.inl ⟨e, by simp [getRequireds, h1], by simp [getRequireds, h2]⟩
    · rcases getRequireds_same env hf user t l h3 with ⟨e, k1, k2⟩ | ⟨c, d, k1, k2, k3, k4⟩
      · exact Or.inl ⟨e, by simp [getRequireds, h1, k1], by simp [getRequireds, h2, k2]⟩
      · refine Or.inr ⟨c, d, by simp [getRequireds, h1, k1], by simp [getRequireds, h2, k2], k3,
          fun hh => ?_⟩
        apply k4
        rcases hh with hh | hh
        · rcases List.mem_cons.1 hh with rfl | hh
          · exact Or.inr (h4 (Or.inl rfl))
          · exact Or.inl hh
        · exact Or.inr (h4 (Or.inr hh))

theorem vUpdate_same (env : Env K R Mm I) {cfg : Config K} {v c : String} {s s' : VSt K R Mm I}
    (h : Same cfg v s s') (hc : s'.attr c = s.attr c) :
    Same cfg v (vUpdate env cfg c s) (vUpdate env cfg c s') ∧
      (vUpdate env cfg c s').attr c = (vUpdate env cfg c s).attr c := by
  unfold vUpdate
  split_ifs with hd
  · exact ⟨h, hc⟩
  · obtain ⟨h1, h2, h3, h4, h5, h6⟩ := h
    dsimp only
    refine ⟨⟨h1, by simp only [h2], by simp only [h3], by simp only [h2, hc, h4], h5,
      fun d w hd => ?_⟩, by simp only [Function.update_self, h2, hc, h4]⟩
    simp only [h2, hc, h4]
    by_cases hdc : d = c
    · subst hdc; simp
    · simp only [Function.update_of_ne hdc]; exact h6 d w hd

theorem vTiUpdate_same (env : Env K R Mm I) {cfg : Config K} {v c : String} {s s' : VSt K R Mm I}
    (h : Same cfg v s s') (hc : s'.attr c = s.attr c) :
    Same cfg v (vTiUpdate env c s) (vTiUpdate env c s') := by
  obtain ⟨h1, h2, h3, h4, h5, h6⟩ := h
  unfold vTiUpdate
  rw [h3]
  split_ifs
  · exact ⟨h1, h2, h3, h4, h5, h6⟩
  · dsimp only
    rw [h2, hc, h4, h5]
    exact ⟨h1, rfl, rfl, rfl, rfl, h6⟩

theorem vCompStep_same (env : Env K R Mm I) {cfg : Config K} {v : String} (hf : Foreign cfg v)
    (c : String) {s s' : VSt K R Mm I} (h : Same cfg v s s') :
    Both (Same cfg v) (vCompStep env cfg c s) (vCompStep env cfg c s') := by
  have h' := h
  obtain ⟨h1, h2, -⟩ := h
  unfold vCompStep
  dsimp only
  rw [h1, h2]
  by_cases ht : s.time > convert (s.ctime c) (cfg.decl c).units
  · rw [if_pos ht, if_pos ht]
    rcases getRequireds_same env hf c (convert (s.ctime c) (cfg.decl c).units)
      (cfg.decl c).inputs h' with ⟨e, k1, k2⟩ | ⟨a, b, k1, k2, k3, k4⟩
    · rw [k1, k2]; exact Or.inl ⟨e, rfl, rfl⟩
    · rw [k1, k2]
      have hab : b.attr c = a.attr c := by
        funext w
        by_cases hw : v ∈ (cfg.decl c).inputs ∧ w = v
        · obtain ⟨hi, rfl⟩ := hw; exact k4 (Or.inl hi)
        · exact k3.2.2.2.2.2 c w hw
      refine Or.inr ⟨_, _, rfl, rfl, ?_⟩
      split_ifs
      · obtain ⟨j1, j2⟩ := vUpdate_same env k3 hab
        exact vTiUpdate_same env j1 j2
      · exact vTiUpdate_same env k3 hab
  · rw [if_neg ht, if_neg ht]; exact Or.inr ⟨s, s', rfl, rfl, h'⟩

theorem vLoop_same (env : Env K R Mm I) {cfg : Config K} {v : String} (hf : Foreign cfg v) :
    ∀ (l : List String) {s s' : VSt K R Mm I}, Same cfg v s s' →
      Both (Same cfg v) (vLoop env cfg l s) (vLoop env cfg l s')
  | [], s, s', h => Or.inr ⟨s, s', rfl, rfl, h⟩
  | c :: l, s, s', h => by
    rcases vCompStep_same env hf c h with ⟨e, h1, h2⟩ | ⟨a, b, h1, h2, h3⟩
    · exact Or.inl ⟨e, by simp [vLoop, h1], by simp [vLoop, h2]⟩
    · rcases vLoop_same env hf l h3 with ⟨e, k1, k2⟩ | ⟨c', d, k1, k2, k3⟩
      · exact Or.inl ⟨e, by simp [vLoop, h1, k1], by simp [vLoop, h2, k2]⟩
      · exact Or.inr ⟨c', d, by simp [vLoop, h1, k1], by simp [vLoop, h2, k2], k3⟩

theorem vSteps_same (env : Env K R Mm I) {cfg : Config K} {v : String} (hf : Foreign cfg v)
    (dt : K) : ∀ (n : ℕ) {s s' : VSt K R Mm I}, Same cfg v s s' →
      Both (Same cfg v) (vSteps env cfg dt n s) (vSteps env cfg dt n s')
  | 0, s, s', h => Or.inr ⟨s, s', rfl, rfl, h⟩
  | n + 1, s, s', h => by
    rcases vLoop_same env hf cfg.provs h with ⟨e, h1, h2⟩ | ⟨a, b, h1, h2, h3⟩
    · exact Or.inl ⟨e, by simp [vSteps, vStep, h1], by simp [vSteps, vStep, h2]⟩
    · obtain ⟨j1, j2, j3, j4, j5, j6⟩ := h3
      have h3' : Same cfg v { a with time := a.time + dt } { b with time := b.time + dt } :=
        ⟨by simp only [j1], j2, j3, j4, j5, j6⟩
      rcases vSteps_same env hf dt n h3' with ⟨e, k1, k2⟩ | ⟨c', d, k1, k2, k3⟩
      · exact Or.inl ⟨e, by simp [vSteps, vStep, h1, k1], by simp [vSteps, vStep, h2, k2]⟩
      · exact Or.inr ⟨c', d, by simp [vSteps, vStep, h1, k1], by simp [vSteps, vStep, h2, k2], k3⟩

/-- **C101 is violated for every coupled model**: if the provider of a variable does not use it
itself, setting the variable never has an effect.  For all components (whatever their updates do
with their variables and the memory), all states and any number of later updates: the run with
the value set and the run without it fail together, or agree on every value that can be read, on
all clocks and on the whole memory. -/
theorem C101_set_has_no_effect (env : Env K R Mm I) {cfg : Config K} {v : String}
    (hf : Foreign cfg v) {r : R} {s s' : VSt K R Mm I} (h : setValue cfg v r s = .ok s')
    (dt : K) (n : ℕ) :
    Both (fun a b => (∀ w, getValue cfg w b = getValue cfg w a) ∧ b.mem = a.mem ∧
        b.time = a.time ∧ b.ctime = a.ctime)
      (vSteps env cfg dt n s) (vSteps env cfg dt n s') := by
  obtain ⟨-, h2, t1, t2, t3, t4, t5⟩ := C101_set_reaches_users h
  have hs : Same cfg v s s' :=
    ⟨t1, t2, t3, t4, t5, fun c w hn => h2 c w (fun hh => hn hh.2)⟩
  rcases vSteps_same env hf dt n hs with ⟨e, k1, k2⟩ | ⟨a, b, k1, k2, k3⟩
  · exact Or.inl ⟨e, k1, k2⟩
  · refine Or.inr ⟨a, b, k1, k2, fun w => ?_, k3.2.2.2.1, k3.1, k3.2.1⟩
    unfold getValue
    cases hp : varProviders cfg w with
    | none => rfl
    | some l =>
      cases l with
      | nil => rfl
      | cons p ps =>
        show Except.ok (b.attr p w) = Except.ok (a.attr p w)
        rw [k3.2.2.2.2.2 p w (by rintro ⟨ha, rfl⟩; exact hf p ps hp ha)]

/-- No component of the repository uses a variable that it provides (apart from the two with
placeholder names). -/
theorem repo_foreign (c : Repo.Comp) (v : Repo.Var) (h : v ∈ (Repo.decl c).outputs)
    (hn : v ≠ .None) : v ∉ (Repo.decl c).inputs := by
  have h0 : Repo.repoList.all (fun c => (Repo.decl c).outputs.all (fun v => decide (v = .None) ||
      !((Repo.decl c).inputs.elem v))) = true := by decide +kernel
  have h1 := List.all_eq_true.1 (List.all_eq_true.1 h0 c (Repo.mem_repoList c)) v h
  simp only [hn, decide_false, Bool.false_or, Bool.not_eq_true'] at h1
  intro hm
  rw [List.elem_eq_true_of_mem hm] at h1
  cases h1

/-- So setting a value has no effect in any model made of repository components. -/
theorem C101_repository {nv : Repo.Var → String} {nc : Repo.Comp → String}
    (hv : Function.Injective nv) (hc : Function.Injective nc) (l : List Repo.Comp)
    (status units : Repo.Comp → String) (dts : Repo.Comp → K) (v : Repo.Var) (hn : v ≠ .None)
    (env : Env K R Mm I) {r : R} {s s' : VSt K R Mm I}
    (h : setValue (Repo.config nv nc l status units dts) (nv v) r s = .ok s') (dt : K) (n : ℕ) :
    Both (fun a b => (∀ w, getValue (Repo.config nv nc l status units dts) w b =
        getValue (Repo.config nv nc l status units dts) w a) ∧ b.mem = a.mem ∧
        b.time = a.time ∧ b.ctime = a.ctime)
      (vSteps env (Repo.config nv nc l status units dts) dt n s)
      (vSteps env (Repo.config nv nc l status units dts) dt n s') := by
  refine C101_set_has_no_effect env ?_ h dt n
  intro p ps hp
  rw [varProviders_eq] at hp
  split_ifs at hp with hq
  simp only [Option.some.injEq] at hp
  have hm : p ∈ provOcc (Repo.config nv nc l status units dts) (nv v) := by rw [hp]; simp
  rw [mem_provOcc] at hm
  obtain ⟨h1, h2⟩ := hm
  obtain ⟨c, hcl, rfl⟩ := List.mem_map.1 h1
  rw [Repo.config_decl hc] at h2 ⊢
  obtain ⟨w, hw, e⟩ := List.mem_map.1 h2
  rw [hv e] at hw
  intro hi
  obtain ⟨x, hx, e⟩ := List.mem_map.1 hi
  rw [hv e] at hx
  exact repo_foreign c v hw hn hx

/-- A two-component model in which rain is provided by "met" and used by "channels": what the
channels see is visible in `Q`. -/
def demoVals : Config ℚ where
  provs := ["met", "channels"]
  decl := fun c => if c = "met" then ⟨"Enabled", "seconds", 1, [], ["rain"]⟩
    else ⟨"Enabled", "seconds", 1, ["rain"], ["Q"]⟩

/-- Values are their own references; the channels copy the rain into `Q`. -/
def demoEnv : Env ℚ ℕ Unit (String → ℕ) where
  phys := fun c _ a m => (if c = "channels" then Function.update a "Q" (a "rain") else a, m)
  interp := fun ti v _ m => (ti v, m)
  tiUpd := fun c _ a m ti => (if c = "met" then Function.update ti "rain" (a "rain") else ti, m)

def demoState : VSt ℚ ℕ Unit (String → ℕ) where
  time := 1
  ctime := fun _ => 0
  cstat := fun _ => "updated"
  attr := fun _ v => if v = "rain" then 5 else 0
  mem := ()
  ti := fun _ => 5

/-- Rain is set to 9, and the channels see 9 until the next update; but the discharge after the
update is that of the old rain. -/
example : (match setValue demoVals "rain" 9 demoState with
    | .ok s' => (match vSteps demoEnv demoVals 1 1 s' with
      | .ok a => some (s'.attr "channels" "rain", (getValue demoVals "rain" s').toOption,
          a.attr "channels" "rain", (getValue demoVals "Q" a).toOption)
      | _ => none)
    | _ => none) = some (9, some 5, 5, some 5) := by decide +kernel

/-- The hypothesis of the theorem holds here. -/
example : varProviders demoVals "rain" = some ["met"] ∧
    "rain" ∉ (demoVals.decl "met").inputs := by decide +kernel

end values

/-! ## Values at cells, and the grid (C102) -/

/-- **C102 is violated**: the cells asked for make no difference; every entry of the answer is
the value at the basin outlet. -/
theorem C102_indices_ignored {V : Type*} {vals dest out : List V} {o : Option ℕ}
    {indices : List ℕ} (h : getAtIndices vals o dest indices = .ok out) :
    ∃ i x, o = some i ∧ vals[i]? = some x ∧ out = List.replicate dest.length x := by
  unfold getAtIndices at h
  split at h
  · cases h
  · next i =>
    split at h
    · cases h
    · next x hx =>
      simp only [Except.ok.injEq] at h
      exact ⟨i, x, rfl, hx, by rw [← h]; simp [List.map_const']⟩

/-- The answer is right exactly when all cells asked for have the value of the outlet. -/
theorem C102_at_indices_partial {V : Type*} {vals dest : List V} {i : ℕ} {x : V}
    (hx : vals[i]? = some x) {indices : List ℕ} (hl : dest.length = indices.length) :
    getAtIndices vals (some i) dest indices = .ok (List.replicate indices.length x) ∧
    (some (List.replicate indices.length x) = indices.mapM (fun j => vals[j]?) ↔
      ∀ j ∈ indices, vals[j]? = some x) := by
  constructor
  · unfold getAtIndices
    simp only [hx, List.map_const', hl]
  · clear hl
    induction indices with
    | nil => simp
    | cons j js ih =>
      rw [List.mapM_cons]
      constructor
      · intro h
        cases hj : vals[j]? with
        | none => rw [hj] at h; simp at h
        | some y =>
          cases hjs : js.mapM (fun j => vals[j]?) with
          | none => rw [hj, hjs] at h; simp at h
          | some l =>
            rw [hj, hjs] at h
            simp only [List.length_cons, List.replicate_succ, Option.pure_def, Option.bind_eq_bind,
              Option.bind_some, Option.some.injEq, List.cons.injEq] at h
            rw [hjs] at ih
            have := ih.1 (by rw [h.2])
            intro k hk
            rcases List.mem_cons.1 hk with rfl | hk
            · rw [hj, h.1]
            · exact this k hk
      · intro h
        have h1 := ih.2 (fun k hk => h k (List.mem_cons_of_mem _ hk))
        rw [h j (by simp), ← h1]
        simp [List.replicate_succ]

example : getAtIndices [10, 20, 30] (some 2) [0, 0] [0, 1] = .ok [30, 30] := rfl

/-- The size, and the shape, of the model grid cannot be obtained at all. -/
theorem C102_grid_raises (shape : String → ℕ × ℕ) (dest : List ℕ) :
    (∃ e, getGridSize (GridObj.made shape) 0 = .error e) ∧
    (∃ e, getGridShape (GridObj.made shape) 0 dest = .error e) ∧ getGridRank 0 = 2 :=
  ⟨⟨_, rfl⟩, ⟨_, rfl⟩, rfl⟩

/-- With the missing attribute it would be the product of the numbers of rows and columns. -/
example : getGridSize ⟨some ["a"], fun _ => (3, 4)⟩ 0 = .ok 12 := rfl

end Multi
