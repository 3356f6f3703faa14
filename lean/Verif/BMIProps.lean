import Verif.BMIModel
import Verif.EmeliSpec
import Mathlib.Algebra.Order.Floor.Ring
import Mathlib.Algebra.Order.Archimedean.Basic
import Mathlib.Algebra.BigOperators.Group.List.Basic
import Mathlib.Data.Rat.Floor
import Mathlib.Tactic.Linarith
import Mathlib.Tactic.Ring
import Mathlib.Tactic.FieldSimp
import Mathlib.Tactic.NormNum
import Mathlib.Tactic.Positivity

/-! # C18, C19, C20, C45, C46: the component base class -/

set_option autoImplicit false
set_option linter.unusedSectionVars false

namespace BMI

/-- Seconds in one unit of time. -/
def unitSeconds (K : Type*) [Field K] (units : String) : K :=
  if units = "seconds" then 1
  else if units = "minutes" then 60
  else if units = "hours" then 3600
  else if units = "days" then 86400
  else if units = "weeks" then 604800
  else if units = "months" then 2628000
  else if units = "years" then 31536000
  else 1

section clock
variable {K : Type*} [Field K] [LinearOrder K] [IsStrictOrderedRing K] [FloorRing K]

theorem toSec_eq (u : String) (t : K) : toSec u t = t * unitSeconds K u := by
  unfold toSec unitSeconds
  split_ifs <;> ring

theorem bind_ok' {ε : Type*} {α β : Type*} {a : Except ε α} {f : α → Except ε β} {y : β} :
    (a.bind f) = .ok y ↔ ∃ x, a = .ok x ∧ f x = .ok y := by
  cases a <;> simp [Except.bind]

/-- What `check_finished` may change. -/
theorem checkFinished_ok {c c' : Clock K} (h : checkFinished c = .ok c') :
    ∃ d, c' = { c with done := d } ∧ (c.done = true → d = true) := by
  unfold checkFinished at h
  split_ifs at h
  all_goals first
    | (injection h with h; exact ⟨_, h.symm, fun hd => by simp [hd]⟩)

theorem updateTime_ok {c c' : Clock K} {d : K} (h : updateTime c d = .ok c') :
    c'.time = c.time + (if d = -1 then c.dt else d) ∧ c'.timeIndex = c.timeIndex + 1 ∧
    c'.timeSec = c'.time * unitSeconds K c.units ∧ c'.timeMin = c'.timeSec / 60 ∧
    c'.dt = c.dt ∧ c'.units = c.units ∧ c'.timeStep = c.timeStep ∧ c'.mode = c.mode ∧
    c'.stopCode = c.stopCode ∧ c'.nSteps = c.nSteps ∧ (c.done = true → c'.done = true) := by
  unfold updateTime at h
  obtain ⟨dn, h1, h2⟩ := checkFinished_ok h
  subst h1
  simp only
  refine ⟨by split_ifs <;> rfl, trivial, toSec_eq _ _, ?_⟩
  exact ⟨trivial, trivial, trivial, trivial, trivial, trivial, trivial, h2⟩

/-- A clock whose `check_finished` cannot raise. -/
def KnownStop (c : Clock K) : Prop := c.mode ≠ "driver" ∨ c.stopCode ∈ [0, 1, 2]

theorem updateTime_isOk {c : Clock K} (h : KnownStop c) (d : K) :
    ∃ c', updateTime c d = .ok c' := by
  have hc : ∀ c : Clock K, KnownStop c → ∃ c', checkFinished c = .ok c' := by
    intro c h
    unfold checkFinished
    split_ifs with h1 h2 h3 h4
    · exact ⟨_, rfl⟩
    · exact ⟨_, rfl⟩
    · exact ⟨_, rfl⟩
    · exact ⟨_, rfl⟩
    · exfalso
      rcases h with h | h
      · exact h1 h
      · simp only [List.mem_cons, List.not_mem_nil, or_false] at h
        rcases h with h | h | h
        · exact h2 h
        · exact h3 h
        · exact h4 h
  exact hc _ h

/-! ## C20 -/

/-- **C20.**  After any list of updates (argument -1 = own time step): the time is the sum of the
steps, the counter has advanced by their number, and the seconds and minutes clocks agree with the
time. -/
theorem C20_clock_after_updates (ds : List K) (c c' : Clock K) (h : updates ds c = .ok c') :
    c'.time = c.time + (ds.map (fun d => if d = -1 then c.dt else d)).sum ∧
    c'.timeIndex = c.timeIndex + ds.length ∧
    (ds ≠ [] → c'.timeSec = c'.time * unitSeconds K c.units ∧ c'.timeMin * 60 = c'.timeSec) := by
  induction ds generalizing c with
  | nil => simp only [updates, Except.ok.injEq] at h; subst h; simp
  | cons d ds ih =>
    have h' : (updateTime c d).bind (fun c1 => updates ds c1) = .ok c' := h
    rw [bind_ok'] at h'
    obtain ⟨c1, h1, h2⟩ := h'
    obtain ⟨e1, e2, e3, e4, e5, e6, -⟩ := updateTime_ok h1
    obtain ⟨i1, i2, i3⟩ := ih c1 h2
    rw [e5] at i1
    refine ⟨?_, ?_, fun _ => ?_⟩
    · rw [i1, e1]; simp only [List.map_cons, List.sum_cons]; ring
    · rw [i2, e2]; simp only [List.length_cons]; push_cast; ring
    · cases ds with
      | nil =>
        simp only [updates, Except.ok.injEq] at h2; subst h2
        refine ⟨e3, ?_⟩
        rw [e4]; field_simp
      | cons a l =>
        have := i3 (by simp)
        rw [e6] at this; exact this

/-- After `n` updates (`n = 0` included) with the component's own step since initialization, time
is `n * dt`, the counter is `n`, and the seconds and minutes clocks agree with the time. -/
theorem C20_n_updates (n : ℕ) (c c' : Clock K) (units : String)
    (h : updates (List.replicate n (-1)) (initTimeVars c units) = .ok c') :
    c'.time = n * c.dt ∧ c'.timeIndex = n ∧
    c'.timeSec = c'.time * unitSeconds K units.toLower ∧ c'.timeMin * 60 = c'.timeSec := by
  obtain ⟨h1, h2, h3⟩ := C20_clock_after_updates _ _ _ h
  refine ⟨?_, ?_, ?_⟩
  · rw [h1]; simp [initTimeVars, List.map_replicate]
  · rw [h2]; simp [initTimeVars]
  · cases n with
    | zero =>
      simp only [List.replicate_zero, updates, Except.ok.injEq] at h
      subst h
      simp [initTimeVars]
    | succ k => exact h3 (by simp)

/-- The updates never raise when the component is not the driver or its stop code is 0, 1 or 2. -/
theorem C20_updates_never_raise (ds : List K) (c : Clock K) (h : KnownStop c) :
    ∃ c', updates ds c = .ok c' := by
  induction ds generalizing c with
  | nil => exact ⟨c, rfl⟩
  | cons d ds ih =>
    obtain ⟨c1, h1⟩ := updateTime_isOk h d
    have e := updateTime_ok h1
    have hk : KnownStop c1 := by
      unfold KnownStop
      rw [e.2.2.2.2.2.2.2.1, e.2.2.2.2.2.2.2.2.1]; exact h
    obtain ⟨c2, h2⟩ := ih c1 hk
    refine ⟨c2, ?_⟩
    show (updateTime c d).bind (fun c1 => updates ds c1) = .ok c2
    rw [bind_ok']; exact ⟨c1, h1, h2⟩

/-- The framework's unit conversion agrees with the component's own seconds clock for all unit
names both know. -/
theorem C20_framework_units_agree_partial (units : String)
    (h : units ∈ ["seconds", "minutes", "hours", "days", "months", "years"]) :
    unitSeconds K units = EmeliSpec.secondsPer K units := by
  simp only [List.mem_cons, List.not_mem_nil, or_false] at h
  rcases h with rfl | rfl | rfl | rfl | rfl | rfl <;> simp [unitSeconds, EmeliSpec.secondsPer]

/-- Finding: a component may measure time in weeks, but the framework takes weeks for seconds. -/
theorem C20_weeks_disagree :
    unitSeconds K "weeks" = 604800 ∧ EmeliSpec.secondsPer K "weeks" = 1 := by
  constructor
  · simp [unitSeconds]
  · simp [EmeliSpec.secondsPer]

/-- Non-vacuity of C20: a driver in minutes with step 5, three updates. -/
example : ∃ c', updates (List.replicate 3 (-1))
      (initTimeVars (⟨"", (5 : ℚ), "driver", 0, 2, 0, false, 7, 7, 7, 7, none, true⟩) "Minutes") =
        .ok c' ∧ c'.time = 15 ∧ c'.timeSec = 900 ∧ c'.done = true := by
  refine ⟨⟨"minutes", 5, "driver", 0, 2, 0, false, 3, 15, 900, 15, none, true⟩, ?_, rfl, rfl, rfl⟩
  have hu : "Minutes".toLower = "minutes" := by decide +kernel
  norm_num [List.replicate, updates, initTimeVars, updateTime, checkFinished, toSec, hu, bind,
    Except.bind]
  have h1 : ¬ "minutes" = "seconds" := by decide
  simp only [h1, not_false_eq_true, if_false, true_and]
  norm_num

/-! ## C18 -/

theorem updateN_ok (n : ℕ) {c c' : Clock K} (h : updateN n c = .ok c') :
    c'.time = c.time + n * c.dt ∧ c'.dt = c.dt ∧ c'.timeIndex = c.timeIndex + n := by
  induction n generalizing c with
  | zero => simp only [updateN, Except.ok.injEq] at h; subst h; simp
  | succ n ih =>
    have h' : (update c).bind (fun c1 => updateN n c1) = .ok c' := h
    rw [bind_ok'] at h'
    obtain ⟨c1, h1, h2⟩ := h'
    obtain ⟨e1, e2, -, -, e5, -⟩ := updateTime_ok h1
    obtain ⟨i1, i2, i3⟩ := ih h2
    rw [if_pos rfl] at e1
    refine ⟨?_, by rw [i2, e5], ?_⟩
    · rw [i1, e1, e5]; push_cast; ring
    · rw [i3, e2]; push_cast; ring

/-- A fractional update advances the clock by a whole step, whatever the fraction. -/
theorem C18_update_frac_is_full_step (c c' : Clock K) (frac : K)
    (h : updateFrac c frac = .ok c') : c'.time = c.time + c.dt := by
  have h' : (update { c with timeStep := some (frac * c.dt) }).bind
      (fun c1 => .ok { c1 with timeStep := some c.dt }) = .ok c' := h
  rw [bind_ok'] at h'
  obtain ⟨c1, h1, h2⟩ := h'
  obtain ⟨e1, -⟩ := updateTime_ok h1
  rw [if_pos rfl] at e1
  injection h2 with h2
  subst h2
  exact e1

/-- The clock after `update_until(t)`: the whole steps that fit, plus one. -/
theorem C18_update_until_result (c c' : Clock K) (later : K)
    (h : updateUntil c later = .ok c') :
    c'.time = c.time + ((pyInt ((later - c.time) / c.dt)).toNat + 1) * c.dt := by
  have h' : (updateN (pyInt ((later - c.time) / c.dt)).toNat c).bind
      (fun c1 => updateFrac c1 ((later - c.time) / c.dt - pyInt ((later - c.time) / c.dt))) =
      .ok c' := h
  rw [bind_ok'] at h'
  obtain ⟨c1, h1, h2⟩ := h'
  obtain ⟨e1, e2, -⟩ := updateN_ok _ h1
  rw [C18_update_frac_is_full_step _ _ _ h2, e1, e2]
  ring

/-- **C18 is violated for every target**: for any target time not in the past, `update_until`
overshoots it by more than nothing and at most one step. -/
theorem C18_update_until_overshoots (c c' : Clock K) (later : K) (hdt : 0 < c.dt)
    (hl : c.time ≤ later) (h : updateUntil c later = .ok c') :
    later < c'.time ∧ c'.time ≤ later + c.dt := by
  rw [C18_update_until_result c c' later h]
  set n := (later - c.time) / c.dt with hn
  have hn0 : 0 ≤ n := div_nonneg (by linarith) hdt.le
  have hl' : later = c.time + n * c.dt := by rw [hn]; field_simp; ring
  have hp : pyInt n = ⌊n⌋ := by unfold pyInt; rw [if_neg (not_lt.2 hn0)]
  have hf0 : 0 ≤ ⌊n⌋ := Int.floor_nonneg.2 hn0
  have hcast : (((pyInt n).toNat : ℕ) : K) = (⌊n⌋ : K) := by
    rw [hp]
    have : ((⌊n⌋.toNat : ℕ) : ℤ) = ⌊n⌋ := Int.toNat_of_nonneg hf0
    exact_mod_cast congrArg (Int.cast : ℤ → K) this
  rw [hcast, hl']
  have h1 := Int.floor_le n
  have h2 := Int.lt_floor_add_one n
  constructor
  · have : n * c.dt < ((⌊n⌋ : K) + 1) * c.dt := mul_lt_mul_of_pos_right h2 hdt
    linarith
  · have : ((⌊n⌋ : K) + 1) * c.dt ≤ (n + 1) * c.dt :=
      mul_le_mul_of_nonneg_right (by linarith) hdt.le
    linarith

/-- A target in the past still advances the clock by one step. -/
theorem C18_past_target_steps (c c' : Clock K) (later : K) (hdt : 0 < c.dt)
    (hl : later < c.time) (h : updateUntil c later = .ok c') : c'.time = c.time + c.dt := by
  rw [C18_update_until_result c c' later h]
  have hn0 : (later - c.time) / c.dt < 0 := div_neg_of_neg_of_pos (by linarith) hdt
  have : (pyInt ((later - c.time) / c.dt)).toNat = 0 := by
    rw [Int.toNat_eq_zero]
    unfold pyInt; rw [if_pos hn0]
    exact Int.ceil_le.2 (by simpa using hn0.le)
  rw [this]; simp

/-- What remains true: after `update_until` the clock is on a whole number of steps, past the target
and within one step of it. -/
theorem C18_reaches_target_partial (c : Clock K) (later : K) (hdt : 0 < c.dt)
    (hl : c.time ≤ later) (hk : KnownStop c) :
    ∃ c', updateUntil c later = .ok c' ∧ later ≤ c'.time ∧ c'.time ≤ later + c.dt ∧
      ∃ k : ℕ, c'.time = c.time + k * c.dt := by
  have hN : ∀ n (c : Clock K), KnownStop c → ∃ c1, updateN n c = .ok c1 ∧ KnownStop c1 := by
    intro n
    induction n with
    | zero => intro c hc; exact ⟨c, rfl, hc⟩
    | succ n ih =>
      intro c hc
      obtain ⟨c1, h1⟩ := updateTime_isOk hc (-1)
      have e := updateTime_ok h1
      have hk1 : KnownStop c1 := by
        unfold KnownStop
        rw [e.2.2.2.2.2.2.2.1, e.2.2.2.2.2.2.2.2.1]; exact hc
      obtain ⟨c2, h2, k2⟩ := ih c1 hk1
      refine ⟨c2, ?_, k2⟩
      show (update c).bind (fun c1 => updateN n c1) = .ok c2
      rw [bind_ok']; exact ⟨c1, h1, h2⟩
  obtain ⟨c1, h1, k1⟩ := hN (pyInt ((later - c.time) / c.dt)).toNat c hk
  have k1' : KnownStop { c1 with
      timeStep := some (((later - c.time) / c.dt - pyInt ((later - c.time) / c.dt)) * c1.dt) } := k1
  obtain ⟨c2, h2⟩ := updateTime_isOk k1' (-1)
  have hres : updateUntil c later = .ok { c2 with timeStep := some c1.dt } := by
    show (updateN (pyInt ((later - c.time) / c.dt)).toNat c).bind
      (fun c1 => updateFrac c1 ((later - c.time) / c.dt - pyInt ((later - c.time) / c.dt))) = _
    rw [bind_ok']
    refine ⟨c1, h1, ?_⟩
    show (update _).bind (fun c1' => .ok { c1' with timeStep := some c1.dt }) = _
    rw [bind_ok']; exact ⟨c2, h2, rfl⟩
  refine ⟨_, hres, ?_, ?_, ?_⟩
  · exact (C18_update_until_overshoots c _ later hdt hl hres).1.le
  · exact (C18_update_until_overshoots c _ later hdt hl hres).2
  · exact ⟨(pyInt ((later - c.time) / c.dt)).toNat + 1, by
      rw [C18_update_until_result c _ later hres]; push_cast; ring⟩

/-- Non-vacuity: a non-driver component at time 0 with step 3, target 7: ends at 9. -/
example : ∃ c', updateUntil (⟨"seconds", (3 : ℚ), "nondriver", 0, 1, 0, false, 0, 0, 0, 0, none,
    false⟩ : Clock ℚ) 7 = .ok c' ∧ 7 ≤ c'.time ∧ c'.time ≤ 10 := by
  obtain ⟨c', h1, h2, h3, -⟩ := C18_reaches_target_partial
    (⟨"seconds", (3 : ℚ), "nondriver", 0, 1, 0, false, 0, 0, 0, 0, none, false⟩ : Clock ℚ) 7
    (by norm_num) (by norm_num) (Or.inl (by decide))
  exact ⟨c', h1, h2, by simp only at h3; linarith⟩

/-! ## run_model stops -/

theorem update_driver {c : Clock K} (hm : c.mode = "driver") (hs : c.stopCode = 0) :
    update c = .ok { c with
      timeIndex := c.timeIndex + 1, time := c.time + c.dt,
      timeSec := toSec c.units (c.time + c.dt), timeMin := toSec c.units (c.time + c.dt) / 60,
      done := c.done || decide (c.timeIndex + 1 ≥ c.nSteps) } := by
  simp [update, updateTime, checkFinished, hm, hs]

/-- A stand-alone run that stops after a number of steps makes exactly that many updates (at least
one), and ends at the time reported by `get_end_time`. -/
theorem C20_run_model_stops (c : Clock K) (hm : c.mode = "driver") (hs : c.stopCode = 0)
    (hd : c.done = false) (h0 : c.timeIndex = 0) (ht : c.time = 0) (hn : 1 ≤ c.nSteps) :
    ∃ c', (∀ fuel ≥ c.nSteps.toNat, runLoop fuel c = some (.ok c')) ∧
      c'.timeIndex = c.nSteps ∧ some c'.time = endTime c := by
  have key : ∀ (k : ℕ) (c : Clock K), c.mode = "driver" → c.stopCode = 0 → c.done = false →
      c.timeIndex + (k + 1 : ℕ) = c.nSteps →
      ∃ c', (∀ fuel ≥ k + 1, runLoop fuel c = some (.ok c')) ∧ c'.timeIndex = c.nSteps ∧
        c'.time = c.time + (k + 1 : ℕ) * c.dt := by
    intro k
    induction k with
    | zero =>
      intro c hm hs hd hk
      have hu := update_driver hm hs
      have hge : c.timeIndex + 1 ≥ c.nSteps := by push_cast at hk; omega
      refine ⟨{ c with
        timeIndex := c.timeIndex + 1, time := c.time + c.dt,
        timeSec := toSec c.units (c.time + c.dt), timeMin := toSec c.units (c.time + c.dt) / 60,
        done := true }, ?_, by simp only; push_cast at hk; omega, by simp⟩
      intro fuel hf
      obtain ⟨f, rfl⟩ : ∃ f, fuel = f + 1 := ⟨fuel - 1, by omega⟩
      rw [runLoop, hd]
      simp only [Bool.false_eq_true, if_false, hu, bind, Except.bind, checkFinished, hm, hs]
      simp only [ne_eq, not_true_eq_false, if_false, if_true, hge, decide_true, Bool.or_true]
      cases f <;> simp [runLoop]
    | succ k ih =>
      intro c hm hs hd hk
      have hu := update_driver hm hs
      have hlt : ¬ (c.timeIndex + 1 ≥ c.nSteps) := by push_cast at hk; omega
      obtain ⟨c', i1, i2, i3⟩ := ih { c with
        timeIndex := c.timeIndex + 1, time := c.time + c.dt,
        timeSec := toSec c.units (c.time + c.dt), timeMin := toSec c.units (c.time + c.dt) / 60,
        done := false } hm hs rfl (by simp only; push_cast at hk ⊢; omega)
      refine ⟨c', ?_, i2, ?_⟩
      · intro fuel hf
        obtain ⟨f, rfl⟩ : ∃ f, fuel = f + 1 := ⟨fuel - 1, by omega⟩
        rw [runLoop, hd]
        simp only [Bool.false_eq_true, if_false, hu, bind, Except.bind, checkFinished, hm, hs]
        simp only [ne_eq, not_true_eq_false, if_false, if_true, hlt, decide_false, Bool.or_false,
          hd]
        have i1' := i1 f (by omega)
        rw [hm, hs] at i1'
        exact i1'
      · rw [i3]; push_cast; ring
  obtain ⟨c', i1, i2, i3⟩ := key (c.nSteps.toNat - 1) c hm hs hd (by omega)
  refine ⟨c', ?_, i2, ?_⟩
  · intro fuel hf; exact i1 fuel (by omega)
  · rw [i3, ht]
    unfold endTime
    rw [if_neg (by simp [hs])]
    have : ((c.nSteps.toNat - 1 + 1 : ℕ) : ℤ) = c.nSteps := by omega
    have h2 : (((c.nSteps.toNat - 1 + 1 : ℕ) : ℤ) : K) = (c.nSteps : K) := by rw [this]
    rw [Int.cast_natCast] at h2
    rw [h2]; simp

/-- The same from initialization, whatever the clock held before. -/
theorem C20_run_from_initialize (c : Clock K) (units : String) (hm : c.mode = "driver")
    (hs : c.stopCode = 0) (hn : 1 ≤ c.nSteps) :
    ∃ c', (∀ fuel ≥ c.nSteps.toNat, runLoop fuel (initTimeVars c units) = some (.ok c')) ∧
      c'.timeIndex = c.nSteps ∧ some c'.time = endTime c :=
  C20_run_model_stops (initTimeVars c units) hm hs rfl rfl rfl hn

/-- Non-vacuity: a driver with 3 steps of 5. -/
example : ∃ c', (∀ fuel ≥ 3, runLoop fuel (⟨"seconds", (5 : ℚ), "driver", 0, 3, 0, false, 0, 0, 0, 0,
    none, false⟩ : Clock ℚ) = some (.ok c')) ∧ c'.timeIndex = 3 ∧ c'.time = 15 := by
  obtain ⟨c', h1, h2, h3⟩ := C20_run_model_stops (⟨"seconds", (5 : ℚ), "driver", 0, 3, 0, false, 0,
    0, 0, 0, none, false⟩ : Clock ℚ) rfl rfl rfl rfl rfl (by norm_num)
  refine ⟨c', h1, h2, ?_⟩
  simp only [endTime, ne_eq, not_true_eq_false, if_false, Option.some.injEq] at h3
  rw [h3]; norm_num

end clock

/-! ## C19 -/

section store
variable {K : Type*}

/-- Reading back a variable that was just set gives the array that was passed, and no other variable
changes (long names of a component have distinct attribute names). -/
theorem C19_set_get_partial [Zero K] (o o' : Obj K) (long : String) (r : ℕ)
    (h : setValue o long r = .ok o') :
    getValue o' long = .ok (o.arr r) ∧ getPtr o' long = .ok r ∧
    ∀ other, o.nameOf other ≠ o.nameOf long → getValue o' other = getValue o other ∧
      getPtr o' other = getPtr o other := by
  unfold setValue at h
  cases hn : o.nameOf long with
  | none => rw [hn] at h; cases h
  | some a =>
    rw [hn] at h
    simp only [Except.ok.injEq] at h
    subst h
    refine ⟨by simp [getValue, hn], by simp [getPtr, hn], ?_⟩
    intro other hne
    cases hno : o.nameOf other with
    | none => simp [getValue, getPtr, hno]
    | some b =>
      have hba : b ≠ a := fun e => hne (by rw [hno, e])
      simp [getValue, getPtr, hno, hba]

/-- Reading at indices returns exactly the listed entries, in order. -/
theorem C19_get_at_indices (o : Obj K) (long : String) (ids : List ℕ) (l : List K) (r : ℕ)
    (hp : getPtr o long = .ok r) (h : getValueAt o long ids = .ok l) :
    l.length = ids.length ∧ ∀ k (hk : k < ids.length), l[k]? = (o.arr r)[ids[k]]? := by
  unfold getValueAt at h
  rw [hp] at h
  simp only at h
  cases hm : ids.mapM (fun i => (o.arr r)[i]?) with
  | none => rw [hm] at h; cases h
  | some l' =>
    rw [hm] at h
    simp only [Except.ok.injEq] at h
    subst h
    clear hp
    induction ids generalizing l' with
    | nil =>
      simp only [List.mapM_nil, pure, Option.some.injEq] at hm
      subst hm; simp
    | cons i ids ih =>
      simp only [List.mapM_cons, bind, Option.bind] at hm
      cases hx : (o.arr r)[i]? with
      | none => rw [hx] at hm; cases hm
      | some x =>
        rw [hx] at hm
        simp only at hm
        cases hm2 : ids.mapM (fun i => (o.arr r)[i]?) with
        | none => rw [hm2] at hm; cases hm
        | some l2 =>
          rw [hm2] at hm
          simp only [pure, Option.some.injEq] at hm
          subst hm
          obtain ⟨i1, i2⟩ := ih l2 hm2
          refine ⟨by simp [i1], ?_⟩
          intro k hk
          cases k with
          | zero => simp [hx]
          | succ k => simpa using i2 k (by simpa using hk)

/-- Finding: setting values at indices changes no variable at all (attribute names contain no
`.flat[IDs]`). -/
theorem C19_set_at_indices_no_effect [Zero K] (o o' : Obj K) (long : String) (ids : List ℕ) (r : ℕ)
    (hnames : ∀ n a, o.nameOf n = some a → ∀ b, a ≠ b ++ ".flat[IDs]")
    (h : setValueAt o long ids r = .ok o') (other : String) :
    getValue o' other = getValue o other ∧ getPtr o' other = getPtr o other := by
  unfold setValueAt at h
  cases hn : o.nameOf long with
  | none => rw [hn] at h; cases h
  | some a =>
    rw [hn] at h
    simp only [Except.ok.injEq] at h
    subst h
    cases hno : o.nameOf other with
    | none => simp [getValue, getPtr, hno]
    | some b =>
      have := hnames other b hno a
      simp [getValue, getPtr, hno, this]

/-- A component with one variable `x` (attribute `x`), holding `[1, 2, 3]`; the caller's array is at
reference 1. -/
def demoObj : Obj ℚ where
  arr := fun r => if r = 0 then [1, 2, 3] else [9]
  attr := fun a => if a = "x" then some 0 else none
  nameOf := fun n => if n = "long_x" then some "x" else none

/-- C19 is violated: after setting entry 1 to 9, the variable still reads [1, 2, 3]. -/
theorem C19_set_at_indices_violated :
    ∃ o', setValueAt demoObj "long_x" [1] 1 = .ok o' ∧ getValue o' "long_x" = .ok [1, 2, 3] := by
  refine ⟨_, rfl, ?_⟩
  rfl

/-- Finding: after `set_value`, the component shares the caller's array: a later write by the caller
changes the component's variable. -/
theorem C19_set_value_shares [Zero K] (o o' : Obj K) (long : String) (r : ℕ) (v : List K)
    (h : setValue o long r = .ok o') : getValue (poke o' r v) long = .ok v := by
  unfold setValue at h
  cases hn : o.nameOf long with
  | none => rw [hn] at h; cases h
  | some a =>
    rw [hn] at h
    simp only [Except.ok.injEq] at h
    subst h
    simp [getValue, poke, hn]

/-- `update_var` with a unit factor copies the new value into the variable's own array, so that
every holder of a reference to it sees the new value, and later changes of the passed array do not
reach the variable. -/
theorem C19_update_var_in_place [Zero K] [Mul K] [One K] [DecidableEq K] (o o' : Obj K)
    (a : String) (x r : ℕ) (ha : o.attr a = some x) (hxr : x ≠ r)
    (h : updateVar o a (some r) 1 = .ok o') (v : List K) :
    o'.attr = o.attr ∧ o'.arr x = o.arr r ∧ (poke o' r v).arr x = o.arr r ∧
    ∀ y, y ≠ x → o'.arr y = o.arr y := by
  unfold updateVar at h
  simp only [ne_eq, not_true_eq_false, if_false, ha, Except.ok.injEq] at h
  subst h
  refine ⟨rfl, by simp [poke], by simp [poke, hxr], ?_⟩
  intro y hy; simp [poke, hy]

/-- Finding: with another factor the caller's array is multiplied in place. -/
theorem C19_update_var_scales_argument [Mul K] [One K] [DecidableEq K] (o o' : Obj K)
    (a : String) (x r : ℕ) (f : K) (hf : f ≠ 1) (ha : o.attr a = some x) (hxr : x ≠ r)
    (h : updateVar o a (some r) f = .ok o') :
    o'.arr x = (o.arr r).map (· * f) ∧ o'.arr r = (o.arr r).map (· * f) := by
  unfold updateVar at h
  simp only [ne_eq, hf, not_false_eq_true, if_true] at h
  have ha' : (poke o r ((o.arr r).map (· * f))).attr a = some x := ha
  rw [ha'] at h
  simp only [Except.ok.injEq] at h
  subst h
  constructor
  · simp [poke]
  · simp [poke, Ne.symm hxr]

example : ∃ o', setValue demoObj "long_x" 1 = .ok o' ∧ getValue o' "long_x" = .ok [9] :=
  ⟨_, rfl, rfl⟩

example : getValueAt demoObj "long_x" [2, 0] = .ok [3, 1] := rfl

end store

/-! ## C45 -/

/-- Finding: a time obtained from `get_current_time` changes under the caller's hands when the
component is updated: it always reads the component's present time. -/
theorem C45_current_time_is_live {K : Type*} [Field K] (o : TimeObj K) (dts : List K) :
    (dts.foldl TimeObj.advance o).cell o.getCurrentTime = o.cell o.getCurrentTime + dts.sum := by
  have : ∀ (o : TimeObj K), (dts.foldl TimeObj.advance o).cell o.time = o.cell o.time + dts.sum := by
    induction dts with
    | nil => intro o; simp
    | cons d ds ih =>
      intro o
      rw [List.foldl_cons, List.sum_cons]
      have := ih (o.advance d)
      rw [show (o.advance d).time = o.time from rfl] at this
      rw [this]
      simp [TimeObj.advance]; ring
  exact this o

/-- C45 violated: the remembered time is not kept. -/
theorem C45_violated : ∃ o : TimeObj ℚ,
    (o.advance 5).cell o.getCurrentTime ≠ o.cell o.getCurrentTime :=
  ⟨⟨fun _ => 0, 0⟩, by simp [TimeObj.advance, TimeObj.getCurrentTime]⟩

/-! ## C46 -/

/-- The time, in seconds, that the parts of the report add up to. -/
def partsTotal (p : ℚ × ℚ × ℚ × ℚ) : ℚ := p.1 * 86400 + p.2.1 * 3600 + p.2.2.1 * 60 + p.2.2.2

/-- Finding: the reported parts count the same time several times over. -/
theorem C46_parts_overcount (s : ℕ) :
    partsTotal (runTimeParts s) = s + (s % 86400 : ℕ) + (s % 3600 : ℕ) + (s % 60 : ℕ) := by
  unfold partsTotal runTimeParts
  simp only
  have h1 : s % 86400 % 3600 = s % 3600 := by omega
  have h2 : s % 3600 % 60 = s % 60 := by omega
  rw [h1, h2]
  field_simp

/-- The report adds up to the run time only for whole numbers of days. -/
theorem C46_parts_add_up_iff (s : ℕ) :
    partsTotal (runTimeParts s) = s ↔ s % 86400 = 0 := by
  rw [C46_parts_overcount]
  constructor
  · intro h
    have h' : ((s % 86400 + s % 3600 + s % 60 : ℕ) : ℚ) = 0 := by push_cast; linarith
    have : s % 86400 + s % 3600 + s % 60 = 0 := by exact_mod_cast h'
    omega
  · intro h
    have h1 : s % 3600 = 0 := by omega
    have h2 : s % 60 = 0 := by omega
    rw [h, h1, h2]; simp

/-- One and a half hours is reported as 0.0625 day, 1.5 hours, 30 minutes. -/
theorem C46_violated : runTimeParts 5400 = (1/16, 3/2, 30, 0) ∧
    partsTotal (runTimeParts 5400) ≠ 5400 := by
  constructor
  · norm_num [runTimeParts]
  · norm_num [partsTotal, runTimeParts]

end BMI
