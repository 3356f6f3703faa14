import Verif.RoundFormat

/-!
# C253: the snowpack in floating point; C254: the clocks in floating point

The theorems hold for every rounding with the properties listed in `Rounding`; doubles have them
(`binary64`), and so has exact arithmetic (`exactArith`).
-/

set_option autoImplicit false
set_option linter.unusedSectionVars false

/-! Specification. -/
namespace RoundSpec

variable {K : Type*} [Field K]

/-- Water that fell as snow during a history. -/
def fallen (dt : K) (is : List (Round.Inp K)) : K := (is.map (fun i => i.P_snow * dt)).sum

/-- Water released by a history of snowpack states: melt rate times step. -/
def melted (dt : K) (ss : List (Round.Snow K)) : K := (ss.map (fun s => s.SM * dt)).sum

/-- Seconds in a unit of the framework. -/
def factor (K : Type*) [Field K] (units : String) : K :=
  if units = "years" ∨ units = "y" then 31536000
  else if units = "months" then 2628000
  else if units = "days" ∨ units = "d" then 86400
  else if units = "hours" ∨ units = "h" then 3600
  else if units = "minutes" ∨ units = "m" then 60
  else 1

/-- Seconds in a unit of a component (a year has 365 days, a month is a twelfth of it; other names
are taken as seconds). -/
def secondsIn (K : Type*) [Field K] (units : String) : K :=
  if units = "minutes" then 60
  else if units = "hours" then 60 * 60
  else if units = "days" then 24 * 60 * 60
  else if units = "weeks" then 7 * 24 * 60 * 60
  else if units = "months" then 365 * 24 * 60 * 60 / 12
  else if units = "years" then 365 * 24 * 60 * 60
  else 1

end RoundSpec

namespace Round

open RoundSpec

variable {K : Type*} [Field K] [LinearOrder K] [IsStrictOrderedRing K]

/-! ## Rounding -/

theorem Rounding.nonneg (R : Rounding K) {x : K} (h : 0 ≤ x) : 0 ≤ R.rnd x := by
  have := R.mono 0 x h
  rwa [R.zero] at this

theorem Rounding.le_of (R : Rounding K) {x : K} (h : 0 ≤ x) : R.rnd x ≤ x * (1 + R.u) + R.η := by
  have := (abs_le.1 (R.err x)).2
  rw [abs_of_nonneg h] at this
  linarith

theorem Rounding.ge_of (R : Rounding K) {x : K} (h : 0 ≤ x) : x * (1 - R.u) - R.η ≤ R.rnd x := by
  have := (abs_le.1 (R.err x)).1
  rw [abs_of_nonneg h] at this
  linarith

theorem Rounding.max_zero (R : Rounding K) (x : K) : R.rnd (max (R.rnd x) 0) = max (R.rnd x) 0 := by
  rcases max_choice (R.rnd x) 0 with h | h
  · rw [h, R.idem]
  · rw [h, R.zero]

/-! ## C253 -/

theorem newSwe_nonneg (R : Rounding K) (dt P SM h : K) : 0 ≤ newSwe R.rnd dt P SM h :=
  le_max_right _ _

theorem newSwe_float (R : Rounding K) (dt P SM h : K) :
    R.rnd (newSwe R.rnd dt P SM h) = newSwe R.rnd dt P SM h := R.max_zero _

/-- The cap on the melt rate. -/
theorem cap_le (R : Rounding K) {dt h : K} (hdt : 0 < dt) (hh : 0 ≤ h) (SM : K) :
    0 ≤ enforceMax R.rnd dt SM h ∧ enforceMax R.rnd dt SM h ≤ R.rnd (h / dt) ∧
      enforceMax R.rnd dt SM h * dt ≤ h * (1 + R.u) + R.η * dt := by
  have h0 : 0 ≤ R.rnd (h / dt) := R.nonneg (div_nonneg hh hdt.le)
  have h1 : enforceMax R.rnd dt SM h ≤ R.rnd (h / dt) := max_le (min_le_right _ _) h0
  refine ⟨le_max_right _ _, h1, ?_⟩
  have h2 := R.le_of (div_nonneg hh hdt.le)
  have h3 := mul_le_mul_of_nonneg_right (h1.trans h2) hdt.le
  have h4 : (h / dt * (1 + R.u) + R.η) * dt = h * (1 + R.u) + R.η * dt := by
    rw [add_mul, mul_right_comm, div_mul_cancel₀ _ hdt.ne']
  rwa [h4] at h3

/-- One update of the water equivalent: it differs from `h + P dt - SM dt` by a few roundings. -/
theorem swe_error (R : Rounding K) {dt h P SM : K} (hdt : 0 < dt) (hh : 0 ≤ h) (hf : R.rnd h = h)
    (hP : 0 ≤ P) (hS0 : 0 ≤ SM) (hS : SM * dt ≤ h * (1 + R.u) + R.η * dt) :
    |newSwe R.rnd dt P SM h - (h + P * dt - SM * dt)| ≤
      5 * R.u * (h + P * dt) + (4 + dt) * R.η := by
  have hu0 := R.u_nonneg
  have hu1 := R.u_small
  have hη := R.η_nonneg
  have hA : 0 ≤ P * dt := mul_nonneg hP hdt.le
  have hSS : 0 ≤ SM * dt := mul_nonneg hS0 hdt.le
  have hηd : 0 ≤ R.η * dt := mul_nonneg hη hdt.le
  have ea := abs_le.1 (R.err (P * dt))
  rw [abs_of_nonneg hA] at ea
  have ha0 : 0 ≤ R.rnd (P * dt) := R.nonneg hA
  have em := abs_le.1 (R.err (SM * dt))
  rw [abs_of_nonneg hSS] at em
  have hm0 : 0 ≤ R.rnd (SM * dt) := R.nonneg hSS
  have hd : newSwe R.rnd dt P SM h =
      max (R.rnd (R.rnd (h + R.rnd (P * dt)) - R.rnd (SM * dt))) 0 := rfl
  rw [hd]
  generalize hav : R.rnd (P * dt) = a at *
  generalize hmv : R.rnd (SM * dt) = m at *
  have haf : R.rnd a = a := by rw [← hav]; exact R.idem _
  have eb := abs_le.1 (R.add_err h a hf haf)
  have hb0 : 0 ≤ R.rnd (h + a) := R.nonneg (add_nonneg hh ha0)
  rw [abs_of_nonneg (add_nonneg hh ha0)] at eb
  generalize R.rnd (h + a) = b at *
  have ed := abs_le.1 (R.err (b - m))
  have hbm : |b - m| ≤ b + m := by
    rw [abs_le]; constructor <;> linarith
  have hbm' := mul_le_mul_of_nonneg_left hbm hu0
  generalize R.rnd (b - m) = d at *
  generalize hAv : P * dt = A at *
  generalize hSv : SM * dt = S at *
  generalize hηv : R.η * dt = e at *
  generalize R.u = u at *
  generalize R.η = η at *
  have hdη : dt * η = e := by rw [mul_comm]; exact hηv
  -- products with `u`
  have p0 : 0 ≤ u * h := mul_nonneg hu0 hh
  have p1 : 0 ≤ u * A := mul_nonneg hu0 hA
  have p2 : 0 ≤ u * η := mul_nonneg hu0 hη
  have p3 : 0 ≤ u * e := mul_nonneg hu0 hηd
  have q0 : u * h ≤ h / 64 := by have := mul_le_mul_of_nonneg_right hu1 hh; linarith
  have q1 : u * A ≤ A / 64 := by have := mul_le_mul_of_nonneg_right hu1 hA; linarith
  have q2 : u * η ≤ η / 64 := by have := mul_le_mul_of_nonneg_right hu1 hη; linarith
  have q3 : u * e ≤ e / 64 := by have := mul_le_mul_of_nonneg_right hu1 hηd; linarith
  have ua : u * a ≤ 65 / 64 * (u * A) + u * η := by
    have := mul_le_mul_of_nonneg_left (show a ≤ 65 / 64 * A + η by linarith) hu0
    linarith
  have uS : u * S ≤ 65 / 64 * (u * h) + u * e := by
    have := mul_le_mul_of_nonneg_left (show S ≤ 65 / 64 * h + e by linarith) hu0
    linarith
  have ub : u * b ≤ 65 / 64 * (u * h + u * a) := by
    have h1 : b ≤ 65 / 64 * (h + a) := by
      have := mul_le_mul_of_nonneg_right hu1 (add_nonneg hh ha0)
      linarith
    have := mul_le_mul_of_nonneg_left h1 hu0
    linarith
  have um : u * m ≤ 65 / 64 * (u * S) + u * η := by
    have h1 : m ≤ 65 / 64 * S + η := by
      have := mul_le_mul_of_nonneg_right hu1 hSS
      linarith
    have := mul_le_mul_of_nonneg_left h1 hu0
    linarith
  have hmain : |d - (h + A - S)| ≤ 5 * u * (h + A) + (4 + dt) * η := by
    have e1 : 5 * u * (h + A) = 5 * (u * h) + 5 * (u * A) := by ring
    have e2 : (4 + dt) * η = 4 * η + e := by rw [add_mul, hdη]
    have e3 : u * (h + a) = u * h + u * a := by ring
    have e4 : u * (b + m) = u * b + u * m := by ring
    rw [e1, e2, abs_le]
    rw [e3] at eb
    rw [e4] at hbm'
    constructor <;> linarith [ea.1, ea.2, em.1, em.2, eb.1, eb.2, ed.1, ed.2]
  rcases le_total 0 d with h0 | h0
  · rw [max_eq_left h0]; exact hmain
  · rw [max_eq_right h0]
    rcases le_total 0 (h + A - S) with h1 | h1
    · rw [zero_sub, abs_neg, abs_of_nonneg h1]
      have := (abs_le.1 hmain).1
      linarith
    · rw [zero_sub, abs_neg, abs_of_nonpos h1]
      have e2 : (4 + dt) * η = 4 * η + e := by rw [add_mul, hdη]
      have e1 : 5 * u * (h + A) = 5 * (u * h) + 5 * (u * A) := by ring
      have e5 : h * (1 + u) = h + u * h := by ring
      rw [e1, e2]
      rw [e5] at hS
      linarith

section snow

variable {R : Rounding K} {m : Method K} {dt : K}

/-- States and inputs of a history: the state before each update with its input and the state after. -/
theorem snowStates_length (s : Snow K) (is : List (Inp K)) :
    (snowStates R.rnd m dt s is).length = is.length := by
  induction is generalizing s with
  | nil => rfl
  | cons i is ih => exact congrArg Nat.succ (ih _)

/-- C253: whatever the inputs, melt rate, water equivalent and cold content are never negative, and
the depth is not if the density ratio is not. -/
theorem C253_never_negative (s : Snow K) (is : List (Inp K)) (hE : 0 ≤ s.Ecc) :
    ∀ t ∈ snowStates R.rnd m dt s is, 0 ≤ t.SM ∧ 0 ≤ t.h_swe ∧ 0 ≤ t.Ecc ∧
      ((∀ i ∈ is, 0 ≤ i.ratio) → 0 ≤ t.h_snow) := by
  induction is generalizing s with
  | nil => intro t ht; simp [snowStates] at ht
  | cons i is ih =>
    have hE' : 0 ≤ (snowStep R.rnd m dt i s).Ecc := by
      cases m with
      | degreeDay c0 T0 => exact hE
      | energyBalance => exact le_max_right _ _
    intro t ht
    rcases List.mem_cons.1 ht with rfl | ht
    · refine ⟨le_max_right _ _, le_max_right _ _, hE', ?_⟩
      intro hr
      exact R.nonneg (mul_nonneg (le_max_right _ _) (hr i List.mem_cons_self))
    · obtain ⟨a, b, c, d⟩ := ih _ hE' t ht
      exact ⟨a, b, c, fun hr => d (fun j hj => hr j (List.mem_cons_of_mem _ hj))⟩

/-- C253: the melt of an update is at most what the pack holds, up to the rounding of the quotient; an
empty pack releases nothing. -/
theorem C253_melt_capped (hdt : 0 < dt) (i : Inp K) (s : Snow K) (hh : 0 ≤ s.h_swe) :
    (snowStep R.rnd m dt i s).SM ≤ R.rnd (s.h_swe / dt) ∧
    (snowStep R.rnd m dt i s).SM * dt ≤ s.h_swe * (1 + R.u) + R.η * dt ∧
    (s.h_swe = 0 → (snowStep R.rnd m dt i s).SM = 0) := by
  obtain ⟨h1, h2, h3⟩ := cap_le R hdt hh (potentialMelt R.rnd m dt i s)
  refine ⟨h2, h3, ?_⟩
  intro h0
  have h4 : (snowStep R.rnd m dt i s).SM ≤ R.rnd (s.h_swe / dt) := h2
  rw [h0, zero_div, R.zero] at h4
  exact le_antisymm h4 h1

/-- C253: the water balance of one update. -/
theorem C253_update_balance (hdt : 0 < dt) (i : Inp K) (s : Snow K) (hh : 0 ≤ s.h_swe)
    (hf : R.rnd s.h_swe = s.h_swe) (hP : 0 ≤ i.P_snow) :
    |(snowStep R.rnd m dt i s).h_swe -
        (s.h_swe + i.P_snow * dt - (snowStep R.rnd m dt i s).SM * dt)| ≤
      5 * R.u * (s.h_swe + i.P_snow * dt) + (4 + dt) * R.η := by
  obtain ⟨h1, _, h3⟩ := cap_le R hdt hh (potentialMelt R.rnd m dt i s)
  exact swe_error R hdt hh hf hP h1 h3

/-- C253: the water balance of any history: with at most `M` in the pack and falling on it in an
update, the water in the pack is what was there, plus what fell, minus what was released, up to a few
roundings of `M` for each update. -/
theorem C253_balance (hdt : 0 < dt) (M : K) (s : Snow K) (is : List (Inp K)) (hh : 0 ≤ s.h_swe)
    (hf : R.rnd s.h_swe = s.h_swe) (hP : ∀ i ∈ is, 0 ≤ i.P_snow)
    (hM : ∀ x ∈ (s :: snowStates R.rnd m dt s is).zip is, x.1.h_swe + x.2.P_snow * dt ≤ M) :
    |(snowRun R.rnd m dt s is).h_swe -
        (s.h_swe + fallen dt is - melted dt (snowStates R.rnd m dt s is))| ≤
      is.length * (5 * R.u * M + (4 + dt) * R.η) := by
  induction is generalizing s with
  | nil => simp [snowRun, snowStates, fallen, melted]
  | cons i is ih =>
    have h1 := C253_update_balance (m := m) hdt i s hh hf (hP i List.mem_cons_self)
    have hMi : s.h_swe + i.P_snow * dt ≤ M := hM (s, i) (by simp)
    have h2 : |(snowStep R.rnd m dt i s).h_swe -
        (s.h_swe + i.P_snow * dt - (snowStep R.rnd m dt i s).SM * dt)| ≤
        5 * R.u * M + (4 + dt) * R.η := by
      refine h1.trans ?_
      have := mul_le_mul_of_nonneg_left hMi (show 0 ≤ 5 * R.u from mul_nonneg (by norm_num) R.u_nonneg)
      linarith
    have h3 := ih (snowStep R.rnd m dt i s) (le_max_right _ _) (newSwe_float R _ _ _ _)
      (fun j hj => hP j (List.mem_cons_of_mem _ hj)) (fun x hx => hM x (by
        rw [snowStates, List.zip_cons_cons]
        exact List.mem_cons_of_mem _ hx))
    have e1 : fallen dt (i :: is) = i.P_snow * dt + fallen dt is := rfl
    have e2 : melted dt (snowStates R.rnd m dt s (i :: is)) =
        (snowStep R.rnd m dt i s).SM * dt +
          melted dt (snowStates R.rnd m dt (snowStep R.rnd m dt i s) is) := rfl
    have e3 : snowRun R.rnd m dt s (i :: is) = snowRun R.rnd m dt (snowStep R.rnd m dt i s) is := rfl
    rw [e1, e2, e3, List.length_cons]
    push_cast
    have e4 : ((is.length : K) + 1) * (5 * R.u * M + (4 + dt) * R.η) =
        is.length * (5 * R.u * M + (4 + dt) * R.η) + (5 * R.u * M + (4 + dt) * R.η) := by ring
    rw [e4]
    have a2 := abs_le.1 h2
    have a3 := abs_le.1 h3
    rw [abs_le]
    constructor <;> linarith [a2.1, a2.2, a3.1, a3.2]

end snow

section snow64

variable [FloorRing K]

/-- C253: the rounding used for doubles: the result has at most 53 bits and a last place of at least
`2^-1074`, no number of that form is nearer, and numbers of that form are kept. -/
theorem C253_rounding_of_doubles (x : K) :
    (∃ m e : ℤ, |m| ≤ 2 ^ 53 ∧ -1074 ≤ e ∧ rnd64 x = m * 2 ^ e) ∧
    (∀ m e : ℤ, |m| ≤ 2 ^ 53 → -1074 ≤ e → |rnd64 x - x| ≤ |(m : K) * 2 ^ e - x|) ∧
    (∀ m e : ℤ, |m| ≤ 2 ^ 53 → -1074 ≤ e → rnd64 ((m : K) * 2 ^ e) = m * 2 ^ e) :=
  ⟨rnd64_format x, rnd64_nearest x, rnd64_exact⟩

/-- C253 for doubles. -/
theorem C253_doubles {m : Method K} {dt : K} (hdt : 0 < dt) (M : K) (s : Snow K) (is : List (Inp K))
    (hh : 0 ≤ s.h_swe) (hf : rnd64 s.h_swe = s.h_swe) (hP : ∀ i ∈ is, 0 ≤ i.P_snow)
    (hM : ∀ x ∈ (s :: snowStates rnd64 m dt s is).zip is, x.1.h_swe + x.2.P_snow * dt ≤ M) :
    |(snowRun rnd64 m dt s is).h_swe -
        (s.h_swe + fallen dt is - melted dt (snowStates rnd64 m dt s is))| ≤
      is.length * (5 / 2 ^ 53 * M + (4 + dt) / 2 ^ 1075) := by
  have h := C253_balance (R := binary64 K) (m := m) hdt M s is hh hf hP hM
  have e : 5 * (binary64 K).u * M + (4 + dt) * (binary64 K).η =
      5 / 2 ^ 53 * M + (4 + dt) / 2 ^ 1075 := by
    have h1 : (binary64 K).u = 1 / 2 ^ 53 := rfl
    have h2 : (binary64 K).η = 1 / 2 ^ 1075 := by
      show tiny64 K = _
      unfold tiny64
      rw [zpow_neg, one_div]
      norm_cast
    rw [h1, h2]
    ring
  rw [e] at h
  exact h

end snow64

/-- A pack of 1 m and a warm step of 10 s. -/
def demoSnow : Snow ℚ := { SM := 0, h_swe := 1, h_snow := 3, Ecc := 0 }

/-- The cap is the rounded quotient 1/10 s, which is a little more than 1/10: the melt rate times the
step is more than the pack held. -/
theorem C253_cap_rounded : ∃ i : Inp ℚ,
    demoSnow.h_swe < (snowStep rnd64 .energyBalance 10 i demoSnow).SM * 10 :=
  ⟨{ P_snow := 0, T_air := 0, Q_sum := 334000000, ratio := 3 }, by decide +kernel⟩

/-- The hypotheses of `C253_doubles` are met. -/
example : let i : Inp ℚ := { P_snow := 1 / 1024, T_air := 0, Q_sum := 300, ratio := 3 }
    0 ≤ demoSnow.h_swe ∧ rnd64 demoSnow.h_swe = demoSnow.h_swe ∧
    ((demoSnow :: snowStates rnd64 .energyBalance 10 demoSnow [i, i]).zip [i, i]).all
      (fun x => decide (x.1.h_swe + x.2.P_snow * 10 ≤ 2)) = true := by decide +kernel

/-! ## C254 -/

section clock

variable {R : Rounding K} {dt : K}

theorem ticks_succ (units : String) (n : ℕ) :
    (ticks R.rnd units dt (n + 1)).time = R.rnd ((ticks R.rnd units dt n).time + dt) := rfl

theorem ticks_float (units : String) (n : ℕ) :
    R.rnd (ticks R.rnd units dt n).time = (ticks R.rnd units dt n).time := by
  cases n with
  | zero => exact R.zero
  | succ n => exact R.idem _

theorem ticks_index (units : String) (n : ℕ) : (ticks R.rnd units dt n).timeIndex = n := by
  induction n with
  | zero => rfl
  | succ n ih =>
    show (ticks R.rnd units dt n).timeIndex + 1 = n + 1
    rw [ih]

theorem ticks_units (u1 u2 : String) (n : ℕ) :
    (ticks R.rnd u1 dt n).time = (ticks R.rnd u2 dt n).time := by
  induction n with
  | zero => rfl
  | succ n ih => rw [ticks_succ, ticks_succ, ih]

/-- C254: the step counter counts the updates, and the clock never runs backwards. -/
theorem C254_clock_forwards (hdt : 0 ≤ dt) (units : String) (n : ℕ) :
    (ticks R.rnd units dt n).timeIndex = n ∧
    (ticks R.rnd units dt n).time ≤ (ticks R.rnd units dt (n + 1)).time := by
  refine ⟨ticks_index units n, ?_⟩
  rw [ticks_succ]
  have := R.mono _ _ (le_add_of_nonneg_right (a := (ticks R.rnd units dt n).time) hdt)
  rwa [ticks_float] at this

theorem ticks_mono (hdt : 0 ≤ dt) (units : String) {a b : ℕ} (h : a ≤ b) :
    (ticks R.rnd units dt a).time ≤ (ticks R.rnd units dt b).time :=
  monotone_nat_of_le_succ (f := fun n => (ticks R.rnd units dt n).time)
    (fun n => (C254_clock_forwards hdt units n).2) h

theorem ticks_nonneg (hdt : 0 ≤ dt) (units : String) (n : ℕ) :
    0 ≤ (ticks R.rnd units dt n).time := ticks_mono hdt units (Nat.zero_le n)

/-- C254: while the multiples of the step are numbers of the format, the clock is exact. -/
theorem C254_clock_exact (units : String) (n : ℕ) (h : ∀ k ≤ n, R.rnd (k * dt) = k * dt) :
    (ticks R.rnd units dt n).time = n * dt := by
  induction n with
  | zero => simp [ticks, clkInit]
  | succ n ih =>
    rw [ticks_succ, ih (fun k hk => h k (by omega))]
    have := h (n + 1) le_rfl
    push_cast at this ⊢
    rw [← this]
    congr 1
    ring

/-- C254: in general it is off by at most one relative rounding error for each update. -/
theorem C254_clock_error (hdt : 0 ≤ dt) (hf : R.rnd dt = dt) (units : String) (n : ℕ) :
    n * dt * (1 - R.u) ^ n ≤ (ticks R.rnd units dt n).time ∧
    (ticks R.rnd units dt n).time ≤ n * dt * (1 + R.u) ^ n := by
  have hu0 := R.u_nonneg
  have hu1 : 0 ≤ 1 - R.u := by have := R.u_small; linarith
  induction n with
  | zero => simp [ticks, clkInit]
  | succ n ih =>
    obtain ⟨ih1, ih2⟩ := ih
    have ht := ticks_nonneg (R := R) hdt units n
    have he := abs_le.1 (R.add_err _ _ (ticks_float (dt := dt) units n) hf)
    rw [abs_of_nonneg (add_nonneg ht hdt)] at he
    rw [ticks_succ]
    generalize (ticks R.rnd units dt n).time = t at *
    push_cast
    constructor
    · have h1 : (n + 1) * dt * (1 - R.u) ^ (n + 1) ≤ (t + dt) * (1 - R.u) := by
        have h2 : dt * (1 - R.u) ^ n ≤ dt * 1 :=
          mul_le_mul_of_nonneg_left (pow_le_one₀ hu1 (by linarith)) hdt
        have h3 := mul_le_mul_of_nonneg_right (add_le_add ih1 h2) hu1
        calc (n + 1) * dt * (1 - R.u) ^ (n + 1)
            = (n * dt * (1 - R.u) ^ n + dt * (1 - R.u) ^ n) * (1 - R.u) := by ring
          _ ≤ (t + dt * 1) * (1 - R.u) := h3
          _ = _ := by ring
      linarith [he.1]
    · have h1 : (t + dt) * (1 + R.u) ≤ (n + 1) * dt * (1 + R.u) ^ (n + 1) := by
        have h2 : dt * 1 ≤ dt * (1 + R.u) ^ n :=
          mul_le_mul_of_nonneg_left (one_le_pow₀ (by linarith)) hdt
        have h3 := mul_le_mul_of_nonneg_right (add_le_add ih2 h2) (show 0 ≤ 1 + R.u by linarith)
        calc (t + dt) * (1 + R.u) = (t + dt * 1) * (1 + R.u) := by ring
          _ ≤ (n * dt * (1 + R.u) ^ n + dt * (1 + R.u) ^ n) * (1 + R.u) := h3
          _ = _ := by ring
      linarith [he.2]

/-- C254, the clock in seconds and in minutes: after every update they are the time in the units of the
component, converted, up to a few roundings of that time. -/
theorem C254_seconds_clock (hdt : 0 ≤ dt) (units : String) (n : ℕ) :
    let c := ticks R.rnd units dt (n + 1)
    |c.timeSec - c.time * secondsIn K units| ≤ 4 * R.u * (c.time * secondsIn K units) + 400 * R.η ∧
    |c.timeMin - c.timeSec / 60| ≤ R.u * |c.timeSec / 60| + R.η := by
  intro c
  have ht : 0 ≤ c.time := ticks_nonneg (R := R) hdt units (n + 1)
  have hs : c.timeSec = toSec R.rnd units c.time := rfl
  have hm : c.timeMin = R.rnd (c.timeSec / 60) := rfl
  refine ⟨?_, by rw [hm]; exact R.err _⟩
  rw [hs]
  clear hs hm
  generalize c.time = t at ht
  have hu0 := R.u_nonneg
  have hu1 := R.u_small
  have hη := R.η_nonneg
  have hut : 0 ≤ R.u * t := mul_nonneg hu0 ht
  have huη : R.u * R.η ≤ 1 / 64 * R.η := mul_le_mul_of_nonneg_right hu1 hη
  have huη0 : 0 ≤ R.u * R.η := mul_nonneg hu0 hη
  have huut : R.u * (R.u * t) ≤ 1 / 64 * (R.u * t) := mul_le_mul_of_nonneg_right hu1 hut
  have huut0 : 0 ≤ R.u * (R.u * t) := mul_nonneg hu0 hut
  have h1 : ∀ a : K, 0 ≤ a → |R.rnd (t * a) - t * a| ≤ R.u * (t * a) + R.η := by
    intro a ha
    have := R.err (t * a)
    rwa [abs_of_nonneg (mul_nonneg ht ha)] at this
  have h2 : ∀ x : K, 0 ≤ x → |R.rnd x - x| ≤ R.u * x + R.η := by
    intro x hx
    have := R.err x
    rwa [abs_of_nonneg hx] at this
  unfold toSec secondsIn
  by_cases e0 : units = "seconds"
  · subst e0
    simp only [if_true, String.reduceEq, if_false, mul_one, sub_self, abs_zero]
    positivity
  rw [if_neg e0]
  by_cases e1 : units = "minutes"
  · rw [if_pos e1, if_pos e1]
    have := h1 60 (by norm_num)
    nlinarith
  rw [if_neg e1, if_neg e1]
  by_cases e2 : units = "hours"
  · rw [if_pos e2, if_pos e2]
    have := h1 3600 (by norm_num)
    norm_num
    nlinarith
  rw [if_neg e2, if_neg e2]
  have a1 := abs_le.1 (h1 3600 (by norm_num))
  have p1 : 0 ≤ R.rnd (t * 3600) := R.nonneg (by positivity)
  have a2 := abs_le.1 (h2 (R.rnd (t * 3600) * 24) (by positivity))
  have p2 : 0 ≤ R.rnd (R.rnd (t * 3600) * 24) := R.nonneg (by positivity)
  have a3 := abs_le.1 (h2 (R.rnd (R.rnd (t * 3600) * 24) * 7) (by positivity))
  have q1 : R.u * R.rnd (t * 3600) ≤ R.u * (t * 3600 + (R.u * (t * 3600) + R.η)) :=
    mul_le_mul_of_nonneg_left (by linarith [a1.2]) hu0
  by_cases e3 : units = "days"
  · rw [if_pos e3, if_pos e3, abs_le]
    generalize R.rnd (R.rnd (t * 3600) * 24) = y at *
    generalize R.rnd (t * 3600) = x at *
    constructor
    · linarith [a1.1, a2.1]
    · linarith [a1.2, a2.2]
  rw [if_neg e3, if_neg e3]
  by_cases e4 : units = "weeks"
  · rw [if_pos e4, if_pos e4, abs_le]
    have q2 : R.u * R.rnd (R.rnd (t * 3600) * 24) ≤ R.u * (R.rnd (t * 3600) * 24 +
        (R.u * (R.rnd (t * 3600) * 24) + R.η)) :=
      mul_le_mul_of_nonneg_left (by linarith [a2.2]) hu0
    have q3 : R.u * (R.u * R.rnd (t * 3600)) ≤ 1 / 64 * (R.u * R.rnd (t * 3600)) :=
      mul_le_mul_of_nonneg_right hu1 (mul_nonneg hu0 p1)
    generalize R.rnd (R.rnd (R.rnd (t * 3600) * 24) * 7) = z at *
    generalize R.rnd (R.rnd (t * 3600) * 24) = y at *
    generalize R.rnd (t * 3600) = x at *
    constructor
    · linarith [a1.1, a2.1, a3.1]
    · linarith [a1.2, a2.2, a3.2]
  rw [if_neg e4, if_neg e4]
  have b1 := abs_le.1 (h1 31536000 (by norm_num))
  have pb : 0 ≤ R.rnd (t * 31536000) := R.nonneg (by positivity)
  have b2 := abs_le.1 (h2 (R.rnd (t * 31536000) / 12) (by positivity))
  have qb : R.u * R.rnd (t * 31536000) ≤ R.u * (t * 31536000 + (R.u * (t * 31536000) + R.η)) :=
    mul_le_mul_of_nonneg_left (by linarith [b1.2]) hu0
  by_cases e5 : units = "months"
  · rw [if_pos e5, if_pos e5, abs_le]
    generalize R.rnd (R.rnd (t * 31536000) / 12) = y at *
    generalize R.rnd (t * 31536000) = x at *
    constructor
    · linarith [b1.1, b2.1]
    · linarith [b1.2, b2.2]
  rw [if_neg e5, if_neg e5]
  by_cases e6 : units = "years"
  · rw [if_pos e6, if_pos e6, abs_le]
    constructor
    · linarith [b1.1]
    · linarith [b1.2]
  rw [if_neg e6, if_neg e6, mul_one, sub_self, abs_zero]
  positivity

/-- For doubles: 36 updates of a third of an hour. -/
example : |(ticks rnd64 "hours" (rnd64 (1 / 3 : ℚ)) 36).timeSec - 43200| ≤ 1 / 10 ^ 9 := by
  decide +kernel

/-! ### Stopping -/

/-- The loop of the driver stops after the first update at which its rule is met. -/
theorem driverRun_first (rule : Rule K) (k n fuel : ℕ) (hk : k < n) (hf : n ≤ fuel + k)
    (hbefore : ∀ j, k < j → j < n → rule.done (ticks R.rnd "seconds" dt j) = false)
    (hat : rule.done (ticks R.rnd "seconds" dt n) = true) :
    driverRun R.rnd rule dt fuel (ticks R.rnd "seconds" dt k) =
      some (ticks R.rnd "seconds" dt n) := by
  induction fuel generalizing k with
  | zero => omega
  | succ fuel ih =>
    have e : tick R.rnd "seconds" dt (ticks R.rnd "seconds" dt k) =
        ticks R.rnd "seconds" dt (k + 1) := rfl
    rw [driverRun, e]
    by_cases hn : k + 1 = n
    · rw [hn, if_pos hat]
    · rw [hbefore (k + 1) (by omega) (by omega), if_neg (by simp)]
      exact ih (k + 1) (by omega) (by omega) (fun j h1 h2 => hbefore j (by omega) h2)

/-- C254: a run of a given number of steps makes exactly that number, however the clock rounds. -/
theorem C254_n_steps (n : ℤ) (fuel : ℕ) (hf : max 1 n.toNat ≤ fuel) :
    ∃ c, driverRun R.rnd (.nSteps n) dt fuel clkInit = some c ∧ c.timeIndex = max 1 n.toNat := by
  refine ⟨_, driverRun_first (R := R) (.nSteps n) 0 (max 1 n.toNat) fuel (by omega) (by omega) ?_ ?_,
    ticks_index _ _⟩
  · intro j h1 h2
    simp only [Rule.done, ticks_index, ge_iff_le, decide_eq_false_iff_not]
    omega
  · simp only [Rule.done, ticks_index, ge_iff_le, decide_eq_true_eq]
    omega

theorem done_modelTime (T : K) (n : ℕ) :
    (Rule.modelTime T).done (ticks R.rnd "seconds" dt (n + 1)) =
      decide (T ≤ R.rnd ((ticks R.rnd "seconds" dt (n + 1)).time / 60)) := rfl

theorem one_sub_pow (u : K) (hu0 : 0 ≤ u) (hu1 : u ≤ 1) (n : ℕ) : 1 - n * u ≤ (1 - u) ^ n := by
  induction n with
  | zero => simp
  | succ n ih =>
    have h1 := mul_le_mul_of_nonneg_right ih (show 0 ≤ 1 - u by linarith)
    have h2 : 0 ≤ (n : K) * u * u := by positivity
    push_cast
    rw [pow_succ]
    nlinarith

/-- `(1 + u)^n` is at most `1 + 2 n u` while that is at most 2. -/
theorem one_add_pow (u : K) (hu0 : 0 ≤ u) (n : ℕ) (h : 2 * n * u ≤ 1) :
    (1 + u) ^ n ≤ 1 + 2 * n * u := by
  induction n with
  | zero => simp
  | succ n ih =>
    push_cast at h
    have hn : 0 ≤ (n : K) := Nat.cast_nonneg n
    have h1 := mul_le_mul_of_nonneg_right (ih (by nlinarith)) (show 0 ≤ 1 + u by linarith)
    have h2 : 2 * n * u * u ≤ 1 * u := mul_le_mul_of_nonneg_right (by nlinarith) hu0
    push_cast
    rw [pow_succ]
    nlinarith

/-- C254: a run of a given model time makes at most one update more or less than exact clocks would,
as long as the number of updates squared is small against the precision (for doubles: some tens of
millions of updates). -/
theorem C254_model_time_within_one (T : K) (hdt : 0 < dt) (hf : R.rnd dt = dt) (hT : 0 < T)
    (hTf : R.rnd T = T) (c : ℕ) (hc1 : (c : K) * dt < 60 * T) (hc2 : 60 * T ≤ (c + 1) * dt)
    (hsmall : 4 * (c + 2) * (c + 2) * R.u ≤ 1) (hη : R.η ≤ R.u * T) :
    ∃ n, (n = c ∨ n = c + 1 ∨ n = c + 2) ∧ 1 ≤ n ∧ ∀ fuel ≥ n,
      ∃ k, driverRun R.rnd (.modelTime T) dt fuel clkInit = some k ∧ k.timeIndex = n := by
  have hu0 := R.u_nonneg
  have hu1 := R.u_small
  have hcn : 0 ≤ (c : K) := Nat.cast_nonneg c
  -- done after `c + 2`
  have hhi : (Rule.modelTime T).done (ticks R.rnd "seconds" dt (c + 2)) = true := by
    rw [done_modelTime, decide_eq_true_eq]
    have h1 := (C254_clock_error (R := R) hdt.le hf "seconds" (c + 2)).1
    have h2 := one_sub_pow R.u hu0 (by linarith) (c + 2)
    have h3 : (c + 1) * dt ≤ (c + 2 : ℕ) * dt * (1 - R.u) ^ (c + 2) := by
      have h4 : (c + 1 : K) ≤ (c + 2) * (1 - (c + 2) * R.u) := by nlinarith
      have h5 : (c + 2 : K) * (1 - (c + 2) * R.u) ≤ (c + 2) * (1 - R.u) ^ (c + 2) := by
        push_cast at h2
        exact mul_le_mul_of_nonneg_left h2 (by linarith)
      have := mul_le_mul_of_nonneg_right (h4.trans h5) hdt.le
      push_cast
      linarith
    have h6 : T ≤ (ticks R.rnd "seconds" dt (c + 2)).time / 60 := by
      rw [le_div_iff₀ (by norm_num)]; linarith
    have := R.mono _ _ h6
    rwa [hTf] at this
  -- not done before `c`
  have hlo : ∀ j, 0 < j → j < c → (Rule.modelTime T).done (ticks R.rnd "seconds" dt j) = false := by
    intro j hj0 hj
    obtain ⟨i, rfl⟩ := Nat.exists_eq_succ_of_ne_zero hj0.ne'
    rw [Nat.succ_eq_add_one] at *
    rw [done_modelTime, decide_eq_false_iff_not, not_le]
    have hjc : ((i + 1 : ℕ) : K) ≤ c - 1 := by
      have : ((i + 1 + 1 : ℕ) : K) ≤ c := by exact_mod_cast hj
      push_cast at this ⊢
      linarith
    have hj1 : (0 : K) ≤ ((i + 1 : ℕ) : K) := Nat.cast_nonneg _
    have h1 := (C254_clock_error (R := R) hdt.le hf "seconds" (i + 1)).2
    have hc2u : 0 ≤ (c : K) * R.u := mul_nonneg hcn hu0
    have h2 := one_add_pow R.u hu0 (i + 1) (by nlinarith)
    have ht0 := ticks_nonneg (R := R) hdt.le "seconds" (i + 1)
    have h3 := R.le_of (div_nonneg ht0 (show (0 : K) ≤ 60 by norm_num))
    generalize ((i + 1 : ℕ) : K) = j at *
    generalize (ticks R.rnd "seconds" dt (i + 1)).time = t at *
    -- t ≤ (c - 1) dt (1 + 2 c u)
    have h4 : t ≤ (c - 1) * dt * (1 + 2 * c * R.u) := by
      refine h1.trans ?_
      have h5 : (1 + R.u) ^ (i + 1) ≤ 1 + 2 * c * R.u := by
        refine h2.trans ?_
        have := mul_le_mul_of_nonneg_right (show j ≤ (c : K) by linarith) hu0
        nlinarith
      have h6 : j * dt ≤ (c - 1) * dt := mul_le_mul_of_nonneg_right hjc hdt.le
      have h7 : 0 ≤ (c - 1 : K) * dt := mul_nonneg (by linarith) hdt.le
      exact mul_le_mul h6 h5 (by positivity) h7
    have h8 : (c - 1 : K) * (1 + 2 * c * R.u) * (1 + R.u) ≤ c * (1 - R.u) := by
      have g1 : 2 * c * R.u ≤ 1 := by nlinarith
      have g2 : 2 * c * R.u * R.u ≤ 1 * R.u := mul_le_mul_of_nonneg_right g1 hu0
      have g3 : (1 + 2 * c * R.u) * (1 + R.u) ≤ 1 + (2 * c + 2) * R.u := by nlinarith
      have g4 := mul_le_mul_of_nonneg_left g3 (show (0 : K) ≤ c - 1 by linarith)
      nlinarith
    have h9 : t * (1 + R.u) ≤ c * (1 - R.u) * dt := by
      have := mul_le_mul_of_nonneg_right h4 (show 0 ≤ 1 + R.u by linarith)
      have := mul_le_mul_of_nonneg_right h8 hdt.le
      linarith
    have h10 : c * (1 - R.u) * dt < 60 * T * (1 - R.u) := by
      have := mul_lt_mul_of_pos_right hc1 (show 0 < 1 - R.u by linarith)
      linarith
    have h11 : t / 60 * (1 + R.u) = t * (1 + R.u) / 60 := by ring
    rw [h11] at h3
    have h12 : t * (1 + R.u) / 60 < T * (1 - R.u) := by
      rw [div_lt_iff₀ (by norm_num)]; linarith
    linarith
  by_cases hA : 1 ≤ c ∧ (Rule.modelTime T).done (ticks R.rnd "seconds" dt c) = true
  · exact ⟨c, Or.inl rfl, hA.1, fun fuel hfuel => ⟨_, driverRun_first (R := R) (.modelTime T) 0 c fuel
      (by omega) (by omega) hlo hA.2, ticks_index _ _⟩⟩
  · have hlo' : ∀ j, 0 < j → j < c + 1 →
        (Rule.modelTime T).done (ticks R.rnd "seconds" dt j) = false := by
      intro j h1 h2
      rcases Nat.lt_or_ge j c with h3 | h3
      · exact hlo j h1 h3
      · have : j = c := by omega
        subst this
        cases hd : (Rule.modelTime T).done (ticks R.rnd "seconds" dt j) with
        | false => rfl
        | true => exact absurd ⟨h1, hd⟩ hA
    cases hB : (Rule.modelTime T).done (ticks R.rnd "seconds" dt (c + 1)) with
    | true =>
      exact ⟨c + 1, Or.inr (Or.inl rfl), by omega, fun fuel hfuel => ⟨_,
        driverRun_first (R := R) (.modelTime T) 0 (c + 1) fuel (by omega) (by omega) hlo' hB,
        ticks_index _ _⟩⟩
    | false =>
      refine ⟨c + 2, Or.inr (Or.inr rfl), by omega, fun fuel hfuel => ⟨_,
        driverRun_first (R := R) (.modelTime T) 0 (c + 2) fuel (by omega) (by omega) ?_ hhi,
        ticks_index _ _⟩⟩
      intro j h1 h2
      rcases Nat.lt_or_ge j (c + 1) with h3 | h3
      · exact hlo' j h1 h3
      · have : j = c + 1 := by omega
        subst this
        exact hB

/-! ### The framework -/

theorem fwSec_seconds (units : String) (h : factor K units = 1) (t : K) : fwSec R.rnd units t = t := by
  unfold factor at h
  unfold fwSec
  by_cases h1 : units = "years" ∨ units = "y"
  · rw [if_pos h1] at h; norm_num at h
  · rw [if_neg h1] at h ⊢
    by_cases h2 : units = "months"
    · rw [if_pos h2] at h; norm_num at h
    · rw [if_neg h2] at h ⊢
      by_cases h3 : units = "days" ∨ units = "d"
      · rw [if_pos h3] at h; norm_num at h
      · rw [if_neg h3] at h ⊢
        by_cases h4 : units = "hours" ∨ units = "h"
        · rw [if_pos h4] at h; norm_num at h
        · rw [if_neg h4] at h ⊢
          by_cases h5 : units = "minutes" ∨ units = "m"
          · rw [if_pos h5] at h; norm_num at h
          · rw [if_neg h5]

theorem fwSec_other (units : String) (h : factor K units ≠ 1) (t : K) :
    fwSec R.rnd units t = R.rnd (t * factor K units) := by
  unfold factor at h ⊢
  unfold fwSec
  by_cases h1 : units = "years" ∨ units = "y"
  · rw [if_pos h1, if_pos h1]
  · rw [if_neg h1] at h ⊢
    rw [if_neg h1]
    by_cases h2 : units = "months"
    · rw [if_pos h2, if_pos h2]
    · rw [if_neg h2] at h ⊢
      rw [if_neg h2]
      by_cases h3 : units = "days" ∨ units = "d"
      · rw [if_pos h3, if_pos h3]
      · rw [if_neg h3] at h ⊢
        rw [if_neg h3]
        by_cases h4 : units = "hours" ∨ units = "h"
        · rw [if_pos h4, if_pos h4]
        · rw [if_neg h4] at h ⊢
          rw [if_neg h4]
          by_cases h5 : units = "minutes" ∨ units = "m"
          · rw [if_pos h5, if_pos h5]
          · rw [if_neg h5] at h
            exact absurd rfl h

variable {units : String} {fdt : K}

theorem pair_succ_late (n : ℕ)
    (h : (pairRun R.rnd units fdt dt n).time > fwSec R.rnd units (pairRun R.rnd units fdt dt n).ctime) :
    pairRun R.rnd units fdt dt (n + 1) =
      { time := R.rnd ((pairRun R.rnd units fdt dt n).time + fdt)
        ctime := R.rnd ((pairRun R.rnd units fdt dt n).ctime + dt)
        nupd := (pairRun R.rnd units fdt dt n).nupd + 1 } := by
  show pairStep R.rnd units fdt dt _ = _
  unfold pairStep
  simp [h]

theorem pair_succ_early (n : ℕ)
    (h : ¬ (pairRun R.rnd units fdt dt n).time > fwSec R.rnd units (pairRun R.rnd units fdt dt n).ctime) :
    pairRun R.rnd units fdt dt (n + 1) =
      { time := R.rnd ((pairRun R.rnd units fdt dt n).time + fdt)
        ctime := (pairRun R.rnd units fdt dt n).ctime
        nupd := (pairRun R.rnd units fdt dt n).nupd } := by
  show pairStep R.rnd units fdt dt _ = _
  unfold pairStep
  simp [h]

/-- C254: the framework's clock counts its own steps; a component is updated at most once in a pass and
its clock is that of a component updated as often. -/
theorem C254_one_update_per_pass (n : ℕ) :
    (pairRun R.rnd units fdt dt n).time = (ticks R.rnd "seconds" fdt n).time ∧
    (pairRun R.rnd units fdt dt n).ctime =
      (ticks R.rnd units dt (pairRun R.rnd units fdt dt n).nupd).time ∧
    (pairRun R.rnd units fdt dt (n + 1)).nupd ≤ (pairRun R.rnd units fdt dt n).nupd + 1 ∧
    (pairRun R.rnd units fdt dt n).nupd ≤ (pairRun R.rnd units fdt dt (n + 1)).nupd := by
  have hstep : ∀ n, (pairRun R.rnd units fdt dt (n + 1)).nupd ≤ (pairRun R.rnd units fdt dt n).nupd + 1 ∧
      (pairRun R.rnd units fdt dt n).nupd ≤ (pairRun R.rnd units fdt dt (n + 1)).nupd := by
    intro n
    by_cases h : (pairRun R.rnd units fdt dt n).time >
        fwSec R.rnd units (pairRun R.rnd units fdt dt n).ctime
    · rw [pair_succ_late n h]; exact ⟨le_rfl, Nat.le_succ _⟩
    · rw [pair_succ_early n h]; exact ⟨Nat.le_succ _, le_rfl⟩
  refine ⟨?_, ?_, hstep n⟩
  · induction n with
    | zero => rfl
    | succ n ih =>
      show R.rnd ((pairRun R.rnd units fdt dt n).time + fdt) = _
      rw [ih]
      rfl
  · induction n with
    | zero => rfl
    | succ n ih =>
      by_cases h : (pairRun R.rnd units fdt dt n).time >
          fwSec R.rnd units (pairRun R.rnd units fdt dt n).ctime
      · rw [pair_succ_late n h]
        dsimp only
        rw [ticks_succ, ih]
      · rw [pair_succ_early n h]
        exact ih

theorem pair_float (n : ℕ) :
    R.rnd (pairRun R.rnd units fdt dt n).time = (pairRun R.rnd units fdt dt n).time := by
  rw [(C254_one_update_per_pass (R := R) (units := units) (fdt := fdt) (dt := dt) n).1]
  exact ticks_float _ _

theorem pair_time_succ (n : ℕ) :
    (pairRun R.rnd units fdt dt (n + 1)).time = R.rnd ((pairRun R.rnd units fdt dt n).time + fdt) := rfl

/-- C254: with time in seconds, after each pass the component's clock is at or beyond the framework
time at which the pass began, and not beyond that time plus the component's step (rounded). -/
theorem C254_keeps_up_partial (hs : factor K units = 1) (hf0 : 0 ≤ fdt) (hfd : fdt ≤ dt) (n : ℕ) :
    (pairRun R.rnd units fdt dt n).time ≤ (pairRun R.rnd units fdt dt (n + 1)).ctime ∧
    (pairRun R.rnd units fdt dt (n + 1)).ctime ≤
      R.rnd ((pairRun R.rnd units fdt dt n).time + dt) := by
  have hd0 : 0 ≤ dt := hf0.trans hfd
  induction n with
  | zero =>
    have h0 : 0 ≤ R.rnd (0 + dt) := R.nonneg (by rw [zero_add]; exact hd0)
    have h : ¬ (pairRun R.rnd units fdt dt 0).time >
        fwSec R.rnd units (pairRun R.rnd units fdt dt 0).ctime := by
      rw [fwSec_seconds units hs, gt_iff_lt, not_lt]
      exact h0
    rw [pair_succ_early 0 h]
    exact ⟨h0, le_rfl⟩
  | succ n ih =>
    obtain ⟨i1, i2⟩ := ih
    have ht := pair_time_succ (R := R) (units := units) (fdt := fdt) (dt := dt) n
    have hle : (pairRun R.rnd units fdt dt n).time ≤ (pairRun R.rnd units fdt dt (n + 1)).time := by
      have := R.mono _ _ (le_add_of_nonneg_right (a := (pairRun R.rnd units fdt dt n).time) hf0)
      rwa [pair_float, ← ht] at this
    by_cases h : (pairRun R.rnd units fdt dt (n + 1)).time >
        fwSec R.rnd units (pairRun R.rnd units fdt dt (n + 1)).ctime
    · have h' := h
      rw [fwSec_seconds units hs] at h'
      rw [pair_succ_late (n + 1) h]
      dsimp only
      refine ⟨?_, R.mono _ _ (by linarith)⟩
      rw [ht]
      exact R.mono _ _ (by linarith)
    · have h' := h
      rw [fwSec_seconds units hs, gt_iff_lt, not_lt] at h'
      rw [pair_succ_early (n + 1) h]
      exact ⟨h', i2.trans (R.mono _ _ (by linarith))⟩

theorem factor_pos (units : String) : 0 < factor K units := by
  unfold factor
  split_ifs <;> norm_num

theorem fwSec_le (hd : 0 < dt) (hη : R.η ≤ R.u * (dt * factor K units)) {c : K} (hc : dt ≤ c) :
    fwSec R.rnd units c ≤ c * factor K units * (1 + 2 * R.u) := by
  have hF := factor_pos (K := K) units
  have hcF : 0 ≤ c * factor K units := mul_nonneg (hd.le.trans hc) hF.le
  have hu := mul_nonneg hcF R.u_nonneg
  by_cases h : factor K units = 1
  · rw [fwSec_seconds units h]
    rw [h, mul_one] at hu ⊢
    linarith
  · rw [fwSec_other units h]
    have h1 := R.le_of hcF
    have h2 : R.u * (dt * factor K units) ≤ R.u * (c * factor K units) :=
      mul_le_mul_of_nonneg_left (mul_le_mul_of_nonneg_right hc hF.le) R.u_nonneg
    linarith

/-- C254: with any unit, the component's clock is behind the framework's by at most a few relative
rounding errors for each pass. -/
theorem C254_lag_bounded (hd : 0 < dt) (hdf : R.rnd dt = dt) (hf0 : 0 ≤ fdt) (hff : R.rnd fdt = fdt)
    (hfd : fdt ≤ fwSec R.rnd units dt) (hη : R.η ≤ R.u * (dt * factor K units)) (n : ℕ) :
    (pairRun R.rnd units fdt dt n).time * (1 - R.u) ^ (n + 1) ≤
      (pairRun R.rnd units fdt dt (n + 1)).ctime * factor K units * ((1 + 2 * R.u) ^ 2) ^ (n + 1) := by
  have hu0 := R.u_nonneg
  have hu1 := R.u_small
  have hF := factor_pos (K := K) units
  have hD0 : 0 ≤ 1 - R.u := by linarith
  have hD1 : 1 - R.u ≤ 1 := by linarith
  have hB1 : 1 ≤ (1 + 2 * R.u) ^ 2 := one_le_pow₀ (by linarith)
  have hBu : 1 + 2 * R.u ≤ (1 + 2 * R.u) ^ 2 := by nlinarith
  have hct : ∀ n, dt ≤ (pairRun R.rnd units fdt dt n).ctime := by
    intro n
    induction n with
    | zero =>
      show dt ≤ R.rnd (0 + dt)
      rw [zero_add, hdf]
    | succ n ih =>
      by_cases h : (pairRun R.rnd units fdt dt n).time >
          fwSec R.rnd units (pairRun R.rnd units fdt dt n).ctime
      · rw [pair_succ_late n h]
        dsimp only
        have := R.mono dt ((pairRun R.rnd units fdt dt n).ctime + dt) (by linarith)
        rwa [hdf] at this
      · rw [pair_succ_early n h]
        exact ih
  have hearly : ∀ n, ¬ (pairRun R.rnd units fdt dt n).time >
      fwSec R.rnd units (pairRun R.rnd units fdt dt n).ctime →
      (pairRun R.rnd units fdt dt n).time * (1 - R.u) ^ (n + 1) ≤
      (pairRun R.rnd units fdt dt (n + 1)).ctime * factor K units * ((1 + 2 * R.u) ^ 2) ^ (n + 1) := by
    intro n h
    have h' := h
    rw [gt_iff_lt, not_lt] at h'
    have h1 := h'.trans (fwSec_le hd hη (hct n))
    rw [pair_succ_early n h]
    dsimp only
    have hcF : 0 ≤ (pairRun R.rnd units fdt dt n).ctime * factor K units :=
      mul_nonneg (hd.le.trans (hct n)) hF.le
    have h2 : 0 ≤ (pairRun R.rnd units fdt dt n).time := by
      rw [(C254_one_update_per_pass (R := R) (units := units) (fdt := fdt) (dt := dt) n).1]
      exact ticks_nonneg hf0 _ _
    have h3 : (1 - R.u) ^ (n + 1) ≤ 1 := pow_le_one₀ hD0 hD1
    have h4 : (1 + 2 * R.u) ^ 2 ≤ ((1 + 2 * R.u) ^ 2) ^ (n + 1) := le_self_pow₀ hB1 (by omega)
    calc (pairRun R.rnd units fdt dt n).time * (1 - R.u) ^ (n + 1)
        ≤ (pairRun R.rnd units fdt dt n).time * 1 := mul_le_mul_of_nonneg_left h3 h2
      _ ≤ (pairRun R.rnd units fdt dt n).ctime * factor K units * (1 + 2 * R.u) := by
          rw [mul_one]; exact h1
      _ ≤ _ := mul_le_mul_of_nonneg_left (hBu.trans h4) hcF
  induction n with
  | zero =>
    apply hearly 0
    rw [gt_iff_lt, not_lt]
    show 0 ≤ fwSec R.rnd units (R.rnd (0 + dt))
    rw [zero_add, hdf]
    exact hf0.trans hfd
  | succ n ih =>
    by_cases h : (pairRun R.rnd units fdt dt (n + 1)).time >
        fwSec R.rnd units (pairRun R.rnd units fdt dt (n + 1)).ctime
    · rw [pair_succ_late (n + 1) h]
      dsimp only
      have ht0 : 0 ≤ (pairRun R.rnd units fdt dt n).time := by
        rw [(C254_one_update_per_pass (R := R) (units := units) (fdt := fdt) (dt := dt) n).1]
        exact ticks_nonneg hf0 _ _
      have hc := hct (n + 1)
      have hcf : R.rnd (pairRun R.rnd units fdt dt (n + 1)).ctime =
          (pairRun R.rnd units fdt dt (n + 1)).ctime := by
        rw [(C254_one_update_per_pass (R := R) (units := units) (fdt := fdt) (dt := dt) (n + 1)).2.1]
        exact ticks_float _ _
      rw [pair_time_succ]
      have htf := pair_float (R := R) (units := units) (fdt := fdt) (dt := dt) n
      have hfd' := hfd.trans (fwSec_le hd hη le_rfl)
      generalize (pairRun R.rnd units fdt dt n).time = t at *
      generalize (pairRun R.rnd units fdt dt (n + 1)).ctime = c at *
      have e1 := (abs_le.1 (R.add_err t fdt htf hff)).2
      rw [abs_of_nonneg (add_nonneg ht0 hf0)] at e1
      have hc0 : 0 ≤ c := hd.le.trans hc
      have e2 := (abs_le.1 (R.add_err c dt hcf hdf)).1
      rw [abs_of_nonneg (add_nonneg hc0 hd.le)] at e2
      have e1' : R.rnd (t + fdt) ≤ (t + fdt) * (1 + R.u) := by linarith
      have e2' : (c + dt) * (1 - R.u) ≤ R.rnd (c + dt) := by linarith
      generalize factor K units = F at *
      generalize hDv : (1 - R.u) ^ (n + 1) = D at *
      have hDn0 : 0 ≤ D := by rw [← hDv]; exact pow_nonneg hD0 _
      have hDn1 : D ≤ 1 := by rw [← hDv]; exact pow_le_one₀ hD0 hD1
      generalize hBv : ((1 + 2 * R.u) ^ 2) ^ (n + 1) = B at *
      have hBn1 : 1 ≤ B := by rw [← hBv]; exact one_le_pow₀ hB1
      rw [pow_succ (1 - R.u), hDv, pow_succ ((1 + 2 * R.u) ^ 2), hBv]
      have s1 : (t + fdt) * D ≤ c * F * B + dt * F * (1 + 2 * R.u) := by
        have : fdt * D ≤ fdt * 1 := mul_le_mul_of_nonneg_left hDn1 hf0
        linarith
      have s2 : (c * F * B + dt * F * (1 + 2 * R.u)) * (1 + R.u) ≤
          (c + dt) * F * (B * (1 + 2 * R.u) ^ 2) := by
        have hcFB : 0 ≤ c * F * B := by positivity
        have hdF : 0 ≤ dt * F := by positivity
        have g1 : c * F * B * (1 + R.u) ≤ c * F * B * (1 + 2 * R.u) ^ 2 :=
          mul_le_mul_of_nonneg_left (by nlinarith) hcFB
        have g2 : (1 + 2 * R.u) * (1 + R.u) ≤ B * (1 + 2 * R.u) ^ 2 := by
          have : (1 + 2 * R.u) ^ 2 ≤ B * (1 + 2 * R.u) ^ 2 := le_mul_of_one_le_left (by positivity) hBn1
          nlinarith
        have g3 := mul_le_mul_of_nonneg_left g2 hdF
        linarith
      calc R.rnd (t + fdt) * (D * (1 - R.u))
          ≤ (t + fdt) * (1 + R.u) * (D * (1 - R.u)) :=
            mul_le_mul_of_nonneg_right e1' (mul_nonneg hDn0 hD0)
        _ = (t + fdt) * D * (1 + R.u) * (1 - R.u) := by ring
        _ ≤ (c * F * B + dt * F * (1 + 2 * R.u)) * (1 + R.u) * (1 - R.u) := by
            apply mul_le_mul_of_nonneg_right _ hD0
            exact mul_le_mul_of_nonneg_right s1 (by linarith)
        _ ≤ (c + dt) * F * (B * (1 + 2 * R.u) ^ 2) * (1 - R.u) :=
            mul_le_mul_of_nonneg_right s2 hD0
        _ = (c + dt) * (1 - R.u) * (F * (B * (1 + 2 * R.u) ^ 2)) := by ring
        _ ≤ R.rnd (c + dt) * (F * (B * (1 + 2 * R.u) ^ 2)) :=
            mul_le_mul_of_nonneg_right e2' (by positivity)
        _ = _ := by ring
    · exact hearly (n + 1) h

end clock

/-! ### Doubles -/

section clock64

variable [FloorRing K]

theorem tiny_le : tiny64 K ≤ 1 / 2 ^ 53 := by
  unfold tiny64
  have : (2 : K) ^ (-1075 : ℤ) ≤ 2 ^ (-53 : ℤ) := zle (by norm_num)
  refine this.trans (le_of_eq ?_)
  rw [zpow_neg, one_div]
  norm_cast

/-- C254: for doubles, a step that is a whole number (of last places `2^e`) gives an exact clock up to
`2^53` of them. -/
theorem C254_whole_steps (units : String) (m e : ℤ) (he : -1074 ≤ e) (n : ℕ) (hn : n * |m| ≤ 2 ^ 53) :
    (ticks rnd64 units ((m : K) * 2 ^ e) n).time = n * (m * 2 ^ e) := by
  refine C254_clock_exact (R := binary64 K) units n ?_
  intro k hk
  have h := rnd64_exact (K := K) (k * m) e (by
    rw [abs_mul, Nat.abs_cast]
    refine le_trans ?_ hn
    exact mul_le_mul_of_nonneg_right (by exact_mod_cast hk) (abs_nonneg m)) he
  show rnd64 _ = _
  push_cast at h
  rw [← mul_assoc]
  exact h

/-- C254: for doubles, with a step and a model time of whole seconds the run makes exactly as many
updates as exact clocks would. -/
theorem C254_model_time_whole_seconds (m s : ℕ) (T : K) (hm : 1 ≤ m) (hs : 1 ≤ s) (hT : 60 * T = s)
    (hTf : rnd64 T = T) (hsm : s + m ≤ 2 ^ 52) (fuel : ℕ) (hfuel : (s + m - 1) / m ≤ fuel) :
    ∃ c, driverRun rnd64 (.modelTime T) (m : K) fuel clkInit = some c ∧
      c.timeIndex = (s + m - 1) / m ∧ c.time = ((s + m - 1) / m * m : ℕ) := by
  set n := (s + m - 1) / m with hn
  have hnm : n * m ≤ s + m - 1 := Nat.div_mul_le_self _ _
  have hsn : s ≤ n * m := by
    have := Nat.lt_div_mul_add (a := s + m - 1) (b := m) (by omega)
    rw [← hn] at this
    omega
  have hn1 : 1 ≤ n := by
    by_contra h0
    rw [Nat.lt_one_iff.1 (not_le.1 h0)] at hsn
    omega
  have htime : ∀ j ≤ n, (ticks rnd64 "seconds" (m : K) j).time = ((j * m : ℕ) : K) := by
    intro j hj
    have h1 := C254_whole_steps (K := K) "seconds" m 0 (by norm_num) j (by
      rw [Nat.abs_cast]
      have : j * m ≤ n * m := Nat.mul_le_mul_right _ hj
      have h2 : j * m ≤ 2 ^ 53 := by omega
      exact_mod_cast h2)
    rw [zpow_zero, mul_one, Int.cast_natCast] at h1
    rw [h1]
    push_cast
    rfl
  refine ⟨ticks rnd64 "seconds" (m : K) n, ?_, ticks_index (R := binary64 K) _ _, htime n le_rfl⟩
  refine driverRun_first (R := binary64 K) (.modelTime T) 0 n fuel (by omega) (by omega) ?_ ?_
  · intro j h1 h2
    obtain ⟨i, rfl⟩ := Nat.exists_eq_succ_of_ne_zero h1.ne'
    rw [Nat.succ_eq_add_one] at *
    rw [done_modelTime, decide_eq_false_iff_not, not_le]
    show rnd64 ((ticks rnd64 "seconds" (m : K) (i + 1)).time / 60) < T
    rw [htime (i + 1) h2.le]
    have hlt : (i + 1) * m + 1 ≤ s := by
      by_contra hc
      have h3 : s ≤ (i + 1) * m := by omega
      have h4 : s + m - 1 < n * m := by
        have : (i + 1 + 1) * m ≤ n * m := Nat.mul_le_mul_right _ h2
        have e : (i + 1 + 1) * m = (i + 1) * m + m := by ring
        omega
      omega
    have hltK : (((i + 1) * m : ℕ) : K) + 1 ≤ s := by exact_mod_cast hlt
    have hbig : (((i + 1) * m : ℕ) : K) ≤ 2 ^ 52 := by
      have : (i + 1) * m ≤ 2 ^ 52 := by omega
      exact_mod_cast this
    have hx0 : (0 : K) ≤ (((i + 1) * m : ℕ) : K) := Nat.cast_nonneg _
    generalize (((i + 1) * m : ℕ) : K) = x at *
    have h5 := (binary64 K).le_of (div_nonneg hx0 (show (0 : K) ≤ 60 by norm_num))
    have h6 : (binary64 K).u = 1 / 2 ^ 53 := rfl
    have h7 : (binary64 K).η ≤ 1 / 2 ^ 53 := tiny_le
    have h8 : (binary64 K).rnd (x / 60) = rnd64 (x / 60) := rfl
    rw [h6, h8] at h5
    have h9 : x / 60 * (1 + 1 / 2 ^ 53) = x / 60 + x * (1 / 2 ^ 53 / 60) := by ring
    rw [h9] at h5
    have h10 : x * (1 / 2 ^ 53 / 60) ≤ 2 ^ 52 * (1 / 2 ^ 53 / 60) :=
      mul_le_mul_of_nonneg_right hbig (by norm_num)
    have h11 : (2 : K) ^ 52 * (1 / 2 ^ 53 / 60) = 1 / 120 := by norm_num
    have h12 : (1 : K) / 2 ^ 53 < 1 / 1000 := by norm_num
    have h13 : T = s / 60 := by rw [← hT]; ring
    rw [h13]
    have h14 : x / 60 + 1 / 60 ≤ (s : K) / 60 := by
      rw [← add_div]; exact div_le_div_of_nonneg_right hltK (by norm_num)
    linarith
  · obtain ⟨i, hi⟩ := Nat.exists_eq_succ_of_ne_zero (show n ≠ 0 by omega)
    rw [Nat.succ_eq_add_one] at hi
    rw [hi, done_modelTime, ← hi, decide_eq_true_eq]
    show T ≤ rnd64 ((ticks rnd64 "seconds" (m : K) n).time / 60)
    rw [htime n le_rfl]
    have h3 : T ≤ ((n * m : ℕ) : K) / 60 := by
      rw [le_div_iff₀ (by norm_num)]
      have : (s : K) ≤ ((n * m : ℕ) : K) := by exact_mod_cast hsn
      linarith
    have := rnd64_mono h3
    rwa [hTf] at this

/-- C254: for doubles, a run of a given model time makes at most one update more or less than the
`c + 1` that exact clocks would make, for up to some 33 million updates. -/
theorem C254_model_time_doubles (T dt : K) (hdt : 0 < dt) (hf : rnd64 dt = dt)
    (hT : 1 / 2 ^ 200 ≤ T) (hTf : rnd64 T = T) (c : ℕ) (hc1 : (c : K) * dt < 60 * T)
    (hc2 : 60 * T ≤ (c + 1) * dt) (hc : c + 2 ≤ 2 ^ 25) :
    ∃ n, (n = c ∨ n = c + 1 ∨ n = c + 2) ∧ 1 ≤ n ∧ ∀ fuel ≥ n,
      ∃ k, driverRun rnd64 (.modelTime T) dt fuel clkInit = some k ∧ k.timeIndex = n := by
  have hT0 : 0 < T := lt_of_lt_of_le (by positivity) hT
  refine C254_model_time_within_one (R := binary64 K) T hdt hf hT0 hTf c hc1 hc2 ?_ ?_
  · have h1 : (binary64 K).u = 1 / 2 ^ 53 := rfl
    rw [h1]
    have h2 : (c : K) + 2 ≤ 2 ^ 25 := by exact_mod_cast hc
    have h3 : (0 : K) ≤ (c : K) + 2 := by positivity
    have h4 : ((c : K) + 2) * (c + 2) ≤ 2 ^ 25 * 2 ^ 25 := mul_le_mul h2 h2 h3 (by positivity)
    have h5 : (4 : K) * (2 ^ 25 * 2 ^ 25) * (1 / 2 ^ 53) ≤ 1 := by norm_num
    have h6 : 4 * ((c : K) + 2) * (c + 2) * (1 / 2 ^ 53) ≤ 4 * (2 ^ 25 * 2 ^ 25) * (1 / 2 ^ 53) := by
      rw [mul_assoc 4]
      exact mul_le_mul_of_nonneg_right (mul_le_mul_of_nonneg_left h4 (by norm_num)) (by positivity)
    linarith
  · have h1 : (binary64 K).u = 1 / 2 ^ 53 := rfl
    have h2 : (binary64 K).η = 2 ^ (-1075 : ℤ) := rfl
    rw [h1, h2]
    have h3 : (2 : K) ^ (-1075 : ℤ) ≤ 2 ^ (-253 : ℤ) := zle (by norm_num)
    have h4 : (2 : K) ^ (-253 : ℤ) = 1 / 2 ^ 53 * (1 / 2 ^ 200) := by
      rw [show (-253 : ℤ) = -53 + -200 by norm_num, zpow_add₀ (by norm_num), zpow_neg, zpow_neg,
        one_div, one_div]
      norm_cast
    rw [h4] at h3
    exact h3.trans (mul_le_mul_of_nonneg_left hT (by positivity))

end clock64

/-! ### Runs in doubles -/

/-- The double nearest to 0.8. -/
def dt08 : ℚ := 3602879701896397 / 4503599627370496

/-- The double nearest to 0.1. -/
def dt01 : ℚ := 3602879701896397 / 36028797018963968

example : rnd64 (8 / 10 : ℚ) = dt08 ∧ rnd64 (1 / 10 : ℚ) = dt01 := by decide +kernel

/-- C254 violated: one minute in steps of 0.8 s takes 75 updates, and 75 steps of the double nearest to
0.8 are no less than a minute, but the run makes 76: the clock shows 59.999999999999915 s after 75. -/
theorem C254_model_time_violated :
    60 * (1 : ℚ) ≤ 75 * dt08 ∧ ∀ fuel ≥ 76,
      ∃ c, driverRun rnd64 (.modelTime 1) dt08 fuel clkInit = some c ∧ c.timeIndex = 76 := by
  refine ⟨by decide +kernel, fun fuel hf => ⟨_, driverRun_first (R := binary64 ℚ) (.modelTime 1) 0 76
    fuel (by omega) (by omega) ?_ ?_, ticks_index (R := binary64 ℚ) _ _⟩⟩
  · have hall : ∀ j ∈ List.range 76, (Rule.modelTime 1).done (ticks rnd64 "seconds" dt08 j) = false := by
      decide +kernel
    intro j _ h2
    exact hall j (List.mem_range.2 h2)
  · decide +kernel

/-- C254 violated: a component that keeps time in minutes, with a step of 0.1 minutes, and a framework
step of 6 s: after the pass that began at 48 s its clock is still before 48 s. -/
theorem C254_keeps_up_violated :
    fwSec rnd64 "minutes" dt01 = 6 ∧ (pairRun rnd64 "minutes" 6 dt01 8).time = 48 ∧
    fwSec rnd64 "minutes" (pairRun rnd64 "minutes" 6 dt01 9).ctime < 48 := by
  decide +kernel

/-- The hypotheses of `C254_model_time_doubles` are met by that run (`c + 1 = 75`), those of
`C254_model_time_whole_seconds` by half an hour in steps of 7 s, those of `C254_lag_bounded` by steps of
0.1 minutes. -/
example : rnd64 dt08 = dt08 ∧ (1 : ℚ) / 2 ^ 200 ≤ 1 ∧ (74 : ℚ) * dt08 < 60 * 1 ∧
    60 * (1 : ℚ) ≤ (74 + 1) * dt08 := by decide +kernel

example : rnd64 (30 : ℚ) = 30 ∧ 60 * (30 : ℚ) = (1800 : ℕ) ∧ (1800 + 7 - 1) / 7 = 258 := by
  decide +kernel

example : 0 < dt01 ∧ rnd64 dt01 = dt01 ∧ rnd64 (6 : ℚ) = 6 ∧ 6 ≤ fwSec rnd64 "minutes" dt01 ∧
    (2 : ℚ) ^ (-1075 : ℤ) ≤ 1 / 2 ^ 53 * (dt01 * 60) := by decide +kernel

end Round
