import Verif.DriverModel
import Mathlib.Algebra.Order.Floor.Ring
import Mathlib.Algebra.Order.Archimedean.Basic
import Mathlib.Data.Rat.Floor
import Mathlib.Tactic.Linarith
import Mathlib.Tactic.LinearCombination
import Mathlib.Tactic.Ring
import Mathlib.Tactic.FieldSimp
import Mathlib.Tactic.NormNum

/-! # C21 and C43: when runs stop, and what the mass-balance report says -/

set_option autoImplicit false
set_option linter.unusedSectionVars false

namespace DriverSpec
variable {K : Type*} [Field K] [LinearOrder K]

/-- The outlet discharge changed by at most 0.00001 in each of the 500 steps up to step `n`. -/
def SteadyTo (Q : ℕ → K) (n : ℕ) : Prop :=
  500 ≤ n ∧ ∀ i, n - 500 ≤ i → i < n → |Q (i + 1) - Q i| ≤ 1 / 100000

/-- The stopping condition of the method "Q_peak_fraction" at step `n` (step 0 is the start). -/
def PeakStop (Q Qp : ℕ → K) (frac : K) (n : ℕ) : Prop :=
  (Q n < Q (n - 1) ∧ 0 < Q n ∧ Q n ≤ frac * Qp n) ∨ (1 / 100000 < Q n ∧ SteadyTo Q n)

/-- `n` is the first step, counting from 1, at which `P` holds. -/
def First (P : ℕ → Prop) (n : ℕ) : Prop := 1 ≤ n ∧ P n ∧ ∀ m, 1 ≤ m → m < n → ¬ P m

end DriverSpec

namespace Driver
open DriverSpec

variable {K : Type*} [Field K] [LinearOrder K] [IsStrictOrderedRing K]

/-- The invariant of the loop after `k` updates. -/
structure At (d0 : Drv K) (Q : ℕ → K) (k : ℕ) (d : Drv K) : Prop where
  method : d.method = d0.method
  nSteps : d.nSteps = d0.nSteps
  Qpf : d.Qpf = d0.Qpf
  dt : d.dt = d0.dt
  Tstop : d.Tstop = (init d0 (Q 0)).Tstop
  timeIndex : d.timeIndex = k
  time : d.time = k * d0.dt
  timeMin : d.timeMin = k * d0.dt / 60
  Qlast : d.Qlast = Q k
  nonneg : 0 ≤ d.nSame
  nSame : ∀ m : ℕ, (m : ℤ) ≤ d.nSame ↔
    m ≤ k ∧ ∀ i, k - m ≤ i → i < k → |Q (i + 1) - Q i| ≤ 1 / 100000

theorem at_init (d0 : Drv K) (Q : ℕ → K) : At d0 Q 0 (init d0 (Q 0)) := by
  refine ⟨rfl, rfl, rfl, rfl, rfl, rfl, by simp [init], by simp [init], rfl, by simp [init], ?_⟩
  intro m
  have : (init d0 (Q 0)).nSame = 0 := rfl
  rw [this]
  constructor
  · intro h; exact ⟨by omega, fun i _ hi => by omega⟩
  · intro h; omega

/-- The stopping condition of the three methods. -/
def StopAt (d0 : Drv K) (Q Qp : ℕ → K) (n : ℕ) : Prop :=
  (d0.method = "Q_peak_fraction" ∧ PeakStop Q Qp d0.Qpf n) ∨
  (d0.method = "Until_model_time" ∧ d0.TstopModel ≤ n * d0.dt / 60) ∨
  (d0.method = "Until_n_steps" ∧ d0.nSteps ≤ n)

def Known (d0 : Drv K) : Prop :=
  d0.method = "Q_peak_fraction" ∨ d0.method = "Until_model_time" ∨ d0.method = "Until_n_steps"

theorem checkSteady_counter {d0 d : Drv K} {Q : ℕ → K} {k : ℕ} (h : At d0 Q k d) (d1 : Drv K)
    (h1 : d1.Qlast = d.Qlast) (h2 : d1.nSame = d.nSame) :
    0 ≤ (checkSteady d1 (Q (k + 1))).1 ∧
    ∀ m : ℕ, (m : ℤ) ≤ (checkSteady d1 (Q (k + 1))).1 ↔
      m ≤ k + 1 ∧ ∀ i, k + 1 - m ≤ i → i < k + 1 → |Q (i + 1) - Q i| ≤ 1 / 100000 := by
  have hc : (checkSteady d1 (Q (k + 1))).1 =
      if |Q (k + 1) - Q k| ≤ 1 / 100000 then d.nSame + 1 else 0 := by
    unfold checkSteady tol; simp only [h1, h2, h.Qlast]
  rw [hc]
  split_ifs with hs
  · refine ⟨by have := h.nonneg; omega, ?_⟩
    intro m
    cases m with
    | zero =>
      have := h.nonneg
      constructor
      · intro _; exact ⟨by omega, fun i h1 h2 => by omega⟩
      · intro _; simp; omega
    | succ m =>
      rw [show (((m + 1 : ℕ) : ℤ) ≤ d.nSame + 1) ↔ ((m : ℤ) ≤ d.nSame) by push_cast; omega,
        h.nSame m]
      constructor
      · rintro ⟨a, b⟩
        refine ⟨by omega, fun i hi1 hi2 => ?_⟩
        by_cases he : i = k
        · rw [he]; exact hs
        · exact b i (by omega) (by omega)
      · rintro ⟨a, b⟩
        exact ⟨by omega, fun i hi1 hi2 => b i (by omega) (by omega)⟩
  · refine ⟨le_refl _, ?_⟩
    intro m
    constructor
    · intro hm
      have : m = 0 := by omega
      subst this
      exact ⟨by omega, fun i h1 h2 => by omega⟩
    · rintro ⟨a, b⟩
      by_contra hm
      exact hs (b k (by omega) (by omega))

theorem update_ok {d0 d : Drv K} {Q Qp : ℕ → K} {k : ℕ} (h : At d0 Q k d) (hd : d.done = false)
    (hk : Known d0) : ∃ d', update d (Q (k + 1)) (Qp (k + 1)) = .ok d' ∧ At d0 Q (k + 1) d' ∧
      (d'.done = true ↔ StopAt d0 Q Qp (k + 1)) := by
  have ht : d.time + d.dt = ((k + 1 : ℕ) : K) * d0.dt := by
    rw [h.time, h.dt]; push_cast; ring
  set d1 : Drv K := { d with timeIndex := d.timeIndex + 1, time := d.time + d.dt,
                             timeMin := (d.time + d.dt) / 60 } with hd1
  have hcnt := checkSteady_counter h d1 rfl rfl
  have hsteady : (checkSteady d1 (Q (k + 1))).2 = true ↔
      d0.method = "Q_peak_fraction" ∧ 1 / 100000 < Q (k + 1) ∧ SteadyTo Q (k + 1) := by
    have h1 : (checkSteady d1 (Q (k + 1))).2 = true ↔ d1.method = "Q_peak_fraction" ∧
        1 / 100000 < Q (k + 1) ∧ (500 : ℕ) ≤ (checkSteady d1 (Q (k + 1))).1 := by
      unfold checkSteady tol nSameMax
      simp only [decide_eq_true_eq, gt_iff_lt]
      refine and_congr Iff.rfl (and_congr Iff.rfl ?_)
      push_cast; omega
    rw [h1, hcnt.2 500]
    have : d1.method = d0.method := h.method
    rw [this]; rfl
  have hm1 : d1.method = d0.method := h.method
  have inv : ∀ f : Bool, At d0 Q (k + 1)
      { d1 with nSame := (checkSteady d1 (Q (k + 1))).1, Qlast := Q (k + 1),
                done := f || (checkSteady d1 (Q (k + 1))).2 } := by
    intro f
    refine ⟨h.method, h.nSteps, h.Qpf, h.dt, h.Tstop, ?_, ht, ?_, rfl, hcnt.1, hcnt.2⟩
    · simp only [hd1, h.timeIndex]; push_cast; ring
    · simp only [hd1, ht]
  unfold update
  rw [← hd1]
  unfold checkFinished
  rcases hk with hk | hk | hk
  · rw [if_pos (hm1.trans hk)]
    refine ⟨_, rfl, inv _, ?_⟩
    simp only [Bool.or_eq_true, hsteady]
    have hq : d1.Qlast = Q k := h.Qlast
    have hp : d1.Qpf = d0.Qpf := h.Qpf
    have hdn : d1.done = false := hd
    simp only [StopAt, PeakStop, hk, hq, hp, hdn, true_and]
    have e1 : ¬ ("Q_peak_fraction" = "Until_model_time") := by decide
    have e2 : ¬ ("Q_peak_fraction" = "Until_n_steps") := by decide
    simp only [e1, e2, false_and, or_false]
    refine or_congr ?_ Iff.rfl
    rw [Nat.add_sub_cancel]
    split_ifs with hf
    · simp only [decide_eq_true_eq]
      rw [mul_comm]
      constructor
      · rintro ⟨a, b⟩; exact ⟨hf, b, a⟩
      · rintro ⟨_, b, c⟩; exact ⟨c, b⟩
    · simp only [false_iff]
      rintro ⟨a, -⟩; exact hf a
  · have e1 : ¬ ("Until_model_time" = "Q_peak_fraction") := by decide
    have e2 : ¬ ("Until_model_time" = "Until_n_steps") := by decide
    rw [if_neg (by rw [hm1, hk]; exact e1), if_pos (hm1.trans hk)]
    refine ⟨_, rfl, inv _, ?_⟩
    simp only [Bool.or_eq_true, hsteady, StopAt, hk, e1, e2, false_and, false_or, or_false,
      true_and, decide_eq_true_eq]
    have : d1.Tstop = d0.TstopModel := by
      have := h.Tstop
      simp only [init, hk, e1, if_false, if_true] at this
      exact this
    rw [this]
    simp only [hd1, ht]
  · have e1 : ¬ ("Until_n_steps" = "Q_peak_fraction") := by decide
    have e2 : ¬ ("Until_n_steps" = "Until_model_time") := by decide
    rw [if_neg (by rw [hm1, hk]; exact e1), if_neg (by rw [hm1, hk]; exact e2),
      if_pos (hm1.trans hk)]
    refine ⟨_, rfl, inv _, ?_⟩
    simp only [Bool.or_eq_true, hsteady, StopAt, hk, e1, e2, false_and, false_or, or_false,
      true_and, decide_eq_true_eq]
    have : d1.nSteps = d0.nSteps := h.nSteps
    rw [this]
    simp only [hd1, h.timeIndex]
    push_cast; rfl

theorem run_stops {d0 : Drv K} {Q Qp : ℕ → K} (hk : Known d0) {n : ℕ} (hs : StopAt d0 Q Qp n)
    (j : ℕ) : ∀ (k : ℕ) (d : Drv K), k + (j + 1) = n → (∀ m, k < m → m < n → ¬ StopAt d0 Q Qp m) →
      At d0 Q k d → d.done = false →
      ∃ d', At d0 Q n d' ∧ ∀ fuel ≥ j + 1, run Q Qp fuel k d = some (.ok (d', n)) := by
  induction j with
  | zero =>
    intro k d hkn hno ha hd
    have hkn' : k + 1 = n := hkn
    obtain ⟨d', h1, h2, h3⟩ := update_ok (Qp := Qp) ha hd hk
    rw [hkn'] at h2 h3
    have hd' : d'.done = true := h3.2 hs
    refine ⟨d', h2, ?_⟩
    intro fuel hf
    obtain ⟨f, rfl⟩ : ∃ f, fuel = f + 1 := ⟨fuel - 1, by omega⟩
    rw [run, hd]
    simp only [Bool.false_eq_true, if_false, h1]
    cases f <;> simp [run, hd', hkn']
  | succ j ih =>
    intro k d hkn hno ha hd
    obtain ⟨d', h1, h2, h3⟩ := update_ok (Qp := Qp) ha hd hk
    have hd' : d'.done = false := by
      have := mt h3.1 (hno (k + 1) (by omega) (by omega))
      simpa using this
    obtain ⟨d2, h4, h5⟩ := ih (k + 1) d' (by omega) (fun m hm => hno m (by omega)) h2 hd'
    refine ⟨d2, h4, ?_⟩
    intro fuel hf
    obtain ⟨f, rfl⟩ : ∃ f, fuel = f + 1 := ⟨fuel - 1, by omega⟩
    rw [run, hd]
    simp only [Bool.false_eq_true, if_false, h1]
    exact h5 f (by omega)

theorem run_never {d0 : Drv K} {Q Qp : ℕ → K} (hk : Known d0)
    (hs : ∀ n, 1 ≤ n → ¬ StopAt d0 Q Qp n) (fuel : ℕ) : ∀ (k : ℕ) (d : Drv K), At d0 Q k d →
      d.done = false → run Q Qp fuel k d = none := by
  induction fuel with
  | zero => intro k d _ hd; simp [run, hd]
  | succ f ih =>
    intro k d ha hd
    obtain ⟨d', h1, h2, h3⟩ := update_ok (Qp := Qp) ha hd hk
    have hd' : d'.done = false := by
      have := mt h3.1 (hs (k + 1) (by omega))
      simpa using this
    rw [run, hd]
    simp only [Bool.false_eq_true, if_false, h1]
    exact ih (k + 1) d' h2 hd'

/-- The run ends after exactly `n` updates. -/
def EndsAfter (d0 : Drv K) (Q Qp : ℕ → K) (n : ℕ) : Prop :=
  ∃ d' : Drv K, d'.timeIndex = n ∧ d'.time = n * d0.dt ∧
    ∀ fuel ≥ n, run Q Qp fuel 0 (init d0 (Q 0)) = some (.ok (d', n))

theorem endsAfter_of_first {d0 : Drv K} {Q Qp : ℕ → K} (hk : Known d0) {n : ℕ}
    (h : First (StopAt d0 Q Qp) n) : EndsAfter d0 Q Qp n := by
  obtain ⟨h1, h2, h3⟩ := h
  obtain ⟨d', ha, hr⟩ := run_stops hk h2 (n - 1) 0 (init d0 (Q 0)) (by omega)
    (fun m hm hm' => h3 m (by omega) hm') (at_init d0 Q) rfl
  exact ⟨d', ha.timeIndex, ha.time, fun fuel hf => hr fuel (by omega)⟩

/-- **C21 (fraction of peak).** The run ends after `n` updates exactly when `n` is the first step at
which the outlet discharge is falling, positive and at most the given fraction of the peak, or has
been steady for 500 steps at a value above 0.00001. -/
theorem C21_peak_fraction (d0 : Drv K) (Q Qp : ℕ → K) (hm : d0.method = "Q_peak_fraction") (n : ℕ) :
    EndsAfter d0 Q Qp n ↔ First (PeakStop Q Qp d0.Qpf) n := by
  have hiff : ∀ m, StopAt d0 Q Qp m ↔ PeakStop Q Qp d0.Qpf m := by
    intro m
    have e1 : ¬ ("Q_peak_fraction" = "Until_model_time") := by decide
    have e2 : ¬ ("Q_peak_fraction" = "Until_n_steps") := by decide
    simp only [StopAt, hm, e1, e2, false_and, or_false, true_and]
  have hk : Known d0 := Or.inl hm
  constructor
  · rintro ⟨d', -, -, hr⟩
    by_cases hex : ∃ m, 1 ≤ m ∧ StopAt d0 Q Qp m
    · classical
      obtain ⟨h1, h2⟩ := Nat.find_spec hex
      have hf : First (StopAt d0 Q Qp) (Nat.find hex) :=
        ⟨h1, h2, fun m hm1 hm2 hm3 => Nat.find_min hex hm2 ⟨hm1, hm3⟩⟩
      obtain ⟨d2, -, -, hr2⟩ := endsAfter_of_first hk hf
      have a := hr (max n (Nat.find hex)) (le_max_left _ _)
      have b := hr2 (max n (Nat.find hex)) (le_max_right _ _)
      rw [a] at b
      simp only [Option.some.injEq, Except.ok.injEq, Prod.mk.injEq] at b
      rw [b.2]
      exact ⟨hf.1, (hiff _).1 hf.2.1, fun m h1 h2 h3 => hf.2.2 m h1 h2 ((hiff m).2 h3)⟩
    · push Not at hex
      have a := hr n le_rfl
      rw [run_never hk hex n 0 _ (at_init d0 Q) rfl] at a
      cases a
  · rintro ⟨h1, h2, h3⟩
    exact endsAfter_of_first hk
      ⟨h1, (hiff n).2 h2, fun m a b c => h3 m a b ((hiff m).1 c)⟩

/-- If the condition never holds, the run never ends. -/
theorem C21_peak_fraction_never (d0 : Drv K) (Q Qp : ℕ → K) (hm : d0.method = "Q_peak_fraction")
    (h : ∀ n, 1 ≤ n → ¬ PeakStop Q Qp d0.Qpf n) (fuel : ℕ) :
    run Q Qp fuel 0 (init d0 (Q 0)) = none := by
  refine run_never (Or.inl hm) ?_ fuel 0 _ (at_init d0 Q) rfl
  intro n hn
  have e1 : ¬ ("Q_peak_fraction" = "Until_model_time") := by decide
  have e2 : ¬ ("Q_peak_fraction" = "Until_n_steps") := by decide
  simp only [StopAt, hm, e1, e2, false_and, or_false, true_and]
  exact h n hn

/-- Finding: with the method "Q_peak_fraction", a basin whose outlet stays dry (or whose discharge
falls to exactly zero) is never finished. -/
theorem C21_dry_outlet_never_stops (d0 : Drv K) (Q Qp : ℕ → K)
    (hm : d0.method = "Q_peak_fraction") (hQ : ∀ n, 1 ≤ n → Q n ≤ 0) (fuel : ℕ) :
    run Q Qp fuel 0 (init d0 (Q 0)) = none := by
  refine C21_peak_fraction_never d0 Q Qp hm ?_ fuel
  rintro n hn (⟨-, h, -⟩ | ⟨h, -⟩)
  · exact absurd h (not_lt.2 (hQ n hn))
  · have : (0 : K) < 1 / 100000 := by positivity
    linarith [hQ n hn]

/-- **C21 (number of steps).** The run makes exactly the given number of updates (one, if the number
is not positive). -/
theorem C21_n_steps (d0 : Drv K) (Q Qp : ℕ → K) (hm : d0.method = "Until_n_steps") :
    EndsAfter d0 Q Qp (max 1 d0.nSteps.toNat) := by
  have e1 : ¬ ("Until_n_steps" = "Q_peak_fraction") := by decide
  have e2 : ¬ ("Until_n_steps" = "Until_model_time") := by decide
  refine endsAfter_of_first (Or.inr (Or.inr hm)) ⟨by omega, ?_, ?_⟩
  · simp only [StopAt, hm, e1, e2, false_and, false_or, true_and]
    omega
  · intro m h1 h2
    simp only [StopAt, hm, e1, e2, false_and, false_or, true_and]
    omega

/-- **C21 (model time).** The run makes exactly `⌈60 T / dt⌉` updates (at least one), where `T` is
the stopping time in minutes. -/
theorem C21_model_time [FloorRing K] (d0 : Drv K) (Q Qp : ℕ → K)
    (hm : d0.method = "Until_model_time") (hdt : 0 < d0.dt) :
    EndsAfter d0 Q Qp (max 1 ⌈60 * d0.TstopModel / d0.dt⌉.toNat) := by
  have e1 : ¬ ("Until_model_time" = "Q_peak_fraction") := by decide
  have e2 : ¬ ("Until_model_time" = "Until_n_steps") := by decide
  have key : ∀ m : ℕ, StopAt d0 Q Qp m ↔ ⌈60 * d0.TstopModel / d0.dt⌉ ≤ (m : ℤ) := by
    intro m
    simp only [StopAt, hm, e1, e2, false_and, false_or, or_false, true_and]
    rw [Int.ceil_le, Int.cast_natCast, div_le_iff₀ hdt, le_div_iff₀ (by norm_num : (0 : K) < 60),
      mul_comm]
  refine endsAfter_of_first (Or.inr (Or.inl hm)) ⟨by omega, ?_, ?_⟩
  · rw [key]; omega
  · intro m h1 h2
    rw [key]; omega

/-- Any other method makes the first update raise. -/
theorem C21_unknown_method_raises (d0 : Drv K) (Q Qp : ℕ → K) (h : ¬ Known d0) (fuel : ℕ) :
    run Q Qp (fuel + 1) 0 (init d0 (Q 0)) =
      some (.error "RuntimeError: No match found for expression") := by
  unfold Known at h
  push Not at h
  simp [run, update, checkFinished, init, h.1, h.2.1, h.2.2]

/-! ### Non-vacuity -/

/-- A discharge that rises to 10 and then falls: 0, 10, 6, 2, 1, ... ; stop at a quarter of the
peak: step 3. -/
def demoQ : ℕ → ℚ
  | 0 => 0
  | 1 => 10
  | 2 => 6
  | 3 => 2
  | _ => 1

def demoDrv : Drv ℚ := ⟨"Q_peak_fraction", 0, 0, 1/4, 60, 0, 0, 0, 0, 0, 0, false⟩

example : EndsAfter demoDrv demoQ (fun _ => 10) 3 := by
  rw [C21_peak_fraction _ _ _ rfl]
  refine ⟨by norm_num, Or.inl ?_, ?_⟩
  · norm_num [demoQ, demoDrv]
  · intro m h1 h2
    have : m = 1 ∨ m = 2 := by omega
    rintro (⟨a, b, c⟩ | ⟨a, b⟩)
    · rcases this with rfl | rfl
      · norm_num [demoQ] at a
      · norm_num [demoQ, demoDrv] at c
    · have := b.1; omega

/-- A constant discharge of 3 stops after 500 steps. -/
example : EndsAfter demoDrv (fun _ => 3) (fun _ => 3) 500 := by
  rw [C21_peak_fraction _ _ _ rfl]
  refine ⟨by norm_num, Or.inr ⟨by norm_num, le_rfl, fun i _ _ => by norm_num⟩, ?_⟩
  intro m h1 h2
  rintro (⟨a, -⟩ | ⟨-, b, -⟩)
  · exact lt_irrefl _ a
  · omega

/-! ## C43 -/

/-- What the components did to the water, in volumes over the run. -/
structure Fluxes (K : Type*) where
  rain : K
  snow : K
  snowMelt : K
  iceMelt : K
  infil : K
  groundwater : K
  evap : K
  edge : K

/-- Each component keeps its own books, up to a residual (water it loses). -/
structure Books (v : Vols K) (f : Fluxes K) (flood0 ice0 ice : K)
    (rChan rSoil rSnow rIce : K) : Prop where
  precip : v.P = f.rain + f.snow
  evap : v.ET = f.evap
  edge : v.edge = f.edge
  channels : f.rain + f.snowMelt + f.iceMelt + f.groundwater - f.infil - f.evap - f.edge =
    (v.chan + v.flood) - (v.chan0 + flood0) + rChan
  soil : f.infil - f.groundwater = v.soil - v.soil0 + rSoil
  snowpack : f.snow - f.snowMelt = v.swe - v.swe0 + rSnow
  ice : - f.iceMelt = ice - ice0 + rIce

/-- **C43 (exact value of the reported error).** The error printed is the sum of what the components
lose, plus the change in glacier ice (which the report does not know), minus the water that stood on
the flood plain at the start (which the report takes to be zero). -/
theorem C43_reported_error (v : Vols K) (f : Fluxes K) (flood0 ice0 ice : K)
    (rChan rSoil rSnow rIce : K) (h : Books v f flood0 ice0 ice rChan rSoil rSnow rIce) :
    volError v = rChan + rSoil + rSnow + rIce + (ice - ice0) - flood0 := by
  unfold volError storedChange
  have h1 := h.precip
  have h2 := h.evap
  have h3 := h.edge
  have h4 := h.channels
  have h5 := h.soil
  have h6 := h.snowpack
  have h7 := h.ice
  simp only
  linear_combination h1 - h2 - h3 + h4 + h5 + h6 + h7

/-- With conserving components, no change in ice and no water on the flood plain at the start, the
reported error is zero. -/
theorem C43_no_error_partial (v : Vols K) (f : Fluxes K) (ice0 ice : K)
    (h : Books v f 0 ice0 ice 0 0 0 0) (hi : f.iceMelt = 0) : volError v = 0 := by
  have h7 := h.ice
  rw [C43_reported_error v f 0 ice0 ice 0 0 0 0 h]
  linear_combination -h7 - hi

/-- Finding: with conserving components, glacier melt shows up as an error of the same size. -/
theorem C43_ice_melt_reported_as_error (v : Vols K) (f : Fluxes K) (ice0 ice : K)
    (h : Books v f 0 ice0 ice 0 0 0 0) : volError v = - f.iceMelt := by
  have h7 := h.ice
  rw [C43_reported_error v f 0 ice0 ice 0 0 0 0 h]
  linear_combination -h7

/-- Finding: the label is the wrong way round: "gain" is printed exactly when more water came in than
is accounted for, that is when water was lost. -/
theorem C43_label_reversed (v : Vols K) :
    errorLabel v = "volume gain error" ↔
      v.ET + v.edge + (v.chan + v.soil + v.swe + v.flood) < v.P + (v.chan0 + v.soil0 + v.swe0) := by
  have e : ¬ ("volume loss error" = "volume gain error") := by decide
  unfold errorLabel volError storedChange
  split_ifs with h
  · simp only [true_iff]; linarith
  · simp only [e, false_iff, not_lt]; linarith

/-- C43 violated: conserving components, ten units of ice melt flowing out. -/
theorem C43_violated : ∃ (v : Vols ℚ) (f : Fluxes ℚ),
    Books v f 0 10 0 0 0 0 0 ∧ volError v ≠ 0 :=
  ⟨⟨0, 0, 10, 0, 0, 0, 0, 0, 0, 0⟩, ⟨0, 0, 0, 10, 0, 0, 0, 10⟩,
    ⟨by norm_num, by norm_num, by norm_num, by norm_num, by norm_num, by norm_num, by norm_num⟩,
    by norm_num [volError, storedChange]⟩

/-- Non-vacuity of `C43_no_error_partial`: rain 5, evaporation 1, outflow 2, storage 2. -/
example : ∃ (v : Vols ℚ) (f : Fluxes ℚ), Books v f 0 0 0 0 0 0 0 ∧ f.iceMelt = 0 ∧ v.P = 5 :=
  ⟨⟨5, 1, 2, 0, 2, 0, 0, 0, 0, 0⟩, ⟨5, 0, 0, 0, 0, 0, 1, 2⟩,
    ⟨by norm_num, by norm_num, by norm_num, by norm_num, by norm_num, by norm_num, by norm_num⟩,
    rfl, rfl⟩

end Driver
