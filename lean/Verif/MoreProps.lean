import Verif.DriverProps
import Verif.EvapProps
import Verif.HeapProps
import Verif.InfilProps
import Verif.InputProps
import Verif.MetEnergyProps
import Verif.OutputProps
import Verif.RtiProps

/-!
# Further theorems about modelled functions

These were added because an edited model (seeded/LOG.jsonl) still satisfied the theorems of the
other files.
-/

set_option autoImplicit false
set_option linter.unusedSectionVars false

open D8 (Cell)

/-! ## C21: what the driver reports about the length of the run -/

namespace Driver
open DriverSpec

variable {K : Type*} [Field K] [LinearOrder K] [IsStrictOrderedRing K]

/-- **C21.** Before the first update all clocks are zero and the planned end, in minutes, is that of
the chosen method: 0 if the end depends on the discharge, the given time, or the given number of
steps times the step. -/
theorem C21_planned_end (d0 : Drv K) (Q0 : K) :
    let d := init d0 Q0
    d.timeIndex = 0 ∧ d.time = 0 ∧ d.timeMin = 0 ∧ d.done = false ∧
    (d0.method = "Q_peak_fraction" → d.Tstop = 0) ∧
    (d0.method = "Until_model_time" → d.Tstop = d0.TstopModel) ∧
    (d0.method = "Until_n_steps" → d.Tstop * 60 = d0.nSteps * d0.dt) := by
  refine ⟨rfl, rfl, rfl, rfl, fun h => ?_, fun h => ?_, fun h => ?_⟩
  · simp [init, h]
  · simp [init, h]
  · have h60 : (60 : K) ≠ 0 := by norm_num
    simp [init, h]

/-- **C21.** A run with a given positive number of steps ends, in minutes, exactly at its planned
end. -/
theorem C21_ends_as_planned (d0 : Drv K) (Q Qp : ℕ → K) (hm : d0.method = "Until_n_steps")
    (hn : 0 < d0.nSteps) :
    ∃ d' : Drv K, d'.timeMin = (init d0 (Q 0)).Tstop ∧ d'.Tstop = (init d0 (Q 0)).Tstop ∧
      d'.timeMin * 60 = d'.time ∧
      ∀ fuel ≥ d0.nSteps.toNat,
        run Q Qp fuel 0 (init d0 (Q 0)) = some (.ok (d', d0.nSteps.toNat)) := by
  have e1 : ¬ ("Until_n_steps" = "Q_peak_fraction") := by decide
  have e2 : ¬ ("Until_n_steps" = "Until_model_time") := by decide
  have hs : ∀ n, StopAt d0 Q Qp n ↔ d0.nSteps ≤ n := by
    intro n
    simp only [StopAt, hm, e1, e2, false_and, false_or, true_and]
  obtain ⟨d', ha, hr⟩ := run_stops (Or.inr (Or.inr hm)) ((hs d0.nSteps.toNat).2 (by omega))
    (d0.nSteps.toNat - 1) 0 (init d0 (Q 0)) (by omega)
    (fun m hm hm' => by rw [hs]; omega) (at_init d0 Q) rfl
  have h60 : (60 : K) ≠ 0 := by norm_num
  have hc : ((d0.nSteps.toNat : ℕ) : K) = (d0.nSteps : K) := by
    have := congrArg (Int.cast : ℤ → K) (Int.toNat_of_nonneg hn.le)
    rwa [Int.cast_natCast] at this
  refine ⟨d', ?_, ha.Tstop, ?_, fun fuel hf => hr fuel (by omega)⟩
  · rw [ha.timeMin, hc]
    simp [init, hm]
  · rw [ha.timeMin, ha.time]; field_simp

end Driver

/-! ## C49: the soil heat flux -/

namespace Evap

/-- **C49.** Heat is conducted from the surface into the soil exactly when the surface is warmer,
in proportion to the temperature difference, and half as much over twice the depth. -/
theorem C49_soil_heat {k x : ℝ} (hk : 0 < k) (hx : 0 < x) (tSurf tSoil : ℝ) :
    (0 < soilHeat k tSurf tSoil x ↔ tSoil < tSurf) ∧
    (soilHeat k tSurf tSoil x < 0 ↔ tSurf < tSoil) ∧
    soilHeat k tSoil tSurf x = - soilHeat k tSurf tSoil x ∧
    (∀ m : ℝ, soilHeat k (tSoil + m * (tSurf - tSoil)) tSoil x = m * soilHeat k tSurf tSoil x) ∧
    soilHeat k tSurf tSoil (2 * x) = soilHeat k tSurf tSoil x / 2 ∧
    soilHeat k (tSoil + x) tSoil x = k := by
  have hkx : 0 < k / x := div_pos hk hx
  have e : ∀ a b, soilHeat k a b x = k / x * (a - b) := by
    intro a b; unfold soilHeat; field_simp
  refine ⟨?_, ?_, ?_, fun m => ?_, ?_, ?_⟩
  · rw [e, mul_pos_iff_of_pos_left hkx, sub_pos]
  · rw [e, ← not_le, mul_nonneg_iff_of_pos_left hkx, sub_nonneg, not_le]
  · rw [e, e]; ring
  · rw [e, e]; ring
  · unfold soilHeat; field_simp
  · rw [e]; field_simp; ring

end Evap

/-! ## C13: capacity and size records of the heap -/

namespace Heap
open HeapSpec

variable {K : Type*} [LinearOrder K]

theorem exec_size {s s' : St K} {ops : List (Op K)} (h : Exec s ops s') : s'.size = s.size := by
  induction h with
  | nil => rfl
  | insert h _ ih =>
    rw [ih]
    unfold insert at h
    dsimp only at h
    split_ifs at h
    cases h; rfl
  | getMin h _ ih =>
    rw [ih]
    unfold getMin at h
    split_ifs at h
    simp only [Option.some.injEq, Prod.mk.injEq] at h
    rw [← h.2]

/-- **C13 (partial).** After any history on a fresh heap for a grid of `ny` by `nx` cells, a finite
value can be inserted exactly if fewer than `500 * (nx + ny)` values are stored. -/
theorem C13_capacity_partial {zero : K} {nx ny : ℕ} {ops : List (Op K)} {s : St K}
    (h : Exec (init zero nx ny) ops s) (x : K) (ID : ℤ) :
    (∃ s', insert s (some x) ID = .ok s') ↔ s.n < 500 * (nx + ny) := by
  have hs : s.size = 500 * (nx + ny) + 1 := exec_size h
  unfold insert
  dsimp only
  constructor
  · rintro ⟨s', h'⟩
    split_ifs at h' with h1
    omega
  · intro h1
    rw [if_pos (by omega)]
    exact ⟨_, rfl⟩

/-- The size after a history, from the history alone. -/
def sizeAfter (n : ℕ) : List (Op K) → ℕ
  | [] => n
  | .insert _ _ :: ops => sizeAfter (n + 1) ops
  | .getMin _ _ :: ops => sizeAfter (n - 1) ops

/-- The largest size during a history. -/
def largest (n : ℕ) : List (Op K) → ℕ
  | [] => n
  | .insert _ _ :: ops => max n (largest (n + 1) ops)
  | .getMin _ _ :: ops => max n (largest (n - 1) ops)

theorem le_largest (n : ℕ) (ops : List (Op K)) : n ≤ largest n ops := by
  cases ops with
  | nil => exact le_rfl
  | cons o ops => cases o <;> exact le_max_left _ _

/-- **C13 (partial).** The recorded maximal size is the largest number of values that were in the
heap at one time. -/
theorem C13_maximal_size_partial {zero : K} {nx ny : ℕ} {ops : List (Op K)} {s : St K}
    (h : Exec (init zero nx ny) ops s) : s.n = sizeAfter 0 ops ∧ s.nmax = largest 0 ops := by
  have key : ∀ (s s' : St K) (ops : List (Op K)), Exec s ops s' → s.n ≤ s.nmax →
      s'.n = sizeAfter s.n ops ∧ s'.nmax = max s.nmax (largest s.n ops) := by
    intro s s' ops h
    induction h with
    | nil => intro hn; exact ⟨rfl, (max_eq_left hn).symm⟩
    | @insert s s1 s2 x ID ops h _ ih =>
      intro hn
      unfold insert at h
      dsimp only at h
      split_ifs at h
      cases h
      obtain ⟨h1, h2⟩ := ih (le_max_right _ _)
      refine ⟨h1, ?_⟩
      rw [h2]
      have := le_largest (s.n + 1) ops
      simp only [largest]
      omega
    | @getMin s s1 s2 x ID ops h _ ih =>
      intro hn
      unfold getMin at h
      split_ifs at h
      simp only [Option.some.injEq, Prod.mk.injEq] at h
      obtain ⟨-, rfl⟩ := h
      obtain ⟨h1, h2⟩ := ih (by dsimp only; omega)
      refine ⟨h1, ?_⟩
      rw [h2]
      have := le_largest (s.n - 1) ops
      simp only [largest]
      omega
  obtain ⟨h1, h2⟩ := key _ _ _ h le_rfl
  refine ⟨h1, ?_⟩
  rw [h2]
  exact max_eq_right (Nat.zero_le _)

/-- **C13 (negative).** In Python 3, after `k` attempts to insert finite values into a fresh heap all
have raised, the heap holds no value, and the recorded size and maximal size are `k`. -/
theorem C13_python3_attempts (zero : K) (nx ny : ℕ) (xs : List (K × ℤ)) :
    let s := xs.foldl (fun s x => match insertPy3 s (some x.1) x.2 with
      | .ok s => s
      | .raised s => s) (init zero nx ny)
    s.n = xs.length ∧ s.nmax = xs.length ∧ s.a = fun _ => (zero, 0) := by
  have key : ∀ (xs : List (K × ℤ)) (s : St K), s.nmax = s.n →
      let s' := xs.foldl (fun s x => match insertPy3 s (some x.1) x.2 with
        | .ok s => s
        | .raised s => s) s
      s'.n = s.n + xs.length ∧ s'.nmax = s.n + xs.length ∧ s'.a = s.a := by
    intro xs
    induction xs with
    | nil => intro s h; exact ⟨rfl, h, rfl⟩
    | cons x xs ih =>
      intro s h
      obtain ⟨h1, h2, h3⟩ := ih { s with n := s.n + 1, nmax := max s.nmax (s.n + 1) } (by
        dsimp only; omega)
      simp only [List.foldl_cons, insertPy3, List.length_cons] at h1 h2 h3 ⊢
      exact ⟨by rw [h1]; omega, by rw [h2]; omega, h3⟩
  obtain ⟨h1, h2, h3⟩ := key xs (init zero nx ny) rfl
  exact ⟨by rw [h1]; simp [init], by rw [h2]; simp [init], h3⟩

end Heap

/-! ## C29: before the first update, and the totals -/

namespace Infil

variable {ny nx : ℕ}

/-- **C29.** Before the first update nothing has infiltrated, in rate or volume (the infiltrated
depth starts at the small positive number that keeps the formulas defined). -/
theorem C29_start (b : Bool) (c : Cell ny nx) :
    let s : St ny nx := initSt b
    s.IN.at c = 0 ∧ s.v0.at c = 0 ∧ s.Rg.at c = 0 ∧ s.I.at c = 1e-6 ∧ s.vol_v0 = 0 ∧
      s.vol_IN = 0 ∧ s.vol_Rg = 0 := by
  cases b <;> exact ⟨rfl, rfl, rfl, rfl, rfl, rfl, rfl⟩

/-- **C29.** The three reported totals are the sums of rate times area times step over all updates:
of the rate before the adjustment at the water table, of the rate after it, and of the recharge,
which is the same as the latter. -/
theorem C29_totals (p : Params ny nx) (b : Bool) (is : List (Inp ny nx)) :
    let s := fun k => run p (initSt b) (is.take k)
    (s is.length).vol_v0 = ∑ k ∈ Finset.range is.length, ∑ c, (s (k + 1)).v0.at c * p.da c * p.dt ∧
    (s is.length).vol_IN = ∑ k ∈ Finset.range is.length, ∑ c, (s (k + 1)).IN.at c * p.da c * p.dt ∧
    (s is.length).vol_Rg = (s is.length).vol_IN := by
  intro s
  have hrun : ∀ (l : List (Inp ny nx)) (i : Inp ny nx) (t : St ny nx),
      run p t (l ++ [i]) = step p i (run p t l) := by
    intro l
    induction l with
    | nil => intro i t; rfl
    | cons a l ih => intro i t; exact ih i _
  have hs : ∀ k, ∀ h : k < is.length, s (k + 1) = step p is[k] (s k) := by
    intro k h
    show run p _ _ = _
    rw [List.take_succ_eq_append_getElem h, hrun]
  have key : ∀ n, n ≤ is.length →
      (s n).vol_v0 = ∑ k ∈ Finset.range n, ∑ c, (s (k + 1)).v0.at c * p.da c * p.dt ∧
      (s n).vol_IN = ∑ k ∈ Finset.range n, ∑ c, (s (k + 1)).IN.at c * p.da c * p.dt ∧
      (s n).vol_Rg = (s n).vol_IN := by
    intro n
    induction n with
    | zero =>
      intro _
      have h0 : s 0 = initSt b := rfl
      rw [h0]
      exact ⟨by simp [initSt], by simp [initSt], rfl⟩
    | succ n ih =>
      intro hn
      obtain ⟨h1, h2, h3⟩ := ih (by omega)
      have e := hs n (by omega)
      rw [Finset.sum_range_succ, Finset.sum_range_succ, ← h1, ← h2, e]
      exact ⟨rfl, rfl, congrArg (fun v => v + _) h3⟩
  exact key _ le_rfl

end Infil

/-! ## C40: before the first read -/

namespace Input

variable {K : Type*} [Field K] [LinearOrder K] {ny nx : ℕ}

/-- **C40.** Before anything has been read a scalar variable has the value of the configuration file
and all others are zero in every cell; every one of them can take what its kind of file delivers. -/
theorem C40_before_first_read (v0 : K) (c : Cell ny nx) :
    (initVar .scalar v0 : Val K ny nx).at c = v0 ∧
    (initVar .timeSeries v0 : Val K ny nx).at c = 0 ∧
    (initVar .grid v0 : Val K ny nx).at c = 0 ∧ (initVar .gridSequence v0 : Val K ny nx).at c = 0 ∧
    (∀ a f : K, ∃ x, updateVar (initVar .timeSeries v0 : Val K ny nx) (some (.sc a)) f = .ok x) ∧
    (∀ g f, ∃ x, updateVar (initVar .grid v0 : Val K ny nx) (some (.gr g)) f = .ok x) ∧
    (∀ g f, ∃ x, updateVar (initVar .gridSequence v0 : Val K ny nx) (some (.gr g)) f = .ok x) :=
  ⟨rfl, rfl, rfl, rfl, fun _ _ => ⟨_, rfl⟩, fun _ _ => ⟨_, rfl⟩, fun _ _ => ⟨_, rfl⟩⟩

end Input

/-! ## C55, C56, C58: constants and scaling of the energy formulas -/

namespace MetEnergy

noncomputable section

/-- **C55.** Both formulas give between 6.02 and 6.12 millibar at the freezing point. -/
theorem C55_freezing_point (b : Bool) : 6.02 ≤ eSat b 0 ∧ eSat b 0 ≤ 6.12 := by
  cases b
  · simp only [eSat, Bool.false_eq_true, if_false]
    norm_num
  · simp only [eSat, if_true, zero_add]
    have h1 : (10 : ℝ) ^ ((139 : ℝ) / 50) ≤ (10 : ℝ) ^ ((11.4 : ℝ) - 2353 / 273.15) :=
      Real.rpow_le_rpow_of_exponent_le (by norm_num) (by norm_num)
    have h2 : (10 : ℝ) ^ ((11.4 : ℝ) - 2353 / 273.15) ≤ (10 : ℝ) ^ ((39 : ℝ) / 14) :=
      Real.rpow_le_rpow_of_exponent_le (by norm_num) (by norm_num)
    have key : ∀ (n m : ℕ), m ≠ 0 → ((10 : ℝ) ^ ((n : ℝ) / m)) ^ m = 10 ^ n := by
      intro n m hm
      have : (m : ℝ) ≠ 0 := by exact_mod_cast hm
      rw [← Real.rpow_natCast, ← Real.rpow_mul (by norm_num), ← Real.rpow_natCast]
      congr 1; field_simp
    have k1 : (602 : ℝ) ≤ (10 : ℝ) ^ ((139 : ℝ) / 50) := by
      apply le_of_pow_le_pow_left₀ (n := 50) (by norm_num) (by positivity)
      have := key 139 50 (by norm_num)
      push_cast at this
      rw [this]; norm_num
    have k2 : (10 : ℝ) ^ ((39 : ℝ) / 14) ≤ (612 : ℝ) := by
      apply le_of_pow_le_pow_left₀ (n := 14) (by norm_num) (by positivity)
      have := key 39 14 (by norm_num)
      push_cast at this
      rw [this]; norm_num
    constructor <;> linarith

/-- **C55.** The precipitable water grows with the dew point, is 1.12 cm at a dew point of zero, and
is multiplied by the same factor for each degree. -/
theorem C55_precipitable_water (T T' : ℝ) :
    precipitableWater 0 = 1.12 ∧ 0 < precipitableWater T ∧
    (precipitableWater T < precipitableWater T' ↔ T < T') ∧
    precipitableWater (T + T') * precipitableWater 0 = precipitableWater T * precipitableWater T' ∧
    precipitableWater (T + 1) = precipitableWater T * Real.exp 0.0614 := by
  unfold precipitableWater
  refine ⟨by simp, by positivity, ?_, ?_, ?_⟩
  · rw [mul_lt_mul_iff_right₀ (by norm_num : (0:ℝ) < 1.12), Real.exp_lt_exp,
      mul_lt_mul_iff_right₀ (by norm_num : (0:ℝ) < 0.0614)]
  · rw [mul_add, Real.exp_add]; simp; ring
  · rw [mul_add, Real.exp_add]; simp; ring

/-- **C56.** The bulk Richardson number is the ratio of the buoyancy over the height `z` to the square
of the wind speed: gravity times height times temperature difference, per absolute temperature. -/
theorem C56_richardson (z uz T_air T_surf : ℝ) (hu : 0 < uz) (hT : 0 < T_air + 273.15) :
    richardson z uz T_air T_surf * (uz * uz) * (T_air + 273.15) = 9.81 * z * (T_air - T_surf) := by
  unfold richardson
  field_simp

/-- **C56.** The neutral exchange coefficient is that of the logarithmic wind profile: if `us` is the
friction velocity of that profile (wind speed `uz` at height `z` above a surface with snow depth
`h_snow` and roughness `z0`), then coefficient times wind speed is `us` squared. -/
theorem C56_log_profile (z h_snow z0 uz us : ℝ) (h : uz = us / 0.408 * Real.log ((z - h_snow) / z0))
    (hl : Real.log ((z - h_snow) / z0) ≠ 0) :
    neutralConductance z h_snow z0 uz * uz = us ^ 2 := by
  unfold neutralConductance
  have hus : us = 0.408 * uz / Real.log ((z - h_snow) / z0) := by
    rw [h]; field_simp
  rw [hus]
  field_simp

/-- **C58.** By Satterlund's method the emissivity of the air lies between 0 and 1.08, grows with the
vapour pressure, and at one millibar falls short of its bound by the factor `exp (-1)`. -/
theorem C58_satterlund (F C e e' T : ℝ) (he : 0 < e) (hee : e < e') (hT : -273.15 < T) :
    0 < airEmissivity true F C e T ∧ airEmissivity true F C e T < 1.08 ∧
    airEmissivity true F C e T < airEmissivity true F C e' T ∧
    airEmissivity true F C 1 T = 1.08 - 1.08 * Real.exp (-1) := by
  simp only [airEmissivity, if_true]
  have hK : 0 < T + 273.15 := by linarith
  have p1 : 0 < e ^ ((T + 273.15) / 2016) := by positivity
  have p2 : e ^ ((T + 273.15) / 2016) < e' ^ ((T + 273.15) / 2016) :=
    Real.rpow_lt_rpow he.le hee (by positivity)
  refine ⟨?_, ?_, ?_, ?_⟩
  · have : Real.exp (-1 * e ^ ((T + 273.15) / 2016)) < 1 := by
      rw [Real.exp_lt_one_iff]; linarith
    nlinarith
  · have := Real.exp_pos (-1 * e ^ ((T + 273.15) / 2016))
    nlinarith
  · have : Real.exp (-1 * e' ^ ((T + 273.15) / 2016)) < Real.exp (-1 * e ^ ((T + 273.15) / 2016)) :=
      Real.exp_lt_exp.2 (by linarith)
    nlinarith
  · rw [Real.one_rpow]; norm_num; ring

end

end MetEnergy

/-! ## C41: time units -/

namespace Output

variable {K : Type*} [Field K] [LinearOrder K] [IsStrictOrderedRing K]

/-- The units and their lengths in seconds, for a year of the given length. -/
def unitTable (year : K) : List (String × K) :=
  [("seconds", 1), ("minutes", 60), ("hours", 60 * 60), ("days", 24 * 60 * 60),
   ("weeks", 7 * 24 * 60 * 60), ("months", year / 12), ("years", year)]

/-- **C41.** The factor to seconds is the length of the unit, and 1 for other names. -/
theorem C41_seconds (year : K) :
    (∀ e ∈ unitTable year, secPerUnit year e.1 = e.2) ∧
    (∀ u : String, u ∉ (unitTable year).map Prod.fst → secPerUnit year u = 1) := by
  constructor
  · intro e he
    simp only [unitTable, List.mem_cons, List.not_mem_nil, or_false] at he
    rcases he with rfl | rfl | rfl | rfl | rfl | rfl | rfl <;>
      (simp (decide := true) only [secPerUnit, if_true, if_false]) <;> norm_num
  · intro u hu
    simp only [unitTable, List.map_cons, List.map_nil, List.mem_cons, List.not_mem_nil, or_false,
      not_or] at hu
    obtain ⟨h1, h2, h3, h4, h5, h6, h7⟩ := hu
    simp only [secPerUnit, h1, h2, h3, h4, h5, h6, h7, if_false]

end Output

/-! ## C38: printed numbers -/

namespace Rti

/-- **C38.** The printed number is the nearest one with twelve decimals; of two equally near ones it
is the one whose last digit is even. -/
theorem C38_rounding {q : ℚ} (hq : 0 ≤ q) (n : ℕ) :
    roundHalfEven q = n ↔ |(n : ℚ) - q| < 1 / 2 ∨ (|(n : ℚ) - q| = 1 / 2 ∧ n % 2 = 0) := by
  have h1 : (⌊q⌋₊ : ℚ) ≤ q := Nat.floor_le hq
  have h2 : q < (⌊q⌋₊ : ℚ) + 1 := Nat.lt_floor_add_one q
  have uniq : ∀ a b : ℕ, (|(a : ℚ) - q| < 1 / 2 ∨ (|(a : ℚ) - q| = 1 / 2 ∧ a % 2 = 0)) →
      (|(b : ℚ) - q| < 1 / 2 ∨ (|(b : ℚ) - q| = 1 / 2 ∧ b % 2 = 0)) → a = b := by
    have half : ∀ a b : ℕ, |(a : ℚ) - q| ≤ 1 / 2 → |(b : ℚ) - q| ≤ 1 / 2 → a < b →
        b = a + 1 ∧ |(a : ℚ) - q| = 1 / 2 ∧ |(b : ℚ) - q| = 1 / 2 := by
      intro a b ha hb hab
      rw [abs_le] at ha hb
      have hb1 : (a : ℚ) + 1 ≤ b := by exact_mod_cast hab
      have hb2 : (b : ℚ) ≤ a + 1 := by linarith
      have e : b = a + 1 := le_antisymm (by exact_mod_cast hb2) hab
      subst e
      push_cast at *
      have eq : q = a + 1 / 2 := by linarith
      refine ⟨rfl, ?_, ?_⟩
      · rw [eq]; rw [show (a : ℚ) - (a + 1 / 2) = -(1 / 2) by ring, abs_neg]; norm_num
      · rw [eq]; rw [show (a : ℚ) + 1 - (a + 1 / 2) = 1 / 2 by ring]; norm_num
    intro a b ha hb
    have ha' : |(a : ℚ) - q| ≤ 1 / 2 := by rcases ha with h | h; exacts [h.le, h.1.le]
    have hb' : |(b : ℚ) - q| ≤ 1 / 2 := by rcases hb with h | h; exacts [h.le, h.1.le]
    rcases lt_trichotomy a b with h | h | h
    · obtain ⟨e, e1, e2⟩ := half a b ha' hb' h
      have m1 : a % 2 = 0 := by rcases ha with h | h; exacts [absurd e1 h.ne, h.2]
      have m2 : b % 2 = 0 := by rcases hb with h | h; exacts [absurd e2 h.ne, h.2]
      omega
    · exact h
    · obtain ⟨e, e1, e2⟩ := half b a hb' ha' h
      have m1 : a % 2 = 0 := by rcases ha with h | h; exacts [absurd e2 h.ne, h.2]
      have m2 : b % 2 = 0 := by rcases hb with h | h; exacts [absurd e1 h.ne, h.2]
      omega
  have hr : |((roundHalfEven q : ℕ) : ℚ) - q| < 1 / 2 ∨
      (|((roundHalfEven q : ℕ) : ℚ) - q| = 1 / 2 ∧ roundHalfEven q % 2 = 0) := by
    unfold roundHalfEven
    dsimp only
    split_ifs with a1 a2 a3
    · left; rw [abs_lt]; constructor <;> linarith
    · left; rw [abs_lt]; push_cast; constructor <;> linarith
    · right
      refine ⟨?_, a3⟩
      have : q = (⌊q⌋₊ : ℚ) + 1 / 2 := by linarith
      have e : (⌊q⌋₊ : ℚ) - q = -(1 / 2) := by linarith
      rw [e, abs_neg]; norm_num
    · right
      refine ⟨?_, by omega⟩
      have e : ((⌊q⌋₊ + 1 : ℕ) : ℚ) - q = 1 / 2 := by push_cast; linarith
      rw [e]; norm_num
  constructor
  · rintro rfl; exact hr
  · intro h; exact uniq _ _ hr h

end Rti
