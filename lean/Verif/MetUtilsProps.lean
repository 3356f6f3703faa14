import Verif.MetUtilsModel
import Verif.MetEnergyModel
import Mathlib.Tactic.Linarith
import Mathlib.Tactic.NormNum
import Mathlib.Tactic.Positivity
import Mathlib.Tactic.FieldSimp

/-!
# Properties of the humidity and lapse rate utilities
-/

set_option autoImplicit false

noncomputable section

namespace MetUtils

/-- The temperatures (°C) for which a method is meant: above the pole of its formula. -/
def Above (m : Method) (T : ℝ) : Prop :=
  match m with
  | .brutsaert => -237.3 < T
  | .satterlund => -273.15 < T
  | .bolton => -243.5 < T

/-- **C157**: the saturation vapour pressure is positive and grows with the temperature; millibars are ten times
kilopascals. -/
theorem C157_increasing (m : Method) (mbar : Bool) {T1 T2 : ℝ} (h1 : Above m T1) (h : T1 < T2) :
    ∃ e1 e2, eSat T1 (.known m) mbar = .ok e1 ∧ eSat T2 (.known m) mbar = .ok e2 ∧ 0 < e1 ∧ e1 < e2 := by
  have key : ∀ c : ℝ, 0 < c → -c < T1 → T1 / (T1 + c) < T2 / (T2 + c) := by
    intro c hc h0
    rw [div_lt_div_iff₀ (by linarith) (by linarith)]
    nlinarith
  cases m <;> simp only [Above] at h1
  · have hk := key 237.3 (by norm_num) h1
    have he : Real.exp ((17.3 * T1) / (T1 + 237.3)) < Real.exp ((17.3 * T2) / (T2 + 237.3)) := by
      rw [Real.exp_lt_exp, mul_div_assoc, mul_div_assoc]
      linarith
    have hp := Real.exp_pos ((17.3 * T1) / (T1 + 237.3))
    cases mbar <;> refine ⟨_, _, rfl, rfl, ?_, ?_⟩ <;> linarith
  · have hk : 2353 / (T2 + 273.15) < 2353 / (T1 + 273.15) := by
      apply div_lt_div_of_pos_left <;> linarith
    have he : (10 : ℝ) ^ (11.4 - 2353 / (T1 + 273.15)) < (10 : ℝ) ^ (11.4 - 2353 / (T2 + 273.15)) := by
      apply Real.rpow_lt_rpow_of_exponent_lt <;> linarith
    have hp : 0 < (10 : ℝ) ^ (11.4 - 2353 / (T1 + 273.15)) := Real.rpow_pos_of_pos (by norm_num) _
    cases mbar <;> refine ⟨_, _, rfl, rfl, ?_, ?_⟩ <;> linarith
  · have hk := key 243.5 (by norm_num) h1
    have he : Real.exp ((17.67 * T1) / (T1 + 243.5)) < Real.exp ((17.67 * T2) / (T2 + 243.5)) := by
      rw [Real.exp_lt_exp, mul_div_assoc, mul_div_assoc]
      linarith
    have hp := Real.exp_pos ((17.67 * T1) / (T1 + 243.5))
    cases mbar <;> refine ⟨_, _, rfl, rfl, ?_, ?_⟩ <;> linarith

/-- **C157**: with the same method, the utility and the meteorology component compute the same saturation vapour
pressure; the default is the component's default; an unknown method is an error. -/
theorem C157_same_as_component (T : ℝ) :
    eSat T .default true = .ok (MetEnergy.eSat false T) ∧
    eSat T (.known .brutsaert) true = .ok (MetEnergy.eSat false T) ∧
    eSat T (.known .satterlund) true = .ok (MetEnergy.eSat true T) ∧
    (∀ m, ∀ e, eSat T m false = .ok e → eSat T m true = .ok (e * 10)) ∧
    ∀ b, ∃ e, eSat T .other b = .error e := by
  refine ⟨?_, ?_, ?_, ?_, ?_⟩
  · simp [eSat, MetEnergy.eSat, Except.map]
  · simp [eSat, MetEnergy.eSat, Except.map]
  · simp [eSat, MetEnergy.eSat, Except.map]
  · intro m e h
    simp only [eSat, Bool.false_eq_true, if_false] at h
    simp only [eSat, if_true]
    rw [h]
    rfl
  · intro b
    cases b <;> exact ⟨_, rfl⟩

theorem eSat_pos {T : ℝ} {m : Arg} {e : ℝ} (h : eSat T m true = .ok e) : 0 < e := by
  have h1 := Real.exp_pos ((17.3 * T) / (T + 237.3))
  have h2 := Real.exp_pos ((17.67 * T) / (T + 243.5))
  have h3 : 0 < (10 : ℝ) ^ (11.4 - 2353 / (T + 273.15)) := Real.rpow_pos_of_pos (by norm_num) _
  rcases m with _ | m | _
  · simp only [eSat, if_true, Except.map, Except.ok.injEq] at h
    rw [← h]; linarith
  · cases m <;> simp only [eSat, if_true, Except.map, Except.ok.injEq] at h <;> rw [← h] <;> linarith
  · simp [eSat, Except.map] at h

/-- **C158**: the relative humidity is always between 0 and 1. -/
theorem C158_range {q T P rh : ℝ} {m : Arg} (h : relativeHumidity q T P m = .ok rh) : 0 ≤ rh ∧ rh ≤ 1 := by
  unfold relativeHumidity at h
  split at h
  · cases h
  · simp only [Except.ok.injEq] at h
    rw [← h]
    exact ⟨le_max_right _ _, max_le (min_le_right _ _) (by norm_num)⟩

/-- **C158**: for a specific humidity from 0 on it is the ratio of vapour pressure `w P / (w + 0.622)` (`w` the
mass of water per mass of dry air, `q = w / (1 + w)`) to saturation vapour pressure, but not more than 1.  -/
theorem C158_ratio {w T P e : ℝ} {m : Arg} (hw : 0 ≤ w) (hP : 0 ≤ P) (he : eSat T m true = .ok e) :
    relativeHumidity (w / (1 + w)) T P m = .ok (min (w * P / (w + 0.622) / e) 1) := by
  have h0 := eSat_pos he
  unfold relativeHumidity
  rw [he]
  simp only [Except.ok.injEq]
  have e1 : w / (1 + w) * P / (0.378 * (w / (1 + w)) + 0.622) = w * P / (w + 0.622) := by
    have h1 : 0 < 1 + w := by linarith
    have h2 : 0 < w + 0.622 := by linarith
    have h3 : 0.378 * (w / (1 + w)) + 0.622 = (w + 0.622) / (1 + w) := by
      rw [eq_div_iff h1.ne', add_mul, mul_assoc, div_mul_cancel₀ _ h1.ne']
      ring
    rw [h3]
    field_simp
  rw [e1]
  apply max_eq_left
  refine le_min ?_ (by norm_num)
  have : 0 < w + 0.622 := by linarith
  positivity

/-- **C158**: more water in the air or a higher pressure never lowers the relative humidity. -/
theorem C158_monotone {q q' T P P' r r' : ℝ} {m : Arg} (hq : 0 ≤ q) (hqq : q ≤ q') (hP : 0 ≤ P) (hPP : P ≤ P')
    (h : relativeHumidity q T P m = .ok r) (h' : relativeHumidity q' T P' m = .ok r') : r ≤ r' := by
  unfold relativeHumidity at h h'
  cases he : eSat T m true with
  | error e => rw [he] at h; cases h
  | ok e =>
    rw [he] at h h'
    simp only [Except.ok.injEq] at h h'
    have h0 := eSat_pos he
    rw [← h, ← h']
    have h1 : q * P / (0.378 * q + 0.622) ≤ q' * P' / (0.378 * q' + 0.622) := by
      rw [div_le_div_iff₀ (by linarith) (by linarith)]
      have a : q * P ≤ q' * P' := mul_le_mul hqq hPP hP (by linarith)
      have b : q * P * (0.378 * q') ≤ q' * P' * (0.378 * q) := by
        have := mul_le_mul_of_nonneg_left hPP (mul_nonneg hq (by linarith : (0 : ℝ) ≤ q'))
        nlinarith
      nlinarith
    exact max_le_max (min_le_min (div_le_div_of_nonneg_right h1 h0.le) le_rfl) le_rfl

/-- **C158**: warmer air of the same content is never relatively more humid. -/
theorem C158_warmer {q T T' P r r' : ℝ} {m : Method} (hq : 0 ≤ q) (hP : 0 ≤ P) (hT : Above m T) (hTT : T < T')
    (h : relativeHumidity q T P (.known m) = .ok r) (h' : relativeHumidity q T' P (.known m) = .ok r') : r' ≤ r := by
  obtain ⟨e1, e2, h1, h2, h3, h4⟩ := C157_increasing m true hT hTT
  unfold relativeHumidity at h h'
  rw [h1] at h
  rw [h2] at h'
  simp only [Except.ok.injEq] at h h'
  rw [← h, ← h']
  have : 0 ≤ q * P / (0.378 * q + 0.622) := by positivity
  exact max_le_max (min_le_min (div_le_div_of_nonneg_left this h3 h4.le) le_rfl) le_rfl

/-- **C159**: the stack has one frame for each temperature and one value for each cell; the value is the
temperature lowered by the lapse rate times the height above the reference; a cell at the reference elevation gets the
series itself, and the difference between two cells never changes. -/
theorem C159_lapse (dem : List ℝ) (ref : ℝ) (temps : List ℝ) (LR : ℝ) :
    (lapse dem ref temps LR).length = temps.length ∧
    (∀ (k : ℕ) (t : ℝ), temps[k]? = some t → ∃ frame : List ℝ, (lapse dem ref temps LR)[k]? = some frame ∧ frame.length = dem.length ∧
      (∀ (c : ℕ) (z : ℝ), dem[c]? = some z → frame[c]? = some (t - LR * (z - ref))) ∧
      (∀ (c : ℕ), dem[c]? = some ref → frame[c]? = some t) ∧
      (∀ (c c' : ℕ) (z z' x x' : ℝ), dem[c]? = some z → dem[c']? = some z' → frame[c]? = some x →
        frame[c']? = some x' → x' - x = -(LR * (z' - z)))) := by
  refine ⟨by simp [lapse], ?_⟩
  intro k t hk
  have hval : ∀ (c : ℕ) (z : ℝ), dem[c]? = some z →
      (List.map (fun dz => t - dz * LR) (List.map (fun z => z - ref) dem))[c]? = some (t - LR * (z - ref)) := by
    intro c z hz
    simp [hz, mul_comm]
  refine ⟨List.map (fun dz => t - dz * LR) (List.map (fun z => z - ref) dem), by simp [lapse, hk], by simp, hval, ?_, ?_⟩
  · intro c hc
    rw [hval c ref hc]
    simp
  · intro c c' z z' x x' hz hz' hx hx'
    rw [hval c z hz, Option.some.injEq] at hx
    rw [hval c' z' hz', Option.some.injEq] at hx'
    rw [← hx, ← hx']
    ring

/-- A case: at 0 °C, 1000 mbar and half a percent of water. -/
example : ∃ r, relativeHumidity 0.005 0 1000 .default = .ok r ∧ r = 1 := by
  refine ⟨_, rfl, ?_⟩
  norm_num

example : lapse [100, 200] 100 [10, 12] 0.01 = [[10, 9], [12, 11]] := by
  norm_num [lapse]

end MetUtils
