import Mathlib.Tactic.Ring
import Mathlib.Tactic.Linarith
import Mathlib.Tactic.NormNum
import Mathlib.Tactic.FieldSimp
import Mathlib.Tactic.Positivity
import Mathlib.Analysis.SpecialFunctions.Pow.Deriv
import Mathlib.Analysis.SpecialFunctions.Pow.Continuity
import Mathlib.Analysis.Convex.SpecificFunctions.Basic
import Mathlib.Topology.Order.IntermediateValue
import Mathlib.Topology.Order.MonotoneConvergence
import Verif.InitDepthModel

/-!
# The initial depth carries the baseflow (C77), and slopes are made positive (C78)
-/

set_option autoImplicit false

noncomputable section

namespace InitDepth

open Real Filter Topology

/-! ## Specification: steady flow in a trapezoidal channel -/

/-- The discharge of a channel with bottom width `w`, bank angle `θ`, roughness `n` and slope `S` at the depth `d`, by
Manning's formula: velocity times wetted area, the hydraulic radius being the area over the wetted perimeter. -/
def discharge (w θ n S d : ℝ) : ℝ :=
  let area := w * d + d * (d * tan θ)
  let perimeter := w + 2 * (d / cos θ)
  let v := 1 / n * (area / perimeter) ^ ((2 : ℝ) / 3) * √S
  v * area

/-- A channel of positive width with banks that do not overhang. -/
structure Ok (c : Cell) : Prop where
  w : 0 < c.w
  theta0 : 0 ≤ c.theta
  theta1 : c.theta < π / 2
  K : 0 < c.K

/-! ## Geometry -/

theorem cos_pos' {c : Cell} (h : Ok c) : 0 < cos c.theta :=
  cos_pos_of_mem_Ioo ⟨by linarith [h.theta0, pi_pos], h.theta1⟩

theorem tan_nonneg' {c : Cell} (h : Ok c) : 0 ≤ tan c.theta :=
  tan_nonneg_of_nonneg_of_le_pi_div_two h.theta0 h.theta1.le

theorem Ac_pos {c : Cell} (h : Ok c) {d : ℝ} (hd : 0 < d) : 0 < Ac c d := by
  have := h.w; have := tan_nonneg' h
  unfold Ac; positivity

theorem P_pos {c : Cell} (h : Ok c) {d : ℝ} (hd : 0 ≤ d) : 0 < P c d := by
  have := h.w; have := cos_pos' h
  unfold P; positivity

theorem radius_lt {c : Cell} (h : Ok c) {d e : ℝ} (hd : 0 ≤ d) (hde : d < e) :
    Ac c d / P c d < Ac c e / P c e := by
  have he : 0 < e := lt_of_le_of_lt hd hde
  rw [div_lt_div_iff₀ (P_pos h hd) (P_pos h he.le)]
  unfold Ac P
  have hw := h.w
  have ht := tan_nonneg' h
  have hc := cos_pos' h
  generalize tan c.theta = t at *
  have hk : 0 < 1 / cos c.theta := by positivity
  have e1 : ∀ x : ℝ, 2 * x / cos c.theta = 2 * x * (1 / cos c.theta) := by intro x; ring
  rw [e1, e1]
  generalize 1 / cos c.theta = k at *
  have h1 : 0 ≤ d * e * (e - d) * t * k :=
    mul_nonneg (mul_nonneg (mul_nonneg (mul_nonneg hd he.le) (by linarith)) ht) hk.le
  have h2 : 0 < (e - d) * (c.w * c.w) := mul_pos (by linarith) (mul_pos hw hw)
  have h3 : 0 ≤ (e - d) * (e + d) * t * c.w :=
    mul_nonneg (mul_nonneg (mul_nonneg (by linarith) (by linarith)) ht) hw.le
  nlinarith

theorem Ac_lt {c : Cell} (h : Ok c) {d e : ℝ} (hd : 0 ≤ d) (hde : d < e) : Ac c d < Ac c e := by
  have := h.w; have ht := tan_nonneg' h
  unfold Ac
  have h3 : 0 ≤ (e - d) * (e + d) * tan c.theta :=
    mul_nonneg (mul_nonneg (by linarith) (by linarith)) ht
  nlinarith

/-- The share of the discharge that depends on the depth. -/
def conv (c : Cell) (d : ℝ) : ℝ := (Ac c d / P c d) ^ ((2 : ℝ) / 3) * Ac c d

theorem conv_lt {c : Cell} (h : Ok c) {d e : ℝ} (hd : 0 ≤ d) (hde : d < e) : conv c d < conv c e := by
  have he : 0 < e := lt_of_le_of_lt hd hde
  unfold conv
  have hA : 0 ≤ Ac c d := by
    rcases hd.eq_or_lt with h0 | h0
    · rw [← h0]; unfold Ac; simp
    · exact (Ac_pos h h0).le
  have h1 : (Ac c d / P c d) ^ ((2 : ℝ) / 3) < (Ac c e / P c e) ^ ((2 : ℝ) / 3) :=
    rpow_lt_rpow (div_nonneg hA (P_pos h hd).le) (radius_lt h hd hde) (by norm_num)
  have h0 : 0 ≤ (Ac c d / P c d) ^ ((2 : ℝ) / 3) := rpow_nonneg (div_nonneg hA (P_pos h hd).le) _
  exact mul_lt_mul'' h1 (Ac_lt h hd hde) h0 hA

theorem numer_eq {c : Cell} (h : Ok c) {d : ℝ} (hd : 0 ≤ d) :
    numer c d = P c d ^ ((2 : ℝ) / 3) * (conv c d - c.K) := by
  have hA : 0 ≤ Ac c d := by
    rcases hd.eq_or_lt with h0 | h0
    · rw [← h0]; unfold Ac; simp
    · exact (Ac_pos h h0).le
  have hP := P_pos h hd
  unfold numer conv
  rw [div_rpow hA hP.le]
  have e : Ac c d ^ ((5 : ℝ) / 3) = Ac c d ^ ((2 : ℝ) / 3) * Ac c d := by
    rw [show (5 : ℝ) / 3 = 2 / 3 + 1 by norm_num, rpow_add_one' hA (by norm_num)]
  rw [e]
  have : P c d ^ ((2 : ℝ) / 3) ≠ 0 := (rpow_pos_of_pos hP _).ne'
  field_simp

/-- The equation that the code solves says that the discharge is the baseflow of the contributing area. -/
theorem C77_equation (B areaKm2 n S w θ d : ℝ) (hd : 0 ≤ d) (hn : 0 < n) (hS : 0 < S)
    (h : Ok ⟨w, θ, constK B areaKm2 n S⟩) :
    numer ⟨w, θ, constK B areaKm2 n S⟩ d = 0 ↔ discharge w θ n S d = B * (areaKm2 * 10 ^ 6) := by
  rw [numer_eq h hd, mul_eq_zero]
  have hP := (rpow_pos_of_pos (P_pos h hd) ((2 : ℝ) / 3)).ne'
  have hs := (sqrt_pos.2 hS).ne'
  have e1 : discharge w θ n S d = 1 / n * √S * conv ⟨w, θ, constK B areaKm2 n S⟩ d := by
    simp only [discharge, conv, Ac, P]
    rw [show w * d + d * (d * tan θ) = d * (w + d * tan θ) by ring,
      show w + 2 * (d / cos θ) = w + 2 * d / cos θ by ring]
    ring
  rw [e1]
  constructor
  · rintro (e | e)
    · exact absurd e hP
    · rw [sub_eq_zero.1 e]
      simp only [constK]
      field_simp
      norm_num
  · intro e
    right
    simp only [constK]
    have : conv ⟨w, θ, constK B areaKm2 n S⟩ d = B * (areaKm2 * 1000000) * n / √S := by
      rw [eq_div_iff hs]
      field_simp at e
      linarith
    simp only [constK] at this
    rw [this, sub_self]

/-! ## Exactly one depth -/

theorem conv_continuousAt {c : Cell} (h : Ok c) {d : ℝ} (hd : 0 ≤ d) : ContinuousAt (conv c) d := by
  unfold conv
  have hc := (cos_pos' h).ne'
  have hA : ContinuousAt (Ac c) d := by unfold Ac; fun_prop
  have hPc : ContinuousAt (P c) d := by unfold P; fun_prop (disch := exact hc)
  have hq : ContinuousAt (fun d => Ac c d / P c d) d := hA.div hPc (P_pos h hd).ne'
  exact (hq.rpow_const (Or.inr (by norm_num))).mul hA

/-- **C77, the depth.**  For every channel and baseflow there is exactly one positive depth that solves the equation.
(A remark in the code asks whether there can be more.) -/
theorem C77_unique (c : Cell) (h : Ok c) : ∃! r, 0 < r ∧ numer c r = 0 := by
  have hz : ∀ d, 0 ≤ d → (numer c d = 0 ↔ conv c d = c.K) := by
    intro d hd
    rw [numer_eq h hd, mul_eq_zero, sub_eq_zero]
    exact or_iff_right (rpow_pos_of_pos (P_pos h hd) _).ne'
  have h0 : conv c 0 = 0 := by simp [conv, Ac]
  -- a depth that carries more
  have h1 : 0 < conv c 1 := by rw [← h0]; exact conv_lt h le_rfl one_pos
  set q := (Ac c 1 / P c 1) ^ ((2 : ℝ) / 3) with hq
  have hqpos : 0 < q := rpow_pos_of_pos (div_pos (Ac_pos h one_pos) (P_pos h zero_le_one)) _
  set D := 1 + c.K / (q * c.w) with hD
  have hw := h.w
  have hK := h.K
  have hD1 : 1 < D := by rw [hD]; have : 0 < c.K / (q * c.w) := by positivity
                         linarith
  have hbig : c.K ≤ conv c D := by
    unfold conv
    have hD0 : 0 < D := by linarith
    have g1 : q ≤ (Ac c D / P c D) ^ ((2 : ℝ) / 3) :=
      rpow_le_rpow (div_pos (Ac_pos h one_pos) (P_pos h zero_le_one)).le (radius_lt h zero_le_one hD1).le (by norm_num)
    have g2 : D * c.w ≤ Ac c D := by
      unfold Ac
      have := tan_nonneg' h
      have : 0 ≤ D * (D * tan c.theta) := by positivity
      linarith
    have g3 : c.K ≤ q * (D * c.w) := by
      rw [hD]
      have : q * ((1 + c.K / (q * c.w)) * c.w) = q * c.w + c.K := by field_simp
      rw [this]
      have : 0 < q * c.w := by positivity
      linarith
    have := mul_le_mul g1 g2 (by positivity) (hqpos.le.trans g1)
    linarith
  have hcont : ContinuousOn (conv c) (Set.Icc 0 D) :=
    fun d hd => (conv_continuousAt h hd.1).continuousWithinAt
  obtain ⟨r, hr, hrK⟩ := intermediate_value_Icc (by linarith : (0 : ℝ) ≤ D) hcont
    (show c.K ∈ Set.Icc (conv c 0) (conv c D) from ⟨by rw [h0]; exact hK.le, hbig⟩)
  have hr0 : 0 < r := by
    rcases hr.1.eq_or_lt with e | e
    · rw [← e, h0] at hrK; linarith
    · exact e
  refine ⟨r, ⟨hr0, (hz r hr.1).2 hrK⟩, ?_⟩
  rintro y ⟨hy, hy0⟩
  have hyK := (hz y hy.le).1 hy0
  rcases lt_trichotomy y r with e | e | e
  · have := conv_lt h hy.le e; linarith
  · exact e
  · have := conv_lt h hr0.le e; linarith

/-! ## Newton's method -/

/-- The denominator in the code is the derivative of the numerator: the iteration is Newton's. -/
theorem C77_newton_derivative (c : Cell) (h : Ok c) (d : ℝ) (hd : 0 < d) : HasDerivAt (numer c) (denom c d) d := by
  have hA : HasDerivAt (Ac c) (c.w + 2 * d * tan c.theta) d := by
    have h1 : HasDerivAt (fun d => d * (c.w + d * tan c.theta)) (1 * (c.w + d * tan c.theta) + d * (tan c.theta)) d := by
      apply HasDerivAt.fun_mul (hasDerivAt_id' d)
      have := ((hasDerivAt_id' d).mul_const (tan c.theta)).const_add c.w
      simpa using this
    exact h1.congr_deriv (by ring)
  have hP : HasDerivAt (P c) (2 / cos c.theta) d := by
    have := (((hasDerivAt_id' d).const_mul 2).div_const (cos c.theta)).const_add c.w
    exact this.congr_deriv (by ring)
  have h1 := hA.rpow_const (p := (5 : ℝ) / 3) (Or.inl (Ac_pos h hd).ne')
  have h2 := (hP.rpow_const (p := (2 : ℝ) / 3) (Or.inl (P_pos h hd.le).ne')).const_mul c.K
  have h3 := h1.fun_sub h2
  refine h3.congr_deriv ?_
  simp only [denom]
  rw [show (5 : ℝ) / 3 - 1 = 2 / 3 by norm_num, show (2 : ℝ) / 3 - 1 = 1 / -3 by norm_num]
  ring

theorem tangent_above (p x y : ℝ) (hp : 1 ≤ p) (hx : 0 ≤ x) (hy : 0 < y) :
    y ^ p + p * y ^ (p - 1) * (x - y) ≤ x ^ p := by
  have h := one_add_mul_self_le_rpow_one_add (s := x / y - 1) (by linarith [div_nonneg hx hy.le]) hp
  rw [show 1 + (x / y - 1) = x / y by ring, div_rpow hx hy.le] at h
  have hyp := rpow_pos_of_pos hy p
  rw [le_div_iff₀ hyp] at h
  have e : y ^ (p - 1) = y ^ p / y := by rw [rpow_sub_one hy.ne']
  rw [e]
  refine le_trans (le_of_eq ?_) h
  field_simp

theorem tangent_below (p x y : ℝ) (hp0 : 0 ≤ p) (hp : p ≤ 1) (hx : 0 ≤ x) (hy : 0 < y) :
    x ^ p ≤ y ^ p + p * y ^ (p - 1) * (x - y) := by
  have h := rpow_one_add_le_one_add_mul_self (s := x / y - 1) (by linarith [div_nonneg hx hy.le]) hp0 hp
  rw [show 1 + (x / y - 1) = x / y by ring, div_rpow hx hy.le] at h
  have hyp := rpow_pos_of_pos hy p
  rw [div_le_iff₀ hyp] at h
  have e : y ^ (p - 1) = y ^ p / y := by rw [rpow_sub_one hy.ne']
  rw [e]
  refine le_trans h (le_of_eq ?_)
  field_simp

/-- The function lies above its tangents. -/
theorem convex (c : Cell) (h : Ok c) (x d : ℝ) (hx : 0 ≤ x) (hd : 0 < d) :
    numer c d + denom c d * (x - d) ≤ numer c x := by
  have hAx : 0 ≤ Ac c x := by
    rcases hx.eq_or_lt with h0 | h0
    · rw [← h0]; unfold Ac; simp
    · exact (Ac_pos h h0).le
  have t1 := tangent_above (5 / 3) (Ac c x) (Ac c d) (by norm_num) hAx (Ac_pos h hd)
  have t2 := tangent_below (2 / 3) (P c x) (P c d) (by norm_num) (by norm_num) (P_pos h hx).le (P_pos h hd.le)
  rw [show (5 : ℝ) / 3 - 1 = 2 / 3 by norm_num] at t1
  rw [show (2 : ℝ) / 3 - 1 = 1 / -3 by norm_num] at t2
  have e1 : Ac c x - Ac c d = (c.w + 2 * d * tan c.theta) * (x - d) + tan c.theta * (x - d) ^ 2 := by
    unfold Ac; ring
  have e2 : P c x - P c d = 2 / cos c.theta * (x - d) := by unfold P; ring
  rw [e1] at t1
  rw [e2] at t2
  simp only [numer, denom]
  have hA23 : 0 ≤ Ac c d ^ ((2 : ℝ) / 3) := rpow_nonneg (Ac_pos h hd).le _
  have hsq : 0 ≤ 5 / 3 * Ac c d ^ ((2 : ℝ) / 3) * (tan c.theta * (x - d) ^ 2) := by
    have := tan_nonneg' h
    positivity
  have t2' := mul_le_mul_of_nonneg_left t2 h.K.le
  nlinarith

theorem numer_nonneg {c : Cell} (h : Ok c) {r d : ℝ} (hr : 0 < r) (h0 : numer c r = 0) (hd : r ≤ d) :
    0 ≤ numer c d := by
  have hd0 : 0 < d := lt_of_lt_of_le hr hd
  rw [numer_eq h hr.le, mul_eq_zero, or_iff_right (rpow_pos_of_pos (P_pos h hr.le) _).ne'] at h0
  rw [numer_eq h hd0.le]
  apply mul_nonneg (rpow_nonneg (P_pos h hd0.le).le _)
  rcases hd.eq_or_lt with e | e
  · rw [← e]; exact h0.ge
  · have := conv_lt h hr.le e; linarith

theorem denom_pos {c : Cell} (h : Ok c) {r d : ℝ} (hr : 0 < r) (h0 : numer c r = 0) (hd : r ≤ d) : 0 < denom c d := by
  have hd0 : 0 < d := lt_of_lt_of_le hr hd
  have hc := convex c h 0 d le_rfl hd0
  have hn := numer_nonneg h hr h0 hd
  have hneg : numer c 0 < 0 := by
    rw [numer_eq h le_rfl]
    have e0 : conv c 0 = 0 := by simp [conv, Ac]
    rw [e0]
    have := rpow_pos_of_pos (P_pos h le_rfl) ((2 : ℝ) / 3)
    have := h.K
    nlinarith
  by_contra hden
  have : denom c d * (0 - d) ≥ 0 := by
    have h1 : denom c d ≤ 0 := not_lt.1 hden
    nlinarith
  linarith

/-- **C77, monotone iteration.**  From any depth at or above the solution the next iterate is between the solution and
that depth; it is closer unless the solution is reached. -/
theorem C77_monotone (c : Cell) (h : Ok c) (r d : ℝ) (hr : 0 < r) (h0 : numer c r = 0) (hd : r ≤ d) :
    r ≤ newton c d ∧ newton c d ≤ d ∧ (newton c d = d ↔ d = r) := by
  have hd0 : 0 < d := lt_of_lt_of_le hr hd
  have hden := denom_pos h hr h0 hd
  have hnum := numer_nonneg h hr h0 hd
  have hc := convex c h r d hr.le hd0
  rw [h0] at hc
  have hq : 0 ≤ numer c d / denom c d := div_nonneg hnum hden.le
  unfold newton
  refine ⟨?_, by linarith, ?_⟩
  · have : numer c d / denom c d ≤ d - r := by
      rw [div_le_iff₀ hden]; linarith
    linarith
  · constructor
    · intro e
      have e1 : numer c d / denom c d = 0 := by linarith
      rw [div_eq_zero_iff, or_iff_left hden.ne'] at e1
      exact (C77_unique c h).unique ⟨hd0, e1⟩ ⟨hr, h0⟩
    · intro e
      rw [e, h0]
      simp

theorem iter_bounds (c : Cell) (h : Ok c) (r d : ℝ) (hr : 0 < r) (h0 : numer c r = 0) (hd : r ≤ d) (k : ℕ) :
    r ≤ (newton c)^[k] d ∧ (newton c)^[k] d ≤ d := by
  induction k with
  | zero => exact ⟨hd, le_rfl⟩
  | succ n ih =>
    rw [Function.iterate_succ_apply']
    obtain ⟨a, b, -⟩ := C77_monotone c h r _ hr h0 ih.1
    exact ⟨a, b.trans ih.2⟩

/-- **C77, convergence.**  The iterates tend to the solution. -/
theorem C77_converges (c : Cell) (h : Ok c) (r d : ℝ) (hr : 0 < r) (h0 : numer c r = 0) (hd : r ≤ d) :
    Tendsto (fun k => (newton c)^[k] d) atTop (𝓝 r) := by
  have hanti : Antitone fun k => (newton c)^[k] d := by
    apply antitone_nat_of_succ_le
    intro k
    rw [Function.iterate_succ_apply']
    exact (C77_monotone c h r _ hr h0 (iter_bounds c h r d hr h0 hd k).1).2.1
  have hbdd : BddBelow (Set.range fun k => (newton c)^[k] d) :=
    ⟨r, by rintro _ ⟨k, rfl⟩; exact (iter_bounds c h r d hr h0 hd k).1⟩
  have hlim := tendsto_atTop_ciInf hanti hbdd
  set L := ⨅ k, (newton c)^[k] d with hL
  have hrL : r ≤ L := le_ciInf fun k => (iter_bounds c h r d hr h0 hd k).1
  have hL0 : 0 < L := lt_of_lt_of_le hr hrL
  have hcont : ContinuousAt (newton c) L := by
    have c1 : ContinuousAt (numer c) L := (C77_newton_derivative c h L hL0).continuousAt
    have hc := (cos_pos' h).ne'
    have hA : ContinuousAt (Ac c) L := by unfold Ac; fun_prop
    have hPc : ContinuousAt (P c) L := by unfold P; fun_prop (disch := exact hc)
    have c2 : ContinuousAt (denom c) L := by
      unfold denom
      have a1 := hA.rpow_const (p := (2 : ℝ) / 3) (Or.inr (by norm_num))
      have a2 := hPc.rpow_const (p := (1 : ℝ) / -3) (Or.inl (P_pos h hL0.le).ne')
      apply ContinuousAt.sub
      · exact (continuousAt_const.mul a1).mul (by fun_prop)
      · exact (continuousAt_const.mul a2).mul continuousAt_const
    exact continuousAt_id.sub (c1.div c2 (denom_pos h hr h0 hrL).ne')
  have h1 : Tendsto (fun k => (newton c)^[k + 1] d) atTop (𝓝 L) := (tendsto_add_atTop_iff_nat 1).2 hlim
  have h2 : Tendsto (fun k => (newton c)^[k + 1] d) atTop (𝓝 (newton c L)) := by
    have := hcont.tendsto.comp hlim
    refine this.congr ?_
    intro k
    rw [Function.comp_apply, Function.iterate_succ_apply']
  have hfix := tendsto_nhds_unique h2 h1
  have := ((C77_monotone c h r L hr h0 hrL).2.2).1 hfix
  rw [this] at hlim
  exact hlim

/-- **C77, accuracy.**  If the last change was `g`, the distance from the solution before it was at most `g` times the
ratio of the slopes of the function there and at the solution. -/
theorem C77_error_bound (c : Cell) (h : Ok c) (r d : ℝ) (hr : 0 < r) (h0 : numer c r = 0) (hd : r ≤ d) :
    d - r ≤ |newton c d - d| * (denom c d / denom c r) := by
  have hd0 : 0 < d := lt_of_lt_of_le hr hd
  have hden := denom_pos h hr h0 hd
  have hdr := denom_pos h hr h0 le_rfl
  have hc := convex c h d r hd0.le hr
  rw [h0] at hc
  have hq : 0 ≤ numer c d / denom c d := div_nonneg (numer_nonneg h hr h0 hd) hden.le
  have e : |newton c d - d| = numer c d / denom c d := by
    unfold newton
    rw [show d - numer c d / denom c d - d = -(numer c d / denom c d) by ring, abs_neg, abs_of_nonneg hq]
  rw [e]
  have e2 : numer c d / denom c d * (denom c d / denom c r) = numer c d / denom c r := by
    field_simp
  rw [e2, le_div_iff₀ hdr]
  linarith

/-! ## The loop -/

theorem iterate_spec (cells : List Cell) (tol : ℝ) : ∀ (fuel tries : ℕ) (d out : List ℝ) (n : ℕ),
    d.length = cells.length → iterate cells tol fuel tries d = some (out, n) →
    tries < n ∧ (tries ≤ 40 → n ≤ 41) ∧
    out = List.zipWith (fun c x => (newton c)^[n - tries] x) cells d ∧
    (n ≤ 40 → ∀ p ∈ List.zipWith (fun c x => |(newton c)^[n - tries] x - (newton c)^[n - tries - 1] x|) cells d,
      p ≤ tol) := by
  intro fuel
  induction fuel with
  | zero => intro tries d out n _ h; simp [iterate] at h
  | succ fuel ih =>
    intro tries d out n hlen h
    simp only [iterate] at h
    have hz1 : ∀ (cs : List Cell) (xs : List ℝ), List.zipWith newton cs xs =
        List.zipWith (fun c x => (newton c)^[1] x) cs xs := by intro cs xs; rfl
    split_ifs at h with hc
    · injection h with h
      injection h with h1 h2
      subst h1 h2
      have e : tries + 1 - tries = 1 := by omega
      refine ⟨by omega, by omega, by rw [e]; rfl, ?_⟩
      intro hn p hp
      rcases hc with hc | hc
      · rw [e] at hp
        have hmem : p ∈ List.zipWith (fun x y => |x - y|) (List.zipWith newton cells d) d := by
          have : ∀ (cs : List Cell) (xs : List ℝ), List.zipWith (fun x y => |x - y|) (List.zipWith newton cs xs) xs =
              List.zipWith (fun c x => |(newton c)^[1] x - (newton c)^[1 - 1] x|) cs xs := by
            intro cs
            induction cs with
            | nil => intro xs; simp
            | cons c cs ihc =>
              intro xs
              cases xs with
              | nil => simp
              | cons x xs => simp only [List.zipWith_cons_cons, ihc]; rfl
          rw [this]; exact hp
        by_contra hgt
        have : p ∈ (List.zipWith (fun x y => |x - y|) (List.zipWith newton cells d) d).filter
            (fun g => @decide (g > tol) (Classical.propDecidable _)) := by
          rw [List.mem_filter]
          exact ⟨hmem, by simpa using not_le.1 hgt⟩
        rw [List.length_eq_zero_iff] at hc
        rw [hc] at this
        simp at this
      · omega
    · simp only [not_or] at hc
      have hlen' : (List.zipWith newton cells d).length = cells.length := by simp [hlen]
      obtain ⟨a1, a2, a3, a4⟩ := ih (tries + 1) _ out n hlen' h
      have hcomp : ∀ (k : ℕ) (cs : List Cell) (xs : List ℝ),
          List.zipWith (fun c x => (newton c)^[k] x) cs (List.zipWith newton cs xs) =
          List.zipWith (fun c x => (newton c)^[k + 1] x) cs xs := by
        intro k cs
        induction cs with
        | nil => intro xs; simp
        | cons c cs ihc =>
          intro xs
          cases xs with
          | nil => simp
          | cons x xs => simp only [List.zipWith_cons_cons, ihc]; rfl
      have hcomp' : ∀ (k : ℕ) (cs : List Cell) (xs : List ℝ),
          List.zipWith (fun c x => |(newton c)^[k + 1] x - (newton c)^[k] x|) cs (List.zipWith newton cs xs) =
          List.zipWith (fun c x => |(newton c)^[k + 2] x - (newton c)^[k + 1] x|) cs xs := by
        intro k cs
        induction cs with
        | nil => intro xs; simp
        | cons c cs ihc =>
          intro xs
          cases xs with
          | nil => simp
          | cons x xs => simp only [List.zipWith_cons_cons, ihc]; rfl
      refine ⟨by omega, by omega, ?_, ?_⟩
      · rw [a3, hcomp, show n - (tries + 1) + 1 = n - tries by omega]
      · intro hn p hp
        apply a4 hn
        obtain ⟨k, hk⟩ : ∃ k, n = tries + 1 + k + 1 := ⟨n - tries - 2, by omega⟩
        have e1 : n - (tries + 1) = k + 1 := by omega
        have e2 : n - (tries + 1) - 1 = k := by omega
        have e3 : n - tries = k + 2 := by omega
        have e4 : n - tries - 1 = k + 1 := by omega
        rw [e2, e1, hcomp', ← e3]
        rw [e4] at hp
        exact hp

theorem iterate_total (cells : List Cell) (tol : ℝ) (fuel tries : ℕ) (d : List ℝ) (h : 41 ≤ fuel + tries)
    (ht : tries ≤ 40) : (iterate cells tol fuel tries d).isSome := by
  induction fuel generalizing tries d with
  | zero => omega
  | succ fuel ih =>
    simp only [iterate]
    split_ifs with hc
    · rfl
    · simp only [not_or, not_lt] at hc
      exact ih (tries + 1) _ (by omega) (by omega)

/-- **C77, the grid.**  The loop ends after at most 41 iterations.  Every cell whose solution is at most 500 metres gets
a depth between its solution and 500 metres; if the loop ended before the limit, the last change was within the
tolerance in every cell, which bounds the distance from the solution. -/
theorem C77_grid (cells : List Cell) (tol : ℝ) :
    ∃ out n, (∀ fuel, 41 ≤ fuel → initialDepth cells tol fuel = some (out, n)) ∧ 1 ≤ n ∧ n ≤ 41 ∧
      out.length = cells.length ∧
      ∀ (i : ℕ) (hi : i < cells.length) (r : ℝ), Ok cells[i] → 0 < r → numer cells[i] r = 0 → r ≤ 500 →
        ∃ prev, r ≤ prev ∧ prev ≤ 500 ∧ out[i]? = some (newton cells[i] prev) ∧ r ≤ newton cells[i] prev ∧
          newton cells[i] prev ≤ 500 ∧
          (n ≤ 40 → newton cells[i] prev - r ≤ tol * (denom cells[i] prev / denom cells[i] r)) := by
  have htot := iterate_total cells tol 41 0 (List.replicate cells.length 500) (by norm_num) (by norm_num)
  obtain ⟨⟨out, n⟩, hout⟩ := Option.isSome_iff_exists.1 htot
  obtain ⟨a1, a2, a3, a4⟩ := iterate_spec cells tol 41 0 _ out n (by simp) hout
  have hmono : ∀ (fuel tries : ℕ) (d : List ℝ) (x : List ℝ × ℕ), iterate cells tol fuel tries d = some x →
      ∀ fuel', fuel ≤ fuel' → iterate cells tol fuel' tries d = some x := by
    intro fuel
    induction fuel with
    | zero => intro tries d x h; simp [iterate] at h
    | succ fuel ih =>
      intro tries d x h fuel' hf
      obtain ⟨f, rfl⟩ : ∃ f, fuel' = f + 1 := ⟨fuel' - 1, by omega⟩
      simp only [iterate] at h ⊢
      split_ifs at h ⊢ with hc
      · exact h
      · exact ih _ _ _ h f (by omega)
  refine ⟨out, n, fun fuel hf => hmono _ _ _ _ hout fuel hf, by omega, a2 (by norm_num), by rw [a3]; simp, ?_⟩
  intro i hi r hOk hr h0 hr500
  obtain ⟨k, hk⟩ : ∃ k, n = k + 1 := ⟨n - 1, by omega⟩
  have hb := iter_bounds cells[i] hOk r 500 hr h0 hr500 k
  obtain ⟨m1, m2, -⟩ := C77_monotone cells[i] hOk r _ hr h0 hb.1
  refine ⟨(newton cells[i])^[k] 500, hb.1, hb.2, ?_, m1, m2.trans hb.2, ?_⟩
  · rw [a3, List.getElem?_zipWith]
    have e1 : cells[i]? = some cells[i] := List.getElem?_eq_getElem hi
    have e2 : (List.replicate cells.length (500 : ℝ))[i]? = some 500 := by
      rw [List.getElem?_replicate, if_pos hi]
    rw [e1, e2]
    simp only
    rw [show n - 0 = k + 1 by omega, Function.iterate_succ_apply']
  · intro hn
    have hmem : |(newton cells[i])^[k + 1] 500 - (newton cells[i])^[k] 500| ∈
        List.zipWith (fun c x => |(newton c)^[n - 0] x - (newton c)^[n - 0 - 1] x|) cells
          (List.replicate cells.length 500) := by
      apply List.mem_of_getElem? (i := i)
      rw [List.getElem?_zipWith, List.getElem?_eq_getElem hi, List.getElem?_replicate, if_pos hi]
      simp only
      rw [show n - 0 = k + 1 by omega, show k + 1 - 1 = k by omega]
    have hg := a4 hn _ hmem
    rw [Function.iterate_succ_apply'] at hg
    have he := C77_error_bound cells[i] hOk r _ hr h0 hb.1
    have hpos : 0 ≤ denom cells[i] ((newton cells[i])^[k] 500) / denom cells[i] r :=
      div_nonneg (denom_pos hOk hr h0 hb.1).le (denom_pos hOk hr h0 le_rfl).le
    have := mul_le_mul_of_nonneg_right hg hpos
    linarith

/-- The velocity that Manning's formula gives at the depth `d`. -/
def manningVelocity (w θ n S d : ℝ) : ℝ :=
  1 / n * ((w * d + d * (d * tan θ)) / (w + 2 * (d / cos θ))) ^ ((2 : ℝ) / 3) * √S

/-- **C77, the velocity.**  The velocity grid belongs to the depth before the last update, not to the depth grid that is
written beside it: it is never too small for that depth, and too large unless the solution was already reached. -/
theorem C77_velocity_violated (c : Cell) (h : Ok c) (n S r prev : ℝ) (hn : 0 < n) (hS : 0 < S) (hr : 0 < r)
    (h0 : numer c r = 0) (hp : r ≤ prev) :
    initialVelocity c n S prev = manningVelocity c.w c.theta n S prev ∧
    manningVelocity c.w c.theta n S (newton c prev) ≤ initialVelocity c n S prev ∧
    (r < prev → manningVelocity c.w c.theta n S (newton c prev) < initialVelocity c n S prev) := by
  have e : ∀ d, manningVelocity c.w c.theta n S d = √S / n * (Ac c d / P c d) ^ ((2 : ℝ) / 3) := by
    intro d
    unfold manningVelocity Ac P
    rw [show c.w * d + d * (d * tan c.theta) = d * (c.w + d * tan c.theta) by ring,
      show c.w + 2 * (d / cos c.theta) = c.w + 2 * d / cos c.theta by ring]
    ring
  have e1 : initialVelocity c n S prev = √S / n * (Ac c prev / P c prev) ^ ((2 : ℝ) / 3) := by
    unfold initialVelocity; ring
  have hpos : 0 < √S / n := div_pos (sqrt_pos.2 hS) hn
  obtain ⟨m1, m2, m3⟩ := C77_monotone c h r prev hr h0 hp
  have hnew : 0 < newton c prev := lt_of_lt_of_le hr m1
  have hlt : r < prev → manningVelocity c.w c.theta n S (newton c prev) < initialVelocity c n S prev := by
    intro hlt
    rw [e, e1]
    apply mul_lt_mul_of_pos_left _ hpos
    apply rpow_lt_rpow (div_pos (Ac_pos h hnew) (P_pos h hnew.le)).le _ (by norm_num)
    apply radius_lt h hnew.le
    exact lt_of_le_of_ne m2 fun hc => hlt.ne' (m3.1 hc)
  refine ⟨by rw [e, e1], ?_, hlt⟩
  rcases hp.eq_or_lt with hc | hc
  · rw [m3.2 hc.symm, e, e1]
  · exact (hlt hc).le

/-- The baseflow per area, with its units: metres per second, or millimetres per hour. -/
theorem C77_baseflow (areaKm2 Qb : ℝ) (hA : areaKm2 ≠ 0) :
    baseflowFlux areaKm2 Qb false * (areaKm2 * 10 ^ 6) = Qb ∧
    baseflowFlux areaKm2 Qb true = baseflowFlux areaKm2 Qb false * 1000 * 3600 := by
  simp only [baseflowFlux]
  constructor
  · norm_num
    field_simp
  · simp

/-- A channel that meets the hypotheses. -/
example : Ok ⟨3, π / 6, constK 0.0000001 20 0.03 0.01⟩ := by
  refine ⟨by norm_num, by positivity, ?_, ?_⟩
  · have := pi_pos; simp only; linarith
  · simp only [constK]; positivity

/-! ## Slopes -/

/-- The smallest of the good slopes. -/
def IsSmallest (S : List Val) (m : ℝ) : Prop := .fin m ∈ S ∧ 0 < m ∧ ∀ x, .fin x ∈ S → 0 < x → m ≤ x

theorem good_mem (S : List Val) (x : ℝ) : x ∈ S.filterMap goodValue ↔ .fin x ∈ S ∧ 0 < x := by
  rw [List.mem_filterMap]
  constructor
  · rintro ⟨v, hv, hg⟩
    cases v with
    | fin y =>
      simp only [goodValue] at hg
      split_ifs at hg with hy
      injection hg with hg
      subst hg
      exact ⟨hv, not_le.1 hy⟩
    | nan => simp [goodValue] at hg
    | inf b => simp [goodValue] at hg
  · rintro ⟨h1, h2⟩
    exact ⟨.fin x, h1, by simp only [goodValue]; rw [if_neg (not_le.2 h2)]⟩

theorem foldl_min (xs : List ℝ) (x : ℝ) : xs.foldl min x ∈ x :: xs ∧ ∀ y ∈ x :: xs, xs.foldl min x ≤ y := by
  induction xs generalizing x with
  | nil => simp
  | cons z zs ih =>
    simp only [List.foldl_cons]
    obtain ⟨h1, h2⟩ := ih (min x z)
    refine ⟨?_, ?_⟩
    · rcases List.mem_cons.1 h1 with h | h
      · rw [h]
        rcases min_choice x z with e | e <;> rw [e] <;> simp
      · simp [h]
    · intro y hy
      have h3 := h2 (min x z) (by simp)
      rcases List.mem_cons.1 hy with rfl | hy
      · exact h3.trans (min_le_left _ _)
      · rcases List.mem_cons.1 hy with rfl | hy
        · exact h3.trans (min_le_right _ _)
        · exact h2 y (by simp [hy])

theorem minimum_smallest (S : List Val) (m : ℝ) (h : minimum (S.filterMap goodValue) = .ok m) : IsSmallest S m := by
  cases hg : S.filterMap goodValue with
  | nil => rw [hg] at h; simp [minimum] at h
  | cons x xs =>
    rw [hg] at h
    simp only [minimum] at h
    injection h with h
    obtain ⟨h1, h2⟩ := foldl_min xs x
    rw [h, ← hg] at h1 h2
    obtain ⟨a, b⟩ := (good_mem S m).1 h1
    exact ⟨a, b, fun y hy hy0 => h2 y ((good_mem S y).2 ⟨hy, hy0⟩)⟩

/-- The slope is a positive number. -/
def Positive (v : Val) : Prop := ∃ x, v = .fin x ∧ 0 < x

theorem bad_iff (v : Val) : bad v ↔ ¬ Positive v := by
  cases v with
  | fin x =>
    simp only [bad, Positive, Val.fin.injEq]
    constructor
    · rintro h ⟨y, rfl, hy⟩; linarith
    · intro h; by_contra hx; exact h ⟨x, rfl, not_le.1 hx⟩
  | nan => simp [bad, Positive]
  | inf b => simp [bad, Positive]

/-- What the cleaned grid must be: good slopes as they were, the others set to the smallest good one. -/
def Cleaned (S S' : List Val) : Prop :=
  S'.length = S.length ∧ ∀ (i : ℕ) (v : Val), S[i]? = some v →
    (Positive v → S'[i]? = some v) ∧ (¬ Positive v → ∃ m, IsSmallest S m ∧ S'[i]? = some (Val.fin m))

theorem map_cleaned (S : List Val) (m : ℝ) (h : IsSmallest S m) : Cleaned S (S.map (replaceBad m)) := by
  refine ⟨by simp, ?_⟩
  intro i v hv
  rw [List.getElem?_map, hv]
  simp only [Option.map_some, Option.some.injEq, replaceBad]
  constructor
  · intro hp
    rw [if_neg (fun hb => (bad_iff v).1 hb hp)]
  · intro hp
    rw [if_pos ((bad_iff v).2 hp)]
    exact ⟨m, h, rfl⟩

theorem all_good_of_nbad (S : List Val) (h : (S.filter (fun v => @decide (bad v) (Classical.propDecidable _))).length = 0) :
    ∀ v ∈ S, Positive v := by
  intro v hv
  by_contra hn
  rw [List.length_eq_zero_iff, List.filter_eq_nil_iff] at h
  exact h v hv (by simpa using (bad_iff v).2 hn)

/-- **C78, in the channel component.**  If some slope is positive, the grid afterwards is the cleaned one, and all its
slopes are positive numbers. -/
theorem C78_channels (S : List Val) (hS : ∃ v ∈ S, Positive v) :
    ∃ S', removeBadSlopesChannels S = .ok S' ∧ Cleaned S S' ∧ ∀ v ∈ S', Positive v := by
  obtain ⟨v0, hv0, x0, rfl, hx0⟩ := hS
  unfold removeBadSlopesChannels
  simp only
  split_ifs with hn
  · have hall := all_good_of_nbad S hn
    refine ⟨S, rfl, ⟨rfl, ?_⟩, hall⟩
    intro i v hv
    exact ⟨fun _ => hv, fun hp => absurd (hall v (List.mem_of_getElem? hv)) hp⟩
  · cases hm : minimum (S.filterMap goodValue) with
    | error e =>
      exfalso
      have : x0 ∈ S.filterMap goodValue := (good_mem S x0).2 ⟨hv0, hx0⟩
      cases hg : S.filterMap goodValue with
      | nil => rw [hg] at this; simp at this
      | cons y ys => rw [hg] at hm; simp [minimum] at hm
    | ok m =>
      have hs := minimum_smallest S m hm
      refine ⟨_, rfl, map_cleaned S m hs, ?_⟩
      intro v hv
      obtain ⟨u, hu, rfl⟩ := List.mem_map.1 hv
      unfold replaceBad
      split_ifs with hb
      · exact ⟨m, rfl, hs.2.1⟩
      · by_contra hp; exact hb ((bad_iff u).2 hp)

/-- If no slope is positive, and there is any, the channel component stops with an error. -/
theorem C78_channels_none (S : List Val) (hne : S ≠ []) (hS : ∀ v ∈ S, ¬ Positive v) :
    removeBadSlopesChannels S = .error "ValueError" := by
  unfold removeBadSlopesChannels
  have hg : S.filterMap goodValue = [] := by
    cases hg : S.filterMap goodValue with
    | nil => rfl
    | cons x xs =>
      have : x ∈ S.filterMap goodValue := by rw [hg]; simp
      obtain ⟨h1, h2⟩ := (good_mem S x).1 this
      exact absurd ⟨x, rfl, h2⟩ (hS _ h1)
  simp only
  rw [if_neg, hg]
  · rfl
  · intro h0
    obtain ⟨v, hv⟩ := List.exists_mem_of_ne_nil S hne
    exact hS v hv (all_good_of_nbad S h0 v hv)

/-- **C78, for the initial depth.**  If some slopes are positive and some are not, the result is the cleaned grid. -/
theorem C78_initial_depth_partial (S : List Val) (hS : ∃ v ∈ S, Positive v) (hB : ∃ v ∈ S, ¬ Positive v) :
    ∃ S', removeBadSlopes S = .ok (S', some S') ∧ Cleaned S S' ∧ ∀ v ∈ S', Positive v := by
  obtain ⟨v0, hv0, x0, rfl, hx0⟩ := hS
  obtain ⟨v1, hv1, hb1⟩ := hB
  have hmem : x0 ∈ S.filterMap goodValue := (good_mem S x0).2 ⟨hv0, hx0⟩
  unfold removeBadSlopes
  simp only
  rw [if_neg]
  · cases hm : minimum (S.filterMap goodValue) with
    | error e =>
      exfalso
      cases hg : S.filterMap goodValue with
      | nil => rw [hg] at hmem; simp at hmem
      | cons y ys => rw [hg] at hm; simp [minimum] at hm
    | ok m =>
      have hs := minimum_smallest S m hm
      refine ⟨_, rfl, map_cleaned S m hs, ?_⟩
      intro v hv
      obtain ⟨u, hu, rfl⟩ := List.mem_map.1 hv
      unfold replaceBad
      split_ifs with hb
      · exact ⟨m, rfl, hs.2.1⟩
      · by_contra hp; exact hb ((bad_iff u).2 hp)
  · rintro (h | h)
    · exact hb1 (all_good_of_nbad S h v1 hv1)
    · rw [List.length_eq_zero_iff] at h
      rw [h] at hmem
      simp at hmem

/-- **C78, violated for perfect slopes.**  If every slope is already positive, `remove_bad_slopes` of init_depth.py
returns nothing instead of the grid, so that `compute_initial_depth` goes on to divide `None` by the sinuosity. -/
theorem C78_perfect_violated (S : List Val) (hS : ∀ v ∈ S, Positive v) : removeBadSlopes S = .ok (S, none) := by
  unfold removeBadSlopes
  simp only
  rw [if_pos]
  left
  rw [List.length_eq_zero_iff, List.filter_eq_nil_iff]
  intro v hv
  simpa [bad_iff] using hS v hv

/-- A grid with an edge of zeros and a missing value. -/
example : ∃ S', removeBadSlopes [.fin 0, .fin 0.02, .nan, .fin 0.01] = .ok (S', some S') ∧
    Cleaned [.fin 0, .fin 0.02, .nan, .fin 0.01] S' ∧ ∀ v ∈ S', Positive v := by
  apply C78_initial_depth_partial
  · exact ⟨.fin 0.02, by simp, 0.02, rfl, by norm_num⟩
  · exact ⟨.nan, by simp, by simp [Positive]⟩

end InitDepth
