import Verif.RichardsModel
import Mathlib.Tactic.Ring
import Mathlib.Tactic.Linarith
import Mathlib.Tactic.NormNum
import Mathlib.Tactic.FieldSimp
import Mathlib.Tactic.Positivity
import Mathlib.Tactic.IntervalCases

/-!
# Theorems about the soil retention functions and Richards infiltration

* C64: the retention functions are inverse to each other, monotone and consistent.
* C65: soil state stays physical under Richards infiltration, for every influx history.
* C66: water balance of the soil column.
-/

set_option autoImplicit false

namespace Richards

noncomputable section

/-! ## Specification -/

/-- A usable soil parameter set: negative bubbling pressure, positive exponents,
residual below saturated moisture. -/
structure Good (qs qr pB c lam : ℝ) : Prop where
  pB : pB < 0
  c : 0 < c
  lam : 0 < lam
  q : qr < qs

/-! ## Helpers -/

theorem sat_pos {q qs qr : ℝ} (hq : qr < q) (h : qr < qs) : 0 < (q - qr) / (qs - qr) :=
  div_pos (by linarith) (by linarith)

theorem sat_le {q qs qr : ℝ} (hq : q ≤ qs) (h : qr < qs) : (q - qr) / (qs - qr) ≤ 1 := by
  rw [div_le_one (by linarith)]; linarith

theorem one_le_rpow_neg {x e : ℝ} (hx : 0 < x) (hx1 : x ≤ 1) (he : e ≤ 0) : 1 ≤ x ^ e :=
  Real.one_le_rpow_of_pos_of_le_one_of_nonpos hx hx1 he

/-- The inner term of the retention curve. -/
theorem arg_pow {Se lam c : ℝ} (h0 : 0 < Se) (h1 : Se ≤ 1) (hl : 0 < lam) (hc : 0 < c) :
    1 + ((Se ^ (-c / lam) - 1) ^ (1 / c)) ^ c = Se ^ (-c / lam) := by
  have h : 1 ≤ Se ^ (-c / lam) :=
    one_le_rpow_neg h0 h1 (div_nonpos_of_nonpos_of_nonneg (by linarith) hl.le)
  rw [← Real.rpow_mul (by linarith), one_div, inv_mul_cancel₀ hc.ne', Real.rpow_one]
  ring

theorem ratio_psi {arg pB pA : ℝ} (h : pB ≠ 0) : (pB * arg - pA + pA) / pB = arg := by
  field_simp
  ring

/-! ## C64 -/

/-- C64a: moisture → pressure head → moisture is the identity on `(qr, qs]`. -/
theorem C64_theta_psi_theta (q qs qr pB pA c lam : ℝ) (g : Good qs qr pB c lam)
    (h1 : qr < q) (h2 : q ≤ qs) :
    thetaOfPsi (psiOfTheta q qs qr lam c pB pA) qs qr pB pA c lam false = q := by
  have s0 := sat_pos h1 g.q
  have s1 := sat_le h2 g.q
  simp only [thetaOfPsi, psiOfTheta, Bool.false_eq_true, if_false]
  rw [ratio_psi g.pB.ne, arg_pow s0 s1 g.lam g.c, ← Real.rpow_mul s0.le]
  have : -c / lam * (-lam / c) = 1 := by
    have := g.c.ne'; have := g.lam.ne'; field_simp
  rw [this, Real.rpow_one]
  have : qs - qr ≠ 0 := by linarith [g.q]
  field_simp
  ring

/-- C64b: pressure head → moisture → pressure head is the identity for `p ≤ -pA`. -/
theorem C64_psi_theta_psi (p qs qr pB pA c lam : ℝ) (g : Good qs qr pB c lam) (h : p ≤ -pA) :
    psiOfTheta (thetaOfPsi p qs qr pB pA c lam false) qs qr lam c pB pA = p := by
  simp only [thetaOfPsi, psiOfTheta, Bool.false_eq_true, if_false]
  have hr : 0 ≤ (p + pA) / pB := div_nonneg_of_nonpos (by linarith) g.pB.le
  have hq : qs - qr ≠ 0 := by linarith [g.q]
  rw [add_sub_cancel_right, mul_div_cancel_right₀ _ hq]
  have hp : 0 ≤ ((p + pA) / pB) ^ c := Real.rpow_nonneg hr _
  rw [← Real.rpow_mul (by linarith)]
  have : -lam / c * (-c / lam) = 1 := by
    have := g.c.ne'; have := g.lam.ne'; field_simp
  rw [this, Real.rpow_one, add_sub_cancel_left, ← Real.rpow_mul hr, one_div,
    mul_inv_cancel₀ g.c.ne', Real.rpow_one]
  have := g.pB.ne
  field_simp
  ring

/-- C64c: drier soil has a strictly lower pressure head; saturated soil has `-pA`. -/
theorem C64_psi_strictMono (q q' qs qr pB pA c lam : ℝ) (g : Good qs qr pB c lam)
    (h1 : qr < q) (h2 : q < q') (h3 : q' ≤ qs) :
    psiOfTheta q qs qr lam c pB pA < psiOfTheta q' qs qr lam c pB pA := by
  have hd : 0 < qs - qr := by linarith [g.q]
  have s0 := sat_pos h1 g.q
  have s0' := sat_pos (h1.trans h2) g.q
  have s1' := sat_le h3 g.q
  have hlt : (q - qr) / (qs - qr) < (q' - qr) / (qs - qr) :=
    div_lt_div_of_pos_right (by linarith) hd
  have hneg : -c / lam < 0 := div_neg_of_neg_of_pos (by linarith [g.c]) g.lam
  have hpow := Real.rpow_lt_rpow_of_neg s0 hlt hneg
  have hone := one_le_rpow_neg s0' s1' hneg.le
  have := Real.rpow_lt_rpow (by linarith) (sub_lt_sub_right hpow 1) (one_div_pos.mpr g.c)
  simp only [psiOfTheta]
  have := mul_lt_mul_of_neg_left this g.pB
  linarith

theorem C64_psi_saturated (qs qr pB pA c lam : ℝ) (g : Good qs qr pB c lam) :
    psiOfTheta qs qs qr lam c pB pA = -pA := by
  have hd : qs - qr ≠ 0 := by linarith [g.q]
  have hc : (1 : ℝ) / c ≠ 0 := (one_div_pos.mpr g.c).ne'
  simp [psiOfTheta, div_self hd, Real.zero_rpow (inv_ne_zero g.c.ne')]

/-- C64c: the head never exceeds `-pA`. -/
theorem C64_psi_le (q qs qr pB pA c lam : ℝ) (g : Good qs qr pB c lam)
    (h1 : qr < q) (h2 : q ≤ qs) : psiOfTheta q qs qr lam c pB pA ≤ -pA := by
  rcases h2.lt_or_eq with h | h
  · rw [← C64_psi_saturated qs qr pB pA c lam g]
    exact (C64_psi_strictMono q qs qs qr pB pA c lam g h1 h le_rfl).le
  · rw [h, C64_psi_saturated qs qr pB pA c lam g]

/-- C64d: for `p ≤ -pA` the moisture returned lies in `(qr, qs]`. -/
theorem C64_theta_range (p qs qr pB pA c lam : ℝ) (g : Good qs qr pB c lam) (h : p ≤ -pA) :
    qr < thetaOfPsi p qs qr pB pA c lam false ∧ thetaOfPsi p qs qr pB pA c lam false ≤ qs := by
  have hr : 0 ≤ (p + pA) / pB := div_nonneg_of_nonpos (by linarith) g.pB.le
  have hp : 0 ≤ ((p + pA) / pB) ^ c := Real.rpow_nonneg hr _
  have hd : 0 < qs - qr := by linarith [g.q]
  simp only [thetaOfPsi, Bool.false_eq_true, if_false]
  have e : -lam / c ≤ 0 := div_nonpos_of_nonpos_of_nonneg (by linarith [g.lam]) g.c.le
  have a : 0 < (1 + ((p + pA) / pB) ^ c) ^ (-lam / c) := Real.rpow_pos_of_pos (by linarith) _
  have b : (1 + ((p + pA) / pB) ^ c) ^ (-lam / c) ≤ 1 :=
    Real.rpow_le_one_of_one_le_of_nonpos (by linarith) e
  constructor
  · have := mul_pos a hd; linarith
  · have := mul_le_mul_of_nonneg_right b hd.le; linarith

/-- C64d: wetter heads give strictly more moisture. -/
theorem C64_theta_strictMono (p p' qs qr pB pA c lam : ℝ) (g : Good qs qr pB c lam)
    (h1 : p < p') (h2 : p' ≤ -pA) :
    thetaOfPsi p qs qr pB pA c lam false < thetaOfPsi p' qs qr pB pA c lam false := by
  by_contra hcon
  push Not at hcon
  have r := C64_theta_range p qs qr pB pA c lam g (h1.le.trans h2)
  have r' := C64_theta_range p' qs qr pB pA c lam g h2
  rcases hcon.lt_or_eq with h | h
  · have := C64_psi_strictMono _ _ qs qr pB pA c lam g r'.1 h r.2
    rw [C64_psi_theta_psi p qs qr pB pA c lam g (h1.le.trans h2),
      C64_psi_theta_psi p' qs qr pB pA c lam g h2] at this
    linarith
  · have e := congrArg (fun t => psiOfTheta t qs qr lam c pB pA) h
    simp only [C64_psi_theta_psi p qs qr pB pA c lam g (h1.le.trans h2),
      C64_psi_theta_psi p' qs qr pB pA c lam g h2] at e
    linarith

/-- C64e: a head given in centimetres with `CM_TO_M` is the same head in metres. -/
theorem C64_cm (p qs qr pB pA c lam : ℝ) :
    thetaOfPsi (100 * p) qs qr pB pA c lam true = thetaOfPsi p qs qr pB pA c lam false := by
  have : 100 * p / 100 = p := by ring
  simp [thetaOfPsi, this]

theorem psiOfTheta_eq (q qs qr lam c pB pA : ℝ) :
    psiOfTheta q qs qr lam c pB pA = psiOfSat ((q - qr) / (qs - qr)) lam c pB pA := rfl

theorem kOfSat_bounds {Se Ks lam eta : ℝ} (h0 : 0 < Se) (h1 : Se ≤ 1) (hK : 0 ≤ Ks)
    (hl : 0 < lam) (he : 0 ≤ eta) :
    0 ≤ kOfSat Se Ks lam eta ∧ kOfSat Se Ks lam eta ≤ Ks := by
  have a := Real.rpow_nonneg h0.le (eta / lam)
  have b := Real.rpow_le_one h0.le h1 (div_nonneg he hl.le)
  exact ⟨mul_nonneg hK a, mul_le_of_le_one_right hK b⟩

/-- C64f: the three conductivity functions agree: from moisture, from saturation, and
from the head belonging to that moisture. -/
theorem C64_conductivity_agree (q Ks qs qr pB pA c lam : ℝ) (g : Good qs qr pB c lam)
    (h1 : qr < q) (h2 : q ≤ qs) :
    kOfPsi (psiOfTheta q qs qr lam c pB pA) pB pA Ks (2 + 3 * lam) c = kOfTheta q Ks qs qr lam ∧
    kOfTheta q Ks qs qr lam = kOfSat ((q - qr) / (qs - qr)) Ks lam (2 + 3 * lam) := by
  have s0 := sat_pos h1 g.q
  have s1 := sat_le h2 g.q
  constructor
  · simp only [kOfPsi, kOfTheta, psiOfTheta]
    rw [ratio_psi g.pB.ne, arg_pow s0 s1 g.lam g.c, ← Real.rpow_mul s0.le]
    have : -c / lam * (-(2 + 3 * lam) / c) = (2 + 3 * lam) / lam := by
      have := g.c.ne'; have := g.lam.ne'; field_simp
    rw [this]
  · have a := Real.rpow_nonneg s0.le ((2 + 3 * lam) / lam)
    have b := Real.rpow_le_one s0.le s1
      (div_nonneg (by linarith [g.lam]) g.lam.le : 0 ≤ (2 + 3 * lam) / lam)
    simp only [kOfTheta, kOfSat]
    rw [min_eq_left b, max_eq_left a]

/-- C64g: conductivity lies in `[0, Ks]` whatever the head or the moisture. -/
theorem C64_conductivity_range (x Ks qs qr pB pA c lam eta : ℝ) (hK : 0 ≤ Ks) :
    (0 ≤ kOfPsi x pB pA Ks eta c ∧ kOfPsi x pB pA Ks eta c ≤ Ks) ∧
    (0 ≤ kOfTheta x Ks qs qr lam ∧ kOfTheta x Ks qs qr lam ≤ Ks) := by
  simp only [kOfPsi, kOfTheta]
  refine ⟨⟨mul_nonneg hK (le_max_right _ _), mul_le_of_le_one_right hK ?_⟩,
    ⟨mul_nonneg hK (le_max_right _ _), mul_le_of_le_one_right hK ?_⟩⟩ <;>
  exact max_le (min_le_right _ _) zero_le_one

/-- C64g: conductivity grows strictly with moisture and reaches `Ks` at saturation. -/
theorem C64_conductivity_strictMono (q q' Ks qs qr pB c lam : ℝ) (g : Good qs qr pB c lam)
    (hK : 0 < Ks) (h1 : qr < q) (h2 : q < q') (h3 : q' ≤ qs) :
    kOfTheta q Ks qs qr lam < kOfTheta q' Ks qs qr lam ∧ kOfTheta qs Ks qs qr lam = Ks := by
  have hd : 0 < qs - qr := by linarith [g.q]
  have hlt : (q - qr) / (qs - qr) < (q' - qr) / (qs - qr) :=
    div_lt_div_of_pos_right (by linarith) hd
  rw [(C64_conductivity_agree q Ks qs qr pB 0 c lam g h1 (by linarith)).2,
    (C64_conductivity_agree q' Ks qs qr pB 0 c lam g (by linarith) h3).2]
  constructor
  · simp only [kOfSat]
    exact mul_lt_mul_of_pos_left (Real.rpow_lt_rpow (sat_pos h1 g.q).le hlt
      (div_pos (by linarith [g.lam]) g.lam)) hK
  · simp [kOfTheta, div_self hd.ne']

/-- C64h: with `MIN_VALUE` the head is raised to that value and otherwise unchanged. -/
theorem C64_min_value (Se lam c pB pA m : ℝ) :
    m ≤ psiOfSatMin Se lam c pB pA m ∧
    (m ≤ psiOfSat Se lam c pB pA → psiOfSatMin Se lam c pB pA m = psiOfSat Se lam c pB pA) ∧
    (psiOfSat Se lam c pB pA < m → psiOfSatMin Se lam c pB pA m = m) :=
  ⟨le_max_right _ _, fun h => max_eq_left h, fun h => max_eq_right h.le⟩

/-- A loam as in the code's soil tables meets the hypotheses. -/
example : Good (478/1000) (27/1000) (-147/1000) 1 (22/100) := by constructor <;> norm_num

/-! ## C65: the soil state stays physical -/

/-- A column of usable soil: every node has a good parameter set, the moisture range is
wider than the solver's tolerance of 0.001, and conductivities are not negative. -/
structure GoodSoil (S : Soil) : Prop where
  good : ∀ i, Good (S.qs i) (S.qr i) (S.pB i) (S.c i) (S.lam i)
  width : ∀ i, S.qr i + 1 / 1000 ≤ S.qs i
  Ks : ∀ i, 0 ≤ S.Ks i

/-- Moisture before the range is enforced. -/
def raw (S : Soil) (r : ℝ) (s : St) : ℕ → ℝ :=
  (bottomBC S (surfaceBC S r (updateTheta S s))).q

theorem run_append (S : Soil) (rs : List ℝ) (r : ℝ) (s : St) :
    run S (rs ++ [r]) s = update S r (run S rs s) := by
  induction rs generalizing s with
  | nil => rfl
  | cons a l ih => exact ih _

theorem update_q (S : Soil) (r : ℝ) (s : St) (i : ℕ) :
    (update S r s).q i = max (min (raw S r s i) (S.qs i)) (S.qr i + 1 / 1000) := rfl

theorem update_Se (S : Soil) (r : ℝ) (s : St) (i : ℕ) :
    (update S r s).Se i = ((update S r s).q i - S.qr i) / (S.qs i - S.qr i) := rfl

theorem update_p (S : Soil) (r : ℝ) (s : St) (i : ℕ) :
    (update S r s).p i =
      psiOfTheta ((update S r s).q i) (S.qs i) (S.qr i) (S.lam i) (S.c i) (S.pB i) (S.pA i) := rfl

theorem update_K (S : Soil) (r : ℝ) (s : St) (i : ℕ) :
    (update S r s).K i = kOfSat ((update S r s).Se i) (S.Ks i) (S.lam i) (2 + 3 * S.lam i) := rfl

theorem update_v_fun (S : Soil) (r : ℝ) (s : St) :
    (update S r s).v = Function.update
      (fun i => avgF S.nz (update S r s).K i * (1 - derivF S.nz (update S r s).p S.dz i))
      (S.nz - 1)
      (avgF S.nz (update S r s).K (S.nz - 1 - 1) *
        (1 - derivF S.nz (update S r s).p S.dz (S.nz - 1 - 1))) := rfl

theorem update_v (S : Soil) (r : ℝ) (s : St) (i : ℕ) (h : i ≠ S.nz - 1) :
    (update S r s).v i =
      avgF S.nz (update S r s).K i * (1 - derivF S.nz (update S r s).p S.dz i) := by
  rw [update_v_fun, Function.update_of_ne h]

theorem update_v_bottom (S : Soil) (r : ℝ) (s : St) (h : 2 ≤ S.nz) :
    (update S r s).v (S.nz - 1) = (update S r s).v (S.nz - 1 - 1) := by
  rw [update_v S r s (S.nz - 1 - 1) (by omega)]
  rw [update_v_fun, Function.update_self]

theorem update_Rg (S : Soil) (r : ℝ) (s : St) :
    (update S r s).Rg = (update S r s).v (S.nz - 1) := rfl

theorem update_IN (S : Soil) (r : ℝ) (s : St) :
    (update S r s).IN = min r ((update S r s).v 0 +
      (S.qs 0 - (update S r s).q 0) * (S.dz 0 / S.dt)) := rfl

theorem update_v0 (S : Soil) (r : ℝ) (s : St) : (update S r s).v0 = (update S r s).v 0 := rfl

/-- C65a: after any history of updates from any state, every node holds at least
`qr + 0.001` and at most the saturated moisture. -/
theorem C65_moisture_range (S : Soil) (hS : GoodSoil S) (rs : List ℝ) (r : ℝ) (s : St) (i : ℕ) :
    S.qr i + 1 / 1000 ≤ (run S (rs ++ [r]) s).q i ∧ (run S (rs ++ [r]) s).q i ≤ S.qs i := by
  rw [run_append, update_q]
  exact ⟨le_max_right _ _, max_le (min_le_right _ _) (hS.width i)⟩

/-- C65b: the effective saturation is in `(0, 1]` and belongs to the moisture. -/
theorem C65_saturation_range (S : Soil) (hS : GoodSoil S) (rs : List ℝ) (r : ℝ) (s : St)
    (i : ℕ) :
    0 < (run S (rs ++ [r]) s).Se i ∧ (run S (rs ++ [r]) s).Se i ≤ 1 ∧
    (run S (rs ++ [r]) s).q i =
      S.qr i + (run S (rs ++ [r]) s).Se i * (S.qs i - S.qr i) := by
  have h := C65_moisture_range S hS rs r s i
  have g := (hS.good i).q
  rw [run_append] at h ⊢
  rw [update_Se]
  refine ⟨sat_pos (by linarith) g, sat_le h.2 g, ?_⟩
  rw [div_mul_cancel₀ _ (by linarith : S.qs i - S.qr i ≠ 0)]
  ring

/-- C65c: pressure head and conductivity are those of the retention functions at the
node's moisture, the head is at most `-pA`, the conductivity in `[0, Ks]`. -/
theorem C65_head_conductivity (S : Soil) (hS : GoodSoil S) (rs : List ℝ) (r : ℝ) (s : St)
    (i : ℕ) :
    let t := run S (rs ++ [r]) s
    t.p i = psiOfTheta (t.q i) (S.qs i) (S.qr i) (S.lam i) (S.c i) (S.pB i) (S.pA i) ∧
    t.p i ≤ -S.pA i ∧
    t.K i = kOfTheta (t.q i) (S.Ks i) (S.qs i) (S.qr i) (S.lam i) ∧
    0 ≤ t.K i ∧ t.K i ≤ S.Ks i := by
  intro t
  have h := C65_moisture_range S hS rs r s i
  have g := hS.good i
  simp only [t]
  rw [run_append] at h ⊢
  have hK : (update S r (run S rs s)).K i =
      kOfTheta ((update S r (run S rs s)).q i) (S.Ks i) (S.qs i) (S.qr i) (S.lam i) := by
    rw [(C64_conductivity_agree _ (S.Ks i) _ _ _ 0 _ _ g (by linarith) h.2).2, update_K, update_Se]
  refine ⟨update_p _ _ _ _, ?_, hK, ?_, ?_⟩
  · rw [update_p]
    exact C64_psi_le _ _ _ _ _ _ _ g (by linarith) h.2
  · rw [hK]
    exact (C64_conductivity_range _ _ _ _ 0 0 0 _ 0 (hS.Ks i)).2.1
  · rw [hK]
    exact (C64_conductivity_range _ _ _ _ 0 0 0 _ 0 (hS.Ks i)).2.2

/-- C65d: the infiltration rate never exceeds the water supplied, nor what drains from the
top node plus the room left in it; one of the two is reached. -/
theorem C65_infiltration_limits (S : Soil) (hdt : 0 < S.dt) (rs : List ℝ) (r : ℝ) (s : St) :
    let t := run S (rs ++ [r]) s
    t.IN ≤ r ∧ (t.IN - t.v0) * S.dt ≤ (S.qs 0 - t.q 0) * S.dz 0 ∧
    (t.IN < r → (t.IN - t.v0) * S.dt = (S.qs 0 - t.q 0) * S.dz 0) := by
  intro t
  simp only [t]
  rw [run_append, update_IN, update_v0]
  set u := update S r (run S rs s)
  have e : (u.v 0 + (S.qs 0 - u.q 0) * (S.dz 0 / S.dt) - u.v 0) * S.dt =
      (S.qs 0 - u.q 0) * S.dz 0 := by
    field_simp
    ring
  refine ⟨min_le_left _ _, ?_, fun h => ?_⟩
  · rw [← e]
    exact mul_le_mul_of_nonneg_right (sub_le_sub_right (min_le_right _ _) _) hdt.le
  · rw [min_lt_iff] at h
    rw [min_eq_right (by rcases h with h | h <;> linarith), e]

/-- C65d: in terms of the rates taken from the other components: infiltration is at most
rain plus snowmelt minus evapotranspiration. -/
theorem C65_supply (S : Soil) (P SM ET : ℝ) (s : St) :
    (step S P SM ET s).IN + ET ≤ P + SM := by
  have : (step S P SM ET s).IN ≤ P + SM - ET := min_le_left _ _
  linarith

/-- C65e: where the two top nodes are saturated, infiltration is the smaller of supply
and saturated conductivity. -/
theorem C65_saturated_rate (S : Soil) (hS : GoodSoil S) (hn : 3 ≤ S.nz) (rs : List ℝ)
    (r : ℝ) (s : St) (hK : S.Ks 1 = S.Ks 0) (hA : S.pA 1 = S.pA 0)
    (h0 : (run S (rs ++ [r]) s).q 0 = S.qs 0) (h1 : (run S (rs ++ [r]) s).q 1 = S.qs 1) :
    (run S (rs ++ [r]) s).IN = min r (S.Ks 0) := by
  have a0 := C65_head_conductivity S hS rs r s 0
  have a1 := C65_head_conductivity S hS rs r s 1
  simp only at a0 a1
  rw [h0] at a0
  rw [h1] at a1
  have k (i : ℕ) : kOfTheta (S.qs i) (S.Ks i) (S.qs i) (S.qr i) (S.lam i) = S.Ks i := by
    have : S.qs i - S.qr i ≠ 0 := by linarith [(hS.good i).q]
    simp [kOfTheta, div_self this]
  rw [C64_psi_saturated _ _ _ _ _ _ (hS.good 0), k 0] at a0
  rw [C64_psi_saturated _ _ _ _ _ _ (hS.good 1), k 1] at a1
  rw [run_append] at *
  rw [update_IN, h0, update_v S r _ 0 (by omega)]
  have m : (0 + 1) % S.nz = 1 := Nat.mod_eq_of_lt (by omega)
  simp only [avgF, derivF, below, m, a0.1, a1.1, a0.2.2.1, a1.2.2.1, hK, hA]
  congr 1
  ring

/-- C65f: a uniform profile whose supply equals its conductivity is steady: unit-gradient
flow. -/
theorem C65_steady_state (S : Soil) (θ h : ℝ) (r : ℝ) (s : St)
    (hh : ∀ i, S.dz i = h)
    (hq : ∀ i, S.qr i + 1 / 1000 ≤ θ ∧ θ ≤ S.qs i)
    (s1 : ∀ i, s.q i = θ) (s2 : ∀ i, s.p i = s.p 0) (s3 : ∀ i, s.K i = r) (s4 : s.v 0 = r)
    (i : ℕ) : (update S r s).q i = θ := by
  have a (j : ℕ) : (updateTheta S s).q j = θ := by
    have t1 : avgF S.nz s.K j * (derivF S.nz s.p S.dz j - 1)
        = avgB S.nz s.K j * (derivB S.nz s.p S.dz j - 1) := by
      simp only [avgF, avgB, derivF, derivB, below, above, s3, s2 j, hh,
        s2 ((j + 1) % S.nz), s2 ((j + S.nz - 1) % S.nz)]
    simp only [updateTheta, t1, s1]
    split <;> simp
  have b (j : ℕ) : (surfaceBC S r (updateTheta S s)).q j = θ := by
    simp only [surfaceBC, Function.update_apply, a]
    split
    · change θ + (r - s.v 0) * S.dt / S.dz 0 = θ
      rw [s4]; simp
    · rfl
  have d : raw S r s i = θ := by
    simp only [raw, bottomBC, Function.update_apply, b]
    split <;> rfl
  rw [update_q, d, min_eq_left (hq i).2, max_eq_left (hq i).1]

/-! ## C66: water balance -/

/-- Water (depth) in the nodes above the bottom node. -/
def column (S : Soil) (s : St) : ℝ := ∑ i ∈ Finset.range (S.nz - 1), s.q i * S.dz i

/-- The update `r` leaves the moisture of every node above the bottom one within limits
by itself. -/
def Unclipped (S : Soil) (r : ℝ) (s : St) : Prop :=
  ∀ i < S.nz - 1, S.qr i + 1 / 1000 ≤ raw S r s i ∧ raw S r s i ≤ S.qs i

/-- The recharge rate reported before each update of a run. -/
def rgTrace (S : Soil) : List ℝ → St → List ℝ
  | [], _ => []
  | r :: rs, s => s.Rg :: rgTrace S rs (update S r s)

/-- Every update of the run is `Unclipped`. -/
def AllUnclipped (S : Soil) : List ℝ → St → Prop
  | [], _ => True
  | r :: rs, s => Unclipped S r s ∧ AllUnclipped S rs (update S r s)

theorem raw_zero (S : Soil) (r : ℝ) (s : St) (hn : 2 ≤ S.nz) :
    raw S r s 0 = s.q 0 + (r - s.v 0) * S.dt / S.dz 0 := by
  simp only [raw, bottomBC, Function.update_apply]
  rw [if_neg (by omega)]
  simp [surfaceBC, updateTheta]

theorem raw_mid (S : Soil) (r : ℝ) (s : St) (i : ℕ) (h0 : 0 < i) (h1 : i < S.nz - 1) :
    raw S r s i = s.q i + (2 * S.dt / (S.z (i + 1) - S.z (i - 1))) *
      ((s.K (i + 1) + s.K i) / 2 * ((s.p (i + 1) - s.p i) / S.dz i - 1)
      - (s.K i + s.K (i - 1)) / 2 * ((s.p i - s.p (i - 1)) / S.dz i - 1)) := by
  have m1 : (i + 1) % S.nz = i + 1 := Nat.mod_eq_of_lt (by omega)
  have m2 : (i + S.nz - 1) % S.nz = i - 1 := by
    rw [show i + S.nz - 1 = i - 1 + S.nz by omega, Nat.add_mod_right,
      Nat.mod_eq_of_lt (by omega)]
  simp only [raw, bottomBC, Function.update_apply]
  rw [if_neg (by omega)]
  simp only [surfaceBC, Function.update_apply]
  rw [if_neg (by omega)]
  simp only [updateTheta]
  rw [if_neg (by omega)]
  simp only [avgF, avgB, derivF, derivB, below, above, m1, m2]

theorem raw_bottom (S : Soil) (r : ℝ) (s : St) (hn : 2 ≤ S.nz) :
    raw S r s (S.nz - 1) = raw S r s (S.nz - 1 - 1) := by
  simp only [raw, bottomBC, Function.update_apply]
  rw [if_pos trivial, if_neg (by omega)]

theorem z_diff (S : Soil) (i : ℕ) (h0 : 0 < i) :
    S.z (i + 1) - S.z (i - 1) = S.dz i + S.dz (i + 1) := by
  obtain ⟨k, rfl⟩ := Nat.exists_eq_succ_of_ne_zero h0.ne'
  simp only [Soil.z, Nat.succ_eq_add_one, Nat.add_sub_cancel]
  rw [Finset.sum_range_succ _ (k + 1 + 1), Finset.sum_range_succ _ (k + 1)]
  ring

/-- The flow rates in the state are those of its heads and conductivities. -/
def FlowOK (S : Soil) (s : St) : Prop :=
  (∀ i < S.nz - 1, s.v i = (s.K (i + 1) + s.K i) / 2 * (1 - (s.p (i + 1) - s.p i) / S.dz i)) ∧
  s.Rg = s.v (S.nz - 1 - 1)

theorem flowOK_update (S : Soil) (r : ℝ) (s : St) (hn : 2 ≤ S.nz) :
    FlowOK S (update S r s) := by
  refine ⟨fun i hi => ?_, ?_⟩
  · rw [update_v S r s i (by omega)]
    have m : (i + 1) % S.nz = i + 1 := Nat.mod_eq_of_lt (by omega)
    simp only [avgF, derivF, below, m]
  · rw [update_Rg, update_v_bottom S r s hn]

/-- Balance of the unclipped values: uniform spacing. -/
theorem raw_balance (S : Soil) (h : ℝ) (hh : ∀ i, S.dz i = h) (h0 : h ≠ 0) (hn : 2 ≤ S.nz)
    (r : ℝ) (s : St) (hs : FlowOK S s) :
    ∑ i ∈ Finset.range (S.nz - 1), raw S r s i * S.dz i = column S s + (r - s.Rg) * S.dt := by
  have key : ∀ m, m + 1 ≤ S.nz - 1 →
      ∑ i ∈ Finset.range (m + 1), raw S r s i * S.dz i =
        ∑ i ∈ Finset.range (m + 1), s.q i * S.dz i + (r - s.v m) * S.dt := by
    intro m
    induction m with
    | zero =>
      intro _
      simp only [zero_add, Finset.sum_range_one]
      rw [raw_zero S r s hn, hh]
      field_simp
    | succ k ih =>
      intro hk
      rw [Finset.sum_range_succ, ih (by omega), Finset.sum_range_succ _ (k + 1),
        raw_mid S r s (k + 1) (by omega) (by omega), z_diff S (k + 1) (by omega)]
      have v1 := hs.1 (k + 1) (by omega)
      have v0 := hs.1 k (by omega)
      simp only [hh, Nat.add_sub_cancel] at v1 v0 ⊢
      rw [v1, v0]
      field_simp
      ring_nf
  have := key (S.nz - 1 - 1) (by omega)
  rw [show S.nz - 1 - 1 + 1 = S.nz - 1 by omega, ← hs.2] at this
  exact this

/-- C66a (partial: uniform node spacing, moisture that stays within limits without being
clipped, bottom node left out): over any run that follows at least one update, the water
in the column changes by supply minus reported recharge. -/
theorem C66_balance_partial (S : Soil) (h : ℝ) (hh : ∀ i, S.dz i = h) (h0 : h ≠ 0)
    (hn : 2 ≤ S.nz) (r₀ : ℝ) (s₀ : St) (rs : List ℝ)
    (hu : AllUnclipped S rs (update S r₀ s₀)) :
    column S (run S rs (update S r₀ s₀)) = column S (update S r₀ s₀) +
      (rs.sum - (rgTrace S rs (update S r₀ s₀)).sum) * S.dt := by
  induction rs generalizing r₀ s₀ with
  | nil => simp [run, rgTrace]
  | cons r rs ih =>
    have e := ih r (update S r₀ s₀) hu.2
    simp only [run, rgTrace, List.sum_cons]
    rw [e]
    have b := raw_balance S h hh h0 hn r (update S r₀ s₀) (flowOK_update S r₀ s₀ hn)
    have c : column S (update S r (update S r₀ s₀)) =
        ∑ i ∈ Finset.range (S.nz - 1), raw S r (update S r₀ s₀) i * S.dz i := by
      refine Finset.sum_congr rfl fun i hi => ?_
      have u := hu.1 i (Finset.mem_range.mp hi)
      rw [update_q, min_eq_left u.2, max_eq_left u.1]
    rw [c, b]
    ring

/-- C66b: clipping at saturation only removes water: while no node falls to its lower
limit, an update never leaves more water than supply and recharge account for. -/
theorem C66_no_creation_partial (S : Soil) (h : ℝ) (hh : ∀ i, S.dz i = h) (h0 : 0 < h)
    (hn : 2 ≤ S.nz) (r₀ r : ℝ) (s₀ : St)
    (hu : ∀ i < S.nz - 1, S.qr i + 1 / 1000 ≤ min (raw S r (update S r₀ s₀) i) (S.qs i)) :
    column S (update S r (update S r₀ s₀)) ≤
      column S (update S r₀ s₀) + (r - (update S r₀ s₀).Rg) * S.dt := by
  rw [← raw_balance S h hh h0.ne' hn r _ (flowOK_update S r₀ s₀ hn)]
  refine Finset.sum_le_sum fun i hi => ?_
  rw [update_q, max_eq_left (hu i (Finset.mem_range.mp hi)), hh]
  exact mul_le_mul_of_nonneg_right (min_le_left _ _) h0.le

/-- C66c: what really enters the top node during an update is the supply, limited by the
drainage and room *before* the update: the rate reported after the previous update, had
the supply been the same.  (The top node does not fall to its lower limit.) -/
theorem C66_entering_water (S : Soil) (hS : GoodSoil S) (hn : 2 ≤ S.nz) (hdt : 0 < S.dt)
    (hdz : 0 < S.dz 0) (r₀ r : ℝ) (s₀ : St)
    (hlo : S.qr 0 + 1 / 1000 ≤ raw S r (update S r₀ s₀) 0) :
    let a := update S r₀ s₀
    let b := update S r a
    (b.q 0 - a.q 0) * S.dz 0 = (min r (a.v 0 + (S.qs 0 - a.q 0) * (S.dz 0 / S.dt)) - a.v 0) * S.dt
    ∧ (r = r₀ → (b.q 0 - a.q 0) * S.dz 0 = (a.IN - a.v0) * S.dt) := by
  intro a b
  have main : (b.q 0 - a.q 0) * S.dz 0 =
      (min r (a.v 0 + (S.qs 0 - a.q 0) * (S.dz 0 / S.dt)) - a.v 0) * S.dt := by
    have e : b.q 0 = min (raw S r a 0) (S.qs 0) := by
      simp only [b]
      rw [update_q, max_eq_left (le_min hlo (hS.width 0))]
    rw [e, raw_zero S r a hn]
    rcases le_total r (a.v 0 + (S.qs 0 - a.q 0) * (S.dz 0 / S.dt)) with h | h
    · rw [min_eq_left h, min_eq_left]
      · field_simp
        ring
      · have : (r - a.v 0) * S.dt ≤ (S.qs 0 - a.q 0) * S.dz 0 := by
          have := mul_le_mul_of_nonneg_right (sub_le_sub_right h (a.v 0)) hdt.le
          have e2 : (a.v 0 + (S.qs 0 - a.q 0) * (S.dz 0 / S.dt) - a.v 0) * S.dt =
            (S.qs 0 - a.q 0) * S.dz 0 := by field_simp; ring
          linarith
        have := (div_le_iff₀ hdz).mpr this
        linarith
    · rw [min_eq_right h, min_eq_right]
      · field_simp
        ring
      · have : (S.qs 0 - a.q 0) * S.dz 0 ≤ (r - a.v 0) * S.dt := by
          have := mul_le_mul_of_nonneg_right (sub_le_sub_right h (a.v 0)) hdt.le
          have e2 : (a.v 0 + (S.qs 0 - a.q 0) * (S.dz 0 / S.dt) - a.v 0) * S.dt =
            (S.qs 0 - a.q 0) * S.dz 0 := by field_simp; ring
          linarith
        have := (le_div_iff₀ hdz).mpr this
        linarith
  refine ⟨main, fun h => ?_⟩
  rw [main, h]
  rfl

/-- C66d: the storage the component reports counts the bottom node, whose moisture is
copied from the node above.  With uniform soil it is therefore off by that node's change. -/
theorem C66_reported_storage_error (S : Soil) (h : ℝ) (hh : ∀ i, S.dz i = h) (h0 : h ≠ 0)
    (hn : 2 ≤ S.nz) (hqs : ∀ i, S.qs i = S.qs 0) (hqr : ∀ i, S.qr i = S.qr 0)
    (r₀ r : ℝ) (s₀ : St) (hu : Unclipped S r (update S r₀ s₀)) :
    let a := update S r₀ s₀
    let b := update S r a
    totalStorage S b - totalStorage S a = (r - a.Rg) * S.dt +
      h * (b.q (S.nz - 1 - 1) - a.q (S.nz - 1 - 1)) := by
  intro a b
  have bot : ∀ (r : ℝ) (s : St), (update S r s).q (S.nz - 1) = (update S r s).q (S.nz - 1 - 1) := by
    intro r s
    rw [update_q, update_q, raw_bottom S r s hn, hqs (S.nz - 1), hqs (S.nz - 1 - 1),
      hqr (S.nz - 1), hqr (S.nz - 1 - 1)]
  have tot : ∀ s, totalStorage S s = column S s + s.q (S.nz - 1) * h := by
    intro s
    simp only [totalStorage, column]
    rw [show S.nz = S.nz - 1 + 1 by omega, Finset.sum_range_succ, hh (S.nz - 1)]
    simp
  have c := C66_balance_partial S h hh h0 hn r₀ s₀ [r] ⟨hu, trivial⟩
  simp only [run, rgTrace, List.sum_cons, List.sum_nil, add_zero] at c
  rw [tot, tot, c, bot, bot]
  ring

/-! ### A soil with simple numbers: `psi = 1 - 1/Se`, `K = Se^5` -/

/-- Test soil. -/
def W (dt : ℝ) (dz : ℕ → ℝ) : Soil :=
  { nz := 3, dt := dt, dz := dz, Ks := fun _ => 1, qs := fun _ => 1, qr := fun _ => 0,
    pB := fun _ => -1, pA := fun _ => 0, lam := fun _ => 1, c := fun _ => 1 }

theorem goodSoil_W (dt : ℝ) (dz : ℕ → ℝ) : GoodSoil (W dt dz) := by
  refine ⟨fun i => ⟨?_, ?_, ?_, ?_⟩, fun i => ?_, fun i => ?_⟩ <;> simp [W]
  norm_num

theorem W_psi (Se : ℝ) : psiOfSat Se 1 1 (-1) 0 = 1 - Se⁻¹ := by
  simp [psiOfSat, Real.rpow_neg_one]

theorem W_K (Se : ℝ) : kOfSat Se 1 1 (2 + 3 * 1) = Se ^ 5 := by
  have : ((2 : ℝ) + 3 * 1) / 1 = ((5 : ℕ) : ℝ) := by norm_num
  simp only [kOfSat, this, Real.rpow_natCast, one_mul]

theorem W_p (dt : ℝ) (dz : ℕ → ℝ) (r : ℝ) (s : St) (i : ℕ) :
    (update (W dt dz) r s).p i = 1 - ((update (W dt dz) r s).q i)⁻¹ := by
  rw [update_p, psiOfTheta_eq]
  simp [W, W_psi]

theorem W_Kval (dt : ℝ) (dz : ℕ → ℝ) (r : ℝ) (s : St) (i : ℕ) :
    (update (W dt dz) r s).K i = ((update (W dt dz) r s).q i) ^ 5 := by
  rw [update_K, update_Se]
  simp only [W, W_K, sub_zero, div_one]

/-- First update of the test soil: moisture `a` in the top node and `b` below, no initial
conductivity, no supply: the moisture stays. -/
def A (dt : ℝ) (dz : ℕ → ℝ) (a b : ℝ) : St :=
  update (W dt dz) 0 (initState (fun i => if i = 0 then a else b) (fun _ => 0))

theorem A_q (dt : ℝ) (dz : ℕ → ℝ) (a b : ℝ) (ha : 1 / 1000 ≤ a ∧ a ≤ 1)
    (hb : 1 / 1000 ≤ b ∧ b ≤ 1) :
    (A dt dz a b).q 0 = a ∧ (A dt dz a b).q 1 = b ∧ (A dt dz a b).q 2 = b := by
  have r0 := raw_zero (W dt dz) 0 (initState (fun i => if i = 0 then a else b) (fun _ => 0))
    (by simp [W])
  have r1 := raw_mid (W dt dz) 0 (initState (fun i => if i = 0 then a else b) (fun _ => 0)) 1
    (by simp) (by simp [W])
  have r2 := raw_bottom (W dt dz) 0 (initState (fun i => if i = 0 then a else b) (fun _ => 0))
    (by simp [W])
  simp [initState] at r0 r1
  have n : (W dt dz).nz - 1 = 2 := rfl
  rw [n] at r2
  have cl : ∀ x : ℝ, 1 / 1000 ≤ x ∧ x ≤ 1 → max (min x 1) (0 + 1 / 1000) = x := by
    intro x hx
    rw [min_eq_left hx.2, max_eq_left (by linarith [hx.1])]
  refine ⟨?_, ?_, ?_⟩
  · exact (congrArg (fun x => max (min x 1) (0 + 1 / 1000)) r0).trans (cl a ha)
  · exact (congrArg (fun x => max (min x 1) (0 + 1 / 1000)) r1).trans (cl b hb)
  · exact (congrArg (fun x => max (min x 1) (0 + 1 / 1000)) (r2.trans r1)).trans (cl b hb)

theorem A_v0 (dt : ℝ) (dz : ℕ → ℝ) (a b : ℝ) (ha : 1 / 1000 ≤ a ∧ a ≤ 1)
    (hb : 1 / 1000 ≤ b ∧ b ≤ 1) :
    (A dt dz a b).v 0 = (b ^ 5 + a ^ 5) / 2 * (1 - ((1 - b⁻¹) - (1 - a⁻¹)) / dz 0) ∧
    (A dt dz a b).Rg = b ^ 5 := by
  have f := flowOK_update (W dt dz) 0 (initState (fun i => if i = 0 then a else b) (fun _ => 0))
    (by simp [W])
  obtain ⟨q0, q1, q2⟩ := A_q dt dz a b ha hb
  have v0 := f.1 0 (by simp [W])
  have v1 := f.1 1 (by simp [W])
  have g := f.2
  rw [W_p, W_p, W_Kval, W_Kval] at v0 v1
  simp only [A] at q0 q1 q2 ⊢
  rw [q0, q1] at v0
  simp only [Nat.reduceAdd] at v1
  rw [q1, q2] at v1
  have n : (W dt dz).nz - 1 - 1 = 1 := rfl
  rw [n, v1] at g
  refine ⟨by rw [v0]; rfl, ?_⟩
  rw [g]
  ring

/-- C66 violated by layers of different spacing: nodes 1 m, 2 m and 2 m apart.  For every
supply up to 1/4 the second update loses 33/2048 m of water although nothing is clipped. -/
theorem C66_layers_violated (r : ℝ) (h0 : 0 ≤ r) (h1 : r ≤ 1 / 4) :
    let S := W 1 (fun i => if i = 0 then 1 else 2)
    let a := A 1 (fun i => if i = 0 then 1 else 2) (1 / 2) (1 / 4)
    Unclipped S r a ∧
    column S (update S r a) = column S a + (r - a.Rg) * S.dt - 33 / 2048 := by
  intro S a
  obtain ⟨q0, q1, q2⟩ := A_q 1 (fun i => if i = 0 then 1 else 2) (1 / 2) (1 / 4)
    (by norm_num) (by norm_num)
  obtain ⟨v0, rg⟩ := A_v0 1 (fun i => if i = 0 then 1 else 2) (1 / 2) (1 / 4)
    (by norm_num) (by norm_num)
  have r0 := raw_zero S r a (by simp [S, W])
  have r1 := raw_mid S r a 1 (by simp) (by simp [S, W])
  rw [z_diff S 1 (by simp)] at r1
  have p0 : a.p 0 = -1 := by simp only [a, A]; rw [W_p]; simp only [A] at q0; rw [q0]; norm_num
  have p1 : a.p 1 = -3 := by simp only [a, A]; rw [W_p]; simp only [A] at q1; rw [q1]; norm_num
  have p2 : a.p 2 = -3 := by simp only [a, A]; rw [W_p]; simp only [A] at q2; rw [q2]; norm_num
  have k0 : a.K 0 = 1 / 32 := by
    simp only [a, A]; rw [W_Kval]; simp only [A] at q0; rw [q0]; norm_num
  have k1 : a.K 1 = 1 / 1024 := by
    simp only [a, A]; rw [W_Kval]; simp only [A] at q1; rw [q1]; norm_num
  have k2 : a.K 2 = 1 / 1024 := by
    simp only [a, A]; rw [W_Kval]; simp only [A] at q2; rw [q2]; norm_num
  have d0 : S.dz 0 = 1 := rfl
  have d1 : S.dz 1 = 2 := rfl
  have d2 : S.dz (1 + 1) = 2 := rfl
  have dt : S.dt = 1 := rfl
  have v0' : a.v 0 = 99 / 2048 := by simp only [a]; rw [v0]; norm_num
  have q0' : a.q 0 = 1 / 2 := q0
  have q1' : a.q 1 = 1 / 4 := q1
  rw [d0, dt, q0', v0'] at r0
  simp only [Nat.reduceAdd, Nat.sub_self, d1, show S.dz 2 = 2 from rfl, dt, q1', p0, p1, p2, k0,
    k1, k2] at r1
  norm_num at r0 r1
  have hu : Unclipped S r a := by
    intro i hi
    have hi' : i < 2 := hi
    interval_cases i
    · rw [r0]
      constructor
      · change (0 : ℝ) + 1 / 1000 ≤ _
        linarith
      · change _ ≤ (1 : ℝ)
        linarith
    · rw [r1]
      constructor
      · change (0 : ℝ) + 1 / 1000 ≤ _
        norm_num
      · change _ ≤ (1 : ℝ)
        norm_num
  refine ⟨hu, ?_⟩
  have e0 : (update S r a).q 0 = raw S r a 0 := by
    have := hu 0 (by simp [S, W])
    rw [update_q, min_eq_left this.2, max_eq_left this.1]
  have e1 : (update S r a).q 1 = raw S r a 1 := by
    have := hu 1 (by simp [S, W])
    rw [update_q, min_eq_left this.2, max_eq_left this.1]
  have n : S.nz - 1 = 2 := rfl
  have rg' : a.Rg = (1 / 4) ^ 5 := rg
  simp only [column, n, Finset.sum_range_succ, Finset.sum_range_zero, e0, e1, r0, r1, q0', q1',
    d0, d1, dt, rg']
  ring

/-- C66 violated for the reported storage: uniform spacing of 1 m, nothing clipped, and yet
for every supply up to 1/4 the storage grows by 97/2048 m more than supplied minus
recharged. -/
theorem C66_reported_storage_violated (r : ℝ) (h0 : 0 ≤ r) (h1 : r ≤ 1 / 4) :
    let S := W 1 (fun _ => 1)
    let a := A 1 (fun _ => 1) (1 / 2) (1 / 4)
    Unclipped S r a ∧
    totalStorage S (update S r a) = totalStorage S a + (r - a.Rg) * S.dt + 97 / 2048 := by
  intro S a
  obtain ⟨q0, q1, q2⟩ := A_q 1 (fun _ => 1) (1 / 2) (1 / 4) (by norm_num) (by norm_num)
  obtain ⟨v0, rg⟩ := A_v0 1 (fun _ => 1) (1 / 2) (1 / 4) (by norm_num) (by norm_num)
  have r0 := raw_zero S r a (by simp [S, W])
  have r1 := raw_mid S r a 1 (by simp) (by simp [S, W])
  rw [z_diff S 1 (by simp)] at r1
  have p0 : a.p 0 = -1 := by simp only [a, A]; rw [W_p]; simp only [A] at q0; rw [q0]; norm_num
  have p1 : a.p 1 = -3 := by simp only [a, A]; rw [W_p]; simp only [A] at q1; rw [q1]; norm_num
  have p2 : a.p 2 = -3 := by simp only [a, A]; rw [W_p]; simp only [A] at q2; rw [q2]; norm_num
  have k0 : a.K 0 = 1 / 32 := by
    simp only [a, A]; rw [W_Kval]; simp only [A] at q0; rw [q0]; norm_num
  have k1 : a.K 1 = 1 / 1024 := by
    simp only [a, A]; rw [W_Kval]; simp only [A] at q1; rw [q1]; norm_num
  have k2 : a.K 2 = 1 / 1024 := by
    simp only [a, A]; rw [W_Kval]; simp only [A] at q2; rw [q2]; norm_num
  have v0' : a.v 0 = 99 / 2048 := by simp only [a]; rw [v0]; norm_num
  have q0' : a.q 0 = 1 / 2 := q0
  have q1' : a.q 1 = 1 / 4 := q1
  rw [show S.dz 0 = 1 from rfl, show S.dt = 1 from rfl, q0', v0'] at r0
  simp only [Nat.reduceAdd, Nat.sub_self, show S.dz 1 = 1 from rfl, show S.dz 2 = 1 from rfl,
    show S.dt = 1 from rfl, q1', p0, p1, p2, k0, k1, k2] at r1
  norm_num at r0 r1
  have hu : Unclipped S r a := by
    intro i hi
    have hi' : i < 2 := hi
    interval_cases i
    · rw [r0]
      constructor
      · change (0 : ℝ) + 1 / 1000 ≤ _
        linarith
      · change _ ≤ (1 : ℝ)
        linarith
    · rw [r1]
      constructor
      · change (0 : ℝ) + 1 / 1000 ≤ _
        norm_num
      · change _ ≤ (1 : ℝ)
        norm_num
  refine ⟨hu, ?_⟩
  have e1 : (update S r a).q 1 = raw S r a 1 := by
    have := hu 1 (by simp [S, W])
    rw [update_q, min_eq_left this.2, max_eq_left this.1]
  have c := C66_reported_storage_error S 1 (fun _ => rfl) one_ne_zero (by simp [S, W])
    (fun _ => rfl) (fun _ => rfl) 0 r (initState (fun i => if i = 0 then 1 / 2 else 1 / 4)
    (fun _ => 0)) hu
  have n : S.nz - 1 - 1 = 1 := rfl
  simp only [n] at c
  change totalStorage S (update S r a) - totalStorage S a = (r - a.Rg) * S.dt +
    1 * ((update S r a).q 1 - a.q 1) at c
  rw [e1, r1, q1'] at c
  linarith

/-- C66 violated for the reported infiltration: with supply 10 only 1123/2048 m enters the
column during the second update, while the component reports more than 1.5 m. -/
theorem C66_reported_infiltration_violated :
    let S := W 1 (fun _ => 1)
    let a := A 1 (fun _ => 1) (1 / 2) (1 / 4)
    let b := update S 10 a
    (b.q 0 - a.q 0) * S.dz 0 + a.v 0 * S.dt = 1123 / 2048 ∧ 3 / 2 < b.IN * S.dt := by
  intro S a b
  obtain ⟨q0, q1, q2⟩ := A_q 1 (fun _ => 1) (1 / 2) (1 / 4) (by norm_num) (by norm_num)
  obtain ⟨v0, rg⟩ := A_v0 1 (fun _ => 1) (1 / 2) (1 / 4) (by norm_num) (by norm_num)
  have r0 := raw_zero S 10 a (by simp [S, W])
  have r1 := raw_mid S 10 a 1 (by simp) (by simp [S, W])
  rw [z_diff S 1 (by simp)] at r1
  have p0 : a.p 0 = -1 := by simp only [a, A]; rw [W_p]; simp only [A] at q0; rw [q0]; norm_num
  have p1 : a.p 1 = -3 := by simp only [a, A]; rw [W_p]; simp only [A] at q1; rw [q1]; norm_num
  have p2 : a.p 2 = -3 := by simp only [a, A]; rw [W_p]; simp only [A] at q2; rw [q2]; norm_num
  have k0 : a.K 0 = 1 / 32 := by
    simp only [a, A]; rw [W_Kval]; simp only [A] at q0; rw [q0]; norm_num
  have k1 : a.K 1 = 1 / 1024 := by
    simp only [a, A]; rw [W_Kval]; simp only [A] at q1; rw [q1]; norm_num
  have k2 : a.K 2 = 1 / 1024 := by
    simp only [a, A]; rw [W_Kval]; simp only [A] at q2; rw [q2]; norm_num
  have v0' : a.v 0 = 99 / 2048 := by simp only [a]; rw [v0]; norm_num
  have q0' : a.q 0 = 1 / 2 := q0
  have q1' : a.q 1 = 1 / 4 := q1
  rw [show S.dz 0 = 1 from rfl, show S.dt = 1 from rfl, q0', v0'] at r0
  simp only [Nat.reduceAdd, Nat.sub_self, show S.dz 1 = 1 from rfl, show S.dz 2 = 1 from rfl,
    show S.dt = 1 from rfl, q1', p0, p1, p2, k0, k1, k2] at r1
  norm_num at r0 r1
  have b0 : b.q 0 = 1 := by
    simp only [b]
    rw [update_q, r0, show S.qs 0 = 1 from rfl, show S.qr 0 = 0 from rfl]
    norm_num
  have b1 : b.q 1 = 609 / 2048 := by
    simp only [b]
    rw [update_q, r1, show S.qs 1 = 1 from rfl, show S.qr 1 = 0 from rfl]
    norm_num
  have f := (flowOK_update S 10 a (by simp [S, W])).1 0 (by simp [S, W])
  rw [W_p, W_p, W_Kval, W_Kval] at f
  change b.v 0 = (b.q 1 ^ 5 + b.q 0 ^ 5) / 2 * (1 - (1 - (b.q 1)⁻¹ - (1 - (b.q 0)⁻¹)) / S.dz 0) at f
  rw [b0, b1, show S.dz 0 = 1 from rfl] at f
  refine ⟨?_, ?_⟩
  · rw [b0, q0', v0', show S.dz 0 = 1 from rfl, show S.dt = 1 from rfl]
    norm_num
  · have i := update_IN S 10 a
    change b.IN = min 10 (b.v 0 + (S.qs 0 - b.q 0) * (S.dz 0 / S.dt)) at i
    rw [i, f, b0, show S.dz 0 = 1 from rfl, show S.dt = 1 from rfl, show S.qs 0 = 1 from rfl]
    rw [mul_one, lt_min_iff]
    norm_num

/-- C65 violated for the sign of the infiltration rate: with time step 64, no supply, no
evaporation and a dry node above a moist one, the reported infiltration is negative. -/
theorem C65_infiltration_sign_violated :
    (A 64 (fun _ => 1) (1 / 4) (1 / 2)).IN = -9 / 2048 := by
  obtain ⟨q0, q1, q2⟩ := A_q 64 (fun _ => 1) (1 / 4) (1 / 2) (by norm_num) (by norm_num)
  obtain ⟨v0, rg⟩ := A_v0 64 (fun _ => 1) (1 / 4) (1 / 2) (by norm_num) (by norm_num)
  have i := update_IN (W 64 (fun _ => 1)) 0
    (initState (fun i => if i = 0 then 1 / 4 else 1 / 2) (fun _ => 0))
  change (A 64 (fun _ => 1) (1 / 4) (1 / 2)).IN = min 0 ((A 64 (fun _ => 1) (1 / 4) (1 / 2)).v 0 +
    (1 - (A 64 (fun _ => 1) (1 / 4) (1 / 2)).q 0) * (1 / 64)) at i
  rw [i, v0, q0]
  norm_num

/-- Hypotheses of the range theorems met: the test soil.  `C66_layers_violated` and
`C66_reported_storage_violated` show `Unclipped` updates. -/
example : GoodSoil (W 1 (fun _ => 1)) := goodSoil_W _ _

/-- The steady state exists for the test soil: moisture 1/2, supply 1/32. -/
example : ∀ i, (update (W 1 (fun _ => 1)) (1 / 32)
    { q := fun _ => 1 / 2, Se := fun _ => 1 / 2, p := fun _ => -1, K := fun _ => 1 / 32,
      v := fun _ => 1 / 32, IN := 0, v0 := 0, Rg := 0 }).q i = 1 / 2 :=
  C65_steady_state _ (1 / 2) 1 (1 / 32) _ (fun _ => rfl)
    (fun i => by simp only [W]; norm_num) (fun _ => rfl) (fun _ => rfl) (fun _ => rfl) rfl

end

end Richards
