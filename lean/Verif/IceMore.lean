import Mathlib.Tactic.IntervalCases
import Mathlib.Tactic.Push
import Verif.IceProps

/-!
# More theorems on the glacier ice model (C140, C144 – C152)
-/

set_option autoImplicit false
set_option linter.unusedSectionVars false

noncomputable section

open Finset

namespace Ice

/-! ### Values of fluxes, for the examples -/

/-- The thickness with a halo for four ice-free borders. -/
def freeHE (ny nx : ℕ) (H : Grid) : Grid :=
  setRow (setRow (setCol (setCol (addHalo ny nx H) 0 fun _ => 0) (nx + 1) fun _ => 0) 0 fun _ => 0) (ny + 1) fun _ => 0
/-- The surface that belongs to it. -/
def freeZi (ny nx : ℕ) (H Zb : Grid) : Grid := fun i j => addHalo ny nx Zb i j + freeHE ny nx H i j

/-- The motion with four ice-free borders and deformation only. -/
def freeMotion (p : Params) (ny nx : ℕ) (dx dy : ℝ) (H Zb : Grid) : Motion :=
  motionOf p .iceFree .iceFree .iceFree .iceFree true false ny nx dx dy (freeHE ny nx H) (freeZi ny nx H Zb)

lemma motion_free (p : Params) (ny nx : ℕ) (dx dy : ℝ) (H Zb Zi : Grid) :
    motion p .iceFree .iceFree .iceFree .iceFree true false ny nx dx dy H Zb Zi =
      .ok (freeMotion p ny nx dx dy H Zb) := rfl

lemma flow_value {A : ℝ} (hA : 0 ≤ A) {h t a b : ℝ} (hh : 0 < h) (ht : t = Real.sqrt (a ^ 2 + b ^ 2))
    (h1 : 1 ≤ a ^ 2 + b ^ 2) :
    |0.4 * A * t * t * t * h| * (if |t| < 1e-5 then 0 else a / t) * h = 0.4 * A * (a ^ 2 + b ^ 2) * a * h ^ 2 := by
  have t1 : 1 ≤ t := by rw [ht]; exact Real.one_le_sqrt.2 h1
  have tt : t * t = a ^ 2 + b ^ 2 := by rw [ht]; exact Real.mul_self_sqrt (by linarith)
  have : ¬ |t| < 1e-5 := by rw [abs_of_nonneg (by linarith)]; norm_num; linarith
  rw [if_neg this, abs_of_nonneg (by positivity), ← tt]
  field_simp

lemma qx_value {p : Params} (hA : 0 ≤ p.glensA) {ny nx : ℕ} {dx dy : ℝ} {HE ZiE : Grid} {i j : ℕ}
    (hH : 0 < meanX HE i j)
    (h1 : 1 ≤ stressXE p HE ZiE dx (i + 1) j ^ 2 + mean4 (stressYE p HE ZiE dy) i j ^ 2)
    (hc : ¬ |(iceClass p.minGlacThick HE (i + 1) (j + 1) - iceClass p.minGlacThick HE (i + 1) j) *
      Real.sign (diffX ZiE dx i j) + 1| < 1e-5) :
    (motionOf p .iceFree .iceFree .iceFree .iceFree true false ny nx dx dy HE ZiE).qx i j =
      0.4 * p.glensA * (stressXE p HE ZiE dx (i + 1) j ^ 2 + mean4 (stressYE p HE ZiE dy) i j ^ 2) *
        stressXE p HE ZiE dx (i + 1) j * meanX HE i j ^ 2 := by
  rw [← flow_value hA hH rfl h1]
  simp only [motionOf, fluxX, reduceCtorEq, if_false, stopX, if_neg hc, velocity, iceflow, basalShearStress, if_true,
    if_pos hH, Bool.false_eq_true, add_zero]

lemma qy_value {p : Params} (hA : 0 ≤ p.glensA) {ny nx : ℕ} {dx dy : ℝ} {HE ZiE : Grid} {i j : ℕ}
    (hH : 0 < meanY HE i j)
    (h1 : 1 ≤ mean4 (stressXE p HE ZiE dx) i j ^ 2 + stressYE p HE ZiE dy i (j + 1) ^ 2)
    (hc : ¬ |(iceClass p.minGlacThick HE (i + 1) (j + 1) - iceClass p.minGlacThick HE i (j + 1)) *
      Real.sign (diffY ZiE dy i j) + 1| < 1e-5) :
    (motionOf p .iceFree .iceFree .iceFree .iceFree true false ny nx dx dy HE ZiE).qy i j =
      0.4 * p.glensA * (mean4 (stressXE p HE ZiE dx) i j ^ 2 + stressYE p HE ZiE dy i (j + 1) ^ 2) *
        stressYE p HE ZiE dy i (j + 1) * meanY HE i j ^ 2 := by
  rw [add_comm] at h1
  rw [add_comm (mean4 _ i j ^ 2), ← flow_value hA hH rfl h1]
  simp only [motionOf, fluxY, reduceCtorEq, if_false, stopY, if_neg hc, velocity, iceflow, basalShearStress, if_true,
    if_pos hH, Bool.false_eq_true, add_zero]
  simp only [add_comm]

lemma qx_zero {p : Params} {ny nx : ℕ} {dx dy : ℝ} {HE ZiE : Grid} {flow slide : Bool} {i j : ℕ}
    (hH : meanX HE i j = 0) :
    (motionOf p .iceFree .iceFree .iceFree .iceFree flow slide ny nx dx dy HE ZiE).qx i j = 0 := by
  simp [motionOf, fluxX, basalShearStress, hH]

lemma qy_zero {p : Params} {ny nx : ℕ} {dx dy : ℝ} {HE ZiE : Grid} {flow slide : Bool} {i j : ℕ}
    (hH : meanY HE i j = 0) :
    (motionOf p .iceFree .iceFree .iceFree .iceFree flow slide ny nx dx dy HE ZiE).qy i j = 0 := by
  simp [motionOf, fluxY, basalShearStress, hH]

/-! ### A bare rock above thin ice -/

/-- Two cells in a row: a bare one and one with half a metre of ice. -/
def rockH : Grid := fun _ j => if j = 1 then 1 / 2 else 0
/-- The bare one is ten metres higher. -/
def rockZb : Grid := fun _ j => if j = 0 then 10 else 0

lemma rock_HE : ∀ i < 3, ∀ j < 4, freeHE 1 2 rockH i j = if i = 1 ∧ j = 2 then 1 / 2 else 0 := by
  intro i hi j hj
  interval_cases i <;> interval_cases j <;> norm_num [freeHE, setRow, setCol, addHalo, rockH]

lemma rock_Zi : ∀ i < 3, ∀ j < 4, freeZi 1 2 rockH rockZb i j =
    (if j ≤ 1 then 10 else 0) + if i = 1 ∧ j = 2 then 1 / 2 else 0 := by
  intro i hi j hj
  rw [freeZi, rock_HE i hi j hj]
  congr 1
  interval_cases i <;> interval_cases j <;> norm_num [addHalo, rockZb]

/-- `ρ g` of the module. -/
def rg : ℝ := 8995.77

lemma rock_tx : ∀ i < 3, ∀ j < 3, stressXE imported.par (freeHE 1 2 rockH) (freeZi 1 2 rockH rockZb) 1 i j =
    if i = 1 ∧ j = 1 then rg * 2.375 else if i = 1 ∧ j = 2 then rg * 0.125 else 0 := by
  intro i hi j hj
  unfold stressXE
  rw [rock_HE i hi j (by omega), rock_HE i hi (j + 1) (by omega), rock_Zi i hi j (by omega),
    rock_Zi i hi (j + 1) (by omega)]
  interval_cases i <;> interval_cases j <;> norm_num [imported, rg]

lemma rock_ty : ∀ i < 2, ∀ j < 4, stressYE imported.par (freeHE 1 2 rockH) (freeZi 1 2 rockH rockZb) 1 i j =
    if i = 0 ∧ j = 2 then -(rg * 0.125) else if i = 1 ∧ j = 2 then rg * 0.125 else 0 := by
  intro i hi j hj
  unfold stressYE
  rw [rock_HE i (by omega) j hj, rock_HE (i + 1) (by omega) j hj, rock_Zi i (by omega) j hj,
    rock_Zi (i + 1) (by omega) j hj]
  interval_cases i <;> interval_cases j <;> norm_num [imported, rg]

lemma rock_class : ∀ i < 3, ∀ j < 4, iceClass imported.par.minGlacThick (freeHE 1 2 rockH) i j = 0 := by
  intro i hi j hj
  unfold iceClass
  rw [rock_HE i hi j hj]
  have : imported.par.minGlacThick = 1 := rfl
  rw [this]
  split_ifs <;> norm_num at *

lemma glens_pos : 0 < imported.par.glensA := by norm_num [imported]

/-- `0.4 · A · (ρ g)³ / 16`. -/
def kk : ℝ := 0.4 * imported.par.glensA * rg ^ 3 * 0.0625
lemma kk_pos : 0 < kk := by
  have := glens_pos
  unfold kk rg; positivity

lemma rock_q : let mo := freeMotion imported.par 1 2 1 1 rockH rockZb
    mo.qx 0 0 = 0 ∧ mo.qx 0 1 = kk * 2.375 ^ 3 ∧ mo.qx 0 2 = kk * 0.125 ^ 3 ∧ mo.qy 0 0 = 0 ∧ mo.qy 1 0 = 0 ∧
      mo.qy 0 1 = -(kk * ((0.625 ^ 2 + 0.125 ^ 2) * 0.125)) ∧ mo.qy 1 1 = kk * ((0.625 ^ 2 + 0.125 ^ 2) * 0.125) := by
  dsimp only
  have hz := fun i hi j hj => rock_HE i hi j hj
  have hA := glens_pos.le
  refine ⟨qx_zero ?_, ?_, ?_, qy_zero ?_, qy_zero ?_, ?_, ?_⟩
  · unfold meanX; rw [hz _ (by norm_num) _ (by norm_num), hz _ (by norm_num) _ (by norm_num)]; norm_num
  · unfold freeMotion
    have e0 : meanX (freeHE 1 2 rockH) 0 1 = 0.25 := by
      unfold meanX; rw [hz _ (by norm_num) _ (by norm_num), hz _ (by norm_num) _ (by norm_num)]; norm_num
    have e1 : stressXE imported.par (freeHE 1 2 rockH) (freeZi 1 2 rockH rockZb) 1 (0 + 1) 1 = rg * 2.375 := by
      rw [rock_tx _ (by norm_num) _ (by norm_num)]; norm_num
    have e2 : mean4 (stressYE imported.par (freeHE 1 2 rockH) (freeZi 1 2 rockH rockZb) 1) 0 1 = 0 := by
      unfold mean4
      rw [rock_ty _ (by norm_num) _ (by norm_num), rock_ty _ (by norm_num) _ (by norm_num),
        rock_ty _ (by norm_num) _ (by norm_num), rock_ty _ (by norm_num) _ (by norm_num)]
      norm_num
    rw [qx_value hA (by rw [e0]; norm_num) (by rw [e1, e2, rg]; norm_num)
      (by rw [rock_class _ (by norm_num) _ (by norm_num), rock_class _ (by norm_num) _ (by norm_num)]; norm_num),
      e0, e1, e2, kk]
    ring
  · unfold freeMotion
    have e0 : meanX (freeHE 1 2 rockH) 0 2 = 0.25 := by
      unfold meanX; rw [hz _ (by norm_num) _ (by norm_num), hz _ (by norm_num) _ (by norm_num)]; norm_num
    have e1 : stressXE imported.par (freeHE 1 2 rockH) (freeZi 1 2 rockH rockZb) 1 (0 + 1) 2 = rg * 0.125 := by
      rw [rock_tx _ (by norm_num) _ (by norm_num)]; norm_num
    have e2 : mean4 (stressYE imported.par (freeHE 1 2 rockH) (freeZi 1 2 rockH rockZb) 1) 0 2 = 0 := by
      unfold mean4
      rw [rock_ty _ (by norm_num) _ (by norm_num), rock_ty _ (by norm_num) _ (by norm_num),
        rock_ty _ (by norm_num) _ (by norm_num), rock_ty _ (by norm_num) _ (by norm_num)]
      norm_num
    rw [qx_value hA (by rw [e0]; norm_num) (by rw [e1, e2, rg]; norm_num)
      (by rw [rock_class _ (by norm_num) _ (by norm_num), rock_class _ (by norm_num) _ (by norm_num)]; norm_num),
      e0, e1, e2, kk]
    ring
  · unfold meanY; rw [hz _ (by norm_num) _ (by norm_num), hz _ (by norm_num) _ (by norm_num)]; norm_num
  · unfold meanY; rw [hz _ (by norm_num) _ (by norm_num), hz _ (by norm_num) _ (by norm_num)]; norm_num
  · unfold freeMotion
    have e0 : meanY (freeHE 1 2 rockH) 0 1 = 0.25 := by
      unfold meanY; rw [hz _ (by norm_num) _ (by norm_num), hz _ (by norm_num) _ (by norm_num)]; norm_num
    have e1 : stressYE imported.par (freeHE 1 2 rockH) (freeZi 1 2 rockH rockZb) 1 0 (1 + 1) = -(rg * 0.125) := by
      rw [rock_ty _ (by norm_num) _ (by norm_num)]; norm_num
    have e2 : mean4 (stressXE imported.par (freeHE 1 2 rockH) (freeZi 1 2 rockH rockZb) 1) 0 1 = rg * 0.625 := by
      unfold mean4
      rw [rock_tx _ (by norm_num) _ (by norm_num), rock_tx _ (by norm_num) _ (by norm_num),
        rock_tx _ (by norm_num) _ (by norm_num), rock_tx _ (by norm_num) _ (by norm_num)]
      norm_num; ring
    rw [qy_value hA (by rw [e0]; norm_num) (by rw [e1, e2, rg]; norm_num)
      (by rw [rock_class _ (by norm_num) _ (by norm_num), rock_class _ (by norm_num) _ (by norm_num)]; norm_num),
      e0, e1, e2, kk]
    ring
  · unfold freeMotion
    have e0 : meanY (freeHE 1 2 rockH) 1 1 = 0.25 := by
      unfold meanY; rw [hz _ (by norm_num) _ (by norm_num), hz _ (by norm_num) _ (by norm_num)]; norm_num
    have e1 : stressYE imported.par (freeHE 1 2 rockH) (freeZi 1 2 rockH rockZb) 1 1 (1 + 1) = rg * 0.125 := by
      rw [rock_ty _ (by norm_num) _ (by norm_num)]; norm_num
    have e2 : mean4 (stressXE imported.par (freeHE 1 2 rockH) (freeZi 1 2 rockH rockZb) 1) 1 1 = rg * 0.625 := by
      unfold mean4
      rw [rock_tx _ (by norm_num) _ (by norm_num), rock_tx _ (by norm_num) _ (by norm_num),
        rock_tx _ (by norm_num) _ (by norm_num), rock_tx _ (by norm_num) _ (by norm_num)]
      norm_num; ring
    rw [qy_value hA (by rw [e0]; norm_num) (by rw [e1, e2, rg]; norm_num)
      (by rw [rock_class _ (by norm_num) _ (by norm_num), rock_class _ (by norm_num) _ (by norm_num)]; norm_num),
      e0, e1, e2, kk]
    ring

/-- The module as imported, but with a climate without gain or loss of ice. -/
def noClimate : Module := { imported with par := { imported.par with gradBz := 0 } }

lemma noClimate_balance (Zi : Grid) (t : ℝ) : massBalance noClimate Zi t = .ok (fun _ _ => 0, 3350) := by
  simp only [massBalance, noClimate, imported]
  congr 2
  funext i j
  norm_num [balanceOf]

/-- Ice is not conserved: a step on two cells, with neither snowfall nor melting and nothing entering through the border,
makes more ice than there was. -/
theorem C140_created_violated : ∃ (m : Module) (H Zb : Grid) (dt : ℝ) (r : Result), 0 < dt ∧ (∀ i j, 0 ≤ H i j) ∧
    update m {} 1 2 0 H Zb 1 1 0 = .ok (dt, r) ∧
    (∃ B ela, massBalance m (surface H Zb) 0 = .ok (B, ela) ∧ ∀ i j, B i j = 0) ∧
    (∃ mo, motion imported.par .iceFree .iceFree .iceFree .iceFree true false 1 2 1 1 H Zb (surface H Zb) = .ok mo ∧
      mo.qx 0 0 ≤ 0 ∧ 0 ≤ mo.qx 0 2 ∧ (∀ j < 2, mo.qy 0 j ≤ 0) ∧ ∀ j < 2, 0 ≤ mo.qy 1 j) ∧
    total 1 2 H < total 1 2 r.H := by
  have hu : ∃ r, update noClimate {} 1 2 0 rockH rockZb 1 1 0 = .ok (0.4 * 365 * 0.00274, r) := by
    have hb : setBc 1 2 rockH rockZb (surface rockH rockZb) .iceFree .iceFree .iceFree .iceFree =
      .ok (freeHE 1 2 rockH, addHalo 1 2 rockZb, freeZi 1 2 rockH rockZb) := rfl
    unfold update
    dsimp only
    rw [show imported.tog.west = .iceFree from rfl, show imported.tog.east = .iceFree from rfl,
      show imported.tog.south = .iceFree from rfl, show imported.tog.north = .iceFree from rfl, hb]
    dsimp only
    rw [noClimate_balance]
    dsimp only
    rw [if_neg (by simp [compressShape, noClimate, imported])]
    exact ⟨_, rfl⟩
  obtain ⟨r, hr⟩ := hu
  have hdt : (0 : ℝ) < 0.4 * 365 * 0.00274 := by norm_num
  obtain ⟨mo, B, ela, h1, h2, h3, h4, -⟩ := C139_step hr hdt
  have hmo : mo = freeMotion imported.par 1 2 1 1 rockH rockZb := by
    have := h1.symm.trans (motion_free imported.par 1 2 1 1 rockH rockZb (surface rockH rockZb))
    simpa using this
  have hB : B = fun _ _ => 0 := by
    rw [noClimate_balance] at h2
    simp only [Except.ok.injEq, Prod.mk.injEq] at h2
    exact h2.1.symm
  obtain ⟨q1, q2, q3, q4, q5, q6, q7⟩ := rock_q
  rw [← hmo] at q1 q2 q3 q4 q5 q6 q7
  have hk := kk_pos
  refine ⟨noClimate, rockH, rockZb, _, r, hdt, fun i j => by unfold rockH; split_ifs <;> norm_num, hr,
    ⟨B, ela, h2, fun i j => by rw [hB]⟩, ⟨mo, h1, q1.le, by rw [q3]; positivity, ?_, ?_⟩, ?_⟩
  · intro j hj
    interval_cases j
    · exact q4.le
    · rw [q6]; have : 0 < kk * ((0.625 ^ 2 + 0.125 ^ 2) * 0.125) := by positivity
      linarith
  · intro j hj
    interval_cases j
    · exact q5.ge
    · rw [q7]; positivity
  · have e : total 1 2 rockH = 1 / 2 := by norm_num [total, Finset.sum_range_succ, rockH]
    have e2 : total 1 2 r.H = r.H 0 0 + r.H 0 1 := by norm_num [total, Finset.sum_range_succ]
    have a1 : 0 ≤ r.H 0 0 := by rw [h3]; exact le_max_left _ _
    have a2 : 1 / 2 < r.H 0 1 := by
      rw [h3, h4, hB]
      refine lt_max_of_lt_right ?_
      simp only [Nat.reduceAdd, zero_add]
      rw [q2, q3, q6, q7]
      have : rockH 0 1 = 1 / 2 := by norm_num [rockH]
      rw [this]
      norm_num
      nlinarith
    rw [e, e2]; linarith

/-! ### C145: no ice from bare rock -/

/-- Where a cell with less ice than the minimum lies above a neighbour with at least that much, no ice moves. -/
theorem C145_thin_partial {p : Params} {flow slide : Bool} {we ea so no : BC} {ny nx : ℕ} {dx dy : ℝ} (hdx : 0 < dx)
    (hdy : 0 < dy) {H Zb : Grid} (hn : ∀ i < ny, ∀ j < nx, 0 ≤ H i j) {mo : Motion}
    (h : motion p we ea so no flow slide ny nx dx dy H Zb (surface H Zb) = .ok mo) :
    (∀ i j, i < ny → j + 1 < nx →
      ((H i j < p.minGlacThick ∧ p.minGlacThick ≤ H i (j + 1) ∧ surface H Zb i (j + 1) < surface H Zb i j) ∨
        (H i (j + 1) < p.minGlacThick ∧ p.minGlacThick ≤ H i j ∧ surface H Zb i j < surface H Zb i (j + 1))) →
      mo.qx i (j + 1) = 0) ∧
    (∀ i j, i + 1 < ny → j < nx →
      ((H i j < p.minGlacThick ∧ p.minGlacThick ≤ H (i + 1) j ∧ surface H Zb (i + 1) j < surface H Zb i j) ∨
        (H (i + 1) j < p.minGlacThick ∧ p.minGlacThick ≤ H i j ∧ surface H Zb i j < surface H Zb (i + 1) j)) →
      mo.qy (i + 1) j = 0) := by
  obtain ⟨HE, ZiE, hs, rfl⟩ := motion_spec h
  constructor
  · intro i j hi hj hc
    have d : diffX ZiE dx i (j + 1) = (surface H Zb i (j + 1) - surface H Zb i j) / dx := by
      rw [diffX, surf_inside hs hn hi hj, surf_inside hs hn hi (by omega)]
    have k : |(iceClass p.minGlacThick HE (i + 1) (j + 1 + 1) - iceClass p.minGlacThick HE (i + 1) (j + 1)) *
        Real.sign (diffX ZiE dx i (j + 1)) + 1| < 1e-5 := by
      unfold iceClass
      rw [hs.inside i hi (j + 1) hj, hs.inside i hi j (by omega), d]
      rcases hc with ⟨a, b, e⟩ | ⟨a, b, e⟩
      · rw [if_pos b, if_neg (not_le.2 a), Real.sign_of_neg (div_neg_of_neg_of_pos (by linarith) hdx)]; norm_num
      · rw [if_neg (not_le.2 a), if_pos b, Real.sign_of_pos (div_pos (by linarith) hdx)]; norm_num
    simp only [motionOf, fluxX, stopX]
    by_cases h1 : we = .constFlux <;> by_cases h2 : ea = .constFlux <;> simp [h1, h2, setCol, if_pos k]
  · intro i j hi hj hc
    have d : diffY ZiE dy (i + 1) j = (surface H Zb (i + 1) j - surface H Zb i j) / dy := by
      rw [diffY, surf_inside hs hn hi hj, surf_inside hs hn (by omega : i < ny) hj]
    have k : |(iceClass p.minGlacThick HE (i + 1 + 1) (j + 1) - iceClass p.minGlacThick HE (i + 1) (j + 1)) *
        Real.sign (diffY ZiE dy (i + 1) j) + 1| < 1e-5 := by
      unfold iceClass
      rw [hs.inside (i + 1) hi j hj, hs.inside i (by omega) j hj, d]
      rcases hc with ⟨a, b, e⟩ | ⟨a, b, e⟩
      · rw [if_pos b, if_neg (not_le.2 a), Real.sign_of_neg (div_neg_of_neg_of_pos (by linarith) hdy)]; norm_num
      · rw [if_neg (not_le.2 a), if_pos b, Real.sign_of_pos (div_pos (by linarith) hdy)]; norm_num
    simp only [motionOf, fluxY, stopY]
    by_cases h1 : so = .constFlux <;> by_cases h2 : no = .constFlux <;> simp [h1, h2, setRow, if_pos k]

/-- Ice is drawn from bare rock when the ice below it is thinner than the minimum. -/
theorem C145_rock_violated : ∃ (H Zb : Grid) (mo : Motion), (∀ i j, 0 ≤ H i j) ∧ H 0 0 = 0 ∧
    motion imported.par .iceFree .iceFree .iceFree .iceFree true false 1 2 1 1 H Zb (surface H Zb) = .ok mo ∧
    0 < mo.qx 0 1 ∧ mo.dHdt 0 0 < 0 := by
  obtain ⟨q1, q2, q3, q4, q5, q6, q7⟩ := rock_q
  have hk := kk_pos
  refine ⟨rockH, rockZb, _, fun i j => by unfold rockH; split_ifs <;> norm_num, by norm_num [rockH],
    motion_free _ _ _ _ _ _ _ _, by rw [q2]; positivity, ?_⟩
  change divergence 1 1 (freeMotion imported.par 1 2 1 1 rockH rockZb).qx
    (freeMotion imported.par 1 2 1 1 rockH rockZb).qy 0 0 < 0
  unfold divergence
  simp only [zero_add]
  rw [q1, q2, q4, q5]
  norm_num
  exact hk


/-! ### C144: the configured boundary conditions and ice parameters -/

/-- The configured boundary conditions, minimum thickness, ice hardness and sliding parameters have no effect on any
step. -/
theorem C144_ignored (m : Module) (c : Config) (minThick glensA usChar taubChar : ℝ) (we ea so no : BC) (o : Opts)
    (ny nx : ℕ) (t : ℝ) (H Zb : Grid) (dx dy b : ℝ) :
    update (setParameters m { c with minGlacThick := minThick, glensA := glensA, usChar := usChar, taubChar := taubChar
                                     west := we, east := ea, south := so, north := no }) o ny nx t H Zb dx dy b =
      update (setParameters m c) o ny nx t H Zb dx dy b := by
  have hm : massBalance (setParameters m { c with minGlacThick := minThick, glensA := glensA, usChar := usChar
                                                  taubChar := taubChar, west := we, east := ea, south := so
                                                  north := no }) (surface H Zb) t =
      massBalance (setParameters m c) (surface H Zb) t := by
    cases hb : c.massBalance <;> simp only [massBalance, setParameters, hb] <;> rfl
  unfold update
  dsimp only
  rw [hm]
  rfl

/-- A configuration that asks for borders without flux, and for a climate without gain or loss. -/
def closedConfig : Config where
  dtMax := 1
  minGlacThick := 1
  glensA := 6.8e-15 * 3.15e7 / 1e9
  usChar := 10
  taubChar := 100000
  initELA := 3350
  elaStepSize := -50
  elaStepInterval := 500
  gradBz := 0
  maxBz := 2
  tmin := 200
  variableDt := false
  iceflow := true
  iceslide := false
  massBalance := .constantELA
  west := .zeroFlux
  east := .zeroFlux
  south := .zeroFlux
  north := .zeroFlux

/-- One cell with ten metres of ice. -/
def oneH : Grid := fun _ _ => 10

lemma one_HE : ∀ i < 3, ∀ j < 3, freeHE 1 1 oneH i j = if i = 1 ∧ j = 1 then 10 else 0 := by
  intro i hi j hj
  interval_cases i <;> interval_cases j <;> norm_num [freeHE, setRow, setCol, addHalo, oneH]

lemma one_Zi : ∀ i < 3, ∀ j < 3, freeZi 1 1 oneH (fun _ _ => 0) i j = if i = 1 ∧ j = 1 then 10 else 0 := by
  intro i hi j hj
  rw [freeZi, one_HE i hi j hj]
  simp [addHalo]

lemma one_q : (freeMotion imported.par 1 1 1 1 oneH fun _ _ => 0).qx 0 0 < 0 := by
  have hz := one_HE
  unfold freeMotion
  have e0 : meanX (freeHE 1 1 oneH) 0 0 = 5 := by
    unfold meanX; rw [hz _ (by norm_num) _ (by norm_num), hz _ (by norm_num) _ (by norm_num)]; norm_num
  have e1 : stressXE imported.par (freeHE 1 1 oneH) (freeZi 1 1 oneH fun _ _ => 0) 1 (0 + 1) 0 = -(rg * 50) := by
    unfold stressXE
    rw [hz _ (by norm_num) _ (by norm_num), hz _ (by norm_num) _ (by norm_num), one_Zi _ (by norm_num) _ (by norm_num),
      one_Zi _ (by norm_num) _ (by norm_num)]
    norm_num [imported, rg]
  have hA := glens_pos
  rw [qx_value hA.le (by rw [e0]; norm_num)
    (by rw [e1, rg]; nlinarith [sq_nonneg (mean4 (stressYE imported.par (freeHE 1 1 oneH)
      (freeZi 1 1 oneH fun _ _ => 0) 1) 0 0)])
    (by
      unfold iceClass diffX
      rw [hz _ (by norm_num) _ (by norm_num), hz _ (by norm_num) _ (by norm_num),
        one_Zi _ (by norm_num) _ (by norm_num), one_Zi _ (by norm_num) _ (by norm_num)]
      norm_num [imported, Real.sign_of_pos]), e0, e1]
  have hr : 0 < rg := by norm_num [rg]
  have : 0 < 0.4 * imported.par.glensA * ((-(rg * 50)) ^ 2 + mean4 (stressYE imported.par (freeHE 1 1 oneH)
      (freeZi 1 1 oneH fun _ _ => 0) 1) 0 0 ^ 2) := by
    have h50 : 0 < (-(rg * 50)) ^ 2 := by rw [neg_sq]; positivity
    have := add_pos_of_pos_of_nonneg h50 (sq_nonneg (mean4 (stressYE imported.par (freeHE 1 1 oneH)
      (freeZi 1 1 oneH fun _ _ => 0) 1) 0 0))
    positivity
  nlinarith

/-- Although borders without flux are configured, ice leaves through them: with no climate the ice of a single cell
becomes less in a step. -/
theorem C144_closed_violated : ∃ (c : Config) (H Zb : Grid) (dt : ℝ) (r : Result),
    c.west = .zeroFlux ∧ c.east = .zeroFlux ∧ c.south = .zeroFlux ∧ c.north = .zeroFlux ∧
    update (setParameters imported c) {} 1 1 0 H Zb 1 1 0 = .ok (dt, r) ∧ 0 < dt ∧
    (∃ B ela, massBalance (setParameters imported c) (surface H Zb) 0 = .ok (B, ela) ∧ ∀ i j, B i j = 0) ∧
    total 1 1 r.H < total 1 1 H := by
  have hbal : ∀ Zi t, massBalance (setParameters imported closedConfig) Zi t = .ok (fun _ _ => 0, 3350) := by
    intro Zi t
    simp only [massBalance, setParameters, closedConfig]
    congr 2
    funext i j
    norm_num [balanceOf]
  have hu : ∃ r, update (setParameters imported closedConfig) {} 1 1 0 oneH (fun _ _ => 0) 1 1 0 = .ok (1, r) := by
    have hb : setBc 1 1 oneH (fun _ _ => 0) (surface oneH fun _ _ => 0) .iceFree .iceFree .iceFree .iceFree =
      .ok (freeHE 1 1 oneH, addHalo 1 1 fun _ _ => 0, freeZi 1 1 oneH fun _ _ => 0) := rfl
    unfold update
    dsimp only
    rw [show imported.tog.west = .iceFree from rfl, show imported.tog.east = .iceFree from rfl,
      show imported.tog.south = .iceFree from rfl, show imported.tog.north = .iceFree from rfl, hb]
    dsimp only
    rw [hbal]
    dsimp only
    rw [if_neg (by simp [compressShape, setParameters, imported])]
    exact ⟨_, rfl⟩
  obtain ⟨r, hr⟩ := hu
  obtain ⟨mo, B, ela, h1, h2, h3, h4, -⟩ := C139_step hr one_pos
  have hmo : mo = freeMotion imported.par 1 1 1 1 oneH fun _ _ => 0 := by
    have := h1.symm.trans (motion_free imported.par 1 1 1 1 oneH (fun _ _ => 0) (surface oneH fun _ _ => 0))
    simpa using this
  have hB : B = fun _ _ => 0 := by
    rw [hbal] at h2
    simp only [Except.ok.injEq, Prod.mk.injEq] at h2
    exact h2.1.symm
  obtain ⟨-, s2, s3, s4⟩ := C143_ice_free imported_physical one_pos one_pos
    (fun i _ j _ => by norm_num [oneH]) h1 (i := 0) (j := 0) one_pos one_pos
  have hq := one_q
  rw [← hmo] at hq
  refine ⟨closedConfig, oneH, fun _ _ => 0, 1, r, rfl, rfl, rfl, rfl, hr, one_pos, ⟨B, ela, h2, fun i j => by rw [hB]⟩,
    ?_⟩
  simp only [total, Finset.sum_range_one]
  rw [h3, h4, hB]
  have t2 := s2 rfl
  have t3 := s3 rfl
  have t4 := s4 rfl
  refine max_lt (by norm_num [oneH]) ?_
  simp only [zero_add, div_one]
  linarith

/-! ### C146: climate -/

/-- The equilibrium line of the three climates that work. -/
def lineOf (p : Params) (mb : MB) (t : ℝ) : ℝ :=
  match mb with
  | .elaLowering => p.initELA + p.elaStepSize * max 0 ((t - p.tmin) / p.elaStepInterval)
  | .elaLowering2 => 4200 - 10 * max 0 (⌊t / 200⌋ : ℝ)
  | _ => p.initELA

/-- With a constant or a moving equilibrium line, every cell gains ice in proportion to its height above the line, up to
the maximum, and loses it in proportion below. -/
theorem C146_line_partial (m : Module) (Zi : Grid) (t : ℝ)
    (hm : m.tog.massBalance = .constantELA ∨ m.tog.massBalance = .elaLowering ∨ m.tog.massBalance = .elaLowering2) :
    ∃ B, massBalance m Zi t = .ok (B, lineOf m.par m.tog.massBalance t) ∧
      (∀ i j, B i j = min m.par.maxBz (m.par.gradBz * (Zi i j - lineOf m.par m.tog.massBalance t))) ∧
      (0 < m.par.gradBz → 0 < m.par.maxBz → ∀ i j,
        (0 < B i j ↔ lineOf m.par m.tog.massBalance t < Zi i j) ∧
        (B i j < 0 ↔ Zi i j < lineOf m.par m.tog.massBalance t)) := by
  have hb : ∀ ela i j, balanceOf m.par ela Zi i j = min m.par.maxBz (m.par.gradBz * (Zi i j - ela)) := by
    intro ela i j
    unfold balanceOf
    split_ifs with h
    · exact (min_eq_left h.le).symm
    · exact (min_eq_right (not_lt.1 h)).symm
  have key : massBalance m Zi t = .ok (balanceOf m.par (lineOf m.par m.tog.massBalance t) Zi,
      lineOf m.par m.tog.massBalance t) := by
    rcases hm with h | h | h
    · simp only [massBalance, h, lineOf]
    · simp only [massBalance, h, lineOf]
    · have e : (4200 : ℝ) + -10 * max 0 ((⌊(t - 0) / (8 * 25)⌋ : ℤ) : ℝ) = 4200 - 10 * max 0 ((⌊t / 200⌋ : ℤ) : ℝ) := by
        rw [sub_zero, show (8 : ℝ) * 25 = 200 by norm_num]; ring
      simp only [massBalance, h, lineOf, e]
  refine ⟨_, key, hb _, fun hg hx i j => ?_⟩
  rw [hb]
  set e := lineOf m.par m.tog.massBalance t
  constructor
  · rw [lt_min_iff]
    constructor
    · rintro ⟨-, h⟩
      have := (mul_pos_iff_of_pos_left hg).1 h
      linarith
    · intro h
      exact ⟨hx, mul_pos hg (by linarith)⟩
  · rw [min_lt_iff]
    constructor
    · rintro (h | h)
      · linarith
      · by_contra hc
        have : 0 ≤ m.par.gradBz * (Zi i j - e) := mul_nonneg hg.le (by linarith)
        linarith
    · intro h
      right
      exact mul_neg_of_pos_of_neg hg (by linarith)

/-- The other choices fail for every ice surface and at every time, and so does every update with them. -/
theorem C146_choices_violated (m : Module)
    (hm : m.tog.massBalance ∈ [MB.zeroBalance, .elaTimeSeries, .d18OTimeSeries, .externalFunc, .balanceFile, .badVal])
    (o : Opts) (ny nx : ℕ) (t : ℝ) (H Zb : Grid) (dx dy c : ℝ) :
    (∀ Zi, ∃ e, massBalance m Zi t = .error e) ∧ ∃ e, update m o ny nx t H Zb dx dy c = .error e := by
  have h1 : ∀ Zi, ∃ e, massBalance m Zi t = .error e := by
    intro Zi
    simp only [List.mem_cons, List.not_mem_nil, or_false] at hm
    rcases hm with h | h | h | h | h | h <;> exact ⟨_, by simp only [massBalance, h]; rfl⟩
  refine ⟨h1, ?_⟩
  obtain ⟨e, he⟩ := h1 (surface H Zb)
  unfold update
  dsimp only
  split
  · exact ⟨_, rfl⟩
  · rw [he]; exact ⟨e, rfl⟩

/-! ### C148: variable time steps -/

/-- With variable time steps no update succeeds on a grid that has not three rows and three columns (both numbers at
least two). -/
theorem C148_grids_violated (m : Module) (o : Opts) (hv : o.variableDt.getD m.tog.variableDt = true) (ny nx : ℕ)
    (hy : 2 ≤ ny) (hx : 2 ≤ nx) (h3 : ¬ (ny = 3 ∧ nx = 3)) (t : ℝ) (H Zb : Grid) (dx dy c : ℝ) :
    ∃ e, update m o ny nx t H Zb dx dy c = .error e := by
  unfold update
  dsimp only
  split
  · exact ⟨_, rfl⟩
  split
  · exact ⟨_, rfl⟩
  split
  · exact ⟨_, rfl⟩
  rw [getTimestep, if_neg (by omega), if_neg h3]
  exact ⟨_, rfl⟩

/-- Without variable time steps the step is the given or the configured one. -/
theorem C148_fixed_partial {m : Module} {o : Opts} (hv : o.variableDt.getD m.tog.variableDt = false) {ny nx : ℕ}
    {t dx dy c dt : ℝ} {H Zb : Grid} {r : Result} (h : update m o ny nx t H Zb dx dy c = .ok (dt, r)) :
    dt = o.dtDefault.getD m.par.dtDefault := by
  unfold update at h
  dsimp only at h
  split at h
  · simp at h
  split at h
  · simp at h
  split at h
  · simp at h
  rw [hv] at h
  simp only [Bool.false_eq_true, if_false, Except.ok.injEq, Prod.mk.injEq] at h
  exact h.1.symm

/-- On three by three cells a variable time step is at most 0.40004 years, whatever is configured. -/
theorem C148_limit {m : Module} {o : Opts} (hv : o.variableDt.getD m.tog.variableDt = true) {ny nx : ℕ}
    {t dx dy c dt : ℝ} {H Zb : Grid} {r : Result} (h : update m o ny nx t H Zb dx dy c = .ok (dt, r)) :
    dt ≤ 0.40004 := by
  unfold update at h
  dsimp only at h
  split at h
  · simp at h
  split at h
  · simp at h
  split at h
  · simp at h
  split at h
  · simp at h
  rename_i dt' hdt
  simp only [Except.ok.injEq, Prod.mk.injEq] at h
  obtain ⟨rfl, -⟩ := h
  unfold getTimestep at hdt
  split at hdt
  · simp at hdt
  split at hdt
  · dsimp only at hdt
    split at hdt
    · simp only [Except.ok.injEq] at hdt
      rw [← hdt, imported_dt.1]; exact min_le_left _ _
    · simp only [Except.ok.injEq] at hdt
      rw [← hdt, imported_dt.2]
  · simp at hdt

/-- The configured largest step is exceeded: on three by three cells without ice thicker than ten metres the step is
0.40004 years, for every configuration with a climate that works. -/
theorem C148_maximum_violated {c : Config} (hv : c.variableDt = true)
    (hm : c.massBalance = .constantELA ∨ c.massBalance = .elaLowering ∨ c.massBalance = .elaLowering2) (t : ℝ)
    (H Zb : Grid) (hH : ∀ i < 3, ∀ j < 3, H i j ≤ 10) (dx dy b : ℝ) :
    ∃ r, update (setParameters imported c) {} 3 3 t H Zb dx dy b = .ok (0.40004, r) := by
  obtain ⟨B, hB, -⟩ := C146_line_partial (setParameters imported c) (surface H Zb) t hm
  have hb : setBc 3 3 H Zb (surface H Zb) .iceFree .iceFree .iceFree .iceFree =
    .ok (freeHE 3 3 H, addHalo 3 3 Zb, freeZi 3 3 H Zb) := rfl
  unfold update
  dsimp only
  rw [show imported.tog.west = .iceFree from rfl, show imported.tog.east = .iceFree from rfl,
    show imported.tog.south = .iceFree from rfl, show imported.tog.north = .iceFree from rfl, hb]
  dsimp only
  rw [hB]
  dsimp only
  rw [if_neg (by simp [compressShape, setParameters, imported])]
  rw [if_pos (by simpa [setParameters] using hv), getTimestep, if_neg (by omega), if_pos ⟨rfl, rfl⟩]
  dsimp only
  rw [dif_neg, imported_dt.2]
  · exact ⟨_, rfl⟩
  · rw [Finset.not_nonempty_iff_eq_empty, limiting, Finset.filter_eq_empty_iff]
    rintro ⟨i, j⟩ hij ⟨-, -, h10⟩
    simp only [Finset.mem_product, Finset.mem_range] at hij
    exact absurd (hH i hij.1 j hij.2) (not_le.2 h10)

/-! ### C149: the end of a run -/

/-- With a fixed step a run takes as many steps as needed to reach its end time, and stops at the first time at or after
it; it never fails in between. -/
theorem C149_run {m : Module} (hv : m.tog.variableDt = false) (hc : m.tog.compress = false)
    (hm : m.tog.massBalance = .constantELA ∨ m.tog.massBalance = .elaLowering ∨ m.tog.massBalance = .elaLowering2)
    (ny nx : ℕ) (Zb : Grid) (dx dy tMax : ℝ) :
    ∀ (k n : ℕ) (t : ℝ) (H : Grid) (c : ℝ) (fuel : ℕ), (∀ i : ℕ, i < k → t + i * m.par.dtDefault < tMax) →
      tMax ≤ t + k * m.par.dtDefault → k < fuel →
      ∃ H' c', runLoop m ny nx Zb dx dy tMax fuel n (t, H, c) =
        some (.ok (n + k, t + k * m.par.dtDefault, H', c')) := by
  intro k
  induction k with
  | zero =>
    intro n t H c fuel _ h2 hf
    obtain ⟨f, rfl⟩ : ∃ f, fuel = f + 1 := ⟨fuel - 1, by omega⟩
    refine ⟨H, c, ?_⟩
    rw [runLoop, if_neg (by simpa using h2)]
    simp
  | succ k ih =>
    intro n t H c fuel h1 h2 hf
    obtain ⟨f, rfl⟩ : ∃ f, fuel = f + 1 := ⟨fuel - 1, by omega⟩
    have h0 : t < tMax := by simpa using h1 0 (by omega)
    have hu : ∃ r, update m {} ny nx t H Zb dx dy c = .ok (m.par.dtDefault, r) ∧ r.t = t + m.par.dtDefault := by
      obtain ⟨B, hB, -⟩ := C146_line_partial m (surface H Zb) t hm
      have hb : setBc ny nx H Zb (surface H Zb) .iceFree .iceFree .iceFree .iceFree =
        .ok (freeHE ny nx H, addHalo ny nx Zb, freeZi ny nx H Zb) := rfl
      unfold update
      dsimp only
      rw [show imported.tog.west = .iceFree from rfl, show imported.tog.east = .iceFree from rfl,
        show imported.tog.south = .iceFree from rfl, show imported.tog.north = .iceFree from rfl, hb]
      dsimp only
      rw [hB]
      dsimp only
      rw [if_neg (by simp [compressShape, hc])]
      rw [if_neg (by simp [hv])]
      exact ⟨_, rfl, rfl⟩
    obtain ⟨r, hr, ht⟩ := hu
    obtain ⟨H', c', e⟩ := ih (n + 1) r.t r.H r.conserveIce f
      (fun i hi => by
        have := h1 (i + 1) (by omega)
        rw [ht]; push_cast at this; linarith)
      (by rw [ht]; push_cast at h2; linarith) (by omega)
    refine ⟨H', c', ?_⟩
    rw [runLoop, if_pos h0, hr]
    dsimp only
    rw [e, ht, show n + 1 + k = n + (k + 1) by omega,
      show t + m.par.dtDefault + (k : ℝ) * m.par.dtDefault = t + ((k + 1 : ℕ) : ℝ) * m.par.dtDefault by push_cast; ring]

/-- `run_model` as it is: from time zero it ends at the first multiple of the step at or after `t_max`. -/
theorem C149_ends (ny nx : ℕ) (Zb H : Grid) (dx dy tMax : ℝ) (h0 : 0 < tMax) :
    ∃ (n : ℕ) (H' : Grid) (c' : ℝ), tMax ≤ n * 0.40004 ∧ n * 0.40004 < tMax + 0.40004 ∧
      ∀ fuel, n < fuel →
        runLoop imported ny nx Zb dx dy tMax fuel 0 (0, H, 0) = some (.ok (n, n * 0.40004, H', c')) := by
  have hd := imported_dt.2
  have hpos : (0 : ℝ) < 0.40004 := by norm_num
  set n := ⌈tMax / 0.40004⌉₊ with hn
  have a1 : tMax ≤ n * 0.40004 := by
    have := Nat.le_ceil (tMax / 0.40004)
    rw [← hn, div_le_iff₀ hpos] at this
    exact this
  have a2 : n * 0.40004 < tMax + 0.40004 := by
    have := Nat.ceil_lt_add_one (a := tMax / 0.40004) (by positivity)
    rw [← hn] at this
    have h2 : (n : ℝ) * 0.40004 < (tMax / 0.40004 + 1) * 0.40004 := by
      exact mul_lt_mul_of_pos_right this hpos
    have h3 : (tMax / 0.40004 + 1) * 0.40004 = tMax + 0.40004 := by
      rw [add_mul, div_mul_cancel₀ _ hpos.ne']; ring
    linarith
  have run := C149_run (m := imported) rfl rfl (Or.inl rfl) ny nx Zb dx dy tMax n 0 0 H 0
  have hlt : ∀ i : ℕ, i < n → 0 + (i : ℝ) * imported.par.dtDefault < tMax := by
    intro i hi
    rw [hd, zero_add]
    have h1 : (i : ℝ) < tMax / 0.40004 := Nat.lt_ceil.1 hi
    rw [lt_div_iff₀ hpos] at h1
    exact h1
  have hge : tMax ≤ 0 + (n : ℝ) * imported.par.dtDefault := by rw [hd, zero_add]; exact a1
  obtain ⟨H', c', e⟩ := run (n + 1) hlt hge (by omega)
  refine ⟨n, H', c', a1, a2, fun fuel hf => ?_⟩
  obtain ⟨H2, c2, e2⟩ := run fuel hlt hge hf
  -- more fuel does not change the result
  have mono : ∀ (f g k : ℕ) (s : ℝ × Grid × ℝ) (x : Except String (ℕ × ℝ × Grid × ℝ)), f ≤ g →
      runLoop imported ny nx Zb dx dy tMax f k s = some x → runLoop imported ny nx Zb dx dy tMax g k s = some x := by
    intro f
    induction f with
    | zero => intro g k s x _ h; simp [runLoop] at h
    | succ f ih =>
      intro g k s x hg h
      obtain ⟨g', rfl⟩ : ∃ g', g = g' + 1 := ⟨g - 1, by omega⟩
      obtain ⟨t, H, c⟩ := s
      rw [runLoop] at h ⊢
      split at h
      · rename_i hlt
        rw [if_pos hlt]
        split at h
        · exact h
        · exact ih _ _ _ _ (by omega) h
      · rename_i hlt
        rw [if_neg hlt]; exact h
  rw [mono (n + 1) fuel 0 _ _ (by omega) e, hd]
  simp

/-! ### C150: the ice component -/

/-- An update of the enabled ice component never succeeds: even when the step itself does, the call that should advance
the clock fails, the clock stays and the status remains "updating". -/
theorem C150_component_violated (m : Module) (c : Config) (ny nx : ℕ) (zBed : Grid) (dx dy : ℝ) (s : Comp)
    (he : s.enabled = true) :
    (compUpdate m c ny nx zBed dx dy s).2 ≠ none ∧ (compUpdate m c ny nx zBed dx dy s).1.time = s.time ∧
      (compUpdate m c ny nx zBed dx dy s).1.status = "updating" ∧
      ∀ dt r, update m { iceflow := some c.iceflow, iceslide := some c.iceslide, variableDt := some c.variableDt
                         dtDefault := some c.dtMax } ny nx s.time s.h zBed dx dy s.conserveIce = .ok (dt, r) →
        (compUpdate m c ny nx zBed dx dy s).2 = some "TypeError: too many positional arguments" ∧
        (compUpdate m c ny nx zBed dx dy s).1.h = r.H := by
  have hb : Nc.bindCall updateTimeParams 2 [] = .error "TypeError: too many positional arguments" := by
    simp [Nc.bindCall, updateTimeParams]
  unfold compUpdate
  rw [if_neg (by simp [he])]
  dsimp only
  rw [hb]
  split
  · rename_i e heq
    refine ⟨by simp, rfl, rfl, fun dt r h => ?_⟩
    rw [h] at heq; simp at heq
  · rename_i dt' r' heq
    refine ⟨by simp, rfl, rfl, fun dt r h => ?_⟩
    rw [h] at heq
    simp only [Except.ok.injEq, Prod.mk.injEq] at heq
    obtain ⟨-, rfl⟩ := heq
    exact ⟨rfl, rfl⟩

/-- The disabled component does nothing. -/
theorem C150_disabled_partial (m : Module) (c : Config) (ny nx : ℕ) (zBed : Grid) (dx dy : ℝ) (s : Comp)
    (he : s.enabled = false) : compUpdate m c ny nx zBed dx dy s = (s, none) := by
  unfold compUpdate
  rw [if_pos he]

/-! ### C151: simulating only the part with ice -/

/-- With the option to simulate only the part with ice, every update fails when there is ice thicker than one metre and
the last two rows (or the last two columns) have none. -/
theorem C151_part_violated (m : Module) (o : Opts) (hc : o.compress.getD m.tog.compress = true) (ny nx : ℕ) (t : ℝ)
    (H Zb : Grid) (dx dy c : ℝ) {i j : ℕ} (hi : i < ny) (hj : j < nx) (h1 : 1 < H i j)
    (hempty : (∀ i' < ny, ∀ j' < nx, H i' j' ≠ 0 → i' + 2 < ny) ∨ (∀ i' < ny, ∀ j' < nx, H i' j' ≠ 0 → j' + 2 < nx)) :
    ∃ e, update m o ny nx t H Zb dx dy c = .error e := by
  have hcut : compressShape ny nx H (o.compress.getD m.tog.compress) ≠ (ny, nx) := by
    unfold compressShape
    rw [if_pos ⟨hc, i, hi, j, hj, h1⟩]
    intro h
    simp only [Prod.mk.injEq] at h
    rcases hempty with he | he
    · have hmax : rowMax ny nx H + 2 < ny := by
        have : rowMax ny nx H ∈ {i | i < ny ∧ ∃ j < nx, H i j ≠ 0} :=
          Nat.sSup_mem ⟨i, hi, j, hj, by linarith⟩ ⟨ny, fun x hx => hx.1.le⟩
        obtain ⟨a, b, hb, hn⟩ := this
        exact he _ a b hb hn
      omega
    · have hmax : colMax ny nx H + 2 < nx := by
        have : colMax ny nx H ∈ {j | j < nx ∧ ∃ i < ny, H i j ≠ 0} :=
          Nat.sSup_mem ⟨j, hj, i, hi, by linarith⟩ ⟨nx, fun x hx => hx.1.le⟩
        obtain ⟨a, b, hb, hn⟩ := this
        exact he b hb _ a hn
      omega
  unfold update
  dsimp only
  split
  · exact ⟨_, rfl⟩
  split
  · exact ⟨_, rfl⟩
  rw [if_pos hcut]
  exact ⟨_, rfl⟩

/-- Where there is no ice thicker than one metre the option changes nothing. -/
theorem C151_thin_partial (m : Module) (o : Opts) (ny nx : ℕ) (t : ℝ) (H Zb : Grid) (dx dy c : ℝ)
    (h1 : ∀ i < ny, ∀ j < nx, H i j ≤ 1) (b : Bool) :
    update m { o with compress := some b } ny nx t H Zb dx dy c =
      update m { o with compress := some false } ny nx t H Zb dx dy c := by
  have hs : ∀ b, compressShape ny nx H b = (ny, nx) := by
    intro b
    unfold compressShape
    rw [if_neg]
    rintro ⟨-, i, hi, j, hj, h⟩
    exact absurd (h1 i hi j hj) (not_le.2 h)
  simp only [update, Option.getD_some, hs]

/-! ### C152: ice advances one cell at a time -/

/-- A cell without ice whose four neighbours have none (or are outside) has after a step only what fell as snow. -/
theorem C152_advance {m : Module} {o : Opts} {ny nx : ℕ} {t dx dy c dt : ℝ} {H Zb : Grid} {r : Result}
    (h : update m o ny nx t H Zb dx dy c = .ok (dt, r)) (hdt : 0 < dt) {i j : ℕ} (hi : i < ny) (hj : j < nx)
    (h0 : H i j = 0) (hw : ∀ k, k + 1 = j → H i k = 0) (he : j + 1 < nx → H i (j + 1) = 0)
    (hs : ∀ k, k + 1 = i → H k j = 0) (hn : i + 1 < ny → H (i + 1) j = 0) :
    ∃ B ela, massBalance m (surface H Zb) t = .ok (B, ela) ∧ r.H i j = dt * max 0 (B i j) := by
  obtain ⟨mo, B, ela, h1, h2, h3, h4, -⟩ := C139_step h hdt
  obtain ⟨HE, ZiE, sp, rfl⟩ := motion_spec h1
  refine ⟨B, ela, h2, ?_⟩
  have c0 : HE (i + 1) (j + 1) = 0 := by rw [sp.inside i hi j hj, h0]
  have cw : HE (i + 1) j = 0 := by
    rcases Nat.eq_zero_or_pos j with rfl | hp
    · exact sp.westFree rfl i hi
    · obtain ⟨k, rfl⟩ : ∃ k, j = k + 1 := ⟨j - 1, by omega⟩
      rw [sp.inside i hi k (by omega)]; exact hw k rfl
  have ce : HE (i + 1) (j + 2) = 0 := by
    by_cases hlt : j + 1 < nx
    · rw [sp.inside i hi (j + 1) hlt]; exact he hlt
    · have : nx = j + 1 := by omega
      subst this
      exact sp.eastFree rfl i hi
  have cs : HE i (j + 1) = 0 := by
    rcases Nat.eq_zero_or_pos i with rfl | hp
    · exact sp.southFree rfl j hj
    · obtain ⟨k, rfl⟩ : ∃ k, i = k + 1 := ⟨i - 1, by omega⟩
      rw [sp.inside k (by omega) j hj]; exact hs k rfl
  have cn : HE (i + 2) (j + 1) = 0 := by
    by_cases hlt : i + 1 < ny
    · rw [sp.inside (i + 1) hlt j hj]; exact hn hlt
    · have : ny = i + 1 := by omega
      subst this
      exact sp.northFree rfl j hj
  rw [h3, h4, qx_zero (by simp [meanX, c0, cw]), qx_zero (by simp [meanX, c0, ce]), qy_zero (by simp [meanY, c0, cs]),
    qy_zero (by simp [meanY, c0, cn]), h0]
  rw [mul_max_of_nonneg _ _ hdt.le, mul_zero]
  congr 1
  ring

/-- Bare land below the equilibrium line stays bare. -/
theorem C152_bare {m : Module} {o : Opts} {ny nx : ℕ} {t dx dy c dt : ℝ} {H Zb : Grid} {r : Result}
    (h : update m o ny nx t H Zb dx dy c = .ok (dt, r)) (hdt : 0 < dt) (h0 : ∀ i < ny, ∀ j < nx, H i j = 0)
    (hB : ∀ B ela, massBalance m (surface H Zb) t = .ok (B, ela) → ∀ i < ny, ∀ j < nx, B i j ≤ 0) :
    ∀ i < ny, ∀ j < nx, r.H i j = 0 := by
  intro i hi j hj
  obtain ⟨B, ela, h2, e⟩ := C152_advance h hdt hi hj (h0 i hi j hj) (fun k hk => h0 i hi k (by omega))
    (fun hl => h0 i hi _ hl) (fun k hk => h0 k (by omega) j hj) (fun hl => h0 _ hl j hj)
  rw [e, max_eq_left (hB B ela h2 i hi j hj), mul_zero]

/-! ### The hypotheses can be met -/

/-- The updates of the examples succeed, with positive steps: the hypotheses of C139, C140, C141, C142, C143, C147 and
C152 are met by them. -/
example : ∃ (m : Module) (H Zb : Grid) (dt : ℝ) (r : Result), 0 < dt ∧ (∀ i j, 0 ≤ H i j) ∧
    update m {} 1 2 0 H Zb 1 1 0 = .ok (dt, r) ∧ total 1 2 H < total 1 2 r.H := by
  obtain ⟨m, H, Zb, dt, r, h1, h2, h3, -, -, h6⟩ := C140_created_violated
  exact ⟨m, H, Zb, dt, r, h1, h2, h3, h6⟩

/-- Ice on the first of five rows, two metres thick: the hypotheses of `C151_part_violated` are met. -/
example : ∃ e, update imported { compress := some true } 5 1 0 (fun i _ => if i = 0 then 2 else 0) (fun _ _ => 0) 1 1 0 =
    .error e :=
  C151_part_violated imported _ rfl 5 1 0 _ _ 1 1 0 (i := 0) (j := 0) (by norm_num) (by norm_num) (by norm_num)
    (Or.inl fun i _ j _ h => by
      by_cases h0 : i = 0
      · omega
      · simp [h0] at h)

end Ice
