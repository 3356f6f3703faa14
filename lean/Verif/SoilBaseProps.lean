import Verif.SoilBaseModel

/-!
# Properties C211 and C212: water contents and conductivity of a soil class
-/

set_option autoImplicit false

namespace SoilBase

/-- Parameters of a soil: contents in order, a negative bubbling pressure head, positive exponents
and conductivity. -/
structure Good (s : Soil) : Prop where
  theta : s.thetaR < s.thetaS
  psiB : s.psiB < 0
  c : 0 < s.c
  lam : 0 < s.lam
  Ks : 0 < s.Ks

theorem npow_of_nonneg {x y : ℝ} (hx : 0 ≤ x) (hy : 0 ≤ y) : npow x y = some (x ^ y) := by
  unfold npow
  rw [if_neg (by intro h; linarith [h.2]), if_neg (by intro h; linarith [h.1])]

theorem npow_of_pos {x y : ℝ} (hx : 0 < x) : npow x y = some (x ^ y) := by
  unfold npow
  rw [if_neg (by intro h; linarith [h.1]), if_neg (by intro h; linarith [h.1])]

/-! ## C211: the characteristic water contents -/

/-- The retention curve: the content at the pressure head `psi` (m). -/
noncomputable def retention (s : Soil) (psi : ℝ) : ℝ :=
  s.thetaR + (s.thetaS - s.thetaR) * (1 + ((psi + s.psiA) / s.psiB) ^ s.c) ^ (-(s.lam / s.c))

theorem thetaAt_eq (s : Soil) (g : Good s) (psi : ℝ) (h : psi + s.psiA ≤ 0) :
    thetaAt s psi = some (retention s psi) := by
  have hr : 0 ≤ (psi + s.psiA) / s.psiB := div_nonneg_of_nonpos h g.psiB.le
  unfold thetaAt
  dsimp only
  rw [npow_of_nonneg hr g.c.le]
  dsimp only
  rw [npow_of_pos (by have := Real.rpow_nonneg hr s.c; linarith)]
  dsimp only
  unfold retention
  rw [neg_div]
  congr 1
  ring

/-- Drier soil holds less water: the curve is strictly increasing in the head, between the residual
and the saturated content. -/
theorem C211_retention (s : Soil) (g : Good s) (psi psi' : ℝ) (h : psi < psi')
    (h' : psi' + s.psiA < 0) :
    s.thetaR < retention s psi ∧ retention s psi < retention s psi' ∧
      retention s psi' < s.thetaS := by
  have key : ∀ p, p + s.psiA < 0 → 0 < ((p + s.psiA) / s.psiB) ^ s.c := fun p hp =>
    Real.rpow_pos_of_pos (div_pos_of_neg_of_neg hp g.psiB) _
  have h1 : psi + s.psiA < 0 := by linarith
  have hd : 0 < s.thetaS - s.thetaR := sub_pos.mpr g.theta
  have he : -(s.lam / s.c) < 0 := neg_neg_of_pos (div_pos g.lam g.c)
  have hlt : ((psi' + s.psiA) / s.psiB) ^ s.c < ((psi + s.psiA) / s.psiB) ^ s.c := by
    refine Real.rpow_lt_rpow (div_pos_of_neg_of_neg h' g.psiB).le ?_ g.c
    exact (div_lt_div_right_of_neg g.psiB).mpr (by linarith)
  have hp := key psi h1
  have hp' := key psi' h'
  refine ⟨?_, ?_, ?_⟩
  · unfold retention
    have : 0 < (1 + ((psi + s.psiA) / s.psiB) ^ s.c) ^ (-(s.lam / s.c)) :=
      Real.rpow_pos_of_pos (by linarith) _
    nlinarith [mul_pos hd this]
  · unfold retention
    have := Real.rpow_lt_rpow_of_neg (by linarith : 0 < 1 + ((psi' + s.psiA) / s.psiB) ^ s.c)
      (by linarith : 1 + ((psi' + s.psiA) / s.psiB) ^ s.c < 1 + ((psi + s.psiA) / s.psiB) ^ s.c) he
    nlinarith [mul_lt_mul_of_pos_left this hd]
  · unfold retention
    have := Real.rpow_lt_one_of_one_lt_of_neg
      (by linarith : 1 < 1 + ((psi' + s.psiA) / s.psiB) ^ s.c) he
    nlinarith [mul_lt_mul_of_pos_left this hd]

/-- The contents at -310 m, -150 m and -3.4 m are those `theta_min`, `theta_wilting` and
`theta_field` answer, and they are in this order, for an offset below 3.4 m. -/
theorem C211_order (s : Soil) (g : Good s) (hA : s.psiA < 34 / 10) :
    ∃ H w f, thetaMin s = some H ∧ thetaWilting s = some w ∧ thetaField s = some f ∧
      H = retention s (-310) ∧ w = retention s (-150) ∧ f = retention s (-34 / 10) ∧
      s.thetaR < H ∧ H < w ∧ w < f ∧ f < s.thetaS := by
  refine ⟨_, _, _, ?_, ?_, ?_, rfl, rfl, rfl, ?_, ?_, ?_, ?_⟩
  · unfold thetaMin
    rw [show (-31000 / 100 : ℝ) = -310 by norm_num]
    exact thetaAt_eq s g _ (by linarith)
  · unfold thetaWilting
    rw [show (-15000 / 100 : ℝ) = -150 by norm_num]
    exact thetaAt_eq s g _ (by linarith)
  · unfold thetaField
    rw [show (-340 / 100 : ℝ) = -34 / 10 by norm_num]
    exact thetaAt_eq s g _ (by linarith)
  · exact (C211_retention s g (-310) (-150) (by norm_num) (by linarith)).1
  · exact (C211_retention s g (-310) (-150) (by norm_num) (by linarith)).2.1
  · exact (C211_retention s g (-150) (-34 / 10) (by norm_num) (by linarith)).2.1
  · exact (C211_retention s g (-150) (-34 / 10) (by norm_num) (by linarith)).2.2

/-- The residual content: positive and below saturation exactly when the bubbling pressure head is
above -10000 m. -/
theorem C211_residual (thetaS psiB lam : ℝ) (hs : 0 < thetaS) (hl : 0 < lam) (hp : psiB < 0) :
    ∃ r, thetaResidual thetaS psiB lam = some r ∧ 0 < r ∧ (r < thetaS ↔ -10000 < psiB) := by
  have hq : 0 < psiB / (-1000000 / 100) := div_pos_of_neg_of_neg hp (by norm_num)
  refine ⟨thetaS * (psiB / (-1000000 / 100)) ^ lam, ?_, ?_, ?_⟩
  · unfold thetaResidual
    dsimp only
    rw [npow_of_pos hq]
    rfl
  · exact mul_pos hs (Real.rpow_pos_of_pos hq _)
  · have e : psiB / (-1000000 / 100) < 1 ↔ -10000 < psiB := by
      rw [div_lt_one_of_neg (by norm_num)]
      constructor <;> intro h <;> linarith
    rw [← e]
    constructor
    · intro h
      by_contra hc
      push Not at hc
      have := Real.one_le_rpow hc hl.le
      nlinarith
    · intro h
      have := Real.rpow_lt_one hq.le h hl
      nlinarith

/-- Every row of the table is sensible. -/
theorem table_good : ∀ r ∈ table, 0 < r.2.1 ∧ r.2.1 < 1 ∧ 0 < r.2.2.1 ∧ 0 < r.2.2.2.1 ∧
    r.2.2.2.1 < 100 ∧ 1 < r.2.2.2.2.1 ∧ 0 < r.2.2.2.2.2 := by
  decide +kernel

/-- The eleven names the component knows. -/
def names : List String :=
  ["sand", "loamy_sand", "sandy_loam", "silt_loam", "loam", "sandy_clay_loam", "silty_clay_loam",
    "clay_loam", "sandy_clay", "silty_clay", "clay"]

theorem table_names : table.map (·.1) = names := by decide +kernel

/-- What `initialize` leaves behind: for each of the eleven soil types, all contents are set, with
`0 < theta_r < theta_H < theta_w < theta_f = theta_i < theta_u < theta_s = porosity < 1`, and the
initial conductivity lies strictly between zero and the saturated one. -/
theorem C211_initialize (t : String) (ht : t ∈ names) :
    ∃ a H w f u k, initialize' t = .ok (some a) ∧ a.thetaH = some H ∧ a.thetaW = some w ∧
      a.thetaF = some f ∧ a.thetaI = some f ∧ a.thetaU = some u ∧ a.Ki = some k ∧
      0 < a.soil.thetaR ∧ a.soil.thetaR < H ∧ H < w ∧ w < f ∧ f < u ∧ u < a.soil.thetaS ∧
      a.soil.thetaS = a.porosity ∧ a.porosity < 1 ∧ 0 < k ∧ k < a.soil.Ks ∧
      a.soil.psiB < 0 ∧ 0 < a.G := by
  have hf : ∃ r, table.find? (fun r => r.1 == t) = some r ∧ r ∈ table := by
    have : ∃ r ∈ table, r.1 = t := by
      rw [← table_names] at ht
      simpa using List.mem_map.mp ht
    cases hfd : table.find? (fun r => r.1 == t) with
    | none =>
      obtain ⟨r, hr, e⟩ := this
      have := List.find?_eq_none.mp hfd r hr
      simp [e] at this
    | some r => exact ⟨r, rfl, List.mem_of_find?_eq_some hfd⟩
  obtain ⟨⟨nm, por, ks, pb, b, gg⟩, hfd, hmem⟩ := hf
  obtain ⟨g1, g2, g3, g4, g5, g6, g7⟩ := table_good _ hmem
  dsimp only at g1 g2 g3 g4 g5 g6 g7
  have g1' : (0 : ℝ) < por := by exact_mod_cast g1
  have g2' : (por : ℝ) < 1 := by exact_mod_cast g2
  have g3' : (0 : ℝ) < ks := by exact_mod_cast g3
  have g4' : (0 : ℝ) < pb := by exact_mod_cast g4
  have g5' : (pb : ℝ) < 100 := by exact_mod_cast g5
  have g6' : (1 : ℝ) < b := by exact_mod_cast g6
  have g7' : (0 : ℝ) < gg := by exact_mod_cast g7
  have hlam : (0 : ℝ) < 1 / b := by positivity
  have hpsi : -1 * ((pb : ℝ) / 100) < 0 := by linarith
  obtain ⟨r, hr, hr0, hr1⟩ := C211_residual (por : ℝ) (-1 * ((pb : ℝ) / 100)) (1 / b) g1' hlam hpsi
  have hr1' : r < por := hr1.mpr (by linarith)
  unfold initialize'
  rw [hfd]
  dsimp only
  rw [hr]
  simp only [Option.getD_some]
  set s : Soil :=
    { thetaS := (por : ℝ)
      thetaR := r
      psiB := -1 * ((pb : ℝ) / 100)
      psiA := 0
      c := 1
      lam := 1 / (b : ℝ)
      Ks := (ks : ℝ) / 100
      eta := 2 + 3 * (1 / (b : ℝ)) } with hs
  have gs : Good s := ⟨hr1', hpsi, by norm_num [hs], hlam, by simp only [hs]; positivity⟩
  obtain ⟨H, w, f, eH, ew, ef, -, -, rf, o1, o2, o3, o4⟩ := C211_order s gs (by norm_num [hs])
  have hKs : 0 < s.Ks := gs.Ks
  have hlamS : 0 < s.lam := gs.lam
  have heta : 2 < s.eta := by simp only [hs]; linarith
  have hd : 0 < s.thetaS - s.thetaR := sub_pos.mpr gs.theta
  have hq : s.Ks * (95 / 100) / s.Ks = 95 / 100 := by field_simp
  have hu : thetaMax s (s.Ks * (95 / 100)) =
      .ok (some (s.thetaR + (s.thetaS - s.thetaR) * (95 / 100 : ℝ) ^ (1 / (s.eta / s.lam)))) := by
    unfold thetaMax
    rw [if_pos (by linarith)]
    dsimp only
    rw [hq, npow_of_pos (by norm_num)]
    rfl
  rw [hu]
  dsimp only
  rw [ef]
  -- conductivity at field capacity
  have hx : 0 < (f - s.thetaR) / (s.thetaS - s.thetaR) := div_pos (by linarith) hd
  have hx1 : (f - s.thetaR) / (s.thetaS - s.thetaR) < 1 := (div_lt_one hd).mpr (by linarith)
  have heps : 0 < (2 + 3 * s.lam) / s.lam := by positivity
  have hp0 := Real.rpow_pos_of_pos hx ((2 + 3 * s.lam) / s.lam)
  have hp1 := Real.rpow_lt_one hx.le hx1 heps
  have hk : kOfTheta s f = some (s.Ks *
      ((f - s.thetaR) / (s.thetaS - s.thetaR)) ^ ((2 + 3 * s.lam) / s.lam)) := by
    unfold kOfTheta
    dsimp only
    rw [npow_of_pos hx]
    simp only [Option.map_some]
    rw [min_eq_left hp1.le, max_eq_left hp0.le]
  -- the wetted content exceeds field capacity
  have hfu : f < s.thetaR + (s.thetaS - s.thetaR) * (95 / 100 : ℝ) ^ (1 / (s.eta / s.lam)) := by
    rw [rf]
    unfold retention
    have e1 : (1 + ((-34 / 10 + s.psiA) / s.psiB) ^ s.c) ^ (-(s.lam / s.c)) <
        (95 / 100 : ℝ) ^ (1 / (s.eta / s.lam)) := by
      have hc : s.c = 1 := rfl
      have hA : s.psiA = 0 := rfl
      have hB : s.psiB = -1 * ((pb : ℝ) / 100) := rfl
      rw [hc, hA, Real.rpow_one, div_one, add_zero]
      have hrat : 3 < (-34 / 10) / s.psiB := by
        rw [hB, lt_div_iff_of_neg hpsi]
        nlinarith
      set y := 1 + (-34 / 10) / s.psiB with hy
      have hy1 : 4 < y := by linarith
      rw [Real.rpow_neg (by linarith), ← Real.inv_rpow (by linarith)]
      have hinv : y⁻¹ < 95 / 100 := by
        rw [inv_lt_comm₀ (by linarith) (by norm_num)]
        norm_num
        linarith
      have a1 : y⁻¹ ^ s.lam < (95 / 100 : ℝ) ^ s.lam :=
        Real.rpow_lt_rpow (by positivity) hinv hlamS
      have a2 : (95 / 100 : ℝ) ^ s.lam ≤ (95 / 100 : ℝ) ^ (1 / (s.eta / s.lam)) := by
        refine Real.rpow_le_rpow_of_exponent_ge (by norm_num) (by norm_num) ?_
        rw [one_div_div, div_le_iff₀ (by linarith)]
        nlinarith
      linarith
    nlinarith [mul_lt_mul_of_pos_left e1 hd]
  have hus : s.thetaR + (s.thetaS - s.thetaR) * (95 / 100 : ℝ) ^ (1 / (s.eta / s.lam)) <
      s.thetaS := by
    have : (95 / 100 : ℝ) ^ (1 / (s.eta / s.lam)) < 1 :=
      Real.rpow_lt_one (by norm_num) (by norm_num) (by positivity)
    nlinarith [mul_lt_mul_of_pos_left this hd]
  refine ⟨_, H, w, f, _, _, rfl, eH, ew, rfl, rfl, rfl, hk, hr0, o1, o2, o3, hfu, hus, rfl, g2',
    mul_pos hKs hp0, ?_, hpsi, by positivity⟩
  nlinarith [mul_lt_mul_of_pos_left hp1 hKs]

/-- A name outside the list leaves the component without any attribute, and no error is raised. -/
theorem C211_unknown (t : String) (ht : t ∉ names) : initialize' t = .ok none := by
  unfold initialize'
  have : table.find? (fun r => r.1 == t) = none := by
    rw [List.find?_eq_none]
    intro r hr
    have : r.1 ∈ names := by rw [← table_names]; exact List.mem_map_of_mem hr
    simp only [beq_iff_eq]
    intro e
    exact ht (e ▸ this)
  rw [this]

example : "loam" ∈ names := by decide
example : "silty_loam" ∉ names := by decide
example : Good ⟨0.45, 0.05, -0.5, 0, 1, 0.2, 0.001, 2.6⟩ := by
  constructor <;> norm_num

/-! ## C212: conductivity -/

/-- The value of `K_of_theta` between the residual and the saturated content and above it. -/
theorem kOfTheta_eq (s : Soil) (g : Good s) (theta : ℝ) (h : s.thetaR ≤ theta) :
    kOfTheta s theta = some (s.Ks *
      min (((theta - s.thetaR) / (s.thetaS - s.thetaR)) ^ (3 + 2 / s.lam)) 1) := by
  have hd : 0 < s.thetaS - s.thetaR := sub_pos.mpr g.theta
  have hl := g.lam
  have he : (2 + 3 * s.lam) / s.lam = 3 + 2 / s.lam := by field_simp; ring
  have hx : 0 ≤ (theta - s.thetaR) / (s.thetaS - s.thetaR) := div_nonneg (by linarith) hd.le
  have hp : 0 ≤ 3 + 2 / s.lam := by positivity
  unfold kOfTheta
  dsimp only
  rw [he, npow_of_nonneg hx hp]
  simp only [Option.map_some]
  rw [max_eq_left]
  exact le_min (Real.rpow_nonneg hx _) zero_le_one

/-- From the residual content up, the conductivity is defined and lies between zero and the
saturated one; it is zero at the residual content only, saturated from the saturated content on,
and strictly increasing between them. -/
theorem C212_conductivity_partial (s : Soil) (g : Good s) (theta : ℝ) (h : s.thetaR ≤ theta) :
    ∃ k, kOfTheta s theta = some k ∧ 0 ≤ k ∧ k ≤ s.Ks ∧
      (k = 0 ↔ theta = s.thetaR) ∧ (k = s.Ks ↔ s.thetaS ≤ theta) ∧
      ∀ theta', theta < theta' → theta' ≤ s.thetaS →
        ∃ k', kOfTheta s theta' = some k' ∧ k < k' := by
  have hd : 0 < s.thetaS - s.thetaR := sub_pos.mpr g.theta
  have hl := g.lam
  have hK := g.Ks
  have hp : 0 < 3 + 2 / s.lam := by positivity
  have hx : 0 ≤ (theta - s.thetaR) / (s.thetaS - s.thetaR) := div_nonneg (by linarith) hd.le
  refine ⟨_, kOfTheta_eq s g theta h, ?_, ?_, ?_, ?_, ?_⟩
  · exact mul_nonneg hK.le (le_min (Real.rpow_nonneg hx _) zero_le_one)
  · nlinarith [mul_le_mul_of_nonneg_left (min_le_right
      (((theta - s.thetaR) / (s.thetaS - s.thetaR)) ^ (3 + 2 / s.lam)) (1 : ℝ)) hK.le]
  · rw [mul_eq_zero_iff_left hK.ne']
    constructor
    · intro h0
      rcases min_choice (((theta - s.thetaR) / (s.thetaS - s.thetaR)) ^ (3 + 2 / s.lam)) (1 : ℝ)
        with e | e
      · rw [e, Real.rpow_eq_zero hx hp.ne'] at h0
        rcases div_eq_zero_iff.mp h0 with h1 | h1 <;> linarith
      · rw [e] at h0
        norm_num at h0
    · intro h0
      rw [h0, sub_self, zero_div, Real.zero_rpow hp.ne']
      simp
  · constructor
    · intro h0
      by_contra hc
      push Not at hc
      have hx1 : (theta - s.thetaR) / (s.thetaS - s.thetaR) < 1 := (div_lt_one hd).mpr (by linarith)
      have := Real.rpow_lt_one hx hx1 hp
      rw [min_eq_left this.le] at h0
      nlinarith
    · intro h0
      have hx1 : 1 ≤ (theta - s.thetaR) / (s.thetaS - s.thetaR) :=
        (one_le_div hd).mpr (by linarith)
      rw [min_eq_right (Real.one_le_rpow hx1 hp.le), mul_one]
  · intro theta' h1 h2
    refine ⟨_, kOfTheta_eq s g theta' (by linarith), ?_⟩
    have hlt : (theta - s.thetaR) / (s.thetaS - s.thetaR) <
        (theta' - s.thetaR) / (s.thetaS - s.thetaR) := by
      rw [div_lt_div_iff_of_pos_right hd]
      linarith
    have h3 : (theta' - s.thetaR) / (s.thetaS - s.thetaR) ≤ 1 := (div_le_one hd).mpr (by linarith)
    have h4 := Real.rpow_lt_rpow hx hlt hp
    have h5 := Real.rpow_le_one (by linarith) h3 hp.le
    rw [min_eq_left (by linarith), min_eq_left h5]
    exact mul_lt_mul_of_pos_left h4 hK

/-- For a rainfall rate below the saturated conductivity, `theta_max` is the content at which the
soil conducts just that rate. -/
theorem C212_limit_partial (s : Soil) (g : Good s) (he : s.eta = 2 + 3 * s.lam) (r0 : ℝ)
    (h0 : 0 ≤ r0) (h1 : r0 < s.Ks) :
    ∃ u, thetaMax s r0 = .ok (some u) ∧ s.thetaR ≤ u ∧ u < s.thetaS ∧
      kOfTheta s u = some r0 := by
  have hd : 0 < s.thetaS - s.thetaR := sub_pos.mpr g.theta
  have hl := g.lam
  have hK := g.Ks
  have heps : 0 < s.eta / s.lam := by rw [he]; positivity
  have hq0 : 0 ≤ r0 / s.Ks := div_nonneg h0 hK.le
  have hq1 : r0 / s.Ks < 1 := (div_lt_one hK).mpr h1
  have ha0 : 0 ≤ (r0 / s.Ks) ^ (1 / (s.eta / s.lam)) := Real.rpow_nonneg hq0 _
  have ha1 : (r0 / s.Ks) ^ (1 / (s.eta / s.lam)) < 1 := Real.rpow_lt_one hq0 hq1 (by positivity)
  refine ⟨s.thetaR + (s.thetaS - s.thetaR) * (r0 / s.Ks) ^ (1 / (s.eta / s.lam)), ?_, ?_, ?_, ?_⟩
  · unfold thetaMax
    rw [if_pos h1]
    dsimp only
    rw [npow_of_nonneg hq0 (by positivity)]
    rfl
  · nlinarith [mul_nonneg hd.le ha0]
  · nlinarith [mul_lt_mul_of_pos_left ha1 hd]
  · unfold kOfTheta
    dsimp only
    have e1 : (s.thetaR + (s.thetaS - s.thetaR) * (r0 / s.Ks) ^ (1 / (s.eta / s.lam)) - s.thetaR) /
        (s.thetaS - s.thetaR) = (r0 / s.Ks) ^ (1 / (s.eta / s.lam)) := by
      field_simp
      ring
    rw [e1, ← he, npow_of_nonneg ha0 heps.le, ← Real.rpow_mul hq0, one_div_mul_cancel heps.ne',
      Real.rpow_one]
    simp only [Option.map_some]
    rw [min_eq_left hq1.le, max_eq_left hq0]
    congr 1
    field_simp

/-- Rain at the saturated conductivity or above: `theta_max` fails. -/
theorem C212_limit_violated (s : Soil) (r0 : ℝ) (h : s.Ks ≤ r0) :
    thetaMax s r0 = .error "NameError" := by
  unfold thetaMax
  rw [if_neg (by linarith)]

/-- Below the residual content the conductivity is not a number, unless `3 + 2/lambda` is an
integer. -/
theorem C212_dry_violated (s : Soil) (g : Good s) (theta : ℝ) (h : theta < s.thetaR)
    (hn : ¬ ∃ n : ℤ, 3 + 2 / s.lam = n) : kOfTheta s theta = none := by
  have hd : 0 < s.thetaS - s.thetaR := sub_pos.mpr g.theta
  have hl := g.lam
  have he : (2 + 3 * s.lam) / s.lam = 3 + 2 / s.lam := by field_simp; ring
  have hx : (theta - s.thetaR) / (s.thetaS - s.thetaR) < 0 := div_neg_of_neg_of_pos (by linarith) hd
  unfold kOfTheta npow
  dsimp only
  rw [he, if_neg (by intro h0; linarith [h0.1]), if_pos ⟨hx, hn⟩]
  rfl

/-- With the sand of the table (`b = 4.05`) the exponent is 11.1. -/
example : ¬ ∃ n : ℤ, (3 : ℝ) + 2 / (1 / (405 / 100)) = n := by
  rintro ⟨n, h⟩
  have h2 : (111 : ℝ) = (10 * n : ℤ) := by push_cast; linarith
  have h3 : (111 : ℤ) = 10 * n := by exact_mod_cast h2
  omega

example : ∃ k, kOfTheta ⟨0.45, 0.05, -0.5, 0, 1, 1, 0.001, 5⟩ 0.25 = some k ∧ 0 < k := by
  have g : Good ⟨0.45, 0.05, -0.5, 0, 1, 1, 0.001, 5⟩ := by constructor <;> norm_num
  obtain ⟨k, h, h0, -, hz, -, -⟩ := C212_conductivity_partial _ g 0.25 (by norm_num)
  refine ⟨k, h, lt_of_le_of_ne h0 (fun e => ?_)⟩
  have := hz.mp e.symm
  norm_num at this

end SoilBase
