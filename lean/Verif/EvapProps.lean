import Verif.EvapModel
import Verif.ChannelStateProps

/-!
# C47 (evaporation in the report), C49 (evaporation rates are not negative)
-/

set_option autoImplicit false
set_option linter.unusedSectionVars false

noncomputable section

open scoped BigOperators
open D8 (Cell)

namespace EvapSpec

open Chan

variable {ny nx : ℕ}

/-- The evaporation demand of one channel step is not covered by the water in the cell. -/
def Short (p : Params ny nx) (pot : Cell ny nx → ℝ) (c : Cell ny nx) (cs : St ny nx) : Prop :=
  cs.vol c < pot c * p.da c * p.dt

end EvapSpec

namespace Evap

open Chan EvapSpec

variable {ny nx : ℕ}

/-! ## C49 -/

/-- **C49**: both methods give non-negative rates for all inputs, also for negative energy fluxes. -/
theorem C49_rates_nonneg (alpha tAir qnSW qnLW qc qSum qe : ℝ) :
    0 ≤ ptRate alpha tAir qnSW qnLW qc ∧ 0 ≤ ebRate qSum qe qc :=
  ⟨le_max_right _ _, le_max_right _ _⟩

/-- **C49**: when energy is available, evaporating water at the computed rate for any time uses
exactly the available energy (latent heat 2.5e9 J per cubic metre). -/
theorem C49_energy_balance (qSum qe qc : ℝ) (h : 0 ≤ qSum - qe + qc) :
    ebRate qSum qe qc * 2.5e9 = qSum - qe + qc := by
  have : (0:ℝ) ≤ (qSum - qe + qc) / 2.5e9 := div_nonneg h (by norm_num)
  simp only [ebRate, max_eq_left this]
  norm_num

/-- The Priestley-Taylor rate increases with the net energy, for air temperatures above -36 degrees
and a non-negative coefficient. -/
theorem C49_pt_monotone {alpha tAir a b qc : ℝ} (ha : 0 ≤ alpha) (ht : -36 ≤ tAir) (h : a ≤ b) :
    ptRate alpha tAir a 0 qc ≤ ptRate alpha tAir b 0 qc := by
  unfold ptRate
  refine max_le_max ?_ (le_refl _)
  have h1 : 0 ≤ alpha * (0.406 + 0.011 * tAir) := mul_nonneg ha (by norm_num; linarith)
  have h2 : alpha * (0.406 + 0.011 * tAir) * (a + 0 + qc) ≤
      alpha * (0.406 + 0.011 * tAir) * (b + 0 + qc) := mul_le_mul_of_nonneg_left (by linarith) h1
  exact div_le_div_of_nonneg_right h2 (by norm_num)

/-! ## C47 -/

/-- Number of channel steps, from the start of `css`, in which the evaporation demand of the cell is
covered, up to the first in which it is not. -/
def takenSteps (p : Params ny nx) (pot : Cell ny nx → ℝ) (c : Cell ny nx) : List (St ny nx) → ℕ
  | [] => 0
  | cs :: l =>
    open Classical in if Short p pot c cs then 0 else takenSteps p pot c l + 1

/-- Water taken from a cell whose entry in the shared grid is `e`. -/
def cellTaken (p : Params ny nx) (c : Cell ny nx) : List (St ny nx) → ℝ → ℝ
  | [], _ => 0
  | cs :: l, e =>
    let e' := if cs.vol c < e * p.da c * p.dt then 0 else e
    e' * p.da c * p.dt + cellTaken p c l e'

theorem cellTaken_zero (p : Params ny nx) (c : Cell ny nx) (l : List (St ny nx)) :
    cellTaken p c l 0 = 0 := by
  induction l with
  | nil => rfl
  | cons cs l ih => simp [cellTaken, ih]

theorem cellTaken_eq (p : Params ny nx) (c : Cell ny nx) (pot : Cell ny nx → ℝ)
    (l : List (St ny nx)) :
    cellTaken p c l (pot c) = pot c * p.da c * (takenSteps p pot c l * p.dt) := by
  induction l with
  | nil => simp [cellTaken, takenSteps]
  | cons cs l ih =>
    unfold cellTaken takenSteps Short
    by_cases h : cs.vol c < pot c * p.da c * p.dt
    · simp [h, cellTaken_zero]
    · simp only [h, if_false, ih]
      push_cast
      ring

theorem fold_removed (p : Params ny nx) (inp : Inp ny nx) (css : List (St ny nx)) (s : ESt ny nx) :
    (css.foldl (fun s cs => chanUses p inp cs s) s).removed =
      s.removed + ∑ c, cellTaken p c css (s.ET c) := by
  induction css generalizing s with
  | nil => simp [cellTaken]
  | cons cs l ih =>
    rw [List.foldl_cons, ih]
    simp only [cellTaken]
    rw [Finset.sum_add_distrib, ← add_assoc]
    rfl

theorem fold_volET (p : Params ny nx) (inp : Inp ny nx) (css : List (St ny nx)) (s : ESt ny nx) :
    (css.foldl (fun s cs => chanUses p inp cs s) s).volET = s.volET := by
  induction css generalizing s with
  | nil => rfl
  | cons cs l ih => rw [List.foldl_cons, ih]; rfl

/-- What the evaporation component adds to its total and what the channels lose, over one
evaporation step of `css.length` channel steps: the total counts the potential rate for all steps,
the channels lose it only up to the first step in which the water did not suffice. -/
theorem C47_reported_and_removed (p : Params ny nx) (inp : Inp ny nx) (pot : Cell ny nx → ℝ)
    (css : List (St ny nx)) (s : ESt ny nx) :
    (coupled p inp (css.length * p.dt) pot css s).volET =
      s.volET + ∑ c, pot c * p.da c * (css.length * p.dt) ∧
    (coupled p inp (css.length * p.dt) pot css s).removed =
      s.removed + ∑ c, pot c * p.da c * (takenSteps p pot c css * p.dt) := by
  constructor
  · unfold coupled
    rw [fold_volET]
    rfl
  · unfold coupled
    rw [fold_removed]
    have : (evapUpdate p.da (css.length * p.dt) pot s).ET = pot := rfl
    rw [this, Finset.sum_congr rfl (fun c _ => cellTaken_eq p c pot css)]
    rfl

theorem takenSteps_le (p : Params ny nx) (pot : Cell ny nx → ℝ) (c : Cell ny nx)
    (l : List (St ny nx)) : takenSteps p pot c l ≤ l.length := by
  induction l with
  | nil => exact le_refl _
  | cons cs l ih =>
    unfold takenSteps
    split_ifs
    · exact Nat.zero_le _
    · simpa using ih

theorem takenSteps_eq_length_iff (p : Params ny nx) (pot : Cell ny nx → ℝ) (c : Cell ny nx)
    (l : List (St ny nx)) : takenSteps p pot c l = l.length ↔ ∀ cs ∈ l, ¬ Short p pot c cs := by
  induction l with
  | nil => simp [takenSteps]
  | cons cs l ih =>
    unfold takenSteps
    split_ifs with h
    · simp [h]
    · simp [h, ih]

/-- **C47** holds exactly when the demand is covered everywhere: for non-negative rates, the reported
evaporation is at least the evaporation removed from the channels, and they agree if and only if in
no channel step a cell with positive demand has too little water. -/
theorem C47_agree_iff {p : Params ny nx} (hp : ChanSpec.Physical p) (inp : Inp ny nx)
    {pot : Cell ny nx → ℝ} (hpot : ∀ c, 0 ≤ pot c) (css : List (St ny nx)) (s s' : ESt ny nx)
    (hs : s' = coupled p inp (css.length * p.dt) pot css s) :
    s'.removed - s.removed ≤ s'.volET - s.volET ∧
    (s'.volET - s.volET = s'.removed - s.removed ↔
      ∀ c, 0 < pot c → ∀ cs ∈ css, ¬ Short p pot c cs) := by
  obtain ⟨h1, h2⟩ := C47_reported_and_removed p inp pot css s
  rw [← hs] at h1 h2
  have hdiff : (s'.volET - s.volET) - (s'.removed - s.removed) =
      ∑ c, pot c * p.da c * ((css.length - takenSteps p pot c css : ℝ) * p.dt) := by
    rw [h1, h2, add_sub_cancel_left, add_sub_cancel_left, ← Finset.sum_sub_distrib]
    refine Finset.sum_congr rfl (fun c _ => ?_)
    ring
  have hterm : ∀ c ∈ Finset.univ,
      0 ≤ pot c * p.da c * ((css.length - takenSteps p pot c css : ℝ) * p.dt) := by
    intro c _
    have h3 : (takenSteps p pot c css : ℝ) ≤ css.length := by
      exact_mod_cast takenSteps_le p pot c css
    exact mul_nonneg (mul_nonneg (hpot c) (hp.da c).le) (mul_nonneg (by linarith) hp.dt.le)
  refine ⟨by linarith [Finset.sum_nonneg hterm], ?_⟩
  rw [← sub_eq_zero, hdiff, Finset.sum_eq_zero_iff_of_nonneg hterm]
  constructor
  · intro h c hc
    have h4 := h c (Finset.mem_univ c)
    rw [← takenSteps_eq_length_iff]
    have h5 : (css.length - takenSteps p pot c css : ℝ) = 0 := by
      rcases mul_eq_zero.1 h4 with h6 | h6
      · rcases mul_eq_zero.1 h6 with h7 | h7
        · exact absurd h7 hc.ne'
        · exact absurd h7 (hp.da c).ne'
      · rcases mul_eq_zero.1 h6 with h7 | h7
        · exact h7
        · exact absurd h7 hp.dt.ne'
    have : (takenSteps p pot c css : ℝ) = css.length := by linarith
    exact_mod_cast this
  · intro h c _
    rcases (hpot c).eq_or_lt with h0 | h0
    · rw [← h0]; ring
    · rw [(takenSteps_eq_length_iff p pot c css).2 (h c h0)]; ring

/-- **C47 is violated**: on a dry domain of any size, any positive evaporation demand is reported in
full although nothing is removed. -/
theorem C47_violated {p : Params ny nx} (hp : ChanSpec.Physical p) (inp : Inp ny nx)
    {pot : Cell ny nx → ℝ} (hpot : ∀ c, 0 < pot c) (c0 : Cell ny nx) :
    let s0 : ESt ny nx := { ET := fun _ => 0, volET := 0, removed := 0 }
    let s' := coupled p inp p.dt pot [initSt p (fun _ => 0)] s0
    s'.removed = 0 ∧ 0 < s'.volET := by
  intro s0 s'
  have h := C47_reported_and_removed p inp pot [initSt p (fun _ => 0)] s0
  simp only [List.length_singleton, Nat.cast_one, one_mul] at h
  have hshort : ∀ c, Short p pot c (initSt p (fun _ => 0)) := by
    intro c
    have h1 := hpot c
    have h2 := hp.da c
    have h3 := hp.dt
    have : (initSt p (fun _ => 0)).vol c = 0 := by simp [initSt, wetArea]
    unfold Short
    rw [this]
    positivity
  constructor
  · refine h.2.trans ?_
    simp [takenSteps, hshort, s0]
  · refine lt_of_lt_of_eq ?_ h.1.symm
    have : 0 < ∑ c, pot c * p.da c * p.dt :=
      Finset.sum_pos (fun c _ => mul_pos (mul_pos (hpot c) (hp.da c)) hp.dt) ⟨c0, Finset.mem_univ _⟩
    simpa [s0] using this

/-- A single evaporation rate (not a grid) is ignored altogether by the channels. -/
theorem C47_scalar_rate_ignored (p : Params ny nx) (inp : Inp ny nx) (e : ℝ)
    (he : inp.ET = .inl e) (s : St ny nx) (c : Cell ny nx) : actualET p inp s c = 0 := by
  simp [actualET, he]

end Evap
