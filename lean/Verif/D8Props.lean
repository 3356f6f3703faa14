import Verif.D8Lemmas
import Mathlib.Data.Rat.Defs
import Mathlib.Algebra.Order.Ring.Rat
import Mathlib.Tactic.NormNum

/-! # D8 flow direction properties (C01, C04, C05) -/

set_option linter.unusedSectionVars false

namespace D8
open D8Spec

variable {ny nx : ℕ}

/-! ## C01: tie-breaking -/

/-- **C01.** For every set `S` of tied directions, the table entry for the sum of their codes
is the code of one of them; a single direction is returned unchanged, and `0` stays `0`. -/
theorem C01_resolve_picks_tied_direction :
    (∀ S : Finset (Fin 8), S.Nonempty → ∃ k ∈ S, resolve (∑ j ∈ S, 2 ^ j.val) = 2 ^ k.val) ∧
    (∀ k : Fin 8, resolve (2 ^ k.val) = 2 ^ k.val) ∧ resolve 0 = 0 := by
  refine ⟨?_, ?_, ?_⟩
  · intro S hS
    have hsum : (∑ j ∈ S, (2:ℤ) ^ j.val) = codeOf (fun k => decide (k ∈ S)) := by
      have : ∀ b : Fin 8 → Bool, codeOf b = ∑ j : Fin 8, (if b j then (2:ℤ) ^ j.val else 0) := by
        intro b; simp [Fin.sum_univ_eight, codeOf, codeList]
      rw [this]
      simp only [decide_eq_true_eq]
      rw [← Finset.sum_filter]
      congr 1
      ext k; simp
    obtain ⟨k0, hk0⟩ := hS
    obtain ⟨k, hk, hr⟩ := resolve_codeOf (fun k => decide (k ∈ S)) ⟨k0, by simpa using hk0⟩
    refine ⟨k, by simpa using hk, ?_⟩
    rw [hsum, hr, codeList_eq]
  · decide +kernel
  · decide +kernel

/-- **C01, rotation.** Turning a set of tied directions by a right angle turns the choice by a right angle, for every
set that is not its own opposite (a set that is cannot have this symmetry: two right angles would leave the set and
move the choice). -/
theorem C01_choice_turns_with_the_ties (b : Fin 8 → Bool) (hb : ∃ k, b (k + 4) ≠ b k) (k : Fin 8)
    (hk : resolve (∑ j, if b j then 2 ^ j.val else 0) = 2 ^ k.val) :
    resolve (∑ j, if b (j - 2) then 2 ^ j.val else 0) = 2 ^ (k + 2).val := by
  have e : ∀ b : Fin 8 → Bool, (∑ j : Fin 8, if b j then (2 : ℤ) ^ j.val else 0) = codeOf b := by
    intro b; simp [Fin.sum_univ_eight, codeOf, codeList]
  rw [e] at hk
  rw [e fun j => b (j - 2)]
  revert k hk
  revert b
  decide +kernel

/-- The helper that turns codes: one pass moves every direction of a byte to the next one. -/
theorem C01_cycle_turns (v : ℕ) (hv : v < 256) (k : Fin 8) : (cycle1 v).testBit (k + 1).val = v.testBit k.val := by
  revert v k
  decide +kernel

/-- Non-triviality: east, south and north-west tied (2 + 8 + 64 = 74): east is chosen. -/
example : resolve (2 + 8 + 64) = 2 := by decide +kernel

section
variable {K : Type*} [Field K] [LinearOrder K] [IsStrictOrderedRing K]

/-! ## C04: flow is downhill and acyclic -/

/-- Codes produced are `0` or a single direction code. -/
theorem C04_codes_valid {cfg : Config K} {fuel : ℕ} {z : Cell ny nx → K}
    {codes : Cell ny nx → ℤ} (hu : updateFlowGrid cfg fuel z = some codes) (c : Cell ny nx) :
    codes c = 0 ∨ ∃ k : Fin 8, codes c = 2 ^ k.val := by
  unfold updateFlowGrid at hu
  rw [Option.map_eq_some_iff] at hu
  obtain ⟨d, _, hc⟩ := hu
  rw [← hc]
  dsimp only
  by_cases h : ∃ k, d c = codeList k
  · obtain ⟨k, hk⟩ := h
    right; exact ⟨k, by rw [validCodeMap_codeList.2 hk, codeList_eq]⟩
  · push Not at h
    left; exact validCodeMap_eq_zero.2 h

/-- **C04a.** Along any flow path the elevation never increases. -/
theorem C04_never_uphill {cfg : Config K} (hpos : cfg.Pos) {fuel : ℕ} {z : Cell ny nx → K}
    {codes : Cell ny nx → ℤ} (hu : updateFlowGrid cfg fuel z = some codes)
    {c e : Cell ny nx} (h : Drains codes c e) : z e ≤ z c := by
  obtain ⟨rank, hr⟩ := flow_step hpos hu
  induction h with
  | refl => exact le_rfl
  | tail _ hstep ih =>
    rcases hr _ _ hstep with h | ⟨h, _⟩
    · exact h.le.trans ih
    · exact h.le.trans ih

/-- **C04b.** No flow path returns to its starting cell: for every DEM, every grid size, with
or without tie breaking, linking of flats and periodic boundaries. -/
theorem C04_acyclic {cfg : Config K} (hpos : cfg.Pos) {fuel : ℕ} {z : Cell ny nx → K}
    {codes : Cell ny nx → ℤ} (hu : updateFlowGrid cfg fuel z = some codes) :
    Acyclic codes := by
  obtain ⟨rank, hr⟩ := flow_step hpos hu
  have key : ∀ c e, Relation.TransGen (FlowsTo codes) c e →
      z e < z c ∨ (z e = z c ∧ rank e < rank c) := by
    intro c e h
    induction h with
    | single h => exact hr _ _ h
    | tail _ hstep ih =>
      rcases hr _ _ hstep with h1 | ⟨h1, h2⟩ <;> rcases ih with h3 | ⟨h3, h4⟩
      · exact Or.inl (h1.trans h3)
      · exact Or.inl (h3 ▸ h1)
      · exact Or.inl (h1 ▸ h3)
      · exact Or.inr ⟨h1.trans h3, h2.trans h4⟩
  intro c h
  rcases key c c h with h | ⟨_, h⟩
  · exact lt_irrefl _ h
  · exact lt_irrefl _ h

/-- On an acyclic grid of valid codes each path ends at a cell with code 0. -/
theorem drains_to_zero {codes : Cell ny nx → ℤ} (hac : Acyclic codes)
    (hv : ∀ c, codes c = 0 ∨ ∃ k : Fin 8, codes c = 2 ^ k.val) (c : Cell ny nx) :
    ∃ e, Drains codes c e ∧ codes e = 0 := by
  have wf : WellFounded (fun a b => Relation.TransGen (FlowsTo codes) b a) := by
    have : IsTrans (Cell ny nx) (fun a b => Relation.TransGen (FlowsTo codes) b a) :=
      ⟨fun _ _ _ h1 h2 => h2.trans h1⟩
    have : Std.Irrefl (fun a b : Cell ny nx => Relation.TransGen (FlowsTo codes) b a) :=
      ⟨fun a h => hac a h⟩
    exact Finite.wellFounded_of_trans_of_irrefl _
  induction c using wf.induction with
  | _ c ih =>
    rcases hv c with h | ⟨k, hk⟩
    · exact ⟨c, Relation.ReflTransGen.refl, h⟩
    · have hf : FlowsTo codes c (nbr k c) := ⟨k, hk, isNbr_nbr k c⟩
      obtain ⟨e, he, h0⟩ := ih _ (Relation.TransGen.single hf)
      exact ⟨e, Relation.ReflTransGen.head hf he, h0⟩

/-- **C04c.** Every flow path ends at a no-flow cell (code 0). -/
theorem C04_paths_end {cfg : Config K} (hpos : cfg.Pos) {fuel : ℕ} {z : Cell ny nx → K}
    {codes : Cell ny nx → ℤ} (hu : updateFlowGrid cfg fuel z = some codes) (c : Cell ny nx) :
    ∃ e, Drains codes c e ∧ codes e = 0 :=
  drains_to_zero (C04_acyclic hpos hu) (C04_codes_valid hu) c

/-- linking does not touch cells whose code is already assigned (or zero). -/
theorem linkLoop_preserves {fuel : ℕ} {d d' : Cell ny nx → ℤ} (h : linkLoop fuel d = some d')
    (c : Cell ny nx) (hc : 0 ≤ d c) : d' c = d c := by
  refine linkLoop_induct (P := fun x => x c = d c) ?_ fuel d d' rfl h
  intro x hx
  rw [linkPass_of_not_flat (by omega)]; exact hx

/-- **C04d (steepest descent).** With tie breaking on, a data cell away from the (non-periodic)
borders with at least one lower neighbour flows to a neighbour `k` of steepest descent: the
drop per distance towards `k` is positive and at least that towards any other neighbour. -/
theorem C04_steepest_descent {cfg : Config K} (hpos : cfg.Pos) {fuel : ℕ} {z : Cell ny nx → K}
    {codes : Cell ny nx → ℤ} (hu : updateFlowGrid cfg fuel z = some codes)
    (hb : cfg.breakTies = true) (c : Cell ny nx) (hdata : cfg.nodata < z c)
    (hnb : ¬ OnBorder c) (hlow : ∃ k e, IsNbr k c e ∧ z e < z c) :
    ∃ k e, codes c = 2 ^ k.val ∧ IsNbr k c e ∧ z e < z c ∧
      ∀ k' e', IsNbr k' c e' →
        (z c - z e') / cfg.dist k' ≤ (z c - z e) / cfg.dist k := by
  obtain ⟨d, rank, N, hinv, hc, hl1, hl2⟩ := updateFlowGrid_inv hpos hu
  obtain ⟨k1, e1, hn1, hz1⟩ := hlow
  rw [isNbr_iff] at hn1
  subst hn1
  have hmax : 0 < maxSlope (slope cfg z c) :=
    lt_of_lt_of_le ((slope_pos hpos).2 hz1) (le_maxSlope _ k1)
  have hLR : onLR c = false := by
    unfold OnBorder at hnb
    simp only [onLR, decide_eq_false_iff_not]
    have := c.2.isLt
    omega
  have hTB : onTB c = false := by
    unfold OnBorder at hnb
    simp only [onTB, decide_eq_false_iff_not]
    have := c.1.isLt
    omega
  have hstart : startCode cfg z c = steepSum (slope cfg z c) := by
    unfold startCode
    dsimp only
    simp [hmax.not_ge, hmax.ne', hmax.not_gt, hLR, hTB, hdata.not_ge]
  obtain ⟨k0, hk0⟩ := exists_maxSlope (slope cfg z c)
  obtain ⟨k, hk, hr⟩ := resolve_codeOf
    (fun k => decide (slope cfg z c k = maxSlope (slope cfg z c))) ⟨k0, by simpa using hk0⟩
  rw [← steepSum_eq] at hr
  simp only [decide_eq_true_eq] at hk
  have hpos' : 0 < steepSum (slope cfg z c) := by
    rw [steepSum_eq, codeOf_pos]; exact ⟨k0, by simpa using hk0⟩
  have hbt : breakTies (startCode cfg z) c = codeList k := by
    simp only [breakTies, hstart]
    rw [if_pos hpos', hr]
  have hdc : d c = codeList k := by
    by_cases hl : cfg.linkFlats = true
    · have := hl1 hl
      simp only [hb, if_true] at this
      rw [linkLoop_preserves this c (by rw [hbt]; exact (codeList_pos k).le), hbt]
    · have := hl2 (by simpa using hl)
      simp only [hb, if_true] at this
      rw [this, hbt]
  refine ⟨k, nbr k c, ?_, isNbr_nbr k c, ?_, ?_⟩
  · rw [hc, hdc, validCodeMap_codeList.2 rfl, codeList_eq]
  · rw [← slope_pos hpos, hk]; exact hmax
  · intro k' e' hn'
    rw [isNbr_iff] at hn'
    subst hn'
    have := le_maxSlope (slope cfg z c) k'
    rw [← hk] at this
    exact this

/-! ## C05: linking of flats -/

/-- **C05a.** The `link_flats` loop stops on every grid, after at most one pass more than the
number of undirected flat cells. -/
theorem C05_link_flats_terminates (d : Cell ny nx → ℤ) :
    ∃ d', linkLoop (nFlats d + 1) d = some d' :=
  Option.isSome_iff_exists.1 (linkLoop_isSome _ d (Nat.lt_succ_self _))

/-- The result does not depend on the iteration budget. -/
theorem C05_fuel_irrelevant {f f' : ℕ} {d d1 d2 : Cell ny nx → ℤ}
    (h1 : linkLoop f d = some d1) (h2 : linkLoop f' d = some d2) : d1 = d2 := by
  induction f generalizing f' d with
  | zero => simp [linkLoop] at h1
  | succ n ih =>
    cases f' with
    | zero => simp [linkLoop] at h2
    | succ m =>
      unfold linkLoop at h1 h2
      split_ifs at h1 h2 with h3 h4
      · simp_all
      · simp_all
      · exact ih h1 h2

/-- **C05a'.** The whole flow-grid update terminates on every DEM within `ny*nx + 1` passes. -/
theorem C05_update_flow_grid_terminates (cfg : Config K) (z : Cell ny nx → K) :
    ∃ codes, updateFlowGrid cfg (ny * nx + 1) z = some codes := by
  unfold updateFlowGrid
  dsimp only
  by_cases hl : cfg.linkFlats = true
  · have : nFlats (if cfg.breakTies then breakTies (startCode cfg z) else startCode cfg z)
        < ny * nx + 1 := by
      unfold nFlats
      refine Nat.lt_succ_of_le ((Finset.card_le_univ _).trans ?_)
      simp
    obtain ⟨d', hd⟩ := Option.isSome_iff_exists.1 (linkLoop_isSome _ _ this)
    simp [hl, hd]
  · simp [hl]

/-- **C05b.** Linking never changes a flow code that was already assigned. -/
theorem C05_link_flats_preserves {fuel : ℕ} {d d' : Cell ny nx → ℤ}
    (h : linkLoop fuel d = some d') (c : Cell ny nx) (hc : 0 ≤ d c) : d' c = d c :=
  linkLoop_preserves h c hc

/-- **C05b'.** Linking never changes the code of a border cell, also with periodic boundaries, where border cells may be
flat. -/
theorem C05_border_not_linked {fuel : ℕ} {d d' : Cell ny nx → ℤ}
    (h : linkLoop fuel d = some d') (c : Cell ny nx) (hc : OnBorder c) : d' c = d c := by
  have hne : notEdge c = false := by
    unfold OnBorder at hc
    simp only [notEdge, Bool.not_eq_false', Bool.or_eq_true, onLR, onTB, decide_eq_true_eq]
    omega
  have := linkLoop_induct (P := fun x => x c = d c)
    (by
      intro x hx
      have hf : fixable x c = false := by simp [fixable, isFlat, hne]
      simpa [linkPass, hf] using hx) fuel _ d' rfl h
  exact this

/-- **C05c.** After the update no undirected interior flat cell (data cell with no lower
neighbour but a level one) has a neighbour of the same elevation that has a flow direction. -/
theorem C05_no_linkable_flat_remains {cfg : Config K} (hpos : cfg.Pos) {fuel : ℕ}
    {z : Cell ny nx → K} {codes : Cell ny nx → ℤ}
    (hu : updateFlowGrid cfg fuel z = some codes)
    (hl : cfg.linkFlats = true)
    (c : Cell ny nx) (hnb : ¬ OnBorder c) (hdata : cfg.nodata < z c) (h0 : codes c = 0)
    (hnolow : ∀ k e, IsNbr k c e → z c ≤ z e)
    (hties : cfg.breakTies = true)
    {k : Fin 8} {e : Cell ny nx} (hke : IsNbr k c e) (hz : z e = z c) : codes e = 0 := by
  obtain ⟨d, rank, N, hinv, hc, hl1, _⟩ := updateFlowGrid_inv hpos hu
  have hl1 := hl1 hl
  simp only [hties, if_true] at hl1
  rw [isNbr_iff] at hke
  subst hke
  by_contra hne
  -- the neighbour's code is positive
  have hdk : ∃ j, d (nbr k c) = codeList j := by
    by_contra hx
    push Not at hx
    exact hne (by rw [hc]; exact validCodeMap_eq_zero.2 hx)
  obtain ⟨j, hj⟩ := hdk
  have hmax0 : maxSlope (slope cfg z c) = 0 := by
    apply le_antisymm
    · obtain ⟨k0, hk0⟩ := exists_maxSlope (slope cfg z c)
      rw [← hk0]
      by_contra hx
      push Not at hx
      rw [slope_pos hpos] at hx
      exact absurd (hnolow k0 _ (isNbr_nbr k0 c)) (not_le.2 hx)
    · have := le_maxSlope (slope cfg z c) k
      rwa [(slope_zero hpos).2 hz] at this
  have hLR : onLR c = false := by
    unfold OnBorder at hnb
    simp only [onLR, decide_eq_false_iff_not]
    have := c.2.isLt
    omega
  have hTB : onTB c = false := by
    unfold OnBorder at hnb
    simp only [onTB, decide_eq_false_iff_not]
    have := c.1.isLt
    omega
  have hstart : startCode cfg z c = - steepSum (slope cfg z c) := by
    unfold startCode
    dsimp only
    simp [hmax0, hLR, hTB, hdata.not_ge, hl]
  have hspos : 0 < steepSum (slope cfg z c) := by
    rw [steepSum_eq, codeOf_pos]
    exact ⟨k, by simp [hmax0, (slope_zero hpos).2 hz]⟩
  have hsb := (codeOf_bounds (fun k => decide (slope cfg z c k = maxSlope (slope cfg z c)))).2
  rw [← steepSum_eq] at hsb
  have hbt : breakTies (startCode cfg z) c = startCode cfg z c := by
    simp only [breakTies]
    rw [if_neg (by omega)]
  -- a cell keeps its (negative) code until it gets a single code
  have hdc : d c = startCode cfg z c := by
    have := linkLoop_induct (P := fun x => x c = startCode cfg z c ∨ ∃ k, x c = codeList k)
      (by
        intro x hx
        by_cases hf : fixable x c = true
        · obtain ⟨k', hk', _⟩ := fixable_spec hf
          exact Or.inr ⟨k', hk'⟩
        · simpa [linkPass, hf] using hx) fuel _ d (Or.inl hbt) hl1
    rcases this with h | ⟨k', hk'⟩
    · exact h
    · exfalso
      have h1 := hc c
      rw [h0, validCodeMap_codeList.2 hk'] at h1
      have := codeList_pos k'
      omega
  have hneg : d c < 0 := by omega
  have hn300 : d c ≠ -300 := by omega
  have hnf := linkLoop_exit _ _ _ hl1 c
  have hflat : isFlat d c = true := by
    simp only [isFlat, decide_eq_true_eq]
    refine ⟨hneg, hn300, ?_⟩
    simp [notEdge, hLR, hTB]
  obtain ⟨b, hb, hbk⟩ := hinv.flat c hneg hn300
  have hnready : ¬ readyCode d c > 0 := by
    intro hr
    simp [fixable, hflat, hr] at hnf
  apply hnready
  rw [readyCode_eq, gt_iff_lt, codeOf_pos]
  refine ⟨k, ?_⟩
  rw [Bool.and_eq_true]
  constructor
  · simp only [valid, decide_eq_true_eq]
    refine ⟨by rw [hj]; exact codeList_pos j, ?_⟩
    intro hback
    rw [codeOpps_eq] at hback
    rcases hinv.flow _ _ hback with h | ⟨_, _, h⟩
    · rw [nbr_opp, hz] at h; exact lt_irrefl _ h
    · rw [nbr_opp] at h; omega
  · rw [hb, neg_one_mul, neg_neg, allowed_codeOf]
    exact (hbk k).2 hz

end

/-! ### Witnesses and a negative result -/

/-- A 4×5 test DEM: a valley with a plateau. -/
def demoDEM : Cell 4 5 → ℚ := fun c =>
  (![![9, 9, 9, 9, 9], ![9, 5, 5, 5, 4], ![9, 5, 5, 6, 9], ![9, 9, 9, 9, 9]] c.1) c.2

def demoCfg : Config ℚ :=
  { dx := 1, dy := 1, dd := 3/2, nodata := -9999, linkFlats := true, breakTies := true,
    lrPeriodic := false, tbPeriodic := false }

/-- The configuration meets the hypothesis of the theorems above. -/
theorem demoCfg_pos : demoCfg.Pos := ⟨by norm_num [demoCfg], by norm_num [demoCfg], by norm_num [demoCfg]⟩

/-- The plateau cells (1,1), (1,2), (2,1), (2,2) are linked towards (1,3), which drains to the
border cell (1,4); (2,3) flows down. -/
example : ∃ codes, updateFlowGrid demoCfg 21 demoDEM = some codes ∧
    codes (1, 3) = 2 ∧ codes (1, 2) = 2 ∧ codes (1, 1) = 2 ∧ codes (2, 2) = 1 ∧
    codes (2, 1) = 2 ∧ codes (0, 0) = 0 := by
  obtain ⟨codes, h⟩ := C05_update_flow_grid_terminates demoCfg demoDEM
  refine ⟨codes, h, ?_⟩
  have key : ((updateFlowGrid demoCfg 21 demoDEM).map fun f =>
      (f (1, 3), f (1, 2), f (1, 1), f (2, 2), f (2, 1), f (0, 0))) =
      some (2, 2, 2, 1, 2, 0) := by decide +kernel
  rw [h] at key
  simpa using key

/-- The flat 3×3 DEM. -/
def flatDEM : Cell 3 3 → ℚ := fun _ => 1

/-- **C05 (negative part).** A flat that drains only over the (non-periodic) border is *not*
resolved: border codes are set to 0 before flats are linked, and a link needs a neighbour with
a positive code.  On the level 3×3 DEM the interior cell stays undirected although all its
neighbours are border cells of the same elevation (so water could leave the DEM). -/
theorem C05_flat_at_border_unresolved :
    ∃ codes, updateFlowGrid demoCfg 10 flatDEM = some codes ∧ codes (1, 1) = 0 := by
  obtain ⟨codes, h⟩ := C05_update_flow_grid_terminates demoCfg flatDEM
  refine ⟨codes, h, ?_⟩
  have key : ((updateFlowGrid demoCfg 10 flatDEM).map fun f => f (1, 1)) = some 0 := by
    decide +kernel
  rw [h] at key
  simpa using key

end D8
