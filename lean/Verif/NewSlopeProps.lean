import Verif.NewSlopeModel
import Verif.D8GeomProps
import Mathlib.Algebra.BigOperators.Fin
import Mathlib.Algebra.Order.BigOperators.Ring.Finset

/-!
# Slopes of flats, simple slopes and smoothing (C160–C164)
-/

set_option autoImplicit false
set_option linter.unusedSectionVars false

namespace NewSlope
open D8 D8Geom D8Spec

variable {K : Type*} [Field K] [LinearOrder K] [IsStrictOrderedRing K]
variable {ny nx : ℕ} {hy : 0 < ny} {hx : 0 < nx}

/-! ## The loop -/

section
variable {par : Cell ny nx → Cell ny nx} {d : Cell ny nx → ℤ} {z ds : Cell ny nx → K} {nodata : K}

/-- The variables after `k` passes. -/
def after (par : Cell ny nx → Cell ny nx) (d : Cell ny nx → ℤ) (z ds : Cell ny nx → K) (nodata : K)
    (k : ℕ) : St K ny nx := (pass par d z ds nodata)^[k] (init par ds)

theorem after_succ (k : ℕ) : after par d z ds nodata (k + 1) =
    pass par d z ds nodata (after par d z ds nodata k) := Function.iterate_succ_apply' _ _ _

theorem after_p (k : ℕ) (c : Cell ny nx) : (after par d z ds nodata k).p c = par^[k + 1] c := by
  induction k with
  | zero => rfl
  | succ k ih => rw [after_succ, Function.iterate_succ_apply', ← ih]; rfl

theorem after_dist (k : ℕ) (c : Cell ny nx) :
    (after par d z ds nodata k).dist c = ∑ i ∈ Finset.range (k + 1), ds (par^[i] c) := by
  induction k with
  | zero => simp [after, init]
  | succ k ih =>
    rw [after_succ, Finset.sum_range_succ, ← ih,
      ← after_p (par := par) (d := d) (z := z) (ds := ds) (nodata := nodata)]
    rfl

theorem after_reps (k : ℕ) : (after par d z ds nodata k).reps = k := by
  induction k with
  | zero => rfl
  | succ k ih => rw [after_succ]; simp [pass, ih]

/-- The cell reached after `j` steps is taken for a lower one. -/
def Lower (par : Cell ny nx → Cell ny nx) (d : Cell ny nx → ℤ) (z : Cell ny nx → K) (nodata : K)
    (c : Cell ny nx) (j : ℕ) : Prop := d c ≠ 0 ∧ nodata < z (par^[j] c) ∧ z (par^[j] c) < z c

theorem drop_pos_iff (k : ℕ) (c : Cell ny nx) :
    0 < drop d z nodata (after par d z ds nodata k) c ↔ Lower par d z nodata c (k + 1) := by
  unfold drop Lower
  rw [after_p]
  split_ifs with h
  · simp only [lt_self_iff_false, false_iff, not_and_or, not_lt]
    rcases h with h | h
    · exact Or.inr (Or.inl h)
    · exact Or.inl (by simp [h])
  · push Not at h
    rw [sub_pos]
    exact ⟨fun h' => ⟨h.2, h.1, h'⟩, fun h' => h'.2.2⟩

theorem len_pos (hds : ∀ c, 0 < ds c) {j : ℕ} (hj : 1 ≤ j) (c : Cell ny nx) :
    0 < ∑ i ∈ Finset.range j, ds (par^[i] c) :=
  Finset.sum_pos (fun _ _ => hds _) ⟨0, Finset.mem_range.2 hj⟩

/-- The slopes after `k` passes: drop over distance to the first lower cell within `k` steps. -/
theorem after_slope (hds : ∀ c, 0 < ds c) (k : ℕ) (c : Cell ny nx) :
    ((∀ j, 1 ≤ j → j ≤ k → ¬ Lower par d z nodata c j) → (after par d z ds nodata k).slope c = 0) ∧
    (∀ j, 1 ≤ j → j ≤ k → Lower par d z nodata c j → (∀ i, 1 ≤ i → i < j → ¬ Lower par d z nodata c i) →
      (after par d z ds nodata k).slope c =
        (z c - z (par^[j] c)) / ∑ i ∈ Finset.range j, ds (par^[i] c)) := by
  induction k with
  | zero => exact ⟨fun _ => rfl, fun j h1 h2 => by omega⟩
  | succ k ih =>
    have hs : (after par d z ds nodata (k + 1)).slope c =
        if good d z nodata (after par d z ds nodata k) c then
          drop d z nodata (after par d z ds nodata k) c / (after par d z ds nodata k).dist c
        else (after par d z ds nodata k).slope c := by rw [after_succ]; rfl
    rw [hs]
    constructor
    · intro h
      have h0 := ih.1 fun j h1 h2 => h j h1 (by omega)
      have hn := h (k + 1) (by omega) le_rfl
      rw [← drop_pos_iff (ds := ds)] at hn
      rw [if_neg (by simp [good, hn]), h0]
    · intro j h1 h2 hl hf
      rcases Nat.lt_or_ge k j with hkj | hkj
      · obtain rfl : j = k + 1 := by omega
        have h0 := ih.1 fun i h3 h4 => hf i h3 (by omega)
        have hp := (drop_pos_iff (ds := ds) k c).2 hl
        rw [if_pos (by simp [good, h0, hp]), after_dist]
        congr 1
        unfold drop
        rw [if_neg, after_p]
        rw [after_p]
        push Not
        exact ⟨hl.2.1, hl.1⟩
      · have h0 := ih.2 j h1 hkj hl hf
        have hne : (after par d z ds nodata k).slope c ≠ 0 := by
          rw [h0]
          exact (div_pos (sub_pos.2 hl.2.2) (len_pos hds h1 c)).ne'
        rw [if_neg (by simp [good, hne]), h0]

/-- The loop runs at least once and at most `4 nx + 1` times; it ends earlier only when every slope was
assigned in the last pass, or when the next cells would all be the upper left one. -/
theorem loop_eq (k : ℕ) (hk : k ≤ 4 * nx) : ∃ N, k < N ∧ N ≤ 4 * nx + 1 ∧
    loop par d z ds nodata (after par d z ds nodata k) = after par d z ds nodata N ∧
    (N = 4 * nx + 1 ∨ (∀ c, good d z nodata (after par d z ds nodata (N - 1)) c = true) ∨
      (∀ c, par^[N + 1] c = corner hy hx)) := by
  induction hm : 4 * nx - k generalizing k with
  | zero =>
    have hk' : k = 4 * nx := by omega
    refine ⟨k + 1, by omega, by omega, ?_, Or.inl (by omega)⟩
    unfold loop
    rw [dif_pos, after_succ]
    simp [done, pass, after_reps, hk']
  | succ m ih =>
    unfold loop
    split_ifs with h
    · refine ⟨k + 1, by omega, by omega, (after_succ k).symm, ?_⟩
      simp only [done, Bool.or_eq_true, decide_eq_true_eq, List.all_eq_true] at h
      rcases h with (h | h) | h
      · right; left
        intro c
        exact h c (mem_allCells c)
      · right; right
        intro c
        have h2 := h c (mem_allCells c)
        rw [← after_succ, after_p] at h2
        have h3 : (par^[k + 1 + 1] c).1.val = 0 := by
          by_contra h3
          have : 1 * 1 ≤ (par^[k + 1 + 1] c).1.val * nx := Nat.mul_le_mul (by omega) hx
          omega
        exact Prod.ext (Fin.ext h3) (Fin.ext (by simp only [corner]; omega))
      · exfalso
        simp only [pass, after_reps] at h
        omega
    · rw [← after_succ]
      obtain ⟨N, h1, h2, h3, h4⟩ := ih (k + 1) (by omega) (by omega)
      exact ⟨N, by omega, h2, h3, h4⟩

end

/-! ## Parents -/

section
variable {cfg : Config K} {fuel : ℕ} {z : Cell ny nx → K} {codes : Cell ny nx → ℤ}

theorem cellOfID_zero : cellOfID (ny := ny) (nx := nx) 0 = some (corner hy hx) := by
  have := cellOfID_flat (ny := ny) (nx := nx) (corner hy hx)
  simpa [corner] using this

theorem parent_flows (hu : updateFlowGrid cfg fuel z = some codes) {c e : Cell ny nx}
    (h : FlowsTo codes c e) : parent hy hx cfg.lrPeriodic cfg.tbPeriodic codes c = e := by
  unfold parent
  rw [(C03_parent_is_downstream_neighbour hu c).1 e h, cellOfID_flat]
  rfl

theorem parent_noflow (hu : updateFlowGrid cfg fuel z = some codes) {c : Cell ny nx}
    (h : codes c = 0) : parent hy hx cfg.lrPeriodic cfg.tbPeriodic codes c = corner hy hx := by
  unfold parent
  rw [(C03_parent_is_downstream_neighbour hu c).2 h, cellOfID_zero (hy := hy) (hx := hx)]
  rfl

theorem parent_path (hu : updateFlowGrid cfg fuel z = some codes) {path : ℕ → Cell ny nx} {n : ℕ}
    (hp : ∀ i < n, FlowsTo codes (path i) (path (i + 1))) : ∀ i ≤ n,
    (parent hy hx cfg.lrPeriodic cfg.tbPeriodic codes)^[i] (path 0) = path i := by
  intro i
  induction i with
  | zero => intro _; rfl
  | succ i ih =>
    intro hi
    rw [Function.iterate_succ_apply', ih (by omega), parent_flows hu (hp i (by omega))]

/-- If all paths are at the upper left cell, this cell has no flow direction. -/
theorem corner_stays (hpos : cfg.Pos) (hu : updateFlowGrid cfg fuel z = some codes) {m : ℕ}
    (h : ∀ c, (parent hy hx cfg.lrPeriodic cfg.tbPeriodic codes)^[m] c = corner hy hx) :
    codes (corner hy hx) = 0 := by
  by_contra h0
  rcases C04_codes_valid hu (corner hy hx) with h1 | ⟨k, hk⟩
  · exact h0 h1
  · have hf : FlowsTo codes (corner hy hx) (nbr k (corner hy hx)) :=
      flowsTo_iff.2 ⟨k, by rw [codeList_eq, hk], rfl⟩
    have hp := parent_flows (hy := hy) (hx := hx) hu hf
    have h2 := h (nbr k (corner hy hx))
    rw [← hp, ← Function.iterate_succ_apply, Function.iterate_succ_apply', h, hp] at h2
    rw [h2] at hf
    exact C04_acyclic hpos hu _ (.single hf)

end

/-! ## C160: slopes of cells in flats -/

section
variable {cfg : Config K} {fuel : ℕ} {z ds : Cell ny nx → K} {codes : Cell ny nx → ℤ}
  {S : Cell ny nx → K}

/-- A flow path of `n` steps from `c`, given as a sequence of cells, whose last cell is the first one that
is lower than `c`. -/
structure FirstLower (codes : Cell ny nx → ℤ) (z : Cell ny nx → K) (c : Cell ny nx) (n : ℕ)
    (path : ℕ → Cell ny nx) : Prop where
  start : path 0 = c
  flows : ∀ i < n, FlowsTo codes (path i) (path (i + 1))
  lower : z (path n) < z c
  first : ∀ i < n, z c ≤ z (path i)

theorem noflow_iff (hu : updateFlowGrid cfg fuel z = some codes) :
    ¬ noflowIDs codes = none ↔ ∃ c, codes c = 0 := by
  rw [(C03_noflow_ids hu).1]
  push Not
  refine exists_congr fun c => ?_
  rcases C04_codes_valid hu c with h | ⟨k, h⟩
  · simp [h]
  · have : (0 : ℤ) < 2 ^ k.val := by positivity
    rw [h]
    omega

theorem new_slope_loop (h : newSlopeGrid (parent hy hx cfg.lrPeriodic cfg.tbPeriodic codes) codes z ds
    cfg.nodata = some S) : ∃ N, 0 < N ∧ N ≤ 4 * nx + 1 ∧
    S = (after (parent hy hx cfg.lrPeriodic cfg.tbPeriodic codes) codes z ds cfg.nodata N).slope ∧
    (N = 4 * nx + 1 ∨ (∀ c, good codes z cfg.nodata
        (after (parent hy hx cfg.lrPeriodic cfg.tbPeriodic codes) codes z ds cfg.nodata (N - 1)) c = true) ∨
      (∀ c, (parent hy hx cfg.lrPeriodic cfg.tbPeriodic codes)^[N + 1] c = corner hy hx)) := by
  unfold newSlopeGrid at h
  split_ifs at h
  cases h
  obtain ⟨N, h1, h2, h3, h4⟩ := loop_eq (hy := hy) (hx := hx)
    (par := parent hy hx cfg.lrPeriodic cfg.tbPeriodic codes) (d := codes) (z := z) (ds := ds)
    (nodata := cfg.nodata) 0 (by omega)
  exact ⟨N, h1, h2, congrArg St.slope h3, h4⟩

/-- **C160 (slopes, partial).** If the first lower cell downstream of a cell holds data, is not the upper
left cell of the grid and is at most `4 nx + 1` steps away, then the slope written for the cell is the drop
to it divided by the length of the flow path to it; it is positive. -/
theorem C160_slope_partial (hpos : cfg.Pos) (hu : updateFlowGrid cfg fuel z = some codes)
    (hds : ∀ c, 0 < ds c)
    (h : newSlopeGrid (parent hy hx cfg.lrPeriodic cfg.tbPeriodic codes) codes z ds cfg.nodata = some S)
    {c : Cell ny nx} {n : ℕ} {path : ℕ → Cell ny nx} (hp : FirstLower codes z c n path)
    (hdata : cfg.nodata < z (path n)) (hn : n ≤ 4 * nx + 1) (hcorner : path n ≠ corner hy hx) :
    S c = (z c - z (path n)) / ∑ i ∈ Finset.range n, ds (path i) ∧ 0 < S c := by
  obtain ⟨N, hN1, hN2, rfl, hN3⟩ := new_slope_loop h
  set par := parent hy hx cfg.lrPeriodic cfg.tbPeriodic codes with hpar
  have hn1 : 1 ≤ n := by
    rcases Nat.eq_zero_or_pos n with rfl | h1
    · exact absurd hp.lower (by rw [hp.start]; exact lt_irrefl _)
    · exact h1
  have hanc : ∀ i ≤ n, par^[i] c = path i := by
    intro i hi
    rw [← hp.start]
    exact parent_path hu hp.flows i hi
  have hcode : ∀ i < n, codes (path i) ≠ 0 := by
    intro i hi h0
    obtain ⟨k, hk, _⟩ := hp.flows i hi
    rw [h0] at hk
    exact absurd hk.symm (by positivity)
  have hc0 : codes c ≠ 0 := by rw [← hp.start]; exact hcode 0 hn1
  have hl : Lower par codes z cfg.nodata c n := by
    unfold Lower
    rw [hanc n le_rfl]
    exact ⟨hc0, hdata, hp.lower⟩
  have hf : ∀ i, 1 ≤ i → i < n → ¬ Lower par codes z cfg.nodata c i := by
    intro i _ hi hL
    unfold Lower at hL
    rw [hanc i hi.le] at hL
    exact absurd hL.2.2 (not_lt.2 (hp.first i hi))
  have key : n ≤ N := by
    rcases hN3 with h1 | h1 | h1
    · omega
    · have hg := h1 c
      simp only [good, decide_eq_true_eq] at hg
      have h2 := (drop_pos_iff (ds := ds) (N - 1) c).1 hg.2
      by_contra hlt
      exact hf (N - 1 + 1) (by omega) (by omega) h2
    · by_contra hlt
      have h2 := h1 c
      have h0 := corner_stays hpos hu h1
      rw [hanc (N + 1) (by omega)] at h2
      rcases Nat.lt_or_ge (N + 1) n with h3 | h3
      · exact hcode _ h3 (by rw [h2]; exact h0)
      · have : N + 1 = n := by omega
        rw [this] at h2
        exact hcorner h2
  have hs := (after_slope hds N c).2 n hn1 key hl hf
  have he : ∑ i ∈ Finset.range n, ds (par^[i] c) = ∑ i ∈ Finset.range n, ds (path i) :=
    Finset.sum_congr rfl fun i hi => by rw [hanc i (Finset.mem_range.1 hi).le]
  rw [he, hanc n le_rfl] at hs
  refine ⟨hs, ?_⟩
  rw [hs]
  refine div_pos (sub_pos.2 hp.lower) ?_
  exact Finset.sum_pos (fun _ _ => hds _) ⟨0, Finset.mem_range.2 hn1⟩

/-- With ties broken, every positive code is that of one direction while flats are linked. -/
theorem single_codes (hu : updateFlowGrid cfg fuel z = some codes) (hpos : cfg.Pos)
    (hb : cfg.breakTies = true) : ∃ (d : Cell ny nx → ℤ) (rank : Cell ny nx → ℕ) (N : ℕ),
      LinkInv z d rank N ∧ (∀ c, codes c = validCodeMap (d c)) ∧ ∀ c, 0 < d c → ∃ k, d c = codeList k := by
  obtain ⟨d, rank, N, hinv, hc, hl1, hl2⟩ := updateFlowGrid_inv hpos hu
  refine ⟨d, rank, N, hinv, hc, ?_⟩
  simp only [hb, if_true] at hl1 hl2
  have h0 : ∀ c, 0 < breakTies (startCode cfg z) c → ∃ k, breakTies (startCode cfg z) c = codeList k := by
    intro c hlt
    unfold breakTies at hlt ⊢
    split_ifs at hlt ⊢ with h1
    swap
    · exact absurd hlt h1
    have hst : startCode cfg z c = steepSum (slope cfg z c) := by
      rcases startCode_cases cfg z c with h | ⟨_, h⟩ | ⟨_, h⟩ | h
      · omega
      · exact h
      · exfalso
        rw [h, steepSum_eq] at h1
        have := (codeOf_bounds (fun k => decide (slope cfg z c k = maxSlope (slope cfg z c)))).1
        omega
      · omega
    rw [hst, steepSum_eq] at h1 ⊢
    obtain ⟨k, _, hk⟩ := resolve_codeOf _ ((codeOf_pos _).1 h1)
    exact ⟨k, hk⟩
  cases hlf : cfg.linkFlats with
  | false => rw [hl2 hlf]; exact h0
  | true =>
    refine linkLoop_induct (P := fun d => ∀ c, 0 < d c → ∃ k, d c = codeList k) ?_ fuel _ d h0 (hl1 hlf)
    intro x hx c hlt
    by_cases hf : fixable x c = true
    · obtain ⟨k, hk, _⟩ := fixable_spec hf
      exact ⟨k, hk⟩
    · have e : linkPass x c = x c := by simp [linkPass, hf]
      rw [e] at hlt ⊢
      exact hx c hlt

/-- **C160 (there is a lower cell).** In a grid of flow directions with ties broken, every cell that has a
flow direction has a lower cell downstream. -/
theorem C160_lower_cell_exists (hpos : cfg.Pos) (hu : updateFlowGrid cfg fuel z = some codes)
    (hb : cfg.breakTies = true) (c : Cell ny nx) (hc : codes c ≠ 0) :
    ∃ n path, FirstLower codes z c n path := by
  obtain ⟨d, rank, N, hinv, hcd, hone⟩ := single_codes hu hpos hb
  induction hr : rank c using Nat.strong_induction_on generalizing c with
  | _ r ih =>
    obtain ⟨k, hk⟩ : ∃ k, d c = codeList k := by
      by_contra hno
      push Not at hno
      exact hc (by rw [hcd]; exact validCodeMap_eq_zero.2 hno)
    have hfl : FlowsTo codes c (nbr k c) := flowsTo_iff.2 ⟨k, by rw [hcd]; exact validCodeMap_codeList.2 hk, rfl⟩
    rcases hinv.flow c k hk with h1 | ⟨h1, h2, h3⟩
    · refine ⟨1, fun i => if i = 0 then c else nbr k c, rfl, ?_, h1, ?_⟩
      · intro i hi
        obtain rfl : i = 0 := by omega
        simpa using hfl
      · intro i hi
        obtain rfl : i = 0 := by omega
        simp
    · obtain ⟨j, hj⟩ := hone _ h3
      have hne : codes (nbr k c) ≠ 0 := by
        rw [hcd, validCodeMap_codeList.2 hj]
        exact (codeList_pos j).ne'
      obtain ⟨n, path, hp⟩ := ih (rank (nbr k c)) (hr ▸ h2) (nbr k c) hne rfl
      refine ⟨n + 1, fun i => if i = 0 then c else path (i - 1), rfl, ?_, ?_, ?_⟩
      · intro i hi
        rcases i with _ | i
        · simpa [hp.start] using hfl
        · simpa using hp.flows i (by omega)
      · simpa [h1] using hp.lower
      · intro i hi
        rcases i with _ | i
        · simp
        · simpa [h1] using hp.first i (by omega)

/-- **C160 (no zero slopes, partial).** With ties broken and data in every cell, a cell with a flow
direction has a positive slope, unless its first lower cell is the upper left cell or more than `4 nx + 1`
steps away. -/
theorem C160_no_zero_slopes_partial (hpos : cfg.Pos) (hu : updateFlowGrid cfg fuel z = some codes)
    (hb : cfg.breakTies = true) (hdata : ∀ c, cfg.nodata < z c) (hds : ∀ c, 0 < ds c)
    (h : newSlopeGrid (parent hy hx cfg.lrPeriodic cfg.tbPeriodic codes) codes z ds cfg.nodata = some S)
    {c : Cell ny nx} (hc : codes c ≠ 0) :
    ∃ n path, FirstLower codes z c n path ∧
      ((path n ≠ corner hy hx ∧ n ≤ 4 * nx + 1) →
        S c = (z c - z (path n)) / ∑ i ∈ Finset.range n, ds (path i) ∧ 0 < S c) := by
  obtain ⟨n, path, hp⟩ := C160_lower_cell_exists hpos hu hb c hc
  exact ⟨n, path, hp, fun h' => C160_slope_partial hpos hu hds h hp (hdata _) h'.2 h'.1⟩

/-- **C160 (cells without flow direction)** get slope zero. -/
theorem C160_no_flow (hds : ∀ c, 0 < ds c)
    (h : newSlopeGrid (parent hy hx cfg.lrPeriodic cfg.tbPeriodic codes) codes z ds cfg.nodata = some S)
    {c : Cell ny nx} (hc : codes c = 0) : S c = 0 := by
  obtain ⟨N, _, _, rfl, _⟩ := new_slope_loop h
  exact (after_slope hds N c).1 fun j _ _ hL => hL.1 hc

/-- **C160 (negative: long flats).** If the first lower cell is more than `4 nx + 1` steps away, the slope
of the cell stays zero. -/
theorem C160_long_flat_violated (hu : updateFlowGrid cfg fuel z = some codes) (hds : ∀ c, 0 < ds c)
    (h : newSlopeGrid (parent hy hx cfg.lrPeriodic cfg.tbPeriodic codes) codes z ds cfg.nodata = some S)
    {c : Cell ny nx} {n : ℕ} {path : ℕ → Cell ny nx} (hp : FirstLower codes z c n path)
    (hn : 4 * nx + 1 < n) : S c = 0 := by
  obtain ⟨N, _, hN2, rfl, _⟩ := new_slope_loop h
  refine (after_slope hds N c).1 fun j h1 h2 hL => ?_
  unfold Lower at hL
  rw [← hp.start, parent_path hu hp.flows j (by omega), hp.start] at hL
  exact absurd hL.2.2 (not_lt.2 (hp.first j (by omega)))

/-- **C160 (when there is a slope file).** The function succeeds exactly when some cell has no direction and
some cell is higher than the cell it flows to, which holds data: a flat DEM has no slope file. -/
theorem C160_defined_iff (hu : updateFlowGrid cfg fuel z = some codes) (hds : ∀ c, 0 < ds c) :
    (∃ S, newSlopeGrid (parent hy hx cfg.lrPeriodic cfg.tbPeriodic codes) codes z ds cfg.nodata = some S) ↔
    (∃ c, codes c = 0) ∧ ∃ c e, FlowsTo codes c e ∧ cfg.nodata < z e ∧ z e < z c := by
  unfold newSlopeGrid
  have e : (pass (parent hy hx cfg.lrPeriodic cfg.tbPeriodic codes) codes z ds cfg.nodata
      (init (parent hy hx cfg.lrPeriodic cfg.tbPeriodic codes) ds)).slope =
      (after (parent hy hx cfg.lrPeriodic cfg.tbPeriodic codes) codes z ds cfg.nodata 1).slope := rfl
  rw [e]
  have hs := fun c => after_slope (par := parent hy hx cfg.lrPeriodic cfg.tbPeriodic codes) (d := codes)
    (z := z) (nodata := cfg.nodata) hds 1 c
  have hiff : ∀ c, 0 < (after (parent hy hx cfg.lrPeriodic cfg.tbPeriodic codes) codes z ds
      cfg.nodata 1).slope c ↔
      Lower (parent hy hx cfg.lrPeriodic cfg.tbPeriodic codes) codes z cfg.nodata c 1 := by
    intro c
    constructor
    · intro hlt
      by_contra hL
      rw [(hs c).1 fun j h1 h2 => by obtain rfl : j = 1 := by omega
                                     exact hL] at hlt
      exact lt_irrefl _ hlt
    · intro hL
      rw [(hs c).2 1 le_rfl le_rfl hL fun i _ _ => by omega]
      exact div_pos (sub_pos.2 hL.2.2) (len_pos hds le_rfl c)
  have hany : anyPositive (after (parent hy hx cfg.lrPeriodic cfg.tbPeriodic codes) codes z ds
      cfg.nodata 1).slope = true ↔ ∃ c e, FlowsTo codes c e ∧ cfg.nodata < z e ∧ z e < z c := by
    unfold anyPositive
    simp only [List.any_eq_true, mem_allCells, true_and, decide_eq_true_eq, hiff]
    constructor
    · rintro ⟨c, h1, h2, h3⟩
      rcases C04_codes_valid hu c with h | ⟨k, hk⟩
      · exact absurd h h1
      · have hf : FlowsTo codes c (nbr k c) := flowsTo_iff.2 ⟨k, by rw [codeList_eq, hk], rfl⟩
        rw [Function.iterate_one, parent_flows hu hf] at h2 h3
        exact ⟨c, _, hf, h2, h3⟩
    · rintro ⟨c, e, hf, h2, h3⟩
      refine ⟨c, ?_, ?_, ?_⟩
      · obtain ⟨k, hk, _⟩ := hf
        rw [hk]; positivity
      · rwa [Function.iterate_one, parent_flows hu hf]
      · rwa [Function.iterate_one, parent_flows hu hf]
  rw [← hany, ← noflow_iff hu]
  split_ifs with h0 h
  · simp [h0]
  · simp [h0, h]
  · simp [h]

end

/-! ### Witnesses -/

/-- The second row of a 4×5 grid, from its second cell on. -/
def rowPath (i : ℕ) : Cell 4 5 := (1, ⟨min (1 + i) 4, Nat.lt_succ_of_le (Nat.min_le_right _ _)⟩)

/-- A 4×5 DEM with a plateau draining to the right. -/
example : ∃ codes S, updateFlowGrid demoCfg 21 demoDEM = some codes ∧
    newSlopeGrid (parent (by decide) (by decide) false false codes) codes demoDEM (fun _ => 2) (-9999) =
      some S ∧
    FirstLower codes demoDEM (1, 1) 3 rowPath ∧ S (1, 1) = 1 / 6 := by
  have key : ((updateFlowGrid demoCfg 21 demoDEM).bind fun f =>
      (newSlopeGrid (parent (by decide) (by decide) false false f) f demoDEM (fun _ => 2) (-9999)).map
        fun S => (S (1, 1), f (1, 1), f (1, 2), f (1, 3))) = some (1 / 6, 2, 2, 2) := by decide +kernel
  obtain ⟨codes, h⟩ := C05_update_flow_grid_terminates demoCfg demoDEM
  rw [h] at key
  simp only [Option.bind_some, Option.map_eq_some_iff, Prod.mk.injEq] at key
  obtain ⟨S, hS, h1, h2, h3, h4⟩ := key
  refine ⟨codes, S, h, hS, ⟨rfl, ?_, by decide +kernel, by decide +kernel⟩, h1⟩
  intro i hi
  rcases i with _ | _ | _ | i
  · exact flowsTo_iff.2 ⟨1, h2, by decide⟩
  · exact flowsTo_iff.2 ⟨1, h3, by decide⟩
  · exact flowsTo_iff.2 ⟨1, h4, by decide⟩
  · omega

/-- A 3×4 DEM, level but for the upper left cell. -/
def cornerDEM : Cell 3 4 → ℚ := fun c => if c = (0, 0) then 1 else 5

/-- **C160 (negative: flats draining to the upper left cell).** The cell (1,2) drains over the flat cell
(1,1) to the upper left cell, which is lower; its slope stays zero. -/
theorem C160_corner_violated : ∃ codes S, updateFlowGrid demoCfg 13 cornerDEM = some codes ∧
    newSlopeGrid (parent (by decide) (by decide) false false codes) codes cornerDEM (fun _ => 2) (-9999) =
      some S ∧
    FirstLower codes cornerDEM (1, 2) 2 (fun i => if i = 0 then (1, 2) else if i = 1 then (1, 1) else (0, 0)) ∧
    S (1, 2) = 0 ∧ S (1, 1) = 2 := by
  have key : ((updateFlowGrid demoCfg 13 cornerDEM).bind fun f =>
      (newSlopeGrid (parent (by decide) (by decide) false false f) f cornerDEM (fun _ => 2) (-9999)).map
        fun S => (S (1, 2), S (1, 1), f (1, 2), f (1, 1))) = some (0, 2, 32, 64) := by decide +kernel
  obtain ⟨codes, h⟩ := C05_update_flow_grid_terminates demoCfg cornerDEM
  rw [h] at key
  simp only [Option.bind_some, Option.map_eq_some_iff, Prod.mk.injEq] at key
  obtain ⟨S, hS, h1, h2, h3, h4⟩ := key
  refine ⟨codes, S, h, hS, ⟨rfl, ?_, by decide +kernel, by decide +kernel⟩, h1, h2⟩
  intro i hi
  rcases i with _ | _ | i
  · exact flowsTo_iff.2 ⟨5, h3, by decide⟩
  · exact flowsTo_iff.2 ⟨6, h4, by decide⟩
  · omega

/-- A 3×7 DEM with a cell without data at (1,3). -/
def holeDEM : Cell 3 7 → ℚ := fun c =>
  (![![1, 20, 20, 20, 20, 20, 20], ![20, 4, 5, -9999, 7, 8, 20], ![20, 20, 20, 20, 20, 20, 20]] c.1) c.2

/-- **C160 (negative: missing data).** The cell (1,4) drains into (1,3), which has no data and no direction.
Its path holds no lower cell with data; it gets a slope measured to the upper left cell, which is not on its path. -/
theorem C160_missing_data_violated : ∃ codes S, updateFlowGrid demoCfg 22 holeDEM = some codes ∧
    newSlopeGrid (parent (by decide) (by decide) false false codes) codes holeDEM (fun _ => 2) (-9999) =
      some S ∧
    FlowsTo codes (1, 4) (1, 3) ∧ holeDEM (1, 3) = -9999 ∧ codes (1, 3) = 0 ∧
    S (1, 4) = (holeDEM (1, 4) - holeDEM (0, 0)) / 4 := by
  have key : ((updateFlowGrid demoCfg 22 holeDEM).bind fun f =>
      (newSlopeGrid (parent (by decide) (by decide) false false f) f holeDEM (fun _ => 2) (-9999)).map
        fun S => (S (1, 4), f (1, 4), f (1, 3))) = some (6 / 4, 32, 0) := by decide +kernel
  obtain ⟨codes, h⟩ := C05_update_flow_grid_terminates demoCfg holeDEM
  rw [h] at key
  simp only [Option.bind_some, Option.map_eq_some_iff, Prod.mk.injEq] at key
  obtain ⟨S, hS, h1, h2, h3⟩ := key
  refine ⟨codes, S, h, hS, flowsTo_iff.2 ⟨5, h2, by decide⟩, by decide +kernel, h3, ?_⟩
  rw [h1]
  decide +kernel

/-! ## C161: the simple slope grid -/

section
variable {cfg : Config K} {fuel : ℕ} {z ds : Cell ny nx → K} {codes : Cell ny nx → ℤ}

/-- **C161 (simple slopes).** NaN where there is no flow direction; elsewhere the drop to the downstream
cell divided by the flow length, never negative and zero exactly on flats. -/
theorem C161_slopes (hpos : cfg.Pos) (hu : updateFlowGrid cfg fuel z = some codes) (hds : ∀ c, 0 < ds c)
    {S : Cell ny nx → Option K}
    (h : d8SlopeGrid (parent hy hx cfg.lrPeriodic cfg.tbPeriodic codes) codes z ds = some S) :
    (∀ c, S c = none ↔ codes c = 0) ∧
    (∀ c e, FlowsTo codes c e → ∃ s, S c = some s ∧ s = (z c - z e) / ds c ∧ 0 ≤ s ∧
      (s = 0 ↔ z c = z e)) := by
  have hno := (C03_noflow_ids hu).2.1
  unfold d8SlopeGrid at h
  cases hl : noflowIDs codes with
  | none => simp [hl] at h
  | some l =>
    rw [hl] at h
    dsimp only at h
    split_ifs at h with hany
    cases h
    have hm := hno l hl
    constructor
    · intro c
      by_cases hc : c ∈ l
      · simp [hc, (hm c).1 hc]
      · have h0 : codes c ≠ 0 := fun h0 => hc ((hm c).2 h0)
        simp [hc, h0]
    · intro c e hf
      have hc : c ∉ l := by
        intro hin
        obtain ⟨k, hk, _⟩ := hf
        have := (hm c).1 hin
        rw [this] at hk
        exact absurd hk.symm (by positivity)
      have hle : z e ≤ z c := C04_never_uphill hpos hu (Relation.ReflTransGen.single hf)
      refine ⟨(z c - z e) / ds c, ?_, rfl, div_nonneg (sub_nonneg.2 hle) (hds c).le, ?_⟩
      · simp only [hc, if_false, parent_flows hu hf, sub_pos]
        split_ifs with h1
        · rfl
        · rw [le_antisymm hle (not_lt.1 h1)]; simp
      · rw [div_eq_zero_iff, sub_eq_zero]
        simp [(hds c).ne']

/-- **C161 (when it works).** The grid is computed exactly when some cell has no flow direction and some
cell is higher than the cell it flows to. -/
theorem C161_defined_iff (hu : updateFlowGrid cfg fuel z = some codes) (hds : ∀ c, 0 < ds c) :
    (∃ S, d8SlopeGrid (parent hy hx cfg.lrPeriodic cfg.tbPeriodic codes) codes z ds = some S) ↔
    (∃ c, codes c = 0) ∧ ∃ c e, FlowsTo codes c e ∧ z e < z c := by
  have hno := (C03_noflow_ids hu).2.1
  rw [← noflow_iff hu]
  unfold d8SlopeGrid
  cases hl : noflowIDs codes with
  | none => simp
  | some l =>
    have hm := hno l hl
    dsimp only
    have hany : ((allCells ny nx).any fun c => decide (c ∉ l ∧ 0 < (if 0 < z c - z (parent hy hx
        cfg.lrPeriodic cfg.tbPeriodic codes c) then (z c - z (parent hy hx
        cfg.lrPeriodic cfg.tbPeriodic codes c)) / ds c else 0))) = true ↔
        ∃ c e, FlowsTo codes c e ∧ z e < z c := by
      simp only [List.any_eq_true, mem_allCells, true_and, decide_eq_true_eq]
      constructor
      · rintro ⟨c, h1, h2⟩
        rcases C04_codes_valid hu c with h | ⟨k, hk⟩
        · exact absurd ((hm c).2 h) h1
        · have hf : FlowsTo codes c (nbr k c) := flowsTo_iff.2 ⟨k, by rw [codeList_eq, hk], rfl⟩
          rw [parent_flows hu hf] at h2
          split_ifs at h2 with h3
          · exact ⟨c, _, hf, sub_pos.1 h3⟩
          · exact absurd h2 (lt_irrefl _)
      · rintro ⟨c, e, hf, h2⟩
        refine ⟨c, ?_, ?_⟩
        · intro hin
          obtain ⟨k, hk, _⟩ := hf
          rw [(hm c).1 hin] at hk
          exact absurd hk.symm (by positivity)
        · rw [parent_flows hu hf, if_pos (sub_pos.2 h2)]
          exact div_pos (sub_pos.2 h2) (hds c)
    split_ifs with h
    · simpa using hany.1 h
    · refine iff_of_false (by simp) fun hh => h (hany.2 hh.2)

end

/-- **C161 (agreement).** Where there is a flow direction the simple slope grid and the slope grid of the D8
component (C85) agree. -/
theorem C161_agrees {cfg : Config ℝ} {fuel : ℕ} {z ds : Cell ny nx → ℝ} {codes : Cell ny nx → ℤ}
    (hpos : cfg.Pos) (hu : updateFlowGrid cfg fuel z = some codes) (hds : ∀ c, 0 < ds c)
    {S : Cell ny nx → Option ℝ} {S' : Cell ny nx → ℝ}
    (h : d8SlopeGrid (parent hy hx cfg.lrPeriodic cfg.tbPeriodic codes) codes z ds = some S)
    (h' : slopeGrid cfg.lrPeriodic cfg.tbPeriodic z ds codes = some S') (c : Cell ny nx) (hc : codes c ≠ 0) :
    S c = some (S' c) := by
  rcases C04_codes_valid hu c with h0 | ⟨k, hk⟩
  · exact absurd h0 hc
  · have hf : FlowsTo codes c (nbr k c) := flowsTo_iff.2 ⟨k, by rw [codeList_eq, hk], rfl⟩
    obtain ⟨s, hs, he, _⟩ := (C161_slopes hpos hu hds h).2 c _ hf
    rw [hs, he]
    unfold slopeGrid at h'
    split_ifs at h'
    cases hl : noflowIDs codes with
    | none => simp [hl] at h'
    | some l =>
      rw [hl] at h'
      cases h'
      have hn : c ∉ l := fun hin => hc (((C03_noflow_ids hu).2.1 l hl c).1 hin)
      simp only [hn, if_false, (C03_parent_is_downstream_neighbour hu c).1 _ hf, cellOfID_flat]

example : ∃ codes S, updateFlowGrid demoCfg 21 demoDEM = some codes ∧
    d8SlopeGrid (parent (by decide) (by decide) false false codes) codes demoDEM (fun _ => 2) = some S ∧
    S (1, 1) = some 0 ∧ S (1, 3) = some (1 / 2) ∧ S (0, 0) = none := by
  have key : ((updateFlowGrid demoCfg 21 demoDEM).bind fun f =>
      (d8SlopeGrid (parent (by decide) (by decide) false false f) f demoDEM (fun _ => 2)).map
        fun S => (S (1, 1), S (1, 3), S (0, 0))) = some (some 0, some (1 / 2), none) := by decide +kernel
  obtain ⟨codes, h⟩ := C05_update_flow_grid_terminates demoCfg demoDEM
  rw [h] at key
  simp only [Option.bind_some, Option.map_eq_some_iff, Prod.mk.injEq] at key
  obtain ⟨S, hS, h1, h2, h3⟩ := key
  exact ⟨codes, S, h, hS, h1, h2, h3⟩

/-! ## Smoothing -/

section
variable {par : Cell ny nx → Cell ny nx} {dem z : Cell ny nx → K}

theorem foldl_update_eq (f : Cell ny nx → K) (l : List (Cell ny nx)) (acc : Cell ny nx → K)
    (e : Cell ny nx) :
    ((∀ c ∈ l, par c ≠ e) → (l.foldl (fun a c => Function.update a (par c) (f c)) acc) e = acc e) ∧
    ((∃ c ∈ l, par c = e) → ∃ c ∈ l, par c = e ∧
      (l.foldl (fun a c => Function.update a (par c) (f c)) acc) e = f c) := by
  induction l generalizing acc with
  | nil => simp
  | cons a l ih =>
    simp only [List.foldl_cons, List.mem_cons, forall_eq_or_imp, exists_eq_or_imp]
    constructor
    · rintro ⟨h1, h2⟩
      rw [(ih _).1 h2, Function.update_of_ne (Ne.symm h1)]
    · intro h
      by_cases hl : ∃ c ∈ l, par c = e
      · obtain ⟨c, h1, h2, h3⟩ := (ih (Function.update acc (par a) (f a))).2 hl
        exact Or.inr ⟨c, h1, h2, h3⟩
      · push Not at hl
        rcases h with h | ⟨c, h1, h2⟩
        · left
          refine ⟨h, ?_⟩
          rw [(ih _).1 hl, ← h, Function.update_self]
        · exact absurd h2 (hl c h1)

theorem assign_source {e : Cell ny nx} (h : ∀ c, par c ≠ e) : assignParents par z e = z e :=
  (foldl_update_eq (fun c => (z c + z (par (par c))) / 2) _ z e).1 fun c _ => h c

theorem assign_cases (par : Cell ny nx → Cell ny nx) (z : Cell ny nx → K) (e : Cell ny nx) :
    ((∀ c, par c ≠ e) ∧ assignParents par z e = z e) ∨
    ∃ c, par c = e ∧ assignParents par z e = (z c + z (par e)) / 2 := by
  by_cases h : ∃ c, par c = e
  · right
    obtain ⟨c, hc⟩ := h
    obtain ⟨c', _, h1, h2⟩ := (foldl_update_eq (par := par) (fun c => (z c + z (par (par c))) / 2) (allCells ny nx) z
      e).2 ⟨c, mem_allCells c, hc⟩
    refine ⟨c', h1, ?_⟩
    rw [h1] at h2
    exact h2
  · push Not at h
    exact Or.inl ⟨h, assign_source h⟩

theorem id_zero_iff (e : Cell ny nx) : e.1.val * nx + e.2.val = 0 ↔ e = corner hy hx := by
  constructor
  · intro h
    have h3 : e.1.val = 0 := by
      by_contra h3
      have : 1 * 1 ≤ e.1.val * nx := Nat.mul_le_mul (by omega) hx
      omega
    exact Prod.ext (Fin.ext h3) (Fin.ext (by simp only [corner]; omega))
  · rintro rfl
    simp [corner]

/-- One step at one cell. -/
theorem smoothStep_eq (hy : 0 < ny) (hx : 0 < nx) (c : Cell ny nx) : smoothStep par dem z c =
    if par c = corner hy hx ∨ par (par c) = corner hy hx then dem c else assignParents par z c := by
  unfold smoothStep
  simp only [id_zero_iff (hy := hy) (hx := hx)]

theorem smooth_kept (hy : 0 < ny) (hx : 0 < nx) (c : Cell ny nx)
    (h : (par c = corner hy hx ∨ par (par c) = corner hy hx) ∨ ∀ b, par b ≠ c) (k : ℕ) :
    ((smoothStep par dem)^[k] dem) c = dem c := by
  induction k with
  | zero => rfl
  | succ k ih =>
    rw [Function.iterate_succ_apply', smoothStep_eq hy hx]
    split_ifs with h1
    · rfl
    · rw [assign_source (h.resolve_left h1), ih]

theorem smooth_range (lo hi : K) (h : ∀ c, lo ≤ dem c ∧ dem c ≤ hi) (k : ℕ) (c : Cell ny nx) :
    lo ≤ ((smoothStep par dem)^[k] dem) c ∧ ((smoothStep par dem)^[k] dem) c ≤ hi := by
  induction k generalizing c with
  | zero => exact h c
  | succ k ih =>
    rw [Function.iterate_succ_apply']
    have hs : ∀ x : Cell ny nx → K, smoothStep par dem x c = dem c ∨
        smoothStep par dem x c = assignParents par x c := by
      intro x
      unfold smoothStep
      split_ifs
      · exact Or.inl rfl
      · exact Or.inr rfl
    rcases hs ((smoothStep par dem)^[k] dem) with hs | hs
    · rw [hs]; exact h c
    · rw [hs]
      rcases assign_cases par ((smoothStep par dem)^[k] dem) c with ⟨_, he⟩ | ⟨b, _, he⟩
      · rw [he]; exact ih c
      · rw [he]
        have h1 := ih b
        have h2 := ih (par c)
        constructor <;> linarith [h1.1, h1.2, h2.1, h2.2]

end

section
variable {cfg : Config K} {fuel : ℕ} {dem S : Cell ny nx → K} {codes : Cell ny nx → ℤ} {nsteps : ℕ}

/-- **C162 (range).** Every smoothed elevation lies within the range of the elevations of the DEM. -/
theorem C162_range (h : smoothDem (parent hy hx cfg.lrPeriodic cfg.tbPeriodic codes) codes dem nsteps = some S)
    (lo hi : K) (hr : ∀ c, lo ≤ dem c ∧ dem c ≤ hi) (c : Cell ny nx) : lo ≤ S c ∧ S c ≤ hi := by
  unfold smoothDem at h
  split_ifs at h
  cases h
  exact smooth_range lo hi hr nsteps c

/-- **C162 (unchanged cells).** Cells without flow direction, and cells that flow into one, keep their
elevation. -/
theorem C162_ends_unchanged (hu : updateFlowGrid cfg fuel dem = some codes)
    (h : smoothDem (parent hy hx cfg.lrPeriodic cfg.tbPeriodic codes) codes dem nsteps = some S)
    (c : Cell ny nx) (hc : codes c = 0 ∨ ∃ e, FlowsTo codes c e ∧ codes e = 0) : S c = dem c := by
  unfold smoothDem at h
  split_ifs at h
  cases h
  refine smooth_kept hy hx c (Or.inl ?_) nsteps
  rcases hc with hc | ⟨e, hf, he⟩
  · exact Or.inl (parent_noflow hu hc)
  · right
    rw [parent_flows hu hf]
    exact parent_noflow hu he

/-- **C162 (lowest elevation).** Smoothing keeps the lowest elevation, and the cells that have it. -/
theorem C162_lowest (hpos : cfg.Pos) (hu : updateFlowGrid cfg fuel dem = some codes)
    (hb : cfg.breakTies = true)
    (h : smoothDem (parent hy hx cfg.lrPeriodic cfg.tbPeriodic codes) codes dem nsteps = some S)
    (m : Cell ny nx) (hm : ∀ c, dem m ≤ dem c) : S m = dem m ∧ ∀ c, S m ≤ S c := by
  have h0 : codes m = 0 := by
    by_contra h0
    obtain ⟨n, path, hp⟩ := C160_lower_cell_exists hpos hu hb m h0
    exact absurd hp.lower (not_lt.2 (hm _))
  have he := C162_ends_unchanged hu h m (Or.inl h0)
  refine ⟨he, fun c => ?_⟩
  unfold smoothDem at h
  split_ifs at h
  cases h
  rw [he]
  obtain ⟨M, hM⟩ : ∃ M, ∀ c, dem c ≤ M := by
    obtain ⟨x, _, hx⟩ := Finset.exists_max_image Finset.univ dem ⟨m, Finset.mem_univ _⟩
    exact ⟨dem x, fun c => hx c (Finset.mem_univ _)⟩
  exact (smooth_range (dem m) M (fun c => ⟨hm c, hM c⟩) nsteps c).1

/-- **C162 (defined).** Smoothing fails only when every cell has a flow direction. -/
theorem C162_defined_iff (hu : updateFlowGrid cfg fuel dem = some codes) :
    (∃ S, smoothDem (parent hy hx cfg.lrPeriodic cfg.tbPeriodic codes) codes dem nsteps = some S) ↔
      ∃ c, codes c = 0 := by
  rw [← noflow_iff hu]
  unfold smoothDem
  split_ifs with h <;> simp [h]

/-- **C163 (cells nothing flows into, partial).** They keep their elevation if the upper left cell has no
flow direction (as on every grid without periodic borders). -/
theorem C163_sources_partial (hu : updateFlowGrid cfg fuel dem = some codes)
    (h0 : codes (corner hy hx) = 0)
    (h : smoothDem (parent hy hx cfg.lrPeriodic cfg.tbPeriodic codes) codes dem nsteps = some S)
    (c : Cell ny nx) (hc : ∀ b, ¬ FlowsTo codes b c) : S c = dem c := by
  by_cases hcc : c = corner hy hx
  · exact C162_ends_unchanged hu h c (Or.inl (by rw [hcc]; exact h0))
  · unfold smoothDem at h
    split_ifs at h
    cases h
    refine smooth_kept hy hx c (Or.inr fun b hb => ?_) nsteps
    rcases C04_codes_valid hu b with h1 | ⟨k, hk⟩
    · exact hcc (by rw [← hb]; exact parent_noflow hu h1)
    · have hf : FlowsTo codes b (nbr k b) := flowsTo_iff.2 ⟨k, by rw [codeList_eq, hk], rfl⟩
      rw [parent_flows hu hf] at hb
      exact hc b (hb ▸ hf)

/-- **C163 (highest elevation, partial).** Smoothing keeps the highest elevation if the upper left cell has
no flow direction. -/
theorem C163_highest_partial (hpos : cfg.Pos) (hu : updateFlowGrid cfg fuel dem = some codes)
    (h0 : codes (corner hy hx) = 0)
    (h : smoothDem (parent hy hx cfg.lrPeriodic cfg.tbPeriodic codes) codes dem nsteps = some S)
    (M : K) (hM : ∀ c, dem c ≤ M) (hex : ∃ c, dem c = M) : (∀ c, S c ≤ M) ∧ ∃ c, S c = M := by
  obtain ⟨rank, hr⟩ := flow_step hpos hu
  obtain ⟨c1, hc1⟩ := hex
  obtain ⟨c0, hc0, hmax⟩ := Finset.exists_max_image (Finset.univ.filter fun c => dem c = M) rank
    ⟨c1, by simp [hc1]⟩
  simp only [Finset.mem_filter, Finset.mem_univ, true_and] at hc0 hmax
  have hs : ∀ b, ¬ FlowsTo codes b c0 := by
    intro b hb
    rcases hr b c0 hb with h1 | ⟨h1, h2⟩
    · exact absurd h1 (not_lt.2 (by rw [hc0]; exact hM b))
    · exact absurd (hmax b (by rw [← h1, hc0])) (not_le.2 h2)
  have hS := C163_sources_partial hu h0 h c0 hs
  refine ⟨fun c => ?_, c0, by rw [hS, hc0]⟩
  obtain ⟨lo, hlo⟩ : ∃ lo, ∀ c, lo ≤ dem c := by
    obtain ⟨x, _, hx⟩ := Finset.exists_min_image Finset.univ dem ⟨c1, Finset.mem_univ _⟩
    exact ⟨dem x, fun c => hx c (Finset.mem_univ _)⟩
  exact (C162_range h lo M (fun c => ⟨hlo c, hM c⟩) c).2

/-- **C164 (downhill, partial).** Where flow lines do not join (at most one cell flows into each cell),
smoothing keeps every cell at least as high as the cell it flows to. -/
theorem C164_downhill_partial (hpos : cfg.Pos) (hu : updateFlowGrid cfg fuel dem = some codes)
    (h0 : codes (corner hy hx) = 0)
    (hone : ∀ a b e, FlowsTo codes a e → FlowsTo codes b e → a = b)
    (h : smoothDem (parent hy hx cfg.lrPeriodic cfg.tbPeriodic codes) codes dem nsteps = some S)
    (c e : Cell ny nx) (hf : FlowsTo codes c e) : S e ≤ S c := by
  unfold smoothDem at h
  split_ifs at h
  cases h
  set par := parent hy hx cfg.lrPeriodic cfg.tbPeriodic codes with hpar
  have hcorner : par (corner hy hx) = corner hy hx := parent_noflow hu h0
  have hpar_flow : ∀ b x, par b = x → x ≠ corner hy hx → FlowsTo codes b x := by
    intro b x hb hx'
    rcases C04_codes_valid hu b with h1 | ⟨k, hk⟩
    · exact absurd (hb.symm.trans (parent_noflow hu h1)) hx'
    · have hf : FlowsTo codes b (nbr k b) := flowsTo_iff.2 ⟨k, by rw [codeList_eq, hk], rfl⟩
      rw [hpar, parent_flows hu hf] at hb
      exact hb ▸ hf
  induction nsteps generalizing c e with
  | zero => exact C04_never_uphill hpos hu (Relation.ReflTransGen.single hf)
  | succ k ih =>
    have hpc : par c = e := parent_flows hu hf
    have hkept := smooth_kept (par := par) (dem := dem) hy hx
    rw [Function.iterate_succ_apply']
    set x := (smoothStep par dem)^[k] dem with hx'
    rw [smoothStep_eq hy hx, smoothStep_eq hy hx, hpc]
    by_cases hc : e = corner hy hx ∨ par e = corner hy hx
    · have he : par e = corner hy hx ∨ par (par e) = corner hy hx := by
        rcases hc with hc | hc
        · left; rw [hc, hcorner]
        · exact Or.inl hc
      rw [if_pos hc, if_pos he]
      exact C04_never_uphill hpos hu (Relation.ReflTransGen.single hf)
    · rw [if_neg hc]
      push Not at hc
      have hcne : c ≠ corner hy hx := by
        rintro rfl
        exact hc.1 (by rw [← hpc, hcorner])
      have hce : x e ≤ x c := ih c e hf
      -- the new value of c
      have hnew : (x c ≤ assignParents par x c) ∨ ((x c + x e) / 2 ≤ assignParents par x c) := by
        rcases assign_cases par x c with ⟨_, h1⟩ | ⟨b, hb, h1⟩
        · exact Or.inl h1.ge
        · right
          have := ih b c (hpar_flow b c hb hcne)
          rw [h1, hpc]
          linarith
      have hge : (x c + x e) / 2 ≤ assignParents par x c := by
        rcases hnew with h1 | h1 <;> linarith
      split_ifs with he
      · have : x e = dem e := hkept e (Or.inl he) k
        rw [← this]
        linarith
      · push Not at he
        rcases assign_cases par x e with ⟨h1, _⟩ | ⟨b, hb, h1⟩
        · exact absurd hpc (h1 c)
        · have hbc : b = c := hone b c e (hpar_flow b e hb hc.1) hf
          have heg : x (par e) ≤ x e := ih e (par e) (hpar_flow e _ rfl hc.2)
          rw [h1, hbc]
          linarith

end

/-! ### Witnesses -/

/-- A 4×5 DEM in which two flow lines join at (1,2). -/
def joinDEM : Cell 4 5 → ℚ := fun c =>
  (![![30, 30, 30, 30, 30], ![30, 11, 10, 9, 8], ![30, 12, 20, 25, 30], ![30, 30, 30, 30, 30]] c.1) c.2

/-- **C164 (negative).** After one step of smoothing the cell (1,1) is lower than the cell (1,2) it flows
to. -/
theorem C164_downhill_violated : ∃ codes S, updateFlowGrid demoCfg 21 joinDEM = some codes ∧
    smoothDem (parent (by decide) (by decide) false false codes) codes joinDEM 1 = some S ∧
    FlowsTo codes (1, 1) (1, 2) ∧ S (1, 1) = 11 ∧ S (1, 2) = 29 / 2 := by
  have key : ((updateFlowGrid demoCfg 21 joinDEM).bind fun f =>
      (smoothDem (parent (by decide) (by decide) false false f) f joinDEM 1).map
        fun S => (S (1, 1), S (1, 2), f (1, 1))) = some (11, 29 / 2, 2) := by decide +kernel
  obtain ⟨codes, h⟩ := C05_update_flow_grid_terminates demoCfg joinDEM
  rw [h] at key
  simp only [Option.bind_some, Option.map_eq_some_iff, Prod.mk.injEq] at key
  obtain ⟨S, hS, h1, h2, h3⟩ := key
  exact ⟨codes, S, h, hS, flowsTo_iff.2 ⟨1, h3, by decide⟩, h1, h2⟩

/-- A 3×6 DEM for periodic borders. -/
def torusDEM : Cell 3 6 → ℚ := fun c =>
  (![![30, 5, 0, 6, 6, 6], ![6, 6, 6, 6, 6, 6], ![6, 6, 6, 6, 6, 6]] c.1) c.2

/-- **C163 (negative).** With periodic borders the highest cell, the upper left one, into which nothing
flows, is overwritten: cells without flow direction have parent ID 0, the ID of the upper left cell. -/
theorem C163_periodic_violated : ∃ codes S,
    updateFlowGrid { demoCfg with lrPeriodic := true, tbPeriodic := true } 19 torusDEM = some codes ∧
    smoothDem (parent (by decide) (by decide) true true codes) codes torusDEM 1 = some S ∧
    (∀ c, c ≠ (0, 0) → torusDEM c < torusDEM (0, 0)) ∧ (∀ b, ¬ FlowsTo codes b (0, 0)) ∧
    S (0, 0) = 11 / 2 ∧ ∀ c, S c < 30 := by
  have key : ((updateFlowGrid { demoCfg with lrPeriodic := true, tbPeriodic := true } 19 torusDEM).bind fun f =>
      (smoothDem (parent (by decide) (by decide) true true f) f torusDEM 1).map
        fun S => (S (0, 0), (allCells 3 6).all fun c => decide (S c < 30))) = some (11 / 2, true) := by
    decide +kernel
  have hpos : ({ demoCfg with lrPeriodic := true, tbPeriodic := true } : Config ℚ).Pos :=
    ⟨by norm_num [demoCfg], by norm_num [demoCfg], by norm_num [demoCfg]⟩
  obtain ⟨codes, h⟩ := C05_update_flow_grid_terminates
    { demoCfg with lrPeriodic := true, tbPeriodic := true } torusDEM
  rw [h] at key
  simp only [Option.bind_some, Option.map_eq_some_iff, Prod.mk.injEq] at key
  obtain ⟨S, hS, h1, h2⟩ := key
  have hmax : ∀ c, c ≠ (0, 0) → torusDEM c < torusDEM (0, 0) := by decide +kernel
  refine ⟨codes, S, h, hS, hmax, ?_, h1, ?_⟩
  · intro b hb
    have hle := C04_never_uphill hpos h (Relation.ReflTransGen.single hb)
    by_cases hb0 : b = (0, 0)
    · rw [hb0] at hb
      exact C04_acyclic hpos h _ (.single hb)
    · exact absurd hle (not_le.2 (hmax b hb0))
  · simpa [List.all_eq_true, mem_allCells] using h2

/-- A single flow line, where all hypotheses of C162–C164 hold: (1,1) → (1,2) → (1,3) → (1,4). -/
def lineDEM : Cell 3 5 → ℚ := fun c =>
  (![![30, 30, 30, 30, 30], ![30, 20, 10, 9, 2], ![30, 30, 30, 30, 30]] c.1) c.2

example : ∃ codes S, updateFlowGrid demoCfg 16 lineDEM = some codes ∧ codes (0, 0) = 0 ∧
    (∀ a b e, FlowsTo codes a e → FlowsTo codes b e → a = b) ∧
    smoothDem (parent (by decide) (by decide) false false codes) codes lineDEM 3 = some S ∧
    S (1, 2) = 29 / 2 := by
  have key : ((updateFlowGrid demoCfg 16 lineDEM).bind fun f =>
      (smoothDem (parent (by decide) (by decide) false false f) f lineDEM 3).map
        fun S => (S (1, 2), f (0, 0),
          (allCells 3 5).all fun c => decide (f c = if c = (1, 1) ∨ c = (1, 2) ∨ c = (1, 3) then 2 else 0))) =
      some (29 / 2, 0, true) := by
    decide +kernel
  obtain ⟨codes, h⟩ := C05_update_flow_grid_terminates demoCfg lineDEM
  rw [h] at key
  simp only [Option.bind_some, Option.map_eq_some_iff, Prod.mk.injEq] at key
  obtain ⟨S, hS, h1, h2, h3⟩ := key
  refine ⟨codes, S, h, h2, ?_, hS, h1⟩
  have hc : codes = fun c => if c = (1, 1) ∨ c = (1, 2) ∨ c = (1, 3) then 2 else 0 := by
    funext c
    have := List.all_eq_true.1 h3 c (mem_allCells c)
    simpa using this
  intro a b e ha hb
  rw [flowsTo_iff] at ha hb
  obtain ⟨k, hk, rfl⟩ := ha
  obtain ⟨j, hj, he⟩ := hb
  rw [hc] at hk hj
  clear h3 hc hS h1 h2 h
  revert he hj hk
  revert a b k j
  decide +kernel

end NewSlope
