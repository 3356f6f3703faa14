import Verif.ChannelModel
import Verif.D8IdProps

/-!
# Lemmas about the channel model: buffered additions and the drainage network
-/

set_option autoImplicit false
set_option linter.unusedSectionVars false

noncomputable section

open scoped BigOperators
open D8 (Cell)
open D8Spec (FlowsTo)

/-- Specification: the sum of `f` over the cells that flow directly to `c`. -/
def ChanSpec.inflow {ny nx : ℕ} (codes : Cell ny nx → ℤ) (f : Cell ny nx → ℝ) (c : Cell ny nx) : ℝ :=
  open Classical in ∑ e ∈ Finset.univ.filter (fun e => FlowsTo codes e c), f e

namespace Chan

open ChanSpec

variable {ny nx : ℕ}

/-- What the proofs need to know about a network: it represents the flow relation of `codes`. -/
structure GoodNet (codes : Cell ny nx → ℤ) (net : Net ny nx) : Prop where
  par_nodup : ∀ k, ((net.w k).map net.parent).Nodup
  disj : ∀ k j c, c ∈ net.w k → c ∈ net.w j → k = j
  flow : ∀ e c, FlowsTo codes e c ↔ ∃ k, e ∈ net.w k ∧ net.parent e = c
  noflow : ∀ c, c ∈ net.noflow ↔ codes c = 0
  noflow_nodup : net.noflow.Nodup
  valid : ∀ c, codes c = 0 ∨ ∃ e, FlowsTo codes c e

theorem cellOf_flat (hy : 0 < ny) (hx : 0 < nx) (e : Cell ny nx) :
    cellOf hy hx ((e.1.val : ℤ) * nx + e.2.val) = e := by
  have hx' : (0:ℤ) < nx := by exact_mod_cast hx
  have h1 : ((e.1.val : ℤ) * nx + e.2.val) / nx = e.1.val := by
    rw [add_comm, Int.add_mul_ediv_right _ _ hx'.ne', Int.ediv_eq_zero_of_lt (by positivity)
      (by exact_mod_cast e.2.isLt)]
    simp
  have h2 : ((e.1.val : ℤ) * nx + e.2.val) % nx = e.2.val := by
    rw [add_comm, Int.add_mul_emod_self_right, Int.emod_eq_of_lt (by positivity)
      (by exact_mod_cast e.2.isLt)]
  have h3 : ((e.1.val : ℤ)) % ny = e.1.val :=
    Int.emod_eq_of_lt (by positivity) (by exact_mod_cast e.1.isLt)
  ext
  · simp [cellOf, h1, h3]
  · simp [cellOf, h2]

/-- The network computed from any DEM represents its flow codes. -/
theorem goodNet_of_dem {K : Type*} [Field K] [LinearOrder K] [IsStrictOrderedRing K]
    {cfg : D8.Config K} {fuel : ℕ} {z : Cell ny nx → K} {codes : Cell ny nx → ℤ}
    (hu : D8.updateFlowGrid cfg fuel z = some codes) (hy : 0 < ny) (hx : 0 < nx) {net : Net ny nx}
    (hn : d8Net hy hx cfg.lrPeriodic cfg.tbPeriodic codes = some net) : GoodNet codes net := by
  unfold d8Net at hn
  obtain ⟨l, hl, rfl⟩ := Option.map_eq_some_iff.1 hn
  have hpar : ∀ e c, FlowsTo codes e c →
      cellOf hy hx (D8.parentID cfg.lrPeriodic cfg.tbPeriodic codes e) = c := by
    intro e c h
    rw [(D8.C03_parent_is_downstream_neighbour hu e).1 c h, cellOf_flat]
  have hmem : ∀ k c, c ∈ D8.flowFromIDs codes k ↔ codes c = 2 ^ k.val :=
    fun k => (D8.C03_flow_lists hu k).2.1
  have hex : ∀ k c, codes c = 2 ^ k.val → FlowsTo codes c (D8.nbr k c) := by
    intro k c h
    exact D8.flowsTo_iff.2 ⟨k, by rw [D8.codeList_eq]; exact h, rfl⟩
  refine ⟨?_, ?_, ?_, ?_, ?_, ?_⟩
  · intro k
    dsimp only
    refine (D8.C03_flow_lists hu k).1.map_on ?_
    intro a ha b hb h
    rw [hpar a _ (hex k a ((hmem k a).1 ha)), hpar b _ (hex k b ((hmem k b).1 hb))] at h
    have := congrArg (D8.nbr (D8.opp k)) h
    rwa [D8.nbr_opp, D8.nbr_opp] at this
  · intro k j c hk hj
    have h1 := (hmem k c).1 hk
    have h2 := (hmem j c).1 hj
    apply D8.codeList_inj
    rw [D8.codeList_eq, D8.codeList_eq, ← h1, h2]
  · intro e c
    constructor
    · intro h
      obtain ⟨k, hk, _⟩ := id h
      exact ⟨k, (hmem k e).2 hk, hpar e c h⟩
    · rintro ⟨k, hk, rfl⟩
      have := hex k e ((hmem k e).1 hk)
      dsimp only
      rw [hpar e _ this]
      exact this
  · intro c
    exact (D8.C03_noflow_ids hu).2.1 l hl c
  · unfold D8.noflowIDs at hl
    dsimp only at hl
    split_ifs at hl
    cases hl
    exact D8.allCells_nodup.filter _
  · intro c
    rcases D8.C04_codes_valid hu c with h | ⟨k, h⟩
    · exact Or.inl h
    · exact Or.inr ⟨_, hex k c h⟩

theorem fancy_fold (v : Cell ny nx → ℝ) (par : Cell ny nx → Cell ny nx) (g : Cell ny nx → ℝ)
    (l : List (Cell ny nx)) (hl : (l.map par).Nodup) (acc : Cell ny nx → ℝ) (c : Cell ny nx)
    (hacc : acc c = v c) :
    (((l.map par).zip (l.map g)).foldl
      (fun acc px => Function.update acc px.1 (v px.1 + px.2)) acc) c =
      v c + ((l.filter (fun e => par e = c)).map g).sum := by
  induction l generalizing acc with
  | nil => simp [hacc]
  | cons e l ih =>
    simp only [List.map_cons, List.nodup_cons] at hl
    simp only [List.map_cons, List.zip_cons_cons, List.foldl_cons]
    by_cases he : par e = c
    · have hnot : ∀ e' ∈ l, par e' ≠ c := by
        intro e' he' h
        exact hl.1 (List.mem_map.2 ⟨e', he', h.trans he.symm⟩)
      have hf : l.filter (fun e => decide (par e = c)) = [] := by
        rw [List.filter_eq_nil_iff]
        intro e' he'
        simpa using hnot e' he'
      -- nothing in the rest writes to c
      have key : ∀ (l : List (Cell ny nx)), (∀ e' ∈ l, par e' ≠ c) → ∀ acc : Cell ny nx → ℝ,
          (((l.map par).zip (l.map g)).foldl
            (fun acc px => Function.update acc px.1 (v px.1 + px.2)) acc) c = acc c := by
        intro l
        induction l with
        | nil => intro _ acc; rfl
        | cons a l ih =>
          intro h acc
          simp only [List.map_cons, List.zip_cons_cons, List.foldl_cons]
          rw [ih (fun e' he' => h e' (List.mem_cons_of_mem _ he'))]
          exact Function.update_of_ne (h a List.mem_cons_self).symm _ _
      rw [key l hnot, List.filter_cons_of_pos (by simpa using he), hf, he]
      simp
    · rw [List.filter_cons_of_neg (by simpa using he)]
      exact ih hl.2 _ (by rw [Function.update_of_ne (fun h => he h.symm), hacc])

theorem fancyAdd_eq (v : Cell ny nx → ℝ) (par : Cell ny nx → Cell ny nx) (g : Cell ny nx → ℝ)
    (l : List (Cell ny nx)) (hl : (l.map par).Nodup) (c : Cell ny nx) :
    fancyAdd v (l.map par) (l.map g) c = v c + ((l.filter (fun e => par e = c)).map g).sum :=
  fancy_fold v par g l hl v c rfl

theorem w_nodup {codes : Cell ny nx → ℤ} {net : Net ny nx} (h : GoodNet codes net) (k : Fin 8) :
    (net.w k).Nodup := (h.par_nodup k).of_map

theorem fold_add (net : Net ny nx) (hn : ∀ k, ((net.w k).map net.parent).Nodup)
    (g : Cell ny nx → ℝ) (ks : List (Fin 8)) (v : Cell ny nx → ℝ) (c : Cell ny nx) :
    (ks.foldl (fun v k => fancyAdd v ((net.w k).map net.parent) ((net.w k).map g)) v) c =
      v c + (ks.map (fun k => (((net.w k).filter (fun e => net.parent e = c)).map g).sum)).sum := by
  induction ks generalizing v with
  | nil => simp
  | cons k ks ih =>
    rw [List.foldl_cons, ih, fancyAdd_eq v net.parent g _ (hn k)]
    simp only [List.map_cons, List.sum_cons]
    ring

open Classical in
theorem fold_inflow {codes : Cell ny nx → ℤ} {net : Net ny nx} (h : GoodNet codes net)
    (g : Cell ny nx → ℝ) (v : Cell ny nx → ℝ) (c : Cell ny nx) :
    ((List.finRange 8).foldl
      (fun v k => fancyAdd v ((net.w k).map net.parent) ((net.w k).map g)) v) c =
      v c + inflow codes g c := by
  rw [fold_add net h.par_nodup]
  congr 1
  rw [← List.ofFn_eq_map, List.sum_ofFn]
  unfold inflow
  have h1 : ∀ k, (((net.w k).filter (fun e => net.parent e = c)).map g).sum =
      ∑ e ∈ Finset.univ.filter (fun e => e ∈ net.w k ∧ net.parent e = c), g e := by
    intro k
    rw [← List.sum_toFinset g ((w_nodup h k).filter _)]
    refine Finset.sum_congr ?_ (fun _ _ => rfl)
    ext e
    simp
  rw [Finset.sum_congr rfl (fun k _ => h1 k)]
  rw [← Finset.sum_biUnion]
  · refine Finset.sum_congr ?_ (fun _ _ => rfl)
    ext e
    simp [h.flow]
  · intro k _ j _ hkj
    simp only [Function.onFun]
    rw [Finset.disjoint_left]
    intro e he he'
    simp only [Finset.mem_filter, Finset.mem_univ, true_and] at he he'
    exact hkj (h.disj k j e he.1 he'.1)

open Classical in
/-- Everything that flows out of a cell with a flow direction arrives in exactly one cell. -/
theorem sum_inflow {codes : Cell ny nx → ℤ} {net : Net ny nx} (h : GoodNet codes net)
    (g : Cell ny nx → ℝ) (h0 : ∀ c, codes c = 0 → g c = 0) :
    ∑ c, inflow codes g c = ∑ c, g c := by
  unfold inflow
  simp only [Finset.sum_filter]
  rw [Finset.sum_comm]
  refine Finset.sum_congr rfl (fun e _ => ?_)
  rcases h.valid e with h1 | ⟨c, hc⟩
  · rw [h0 e h1]; simp
  · rw [Finset.sum_eq_single c]
    · simp [hc]
    · intro b _ hb
      rw [if_neg]
      intro hb'
      exact hb (D8.flowsTo_det hb' hc)
    · simp

theorem noflow_not_flows {codes : Cell ny nx → ℤ} {c : Cell ny nx} (h : codes c = 0) :
    ∀ e, ¬ FlowsTo codes c e := by
  rintro e ⟨k, hk, _⟩
  rw [h] at hk
  exact absurd hk (by positivity)

end Chan
