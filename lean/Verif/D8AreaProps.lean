import Verif.D8Props
import Mathlib.Algebra.BigOperators.Fin
import Mathlib.Algebra.Order.BigOperators.Group.Finset
import Mathlib.Data.Finset.Card
import Mathlib.Data.Finite.Prod
import Mathlib.Order.WellFounded

/-! # Contributing area (C06) -/

set_option linter.unusedSectionVars false

namespace D8
open D8Spec

variable {ny nx : ℕ}

/-! ## Helper lemmas -/

theorem acc_of_no_cycle {d : Cell ny nx → ℤ} {c : Cell ny nx}
    (h : ∀ e, Drains d e c → ¬ Relation.TransGen (FlowsTo d) e e) : Acc (FlowsTo d) c := by
  let R : Cell ny nx → Cell ny nx → Prop := fun a b => Relation.TransGen (FlowsTo d) a b ∧ Drains d b c
  have : IsTrans (Cell ny nx) R := ⟨fun a b e h1 h2 => ⟨h1.1.trans h2.1, h2.2⟩⟩
  have : Std.Irrefl R := ⟨fun a h1 => h a h1.2 h1.1⟩
  have hwf : WellFounded R := Finite.wellFounded_of_trans_of_irrefl R
  have key : ∀ a, Acc R a → Drains d a c → Acc (FlowsTo d) a := by
    intro a ha
    induction ha with
    | intro a _ ih =>
      intro hac
      constructor
      intro b hb
      exact ih b ⟨.single hb, hac⟩ (Relation.ReflTransGen.head hb hac)
  exact key c (hwf.apply c) Relation.ReflTransGen.refl

theorem no_cycle_of_acc {d : Cell ny nx → ℤ} {c : Cell ny nx} (h : Acc (FlowsTo d) c) :
    ∀ e, Drains d e c → ¬ Relation.TransGen (FlowsTo d) e e := by
  induction h with
  | intro c hacc ih =>
    intro e hec hcyc
    rcases Relation.ReflTransGen.cases_tail hec with h | ⟨b, hb, hbc⟩
    · subst h
      obtain ⟨b, hb, hbc⟩ := Relation.TransGen.tail'_iff.1 hcyc
      have h1 : Drains d b b := Relation.ReflTransGen.refl
      exact ih b hbc b h1 (Relation.TransGen.head' hbc hb)
    · exact ih b hbc e hb hcyc

/-- flow is deterministic: two places water of `x` passes through are comparable -/
theorem drains_linear {d : Cell ny nx → ℤ} {x a b : Cell ny nx} (h1 : Drains d x a)
    (h2 : Drains d x b) : Drains d a b ∨ Drains d b a := by
  induction h1 with
  | refl => exact Or.inl h2
  | tail h3 h4 ih =>
    rename_i y w
    rcases ih with h | h
    · rcases Relation.ReflTransGen.cases_head h with h5 | ⟨v, hv, hvb⟩
      · subst h5; exact Or.inr (.single h4)
      · rw [flowsTo_det hv h4] at hvb; exact Or.inl hvb
    · exact Or.inr (h.tail h4)

section
variable {K : Type*} [Field K] [LinearOrder K] [IsStrictOrderedRing K]

theorem flowsTo_children {d : Cell ny nx → ℤ} {c e : Cell ny nx} :
    FlowsTo d e c ↔ ∃ k, d (nbr k c) = codeOpps k ∧ e = nbr k c := by
  rw [flowsTo_iff]
  constructor
  · rintro ⟨k, hk, rfl⟩
    refine ⟨opp k, ?_, (nbr_opp k e).symm⟩
    rw [nbr_opp, codeOpps_eq, opp_opp, hk]
  · rintro ⟨k, hk, rfl⟩
    exact ⟨opp k, by rw [hk, codeOpps_eq], (nbr_opp k c).symm⟩

open Classical in
theorem assignArea_eq (pa : Cell ny nx → K) (d : Cell ny nx → ℤ) (A : Cell ny nx → K)
    (c : Cell ny nx) :
    assignArea pa d A c = pa c + ∑ e ∈ Finset.univ.filter (fun e => FlowsTo d e c), A e := by
  have h1 : assignArea pa d A c =
      pa c + ∑ k : Fin 8, if d (nbr k c) = codeOpps k then A (nbr k c) else 0 := by
    rw [Fin.sum_univ_eight]
    unfold assignArea
    simp only
    have hadd : ∀ (a : K) (k : Fin 8), (if d (nbr k c) = codeOpps k then a + A (nbr k c) else a)
        = a + if d (nbr k c) = codeOpps k then A (nbr k c) else 0 := by
      intro a k; split_ifs <;> simp
    simp only [hadd]
    ring
  rw [h1, ← Finset.sum_filter]
  congr 1
  refine Finset.sum_bij (fun k _ => nbr k c) ?_ ?_ ?_ ?_
  · intro k hk
    simp only [Finset.mem_filter, Finset.mem_univ, true_and] at hk ⊢
    exact flowsTo_children.2 ⟨k, hk, rfl⟩
  · intro k hk k' hk' h
    simp only [Finset.mem_filter, Finset.mem_univ, true_and] at hk hk'
    rw [h, hk', codeOpps_eq, codeOpps_eq] at hk
    have := congrArg opp (codeList_inj hk)
    rw [opp_opp, opp_opp] at this
    exact this.symm
  · intro e he
    simp only [Finset.mem_filter, Finset.mem_univ, true_and] at he
    obtain ⟨k, hk, rfl⟩ := flowsTo_children.1 he
    exact ⟨k, by simpa using hk, rfl⟩
  · intros; rfl

open Classical in
theorem upstreamArea_rec (pa : Cell ny nx → K) {d : Cell ny nx → ℤ} {c : Cell ny nx}
    (hacc : Acc (FlowsTo d) c) :
    upstreamArea pa d c =
      pa c + ∑ e ∈ Finset.univ.filter (fun e => FlowsTo d e c), upstreamArea pa d e := by
  have hno := no_cycle_of_acc hacc
  unfold upstreamArea
  have hset : Finset.univ.filter (fun x => Drains d x c) =
      insert c ((Finset.univ.filter (fun e => FlowsTo d e c)).biUnion
        (fun e => Finset.univ.filter (fun x => Drains d x e))) := by
    ext x
    simp only [Finset.mem_filter, Finset.mem_univ, true_and, Finset.mem_insert,
      Finset.mem_biUnion]
    constructor
    · intro h
      rcases Relation.ReflTransGen.cases_tail h with h | ⟨b, hb, hbc⟩
      · exact Or.inl h.symm
      · exact Or.inr ⟨b, hbc, hb⟩
    · rintro (h | ⟨b, hbc, hb⟩)
      · subst h; exact .refl
      · exact hb.tail hbc
  rw [hset, Finset.sum_insert, Finset.sum_biUnion]
  · intro e1 h1 e2 h2 hne
    simp only [Finset.coe_filter, Finset.mem_univ, true_and, Set.mem_ofPred_eq] at h1 h2
    rw [Function.onFun, Finset.disjoint_left]
    intro x hx1 hx2
    simp only [Finset.mem_filter, Finset.mem_univ, true_and] at hx1 hx2
    have key : ∀ a b, FlowsTo d a c → FlowsTo d b c → a ≠ b → Drains d a b → False := by
      intro a b ha hb hab hdr
      rcases Relation.ReflTransGen.cases_head hdr with h | ⟨v, hv, hvb⟩
      · exact hab h
      · rw [flowsTo_det hv ha] at hvb
        exact hno c .refl (Relation.TransGen.tail' hvb hb)
    rcases drains_linear hx1 hx2 with h | h
    · exact key e1 e2 h1 h2 hne h
    · exact key e2 e1 h2 h1 hne.symm h
  · simp only [Finset.mem_biUnion, Finset.mem_filter, Finset.mem_univ, true_and, not_exists,
      not_and]
    intro b hbc hcb
    exact hno c .refl (Relation.TransGen.tail' hcb hbc)

theorem upstreamArea_pos {pa : Cell ny nx → K} (hpa : ∀ c, 0 < pa c) (d : Cell ny nx → ℤ)
    (c : Cell ny nx) : 0 < upstreamArea pa d c := by
  classical
  unfold upstreamArea
  refine Finset.sum_pos (fun e _ => hpa e) ⟨c, ?_⟩
  simp only [Finset.mem_filter, Finset.mem_univ, true_and]
  exact Relation.ReflTransGen.refl

theorem ready_iff {d : Cell ny nx → ℤ} {A : Cell ny nx → K} {c : Cell ny nx} :
    ready d A c = true ↔ ∀ e, FlowsTo d e c → A e ≠ 0 := by
  have h1 : ready d A c = true ↔ ∀ k : Fin 8, ¬ (d (nbr k c) = codeOpps k ∧ A (nbr k c) = 0) := by
    simp only [ready, Bool.not_eq_true', Bool.or_eq_false_iff, decide_eq_false_iff_not,
      Fin.forall_fin_succ]
    simp only [Fin.isValue, not_and, and_assoc, IsEmpty.forall_iff, and_true]
    exact Iff.rfl
  rw [h1]
  constructor
  · intro h e he h0
    obtain ⟨k, hk, rfl⟩ := flowsTo_children.1 he
    exact h k ⟨hk, h0⟩
  · rintro h k ⟨hk, h0⟩
    exact h _ (flowsTo_children.2 ⟨k, hk, rfl⟩) h0

/-- invariant of the area loop -/
def AreaInv (pa : Cell ny nx → K) (d : Cell ny nx → ℤ) (A : Cell ny nx → K) : Prop :=
  ∀ c, A c = 0 ∨ (d c ≠ 0 ∧ Acc (FlowsTo d) c ∧ A c = upstreamArea pa d c)

theorem flowsTo_ne_zero {d : Cell ny nx → ℤ} {c e : Cell ny nx} (h : FlowsTo d c e) : d c ≠ 0 := by
  obtain ⟨k, hk, _⟩ := h
  rw [hk]; positivity

theorem areaPass_known {pa : Cell ny nx → K} {d : Cell ny nx → ℤ} {A : Cell ny nx → K}
    (hA : AreaInv pa d A) {c : Cell ny nx} (hu : unknown d A c = true)
    (hr : ready d A c = true) :
    Acc (FlowsTo d) c ∧ areaPass pa d A c = upstreamArea pa d c := by
  classical
  rw [ready_iff] at hr
  have hch : ∀ e, FlowsTo d e c → Acc (FlowsTo d) e ∧ A e = upstreamArea pa d e := by
    intro e he
    rcases hA e with h | ⟨_, h1, h2⟩
    · exact absurd h (hr e he)
    · exact ⟨h1, h2⟩
  have hacc : Acc (FlowsTo d) c := ⟨c, fun e he => (hch e he).1⟩
  refine ⟨hacc, ?_⟩
  unfold areaPass
  rw [hu, ready_iff.2 hr]
  simp only [Bool.and_self, if_true]
  rw [assignArea_eq, upstreamArea_rec pa hacc]
  congr 1
  refine Finset.sum_congr rfl ?_
  intro e he
  simp only [Finset.mem_filter, Finset.mem_univ, true_and] at he
  exact (hch e he).2

theorem areaInv_pass {pa : Cell ny nx → K} {d : Cell ny nx → ℤ}
    {A : Cell ny nx → K} (hA : AreaInv pa d A) : AreaInv pa d (areaPass pa d A) := by
  intro c
  by_cases h : unknown d A c = true ∧ ready d A c = true
  · right
    have := areaPass_known hA h.1 h.2
    have hu := h.1
    simp only [unknown, decide_eq_true_eq] at hu
    exact ⟨hu.2, this⟩
  · have : areaPass pa d A c = A c := by
      unfold areaPass
      rw [if_neg]; simpa using h
    rw [this]; exact hA c

theorem areaPass_unknown_iff {pa : Cell ny nx → K} (hpa : ∀ c, 0 < pa c) {d : Cell ny nx → ℤ}
    {A : Cell ny nx → K} (hA : AreaInv pa d A) (c : Cell ny nx) :
    unknown d (areaPass pa d A) c = true ↔ (unknown d A c = true ∧ ¬ ready d A c = true) := by
  by_cases h : unknown d A c = true ∧ ready d A c = true
  · have h2 := (areaPass_known hA h.1 h.2).2
    have h3 : areaPass pa d A c ≠ 0 := by rw [h2]; exact (upstreamArea_pos hpa d c).ne'
    simp [unknown, h3]
    intro _ _; simpa using h.2
  · have h2 : areaPass pa d A c = A c := by
      unfold areaPass
      rw [if_neg]; simpa using h
    have h3 : unknown d (areaPass pa d A) c = unknown d A c := by simp only [unknown, h2]
    rw [h3]
    exact ⟨fun hu => ⟨hu, fun hr => h ⟨hu, hr⟩⟩, fun hu => hu.1⟩

/-- what holds when the loop exits: every cell still unknown has an unknown child -/
def AreaDone (d : Cell ny nx → ℤ) (A : Cell ny nx → K) : Prop :=
  ∀ c, d c ≠ 0 → A c = 0 → ∃ e, FlowsTo d e c ∧ A e = 0

theorem areaLoop_spec {pa : Cell ny nx → K} (hpa : ∀ c, 0 < pa c) {d : Cell ny nx → ℤ} :
    ∀ (fuel : ℕ) (A A' : Cell ny nx → K), AreaInv pa d A → areaLoop pa d fuel A = some A' →
      AreaInv pa d A' ∧ AreaDone d A' := by
  intro fuel
  induction fuel with
  | zero => intro A A' _ h; simp [areaLoop] at h
  | succ fuel ih =>
    intro A A' hA h
    simp only [areaLoop] at h
    split_ifs at h with h1 h2
    · cases h
      refine ⟨areaInv_pass hA, ?_⟩
      intro c hd h0
      have hu : unknown d (areaPass pa d A) c = true := by simp [unknown, hd, h0]
      have hu' := (areaPass_unknown_iff hpa hA c).1 hu
      rcases h2 with h2 | h2
      · exfalso
        have hss : Finset.univ.filter (fun c => (unknown d A c && ready d A c) = true) =
            Finset.univ.filter (fun c => unknown d A c = true) := by
          refine Finset.eq_of_subset_of_card_le ?_ (le_of_eq ?_)
          · intro x hx
            simp only [Finset.mem_filter, Finset.mem_univ, true_and, Bool.and_eq_true] at hx ⊢
            exact hx.1
          · have : nReady d A = nUnknown d A := by simpa using h2
            exact this.symm
        have : c ∈ Finset.univ.filter (fun c => unknown d A c = true) := by simpa using hu'.1
        rw [← hss] at this
        simp only [Finset.mem_filter, Finset.mem_univ, true_and, Bool.and_eq_true] at this
        exact hu'.2 this.2
      · have hnone : ∀ x, ¬ (unknown d A x = true ∧ ready d A x = true) := by
          have : nReady d A = 0 := by simpa using h2
          unfold nReady at this
          rw [Finset.card_eq_zero, Finset.filter_eq_empty_iff] at this
          intro x hx
          exact this (Finset.mem_univ x) (by simpa using hx)
        have hsame : areaPass pa d A = A := by
          funext x
          unfold areaPass
          rw [if_neg]
          simpa using hnone x
        rw [hsame] at h0 ⊢
        by_contra hcon
        exact hu'.2 (ready_iff.2 (fun e he h0' => hcon ⟨e, he, h0'⟩))
    · exact ih _ _ (areaInv_pass hA) h
    · cases h
      refine ⟨hA, ?_⟩
      intro c hd h0
      exfalso
      have : nUnknown d A = 0 := by simpa using h1
      unfold nUnknown at this
      rw [Finset.card_eq_zero, Finset.filter_eq_empty_iff] at this
      exact this (Finset.mem_univ c) (by simp [unknown, hd, h0])

theorem areaLoop_isSome {pa : Cell ny nx → K} (hpa : ∀ c, 0 < pa c) {d : Cell ny nx → ℤ} :
    ∀ (fuel : ℕ) (A : Cell ny nx → K), AreaInv pa d A → nUnknown d A < fuel →
      ∃ A', areaLoop pa d fuel A = some A' := by
  intro fuel
  induction fuel with
  | zero => intro A _ h; omega
  | succ fuel ih =>
    intro A hA hlt
    simp only [areaLoop]
    split_ifs with h1 h2
    · exact ⟨_, rfl⟩
    · refine ih _ (areaInv_pass hA) ?_
      have hlt' : nUnknown d (areaPass pa d A) < nUnknown d A := by
        push Not at h2
        have hpos : 0 < nReady d A := Nat.pos_of_ne_zero h2.2
        unfold nReady at hpos
        obtain ⟨x, hx⟩ := Finset.card_pos.1 hpos
        simp only [Finset.mem_filter, Finset.mem_univ, true_and, Bool.and_eq_true] at hx
        unfold nUnknown
        refine Finset.card_lt_card ?_
        rw [Finset.ssubset_iff_of_subset]
        · refine ⟨x, by simpa using hx.1, ?_⟩
          simp only [Finset.mem_filter, Finset.mem_univ, true_and]
          intro h
          exact ((areaPass_unknown_iff hpa hA x).1 h).2 hx.2
        · intro y hy
          simp only [Finset.mem_filter, Finset.mem_univ, true_and] at hy ⊢
          exact ((areaPass_unknown_iff hpa hA y).1 hy).1
      omega
    · exact ⟨_, rfl⟩

theorem areaInv_zero (pa : Cell ny nx → K) (d : Cell ny nx → ℤ) : AreaInv pa d (fun _ => 0) :=
  fun _ => Or.inl rfl

/-! ## The property -/

/-- **C06a.** With positive pixel areas the computation stops (after at most one pass per cell),
whatever the flow codes. -/
theorem C06_area_terminates {pa : Cell ny nx → K} (hpa : ∀ c, 0 < pa c) (d : Cell ny nx → ℤ) :
    ∃ A, updateAreaGrid pa d (ny * nx + 1) = some A := by
  refine areaLoop_isSome hpa _ _ (areaInv_zero pa d) ?_
  have : nUnknown d (fun _ => (0:K)) ≤ ny * nx := by
    unfold nUnknown
    refine (Finset.card_le_univ _).trans ?_
    simp [Cell]
  omega

/-- **C06b.** For arbitrary grids of codes: when the loop stops, a cell with a flow direction
whose upstream cells contain no cycle holds exactly the sum of the areas of all cells draining
through it; cells without flow direction, and cells fed by a cycle, hold 0. -/
theorem C06_area_is_upstream_sum {pa : Cell ny nx → K} (hpa : ∀ c, 0 < pa c)
    {d : Cell ny nx → ℤ} {fuel : ℕ} {A : Cell ny nx → K}
    (h : updateAreaGrid pa d fuel = some A) (c : Cell ny nx) :
    (d c ≠ 0 → (∀ e, Drains d e c → ¬ Relation.TransGen (FlowsTo d) e e) →
      A c = upstreamArea pa d c) ∧
    (d c = 0 → A c = 0) ∧
    ((∃ e, Drains d e c ∧ Relation.TransGen (FlowsTo d) e e) → A c = 0) := by
  obtain ⟨hinv, hdone⟩ := areaLoop_spec hpa fuel _ _ (areaInv_zero pa d) h
  refine ⟨?_, ?_, ?_⟩
  · intro hd hno
    have hacc := acc_of_no_cycle hno
    have hne : A c ≠ 0 := by
      clear hno
      induction hacc with
      | intro c _ ih =>
        intro h0
        obtain ⟨e, he, he0⟩ := hdone c hd h0
        exact ih e he (flowsTo_ne_zero he) he0
    rcases hinv c with h | h
    · exact absurd h hne
    · exact h.2.2
  · intro hd
    rcases hinv c with h | h
    · exact h
    · exact absurd hd h.1
  · rintro ⟨e, he, hcyc⟩
    rcases hinv c with h | h
    · exact h
    · exact absurd hcyc (no_cycle_of_acc h.2.1 e he)

/-- **C06c.** For the codes computed from any DEM: contributing area of every cell with a flow
direction is the sum of the pixel areas of all cells draining through it, and it strictly
increases downstream. -/
theorem C06_area_from_dem {cfg : Config K} (hpos : cfg.Pos) {fuel fuel' : ℕ}
    {z : Cell ny nx → K} {codes : Cell ny nx → ℤ} (hu : updateFlowGrid cfg fuel z = some codes)
    {pa : Cell ny nx → K} (hpa : ∀ c, 0 < pa c) {A : Cell ny nx → K}
    (hA : updateAreaGrid pa codes fuel' = some A) :
    (∀ c, codes c ≠ 0 → A c = upstreamArea pa codes c) ∧
    (∀ c e, FlowsTo codes c e → codes e ≠ 0 → A c + pa e ≤ A e) := by
  have hac := C04_acyclic hpos hu
  have h1 : ∀ c, codes c ≠ 0 → A c = upstreamArea pa codes c := fun c hc =>
    (C06_area_is_upstream_sum hpa hA c).1 hc (fun e _ => hac e)
  refine ⟨h1, ?_⟩
  intro c e hce he
  classical
  rw [h1 c (flowsTo_ne_zero hce), h1 e he,
    upstreamArea_rec pa (c := e) (acc_of_no_cycle (fun x _ => hac x)),
    add_comm (upstreamArea pa codes c)]
  refine add_le_add le_rfl ?_
  refine Finset.single_le_sum (f := fun x => upstreamArea pa codes x)
    (fun x _ => (upstreamArea_pos hpa codes x).le) ?_
  simpa using hce

end

/-- **C06d (negative).** With a pixel area of zero the loop need not stop: a one-row grid with
cells 0 → 1 → 2 and zero area for cell 0 is processed forever. -/
theorem C06_zero_area_never_stops (fuel : ℕ) :
    updateAreaGrid (ny := 1) (nx := 3) (K := ℚ) (fun c => if c.2 = 0 then 0 else 1)
      (fun c => if c.2 = 2 then 0 else 2) fuel = none := by
  unfold updateAreaGrid
  induction fuel with
  | zero => rfl
  | succ n ih =>
    have h1 : nUnknown (ny := 1) (nx := 3) (fun c => if c.2 = 2 then 0 else 2)
        (fun _ => (0:ℚ)) = 2 := by decide +kernel
    have h2 : nReady (ny := 1) (nx := 3) (fun c => if c.2 = 2 then 0 else 2)
        (fun _ => (0:ℚ)) = 1 := by decide +kernel
    have h3 : areaPass (ny := 1) (nx := 3) (K := ℚ) (fun c => if c.2 = 0 then 0 else 1)
      (fun c => if c.2 = 2 then 0 else 2) (fun _ => 0) = fun _ => 0 := by
      funext c
      revert c
      decide +kernel
    simp only [areaLoop, h1, h2, h3]
    simpa using ih

/-- Concrete case: the demo DEM with unit areas; cell (1,3) drains five cells. -/
example : ∃ codes A, updateFlowGrid demoCfg 21 demoDEM = some codes ∧
    updateAreaGrid (fun _ => (1:ℚ)) codes 21 = some A ∧
    A (1, 3) = 5 ∧ A (1, 2) = 2 ∧ A (2, 1) = 1 ∧ A (1, 4) = 0 := by
  obtain ⟨codes, h⟩ := C05_update_flow_grid_terminates demoCfg demoDEM
  obtain ⟨A, hA⟩ := C06_area_terminates (pa := fun _ => (1:ℚ)) (fun _ => one_pos) codes
  refine ⟨codes, A, h, hA, ?_⟩
  have key : ((updateFlowGrid demoCfg 21 demoDEM).bind fun f =>
      (updateAreaGrid (fun _ => (1:ℚ)) f 21).map fun A =>
      (A (1, 3), A (1, 2), A (2, 1), A (1, 4))) = some (5, 2, 1, 0) := by decide +kernel
  rw [h, Option.bind_some, hA] at key
  simpa using key

end D8
