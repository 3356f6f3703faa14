import Verif.ConflictModel
import Mathlib.Algebra.Order.Field.Rat
import Mathlib.Tactic.Ring
import Mathlib.Tactic.Linarith
import Mathlib.Tactic.FieldSimp
import Mathlib.Tactic.NormNum
import Mathlib.Tactic.FinCases

/-!
# Properties of the conflict spreading model
-/

set_option autoImplicit false
set_option linter.unusedSectionVars false

namespace Conflict

/-! ## Specification vocabulary -/

/-- The cell is on one of the four edges of the grid. -/
def OnEdge {ny nx : ℕ} (c : Cell ny nx) : Prop :=
  c.1.val = 0 ∨ c.1.val + 1 = ny ∨ c.2.val = 0 ∨ c.2.val + 1 = nx

instance {ny nx : ℕ} (c : Cell ny nx) : Decidable (OnEdge c) := by unfold OnEdge; infer_instance

/-- Two different cells that touch (also at a corner). -/
def Adjacent {ny nx : ℕ} (c e : Cell ny nx) : Prop :=
  c ≠ e ∧ |(c.1.val : ℤ) - e.1.val| ≤ 1 ∧ |(c.2.val : ℤ) - e.2.val| ≤ 1

instance {ny nx : ℕ} (c e : Cell ny nx) : Decidable (Adjacent c e) := by
  unfold Adjacent; infer_instance

section
variable {ny nx : ℕ}

/-! ## Lemmas on cells -/

theorem mem_cells (c : Cell ny nx) : c ∈ cells ny nx := by
  unfold cells
  rw [List.mem_flatMap]
  exact ⟨c.1, List.mem_finRange _, List.mem_map.2 ⟨c.2, List.mem_finRange _, rfl⟩⟩

theorem nodup_cells : (cells ny nx).Nodup := by
  unfold cells
  rw [List.nodup_flatMap]
  refine ⟨fun i _ => (List.nodup_finRange nx).map (fun a b h => (Prod.mk.inj h).2), ?_⟩
  refine (List.nodup_finRange ny).pairwise_of_forall_ne ?_
  intro a _ b _ hab
  simp only [Function.onFun]
  rw [List.disjoint_left]
  intro x hx hy
  obtain ⟨_, _, rfl⟩ := List.mem_map.1 hx
  obtain ⟨_, _, h⟩ := List.mem_map.1 hy
  exact hab (Prod.mk.inj h).1.symm

theorem length_filter_cells (w : Cell ny nx → Bool) :
    ((cells ny nx).filter (fun c => w c)).length = count w := by
  unfold count
  rw [← List.toFinset_card_of_nodup (nodup_cells.filter _)]
  congr 1
  ext c
  simp [mem_cells]

theorem nbr_interior {c : Cell ny nx} (h : ¬ OnEdge c) (k : Fin 8) :
    ∃ e, nbr c k = some e ∧ nb c k = e ∧ Adjacent c e ∧
      (e.1.val : ℤ) = c.1.val + (offset k).1 ∧ (e.2.val : ℤ) = c.2.val + (offset k).2 := by
  unfold OnEdge at h
  push Not at h
  obtain ⟨h1, h2, h3, h4⟩ := h
  have hr := c.1.isLt
  have hc := c.2.isLt
  have hb : -1 ≤ (offset k).1 ∧ (offset k).1 ≤ 1 ∧ -1 ≤ (offset k).2 ∧ (offset k).2 ≤ 1 ∧
      ((offset k).1 ≠ 0 ∨ (offset k).2 ≠ 0) := by
    fin_cases k <;> decide
  obtain ⟨b1, b2, b3, b4, b5⟩ := hb
  have e1 : npIdx ny (c.1.val + (offset k).1)
      = some ⟨((c.1.val : ℤ) + (offset k).1).toNat, by omega⟩ := by
    unfold npIdx
    rw [dif_pos (by omega)]
  have e2 : npIdx nx (c.2.val + (offset k).2)
      = some ⟨((c.2.val : ℤ) + (offset k).2).toNat, by omega⟩ := by
    unfold npIdx
    rw [dif_pos (by omega)]
  have e3 : nbr c k = some (⟨((c.1.val : ℤ) + (offset k).1).toNat, by omega⟩,
      ⟨((c.2.val : ℤ) + (offset k).2).toNat, by omega⟩) := by
    unfold nbr
    rw [e1, e2]
  refine ⟨_, e3, by unfold nb; rw [e3]; rfl, ⟨?_, ?_, ?_⟩, ?_, ?_⟩
  · intro he
    have p1 := congrArg (fun x : Cell ny nx => (x.1.val : ℤ)) he
    have p2 := congrArg (fun x : Cell ny nx => (x.2.val : ℤ)) he
    simp only at p1 p2
    omega
  · simp only; rw [abs_le]; omega
  · simp only; rw [abs_le]; omega
  · simp only; omega
  · simp only; omega

theorem adjacent_is_nbr {c e : Cell ny nx} (h : ¬ OnEdge c) (ha : Adjacent c e) :
    ∃ k, nb c k = e := by
  obtain ⟨hne, h1, h2⟩ := ha
  rw [abs_le] at h1 h2
  have hk : ∃ k : Fin 8, (e.1.val : ℤ) = c.1.val + (offset k).1 ∧
      (e.2.val : ℤ) = c.2.val + (offset k).2 := by
    have hx : ¬ ((e.1.val : ℤ) = c.1.val ∧ (e.2.val : ℤ) = c.2.val) := by
      rintro ⟨p, q⟩
      apply hne
      ext <;> omega
    have d1 : (e.1.val : ℤ) = c.1.val + -1 ∨ (e.1.val : ℤ) = c.1.val + 0 ∨
      (e.1.val : ℤ) = c.1.val + 1 := by omega
    have d2 : (e.2.val : ℤ) = c.2.val + -1 ∨ (e.2.val : ℤ) = c.2.val + 0 ∨
      (e.2.val : ℤ) = c.2.val + 1 := by omega
    rcases d1 with d1 | d1 | d1 <;> rcases d2 with d2 | d2 | d2
    · exact ⟨0, d1, d2⟩
    · exact ⟨1, d1, d2⟩
    · exact ⟨2, d1, d2⟩
    · exact ⟨3, d1, d2⟩
    · exact absurd ⟨by simpa using d1, by simpa using d2⟩ hx
    · exact ⟨4, d1, d2⟩
    · exact ⟨5, d1, d2⟩
    · exact ⟨6, d1, d2⟩
    · exact ⟨7, d1, d2⟩
  obtain ⟨k, k1, k2⟩ := hk
  obtain ⟨e', -, h4, -, h5, h6⟩ := nbr_interior h k
  refine ⟨k, ?_⟩
  rw [h4]
  ext <;> omega

end

section
variable {ny nx : ℕ} {K : Type*} [Field K] [LinearOrder K] [IsStrictOrderedRing K]

theorem maxOf_nonneg (l : List K) : 0 ≤ maxOf l := by
  induction l with
  | nil => exact le_rfl
  | cons a l ih => exact le_max_of_le_right ih

theorem le_maxOf {l : List K} {x : K} (h : x ∈ l) : x ≤ maxOf l := by
  induction l with
  | nil => simp at h
  | cons a l ih =>
    rcases List.mem_cons.1 h with rfl | h
    · exact le_max_left _ _
    · exact le_max_of_le_right (ih h)

theorem initU_nonneg (P : Params ny nx K) (c : Cell ny nx) : 0 ≤ initU P c := by
  unfold initU
  split_ifs
  · exact le_rfl
  · cases P.u0 with
    | none => exact zero_le_one
    | some u => exact le_max_right _ _

theorem initU_edge (P : Params ny nx K) {c : Cell ny nx} (h : OnEdge c) : initU P c = 0 := by
  unfold initU
  unfold OnEdge at h
  rw [if_pos h]

theorem pEmerge_edge (P : Params ny nx K) {c : Cell ny nx} (h : initU P c = 0) :
    pEmerge P c = 0 := by
  unfold pEmerge; rw [h, mul_zero]

theorem pSpread_zero (P : Params ny nx K) {c : Cell ny nx} {k : Fin 8}
    (h : initU P (nb c k) = 0) : pSpread P c k = 0 := by
  unfold pSpread
  simp only [h, mul_zero, zero_div, ite_self]

theorem bern_zero (r : Bool) : bern (0 : K) r = false := by simp [bern]

/-! ## The parts of a step -/

theorem mem_hits {P : Params ny nx K} {b : Cell ny nx → Fin 8 → Bool} {s : State ny nx}
    {e : Cell ny nx} {i : ℕ} : (e, i) ∈ hits P b s ↔ ∃ c k, s.S c = true ∧ nb c k = e ∧
      s.S e = false ∧ bern (pSpread P c k) (b c k) = true ∧ s.IDs c = i := by
  unfold hits
  simp only [List.mem_flatMap, List.mem_filter, mem_cells, true_and, List.mem_filterMap,
    List.mem_finRange]
  constructor
  · rintro ⟨c, hc, k, hk⟩
    split_ifs at hk with hh
    simp only [Option.some.injEq, Prod.mk.injEq] at hk
    obtain ⟨rfl, rfl⟩ := hk
    exact ⟨c, k, hc, rfl, hh.1, hh.2, rfl⟩
  · rintro ⟨c, k, hc, rfl, h1, h2, rfl⟩
    exact ⟨c, hc, k, by simp [h1, h2]⟩

theorem foldl_update_not_mem {α β : Type*} [DecidableEq α] (l : List (α × β)) (f : α → β) (a : α)
    (h : a ∉ l.map Prod.fst) : l.foldl (fun g e => Function.update g e.1 e.2) f a = f a := by
  induction l generalizing f with
  | nil => rfl
  | cons x l ih =>
    simp only [List.map_cons, List.mem_cons, not_or] at h
    rw [List.foldl_cons, ih _ h.2, Function.update_of_ne h.1]

theorem foldl_update_mem {α β : Type*} [DecidableEq α] (l : List (α × β)) (f : α → β) (a : α)
    (h : a ∈ l.map Prod.fst) :
    (a, l.foldl (fun g e => Function.update g e.1 e.2) f a) ∈ l := by
  induction l generalizing f with
  | nil => simp at h
  | cons x l ih =>
    rw [List.foldl_cons]
    by_cases hl : a ∈ l.map Prod.fst
    · exact List.mem_cons_of_mem _ (ih _ hl)
    · have hx : a = x.1 := by
        simp only [List.map_cons, List.mem_cons] at h
        exact h.resolve_right hl
      rw [foldl_update_not_mem l _ a hl, hx, Function.update_self]
      simp

/-- What a step of spreading does. -/
theorem spread_spec {P : Params ny nx K} {b : Cell ny nx → Fin 8 → Bool} {s s' : State ny nx}
    (h : spread P b s = .ok s') :
    (∀ e, s'.S e = true ↔ s.S e = true ∨
      ∃ c k, s.S c = true ∧ nb c k = e ∧ bern (pSpread P c k) (b c k) = true) ∧
    (∀ e, s.S e = true → s'.IDs e = s.IDs e) ∧
    (∀ e, s'.S e = false → s'.IDs e = s.IDs e) ∧
    (∀ e, s.S e = false → s'.S e = true → ∃ c k, s.S c = true ∧ nb c k = e ∧
      s'.IDs e = s.IDs c) ∧
    s'.startIndex = s.startIndex ∧ s'.timeIndex = s.timeIndex ∧
    s'.nConflict - count s'.S = s.nConflict - count s.S := by
  unfold spread at h
  dsimp only at h
  by_cases h0 : count s.S = 0
  · rw [if_pos h0, Except.ok.injEq] at h
    subst h
    have hS : ∀ c, s.S c = false := by
      intro c
      by_contra hc
      have : c ∈ Finset.univ.filter (fun c => s.S c = true) := by simpa using hc
      rw [Finset.card_eq_zero.1 h0] at this
      simp at this
    refine ⟨fun e => ?_, fun _ _ => rfl, fun _ _ => rfl, ?_, rfl, rfl, rfl⟩
    · simp [hS]
    · intro e h1 h2; rw [h1] at h2; simp at h2
  · rw [if_neg h0] at h
    split_ifs at h with h1 h2
    rw [Except.ok.injEq] at h
    subst h
    have hmem : ∀ e, e ∈ (hits P b s).map Prod.fst ↔ s.S e = false ∧
        ∃ c k, s.S c = true ∧ nb c k = e ∧ bern (pSpread P c k) (b c k) = true := by
      intro e
      rw [List.mem_map]
      constructor
      · rintro ⟨⟨e', i⟩, hx, rfl⟩
        obtain ⟨c, k, p1, p2, p3, p4, -⟩ := mem_hits.1 hx
        exact ⟨p3, c, k, p1, p2, p4⟩
      · rintro ⟨p3, c, k, p1, p2, p4⟩
        exact ⟨(e, s.IDs c), mem_hits.2 ⟨c, k, p1, p2, p3, p4, rfl⟩, rfl⟩
    refine ⟨?_, ?_, ?_, ?_, rfl, rfl, ?_⟩
    · intro e
      dsimp only
      by_cases he : e ∈ (hits P b s).map Prod.fst
      · rw [if_pos he]
        simp only [true_iff]
        exact Or.inr ((hmem e).1 he).2
      · rw [if_neg he]
        constructor
        · exact Or.inl
        · rintro (h | h)
          · exact h
          · by_contra hn
            exact he ((hmem e).2 ⟨by simpa using hn, h⟩)
    · intro e he
      apply foldl_update_not_mem
      intro hx
      rw [((hmem e).1 hx).1] at he; simp at he
    · intro e he
      apply foldl_update_not_mem
      intro hx
      simp [hx] at he
    · intro e h1 h2
      have he : e ∈ (hits P b s).map Prod.fst := by
        by_contra hn
        simp only [hn, if_false] at h2
        rw [h1] at h2; simp at h2
      obtain ⟨c, k, p1, p2, -, -, p5⟩ := mem_hits.1 (foldl_update_mem _ s.IDs e he)
      exact ⟨c, k, p1, p2, p5.symm⟩
    · dsimp only; ring

theorem count_split (w v : Cell ny nx → Bool) (h : ∀ c, ¬ (w c = true ∧ v c = true)) :
    count (fun c => w c || v c) = count w + count v := by
  unfold count
  rw [← Finset.card_union_of_disjoint]
  · congr 1
    ext c
    simp
  · rw [Finset.disjoint_left]
    intro c h1 h2
    exact h c ⟨by simpa using h1, by simpa using h2⟩

theorem count_congr {w v : Cell ny nx → Bool} (h : ∀ c, w c = v c) : count w = count v := by
  have : w = v := funext h
  rw [this]

/-- What the first part of a step does. -/
theorem emerge_spec {P : Params ny nx K} {d : Draws ny nx} {s s' : State ny nx}
    (h : emergeResolve P d s = .ok s') :
    (∀ c, s'.S c = true ↔ (s.S c = true ∧ bern P.pResolve (d.b2 c) = false) ∨
      (s.S c = false ∧ bern (pEmerge P c) (d.b1 c) = true)) ∧
    (∀ c, s.S c = true → s'.S c = true → s'.IDs c = s.IDs c) ∧
    (∀ c, s'.S c = false → s'.IDs c = if s.S c = true then 0 else s.IDs c) ∧
    s'.timeIndex = s.timeIndex ∧
    s'.nConflict - count s'.S = s.nConflict - count s.S ∧
    s'.startIndex = s.startIndex + count (fun c => !s.S c && s'.S c) ∧
    (s'.startIndex ≤ P.ranIDs.length → ∀ c, s.S c = false → s'.S c = true →
      rank (fun c => !s.S c && s'.S c) c < count (fun c => !s.S c && s'.S c) ∧
      P.ranIDs[s.startIndex + rank (fun c => !s.S c && s'.S c) c]? = some (s'.IDs c)) := by
  have h0 := h
  unfold emergeResolve at h
  dsimp only at h
  by_cases h1 : maxOf ((cells ny nx).map (initU P)) = 0
  · rw [if_pos h1] at h; cases h
  rw [if_neg h1] at h
  by_cases h2 : ((cells ny nx).any fun c => decide (pEmerge P c < 0 ∨ 1 < pEmerge P c)) = true
  · rw [if_pos h2] at h; cases h
  rw [if_neg h2] at h
  by_cases h3 : P.pResolve < 0 ∨ 1 < P.pResolve
  · rw [if_pos h3] at h; cases h
  rw [if_neg h3] at h
  clear h0
  set w2 : Cell ny nx → Bool := fun c => !s.S c && bern (pEmerge P c) (d.b1 c) with hw2
  set w3 : Cell ny nx → Bool := fun c => s.S c && bern P.pResolve (d.b2 c) with hw3
  by_cases h4 : ((P.ranIDs.drop s.startIndex).take (count w2)).length ≠ count w2 ∧
      ((P.ranIDs.drop s.startIndex).take (count w2)).length ≠ 1
  · rw [if_pos h4] at h; cases h
  rw [if_neg h4, Except.ok.injEq] at h
  have hS : ∀ c, s'.S c = (if w3 c then false else if w2 c then true else s.S c) := by
    intro c; rw [← h]
  have hI : ∀ c, s'.IDs c = (if w3 c then 0 else if w2 c then
      (if ((P.ranIDs.drop s.startIndex).take (count w2)).length = count w2 then
        ((P.ranIDs.drop s.startIndex).take (count w2)).getD (rank w2 c) 0
      else ((P.ranIDs.drop s.startIndex).take (count w2)).getD 0 0) else s.IDs c) := by
    intro c; rw [← h]
  have hst : s'.startIndex = s.startIndex + count w2 := by rw [← h]
  have hnc : s'.nConflict = s.nConflict + count w2 - count w3 := by rw [← h]
  have hti : s'.timeIndex = s.timeIndex := by rw [← h]
  clear h
  have hnew : (fun c => !s.S c && s'.S c) = w2 := by
    funext c
    rw [hS c, hw2, hw3]
    dsimp only
    rcases Bool.eq_false_or_eq_true (s.S c) with hq | hq <;> rcases Bool.eq_false_or_eq_true (bern (pEmerge P c) (d.b1 c)) with hq2 | hq2 <;> simp [hq, hq2]
  refine ⟨?_, ?_, ?_, ?_, ?_, ?_, ?_⟩
  · intro c
    rw [hS c, hw2, hw3]
    dsimp only
    rcases Bool.eq_false_or_eq_true (s.S c) with hq | hq <;> rcases Bool.eq_false_or_eq_true (bern (pEmerge P c) (d.b1 c)) with hq2 | hq2 <;> rcases Bool.eq_false_or_eq_true (bern P.pResolve (d.b2 c)) with hq3 | hq3 <;> simp [hq, hq2, hq3]
  · intro c hc hc'
    rw [hS c] at hc'
    rw [hI c]
    have e2 : w2 c = false := by rw [hw2]; simp [hc]
    have e3 : w3 c = false := by
      by_contra hn
      have : w3 c = true := by simpa using hn
      simp [this] at hc'
    simp [e2, e3]
  · intro c hc
    rw [hS c] at hc
    rw [hI c]
    by_cases e3 : w3 c = true
    · have : s.S c = true := by
        rw [hw3] at e3; simp only [Bool.and_eq_true] at e3; exact e3.1
      simp [e3, this]
    · by_cases e2 : w2 c = true
      · simp [e2, e3] at hc
      · rw [if_neg e3, if_neg e2] at hc
        rw [if_neg e3, if_neg e2, hc]
        simp
  · exact hti
  · have e1 : count s'.S + count w3 = count s.S + count w2 := by
      rw [← count_split, ← count_split]
      · apply count_congr
        intro c
        rw [hS c, hw2, hw3]
        dsimp only
        rcases Bool.eq_false_or_eq_true (s.S c) with hq | hq <;> rcases Bool.eq_false_or_eq_true (bern (pEmerge P c) (d.b1 c)) with hq2 | hq2 <;> rcases Bool.eq_false_or_eq_true (bern P.pResolve (d.b2 c)) with hq3 | hq3 <;>
          simp [hq, hq2, hq3]
      · intro c
        rw [hw2]; dsimp only
        rcases Bool.eq_false_or_eq_true (s.S c) with hq | hq <;> simp [hq]
      · intro c
        rw [hS c, hw3]
        dsimp only
        rintro ⟨p, q⟩
        simp [q] at p
    rw [hnc]
    omega
  · rw [hnew, hst]
  · rw [hnew]
    intro hle c hc hc'
    have hwc : w2 c = true := by
      rw [← hnew]; simp only [hc, hc']; rfl
    have hr : rank w2 c < count w2 := by
      rw [← length_filter_cells, rank]
      exact List.idxOf_lt_length_of_mem (List.mem_filter.2 ⟨mem_cells c, hwc⟩)
    refine ⟨hr, ?_⟩
    have hlen : ((P.ranIDs.drop s.startIndex).take (count w2)).length = count w2 := by
      rw [List.length_take, List.length_drop]; omega
    have hw3c : w3 c = false := by rw [hw3]; simp [hc]
    have hid : s'.IDs c = ((P.ranIDs.drop s.startIndex).take (count w2)).getD (rank w2 c) 0 := by
      rw [hI c, hw3c, hwc, hlen]
      simp
    rw [hid, List.getD_eq_getElem?_getD, List.getElem?_take, if_pos hr, List.getElem?_drop]
    rw [List.getElem?_eq_getElem (by omega)]
    simp

/-! ## One step -/

/-- A step is the emergence and resolution of conflicts, then the spreading. -/
theorem update_ok {P : Params ny nx K} {d : Draws ny nx} {s s' : State ny nx}
    (h : update P d s = .ok s') : ∃ s1, emergeResolve P d s = .ok s1 ∧
      (P.spread = true → ∃ s2, spread P d.b s1 = .ok s2 ∧
        s' = { s2 with timeIndex := s2.timeIndex + 1 }) ∧
      (P.spread = false → s' = { s1 with timeIndex := s1.timeIndex + 1 }) := by
  unfold update at h
  cases h1 : emergeResolve P d s with
  | error e => simp [h1] at h
  | ok s1 =>
    refine ⟨s1, rfl, ?_, ?_⟩
    · intro hs
      simp only [h1, hs, if_true] at h
      cases h2 : spread P d.b s1 with
      | error e => simp [h2] at h
      | ok s2 =>
        simp only [h2, Except.ok.injEq] at h
        exact ⟨s2, rfl, h.symm⟩
    · intro hs
      simp only [h1, hs, Bool.false_eq_true, if_false, Except.ok.injEq] at h
      exact h.symm

theorem run_induction {P : Params ny nx K} {p : State ny nx → Prop}
    (hstep : ∀ s d s', p s → update P d s = .ok s' → p s') :
    ∀ (ds : List (Draws ny nx)) (s s' : State ny nx), p s → run P s ds = .ok s' → p s' := by
  intro ds
  induction ds with
  | nil => intro s s' hp h; simp only [run, Except.ok.injEq] at h; rw [← h]; exact hp
  | cons d ds ih =>
    intro s s' hp h
    simp only [run] at h
    cases hu : update P d s with
    | error e => simp [hu] at h
    | ok s1 =>
      simp only [hu] at h
      exact ih s1 s' (hstep s d s1 hp hu) h

/-- **C177.** In every run, for all random draws, the running number of cells in conflict is
the number of cells in conflict, and the time index is the number of steps. -/
theorem C177_tally {P : Params ny nx K} (ds : List (Draws ny nx)) {s : State ny nx}
    (h : run P init ds = .ok s) :
    s.nConflict = (Finset.univ.filter (fun c => s.S c = true)).card ∧
    s.timeIndex = ds.length := by
  constructor
  · have key := run_induction (P := P) (p := fun s => s.nConflict - count s.S = 0) ?_ ds init s
      (by simp [init, count]) h
    · have : s.nConflict - count s.S = 0 := key
      unfold count at this; omega
    · intro s d s' hs hu
      obtain ⟨s1, he, hsp, hns⟩ := update_ok hu
      have e1 := (emerge_spec he).2.2.2.2.1
      cases hb : P.spread with
      | false => rw [hns hb]; simpa [hs] using e1
      | true =>
        obtain ⟨s2, h2, rfl⟩ := hsp hb
        have e2 := (spread_spec h2).2.2.2.2.2.2
        show s2.nConflict - count s2.S = 0
        rw [e2, e1]; exact hs
  · have key : ∀ (ds : List (Draws ny nx)) (s0 s : State ny nx), run P s0 ds = .ok s →
        s.timeIndex = s0.timeIndex + ds.length := by
      intro ds
      induction ds with
      | nil => intro s0 s h; simp only [run, Except.ok.injEq] at h; simp [h]
      | cons d ds ih =>
        intro s0 s h
        simp only [run] at h
        cases hu : update P d s0 with
        | error e => simp [hu] at h
        | ok s1 =>
          simp only [hu] at h
          rw [ih s1 s h]
          have ht : s1.timeIndex = s0.timeIndex + 1 := by
            obtain ⟨s2, he, hsp, hns⟩ := update_ok hu
            have e1 := (emerge_spec he).2.2.2.1
            cases hb : P.spread with
            | false => rw [hns hb]; simp [e1]
            | true =>
              obtain ⟨s3, h3, rfl⟩ := hsp hb
              have e2 := (spread_spec h3).2.2.2.2.2.1
              simp [e1, e2]
          rw [ht, List.length_cons]; omega
    have := key ds init s h
    simpa [init] using this

/-- **C178.** In every run, for all random draws, cells on the four edges of the grid, and
cells without unrest (`U = 0`), are never in conflict. -/
theorem C178_edges {P : Params ny nx K} (ds : List (Draws ny nx)) {s : State ny nx}
    (h : run P init ds = .ok s) (c : Cell ny nx) :
    (OnEdge c → s.S c = false) ∧ (initU P c = 0 → s.S c = false) := by
  have key := run_induction (P := P) (p := fun s => ∀ c, initU P c = 0 → s.S c = false) ?_ ds
    init s (by intro c _; rfl) h
  · exact ⟨fun hc => key c (initU_edge P hc), key c⟩
  · intro s d s' hs hu c hc
    obtain ⟨s1, he, hsp, hns⟩ := update_ok hu
    have h1 : ∀ c, initU P c = 0 → s1.S c = false := by
      intro c hc
      by_contra hn
      have hn' : s1.S c = true := by simpa using hn
      rcases ((emerge_spec he).1 c).1 hn' with ⟨a, -⟩ | ⟨-, a⟩
      · rw [hs c hc] at a; simp at a
      · rw [pEmerge_edge P hc, bern_zero] at a; simp at a
    cases hb : P.spread with
    | false => rw [hns hb]; exact h1 c hc
    | true =>
      obtain ⟨s2, h2, rfl⟩ := hsp hb
      show s2.S c = false
      by_contra hn
      have hn' : s2.S c = true := by simpa using hn
      rcases ((spread_spec h2).1 c).1 hn' with a | ⟨e, k, -, hk, a⟩
      · rw [h1 c hc] at a; simp at a
      · rw [pSpread_zero P (by rw [hk]; exact hc), bern_zero] at a; simp at a

end
end Conflict
