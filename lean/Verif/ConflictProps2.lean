import Verif.ConflictProps
import Mathlib.Data.List.Nodup
import Mathlib.Order.Bounds.Basic

/-!
# Properties of the conflict spreading model, part 2: completion, IDs, single steps, the report
-/

set_option autoImplicit false
set_option linter.unusedSectionVars false

namespace Conflict

section
variable {ny nx : ℕ} {K : Type*} [Field K] [LinearOrder K] [IsStrictOrderedRing K]

theorem maxOf_mem {l : List K} (h : 0 < maxOf l) : maxOf l ∈ l := by
  induction l with
  | nil => simp [maxOf] at h
  | cons a l ih =>
    have e : maxOf (a :: l) = max a (maxOf l) := rfl
    rw [e] at h ⊢
    rcases le_total a (maxOf l) with g | g
    · rw [max_eq_right g] at h ⊢
      exact List.mem_cons_of_mem _ (ih h)
    · rw [max_eq_left g]; simp

/-- The probabilities of a step: `c_emerge` times the unrest relative to the largest unrest of
the grid, and `c_spread` times the unrest relative to the largest unrest of the neighbours of
the source. -/
theorem C180_probabilities (P : Params ny nx K) (c : Cell ny nx) {m : K} (hm : 0 < m) :
    (IsGreatest (Set.range (initU P)) m → pEmerge P c = P.cEmerge * (initU P c / m)) ∧
    (¬ OnEdge c → IsGreatest {u | ∃ e, Adjacent c e ∧ initU P e = u} m → ∀ k,
      pSpread P c k = P.cSpread * (initU P (nb c k) / m)) ∧
    (¬ OnEdge c → (∀ e, Adjacent c e → initU P e = 0) → ∀ k, pSpread P c k = 0) := by
  refine ⟨?_, ?_, ?_⟩
  · rintro ⟨⟨e, he⟩, hb⟩
    have h1 : maxOf ((cells ny nx).map (initU P)) = m := by
      apply le_antisymm
      · by_contra hn
        push Not at hn
        obtain ⟨x, -, hx⟩ := List.mem_map.1 (maxOf_mem (lt_trans hm hn))
        have := hb ⟨x, rfl⟩
        rw [hx] at this
        exact absurd this (not_le.2 hn)
      · rw [← he]
        exact le_maxOf (List.mem_map.2 ⟨e, mem_cells e, rfl⟩)
    unfold pEmerge
    rw [h1]; ring
  · rintro hc ⟨⟨e, hae, he⟩, hb⟩ k
    have h1 : maxOf ((List.finRange 8).map (fun k => initU P (nb c k))) = m := by
      apply le_antisymm
      · by_contra hn
        push Not at hn
        obtain ⟨x, -, hx⟩ := List.mem_map.1 (maxOf_mem (lt_trans hm hn))
        obtain ⟨e', -, h4, h5, -⟩ := nbr_interior hc x
        have hle : initU P (nb c x) ≤ m := hb ⟨e', h5, by rw [h4]⟩
        rw [hx] at hle
        exact absurd hle (not_le.2 hn)
      · obtain ⟨k', hk'⟩ := adjacent_is_nbr hc hae
        rw [← he, ← hk']
        exact le_maxOf (List.mem_map.2 ⟨k', List.mem_finRange _, rfl⟩)
    unfold pSpread
    dsimp only
    rw [h1, if_pos hm]; ring
  · intro hc h k
    obtain ⟨e', -, h4, h5, -⟩ := nbr_interior hc k
    exact pSpread_zero P (by rw [h4]; exact h e' h5)

/-- A unit draw of a neighbour. -/
def spreads (P : Params ny nx K) (d : Draws ny nx) (e c : Cell ny nx) : Prop :=
  ∃ k, nb e k = c ∧ bern (pSpread P e k) (d.b e k) = true

/-- Cells in conflict after emergence and resolution. -/
def middle (P : Params ny nx K) (d : Draws ny nx) (s : State ny nx) (c : Cell ny nx) : Prop :=
  (s.S c = true ∧ bern P.pResolve (d.b2 c) = false) ∨
  (s.S c = false ∧ bern (pEmerge P c) (d.b1 c) = true)

/-- No cell on the edge or without unrest is in conflict. -/
def Inner (P : Params ny nx K) (s : State ny nx) : Prop :=
  ∀ c, initU P c = 0 → s.S c = false

theorem run_inner {P : Params ny nx K} (ds : List (Draws ny nx)) {s : State ny nx}
    (h : run P init ds = .ok s) : Inner P s := fun c => (C178_edges ds h c).2

theorem inner_not_edge {P : Params ny nx K} {s : State ny nx} (h : Inner P s) {c : Cell ny nx}
    (hc : s.S c = true) : ¬ OnEdge c := by
  intro he
  have := h c (initU_edge P he)
  rw [hc] at this; simp at this

theorem emerge_inner {P : Params ny nx K} {d : Draws ny nx} {s s1 : State ny nx}
    (hs : Inner P s) (he : emergeResolve P d s = .ok s1) : Inner P s1 := by
  intro c hc
  by_contra hn
  have hn' : s1.S c = true := by simpa using hn
  rcases ((emerge_spec he).1 c).1 hn' with ⟨a, -⟩ | ⟨-, a⟩
  · rw [hs c hc] at a; simp at a
  · rw [pEmerge_edge P hc, bern_zero] at a; simp at a

/-- **C180.** One step of a run.  A cell is in conflict afterwards exactly if it was in
conflict and its conflict was not resolved, or it was not and a conflict emerged, or (if
spreading is on) a neighbour that is in conflict by then spreads to it.  Conflicts emerge in
and spread to cells with unrest only. -/
theorem C180_step {P : Params ny nx K} (ds : List (Draws ny nx)) {s s' : State ny nx}
    {d : Draws ny nx} (h : run P init ds = .ok s) (hu : update P d s = .ok s') (c : Cell ny nx) :
    (s'.S c = true ↔ middle P d s c ∨
      (P.spread = true ∧ ∃ e, Adjacent e c ∧ middle P d s e ∧ spreads P d e c)) ∧
    (s'.S c = true → 0 < initU P c) := by
  obtain ⟨s1, he, hsp, hns⟩ := update_ok hu
  have hin := emerge_inner (run_inner ds h) he
  have hmid : ∀ c, s1.S c = true ↔ middle P d s c := (emerge_spec he).1
  constructor
  · cases hb : P.spread with
    | false =>
      rw [hns hb]
      simp [hmid c]
    | true =>
      obtain ⟨s2, h2, rfl⟩ := hsp hb
      show s2.S c = true ↔ _
      rw [(spread_spec h2).1 c, hmid c]
      constructor
      · rintro (a | ⟨e, k, a1, a2, a3⟩)
        · exact Or.inl a
        · right
          obtain ⟨e', -, h4, h5, -⟩ := nbr_interior (inner_not_edge hin a1) k
          refine ⟨rfl, e, ?_, (hmid e).1 a1, k, a2, a3⟩
          rw [← a2, h4]; exact h5
      · rintro (a | ⟨-, e, -, a1, k, a2, a3⟩)
        · exact Or.inl a
        · exact Or.inr ⟨e, k, (hmid e).2 a1, a2, a3⟩
  · intro hc
    have hrun : run P init (ds ++ [d]) = .ok s' := by
      have key : ∀ (ds : List (Draws ny nx)) (s0 : State ny nx), run P s0 ds = .ok s →
          run P s0 (ds ++ [d]) = .ok s' := by
        intro ds
        induction ds with
        | nil =>
          intro s0 h0
          simp only [run, Except.ok.injEq] at h0
          subst h0
          simp [run, hu]
        | cons d0 ds ih =>
          intro s0 h0
          simp only [run, List.cons_append] at h0 ⊢
          cases hu0 : update P d0 s0 with
          | error e => simp [hu0] at h0
          | ok sx => simp only [hu0] at h0 ⊢; exact ih sx h0
      exact key ds init h
    rcases (initU_nonneg P c).lt_or_eq with g | g
    · exact g
    · have := run_inner _ hrun c g.symm
      rw [hc] at this; simp at this

/-- **C180.** Probabilities 0 and 1 leave nothing to chance: a conflict that emerges, ends or spreads with
probability 1 does so in that step for all draws, and with probability 0 it does not. -/
theorem C180_certain {P : Params ny nx K} (ds : List (Draws ny nx)) {s s' : State ny nx}
    {d : Draws ny nx} (h : run P init ds = .ok s) (hu : update P d s = .ok s') (c : Cell ny nx) :
    (s.S c = false → pEmerge P c = 1 → s'.S c = true) ∧
    (s.S c = false → pEmerge P c = 0 → P.spread = false → s'.S c = false) ∧
    (s.S c = true → P.pResolve = 1 → P.spread = false → s'.S c = false) ∧
    (s.S c = true → P.pResolve = 0 → s'.S c = true) ∧
    (P.spread = true → P.pResolve = 0 → ∀ e k, s.S e = true → nb e k = c → pSpread P e k = 1 →
      s'.S c = true) := by
  have key := (C180_step ds h hu c).1
  refine ⟨?_, ?_, ?_, ?_, ?_⟩
  · intro a b
    exact key.2 (Or.inl (Or.inr ⟨a, by simp [bern, b]⟩))
  · intro a b g
    by_contra hn
    rcases key.1 (by simpa using hn) with (⟨q, -⟩ | ⟨-, q⟩) | ⟨q, -⟩
    · rw [a] at q; simp at q
    · simp [bern, b] at q
    · rw [g] at q; simp at q
  · intro a b g
    by_contra hn
    rcases key.1 (by simpa using hn) with (⟨-, q⟩ | ⟨q, -⟩) | ⟨q, -⟩
    · simp [bern, b] at q
    · rw [a] at q; simp at q
    · rw [g] at q; simp at q
  · intro a b
    exact key.2 (Or.inl (Or.inl ⟨a, by simp [bern, b]⟩))
  · intro g b e k a hk hp
    have hne : ¬ OnEdge e := inner_not_edge (run_inner ds h) a
    obtain ⟨e', -, h4, h5, -⟩ := nbr_interior hne k
    refine key.2 (Or.inr ⟨g, e, ?_, Or.inl ⟨a, by simp [bern, b]⟩, k, hk, by simp [bern, hp]⟩)
    rw [← hk, h4]; exact h5

/-! ## Completion -/

theorem emerge_completes {P : Params ny nx K} (hE : 0 ≤ P.cEmerge ∧ P.cEmerge ≤ 1)
    (hR : 0 ≤ P.pResolve ∧ P.pResolve ≤ 1) (hU : ∃ c, 0 < initU P c) (d : Draws ny nx)
    (s : State ny nx) (hid : s.startIndex + ny * nx ≤ P.ranIDs.length) :
    ∃ s', emergeResolve P d s = .ok s' ∧ s'.startIndex ≤ s.startIndex + ny * nx := by
  obtain ⟨c0, hc0⟩ := hU
  have hm : 0 < maxOf ((cells ny nx).map (initU P)) :=
    lt_of_lt_of_le hc0 (le_maxOf (List.mem_map.2 ⟨c0, mem_cells c0, rfl⟩))
  have hp : ∀ c, 0 ≤ pEmerge P c ∧ pEmerge P c ≤ 1 := by
    intro c
    have hle : initU P c ≤ maxOf ((cells ny nx).map (initU P)) :=
      le_maxOf (List.mem_map.2 ⟨c, mem_cells c, rfl⟩)
    have e : pEmerge P c = P.cEmerge * (initU P c / maxOf ((cells ny nx).map (initU P))) := by
      unfold pEmerge; ring
    have q0 : 0 ≤ initU P c / maxOf ((cells ny nx).map (initU P)) :=
      div_nonneg (initU_nonneg P c) hm.le
    have q1 : initU P c / maxOf ((cells ny nx).map (initU P)) ≤ 1 := (div_le_one hm).2 hle
    rw [e]
    exact ⟨mul_nonneg hE.1 q0, mul_le_one₀ hE.2 q0 q1⟩
  have hcnt : ∀ w : Cell ny nx → Bool, count w ≤ ny * nx := by
    intro w
    unfold count
    refine le_trans (Finset.card_le_univ _) ?_
    simp
  have hany : ¬ ((cells ny nx).any fun c => decide (pEmerge P c < 0 ∨ 1 < pEmerge P c)) = true := by
    rw [List.any_eq_true]
    rintro ⟨c, -, hc⟩
    have hc := of_decide_eq_true hc
    rcases hc with hc | hc
    · exact absurd hc (not_lt.2 (hp c).1)
    · exact absurd hc (not_lt.2 (hp c).2)
  have hres : ¬ (P.pResolve < 0 ∨ 1 < P.pResolve) := by
    rintro (a | a)
    · exact absurd a (not_lt.2 hR.1)
    · exact absurd a (not_lt.2 hR.2)
  have hlen : ((P.ranIDs.drop s.startIndex).take
      (count (fun c => !s.S c && bern (pEmerge P c) (d.b1 c)))).length
      = count (fun c => !s.S c && bern (pEmerge P c) (d.b1 c)) := by
    rw [List.length_take, List.length_drop]
    have := hcnt (fun c => !s.S c && bern (pEmerge P c) (d.b1 c))
    omega
  unfold emergeResolve
  dsimp only
  rw [if_neg hm.ne', if_neg hany, if_neg hres, if_neg (fun hh => hh.1 hlen)]
  refine ⟨_, rfl, ?_⟩
  have := hcnt (fun c => !s.S c && bern (pEmerge P c) (d.b1 c))
  dsimp only
  omega

theorem pSpread_unit {P : Params ny nx K} (hS : 0 ≤ P.cSpread ∧ P.cSpread ≤ 1) (c : Cell ny nx)
    (k : Fin 8) : 0 ≤ pSpread P c k ∧ pSpread P c k ≤ 1 := by
  unfold pSpread
  dsimp only
  by_cases hm : maxOf ((List.finRange 8).map (fun k => initU P (nb c k))) > 0
  · rw [if_pos hm, mul_div_assoc]
    have hle : initU P (nb c k) ≤ maxOf ((List.finRange 8).map (fun k => initU P (nb c k))) :=
      le_maxOf (List.mem_map.2 ⟨k, List.mem_finRange _, rfl⟩)
    have q0 := div_nonneg (initU_nonneg P (nb c k)) (le_of_lt hm)
    exact ⟨mul_nonneg hS.1 q0, mul_le_one₀ hS.2 q0 ((div_le_one hm).2 hle)⟩
  · rw [if_neg hm]; exact ⟨le_rfl, zero_le_one⟩

theorem spread_completes {P : Params ny nx K} (hS : 0 ≤ P.cSpread ∧ P.cSpread ≤ 1)
    {s : State ny nx} (hin : Inner P s) (b : Cell ny nx → Fin 8 → Bool) :
    ∃ s', spread P b s = .ok s' := by
  unfold spread
  dsimp only
  by_cases h0 : count s.S = 0
  · exact ⟨s, by rw [if_pos h0]⟩
  rw [if_neg h0, if_neg, if_neg]
  · exact ⟨_, rfl⟩
  · rw [List.any_eq_true]
    rintro ⟨c, -, hc⟩
    rw [List.any_eq_true] at hc
    obtain ⟨k, -, hk⟩ := hc
    have hk := of_decide_eq_true hk
    rcases hk with hk | hk
    · exact absurd hk (not_lt.2 (pSpread_unit hS c k).1)
    · exact absurd hk (not_lt.2 (pSpread_unit hS c k).2)
  · rw [List.any_eq_true]
    rintro ⟨c, hc, hk⟩
    rw [List.any_eq_true] at hk
    obtain ⟨k, -, hk⟩ := hk
    have hcS : s.S c = true := (List.mem_filter.1 hc).2
    obtain ⟨e, he, -⟩ := nbr_interior (inner_not_edge hin hcS) k
    rw [he] at hk
    simp at hk

/-- **C178.** With `c_emerge`, `c_spread` and `p_resolve` in [0, 1], unrest in at least one
interior cell and an ID for each cell and step, a run of any length completes for all random
draws: no probability is rejected and no index leaves the grid. -/
theorem C178_completes {P : Params ny nx K} (hE : 0 ≤ P.cEmerge ∧ P.cEmerge ≤ 1)
    (hS : 0 ≤ P.cSpread ∧ P.cSpread ≤ 1) (hR : 0 ≤ P.pResolve ∧ P.pResolve ≤ 1)
    (hU : ∃ c, 0 < initU P c) (ds : List (Draws ny nx))
    (hid : ny * nx * ds.length ≤ P.ranIDs.length) : ∃ s, run P init ds = .ok s := by
  have key : ∀ (ds : List (Draws ny nx)) (s0 : State ny nx), Inner P s0 →
      s0.startIndex + ny * nx * ds.length ≤ P.ranIDs.length → ∃ s, run P s0 ds = .ok s := by
    intro ds
    induction ds with
    | nil => intro s0 _ _; exact ⟨s0, rfl⟩
    | cons d ds ih =>
      intro s0 hin hl
      rw [List.length_cons, Nat.mul_add, Nat.mul_one] at hl
      obtain ⟨s1, h1, hle⟩ := emerge_completes hE hR hU d s0 (by omega)
      have hin1 := emerge_inner hin h1
      cases hb : P.spread with
      | false =>
        have hu : update P d s0 = .ok { s1 with timeIndex := s1.timeIndex + 1 } := by
          unfold update; simp [h1, hb]
        simp only [run, hu]
        exact ih _ hin1 (by dsimp only; omega)
      | true =>
        obtain ⟨s2, h2⟩ := spread_completes hS hin1 d.b
        have hu : update P d s0 = .ok { s2 with timeIndex := s2.timeIndex + 1 } := by
          unfold update; simp [h1, h2, hb]
        simp only [run, hu]
        refine ih _ ?_ ?_
        · intro c hc
          show s2.S c = false
          by_contra hn
          have hn' : s2.S c = true := by simpa using hn
          rcases ((spread_spec h2).1 c).1 hn' with a | ⟨e, k, -, hk, a⟩
          · rw [hin1 c hc] at a; simp at a
          · rw [pSpread_zero P (by rw [hk]; exact hc), bern_zero] at a; simp at a
        · have := (spread_spec h2).2.2.2.2.1
          dsimp only
          omega
  exact key ds init (fun _ _ => rfl) (by simpa [init] using hid)

/-- **C178.** Without unrest in the interior (a file of zeros, or a grid with fewer than three
rows or columns) the first step raises. -/
theorem C178_no_unrest {P : Params ny nx K} (hU : ∀ c, initU P c = 0) (d : Draws ny nx)
    (ds : List (Draws ny nx)) :
    run P init (d :: ds) = .error "ValueError: p < 0, p > 1 or p is NaN" := by
  have hm : maxOf ((cells ny nx).map (initU P)) = 0 := by
    by_contra hn
    have hpos := lt_of_le_of_ne (maxOf_nonneg _) (Ne.symm hn)
    obtain ⟨x, -, hx⟩ := List.mem_map.1 (maxOf_mem hpos)
    rw [hU x] at hx
    exact hn hx.symm
  simp [run, update, emergeResolve, hm]

/-! ## IDs -/

/-- Where there is no conflict the ID is 0; the IDs of conflicts were taken from the part of
`ran_IDs` used so far. -/
def IdInv (P : Params ny nx K) (s : State ny nx) : Prop :=
  Inner P s ∧ (∀ c, s.S c = false → s.IDs c = 0) ∧
  (s.startIndex ≤ P.ranIDs.length → ∀ c, s.S c = true →
    ∃ i, i < s.startIndex ∧ P.ranIDs[i]? = some (s.IDs c))

theorem emerge_idInv {P : Params ny nx K} {d : Draws ny nx} {s s' : State ny nx}
    (hs : IdInv P s) (h : emergeResolve P d s = .ok s') : IdInv P s' := by
  obtain ⟨q1, q2, q3, -, -, q6, q7⟩ := emerge_spec h
  refine ⟨emerge_inner hs.1 h, ?_, ?_⟩
  · intro c hc
    rw [q3 c hc]
    split_ifs with g
    · rfl
    · exact hs.2.1 c (by simpa using g)
  · intro hle c hc
    cases g : s.S c with
    | true =>
      obtain ⟨i, hi, he⟩ := hs.2.2 (by omega) c g
      exact ⟨i, by omega, by rw [q2 c g hc]; exact he⟩
    | false =>
      obtain ⟨r1, r2⟩ := q7 hle c g hc
      exact ⟨_, by rw [q6]; exact Nat.add_lt_add_left r1 _, r2⟩

theorem spread_idInv {P : Params ny nx K} {b : Cell ny nx → Fin 8 → Bool} {s s' : State ny nx}
    (hs : IdInv P s) (h : spread P b s = .ok s') : IdInv P s' := by
  obtain ⟨q1, q2, q3, q4, q5, -, -⟩ := spread_spec h
  refine ⟨?_, ?_, ?_⟩
  · intro c hc
    by_contra hn
    have hn' : s'.S c = true := by simpa using hn
    rcases (q1 c).1 hn' with a | ⟨e, k, -, hk, a⟩
    · rw [hs.1 c hc] at a; simp at a
    · rw [pSpread_zero P (by rw [hk]; exact hc), bern_zero] at a; simp at a
  · intro c hc
    rw [q3 c hc]
    apply hs.2.1
    by_contra hn
    have : s'.S c = true := (q1 c).2 (Or.inl (by simpa using hn))
    rw [hc] at this; simp at this
  · intro hle c hc
    rw [q5] at hle ⊢
    cases g : s.S c with
    | true => rw [q2 c g]; exact hs.2.2 hle c g
    | false =>
      obtain ⟨e, k, a1, -, a3⟩ := q4 c g hc
      rw [a3]; exact hs.2.2 hle e a1

theorem update_idInv {P : Params ny nx K} {d : Draws ny nx} {s s' : State ny nx}
    (hs : IdInv P s) (h : update P d s = .ok s') : IdInv P s' ∧ s.startIndex ≤ s'.startIndex := by
  obtain ⟨s1, he, hsp, hns⟩ := update_ok h
  have h1 := emerge_idInv hs he
  have hle : s.startIndex ≤ s1.startIndex := by rw [(emerge_spec he).2.2.2.2.2.1]; omega
  cases hb : P.spread with
  | false => rw [hns hb]; exact ⟨h1, hle⟩
  | true =>
    obtain ⟨s2, h2, rfl⟩ := hsp hb
    have h3 : IdInv P s2 := spread_idInv h1 h2
    exact ⟨h3, by
      have := (spread_spec h2).2.2.2.2.1
      dsimp only; omega⟩

theorem init_idInv (P : Params ny nx K) : IdInv P (init : State ny nx) :=
  ⟨fun _ _ => rfl, fun _ _ => rfl, fun _ c hc => by simp [init] at hc⟩

theorem run_idInv {P : Params ny nx K} {s0 : State ny nx} (h0 : IdInv P s0)
    (ds : List (Draws ny nx)) {s : State ny nx} (h : run P s0 ds = .ok s) :
    IdInv P s ∧ s0.startIndex ≤ s.startIndex :=
  run_induction (P := P) (p := fun s => IdInv P s ∧ s0.startIndex ≤ s.startIndex)
    (fun _ _ _ hs hu => ⟨(update_idInv hs.1 hu).1, le_trans hs.2 (update_idInv hs.1 hu).2⟩)
    ds s0 s ⟨h0, le_rfl⟩ h

theorem nodup_getElem? {l : List ℕ} (hn : l.Nodup) {i j : ℕ} {x : ℕ} (hi : l[i]? = some x)
    (hj : l[j]? = some x) : i = j := by
  obtain ⟨hi1, hi2⟩ := List.getElem?_eq_some_iff.1 hi
  obtain ⟨hj1, hj2⟩ := List.getElem?_eq_some_iff.1 hj
  exact (List.Nodup.getElem_inj_iff hn).1 (hi2.trans hj2.symm)

/-- **C179.** A cell without conflict has ID 0, in every run. -/
theorem C179_no_conflict {P : Params ny nx K} (ds : List (Draws ny nx)) {s : State ny nx}
    (h : run P init ds = .ok s) (c : Cell ny nx) (hc : s.S c = false) : s.IDs c = 0 :=
  (run_idInv (init_idInv P) ds h).1.2.1 c hc

/-- **C179.** Take any step of a run, with the IDs all different and not exhausted.  A cell in
conflict after the step has the ID that it had before the step while in conflict, or the ID of
an adjacent cell that is in conflict, or an ID that no conflict has had at any earlier time of
the run. -/
theorem C179_origin {P : Params ny nx K} (hn : P.ranIDs.Nodup) (ds : List (Draws ny nx))
    {s s' : State ny nx} {d : Draws ny nx} (h : run P init ds = .ok s)
    (hu : update P d s = .ok s') (hle : s'.startIndex ≤ P.ranIDs.length) (c : Cell ny nx)
    (hc : s'.S c = true) :
    (s.S c = true ∧ s'.IDs c = s.IDs c) ∨
    (∃ e, Adjacent e c ∧ s'.S e = true ∧ s'.IDs e = s'.IDs c) ∨
    (∀ ds1 ds2 s0, ds = ds1 ++ ds2 → run P init ds1 = .ok s0 → run P s0 ds2 = .ok s →
      ∀ e, s0.S e = true → s0.IDs e ≠ s'.IDs c) := by
  obtain ⟨s1, he, hsp, hns⟩ := update_ok hu
  have hI := (run_idInv (init_idInv P) ds h).1
  obtain ⟨q1, q2, q3, -, -, q6, q7⟩ := emerge_spec he
  have hin1 := emerge_inner hI.1 he
  -- what holds after the first part of the step
  have first : s1.startIndex ≤ P.ranIDs.length → s1.S c = true → (s.S c = true ∧ s1.IDs c = s.IDs c) ∨
      (∀ ds1 ds2 s0, ds = ds1 ++ ds2 → run P init ds1 = .ok s0 → run P s0 ds2 = .ok s →
      ∀ e, s0.S e = true → s0.IDs e ≠ s1.IDs c) := by
    intro hle1 hc1
    cases g : s.S c with
    | true => exact Or.inl ⟨rfl, q2 c g hc1⟩
    | false =>
      right
      intro ds1 ds2 s0 _ h1 h2 e hS0 heq
      obtain ⟨r1, r2⟩ := q7 hle1 c g hc1
      have hI0 := (run_idInv (init_idInv P) ds1 h1).1
      have hmono := (run_idInv hI0 ds2 h2).2
      obtain ⟨i, hi, hie⟩ := hI0.2.2 (by omega) e hS0
      rw [heq] at hie
      have := nodup_getElem? hn hie r2
      omega
  cases hb : P.spread with
  | false =>
    have hs' := hns hb
    subst hs'
    rcases first hle hc with a | a
    · exact Or.inl a
    · exact Or.inr (Or.inr a)
  | true =>
    obtain ⟨s2, h2, rfl⟩ := hsp hb
    obtain ⟨p1, p2, p3, p4, p5, -, -⟩ := spread_spec h2
    have hc2 : s2.S c = true := hc
    have hle2 : s1.startIndex ≤ P.ranIDs.length := by rw [← p5]; exact hle
    cases g : s1.S c with
    | true =>
      have hid : s2.IDs c = s1.IDs c := p2 c g
      rcases first hle2 g with a | a
      · exact Or.inl ⟨a.1, by show s2.IDs c = _; rw [hid]; exact a.2⟩
      · right; right
        intro ds1 ds2 s0 g1 g2 g3 e g4 g5
        exact a ds1 ds2 s0 g1 g2 g3 e g4 (g5.trans hid)
    | false =>
      obtain ⟨e, k, a1, a2, a3⟩ := p4 c g hc2
      obtain ⟨e', -, h4, h5, -⟩ := nbr_interior (inner_not_edge hin1 a1) k
      right; left
      refine ⟨e, ?_, (p1 e).2 (Or.inl a1), ?_⟩
      · rw [← a2, h4]; exact h5
      · show s2.IDs e = s2.IDs c
        rw [a3, p2 e a1]

/-- **C179.** Each new ID belongs to one conflict: the cells in conflict with an ID that was not
in use before the step are one cell and cells adjacent to it. -/
theorem C179_seed {P : Params ny nx K} (hn : P.ranIDs.Nodup) (ds : List (Draws ny nx))
    {s s' : State ny nx} {d : Draws ny nx} (h : run P init ds = .ok s)
    (hu : update P d s = .ok s') (hle : s'.startIndex ≤ P.ranIDs.length) (x : ℕ)
    (hx : ∀ e, s.S e = true → s.IDs e ≠ x) (hx' : ∃ c, s'.S c = true ∧ s'.IDs c = x) :
    ∃ e, s'.S e = true ∧ s'.IDs e = x ∧
      ∀ c, s'.S c = true → s'.IDs c = x → c = e ∨ Adjacent e c := by
  obtain ⟨s1, he, hsp, hns⟩ := update_ok hu
  have hI := (run_idInv (init_idInv P) ds h).1
  obtain ⟨q1, q2, q3, -, -, q6, q7⟩ := emerge_spec he
  have hin1 := emerge_inner hI.1 he
  -- only one cell has the ID after the first part
  have uniq : s1.startIndex ≤ P.ranIDs.length → ∀ c e, s1.S c = true → s1.S e = true →
      s1.IDs c = x → s1.IDs e = x → c = e := by
    intro hle1 c e hc hee hcx hex
    have new : ∀ c, s1.S c = true → s1.IDs c = x → s.S c = false := by
      intro c hc hcx
      by_contra g
      have g : s.S c = true := by simpa using g
      exact hx c g (by rw [← q2 c g hc]; exact hcx)
    have gc := new c hc hcx
    have ge := new e hee hex
    obtain ⟨-, r2⟩ := q7 hle1 c gc hc
    obtain ⟨-, t2⟩ := q7 hle1 e ge hee
    rw [hcx] at r2
    rw [hex] at t2
    have := nodup_getElem? hn r2 t2
    have hr : rank (fun c => !s.S c && s1.S c) c = rank (fun c => !s.S c && s1.S c) e := by omega
    unfold rank at hr
    refine (List.idxOf_inj ?_).1 hr
    exact List.mem_filter.2 ⟨mem_cells c, by simp [gc, hc]⟩
  obtain ⟨c0, hc0, hc0x⟩ := hx'
  cases hb : P.spread with
  | false =>
    have hs' := hns hb
    subst hs'
    exact ⟨c0, hc0, hc0x, fun c hc hcx => Or.inl (uniq hle c c0 hc hc0 hcx hc0x)⟩
  | true =>
    obtain ⟨s2, h2, rfl⟩ := hsp hb
    obtain ⟨p1, p2, p3, p4, p5, -, -⟩ := spread_spec h2
    have hle2 : s1.startIndex ≤ P.ranIDs.length := by rw [← p5]; exact hle
    -- every cell with the ID comes from a cell that had it after the first part
    have src : ∀ c, s2.S c = true → s2.IDs c = x → ∃ e, s1.S e = true ∧ s1.IDs e = x ∧
        (c = e ∨ Adjacent e c) := by
      intro c hc hcx
      cases g : s1.S c with
      | true => exact ⟨c, g, by rw [← p2 c g]; exact hcx, Or.inl rfl⟩
      | false =>
        obtain ⟨e, k, a1, a2, a3⟩ := p4 c g hc
        obtain ⟨e', -, h4, h5, -⟩ := nbr_interior (inner_not_edge hin1 a1) k
        refine ⟨e, a1, by rw [← a3]; exact hcx, Or.inr ?_⟩
        rw [← a2, h4]; exact h5
    obtain ⟨e, e1, e2, -⟩ := src c0 hc0 hc0x
    refine ⟨e, (p1 e).2 (Or.inl e1), by show s2.IDs e = x; rw [p2 e e1]; exact e2, ?_⟩
    intro c hc hcx
    obtain ⟨f, f1, f2, f3⟩ := src c hc hcx
    rwa [uniq hle2 f e f1 e1 f2 e2] at f3

end

/-! ## A concrete run -/

/-- The result is a state with the given property. -/
def okAnd {α : Type*} (r : Except String α) (f : α → Bool) : Bool :=
  match r with
  | .ok s => f s
  | .error _ => false

theorem okAnd_true {α : Type*} {r : Except String α} {f : α → Bool} (h : okAnd r f = true) :
    ∃ s, r = .ok s ∧ f s = true := by
  cases r with
  | ok s => exact ⟨s, rfl, h⟩
  | error e => cases h

/-- A 4 x 4 grid, with the IDs 0, 1, ..., 63 in order. -/
def exP : Params 4 4 ℚ :=
  { u0 := none, cEmerge := 1/2, cSpread := 1/2, pResolve := 1/2, spread := true
    ranIDs := List.range 64 }

/-- A conflict emerges in cell (1, 1) only, and spreads to the cell to its right. -/
def exD : Draws 4 4 :=
  { b1 := fun c => decide (c = (1, 1)), b2 := fun _ => false
    b := fun c k => decide (c = (1, 1) ∧ k = 4) }

example : ∃ s, run exP init [exD, exD] = .ok s :=
  C178_completes (by norm_num [exP]) (by norm_num [exP]) (by norm_num [exP])
    ⟨(1, 1), by decide +kernel⟩ _ (by decide)

/-- One step of the concrete run: both cells are in conflict, with the ID 0. -/
theorem exRun : ∃ s, run exP init [exD] = .ok s ∧ s.S (1, 1) = true ∧ s.IDs (1, 1) = 0 ∧
    s.S (1, 2) = true ∧ s.IDs (1, 2) = 0 ∧ s.nConflict = 2 := by
  have h : okAnd (run exP init [exD]) (fun s => decide (s.S (1, 1) = true ∧ s.IDs (1, 1) = 0 ∧
      s.S (1, 2) = true ∧ s.IDs (1, 2) = 0 ∧ s.nConflict = 2)) = true := by decide +kernel
  obtain ⟨s, h1, h2⟩ := okAnd_true h
  exact ⟨s, h1, of_decide_eq_true h2⟩

/-- The hypotheses of `C179_seed` and `C179_origin` are met by this step: the ID 0 of the new
conflict belongs to cell (1, 1) and cells next to it. -/
example : ∃ s', update exP exD init = .ok s' ∧ ∃ e, s'.S e = true ∧ s'.IDs e = 0 ∧
    ∀ c, s'.S c = true → s'.IDs c = 0 → c = e ∨ Adjacent e c := by
  have h : okAnd (update exP exD init) (fun s => decide (s.S (1, 1) = true ∧ s.IDs (1, 1) = 0 ∧
      s.startIndex ≤ exP.ranIDs.length)) = true := by decide +kernel
  obtain ⟨s, h1, h2⟩ := okAnd_true h
  have h2 := of_decide_eq_true h2
  exact ⟨s, h1, C179_seed (List.nodup_range) [] rfl h1 h2.2.2 0
    (fun e he => by simp [init] at he) ⟨(1, 1), h2.1, h2.2.1⟩⟩

/-! ## ID 0 -/

section
variable {ny nx : ℕ} {K : Type*} [Field K] [LinearOrder K] [IsStrictOrderedRing K]

/-- **C181.** If the ID 0 is not among the IDs that can be given out, then (with the IDs not
exhausted) a cell has an ID different from 0 exactly if it is in conflict. -/
theorem C181_nonzero_partial {P : Params ny nx K} (h0 : 0 ∉ P.ranIDs) (ds : List (Draws ny nx))
    {s : State ny nx} (h : run P init ds = .ok s) (hle : s.startIndex ≤ P.ranIDs.length)
    (c : Cell ny nx) : s.IDs c ≠ 0 ↔ s.S c = true := by
  have hI := (run_idInv (init_idInv P) ds h).1
  constructor
  · intro hne
    by_contra hn
    exact hne (hI.2.1 c (by simpa using hn))
  · intro hc h00
    obtain ⟨i, -, hi⟩ := hI.2.2 hle c hc
    rw [h00] at hi
    exact h0 (List.mem_of_getElem? hi)

end

/-- **C181 is violated.** The IDs are a permutation of `0, ..., 9999999`, so one conflict gets
the ID 0, the ID of the cells without conflict. -/
theorem C181_violated : ∃ (P : Params 4 4 ℚ) (n : ℕ) (ds : List (Draws 4 4)) (s : State 4 4),
    P.ranIDs.Perm (List.range n) ∧ run P init ds = .ok s ∧ s.S (1, 1) = true ∧
    s.IDs (1, 1) = 0 := by
  obtain ⟨s, h1, h2, h3, -⟩ := exRun
  exact ⟨exP, 64, [exD], s, List.Perm.refl _, h1, h2, h3⟩

/-! ## The report and the configuration file -/

section
variable {ny nx : ℕ} {K : Type*} [Field K] [LinearOrder K] [IsStrictOrderedRing K]

/-- The share of the interior cells that are in conflict. -/
def interiorFraction (s : State ny nx) : K :=
  (Finset.univ.filter (fun c => s.S c = true)).card / (((ny : K) - 2) * ((nx : K) - 2))

/-- **C182.** The reported fraction is too small: it is the share of the interior cells in
conflict times `(nx-2)(ny-2) / ((nx-1)(ny-1))`. -/
theorem C182_fraction_partial {P : Params ny nx K} (hy : 3 ≤ ny) (hx : 3 ≤ nx)
    (ds : List (Draws ny nx)) {s : State ny nx} (h : run P init ds = .ok s) :
    (reportedFraction s : K) = interiorFraction s *
      ((((ny : K) - 2) * ((nx : K) - 2)) / (((ny : K) - 1) * ((nx : K) - 1))) ∧
    (reportedFraction s : K) ≤ interiorFraction s := by
  have hy' : (3 : K) ≤ ny := by exact_mod_cast hy
  have hx' : (3 : K) ≤ nx := by exact_mod_cast hx
  have a1 : (0 : K) < (ny : K) - 2 := by linarith
  have a2 : (0 : K) < (nx : K) - 2 := by linarith
  have b1 : (0 : K) < (ny : K) - 1 := by linarith
  have b2 : (0 : K) < (nx : K) - 1 := by linarith
  have hc := (C177_tally ds h).1
  have e : (reportedFraction s : K) = interiorFraction s *
      ((((ny : K) - 2) * ((nx : K) - 2)) / (((ny : K) - 1) * ((nx : K) - 1))) := by
    unfold reportedFraction interiorFraction
    rw [hc, Int.cast_natCast]
    field_simp
  refine ⟨e, ?_⟩
  rw [e]
  refine mul_le_of_le_one_right ?_ ?_
  · unfold interiorFraction
    exact div_nonneg (Nat.cast_nonneg _) (mul_pos a1 a2).le
  · rw [div_le_one (mul_pos b1 b2)]
    nlinarith

end

/-- A 3 x 3 grid. -/
def exP3 : Params 3 3 ℚ :=
  { u0 := none, cEmerge := 1/2, cSpread := 1/2, pResolve := 1/2, spread := true
    ranIDs := List.range 9 }

/-- A conflict emerges in the interior cell. -/
def exD3 : Draws 3 3 := { b1 := fun _ => true, b2 := fun _ => false, b := fun _ _ => false }

/-- **C182 is violated.** On a 3 x 3 grid with its only interior cell in conflict, the report is
1/4 instead of 1. -/
theorem C182_violated : ∃ (P : Params 3 3 ℚ) (ds : List (Draws 3 3)) (s : State 3 3),
    run P init ds = .ok s ∧ (∀ c, ¬ OnEdge c → s.S c = true) ∧
    (reportedFraction s : ℚ) = 1 / 4 := by
  have h : okAnd (run exP3 init [exD3]) (fun s => decide ((∀ c, ¬ OnEdge c → s.S c = true) ∧
      (reportedFraction s : ℚ) = 1 / 4)) = true := by decide +kernel
  obtain ⟨s, h1, h2⟩ := okAnd_true h
  exact ⟨exP3, [exD3], s, h1, of_decide_eq_true h2⟩

/-- **C182 is violated.** With a configuration file the model cannot be started. -/
theorem C182_cfg_violated {ny nx : ℕ} (cfg : String) :
    ∃ e, (initWith (some cfg) : Except String (State ny nx)) = .error e := ⟨_, rfl⟩

end Conflict
