import Verif.Slope2Model
import Mathlib.Algebra.Order.BigOperators.Group.Finset
import Mathlib.Algebra.BigOperators.Intervals
import Mathlib.Algebra.Order.Ring.Rat
import Mathlib.Tactic.Linarith
import Mathlib.Tactic.FieldSimp
import Mathlib.Tactic.NormNum

/-!
# C249: the improved slope grid gives flats the mean slope of the flow path
-/

set_option autoImplicit false

/-! ## Specification -/
namespace Slope2Spec

variable {C K : Type*} [Field K] [LinearOrder K]

/-- The ground falls along the flow from `c`. -/
def Falls (par : C → C) (flow : C → Prop) (z : C → K) (c : C) : Prop := flow c ∧ z (par c) < z c

/-- The ground is level along the flow from `c`. -/
def Flat (par : C → C) (flow : C → Prop) (z : C → K) (c : C) : Prop := flow c ∧ z (par c) = z c

/-- A flat begins: it is entered from `s`, where the ground falls, or `s` is the first cell of the flow path
and is level. -/
def Begins (par : C → C) (flow : C → Prop) (z : C → K) (s : C) : Prop :=
  (Falls par flow z s ∧ Flat par flow z (par s)) ∨
    (Flat par flow z s ∧ ∀ k, flow k → par k ≠ s)

/-- The flow path from `s` is level from its third cell on until it falls behind the cell with number
`m ≥ 2` (counted from 0). -/
def FallsAt (par : C → C) (flow : C → Prop) (z : C → K) (s : C) (m : ℕ) : Prop :=
  2 ≤ m ∧ (∀ i, 2 ≤ i → i < m → Flat par flow z (par^[i] s)) ∧ Falls par flow z (par^[m] s)

/-- The length of the flow path from `s` over `n` cells. -/
def len (par : C → C) (ds : C → K) (s : C) (n : ℕ) : K :=
  ∑ i ∈ Finset.range n, ds (par^[i] s)

/-- The mean slope from `s` to the cell behind the drop. -/
def mean (par : C → C) (ds z : C → K) (s : C) (m : ℕ) : K :=
  (z s - z (par^[m + 1] s)) / len par ds s (m + 1)

/-- The slopes that count for a cell: its own, if the ground falls, and the mean slopes of the paths over
flats that it belongs to. -/
def slopes (par : C → C) (flow : C → Prop) (ds z : C → K) (cells : List C) (c : C) : Set K :=
  {v | (Falls par flow z c ∧ v = (z c - z (par c)) / ds c) ∨
    ∃ s ∈ cells, ∃ m, Begins par flow z s ∧ FallsAt par flow z s m ∧ (∃ i ≤ m, c = par^[i] s) ∧
      v = mean par ds z s m}

end Slope2Spec

namespace Slope2

open Slope2Spec

section
variable {C K : Type*} [DecidableEq C] [Field K] [LinearOrder K]

/-- What is assumed of the D8 component: along the flow the ground never rises and has data, the flow has
no loops, flow lengths are positive, the first cell of the grid has no flow, the contributing area of a
cell is its own exactly if no cell flows into it, and slopes are at most 99999. -/
structure Sound (g : Grid C K) : Prop where
  down : ∀ c, g.flow c = true → g.z (g.par c) ≤ g.z c
  data : ∀ c, g.flow c = true → g.nodata < g.z c ∧ g.nodata < g.z (g.par c)
  noloop : ∃ rank : C → ℕ, ∀ c, g.flow c = true → rank c < rank (g.par c)
  length : ∀ c, 0 < g.ds c
  corner : g.flow g.corner = false
  noflow : ∀ c, g.flow c = false → g.par c = g.corner
  alone : ∀ c, g.alone c = true ↔ ∀ k, g.flow k = true → g.par k ≠ c
  bound : ∀ c, g.flow c = true → (g.z c - g.z (g.par c)) / g.ds c ≤ 99999
  inside : ∀ c, g.flow c = true → c ∈ g.cells

variable {g : Grid C K}

/-- `flow` as a proposition. -/
abbrev fl (g : Grid C K) : C → Prop := fun c => g.flow c = true

end

section
variable {C K : Type*} [DecidableEq C] [Field K] [LinearOrder K] [IsStrictOrderedRing K]
variable {g : Grid C K}

lemma dz_flow (h : Sound g) (c : C) (hc : g.flow c = true) : dz g c = g.z c - g.z (g.par c) := by
  have := h.data c hc
  unfold dz
  rw [if_neg]
  rintro (h1 | h1 | h1)
  · exact absurd h1 (not_le.2 this.1)
  · exact absurd h1 (not_le.2 this.2)
  · rw [hc] at h1; cases h1

lemma slope_pos_iff (h : Sound g) (c : C) :
    0 < slope0 g c ↔ Falls g.par (fl g) g.z c := by
  unfold slope0 Falls
  cases hc : g.flow c with
  | false =>
    simp only [if_true, fl, hc]
    constructor
    · intro h1; linarith
    · rintro ⟨h1, -⟩; cases h1
  | true =>
    rw [if_neg (by simp), dz_flow h c hc]
    simp only [fl, hc, true_and]
    by_cases hd : 0 < g.z c - g.z (g.par c)
    · rw [if_pos hd]
      exact ⟨fun _ => by linarith, fun _ => div_pos hd (h.length c)⟩
    · rw [if_neg hd]
      exact ⟨fun h1 => absurd h1 (lt_irrefl 0), fun h1 => absurd (by linarith) hd⟩

lemma slope_zero_iff (h : Sound g) (c : C) : slope0 g c = 0 ↔ Flat g.par (fl g) g.z c := by
  unfold slope0 Flat
  cases hc : g.flow c with
  | false =>
    simp only [if_true, fl, hc]
    constructor
    · intro h1; linarith
    · rintro ⟨h1, -⟩; cases h1
  | true =>
    rw [if_neg (by simp), dz_flow h c hc]
    simp only [fl, hc, true_and]
    have := h.down c hc
    by_cases hd : 0 < g.z c - g.z (g.par c)
    · rw [if_pos hd]
      exact ⟨fun h1 => absurd h1 (ne_of_gt (div_pos hd (h.length c))), fun h1 => by linarith⟩
    · rw [if_neg hd]
      exact ⟨fun _ => by linarith, fun _ => rfl⟩

lemma slope_falls (h : Sound g) (c : C) (hc : Falls g.par (fl g) g.z c) :
    slope0 g c = (g.z c - g.z (g.par c)) / g.ds c := by
  have h1 := hc.1
  have h2 := hc.2
  simp only [fl] at h1
  unfold slope0
  rw [if_neg (by simp [h1]), dz_flow h c h1, if_pos (by linarith)]

lemma start_iff (h : Sound g) (c : C) : isStart g c = true ↔ Begins g.par (fl g) g.z c := by
  unfold isStart Begins
  simp only [Bool.or_eq_true, Bool.and_eq_true, decide_eq_true_eq, slope_pos_iff h, slope_zero_iff h,
    h.alone]
  constructor
  · rintro (h1 | ⟨h1, h2⟩)
    · exact .inl h1
    · exact .inr ⟨h2, h1⟩
  · rintro (h1 | ⟨h1, h2⟩)
    · exact .inl h1
    · exact .inr ⟨h2, h1⟩

/-! ### The mean slope of a path -/

/-- Cells of a path up to the drop have a flow. -/
lemma path_flow (s : C) (m : ℕ) (hb : Begins g.par (fl g) g.z s)
    (hm : FallsAt g.par (fl g) g.z s m) (h1 : g.flow (g.par s) = true) (i : ℕ) (hi : i ≤ m) :
    g.flow (g.par^[i] s) = true := by
  obtain ⟨h2, hf, hd⟩ := hm
  rcases Nat.lt_or_ge i 2 with hi2 | hi2
  · rcases Nat.lt_or_ge i 1 with hi1 | hi1
    · obtain rfl : i = 0 := by omega
      rcases hb with hb | hb
      · exact hb.1.1
      · exact hb.1.1
    · obtain rfl : i = 1 := by omega
      exact h1
  · rcases Nat.lt_or_ge i m with him | him
    · exact (hf i hi2 him).1
    · obtain rfl : i = m := by omega
      exact hd.1

/-- The second cell of a path that comes to a drop has a flow. -/
lemma second_flow (h : Sound g) (s : C) (m : ℕ) (hm : FallsAt g.par (fl g) g.z s m) :
    g.flow (g.par s) = true := by
  by_contra hc
  have hc' : g.flow (g.par s) = false := by simpa using hc
  have e : ∀ k, g.par^[k + 2] s = g.corner := by
    intro k
    induction k with
    | zero =>
      change g.par (g.par s) = g.corner
      exact h.noflow _ hc'
    | succ k ih =>
      rw [show k + 1 + 2 = (k + 2) + 1 from rfl, Function.iterate_succ_apply', ih]
      exact h.noflow _ h.corner
  obtain ⟨h2, -, hd⟩ := hm
  have := e (m - 2)
  rw [show m - 2 + 2 = m by omega] at this
  rw [this] at hd
  have := hd.1
  simp only [fl, h.corner] at this
  cases this

lemma len_succ (s : C) (n : ℕ) :
    len g.par g.ds s (n + 1) = len g.par g.ds s n + g.ds (g.par^[n] s) := by
  unfold len
  rw [Finset.sum_range_succ]

lemma len_pos (h : Sound g) (s : C) (n : ℕ) (hn : 0 < n) : 0 < len g.par g.ds s n := by
  unfold len
  exact Finset.sum_pos (fun i _ => h.length _) (by simpa using hn.ne')

/-- The ground falls along a path by no more than 99999 times its length. -/
lemma drop_le (h : Sound g) (s : C) (n : ℕ) (hf : ∀ i < n, g.flow (g.par^[i] s) = true) :
    0 ≤ g.z s - g.z (g.par^[n] s) ∧ g.z s - g.z (g.par^[n] s) ≤ 99999 * len g.par g.ds s n := by
  induction n with
  | zero => simp [len]
  | succ n ih =>
    obtain ⟨a, b⟩ := ih (fun i hi => hf i (by omega))
    have hc := hf n (by omega)
    have d1 := h.down _ hc
    have d2 := h.bound _ hc
    rw [div_le_iff₀ (h.length _)] at d2
    rw [Function.iterate_succ_apply', len_succ]
    constructor
    · linarith
    · rw [mul_add]; linarith

lemma mean_bounds (h : Sound g) (s : C) (m : ℕ) (hb : Begins g.par (fl g) g.z s)
    (hm : FallsAt g.par (fl g) g.z s m) :
    0 < mean g.par g.ds g.z s m ∧ mean g.par g.ds g.z s m ≤ 99999 := by
  have hf := path_flow s m hb hm (second_flow h s m hm)
  have hl := len_pos h s (m + 1) (by omega)
  obtain ⟨-, b⟩ := drop_le h s (m + 1) (fun i hi => hf i (by omega))
  obtain ⟨a, -⟩ := drop_le h s m (fun i hi => hf i (by omega))
  have hd := hm.2.2.2
  rw [← Function.iterate_succ_apply' g.par m s] at hd
  refine ⟨div_pos (by linarith) hl, ?_⟩
  unfold mean
  rw [div_le_iff₀ hl]
  exact b

/-! ### The loop -/

/-- A path whose third to `n`-th cells are level. -/
def Level (g : Grid C K) (s : C) (n : ℕ) : Prop :=
  ∀ i, 2 ≤ i → i < n → Flat g.par (fl g) g.z (g.par^[i] s)

/-- A path after `r` passes. -/
structure PathInv (g : Grid C K) (r : ℕ) (p : Path C K) : Prop where
  cur : p.cur = g.par^[r + 1] p.start
  live : p.resolved = false ↔ Level g p.start (r + 2)
  chan : p.resolved = false → ∀ i < r + 2, p.chan i = g.par^[i] p.start
  dist : p.resolved = false → p.dist = len g.par g.ds p.start (r + 1)

/-- The slopes that count for a cell after `r` passes. -/
def slopesUpTo (g : Grid C K) (r : ℕ) (c : C) : Set K :=
  {v | (Falls g.par (fl g) g.z c ∧ v = (g.z c - g.z (g.par c)) / g.ds c) ∨
    ∃ s ∈ g.cells, ∃ m, Begins g.par (fl g) g.z s ∧ FallsAt g.par (fl g) g.z s m ∧ m < r + 2 ∧
      (∃ i ≤ m, c = g.par^[i] s) ∧ v = mean g.par g.ds g.z s m}

/-- The value of a cell is the least of a set of slopes, or what it was at the start if the set is empty. -/
def IsMin (g : Grid C K) (f : C → K) (c : C) (A : Set K) : Prop :=
  (A = ∅ → f c = slope0 g c) ∧ (A.Nonempty → IsLeast A (f c))

lemma lower_min (f : C → K) (cells : List C) (v : K) (hv : 0 < v) (hv' : v ≤ 99999) (c : C) (A : Set K)
    (hA : ∀ a ∈ A, 0 < a) (h0 : A = ∅ → f c ≤ 0) (h : IsMin g f c A) :
    IsMin g (lower f cells v) c (A ∪ {x | x = v ∧ c ∈ cells}) := by
  unfold lower
  by_cases hc : c ∈ cells
  · have e : {x | x = v ∧ c ∈ cells} = {v} := by ext x; simp [hc]
    rw [e]
    constructor
    · intro h1
      have : v ∈ A ∪ {v} := .inr rfl
      rw [h1] at this
      exact absurd this (Set.notMem_empty v)
    intro _
    simp only [if_pos hc]
    rcases Set.eq_empty_or_nonempty A with hE | hN
    · have h1 := h0 hE
      rw [if_pos (by simp [h1]), min_eq_left hv', hE, Set.empty_union]
      exact isLeast_singleton
    · have hl := h.2 hN
      have hp := hA _ hl.1
      rw [max_eq_right hp.le, if_neg (not_le.2 hp), min_comm]
      exact hl.union isLeast_singleton
  · have e : {x | x = v ∧ c ∈ cells} = ∅ := by ext x; simp [hc]
    rw [e, Set.union_empty]
    constructor
    · intro h1; simp only [if_neg hc]; exact h.1 h1
    · intro h1; simp only [if_neg hc]; exact h.2 h1

/-- The cells of a path that comes to a drop in a pass. -/
lemma advance_inv (h : Sound g) (r : ℕ) (p : Path C K) (hp : PathInv g r p) :
    (mark g (advance g (r + 2) p)).start = p.start ∧ (advance g (r + 2) p).start = p.start ∧
    (advance g (r + 2) p).cur = g.par^[r + 2] p.start ∧
    PathInv g (r + 1) (mark g (advance g (r + 2) p)) ∧
    (ready g (advance g (r + 2) p) = true ↔ FallsAt g.par (fl g) g.z p.start (r + 2)) ∧
    (ready g (advance g (r + 2) p) = true →
      newSlope g (advance g (r + 2) p) = mean g.par g.ds g.z p.start (r + 2) ∧
      ∀ c, c ∈ readyCells (r + 2) (advance g (r + 2) p) ↔ ∃ i ≤ r + 2, c = g.par^[i] p.start) := by
  have hc : g.par p.cur = g.par^[r + 2] p.start := by
    rw [hp.cur, ← Function.iterate_succ_apply' g.par (r + 1) p.start]
  have hlev : Level g p.start (r + 1 + 2) ↔
      Level g p.start (r + 2) ∧ Flat g.par (fl g) g.z (g.par^[r + 2] p.start) := by
    constructor
    · intro h1
      exact ⟨fun i a b => h1 i a (by omega), h1 (r + 2) (by omega) (by omega)⟩
    · rintro ⟨h1, h2⟩ i a b
      rcases Nat.lt_or_ge i (r + 2) with hi | hi
      · exact h1 i a hi
      · obtain rfl : i = r + 2 := by omega
        exact h2
  have hfa : FallsAt g.par (fl g) g.z p.start (r + 2) ↔
      Level g p.start (r + 2) ∧ Falls g.par (fl g) g.z (g.par^[r + 2] p.start) :=
    ⟨fun ⟨_, b, c⟩ => ⟨b, c⟩, fun ⟨b, c⟩ => ⟨by omega, b, c⟩⟩
  by_cases h1 : 0 < slope0 g (g.par p.cur)
  · -- a drop
    have hF := (slope_pos_iff h _).1 h1
    have ha : advance g (r + 2) p = { p with
        cur := g.par p.cur
        dist := p.dist + g.ds p.cur + g.ds (g.par p.cur)
        chan := setChan (setChan p.chan (r + 2) (g.par p.cur)) (r + 2 + 1) (g.par (g.par p.cur)) } := by
      unfold advance; dsimp only; rw [if_pos h1]
    have hmk : mark g (advance g (r + 2) p) = { advance g (r + 2) p with resolved := true } := by
      unfold mark; rw [ha]; dsimp only; rw [if_pos h1]
    have hr : ready g (advance g (r + 2) p) = true ↔ p.resolved = false := by
      unfold ready; rw [ha]; simp [h1]
    refine ⟨by rw [hmk, ha], by rw [ha], by rw [ha]; exact hc, ?_, ?_, ?_⟩
    · rw [hmk, ha]
      refine ⟨hc, ?_, by simp, by simp⟩
      simp only [Bool.true_eq_false, false_iff]
      rw [hlev, ← hc]
      rintro ⟨-, h2⟩
      have := hF.2
      rw [h2.2] at this
      exact lt_irrefl _ this
    · rw [hr, hp.live, hfa, ← hc]
      exact ⟨fun a => ⟨a, hF⟩, fun a => a.1⟩
    · intro hrd
      have hlive := hr.1 hrd
      have hch := hp.chan hlive
      have hdi := hp.dist hlive
      constructor
      · unfold newSlope mean
        rw [ha]
        dsimp only
        rw [hdi, hp.cur, ← len_succ, ← Function.iterate_succ_apply' g.par (r + 1) p.start, ← len_succ,
          ← Function.iterate_succ_apply' g.par (r + 2) p.start]
      · intro c
        unfold readyCells
        rw [ha]
        simp only [List.mem_map, List.mem_range]
        have hv : ∀ i, i < r + 2 + 1 →
            setChan (setChan p.chan (r + 2) (g.par p.cur)) (r + 2 + 1) (g.par (g.par p.cur)) i
              = g.par^[i] p.start := by
          intro i hi
          unfold setChan
          rw [if_neg (by omega)]
          by_cases hi2 : i = r + 2
          · rw [if_pos hi2, hi2, hc]
          · rw [if_neg hi2]
            exact hch i (by omega)
        constructor
        · rintro ⟨i, hi, rfl⟩
          exact ⟨i, by omega, hv i hi⟩
        · rintro ⟨i, hi, rfl⟩
          exact ⟨i, by omega, hv i (by omega)⟩
  · by_cases h2 : slope0 g (g.par p.cur) = 0
    · -- level
      have hL := (slope_zero_iff h _).1 h2
      have ha : advance g (r + 2) p = { p with
          cur := g.par p.cur
          dist := p.dist + g.ds p.cur
          chan := setChan p.chan (r + 2) (g.par p.cur) } := by
        unfold advance; dsimp only; rw [if_neg h1, if_pos h2]
      have hmk : mark g (advance g (r + 2) p) = advance g (r + 2) p := by
        unfold mark; rw [ha]; dsimp only; rw [if_neg h1]
      have hr : ready g (advance g (r + 2) p) = false := by
        unfold ready; rw [ha]; simp [h1]
      refine ⟨by rw [hmk, ha], by rw [ha], by rw [ha]; exact hc, ?_, ?_, by rw [hr]; intro h; cases h⟩
      · rw [hmk, ha]
        refine ⟨hc, ?_, ?_, ?_⟩
        · dsimp only
          rw [hp.live, hlev, ← hc]
          exact ⟨fun a => ⟨a, hL⟩, fun a => a.1⟩
        · dsimp only
          intro hlive i hi
          unfold setChan
          by_cases hi2 : i = r + 2
          · rw [if_pos hi2, hi2, hc]
          · rw [if_neg hi2]
            exact hp.chan hlive i (by omega)
        · dsimp only
          intro hlive
          rw [hp.dist hlive, hp.cur, ← len_succ]
      · rw [hr, hfa, ← hc]
        constructor
        · intro h; cases h
        · rintro ⟨-, h3⟩
          exact absurd ((slope_pos_iff h _).2 h3) h1
    · -- no flow
      have ha : advance g (r + 2) p = { p with
          cur := g.par p.cur
          dist := p.dist + g.ds p.cur
          resolved := true } := by
        unfold advance; dsimp only; rw [if_neg h1, if_neg h2]
      have hmk : mark g (advance g (r + 2) p) = advance g (r + 2) p := by
        unfold mark; rw [ha]; dsimp only; rw [if_neg h1]
      have hr : ready g (advance g (r + 2) p) = false := by
        unfold ready; rw [ha]; simp
      refine ⟨by rw [hmk, ha], by rw [ha], by rw [ha]; exact hc, ?_, ?_, by rw [hr]; intro h; cases h⟩
      · rw [hmk, ha]
        refine ⟨hc, ?_, by simp, by simp⟩
        simp only [Bool.true_eq_false, false_iff]
        rw [hlev, ← hc]
        rintro ⟨-, h3⟩
        exact h2 ((slope_zero_iff h _).2 h3)
      · rw [hr, hfa, ← hc]
        constructor
        · intro h; cases h
        · rintro ⟨-, h3⟩
          exact absurd ((slope_pos_iff h _).2 h3) h1

/-- The variables after `r` passes. -/
structure Inv (g : Grid C K) (r : ℕ) (s : State C K) : Prop where
  idx : s.idx = r + 2
  paths : ∀ p ∈ s.paths, PathInv g r p ∧ p.start ∈ g.cells ∧ Begins g.par (fl g) g.z p.start
  all : ∀ c ∈ g.cells, Begins g.par (fl g) g.z c → ∃ p ∈ s.paths, p.start = c
  slope : ∀ c, IsMin g s.slope c (slopesUpTo g r c)

lemma slopes_pos (h : Sound g) (r : ℕ) (c : C) (a : K) (ha : a ∈ slopesUpTo g r c) : 0 < a := by
  rcases ha with ⟨hf, rfl⟩ | ⟨s, -, m, hb, hm, -, -, rfl⟩
  · rw [← slope_falls h c hf]
    exact (slope_pos_iff h c).2 hf
  · exact (mean_bounds h s m hb hm).1

lemma empty_nonpos (h : Sound g) (f : C → K) (c : C) (A : Set K)
    (hown : Falls g.par (fl g) g.z c → A.Nonempty) (hm : IsMin g f c A) (hA : A = ∅) : f c ≤ 0 := by
  rw [hm.1 hA]
  by_contra hc
  push Not at hc
  obtain ⟨x, hx⟩ := hown ((slope_pos_iff h c).1 hc)
  rw [hA] at hx
  exact hx

/-- The slopes that the paths of a list contribute in a pass. -/
def contrib (g : Grid C K) (r : ℕ) (ps : List (Path C K)) (c : C) : Set K :=
  {v | ∃ p ∈ ps, FallsAt g.par (fl g) g.z p.start (r + 2) ∧ (∃ i ≤ r + 2, c = g.par^[i] p.start) ∧
    v = mean g.par g.ds g.z p.start (r + 2)}

lemma lowerAll_min (h : Sound g) (r : ℕ) (ps : List (Path C K))
    (hps : ∀ p ∈ ps, PathInv g r p ∧ Begins g.par (fl g) g.z p.start) (f : C → K) (c : C) (A : Set K)
    (hA : ∀ a ∈ A, 0 < a) (hown : Falls g.par (fl g) g.z c → A.Nonempty) (hm : IsMin g f c A) :
    IsMin g (lowerAll g (r + 2) (ps.map (advance g (r + 2))) f) c (A ∪ contrib g r ps c) := by
  induction ps generalizing f A with
  | nil =>
    have : contrib g r [] c = ∅ := by ext x; simp [contrib]
    rw [this, Set.union_empty]
    exact hm
  | cons p ps ih =>
    obtain ⟨hp, hb⟩ := hps p (by simp)
    obtain ⟨-, -, -, -, hr, hr'⟩ := advance_inv h r p hp
    simp only [List.map_cons, lowerAll]
    by_cases hrd : ready g (advance g (r + 2) p) = true
    · rw [if_pos hrd]
      obtain ⟨e1, e2⟩ := hr' hrd
      have hF := hr.1 hrd
      obtain ⟨b1, b2⟩ := mean_bounds h _ _ hb hF
      have step := lower_min f (readyCells (r + 2) (advance g (r + 2) p))
        (newSlope g (advance g (r + 2) p)) (by rw [e1]; exact b1) (by rw [e1]; exact b2) c A hA
        (empty_nonpos h f c A hown hm) hm
      have := ih (fun q hq => hps q (by simp [hq])) _ _ ?_ ?_ step
      · have e : A ∪ contrib g r (p :: ps) c
            = A ∪ {x | x = newSlope g (advance g (r + 2) p) ∧
                c ∈ readyCells (r + 2) (advance g (r + 2) p)} ∪ contrib g r ps c := by
          ext x
          simp only [Set.mem_union, Set.mem_ofPred_eq, contrib, List.mem_cons, exists_eq_or_imp, e1, e2]
          constructor
          · rintro (h1 | ⟨-, h2, h3⟩ | h1)
            · exact .inl (.inl h1)
            · exact .inl (.inr ⟨h3, h2⟩)
            · exact .inr h1
          · rintro ((h1 | ⟨h1, h2⟩) | h1)
            · exact .inl h1
            · exact .inr (.inl ⟨hF, h2, h1⟩)
            · exact .inr (.inr h1)
        rw [e]
        exact this
      · rintro a (ha | ⟨rfl, -⟩)
        · exact hA a ha
        · rw [e1]; exact b1
      · intro hf
        exact (hown hf).mono Set.subset_union_left
    · rw [if_neg hrd]
      have := ih (fun q hq => hps q (by simp [hq])) f A hA hown hm
      have e : contrib g r (p :: ps) c = contrib g r ps c := by
        ext x
        simp only [Set.mem_ofPred_eq, contrib, List.mem_cons, exists_eq_or_imp]
        constructor
        · rintro (⟨h1, -⟩ | h1)
          · exact absurd (hr.2 h1) hrd
          · exact h1
        · exact .inr
      rw [e]
      exact this

lemma slopesUpTo_succ (r : ℕ) (c : C) (ps : List (Path C K))
    (hps : ∀ p ∈ ps, p.start ∈ g.cells ∧ Begins g.par (fl g) g.z p.start)
    (hall : ∀ c ∈ g.cells, Begins g.par (fl g) g.z c → ∃ p ∈ ps, p.start = c) :
    slopesUpTo g (r + 1) c = slopesUpTo g r c ∪ contrib g r ps c := by
  ext x
  simp only [slopesUpTo, contrib, Set.mem_union, Set.mem_ofPred_eq]
  constructor
  · rintro (h1 | ⟨s, hs, m, hb, hm, hlt, hi, rfl⟩)
    · exact .inl (.inl h1)
    · rcases Nat.lt_or_ge m (r + 2) with h1 | h1
      · exact .inl (.inr ⟨s, hs, m, hb, hm, h1, hi, rfl⟩)
      · obtain rfl : m = r + 2 := by omega
        obtain ⟨p, hp, rfl⟩ := hall s hs hb
        exact .inr ⟨p, hp, hm, hi, rfl⟩
  · rintro ((h1 | ⟨s, hs, m, hb, hm, hlt, hi, rfl⟩) | ⟨p, hp, hm, hi, rfl⟩)
    · exact .inl h1
    · exact .inr ⟨s, hs, m, hb, hm, by omega, hi, rfl⟩
    · obtain ⟨a, b⟩ := hps p hp
      exact .inr ⟨_, a, _, b, hm, by omega, hi, rfl⟩

lemma start_inv (h : Sound g) : Inv g 0 (start g) := by
  refine ⟨rfl, ?_, ?_, ?_⟩
  · intro p hp
    simp only [start, List.mem_map, List.mem_filter] at hp
    obtain ⟨c, ⟨hc, hs⟩, rfl⟩ := hp
    refine ⟨⟨rfl, ?_, ?_, ?_⟩, hc, (start_iff h c).1 hs⟩
    · simp only [newPath, true_iff]
      intro i a b; omega
    · intro _ i hi
      simp only [newPath]
      rcases Nat.lt_or_ge i 1 with h1 | h1
      · obtain rfl : i = 0 := by omega
        rfl
      · obtain rfl : i = 1 := by omega
        rfl
    · intro _
      simp [newPath, len]
  · intro c hc hb
    refine ⟨newPath g c, ?_, rfl⟩
    simp only [start, List.mem_map, List.mem_filter]
    exact ⟨c, ⟨hc, (start_iff h c).2 hb⟩, rfl⟩
  · intro c
    have e : slopesUpTo g 0 c
        = {v | Falls g.par (fl g) g.z c ∧ v = (g.z c - g.z (g.par c)) / g.ds c} := by
      ext x
      simp only [slopesUpTo, Set.mem_ofPred_eq]
      constructor
      · rintro (h1 | ⟨s, hs, m, hb, hm, hlt, hi, rfl⟩)
        · exact h1
        · have := hm.1; omega
      · exact .inl
    rw [e]
    constructor
    · intro _; rfl
    · rintro ⟨x, hx⟩
      have : (start g).slope c = (g.z c - g.z (g.par c)) / g.ds c := slope_falls h c hx.1
      rw [this]
      exact ⟨⟨hx.1, rfl⟩, fun y hy => hy.2.ge⟩

lemma pass_ok (s t : State C K) (ht : pass g s = .ok t) :
    t.paths = (s.paths.map (advance g s.idx)).map (mark g) ∧
    t.idx = (if (s.paths.map (advance g s.idx)).any (fun p => decide (slope0 g p.cur = 0))
      then s.idx + 1 else s.idx) ∧
    t.slope = lowerAll g s.idx (s.paths.map (advance g s.idx)) s.slope := by
  unfold pass at ht
  dsimp only at ht
  by_cases h1 : g.maxlen ≤ s.idx - 1
  · rw [if_pos h1] at ht; cases ht
  rw [if_neg h1] at ht
  by_cases h2 : ((s.paths.map (advance g s.idx)).any fun p => decide (0 < slope0 g p.cur)) = true ∧
      g.maxlen ≤ s.idx + 1
  · rw [if_pos h2] at ht; cases ht
  rw [if_neg h2] at ht
  by_cases h3 : ((s.paths.map (advance g s.idx)).any fun p => decide (slope0 g p.cur = 0)) = true ∧
      g.maxlen ≤ s.idx
  · rw [if_pos h3] at ht; cases ht
  rw [if_neg h3] at ht
  cases ht
  exact ⟨rfl, rfl, rfl⟩

lemma pass_bound (s t : State C K) (ht : pass g s = .ok t) : s.idx - 1 < g.maxlen := by
  unfold pass at ht
  dsimp only at ht
  by_cases h1 : g.maxlen ≤ s.idx - 1
  · rw [if_pos h1] at ht; cases ht
  · omega

/-- One pass: either the variables are those after one more pass, or everything is resolved. -/
lemma pass_inv (h : Sound g) (r : ℕ) (s t : State C K) (hs : Inv g r s) (ht : pass g s = .ok t) :
    (∀ p ∈ t.paths, PathInv g (r + 1) p ∧ p.start ∈ g.cells ∧ Begins g.par (fl g) g.z p.start) ∧
    (∀ c ∈ g.cells, Begins g.par (fl g) g.z c → ∃ p ∈ t.paths, p.start = c) ∧
    (∀ c, IsMin g t.slope c (slopesUpTo g (r + 1) c)) ∧
    (t.idx = r + 1 + 2 ∨ ∀ p ∈ t.paths, p.resolved = true) := by
  obtain ⟨e1, e2, e3⟩ := pass_ok s t ht
  rw [hs.idx] at e1 e2 e3
  refine ⟨?_, ?_, ?_, ?_⟩
  · intro p hp
    rw [e1, List.map_map] at hp
    obtain ⟨q, hq, rfl⟩ := List.mem_map.1 hp
    obtain ⟨i1, i2, i3⟩ := hs.paths q hq
    obtain ⟨a1, -, -, a4, -⟩ := advance_inv h r q i1
    simp only [Function.comp_apply]
    rw [a1]
    exact ⟨a4, i2, i3⟩
  · intro c hc hb
    obtain ⟨p, hp, rfl⟩ := hs.all c hc hb
    obtain ⟨a1, -⟩ := advance_inv h r p (hs.paths p hp).1
    refine ⟨mark g (advance g (r + 2) p), ?_, a1⟩
    rw [e1, List.map_map]
    exact List.mem_map.2 ⟨p, hp, rfl⟩
  · intro c
    rw [e3, slopesUpTo_succ r c s.paths (fun p hp => (hs.paths p hp).2) hs.all]
    refine lowerAll_min h r s.paths (fun p hp => ⟨(hs.paths p hp).1, (hs.paths p hp).2.2⟩) s.slope c _
      (slopes_pos h r c) ?_ (hs.slope c)
    intro hf
    exact ⟨_, .inl ⟨hf, rfl⟩⟩
  · by_cases hb : ((s.paths.map (advance g (r + 2))).any fun p => decide (slope0 g p.cur = 0)) = true
    · left
      rw [e2, if_pos hb]
    · right
      intro p hp
      rw [e1, List.map_map] at hp
      obtain ⟨q, hq, rfl⟩ := List.mem_map.1 hp
      obtain ⟨i1, -, -⟩ := hs.paths q hq
      obtain ⟨a1, -, a3, a4, -⟩ := advance_inv h r q i1
      simp only [Function.comp_apply]
      by_contra hc
      have hc' : (mark g (advance g (r + 2) q)).resolved = false := by simpa using hc
      have := a4.live.1 hc' (r + 2) (by omega) (by omega)
      rw [a1, ← a3] at this
      apply hb
      rw [List.any_eq_true]
      exact ⟨_, List.mem_map.2 ⟨q, hq, rfl⟩, by simpa using (slope_zero_iff h _).2 this⟩

/-- At the end of the loop every slope that counts has been used. -/
lemma all_counted (h : Sound g) (r : ℕ) (paths : List (Path C K))
    (hp : ∀ p ∈ paths, PathInv g r p)
    (hall : ∀ c ∈ g.cells, Begins g.par (fl g) g.z c → ∃ p ∈ paths, p.start = c)
    (hd : ∀ p ∈ paths, p.resolved = true) (c : C) :
    slopesUpTo g r c = slopes g.par (fl g) g.ds g.z g.cells c := by
  ext x
  simp only [slopesUpTo, slopes, Set.mem_ofPred_eq]
  constructor
  · rintro (h1 | ⟨s, hs, m, hb, hm, hlt, hi, rfl⟩)
    · exact .inl h1
    · exact .inr ⟨s, hs, m, hb, hm, hi, rfl⟩
  · rintro (h1 | ⟨s, hs, m, hb, hm, hi, rfl⟩)
    · exact .inl h1
    · refine .inr ⟨s, hs, m, hb, hm, ?_, hi, rfl⟩
      by_contra hlt
      obtain ⟨p, hpm, rfl⟩ := hall s hs hb
      have : p.resolved = false := by
        rw [(hp p hpm).live]
        intro i a b
        exact hm.2.1 i a (by omega)
      rw [hd p hpm] at this
      cases this

/-- When all paths have come to the first cell of the grid, all of them are resolved. -/
lemma corner_resolved (h : Sound g) (r : ℕ) (p : Path C K) (hr : 1 ≤ r) (hp : PathInv g r p)
    (hc : p.cur = g.corner) : p.resolved = true := by
  by_contra hn
  have hn' : p.resolved = false := by simpa using hn
  have := hp.live.1 hn' (r + 1) (by omega) (by omega)
  rw [← hp.cur, hc] at this
  have := this.1
  simp only [fl, h.corner] at this
  cases this

lemma loop_slopes (h : Sound g) (n : ℕ) (r : ℕ) (s t : State C K) (hs : Inv g r s)
    (hn : g.maxlen + 1 = n + r) (hr : r ≤ g.maxlen) (ht : loop g n s = .ok t) (c : C) :
    IsMin g t.slope c (slopes g.par (fl g) g.ds g.z g.cells c) := by
  induction n generalizing r s with
  | zero =>
    -- the index is out of bounds before `n_reps` is
    exfalso; omega
  | succ n ih =>
    unfold loop at ht
    cases hpass : pass g s with
    | error e => rw [hpass] at ht; cases ht
    | ok u =>
      rw [hpass] at ht
      dsimp only at ht
      obtain ⟨u1, u2, u3, u4⟩ := pass_inv h r s u hs hpass
      by_cases hd : done g u = true
      · rw [if_pos hd] at ht
        have hut : u = t := by injection ht
        rw [← hut]
        have hres : ∀ p ∈ u.paths, p.resolved = true := by
          intro p hp
          unfold done at hd
          rw [Bool.or_eq_true, List.all_eq_true, List.all_eq_true] at hd
          rcases hd with hd | hd
          · exact hd p hp
          · exact corner_resolved h (r + 1) p (by omega) (u1 p hp).1 (by simpa using hd p hp)
        rw [← all_counted h (r + 1) u.paths (fun p hp => (u1 p hp).1) u2 hres c]
        exact u3 c
      · rw [if_neg hd] at ht
        have hidx : u.idx = r + 1 + 2 := by
          rcases u4 with u4 | u4
          · exact u4
          · exfalso
            apply hd
            unfold done
            rw [Bool.or_eq_true, List.all_eq_true]
            exact .inl u4
        have hb := pass_bound s u hpass
        rw [hs.idx] at hb
        exact ih (r + 1) u ⟨hidx, u1, u2, u3⟩ (by omega) (by omega) ht

/-- The loop does not fail if no flow path has more than `maxlen - 1` cells with a flow. -/
lemma loop_ok (h : Sound g) (hshort : ∀ c i, g.maxlen ≤ i + 1 → g.flow (g.par^[i] c) = false)
    (n : ℕ) (r : ℕ) (s : State C K) (hs : Inv g r s) (hr : r + 1 < g.maxlen) :
    ∃ t, loop g n s = .ok t := by
  induction n generalizing r s with
  | zero => exact ⟨s, rfl⟩
  | succ n ih =>
    have hcur : ∀ p ∈ s.paths.map (advance g (r + 2)), ∃ q, p.cur = g.par^[r + 2] q := by
      intro p hp
      obtain ⟨q, hq, rfl⟩ := List.mem_map.1 hp
      obtain ⟨-, -, a3, -⟩ := advance_inv h r q (hs.paths q hq).1
      exact ⟨_, a3⟩
    have hpass : ∃ u, pass g s = .ok u := by
      unfold pass
      dsimp only
      rw [hs.idx, if_neg (by omega), if_neg, if_neg]
      · exact ⟨_, rfl⟩
      · rintro ⟨h1, h2⟩
        rw [List.any_eq_true] at h1
        obtain ⟨p, hp, hp'⟩ := h1
        obtain ⟨q, hq⟩ := hcur p hp
        rw [hq, decide_eq_true_eq, slope_zero_iff h] at hp'
        have := hp'.1
        simp only [fl, hshort q (r + 2) (by omega)] at this
        cases this
      · rintro ⟨h1, h2⟩
        rw [List.any_eq_true] at h1
        obtain ⟨p, hp, hp'⟩ := h1
        obtain ⟨q, hq⟩ := hcur p hp
        rw [hq, decide_eq_true_eq, slope_pos_iff h] at hp'
        have := hp'.1
        simp only [fl, hshort q (r + 2) (by omega)] at this
        cases this
    obtain ⟨u, hu⟩ := hpass
    obtain ⟨u1, u2, u3, u4⟩ := pass_inv h r s u hs hu
    unfold loop
    rw [hu]
    dsimp only
    by_cases hd : done g u = true
    · rw [if_pos hd]
      exact ⟨u, rfl⟩
    · rw [if_neg hd]
      have hres : ¬ ∀ p ∈ u.paths, p.resolved = true := by
        intro u4
        apply hd
        unfold done
        rw [Bool.or_eq_true, List.all_eq_true]
        exact .inl u4
      have hidx : u.idx = r + 1 + 2 := u4.resolve_right hres
      refine ih (r + 1) u ⟨hidx, u1, u2, u3⟩ ?_
      push Not at hres
      obtain ⟨p, hp, hpr⟩ := hres
      have hpr' : p.resolved = false := by simpa using hpr
      have := ((u1 p hp).1.live.1 hpr' (r + 2) (by omega) (by omega)).1
      by_contra hlt
      simp only [fl, hshort p.start (r + 2) (by omega)] at this
      cases this

/-! ## C249 -/

/-- C249 (the grid that is written): a cell without a flow gets slope zero; a cell with a flow gets the
least of its own slope and the mean slopes of the paths over flats that it belongs to, and zero if it has
neither. -/
theorem C249_slopes_partial (h : Sound g) (f : C → K) (hf : newSlopeGrid2 g = .ok (some f)) (c : C) :
    (g.flow c = false → f c = 0) ∧
    (g.flow c = true →
      (slopes g.par (fl g) g.ds g.z g.cells c = ∅ → f c = 0) ∧
      ((slopes g.par (fl g) g.ds g.z g.cells c).Nonempty →
        IsLeast (slopes g.par (fl g) g.ds g.z g.cells c) (f c))) := by
  unfold newSlopeGrid2 at hf
  by_cases h1 : (g.cells.all fun c => decide (0 < dz g c)) = true
  · rw [if_pos h1] at hf; cases hf
  rw [if_neg h1] at hf
  by_cases h2 : three g (slope0 g) = false
  · rw [if_pos h2] at hf; cases hf
  rw [if_neg h2] at hf
  by_cases h3 : g.cells.filter (isStart g) = []
  · rw [if_pos h3] at hf; cases hf
  rw [if_neg h3] at hf
  cases hl : loop g (g.maxlen + 1) (start g) with
  | error e => rw [hl] at hf; cases hf
  | ok t =>
    rw [hl] at hf
    dsimp only at hf
    by_cases h4 : three g (fun c => if g.flow c = true then t.slope c else 0) = false
    · rw [if_pos h4] at hf; cases hf
    rw [if_neg h4] at hf
    cases hf
    have hm := loop_slopes h (g.maxlen + 1) 0 (start g) t (start_inv h) (by omega) (by omega) hl c
    constructor
    · intro hc
      simp [hc]
    · intro hc
      simp only [hc, if_true]
      refine ⟨fun he => ?_, hm.2⟩
      rw [hm.1 he, slope_zero_iff h]
      refine ⟨hc, le_antisymm (h.down c hc) (not_lt.1 fun hlt => ?_)⟩
      have : (g.z c - g.z (g.par c)) / g.ds c ∈ slopes g.par (fl g) g.ds g.z g.cells c :=
        .inl ⟨⟨hc, hlt⟩, rfl⟩
      rw [he] at this
      exact this

/-- Upstream of a level cell a flat begins, on whose path the cell lies, with level cells between. -/
lemma exists_begin (h : Sound g) (c : C) (hc : Flat g.par (fl g) g.z c) :
    ∃ s i, Begins g.par (fl g) g.z s ∧ g.par^[i] s = c ∧
      (∀ j, 1 ≤ j → j ≤ i → Flat g.par (fl g) g.z (g.par^[j] s)) ∧
      ((∃ k, g.flow k = true ∧ g.par k = c) → 1 ≤ i) := by
  obtain ⟨rank, hrank⟩ := h.noloop
  induction hn : rank c using Nat.strong_induction_on generalizing c with
  | _ n ih =>
    by_cases hk : ∃ k, g.flow k = true ∧ g.par k = c
    · obtain ⟨k, hk1, hk2⟩ := hk
      have hlt := hrank k hk1
      rw [hk2, hn] at hlt
      rcases (h.down k hk1).lt_or_eq with hd | hd
      · refine ⟨k, 1, .inl ⟨⟨hk1, hd⟩, by rw [hk2]; exact hc⟩, hk2, ?_, fun _ => le_refl 1⟩
        intro j a b
        obtain rfl : j = 1 := by omega
        change Flat g.par (fl g) g.z (g.par k)
        rw [hk2]; exact hc
      · obtain ⟨s, i, a1, a2, a3, -⟩ := ih (rank k) hlt k ⟨hk1, hd⟩ rfl
        have e : g.par^[i + 1] s = c := by rw [Function.iterate_succ_apply', a2, hk2]
        refine ⟨s, i + 1, a1, e, ?_, fun _ => by omega⟩
        intro j b1 b2
        rcases Nat.lt_or_ge i j with hj | hj
        · obtain rfl : j = i + 1 := by omega
          rw [e]; exact hc
        · exact a3 j b1 hj
    · refine ⟨c, 0, .inr ⟨hc, fun k h1 h2 => hk ⟨k, h1, h2⟩⟩, rfl, fun j a b => by omega, fun a => absurd a hk⟩

/-- C249 (positive slopes): in the grid that is written, a cell from which the flow leads to lower ground
has a positive slope, unless it is a single level cell that no cell flows into. -/
theorem C249_positive_partial (h : Sound g) (f : C → K) (hf : newSlopeGrid2 g = .ok (some f)) (c : C)
    (n : ℕ) (hflat : ∀ i < n, Flat g.par (fl g) g.z (g.par^[i] c))
    (hdrop : Falls g.par (fl g) g.z (g.par^[n] c))
    (hone : n ≠ 1 ∨ ∃ k, g.flow k = true ∧ g.par k = c) : 0 < f c := by
  have key : (slopes g.par (fl g) g.ds g.z g.cells c).Nonempty ∧ g.flow c = true := by
    rcases Nat.eq_zero_or_pos n with h0 | h0
    · subst h0
      exact ⟨⟨_, .inl ⟨hdrop, rfl⟩⟩, hdrop.1⟩
    · have hc := hflat 0 h0
      obtain ⟨s, i, b1, b2, b3, b4⟩ := exists_begin h c hc
      have hs : g.flow s = true := by
        rcases b1 with b1 | b1
        · exact b1.1.1
        · exact b1.1.1
      have e : ∀ j, g.par^[j + i] s = g.par^[j] c := by
        intro j
        rw [Function.iterate_add_apply, b2]
      refine ⟨⟨_, .inr ⟨s, h.inside s hs, n + i, b1, ⟨?_, ?_, ?_⟩, ⟨i, by omega, b2.symm⟩, rfl⟩⟩, hc.1⟩
      · rcases hone with h1 | h1
        · omega
        · have := b4 h1; omega
      · intro j a b
        rcases Nat.lt_or_ge i j with hj | hj
        · obtain ⟨d, rfl⟩ : ∃ d, j = d + i := ⟨j - i, by omega⟩
          rw [e]
          exact hflat d (by omega)
        · exact b3 j (by omega) hj
      · rw [e]; exact hdrop
  have hl := ((C249_slopes_partial h f hf c).2 key.2).2 key.1
  rcases hl.1 with ⟨h1, h2⟩ | ⟨s, -, m, hb, hm, -, h2⟩
  · rw [h2]
    exact div_pos (by linarith [h1.2]) (h.length c)
  · rw [h2]
    exact (mean_bounds h s m hb hm).1

/-- C249 (the function succeeds): if some flat begins, there are three different positive slopes and no flow
path has more than `maxlen - 1` cells with a flow, a grid is computed; it is written if it has three
different positive slopes again. -/
theorem C249_runs_partial (h : Sound g)
    (hshort : ∀ c i, g.maxlen ≤ i + 1 → g.flow (g.par^[i] c) = false)
    (hedge : ∃ c ∈ g.cells, g.flow c = false)
    (hb : ∃ s, Begins g.par (fl g) g.z s)
    (h3 : ∃ a b c, Falls g.par (fl g) g.z a ∧ Falls g.par (fl g) g.z b ∧ Falls g.par (fl g) g.z c ∧
      (g.z a - g.z (g.par a)) / g.ds a < (g.z b - g.z (g.par b)) / g.ds b ∧
      (g.z b - g.z (g.par b)) / g.ds b < (g.z c - g.z (g.par c)) / g.ds c) :
    ∃ f : C → K, newSlopeGrid2 g = .ok (some f) ∨
      newSlopeGrid2 g = .error "ValueError" ∧
        ¬ ∃ a ∈ g.cells, ∃ b ∈ g.cells, ∃ c ∈ g.cells, 0 < f a ∧ f a < f b ∧ f b < f c := by
  obtain ⟨s, hb⟩ := hb
  obtain ⟨e, he, he'⟩ := hedge
  obtain ⟨a, b, c, fa, fb, fc, hab, hbc⟩ := h3
  have hs : g.flow s = true := by
    rcases hb with b1 | b1
    · exact b1.1.1
    · exact b1.1.1
  have hmax : 1 < g.maxlen := by
    by_contra hlt
    have := hshort s 0 (by omega)
    simp only [Function.iterate_zero, id_eq] at this
    rw [hs] at this
    cases this
  have hthree : three g (slope0 g) = true := by
    unfold three
    rw [decide_eq_true_eq]
    refine ⟨a, h.inside a fa.1, b, h.inside b fb.1, c, h.inside c fc.1, (slope_pos_iff h a).2 fa, ?_, ?_⟩
    · rw [slope_falls h a fa, slope_falls h b fb]; exact hab
    · rw [slope_falls h b fb, slope_falls h c fc]; exact hbc
  obtain ⟨t, ht⟩ := loop_ok h hshort (g.maxlen + 1) 0 (start g) (start_inv h) (by omega)
  refine ⟨fun c => if g.flow c = true then t.slope c else 0, ?_⟩
  have e1 : ¬ (g.cells.all fun c => decide (0 < dz g c)) = true := by
    intro h1
    rw [List.all_eq_true] at h1
    have := h1 e he
    simp [dz, he'] at this
  have e2 : ¬ g.cells.filter (isStart g) = [] := by
    intro h1
    have : s ∈ g.cells.filter (isStart g) := by
      rw [List.mem_filter]
      exact ⟨h.inside s hs, (start_iff h s).2 hb⟩
    rw [h1] at this
    cases this
  unfold newSlopeGrid2
  rw [if_neg e1, if_neg (by simp [hthree]), if_neg e2, ht]
  dsimp only
  by_cases h4 : three g (fun c => if g.flow c = true then t.slope c else 0) = false
  · rw [if_pos h4]
    refine .inr ⟨rfl, ?_⟩
    unfold three at h4
    simpa only [decide_eq_false_iff_not] using h4
  · rw [if_neg h4]
    exact .inl rfl

end

/-! ### A concrete grid, and grids for which the property does not hold -/

section Examples

/-- A grid given by the lists of parents and elevations; parent 0 stands for no flow. -/
def tree (ps : List ℕ) (zs : List ℚ) (maxlen : ℕ) : Grid ℕ ℚ where
  cells := List.range ps.length
  corner := 0
  par := fun c => ps.getD c 0
  flow := fun c => decide (ps.getD c 0 ≠ 0)
  alone := fun c => decide (∀ k ∈ List.range ps.length, ps.getD k 0 ≠ 0 → ps.getD k 0 ≠ c)
  z := fun c => zs.getD c 0
  ds := fun _ => 1
  nodata := -9999
  maxlen := maxlen

/-- The conditions on the lists under which the grid is as the D8 component makes it. -/
def good (ps : List ℕ) (zs : List ℚ) : Bool :=
  decide (ps.getD 0 0 = 0) &&
  (List.range ps.length).all (fun c => ps.getD c 0 == 0 ||
    (decide (c < ps.getD c 0) && decide (zs.getD (ps.getD c 0) 0 ≤ zs.getD c 0) &&
      decide (-9999 < zs.getD (ps.getD c 0) 0) &&
      decide (zs.getD c 0 - zs.getD (ps.getD c 0) 0 ≤ 99999)))

lemma tree_sound (ps : List ℕ) (zs : List ℚ) (maxlen : ℕ) (hg : good ps zs = true) :
    Sound (tree ps zs maxlen) := by
  unfold good at hg
  rw [Bool.and_eq_true, decide_eq_true_eq, List.all_eq_true] at hg
  obtain ⟨h0, hg⟩ := hg
  have hin : ∀ c, ps.getD c 0 ≠ 0 → c ∈ List.range ps.length := by
    intro c hc
    rw [List.mem_range]
    by_contra hlt
    exact hc (by rw [List.getD_eq_getElem?_getD, List.getElem?_eq_none (by omega)]; rfl)
  have key : ∀ c, ps.getD c 0 ≠ 0 → c < ps.getD c 0 ∧ zs.getD (ps.getD c 0) 0 ≤ zs.getD c 0 ∧
      -9999 < zs.getD (ps.getD c 0) 0 ∧ zs.getD c 0 - zs.getD (ps.getD c 0) 0 ≤ 99999 := by
    intro c hc
    have := hg c (hin c hc)
    rw [Bool.or_eq_true, Bool.and_eq_true, Bool.and_eq_true, Bool.and_eq_true, decide_eq_true_eq,
      decide_eq_true_eq, decide_eq_true_eq, decide_eq_true_eq, beq_iff_eq] at this
    rcases this with h1 | ⟨⟨⟨a, b⟩, c⟩, d⟩
    · exact absurd h1 hc
    · exact ⟨a, b, c, d⟩
  refine ⟨?_, ?_, ⟨fun c => c, ?_⟩, ?_, ?_, ?_, ?_, ?_, ?_⟩
  · intro c hc
    exact (key c (by simpa [tree] using hc)).2.1
  · intro c hc
    obtain ⟨-, b, d, -⟩ := key c (by simpa [tree] using hc)
    exact ⟨lt_of_lt_of_le d b, d⟩
  · intro c hc
    exact (key c (by simpa [tree] using hc)).1
  · intro c
    exact one_pos
  · simpa [tree] using h0
  · intro c hc
    simpa [tree] using hc
  · intro c
    simp only [tree, decide_eq_true_eq]
    constructor
    · intro h1 k hk
      exact h1 k (hin k hk) hk
    · intro h1 k _ hk
      exact h1 k hk
  · intro c hc
    have := (key c (by simpa [tree] using hc)).2.2.2
    simpa [tree] using this
  · intro c hc
    exact hin c (by simpa [tree] using hc)

/-- The values of the grid that is written. -/
def written (g : Grid ℕ ℚ) : Option (List ℚ) :=
  match newSlopeGrid2 g with
  | .ok (some f) => some (g.cells.map f)
  | _ => none

/-- The exception that is raised. -/
def raised (g : Grid ℕ ℚ) : Option String :=
  match newSlopeGrid2 g with
  | .error e => some e
  | _ => none

/-- Two paths that come together: 1 → 2 → 3 → 4 → 5 → 6 → 7, and 8 → 9 into 10, where another flat lies. -/
def sample : Grid ℕ ℚ :=
  tree [0, 2, 3, 4, 5, 6, 7, 0, 9, 10, 11, 12, 0] [0, 20, 17, 17, 17, 15, 11, 0, 30, 30, 30, 27, 26] 20

/-- The path from cell 1 to cell 5 falls by 5 over 4 cells, the one from cell 8 to cell 11 by 3 over 3. -/
example : written sample = some [0, 5/4, 5/4, 5/4, 5/4, 4, 11, 0, 1, 1, 1, 1, 0] := by decide +kernel

example : Sound sample := tree_sound _ _ _ (by decide +kernel)

/-- The hypotheses of the theorems are met by the sample: a grid is written, and cell 2 lies on a flat that
the flow leaves. -/
example : ∃ f, newSlopeGrid2 sample = .ok (some f) ∧ 0 < f 2 := by
  have hS : Sound sample := tree_sound _ _ _ (by decide +kernel)
  have hw : (written sample).isSome = true := by decide +kernel
  unfold written at hw
  cases hn : newSlopeGrid2 sample with
  | error e => rw [hn] at hw; cases hw
  | ok o =>
    cases o with
    | none => rw [hn] at hw; cases hw
    | some f =>
      refine ⟨f, rfl, C249_positive_partial hS f hn 2 2 ?_ ?_ (.inl (by omega))⟩
      · intro i hi
        rcases Nat.lt_or_ge i 1 with h1 | h1
        · obtain rfl : i = 0 := by omega
          constructor <;> decide +kernel
        · obtain rfl : i = 1 := by omega
          constructor <;> decide +kernel
      · constructor <;> decide +kernel

/-- C249 does not hold for a grid without a flat: the function raises UnboundLocalError. -/
theorem C249_no_flat_violated :
    ∃ g : Grid ℕ ℚ, Sound g ∧ (∀ c, g.flow c = true → Falls g.par (fl g) g.z c) ∧
      raised g = some "UnboundLocalError" := by
  refine ⟨tree [0, 2, 3, 4, 5, 0] [0, 20, 17, 13, 8, 0] 20, tree_sound _ _ _ (by decide +kernel), ?_,
    by decide +kernel⟩
  intro c hc
  rcases Nat.lt_or_ge c 6 with h1 | h1
  · have : c = 0 ∨ c = 1 ∨ c = 2 ∨ c = 3 ∨ c = 4 ∨ c = 5 := by omega
    rcases this with rfl | rfl | rfl | rfl | rfl | rfl
    · exact absurd hc (by decide +kernel)
    · constructor <;> decide +kernel
    · constructor <;> decide +kernel
    · constructor <;> decide +kernel
    · constructor <;> decide +kernel
    · exact absurd hc (by decide +kernel)
  · have := List.mem_range.1 ((tree_sound [0, 2, 3, 4, 5, 0] [0, 20, 17, 13, 8, 0] 20
      (by decide +kernel)).inside c hc)
    have : c < 6 := this
    omega

/-- C249 does not hold for a grid with fewer than three different slopes: the function raises ValueError. -/
theorem C249_few_slopes_violated :
    ∃ g : Grid ℕ ℚ, Sound g ∧ (∃ c, Flat g.par (fl g) g.z c) ∧ raised g = some "ValueError" :=
  ⟨tree [0, 2, 3, 4, 5, 0] [0, 5, 4, 4, 3, 2] 20, tree_sound _ _ _ (by decide +kernel),
    ⟨2, by constructor <;> decide +kernel⟩, by decide +kernel⟩

/-- C249 does not hold for long flats: in a grid with three rows the rows of path cells have six elements,
and with a flat of five cells in the middle row the function raises IndexError. -/
theorem C249_long_flat_violated :
    ∃ g : Grid ℕ ℚ, Sound g ∧ g.maxlen = 2 * 3 ∧
      FallsAt g.par (fl g) g.z 1 6 ∧ raised g = some "IndexError" := by
  refine ⟨tree [0, 2, 3, 4, 5, 6, 7, 8, 9, 0] [0, 20, 17, 17, 17, 17, 17, 17, 15, 14] 6,
    tree_sound _ _ _ (by decide +kernel), rfl, ⟨by omega, ?_, ?_⟩, by decide +kernel⟩
  · intro i h1 h2
    have : i = 2 ∨ i = 3 ∨ i = 4 ∨ i = 5 := by omega
    rcases this with rfl | rfl | rfl | rfl <;> constructor <;> decide +kernel
  · constructor <;> decide +kernel

/-- C249 does not hold for a single level cell that no cell flows into: it keeps the slope zero although
the ground falls behind the next cell. -/
theorem C249_single_cell_violated :
    ∃ g : Grid ℕ ℚ, Sound g ∧ Flat g.par (fl g) g.z 1 ∧ Falls g.par (fl g) g.z (g.par 1) ∧
      written g = some [0, 0, 1, 0, 3, 2, 4, 0] :=
  ⟨tree [0, 2, 3, 0, 5, 6, 7, 0] [0, 5, 5, 4, 20, 17, 15, 11] 20, tree_sound _ _ _ (by decide +kernel),
    by constructor <;> decide +kernel, by constructor <;> decide +kernel, by decide +kernel⟩

end Examples

end Slope2
