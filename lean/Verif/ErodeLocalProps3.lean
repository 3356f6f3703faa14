import Verif.ErodeLocalProps2
import Verif.D8LocalProps3
import Mathlib.Algebra.BigOperators.Group.Finset.Basic
import Mathlib.Order.Interval.Finset.Basic
import Mathlib.Data.Int.Interval
import Mathlib.Algebra.BigOperators.Group.List.Lemmas
import Mathlib.Tactic.FieldSimp
import Mathlib.Tactic.IntervalCases
import Mathlib.Data.Rat.Defs
import Mathlib.Algebra.Order.Ring.Rat

/-!
# The event-driven erosion component: rates, time steps, end of a run (C187–C191)
-/

set_option autoImplicit false
set_option linter.unusedSectionVars false

namespace ErodeLocal
open D8Local (getNeighbors idOf Touch)

variable {K : Type*} [Field K] [LinearOrder K] [IsStrictOrderedRing K]

/-! ## C187: the sediment budget of a cell -/

/-- The step (rows, columns) a D8 code stands for. -/
def stepOf : ℤ → Option (ℤ × ℤ)
  | 1 => some (-1, 1)
  | 2 => some (0, 1)
  | 4 => some (1, 1)
  | 8 => some (1, 0)
  | 16 => some (1, -1)
  | 32 => some (0, -1)
  | 64 => some (-1, -1)
  | 128 => some (-1, 0)
  | _ => none

/-- The cell at row `i` and column `j`, both counted around the grid. -/
def around (P : Par K) (i j : ℤ) : ℤ := i % P.ny * P.nx + j % P.nx

/-- The cell that cell `n` sends its sediment to. -/
def flowsTo (P : Par K) (code : ℤ → ℤ) (n : ℤ) : Option ℤ :=
  (stepOf (code n)).map (fun d => around P (n / P.nx + d.1) (n % P.nx + d.2))

/-- The sediment arriving at a cell from all the cells of the grid. -/
def inflow (P : Par K) (code : ℤ → ℤ) (qs : ℤ → K) (c : ℤ) : K :=
  ∑ n ∈ (Finset.Ico (0 : ℤ) (P.ny * P.nx : ℕ)).filter (fun n => flowsTo P code n = some c), qs n

/-- The rate of elevation change from uplift and the sediment budget of the cell. -/
def budget (P : Par K) (s : St K) (c : ℤ) : K :=
  P.uplift + (inflow P s.code s.qs c - s.qs c) / P.da

theorem emod_swap {m x y a : ℤ} (hx0 : 0 ≤ x) (hx : x < m) (hy0 : 0 ≤ y) (hy : y < m) :
    (x - a) % m = y ↔ x = (y + a) % m := by
  constructor
  · rintro rfl
    rw [Int.emod_add_emod, sub_add_cancel, Int.emod_eq_of_lt hx0 hx]
  · rintro rfl
    rw [Int.emod_sub_emod, add_sub_cancel_right, Int.emod_eq_of_lt hy0 hy]

theorem row_col {P : Par K} {c : ℤ} (h : InGrid P.ny P.nx c) :
    0 ≤ c / P.nx ∧ c / P.nx < P.ny ∧ 0 ≤ c % P.nx ∧ c % P.nx < P.nx ∧ (0 : ℤ) < P.nx := by
  obtain ⟨h0, h1⟩ := h
  have hnx : (0 : ℤ) < P.nx := by
    rcases Nat.eq_zero_or_pos P.nx with e | e
    · rw [e] at h1; simp at h1; omega
    · exact_mod_cast e
  refine ⟨Int.ediv_nonneg h0 hnx.le, ?_, Int.emod_nonneg _ hnx.ne', Int.emod_lt_of_pos _ hnx, hnx⟩
  rw [Int.ediv_lt_iff_lt_mul hnx]
  push_cast at h1
  exact h1

theorem around_div_mod {P : Par K} (i j : ℤ) (hnx : (0 : ℤ) < P.nx) :
    around P i j / P.nx = i % P.ny ∧ around P i j % P.nx = j % P.nx := by
  have h1 := Int.emod_nonneg j hnx.ne'
  have h2 := Int.emod_lt_of_pos j hnx
  unfold around
  constructor
  · rw [add_comm, Int.add_mul_ediv_right _ _ hnx.ne', Int.ediv_eq_zero_of_lt h1 h2, zero_add]
  · rw [add_comm, Int.add_mul_emod_self_right, Int.emod_eq_of_lt h1 h2]

theorem around_inGrid {P : Par K} {c : ℤ} (h : InGrid P.ny P.nx c) (i j : ℤ) :
    InGrid P.ny P.nx (around P i j) := by
  obtain ⟨a1, a2, a3, a4, hnx⟩ := row_col h
  have hny : (0 : ℤ) < P.ny := lt_of_le_of_lt a1 a2
  have h1 := Int.emod_nonneg i hny.ne'
  have h2 := Int.emod_lt_of_pos i hny
  have h3 := Int.emod_nonneg j hnx.ne'
  have h4 := Int.emod_lt_of_pos j hnx
  unfold around InGrid
  push_cast
  constructor
  · positivity
  · nlinarith

theorem around_swap {P : Par K} {n c : ℤ} (hn : InGrid P.ny P.nx n) (hc : InGrid P.ny P.nx c)
    (a b : ℤ) : around P (n / P.nx - a) (n % P.nx - b) = c ↔
      n = around P (c / P.nx + a) (c % P.nx + b) := by
  obtain ⟨n1, n2, n3, n4, hnx⟩ := row_col hn
  obtain ⟨c1, c2, c3, c4, -⟩ := row_col hc
  have hext : ∀ u v : ℤ, u = v ↔ u / P.nx = v / P.nx ∧ u % P.nx = v % P.nx := by
    intro u v
    constructor
    · rintro rfl; exact ⟨rfl, rfl⟩
    · rintro ⟨e1, e2⟩
      rw [← Int.mul_ediv_add_emod u P.nx, ← Int.mul_ediv_add_emod v P.nx, e1, e2]
  rw [hext _ c, hext n, (around_div_mod _ _ hnx).1, (around_div_mod _ _ hnx).2,
    (around_div_mod _ _ hnx).1, (around_div_mod _ _ hnx).2, emod_swap n1 n2 c1 c2,
    emod_swap n3 n4 c3 c4]

theorem foldl_donors (P : Par K) (code : ℤ → ℤ) (qs : ℤ → K) (c : ℤ) (l : List (ℤ × ℤ × ℤ)) : ∀ x : K,
    l.foldl (fun x d => if code (wrapNbr P c d.1 d.2.1) = d.2.2
          then x + qs (wrapNbr P c d.1 d.2.1) / P.da else x) x =
    x + (l.map (fun d => if code (wrapNbr P c d.1 d.2.1) = d.2.2
      then qs (wrapNbr P c d.1 d.2.1) else 0)).sum / P.da := by
  induction l with
  | nil => intro x; simp
  | cons a l ih =>
    intro x
    rw [List.foldl_cons, ih, List.map_cons, List.sum_cons]
    split_ifs <;> ring

theorem inflow_eq {P : Par K} {code : ℤ → ℤ} {qs : ℤ → K} {c : ℤ} (hc : InGrid P.ny P.nx c) :
    inflow P code qs c = (donors.map (fun d => if code (wrapNbr P c d.1 d.2.1) = d.2.2
      then qs (wrapNbr P c d.1 d.2.1) else 0)).sum := by
  have hdir : ∀ a b k : ℤ, (∑ n ∈ Finset.Ico (0 : ℤ) (P.ny * P.nx : ℕ),
      if code n = k ∧ around P (n / P.nx - a) (n % P.nx - b) = c then qs n else 0) =
      if code (wrapNbr P c a b) = k then qs (wrapNbr P c a b) else 0 := by
    intro a b k
    have hw : wrapNbr P c a b = around P (c / P.nx + a) (c % P.nx + b) := rfl
    rw [Finset.sum_eq_single (wrapNbr P c a b)]
    · have := (around_swap (around_inGrid hc (c / P.nx + a) (c % P.nx + b)) hc a b).mpr rfl
      rw [hw]
      simp only [this, and_true]
    · intro n hn hne
      rw [Finset.mem_Ico] at hn
      rw [if_neg]
      rintro ⟨-, e⟩
      exact hne ((around_swap hn hc a b).mp e)
    · intro hno
      exfalso
      apply hno
      rw [Finset.mem_Ico]
      exact around_inGrid hc _ _
  unfold inflow
  rw [Finset.sum_filter]
  simp only [donors, List.map_cons, List.map_nil, List.sum_cons, List.sum_nil, add_zero]
  rw [← hdir, ← hdir, ← hdir, ← hdir, ← hdir, ← hdir, ← hdir, ← hdir]
  simp only [← Finset.sum_add_distrib]
  apply Finset.sum_congr rfl
  intro n _
  have hcase : code n = 1 ∨ code n = 2 ∨ code n = 4 ∨ code n = 8 ∨ code n = 16 ∨ code n = 32 ∨
      code n = 64 ∨ code n = 128 ∨ (code n ≠ 1 ∧ code n ≠ 2 ∧ code n ≠ 4 ∧ code n ≠ 8 ∧
      code n ≠ 16 ∧ code n ≠ 32 ∧ code n ≠ 64 ∧ code n ≠ 128) := by omega
  unfold flowsTo
  rcases hcase with e | e | e | e | e | e | e | e | ⟨e1, e2, e3, e4, e5, e6, e7, e8⟩
  · simp [e, stepOf, sub_eq_add_neg]
  · simp [e, stepOf, sub_eq_add_neg]
  · simp [e, stepOf, sub_eq_add_neg]
  · simp [e, stepOf, sub_eq_add_neg]
  · simp [e, stepOf, sub_eq_add_neg]
  · simp [e, stepOf, sub_eq_add_neg]
  · simp [e, stepOf, sub_eq_add_neg]
  · simp [e, stepOf, sub_eq_add_neg]
  · have : stepOf (code n) = none := by
      unfold stepOf
      split <;> first | rfl | (exfalso; omega)
    simp [this, e1, e2, e3, e4, e5, e6, e7, e8]

/-- After every update, each cell that was brought up to date and is not held at base level changes
at exactly the rate given by uplift and by the sediment that arrives at it and leaves it; cells
at base level fall at the given rate. -/
theorem C187_budget_partial {P : Par K} {fuel : ℕ} {x : ℕ → St K} {n : ℕ} (h : History P fuel x n)
    {k : ℕ} (hk : k < n) :
    (∀ c ∈ (x (k + 1)).zone, c ∉ P.base → (x (k + 1)).rate c = budget P (x (k + 1)) c) ∧
    (∀ c ∈ P.base, (x (k + 1)).rate c = -P.blr) := by
  obtain ⟨hs, hz⟩ := h.steps hk
  refine ⟨?_, hs.rateBase⟩
  intro c hc hb
  have hg : InGrid P.ny P.nx c := by
    rcases (hz.zoneIff c).mp hc with hn | ⟨d, -, hadj⟩
    · have := (hz.nowIff c).mp hn
      cases this with
      | active => exact (h.inv k hk.le).grid _ hs.event
      | next _ hadj _ _ => exact hadj.symm.inGrid
    · exact hadj.symm.inGrid
  rw [hs.rateNew c hb hc, foldl_donors, budget, inflow_eq hg]
  ring

/-! ## C188: time steps -/

/-- How the next event of an inner cell is planned after its full update.  Stalled (active more than
ten times running): it is put off by `dtLimit`.  Without a flow direction: until its elevation will
have changed by `pitDz`.  With sediment discharge: until the outflow alone will have lowered it by
`cfl / 2` times its height above the cell it flows to.  Every time step is positive. -/
theorem C188_time_steps {P : Par K} {fuel : ℕ} {x : ℕ → St K} {n : ℕ} (h : History P fuel x n)
    {k : ℕ} (hk : k < n) {c : ℤ} (hc : c ∈ (x (k + 1)).now) (hin : notEdge P.ny P.nx c = true) :
    (x (k + 1)).tNext c = addTime (x (k + 1)).clock ((x (k + 1)).dt c) ∧
    ((0 : K) : WithTop K) < (x (k + 1)).dt c ∧
    (((x (k + 1)).activeCount > 10 ∧ c = (x (k + 1)).active) →
      (x (k + 1)).dt c = (P.dtLimit : WithTop K)) ∧
    (¬ ((x (k + 1)).activeCount > 10 ∧ c = (x (k + 1)).active) →
      ((x (k + 1)).code c = 0 → (x (k + 1)).rate c = 0 → (x (k + 1)).dt c = ⊤) ∧
      ((x (k + 1)).code c = 0 → (x (k + 1)).rate c ≠ 0 →
        ∃ d : K, (x (k + 1)).dt c = (d : WithTop K) ∧ |(x (k + 1)).rate c| * d = P.pitDz) ∧
      ((x (k + 1)).code c ≠ 0 → 0 < (x (k + 1)).qs c → P.da ≠ 0 →
        ∃ d : K, (x (k + 1)).dt c = (d : WithTop K) ∧ (x (k + 1)).qs c / P.da * d =
          P.cfl / 2 * ((x (k + 1)).dem c - (x (k + 1)).dem ((x (k + 1)).parent c)))) := by
  obtain ⟨hs, hz⟩ := h.steps hk
  refine ⟨hs.tNextNew c hc hin, hs.dtPos c hc, ?_, ?_⟩
  · intro hst
    rw [hs.dtNew c hc, if_pos hst]
  · intro hst
    have hd := hs.dtNew c hc
    rw [if_neg hst] at hd
    refine ⟨?_, ?_, ?_⟩
    · intro h0 hr
      rw [if_pos ⟨h0, hin⟩] at hd
      rw [hd, divAbs, if_pos hr]
    · intro h0 hr
      rw [if_pos ⟨h0, hin⟩, divAbs, if_neg hr] at hd
      refine ⟨_, hd, ?_⟩
      have : |(x (k + 1)).rate c| ≠ 0 := abs_ne_zero.mpr hr
      field_simp
    · intro h0 hq hda
      rw [if_neg (fun hx => h0 hx.1), if_pos hq] at hd
      refine ⟨_, hd, ?_⟩
      unfold dtEqual
      have := hq.ne'
      field_simp

/-- The target of a cell after its full update: the change of elevation expected until its next event, that is its
rate times the time step. -/
theorem C188_target {P : Par K} {fuel : ℕ} {x : ℕ → St K} {n : ℕ} (h : History P fuel x n)
    {k : ℕ} (hk : k < n) {c : ℤ} (hc : c ∈ (x (k + 1)).now) :
    (∀ d : K, (x (k + 1)).dt c = (d : WithTop K) → (x (k + 1)).target c = .fin ((x (k + 1)).rate c * d)) ∧
    ((x (k + 1)).dt c = ⊤ → 0 < (x (k + 1)).rate c → (x (k + 1)).target c = .inf false) ∧
    ((x (k + 1)).dt c = ⊤ → (x (k + 1)).rate c < 0 → (x (k + 1)).target c = .inf true) ∧
    ((x (k + 1)).dt c = ⊤ → (x (k + 1)).rate c = 0 → (x (k + 1)).target c = .nan) := by
  obtain ⟨hs, -⟩ := h.steps hk
  rw [hs.targetNew c hc]
  refine ⟨fun d hd => ?_, fun hd hr => ?_, fun hd hr => ?_, fun hd hr => ?_⟩
  · rw [hd, mul_comm]; rfl
  · rw [hd]; change (if _ then _ else _) = _
    rw [if_neg hr.ne', decide_eq_false (not_lt.mpr hr.le)]
  · rw [hd]; change (if _ then _ else _) = _
    rw [if_neg hr.ne, decide_eq_true hr]
  · rw [hd]; change (if _ then _ else _) = _
    rw [if_pos hr]

/-- The start of a run: it fails exactly when some cell above base level with a flow direction carries no sediment or
is not higher than the cell it flows to.  Otherwise the clock is at zero, every cell is scheduled one time step ahead,
and the target is the rate times the time step, but 0 for an inner cell without a flow direction. -/
theorem C188_start (P : Par K) (dem : ℤ → K) (r : Routed K) (rate : ℤ → K) (hl : 0 < P.dtLimit) (hz : 0 < P.pitDz)
    (hcfl : 0 < P.cfl) (hda : 0 < P.da) :
    ((∃ e, start P dem r rate = .error e) ↔ ∃ c : ℤ, 0 ≤ c ∧ c < (P.ny * P.nx : ℕ) ∧ c ∉ P.base ∧ r.code c ≠ 0 ∧
      (r.qs c ≤ 0 ∨ dem c ≤ dem (r.parent c))) ∧
    (∀ s, start P dem r rate = .ok s → s.clock = 0 ∧ s.time = 0 ∧ s.timeIndex = 0 ∧ s.activeCount = 0 ∧
      s.dem = dem ∧ s.rate = rate ∧
      ∀ c, s.tNext c = s.dt c ∧ (c ∈ P.base → s.dt c = (P.dtLimit : WithTop K)) ∧
        (c ∉ P.base → r.code c = 0 → rate c ≠ 0 → s.dt c = ((P.pitDz / |rate c| : K) : WithTop K)) ∧
        (r.code c = 0 → notEdge P.ny P.nx c = true → s.target c = .fin 0) ∧
        ((r.code c ≠ 0 ∨ notEdge P.ny P.nx c = false) → ∀ d : K, s.dt c = (d : WithTop K) →
          s.target c = .fin (rate c * d))) := by
  have hpos : ∀ c, dt0 P dem r rate c ≤ ((0 : K) : WithTop K) ↔
      c ∉ P.base ∧ r.code c ≠ 0 ∧ (r.qs c ≤ 0 ∨ dem c ≤ dem (r.parent c)) := by
    intro c
    unfold dt0
    by_cases hb : c ∈ P.base
    · rw [if_pos hb, WithTop.coe_le_coe]
      exact ⟨fun h => absurd hl (not_lt.mpr h), fun h => absurd hb h.1⟩
    · by_cases hc : r.code c = 0
      · rw [if_neg hb, if_pos hc]
        refine ⟨fun h => absurd h (not_le.mpr ?_), fun h => absurd hc h.2.1⟩
        unfold divAbs
        by_cases hr : rate c = 0
        · rw [if_pos hr]; exact WithTop.coe_lt_top _
        · rw [if_neg hr, WithTop.coe_lt_coe]
          exact div_pos hz (abs_pos.mpr hr)
      · by_cases hq : r.qs c > 0
        · rw [if_neg hb, if_neg hc, if_pos hq, WithTop.coe_le_coe]
          have e : (c ∉ P.base ∧ r.code c ≠ 0 ∧ (r.qs c ≤ 0 ∨ dem c ≤ dem (r.parent c))) ↔
              dem c ≤ dem (r.parent c) :=
            ⟨fun h => h.2.2.resolve_left (not_le.mpr hq), fun h => ⟨hb, hc, Or.inr h⟩⟩
          rw [e]
          unfold dtEqual
          rw [mul_nonpos_iff_pos_imp_nonpos]
          constructor
          · intro h
            have h1 := h.1 hcfl
            by_contra hd
            have : 0 < P.da / 2 * (dem c - dem (r.parent c)) / r.qs c :=
              div_pos (mul_pos (by positivity) (by linarith [not_le.mp hd])) hq
            linarith
          · intro h
            have h1 : P.da / 2 * (dem c - dem (r.parent c)) / r.qs c ≤ 0 :=
              div_nonpos_of_nonpos_of_nonneg (mul_nonpos_of_nonneg_of_nonpos (by positivity) (by linarith)) hq.le
            exact ⟨fun _ => h1, fun _ => hcfl.le⟩
        · rw [if_neg hb, if_neg hc, if_neg hq]
          refine ⟨fun _ => ?_, fun _ => le_rfl⟩
          exact ⟨hb, hc, Or.inl (not_lt.mp hq)⟩
  have hcell : ∀ c, c ∈ cells P ↔ 0 ≤ c ∧ c < (P.ny * P.nx : ℕ) := by
    intro c
    unfold cells
    simp only [List.mem_map, List.mem_range]
    constructor
    · rintro ⟨a, ha, rfl⟩
      exact ⟨by omega, by exact_mod_cast ha⟩
    · rintro ⟨h1, h2⟩
      exact ⟨c.toNat, by omega, by omega⟩
  unfold start
  constructor
  · by_cases hx : ∃ c ∈ cells P, dt0 P dem r rate c ≤ ((0 : K) : WithTop K)
    · rw [if_pos hx]
      obtain ⟨c, h1, h2⟩ := hx
      obtain ⟨h3, h4⟩ := (hcell c).mp h1
      exact ⟨fun _ => ⟨c, h3, h4, (hpos c).mp h2⟩, fun _ => ⟨_, rfl⟩⟩
    · rw [if_neg hx]
      refine ⟨(fun ⟨e, he⟩ => by cases he), ?_⟩
      rintro ⟨c, h1, h2, h3⟩
      exact absurd ⟨c, (hcell c).mpr ⟨h1, h2⟩, (hpos c).mpr h3⟩ hx
  · intro s hs
    split at hs
    · cases hs
    · injection hs with hs
      subst hs
      refine ⟨rfl, rfl, rfl, rfl, rfl, rfl, fun c => ⟨rfl, fun hb => ?_, fun hb hc hr => ?_, fun h1 h2 => ?_,
        fun h d hd => ?_⟩⟩
      · dsimp only; unfold dt0; rw [if_pos hb]
      · dsimp only; unfold dt0 divAbs; rw [if_neg hb, if_pos hc, if_neg hr]
      · dsimp only; rw [if_pos ⟨h1, h2⟩]
      · dsimp only at hd ⊢
        rw [if_neg (fun hh => h.elim (fun g => g hh.1) (fun g => by rw [hh.2] at g; cases g)), hd, mul_comm]
        rfl

/-! ## C189: the stability check -/

theorem foldr_max_gt {M : K} (hM : 0 ≤ M) (l : List K) (h : M < l.foldr max 0) : ∃ a ∈ l, M < a := by
  induction l with
  | nil => exact absurd h (not_lt.mpr hM)
  | cons a l ih =>
    rw [List.foldr_cons, lt_max_iff] at h
    rcases h with h | h
    · exact ⟨a, by simp, h⟩
    · obtain ⟨b, hb, hb'⟩ := ih h
      exact ⟨b, by simp [hb], hb'⟩

/-- When the stability check ends a run, some cell really changed by more than 1000 m in that
update. -/
theorem C189_stopped_partial {P : Par K} {fuel : ℕ} {x : ℕ → St K} {n : ℕ} (h : History P fuel x n)
    {k : ℕ} (hk : k < n) (h0 : (x k).done = false) (h1 : (x (k + 1)).done = true) :
    ∃ c ∈ (x (k + 1)).zone, |(x (k + 1)).dem c - (x k).dem c| > 1000 := by
  obtain ⟨hs, hz⟩ := h.steps hk
  have hd := hs.done
  rw [h0, h1, Bool.false_or] at hd
  have hgt : (x (k + 1)).dzMax > 1000 := by simpa using hd.symm
  obtain ⟨l, hl, hm⟩ := hz.dzMax
  rw [hm] at hgt
  obtain ⟨a, ha, ha'⟩ := foldr_max_gt (by norm_num) _ hgt
  obtain ⟨c, hc, rfl⟩ := List.mem_map.mp ha
  refine ⟨c, hl c hc, ?_⟩
  rw [(hz.inZone c (hl c hc)).1, add_sub_cancel_left]
  exact ha'

/-! ## C190: with the D8 component of the package -/

/-- The routing as coded: `update_d8_vars` hands the zone and the DEM to the local D8 component
(erode_d8_local.py:3718-3720); whatever follows (`rest`) is reached only if that update gets
through. -/
def shippedRoute (P : Par K) (cfg : D8.Config K) (fuel : ℕ) (d8 : D8Local.LState P.ny P.nx)
    (rest : D8Local.LState P.ny P.nx → Except String (Routed K)) (s : St K) :
    Except String (Routed K) :=
  match D8Local.updateL cfg fuel (fun c => s.dem (D8.flatID c)) true { d8 with ids := some s.zone } with
  | none => .error "RuntimeError"
  | some (.error e) => .error e
  | some (.ok d) => rest d

/-- In a grid of two or more cells no update of the erosion component gets through with the D8
component of the package, nor does the initialisation of its flow variables (which passes the DEM in
the same way). -/
theorem C190_update_violated (P : Par K) (h2 : 2 ≤ P.ny * P.nx) (cfg : D8.Config K) (fuel fuel' : ℕ)
    (d8 : D8Local.LState P.ny P.nx) (rest : D8Local.LState P.ny P.nx → Except String (Routed K))
    (s s' : St K) :
    update P (shippedRoute P cfg fuel d8 rest) fuel' s ≠ some (.ok s') ∧
    ∀ z : D8.Cell P.ny P.nx → K, ∃ m, D8Local.updateL cfg fuel z true { d8 with ids := none } =
      some (.error m) := by
  have hfail : ∀ (z : D8.Cell P.ny P.nx → K) (d : D8Local.LState P.ny P.nx),
      ∃ m, D8Local.updateL cfg fuel z true d = some (.error m) := by
    intro z d
    obtain ⟨m, hm⟩ := D8Local.C170_dem_argument_violated cfg fuel z d h2
    unfold D8Local.updateL
    rw [hm]
    exact ⟨m, rfl⟩
  refine ⟨?_, fun z => hfail z _⟩
  have hroute : ∀ s1, ∃ m, shippedRoute P cfg fuel d8 rest s1 = .error m := by
    intro s1
    obtain ⟨m, hm⟩ := hfail (fun c => s1.dem (D8.flatID c)) { d8 with ids := some s1.zone }
    exact ⟨m, by unfold shippedRoute; rw [hm]⟩
  intro he
  unfold update at he
  cases hne : nextEvent s.tNext s.heap.length s.heap with
  | error e => rw [hne] at he; cases he
  | ok y =>
    obtain ⟨⟨T, id⟩, hp⟩ := y
    rw [hne] at he
    cases T with
    | top => cases he
    | coe t =>
      change (if t - s.clock < 0 then _ else _) = _ at he
      by_cases hb : t - s.clock < 0
      · rw [if_pos hb] at he; cases he
      · rw [if_neg hb] at he
        cases hsp : splash P fuel' [id] (activate id (select s t id hp)) with
        | none => rw [hsp] at he; cases he
        | some y =>
          rw [hsp] at he
          cases y with
          | error e => cases he
          | ok s1 =>
            change some (finish P _ (t - s.clock) s1) = _ at he
            injection he with he
            unfold finish at he
            obtain ⟨m, hm⟩ := hroute s1
            rw [hm] at he
            cases he

/-! ## C191: grids without inner cells -/

theorem exists_notEdge {ny nx : ℕ} : (∃ c, notEdge ny nx c = true) ↔ 3 ≤ ny ∧ 3 ≤ nx := by
  constructor
  · rintro ⟨c, hc⟩
    simp only [notEdge, decide_eq_true_eq] at hc
    obtain ⟨h0, h1, h2, h3, h4, h5⟩ := hc
    have hnx : (0 : ℤ) < nx := by
      rcases Nat.eq_zero_or_pos nx with e | e
      · subst e; simp at h1; omega
      · exact_mod_cast e
    have a1 := Int.ediv_nonneg h0 hnx.le
    have a2 : c / nx < ny := by rw [Int.ediv_lt_iff_lt_mul hnx]; push_cast at h1; exact h1
    have a3 := Int.emod_nonneg c hnx.ne'
    have a4 := Int.emod_lt_of_pos c hnx
    generalize c / (nx : ℤ) = u at *
    generalize c % (nx : ℤ) = v at *
    omega
  · rintro ⟨h1, h2⟩
    refine ⟨idOf nx 1 1, ?_⟩
    have hd := D8Local.idOf_div (nx := nx) (r := 1) (c := 1) (by omega)
    have hm := D8Local.idOf_mod (nx := nx) (r := 1) (c := 1) (by omega)
    have hl := D8Local.idOf_lt (ny := ny) (nx := nx) (r := 1) (c := 1) (by omega) (by omega)
    simp only [notEdge, decide_eq_true_eq, hd, hm]
    exact ⟨hl.1, hl.2, by omega, by omega, by omega, by omega⟩

/-- A grid with fewer than three rows or columns has no inner cells: every cell is executed at most
once, and after at most as many updates as there are cells the model has no events left and the
next update fails.  With three or more rows and columns that never happens (`C183_failures`). -/
theorem C191_thin_grid {P : Par K} {fuel : ℕ} {x : ℕ → St K} {n : ℕ} (h : History P fuel x n)
    (hthin : P.ny < 3 ∨ P.nx < 3) : n ≤ P.ny * P.nx ∧
    (n = P.ny * P.nx → ∀ route, update P route fuel (x n) =
      some (.error "IndexError: index out of range")) := by
  have hno : ∀ c, notEdge P.ny P.nx c = false := by
    intro c
    by_contra hc
    have := exists_notEdge.mp ⟨c, by simpa using hc⟩
    omega
  have key : ∀ m ≤ n, (x m).heap.length + m ≤ P.ny * P.nx := by
    intro m
    induction m with
    | zero =>
      intro _
      obtain ⟨dem, r, rate, h1, -⟩ := h.init
      unfold start at h1
      split at h1
      · cases h1
      · injection h1 with h1
        rw [← h1]
        simp [cells]
    | succ m ih =>
      intro hm
      have := ih (by omega)
      have h1 := (h.steps (by omega : m < n)).1.heapLen
      have h2 : ((x (m + 1)).now.filter (notEdge P.ny P.nx)) = [] := by
        rw [List.filter_eq_nil_iff]
        intro a _
        rw [hno a]
        simp
      rw [h2, List.length_nil] at h1
      omega
  have hn := key n (le_refl _)
  refine ⟨by omega, ?_⟩
  intro e route
  have h0 : (x n).heap = [] := List.length_eq_zero_iff.mp (by omega)
  unfold update
  rw [h0]
  rfl

/-! ## A concrete run -/

/-- A grid of 5 rows and 4 columns, all four sides at base level. -/
def demoP (cap : ℕ) : Par ℚ :=
  ⟨5, 4, cap, 1, 1/10, 1, 0, 1/100, 10^20,
    [0, 1, 2, 3, 16, 17, 18, 19, 4, 8, 12, 7, 11, 15]⟩

/-- Its elevations: a steep step below the inner cell in row 1, column 1. -/
def demoDEM (i : ℤ) : ℚ :=
  ([10, 10, 10, 10, 10, 8, 4, 10, 10, 3, 3, 10, 10, 2, 2, 10, 1, 1, 1, 1] : List ℚ).getD i.toNat 0

/-- All inner cells flow down (code 8), with a discharge that is the square of the drop. -/
def demoRouted (dem : ℤ → ℚ) : Routed ℚ :=
  { code := fun i => if notEdge 5 4 i then 8 else 0
    parent := fun i => if notEdge 5 4 i then i + 4 else 0
    qs := fun i => if notEdge 5 4 i then (dem i - dem (i + 4)) ^ 2 else 0 }

def demoRoute (s : St ℚ) : Except String (Routed ℚ) := .ok (demoRouted s.dem)

/-- The initial rates: the sediment budget of each cell. -/
def demoRate (i : ℤ) : ℚ :=
  ([0, 0, 0, 0, 0, -24, 0, 0, 0, 25, 1, 0, 0, 1, 1, 0, 0, 0, 0, 0] : List ℚ).getD i.toNat 0

def blank : St ℚ :=
  ⟨0, 0, 0, fun _ => .nan, 0, 0, 0, fun _ => ⊤, 0, fun _ => ⊤, [], 0, 0, 0, 0, 0, 0, [], [], 0, 0, false⟩

def okOr (r : Option (Except String (St ℚ))) : St ℚ :=
  match r with
  | some (.ok s) => s
  | _ => blank

def isOk (r : Option (Except String (St ℚ))) : Bool :=
  match r with
  | some (.ok _) => true
  | _ => false

theorem isOk_eq {r : Option (Except String (St ℚ))} (h : isOk r = true) : r = some (.ok (okOr r)) := by
  unfold isOk at h
  split at h
  · rfl
  · cases h

/-- The run of the demo: the state after `k` updates. -/
def demoRun : ℕ → St ℚ
  | 0 => okOr (some (start (demoP 100) demoDEM (demoRouted demoDEM) demoRate))
  | k + 1 => okOr (update (demoP 100) demoRoute 100 (demoRun k))

theorem demo_start_ok :
    isOk (some (start (demoP 100) demoDEM (demoRouted demoDEM) demoRate)) = true := by
  decide +kernel

theorem demo_step_ok : ∀ k < 2, isOk (update (demoP 100) demoRoute 100 (demoRun k)) = true := by
  intro k hk
  have : k = 0 ∨ k = 1 := by omega
  rcases this with rfl | rfl
  · decide +kernel
  · decide +kernel

/-- The demo is a history of two updates. -/
theorem demo_history : History (demoP 100) 100 demoRun 2 where
  capPos := by decide
  init := by
    refine ⟨demoDEM, demoRouted demoDEM, demoRate, Option.some.inj (isOk_eq demo_start_ok), ?_⟩
    decide +kernel
  step := fun k hk => ⟨demoRoute, isOk_eq (demo_step_ok k hk)⟩

/-- The first event is at 1/100, in the cell of row 1 and column 1; nine cells are brought up to date
and one has a full update.  The second event is again in that cell. -/
example : (demoRun 1).active = 5 ∧ (demoRun 1).clock = 1/100 ∧ (demoRun 1).now = [5] ∧
    (demoRun 1).zone = [5, 0, 1, 2, 4, 6, 8, 9, 10] ∧ (demoRun 1).dem 9 = 13/4 ∧
    (demoRun 2).active = 5 ∧ (demoRun 1).clock < (demoRun 2).clock := by
  decide +kernel

/-- The settings of the demo meet the hypotheses of `C188_start`, and the start succeeds. -/
example : 0 < (demoP 100).dtLimit ∧ 0 < (demoP 100).pitDz ∧ 0 < (demoP 100).cfl ∧ 0 < (demoP 100).da ∧
    isOk (some (start (demoP 100) demoDEM (demoRouted demoDEM) demoRate)) = true ∧ 5 ∈ (demoRun 1).now := by
  decide +kernel

/-- The budget of every cell holds at the start; after the first update the cell of row 3 and
column 1, which lies outside the splash zone, still has the old rate although more sediment now
arrives at it from a cell of the zone: that sediment is lost. -/
theorem C187_outside_violated :
    (∀ c ∈ cells (demoP 100), c ∉ (demoP 100).base →
      (demoRun 0).rate c = budget (demoP 100) (demoRun 0) c) ∧
    13 ∈ cells (demoP 100) ∧ 13 ∉ (demoP 100).base ∧ 13 ∉ (demoRun 1).zone ∧
    (demoRun 1).rate 13 ≠ budget (demoP 100) (demoRun 1) 13 := by
  decide +kernel

/-- A grid of 3 by 3 cells with one inner cell, which is lifted by 240000 m per year. -/
def fallP : Par ℚ := ⟨3, 3, 100, 1, 1/10, 240000, 0, 1/100, 10^20, [0, 1, 2, 6, 7, 8, 3, 5]⟩

def fallDEM (i : ℤ) : ℚ := if i = 4 then 6 else 1

def fallRouted (dem : ℤ → ℚ) : Routed ℚ :=
  { code := fun i => if i = 4 then 8 else 0
    parent := fun i => if i = 4 then 7 else 0
    qs := fun i => if i = 4 then (dem 4 - dem 7) ^ 2 else 0 }

def fallRate (i : ℤ) : ℚ := if i = 4 then 240000 - 25 else 0

def fallRun : ℕ → St ℚ
  | 0 => okOr (some (start fallP fallDEM (fallRouted fallDEM) fallRate))
  | k + 1 => okOr (update fallP (fun s => .ok (fallRouted s.dem)) 100 (fallRun k))

theorem fall_ok : isOk (some (start fallP fallDEM (fallRouted fallDEM) fallRate)) = true ∧
    isOk (update fallP (fun s => .ok (fallRouted s.dem)) 100 (fallRun 0)) = true ∧
    (fallRun 1).dem 4 - (fallRun 0).dem 4 = 9599/4 ∧ (fallRun 1).done = false ∧
    (fallRun 0).rate 4 = budget fallP (fallRun 0) 4 := by
  decide +kernel

/-- The check only sees the cells brought up to date last: here the active cell rises by almost
2400 m in one update and the run is not stopped. -/
theorem C189_missed_violated : ∃ (P : Par ℚ) (fuel : ℕ) (x : ℕ → St ℚ), History P fuel x 1 ∧
    |(x 1).dem (x 1).active - (x 0).dem (x 1).active| > 1000 ∧ (x 1).done = false := by
  refine ⟨fallP, 100, fallRun, ⟨by decide, ⟨fallDEM, fallRouted fallDEM, fallRate,
    Option.some.inj (isOk_eq fall_ok.1), by decide +kernel⟩, ?_⟩, ?_, fall_ok.2.2.2.1⟩
  · intro k hk
    obtain rfl : k = 0 := by omega
    exact ⟨_, isOk_eq fall_ok.2.1⟩
  · have : (fallRun 1).active = 4 := by decide +kernel
    rw [this, fall_ok.2.2.1]
    norm_num

/-- Two rows of three cells, all without a flow direction, rising at different rates. -/
def thinP : Par ℚ := ⟨2, 3, 100, 1, 1/10, 1, 0, 1/100, 10^20, []⟩

def thinRun : ℕ → St ℚ
  | 0 => okOr (some (start thinP (fun _ => 0) ⟨fun _ => 0, fun _ => 0, fun _ => 0⟩ (fun i => 1 + i)))
  | k + 1 => okOr (update thinP (fun _ => .ok ⟨fun _ => 0, fun _ => 0, fun _ => 0⟩) 100 (thinRun k))

theorem thin_ok : isOk (some (start thinP (fun _ => 0) ⟨fun _ => 0, fun _ => 0, fun _ => 0⟩
      (fun i => 1 + i))) = true ∧
    (∀ k < 2, isOk (update thinP (fun _ => .ok ⟨fun _ => 0, fun _ => 0, fun _ => 0⟩) 100
      (thinRun k)) = true) ∧ (thinRun 1).active = 5 ∧ (thinRun 2).active = 4 := by
  decide +kernel

/-- It meets the hypotheses of `C191_thin_grid` and `C183_edge_once`. -/
example : History thinP 100 thinRun 2 ∧ (thinP.ny < 3 ∨ thinP.nx < 3) ∧
    notEdge thinP.ny thinP.nx (thinRun 1).active = false := by
  refine ⟨⟨by decide, ⟨_, _, _, Option.some.inj (isOk_eq thin_ok.1), by intro c hc; cases hc⟩, ?_⟩,
    by decide, by decide +kernel⟩
  intro k hk
  exact ⟨_, isOk_eq (thin_ok.2.1 k hk)⟩

end ErodeLocal
