import Verif.ErodeProps
import Mathlib.Algebra.BigOperators.Field

/-!
# Properties of runs of the landscape evolution component
-/

set_option autoImplicit false

noncomputable section

open scoped BigOperators
open D8 (Cell)
open D8Spec (FlowsTo OnBorder IsNbr)

namespace Erode

variable {ny nx : ℕ}

/-! ## C110: sediment balance -/

section
variable {hy : 0 < ny} {hx : 0 < nx} {cfg : D8.Config ℝ} {g : D8Vars ny nx} {a : Par} {dtArg : ℝ}
  {s s' : St ny nx}

/-- **C110 (cell).** In every completed step the volume of each cell away from the border changes by
uplift plus the sediment delivered by the cells that drain into it minus the sediment leaving it,
each times the time step. -/
theorem C110_cell_balance (h : OfDEM hy hx cfg s.z g) (ha : 0 < a.da)
    (he : evolve hy hx false false a g dtArg s = .ok s') {S : Cell ny nx → ℝ}
    (hS : slopeGrid hy hx false false s.z g.ds g.codes = .ok S) (c : Cell ny nx)
    (hc : ¬ OnBorder c) :
    a.da * (s'.z c - s.z c) =
      (a.U / 1000 * a.da + ChanSpec.inflow g.codes (qsGrid a (qGrid a g.A) S) c
        - qsGrid a (qGrid a g.A) S c) * s'.dt := by
  obtain ⟨S', hd⟩ := evolve_ok he
  have : S' = S := by
    have := hd.slope
    rw [hS] at this
    exact (Except.ok.inj this).symm
  subst this
  have h1 := (dzDt_eq h.good (by omega) (by omega) a (qsGrid a (qGrid a g.A) S') c).2 hc
  have h2 : ChanSpec.inflow g.codes (fun e => qsGrid a (qGrid a g.A) S' e / a.da) c =
      ChanSpec.inflow g.codes (qsGrid a (qGrid a g.A) S') c / a.da := by
    unfold ChanSpec.inflow
    rw [Finset.sum_div]
  rw [hd.z c, h1, h2]
  field_simp
  ring

open Classical in
/-- **C110 (total).** With a slope exponent other than zero, the volume of the interior of the grid
changes by uplift minus the sediment that leaves over the border, and by nothing else. -/
theorem C110_total_balance (h : OfDEM hy hx cfg s.z g) (ha : 0 < a.da) (hn : a.n ≠ 0)
    (he : evolve hy hx false false a g dtArg s = .ok s') {S : Cell ny nx → ℝ}
    (hS : slopeGrid hy hx false false s.z g.ds g.codes = .ok S) :
    ∑ c ∈ Finset.univ.filter (fun c : Cell ny nx => ¬ OnBorder c), a.da * (s'.z c - s.z c) =
      (a.U / 1000 * a.da * (Finset.univ.filter (fun c : Cell ny nx => ¬ OnBorder c)).card
        - ∑ c ∈ Finset.univ.filter (fun c : Cell ny nx => ∃ e, FlowsTo g.codes c e ∧ OnBorder e),
            qsGrid a (qGrid a g.A) S c) * s'.dt := by
  set Qs := qsGrid a (qGrid a g.A) S with hQs
  rw [Finset.sum_congr rfl (fun c hc =>
    C110_cell_balance h ha he hS c (by simpa using hc))]
  rw [← Finset.sum_mul]
  congr 1
  rw [Finset.sum_sub_distrib, Finset.sum_add_distrib, Finset.sum_const, nsmul_eq_mul]
  have h0 : ∀ c, g.codes c = 0 → Qs c = 0 := by
    intro c hc
    obtain ⟨S', hS', hz, _⟩ := C107_slope h
    rw [hS] at hS'
    cases hS'
    rw [hQs]
    unfold qsGrid
    simp [hz c hc, Real.zero_rpow hn]
  -- everything that leaves interior cells arrives somewhere
  have hsum := Chan.sum_inflow h.good Qs h0
  have hsplit : ∑ c, ChanSpec.inflow g.codes Qs c =
      ∑ c ∈ Finset.univ.filter (fun c : Cell ny nx => ¬ OnBorder c), ChanSpec.inflow g.codes Qs c +
      ∑ c ∈ Finset.univ.filter (fun c : Cell ny nx => OnBorder c), ChanSpec.inflow g.codes Qs c := by
    rw [← Finset.sum_filter_add_sum_filter_not Finset.univ (fun c : Cell ny nx => ¬ OnBorder c)]
    simp only [not_not]
  have hsplit2 : ∑ c, Qs c = ∑ c ∈ Finset.univ.filter (fun c : Cell ny nx => ¬ OnBorder c), Qs c := by
    symm
    apply Finset.sum_subset (Finset.filter_subset _ _)
    intro c _ hc
    simp only [Finset.mem_filter, Finset.mem_univ, true_and, not_not] at hc
    exact h0 c (h.border hc)
  have hbord : ∑ c ∈ Finset.univ.filter (fun c : Cell ny nx => OnBorder c),
        ChanSpec.inflow g.codes Qs c =
      ∑ c ∈ Finset.univ.filter (fun c : Cell ny nx => ∃ e, FlowsTo g.codes c e ∧ OnBorder e),
        Qs c := by
    unfold ChanSpec.inflow
    simp only [Finset.sum_filter]
    have : ∀ c : Cell ny nx, (if OnBorder c then ∑ e, (if FlowsTo g.codes e c then Qs e else 0) else 0)
        = ∑ e, (if FlowsTo g.codes e c ∧ OnBorder c then Qs e else 0) := by
      intro c
      split_ifs with hb
      · simp [hb]
      · simp [hb]
    rw [Finset.sum_congr rfl (fun c _ => this c), Finset.sum_comm]
    refine Finset.sum_congr rfl (fun e _ => ?_)
    by_cases hex : ∃ c, FlowsTo g.codes e c ∧ OnBorder c
    · rw [if_pos hex]
      obtain ⟨c, hc1, hc2⟩ := hex
      rw [Finset.sum_eq_single c]
      · simp [hc1, hc2]
      · intro b _ hb
        rw [if_neg]
        rintro ⟨hb1, _⟩
        exact hb (D8.flowsTo_det hb1 hc1)
      · simp
    · rw [if_neg hex]
      refine Finset.sum_eq_zero (fun c _ => ?_)
      rw [if_neg]
      exact fun hc => hex ⟨c, hc⟩
  linarith

end

/-! ## C111: base level and time -/

/-- `Run … h s`: completed steps, called without a time step argument, led from `s0` through the
states `h` (in order) to `s`. -/
inductive Run (hy : 0 < ny) (hx : 0 < nx) (lr tb : Bool) (a : Par)
    (d8 : (Cell ny nx → ℝ) → D8Vars ny nx) (s0 : St ny nx) : List (St ny nx) → St ny nx → Prop
  | nil : Run hy hx lr tb a d8 s0 [] s0
  | snoc {h : List (St ny nx)} {s s' : St ny nx} : Run hy hx lr tb a d8 s0 h s →
      step hy hx lr tb a d8 (-1) s = .ok s' → Run hy hx lr tb a d8 s0 (h ++ [s']) s'

section
variable {hy : 0 < ny} {hx : 0 < nx} {lr tb : Bool} {a : Par}
  {d8 : (Cell ny nx → ℝ) → D8Vars ny nx}

/-- Border cells in a completed step. -/
theorem border_step {g : D8Vars ny nx} {dtArg : ℝ} {s s' : St ny nx}
    (h : evolve hy hx lr tb a g dtArg s = .ok s') (c : Cell ny nx) (hc : OnBorder c) :
    s'.z c = s.z c - a.BLR / 1000 * s'.dt := by
  obtain ⟨S, hd⟩ := evolve_ok h
  rw [hd.z c]
  unfold dzDt setBase
  dsimp only
  rw [if_pos (((C108_base_cells (by omega) (by omega)).2.1 c).2 hc)]
  simp only [Par.BLRmpyr, mmPerM]
  ring

/-- **C111 (base level, part).** After any number of steps called without a time step argument, the
model time is the sum of the time steps, each positive, and every border cell has been lowered at
exactly the base level lowering rate. -/
theorem C111_base_level_partial {z0 : Cell ny nx → ℝ} {h : List (St ny nx)} {s : St ny nx}
    (hr : Run hy hx lr tb a d8 (initSt a z0) h s) :
    s.time = (h.map St.dt).sum ∧ (∀ x ∈ h, 0 < x.dt) ∧
    ∀ c, OnBorder c → s.z c = z0 c - a.BLR / 1000 * s.time := by
  induction hr with
  | nil => simp [initSt]
  | @snoc h s s' _ hs ih =>
    obtain ⟨h1, h2, h3⟩ := ih
    obtain ⟨S, hd⟩ := evolve_ok hs
    have ht : s'.time = s.time + s'.dt := by
      have := hd.time
      rw [if_pos rfl] at this
      exact this
    refine ⟨?_, ?_, ?_⟩
    · rw [ht, h1, List.map_append, List.sum_append]; simp
    · intro x hx'
      rcases List.mem_append.1 hx' with hx' | hx'
      · exact h2 x hx'
      · rw [List.mem_singleton.1 hx']
        have := hd.dt
        unfold timeStep at this
        dsimp only at this
        split_ifs at this with hle
        have h' := Except.ok.inj this
        rw [← h']
        exact not_le.1 hle
    · intro c hc
      have hb := border_step hs c hc
      rw [hb]
      have : (integrals a s).z = s.z := rfl
      rw [this, h3 c hc, ht]
      ring

/-- **C111 (violated).** When a caller passes a time step, the model time advances by it but the
landscape by the step computed internally: the lowering of the border no longer matches the
time. -/
theorem C111_time_argument_violated {dtArg : ℝ} {s s' : St ny nx}
    (h : step hy hx lr tb a d8 dtArg s = .ok s') (h1 : dtArg ≠ -1) (h2 : dtArg ≠ s'.dt)
    (hB : a.BLR ≠ 0) (c : Cell ny nx) (hc : OnBorder c) :
    s'.time = s.time + dtArg ∧ s'.z c - s.z c ≠ -(a.BLR / 1000) * (s'.time - s.time) := by
  obtain ⟨S, hd⟩ := evolve_ok h
  have ht : s'.time = s.time + dtArg := by
    have := hd.time
    rw [if_neg h1] at this
    exact this
  refine ⟨ht, ?_⟩
  have hb := border_step h c hc
  have : (integrals a s).z = s.z := rfl
  rw [this] at hb
  rw [hb, ht]
  intro heq
  have : a.BLR * (dtArg - s'.dt) = 0 := by linarith
  rcases mul_eq_zero.1 this with h' | h'
  · exact hB h'
  · exact h2 (by linarith)

/-! ## C112: the record of the largest changes -/

theorem run_index {s0 : St ny nx} {h : List (St ny nx)} {s : St ny nx}
    (hr : Run hy hx lr tb a d8 s0 h s) : s.timeIndex = s0.timeIndex + h.length := by
  induction hr with
  | nil => simp
  | @snoc h s s' _ hs ih =>
    obtain ⟨S, hd⟩ := evolve_ok hs
    have h1 : s'.timeIndex = s.timeIndex + 1 := hd.index
    rw [h1, List.length_append, List.length_singleton, ih]
    omega

theorem pySet_some {v w : List ℝ} {i : ℤ} {x : ℝ} (h : pySet v i x = some w) :
    (0 ≤ i ∧ i < v.length ∧ w = v.set i.toNat x) ∨
    (-v.length ≤ i ∧ i < 0 ∧ w = v.set (i + v.length).toNat x) := by
  unfold pySet at h
  split_ifs at h with h1 h2
  · exact Or.inl ⟨h1.1, h1.2, (Option.some.inj h).symm⟩
  · exact Or.inr ⟨h2.1, h2.2, (Option.some.inj h).symm⟩

/-- **C112 (record).** With a fixed number `n` of steps, at most `n + 1` steps can be taken.  After
`k ≤ n` steps the record of the largest elevation change has `n` entries; the change in the first
step is in its *last* entry and that of step `j + 1` in entry `j - 1` (counted from 0). -/
theorem C112_record {z0 : Cell ny nx → ℝ} (hc : a.stopCode = 0) {h : List (St ny nx)}
    {s : St ny nx} (hr : Run hy hx lr tb a d8 (initSt a z0) h s) :
    s.dzMaxVec.length = a.nSteps ∧ (1 ≤ h.length → h.length ≤ a.nSteps + 1) ∧
    (h.length ≤ a.nSteps → ∀ j x, h[j]? = some x →
      s.dzMaxVec[if j = 0 then a.nSteps - 1 else j - 1]? = some x.dzMax) := by
  induction hr with
  | nil => simp [initSt]
  | @snoc h s s' hr hs ih =>
    obtain ⟨i1, i2, i3⟩ := ih
    have hidx := run_index hr
    have hidx : s.timeIndex = h.length := by rw [hidx]; simp [initSt]
    obtain ⟨S, hd⟩ := evolve_ok hs
    have hv := hd.vec
    rw [if_pos hc] at hv
    have e1 : (integrals a s).dzMaxVec = s.dzMaxVec := rfl
    have e2 : (integrals a s).timeIndex = s.timeIndex := rfl
    rw [e1, e2, hidx] at hv
    have hcase := pySet_some hv
    rw [i1] at hcase
    have hlen : s'.dzMaxVec.length = a.nSteps := by
      rcases hcase with ⟨_, _, hw⟩ | ⟨_, _, hw⟩ <;> rw [hw, List.length_set, i1]
    refine ⟨hlen, ?_, ?_⟩
    · intro _
      rw [List.length_append, List.length_singleton]
      rcases hcase with ⟨h1, h2, _⟩ | ⟨h1, h2, _⟩ <;> omega
    · intro hk j x hj
      rw [List.length_append, List.length_singleton] at hk
      have hset : s'.dzMaxVec = s.dzMaxVec.set
          (if h.length = 0 then a.nSteps - 1 else h.length - 1) s'.dzMax := by
        rcases hcase with ⟨h1, h2, hw⟩ | ⟨h1, h2, hw⟩
        · rw [hw, if_neg (by omega)]
          congr 1; omega
        · have h0 : h.length = 0 := by omega
          rw [hw, if_pos h0]
          congr 1; omega
      rw [hset]
      by_cases hjl : j = h.length
      · subst hjl
        rw [List.getElem?_append_right le_rfl] at hj
        simp only [Nat.sub_self, List.getElem?_cons_zero, Option.some.injEq] at hj
        subst hj
        rw [List.getElem?_set_self]
        rw [i1]
        split_ifs <;> omega
      · have hjlt : j < h.length := by
          have := (List.getElem?_eq_some_iff.1 hj).1
          rw [List.length_append, List.length_singleton] at this
          omega
        rw [List.getElem?_append_left hjlt] at hj
        rw [List.getElem?_set_ne]
        · exact i3 (by omega) j x hj
        · split_ifs <;> omega

/-- **C112 (violated).** The record does not start with the first step: after the first of two or
more planned steps its first entry is still zero, whatever happened in the step. -/
theorem C112_record_violated {z0 : Cell ny nx → ℝ} (hc : a.stopCode = 0) (hn : 2 ≤ a.nSteps)
    {s : St ny nx} (hr : step hy hx lr tb a d8 (-1) (initSt a z0) = .ok s) :
    s.dzMaxVec[0]? = some 0 ∧ s.dzMaxVec[a.nSteps - 1]? = some s.dzMax := by
  obtain ⟨S, hd⟩ := evolve_ok hr
  have hv := hd.vec
  rw [if_pos hc] at hv
  have e1 : (integrals a (initSt a z0)).dzMaxVec = List.replicate a.nSteps 0 := rfl
  have e2 : (integrals a (initSt a z0)).timeIndex = 0 := rfl
  rw [e1, e2] at hv
  rcases pySet_some hv with ⟨h1, _, _⟩ | ⟨_, _, hw⟩
  · norm_num at h1
  · rw [List.length_replicate] at hw
    have : (((0:ℕ) : ℤ) - 1 + (a.nSteps : ℤ)).toNat = a.nSteps - 1 := by omega
    rw [this] at hw
    rw [hw]
    constructor
    · rw [List.getElem?_set_ne (by omega), List.getElem?_replicate, if_pos (by omega)]
    · rw [List.getElem?_set_self (by rw [List.length_replicate]; omega)]

/-! ## C113: stopping -/

/-- The stopping rule the user selects: after a number of steps, at a time, or when no cell rises by
more than a millionth of a metre in a step. -/
def StopNow (a : Par) (x : St ny nx) : Prop :=
  (a.stopCode = 0 ∧ a.nSteps ≤ x.timeIndex) ∨ (a.stopCode = 1 ∧ a.stopTime ≤ x.time) ∨
  (a.stopCode = 2 ∧ x.dzMax < 1 / 1000000)

theorem checkFinished_done {s s' : St ny nx} (h : checkFinished a s = .ok s') :
    (s'.done = true ↔ s.done = true ∨ StopNow a s) ∧
    (a.stopCode = 0 ∨ a.stopCode = 1 ∨ a.stopCode = 2) := by
  unfold checkFinished at h
  unfold StopNow
  split_ifs at h with h0 h1 h2
  · cases h; simp [h0]
  · cases h; simp [h1]
  · cases h; simp [h2, dzTolerance]

theorem stopNow_congr {s s' : St ny nx} (h1 : s'.timeIndex = s.timeIndex) (h2 : s'.time = s.time)
    (h3 : s'.dzMax = s.dzMax) : StopNow a s' ↔ StopNow a s := by
  unfold StopNow; rw [h1, h2, h3]

theorem evolve_done {g : D8Vars ny nx} {dtArg : ℝ} {s s' : St ny nx}
    (h : evolve hy hx lr tb a g dtArg s = .ok s') :
    s'.done = true ↔ s.done = true ∨ 1000 < s'.dzMax ∨ StopNow a s' := by
  obtain ⟨S, hd⟩ := evolve_ok h
  obtain ⟨s1, s2, f1, f2, f3, f4, f5, f6, f7⟩ := hd.done
  have hst : (checkStability s1).done = true ↔ s1.done = true ∨ 1000 < s1.dzMax := by
    unfold checkStability
    split_ifs with hlt
    · simp [hlt]
    · constructor
      · exact Or.inl
      · rintro (h' | h')
        · exact h'
        · exact absurd h' hlt
  have k7 := checkFinished_keeps f7
  have e7 := (checkFinished_done f7).1
  have hq : StopNow a s' ↔ StopNow a s2 := stopNow_congr k7.2.2.2.1 k7.2.2.1 k7.2.2.2.2.1
  have e6 : s2.done = true ↔ (checkStability s1).done = true ∨ StopNow a s2 := by
    unfold updateTime at f6
    have k6 := checkFinished_keeps f6
    have e := (checkFinished_done f6).1
    rw [stopNow_congr (a := a) k6.2.2.2.1 k6.2.2.1 k6.2.2.2.2.1]
    exact e
  rw [e7, hq, e6, hst, f1, f2, or_assoc, or_self, or_assoc]

/-- **C113 (stopping).** A run is finished after a step exactly when, in that or an earlier step, the
selected rule was met or an elevation rose by more than 1000 m. -/
theorem C113_finished_iff {z0 : Cell ny nx → ℝ} {h : List (St ny nx)} {s : St ny nx}
    (hr : Run hy hx lr tb a d8 (initSt a z0) h s) :
    s.done = true ↔ ∃ x ∈ h, 1000 < x.dzMax ∨ StopNow a x := by
  induction hr with
  | nil => simp [initSt]
  | @snoc h s s' _ hs ih =>
    rw [evolve_done hs]
    have : (integrals a s).done = s.done := rfl
    rw [this, ih]
    simp only [List.mem_append, List.mem_singleton, or_and_right, exists_or, exists_eq_left]

/-- **C113 (number of steps).** With the rule "number of steps", a run without instability is finished
exactly from the `n`-th step on. -/
theorem C113_n_steps {z0 : Cell ny nx → ℝ} (hc : a.stopCode = 0) {h : List (St ny nx)}
    {s : St ny nx} (hr : Run hy hx lr tb a d8 (initSt a z0) h s) (h1 : 1 ≤ h.length)
    (hstab : ∀ x ∈ h, x.dzMax ≤ 1000) : s.done = true ↔ a.nSteps ≤ h.length := by
  have hidx : ∀ {h : List (St ny nx)} {s : St ny nx}, Run hy hx lr tb a d8 (initSt a z0) h s →
      ∀ x ∈ h, x.timeIndex ≤ h.length := by
    intro h s hr
    induction hr with
    | nil => simp
    | @snoc h s s' hr hs ih =>
      intro x hx'
      rw [List.length_append, List.length_singleton]
      rcases List.mem_append.1 hx' with hx' | hx'
      · have := ih x hx'; omega
      · rw [List.mem_singleton.1 hx']
        have := run_index (Run.snoc hr hs)
        rw [this, List.length_append, List.length_singleton]
        simp [initSt]
  have hlast : s ∈ h := by
    cases hr with
    | nil => simp at h1
    | snoc => simp
  rw [C113_finished_iff hr]
  constructor
  · rintro ⟨x, hx', hbig | hstop⟩
    · exact absurd (hstab x hx') (not_le.2 hbig)
    · have hi := hidx hr x hx'
      unfold StopNow at hstop
      rcases hstop with ⟨_, h'⟩ | ⟨h', _⟩ | ⟨h', _⟩
      · omega
      · omega
      · omega
  · intro hle
    refine ⟨s, hlast, Or.inr (Or.inl ⟨hc, ?_⟩)⟩
    have := run_index hr
    rw [this]
    simp [initSt]
    exact hle

/-- **C113 (steady state).** Under the rule "steady state" a step finishes the run exactly when no
cell has risen by a millionth of a metre or more, however far cells have sunk (or some cell has
risen by more than 1000 m). -/
theorem C113_steady_iff (hc : a.stopCode = 2) {s s' : St ny nx} (h0 : s.done = false)
    (h : step hy hx lr tb a d8 (-1) s = .ok s') :
    s'.done = true ↔ (∀ c, s'.z c - s.z c < 1 / 1000000) ∨ ∃ c, 1000 < s'.z c - s.z c := by
  have hdn := evolve_done h
  have : (integrals a s).done = false := h0
  rw [this] at hdn
  obtain ⟨S, hd⟩ := evolve_ok h
  obtain ⟨f, hf⟩ : ∃ f : Cell ny nx → ℝ, f = fun c => dzDt a (d8 (integrals a s).z).net
    (baseIDs ny nx) (qsGrid a (qGrid a (d8 (integrals a s).z).A) S) c * s'.dt := ⟨_, rfl⟩
  have hz : ∀ c, s'.z c - s.z c = f c := by
    intro c
    rw [hd.z c, hf]
    have : (integrals a s).z = s.z := rfl
    dsimp only
    rw [this]; ring
  have hm : s'.dzMax = gridMax hy hx f := by rw [hd.dzMax, hf]
  obtain ⟨c0, hc0⟩ := gridMax_mem (hy := hy) (hx := hx) f
  have h1 : 1000 < s'.dzMax ↔ ∃ c, 1000 < s'.z c - s.z c := by
    rw [hm]
    constructor
    · intro hlt
      exact ⟨c0, by rw [hz c0, ← hc0]; exact hlt⟩
    · rintro ⟨c, hlt⟩
      rw [hz c] at hlt
      exact hlt.trans_le (le_gridMax f c)
  have h2 : StopNow a s' ↔ ∀ c, s'.z c - s.z c < 1 / 1000000 := by
    have : StopNow a s' ↔ s'.dzMax < 1 / 1000000 := by
      unfold StopNow
      rw [hc]
      norm_num
    rw [this, hm]
    constructor
    · intro hlt c
      rw [hz c]
      exact (le_gridMax f c).trans_lt hlt
    · intro hall
      rw [hc0, ← hz c0]
      exact hall c0
  rw [hdn, h1, h2]
  simp only [Bool.false_eq_true, false_or]
  tauto

/-- A step completes when the slopes and the time step are computed and the stop code is 1 or 2, or 0
with room in the record. -/
theorem evolve_completes {g : D8Vars ny nx} {dtArg dt : ℝ} {s : St ny nx} {S : Cell ny nx → ℝ}
    (hS : slopeGrid hy hx lr tb s.z g.ds g.codes = .ok S)
    (hdt : timeStep hy hx lr tb a g.codes s.z (qsGrid a (qGrid a g.A) S) = .ok dt)
    (hc : a.stopCode = 1 ∨ a.stopCode = 2 ∨ a.stopCode = 0 ∧
      ∀ x, ∃ v, pySet s.dzMaxVec ((s.timeIndex : ℤ) - 1) x = some v) :
    ∃ s', evolve hy hx lr tb a g dtArg s = .ok s' := by
  unfold evolve
  rw [hS]
  dsimp only
  rw [hdt]
  unfold updateDEM updateTime checkFinished
  rcases hc with hc | hc | ⟨hc, hv⟩
  · norm_num [hc]
  · norm_num [hc]
  · obtain ⟨v, hv⟩ := hv (gridMax hy hx fun c =>
      dzDt a g.net (baseIDs ny nx) (qsGrid a (qGrid a g.A) S) c * dt)
    simp [hc, hv]

/-- There is a D8 component for every configuration Erode uses. -/
theorem exists_d8 (hy : 0 < ny) (hx : 0 < nx) : ∃ d8 : (Cell ny nx → ℝ) → D8Vars ny nx,
    ∀ z, OfDEM hy hx unitCfg z (d8 z) ∧ (d8 z).ds = (fun _ => 1) ∧ (d8 z).A = (fun _ => 1) := by
  choose d8 h using fun z : Cell ny nx → ℝ =>
    exists_ofDEM hy hx unitCfg unitCfg_pos rfl rfl rfl rfl z (fun _ => 1) (fun _ => 1)
      (by simp) (by simp)
  exact ⟨d8, h⟩

/-- **C113 (unknown rule).** With any other stop code no step completes. -/
theorem C113_unknown_rule (h0 : a.stopCode ≠ 0) (h1 : a.stopCode ≠ 1) (h2 : a.stopCode ≠ 2)
    (g : D8Vars ny nx) (dtArg : ℝ) (s s' : St ny nx) :
    evolve hy hx lr tb a g dtArg s ≠ .ok s' := by
  intro h
  obtain ⟨S, hd⟩ := evolve_ok h
  obtain ⟨s1, s2, _, _, _, _, _, _, f7⟩ := hd.done
  rcases (checkFinished_done f7).2 with h' | h' | h'
  · exact h0 h'
  · exact h1 h'
  · exact h2 h'

/-! ## C114: volume totals -/

/-- **C114 (totals).** After any number of steps the reported totals of rain and uplift are rate times
area times the sum of the initial 0.1 years and all time steps but the last; the uplift total uses
the rate in millimetres per year. -/
theorem C114_totals {z0 : Cell ny nx → ℝ} {h : List (St ny nx)} {s : St ny nx}
    (hr : Run hy hx lr tb a d8 (initSt a z0) h s) :
    s.volR = a.R * a.da * (ny * nx) * (1 / 10 + s.time - s.dt) ∧
    s.volU = a.U * a.da * (ny * nx) * (1 / 10 + s.time - s.dt) := by
  have key : ∀ {h : List (St ny nx)} {s : St ny nx}, Run hy hx lr tb a d8 (initSt a z0) h s →
      s.volR + a.R * a.da * s.dt * (ny * nx : ℕ) = a.R * a.da * (ny * nx) * (1 / 10 + s.time) ∧
      s.volU + a.U * a.da * s.dt * (ny * nx : ℕ) = a.U * a.da * (ny * nx) * (1 / 10 + s.time) := by
    intro h s hr
    induction hr with
    | nil => simp only [initSt, Nat.cast_mul]; constructor <;> ring
    | @snoc h s s' _ hs ih =>
      obtain ⟨S, hd⟩ := evolve_ok hs
      have ht : s'.time = s.time + s'.dt := by
        have := hd.time
        rw [if_pos rfl] at this
        exact this
      have hR : s'.volR = s.volR + a.R * a.da * s.dt * (ny * nx : ℕ) := hd.volR
      have hU : s'.volU = s.volU + a.U * a.da * s.dt * (ny * nx : ℕ) := hd.volU
      rw [hR, hU, ih.1, ih.2, ht]
      push_cast
      constructor <;> ring
  have := key hr
  push_cast at this
  constructor <;> linarith [this.1, this.2]

/-- **C114 (violated).** The reported uplift total is not the volume uplifted: in every run with
uplift it is a thousand times the volume for the time it covers, and after a single step it does
not depend on the time step at all. -/
theorem C114_uplift_violated {z0 : Cell ny nx → ℝ} {h : List (St ny nx)} {s : St ny nx}
    (hr : Run hy hx lr tb a d8 (initSt a z0) h s) (h1 : 1 ≤ h.length) (hU : 0 < a.U)
    (ha : 0 < a.da) :
    s.volU = 1000 * (a.U / 1000 * (a.da * (ny * nx)) * (1 / 10 + s.time - s.dt)) ∧
    (h.length = 1 → s.volU = 1000 * (a.U / 1000 * (a.da * (ny * nx)) * (1 / 10))) ∧
    0 < s.volU := by
  have ht := (C114_totals hr).2
  have htime : 0 ≤ s.time - s.dt ∧ (h.length = 1 → s.time = s.dt) := by
    cases hr with
    | nil => simp at h1
    | @snoc h s1 _ hr hs =>
      obtain ⟨S, hd⟩ := evolve_ok hs
      have hb := C111_base_level_partial hr
      have : s.time = s1.time + s.dt := by
        have := hd.time
        rw [if_pos rfl] at this
        exact this
      have hnn : 0 ≤ s1.time := by
        rw [hb.1]
        apply List.sum_nonneg
        intro x hx'
        obtain ⟨y, hy', rfl⟩ := List.mem_map.1 hx'
        exact (hb.2.1 y hy').le
      refine ⟨by rw [this]; linarith, fun hl => ?_⟩
      rw [List.length_append, List.length_singleton] at hl
      have hnil : h = [] := List.length_eq_zero_iff.1 (by omega)
      rw [this, hb.1, hnil]
      simp
  refine ⟨by rw [ht]; ring, fun hl => by rw [ht, htime.2 hl]; ring, ?_⟩
  rw [ht]
  have h2 : (0:ℝ) < (ny:ℝ) * nx := by
    have : (0:ℝ) < ny := by exact_mod_cast hy
    have : (0:ℝ) < nx := by exact_mod_cast hx
    positivity
  have : 0 < 1 / 10 + s.time - s.dt := by linarith [htime.1]
  positivity

end

/-! ## A run that is not steady -/

/-- A 3×3 canyon: the centre at 1000 m drains into a border cell at 0 m. -/
def canyon : Cell 3 3 → ℝ := fun c => if c = (1, 2) then 0 else if c = (1, 1) then 1000 else 2000

theorem canyon_centre : canyon (1, 1) = 1000 := by
  unfold canyon
  rw [if_neg (by decide), if_pos rfl]

theorem canyon_outlet : canyon (1, 2) = 0 := if_pos rfl

/-- Unit coefficients, no uplift, no lowering, and the given stop code and number of steps. -/
def unitPar (code : ℤ) (k : ℕ) : Par where
  da := 1
  U := 0
  BLR := 0
  R := 1
  K := 1
  m := 1
  n := 1
  p := 1
  cfl := 1 / 2
  stopCode := code
  nSteps := k
  stopTime := 0

/-- The first step on the canyon. -/
theorem canyon_step {code : ℤ} {k : ℕ} (hcode : code = 1 ∨ code = 2 ∨ code = 0 ∧ 1 ≤ k)
    {d8 : (Cell 3 3 → ℝ) → D8Vars 3 3}
    (h : OfDEM (by omega) (by omega) unitCfg canyon (d8 canyon))
    (hds : (d8 canyon).ds = fun _ => 1) (hA : (d8 canyon).A = fun _ => 1) :
    ∃ s', step (by omega) (by omega) false false (unitPar code k) d8 (-1)
        (initSt (unitPar code k) canyon) = .ok s' ∧
      s'.z (1, 1) = canyon (1, 1) - 250 ∧ s'.time = 1 / 4 ∧ ∀ c, OnBorder c → s'.z c = canyon c := by
  have hok : (unitPar code k).stopCode = 1 ∨ (unitPar code k).stopCode = 2 ∨
      (unitPar code k).stopCode = 0 ∧ ∀ x, ∃ v, pySet
        (integrals (unitPar code k) (initSt (unitPar code k) canyon)).dzMaxVec
        (((integrals (unitPar code k) (initSt (unitPar code k) canyon)).timeIndex : ℤ) - 1) x
          = some v := by
    rcases hcode with h' | h' | ⟨h', hk⟩
    · exact Or.inl h'
    · exact Or.inr (Or.inl h')
    · refine Or.inr (Or.inr ⟨h', fun x => ?_⟩)
      have e1 : (integrals (unitPar code k) (initSt (unitPar code k) canyon)).dzMaxVec
        = List.replicate k 0 := rfl
      have e2 : (integrals (unitPar code k) (initSt (unitPar code k) canyon)).timeIndex = 0 := rfl
      rw [e1, e2]
      unfold pySet
      rw [if_neg (by omega), if_pos (by rw [List.length_replicate]; omega)]
      exact ⟨_, rfl⟩
  have hf : FlowsTo (d8 canyon).codes (1, 1) (1, 2) := by
    refine centre_flows h (1, 2) ?_ ?_ (by decide) ?_
    · rw [canyon_centre]; norm_num
    · rw [canyon_centre, canyon_outlet]; norm_num
    · intro e' he'
      unfold canyon
      rw [if_neg he']
      split_ifs <;> norm_num at *
  obtain ⟨S, hS, hS0, hS1⟩ := C107_slope h
  have hSc : S (1, 1) = 1000 := by
    rw [(hS1 _ _ hf).1, hds, canyon_centre, canyon_outlet]
    norm_num
  obtain ⟨Qs, hQs⟩ : ∃ Qs, Qs = qsGrid (unitPar code k) (qGrid (unitPar code k) (d8 canyon).A) S := ⟨_, rfl⟩
  have hQc : Qs (1, 1) = 1000 := by
    rw [hQs, hA]
    simp [qsGrid, qGrid, unitPar, hSc]
  have hQb : ∀ c, OnBorder c → Qs c = 0 := by
    intro c hc
    rw [hQs]
    simp [qsGrid, unitPar, hS0 c (h.border hc)]
  have hdc : dtCell (by omega) (by omega) false false (unitPar code k) (d8 canyon).codes canyon Qs (1, 1)
      = 1 / 4 := by
    have hne : ((1, 2) : Cell 3 3) ≠ corner (by omega) (by omega) := by
      unfold corner; decide
    rw [(dtCell_eq h (1, 1)).2 _ hf, if_neg hne, hQc, canyon_centre, canyon_outlet]
    norm_num [unitPar]
  have hdb : ∀ c, OnBorder c → dtCell (by omega) (by omega) false false (unitPar code k) (d8 canyon).codes
      canyon Qs c = dtLimit := fun c hc => (dtCell_eq h c).1 (h.border hc)
  have hmin : gridMin (by omega) (by omega)
      (dtCell (by omega) (by omega) false false (unitPar code k) (d8 canyon).codes canyon Qs) = 1 / 4 := by
    refine le_antisymm ?_ ?_
    · rw [← hdc]; exact gridMin_le _ _
    · obtain ⟨c, hc⟩ := gridMin_mem (hy := (by omega : 0 < 3)) (hx := (by omega : 0 < 3))
        (dtCell (by omega) (by omega) false false (unitPar code k) (d8 canyon).codes canyon Qs)
      rw [hc]
      by_cases hb : OnBorder c
      · rw [hdb c hb]; norm_num [dtLimit]
      · rw [(centre_only c).1 hb, hdc]
  have ht : timeStep (by omega) (by omega) false false (unitPar code k) (d8 canyon).codes canyon Qs
      = .ok (1 / 4) := by
    unfold timeStep
    dsimp only
    rw [hmin]
    norm_num
  rw [hQs] at ht
  obtain ⟨s', hs'⟩ := evolve_completes (a := (unitPar code k)) (dtArg := -1)
    (s := integrals (unitPar code k) (initSt (unitPar code k) canyon)) (g := d8 canyon) hS ht hok
  have hstep : step (by omega) (by omega) false false (unitPar code k) d8 (-1)
      (initSt (unitPar code k) canyon) = .ok s' := hs'
  obtain ⟨S', hd⟩ := evolve_ok hs'
  have hdt : s'.dt = 1 / 4 := by
    have h1 := hd.slope
    have : S' = S := (Except.ok.inj (h1.symm.trans hS))
    subst this
    exact Except.ok.inj (hd.dt.symm.trans ht)
  have hzb : ∀ c, OnBorder c → s'.z c = canyon c := by
    intro c hc
    have := border_step hs' c hc
    rw [this]
    simp [integrals, initSt, unitPar]
  have hzc : s'.z (1, 1) = canyon (1, 1) - 250 := by
    have := C110_cell_balance (cfg := unitCfg) (a := (unitPar code k))
      (s := integrals (unitPar code k) (initSt (unitPar code k) canyon)) (g := d8 canyon) h
      (by norm_num [unitPar]) hs' hS (1, 1) ((centre_only _).2 rfl)
    rw [← hQs, hQc, hdt] at this
    have hin : ChanSpec.inflow (d8 canyon).codes Qs (1, 1) = 0 := by
      unfold ChanSpec.inflow
      refine Finset.sum_eq_zero (fun e he => ?_)
      refine hQb e ?_
      by_contra hb
      have he' := (centre_only e).1 hb
      subst he'
      have : FlowsTo (d8 canyon).codes (1, 1) (1, 1) := by simpa using he
      exact absurd (h.downhill this) (lt_irrefl _)
    rw [hin] at this
    have e1 : (integrals (unitPar code k) (initSt (unitPar code k) canyon)).z = canyon := rfl
    rw [e1] at this
    norm_num [unitPar] at this
    linarith
  refine ⟨s', hstep, hzc, ?_, hzb⟩
  have := hd.time
  rw [if_pos rfl, hdt] at this
  rw [this]
  simp [integrals, initSt]

/-- **C113 (violated).** The rule "steady state" ends a run that is not steady: in the first step the
centre of the canyon sinks by 250 m in a quarter of a year, and the run is reported finished. -/
theorem C113_steady_violated {d8 : (Cell 3 3 → ℝ) → D8Vars 3 3}
    (h : OfDEM (by omega) (by omega) unitCfg canyon (d8 canyon))
    (hds : (d8 canyon).ds = fun _ => 1) (hA : (d8 canyon).A = fun _ => 1) :
    ∃ s', step (by omega) (by omega) false false (unitPar 2 0) d8 (-1)
        (initSt (unitPar 2 0) canyon) = .ok s' ∧
      s'.done = true ∧ s'.z (1, 1) = canyon (1, 1) - 250 ∧ s'.time = 1 / 4 := by
  obtain ⟨s', hs, h1, h2, h3⟩ := canyon_step (code := 2) (k := 0) (Or.inr (Or.inl rfl)) h hds hA
  refine ⟨s', hs, ?_, h1, h2⟩
  refine (C113_steady_iff rfl rfl hs).2 (Or.inl fun c => ?_)
  have e1 : (initSt (unitPar 2 0) canyon).z = canyon := rfl
  rw [e1]
  by_cases hb : OnBorder c
  · rw [h3 c hb]; norm_num
  · rw [(centre_only c).1 hb, h1]; norm_num

/-- Such a D8 component exists; so runs with a step exist for every stop code. -/
example (code : ℤ) (k : ℕ) (hcode : code = 1 ∨ code = 2 ∨ code = 0 ∧ 1 ≤ k) :
    ∃ (d8 : (Cell 3 3 → ℝ) → D8Vars 3 3) (s : St 3 3),
    Run (by omega) (by omega) false false (unitPar code k) d8 (initSt (unitPar code k) canyon)
      [s] s := by
  obtain ⟨d8, h⟩ := exists_d8 (ny := 3) (nx := 3) (by omega) (by omega)
  obtain ⟨s', hs, _⟩ := canyon_step hcode (h canyon).1 (h canyon).2.1 (h canyon).2.2
  exact ⟨d8, s', Run.snoc (h := []) Run.nil hs⟩

end Erode
