import Verif.ErodeModel
import Verif.D8GeomProps
import Verif.ChannelProps
import Mathlib.Tactic.NormNum
import Mathlib.Tactic.FieldSimp

/-!
# Properties of the landscape evolution component
-/

set_option autoImplicit false

noncomputable section

open scoped BigOperators
open D8 (Cell)
open D8Spec (FlowsTo OnBorder IsNbr)

namespace Erode

variable {ny nx : ℕ}

/-! ## Specification -/

/-- The D8 variables `g` belong to the elevations `z`: flow codes, drainage network, positive flow
lengths and contributing areas, as the D8 component computes them in the settings used by Erode
(ties broken, flats not linked, no periodic borders; erode_d8_global.py:551-552). -/
structure OfDEM (hy : 0 < ny) (hx : 0 < nx) (cfg : D8.Config ℝ) (z : Cell ny nx → ℝ)
    (g : D8Vars ny nx) : Prop where
  pos : cfg.Pos
  flats : cfg.linkFlats = false
  ties : cfg.breakTies = true
  lr : cfg.lrPeriodic = false
  tb : cfg.tbPeriodic = false
  codes : ∃ fuel, D8.updateFlowGrid cfg fuel z = some g.codes
  net : Chan.d8Net hy hx false false g.codes = some g.net
  ds : ∀ c, g.codes c ≠ 0 → 0 < g.ds c
  area : ∀ c, 0 ≤ g.A c

/-- The cell in the upper left corner of the grid. -/
def corner (hy : 0 < ny) (hx : 0 < nx) : Cell ny nx := (⟨0, hy⟩, ⟨0, hx⟩)

section
variable {hy : 0 < ny} {hx : 0 < nx} {cfg : D8.Config ℝ} {z : Cell ny nx → ℝ} {g : D8Vars ny nx}

theorem OfDEM.good (h : OfDEM hy hx cfg z g) : Chan.GoodNet g.codes g.net := by
  obtain ⟨f, hf⟩ := h.codes
  refine Chan.goodNet_of_dem hf hy hx ?_
  rw [h.lr, h.tb]; exact h.net

theorem OfDEM.downhill (h : OfDEM hy hx cfg z g) {c e : Cell ny nx} (hf : FlowsTo g.codes c e) :
    z e < z c := by
  obtain ⟨f, hu⟩ := h.codes
  unfold D8.updateFlowGrid at hu
  simp only [h.flats, Bool.false_eq_true, if_false, Option.map_some, Option.some.injEq] at hu
  obtain ⟨k, hk, rfl⟩ := D8.flowsTo_iff.1 hf
  rw [← hu] at hk
  rw [D8.validCodeMap_codeList] at hk
  rcases (D8.start_inv h.pos z).flow c k hk with h1 | ⟨_, h2, _⟩
  · exact h1
  · exact absurd h2 (lt_irrefl _)

theorem OfDEM.parent (h : OfDEM hy hx cfg z g) {c e : Cell ny nx} (hf : FlowsTo g.codes c e) :
    D8.parentID false false g.codes c = (e.1.val : ℤ) * nx + e.2.val ∧
    par hy hx false false g.codes c = e := by
  obtain ⟨f, hu⟩ := h.codes
  have := (D8.C03_parent_is_downstream_neighbour hu c).1 e hf
  rw [h.lr, h.tb] at this
  exact ⟨this, by rw [par, this, Chan.cellOf_flat]⟩

theorem OfDEM.noparent (h : OfDEM hy hx cfg z g) {c : Cell ny nx} (hf : g.codes c = 0) :
    D8.parentID false false g.codes c = 0 := by
  obtain ⟨f, hu⟩ := h.codes
  have := (D8.C03_parent_is_downstream_neighbour hu c).2 hf
  rwa [h.lr, h.tb] at this

theorem OfDEM.cases (h : OfDEM hy hx cfg z g) (c : Cell ny nx) :
    g.codes c = 0 ∨ ∃ e, FlowsTo g.codes c e := h.good.valid c

theorem OfDEM.border (h : OfDEM hy hx cfg z g) {c : Cell ny nx} (hb : OnBorder c) :
    g.codes c = 0 := by
  obtain ⟨f, hu⟩ := h.codes
  unfold D8.updateFlowGrid at hu
  simp only [h.flats, h.ties, Bool.false_eq_true, if_false, if_true, Option.map_some,
    Option.some.injEq] at hu
  rw [← hu]
  have : D8.startCode cfg z c = 0 := by
    unfold D8.startCode
    unfold OnBorder at hb
    have h1 := c.1.isLt
    have h2 := c.2.isLt
    simp only [h.lr, h.tb, D8.onLR, D8.onTB, true_and, decide_eq_true_eq]
    split_ifs <;> first | rfl | omega
  simp only [D8.breakTies, this, lt_irrefl, if_false]
  decide

end

/-! ## C106: the update -/

/-- **C106 (violated).** No update of an enabled component completes: for every state, every
configuration and every time step argument it raises `TypeError`, because the D8 component is
called with a keyword (`SILENT`) that its `update` does not have. -/
theorem C106_update_raises_violated (hy : 0 < ny) (hx : 0 < nx) (lr tb : Bool) (a : Par)
    (d8 : (Cell ny nx → ℝ) → D8Vars ny nx) (dtArg : ℝ) (s : St ny nx) :
    update hy hx lr tb false a d8 dtArg s = .error "TypeError" := by
  have : acceptsCall d8UpdateParams d8Call.1 d8Call.2 = false := by decide
  simp [update, this]

/-- **C106 (part).** A disabled component is left as it is. -/
theorem C106_disabled_partial (hy : 0 < ny) (hx : 0 < nx) (lr tb : Bool) (a : Par)
    (d8 : (Cell ny nx → ℝ) → D8Vars ny nx) (dtArg : ℝ) (s : St ny nx) :
    update hy hx lr tb true a d8 dtArg s = .ok s := rfl

/-- Without that keyword the call would be accepted: the rest of the step is what the theorems
below are about. -/
example : acceptsCall d8UpdateParams 1 ["DEM", "REPORT"] = true := by decide

/-! ## C107: slopes and sediment discharge -/

section
variable {hy : 0 < ny} {hx : 0 < nx} {cfg : D8.Config ℝ} {z : Cell ny nx → ℝ} {g : D8Vars ny nx}

/-- **C107 (slopes).** For every DEM the slope grid is computed without stopping the program: it is
zero where there is no flow direction and otherwise the drop to the downstream cell divided by the
flow length, which is positive. -/
theorem C107_slope (h : OfDEM hy hx cfg z g) :
    ∃ S, slopeGrid hy hx false false z g.ds g.codes = .ok S ∧
      (∀ c, g.codes c = 0 → S c = 0) ∧
      ∀ c e, FlowsTo g.codes c e → S c = (z c - z e) / g.ds c ∧ 0 < S c := by
  have h1 : ∀ c e, FlowsTo g.codes c e →
      (if g.codes c = 0 then (0:ℝ) else (z c - z (par hy hx false false g.codes c)) / g.ds c)
        = (z c - z e) / g.ds c ∧ 0 < (z c - z e) / g.ds c := by
    intro c e hf
    have hc : g.codes c ≠ 0 := fun h0 => Chan.noflow_not_flows h0 e hf
    rw [if_neg hc, (h.parent hf).2]
    exact ⟨rfl, div_pos (sub_pos.2 (h.downhill hf)) (h.ds c hc)⟩
  refine ⟨fun c => if g.codes c = 0 then (0:ℝ) else
    (z c - z (par hy hx false false g.codes c)) / g.ds c, ?_, fun c hc => if_pos hc, ?_⟩
  · unfold slopeGrid
    rw [if_neg]
    rintro ⟨c, hc⟩
    rcases h.cases c with h0 | ⟨e, hf⟩
    · simp [h0] at hc
    · have := h1 c e hf
      dsimp only at hc
      rw [this.1] at hc
      exact absurd hc this.2.not_gt
  · intro c e hf
    dsimp only
    exact ⟨(h1 c e hf).1, by rw [(h1 c e hf).1]; exact (h1 c e hf).2⟩

end

/-- **C107 (units).** The transport law `K Q^m S^n`, stated for discharges in cubic metres per
second, holds for the computed discharges in cubic metres per year after conversion. -/
theorem C107_units (a : Par) (Q S : Cell ny nx → ℝ) (c : Cell ny nx) (hQ : 0 ≤ Q c) :
    qsGrid a Q S c / (365 * 24 * 3600) = a.K * (Q c / (365 * 24 * 3600)) ^ a.m * (S c) ^ a.n := by
  have hs : (0:ℝ) < secsPerYear := by norm_num [secsPerYear]
  have hy : (365 * 24 * 3600 : ℝ) = secsPerYear := by norm_num [secsPerYear]
  rw [hy]
  unfold qsGrid
  simp only
  rw [Real.div_rpow hQ hs.le, Real.rpow_sub hs, Real.rpow_one]
  have := (Real.rpow_pos_of_pos hs a.m).ne'
  field_simp

/-- **C107 (water).** The water discharge is the rain rate times the contributing area to the power `p`. -/
theorem C107_water (a : Par) (A : Cell ny nx → ℝ) (c : Cell ny nx) : qGrid a A c = a.R * (A c) ^ a.p := by
  unfold qGrid
  split_ifs with h
  · rfl
  · rw [not_not.1 h, Real.rpow_one]

/-- **C107 (sign).** With non-negative coefficients no cell has a negative water or sediment
discharge, and sediment leaves a cell only down a slope when the slope exponent is not zero. -/
theorem C107_nonneg (a : Par) (hR : 0 ≤ a.R) (hK : 0 ≤ a.K) (A S : Cell ny nx → ℝ)
    (hA : ∀ c, 0 ≤ A c) (hS : ∀ c, 0 ≤ S c) (c : Cell ny nx) :
    0 ≤ qGrid a A c ∧ 0 ≤ qsGrid a (qGrid a A) S c ∧
    (a.n ≠ 0 → S c = 0 → qsGrid a (qGrid a A) S c = 0) := by
  have hs : (0:ℝ) ≤ secsPerYear := by norm_num [secsPerYear]
  have hq : 0 ≤ qGrid a A c := by
    unfold qGrid
    split_ifs
    · exact mul_nonneg hR (Real.rpow_nonneg (hA c) _)
    · exact mul_nonneg hR (hA c)
  refine ⟨hq, ?_, ?_⟩
  · unfold qsGrid
    exact mul_nonneg (mul_nonneg (Real.rpow_nonneg hs _) (mul_nonneg hK (Real.rpow_nonneg hq _)))
      (Real.rpow_nonneg (hS c) _)
  · intro hn h0
    unfold qsGrid
    simp [h0, Real.zero_rpow hn]

/-- **C107 (violated for exponent zero).** With a slope exponent of zero a cell without slope still
loses sediment. -/
theorem C107_flat_exponent_zero (a : Par) (hn : a.n = 0) (hK : 0 < a.K) (Q S : Cell ny nx → ℝ)
    (c : Cell ny nx) (hQ : 0 < Q c) : 0 < qsGrid a Q S c := by
  have hs : (0:ℝ) < secsPerYear := by norm_num [secsPerYear]
  unfold qsGrid
  rw [hn, Real.rpow_zero, mul_one]
  exact mul_pos (Real.rpow_pos_of_pos hs _) (mul_pos hK (Real.rpow_pos_of_pos hQ _))

/-! ## C108: base level cells -/

theorem baseIDs_eq (ny nx : ℕ) : baseIDs ny nx = D8.edgeIDs ny nx := by
  simp only [baseIDs, D8.edgeIDs, Nat.mul_comm, Nat.add_comm]

/-- **C108 (cells).** With the boundary condition FOUR_SIDES the base level cells are exactly the
cells on the border of the grid; each is listed once if the grid has at least two rows and
columns. -/
theorem C108_base_cells (hy : 1 ≤ ny) (hx : 1 ≤ nx) :
    (∀ i ∈ baseIDs ny nx, i < ny * nx) ∧
    (∀ c : Cell ny nx, c.1.val * nx + c.2.val ∈ baseIDs ny nx ↔ OnBorder c) ∧
    (2 ≤ ny → 2 ≤ nx → (baseIDs ny nx).Nodup) := by
  rw [baseIDs_eq]
  exact ⟨(D8.C02_edge_ids_are_border hy hx).1, (D8.C02_edge_ids_are_border hy hx).2,
    fun h1 h2 => D8.C02_edge_ids_nodup h1 h2⟩

/-- **C108 (each once).** Exactly: each cell is listed once if the grid has two rows, or more rows and at
least two columns; in a grid of one row, or of one column and more than two rows, cells are listed
twice. -/
theorem C108_once_iff (hy : 1 ≤ ny) (hx : 1 ≤ nx) :
    (baseIDs ny nx).Nodup ↔ ny = 2 ∨ (3 ≤ ny ∧ 2 ≤ nx) := by
  rw [baseIDs_eq]
  constructor
  · intro h
    by_contra hc
    rcases Nat.lt_or_ge ny 2 with h1 | h1
    · obtain rfl : ny = 1 := by omega
      simp only [D8.edgeIDs, List.append_assoc] at h
      rw [List.nodup_append] at h
      exact h.2.2 0 (by simp; omega) 0 (by simp; omega) rfl
    · obtain rfl : nx = 1 := by omega
      simp only [D8.edgeIDs, List.append_assoc] at h
      have h := ((List.nodup_append.1 (List.nodup_append.1 h).2.1).2.1)
      exact (List.nodup_append.1 h).2.2 1 (by simp; omega) 1 (by simp; omega) rfl
  · rintro (rfl | ⟨h1, h2⟩)
    · rcases Nat.lt_or_ge nx 2 with h3 | h3
      · obtain rfl : nx = 1 := by omega
        decide
      · exact D8.C02_edge_ids_nodup le_rfl h3
    · exact D8.C02_edge_ids_nodup (by omega) h2

/-! ## What a step does -/

section
variable {hy : 0 < ny} {hx : 0 < nx} {lr tb : Bool} {a : Par} {g : D8Vars ny nx} {dtArg : ℝ}
  {s s' : St ny nx}

theorem checkFinished_keeps {s s' : St ny nx} (h : checkFinished a s = .ok s') :
    s'.z = s.z ∧ s'.dt = s.dt ∧ s'.time = s.time ∧ s'.timeIndex = s.timeIndex ∧
    s'.dzMax = s.dzMax ∧ s'.dzMaxVec = s.dzMaxVec ∧ s'.volR = s.volR ∧ s'.volU = s.volU := by
  unfold checkFinished at h
  split_ifs at h <;> cases h <;> simp

theorem stability_keeps (s : St ny nx) :
    (checkStability s).z = s.z ∧ (checkStability s).dt = s.dt ∧
    (checkStability s).time = s.time ∧ (checkStability s).timeIndex = s.timeIndex ∧
    (checkStability s).dzMax = s.dzMax ∧ (checkStability s).dzMaxVec = s.dzMaxVec ∧
    (checkStability s).volR = s.volR ∧ (checkStability s).volU = s.volU := by
  unfold checkStability
  split_ifs <;> simp

/-- What is known about a completed step. -/
structure Done (hy : 0 < ny) (hx : 0 < nx) (lr tb : Bool) (a : Par) (g : D8Vars ny nx) (dtArg : ℝ)
    (s s' : St ny nx) (S : Cell ny nx → ℝ) : Prop where
  slope : slopeGrid hy hx lr tb s.z g.ds g.codes = .ok S
  dt : timeStep hy hx lr tb a g.codes s.z (qsGrid a (qGrid a g.A) S) = .ok s'.dt
  z : ∀ c, s'.z c = s.z c +
    dzDt a g.net (baseIDs ny nx) (qsGrid a (qGrid a g.A) S) c * s'.dt
  dzMax : s'.dzMax = gridMax hy hx (fun c =>
    dzDt a g.net (baseIDs ny nx) (qsGrid a (qGrid a g.A) S) c * s'.dt)
  time : s'.time = if dtArg = -1 then s.time + s'.dt else s.time + dtArg
  index : s'.timeIndex = s.timeIndex + 1
  volR : s'.volR = s.volR
  volU : s'.volU = s.volU
  vec : if a.stopCode = 0 then pySet s.dzMaxVec ((s.timeIndex : ℤ) - 1) s'.dzMax = some s'.dzMaxVec
    else s'.dzMaxVec = s.dzMaxVec
  done : ∃ s1 s2 : St ny nx, s1.done = s.done ∧ s1.dzMax = s'.dzMax ∧ s1.dt = s'.dt ∧
    s1.time = s.time ∧ s1.timeIndex = s.timeIndex ∧
    updateTime a dtArg (checkStability s1) = .ok s2 ∧ checkFinished a s2 = .ok s'

theorem evolve_ok (h : evolve hy hx lr tb a g dtArg s = .ok s') :
    ∃ S, Done hy hx lr tb a g dtArg s s' S := by
  unfold evolve at h
  split at h
  · cases h
  · rename_i S hS
    dsimp only at h
    split at h
    · cases h
    · rename_i dtMin hdt
      split at h
      · cases h
      · rename_i s1 hs1
        split at h
        · cases h
        · rename_i s2 hs2
          have k3 := checkFinished_keeps h
          have k2 := checkFinished_keeps hs2
          have k1 := stability_keeps s1
          obtain ⟨z3, d3, t3, i3, m3, v3, r3, u3⟩ := k3
          obtain ⟨z2, d2, t2, i2, m2, v2, r2, u2⟩ := k2
          obtain ⟨z1, d1, t1, i1, m1, v1, r1, u1⟩ := k1
          dsimp only at z2 d2 t2 i2 m2 v2 r2 u2
          have key : s1.z = (fun c => s.z c + dzDt a g.net (baseIDs ny nx)
                (qsGrid a (qGrid a g.A) S) c * dtMin) ∧ s1.dt = dtMin ∧
              s1.time = s.time ∧ s1.timeIndex = s.timeIndex ∧
              s1.dzMax = gridMax hy hx (fun c => dzDt a g.net (baseIDs ny nx)
                (qsGrid a (qGrid a g.A) S) c * dtMin) ∧
              s1.volR = s.volR ∧ s1.volU = s.volU ∧ s1.done = s.done ∧
              (if a.stopCode = 0 then
                pySet s.dzMaxVec ((s.timeIndex : ℤ) - 1) s1.dzMax = some s1.dzMaxVec
                else s1.dzMaxVec = s.dzMaxVec) := by
            unfold updateDEM at hs1
            dsimp only at hs1
            split_ifs at hs1 with hc
            · split at hs1
              · cases hs1
              · rename_i v hv
                cases hs1
                simp [hc, hv]
            · cases hs1
              simp [hc]
          obtain ⟨kz, kd, kt, ki, km, kr, ku, kf, kv⟩ := key
          have hdt' : s'.dt = dtMin := by rw [d3, d2, d1, kd]
          refine ⟨S, hS, ?_, ?_, ?_, ?_, ?_, ?_, ?_, ?_, s1, s2, kf, ?_, ?_, kt, ki, hs2, h⟩
          · rw [hdt', hdt]
          · intro c; rw [z3, z2, z1, kz, hdt']
          · rw [m3, m2, m1, km, hdt']
          · rw [t3, t2, t1, d1, kd, kt, hdt']
          · rw [i3, i2, i1, ki]
          · rw [r3, r2, r1, kr]
          · rw [u3, u2, u1, ku]
          · rw [m3, m2, m1, v3, v2, v1]; exact kv
          · rw [m3, m2, m1]
          · rw [d3, d2, d1]

/-- The rate of change of elevation, cell by cell. -/
theorem dzDt_eq {codes : Cell ny nx → ℤ} {net : Chan.Net ny nx} (hg : Chan.GoodNet codes net)
    (hy : 1 ≤ ny) (hx : 1 ≤ nx) (a : Par) (Qs : Cell ny nx → ℝ) (c : Cell ny nx) :
    (OnBorder c → dzDt a net (baseIDs ny nx) Qs c = -(a.BLR / 1000)) ∧
    (¬ OnBorder c → dzDt a net (baseIDs ny nx) Qs c =
      a.U / 1000 + ChanSpec.inflow codes (fun e => Qs e / a.da) c - Qs c / a.da) := by
  have hb := (C108_base_cells hy hx).2.1 c
  unfold dzDt setBase
  dsimp only
  constructor
  · intro h
    rw [if_pos (hb.2 h)]
    rfl
  · intro h
    rw [if_neg (fun h' => h (hb.1 h')), Chan.fold_inflow hg]
    simp only [Par.Umpyr, mmPerM]
    ring

end

/-! ## C109: the time step -/

section
variable {hy : 0 < ny} {hx : 0 < nx} {cfg : D8.Config ℝ} {z : Cell ny nx → ℝ} {g : D8Vars ny nx}
  {a : Par} {Qs : Cell ny nx → ℝ}

theorem gridMin_le (f : Cell ny nx → ℝ) (c : Cell ny nx) : gridMin hy hx f ≤ f c :=
  Finset.inf'_le f (Finset.mem_univ c)

theorem gridMin_mem (f : Cell ny nx → ℝ) : ∃ c, gridMin hy hx f = f c := by
  obtain ⟨c, _, h⟩ := Finset.exists_mem_eq_inf' (s := Finset.univ)
    ⟨((⟨0, hy⟩, ⟨0, hx⟩) : Cell ny nx), Finset.mem_univ _⟩ f
  exact ⟨c, h⟩

theorem le_gridMax (f : Cell ny nx → ℝ) (c : Cell ny nx) : f c ≤ gridMax hy hx f :=
  Finset.le_sup' f (Finset.mem_univ c)

theorem gridMax_mem (f : Cell ny nx → ℝ) : ∃ c, gridMax hy hx f = f c := by
  obtain ⟨c, _, h⟩ := Finset.exists_mem_eq_sup' (s := Finset.univ)
    ⟨((⟨0, hy⟩, ⟨0, hx⟩) : Cell ny nx), Finset.mem_univ _⟩ f
  exact ⟨c, h⟩

theorem dtLimit_pos : (0:ℝ) < dtLimit := by norm_num [dtLimit]

theorem flat_eq_zero {e : Cell ny nx} :
    ((e.1.val : ℤ) * nx + e.2.val = 0) ↔ e = corner hy hx := by
  constructor
  · intro h
    have h2 : e.2.val = 0 := by
      have : (0:ℤ) ≤ (e.1.val : ℤ) * nx := by positivity
      omega
    have h1 : e.1.val = 0 := by
      have h0 : (e.1.val : ℤ) * nx = 0 := by omega
      rcases mul_eq_zero.1 h0 with h | h
      · exact_mod_cast h
      · exact absurd h (by exact_mod_cast hx.ne')
    ext
    · exact h1
    · exact h2
  · rintro rfl
    simp [corner]

/-- The time step grid: unlimited without a flow direction and where the downstream cell is the
upper left corner; elsewhere the limit of the cell. -/
theorem dtCell_eq (h : OfDEM hy hx cfg z g) (c : Cell ny nx) :
    (g.codes c = 0 → dtCell hy hx false false a g.codes z Qs c = dtLimit) ∧
    (∀ e, FlowsTo g.codes c e →
      dtCell hy hx false false a g.codes z Qs c =
        if e = corner hy hx then dtLimit
        else if 0 < Qs c then a.cfl * (a.da / 2 * (z c - z e) / Qs c) else 0) := by
  constructor
  · intro h0
    unfold dtCell
    simp [h.noparent h0]
  · intro e hf
    have hp := h.parent hf
    have hd := h.downhill hf
    unfold dtCell
    simp only [hp.1, hp.2, flat_eq_zero (hy := hy) (hx := hx)]
    rw [if_neg (by linarith : ¬ z c - z e < 0)]

/-- **C109 (limit, part).** In every completed step the time step is positive, and a cell that does
not drain directly into the upper left corner of the grid delivers to its downstream cell at most
the fraction `CFL_factor` of half the volume by which it stands above it. -/
theorem C109_step_limit_partial (h : OfDEM hy hx cfg z g) {dt : ℝ}
    (ht : timeStep hy hx false false a g.codes z Qs = .ok dt) :
    0 < dt ∧ ∀ c e, FlowsTo g.codes c e → e ≠ corner hy hx →
      0 < Qs c ∧ Qs c * dt ≤ a.cfl * (a.da * (z c - z e) / 2) := by
  unfold timeStep at ht
  dsimp only at ht
  split_ifs at ht with hle
  cases ht
  push Not at hle
  refine ⟨hle, fun c e hf he => ?_⟩
  have h1 := gridMin_le (hy := hy) (hx := hx) (dtCell hy hx false false a g.codes z Qs) c
  have h2 := (dtCell_eq (a := a) (Qs := Qs) h c).2 e hf
  rw [if_neg he] at h2
  split_ifs at h2 with hq
  · refine ⟨hq, ?_⟩
    rw [h2] at h1
    calc Qs c * gridMin hy hx (dtCell hy hx false false a g.codes z Qs)
        ≤ Qs c * (a.cfl * (a.da / 2 * (z c - z e) / Qs c)) :=
          mul_le_mul_of_nonneg_left h1 hq.le
      _ = a.cfl * (a.da * (z c - z e) / 2) := by field_simp
  · rw [h2] at h1
    exact absurd hle (not_lt.2 h1)

/-- **C109 (no inversion, part).** With a factor of at most one, the exchange between a cell and its
downstream cell alone cannot raise the downstream cell above it. -/
theorem C109_no_inversion_partial (h : OfDEM hy hx cfg z g) (ha : 0 < a.da) (hc : a.cfl ≤ 1) {dt : ℝ}
    (ht : timeStep hy hx false false a g.codes z Qs = .ok dt) (c e : Cell ny nx)
    (hf : FlowsTo g.codes c e) (he : e ≠ corner hy hx) :
    z e + Qs c / a.da * dt ≤ z c - Qs c / a.da * dt := by
  have h1 := ((C109_step_limit_partial h ht).2 c e hf he).2
  have hd := sub_pos.2 (h.downhill hf)
  have h2 : Qs c * dt ≤ a.da * (z c - z e) / 2 :=
    h1.trans (by nlinarith [mul_pos ha hd])
  have h3 : Qs c / a.da * dt ≤ (z c - z e) / 2 := by
    rw [div_mul_eq_mul_div, div_le_iff₀ ha]
    linarith
  linarith

/-- **C109 (stops).** A step stops the program exactly when some cell that drains into a cell other
than the upper left corner has no sediment discharge, or the factor is not positive. -/
theorem C109_stops_iff (h : OfDEM hy hx cfg z g) (ha : 0 < a.da) :
    timeStep hy hx false false a g.codes z Qs = .error "SystemExit" ↔
      ∃ c e, FlowsTo g.codes c e ∧ e ≠ corner hy hx ∧ (Qs c ≤ 0 ∨ a.cfl ≤ 0) := by
  unfold timeStep
  dsimp only
  constructor
  · intro ht
    split_ifs at ht with hle
    obtain ⟨c, hc⟩ := gridMin_mem (hy := hy) (hx := hx) (dtCell hy hx false false a g.codes z Qs)
    rw [hc] at hle
    rcases h.cases c with h0 | ⟨e, hf⟩
    · rw [(dtCell_eq h c).1 h0] at hle
      exact absurd hle (not_le.2 dtLimit_pos)
    · refine ⟨c, e, hf, ?_⟩
      rw [(dtCell_eq h c).2 e hf] at hle
      split_ifs at hle with h1 h2
      · exact absurd hle (not_le.2 dtLimit_pos)
      · refine ⟨h1, Or.inr ?_⟩
        by_contra hcf
        push Not at hcf
        have hd := sub_pos.2 (h.downhill hf)
        have : 0 < a.cfl * (a.da / 2 * (z c - z e) / Qs c) := by positivity
        linarith
      · exact ⟨h1, Or.inl (not_lt.1 h2)⟩
  · rintro ⟨c, e, hf, he, hq⟩
    rw [if_pos]
    refine (gridMin_le (hy := hy) (hx := hx) _ c).trans ?_
    rw [(dtCell_eq h c).2 e hf, if_neg he]
    split_ifs with h1
    · rcases hq with hq | hq
      · exact absurd h1 (not_lt.2 hq)
      · have hd := sub_pos.2 (h.downhill hf)
        have : 0 < a.da / 2 * (z c - z e) / Qs c := by positivity
        nlinarith
    · exact le_rfl

/-- **C109 (no rain).** Without rain the program stops instead of taking a step in which nothing is
transported (as soon as one cell drains anywhere but into the corner). -/
theorem C109_no_rain_stops {s : St ny nx} (h : OfDEM hy hx cfg s.z g) (ha : 0 < a.da)
    (hR : a.R = 0) (hm : a.m ≠ 0) {c e : Cell ny nx} (hf : FlowsTo g.codes c e)
    (he : e ≠ corner hy hx) (dtArg : ℝ) :
    evolve hy hx false false a g dtArg s = .error "SystemExit" := by
  obtain ⟨S, hS, _⟩ := C107_slope h
  have hq : ∀ c, qsGrid a (qGrid a g.A) S c = 0 := by
    intro c
    have : qGrid a g.A c = 0 := by unfold qGrid; simp [hR]
    unfold qsGrid
    simp [this, Real.zero_rpow hm]
  have := (C109_stops_iff (a := a) (Qs := qsGrid a (qGrid a g.A) S) h ha).2
    ⟨c, e, hf, he, Or.inl (hq c).le⟩
  unfold evolve
  rw [hS]
  dsimp only
  rw [this]

end

/-- D8 variables exist for every elevation grid: the hypotheses of the theorems are met. -/
theorem exists_ofDEM (hy : 0 < ny) (hx : 0 < nx) (cfg : D8.Config ℝ) (hp : cfg.Pos)
    (h1 : cfg.linkFlats = false) (h2 : cfg.breakTies = true) (h3 : cfg.lrPeriodic = false)
    (h4 : cfg.tbPeriodic = false) (z ds A : Cell ny nx → ℝ) (hds : ∀ c, 0 < ds c)
    (hA : ∀ c, 0 ≤ A c) :
    ∃ g, OfDEM hy hx cfg z g ∧ g.ds = ds ∧ g.A = A := by
  obtain ⟨codes, hc⟩ := D8.C05_update_flow_grid_terminates cfg z
  have hcorner : codes (corner hy hx) = 0 := by
    have hu := hc
    unfold D8.updateFlowGrid at hu
    simp only [h1, h2, Bool.false_eq_true, if_false, if_true, Option.map_some,
      Option.some.injEq] at hu
    rw [← hu]
    have : D8.startCode cfg z (corner hy hx) = 0 := by
      unfold D8.startCode
      simp [h4, corner, D8.onTB]
    simp only [D8.breakTies, this, lt_irrefl, if_false]
    decide
  obtain ⟨l, hl⟩ : ∃ l, D8.noflowIDs codes = some l := by
    cases hn : D8.noflowIDs codes with
    | none => exact absurd hcorner ((D8.C03_noflow_ids hc).1.1 hn _).ne'
    | some l => exact ⟨l, rfl⟩
  have hnet : ∃ net, Chan.d8Net hy hx false false codes = some net := by
    unfold Chan.d8Net
    rw [hl]
    exact ⟨_, rfl⟩
  obtain ⟨net, hnet⟩ := hnet
  exact ⟨⟨codes, net, ds, A⟩, ⟨hp, h1, h2, h3, h4, ⟨_, hc⟩, hnet, fun c _ => hds c, hA⟩, rfl, rfl⟩

/-- A configuration with square cells of one metre. -/
def unitCfg : D8.Config ℝ :=
  { dx := 1, dy := 1, dd := 3 / 2, nodata := -9999, linkFlats := false, breakTies := true,
    lrPeriodic := false, tbPeriodic := false }

theorem unitCfg_pos : unitCfg.Pos :=
  ⟨by norm_num [unitCfg], by norm_num [unitCfg], by norm_num [unitCfg]⟩

theorem centre_only : ∀ c : Cell 3 3, ¬ OnBorder c ↔ c = (1, 1) := by
  intro c
  unfold OnBorder
  revert c
  decide

/-- On a 3×3 grid whose centre has exactly one lower neighbour, the centre drains there. -/
theorem centre_flows {z : Cell 3 3 → ℝ} {g : D8Vars 3 3}
    (h : OfDEM (by omega) (by omega) unitCfg z g) (e : Cell 3 3) (hz : -9999 < z (1, 1))
    (he : z e < z (1, 1)) (hne : e ≠ (1, 1)) (hall : ∀ e', e' ≠ e → z (1, 1) ≤ z e') :
    FlowsTo g.codes (1, 1) e := by
  obtain ⟨f, hu⟩ := h.codes
  have hn : ∃ k, IsNbr k ((1, 1) : Cell 3 3) e := by
    have : ∀ e : Cell 3 3, e ≠ (1, 1) → ∃ k, D8.nbr k ((1, 1) : Cell 3 3) = e := by decide
    obtain ⟨k, hk⟩ := this e hne
    exact ⟨k, by rw [← hk]; exact D8.isNbr_nbr k _⟩
  obtain ⟨k, hk⟩ := hn
  obtain ⟨k', e', h1, h2, h3, _⟩ := D8.C04_steepest_descent unitCfg_pos hu rfl (1, 1) hz
    ((centre_only _).2 rfl) ⟨k, e, hk, he⟩
  have : e' = e := by
    by_contra hne'
    exact absurd h3 (not_lt.2 (hall e' hne'))
  subst this
  exact ⟨k', h1, h2⟩

/-- A 3×3 DEM whose centre (at 1 m) drains into the upper left corner (at 0 m). -/
def cornerDEM : Cell 3 3 → ℝ := fun c => if c = (0, 0) then 0 else if c = (1, 1) then 1 else 2

/-- **C109 (violated).** The limit fails for a cell that drains into the upper left corner: on this
DEM, whatever the sediment discharge, the time step is 10^20 years. -/
theorem C109_corner_violated {g : D8Vars 3 3}
    (h : OfDEM (by omega) (by omega) unitCfg cornerDEM g) (a : Par) (Qs : Cell 3 3 → ℝ) :
    FlowsTo g.codes (1, 1) (0, 0) ∧
    timeStep (by omega) (by omega) false false a g.codes cornerDEM Qs = .ok (10 ^ 20) := by
  have hf : FlowsTo g.codes (1, 1) (0, 0) := by
    refine centre_flows h (0, 0) ?_ ?_ (by decide) ?_
    · norm_num [cornerDEM]
    · norm_num [cornerDEM]
    · intro e' he'
      unfold cornerDEM
      rw [if_neg he']
      split_ifs <;> norm_num at *
  refine ⟨hf, ?_⟩
  have hall : ∀ c, dtCell (by omega) (by omega) false false a g.codes cornerDEM Qs c = dtLimit := by
    intro c
    by_cases hb : OnBorder c
    · exact (dtCell_eq h c).1 (h.border hb)
    · rw [(centre_only c).1 hb, (dtCell_eq h (1, 1)).2 (0, 0) hf, if_pos]
      rfl
  obtain ⟨c, hc⟩ := gridMin_mem (hy := (by omega : 0 < 3)) (hx := (by omega : 0 < 3))
    (dtCell (by omega) (by omega) false false a g.codes cornerDEM Qs)
  unfold timeStep
  dsimp only
  rw [hc, hall c, if_neg (not_le.2 dtLimit_pos)]
  rfl

example : ∃ g, OfDEM (by omega) (by omega) unitCfg cornerDEM g := by
  obtain ⟨g, h, _⟩ := exists_ofDEM (by omega) (by omega) unitCfg unitCfg_pos rfl rfl rfl rfl
    cornerDEM (fun _ => 1) (fun _ => 1) (by simp) (by simp)
  exact ⟨g, h⟩

end Erode
