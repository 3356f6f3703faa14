import Verif.RechargeModel
import Verif.SatzoneProps
import Mathlib.Tactic.Positivity

/-!
# C250: uniform and gridded recharge; C251: rain enters the model once
-/

set_option autoImplicit false

/-! ## Specification -/
noncomputable section

namespace RechargeSpec

open D8 (Cell)
open ChanSpec (inflow)

variable {ny nx : ℕ}

/-- The net inflow of a cell: recharge and the flow from the cells that flow into it, less its own flow. -/
def netInflow (codes : Cell ny nx → ℤ) (dt : ℝ) (area rate Q : Cell ny nx → ℝ) (c : Cell ny nx) : ℝ :=
  (rate c * area c + inflow codes Q c - Q c) * dt

end RechargeSpec

namespace Recharge

open D8 (Cell)
open Chan (Net fancyAdd)
open ChanSpec (inflow IsDemNet)
open RechargeSpec

variable {ny nx : ℕ}

lemma mul_at (a b : Val ny nx) (c : Cell ny nx) : (a.mul b).at c = a.at c * b.at c := by
  cases a <;> cases b <;> rfl

/-- Whether a variable is a number. -/
def Val.IsNum : Val ny nx → Prop
  | .num _ => True
  | .grid _ => False

lemma addDirs_grid (dt : ℝ) (Q : Cell ny nx → ℝ) (net : Net ny nx) (ks : List (Fin 8))
    (v : Cell ny nx → ℝ) :
    addDirs dt Q net ks (.grid v) = .ok (.grid (ks.foldl
      (fun v k => fancyAdd v ((net.w k).map net.parent) ((net.w k).map (fun e => dt * Q e))) v)) := by
  induction ks generalizing v with
  | nil => rfl
  | cons k ks ih =>
    unfold addDirs addDir
    dsimp only
    rw [ih]
    rfl

lemma addDirs_num (dt : ℝ) (Q : Cell ny nx → ℝ) (net : Net ny nx) (ks : List (Fin 8)) (x : ℝ) :
    addDirs dt Q net ks (.num x) =
      if ∀ k ∈ ks, net.w k = [] then .ok (.num x) else .error "IndexError" := by
  induction ks with
  | nil => simp [addDirs]
  | cons k ks ih =>
    unfold addDirs addDir
    dsimp only
    by_cases hk : net.w k = []
    · rw [if_pos hk]
      dsimp only
      rw [ih]
      by_cases h : ∀ j ∈ ks, net.w j = []
      · rw [if_pos h, if_pos (by simpa [hk] using h)]
      · rw [if_neg h, if_neg (by simpa [hk] using h)]
    · rw [if_neg hk, if_neg (by simp [hk])]

lemma volumeChange_num (dt x y : ℝ) (Q : Cell ny nx → ℝ) (net : Net ny nx) :
    volumeChange dt (.num y) (.num x) Q net =
      if ∀ k ∈ List.finRange 8, net.w k = [] then .ok (fun c => x * y * dt - Q c * dt)
      else .error "IndexError" := by
  unfold volumeChange
  simp only [Val.mul]
  rw [addDirs_num]
  by_cases h : ∀ k ∈ List.finRange 8, net.w k = []
  · rw [if_pos h, if_pos h]; rfl
  · rw [if_neg h, if_neg h]

/-- No cell has a flow direction exactly if no direction occurs. -/
lemma no_flow_iff {codes : Cell ny nx → ℤ} {net : Net ny nx} (hd : IsDemNet codes net) :
    (∀ k ∈ List.finRange 8, net.w k = []) ↔ ∀ c, codes c = 0 := by
  have hg := Chan.IsDemNet.good hd
  constructor
  · intro h c
    rcases hg.valid c with h0 | ⟨e, he⟩
    · exact h0
    · obtain ⟨k, hk, -⟩ := (hg.flow c e).1 he
      rw [h k (List.mem_finRange k)] at hk
      cases hk
  · intro h k _
    rw [List.eq_nil_iff_forall_not_mem]
    intro e he
    exact Chan.noflow_not_flows (h e) (net.parent e) ((hg.flow e _).2 ⟨k, he, rfl⟩)

/-- C250 (exactly when it works): the net inflow is computed, and is right in every cell, exactly if the
recharge rate or the cell area is a grid, or no cell has a flow direction; otherwise IndexError is
raised. -/
theorem C250_net_inflow_partial {codes : Cell ny nx → ℤ} {net : Net ny nx} (hd : IsDemNet codes net)
    (dt : ℝ) (da Rg : Val ny nx) (Q : Cell ny nx → ℝ) :
    ((¬ Rg.IsNum ∨ ¬ da.IsNum ∨ ∀ c, codes c = 0) →
      volumeChange dt da Rg Q net = .ok (netInflow codes dt da.at Rg.at Q)) ∧
    (Rg.IsNum → da.IsNum → (∃ c, codes c ≠ 0) → volumeChange dt da Rg Q net = .error "IndexError") := by
  have hgrid : ∀ v0 : Cell ny nx → ℝ, (Rg.mul da).mul (.num dt) = .grid v0 →
      volumeChange dt da Rg Q net = .ok (netInflow codes dt da.at Rg.at Q) := by
    intro v0 h0
    unfold volumeChange
    rw [h0, addDirs_grid]
    dsimp only
    congr 1
    funext c
    have e := Satzone.C59_cell hd dt da.at Rg.at Q c
    have hv : v0 = fun c => Rg.at c * da.at c * dt := by
      funext c
      have : (Val.grid v0).at c = ((Rg.mul da).mul (.num dt)).at c := by rw [h0]
      rw [mul_at, mul_at] at this
      exact this
    rw [hv]
    dsimp only [Val.at]
    unfold netInflow
    rw [← e]
    rfl
  constructor
  · intro h
    cases Rg with
    | grid f =>
      cases da with
      | grid g => exact hgrid _ rfl
      | num y => exact hgrid _ rfl
    | num x =>
      cases da with
      | grid g => exact hgrid _ rfl
      | num y =>
        have h0 : ∀ c, codes c = 0 := by
          rcases h with h | h | h
          · exact absurd trivial h
          · exact absurd trivial h
          · exact h
        rw [volumeChange_num, if_pos ((no_flow_iff hd).2 h0)]
        congr 1
        funext c
        have : inflow codes Q c = 0 := by
          unfold inflow
          classical
          refine Finset.sum_eq_zero fun e he => ?_
          have hf : D8Spec.FlowsTo codes e c := by simpa using he
          exact absurd hf (Chan.noflow_not_flows (h0 e) c)
        unfold netInflow
        rw [this]
        simp only [Val.at]
        ring
  · intro h1 h2 h3
    cases Rg with
    | grid f => exact absurd h1 id
    | num x =>
      cases da with
      | grid g => exact absurd h2 id
      | num y =>
        rw [volumeChange_num, if_neg]
        intro h
        obtain ⟨c, hc⟩ := h3
        exact hc ((no_flow_iff hd).1 h c)

/-- C250 with the cell areas of the grid: a gridded recharge rate works for both kinds of cells, a
uniform one for cells of fixed angles; the area of a cell is its width times its height (for cells of
fixed length all rows have the same). -/
theorem C250_cells_partial {codes : Cell ny nx → ℤ} {net : Net ny nx} (hd : IsDemNet codes net)
    (dt : ℝ) (fixed : Bool) (hy : 0 < ny) (dx dy : Fin ny → ℝ) (Rg : Val ny nx)
    (Q : Cell ny nx → ℝ) (hrows : fixed = true → ∀ i j, dx i = dx j ∧ dy i = dy j)
    (hok : fixed = false ∨ ¬ Rg.IsNum) :
    volumeChange dt (cellArea fixed hy dx dy) Rg Q net =
      .ok (netInflow codes dt (fun c => dx c.1 * dy c.1) Rg.at Q) := by
  have e : (cellArea fixed hy dx dy : Val ny nx).at = fun c => dx c.1 * dy c.1 := by
    funext c
    cases fixed
    · rfl
    · obtain ⟨h1, h2⟩ := hrows rfl ⟨0, hy⟩ c.1
      show dx ⟨0, hy⟩ * dy ⟨0, hy⟩ = _
      rw [h1, h2]
  rw [← e]
  refine (C250_net_inflow_partial hd dt _ Rg Q).1 ?_
  rcases hok with h | h
  · subst h
    exact .inr (.inl id)
  · exact .inl h

/-- C250 does not hold for grids with fixed-length cells and a uniform recharge rate, such as the rate zero
of an infiltration component that is disabled: whenever some cell has a flow direction, IndexError is
raised. -/
theorem C250_uniform_violated {codes : Cell ny nx → ℤ} {net : Net ny nx} (hd : IsDemNet codes net)
    (hc : ∃ c, codes c ≠ 0) (dt rate : ℝ) (hy : 0 < ny) (dx dy : Fin ny → ℝ) (Q : Cell ny nx → ℝ) :
    volumeChange dt (cellArea true hy dx dy) (infilRg (.num rate)) Q net = .error "IndexError" :=
  (C250_net_inflow_partial hd dt _ _ Q).2 trivial trivial hc

/-- C250 (attenuating component): it works exactly if the rain or the cell area is a grid, and then its
recharge rate is the rain. -/
theorem C250_attenuate_partial {codes : Cell ny nx → ℤ} {net : Net ny nx} (hd : IsDemNet codes net)
    (dt : ℝ) (da Rg P : Val ny nx) (Q : Cell ny nx → ℝ) (hc : ∃ c, codes c ≠ 0) :
    ((¬ P.IsNum ∨ ¬ da.IsNum) →
      volumeChangeAttenuate dt da Rg P Q net = .ok (netInflow codes dt da.at P.at Q)) ∧
    (P.IsNum ∧ da.IsNum → volumeChangeAttenuate dt da Rg P Q net = .error "IndexError") := by
  obtain ⟨a, b⟩ := C250_net_inflow_partial hd dt da (attenuateRg P) Q
  have e : (attenuateRg P).at = P.at := by
    funext c
    unfold attenuateRg
    rw [mul_at]
    exact mul_one _
  have en : (attenuateRg P).IsNum ↔ P.IsNum := by cases P <;> exact Iff.rfl
  unfold volumeChangeAttenuate
  constructor
  · intro h
    rw [a (h.elim (fun h => .inl (fun h' => h (en.1 h'))) (fun h => .inr (.inl h))), e]
  · rintro ⟨h1, h2⟩
    exact b (en.2 h1) h2 hc

/-! ### C251 -/

/-- C251 (infiltration methods other than Richards'): the rain and snowmelt of a time step, less
evaporation, are what the surface and the groundwater get together. -/
theorem C251_once_partial (P SM GW MR ET : ℝ) (IN : Val ny nx) (c : Cell ny nx) :
    excess P SM GW MR ET (IN.at c) + (infilRg IN).at c = P + SM + GW + MR - ET := by
  unfold excess infilRg
  ring

/-- C251 does not hold with the attenuating groundwater component: the surface and the groundwater get the
rain together once too often, less what infiltrates.  Without infiltration all rain counts twice. -/
theorem C251_attenuate_violated (P IN : Val ny nx) (SM GW MR ET : ℝ) (c : Cell ny nx) :
    excess (P.at c) SM GW MR ET (IN.at c) + (attenuateRg P).at c =
      (P.at c + SM + GW + MR - ET) + (P.at c - IN.at c) ∧
    (excess (P.at c) SM GW MR ET (IN.at c) + (attenuateRg P).at c = P.at c + SM + GW + MR - ET ↔
      IN.at c = P.at c) := by
  have e : (attenuateRg P).at c = P.at c := by
    unfold attenuateRg
    rw [mul_at]
    exact mul_one _
  rw [e]
  unfold excess
  constructor
  · ring
  · constructor <;> intro h <;> linarith

/-! ### A concrete case -/

/-- The hypotheses are met: the DEM with elevations 0, 1, 2 in its rows has a network in which the cell in
the middle has a flow direction. -/
example : ∃ codes net, IsDemNet (ny := 3) (nx := 3) codes net ∧ ∃ c, codes c ≠ 0 := by
  have hpos : (⟨1, 1, 1, -9999, true, true, false, false⟩ : D8.Config ℝ).Pos := by
    constructor <;> norm_num
  obtain ⟨codes, hc⟩ := D8.C05_update_flow_grid_terminates
    (⟨1, 1, 1, -9999, true, true, false, false⟩ : D8.Config ℝ) (fun c : Cell 3 3 => (c.1.val : ℝ))
  have h := (D8.C03_noflow_ids hc).2.2 rfl (by norm_num) (by norm_num)
  obtain ⟨l, hl⟩ := Option.ne_none_iff_exists'.1 h
  refine ⟨codes, _, ⟨_, _, _, by norm_num, by norm_num, hc, by unfold Chan.d8Net; rw [hl]; rfl⟩, (1, 1), ?_⟩
  obtain ⟨k, e, hk, -⟩ := D8.C04_steepest_descent hpos hc rfl (1, 1) (by norm_num)
    (by simp [D8Spec.OnBorder]) ⟨7, (0, 1), by constructor <;> decide, by norm_num⟩
  rw [hk]
  positivity

/-- A recharge grid on cells of 100 square metres: the net inflow is computed. -/
example {codes : Cell 3 3 → ℤ} {net : Net 3 3} (hd : IsDemNet codes net) (f Q : Cell 3 3 → ℝ) :
    volumeChange 60 (.num 100) (.grid f) Q net = .ok (netInflow codes 60 (fun _ => 100) f Q) :=
  (C250_net_inflow_partial hd 60 (.num 100) (.grid f) Q).1 (.inl id)

end Recharge

end
