import Verif.GlacierModel
import Verif.SnowProps
import Mathlib.Tactic.NormNum
import Mathlib.Data.Rat.Cast.Order

/-!
# Totals and depths of the glacier component: properties C200-C202
-/

set_option autoImplicit false
set_option linter.unusedSectionVars false

namespace Snow

variable {K C : Type} [Field K] [LinearOrder K] [IsStrictOrderedRing K] [Fintype C]

/-- The density of snow does not vary in time. -/
def fixedDensity (cfg : GConfig K C) : Prop :=
  cfg.rho_snow_type.toLower = "scalar" ∨ cfg.rho_snow_type.toLower = "grid"

theorem gUpdate_fixed {cfg : GConfig K C} (hd : fixedDensity cfg) (da : C → K) (dt rhoLf : K) (i : GInp K C)
    (g : GComp K C) :
    gUpdate cfg da dt rhoLf i g = .ok { g with st := gStep (gParams cfg da dt rhoLf) i g.st } := if_pos hd

theorem gUpdate_varying {cfg : GConfig K C} (hd : ¬ fixedDensity cfg) (da : C → K) (dt rhoLf : K) (i : GInp K C)
    (g : GComp K C) : gUpdate cfg da dt rhoLf i g = .error "AttributeError: density_ratio" := if_neg hd

theorem gUpdates_fixed (cfg : GConfig K C) (da : C → K) (dt rhoLf : K) (hd : fixedDensity cfg) :
    ∀ (is : List (GInp K C)) (g : GComp K C),
      gUpdates cfg da dt rhoLf is g = .ok { g with st := gRun (gParams cfg da dt rhoLf) g.st is }
  | [], g => rfl
  | i :: is, g => by
    simp only [gUpdates, gUpdate_fixed hd]
    exact gUpdates_fixed cfg da dt rhoLf hd is _

theorem gRun_melt (p : GParams K C) : ∀ (is : List (GInp K C)) (s : GSt K C),
    (gRun p s is).vol_SM = s.vol_SM +
        ((List.range is.length).map fun n => ∑ c, (gRun p s (is.take (n + 1))).SM c * p.da c * p.dt).sum ∧
      (gRun p s is).vol_IM = s.vol_IM +
        ((List.range is.length).map fun n => ∑ c, (gRun p s (is.take (n + 1))).IM c * p.da c * p.dt).sum
  | [], s => by simp [gRun]
  | i :: is, s => by
    obtain ⟨h1, h2⟩ := gRun_melt p is (gStep p i s)
    simp only [gRun, h1, h2, List.length_cons, List.range_succ_eq_map, List.map_cons, List.map_map, List.sum_cons,
      Function.comp_def, List.take_succ_cons, List.take_zero]
    constructor
    · show s.vol_SM + ∑ c, (gStep p i s).SM c * p.da c * p.dt + _ = _
      rw [add_assoc]
    · show s.vol_IM + ∑ c, (gStep p i s).IM c * p.da c * p.dt + _ = _
      rw [add_assoc]

/-- **C200** In every run with a density of snow that is fixed in time the two melt totals are the sums, over the
updates, of the melt of the cells times their areas and the step; the initial totals are the initial storage. -/
theorem C200_melt_partial (cfg : GConfig K C) (da : C → K) (dt rhoLf : K) (hd : fixedDensity cfg)
    (is : List (GInp K C)) :
    ∃ g : ℕ → GComp K C, g 0 = gInit cfg da ∧
      (∀ n ≤ is.length, gUpdates cfg da dt rhoLf (is.take n) (gInit cfg da) = .ok (g n)) ∧
      ∀ n ≤ is.length,
        (g n).st.vol_SM = ((List.range n).map fun k => ∑ c, (g (k + 1)).st.SM c * da c * dt).sum ∧
        (g n).st.vol_IM = ((List.range n).map fun k => ∑ c, (g (k + 1)).st.IM c * da c * dt).sum ∧
        (g n).vol_swe_start = ∑ c, cfg.h0_swe c * da c ∧ (g n).vol_iwe_start = ∑ c, cfg.h0_iwe c * da c := by
  refine ⟨fun n => { gInit cfg da with st := gRun (gParams cfg da dt rhoLf) (gInit cfg da).st (is.take n) }, ?_, ?_, ?_⟩
  · simp [gRun]
  · intro n _
    exact gUpdates_fixed cfg da dt rhoLf hd _ _
  · intro n hn
    obtain ⟨h1, h2⟩ := gRun_melt (gParams cfg da dt rhoLf) (is.take n) (gInit cfg da).st
    rw [List.length_take, min_eq_left hn] at h1 h2
    have e : ∀ k < n, (is.take n).take (k + 1) = is.take (k + 1) := by
      intro k hk; rw [List.take_take, min_eq_left (by omega)]
    refine ⟨?_, ?_, rfl, rfl⟩
    · show (gRun (gParams cfg da dt rhoLf) (gInit cfg da).st (is.take n)).vol_SM = _
      rw [h1]
      show (0 : K) + _ = _
      rw [zero_add]
      congr 1
      refine List.map_congr_left fun k hk => ?_
      rw [e k (List.mem_range.1 hk)]
      rfl
    · show (gRun (gParams cfg da dt rhoLf) (gInit cfg da).st (is.take n)).vol_IM = _
      rw [h2]
      show (0 : K) + _ = _
      rw [zero_add]
      congr 1
      refine List.map_congr_left fun k hk => ?_
      rw [e k (List.mem_range.1 hk)]
      rfl

/-- **C200** The published totals of stored snow and ice stay at their initial values and the total melt at zero,
whatever falls and melts; so the report of the driver always shows no change of snow storage, while the true change is
the snow fallen minus the snow melted. -/
theorem C200_stale_violated (cfg : GConfig K C) (da : C → K) (dt rhoLf : K) (is : List (GInp K C)) (g : GComp K C)
    (h : gUpdates cfg da dt rhoLf is (gInit cfg da) = .ok g) :
    g.vol_swe = ∑ c, cfg.h0_swe c * da c ∧ g.vol_iwe = ∑ c, cfg.h0_iwe c * da c ∧ g.vol_M_total = 0 ∧
      reportedSnowChange g = 0 ∧
      (0 < dt → (∀ c, 0 ≤ cfg.h0_swe c) → (∀ c, 0 ≤ cfg.h0_iwe c) → (∀ j ∈ is, ∀ c, 0 ≤ j.P_snow c) →
        (∑ c, g.st.h_swe c * da c) - (∑ c, cfg.h0_swe c * da c) =
          (∑ c, (is.map (fun i => i.P_snow c * dt)).sum * da c) - g.st.vol_SM) := by
  have key : ∀ (is : List (GInp K C)) (g0 g : GComp K C), gUpdates cfg da dt rhoLf is g0 = .ok g →
      g = { g0 with st := gRun (gParams cfg da dt rhoLf) g0.st is } := by
    intro is
    induction is with
    | nil => intro g0 g h; simp only [gUpdates, Except.ok.injEq] at h; rw [← h]; rfl
    | cons i is ih =>
      intro g0 g h
      by_cases hd : fixedDensity cfg
      · simp only [gUpdates, gUpdate_fixed hd] at h
        rw [ih _ _ h]
        rfl
      · simp only [gUpdates, gUpdate_varying hd] at h
        exact absurd h (by simp)
  have e := key is _ _ h
  refine ⟨?_, ?_, ?_, ?_, ?_⟩
  · rw [e]; rfl
  · rw [e]; rfl
  · rw [e]; rfl
  · rw [e]; exact sub_self _
  · intro hdt h0 h1 hf
    have hc := (C52_glacier_conservation (gParams cfg da dt rhoLf) hdt (gInit cfg da).st h0 h1 is hf).1
    rw [e]
    have hz : (gInit cfg da).st.vol_SM = 0 := rfl
    rw [hz, add_zero] at hc
    have hc' : (∑ c, (gRun (gParams cfg da dt rhoLf) (gInit cfg da).st is).h_swe c * da c) +
        (gRun (gParams cfg da dt rhoLf) (gInit cfg da).st is).vol_SM = (∑ c, cfg.h0_swe c * da c) +
        ∑ c, (is.map (fun i => i.P_snow c * dt)).sum * da c := hc
    show (∑ c, (gRun (gParams cfg da dt rhoLf) (gInit cfg da).st is).h_swe c * da c) - _ = _ -
      (gRun (gParams cfg da dt rhoLf) (gInit cfg da).st is).vol_SM
    linear_combination hc'

/-- **C201** The depths start as configured, with a cold content of `rho Cp h (T0 - T)` where this is positive and zero
elsewhere (for ice, over the active layer); after every update the depth of snow is its water equivalent times the ratio
of the densities of water and snow, and likewise for ice, whatever the configured depths were. -/
theorem C201_depths (cfg : GConfig K C) (da : C → K) (dt rhoLf : K) (hd : fixedDensity cfg) (past : List (GInp K C))
    (i : GInp K C) (c : C) :
    ((gInit cfg da).st.h_snow c = cfg.h0_snow c ∧ (gInit cfg da).st.h_ice c = cfg.h0_ice c ∧
      (gInit cfg da).st.Eccs c = max (cfg.rho_snow c * cfg.Cp_snow * cfg.h0_snow c * (cfg.T0 c - cfg.T_surf c)) 0 ∧
      (gInit cfg da).st.Ecci c = max (cfg.rho_ice c * cfg.Cp_ice * cfg.h_active c * (cfg.T0 c - cfg.T_surf c)) 0) ∧
    ∃ g, gUpdates cfg da dt rhoLf (past ++ [i]) (gInit cfg da) = .ok g ∧
      g.st.h_snow c = g.st.h_swe c * (cfg.rho_H2O / cfg.rho_snow c) ∧
      g.st.h_ice c = g.st.h_iwe c * (cfg.rho_H2O / cfg.rho_ice c) ∧ 0 ≤ g.st.h_swe c ∧ 0 ≤ g.st.h_iwe c ∧
      g.st.M_total c = g.st.SM c + g.st.IM c := by
  refine ⟨⟨rfl, rfl, rfl, rfl⟩, _, gUpdates_fixed cfg da dt rhoLf hd _ _, ?_⟩
  have snoc : ∀ (l : List (GInp K C)) (s : GSt K C), gRun (gParams cfg da dt rhoLf) s (l ++ [i]) =
      gStep (gParams cfg da dt rhoLf) i (gRun (gParams cfg da dt rhoLf) s l) := by
    intro l
    induction l with
    | nil => intro s; rfl
    | cons j l ih => intro s; exact ih _
  simp only [snoc]
  exact ⟨rfl, rfl, le_max_right _ _, le_max_right _ _, add_comm _ _⟩

/-- **C201** Snow of the configured depth disappears from the depth at the first update when the configured water
equivalent is zero and no snow falls. -/
theorem C201_first_update (cfg : GConfig K C) (da : C → K) (dt rhoLf : K) (hd : fixedDensity cfg)
    (i : GInp K C) (c : C) (h0 : cfg.h0_swe c = 0) (hp : i.P_snow c = 0) :
    ∃ g, gUpdates cfg da dt rhoLf [i] (gInit cfg da) = .ok g ∧ g.st.h_snow c = 0 := by
  refine ⟨_, gUpdates_fixed cfg da dt rhoLf hd _ _, ?_⟩
  show max (cfg.h0_swe c + i.P_snow c * dt - max (min _ (cfg.h0_swe c / dt)) 0 * dt) 0 * _ = 0
  rw [h0, hp, zero_div]
  have : max (min (gMelt (gParams cfg da dt rhoLf) i (gInit cfg da).st.Eccs c) 0) 0 = 0 :=
    max_eq_right (min_le_right _ _)
  rw [this]
  simp

/-- **C202** A density of snow given as a scalar or a grid works for every number of updates. -/
theorem C202_density_partial (cfg : GConfig K C) (da : C → K) (dt rhoLf : K) (hd : fixedDensity cfg)
    (is : List (GInp K C)) : ∃ g, gUpdates cfg da dt rhoLf is (gInit cfg da) = .ok g :=
  ⟨_, gUpdates_fixed cfg da dt rhoLf hd _ _⟩

/-- **C202** A density of snow given as a time series or a grid sequence makes the first update fail. -/
theorem C202_violated (cfg : GConfig K C) (da : C → K) (dt rhoLf : K)
    (hd : cfg.rho_snow_type = "Time_Series" ∨ cfg.rho_snow_type = "Grid_Sequence") (i : GInp K C)
    (is : List (GInp K C)) : ∀ g, gUpdates cfg da dt rhoLf (i :: is) (gInit cfg da) ≠ .ok g := by
  intro g h
  have hn : ¬ fixedDensity cfg := by
    unfold fixedDensity
    rcases hd with hd | hd <;> rw [hd] <;> decide +kernel
  simp only [gUpdates, gUpdate_varying hn] at h
  exact absurd h (by simp)

/-- Non-vacuity: one cell of one square metre with 10 cm of snow water and 1 m of ice water. -/
def exConfig : GConfig ℚ Unit where
  h0_snow := fun _ => 1 / 3
  h0_swe := fun _ => 1 / 10
  h0_ice := fun _ => 1
  h0_iwe := fun _ => 917 / 1000
  rho_H2O := 1000
  rho_snow := fun _ => 300
  rho_ice := fun _ => 917
  Cp_snow := 2090
  Cp_ice := 2060
  T0 := fun _ => 0
  T_surf := fun _ => -1
  h_active := fun _ => 1 / 8
  rho_snow_type := "Scalar"

example : fixedDensity exConfig ∧ (gInit exConfig (fun _ => 1)).st.Eccs () = 209000 ∧
    (gStep (gParams exConfig (fun _ => 1) 1 334000000)
      ⟨fun _ => 1 / 100, fun _ => 334209000 / 100, fun _ => 0⟩ (gInit exConfig (fun _ => 1)).st).SM () =
        (334209000 / 100 - 209000) / 334000000 := by
  refine ⟨Or.inl (by decide +kernel), by decide +kernel, by decide +kernel⟩

end Snow
