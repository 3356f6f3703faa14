import Verif.SnowModel
import Mathlib.Algebra.Order.Ring.Rat
import Mathlib.Algebra.Order.BigOperators.Group.Finset
import Mathlib.Tactic.FieldSimp
import Mathlib.Tactic.Ring
import Mathlib.Tactic.Positivity
import Mathlib.Tactic.Linarith
import Mathlib.Tactic.NormNum
import Mathlib.Tactic.LinearCombination
import Mathlib.Data.Rat.Cast.Order

/-!
# Snow and glaciers: water and energy (C31, C32, C51, C52, C53)
-/

set_option autoImplicit false
set_option linter.unusedSectionVars false

/-! ## Specification -/

namespace SnowSpec

open Snow

variable {K : Type*} [Field K] [LinearOrder K] {C : Type*}

/-- Depth of snow (as water) fallen on a cell. -/
def snowfall (dt : K) (is : List (Inp K C)) (c : C) : K := (is.map (fun i => i.P_snow c * dt)).sum

/-- Depth melted in a cell, from the melt rates reported after each update. -/
def melted (dt : K) (ss : List (St K C)) (c : C) : K := (ss.map (fun s => s.SM c * dt)).sum

/-- Energy received by a unit area of a cell. -/
def energyIn (dt : K) (is : List (Inp K C)) (c : C) : K := (is.map (fun i => i.Q_sum c * dt)).sum

/-- No negative snowfall. -/
def Falls (is : List (Inp K C)) : Prop := ∀ i ∈ is, ∀ c, 0 ≤ i.P_snow c

end SnowSpec

namespace Snow

open SnowSpec

variable {K : Type*} [Field K] [LinearOrder K] [IsStrictOrderedRing K] {C : Type*} [Fintype C]

theorem step_melt {p : Params K C} (hdt : 0 < p.dt) (i : Inp K C) (s : St K C) (c : C)
    (h0 : 0 ≤ s.h_swe c) :
    0 ≤ (step p i s).SM c ∧ (step p i s).SM c * p.dt ≤ s.h_swe c := by
  have e : (step p i s).SM c = max (min (potentialMelt p i s c) (s.h_swe c / p.dt)) 0 := rfl
  have h1 : 0 ≤ s.h_swe c / p.dt := div_nonneg h0 hdt.le
  refine ⟨by rw [e]; exact le_max_right _ _, ?_⟩
  rw [← le_div_iff₀ hdt, e]
  exact max_le (min_le_right _ _) h1

theorem step_swe {p : Params K C} (hdt : 0 < p.dt) (i : Inp K C) (s : St K C) (c : C)
    (h0 : 0 ≤ s.h_swe c) (hP : 0 ≤ i.P_snow c) :
    0 ≤ (step p i s).h_swe c ∧
    (step p i s).h_swe c + (step p i s).SM c * p.dt = s.h_swe c + i.P_snow c * p.dt := by
  have e : (step p i s).h_swe c
      = max (s.h_swe c + i.P_snow c * p.dt - (step p i s).SM c * p.dt) 0 := rfl
  have h2 := (step_melt hdt i s c h0).2
  have h3 := mul_nonneg hP hdt.le
  rw [e]
  refine ⟨le_max_right _ _, ?_⟩
  rw [max_eq_left (by linarith)]
  ring

/-- **C31.**  In every history with non-negative snowfall, starting from a non-negative snowpack and
with either melt method, in every cell: after every update the snow water equivalent is not negative,
the melt rate is not negative, and the update melted no more than the snow present before it. -/
theorem C31_melt_bounded (p : Params K C) (hdt : 0 < p.dt) (s : St K C)
    (h0 : ∀ c, 0 ≤ s.h_swe c) (past : List (Inp K C)) (i : Inp K C) (hf : Falls (past ++ [i]))
    (c : C) :
    let before := run p s past
    let after := step p i before
    0 ≤ before.h_swe c ∧ 0 ≤ after.h_swe c ∧ 0 ≤ after.SM c ∧
      after.SM c * p.dt ≤ before.h_swe c ∧ after.h_snow c = after.h_swe c * i.ratio c := by
  intro before after
  have gen : ∀ (is : List (Inp K C)) (s : St K C), Falls is → (∀ c, 0 ≤ s.h_swe c) →
      ∀ c, 0 ≤ (run p s is).h_swe c := by
    intro is
    induction is with
    | nil => intro s _ h c; exact h c
    | cons j is ih =>
      intro s hf h c
      exact ih (step p j s) (fun k hk => hf k (List.mem_cons_of_mem _ hk))
        (fun c => (step_swe hdt j s c (h c) (hf j (List.mem_cons_self ..) c)).1) c
  have hb := gen past s (fun j hj => hf j (List.mem_append_left _ hj)) h0 c
  have hm := step_melt hdt i before c hb
  exact ⟨hb, (step_swe hdt i before c hb (hf i (by simp) c)).1, hm.1, hm.2, rfl⟩

/-- **C31.**  Over every history, in every cell: initial snow water equivalent plus snowfall equals
final snow water equivalent plus everything melted. -/
theorem C31_conservation (p : Params K C) (hdt : 0 < p.dt) (s : St K C)
    (h0 : ∀ c, 0 ≤ s.h_swe c) (is : List (Inp K C)) (hf : Falls is) (c : C) :
    s.h_swe c + snowfall p.dt is c = (run p s is).h_swe c + melted p.dt (states p s is) c := by
  induction is generalizing s with
  | nil => simp [snowfall, melted, run, states]
  | cons i is ih =>
    have hs := fun c => step_swe hdt i s c (h0 c) (hf i (List.mem_cons_self ..) c)
    have := ih (step p i s) (fun c => (hs c).1) (fun k hk => hf k (List.mem_cons_of_mem _ hk))
    have e1 : snowfall p.dt (i :: is) c = i.P_snow c * p.dt + snowfall p.dt is c := by
      simp [snowfall]
    have e2 : melted p.dt (states p s (i :: is)) c
        = (step p i s).SM c * p.dt + melted p.dt (states p (step p i s) is) c := by
      simp [melted, states]
    rw [e1, e2]
    show _ = (run p (step p i s) is).h_swe c + _
    linarith [(hs c).2]

/-- **C31.**  The volumes reported for the whole domain balance: snowpack volume at the end plus the
reported volume of melt equals the snowpack volume at the start plus the volume of snow fallen. -/
theorem C31_volumes (p : Params K C) (hdt : 0 < p.dt) (s : St K C)
    (h0 : ∀ c, 0 ≤ s.h_swe c) (is : List (Inp K C)) (hf : Falls is) :
    snowVolume p (run p s is) + (run p s is).vol_SM
      = snowVolume p s + s.vol_SM + ∑ c, snowfall p.dt is c * p.da c := by
  have hvol : ∀ (is : List (Inp K C)) (s : St K C),
      (run p s is).vol_SM = s.vol_SM + ∑ c, melted p.dt (states p s is) c * p.da c := by
    intro is
    induction is with
    | nil => intro s; simp [run, melted, states]
    | cons i is ih =>
      intro s
      have e : (step p i s).vol_SM = s.vol_SM + ∑ c, (step p i s).SM c * p.da c * p.dt := rfl
      show (run p (step p i s) is).vol_SM = _
      rw [ih, e, add_assoc, ← Finset.sum_add_distrib]
      congr 1
      apply Finset.sum_congr rfl
      intro c _
      simp only [melted, states, List.map_cons, List.sum_cons]
      ring
  rw [hvol, snowVolume, snowVolume, add_comm (∑ c, (run p s is).h_swe c * p.da c), add_assoc,
    ← Finset.sum_add_distrib, add_comm (∑ c, s.h_swe c * p.da c) s.vol_SM, add_assoc,
    ← Finset.sum_add_distrib]
  congr 1
  apply Finset.sum_congr rfl
  intro c _
  have := C31_conservation p hdt s h0 is hf c
  linear_combination (-p.da c) * this

theorem rhoL_pos : (0 : K) < rhoL := by unfold rhoL; norm_num

/-- Energy of one update with the energy balance method. -/
theorem step_energy {p : Params K C} (hdt : 0 < p.dt) (hm : p.method = .energyBalance)
    (i : Inp K C) (s : St K C) (c : C) :
    rhoL * (potentialMelt p i s c * p.dt)
      = i.Q_sum c * p.dt + (step p i s).Ecc c - s.Ecc c ∧
    0 ≤ (step p i s).Ecc c := by
  have e1 : potentialMelt p i s c = max (i.Q_sum c * p.dt - s.Ecc c) 0 / p.dt / rhoL := by
    simp only [potentialMelt, hm]
  have e2 : (step p i s).Ecc c = max (s.Ecc c - i.Q_sum c * p.dt) 0 := by
    simp only [step, coldContent, hm]
  have hL := rhoL_pos (K := K)
  constructor
  · have e3 : rhoL * (potentialMelt p i s c * p.dt) = max (i.Q_sum c * p.dt - s.Ecc c) 0 := by
      rw [e1]
      have h1 := hdt.ne'
      have h2 := hL.ne'
      field_simp
    rw [e3, e2]
    rcases le_total (i.Q_sum c * p.dt) (s.Ecc c) with h | h
    · rw [max_eq_right (by linarith), max_eq_left (by linarith)]; ring
    · rw [max_eq_left (by linarith), max_eq_right (by linarith)]; ring
  · rw [e2]; exact le_max_right _ _

/-- **C32.**  Energy balance method, one update in any state: the energy received equals the energy
that goes into potential melt plus the drop in cold content; the cold content is not negative; and
nothing melts unless the energy received exceeds the cold content. -/
theorem C32_step (p : Params K C) (hdt : 0 < p.dt) (hm : p.method = .energyBalance)
    (i : Inp K C) (s : St K C) (c : C) (h0 : 0 ≤ s.h_swe c) :
    i.Q_sum c * p.dt
      = rhoL * (potentialMelt p i s c * p.dt) + (s.Ecc c - (step p i s).Ecc c) ∧
    0 ≤ (step p i s).Ecc c ∧
    (i.Q_sum c * p.dt ≤ s.Ecc c → (step p i s).SM c = 0) ∧
    (s.Ecc c < i.Q_sum c * p.dt → 0 < s.h_swe c → 0 < (step p i s).SM c) ∧
    (step p i s).SM c = min (potentialMelt p i s c) (s.h_swe c / p.dt) := by
  obtain ⟨h1, h2⟩ := step_energy hdt hm i s c
  have e1 : potentialMelt p i s c = max (i.Q_sum c * p.dt - s.Ecc c) 0 / p.dt / rhoL := by
    simp only [potentialMelt, hm]
  have e : (step p i s).SM c = max (min (potentialMelt p i s c) (s.h_swe c / p.dt)) 0 := rfl
  have hL := rhoL_pos (K := K)
  have hn : 0 ≤ potentialMelt p i s c := by
    rw [e1]; exact div_nonneg (div_nonneg (le_max_right _ _) hdt.le) hL.le
  have e' : (step p i s).SM c = min (potentialMelt p i s c) (s.h_swe c / p.dt) := by
    rw [e, max_eq_left (le_min hn (div_nonneg h0 hdt.le))]
  refine ⟨by linarith, h2, ?_, ?_, e'⟩
  · intro h
    have : potentialMelt p i s c = 0 := by
      rw [e1, max_eq_right (by linarith)]; simp
    rw [e', this, min_eq_left (div_nonneg h0 hdt.le)]
  · intro h hs
    rw [e']
    refine lt_min ?_ (div_pos hs hdt)
    rw [e1]
    exact div_pos (div_pos (lt_max_of_lt_left (by linarith)) hdt) hL

/-- **C32.**  Over every history the energy turned into melt never exceeds the energy received less
the drop of the cold content. -/
theorem C32_history (p : Params K C) (hdt : 0 < p.dt) (hm : p.method = .energyBalance)
    (s : St K C) (h0 : ∀ c, 0 ≤ s.h_swe c) (is : List (Inp K C)) (hf : Falls is) (c : C) :
    rhoL * melted p.dt (states p s is) c
      ≤ energyIn p.dt is c - (s.Ecc c - (run p s is).Ecc c) := by
  induction is generalizing s with
  | nil => simp [melted, states, energyIn, run]
  | cons i is ih =>
    have hs := fun c => step_swe hdt i s c (h0 c) (hf i (List.mem_cons_self ..) c)
    have := ih (step p i s) (fun c => (hs c).1) (fun k hk => hf k (List.mem_cons_of_mem _ hk))
    have e1 : energyIn p.dt (i :: is) c = i.Q_sum c * p.dt + energyIn p.dt is c := by
      simp [energyIn]
    have e2 : melted p.dt (states p s (i :: is)) c
        = (step p i s).SM c * p.dt + melted p.dt (states p (step p i s) is) c := by
      simp [melted, states]
    obtain ⟨h1, h2, _, _, h5⟩ := C32_step p hdt hm i s c (h0 c)
    have h6 : (step p i s).SM c * p.dt ≤ potentialMelt p i s c * p.dt :=
      mul_le_mul_of_nonneg_right (by rw [h5]; exact min_le_left _ _) hdt.le
    have h7 := mul_le_mul_of_nonneg_left h6 (rhoL_pos (K := K)).le
    rw [e1, e2, mul_add]
    show _ ≤ _ - (_ - (run p (step p i s) is).Ecc c)
    linarith

/-- **C32.**  When in each update the snow present is enough for the potential melt, the energy turned
into melt is exactly the energy received less the drop of the cold content. -/
theorem C32_history_exact (p : Params K C) (hdt : 0 < p.dt) (hm : p.method = .energyBalance)
    (s : St K C) (h0 : ∀ c, 0 ≤ s.h_swe c) (is : List (Inp K C)) (hf : Falls is) (c : C)
    (hsuff : ∀ pre i, pre ++ [i] <+: is →
      potentialMelt p i (run p s pre) c * p.dt ≤ (run p s pre).h_swe c) :
    rhoL * melted p.dt (states p s is) c
      = energyIn p.dt is c - (s.Ecc c - (run p s is).Ecc c) := by
  induction is generalizing s with
  | nil => simp [melted, states, energyIn, run]
  | cons i is ih =>
    have hs := fun c => step_swe hdt i s c (h0 c) (hf i (List.mem_cons_self ..) c)
    have := ih (step p i s) (fun c => (hs c).1) (fun k hk => hf k (List.mem_cons_of_mem _ hk))
      (fun pre j hpre => hsuff (i :: pre) j (by
        rw [List.cons_append]; exact List.cons_prefix_cons.mpr ⟨rfl, hpre⟩))
    have e1 : energyIn p.dt (i :: is) c = i.Q_sum c * p.dt + energyIn p.dt is c := by
      simp [energyIn]
    have e2 : melted p.dt (states p s (i :: is)) c
        = (step p i s).SM c * p.dt + melted p.dt (states p (step p i s) is) c := by
      simp [melted, states]
    obtain ⟨h1, h2, _, _, h5⟩ := C32_step p hdt hm i s c (h0 c)
    have h3 : potentialMelt p i s c * p.dt ≤ s.h_swe c :=
      hsuff [] i (List.cons_prefix_cons.mpr ⟨rfl, List.nil_prefix⟩)
    have h6 : (step p i s).SM c = potentialMelt p i s c := by
      rw [h5, min_eq_left]
      rw [le_div_iff₀ hdt]; exact h3
    rw [e1, e2, mul_add, h6]
    show _ = _ - (_ - (run p (step p i s) is).Ecc c)
    linarith

/-- **C32.**  Nothing melts as long as the energy received since the start has never exceeded the
initial cold content. -/
theorem C32_delay (p : Params K C) (hdt : 0 < p.dt) (hm : p.method = .energyBalance)
    (s : St K C) (h0 : ∀ c, 0 ≤ s.h_swe c) (is : List (Inp K C)) (hf : Falls is) (c : C)
    (hcold : ∀ pre, pre <+: is → energyIn p.dt pre c ≤ s.Ecc c) :
    ∀ t ∈ states p s is, t.SM c = 0 := by
  induction is generalizing s with
  | nil => intro t ht; simp [states] at ht
  | cons i is ih =>
    have hs := fun c => step_swe hdt i s c (h0 c) (hf i (List.mem_cons_self ..) c)
    obtain ⟨h1, h2, h3, _, _⟩ := C32_step p hdt hm i s c (h0 c)
    have hi : i.Q_sum c * p.dt ≤ s.Ecc c := by
      have := hcold [i] (List.cons_prefix_cons.mpr ⟨rfl, List.nil_prefix⟩)
      simpa [energyIn] using this
    have hecc : (step p i s).Ecc c = s.Ecc c - i.Q_sum c * p.dt := by
      simp only [step, coldContent, hm]
      exact max_eq_left (by linarith)
    intro t ht
    simp only [states, List.mem_cons] at ht
    rcases ht with rfl | ht
    · exact h3 hi
    · refine ih (step p i s) (fun c => (hs c).1) (fun k hk => hf k (List.mem_cons_of_mem _ hk))
        ?_ t ht
      intro pre hpre
      have := hcold (i :: pre) (List.cons_prefix_cons.mpr ⟨rfl, hpre⟩)
      simp only [energyIn, List.map_cons, List.sum_cons] at this
      rw [hecc]
      simp only [energyIn]
      linarith

/-- The initial cold content is not negative. -/
theorem C32_initial (rho Cp h0s h0w T0 Ts : C → K) (c : C) :
    0 ≤ (initSt rho Cp h0s h0w T0 Ts).Ecc c := le_max_right _ _

/-- **C51 is violated** by the snow component with the energy balance method, in every cell that has no
snow: the cold content is not reset but goes on accumulating all the energy lost, so that snow falling
later is treated as if it had been cooled for all that time. -/
theorem C51_snow_violated (p : Params K C) (hm : p.method = .energyBalance) (hdt : 0 < p.dt)
    (s : St K C) (c : C) (is : List (Inp K C)) (hbare : s.h_swe c = 0) (hE : 0 ≤ s.Ecc c)
    (hno : ∀ i ∈ is, i.P_snow c = 0) (hcold : ∀ i ∈ is, i.Q_sum c ≤ 0) :
    (run p s is).h_swe c = 0 ∧ (run p s is).Ecc c = s.Ecc c - energyIn p.dt is c := by
  induction is generalizing s with
  | nil => exact ⟨hbare, by simp [run, energyIn]⟩
  | cons i is ih =>
    have hP := hno i (List.mem_cons_self ..)
    have hQ := hcold i (List.mem_cons_self ..)
    have hstep := step_swe hdt i s c (le_of_eq hbare.symm) (le_of_eq hP.symm)
    have hmelt := step_melt (p := p) hdt i s c (le_of_eq hbare.symm)
    have hQ' : i.Q_sum c * p.dt ≤ 0 := mul_nonpos_of_nonpos_of_nonneg hQ hdt.le
    have hecc : (step p i s).Ecc c = s.Ecc c - i.Q_sum c * p.dt := by
      simp only [step, coldContent, hm]
      exact max_eq_left (by linarith)
    have h1 : (step p i s).h_swe c = 0 := by
      have := mul_nonneg hmelt.1 hdt.le
      rw [hbare, hP] at hstep
      linarith [hstep.1, hstep.2]
    obtain ⟨a, b⟩ := ih (step p i s) h1 (by rw [hecc]; linarith)
      (fun j hj => hno j (List.mem_cons_of_mem _ hj))
      (fun j hj => hcold j (List.mem_cons_of_mem _ hj))
    refine ⟨a, ?_⟩
    show (run p (step p i s) is).Ecc c = _
    rw [b, hecc]
    simp only [energyIn, List.map_cons, List.sum_cons]
    ring

/-! ## Glaciers -/

/-- **C51 for the glacier component.**  After every update, a cell without snow has no snow cold
content. -/
theorem C51_glacier (p : GParams K C) (i : GInp K C) (s : GSt K C) (c : C) :
    (gStep p i s).h_snow c = 0 → (gStep p i s).Eccs c = 0 := by
  intro h
  have : (gStep p i s).Eccs c
      = snowpackCold p i (snowfallCold p i s.Eccs) (gStep p i s).h_snow c := rfl
  rw [this, snowpackCold, if_pos h]

theorem gStep_water {p : GParams K C} (hdt : 0 < p.dt) (i : GInp K C) (s : GSt K C) (c : C)
    (h0 : 0 ≤ s.h_swe c) (h1 : 0 ≤ s.h_iwe c) (hP : 0 ≤ i.P_snow c) :
    (0 ≤ (gStep p i s).SM c ∧ (gStep p i s).SM c * p.dt ≤ s.h_swe c) ∧
    (0 ≤ (gStep p i s).IM c ∧ (gStep p i s).IM c * p.dt ≤ s.h_iwe c) ∧
    (0 ≤ (gStep p i s).h_swe c ∧ (gStep p i s).h_swe c + (gStep p i s).SM c * p.dt
      = s.h_swe c + i.P_snow c * p.dt) ∧
    (0 ≤ (gStep p i s).h_iwe c ∧ (gStep p i s).h_iwe c + (gStep p i s).IM c * p.dt = s.h_iwe c) ∧
    (0 < (gStep p i s).IM c → s.h_swe c = 0 ∧ (gStep p i s).h_swe c = 0) := by
  have aux : ∀ m h : K, 0 ≤ h → 0 ≤ max (min m (h / p.dt)) 0 ∧
      max (min m (h / p.dt)) 0 * p.dt ≤ h := by
    intro m h hh
    refine ⟨le_max_right _ _, ?_⟩
    rw [← le_div_iff₀ hdt]
    exact max_le (min_le_right _ _) (div_nonneg hh hdt.le)
  have hSM : 0 ≤ (gStep p i s).SM c ∧ (gStep p i s).SM c * p.dt ≤ s.h_swe c := aux _ _ h0
  have hIM : 0 ≤ (gStep p i s).IM c ∧ (gStep p i s).IM c * p.dt ≤ s.h_iwe c := aux _ _ h1
  have e1 : (gStep p i s).h_swe c
      = max (s.h_swe c + i.P_snow c * p.dt - (gStep p i s).SM c * p.dt) 0 := rfl
  have e2 : (gStep p i s).h_iwe c = max (s.h_iwe c - (gStep p i s).IM c * p.dt) 0 := rfl
  have h3 := mul_nonneg hP hdt.le
  refine ⟨hSM, hIM, ?_, ?_, ?_⟩
  · rw [e1]
    refine ⟨le_max_right _ _, ?_⟩
    rw [max_eq_left (by linarith [hSM.2])]; ring
  · rw [e2]
    refine ⟨le_max_right _ _, ?_⟩
    rw [max_eq_left (by linarith [hIM.2])]; ring
  · intro hpos
    by_contra hne
    have hI0 : (gStep p i s).IM c = max (min (if (gStep p i s).h_swe c = 0 ∧ s.h_swe c = 0 then
        max (gMelt p i s.Ecci c) 0 else 0) (s.h_iwe c / p.dt)) 0 := rfl
    rw [if_neg (fun h => hne ⟨h.2, h.1⟩)] at hI0
    have : (gStep p i s).IM c = 0 := by
      rw [hI0, min_eq_left (div_nonneg h1 hdt.le), max_self]
    rw [this] at hpos
    exact lt_irrefl _ hpos

/-- **C52.**  In every history, from a glacier with non-negative snow and ice, in every cell and after
every update: snow and ice are not negative; snow and ice melt are not negative and at most what was
there; ice melts only where there was no snow before the update and there is none after it; the melt
passed on is their sum. -/
theorem C52_glacier_melt (p : GParams K C) (hdt : 0 < p.dt) (s : GSt K C)
    (h0 : ∀ c, 0 ≤ s.h_swe c) (h1 : ∀ c, 0 ≤ s.h_iwe c) (past : List (GInp K C)) (i : GInp K C)
    (hf : ∀ j ∈ past ++ [i], ∀ c, 0 ≤ j.P_snow c) (c : C) :
    let before := gRun p s past
    let after := gStep p i before
    (0 ≤ after.h_swe c ∧ 0 ≤ after.h_iwe c) ∧
    (0 ≤ after.SM c ∧ after.SM c * p.dt ≤ before.h_swe c) ∧
    (0 ≤ after.IM c ∧ after.IM c * p.dt ≤ before.h_iwe c) ∧
    (0 < after.IM c → before.h_swe c = 0 ∧ after.h_swe c = 0) ∧
    after.M_total c = after.SM c + after.IM c := by
  intro before after
  have gen : ∀ (is : List (GInp K C)) (s : GSt K C), (∀ j ∈ is, ∀ c, 0 ≤ j.P_snow c) →
      (∀ c, 0 ≤ s.h_swe c) → (∀ c, 0 ≤ s.h_iwe c) →
      ∀ c, 0 ≤ (gRun p s is).h_swe c ∧ 0 ≤ (gRun p s is).h_iwe c := by
    intro is
    induction is with
    | nil => intro s _ h h' c; exact ⟨h c, h' c⟩
    | cons j is ih =>
      intro s hf h h' c
      have hw := fun c => gStep_water hdt j s c (h c) (h' c) (hf j (List.mem_cons_self ..) c)
      exact ih (gStep p j s) (fun k hk => hf k (List.mem_cons_of_mem _ hk))
        (fun c => (hw c).2.2.1.1) (fun c => (hw c).2.2.2.1.1) c
  have hb := gen past s (fun j hj => hf j (List.mem_append_left _ hj)) h0 h1 c
  obtain ⟨a, b, d, e, f⟩ := gStep_water hdt i before c hb.1 hb.2 (hf i (by simp) c)
  refine ⟨⟨d.1, e.1⟩, a, b, f, add_comm _ _⟩

/-- **C52.**  Over every history the water of snow and ice together, plus the reported melt volumes,
grows exactly by the snow fallen. -/
theorem C52_glacier_conservation (p : GParams K C) (hdt : 0 < p.dt) (s : GSt K C)
    (h0 : ∀ c, 0 ≤ s.h_swe c) (h1 : ∀ c, 0 ≤ s.h_iwe c) (is : List (GInp K C))
    (hf : ∀ j ∈ is, ∀ c, 0 ≤ j.P_snow c) :
    (∑ c, (gRun p s is).h_swe c * p.da c) + (gRun p s is).vol_SM
      = (∑ c, s.h_swe c * p.da c) + s.vol_SM
        + ∑ c, (is.map (fun i => i.P_snow c * p.dt)).sum * p.da c ∧
    (∑ c, (gRun p s is).h_iwe c * p.da c) + (gRun p s is).vol_IM
      = (∑ c, s.h_iwe c * p.da c) + s.vol_IM := by
  induction is generalizing s with
  | nil => simp [gRun]
  | cons i is ih =>
    have hw := fun c => gStep_water hdt i s c (h0 c) (h1 c) (hf i (List.mem_cons_self ..) c)
    obtain ⟨a, b⟩ := ih (gStep p i s) (fun c => (hw c).2.2.1.1) (fun c => (hw c).2.2.2.1.1)
      (fun k hk => hf k (List.mem_cons_of_mem _ hk))
    have e1 : (gStep p i s).vol_SM = s.vol_SM + ∑ c, (gStep p i s).SM c * p.da c * p.dt := rfl
    have e2 : (gStep p i s).vol_IM = s.vol_IM + ∑ c, (gStep p i s).IM c * p.da c * p.dt := rfl
    have e3 : (∑ c, (gStep p i s).h_swe c * p.da c) + ∑ c, (gStep p i s).SM c * p.da c * p.dt
        = (∑ c, s.h_swe c * p.da c) + ∑ c, i.P_snow c * p.dt * p.da c := by
      rw [← Finset.sum_add_distrib, ← Finset.sum_add_distrib]
      apply Finset.sum_congr rfl
      intro c _
      linear_combination (p.da c) * (hw c).2.2.1.2
    have e4 : (∑ c, (gStep p i s).h_iwe c * p.da c) + ∑ c, (gStep p i s).IM c * p.da c * p.dt
        = ∑ c, s.h_iwe c * p.da c := by
      rw [← Finset.sum_add_distrib]
      apply Finset.sum_congr rfl
      intro c _
      linear_combination (p.da c) * (hw c).2.2.2.1.2
    constructor
    · show (∑ c, (gRun p (gStep p i s) is).h_swe c * p.da c) + (gRun p (gStep p i s) is).vol_SM = _
      rw [a, e1]
      have e5 : ∑ c, ((i :: is).map (fun i => i.P_snow c * p.dt)).sum * p.da c
          = (∑ c, i.P_snow c * p.dt * p.da c)
            + ∑ c, (is.map (fun i => i.P_snow c * p.dt)).sum * p.da c := by
        rw [← Finset.sum_add_distrib]
        apply Finset.sum_congr rfl
        intro c _
        simp only [List.map_cons, List.sum_cons]
        ring
      rw [e5]
      linear_combination e3
    · show (∑ c, (gRun p (gStep p i s) is).h_iwe c * p.da c) + (gRun p (gStep p i s) is).vol_IM = _
      rw [b, e2]
      linear_combination e4

/-- Cold brought by the snow that falls in one update. -/
def coldAdded (p : GParams K C) (i : GInp K C) (c : C) : K :=
  p.heatCap c * (i.P_snow c * p.dt * p.wsRatio c) * i.dT c

/-- **C53 (part).**  Glacier snowpack, one update without snowfall in a cell that keeps some snow: the
energy received is the energy of the potential melt plus the drop of the cold content.
Missing: updates with snowfall (`C53_violated`). -/
theorem C53_glacier_energy_partial (p : GParams K C) (hdt : 0 < p.dt) (hL : 0 < p.rhoLf)
    (i : GInp K C) (s : GSt K C) (c : C) (hno : i.P_snow c = 0) (hs : (gStep p i s).h_snow c ≠ 0) :
    i.Q_sum c * p.dt
      = p.rhoLf * (gMelt p i s.Eccs c * p.dt) + (s.Eccs c - (gStep p i s).Eccs c) := by
  have e : (gStep p i s).Eccs c
      = snowpackCold p i (snowfallCold p i s.Eccs) (gStep p i s).h_snow c := rfl
  rw [e, snowpackCold, if_neg hs, if_pos (le_of_eq hno), snowfallCold, if_neg (by rw [hno]; exact lt_irrefl _)]
  have e3 : p.rhoLf * (gMelt p i s.Eccs c * p.dt) = max (i.Q_sum c * p.dt - s.Eccs c) 0 := by
    unfold gMelt
    have h1 := hdt.ne'
    have h2 := hL.ne'
    field_simp
  rw [e3]
  rcases le_total (i.Q_sum c * p.dt) (s.Eccs c) with h | h
  · rw [max_eq_right (by linarith), max_eq_left (by linarith)]; ring
  · rw [max_eq_left (by linarith), max_eq_right (by linarith)]; ring

/-- **C53 is violated** whenever snow falls in a cell that keeps snow: the energy in excess of the cold
content is used twice, once to melt snow and once to warm the fresh snow.  The energy spent exceeds
the energy received by exactly the smaller of the melt energy and the cold added. -/
theorem C53_violated (p : GParams K C) (hdt : 0 < p.dt) (hL : 0 < p.rhoLf)
    (i : GInp K C) (s : GSt K C) (c : C) (hsnow : 0 < i.P_snow c)
    (hs : (gStep p i s).h_snow c ≠ 0) (hadd : 0 ≤ coldAdded p i c) :
    p.rhoLf * (gMelt p i s.Eccs c * p.dt) + (s.Eccs c + coldAdded p i c - (gStep p i s).Eccs c)
      = i.Q_sum c * p.dt + min (p.rhoLf * (gMelt p i s.Eccs c * p.dt)) (coldAdded p i c) := by
  have e : (gStep p i s).Eccs c
      = snowpackCold p i (snowfallCold p i s.Eccs) (gStep p i s).h_snow c := rfl
  have e1 : (gStep p i s).Eccs c = max (s.Eccs c + coldAdded p i c - i.Q_sum c * p.dt) 0 := by
    rw [e, snowpackCold, if_neg hs, if_neg (not_le.mpr hsnow), snowfallCold, if_pos hsnow]
    rfl
  have e3 : p.rhoLf * (gMelt p i s.Eccs c * p.dt) = max (i.Q_sum c * p.dt - s.Eccs c) 0 := by
    unfold gMelt
    have h1 := hdt.ne'
    have h2 := hL.ne'
    field_simp
  rw [e1, e3]
  rcases le_total (i.Q_sum c * p.dt) (s.Eccs c) with h | h
  · rw [max_eq_right (by linarith : i.Q_sum c * p.dt - s.Eccs c ≤ 0), max_eq_left (by linarith),
      min_eq_left hadd]
    ring
  · rw [max_eq_left (by linarith : 0 ≤ i.Q_sum c * p.dt - s.Eccs c)]
    rcases le_total (i.Q_sum c * p.dt - s.Eccs c) (coldAdded p i c) with h' | h'
    · rw [max_eq_left (by linarith), min_eq_left h']; ring
    · rw [max_eq_right (by linarith), min_eq_right h']; ring

/-- **C79 (part).**  Glacier ice without snow, one update without snowfall: the energy received is at
least the energy of the ice melt plus the drop of the cold content of the ice, with equality if the
melt is not limited by the ice left.
Missing: cells with snow (`C79_violated`). -/
theorem C79_bare_ice_partial (p : GParams K C) (hdt : 0 < p.dt) (hL : 0 < p.rhoLf)
    (i : GInp K C) (s : GSt K C) (c : C) (hno : i.P_snow c = 0) (hbare : s.h_swe c = 0)
    (hiwe : 0 ≤ s.h_iwe c) (hice : s.h_ice c ≠ 0) :
    p.rhoLf * ((gStep p i s).IM c * p.dt) + (s.Ecci c - (gStep p i s).Ecci c) ≤ i.Q_sum c * p.dt ∧
    ((gStep p i s).h_iwe c ≠ 0 →
      p.rhoLf * ((gStep p i s).IM c * p.dt) + (s.Ecci c - (gStep p i s).Ecci c)
        = i.Q_sum c * p.dt) := by
  have hsm : (gStep p i s).SM c = 0 := by
    show max (min (gMelt p i s.Eccs c) (s.h_swe c / p.dt)) 0 = 0
    rw [hbare, zero_div]
    exact max_eq_right (min_le_right _ _)
  have hswe : (gStep p i s).h_swe c = 0 := by
    show max (s.h_swe c + i.P_snow c * p.dt - (gStep p i s).SM c * p.dt) 0 = 0
    rw [hsm, hbare, hno]; simp
  have hIM : (gStep p i s).IM c = max (min (if (gStep p i s).h_swe c = 0 ∧ s.h_swe c = 0 then
        max (gMelt p i s.Ecci c) 0 else 0) (s.h_iwe c / p.dt)) 0 := rfl
  have hM0 : 0 ≤ gMelt p i s.Ecci c :=
    div_nonneg (div_nonneg (le_max_right _ _) hdt.le) hL.le
  rw [if_pos ⟨hswe, hbare⟩, max_eq_left hM0, max_eq_left (le_min hM0 (div_nonneg hiwe hdt.le))] at hIM
  have e3 : p.rhoLf * (gMelt p i s.Ecci c * p.dt) = max (i.Q_sum c * p.dt - s.Ecci c) 0 := by
    unfold gMelt
    have h1 := hdt.ne'
    have h2 := hL.ne'
    field_simp
  have e4 : (gStep p i s).Ecci c = max (s.Ecci c - i.Q_sum c * p.dt) 0 := by
    show (if s.h_ice c = 0 then (0 : K) else max (s.Ecci c - i.Q_sum c * p.dt) 0) = _
    rw [if_neg hice]
  have e5 : p.rhoLf * (gMelt p i s.Ecci c * p.dt) + (s.Ecci c - (gStep p i s).Ecci c)
      = i.Q_sum c * p.dt := by
    rw [e3, e4]
    rcases le_total (i.Q_sum c * p.dt) (s.Ecci c) with h | h
    · rw [max_eq_right (by linarith), max_eq_left (by linarith)]; ring
    · rw [max_eq_left (by linarith), max_eq_right (by linarith)]; ring
  refine ⟨?_, ?_⟩
  · have : p.rhoLf * ((gStep p i s).IM c * p.dt) ≤ p.rhoLf * (gMelt p i s.Ecci c * p.dt) := by
      rw [hIM]
      exact mul_le_mul_of_nonneg_left (mul_le_mul_of_nonneg_right (min_le_left _ _) hdt.le) hL.le
    linarith
  · intro hne
    have : (gStep p i s).IM c = gMelt p i s.Ecci c := by
      rw [hIM]
      apply min_eq_left
      by_contra hlt
      push Not at hlt
      rw [min_eq_right hlt.le] at hIM
      apply hne
      show max (s.h_iwe c - (gStep p i s).IM c * p.dt) 0 = 0
      rw [hIM, div_mul_cancel₀ _ hdt.ne', sub_self, max_self]
    rw [this, e5]

/-- **C79 is violated** in every snow-covered cell that is warmed without snowfall and keeps some snow:
the whole energy goes into the snow, and the ice below is warmed by it a second time.  The energy spent
exceeds the energy received by the smaller of that energy and the cold content of the ice. -/
theorem C79_violated (p : GParams K C) (hdt : 0 < p.dt) (hL : 0 < p.rhoLf)
    (i : GInp K C) (s : GSt K C) (c : C) (hno : i.P_snow c = 0) (hQ : 0 < i.Q_sum c)
    (hswe : 0 < s.h_swe c) (hs : (gStep p i s).h_snow c ≠ 0) (hice : s.h_ice c ≠ 0)
    (hE : 0 < s.Ecci c) :
    p.rhoLf * ((gStep p i s).M_total c * p.dt) + (s.Eccs c - (gStep p i s).Eccs c)
        + (s.Ecci c - (gStep p i s).Ecci c)
      = i.Q_sum c * p.dt + min (i.Q_sum c * p.dt) (s.Ecci c) ∧
    i.Q_sum c * p.dt < p.rhoLf * ((gStep p i s).M_total c * p.dt)
        + (s.Eccs c - (gStep p i s).Eccs c) + (s.Ecci c - (gStep p i s).Ecci c) := by
  have h1 := C53_glacier_energy_partial p hdt hL i s c hno hs
  have hM0 : 0 ≤ gMelt p i s.Eccs c :=
    div_nonneg (div_nonneg (le_max_right _ _) hdt.le) hL.le
  have hSM : (gStep p i s).SM c = max (min (gMelt p i s.Eccs c) (s.h_swe c / p.dt)) 0 := rfl
  rw [max_eq_left (le_min hM0 (div_nonneg hswe.le hdt.le))] at hSM
  have hsw : (gStep p i s).h_swe c ≠ 0 := by
    intro h
    apply hs
    show (gStep p i s).h_swe c * p.wsRatio c = 0
    rw [h, zero_mul]
  have hSM' : (gStep p i s).SM c = gMelt p i s.Eccs c := by
    rw [hSM]
    apply min_eq_left
    by_contra hlt
    push Not at hlt
    rw [min_eq_right hlt.le] at hSM
    apply hsw
    show max (s.h_swe c + i.P_snow c * p.dt - (gStep p i s).SM c * p.dt) 0 = 0
    rw [hSM, div_mul_cancel₀ _ hdt.ne', hno]; simp
  have hIM : (gStep p i s).IM c = 0 := by
    show max (min (if (gStep p i s).h_swe c = 0 ∧ s.h_swe c = 0 then
        max (gMelt p i s.Ecci c) 0 else 0) (s.h_iwe c / p.dt)) 0 = 0
    rw [if_neg (fun h => hsw h.1)]
    exact max_eq_right (min_le_left _ _)
  have hMt : (gStep p i s).M_total c = gMelt p i s.Eccs c := by
    show (gStep p i s).IM c + (gStep p i s).SM c = _
    rw [hIM, hSM', zero_add]
  have e4 : (gStep p i s).Ecci c = max (s.Ecci c - i.Q_sum c * p.dt) 0 := by
    show (if s.h_ice c = 0 then (0 : K) else max (s.Ecci c - i.Q_sum c * p.dt) 0) = _
    rw [if_neg hice]
  have hQdt := mul_pos hQ hdt
  have key : s.Ecci c - (gStep p i s).Ecci c = min (i.Q_sum c * p.dt) (s.Ecci c) := by
    rw [e4]
    rcases le_total (i.Q_sum c * p.dt) (s.Ecci c) with h | h
    · rw [max_eq_left (by linarith), min_eq_left h]; ring
    · rw [max_eq_right (by linarith), min_eq_right h]; ring
  have hm : 0 < min (i.Q_sum c * p.dt) (s.Ecci c) := lt_min hQdt hE
  rw [hMt, key]
  constructor <;> linarith

/-! ### Concrete cases -/

/-- One cell, time step 1, energy balance. -/
def pq : Params ℚ Unit := { method := .energyBalance, dt := 1, da := fun _ => 1 }

def iq (P Q : ℚ) : Inp ℚ Unit :=
  { P_snow := fun _ => P, T_air := fun _ => 0, Q_sum := fun _ => Q, ratio := fun _ => 4 }

def sq : St ℚ Unit :=
  { SM := fun _ => 0, h_swe := fun _ => 2, h_snow := fun _ => 8, Ecc := fun _ => 334000000, vol_SM := 0 }

/-- Snowfall, then warming that only overcomes the cold content, then melt, then complete melt. -/
example : (states pq sq [iq 1 0, iq 0 334000000, iq 0 334000000, iq 0 (334000000 * 10)]).map
    (fun s => (s.h_swe (), s.SM (), s.Ecc ())) = [(3, 0, 334000000), (3, 0, 0), (2, 1, 0), (0, 2, 0)] := by
  decide +kernel

example : Falls [iq 1 0, iq 0 334000000] := by
  intro i hi c
  simp only [List.mem_cons, List.not_mem_nil, or_false] at hi
  rcases hi with rfl | rfl <;> norm_num [iq]

/-- The hypotheses of `C32_delay` are met by a history with energy input. -/
example : ∀ t ∈ states pq sq [iq 1 0, iq 0 334000000], t.SM () = 0 := by decide +kernel

/-- Degree day method: half a unit of snow melts in the first update, the rest in the second. -/
example : (states { pq with method := .degreeDay (fun _ => 86400000) (fun _ => 0) }
    { sq with h_swe := fun _ => 1 }
    [{ iq 0 0 with T_air := fun _ => 1/2 }, { iq 0 0 with T_air := fun _ => 3 }]).map
    (fun s => (s.h_swe (), s.SM ())) = [(1/2, 1/2), (0, 1/2)] := by
  decide +kernel

/-- Bare ground that lost energy: the cold content is there although there is no snow. -/
example : ((run pq { sq with h_swe := (fun _ => 0), Ecc := (fun _ => 0) } [iq 0 (-5), iq 0 (-7)]).h_swe (),
    (run pq { sq with h_swe := (fun _ => 0), Ecc := (fun _ => 0) } [iq 0 (-5), iq 0 (-7)]).Ecc ()) = (0, 12) := by
  decide +kernel

def gp : GParams ℚ Unit :=
  { dt := 1, da := fun _ => 1, rhoLf := 10, wsRatio := fun _ => 4, wiRatio := fun _ => 1,
    heatCap := fun _ => 1 }

def gs : GSt ℚ Unit :=
  { SM := fun _ => 0, IM := fun _ => 0, M_total := fun _ => 0, h_swe := fun _ => 2,
    h_iwe := fun _ => 5, h_snow := fun _ => 8, h_ice := fun _ => 5, Eccs := fun _ => 0,
    Ecci := fun _ => 0, vol_SM := 0, vol_IM := 0 }

/-- A warm snowfall: 4 units of energy come in, 4 are spent on melting and 4 on warming. -/
example : let i : GInp ℚ Unit := { P_snow := fun _ => 1, Q_sum := fun _ => 4, dT := fun _ => 2 }
    (coldAdded gp i (), (gStep gp i gs).Eccs (), gp.rhoLf * (gMelt gp i gs.Eccs () * gp.dt),
      (gStep gp i gs).h_snow ()) = (8, 4, 4, 52/5) := by
  decide +kernel

/-- Snow melts first; the ice only once the snow has gone for a whole update. -/
example : let i : GInp ℚ Unit := { P_snow := fun _ => 0, Q_sum := fun _ => 20, dT := fun _ => 0 }
    let s1 := gStep gp i gs
    let s2 := gStep gp i s1
    ((s1.SM (), s1.IM (), s1.h_swe ()), (s2.SM (), s2.IM (), s2.h_iwe ())) = ((2, 0, 0), (0, 2, 3)) := by
  decide +kernel

/-- The hypotheses of `C79_violated`: 4 units of energy warm cold snow by 4 and the ice by 4. -/
example : let i : GInp ℚ Unit := { P_snow := fun _ => 0, Q_sum := fun _ => 4, dT := fun _ => 0 }
    let s : GSt ℚ Unit := { gs with Eccs := fun _ => 6, Ecci := fun _ => 9 }
    ((gStep gp i s).M_total (), (gStep gp i s).Eccs (), (gStep gp i s).Ecci (),
      (gStep gp i s).h_snow ()) = (0, 2, 5, 8) := by
  decide +kernel

/-- Bare cold ice: 25 units of energy first warm the ice by 5, the rest melts 2 units. -/
example : let i : GInp ℚ Unit := { P_snow := fun _ => 0, Q_sum := fun _ => 25, dT := fun _ => 0 }
    let s : GSt ℚ Unit := { gs with h_swe := (fun _ => 0), Ecci := (fun _ => 5) }
    ((gStep gp i s).IM (), (gStep gp i s).Ecci (), (gStep gp i s).h_iwe ()) = (2, 0, 3) := by
  decide +kernel

end Snow
