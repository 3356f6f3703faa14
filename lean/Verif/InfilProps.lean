import Verif.InfilSpec
import Mathlib.Analysis.SpecialFunctions.Exponential
import Mathlib.Tactic.FieldSimp
import Mathlib.Tactic.Positivity
import Mathlib.Tactic.Linarith
import Mathlib.Tactic.NormNum
import Mathlib.Tactic.GCongr

/-!
# Infiltration: bounds, water table, monotonicity (C29, C30, C50)
-/

set_option autoImplicit false

noncomputable section

namespace Infil

open D8 (Cell)
open InfilSpec

variable {ny nx : ℕ}

theorem map2_at (f : ℝ → ℝ → ℝ) (x y : Val ny nx) (c : Cell ny nx) :
    (Val.map2 f x y).at c = f (x.at c) (y.at c) := by
  cases x <;> cases y <;> rfl

theorem item_eq (v : Val ny nx) (h : v.sizeOne = true) (c : Cell ny nx) : v.item = v.at c := by
  cases v with
  | sc a => rfl
  | gr g =>
    have h1 : ny * nx = 1 := by simpa [Val.sizeOne] using h
    obtain ⟨hy, hx⟩ := mul_eq_one.mp h1
    subst hy; subst hx
    have : c = (⟨0, Nat.one_pos⟩, ⟨0, Nat.one_pos⟩) := Subsingleton.elim _ _
    subst this
    simp [Val.item, Val.at]

/-- The low rain check in one cell. -/
theorem checkLow_at (Ks pt IN : Val ny nx) (c : Cell ny nx) :
    (checkLowRain Ks pt IN).at c = if pt.at c < Ks.at c then pt.at c else IN.at c := by
  unfold checkLowRain
  by_cases h : (pt.sizeOne && Ks.sizeOne) = true
  · have h' := h
    rw [Bool.and_eq_true] at h'
    rw [if_pos h, item_eq pt h'.1 c, item_eq Ks h'.2 c]
    split_ifs <;> rfl
  · rw [if_neg h]
    rfl

theorem supply_at (i : Inp ny nx) (c : Cell ny nx) : (surfaceInflux i).at c = supply i c :=
  map2_at _ _ _ _

/-- The infiltrated depth is kept in a form that agrees with the inputs. -/
def Ok (p : Params ny nx) (I : Val ny nx) : Prop :=
  (∃ g, I = .gr g) ∨ ∃ a, I = .sc a ∧ ∀ c c', p.cap c = p.cap c'

theorem capacity_at {p : Params ny nx} {I : Val ny nx} (h : Ok p I) (c : Cell ny nx) :
    (capacity p I).at c = p.cap c (I.at c) := by
  rcases h with ⟨g, rfl⟩ | ⟨a, rfl, hu⟩
  · rfl
  · have hp : 0 < ny ∧ 0 < nx := ⟨lt_of_le_of_lt (Nat.zero_le _) c.1.2,
      lt_of_le_of_lt (Nat.zero_le _) c.2.2⟩
    simp only [capacity, hp, and_self, dite_true]
    simp only [Val.at]
    rw [hu]

theorem infilRate_at {p : Params ny nx} {I : Val ny nx} (h : Ok p I) (pt : Val ny nx)
    (c : Cell ny nx) : (infilRate p pt I).at c = min (p.cap c (I.at c)) (pt.at c) := by
  rw [infilRate, map2_at, capacity_at h]

/-- The rate of an update before the water table is considered. -/
def freeRate (p : Params ny nx) (i : Inp ny nx) (I : Val ny nx) (c : Cell ny nx) : ℝ :=
  if supply i c < p.Ks.at c then supply i c else min (p.cap c (I.at c)) (supply i c)

theorem rate_cases {p : Params ny nx} {s : St ny nx} (h : Ok p s.I) (i : Inp ny nx)
    (c : Cell ny nx) :
    (step p i s).IN.at c = freeRate p i s.I c ∨
      (p.elev c ≤ i.h_table.at c ∧ (step p i s).IN.at c = 0) := by
  have e1 : (checkLowRain p.Ks (surfaceInflux i) (infilRate p (surfaceInflux i) s.I)).at c
      = freeRate p i s.I c := by
    rw [checkLow_at, infilRate_at h, supply_at]
    rfl
  simp only [step, adjust]
  split_ifs with h1
  · exact Or.inl e1
  · by_cases h2 : p.elev c ≤ i.h_table.at c
    · right
      exact ⟨h2, if_pos h2⟩
    · left
      show (if p.elev c ≤ i.h_table.at c then 0 else _) = _
      rw [if_neg h2]
      exact e1

theorem freeRate_bounds {p : Params ny nx} {i : Inp ny nx} {I : Val ny nx} {c : Cell ny nx}
    (hs : 0 ≤ supply i c) (hc : 0 ≤ p.cap c (I.at c)) :
    0 ≤ freeRate p i I c ∧ freeRate p i I c ≤ supply i c := by
  unfold freeRate
  split_ifs
  · exact ⟨hs, le_rfl⟩
  · exact ⟨le_min hc hs, min_le_right _ _⟩

theorem step_ok {p : Params ny nx} {b : Bool} {is : List (Inp ny nx)} {i : Inp ny nx}
    {s : St ny nx} (hc : Consistent p b is) (hi : i ∈ is)
    (hI : (b = false ∧ ∃ g, s.I = .gr g) ∨ (b = true ∧ ∃ a, s.I = .sc a)) :
    (b = false ∧ ∃ g, (step p i s).I = .gr g) ∨ (b = true ∧ ∃ a, (step p i s).I = .sc a) := by
  rcases hI with ⟨hb, g, hg⟩ | ⟨hb, a, ha⟩
  · left
    refine ⟨hb, ?_⟩
    simp only [step, hg]
    generalize adjust p i.h_table (surfaceInflux i) _ = w
    cases w <;> exact ⟨_, rfl⟩
  · right
    refine ⟨hb, ?_⟩
    obtain ⟨hK, hu, hin⟩ := hc hb
    obtain ⟨h1, h2⟩ := hin i hi
    have e : ∃ x, adjust p i.h_table (surfaceInflux i) (infilRate p (surfaceInflux i) s.I) = .sc x := by
      cases hP : i.P_rain with
      | gr g => rw [hP] at h1; exact absurd h1 id
      | sc P =>
        cases hM : i.SM with
        | gr g => rw [hM] at h2; exact absurd h2 id
        | sc M =>
          cases hk : p.Ks with
          | gr g => rw [hk] at hK; exact absurd hK id
          | sc k =>
            have hpt : surfaceInflux i = .sc (P + M) := by simp [surfaceInflux, hP, hM, Val.map2]
            have hin : ∃ x, infilRate p (.sc (P + M)) s.I = .sc x := by
              rw [ha, infilRate, capacity]
              split_ifs <;> exact ⟨_, rfl⟩
            obtain ⟨x, hx⟩ := hin
            rw [hpt, hx]
            simp only [adjust, checkLowRain, hk, Val.sizeOne, Bool.and_self, if_true]
            split_ifs <;> first | exact ⟨_, rfl⟩ | simp_all
    obtain ⟨x, hx⟩ := e
    refine ⟨a + x * p.dt, ?_⟩
    show Val.map2 _ s.I (adjust p i.h_table (surfaceInflux i) (infilRate p (surfaceInflux i) s.I)) = _
    rw [hx, ha]
    rfl

theorem mode_ok {p : Params ny nx} {b : Bool} {is : List (Inp ny nx)} {s : St ny nx}
    (hc : Consistent p b is)
    (hI : (b = false ∧ ∃ g, s.I = .gr g) ∨ (b = true ∧ ∃ a, s.I = .sc a)) : Ok p s.I := by
  rcases hI with ⟨_, h⟩ | ⟨hb, a, ha⟩
  · exact Or.inl h
  · exact Or.inr ⟨a, ha, (hc hb).2.1⟩

/-- A capacity formula that is non-negative. -/
def Good (p : Params ny nx) : Prop := ∀ c I, 0 < I → 0 ≤ p.cap c I

/-- A capacity formula that is non-negative, decreases with depth, and is at least `Ks`. -/
structure Decreasing (p : Params ny nx) : Prop where
  nonneg : ∀ c I, 0 < I → 0 ≤ p.cap c I
  anti : ∀ c I I', 0 < I → I ≤ I' → p.cap c I' ≤ p.cap c I

theorem good_greenAmpt {p : Params ny nx} (h : IsGreenAmpt p) :
    Decreasing p ∧ ∀ c I, 0 < I → p.Ks.at c ≤ p.cap c I := by
  obtain ⟨Ki, qs, qi, G, h⟩ := h
  have lb : ∀ c I, 0 < I → p.Ks.at c ≤ p.cap c I := by
    intro c I hI
    obtain ⟨h0, h1, h2, h3, h4⟩ := h c
    rw [h4]
    unfold greenAmpt
    have : 0 ≤ G c * (p.Ks.at c - Ki c) * (qs c - qi c) / I :=
      div_nonneg (mul_nonneg (mul_nonneg h3 (by linarith)) (by linarith)) hI.le
    simp only
    linarith
  refine ⟨⟨?_, ?_⟩, lb⟩
  · intro c I hI
    obtain ⟨h0, h1, _⟩ := h c
    linarith [lb c I hI]
  · intro c I I' hI hII
    obtain ⟨h0, h1, h2, h3, h4⟩ := h c
    rw [h4, h4]
    unfold greenAmpt
    simp only
    have hn : 0 ≤ G c * (p.Ks.at c - Ki c) * (qs c - qi c) :=
      mul_nonneg (mul_nonneg h3 (by linarith)) (by linarith)
    have := div_le_div_of_nonneg_left hn hI hII
    linarith

theorem good_smithParlange {p : Params ny nx} (h : IsSmithParlange p) :
    Decreasing p ∧ ∀ c I, 0 < I → p.Ks.at c ≤ p.cap c I := by
  obtain ⟨Ki, qs, qi, G, gam, h⟩ := h
  have t2 : ∀ c I, 0 < I → 0 < Real.exp (gam c * I / (G c * (qs c - qi c))) - 1 := by
    intro c I hI
    obtain ⟨h0, h1, h2, h3, h4, h5⟩ := h c
    have : 0 < gam c * I / (G c * (qs c - qi c)) :=
      div_pos (mul_pos h4 hI) (mul_pos h3 (by linarith))
    linarith [Real.add_one_lt_exp this.ne']
  have lb : ∀ c I, 0 < I → p.Ks.at c ≤ p.cap c I := by
    intro c I hI
    obtain ⟨h0, h1, h2, h3, h4, h5⟩ := h c
    rw [h5]
    unfold smithParlange
    have : 0 ≤ gam c * (p.Ks.at c - Ki c) / (Real.exp (gam c * I / (G c * (qs c - qi c))) - 1) :=
      div_nonneg (mul_nonneg h4.le (by linarith)) (t2 c I hI).le
    simp only
    linarith
  refine ⟨⟨?_, ?_⟩, lb⟩
  · intro c I hI
    obtain ⟨h0, h1, _⟩ := h c
    linarith [lb c I hI]
  · intro c I I' hI hII
    obtain ⟨h0, h1, h2, h3, h4, h5⟩ := h c
    rw [h5, h5]
    unfold smithParlange
    simp only
    have hn : 0 ≤ gam c * (p.Ks.at c - Ki c) := mul_nonneg h4.le (by linarith)
    have hle : Real.exp (gam c * I / (G c * (qs c - qi c)))
        ≤ Real.exp (gam c * I' / (G c * (qs c - qi c))) := by
      apply Real.exp_le_exp.mpr
      have : 0 < G c * (qs c - qi c) := mul_pos h3 (by linarith)
      gcongr
    have := div_le_div_of_nonneg_left hn (t2 c I hI) (by linarith :
      Real.exp (gam c * I / (G c * (qs c - qi c))) - 1
        ≤ Real.exp (gam c * I' / (G c * (qs c - qi c))) - 1)
    linarith

/-- Depth, with all the invariants of a run. -/
theorem run_inv {p : Params ny nx} {b : Bool} {all : List (Inp ny nx)} (hg : Good p)
    (hdt : 0 ≤ p.dt) (hc : Consistent p b all) (hw : Wet all) :
    ∀ (is : List (Inp ny nx)) (s : St ny nx), (∀ i ∈ is, i ∈ all) →
      ((b = false ∧ ∃ g, s.I = .gr g) ∨ (b = true ∧ ∃ a, s.I = .sc a)) →
      (∀ c, 0 < s.I.at c) →
      ((b = false ∧ ∃ g, (run p s is).I = .gr g) ∨ (b = true ∧ ∃ a, (run p s is).I = .sc a)) ∧
      ∀ c, s.I.at c ≤ (run p s is).I.at c ∧
        (run p s is).I.at c ≤ s.I.at c + totalSupply p.dt is c := by
  intro is
  induction is with
  | nil => intro s _ hm hp; exact ⟨hm, fun c => ⟨le_rfl, by simp [run, totalSupply]⟩⟩
  | cons i is ih =>
    intro s hsub hm hp
    have hi := hsub i (List.mem_cons_self ..)
    have hok := mode_ok hc hm
    have hm' := step_ok hc hi hm
    have hstep : ∀ c, s.I.at c ≤ (step p i s).I.at c ∧
        (step p i s).I.at c ≤ s.I.at c + supply i c * p.dt := by
      intro c
      have hI : (step p i s).I.at c = s.I.at c + (step p i s).IN.at c * p.dt := map2_at _ _ _ _
      have hs : 0 ≤ supply i c := add_nonneg (hw i hi c).1 (hw i hi c).2
      have hb := freeRate_bounds (p := p) (I := s.I) hs (hg c _ (hp c))
      have h01 : 0 ≤ (step p i s).IN.at c ∧ (step p i s).IN.at c ≤ supply i c := by
        rcases rate_cases hok i c with h | ⟨_, h⟩
        · rw [h]; exact hb
        · rw [h]; exact ⟨le_rfl, hs⟩
      rw [hI]
      have h1 := mul_nonneg h01.1 hdt
      have h2 := mul_le_mul_of_nonneg_right h01.2 hdt
      exact ⟨by linarith, by linarith⟩
    obtain ⟨h1, h2⟩ := ih (step p i s) (fun j hj => hsub j (List.mem_cons_of_mem _ hj)) hm'
      (fun c => lt_of_lt_of_le (hp c) (hstep c).1)
    refine ⟨h1, fun c => ?_⟩
    have e : totalSupply p.dt (i :: is) c = supply i c * p.dt + totalSupply p.dt is c := by
      simp [totalSupply]
    obtain ⟨a1, a2⟩ := hstep c
    obtain ⟨b1, b2⟩ := h2 c
    refine ⟨le_trans a1 b1, ?_⟩
    show (run p (step p i s) is).I.at c ≤ _
    rw [e]
    linarith

theorem init_mode (b : Bool) : (b = false ∧ ∃ g, (initSt b : St ny nx).I = .gr g) ∨
    (b = true ∧ ∃ a, (initSt b : St ny nx).I = .sc a) := by
  cases b
  · exact Or.inl ⟨rfl, _, rfl⟩
  · exact Or.inr ⟨rfl, _, rfl⟩

theorem init_I (b : Bool) (c : Cell ny nx) : (initSt b : St ny nx).I.at c = 1e-6 := by
  cases b <;> rfl

/-- What holds of each update in any history, for capacity formulas that are non-negative. -/
theorem history_bounds {p : Params ny nx} {b : Bool} {past : List (Inp ny nx)} {i : Inp ny nx}
    (hg : Good p) (hdt : 0 ≤ p.dt) (hc : Consistent p b (past ++ [i])) (hw : Wet (past ++ [i]))
    (c : Cell ny nx) :
    let s := run p (initSt b) past
    let s' := step p i s
    (0 ≤ s'.IN.at c ∧ s'.IN.at c ≤ supply i c) ∧
    (s'.I.at c = s.I.at c + s'.IN.at c * p.dt ∧ s.I.at c ≤ s'.I.at c) ∧
    (1e-6 ≤ s.I.at c ∧ s.I.at c ≤ 1e-6 + totalSupply p.dt past c) := by
  intro s s'
  obtain ⟨hm, hb⟩ := run_inv hg hdt hc hw past (initSt b)
    (fun j hj => List.mem_append_left _ hj) (init_mode b)
    (fun c => by rw [init_I]; norm_num)
  have hi : i ∈ past ++ [i] := by simp
  have hok := mode_ok hc hm
  have hbc := hb c
  rw [init_I] at hbc
  have hpos : 0 < s.I.at c := lt_of_lt_of_le (by norm_num) hbc.1
  have hs : 0 ≤ supply i c := add_nonneg (hw i hi c).1 (hw i hi c).2
  have hfb := freeRate_bounds (p := p) (I := s.I) hs (hg c _ hpos)
  have h01 : 0 ≤ s'.IN.at c ∧ s'.IN.at c ≤ supply i c := by
    rcases rate_cases hok i c with h | ⟨_, h⟩
    · show 0 ≤ (step p i s).IN.at c ∧ (step p i s).IN.at c ≤ _
      rw [h]; exact hfb
    · show 0 ≤ (step p i s).IN.at c ∧ (step p i s).IN.at c ≤ _
      rw [h]; exact ⟨le_rfl, hs⟩
  have hI : s'.I.at c = s.I.at c + s'.IN.at c * p.dt := map2_at _ _ _ _
  refine ⟨h01, ⟨hI, ?_⟩, hbc⟩
  rw [hI]
  linarith [mul_nonneg h01.1 hdt]

/-- **C29.**  Green-Ampt (and Smith-Parlange) infiltration, in every update after every history of
rain, snowmelt and water tables and in every cell: the rate is not negative and at most the supply;
it is at least the smaller of the supply and the saturated conductivity, except where the water table
has reached the surface; the infiltrated depth grows by exactly the rate times the time step, and
never exceeds its initial value (one micrometre) plus all the water supplied so far. -/
theorem C29_bounds {p : Params ny nx} {b : Bool} {past : List (Inp ny nx)} {i : Inp ny nx}
    (hp : IsGreenAmpt p ∨ IsSmithParlange p) (hdt : 0 ≤ p.dt)
    (hc : Consistent p b (past ++ [i])) (hw : Wet (past ++ [i])) (c : Cell ny nx) :
    let s := run p (initSt b) past
    let s' := step p i s
    (0 ≤ s'.IN.at c ∧ s'.IN.at c ≤ supply i c) ∧
    (i.h_table.at c < p.elev c → min (supply i c) (p.Ks.at c) ≤ s'.IN.at c) ∧
    (s'.I.at c = s.I.at c + s'.IN.at c * p.dt ∧ s.I.at c ≤ s'.I.at c) ∧
    (1e-6 ≤ s.I.at c ∧ s.I.at c ≤ 1e-6 + totalSupply p.dt past c) := by
  intro s s'
  have hgk : Decreasing p ∧ ∀ c I, 0 < I → p.Ks.at c ≤ p.cap c I :=
    hp.elim good_greenAmpt good_smithParlange
  obtain ⟨h1, h2, h3⟩ := history_bounds hgk.1.nonneg hdt hc hw c
  refine ⟨h1, ?_, h2, h3⟩
  intro hdry
  obtain ⟨hm, _⟩ := run_inv hgk.1.nonneg hdt hc hw past (initSt b)
    (fun j hj => List.mem_append_left _ hj) (init_mode b)
    (fun c => by rw [init_I]; norm_num)
  have hpos : 0 < s.I.at c := lt_of_lt_of_le (by norm_num) h3.1
  have hk := hgk.2 c _ hpos
  rcases rate_cases (mode_ok hc hm) i c with h | ⟨h, _⟩
  · show _ ≤ (step p i s).IN.at c
    rw [h]
    unfold freeRate
    split_ifs
    · exact min_le_left _ _
    · exact le_min (le_trans (min_le_right _ _) hk) (min_le_left _ _)
  · exact absurd h (not_le.mpr hdry)

/-- **C29.**  The running total of infiltrated volume that the component reports is, after any history,
the increase of the infiltrated depth, summed over the cells times their areas. -/
theorem C29_volume (p : Params ny nx) (b : Bool) (is : List (Inp ny nx)) :
    (run p (initSt b) is).vol_IN
      = ∑ c, ((run p (initSt b) is).I.at c - 1e-6) * p.da c := by
  have gen : ∀ (is : List (Inp ny nx)) (s : St ny nx),
      (run p s is).vol_IN = s.vol_IN + ∑ c, ((run p s is).I.at c - s.I.at c) * p.da c := by
    intro is
    induction is with
    | nil => intro s; simp [run]
    | cons i is ih =>
      intro s
      show (run p (step p i s) is).vol_IN = _
      rw [ih (step p i s)]
      have h1 : (step p i s).vol_IN
          = s.vol_IN + ∑ c, (step p i s).IN.at c * p.da c * p.dt := rfl
      have h2 : ∀ c, (step p i s).I.at c = s.I.at c + (step p i s).IN.at c * p.dt :=
        fun c => map2_at _ _ _ _
      rw [h1, add_assoc, ← Finset.sum_add_distrib]
      congr 1
      apply Finset.sum_congr rfl
      intro c _
      rw [h2 c]
      show _ = ((run p (step p i s) is).I.at c - _) * _
      ring
  rw [gen is (initSt b)]
  simp only [init_I]
  show (0 : ℝ) + _ = _
  rw [zero_add]

/-- The water table is not looked at when the supply and the conductivity have size one and the supply
is below the conductivity, or when the grid is a single cell. -/
def Skips (p : Params ny nx) (i : Inp ny nx) : Prop :=
  ((surfaceInflux i).sizeOne && p.Ks.sizeOne) = true ∧
    (surfaceInflux i).item < p.Ks.item ∨ ny * nx = 1

theorem rate_grid {p : Params ny nx} {i : Inp ny nx} {u : St ny nx} {w : Cell ny nx → ℝ}
    (hu : u.I = .gr w) (c : Cell ny nx) :
    (Skips p i → (step p i u).IN.at c = freeRate p i u.I c) ∧
    (¬ Skips p i → (step p i u).IN.at c =
      if p.elev c ≤ i.h_table.at c then 0 else freeRate p i u.I c) := by
  have e1 : (checkLowRain p.Ks (surfaceInflux i) (infilRate p (surfaceInflux i) u.I)).at c
      = freeRate p i u.I c := by
    rw [checkLow_at, infilRate_at (Or.inl ⟨w, hu⟩), supply_at]
    rfl
  have e2 : (checkLowRain p.Ks (surfaceInflux i) (infilRate p (surfaceInflux i) u.I)).sizeOne = true
      ↔ Skips p i := by
    unfold checkLowRain Skips
    by_cases hA : ((surfaceInflux i).sizeOne && p.Ks.sizeOne) = true
    · rw [if_pos hA]
      by_cases hB : (surfaceInflux i).item < p.Ks.item
      · rw [if_pos hB]
        rw [Bool.and_eq_true] at hA
        simp [hA, hB]
      · rw [if_neg hB]
        have h1 : (infilRate p (surfaceInflux i) u.I).sizeOne = true ↔ ny * nx = 1 := by
          rw [hu, infilRate, capacity]
          generalize surfaceInflux i = v
          cases v <;> exact decide_eq_true_iff
        rw [h1]
        exact ⟨Or.inr, fun h => h.elim (fun h => absurd h.2 hB) id⟩
    · rw [if_neg hA]
      have h1 : (Val.gr (fun c => if (surfaceInflux i).at c < p.Ks.at c then (surfaceInflux i).at c
          else (infilRate p (surfaceInflux i) u.I).at c) : Val ny nx).sizeOne = true
          ↔ ny * nx = 1 := decide_eq_true_iff
      rw [h1]
      exact ⟨Or.inr, fun h => h.elim (fun h => absurd h.1 hA) id⟩
  simp only [step, adjust]
  constructor
  · intro h
    rw [if_pos (e2.mpr h)]
    exact e1
  · intro h
    rw [if_neg (fun h' => h (e2.mp h'))]
    show (if p.elev c ≤ i.h_table.at c then 0 else _) = _
    rw [e1]

/-- **C29.**  At the same supply and water table, a cell that has already taken in more water takes in
no more than it would have, had it taken in less. -/
theorem C29_decreases_with_depth {p : Params ny nx} (hp : IsGreenAmpt p ∨ IsSmithParlange p)
    (i : Inp ny nx) (s t : St ny nx) (g g' : Cell ny nx → ℝ) (hs : s.I = .gr g) (ht : t.I = .gr g')
    (c : Cell ny nx) (h0 : 0 < g c) (hle : g c ≤ g' c) :
    (step p i t).IN.at c ≤ (step p i s).IN.at c := by
  have hgk : Decreasing p := (hp.elim good_greenAmpt good_smithParlange).1
  have hmono : freeRate p i t.I c ≤ freeRate p i s.I c := by
    unfold freeRate
    split_ifs
    · exact le_rfl
    · rw [hs, ht]
      exact min_le_min (hgk.anti c _ _ h0 hle) le_rfl
  by_cases hk : Skips p i
  · rw [(rate_grid hs c).1 hk, (rate_grid ht c).1 hk]
    exact hmono
  · rw [(rate_grid hs c).2 hk, (rate_grid ht c).2 hk]
    split_ifs
    · exact le_rfl
    · exact hmono

/-- **C30 (part).**  When not all inputs are scalars, and supply and conductivity are not both scalars
with the supply below the conductivity, the rate is zero in every cell where the water table has
reached the surface, and elsewhere it is the computed rate: all the supply when that is below the
conductivity, else the smaller of the supply and the capacity.
Missing: the remaining case, in which the claim is false (`C30_violated`). -/
theorem C30_water_table_partial {p : Params ny nx} (hsize : 1 < ny * nx) (i : Inp ny nx)
    (s : St ny nx) (g : Cell ny nx → ℝ) (hs : s.I = .gr g)
    (hcase : ¬ (IsScalar i.P_rain ∧ IsScalar i.SM ∧ IsScalar p.Ks) ∨
      ∀ c, p.Ks.at c ≤ supply i c) (c : Cell ny nx) :
    (p.elev c ≤ i.h_table.at c → (step p i s).IN.at c = 0) ∧
    (i.h_table.at c < p.elev c → (step p i s).IN.at c =
      if supply i c < p.Ks.at c then supply i c else min (p.cap c (g c)) (supply i c)) := by
  have hk : ¬ Skips p i := by
    rintro (⟨h1, h2⟩ | h)
    · rw [Bool.and_eq_true] at h1
      rw [item_eq _ h1.1 c, item_eq _ h1.2 c, supply_at] at h2
      rcases hcase with hc | hc
      · apply hc
        have hgr : ∀ v : Val ny nx, v.sizeOne = true → IsScalar v := by
          intro v hv
          cases v with
          | sc a => trivial
          | gr g =>
            have : ny * nx = 1 := by simpa [Val.sizeOne] using hv
            omega
        refine ⟨?_, ?_, hgr _ h1.2⟩
        · have := hgr _ h1.1
          unfold surfaceInflux at this
          cases h : i.P_rain with
          | sc a => trivial
          | gr g => rw [h] at this; exact absurd this id
        · have := hgr _ h1.1
          unfold surfaceInflux at this
          cases h : i.SM with
          | sc a => trivial
          | gr g =>
            rw [h] at this
            cases h' : i.P_rain <;> rw [h'] at this <;> exact absurd this id
      · exact absurd h2 (not_lt.mpr (hc c))
    · omega
  rw [(rate_grid hs c).2 hk]
  constructor
  · intro h; rw [if_pos h]
  · intro h
    rw [if_neg (not_le.mpr h), freeRate, hs]
    rfl

/-- **C30 is violated** by every run with uniform rain, snowmelt and conductivity in which the supply
is positive and below the conductivity: water infiltrates at the full supply rate in every cell,
wherever the water table is, because the low rain check replaces the grid of rates by a scalar and
the water table is then not looked at. -/
theorem C30_violated (p : Params ny nx) (i : Inp ny nx) (s : St ny nx) (P M k : ℝ)
    (hP : i.P_rain = .sc P) (hM : i.SM = .sc M) (hk : p.Ks = .sc k) (hlow : P + M < k)
    (c : Cell ny nx) : (step p i s).IN.at c = P + M := by
  have hpt : surfaceInflux i = .sc (P + M) := by simp [surfaceInflux, hP, hM, Val.map2]
  simp only [step, adjust, checkLowRain, hpt, hk, Val.sizeOne, Val.item, Bool.and_self, if_true, hlow]
  rfl

/-- When the infiltrated depth is a scalar (all inputs are scalars) the water table is never looked
at. -/
theorem C30_scalar_ignored {p : Params ny nx} {is : List (Inp ny nx)} (hc : Consistent p true is)
    (i : Inp ny nx) (hi : i ∈ is) (s : St ny nx) (a : ℝ) (hs : s.I = .sc a) (h : Val ny nx)
    (c : Cell ny nx) :
    (step p { i with h_table := h } s).IN.at c = (step p i s).IN.at c ∧
    (step p i s).IN.at c =
      if supply i c < p.Ks.at c then supply i c else min (p.cap c a) (supply i c) := by
  obtain ⟨hK, hu, hin⟩ := hc rfl
  obtain ⟨h1, h2⟩ := hin i hi
  have e : ∀ h, (checkLowRain p.Ks (surfaceInflux { i with h_table := h })
      (infilRate p (surfaceInflux { i with h_table := h }) s.I)).sizeOne = true := by
    intro h
    cases hP : i.P_rain with
    | gr g => rw [hP] at h1; exact absurd h1 id
    | sc P =>
      cases hM : i.SM with
      | gr g => rw [hM] at h2; exact absurd h2 id
      | sc M =>
        cases hk : p.Ks with
        | gr g => rw [hk] at hK; exact absurd hK id
        | sc k =>
          have hpt : surfaceInflux { P_rain := Val.sc P, SM := Val.sc M, h_table := h }
              = .sc (P + M) := rfl
          have hin : ∃ x, infilRate p (.sc (P + M)) s.I = .sc x := by
            rw [hs, infilRate, capacity]
            split_ifs <;> exact ⟨_, rfl⟩
          obtain ⟨x, hx⟩ := hin
          rw [hpt, hx]
          simp only [checkLowRain, Val.sizeOne, Bool.and_self, if_true]
          split_ifs <;> rfl
  have e1 : (checkLowRain p.Ks (surfaceInflux i) (infilRate p (surfaceInflux i) s.I)).at c
      = freeRate p i s.I c := by
    rw [checkLow_at, infilRate_at (Or.inr ⟨a, hs, hu⟩), supply_at]
    rfl
  have e0 : ∀ h, (step p { i with h_table := h } s).IN.at c = freeRate p i s.I c := by
    intro h
    simp only [step, adjust]
    rw [if_pos (e h)]
    exact e1
  refine ⟨by rw [e0 h]; exact (e0 i.h_table).symm, ?_⟩
  have := e0 i.h_table
  rw [freeRate, hs] at this
  exact this

/-- In a cell where the water table is below the surface the water table plays no role. -/
theorem rate_dry {p : Params ny nx} {s : St ny nx} (h : Ok p s.I) (i : Inp ny nx)
    (c : Cell ny nx) (hdry : i.h_table.at c < p.elev c) :
    (step p i s).IN.at c = freeRate p i s.I c := by
  rcases rate_cases h i c with h | ⟨h, _⟩
  · exact h
  · exact absurd h (not_le.mpr hdry)

/-- **C50.**  Green-Ampt and Smith-Parlange: in any state, in every cell whose water table is below the
surface, a larger supply never gives a smaller infiltration rate. -/
theorem C50_more_supply_more_infiltration {p : Params ny nx}
    (hp : IsGreenAmpt p ∨ IsSmithParlange p) (i j : Inp ny nx) (s : St ny nx) (g : Cell ny nx → ℝ)
    (hs : s.I = .gr g) (hpos : ∀ c, 0 < g c) (c : Cell ny nx)
    (hdry : i.h_table.at c < p.elev c) (hdry' : j.h_table.at c < p.elev c)
    (hle : supply i c ≤ supply j c) :
    (step p i s).IN.at c ≤ (step p j s).IN.at c := by
  have hgk := hp.elim good_greenAmpt good_smithParlange
  have hK : p.Ks.at c ≤ p.cap c (s.I.at c) := by
    rw [hs]; exact hgk.2 c _ (hpos c)
  have hok : Ok p s.I := Or.inl ⟨g, hs⟩
  rw [rate_dry hok i c hdry, rate_dry hok j c hdry']
  unfold freeRate
  split_ifs with h1 h2 h2
  · exact hle
  · exact le_min (le_trans h1.le hK) hle
  · exact le_trans (min_le_right _ _) hle
  · exact min_le_min le_rfl hle

theorem beven_form {Ks qs qi f C I : ℝ} (hq : qi < qs) (hf : f < 0) (hI : 0 < I) :
    let x := -f * I / (qs - qi)
    let y := -f * C / (qs - qi)
    0 < x ∧ beven Ks qs qi f C I = Ks * ((y + x) / (Real.exp x - 1)) := by
  intro x y
  have hd : 0 < qs - qi := by linarith
  have hx : 0 < x := div_pos (mul_pos (by linarith) hI) hd
  have he : 0 < Real.exp x - 1 := by linarith [Real.add_one_lt_exp hx.ne']
  refine ⟨hx, ?_⟩
  have e1 : (-1 * f * I / (qs - qi)) = x := by show _ = -f * I / (qs - qi); ring
  unfold beven
  simp only [e1]
  rw [show (1 - Real.exp x) = -(Real.exp x - 1) by ring, div_neg, ← neg_div]
  rw [mul_div_assoc']
  congr 1
  show -(Ks * f / (qs - qi) * (C + I)) = Ks * (-f * C / (qs - qi) + -f * I / (qs - qi))
  field_simp
  ring

/-- **C29 for Beven's method (part).**  The rate is not negative, at most the supply, and the
infiltrated depth obeys the same bounds.  Missing: "at least the smaller of supply and conductivity"
and "more supply, more infiltration", which are false (`C50_beven_violated`). -/
theorem C29_beven_partial {p : Params ny nx} {b : Bool} {past : List (Inp ny nx)} {i : Inp ny nx}
    (hp : IsBeven p) (hdt : 0 ≤ p.dt)
    (hc : Consistent p b (past ++ [i])) (hw : Wet (past ++ [i])) (c : Cell ny nx) :
    let s := run p (initSt b) past
    let s' := step p i s
    (0 ≤ s'.IN.at c ∧ s'.IN.at c ≤ supply i c) ∧
    (s'.I.at c = s.I.at c + s'.IN.at c * p.dt ∧ s.I.at c ≤ s'.I.at c) ∧
    (1e-6 ≤ s.I.at c ∧ s.I.at c ≤ 1e-6 + totalSupply p.dt past c) := by
  have hg : Good p := by
    intro c I hI
    obtain ⟨qs, qi, f, C, h⟩ := hp
    obtain ⟨hK, hq, hf, hC, hcap⟩ := h c
    obtain ⟨hx, he⟩ := beven_form (Ks := p.Ks.at c) (C := C c) hq hf hI
    rw [hcap, he]
    have hy : 0 ≤ -f c * C c / (qs c - qi c) :=
      div_nonneg (mul_nonneg (by linarith) hC) (by linarith)
    have hp : 0 ≤ Real.exp (-f c * I / (qs c - qi c)) - 1 := by
      linarith [Real.add_one_le_exp (-f c * I / (qs c - qi c))]
    exact mul_nonneg hK (div_nonneg (by linarith) hp)
  exact history_bounds hg hdt hc hw c

/-- **C50 is violated by Beven's method**, for every soil: once the infiltrated depth is large enough
(`2 C Δθ < -f I²`) there are supply rates just above the conductivity for which *less* water
infiltrates than for a smaller supply: every supply `P ≥ Ks` infiltrates less than the supply
`Ks - ε`, for every small enough `ε`. -/
theorem C50_beven_violated {p : Params ny nx} (i j : Inp ny nx) (s : St ny nx) (g : Cell ny nx → ℝ)
    (hs : s.I = .gr g) (c : Cell ny nx) (qs qi f C : ℝ) (hK : 0 < p.Ks.at c) (hq : qi < qs)
    (hf : f < 0) (hcap : ∀ I, p.cap c I = beven (p.Ks.at c) qs qi f C I)
    (hI : 0 < g c) (hdeep : 2 * C * (qs - qi) < -f * g c ^ 2)
    (hdry : i.h_table.at c < p.elev c) (hdry' : j.h_table.at c < p.elev c)
    (hj : p.Ks.at c ≤ supply j c) :
    p.cap c (g c) < p.Ks.at c ∧
    (p.cap c (g c) < supply i c → supply i c < p.Ks.at c →
      supply i c < supply j c ∧ (step p j s).IN.at c < (step p i s).IN.at c) := by
  have hlow : p.cap c (g c) < p.Ks.at c := by
    obtain ⟨hx, he⟩ := beven_form (Ks := p.Ks.at c) (C := C) hq hf hI
    rw [hcap, he]
    have hd : 0 < qs - qi := by linarith
    set x := -f * g c / (qs - qi) with hxd
    have hexp := Real.quadratic_le_exp_of_nonneg hx.le
    have hy : -f * C / (qs - qi) < x ^ 2 / 2 := by
      rw [hxd, div_pow, div_div, div_lt_div_iff₀ hd (by positivity)]
      have h1 : 0 < -f * (qs - qi) := mul_pos (by linarith) hd
      nlinarith [mul_lt_mul_of_pos_left hdeep h1]
    have hpos : 0 < Real.exp x - 1 := by linarith [Real.add_one_lt_exp hx.ne']
    have : (-f * C / (qs - qi) + x) / (Real.exp x - 1) < 1 := by
      rw [div_lt_one hpos]; linarith
    nlinarith
  refine ⟨hlow, ?_⟩
  intro h1 h2
  refine ⟨lt_of_lt_of_le h2 hj, ?_⟩
  have hok : Ok p s.I := Or.inl ⟨g, hs⟩
  rw [rate_dry hok i c hdry, rate_dry hok j c hdry', freeRate, freeRate, if_pos h2,
    if_neg (not_lt.mpr hj)]
  refine lt_of_le_of_lt (min_le_left _ _) ?_
  rw [hs]
  exact h1

/-! ### Concrete cases -/

/-- A 2 by 2 grid of Green-Ampt soil. -/
def gaParams : Params 2 2 :=
  { Ks := .sc 2, cap := fun _ I => greenAmpt 2 1 (1/2) (1/4) 1 I, da := fun _ => 1, dt := 1,
    elev := fun _ => 10 }

/-- Heavy rain (rate 3), with the water table at the surface in the first row only. -/
def heavy : Inp 2 2 :=
  { P_rain := .sc 3, SM := .sc 0, h_table := .gr (fun c => if c.1 = 0 then 10 else 5) }

/-- Light rain (rate 1), below the conductivity. -/
def light : Inp 2 2 := { heavy with P_rain := .sc 1 }

theorem ga_ok : IsGreenAmpt gaParams :=
  ⟨fun _ => 1, fun _ => 1/2, fun _ => 1/4, fun _ => 1, fun c => by
    refine ⟨by norm_num, ?_, by norm_num, by norm_num, fun I => rfl⟩
    show (1:ℝ) ≤ 2; norm_num⟩

example : Consistent gaParams false ([heavy, light] ++ [heavy]) ∧
    Wet ([heavy, light] ++ [heavy]) ∧ (0:ℝ) ≤ gaParams.dt := by
  refine ⟨fun h => absurd h (by decide), ?_, by norm_num [gaParams]⟩
  intro i hi c
  simp only [List.cons_append, List.nil_append, List.mem_cons, List.not_mem_nil, or_false] at hi
  rcases hi with rfl | rfl | rfl <;> norm_num [heavy, light, Val.at]

/-- In heavy rain the water table is respected: nothing infiltrates in the first row. -/
example : (step gaParams heavy (initSt false)).IN.at (0, 1) = 0 :=
  (C30_water_table_partial (by norm_num) heavy (initSt false) _ rfl
    (Or.inr (fun c => by norm_num [heavy, gaParams, supply, Val.at])) (0, 1)).1
    (by norm_num [gaParams, heavy, Val.at])

/-- In light rain it is not: the whole supply infiltrates although the table is at the surface. -/
example : (step gaParams light (initSt false)).IN.at (0, 1) = 1 ∧
    gaParams.elev (0, 1) ≤ light.h_table.at (0, 1) := by
  refine ⟨?_, by norm_num [gaParams, light, heavy, Val.at]⟩
  have := C30_violated gaParams light (initSt false) 1 0 2 rfl rfl rfl (by norm_num) (0, 1)
  rw [this]; norm_num

/-- Beven soil: conductivity 1, `f = -1`, `C = 0`, with a depth of 1 already infiltrated. -/
def bevenParams : Params 1 2 :=
  { Ks := .sc 1, cap := fun _ I => beven 1 1 0 (-1) 0 I, da := fun _ => 1, dt := 1,
    elev := fun _ => 10 }

example : ∃ (i j : Inp 1 2) (s : St 1 2), supply i (0, 0) < supply j (0, 0) ∧
    (step bevenParams j s).IN.at (0, 0) < (step bevenParams i s).IN.at (0, 0) := by
  let s : St 1 2 := { (initSt false : St 1 2) with I := .gr (fun _ => 1) }
  let mk (P : ℝ) : Inp 1 2 := { P_rain := .sc P, SM := .sc 0, h_table := .sc 0 }
  have key := fun i j hi => C50_beven_violated (p := bevenParams) i j s (fun _ => 1) rfl (0, 0) 1 0
    (-1) 0 (by norm_num [bevenParams, Val.at]) (by norm_num) (by norm_num) (fun _ => rfl)
    (by norm_num) (by norm_num) hi
  have hcap := (key (mk 0) (mk 1) (by norm_num [mk, Val.at, bevenParams])
    (by norm_num [mk, Val.at, bevenParams]) (by norm_num [mk, Val.at, bevenParams, supply])).1
  have hk : bevenParams.Ks.at (0, 0) = 1 := rfl
  rw [hk] at hcap
  set q := bevenParams.cap (0, 0) 1
  refine ⟨mk ((q + 1) / 2), mk 1, s, ?_⟩
  have hsup : supply (mk ((q + 1) / 2)) (0, 0) = (q + 1) / 2 := by simp [supply, mk, Val.at]
  exact (key (mk ((q + 1) / 2)) (mk 1) (by norm_num [mk, Val.at, bevenParams])
    (by norm_num [mk, Val.at, bevenParams]) (by norm_num [mk, Val.at, bevenParams, supply])).2
    (by rw [hsup]; show q < _; linarith) (by rw [hsup, hk]; linarith)

end Infil
