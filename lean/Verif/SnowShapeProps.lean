import Verif.SnowShapeModel
import Mathlib.Algebra.Order.Ring.Rat
import Mathlib.Data.Rat.Floor
import Mathlib.Tactic.Ring
import Mathlib.Tactic.NormNum

/-!
# C252: numbers, time series and grids as input of the snow components
-/

set_option autoImplicit false

/-! What the documentation promises, without reference to the model: any mixture of numbers and grids
is accepted, and every cell follows the formulas with the values of that cell at that time. -/
namespace SnowShapeSpec

variable {K : Type*} [Field K] [LinearOrder K]

/-- Degree-day melt rate of a cell: `c0` in mm per day and degree. -/
def degreeDayMelt (c0 T T0 : K) : K := c0 / 86400000 * (T - T0)

/-- Energy balance melt rate: the energy of the step beyond the cold content, spread over the step. -/
def energyMelt (Q ecc dt : K) : K := max (Q * dt - ecc) 0 / dt / 334000000

/-- Melt is limited by the snow there is and not negative. -/
def limited (m swe dt : K) : K := max (min m (swe / dt)) 0

/-- Water equivalent after snowfall and melt. -/
def balance (swe P m dt : K) : K := max (swe + P * dt - m * dt) 0

end SnowShapeSpec

namespace SnowShape

variable {K : Type*} [Field K] [LinearOrder K] {C : Type*}

/-- Not a bare number, so that it can be changed in place. -/
def Val.mut : Val K C → Bool
  | .num _ => false
  | _ => true

theorem isGrid_op (f : K → K → K) (a b : Val K C) :
    (op f a b).isGrid = (a.isGrid || b.isGrid) := by
  cases a <;> cases b <;> rfl

theorem at_op (f : K → K → K) (a b : Val K C) (c : C) :
    (op f a b).at c = f (a.at c) (b.at c) := by
  cases a <;> cases b <;> rfl

theorem op_mut (f : K → K → K) (a b : Val K C) :
    (op f a b).mut = (a.isGrid || b.isGrid) := by
  cases a <;> cases b <;> rfl

theorem inPlace_iff (f : K → K → K) (x y : Val K C) :
    (∃ z, inPlace f x y = .ok z) ↔ x.mut = true ∧ (x.isGrid = true ∨ y.isGrid = false) := by
  cases x <;> cases y <;> simp [inPlace, Val.mut, Val.isGrid]

theorem inPlace_ok {f : K → K → K} {x y z : Val K C} (h : inPlace f x y = .ok z) :
    z.isGrid = x.isGrid ∧ z.mut = true ∧ ∀ c, z.at c = f (x.at c) (y.at c) := by
  cases x <;> cases y <;> simp only [inPlace] at h <;> cases h <;>
    exact ⟨rfl, rfl, fun _ => rfl⟩

theorem store_iff (x v : Val K C) :
    (∃ z, store x v = .ok z) ↔ x.isGrid = true ∨ v.isGrid = false := by
  cases x <;> cases v <;> simp [store, fill, Val.isGrid]

theorem store_ok {x v z : Val K C} (h : store x v = .ok z) :
    z.isGrid = x.isGrid ∧ z.mut = x.mut ∧ (x.mut = true → ∀ c, z.at c = v.at c) ∧
    (x.mut = false → z = x) := by
  cases x <;> cases v <;> simp [store, fill, Val.isGrid] at h <;> subst h <;>
    simp [Val.isGrid, Val.mut, Val.at]

/-- The same variables are grids at both times. -/
structure SameShape (i j : Inp K C) : Prop where
  c0 : j.c0.isGrid = i.c0.isGrid
  T0 : j.T0.isGrid = i.T0.isGrid
  rho : j.rho_snow.isGrid = i.rho_snow.isGrid
  T : j.T_air.isGrid = i.T_air.isGrid
  P : j.P_snow.isGrid = i.P_snow.isGrid

/-- The rates and depths of the component are grids from the start. -/
def Big (g : Cfg K C) (i : Inp K C) : Prop :=
  i.T_air.isGrid = true ∨ i.P_snow.isGrid = true ∨ g.kind = .energyBalance

instance (g : Cfg K C) (i : Inp K C) : Decidable (Big g i) := by unfold Big; infer_instance

/-- The objects of the component. -/
structure Shaped (g : Cfg K C) (i : Inp K C) (s : St K C) : Prop where
  SM : s.SM.isGrid = true ↔ Big g i
  SM_mut : s.SM.mut = true
  h_snow : s.h_snow.isGrid = true ↔ Big g i ∨ g.h0_snow.isGrid = true
  h_snow_mut : s.h_snow.mut = true
  h_swe : s.h_swe.isGrid = true ↔ Big g i ∨ g.h0_swe.isGrid = true
  h_swe_mut : s.h_swe.mut = true
  ratio : s.ratio.isGrid = i.rho_snow.isGrid
  ratio_mut : s.ratio.mut = i.rho_snow.isGrid
  Ecc : s.Ecc.isGrid = true
  Ecc_mut : s.Ecc.mut = true

theorem initCold_iff (g : Cfg K C) (i : Inp K C) :
    (∃ e, initCold g i = .ok e) ↔
      i.rho_snow.isGrid = true ∨ g.Cp_snow.isGrid = true ∨ g.h0_snow.isGrid = true ∨
      g.T0cc.isGrid = true ∨ g.T_surf.isGrid = true := by
  unfold initCold
  rw [inPlace_iff, op_mut, isGrid_op, isGrid_op, isGrid_op, isGrid_op]
  simp [Val.isGrid, or_assoc]

theorem init_eq (g : Cfg K C) (i : Inp K C) {e : Val K C} (h : initCold g i = .ok e) :
    init g i = .ok {
      SM := if Big g i then .grid (fun _ => 0) else .box 0
      h_snow := if Big g i then toGrid g.h0_snow else initScalar g.h0_snow
      h_swe := if Big g i then toGrid g.h0_swe else initScalar g.h0_swe
      ratio := op (· / ·) (.num g.rho_H2O) i.rho_snow
      Ecc := e } := by
  have hb : (i.T_air.isGrid || i.P_snow.isGrid || decide (g.kind = .energyBalance)) = true ↔
      Big g i := by simp [Big, or_assoc]
  unfold init
  rw [h]
  simp only [bind, Except.bind, pure, Except.pure]
  by_cases hB : Big g i
  · simp only [hb.2 hB, if_pos hB, if_true]
  · have : (i.T_air.isGrid || i.P_snow.isGrid || decide (g.kind = .energyBalance)) = false := by
      rw [← Bool.not_eq_true, hb]; exact hB
    simp only [this, if_neg hB]
    simp

theorem init_shaped {g : Cfg K C} {i : Inp K C} {s : St K C} (h : init g i = .ok s) :
    Shaped g i s ∧ (∃ e, initCold g i = .ok e) ∧ (∀ c, s.SM.at c = 0) ∧
    (∀ c, s.h_snow.at c = g.h0_snow.at c) ∧ (∀ c, s.h_swe.at c = g.h0_swe.at c) ∧
    (∀ c, s.ratio.at c = g.rho_H2O / i.rho_snow.at c) ∧
    (∀ c, s.Ecc.at c =
      max (i.rho_snow.at c * g.Cp_snow.at c * g.h0_snow.at c * (g.T0cc.at c - g.T_surf.at c)) 0) := by
  cases he : initCold g i with
  | error x => unfold init at h; rw [he] at h; cases h
  | ok e =>
    rw [init_eq g i he] at h
    cases h
    have hk := inPlace_ok he
    have hg := ((initCold_iff g i).1 ⟨e, he⟩)
    refine ⟨⟨?_, ?_, ?_, ?_, ?_, ?_, ?_, ?_, ?_, ?_⟩, ⟨e, rfl⟩, ?_, ?_, ?_, ?_, ?_⟩
    · by_cases hB : Big g i <;> simp [hB, Val.isGrid]
    · by_cases hB : Big g i <;> simp [hB, Val.mut]
    · by_cases hB : Big g i
      · simp [hB, toGrid, Val.isGrid]
      · simp only [if_neg hB, hB, false_or]; cases g.h0_snow <;> simp [initScalar, Val.isGrid]
    · by_cases hB : Big g i
      · simp [hB, toGrid, Val.mut]
      · simp only [if_neg hB]; cases g.h0_snow <;> simp [initScalar, Val.mut]
    · by_cases hB : Big g i
      · simp [hB, toGrid, Val.isGrid]
      · simp only [if_neg hB, hB, false_or]; cases g.h0_swe <;> simp [initScalar, Val.isGrid]
    · by_cases hB : Big g i
      · simp [hB, toGrid, Val.mut]
      · simp only [if_neg hB]; cases g.h0_swe <;> simp [initScalar, Val.mut]
    · simp only [isGrid_op]; rfl
    · simp only [op_mut]; rfl
    · rw [hk.1, isGrid_op, isGrid_op, isGrid_op, isGrid_op]; simpa [or_assoc] using hg
    · exact hk.2.1
    · intro c; by_cases hB : Big g i <;> simp [hB, Val.at]
    · intro c
      by_cases hB : Big g i
      · simp [hB, toGrid, Val.at]
      · simp only [if_neg hB]; cases g.h0_snow <;> rfl
    · intro c
      by_cases hB : Big g i
      · simp [hB, toGrid, Val.at]
      · simp only [if_neg hB]; cases g.h0_swe <;> rfl
    · intro c; exact at_op ..
    · intro c; rw [hk.2.2 c]; simp only [at_op]; rfl

/-- Which inputs an update accepts. -/
def Fits (g : Cfg K C) (i : Inp K C) : Prop :=
  Big g i ∨ i.c0.isGrid = false ∧ i.T0.isGrid = false ∧ g.h0_swe.isGrid = false ∧
    (g.h0_snow.isGrid = true ∨ i.rho_snow.isGrid = false)

theorem big_same {g : Cfg K C} {i j : Inp K C} (h : SameShape i j) : Big g j ↔ Big g i := by
  unfold Big; rw [h.T, h.P]

theorem newMelt_grid {g : Cfg K C} {i : Inp K C} {s : St K C} (hB : ¬ Big g i) :
    (newMelt g i s).isGrid = (i.c0.isGrid || i.T0.isGrid) := by
  unfold Big at hB
  push Not at hB
  unfold newMelt
  cases hk : g.kind with
  | energyBalance => exact absurd hk hB.2.2
  | degreeDay =>
    have hT : i.T_air.isGrid = false := by simpa using hB.1
    simp only [isGrid_op, hT, Bool.false_or]
    simp [Val.isGrid]

theorem newRatio_ok {g : Cfg K C} {i j : Inp K C} {s : St K C} (hs : Shaped g i s)
    (hij : SameShape i j) : ∃ r, newRatio g j s = .ok r := by
  unfold newRatio
  by_cases hc : g.rhoChanges = true
  · rw [if_pos hc, store_iff, hs.ratio, isGrid_op, hij.rho]
    cases i.rho_snow.isGrid <;> simp [Val.isGrid]
  · rw [if_neg hc]; exact ⟨_, rfl⟩

theorem newRatio_shape {g : Cfg K C} {j : Inp K C} {s : St K C} {r : Val K C}
    (h : newRatio g j s = .ok r) : r.isGrid = s.ratio.isGrid ∧ r.mut = s.ratio.mut ∧
    ((g.rhoChanges = true ∧ s.ratio.mut = true → ∀ c, r.at c = g.rho_H2O / j.rho_snow.at c) ∧
     (¬ (g.rhoChanges = true ∧ s.ratio.mut = true) → r = s.ratio)) := by
  unfold newRatio at h
  by_cases hc : g.rhoChanges = true
  · rw [if_pos hc] at h
    have := store_ok h
    refine ⟨this.1, this.2.1, fun hm c => ?_, fun hm => ?_⟩
    · rw [this.2.2.1 hm.2 c, at_op]; rfl
    · exact this.2.2.2 (by simpa [hc] using hm)
  · rw [if_neg hc] at h
    cases h
    exact ⟨rfl, rfl, fun hm => absurd hm.1 hc, fun _ => rfl⟩

theorem newCold_ok {g : Cfg K C} {i j : Inp K C} {s : St K C} (hs : Shaped g i s) :
    ∃ r, newCold g j s = .ok r := by
  unfold newCold
  cases g.kind with
  | degreeDay => exact ⟨_, rfl⟩
  | energyBalance => exact (store_iff ..).2 (.inl hs.Ecc)

theorem newCold_shape {g : Cfg K C} {j : Inp K C} {s : St K C} {r : Val K C}
    (h : newCold g j s = .ok r) : r.isGrid = s.Ecc.isGrid ∧ r.mut = s.Ecc.mut ∧
    (s.Ecc.mut = true → ∀ c, r.at c = match g.kind with
      | .degreeDay => s.Ecc.at c
      | .energyBalance => max (s.Ecc.at c - j.Q_sum.at c * g.dt) 0) := by
  unfold newCold at h
  cases hk : g.kind with
  | degreeDay => rw [hk] at h; cases h; exact ⟨rfl, rfl, fun _ _ => rfl⟩
  | energyBalance =>
    rw [hk] at h
    have := store_ok h
    exact ⟨this.1, this.2.1, fun hm c => by rw [this.2.2.1 hm c]; simp only [at_op]; rfl⟩

/-- The melt rate that an update asks for, by the formulas. -/
def askedMelt (g : Cfg K C) (j : Inp K C) (s : St K C) (c : C) : K :=
  match g.kind with
  | .degreeDay => SnowShapeSpec.degreeDayMelt (j.c0.at c) (j.T_air.at c) (j.T0.at c)
  | .energyBalance => SnowShapeSpec.energyMelt (j.Q_sum.at c) (s.Ecc.at c) g.dt

theorem newMelt_at (g : Cfg K C) (j : Inp K C) (s : St K C) (c : C) :
    (newMelt g j s).at c = askedMelt g j s c := by
  unfold newMelt askedMelt
  cases g.kind <;> simp only [at_op] <;> rfl

theorem step_ok {g : Cfg K C} {i j : Inp K C} {s t : St K C} (hs : Shaped g i s)
    (h : step g j s = .ok t) :
    Shaped g i t ∧
    (∀ c, t.SM.at c = SnowShapeSpec.limited (askedMelt g j s c) (s.h_swe.at c) g.dt) ∧
    (∀ c, t.h_swe.at c = SnowShapeSpec.balance (s.h_swe.at c) (j.P_snow.at c) (t.SM.at c) g.dt) ∧
    (∀ c, t.h_snow.at c = t.h_swe.at c * t.ratio.at c) ∧
    (∀ c, t.Ecc.at c = match g.kind with
      | .degreeDay => s.Ecc.at c
      | .energyBalance => max (s.Ecc.at c - j.Q_sum.at c * g.dt) 0) ∧
    newRatio g j s = .ok t.ratio := by
  unfold step at h
  simp only [bind, Except.bind, pure, Except.pure] at h
  cases h1 : store s.SM (newMelt g j s) with
  | error x => rw [h1] at h; cases h
  | ok m1 =>
  rw [h1] at h; dsimp only at h
  cases h2 : inPlace min m1 (op (· / ·) s.h_swe (.num g.dt)) with
  | error x => rw [h2] at h; cases h
  | ok m2 =>
  rw [h2] at h; dsimp only at h
  cases h3 : inPlace max m2 (.num 0) with
  | error x => rw [h3] at h; cases h
  | ok m =>
  rw [h3] at h; dsimp only at h
  cases h4 : newCold g j s with
  | error x => rw [h4] at h; cases h
  | ok e =>
  rw [h4] at h; dsimp only at h
  cases h5 : inPlace (· + ·) s.h_swe (op (· * ·) j.P_snow (.num g.dt)) with
  | error x => rw [h5] at h; cases h
  | ok w1 =>
  rw [h5] at h; dsimp only at h
  cases h6 : inPlace (· - ·) w1 (op (· * ·) m (.num g.dt)) with
  | error x => rw [h6] at h; cases h
  | ok w2 =>
  rw [h6] at h; dsimp only at h
  cases h7 : inPlace max w2 (.num 0) with
  | error x => rw [h7] at h; cases h
  | ok w =>
  rw [h7] at h; dsimp only at h
  cases h8 : newRatio g j s with
  | error x => rw [h8] at h; cases h
  | ok r =>
  rw [h8] at h; dsimp only at h
  cases h9 : store s.h_snow (op (· * ·) w r) with
  | error x => rw [h9] at h; cases h
  | ok d =>
  rw [h9] at h; dsimp only at h
  cases h
  have a1 := store_ok h1
  have a2 := inPlace_ok h2
  have a3 := inPlace_ok h3
  have a4 := newCold_shape h4
  have a5 := inPlace_ok h5
  have a6 := inPlace_ok h6
  have a7 := inPlace_ok h7
  have a8 := newRatio_shape h8
  have a9 := store_ok h9
  refine ⟨⟨?_, a3.2.1, ?_, ?_, ?_, a7.2.1, ?_, ?_, ?_, ?_⟩, ?_, ?_, ?_, ?_, rfl⟩
  · rw [a3.1, a2.1, a1.1]; exact hs.SM
  · rw [a9.1]; exact hs.h_snow
  · rw [a9.2.1]; exact hs.h_snow_mut
  · rw [a7.1, a6.1, a5.1]; exact hs.h_swe
  · rw [a8.1]; exact hs.ratio
  · rw [a8.2.1]; exact hs.ratio_mut
  · rw [a4.1]; exact hs.Ecc
  · rw [a4.2.1]; exact hs.Ecc_mut
  · intro c
    rw [a3.2.2 c, a2.2.2 c, a1.2.2.1 hs.SM_mut c, newMelt_at, at_op]; rfl
  · intro c
    rw [a7.2.2 c, a6.2.2 c, a5.2.2 c, at_op, at_op]; rfl
  · intro c
    rw [a9.2.2.1 hs.h_snow_mut c, at_op]
  · exact a4.2.2 hs.Ecc_mut

theorem step_iff {g : Cfg K C} {i j : Inp K C} {s : St K C} (hs : Shaped g i s)
    (hij : SameShape i j) : (∃ t, step g j s = .ok t) ↔ Fits g i := by
  have hBj := big_same (g := g) hij
  constructor
  · rintro ⟨t, h⟩
    by_cases hB : Big g i
    · exact .inl hB
    refine .inr ?_
    unfold step at h
    simp only [bind, Except.bind, pure, Except.pure] at h
    cases h1 : store s.SM (newMelt g j s) with
    | error x => rw [h1] at h; cases h
    | ok m1 =>
    rw [h1] at h; dsimp only at h
    cases h2 : inPlace min m1 (op (· / ·) s.h_swe (.num g.dt)) with
    | error x => rw [h2] at h; cases h
    | ok m2 =>
    rw [h2] at h; dsimp only at h
    cases h3 : inPlace max m2 (.num 0) with
    | error x => rw [h3] at h; cases h
    | ok m =>
    rw [h3] at h; dsimp only at h
    cases h4 : newCold g j s with
    | error x => rw [h4] at h; cases h
    | ok e =>
    rw [h4] at h; dsimp only at h
    cases h5 : inPlace (· + ·) s.h_swe (op (· * ·) j.P_snow (.num g.dt)) with
    | error x => rw [h5] at h; cases h
    | ok w1 =>
    rw [h5] at h; dsimp only at h
    cases h6 : inPlace (· - ·) w1 (op (· * ·) m (.num g.dt)) with
    | error x => rw [h6] at h; cases h
    | ok w2 =>
    rw [h6] at h; dsimp only at h
    cases h7 : inPlace max w2 (.num 0) with
    | error x => rw [h7] at h; cases h
    | ok w =>
    rw [h7] at h; dsimp only at h
    cases h8 : newRatio g j s with
    | error x => rw [h8] at h; cases h
    | ok r =>
    rw [h8] at h; dsimp only at h
    cases h9 : store s.h_snow (op (· * ·) w r) with
    | error x => rw [h9] at h; cases h
    | ok d =>
    have hSM : s.SM.isGrid = false := by
      rw [← Bool.not_eq_true]; exact fun hx => hB (hs.SM.1 hx)
    have b1 : (newMelt g j s).isGrid = false := by
      rcases (store_iff _ _).1 ⟨_, h1⟩ with hx | hx
      · rw [hSM] at hx; cases hx
      · exact hx
    rw [newMelt_grid (fun hx => hB (hBj.1 hx)), hij.c0, hij.T0, Bool.or_eq_false_iff] at b1
    have b2 : (op (· / ·) s.h_swe (.num g.dt)).isGrid = false := by
      rcases ((inPlace_iff _ _ _).1 ⟨_, h2⟩).2 with hx | hx
      · rw [(store_ok h1).1, hSM] at hx; cases hx
      · exact hx
    rw [isGrid_op, Bool.or_eq_false_iff] at b2
    have b3 : g.h0_swe.isGrid = false := by
      rw [← Bool.not_eq_true]
      intro hx
      have := hs.h_swe.2 (.inr hx)
      rw [b2.1] at this; cases this
    refine ⟨b1.1, b1.2, b3, ?_⟩
    rcases (store_iff _ _).1 ⟨_, h9⟩ with hx | hx
    · exact .inl ((hs.h_snow.1 hx).resolve_left hB)
    · rw [isGrid_op, Bool.or_eq_false_iff] at hx
      refine .inr ?_
      rw [← hs.ratio, ← (newRatio_shape h8).1]; exact hx.2
  · intro hf
    obtain ⟨r, h8⟩ := newRatio_ok hs hij
    obtain ⟨e, h4⟩ := newCold_ok (j := j) hs
    have hPj : ¬ Big g i → j.P_snow.isGrid = false := by
      intro hB
      rw [← Bool.not_eq_true]
      exact fun hx => hB (hBj.1 (.inr (.inl hx)))
    have c1 : s.SM.isGrid = true ∨ (newMelt g j s).isGrid = false := by
      by_cases hB : Big g i
      · exact .inl (hs.SM.2 hB)
      · have := hf.resolve_left hB
        exact .inr (by rw [newMelt_grid (fun hx => hB (hBj.1 hx)), hij.c0, hij.T0, this.1, this.2.1]; rfl)
    obtain ⟨m1, h1⟩ := (store_iff _ _).2 c1
    have a1 := store_ok h1
    have hsw : ¬ Big g i → s.h_swe.isGrid = false := by
      intro hB
      rw [← Bool.not_eq_true, hs.h_swe]
      rintro (hx | hx)
      · exact hB hx
      · rw [(hf.resolve_left hB).2.2.1] at hx; cases hx
    have c2 : m1.mut = true ∧ (m1.isGrid = true ∨ (op (· / ·) s.h_swe (.num g.dt)).isGrid = false) := by
      refine ⟨by rw [a1.2.1]; exact hs.SM_mut, ?_⟩
      by_cases hB : Big g i
      · exact .inl (by rw [a1.1]; exact hs.SM.2 hB)
      · exact .inr (by rw [isGrid_op, hsw hB]; rfl)
    obtain ⟨m2, h2⟩ := (inPlace_iff min _ _).2 c2
    have a2 := inPlace_ok h2
    obtain ⟨m, h3⟩ := (inPlace_iff max m2 (.num 0)).2 ⟨a2.2.1, .inr rfl⟩
    have a3 := inPlace_ok h3
    have c5 : s.h_swe.mut = true ∧
        (s.h_swe.isGrid = true ∨ (op (· * ·) j.P_snow (.num g.dt)).isGrid = false) := by
      refine ⟨hs.h_swe_mut, ?_⟩
      by_cases hB : Big g i
      · exact .inl (hs.h_swe.2 (.inl hB))
      · exact .inr (by rw [isGrid_op, hPj hB]; rfl)
    obtain ⟨w1, h5⟩ := (inPlace_iff (· + ·) _ _).2 c5
    have a5 := inPlace_ok h5
    have c6 : w1.mut = true ∧ (w1.isGrid = true ∨ (op (· * ·) m (.num g.dt)).isGrid = false) := by
      refine ⟨a5.2.1, ?_⟩
      by_cases hB : Big g i
      · exact .inl (by rw [a5.1]; exact hs.h_swe.2 (.inl hB))
      · refine .inr ?_
        have : s.SM.isGrid = false := by
          rw [← Bool.not_eq_true]; exact fun hx => hB (hs.SM.1 hx)
        rw [isGrid_op, a3.1, a2.1, a1.1, this]; rfl
    obtain ⟨w2, h6⟩ := (inPlace_iff (· - ·) _ _).2 c6
    have a6 := inPlace_ok h6
    obtain ⟨w, h7⟩ := (inPlace_iff max w2 (.num 0)).2 ⟨a6.2.1, .inr rfl⟩
    have a7 := inPlace_ok h7
    have c9 : s.h_snow.isGrid = true ∨ (op (· * ·) w r).isGrid = false := by
      by_cases hB : Big g i
      · exact .inl (hs.h_snow.2 (.inl hB))
      · rcases (hf.resolve_left hB).2.2.2 with hx | hx
        · exact .inl (hs.h_snow.2 (.inr hx))
        · refine .inr ?_
          rw [isGrid_op, a7.1, a6.1, a5.1, hsw hB, (newRatio_shape h8).1, hs.ratio, hx]; rfl
    obtain ⟨d, h9⟩ := (store_iff _ _).2 c9
    refine ⟨{ SM := m, h_snow := d, h_swe := w, ratio := r, Ecc := e }, ?_⟩
    unfold step
    simp only [bind, Except.bind, pure, Except.pure, h1, h2, h3, h4, h5, h6, h7, h8, h9]

theorem steps_iff {g : Cfg K C} {i : Inp K C} (is : List (Inp K C)) {s : St K C}
    (hs : Shaped g i s) (hij : ∀ j ∈ is, SameShape i j) :
    (∃ t, steps g s is = .ok t) ↔ is = [] ∨ Fits g i := by
  induction is generalizing s with
  | nil => exact ⟨fun _ => .inl rfl, fun _ => ⟨s, rfl⟩⟩
  | cons j is ih =>
    have hst := step_iff hs (hij j (by simp))
    constructor
    · rintro ⟨t, h⟩
      refine .inr (hst.1 ?_)
      unfold steps at h
      cases h1 : step g j s with
      | error x => simp only [h1, bind, Except.bind] at h; cases h
      | ok u => exact ⟨u, rfl⟩
    · rintro (h | h)
      · cases h
      · obtain ⟨u, hu⟩ := hst.2 h
        obtain ⟨t, ht⟩ := (ih (step_ok hs hu).1 (fun k hk => hij k (by simp [hk]))).2 (.inr h)
        refine ⟨t, ?_⟩
        unfold steps
        simp only [hu, bind, Except.bind]
        exact ht

theorem steps_shaped {g : Cfg K C} {i : Inp K C} (is : List (Inp K C)) {s t : St K C}
    (hs : Shaped g i s) (h : steps g s is = .ok t) : Shaped g i t := by
  induction is generalizing s with
  | nil => cases h; exact hs
  | cons j is ih =>
    unfold steps at h
    cases h1 : step g j s with
    | error x => simp only [h1, bind, Except.bind] at h; cases h
    | ok u =>
      simp only [h1, bind, Except.bind] at h
      exact ih (step_ok hs h1).1 h

theorem steps_append {g : Cfg K C} (is : List (Inp K C)) (j : Inp K C) {s t : St K C}
    (h : steps g s (is ++ [j]) = .ok t) : ∃ u, steps g s is = .ok u ∧ step g j u = .ok t := by
  induction is generalizing s with
  | nil =>
    refine ⟨s, rfl, ?_⟩
    simp only [List.nil_append, steps, bind, Except.bind] at h
    cases h1 : step g j s with
    | error x => rw [h1] at h; cases h
    | ok u => rw [h1] at h; exact h
  | cons k is ih =>
    simp only [List.cons_append, steps, bind, Except.bind] at h
    cases h1 : step g k s with
    | error x => rw [h1] at h; cases h
    | ok u =>
      rw [h1] at h
      obtain ⟨v, hv, hw⟩ := ih h
      refine ⟨v, ?_, hw⟩
      simp only [steps, bind, Except.bind, h1]
      exact hv

/-- **C252**: a snow component can be initialised exactly if one of density, heat capacity, initial
depth, reference temperature and surface temperature is a grid. -/
theorem C252_starts_partial (g : Cfg K C) (i : Inp K C) :
    (∃ s, init g i = .ok s) ↔
      i.rho_snow.isGrid = true ∨ g.Cp_snow.isGrid = true ∨ g.h0_snow.isGrid = true ∨
      g.T0cc.isGrid = true ∨ g.T_surf.isGrid = true := by
  rw [← initCold_iff]
  constructor
  · rintro ⟨s, h⟩; exact (init_shaped h).2.1
  · rintro ⟨e, h⟩; exact ⟨_, init_eq g i h⟩

/-- **C252**: a started component can be updated, any number of times, exactly if it is the energy
balance component, or air temperature or snowfall is a grid, or melt factor, threshold and initial
water equivalent are all numbers and density is one as well unless the initial depth is a grid. -/
theorem C252_runs_partial {g : Cfg K C} {i : Inp K C} {s : St K C} (h : init g i = .ok s)
    {is : List (Inp K C)} (hne : is ≠ []) (his : ∀ j ∈ is, SameShape i j) :
    (∃ t, run g i is = .ok t) ↔
      g.kind = .energyBalance ∨ i.T_air.isGrid = true ∨ i.P_snow.isGrid = true ∨
      (i.c0.isGrid = false ∧ i.T0.isGrid = false ∧ g.h0_swe.isGrid = false ∧
        (g.h0_snow.isGrid = true ∨ i.rho_snow.isGrid = false)) := by
  have := steps_iff is (init_shaped h).1 his
  unfold run
  simp only [h, bind, Except.bind]
  rw [this]
  unfold Fits Big
  constructor
  · rintro (hx | (hx | hx | hx) | hx)
    · exact absurd hx hne
    · exact .inr (.inl hx)
    · exact .inr (.inr (.inl hx))
    · exact .inl hx
    · exact .inr (.inr (.inr hx))
  · rintro (hx | hx | hx | hx)
    · exact .inr (.inl (.inr (.inr hx)))
    · exact .inr (.inl (.inl hx))
    · exact .inr (.inl (.inr (.inl hx)))
    · exact .inr (.inr hx)

theorem ratio_first {g : Cfg K C} {i : Inp K C} (is : List (Inp K C)) {s t : St K C}
    (hs : Shaped g i s) (h : steps g s is = .ok t)
    (hr : ¬ (g.rhoChanges = true ∧ i.rho_snow.isGrid = true)) : t.ratio = s.ratio := by
  induction is generalizing s with
  | nil => cases h; rfl
  | cons j is ih =>
    unfold steps at h
    cases h1 : step g j s with
    | error x => simp only [h1, bind, Except.bind] at h; cases h
    | ok u =>
      simp only [h1, bind, Except.bind] at h
      have hu := step_ok hs h1
      rw [ih hu.1 h]
      exact (newRatio_shape hu.2.2.2.2.2).2.2.2 (by rw [hs.ratio_mut]; exact hr)

/-- **C252**: an update that works gives every cell what the formulas give with the values of that
cell: the limited melt rate, the balance of the water equivalent, and a depth that is the water
equivalent times the ratio of densities — with the present density for a grid sequence, but with the
*first* density in all other cases. -/
theorem C252_cells_partial {g : Cfg K C} {i j : Inp K C} {is : List (Inp K C)} {t : St K C}
    (h : run g i (is ++ [j]) = .ok t) : ∃ s, run g i is = .ok s ∧ ∀ c,
      t.SM.at c = SnowShapeSpec.limited
        (match g.kind with
          | .degreeDay => SnowShapeSpec.degreeDayMelt (j.c0.at c) (j.T_air.at c) (j.T0.at c)
          | .energyBalance => SnowShapeSpec.energyMelt (j.Q_sum.at c) (s.Ecc.at c) g.dt)
        (s.h_swe.at c) g.dt ∧
      t.h_swe.at c = SnowShapeSpec.balance (s.h_swe.at c) (j.P_snow.at c) (t.SM.at c) g.dt ∧
      (g.kind = .energyBalance → t.Ecc.at c = max (s.Ecc.at c - j.Q_sum.at c * g.dt) 0) ∧
      t.h_snow.at c = t.h_swe.at c * (g.rho_H2O /
        (if g.rhoChanges = true ∧ i.rho_snow.isGrid = true then j.rho_snow.at c
          else i.rho_snow.at c)) := by
  unfold run at h
  cases h0 : init g i with
  | error x => simp only [h0, bind, Except.bind] at h; cases h
  | ok s0 =>
    simp only [h0, bind, Except.bind] at h
    have hs0 := init_shaped h0
    obtain ⟨s, hs, ht⟩ := steps_append is j h
    have hsh := steps_shaped is hs0.1 hs
    have hk := step_ok hsh ht
    refine ⟨s, by unfold run; simp only [h0, bind, Except.bind]; exact hs, fun c => ?_⟩
    refine ⟨hk.2.1 c, hk.2.2.1 c, fun he => ?_, ?_⟩
    · have := hk.2.2.2.2.1 c
      rw [he] at this; exact this
    · rw [hk.2.2.2.1 c]
      by_cases hr : g.rhoChanges = true ∧ i.rho_snow.isGrid = true
      · rw [if_pos hr, (newRatio_shape hk.2.2.2.2.2).2.2.1 ⟨hr.1, by rw [hsh.ratio_mut]; exact hr.2⟩ c]
      · rw [if_neg hr, ratio_first (is ++ [j]) hs0.1 h hr, hs0.2.2.2.2.2.1 c]

/-- The start: no melt, the configured depths and the cold content of the formula in every cell. -/
theorem C252_start_cells_partial {g : Cfg K C} {i : Inp K C} {s : St K C} (h : init g i = .ok s)
    (c : C) : s.SM.at c = 0 ∧ s.h_snow.at c = g.h0_snow.at c ∧ s.h_swe.at c = g.h0_swe.at c ∧
      s.Ecc.at c =
        max (i.rho_snow.at c * g.Cp_snow.at c * g.h0_snow.at c * (g.T0cc.at c - g.T_surf.at c)) 0 :=
  ⟨(init_shaped h).2.2.1 c, (init_shaped h).2.2.2.1 c, (init_shaped h).2.2.2.2.1 c,
    (init_shaped h).2.2.2.2.2.2 c⟩

/-- **C252** fails: with numbers only, as in every shipped CFG file, no snow component starts. -/
theorem C252_numbers_violated (g : Cfg K C) (i : Inp K C) (hr : i.rho_snow.isGrid = false)
    (hC : g.Cp_snow.isGrid = false) (hh : g.h0_snow.isGrid = false) (h0 : g.T0cc.isGrid = false)
    (hT : g.T_surf.isGrid = false) : ¬ ∃ s, init g i = .ok s := by
  rw [C252_starts_partial, hr, hC, hh, h0, hT]; simp

/-- **C252** fails: where air temperature and snowfall are numbers, a grid of melt factors or of
initial water equivalents lets the first update of the degree-day component fail. -/
theorem C252_grid_violated {g : Cfg K C} {i j : Inp K C} (hk : g.kind = .degreeDay)
    (hT : i.T_air.isGrid = false) (hP : i.P_snow.isGrid = false) (hij : SameShape i j)
    (hx : i.c0.isGrid = true ∨ i.T0.isGrid = true ∨ g.h0_swe.isGrid = true ∨
      (i.rho_snow.isGrid = true ∧ g.h0_snow.isGrid = false)) :
    ¬ ∃ t, run g i [j] = .ok t := by
  intro hr
  have h0 : ∃ s, init g i = .ok s := by
    obtain ⟨t, ht⟩ := hr
    unfold run at ht
    cases h0 : init g i with
    | error x => simp only [h0, bind, Except.bind] at ht; cases ht
    | ok s0 => exact ⟨s0, rfl⟩
  obtain ⟨s, hs⟩ := h0
  have := (C252_runs_partial hs (is := [j]) (by simp) (by simpa using hij)).1 hr
  rw [hk, hT, hP] at this
  simp at this
  obtain ⟨a1, a2, a3, a4⟩ := this
  rcases hx with h | h | h | h
  · rw [a1] at h; cases h
  · rw [a2] at h; cases h
  · rw [a3] at h; cases h
  · rcases a4 with h4 | h4
    · rw [h.2] at h4; cases h4
    · rw [h4] at h; cases h.1

/-- **C252** fails: with a time series of densities the depth goes on being computed with the first
one, so it is wrong as soon as the density has changed and there is snow. -/
theorem C252_series_violated {g : Cfg K C} {i j : Inp K C} {is : List (Inp K C)} {t : St K C}
    (h : run g i (is ++ [j]) = .ok t) (hr : i.rho_snow.isGrid = false) {c : C}
    (hw : g.rho_H2O ≠ 0) (hi : i.rho_snow.at c ≠ 0) (hj : j.rho_snow.at c ≠ 0)
    (hne : j.rho_snow.at c ≠ i.rho_snow.at c) (hs : t.h_swe.at c ≠ 0) :
    t.h_snow.at c ≠ t.h_swe.at c * (g.rho_H2O / j.rho_snow.at c) := by
  obtain ⟨s, -, hc⟩ := C252_cells_partial h
  rw [(hc c).2.2.2, if_neg (by rw [hr]; simp)]
  intro he
  have h1 := mul_left_cancel₀ hs he
  rw [div_eq_div_iff hi hj] at h1
  exact hne (mul_left_cancel₀ hw h1)

/-! ### Examples -/

/-- A degree-day component on three cells with a grid of surface temperatures and a time series of
densities. -/
def exCfg : Cfg ℚ (Fin 3) :=
  { kind := .degreeDay
    dt := 3600
    rho_H2O := 1000
    rhoChanges := true
    Cp_snow := .box 2090
    h0_snow := .box (1 / 2)
    h0_swe := .box (1 / 10)
    T0cc := .num 0
    T_surf := .grid (fun c => -(c.val : ℚ)) }

/-- Its input with a given density. -/
def exInp (rho : ℚ) : Inp ℚ (Fin 3) :=
  { c0 := .box (27 / 10)
    T0 := .box 0
    rho_snow := .box rho
    T_air := .box 2
    P_snow := .box (1 / 1000000)
    Q_sum := .box 0 }

def depths (r : Except String (St ℚ (Fin 3))) : Option (List ℚ × List ℚ) :=
  match r with
  | .ok t => some ([t.h_snow.at 0, t.h_snow.at 2], [t.h_swe.at 0, t.Ecc.at 2])
  | .error _ => none

example : (depths (run exCfg (exInp 200) [exInp 200])).isSome = true := by decide +kernel

-- the density has doubled, the depth has not changed accordingly
example : depths (run exCfg (exInp 200) [exInp 200, exInp 400]) =
    depths (run exCfg (exInp 200) [exInp 200, exInp 200]) := by decide +kernel

example : depths (run { exCfg with T_surf := .box (-1) } (exInp 200) []) = none := by decide +kernel

example : depths (run { exCfg with h0_swe := .grid (fun _ => 1 / 10) } (exInp 200) [exInp 200]) =
    none := by decide +kernel

end SnowShape
