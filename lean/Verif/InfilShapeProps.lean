import Verif.InfilShapeModel
import Mathlib.Tactic.Linarith
import Mathlib.Tactic.NormNum

/-!
# C273: updates of the infiltration components with numbers and grids
-/

set_option autoImplicit false
set_option linter.unusedSectionVars false

noncomputable section

namespace InfilShapeSpec

open InfilShape D8

variable {ny nx : ℕ}

/-- The input is a number. -/
def IsNumber (p : Param ny nx) : Prop := ∃ a, p = .number a

/-- The value in a cell. -/
def value : Param ny nx → Cell ny nx → ℝ
  | .number a, _ => a
  | .grid g, c => g c

/-- All parameters and inputs are numbers. -/
def AllNumbers (m : Method (Param ny nx)) (i : Inp ny nx) : Prop :=
  IsNumber i.P_rain ∧ IsNumber i.SM ∧ IsNumber i.h_table ∧
  match m with
  | .greenAmpt Ks Ki qs qi G => IsNumber Ks ∧ IsNumber Ki ∧ IsNumber qs ∧ IsNumber qi ∧ IsNumber G
  | .smithParlange Ks Ki qs qi G gam =>
    IsNumber Ks ∧ IsNumber Ki ∧ IsNumber qs ∧ IsNumber qi ∧ IsNumber G ∧ IsNumber gam
  | .beven Ks qs qi f C => IsNumber Ks ∧ IsNumber qs ∧ IsNumber qi ∧ IsNumber f ∧ IsNumber C

/-- What is read is a number for a parameter that is a number, and a grid for a grid. -/
def Fits (p : Param ny nx) (q : Option (Param ny nx)) : Prop := ∀ x ∈ q, IsNumber p ↔ IsNumber x

/-- Two inputs are both numbers or both grids. -/
def Alike (p q : Param ny nx) : Prop := IsNumber p ↔ IsNumber q

/-- What is read is for the same method and fits the kinds of its parameters. -/
def FitsAll (m : Method (Param ny nx)) (n : Method (Option (Param ny nx))) : Prop :=
  match m, n with
  | .greenAmpt a b c d e, .greenAmpt a' b' c' d' e' => Fits a a' ∧ Fits b b' ∧ Fits c c' ∧ Fits d d' ∧ Fits e e'
  | .smithParlange a b c d e f, .smithParlange a' b' c' d' e' f' =>
    Fits a a' ∧ Fits b b' ∧ Fits c c' ∧ Fits d d' ∧ Fits e e' ∧ Fits f f'
  | .beven a b c d e, .beven a' b' c' d' e' => Fits a a' ∧ Fits b b' ∧ Fits c c' ∧ Fits d d' ∧ Fits e e'
  | _, _ => False

/-- The inputs from other components keep their kinds. -/
def AlikeAll (i j : Inp ny nx) : Prop :=
  Alike i.P_rain j.P_rain ∧ Alike i.SM j.SM ∧ Alike i.h_table j.h_table

/-- Nothing is read: all parameters are numbers in the CFG file. -/
def NothingRead (n : Method (Option (Param ny nx))) : Prop :=
  match n with
  | .greenAmpt a b c d e => a = none ∧ b = none ∧ c = none ∧ d = none ∧ e = none
  | .smithParlange a b c d e f => a = none ∧ b = none ∧ c = none ∧ d = none ∧ e = none ∧ f = none
  | .beven a b c d e => a = none ∧ b = none ∧ c = none ∧ d = none ∧ e = none

/-- The value in force after reading: what was read, if something was read. -/
def Now (p : Param ny nx) (q : Option (Param ny nx)) (r : Param ny nx) : Prop :=
  (q = none ∧ r = p) ∨ q = some r

/-- `r` are the parameters in force after `n` was read over `m`. -/
def InForce (m : Method (Param ny nx)) (n : Method (Option (Param ny nx))) (r : Method (Param ny nx)) : Prop :=
  match m, n, r with
  | .greenAmpt a b c d e, .greenAmpt a' b' c' d' e', .greenAmpt x y z u v =>
    Now a a' x ∧ Now b b' y ∧ Now c c' z ∧ Now d d' u ∧ Now e e' v
  | .smithParlange a b c d e f, .smithParlange a' b' c' d' e' f', .smithParlange x y z u v w =>
    Now a a' x ∧ Now b b' y ∧ Now c c' z ∧ Now d d' u ∧ Now e e' v ∧ Now f f' w
  | .beven a b c d e, .beven a' b' c' d' e', .beven x y z u v =>
    Now a a' x ∧ Now b b' y ∧ Now c c' z ∧ Now d d' u ∧ Now e e' v
  | _, _, _ => False

/-- Green-Ampt. -/
def IsGreenAmpt (m : Method (Param ny nx)) : Prop := ∃ a b c d e, m = .greenAmpt a b c d e

/-- Smith-Parlange. -/
def IsSmithParlange {α : Type} (m : Method α) : Prop := ∃ a b c d e f, m = .smithParlange a b c d e f

/-- Water that arrives. -/
def supply (i : Inp ny nx) (c : Cell ny nx) : ℝ := value i.P_rain c + value i.SM c

/-- Rain, snowmelt and conductivity are numbers, and there is less water than can infiltrate in any
case. -/
def UniformLow (x : Method (Param ny nx) × Inp ny nx) : Prop :=
  ∃ P M K, x.2.P_rain = .number P ∧ x.2.SM = .number M ∧
    (match x.1 with
      | .greenAmpt Ks _ _ _ _ => Ks = .number K
      | .smithParlange Ks _ _ _ _ _ => Ks = .number K
      | .beven Ks _ _ _ _ => Ks = .number K) ∧ P + M < K

/-- The infiltration capacity of a cell, with the parameters of that cell. -/
def capacity (m : Method (Param ny nx)) (c : Cell ny nx) (I : ℝ) : ℝ :=
  match m with
  | .greenAmpt Ks Ki qs qi G =>
    value G c * (value Ks c - value Ki c) * (value qs c - value qi c) / I + value Ks c
  | .smithParlange Ks Ki qs qi G gam =>
    value gam c * (value Ks c - value Ki c) /
      (Real.exp (value gam c * I / (value G c * (value qs c - value qi c))) - 1) + value Ks c
  | .beven Ks qs qi f C =>
    value Ks c * value f c / (value qs c - value qi c) * (value C c + I) /
      (1 - Real.exp (-1 * value f c * I / (value qs c - value qi c)))

/-- The rate before the water table is looked at. -/
def rate (m : Method (Param ny nx)) (i : Inp ny nx) (c : Cell ny nx) (I : ℝ) : ℝ :=
  if supply i c < value m.Ks c then supply i c else min (capacity m c I) (supply i c)

end InfilShapeSpec

namespace InfilShape

open InfilShapeSpec D8

variable {ny nx : ℕ}

/-- Shapes as numbers, in the order of broadcasting. -/
def Val.kind : Val ny nx → ℕ
  | .num _ => 0
  | .one _ => 1
  | .grid _ => 2
  | .sheet _ => 3

theorem op_at (f : ℝ → ℝ → ℝ) (x y : Val ny nx) (c : Cell ny nx) :
    (op f x y).at c = f (x.at c) (y.at c) := by
  cases x <;> cases y <;> rfl

theorem op_kind (f : ℝ → ℝ → ℝ) (x y : Val ny nx) : (op f x y).kind = max x.kind y.kind := by
  cases x <;> cases y <;> rfl

theorem inPlace_ok (f : ℝ → ℝ → ℝ) (x y : Val ny nx) (h : y.kind ≤ x.kind) :
    inPlace f x y = .ok (op f x y) := by
  cases x <;> cases y <;> first | rfl | (simp [Val.kind] at h)

theorem inPlace_error (f : ℝ → ℝ → ℝ) (x y : Val ny nx) (h : x.kind < y.kind) :
    inPlace f x y = .error "ValueError: non-broadcastable output operand" := by
  cases x <;> cases y <;> first | rfl | (simp [Val.kind] at h)

open Classical in
/-- 0 for a number, 2 for a grid. -/
def rank (p : Param ny nx) : ℕ := p.first.kind

theorem rank_def (p : Param ny nx) : rank p = p.first.kind := rfl

theorem kind_num (a : ℝ) : (Val.num a : Val ny nx).kind = 0 := rfl

theorem rank_number (p : Param ny nx) : rank p = 0 ↔ IsNumber p := by
  cases p <;> simp [rank, IsNumber, Param.first, Val.kind]

theorem rank_cases (p : Param ny nx) : rank p = 0 ∨ rank p = 2 := by
  cases p <;> simp [rank, Param.first, Val.kind]

theorem first_at (p : Param ny nx) (c : Cell ny nx) : p.first.at c = value p c := by
  cases p <;> rfl

theorem whole_at (p : Param ny nx) (c : Cell ny nx) : p.whole.at c = value p c := by
  cases p <;> rfl

theorem whole_kind (p : Param ny nx) : p.whole.kind = rank p + 1 := by
  cases p <;> rfl

theorem capacity_at (m : Method (Param ny nx)) (I : Val ny nx) (c : Cell ny nx) :
    (InfilShape.capacity m I).at c = InfilShapeSpec.capacity m c (I.at c) := by
  cases m <;> simp only [InfilShape.capacity, InfilShapeSpec.capacity, op_at, first_at, whole_at] <;> rfl

/-- The shape of the capacity: at most `n` iff all arrays in the formula are. -/
theorem capacity_le (m : Method (Param ny nx)) (I : Val ny nx) (n : ℕ) :
    (InfilShape.capacity m I).kind ≤ n ↔ I.kind ≤ n ∧ match m with
      | .greenAmpt Ks Ki qs qi G => rank Ks ≤ n ∧ rank Ki ≤ n ∧ rank qs ≤ n ∧ rank qi ≤ n ∧ rank G ≤ n
      | .smithParlange Ks Ki qs qi G gam =>
        rank Ks ≤ n ∧ rank Ki ≤ n ∧ rank qs ≤ n ∧ rank qi ≤ n ∧ rank G ≤ n ∧ rank gam ≤ n
      | .beven Ks qs qi f C =>
        rank Ks ≤ n ∧ rank qs ≤ n ∧ rank qi ≤ n ∧ rank f + 1 ≤ n ∧ rank C + 1 ≤ n := by
  cases m <;>
    simp only [InfilShape.capacity, op_kind, whole_kind, kind_num, ← rank_def, max_le_iff,
      Nat.zero_le, true_and, and_true] <;> tauto

theorem addVolume_ok (s : Site ny nx) (vol flux : Val ny nx) (hv : vol.kind = 0)
    (h : flux.kind ≠ 1 ∨ rank s.da = 2) :
    ∃ a, addVolume s vol flux = .ok (.num a) := by
  have hk := op_kind (· * ·) (op (· * ·) flux s.da.first) (.num s.dt : Val ny nx)
  rw [op_kind (· * ·) flux] at hk
  have hr : s.da.first.kind = rank s.da := rfl
  rw [hr] at hk
  unfold addVolume
  obtain ⟨v, rfl⟩ : ∃ v, vol = .num v := by cases vol <;> simp_all [Val.kind]
  generalize op (· * ·) (op (· * ·) flux s.da.first) (.num s.dt : Val ny nx) = w at hk
  have hd := rank_cases s.da
  cases w with
  | one a =>
    exfalso
    rw [kind_num] at hk
    change 1 = _ at hk
    omega
  | num a => exact ⟨_, rfl⟩
  | grid g => exact ⟨_, rfl⟩
  | sheet g => exact ⟨_, rfl⟩

theorem addVolume_error (s : Site ny nx) (vol flux : Val ny nx) (hv : vol.kind = 0)
    (h : flux.kind = 1) (hd : rank s.da = 0) : ∃ e, addVolume s vol flux = .error e := by
  have hk := op_kind (· * ·) (op (· * ·) flux s.da.first) (.num s.dt : Val ny nx)
  rw [op_kind (· * ·) flux] at hk
  have hr : s.da.first.kind = rank s.da := rfl
  rw [hr, h, hd] at hk
  unfold addVolume
  obtain ⟨v, rfl⟩ : ∃ v, vol = .num v := by cases vol <;> simp_all [Val.kind]
  generalize op (· * ·) (op (· * ·) flux s.da.first) (.num s.dt : Val ny nx) = w at hk
  cases w with
  | one a => exact ⟨_, rfl⟩
  | num a => simp [Val.kind] at hk
  | grid g => simp [Val.kind] at hk
  | sheet g => simp [Val.kind] at hk

theorem low_kind {x : Method (Param ny nx) × Inp ny nx} (h : UniformLow x) :
    ∃ a b, op (· + ·) x.2.P_rain.first x.2.SM.first = (.num a : Val ny nx) ∧
      x.1.Ks.first = (.num b : Val ny nx) ∧ a < b := by
  obtain ⟨m, i⟩ := x
  obtain ⟨P, M, K, hP, hM, hK, hl⟩ := h
  dsimp only at *
  refine ⟨P + M, K, by rw [hP, hM]; rfl, ?_, hl⟩
  cases m <;> (dsimp only at hK; subst hK; rfl)

theorem low_of {m : Method (Param ny nx)} {i : Inp ny nx} {a b : ℝ}
    (h1 : op (· + ·) i.P_rain.first i.SM.first = (.num a : Val ny nx))
    (h2 : m.Ks.first = (.num b : Val ny nx)) (hl : a < b) : UniformLow (m, i) := by
  have hP : ∃ P, i.P_rain = .number P := by
    cases hp : i.P_rain <;> cases hm : i.SM <;> simp_all [Param.first, op]
  have hM : ∃ P, i.SM = .number P := by
    cases hp : i.P_rain <;> cases hm : i.SM <;> simp_all [Param.first, op]
  obtain ⟨P, hP⟩ := hP
  obtain ⟨M, hM⟩ := hM
  rw [hP, hM] at h1
  simp only [Param.first, op, Val.num.injEq] at h1
  refine ⟨P, M, b, hP, hM, ?_, by rw [h1]; exact hl⟩
  have key : ∀ q : Param ny nx, q.first = .num b → q = .number b := by
    intro q hq
    cases q with
    | number a => simpa [Param.first] using hq
    | grid g => simp [Param.first] at hq
  cases m <;> exact key _ h2

theorem op_keep (f : ℝ → ℝ → ℝ) (x y : Val ny nx) (h : y.kind ≤ x.kind) : (op f x y).kind = x.kind := by
  rw [op_kind]; omega

/-- Shapes of the running totals. -/
def Totals (t : St ny nx) : Prop := t.vol_v0.kind = 0 ∧ t.vol_IN.kind = 0 ∧ t.vol_Rg.kind = 0

theorem addVolume_kind {s : Site ny nx} {vol flux v : Val ny nx} (hv : vol.kind = 0)
    (h : addVolume s vol flux = .ok v) : v.kind = 0 := by
  unfold addVolume at h
  obtain ⟨x, rfl⟩ : ∃ v, vol = .num v := by cases vol <;> simp_all [Val.kind]
  generalize op (· * ·) (op (· * ·) flux s.da.first) (.num s.dt : Val ny nx) = w at h
  cases w <;> simp [inPlace, op] at h <;> subst h <;> rfl

theorem inPlace_inv {f : ℝ → ℝ → ℝ} {x y z : Val ny nx} (h : inPlace f x y = .ok z) :
    y.kind ≤ x.kind ∧ z = op f x y := by
  by_cases hk : y.kind ≤ x.kind
  · rw [inPlace_ok f x y hk] at h
    exact ⟨hk, (Except.ok.inj h).symm⟩
  · rw [inPlace_error f x y (by omega)] at h
    cases h

/-- What a successful update consists of. -/
theorem step_inv {s : Site ny nx} {m : Method (Param ny nx)} {i : Inp ny nx} {t t' : St ny nx}
    (h : step s m i t = .ok t') : ∃ IN1,
      checkLowRain m.Ks.first (op (· + ·) i.P_rain.first i.SM.first)
        (op min (InfilShape.capacity m t.I) (op (· + ·) i.P_rain.first i.SM.first)) = .ok IN1 ∧
      waterTable s.elev i.h_table.first IN1 = .ok t'.IN ∧
      addVolume s t.vol_v0 (op min (InfilShape.capacity m t.I) (op (· + ·) i.P_rain.first i.SM.first)) =
        .ok t'.vol_v0 ∧
      addVolume s t.vol_IN t'.IN = .ok t'.vol_IN ∧ addVolume s t.vol_Rg t'.IN = .ok t'.vol_Rg ∧
      inPlace (· + ·) t.I (op (· * ·) t'.IN (.num s.dt)) = .ok t'.I := by
  unfold step at h
  dsimp only at h
  split at h
  · cases h
  rename_i IN1 h1
  split at h
  · cases h
  rename_i IN h2
  split at h
  · cases h
  rename_i a h3
  split at h
  · cases h
  rename_i b h4
  split at h
  · cases h
  rename_i c h5
  split at h
  · cases h
  rename_i d h6
  cases h
  exact ⟨IN1, h1, h2, h3, h4, h5, h6⟩

theorem step_intro {s : Site ny nx} {m : Method (Param ny nx)} {i : Inp ny nx} {t : St ny nx}
    {IN1 IN a b c d : Val ny nx}
    (h1 : checkLowRain m.Ks.first (op (· + ·) i.P_rain.first i.SM.first)
        (op min (InfilShape.capacity m t.I) (op (· + ·) i.P_rain.first i.SM.first)) = .ok IN1)
    (h2 : waterTable s.elev i.h_table.first IN1 = .ok IN)
    (h3 : addVolume s t.vol_v0 (op min (InfilShape.capacity m t.I)
      (op (· + ·) i.P_rain.first i.SM.first)) = .ok a)
    (h4 : addVolume s t.vol_IN IN = .ok b) (h5 : addVolume s t.vol_Rg IN = .ok c)
    (h6 : inPlace (· + ·) t.I (op (· * ·) IN (.num s.dt)) = .ok d) :
    ∃ t', step s m i t = .ok t' := by
  unfold step
  dsimp only
  rw [h1]; dsimp only
  rw [h2]; dsimp only
  rw [h3]; dsimp only
  rw [h4]; dsimp only
  rw [h5]; dsimp only
  rw [h6]
  exact ⟨_, rfl⟩

theorem waterTable_kind {z : Cell ny nx → ℝ} {h x y : Val ny nx} (e : waterTable z h x = .ok y) :
    y.kind = x.kind := by
  unfold waterTable at e
  cases x with
  | num a => cases e; rfl
  | one a => cases e; rfl
  | grid g => cases e; rfl
  | sheet g =>
    dsimp only at e
    split at e
    · cases e
    · cases e; rfl

theorem waterTable_ok (z : Cell ny nx → ℝ) (h x : Val ny nx) (hx : x.kind ≠ 3) :
    ∃ y, waterTable z h x = .ok y := by
  cases x with
  | num a => exact ⟨_, rfl⟩
  | one a => exact ⟨_, rfl⟩
  | grid g => exact ⟨_, rfl⟩
  | sheet g => exact absurd rfl hx

theorem checkLowRain_low {m : Method (Param ny nx)} {i : Inp ny nx} (h : UniformLow (m, i)) (x : Val ny nx) :
    checkLowRain m.Ks.first (op (· + ·) i.P_rain.first i.SM.first) x =
      .ok (op (· + ·) i.P_rain.first i.SM.first) ∧
    (op (· + ·) i.P_rain.first i.SM.first : Val ny nx).kind = 0 := by
  obtain ⟨a, b, h1, h2, hl⟩ := low_kind h
  dsimp only at h1 h2
  rw [h1, h2]
  exact ⟨by simp [checkLowRain, hl], rfl⟩

theorem checkLowRain_kind {m : Method (Param ny nx)} {i : Inp ny nx} (h : ¬ UniformLow (m, i)) {x y : Val ny nx}
    (e : checkLowRain m.Ks.first (op (· + ·) i.P_rain.first i.SM.first) x = .ok y) : y.kind = x.kind := by
  unfold checkLowRain at e
  split at e
  · rename_i a b h1 h2
    rw [if_neg (fun hl => h (low_of h1 h2 hl))] at e
    cases e; rfl
  · split at e
    · split at e
      · cases e; rfl
      · split at e
        · cases e
        · cases e; rfl
      · cases e
    · cases e; rfl

theorem checkLowRain_grid (Ks pt : Val ny nx) {x : Val ny nx} (hx : x.kind = 2) :
    ∃ y, checkLowRain Ks pt x = .ok y := by
  obtain ⟨g, rfl⟩ : ∃ g, x = .grid g := by cases x <;> simp_all [Val.kind]
  unfold checkLowRain
  split
  · exact ⟨_, rfl⟩
  · split
    · exact ⟨_, rfl⟩
    · exact ⟨_, rfl⟩

/-- A result of larger shape than the infiltrated depth lets the update fail. -/
theorem step_error {s : Site ny nx} {m : Method (Param ny nx)} {i : Inp ny nx} {t : St ny nx}
    (h : ¬ UniformLow (m, i))
    (hk : t.I.kind < (op min (InfilShape.capacity m t.I)
      (op (· + ·) i.P_rain.first i.SM.first) : Val ny nx).kind) : ¬ ∃ t', step s m i t = .ok t' := by
  rintro ⟨t', e⟩
  obtain ⟨IN1, h1, h2, _, _, _, h6⟩ := step_inv e
  have e1 := checkLowRain_kind h h1
  have e2 := waterTable_kind h2
  have e3 := (inPlace_inv h6).1
  rw [op_kind, kind_num] at e3
  omega

theorem step_low {s : Site ny nx} {m : Method (Param ny nx)} {i : Inp ny nx} {t : St ny nx} (ht : Totals t)
    (h : UniformLow (m, i)) : (∃ t', step s m i t = .ok t') ↔
      ((op min (InfilShape.capacity m t.I) (op (· + ·) i.P_rain.first i.SM.first) : Val ny nx).kind ≠ 1 ∨
        rank s.da = 2) := by
  obtain ⟨h1, hk⟩ := checkLowRain_low h
    (op min (InfilShape.capacity m t.I) (op (· + ·) i.P_rain.first i.SM.first))
  constructor
  · rintro ⟨t', e⟩
    by_contra hc
    push Not at hc
    obtain ⟨_, _, _, h3, _⟩ := step_inv e
    obtain ⟨e', he⟩ := addVolume_error s _ _ ht.1 hc.1 ((rank_cases s.da).resolve_right hc.2)
    rw [he] at h3
    cases h3
  · intro hv
    obtain ⟨y, hy⟩ := waterTable_ok s.elev i.h_table.first
      (op (· + ·) i.P_rain.first i.SM.first) (by omega)
    have hyk := waterTable_kind hy
    obtain ⟨a, ha⟩ := addVolume_ok s _ _ ht.1 hv
    obtain ⟨b, hb⟩ := addVolume_ok s _ y ht.2.1 (Or.inl (by omega))
    obtain ⟨c, hc⟩ := addVolume_ok s _ y ht.2.2 (Or.inl (by omega))
    exact step_intro h1 hy ha hb hc (inPlace_ok _ _ _ (by rw [op_kind, kind_num]; omega))

theorem step_grid {s : Site ny nx} {m : Method (Param ny nx)} {i : Inp ny nx} {t : St ny nx} (ht : Totals t)
    (hI : t.I.kind = 2)
    (hk : (op min (InfilShape.capacity m t.I) (op (· + ·) i.P_rain.first i.SM.first) : Val ny nx).kind = 2) :
    ∃ t', step s m i t = .ok t' := by
  by_cases h : UniformLow (m, i)
  · exact (step_low ht h).2 (Or.inl (by omega))
  obtain ⟨x, h1⟩ := checkLowRain_grid m.Ks.first (op (· + ·) i.P_rain.first i.SM.first) hk
  have hx := checkLowRain_kind h h1
  obtain ⟨y, hy⟩ := waterTable_ok s.elev i.h_table.first x (by omega)
  have hyk := waterTable_kind hy
  obtain ⟨a, ha⟩ := addVolume_ok s _ (op min (InfilShape.capacity m t.I)
    (op (· + ·) i.P_rain.first i.SM.first)) ht.1 (Or.inl (by omega))
  obtain ⟨b, hb⟩ := addVolume_ok s _ y ht.2.1 (Or.inl (by omega))
  obtain ⟨c, hc⟩ := addVolume_ok s _ y ht.2.2 (Or.inl (by omega))
  exact step_intro h1 hy ha hb hc (inPlace_ok _ _ _ (by rw [op_kind, kind_num]; omega))

theorem step_num {s : Site ny nx} {m : Method (Param ny nx)} {i : Inp ny nx} {t : St ny nx} (ht : Totals t)
    (hI : t.I.kind = 0) (hK : rank m.Ks = 0)
    (hk : (op min (InfilShape.capacity m t.I) (op (· + ·) i.P_rain.first i.SM.first) : Val ny nx).kind = 0) :
    ∃ t', step s m i t = .ok t' := by
  by_cases h : UniformLow (m, i)
  · exact (step_low ht h).2 (Or.inl (by omega))
  have h1 : checkLowRain m.Ks.first (op (· + ·) i.P_rain.first i.SM.first)
      (op min (InfilShape.capacity m t.I) (op (· + ·) i.P_rain.first i.SM.first)) =
      .ok (op min (InfilShape.capacity m t.I) (op (· + ·) i.P_rain.first i.SM.first)) := by
    rw [op_kind] at hk
    have hp : (op (· + ·) i.P_rain.first i.SM.first : Val ny nx).kind = 0 := by omega
    rw [rank_def] at hK
    generalize hpt : (op (· + ·) i.P_rain.first i.SM.first : Val ny nx) = pt at hp
    generalize hKs : m.Ks.first = Ks at hK
    obtain ⟨a, rfl⟩ : ∃ v, pt = .num v := by cases pt <;> simp_all [Val.kind]
    obtain ⟨b, rfl⟩ : ∃ v, Ks = .num v := by cases Ks <;> simp_all [Val.kind]
    simp only [checkLowRain]
    rw [if_neg (fun hl => h (low_of hpt hKs hl))]
  obtain ⟨y, hy⟩ := waterTable_ok s.elev i.h_table.first _ (show
    (op min (InfilShape.capacity m t.I) (op (· + ·) i.P_rain.first i.SM.first) : Val ny nx).kind ≠ 3 by omega)
  have hyk := waterTable_kind hy
  obtain ⟨a, ha⟩ := addVolume_ok s _ (op min (InfilShape.capacity m t.I)
    (op (· + ·) i.P_rain.first i.SM.first)) ht.1 (Or.inl (by omega))
  obtain ⟨b, hb⟩ := addVolume_ok s _ y ht.2.1 (Or.inl (by omega))
  obtain ⟨c, hc⟩ := addVolume_ok s _ y ht.2.2 (Or.inl (by omega))
  exact step_intro h1 hy ha hb hc (inPlace_ok _ _ _ (by rw [op_kind, kind_num]; omega))

/-- An update keeps the shapes of the infiltrated depth and of the totals. -/
theorem step_keeps {s : Site ny nx} {m : Method (Param ny nx)} {i : Inp ny nx} {t t' : St ny nx} (ht : Totals t)
    (h : step s m i t = .ok t') : t'.I.kind = t.I.kind ∧ Totals t' := by
  obtain ⟨_, _, _, h3, h4, h5, h6⟩ := step_inv h
  obtain ⟨a, b⟩ := inPlace_inv h6
  exact ⟨by rw [b, op_keep _ _ _ a], addVolume_kind ht.1 h3, addVolume_kind ht.2.1 h4,
    addVolume_kind ht.2.2 h5⟩

theorem initSt_totals (m : Method (Param ny nx)) (i : Inp ny nx) : Totals (initSt m i) := ⟨rfl, rfl, rfl⟩

theorem isScalar_iff (p : Param ny nx) : p.isScalar = true ↔ IsNumber p := by
  cases p <;> simp [Param.isScalar, IsNumber]

theorem initSt_kind (m : Method (Param ny nx)) (i : Inp ny nx) :
    (AllNumbers m i → (initSt m i).I.kind = 0) ∧ (¬ AllNumbers m i → (initSt m i).I.kind = 2) := by
  have key : (i.P_rain :: i.SM :: i.h_table :: m.params).all Param.isScalar = true ↔ AllNumbers m i := by
    cases m <;> simp [Method.params, AllNumbers, isScalar_iff]
  unfold initSt
  dsimp only
  constructor
  · intro h; rw [if_pos (key.2 h)]; rfl
  · intro h; rw [if_neg (fun h' => h (key.1 h'))]; rfl

theorem rate_kind (m : Method (Param ny nx)) (i : Inp ny nx) (I : Val ny nx) :
    (op min (InfilShape.capacity m I) (op (· + ·) i.P_rain.first i.SM.first) : Val ny nx).kind =
      max (InfilShape.capacity m I).kind (max (rank i.P_rain) (rank i.SM)) := by
  rw [op_kind, op_kind]; rfl

theorem now_rank {p : Param ny nx} {q : Option (Param ny nx)} (h : Fits p q) :
    rank (readParam p q) = rank p := by
  cases q with
  | none => rfl
  | some x =>
    have := h x rfl
    rw [← rank_number, ← rank_number] at this
    have h1 := rank_cases p
    have h2 := rank_cases x
    show rank x = rank p
    omega

theorem now_eq {p r : Param ny nx} {q : Option (Param ny nx)} (h : Now p q r) : readParam p q = r := by
  rcases h with ⟨rfl, rfl⟩ | rfl <;> rfl

/-- The shapes of two sets of parameters agree. -/
def Same (m m' : Method (Param ny nx)) : Prop :=
  match m, m' with
  | .greenAmpt a b c d e, .greenAmpt a' b' c' d' e' =>
    rank a' = rank a ∧ rank b' = rank b ∧ rank c' = rank c ∧ rank d' = rank d ∧ rank e' = rank e
  | .smithParlange a b c d e f, .smithParlange a' b' c' d' e' f' =>
    rank a' = rank a ∧ rank b' = rank b ∧ rank c' = rank c ∧ rank d' = rank d ∧ rank e' = rank e ∧
      rank f' = rank f
  | .beven a b c d e, .beven a' b' c' d' e' =>
    rank a' = rank a ∧ rank b' = rank b ∧ rank c' = rank c ∧ rank d' = rank d ∧ rank e' = rank e
  | _, _ => False

theorem same_refl (m : Method (Param ny nx)) : Same m m := by cases m <;> simp [Same]

theorem alike_rank {p q : Param ny nx} (h : Alike p q) : rank q = rank p := by
  unfold Alike at h
  rw [← rank_number, ← rank_number] at h
  have h1 := rank_cases p
  have h2 := rank_cases q
  omega

theorem rank_alike {p q : Param ny nx} (h : rank q = rank p) : Alike p q := by
  unfold Alike
  rw [← rank_number, ← rank_number, h]

/-- Reading keeps the shapes. -/
theorem read_same {m m' : Method (Param ny nx)} {n : Method (Option (Param ny nx))}
    (hs : Same m m') (h : FitsAll m n) (hn : ¬ IsSmithParlange m ∨ NothingRead n) :
    ∃ r, readFiles m' n = .ok r ∧ Same m r := by
  have tr : ∀ {p p' : Param ny nx} {q : Option (Param ny nx)}, rank p' = rank p → Fits p q →
      rank (readParam p' q) = rank p := by
    intro p p' q h1 h2
    rw [now_rank (fun x hx => by
      rw [← h2 x hx]
      exact rank_alike h1.symm), h1]
  cases m <;> cases m' <;> cases n <;> simp only [FitsAll, Same] at h hs
  case greenAmpt.greenAmpt.greenAmpt =>
    refine ⟨_, rfl, ?_⟩
    obtain ⟨a, b, c, d, e⟩ := hs
    obtain ⟨a', b', c', d', e'⟩ := h
    exact ⟨tr a a', tr b b', tr c c', tr d d', tr e e'⟩
  case smithParlange.smithParlange.smithParlange =>
    rcases hn with hn | hn
    · exact absurd ⟨_, _, _, _, _, _, rfl⟩ hn
    · obtain ⟨rfl, rfl, rfl, rfl, rfl, rfl⟩ := hn
      exact ⟨_, rfl, hs⟩
  case beven.beven.beven =>
    refine ⟨_, rfl, ?_⟩
    obtain ⟨a, b, c, d, e⟩ := hs
    obtain ⟨a', b', c', d', e'⟩ := h
    exact ⟨tr a a', tr b b', tr c c', tr d d', tr e e'⟩

/-- Updates that work whatever the values are. -/
theorem steps_ok (s : Site ny nx) (m : Method (Param ny nx)) (i : Inp ny nx) (k : ℕ)
    (hstep : ∀ m' j t, Same m m' → AlikeAll i j → Totals t → t.I.kind = k → ∃ t', step s m' j t = .ok t') :
    ∀ (l : List (Method (Option (Param ny nx)) × Inp ny nx)) (m' : Method (Param ny nx)) (t : St ny nx),
      Same m m' → Totals t → t.I.kind = k →
      (∀ x ∈ l, FitsAll m x.1 ∧ AlikeAll i x.2 ∧ (¬ IsSmithParlange m ∨ NothingRead x.1)) →
      ∃ t', steps s m' t l = .ok t'
  | [], _, t, _, _, _, _ => ⟨t, rfl⟩
  | (n, j) :: l, m', t, hs, ht, hk, h => by
    obtain ⟨h1, h2, h3⟩ := h (n, j) (by simp)
    obtain ⟨r, hr, hsr⟩ := read_same hs h1 h3
    obtain ⟨t', e⟩ := hstep r j t hsr h2 ht hk
    obtain ⟨hk', ht'⟩ := step_keeps ht e
    obtain ⟨u, hu⟩ := steps_ok s m i k hstep l r t' hsr ht' (by omega) (fun x hx => h x (by simp [hx]))
    refine ⟨u, ?_⟩
    rw [steps, hr]; dsimp only
    rw [e]; exact hu

theorem allNumbers_iff (m : Method (Param ny nx)) (i : Inp ny nx) : AllNumbers m i ↔
    rank i.P_rain = 0 ∧ rank i.SM = 0 ∧ rank i.h_table = 0 ∧ ∀ p ∈ m.params, rank p = 0 := by
  cases m <;> simp [AllNumbers, ← rank_number, Method.params]

theorem rank_le (p : Param ny nx) : rank p ≤ 2 := by have := rank_cases p; omega

theorem same_params {m m' : Method (Param ny nx)} (h : Same m m') :
    (∀ p ∈ m.params, rank p = 0) → ∀ p ∈ m'.params, rank p = 0 := by
  cases m <;> cases m' <;> simp only [Same] at h <;> simp [Method.params] <;> intros <;> omega

/-- One update of Green-Ampt or Smith-Parlange. -/
theorem step_plain {s : Site ny nx} {m0 m : Method (Param ny nx)} {i0 i : Inp ny nx} {t : St ny nx}
    (hm : IsGreenAmpt m ∨ IsSmithParlange m) (hs : Same m0 m) (ha : AlikeAll i0 i) (ht : Totals t)
    (hk : (AllNumbers m0 i0 ∧ t.I.kind = 0) ∨ t.I.kind = 2) : ∃ t', step s m i t = .ok t' := by
  have hcap : ∀ n, t.I.kind ≤ n → (∀ p ∈ m.params, rank p ≤ n) →
      (InfilShape.capacity m t.I).kind ≤ n := by
    intro n h1 h2
    rw [capacity_le]
    refine ⟨h1, ?_⟩
    rcases hm with ⟨a, b, c, d, e, rfl⟩ | ⟨a, b, c, d, e, f, rfl⟩
    · simpa [Method.params] using h2
    · simpa [Method.params] using h2
  have hge : t.I.kind ≤ (InfilShape.capacity m t.I).kind := ((capacity_le m t.I _).1 le_rfl).1
  rcases hk with ⟨hn, hk⟩ | hk
  · rw [allNumbers_iff] at hn
    obtain ⟨h1, h2, h3, h4⟩ := hn
    have h5 := same_params hs h4
    have h6 : rank i.P_rain = 0 := by rw [alike_rank ha.1, h1]
    have h7 : rank i.SM = 0 := by rw [alike_rank ha.2.1, h2]
    refine step_num ht hk (h5 _ (by cases m <;> simp [Method.params, Method.Ks])) ?_
    rw [rate_kind]
    have := hcap 0 hk.le (fun p hp => (h5 p hp).le)
    omega
  · refine step_grid ht hk ?_
    rw [rate_kind]
    have := hcap 2 hk.le (fun p _ => rank_le p)
    have := rank_le i.P_rain
    have := rank_le i.SM
    omega

theorem inForce_read {m r : Method (Param ny nx)} {n : Method (Option (Param ny nx))} (h : InForce m n r)
    (hn : ¬ IsSmithParlange m ∨ NothingRead n) : readFiles m n = .ok r := by
  cases m <;> cases n <;> cases r <;> simp only [InForce] at h
  case greenAmpt.greenAmpt.greenAmpt =>
    obtain ⟨a, b, c, d, e⟩ := h
    simp [readFiles, now_eq a, now_eq b, now_eq c, now_eq d, now_eq e]
  case smithParlange.smithParlange.smithParlange =>
    rcases hn with hn | hn
    · exact absurd ⟨_, _, _, _, _, _, rfl⟩ hn
    · obtain ⟨rfl, rfl, rfl, rfl, rfl, rfl⟩ := hn
      simp only [Now, true_and, reduceCtorEq, or_false] at h
      obtain ⟨rfl, rfl, rfl, rfl, rfl, rfl⟩ := h
      rfl
  case beven.beven.beven =>
    obtain ⟨a, b, c, d, e⟩ := h
    simp [readFiles, now_eq a, now_eq b, now_eq c, now_eq d, now_eq e]

theorem run_ok (s : Site ny nx) (m r : Method (Param ny nx)) (n : Method (Option (Param ny nx)))
    (i : Inp ny nx) (l : List (Method (Option (Param ny nx)) × Inp ny nx)) (h : readFiles m n = .ok r)
    (hstep : ∀ m' j t, Same r m' → AlikeAll i j → Totals t → t.I.kind = (initSt r i).I.kind →
      ∃ t', step s m' j t = .ok t')
    (hl : ∀ x ∈ l, FitsAll r x.1 ∧ AlikeAll i x.2 ∧ (¬ IsSmithParlange r ∨ NothingRead x.1)) :
    ∃ t, run s m ((n, i) :: l) = .ok t := by
  obtain ⟨t, e⟩ := hstep r i (initSt r i) (same_refl r) ⟨Iff.rfl, Iff.rfl, Iff.rfl⟩ (initSt_totals r i) rfl
  obtain ⟨hk', ht'⟩ := step_keeps (initSt_totals r i) e
  obtain ⟨u, hu⟩ := steps_ok s r i _ hstep l r t (same_refl r) ht' hk' hl
  refine ⟨u, ?_⟩
  rw [run, h]; dsimp only
  rw [e]; exact hu

theorem init_cases (m : Method (Param ny nx)) (i : Inp ny nx) (t : St ny nx)
    (hk : t.I.kind = (initSt m i).I.kind) : (AllNumbers m i ∧ t.I.kind = 0) ∨ t.I.kind = 2 := by
  by_cases h : AllNumbers m i
  · exact Or.inl ⟨h, by rw [hk, (initSt_kind m i).1 h]⟩
  · exact Or.inr (by rw [hk, (initSt_kind m i).2 h])

/-- Missing: Smith-Parlange with files and some uses of Beven's method (theorems below).  Green-Ampt runs with
every combination of numbers, time series, grids and grid sequences, for any number of updates. -/
theorem C273_green_ampt_partial (s : Site ny nx) (m r : Method (Param ny nx))
    (n : Method (Option (Param ny nx))) (i : Inp ny nx)
    (l : List (Method (Option (Param ny nx)) × Inp ny nx)) (hm : IsGreenAmpt m) (h : InForce m n r)
    (hl : ∀ x ∈ l, FitsAll r x.1 ∧ AlikeAll i x.2) : ∃ t, run s m ((n, i) :: l) = .ok t := by
  have ns : ∀ {m : Method (Param ny nx)}, IsGreenAmpt m → ¬ IsSmithParlange m := by
    rintro m ⟨a, b, c, d, e, rfl⟩ ⟨_, _, _, _, _, _, h⟩; cases h
  have hr : IsGreenAmpt r := by
    obtain ⟨a, b, c, d, e, rfl⟩ := hm
    cases n <;> cases r <;> simp only [InForce] at h
    exact ⟨_, _, _, _, _, rfl⟩
  have hs : ∀ m', Same r m' → IsGreenAmpt m' := by
    intro m' h
    obtain ⟨a, b, c, d, e, rfl⟩ := hr
    cases m' <;> simp only [Same] at h
    exact ⟨_, _, _, _, _, rfl⟩
  exact run_ok s m r n i l (inForce_read h (Or.inl (ns hm)))
    (fun m' j t h1 h2 h3 h4 => step_plain (Or.inl (hs m' h1)) h1 h2 h3 (init_cases r i t h4))
    (fun x hx => ⟨(hl x hx).1, (hl x hx).2, Or.inl (ns hr)⟩)

/-- Smith-Parlange runs exactly when all parameters are numbers in the CFG file. -/
theorem C273_smith_parlange_partial (s : Site ny nx) (m : Method (Param ny nx))
    (n : Method (Option (Param ny nx))) (i : Inp ny nx)
    (l : List (Method (Option (Param ny nx)) × Inp ny nx)) (hm : IsSmithParlange m)
    (hl : ∀ x ∈ (n, i) :: l, IsSmithParlange x.1 ∧ AlikeAll i x.2) :
    (∃ t, run s m ((n, i) :: l) = .ok t) ↔ ∀ x ∈ (n, i) :: l, NothingRead x.1 := by
  have rd : ∀ n : Method (Option (Param ny nx)), IsSmithParlange n → ∀ r, readFiles m n = .ok r →
      NothingRead n ∧ r = m := by
    rintro n ⟨a, b, c, d, e, f, rfl⟩ r h
    obtain ⟨a', b', c', d', e', f', rfl⟩ := hm
    simp only [readFiles] at h
    split at h
    · cases h; exact ⟨⟨rfl, rfl, rfl, rfl, rfl, rfl⟩, rfl⟩
    · cases h
  have fits : ∀ n : Method (Option (Param ny nx)), IsSmithParlange n → NothingRead n → FitsAll m n := by
    rintro n ⟨a, b, c, d, e, f, rfl⟩ ⟨rfl, rfl, rfl, rfl, rfl, rfl⟩
    obtain ⟨a', b', c', d', e', f', rfl⟩ := hm
    simp [FitsAll, Fits]
  have rd' : ∀ n : Method (Option (Param ny nx)), IsSmithParlange n → NothingRead n →
      readFiles m n = .ok m := by
    rintro n ⟨a, b, c, d, e, f, rfl⟩ ⟨rfl, rfl, rfl, rfl, rfl, rfl⟩
    obtain ⟨a', b', c', d', e', f', rfl⟩ := hm
    rfl
  have fwd : ∀ (l : List (Method (Option (Param ny nx)) × Inp ny nx)) (t u : St ny nx),
      (∀ x ∈ l, IsSmithParlange x.1) → steps s m t l = .ok u → ∀ x ∈ l, NothingRead x.1 := by
    intro l
    induction l with
    | nil => intro t u _ _ x hx; cases hx
    | cons x l ih =>
      obtain ⟨n, j⟩ := x
      intro t u hsp h
      rw [steps] at h
      split at h
      · cases h
      · rename_i r hr
        obtain ⟨h1, rfl⟩ := rd n (hsp (n, j) (by simp)) r hr
        split at h
        · cases h
        · rename_i t' _
          have := ih t' u (fun x hx => hsp x (by simp [hx])) h
          intro x hx
          rcases List.mem_cons.1 hx with rfl | hx
          · exact h1
          · exact this x hx
  constructor
  · rintro ⟨t, h⟩
    rw [run] at h
    split at h
    · cases h
    · rename_i r hr
      obtain ⟨h1, rfl⟩ := rd n (hl (n, i) (by simp)).1 r hr
      split at h
      · cases h
      · rename_i t' _
        have := fwd l t' t (fun x hx => (hl x (by simp [hx])).1) h
        intro x hx
        rcases List.mem_cons.1 hx with rfl | hx
        · exact h1
        · exact this x hx
  · intro h
    refine run_ok s m m n i l (rd' n (hl (n, i) (by simp)).1 (h (n, i) (by simp))) ?_ ?_
    · intro m' j t h1 h2 h3 h4
      have : IsSmithParlange m' := by
        obtain ⟨a, b, c, d, e, f, rfl⟩ := hm
        cases m' <;> simp only [Same] at h1
        exact ⟨_, _, _, _, _, _, rfl⟩
      exact step_plain (Or.inr this) h1 h2 h3 (init_cases m i t h4)
    · intro x hx
      obtain ⟨h1, h2⟩ := hl x (by simp [hx])
      have h3 := h x (by simp [hx])
      exact ⟨fits x.1 h1 h3, h2, Or.inr h3⟩

/-- Beven's method runs when something else than its last two parameters is a grid, rain or the water table
for example, and these two are numbers. -/
theorem C273_beven_partial (s : Site ny nx) (m : Method (Param ny nx)) (Ks qs qi f C : Param ny nx)
    (n : Method (Option (Param ny nx))) (i : Inp ny nx)
    (l : List (Method (Option (Param ny nx)) × Inp ny nx)) (h : InForce m n (.beven Ks qs qi f C))
    (hf : IsNumber f) (hC : IsNumber C) (hg : ¬ AllNumbers (.beven Ks qs qi f C) i)
    (hl : ∀ x ∈ l, FitsAll (.beven Ks qs qi f C) x.1 ∧ AlikeAll i x.2) :
    ∃ t, run s m ((n, i) :: l) = .ok t := by
  have hm : ¬ IsSmithParlange m := by
    rintro ⟨_, _, _, _, _, _, rfl⟩
    cases n <;> simp only [InForce] at h
  refine run_ok s m _ n i l (inForce_read h (Or.inl hm)) ?_
    (fun x hx => ⟨(hl x hx).1, (hl x hx).2, Or.inl (by rintro ⟨_, _, _, _, _, _, h⟩; cases h)⟩)
  intro m' j t h1 h2 h3 h4
  rw [(initSt_kind _ _).2 hg] at h4
  refine step_grid h3 h4 ?_
  rw [rate_kind]
  have hge := ((capacity_le m' t.I _).1 le_rfl).1
  have hle : (InfilShape.capacity m' t.I).kind ≤ 2 := by
    rw [capacity_le]
    refine ⟨h4.le, ?_⟩
    cases m' <;> simp only [Same] at h1
    rw [← rank_number] at hf hC
    refine ⟨rank_le _, rank_le _, rank_le _, ?_, ?_⟩ <;> omega
  have := rank_le j.P_rain
  have := rank_le j.SM
  omega

/-- Beven's method fails at the first update with numbers only, unless there is very little water, and with a
grid for one of its last two parameters. -/
theorem C273_beven_violated (s : Site ny nx) (m : Method (Param ny nx)) (Ks qs qi f C : Param ny nx)
    (n : Method (Option (Param ny nx))) (i : Inp ny nx)
    (l : List (Method (Option (Param ny nx)) × Inp ny nx)) (h : InForce m n (.beven Ks qs qi f C))
    (hlow : ¬ UniformLow (.beven Ks qs qi f C, i))
    (hx : AllNumbers (.beven Ks qs qi f C) i ∨ ¬ IsNumber f ∨ ¬ IsNumber C) :
    ¬ ∃ t, run s m ((n, i) :: l) = .ok t := by
  have hm : ¬ IsSmithParlange m := by
    rintro ⟨_, _, _, _, _, _, rfl⟩
    cases n <;> simp only [InForce] at h
  rintro ⟨t, e⟩
  rw [run, inForce_read h (Or.inl hm)] at e
  dsimp only at e
  split at e
  · cases e
  rename_i t' e'
  refine step_error hlow ?_ ⟨t', e'⟩
  rw [rate_kind]
  have hc := ((capacity_le (.beven Ks qs qi f C) (initSt (.beven Ks qs qi f C) i).I _).1 le_rfl).2
  dsimp only at hc
  obtain ⟨_, _, _, h1, h2⟩ := hc
  by_cases ha : AllNumbers (.beven Ks qs qi f C) i
  · have := (initSt_kind _ _).1 ha
    obtain ⟨_, _, _, _⟩ := (allNumbers_iff _ _).1 ha
    omega
  · have := (initSt_kind _ _).2 ha
    have hx' := hx.resolve_left ha
    rw [← rank_number, ← rank_number] at hx'
    have := rank_cases f
    have := rank_cases C
    omega

/-- With numbers only and no files, Beven's method runs exactly when the water that arrives is always less
than the conductivity and the cells have different areas. -/
theorem C273_beven_numbers_violated (s : Site ny nx) (Ks qs qi f C : Param ny nx)
    (l : List (Method (Option (Param ny nx)) × Inp ny nx)) (hl : l ≠ [])
    (h : ∀ x ∈ l, x.1 = .beven none none none none none ∧ AllNumbers (.beven Ks qs qi f C) x.2) :
    (∃ t, run s (.beven Ks qs qi f C) l = .ok t) ↔
      ¬ IsNumber s.da ∧ ∀ x ∈ l, UniformLow (.beven Ks qs qi f C, x.2) := by
  have one : ∀ (i : Inp ny nx) (t : St ny nx), AllNumbers (.beven Ks qs qi f C) i → Totals t →
      t.I.kind = 0 → ((∃ t', step s (.beven Ks qs qi f C) i t = .ok t') ↔
        ¬ IsNumber s.da ∧ UniformLow (.beven Ks qs qi f C, i)) := by
    intro i t ha ht hk
    rw [allNumbers_iff] at ha
    obtain ⟨h1, h2, h3, h4⟩ := ha
    simp only [Method.params, List.mem_cons, List.not_mem_nil, or_false, forall_eq_or_imp, forall_eq] at h4
    obtain ⟨a, b, c, d, e⟩ := h4
    have hle : (InfilShape.capacity (.beven Ks qs qi f C) t.I).kind ≤ 1 := by
      rw [capacity_le]; dsimp only; omega
    have hge := ((capacity_le (.beven Ks qs qi f C) t.I _).1 le_rfl).2
    dsimp only at hge
    have hv : (op min (InfilShape.capacity (.beven Ks qs qi f C) t.I)
        (op (· + ·) i.P_rain.first i.SM.first) : Val ny nx).kind = 1 := by
      rw [rate_kind]; omega
    have hda : rank s.da = 2 ↔ ¬ IsNumber s.da := by
      rw [← rank_number]; have := rank_cases s.da; omega
    by_cases hlow : UniformLow (.beven Ks qs qi f C, i)
    · rw [step_low ht hlow, hda]
      simp only [hv, ne_eq, not_true, false_or, hlow, and_true]
    · constructor
      · intro he; exact absurd he (step_error hlow (by omega))
      · intro he; exact absurd he.2 hlow
  have many : ∀ (l : List (Method (Option (Param ny nx)) × Inp ny nx)) (t : St ny nx), Totals t →
      t.I.kind = 0 →
      (∀ x ∈ l, x.1 = .beven none none none none none ∧ AllNumbers (.beven Ks qs qi f C) x.2) →
      ((∃ t', steps s (.beven Ks qs qi f C) t l = .ok t') ↔
        ∀ x ∈ l, ¬ IsNumber s.da ∧ UniformLow (.beven Ks qs qi f C, x.2)) := by
    intro l
    induction l with
    | nil => intro t _ _ _; simp [steps]
    | cons x l ih =>
      obtain ⟨n, i⟩ := x
      intro t ht hk hx
      obtain ⟨rfl, ha⟩ := hx (n, i) (by simp)
      have h0 := one i t ha ht hk
      rw [steps]
      simp only [readFiles, readParam, Option.getD_none]
      cases e : step s (.beven Ks qs qi f C) i t with
      | error y =>
        rw [e] at h0
        constructor
        · rintro ⟨t', h⟩; cases h
        · intro hr
          obtain ⟨u, hu⟩ := h0.2 (hr _ List.mem_cons_self)
          cases hu
      | ok u =>
        obtain ⟨hk', ht'⟩ := step_keeps ht e
        have h1 := h0.1 ⟨u, e⟩
        rw [ih u ht' (by omega) (fun x hx' => hx x (by simp [hx']))]
        constructor
        · intro hr x hx'
          rcases List.mem_cons.1 hx' with rfl | hx'
          · exact h1
          · exact hr x hx'
        · intro hr x hx'; exact hr x (by simp [hx'])
  cases l with
  | nil => exact absurd rfl hl
  | cons x l =>
    obtain ⟨n, i⟩ := x
    obtain ⟨rfl, ha⟩ := h (n, i) (by simp)
    have key := many ((.beven none none none none none, i) :: l) (initSt (.beven Ks qs qi f C) i)
      (initSt_totals _ _) ((initSt_kind _ _).1 ha) h
    rw [steps] at key
    rw [run]
    simp only [readFiles, readParam, Option.getD_none] at key ⊢
    rw [key]
    constructor
    · intro hr; exact ⟨(hr _ List.mem_cons_self).1, fun x hx => (hr x hx).2⟩
    · intro hr x hx; exact ⟨hr.1, hr.2 x hx⟩

theorem supply_at (i : Inp ny nx) (c : Cell ny nx) :
    (op (· + ·) i.P_rain.first i.SM.first : Val ny nx).at c = supply i c := by
  rw [op_at, first_at, first_at]; rfl

theorem low_rate {m : Method (Param ny nx)} {i : Inp ny nx} (h : UniformLow (m, i)) (c : Cell ny nx) (I : ℝ) :
    rate m i c I = supply i c := by
  obtain ⟨P, M, K, hP, hM, hK, hl⟩ := h
  dsimp only at hP hM hK
  have h1 : supply i c = P + M := by simp [supply, hP, hM, value]
  have h2 : value m.Ks c = K := by cases m <;> (dsimp only at hK; subst hK; rfl)
  unfold rate
  rw [if_pos (by rw [h1, h2]; exact hl)]

/-- The rate before the water table is looked at, for a number or a grid. -/
theorem checkLowRain_at {m : Method (Param ny nx)} {i : Inp ny nx} {I x : Val ny nx}
    (e : checkLowRain m.Ks.first (op (· + ·) i.P_rain.first i.SM.first)
      (op min (InfilShape.capacity m I) (op (· + ·) i.P_rain.first i.SM.first)) = .ok x) (hx : x.kind ≠ 3)
    (c : Cell ny nx) : x.at c = rate m i c (I.at c) := by
  by_cases hl : UniformLow (m, i)
  · rw [(checkLowRain_low hl _).1] at e
    cases e
    rw [supply_at, low_rate hl]
  have hv : (op min (InfilShape.capacity m I) (op (· + ·) i.P_rain.first i.SM.first) : Val ny nx).at c =
      min (InfilShapeSpec.capacity m c (I.at c)) (supply i c) := by
    rw [op_at, capacity_at, supply_at]
  have hpt := supply_at i c
  have hKs := first_at m.Ks c
  unfold rate
  unfold checkLowRain at e
  split at e
  · rename_i a b h1 h2
    rw [h1] at hpt
    rw [h2] at hKs
    rw [if_neg (fun hl' => hl (low_of h1 h2 hl'))] at e
    have hh : ¬ a < b := fun hl' => hl (low_of h1 h2 hl')
    cases e
    rw [hv, if_neg]
    rw [← hpt, ← hKs]
    exact hh
  · split at e
    · split at e
      · rename_i g hg
        cases e
        rw [hg] at hv
        show (if _ < _ then _ else g c) = _
        rw [hpt, hKs, show g c = _ from hv]
      · split at e
        · cases e
        · cases e; exact absurd rfl hx
      · cases e
    · rename_i hne
      cases e
      rw [hv, if_neg]
      intro h
      exact hne ⟨c, by rw [hpt, hKs]; exact h⟩

/-- After an update that works, each cell has the rate of the formula with the parameters and the depth of that
cell: all the water that arrives if that is less than the conductivity, else the smaller of capacity and
supply; and nothing, when depths are kept as a grid and there is enough water or a grid of it, where the water
table is at the surface.  The depth grows by rate times time step. -/
theorem C273_cells_partial (s : Site ny nx) (m : Method (Param ny nx)) (i : Inp ny nx) (t t' : St ny nx)
    (hI : (∃ a, t.I = .num a) ∨ ∃ g, t.I = .grid g) (h : step s m i t = .ok t') (c : Cell ny nx) :
    t'.I.at c = t.I.at c + t'.IN.at c * s.dt ∧
    (UniformLow (m, i) ∨ (∃ a, t.I = .num a) → t'.IN.at c = rate m i c (t.I.at c)) ∧
    (¬ UniformLow (m, i) → (∃ g, t.I = .grid g) →
      t'.IN.at c = if s.elev c ≤ value i.h_table c then 0 else rate m i c (t.I.at c)) := by
  obtain ⟨x, h1, h2, _, _, _, h3⟩ := step_inv h
  obtain ⟨hk, h3⟩ := inPlace_inv h3
  rw [op_kind, kind_num] at hk
  have hkind : t.I.kind ≤ 2 := by rcases hI with ⟨a, e⟩ | ⟨a, e⟩ <;> rw [e] <;> simp [Val.kind]
  have hxk := waterTable_kind h2
  have hx : x.at c = _ := checkLowRain_at h1 (by omega) c
  refine ⟨?_, ?_, ?_⟩
  · rw [h3, op_at, op_at]; rfl
  · intro hc
    have hx2 : x.kind ≤ 1 := by
      rcases hc with hl | ⟨a, e⟩
      · have := checkLowRain_low hl
          (op min (InfilShape.capacity m t.I) (op (· + ·) i.P_rain.first i.SM.first))
        rw [this.1] at h1
        cases h1
        omega
      · rw [e, kind_num] at hk; omega
    rw [← hx]
    obtain ⟨y, hy⟩ : ∃ y, y = t'.IN := ⟨_, rfl⟩
    rw [← hy] at h2 ⊢
    cases x with
    | num a => cases h2; rfl
    | one a => cases h2; rfl
    | grid g => simp [Val.kind] at hx2
    | sheet g => simp [Val.kind] at hx2
  · rintro hl ⟨g, e⟩
    have hck := checkLowRain_kind hl h1
    have hge : t.I.kind ≤ (InfilShape.capacity m t.I).kind := ((capacity_le m t.I _).1 le_rfl).1
    rw [rate_kind] at hck
    have hg : t.I.kind = 2 := by rw [e]; rfl
    have hx2 : x.kind = 2 := by omega
    cases x with
    | num a => simp [Val.kind] at hx2
    | one a => simp [Val.kind] at hx2
    | grid f =>
      rw [← hx, ← first_at]
      obtain ⟨y, hy⟩ : ∃ y, y = t'.IN := ⟨_, rfl⟩
      rw [← hy] at h2 ⊢
      cases h2; rfl
    | sheet g => simp [Val.kind] at hx2

theorem addVolume_num {s : Site ny nx} {v : ℝ} {flux w : Val ny nx} (h : addVolume s (.num v) flux = .ok w) :
    w = .num (v + ∑ c, flux.at c * value s.da c * s.dt) := by
  unfold addVolume at h
  have hv : ∀ c, (op (· * ·) (op (· * ·) flux s.da.first) (.num s.dt) : Val ny nx).at c =
      flux.at c * value s.da c * s.dt := by
    intro c; rw [op_at, op_at, first_at]; rfl
  rw [← Finset.sum_congr rfl (fun c _ => hv c)]
  generalize op (· * ·) (op (· * ·) flux s.da.first) (.num s.dt : Val ny nx) = y at h
  cases y with
  | num a =>
    cases h
    have : ∑ c : Cell ny nx, (Val.num a : Val ny nx).at c = ∑ _c : Cell ny nx, a := rfl
    rw [this, Finset.sum_const, nsmul_eq_mul, Finset.card_univ, Fintype.card_prod, Fintype.card_fin,
      Fintype.card_fin, mul_comm]
  | one a => cases h
  | grid g => cases h; rfl
  | sheet g => cases h; rfl

/-- The totals grow by the sum over all cells of rate, cell area and time step. -/
theorem C273_totals (s : Site ny nx) (m : Method (Param ny nx)) (i : Inp ny nx) (t t' : St ny nx) (a b : ℝ)
    (ha : t.vol_IN = .num a) (hb : t.vol_Rg = .num b) (h : step s m i t = .ok t') :
    t'.vol_IN = .num (a + ∑ c, t'.IN.at c * value s.da c * s.dt) ∧
    t'.vol_Rg = .num (b + ∑ c, t'.IN.at c * value s.da c * s.dt) := by
  obtain ⟨x, _, _, _, h1, h2, _⟩ := step_inv h
  rw [ha] at h1
  rw [hb] at h2
  exact ⟨addVolume_num h1, addVolume_num h2⟩

/-! ### Concrete cases -/

/-- One row of two cells. -/
def site2 (da : Param 1 2) : Site 1 2 := { da := da, dt := 1, elev := fun _ => 10 }

/-- Rain and a water table far below the surface. -/
def rain2 (P : Param 1 2) : Inp 1 2 := { P_rain := P, SM := .number 0, h_table := .number 0 }

/-- A grid that differs between the two cells. -/
def grid2 : Param 1 2 := .grid (fun c => if c.2.val = 0 then 3 else 1)

-- Green-Ampt: rain as a grid sequence, the suction head as a time series, three updates.
example : ∃ t, run (site2 (.number 1)) (.greenAmpt (.number 2) (.number 1) (.number 1) (.number 0) (.number 0))
    [(.greenAmpt none none none none (some (.number 5)), rain2 grid2),
     (.greenAmpt none none none none (some (.number 6)), rain2 grid2),
     (.greenAmpt none none none none none, rain2 grid2)] = .ok t := by
  refine C273_green_ampt_partial _ _ (.greenAmpt (.number 2) (.number 1) (.number 1) (.number 0) (.number 5))
    _ _ _ ⟨_, _, _, _, _, rfl⟩ (by simp [InForce, Now]) ?_
  intro x hx
  simp only [List.mem_cons, List.not_mem_nil, or_false] at hx
  rcases hx with rfl | rfl <;> simp [FitsAll, Fits, AlikeAll, Alike, IsNumber, rain2, grid2]

-- Smith-Parlange with a time series of conductivities fails.
example : ¬ ∃ t, run (site2 (.number 1))
    (.smithParlange (.number 2) (.number 1) (.number 1) (.number 0) (.number 1) (.number 1))
    [(.smithParlange (some (.number 3)) none none none none none, rain2 (.number 4))] = .ok t := by
  rw [C273_smith_parlange_partial _ _ _ _ _ ⟨_, _, _, _, _, _, rfl⟩]
  · intro h
    have := h _ List.mem_cons_self
    simp [NothingRead] at this
  · intro x hx
    simp only [List.mem_cons, List.not_mem_nil, or_false] at hx
    subst hx
    exact ⟨⟨_, _, _, _, _, _, rfl⟩, Iff.rfl, Iff.rfl, Iff.rfl⟩

-- Beven: fails with a rain of 4 for both cells, runs with a grid of rain.
example : ¬ ∃ t, run (site2 (.number 1)) (.beven (.number 2) (.number 1) (.number 0) (.number 1) (.number 1))
    [(.beven none none none none none, rain2 (.number 4))] = .ok t := by
  refine C273_beven_violated _ _ (.number 2) (.number 1) (.number 0) (.number 1) (.number 1) _ _ _
    (by simp [InForce, Now]) ?_ (Or.inl (by simp [AllNumbers, IsNumber, rain2]))
  rintro ⟨P, M, K, hP, hM, hK, hl⟩
  simp only [rain2, Param.number.injEq] at hP hM hK
  subst hP hM hK
  norm_num at hl

example : ∃ t, run (site2 (.number 1)) (.beven (.number 2) (.number 1) (.number 0) (.number 1) (.number 1))
    [(.beven none none none none none, rain2 grid2)] = .ok t :=
  C273_beven_partial _ _ (.number 2) (.number 1) (.number 0) (.number 1) (.number 1) _ _ _
    (by simp [InForce, Now]) ⟨_, rfl⟩ ⟨_, rfl⟩ (by simp [AllNumbers, IsNumber, rain2, grid2]) (by simp)

-- With less rain than conductivity it depends on the cell areas.
example (da : Param 1 2) : (∃ t, run (site2 da)
    (.beven (.number 2) (.number 1) (.number 0) (.number 1) (.number 1))
    [(.beven none none none none none, rain2 (.number 1))] = .ok t) ↔ ¬ IsNumber da := by
  rw [C273_beven_numbers_violated _ _ _ _ _ _ _ (by simp)
    (by simp [AllNumbers, IsNumber, rain2])]
  constructor
  · exact fun h => h.1
  · refine fun h => ⟨h, ?_⟩
    intro x hx
    simp only [List.mem_cons, List.not_mem_nil, or_false] at hx
    subst hx
    exact ⟨1, 0, 2, rfl, rfl, rfl, by norm_num⟩

-- A Green-Ampt update on grids: the first cell infiltrates at its capacity 2.5, the second all it gets.
example : ∃ t', step (site2 (.number 1)) (.greenAmpt (.number 2) (.number 1) (.number 1) (.number 0) (.number 1))
    (rain2 grid2) { initSt (.greenAmpt (.number 2) (.number 1) (.number 1) (.number 0) (.number 1)) (rain2 grid2)
      with I := .grid (fun _ => 2) } = .ok t' ∧ t'.IN.at (0, 0) = 5 / 2 ∧ t'.IN.at (0, 1) = 1 := by
  obtain ⟨t', e⟩ := step_grid (s := site2 (.number 1))
    (m := .greenAmpt (.number 2) (.number 1) (.number 1) (.number 0) (.number 1)) (i := rain2 grid2)
    (t := { initSt (.greenAmpt (.number 2) (.number 1) (.number 1) (.number 0) (.number 1)) (rain2 grid2)
      with I := .grid (fun _ => 2) }) ⟨rfl, rfl, rfl⟩ rfl rfl
  have hc := fun c => (C273_cells_partial _ _ _ _ _ (Or.inr ⟨_, rfl⟩) e c).2.2
    (by rintro ⟨P, M, K, hP, _⟩; cases hP) ⟨_, rfl⟩
  refine ⟨t', e, ?_, ?_⟩
  · rw [hc]
    norm_num [site2, rain2, grid2, value, rate, supply, InfilShapeSpec.capacity, Val.at, Method.Ks]
  · rw [hc]
    norm_num [site2, rain2, grid2, value, rate, supply, InfilShapeSpec.capacity, Val.at, Method.Ks]

end InfilShape
