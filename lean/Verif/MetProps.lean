import Verif.MetModel
import Verif.InputProps
import Mathlib.Algebra.BigOperators.Ring.Finset

/-!
# Rain and snow (C33), rain stops when its data end (C54)
-/

set_option autoImplicit false
set_option linter.unusedSectionVars false

namespace MetSpec

open D8 (Cell)
open Input

variable {ny nx : ℕ} {K : Type*}

/-- The input file of a variable can be read to its end: a text file without unparsable lines, a binary
file that holds a whole number of grids. -/
def Sound (ny nx : ℕ) : VarType → File K → Prop
  | .scalar, _ => True
  | .timeSeries, .text ls => ∀ l ∈ ls, l ≠ .bad
  | .timeSeries, .binary _ => False
  | _, .binary is => (ny * nx) ∣ is.length
  | _, .text _ => False

/-- The variable is uniform in space. -/
def Uniform (ty : VarType) : Prop := ty = .scalar ∨ ty = .timeSeries

end MetSpec

namespace Met

open D8 (Cell)
open Input MetSpec

variable {ny nx : ℕ} {K : Type*} [Field K] [LinearOrder K] [IsStrictOrderedRing K]

theorem map2_at (f : K → K → K) (x y : Val K ny nx) (c : Cell ny nx) :
    (Val.map2 f x y).at c = f (x.at c) (y.at c) := by
  cases x <;> cases y <;> rfl

theorem assign_at {cfg : Cfg K ny nx} {old new v : Val K ny nx} (h : assign cfg old new = .ok v)
    (c : Cell ny nx) : v.at c = new.at c := by
  cases old with
  | gr g => simp only [assign, Except.ok.injEq] at h; subst h; rfl
  | sc a =>
    simp only [assign] at h
    split_ifs at h
    cases new with
    | sc b => simp only [Except.ok.injEq] at h; subst h; rfl
    | gr g => simp at h

/-- What one update establishes. -/
theorem update_facts {cfg : Cfg K ny nx} {s s' : St K ny nx} (h : update cfg s = .ok s') :
    (∀ c, s'.P_rain.at c = if s'.T_air.at c > cfg.T_rain_snow then s'.P.at c else 0) ∧
    (∀ c, s'.P_snow.at c = if s'.T_air.at c ≤ cfg.T_rain_snow then s'.P.at c else 0) ∧
    s'.time_index = s.time_index + 1 ∧
    ∃ r, (if s.time_index > 0 then readInputFiles cfg s else .ok s) = .ok r ∧
      s'.P = r.P ∧ s'.T_air = r.T_air ∧ s'.P_file = r.P_file ∧ s'.T_file = r.T_file ∧
      s'.RAIN_OVER = r.RAIN_OVER ∧
      s'.vol_P = r.vol_P + (∑ c, s'.P.at c * cfg.da c * cfg.dt) ∧
      s'.vol_PR = r.vol_PR + (∑ c, s'.P_rain.at c * cfg.da c * cfg.dt) ∧
      s'.vol_PS = r.vol_PS + (∑ c, s'.P_snow.at c * cfg.da c * cfg.dt) ∧
      assign cfg r.P_rain (rainOf cfg r.P r.T_air) = .ok s'.P_rain ∧
      assign cfg r.P_snow (snowOf cfg r.P r.T_air) = .ok s'.P_snow ∧ r.time_index = s.time_index := by
  unfold update at h
  simp only at h
  split at h
  · simp at h
  · rename_i r hr
    split at h
    · simp at h
    · rename_i R hR
      split at h
      · simp at h
      · rename_i S hS
        simp only [Except.ok.injEq] at h
        have htime : r.time_index = s.time_index := by
          split_ifs at hr with h0
          · unfold readInputFiles at hr
            split at hr
            · simp at hr
            · rename_i v f hv
              simp only at hr
              split at hr
              · simp at hr
              · rename_i q hq
                have hqt : q.time_index = s.time_index := by
                  cases v with
                  | none =>
                    simp only [Except.ok.injEq] at hq
                    subst hq
                    unfold setRainToZero
                    split_ifs <;> rfl
                  | some w =>
                    simp only at hq
                    split at hq
                    · simp at hq
                    · simp only [Except.ok.injEq] at hq
                      subst hq; rfl
                split at hr
                · simp at hr
                · simp only [Except.ok.injEq] at hr
                  subst hr
                  exact hqt
          · simp only [Except.ok.injEq] at hr
            subst hr; rfl
        subst h
        refine ⟨fun c => ?_, fun c => ?_, by simp [htime], r, hr, rfl, rfl, rfl, rfl, rfl, rfl, rfl,
          rfl, hR, hS, htime⟩
        · show R.at c = _
          rw [assign_at hR, rainOf, map2_at]
        · show S.at c = _
          rw [assign_at hS, snowOf, map2_at]

theorem readInputFiles_vols {cfg : Cfg K ny nx} {s r : St K ny nx}
    (hr : readInputFiles cfg s = .ok r) :
    r.vol_P = s.vol_P ∧ r.vol_PR = s.vol_PR ∧ r.vol_PS = s.vol_PS ∧ r.P_rain = s.P_rain ∧
      r.P_snow = s.P_snow := by
  unfold readInputFiles at hr
  split at hr
  · simp at hr
  · rename_i v f hv
    simp only at hr
    split at hr
    · simp at hr
    · rename_i q hq
      have hqt : q.vol_P = s.vol_P ∧ q.vol_PR = s.vol_PR ∧ q.vol_PS = s.vol_PS ∧
          q.P_rain = s.P_rain ∧ q.P_snow = s.P_snow := by
        cases v with
        | none =>
          simp only [Except.ok.injEq] at hq
          subst hq
          unfold setRainToZero
          split_ifs <;> exact ⟨rfl, rfl, rfl, rfl, rfl⟩
        | some w =>
          simp only at hq
          split at hq
          · simp at hq
          · simp only [Except.ok.injEq] at hq
            subst hq; exact ⟨rfl, rfl, rfl, rfl, rfl⟩
      split at hr
      · simp at hr
      · simp only [Except.ok.injEq] at hr
        subst hr
        exact hqt

theorem maybe_vols {cfg : Cfg K ny nx} {s r : St K ny nx}
    (hr : (if s.time_index > 0 then readInputFiles cfg s else .ok s) = .ok r) :
    r.vol_P = s.vol_P ∧ r.vol_PR = s.vol_PR ∧ r.vol_PS = s.vol_PS ∧ r.P_rain = s.P_rain ∧
      r.P_snow = s.P_snow := by
  split_ifs at hr
  · exact readInputFiles_vols hr
  · simp only [Except.ok.injEq] at hr
    subst hr; exact ⟨rfl, rfl, rfl, rfl, rfl⟩

/-- **C33.**  Whatever the types and contents of the precipitation and temperature inputs, after every
completed update the precipitation of each cell is all rain where the air is warmer than the threshold
and all snow elsewhere; rain and snow add up to the precipitation. -/
theorem C33_split (cfg : Cfg K ny nx) (s s' : St K ny nx) (h : update cfg s = .ok s')
    (c : Cell ny nx) :
    (cfg.T_rain_snow < s'.T_air.at c → s'.P_rain.at c = s'.P.at c ∧ s'.P_snow.at c = 0) ∧
    (s'.T_air.at c ≤ cfg.T_rain_snow → s'.P_rain.at c = 0 ∧ s'.P_snow.at c = s'.P.at c) ∧
    s'.P_rain.at c + s'.P_snow.at c = s'.P.at c := by
  obtain ⟨h1, h2, _⟩ := update_facts h
  rw [h1 c, h2 c]
  refine ⟨fun hw => ?_, fun hc => ?_, ?_⟩
  · rw [if_pos hw, if_neg (not_le.mpr hw)]; exact ⟨rfl, rfl⟩
  · rw [if_neg (not_lt.mpr hc), if_pos hc]; exact ⟨rfl, rfl⟩
  · by_cases hw : cfg.T_rain_snow < s'.T_air.at c
    · rw [if_pos hw, if_neg (not_le.mpr hw), add_zero]
    · rw [if_neg hw, if_pos (not_lt.mp hw), zero_add]

theorem init_vols {cfg : Cfg K ny nx} {P0 T0 : K} {Pf Tf : File K} {s : St K ny nx}
    (h : initializeMet cfg P0 T0 Pf Tf = .ok s) : s.vol_P = 0 ∧ s.vol_PR = 0 ∧ s.vol_PS = 0 := by
  unfold initializeMet at h
  simp only at h
  split at h
  · simp at h
  · rename_i r hr
    obtain ⟨a, b, d, _⟩ := readInputFiles_vols hr
    split_ifs at h <;>
    · simp only [Except.ok.injEq] at h
      subst h
      exact ⟨a, b, d⟩

/-- **C33.**  After every completed run, of any length and on any inputs, the reported precipitation
volume is the sum of the reported rain and snow volumes. -/
theorem C33_volumes (cfg : Cfg K ny nx) (P0 T0 : K) (Pf Tf : File K) (n : ℕ) (s : St K ny nx)
    (h : run cfg P0 T0 Pf Tf n = .ok s) : s.vol_P = s.vol_PR + s.vol_PS := by
  unfold run at h
  split at h
  · simp at h
  · rename_i s0 h0
    obtain ⟨a, b, d⟩ := init_vols h0
    clear h0
    induction n generalizing s with
    | zero =>
      simp only [updates, Except.ok.injEq] at h
      subst h
      rw [a, b, d, add_zero]
    | succ n ih =>
      simp only [updates] at h
      split at h
      · simp at h
      · rename_i u hu
        have hi := ih u hu
        obtain ⟨_, _, _, r, hr, _, _, _, _, _, e1, e2, e3, _⟩ := update_facts h
        obtain ⟨v1, v2, v3, _⟩ := maybe_vols hr
        have hs := fun c => (C33_split cfg u s h c).2.2
        rw [e1, e2, e3, v1, v2, v3, hi]
        have : (∑ c, s.P.at c * cfg.da c * cfg.dt)
            = (∑ c, s.P_rain.at c * cfg.da c * cfg.dt) + ∑ c, s.P_snow.at c * cfg.da c * cfg.dt := by
          rw [← Finset.sum_add_distrib]
          refine Finset.sum_congr rfl (fun c _ => ?_)
          rw [← hs c]; ring
        rw [this]; ring

/-! ### Which runs complete -/

/-- A variable has the shape that its type asks for. -/
def Shape (ty : VarType) : Val K ny nx → Prop
  | .sc _ => Uniform ty
  | .gr _ => ¬ Uniform ty

theorem shape_init (ty : VarType) (v : K) : Shape ty (initVar ty v : Val K ny nx) := by
  cases ty <;> simp [initVar, Shape, Uniform]

theorem readNext_sound {ty : VarType} {f : File K} (units : K) (hs : Sound ny nx ty f) :
    ∃ v f', readNext (ny := ny) (nx := nx) ty units f = .ok (v, f') ∧ Sound ny nx ty f' ∧
      ∀ w, v = some w → Shape ty w := by
  cases ty with
  | scalar => exact ⟨none, f, rfl, trivial, by simp⟩
  | timeSeries =>
    cases f with
    | binary is => exact absurd hs id
    | text ls =>
      cases ls with
      | nil => exact ⟨none, .text [], rfl, hs, by simp⟩
      | cons l ls =>
        cases l with
        | blank => exact ⟨none, .text ls, rfl, fun l hl => hs l (List.mem_cons_of_mem _ hl), by simp⟩
        | value v =>
          refine ⟨some (.sc (v * units)), .text ls, rfl,
            fun l hl => hs l (List.mem_cons_of_mem _ hl), ?_⟩
          intro w hw
          simp only [Option.some.injEq] at hw
          subst hw
          exact Or.inr rfl
        | bad => exact absurd rfl (hs _ (List.mem_cons_self ..))
  | grid =>
    cases f with
    | text ls => exact absurd hs id
    | binary is =>
      have hd : (ny * nx) ∣ is.length := hs
      by_cases h0 : (is.take (ny * nx)).length = 0
      · exact ⟨none, .binary is, by simp [readNext, readGrid, h0], hs, by simp⟩
      · have h1 : (is.take (ny * nx)).length = ny * nx := by
          rw [List.length_take] at h0 ⊢
          rw [Nat.min_eq_left]
          exact Nat.le_of_dvd (by omega) hd
        refine ⟨_, .binary (is.drop (ny * nx)), by
          simp only [readNext, readGrid]; rw [if_neg h0, dif_pos h1], ?_, ?_⟩
        · show (ny * nx) ∣ _
          rw [List.length_drop]
          exact Nat.dvd_sub hd (dvd_refl _)
        · intro w hw
          simp only [Option.map_some, Option.some.injEq] at hw
          subst hw
          simp [Shape, Uniform]
  | gridSequence =>
    cases f with
    | text ls => exact absurd hs id
    | binary is =>
      have hd : (ny * nx) ∣ is.length := hs
      by_cases h0 : (is.take (ny * nx)).length = 0
      · exact ⟨none, .binary is, by simp [readNext, readGrid, h0], hs, by simp⟩
      · have h1 : (is.take (ny * nx)).length = ny * nx := by
          rw [List.length_take] at h0 ⊢
          rw [Nat.min_eq_left]
          exact Nat.le_of_dvd (by omega) hd
        refine ⟨_, .binary (is.drop (ny * nx)), by
          simp only [readNext, readGrid]; rw [if_neg h0, dif_pos h1], ?_, ?_⟩
        · show (ny * nx) ∣ _
          rw [List.length_drop]
          exact Nat.dvd_sub hd (dvd_refl _)
        · intro w hw
          simp only [Option.map_some, Option.some.injEq] at hw
          subst hw
          simp [Shape, Uniform]

theorem updateVar_shape {ty : VarType} {x : Val K ny nx} {v : Option (Val K ny nx)} (factor : K)
    (hx : Shape ty x) (hv : ∀ w, v = some w → Shape ty w) :
    ∃ y, updateVar x v factor = .ok y ∧ Shape ty y := by
  cases v with
  | none => exact ⟨x, rfl, hx⟩
  | some w =>
    have hw := hv w rfl
    cases x with
    | sc a =>
      cases w with
      | sc b => exact ⟨_, rfl, hx⟩
      | gr g => exact absurd hx hw
    | gr g =>
      cases w with
      | sc b => exact absurd hw hx
      | gr g' => exact ⟨_, rfl, hx⟩

/-- The state between updates. -/
structure Inv (cfg : Cfg K ny nx) (s : St K ny nx) : Prop where
  P : Shape cfg.P_type s.P
  T : Shape cfg.T_air_type s.T_air
  R : Shape cfg.P_type s.P_rain
  S : Shape cfg.P_type s.P_snow
  Pf : Sound ny nx cfg.P_type s.P_file
  Tf : Sound ny nx cfg.T_air_type s.T_file

theorem read_inv {cfg : Cfg K ny nx} {s : St K ny nx} (h : Inv cfg s) :
    ∃ r, readInputFiles cfg s = .ok r ∧ Inv cfg r := by
  obtain ⟨v, f, e1, e2, e3⟩ := readNext_sound cfg.P_units h.Pf
  obtain ⟨w, f', t1, t2, t3⟩ := readNext_sound (ny := ny) (nx := nx) (1 : K) h.Tf
  obtain ⟨y, y1, y2⟩ := updateVar_shape (1 : K) h.T t3
  have hT : readVar cfg.T_air_type 1 1 (s.T_air, s.T_file) = .ok (y, f') := by
    simp only [readVar, t1, y1]
  cases v with
  | none =>
    have hz : ∀ q : St K ny nx, Inv cfg q → Inv cfg (setRainToZero cfg q) ∧
        (setRainToZero cfg q).T_air = q.T_air ∧ (setRainToZero cfg q).T_file = q.T_file := by
      intro q hq
      unfold setRainToZero
      split_ifs
      · exact ⟨hq, rfl, rfl⟩
      · exact ⟨hq, rfl, rfl⟩
      · refine ⟨⟨?_, hq.T, hq.R, hq.S, hq.Pf, hq.Tf⟩, rfl, rfl⟩
        have := hq.P
        revert this
        generalize q.P = x
        intro this
        cases x <;> exact this
    obtain ⟨z1, z2, z3⟩ := hz { s with P_file := f } ⟨h.P, h.T, h.R, h.S, e2, h.Tf⟩
    refine ⟨{ setRainToZero cfg { s with P_file := f } with
      T_air := y
      T_file := f' }, ?_, ⟨z1.P, y2, z1.R, z1.S, z1.Pf, t2⟩⟩
    simp only [readInputFiles, e1, z2, z3, hT]
  | some u =>
    obtain ⟨x, x1, x2⟩ := updateVar_shape cfg.P_factor h.P e3
    refine ⟨{ s with
      P_file := f
      P := x
      T_air := y
      T_file := f' }, ?_, ⟨x2, y2, h.R, h.S, e2, t2⟩⟩
    simp only [readInputFiles, e1, x1, hT]

theorem shape_sc {ty : VarType} {x : Val K ny nx} (h : Shape ty x) (hu : Uniform ty) :
    ∃ a, x = .sc a := by
  cases x with
  | sc a => exact ⟨a, rfl⟩
  | gr g => exact absurd hu h

theorem shape_gr {ty : VarType} {x : Val K ny nx} (h : Shape ty x) (hu : ¬ Uniform ty) :
    ∃ g, x = .gr g := by
  cases x with
  | sc a => exact absurd h hu
  | gr g => exact ⟨g, rfl⟩

/-- The types for which the split is written without error. -/
def Works (cfg : Cfg K ny nx) : Prop := cfg.T_air_type = .scalar ∨ ¬ Uniform cfg.P_type

theorem update_works {cfg : Cfg K ny nx} (hw : Works cfg) {s : St K ny nx} (h : Inv cfg s) :
    ∃ s', update cfg s = .ok s' ∧ Inv cfg s' := by
  have hr : ∃ r, (if s.time_index > 0 then readInputFiles cfg s else .ok s) = .ok r ∧ Inv cfg r := by
    split_ifs
    · exact read_inv h
    · exact ⟨s, rfl, h⟩
  obtain ⟨r, hr, hi⟩ := hr
  have key : ∀ (old : Val K ny nx) (f : K → K → K), Shape cfg.P_type old →
      ∃ v, assign cfg old (Val.map2 f r.P r.T_air) = .ok v ∧ Shape cfg.P_type v := by
    intro old f ho
    by_cases hu : Uniform cfg.P_type
    · obtain ⟨a, rfl⟩ := shape_sc ho hu
      have hT : cfg.T_air_type = .scalar := hw.resolve_right (fun h => h hu)
      obtain ⟨p, hp⟩ := shape_sc hi.P hu
      obtain ⟨t, ht⟩ := shape_sc hi.T (Or.inl hT)
      exact ⟨.sc (f p t), by simp [assign, hT, hp, ht, Val.map2], hu⟩
    · obtain ⟨g, rfl⟩ := shape_gr ho hu
      exact ⟨_, rfl, hu⟩
  obtain ⟨R, hR, hR'⟩ := key r.P_rain (fun p t => if t > cfg.T_rain_snow then p else 0) hi.R
  obtain ⟨S, hS, hS'⟩ := key r.P_snow (fun p t => if t ≤ cfg.T_rain_snow then p else 0) hi.S
  refine ⟨{ r with
    P_rain := R
    P_snow := S
    vol_P := addVolume cfg r.vol_P r.P
    vol_PR := addVolume cfg r.vol_PR R
    vol_PS := addVolume cfg r.vol_PS S
    time_index := r.time_index + 1 }, ?_, ⟨hi.P, hi.T, hR', hS', hi.Pf, hi.Tf⟩⟩
  unfold update
  simp only [hr]
  rw [show assign cfg r.P_rain (rainOf cfg r.P r.T_air) = .ok R from hR]
  simp only
  rw [show assign cfg r.P_snow (snowOf cfg r.P r.T_air) = .ok S from hS]

theorem scale_shape {ty : VarType} {x : Val K ny nx} (a : K) (h : Shape ty x) :
    Shape ty (x.scale a) := by cases x <;> exact h

theorem init_inv (cfg : Cfg K ny nx) (P0 T0 : K) (Pf Tf : File K)
    (hP : Sound ny nx cfg.P_type Pf) (hT : Sound ny nx cfg.T_air_type Tf) :
    ∃ s, initializeMet cfg P0 T0 Pf Tf = .ok s ∧ Inv cfg s := by
  unfold initializeMet
  obtain ⟨r, hr, hi⟩ := read_inv (cfg := cfg) (s :=
    { P := initVar cfg.P_type P0
      T_air := initVar cfg.T_air_type T0
      P_rain := initVar cfg.P_type 0
      P_snow := initVar cfg.P_type 0
      P_file := Pf
      T_file := Tf
      RAIN_OVER := false
      time_index := 0
      vol_P := 0
      vol_PR := 0
      vol_PS := 0 }) ⟨shape_init _ _, shape_init _ _, shape_init _ _, shape_init _ _, hP, hT⟩
  simp only [hr]
  split_ifs
  · exact ⟨_, rfl, ⟨scale_shape _ hi.P, hi.T, hi.R, hi.S, hi.Pf, hi.Tf⟩⟩
  · exact ⟨_, rfl, hi⟩

/-- **C33.**  With sound input files every run completes, of any length, if the air temperature is a
constant or the precipitation is a grid. -/
theorem C33_completes_partial (cfg : Cfg K ny nx) (P0 T0 : K) (Pf Tf : File K)
    (hP : Sound ny nx cfg.P_type Pf) (hT : Sound ny nx cfg.T_air_type Tf)
    (hty : cfg.T_air_type = .scalar ∨ cfg.P_type = .grid ∨ cfg.P_type = .gridSequence) (n : ℕ) :
    ∃ s, run cfg P0 T0 Pf Tf n = .ok s := by
  have hw : Works cfg := by
    rcases hty with h | h | h
    · exact Or.inl h
    · right; rw [h]; simp [Uniform]
    · right; rw [h]; simp [Uniform]
  obtain ⟨s0, h0, hi⟩ := init_inv cfg P0 T0 Pf Tf hP hT
  have : ∀ n, ∃ s, updates cfg n s0 = .ok s ∧ Inv cfg s := by
    intro n
    induction n with
    | zero => exact ⟨s0, rfl, hi⟩
    | succ n ih =>
      obtain ⟨u, hu, hui⟩ := ih
      obtain ⟨s, hs, hsi⟩ := update_works hw hui
      exact ⟨s, by simp only [updates, hu, hs], hsi⟩
  obtain ⟨s, hs, _⟩ := this n
  exact ⟨s, by simp only [run, h0, hs]⟩

/-- **C33 is violated** when the precipitation is uniform (a constant or a time series) and the air
temperature is anything but a constant: no run gets past its first update, whatever the data.  The
comments of `update_P_rain` list "scalar P, grid T_air" among the supported combinations. -/
theorem C33_violated (cfg : Cfg K ny nx) (P0 T0 : K) (Pf Tf : File K)
    (hP : cfg.P_type = .scalar ∨ cfg.P_type = .timeSeries) (hT : cfg.T_air_type ≠ .scalar) (n : ℕ) :
    ∃ e, run cfg P0 T0 Pf Tf (n + 1) = .error e := by
  cases h : run cfg P0 T0 Pf Tf (n + 1) with
  | error e => exact ⟨e, rfl⟩
  | ok s =>
    exfalso
    unfold run at h
    split at h
    · simp at h
    · rename_i s0 h0
      have hR0 : ∃ a, s0.P_rain = .sc a := by
        unfold initializeMet at h0
        simp only at h0
        split at h0
        · simp at h0
        · rename_i r hr
          obtain ⟨_, _, _, hR, _⟩ := readInputFiles_vols hr
          have : ∃ a, r.P_rain = .sc a := by
            rw [hR]
            rcases hP with h | h <;> rw [h] <;> exact ⟨_, rfl⟩
          split_ifs at h0 <;>
          · simp only [Except.ok.injEq] at h0
            subst h0
            exact this
      have fail : ∀ u v, (∃ a, u.P_rain = .sc a) → update cfg u = .ok v → False := by
        intro u v hu hv
        obtain ⟨_, _, _, r, hr, _, _, _, _, _, _, _, _, e1, _⟩ := update_facts hv
        obtain ⟨_, _, _, hR, _⟩ := maybe_vols hr
        obtain ⟨a, ha⟩ := hu
        rw [hR, ha] at e1
        simp [assign, hT] at e1
      have first : updates cfg 1 s0 = update cfg s0 := rfl
      have : ∀ n w, updates cfg (n + 1) s0 = .ok w → False := by
        intro n
        induction n with
        | zero => intro w hw; exact fail s0 w hR0 hw
        | succ n ih =>
          intro w hw
          simp only [updates] at hw ih
          split at hw
          · simp at hw
          · rename_i u hu
            exact ih u hu
      exact this n s h

/-- The hypotheses of the theorems above are met: rain at two cells, one of them below the threshold. -/
example : let cfg : Cfg ℚ 1 2 := ⟨.grid, .grid, 1, 1, 1, 60, fun _ => 100⟩
    ∃ s, run cfg 0 0 (.binary [2, 3]) (.binary [5, -5]) 1 = .ok s ∧
      s.P_rain.at (0, 0) = 2 ∧ s.P_snow.at (0, 1) = 3 ∧ s.P_rain.at (0, 1) = 0 := by
  refine ⟨_, rfl, ?_, ?_, ?_⟩ <;> decide +kernel

/-! ### The precipitation rate follows its data and then stops (C54) -/

/-- Reading a file of a variable of the given type delivers these values, and then nothing more. -/
def Delivers (ty : VarType) (units : K) : List (Val K ny nx) → File K → Prop
  | [], f => readNext (ny := ny) (nx := nx) ty units f = .ok (none, f)
  | x :: xs, f => ∃ f', readNext ty units f = .ok (some x, f') ∧ Delivers ty units xs f'

theorem delivers_lines (units : K) (vs : List K) :
    Delivers (ny := ny) (nx := nx) .timeSeries units (vs.map (fun v => .sc (v * units)))
      (.text (InputSpec.lines vs)) := by
  induction vs with
  | nil => rfl
  | cons v vs ih => exact ⟨_, rfl, ih⟩

theorem delivers_grids {ty : VarType} (hty : ty = .grid ∨ ty = .gridSequence) (hp : 0 < ny * nx)
    (units : K) (gs : List (Cell ny nx → K)) (items : List K) (hs : InputSpec.Stores items gs) :
    Delivers (ny := ny) (nx := nx) ty units (gs.map (fun g => .gr (fun c => g c * units)))
      (.binary items) := by
  induction gs generalizing items with
  | nil =>
    have : items = [] := List.eq_nil_of_length_eq_zero (by simpa using hs.1)
    subst this
    rcases hty with rfl | rfl <;> simp [Delivers, readNext, readGrid_nil]
  | cons g gs ih =>
    refine ⟨.binary (items.drop (ny * nx)), ?_, ih _ (stores_tail hs)⟩
    rcases hty with rfl | rfl <;> simp [readNext, readGrid_stores hp hs]

/-- What a reading of the input files does to the precipitation. -/
theorem readInputFiles_P {cfg : Cfg K ny nx} {s r : St K ny nx}
    (h : readInputFiles cfg s = .ok r) {v : Option (Val K ny nx)} {f : File K}
    (hv : readNext cfg.P_type cfg.P_units s.P_file = .ok (v, f)) :
    r.P_file = f ∧ r.time_index = s.time_index ∧
    (∀ w, v = some w → updateVar s.P (some w) cfg.P_factor = .ok r.P ∧ r.RAIN_OVER = s.RAIN_OVER) ∧
    (v = none → r.P = (setRainToZero cfg s).P ∧ r.RAIN_OVER = (setRainToZero cfg s).RAIN_OVER) := by
  unfold readInputFiles at h
  rw [hv] at h
  simp only at h
  cases v with
  | none =>
    simp only at h
    split at h
    · simp at h
    · simp only [Except.ok.injEq] at h
      subst h
      refine ⟨?_, ?_, by simp, fun _ => ⟨?_, ?_⟩⟩ <;>
      · simp only [setRainToZero]; split_ifs <;> rfl
  | some w =>
    simp only at h
    cases hu : updateVar s.P (some w) cfg.P_factor with
    | error e => simp [hu] at h
    | ok P =>
      simp only [hu] at h
      split at h
      · simp at h
      · simp only [Except.ok.injEq] at h
        subst h
        refine ⟨rfl, rfl, ?_, by simp⟩
        intro w' hw'
        simp only [Option.some.injEq] at hw'
        subst hw'
        exact ⟨hu, rfl⟩

theorem updateVar_at {x y w : Val K ny nx} {a : K} (h : updateVar x (some w) a = .ok y)
    (c : Cell ny nx) : y.at c = w.at c * a := by
  cases x <;> cases w <;> simp only [updateVar, Val.scale, Except.ok.injEq, reduceCtorEq] at h <;>
    subst h <;> rfl

theorem zero_at (s : St K ny nx) (cfg : Cfg K ny nx) (h : s.RAIN_OVER = false)
    (h2 : ¬ (cfg.P_type = .scalar ∧ s.time_index = 0)) (c : Cell ny nx) :
    (setRainToZero cfg s).P.at c = 0 ∧ (setRainToZero cfg s).RAIN_OVER = true := by
  unfold setRainToZero
  rw [h, if_neg (by simp), if_neg h2]
  simp only
  refine ⟨?_, trivial⟩
  cases s.P <;> rfl

/-- The precipitation after `k ≥ 1` readings of data `xs`. -/
structure Follows (cfg : Cfg K ny nx) (xs : List (Val K ny nx)) (k : ℕ) (s : St K ny nx) : Prop where
  file : Delivers cfg.P_type cfg.P_units (xs.drop k) s.P_file
  over : s.RAIN_OVER = decide (xs.length < k)
  rate : 0 < k → ∀ c, s.P.at c = match xs[k - 1]? with
    | some x => x.at c * cfg.P_factor
    | none => 0

theorem follows_read {cfg : Cfg K ny nx} {xs : List (Val K ny nx)} {k : ℕ} {s r : St K ny nx}
    (hty : cfg.P_type ≠ .scalar) (hf : Follows cfg xs k s) (h : readInputFiles cfg s = .ok r) :
    Follows cfg xs (k + 1) r := by
  by_cases hk : k < xs.length
  · have hd : xs.drop k = xs[k] :: xs.drop (k + 1) := List.drop_eq_getElem_cons hk
    have hfile := hf.file
    rw [hd] at hfile
    obtain ⟨f', e1, e2⟩ := hfile
    obtain ⟨r1, _, r2, _⟩ := readInputFiles_P h e1
    obtain ⟨r3, r4⟩ := r2 _ rfl
    refine ⟨by rw [r1]; exact e2, ?_, ?_⟩
    · rw [r4, hf.over, decide_eq_decide]; omega
    · intro _ c
      rw [updateVar_at r3]
      simp [hk]
  · have hd : xs.drop k = [] := List.drop_eq_nil_of_le (by omega)
    have hd' : xs.drop (k + 1) = [] := List.drop_eq_nil_of_le (by omega)
    have hfile := hf.file
    rw [hd] at hfile
    obtain ⟨r1, _, _, r2⟩ := readInputFiles_P h hfile
    obtain ⟨r3, r4⟩ := r2 rfl
    by_cases ho : s.RAIN_OVER = true
    · have hk2 : xs.length < k := by simpa [hf.over] using ho
      have hz : setRainToZero cfg s = s := by unfold setRainToZero; rw [if_pos ho]
      rw [hz] at r3 r4
      refine ⟨by rw [r1, hd']; exact hfile, ?_, ?_⟩
      · rw [r4, ho]; symm; simp; omega
      · intro _ c
        rw [r3, hf.rate (by omega) c]
        have a1 : xs[k - 1]? = none := by simp; omega
        have a2 : xs[k + 1 - 1]? = none := by simp; omega
        rw [a1, a2]
    · have ho' : s.RAIN_OVER = false := by simpa using ho
      refine ⟨by rw [r1, hd']; exact hfile, ?_, ?_⟩
      · have hlt : xs.length < k + 1 := by omega
        simp only [hlt, decide_true]
        rw [r4]
        unfold setRainToZero
        rw [ho', if_neg (by simp), if_neg (fun h => hty h.1)]
      · intro _ c
        rw [r3, (zero_at s cfg ho' (fun h => hty h.1) c).1]
        have a2 : xs[k + 1 - 1]? = none := by simp; omega
        rw [a2]

/-- The precipitation data of a run, in a form that says how much rain falls when, in model units. -/
inductive PrecipData (cfg : Cfg K ny nx) : File K → List (Cell ny nx → K) → Prop
  /-- A text file with one rate per line, uniform in space. -/
  | series (vs : List K) : cfg.P_type = .timeSeries →
      PrecipData cfg (.text (InputSpec.lines vs))
        (vs.map (fun v _ => v * cfg.P_units * cfg.P_factor))
  /-- A binary file with a sequence of grids. -/
  | grids (items : List K) (gs : List (Cell ny nx → K)) :
      cfg.P_type = .grid ∨ cfg.P_type = .gridSequence → 0 < ny * nx → InputSpec.Stores items gs →
      PrecipData cfg (.binary items) (gs.map (fun g c => g c * cfg.P_units * cfg.P_factor))

theorem follows_run {cfg : Cfg K ny nx} {P0 T0 : K} {Pf Tf : File K} {n : ℕ} {s : St K ny nx}
    (hty : cfg.P_type ≠ .scalar) {xs : List (Val K ny nx)}
    (hf : Delivers cfg.P_type cfg.P_units xs Pf) (h : run cfg P0 T0 Pf Tf n = .ok s) :
    Follows cfg xs (max n 1) s ∧ s.time_index = n := by
  unfold run at h
  split at h
  · simp at h
  · rename_i s0 h0
    have i0 : Follows cfg xs 1 s0 ∧ s0.time_index = 0 := by
      unfold initializeMet at h0
      simp only [hty, if_false] at h0
      split at h0
      · simp at h0
      · rename_i r hr
        simp only [Except.ok.injEq] at h0
        subst h0
        refine ⟨follows_read (k := 0) hty ⟨by simpa using hf, by simp, by simp⟩ hr, ?_⟩
        cases xs with
        | nil => exact (readInputFiles_P hr hf).2.1
        | cons x xs => obtain ⟨f', e, _⟩ := hf; exact (readInputFiles_P hr e).2.1
    clear h0
    induction n generalizing s with
    | zero =>
      simp only [updates, Except.ok.injEq] at h
      subst h
      exact i0
    | succ n ih =>
      simp only [updates] at h
      split at h
      · simp at h
      · rename_i u hu
        obtain ⟨u1, u2⟩ := ih hu
        obtain ⟨_, _, ht, r, hr, p1, _, p3, _, p5, _⟩ := update_facts h
        refine ⟨?_, by rw [ht, u2]⟩
        have key : Follows cfg xs (n + 1) r := by
          cases n with
          | zero =>
            rw [u2, if_neg (by omega)] at hr
            simp only [Except.ok.injEq] at hr
            subst hr
            exact u1
          | succ n =>
            rw [u2, if_pos (by omega)] at hr
            have := follows_read hty u1 hr
            rwa [show max (n + 1) 1 + 1 = n + 1 + 1 by omega] at this
        rw [show max (n + 1) 1 = n + 1 by omega]
        exact ⟨by rw [p3]; exact key.file, by rw [p5]; exact key.over, by rw [p1]; exact key.rate⟩

/-- **C54.**  During the `n`-th update of any completed run, the precipitation rate of every cell is the
`n`-th rate of the data in model units, and zero once the data have run out. -/
theorem C54_rain_follows_data (cfg : Cfg K ny nx) (P0 T0 : K) (Pf Tf : File K)
    (rates : List (Cell ny nx → K)) (hdata : PrecipData cfg Pf rates) (n : ℕ) (hn : 0 < n)
    (s : St K ny nx) (h : run cfg P0 T0 Pf Tf n = .ok s) (c : Cell ny nx) :
    s.P.at c = match rates[n - 1]? with
      | some rate => rate c
      | none => 0 := by
  cases hdata with
  | series vs hty =>
    have hd := delivers_lines (ny := ny) (nx := nx) cfg.P_units vs
    rw [← hty] at hd
    have := (follows_run (by rw [hty]; simp) hd h).1.rate (by omega) c
    rw [show max n 1 = n by omega] at this
    rw [this, List.getElem?_map, List.getElem?_map]
    cases vs[n - 1]? <;> rfl
  | grids items gs hty hp hs =>
    have hd := delivers_grids hty hp cfg.P_units gs items hs
    have := (follows_run (by rcases hty with h | h <;> rw [h] <;> simp) hd h).1.rate (by omega) c
    rw [show max n 1 = n by omega] at this
    rw [this, List.getElem?_map, List.getElem?_map]
    cases gs[n - 1]? <;> rfl

/-- **C54.**  A constant precipitation rate lasts for exactly one time step of the component.  Its
calibration factor `P_factor` is not applied to it. -/
theorem C54_constant_rain (cfg : Cfg K ny nx) (P0 T0 : K) (Pf Tf : File K)
    (hty : cfg.P_type = .scalar) (n : ℕ) (s : St K ny nx)
    (h : run cfg P0 T0 Pf Tf n = .ok s) (c : Cell ny nx) :
    s.P.at c = if n ≤ 1 then P0 * cfg.P_units else 0 := by
  have key : ∀ n s, run cfg P0 T0 Pf Tf n = .ok s → s.time_index = n ∧
      s.RAIN_OVER = decide (1 < n) ∧ s.P = .sc (if n ≤ 1 then P0 * cfg.P_units else 0) := by
    intro n s h
    unfold run at h
    split at h
    · simp at h
    · rename_i s0 h0
      have hread : ∀ (q : St K ny nx), readNext (ny := ny) (nx := nx) cfg.P_type cfg.P_units q.P_file
          = .ok (none, q.P_file) := by intro q; rw [hty]; rfl
      have i0 : s0.time_index = 0 ∧ s0.RAIN_OVER = false ∧ s0.P = .sc (P0 * cfg.P_units) := by
        unfold initializeMet at h0
        simp only [hty, if_true] at h0
        split at h0
        · simp at h0
        · rename_i r hr
          simp only [Except.ok.injEq] at h0
          obtain ⟨_, b, _, d⟩ := readInputFiles_P hr (hread _)
          obtain ⟨d1, d2⟩ := d rfl
          simp only [setRainToZero, hty, initVar] at d1 d2
          simp at d1 d2
          subst h0
          exact ⟨b, d2, by simp only [d1]; rfl⟩
      clear h0
      induction n generalizing s with
      | zero =>
        simp only [updates, Except.ok.injEq] at h
        subst h
        simpa using i0
      | succ n ih =>
        simp only [updates] at h
        split at h
        · simp at h
        · rename_i u hu
          obtain ⟨u1, u2, u3⟩ := ih u hu
          obtain ⟨_, _, ht, r, hr, p1, _, p3, _, p5, _⟩ := update_facts h
          refine ⟨by rw [ht, u1], ?_⟩
          rw [p1, p5]
          cases n with
          | zero =>
            rw [u1, if_neg (by omega)] at hr
            simp only [Except.ok.injEq] at hr
            subst hr
            exact ⟨by rw [u2]; simp, by rw [u3]; simp⟩
          | succ n =>
            rw [u1, if_pos (by omega)] at hr
            obtain ⟨_, _, _, d⟩ := readInputFiles_P hr (hread _)
            obtain ⟨d1, d2⟩ := d rfl
            rw [d1, d2]
            unfold setRainToZero
            rw [u2, u1]
            by_cases hn : n = 0
            · subst hn
              simp [u3]
            · have h1 : (1 : ℕ) < n + 1 := by omega
              simp only [h1, decide_true, if_true]
              rw [u2, u3]
              simp [hn]
              omega
  rw [(key n s h).2.2]
  rfl

/-- **C54 is violated** by files with a blank line that is followed by more data: after the end of such
a file the last rate stays in force for ever, instead of zero. -/
theorem C54_blank_line_violated (cfg : Cfg K ny nx) (P0 T0 : K) (Tf : File K)
    (hty : cfg.P_type = .timeSeries) (a b : List (Line K)) (v : K)
    (hb : ∀ l ∈ a ++ b, l ≠ .bad) (n : ℕ) (s : St K ny nx)
    (hn : (a ++ Line.blank :: b ++ [Line.value v]).length ≤ n)
    (h : run cfg P0 T0 (.text (a ++ .blank :: b ++ [.value v])) Tf n = .ok s) (c : Cell ny nx) :
    s.P.at c = v * cfg.P_units * cfg.P_factor := by
  set ls : List (Line K) := a ++ .blank :: b ++ [.value v] with hls
  have hlen : ls.length = a.length + b.length + 2 := by rw [hls]; simp; omega
  -- what holds after `k` readings
  let J : ℕ → St K ny nx → Prop := fun k s => s.P_file = .text (ls.drop k) ∧
    (a.length < k → s.RAIN_OVER = true) ∧ (∃ x, s.P = .sc x) ∧
    (ls.length ≤ k → s.P = .sc (v * cfg.P_units * cfg.P_factor))
  have jread : ∀ k s r, J k s → readInputFiles cfg s = .ok r → J (k + 1) r := by
    rintro k s r ⟨j1, j2, ⟨x, j3⟩, j4⟩ hr
    by_cases hk : k < ls.length
    · have hd : ls.drop k = ls[k] :: ls.drop (k + 1) := List.drop_eq_getElem_cons hk
      rw [hd] at j1
      cases hl : ls[k] with
      | bad =>
        exfalso
        have hm : ls[k] ∈ ls := List.getElem_mem hk
        rw [hl, hls] at hm
        simp only [List.append_assoc, List.cons_append, List.mem_append, List.mem_cons,
          List.not_mem_nil, or_false, reduceCtorEq, false_or] at hm
        rcases hm with hm | hm
        · exact hb _ (List.mem_append_left _ hm) rfl
        · exact hb _ (List.mem_append_right _ hm) rfl
      | blank =>
        rw [hl] at j1
        have e : readNext (ny := ny) (nx := nx) cfg.P_type cfg.P_units s.P_file
            = .ok (none, .text (ls.drop (k + 1))) := by rw [hty, j1]; rfl
        obtain ⟨r1, _, _, r2⟩ := readInputFiles_P hr e
        obtain ⟨r3, r4⟩ := r2 rfl
        refine ⟨r1, ?_, ?_, ?_⟩
        · intro _
          rw [r4]
          unfold setRainToZero
          split_ifs with h1 h2
          · exact h1
          · rw [hty] at h2; simp at h2
          · rfl
        · rw [r3]
          unfold setRainToZero
          split_ifs
          · exact ⟨x, j3⟩
          · exact ⟨x, j3⟩
          · rw [j3]; exact ⟨0, rfl⟩
        · intro hk2
          exfalso
          have : k = ls.length - 1 := by omega
          subst this
          have : ls[ls.length - 1] = .value v := by
            simp only [hls, List.getElem_append]
            simp
          rw [this] at hl
          simp at hl
      | value w =>
        rw [hl] at j1
        have e : readNext (ny := ny) (nx := nx) cfg.P_type cfg.P_units s.P_file
            = .ok (some (.sc (w * cfg.P_units)), .text (ls.drop (k + 1))) := by rw [hty, j1]; rfl
        obtain ⟨r1, _, r2, _⟩ := readInputFiles_P hr e
        obtain ⟨r3, r4⟩ := r2 _ rfl
        rw [j3] at r3
        simp only [updateVar, Val.scale, Except.ok.injEq] at r3
        refine ⟨r1, ?_, ⟨_, r3.symm⟩, ?_⟩
        · intro hak
          rw [r4]
          refine j2 ?_
          by_contra hcon
          have : k = a.length := by omega
          subst this
          have : ls[a.length] = .blank := by
            simp [hls]
          rw [this] at hl
          simp at hl
        · intro hk2
          have : k = ls.length - 1 := by omega
          subst this
          have : ls[ls.length - 1] = .value v := by
            simp only [hls, List.getElem_append]
            simp
          rw [this] at hl
          simp only [Line.value.injEq] at hl
          rw [← r3, hl]
    · have hd : ls.drop k = [] := List.drop_eq_nil_of_le (by omega)
      have hd' : ls.drop (k + 1) = [] := List.drop_eq_nil_of_le (by omega)
      rw [hd] at j1
      have e : readNext (ny := ny) (nx := nx) cfg.P_type cfg.P_units s.P_file
          = .ok (none, .text []) := by rw [hty, j1]; rfl
      obtain ⟨r1, _, _, r2⟩ := readInputFiles_P hr e
      obtain ⟨r3, r4⟩ := r2 rfl
      have ho := j2 (by omega)
      have hz : setRainToZero cfg s = s := by unfold setRainToZero; rw [if_pos ho]
      rw [hz] at r3 r4
      exact ⟨by rw [r1, hd'], fun _ => by rw [r4]; exact ho, ⟨x, by rw [r3, j3]⟩,
        fun _ => by rw [r3]; exact j4 (by omega)⟩
  have jrun : ∀ n s, run cfg P0 T0 (.text ls) Tf n = .ok s → J (max n 1) s ∧ s.time_index = n := by
    intro n s h
    unfold run at h
    split at h
    · simp at h
    · rename_i s0 h0
      have i0 : J 1 s0 ∧ s0.time_index = 0 := by
        unfold initializeMet at h0
        simp only [hty, reduceCtorEq, if_false] at h0
        split at h0
        · simp at h0
        · rename_i r hr
          simp only [Except.ok.injEq] at h0
          subst h0
          refine ⟨jread 0 _ _ ⟨rfl, by simp, ⟨0, rfl⟩, fun hh => by omega⟩ hr, ?_⟩
          have : ∃ v f, readNext (ny := ny) (nx := nx) cfg.P_type cfg.P_units (.text ls)
              = .ok (v, f) := by
            unfold readInputFiles at hr
            split at hr
            · simp at hr
            · rename_i v f hv
              exact ⟨v, f, hv⟩
          obtain ⟨v', f', e⟩ := this
          exact (readInputFiles_P hr e).2.1
      clear h0
      induction n generalizing s with
      | zero =>
        simp only [updates, Except.ok.injEq] at h
        subst h
        exact i0
      | succ n ih =>
        simp only [updates] at h
        split at h
        · simp at h
        · rename_i u hu
          obtain ⟨u1, u2⟩ := ih u hu
          obtain ⟨_, _, ht, r, hr, p1, _, p3, _, p5, _⟩ := update_facts h
          refine ⟨?_, by rw [ht, u2]⟩
          have key : J (n + 1) r := by
            cases n with
            | zero =>
              rw [u2, if_neg (by omega)] at hr
              simp only [Except.ok.injEq] at hr
              subst hr
              exact u1
            | succ n =>
              rw [u2, if_pos (by omega)] at hr
              have := jread _ _ _ u1 hr
              rwa [show max (n + 1) 1 + 1 = n + 1 + 1 by omega] at this
          rw [show max (n + 1) 1 = n + 1 by omega]
          obtain ⟨k1, k2, k3, k4⟩ := key
          exact ⟨by rw [p3]; exact k1, by rw [p5]; exact k2, by rw [p1]; exact k3,
            by rw [p1]; exact k4⟩
  have := (jrun n s h).1.2.2.2 (by omega)
  rw [this]
  rfl

/-- One blank line between two rates: seven steps later it still rains. -/
example : let cfg : Cfg ℚ 1 1 := ⟨.timeSeries, .scalar, 1, 1, 1, 60, fun _ => 100⟩
    ∃ s, run cfg 0 20 (.text [.value 4, .blank, .value 9]) (.text []) 10 = .ok s ∧
      s.P.at (0, 0) = 9 := by
  refine ⟨_, rfl, ?_⟩; decide +kernel

end Met
