import Verif.MetCycleModel
import Mathlib.Tactic.Linarith
import Mathlib.Tactic.NormNum

/-!
# The energy fluxes of a step belong together (C238), prescribed surface temperature and albedo (C239)
-/

set_option autoImplicit false

namespace MetCycle

/-! ## Specification -/

/-- The published variables belong to the same data: vapour pressures, dew point, exchange coefficients,
heat fluxes, radiation and their sum are those of the inputs `i` and of the snow, ice and sun of the
step `st`. -/
structure Together (cfg : Cfg) (st : Step) (i : Inputs) (v : Vars) : Prop where
  e_air : v.e_air = i.RH * MetEnergy.eSat cfg.satterlund i.T_air
  e_surf : v.e_surf = i.RH * MetEnergy.eSat cfg.satterlund i.T_surf
  dew : v.T_dew = MetEnergy.dewPoint v.e_air
  exchange : v.Dh = MetEnergy.conductance
    (MetEnergy.neutralConductance i.z st.h_snow i.z0_air i.uz)
    (MetEnergy.richardson i.z i.uz i.T_air i.T_surf) ∧ v.De = v.Dh
  sensible : v.Qh = 1.2614 * 1005.7 * v.Dh * (i.T_air - i.T_surf)
  latent : v.Qe = 1.2614 * 2500000 * v.De * (v.e_air - v.e_surf) * (0.622 / i.p0)
  water : v.W_p = 1.12 * Real.exp (0.0614 * v.T_dew)
  shortwave : v.Qn_SW = Solar.clearSky cfg.lat st.julian_day v.W_p st.TSN_offset cfg.alpha cfg.beta
    i.albedo i.dust_atten * (1 - i.albedo)
  emissivity : v.em_air =
    MetEnergy.airEmissivity cfg.satterlund i.canopy_factor i.cloud_factor v.e_air i.T_air
  longwave : v.Qn_LW = i.em_surf * (v.em_air * 5.67e-8 * (i.T_air + 273.15) ^ 4 -
    5.67e-8 * (i.T_surf + 273.15) ^ 4)
  total : v.Q_sum = v.Qn_SW + v.Qn_LW + v.Qh + v.Qe

/-- The value last read, or the first value. -/
def latest (x0 : ℝ) (l : List (Option ℝ)) : ℝ := ((l.filterMap id).getLast?).getD x0

theorem latest_snoc (x0 : ℝ) (l : List (Option ℝ)) (o : Option ℝ) :
    latest x0 (l ++ [o]) = o.getD (latest x0 l) := by
  cases o with
  | none => simp [latest]
  | some x => simp [latest]

/-! ## One update -/

theorem vapor_eq (a b : ℝ) : MetEnergy.vaporPressure a b = a * b := rfl

theorem sensible_eq (D a b : ℝ) : MetEnergy.sensibleHeat D a b = 1.2614 * 1005.7 * D * (a - b) := rfl

theorem latent_eq (D a b p : ℝ) :
    MetEnergy.latentHeat D a b p = 1.2614 * 2500000 * D * (a - b) * (0.622 / p) := rfl

theorem water_eq (T : ℝ) : MetEnergy.precipitableWater T = 1.12 * Real.exp (0.0614 * T) := rfl

theorem short_eq (a b c d e f g h : ℝ) :
    Solar.netShortwave a b c d e f g h = Solar.clearSky a b c d e f g h * (1 - g) := rfl

theorem long_eq (em es a b : ℝ) : MetEnergy.netLongwave em es a b =
    es * (em * 5.67e-8 * (a + 273.15) ^ 4 - 5.67e-8 * (b + 273.15) ^ 4) := by
  simp only [MetEnergy.netLongwave]
  ring

attribute [local irreducible] MetEnergy.eSat MetEnergy.vaporPressure MetEnergy.dewPoint
  MetEnergy.surfaceTemp MetEnergy.richardson MetEnergy.neutralConductance MetEnergy.conductance
  MetEnergy.sensibleHeat MetEnergy.precipitableWater MetEnergy.latentHeat MetEnergy.snowAge
  MetEnergy.albedo MetEnergy.airEmissivity MetEnergy.netLongwave Solar.clearSky Solar.netShortwave

/-- The part of an update before the surface temperature. -/
noncomputable def part1 (cfg : Cfg) (s : St) : St := dew (vapAir (satAir cfg s))

/-- The part of an update from the surface temperature to the albedo. -/
noncomputable def part2 (cfg : Cfg) (st : Step) (s : St) : St :=
  latent (vapSurf (water (sensible (aero st (rich (satSurf cfg s))))))

/-- The part of an update after the albedo. -/
noncomputable def part3 (cfg : Cfg) (st : Step) (s : St) : St :=
  netEnergy (longwave (emAir cfg (shortwave cfg st s)))

/-- The state after the reading of an update. -/
noncomputable def part0 (s : St) (r : Reads) : St :=
  if s.time_index > 0 then { s with inp := readInputs s.inp r } else s

theorem update_parts (cfg : Cfg) (s : St) (r : Reads) (st : Step) :
    update cfg s r st =
      match albedo cfg st (part2 cfg st (surf cfg st (part1 cfg (part0 s r)))) with
      | .error e => .error e
      | .ok w => .ok { part3 cfg st w with time_index := (part3 cfg st w).time_index + 1 } := rfl

theorem part1_inp (cfg : Cfg) (s : St) : (part1 cfg s).inp = s.inp := rfl
theorem part1_time (cfg : Cfg) (s : St) : (part1 cfg s).time_index = s.time_index := rfl
theorem part1_Qa (cfg : Cfg) (s : St) : (part1 cfg s).var.Qa = s.var.Qa := rfl
theorem part1_Qc (cfg : Cfg) (s : St) : (part1 cfg s).var.Qc = s.var.Qc := rfl
theorem part1_e (cfg : Cfg) (s : St) : (part1 cfg s).var.e_air =
    MetEnergy.vaporPressure s.inp.RH (MetEnergy.eSat cfg.satterlund s.inp.T_air) := rfl
theorem part1_dew (cfg : Cfg) (s : St) : (part1 cfg s).var.T_dew =
    MetEnergy.dewPoint (part1 cfg s).var.e_air := rfl

theorem part2_inp (cfg : Cfg) (st : Step) (s : St) : (part2 cfg st s).inp = s.inp := rfl
theorem part2_time (cfg : Cfg) (st : Step) (s : St) :
    (part2 cfg st s).time_index = s.time_index := rfl
theorem part2_Qa (cfg : Cfg) (st : Step) (s : St) : (part2 cfg st s).var.Qa = s.var.Qa := rfl
theorem part2_Qc (cfg : Cfg) (st : Step) (s : St) : (part2 cfg st s).var.Qc = s.var.Qc := rfl
theorem part2_e (cfg : Cfg) (st : Step) (s : St) : (part2 cfg st s).var.e_air = s.var.e_air := rfl
theorem part2_dew (cfg : Cfg) (st : Step) (s : St) : (part2 cfg st s).var.T_dew = s.var.T_dew := rfl
theorem part2_es (cfg : Cfg) (st : Step) (s : St) : (part2 cfg st s).var.e_surf =
    MetEnergy.vaporPressure s.inp.RH (MetEnergy.eSat cfg.satterlund s.inp.T_surf) := rfl
theorem part2_Dh (cfg : Cfg) (st : Step) (s : St) : (part2 cfg st s).var.Dh =
    MetEnergy.conductance (MetEnergy.neutralConductance s.inp.z st.h_snow s.inp.z0_air s.inp.uz)
      (MetEnergy.richardson s.inp.z s.inp.uz s.inp.T_air s.inp.T_surf) := rfl
theorem part2_De (cfg : Cfg) (st : Step) (s : St) : (part2 cfg st s).var.De =
    (part2 cfg st s).var.Dh := rfl
theorem part2_Qh (cfg : Cfg) (st : Step) (s : St) : (part2 cfg st s).var.Qh =
    MetEnergy.sensibleHeat (part2 cfg st s).var.Dh s.inp.T_air s.inp.T_surf := rfl
theorem part2_Qe (cfg : Cfg) (st : Step) (s : St) : (part2 cfg st s).var.Qe =
    MetEnergy.latentHeat (part2 cfg st s).var.De (part2 cfg st s).var.e_air
      (part2 cfg st s).var.e_surf s.inp.p0 := rfl
theorem part2_W (cfg : Cfg) (st : Step) (s : St) : (part2 cfg st s).var.W_p =
    MetEnergy.precipitableWater s.var.T_dew := rfl

theorem part3_inp (cfg : Cfg) (st : Step) (s : St) : (part3 cfg st s).inp = s.inp := rfl
theorem part3_time (cfg : Cfg) (st : Step) (s : St) :
    (part3 cfg st s).time_index = s.time_index := rfl
theorem part3_var (cfg : Cfg) (st : Step) (s : St) : (part3 cfg st s).var =
    { s.var with
      Qn_SW := (part3 cfg st s).var.Qn_SW
      em_air := (part3 cfg st s).var.em_air
      Qn_LW := (part3 cfg st s).var.Qn_LW
      Q_sum := (part3 cfg st s).var.Q_sum } := rfl
theorem part3_SW (cfg : Cfg) (st : Step) (s : St) : (part3 cfg st s).var.Qn_SW =
    Solar.netShortwave cfg.lat st.julian_day s.var.W_p st.TSN_offset cfg.alpha cfg.beta s.inp.albedo
      s.inp.dust_atten := rfl
theorem part3_em (cfg : Cfg) (st : Step) (s : St) : (part3 cfg st s).var.em_air =
    MetEnergy.airEmissivity cfg.satterlund s.inp.canopy_factor s.inp.cloud_factor s.var.e_air
      s.inp.T_air := rfl
theorem part3_LW (cfg : Cfg) (st : Step) (s : St) : (part3 cfg st s).var.Qn_LW =
    MetEnergy.netLongwave (part3 cfg st s).var.em_air s.inp.em_surf s.inp.T_air s.inp.T_surf := rfl
theorem part3_Q (cfg : Cfg) (st : Step) (s : St) : (part3 cfg st s).var.Q_sum =
    (part3 cfg st s).var.Qn_SW + (part3 cfg st s).var.Qn_LW + s.var.Qh + s.var.Qe + s.var.Qa +
      s.var.Qc := rfl

theorem surf_ok (cfg : Cfg) (st : Step) (s : St) :
    (surf cfg st s).time_index = s.time_index ∧ (surf cfg st s).var = s.var ∧
    (surf cfg st s).inp = { s.inp with T_surf := (surf cfg st s).inp.T_surf } ∧
    (cfg.T_surf_type.fixed = false → (surf cfg st s).inp.T_surf = s.inp.T_surf) := by
  unfold surf
  by_cases hf : cfg.T_surf_type.fixed = true
  · rw [if_pos hf]
    exact ⟨rfl, rfl, rfl, fun h' => by simp [hf] at h'⟩
  · rw [if_neg hf]
    exact ⟨rfl, rfl, rfl, fun _ => rfl⟩

theorem part0_facts (s : St) (r : Reads) : (part0 s r).var = s.var ∧
    (part0 s r).time_index = s.time_index := by
  unfold part0
  by_cases h : s.time_index > 0
  · rw [if_pos h]
    exact ⟨rfl, rfl⟩
  · rw [if_neg h]
    exact ⟨rfl, rfl⟩

theorem albedo_ok {cfg : Cfg} {st : Step} {s t : St} (h : albedo cfg st s = .ok t) :
    t.time_index = s.time_index ∧
    t.inp = { s.inp with albedo := t.inp.albedo } ∧
    t.var = { s.var with
      window := t.var.window
      n := t.var.n } ∧
    (cfg.albedo_type.fixed = false → t.inp.albedo = s.inp.albedo) := by
  unfold albedo at h
  by_cases hf : cfg.albedo_type.fixed = true
  · rw [if_pos hf] at h
    split at h
    · simp at h
    · rename_i w _
      rw [Except.ok.injEq] at h
      subst h
      exact ⟨rfl, rfl, rfl, fun h' => by simp [hf] at h'⟩
  · rw [if_neg hf, Except.ok.injEq] at h
    subst h
    exact ⟨rfl, rfl, rfl, fun _ => rfl⟩


theorem update_facts {cfg : Cfg} {s t : St} {r : Reads} {st : Step}
    (h : update cfg s r st = .ok t) :
    t.time_index = s.time_index + 1 ∧ t.var.Qa = s.var.Qa ∧ t.var.Qc = s.var.Qc ∧
    t.inp = { (part0 s r).inp with
      T_surf := t.inp.T_surf
      albedo := t.inp.albedo } ∧
    (cfg.T_surf_type.fixed = false → t.inp.T_surf = (part0 s r).inp.T_surf) ∧
    (cfg.albedo_type.fixed = false → t.inp.albedo = (part0 s r).inp.albedo) ∧
    (s.var.Qa = 0 → s.var.Qc = 0 → Together cfg st t.inp t.var) := by
  rw [update_parts] at h
  obtain ⟨z1, z2⟩ := part0_facts s r
  generalize part0 s r = a at h z1 z2 ⊢
  obtain ⟨u1, u2, u3, u4⟩ := surf_ok cfg st (part1 cfg a)
  generalize hu : surf cfg st (part1 cfg a) = u at h u1 u2 u3 u4
  rw [part1_inp] at u3 u4
  rw [part1_time] at u1
  split at h
  · simp at h
  · rename_i w hw
    obtain ⟨a1, a2, a3, a4⟩ := albedo_ok hw
    rw [part2_time] at a1
    rw [part2_inp] at a2 a4
    rw [Except.ok.injEq] at h
    have ht1 : t.time_index = w.time_index + 1 := by rw [← h]; rfl
    have ht2 : t.inp = w.inp := by rw [← h]; rfl
    have ht3 : t.var = (part3 cfg st w).var := by rw [← h]
    have hws : w.inp.T_surf = u.inp.T_surf := by rw [a2]
    have hQa : w.var.Qa = s.var.Qa := by
      rw [a3]
      change (part2 cfg st u).var.Qa = _
      rw [part2_Qa, u2, part1_Qa, z1]
    have hQc : w.var.Qc = s.var.Qc := by
      rw [a3]
      change (part2 cfg st u).var.Qc = _
      rw [part2_Qc, u2, part1_Qc, z1]
    have hwi : w.inp = { a.inp with
        T_surf := w.inp.T_surf
        albedo := w.inp.albedo } := by
      rw [a2, u3]
    refine ⟨?_, ?_, ?_, ?_, ?_, ?_, ?_⟩
    · rw [ht1, a1, u1, z2]
    · rw [ht3, part3_var]
      exact hQa
    · rw [ht3, part3_var]
      exact hQc
    · rw [ht2]
      exact hwi
    · intro hf
      rw [ht2, hws, u4 hf]
    · intro hf
      rw [ht2, a4 hf, u3]
    · intro ha hc
      have k1 : t.var.e_air = w.var.e_air := by rw [ht3, part3_var]
      have k2 : t.var.e_surf = w.var.e_surf := by rw [ht3, part3_var]
      have k3 : t.var.T_dew = w.var.T_dew := by rw [ht3, part3_var]
      have k4 : t.var.Dh = w.var.Dh := by rw [ht3, part3_var]
      have k5 : t.var.De = w.var.De := by rw [ht3, part3_var]
      have k6 : t.var.Qh = w.var.Qh := by rw [ht3, part3_var]
      have k7 : t.var.Qe = w.var.Qe := by rw [ht3, part3_var]
      have k8 : t.var.W_p = w.var.W_p := by rw [ht3, part3_var]
      have m1 : w.var.e_air = (part2 cfg st u).var.e_air := by rw [a3]
      have m2 : w.var.e_surf = (part2 cfg st u).var.e_surf := by rw [a3]
      have m3 : w.var.T_dew = (part2 cfg st u).var.T_dew := by rw [a3]
      have m4 : w.var.Dh = (part2 cfg st u).var.Dh := by rw [a3]
      have m5 : w.var.De = (part2 cfg st u).var.De := by rw [a3]
      have m6 : w.var.Qh = (part2 cfg st u).var.Qh := by rw [a3]
      have m7 : w.var.Qe = (part2 cfg st u).var.Qe := by rw [a3]
      have m8 : w.var.W_p = (part2 cfg st u).var.W_p := by rw [a3]
      have wT : w.inp.T_air = u.inp.T_air := by rw [a2]
      have wR : w.inp.RH = u.inp.RH := by rw [a2]
      have wp : w.inp.p0 = u.inp.p0 := by rw [a2]
      have wz : w.inp.z = u.inp.z := by rw [a2]
      have wz0 : w.inp.z0_air = u.inp.z0_air := by rw [a2]
      have wu : w.inp.uz = u.inp.uz := by rw [a2]
      have uT : u.inp.T_air = a.inp.T_air := by rw [u3]
      have uR : u.inp.RH = a.inp.RH := by rw [u3]
      constructor
      · rw [k1, m1, part2_e, u2, part1_e, vapor_eq, ht2, wR, wT, uR, uT]
      · rw [k2, m2, part2_es, vapor_eq, ht2, wR, hws]
      · rw [k3, m3, part2_dew, u2, part1_dew, k1, m1, part2_e, u2]
      · refine ⟨?_, ?_⟩
        · rw [k4, m4, part2_Dh, ht2, wz, wz0, wu, wT, hws]
        · rw [k5, m5, part2_De, k4, m4]
      · rw [k6, m6, part2_Qh, sensible_eq, k4, m4, ht2, wT, hws]
      · rw [k7, m7, part2_Qe, latent_eq, k5, m5, k1, m1, k2, m2, ht2, wp]
      · rw [k8, m8, part2_W, water_eq, k3, m3, part2_dew]
      · rw [ht3, part3_SW, short_eq, ← ht3, k8, ht2]
      · rw [ht3, part3_em, ← ht3, k1, ht2]
      · rw [ht3, part3_LW, long_eq, ht2]
      · rw [ht3, part3_Q, ← ht3, k6, k7, hQa, hQc, ha, hc, add_zero, add_zero]

/-! ## Runs -/

/-- **C238.**  After every update of every run the published variables belong together: vapour
pressures, dew point, exchange coefficients, heat fluxes, radiation and the total energy flux are all
those of the same, current inputs. -/
theorem C238_together (cfg : Cfg) (s t : St) (hist : List (Reads × Step)) (r : Reads) (st : Step)
    (ha : s.var.Qa = 0) (hc : s.var.Qc = 0) (h : run cfg s (hist ++ [(r, st)]) = .ok t) :
    Together cfg st t.inp t.var := by
  induction hist generalizing s with
  | nil =>
    simp only [List.nil_append, run] at h
    split at h
    · simp at h
    · rename_i w hw
      rw [Except.ok.injEq] at h
      subst h
      exact (update_facts hw).2.2.2.2.2.2 ha hc
  | cons p hist ih =>
    simp only [List.cons_append, run] at h
    split at h
    · simp at h
    · rename_i w hw
      obtain ⟨_, q1, q2, _⟩ := update_facts hw
      exact ih w (q1.trans ha) (q2.trans hc) h

/-- What was read after the first update, for one of the variables. -/
def readsOf (f : Reads → Option ℝ) (hist : List (Reads × Step)) : List (Option ℝ) :=
  (hist.drop 1).map fun p => f p.1

theorem run_snoc (cfg : Cfg) (hist : List (Reads × Step)) (p : Reads × Step) (s : St) :
    run cfg s (hist ++ [p]) =
      match run cfg s hist with
      | .error e => .error e
      | .ok t => update cfg t p.1 p.2 := by
  induction hist generalizing s with
  | nil =>
    simp only [List.nil_append, run]
    cases update cfg s p.1 p.2 <;> rfl
  | cons q hist ih =>
    simp only [List.cons_append, run]
    cases update cfg s q.1 q.2 with
    | error e => rfl
    | ok w => exact ih w

theorem readsOf_snoc (f : Reads → Option ℝ) (hist : List (Reads × Step)) (p : Reads × Step) :
    readsOf f (hist ++ [p]) = if hist.length > 0 then readsOf f hist ++ [f p.1] else [] := by
  cases hist with
  | nil => rfl
  | cons q hist => simp [readsOf]

/-- **C238** (inputs).  The inputs behind the published variables are the values last read (the first
update uses those read at the start). -/
theorem C238_inputs (cfg : Cfg) (s t : St) (hist : List (Reads × Step)) (h0 : s.time_index = 0)
    (h : run cfg s hist = .ok t) :
    t.inp.T_air = latest s.inp.T_air (readsOf (·.T_air) hist) ∧
    t.inp.RH = latest s.inp.RH (readsOf (·.RH) hist) ∧
    t.inp.p0 = latest s.inp.p0 (readsOf (·.p0) hist) ∧
    t.inp.uz = latest s.inp.uz (readsOf (·.uz) hist) ∧
    t.inp.z = latest s.inp.z (readsOf (·.z) hist) ∧
    t.inp.z0_air = latest s.inp.z0_air (readsOf (·.z0_air) hist) ∧
    t.inp.em_surf = latest s.inp.em_surf (readsOf (·.em_surf) hist) ∧
    t.inp.dust_atten = latest s.inp.dust_atten (readsOf (·.dust_atten) hist) ∧
    t.inp.cloud_factor = latest s.inp.cloud_factor (readsOf (·.cloud_factor) hist) ∧
    t.inp.canopy_factor = latest s.inp.canopy_factor (readsOf (·.canopy_factor) hist) ∧
    (cfg.T_surf_type.fixed = false →
      t.inp.T_surf = latest s.inp.T_surf (readsOf (·.T_surf) hist)) ∧
    (cfg.albedo_type.fixed = false →
      t.inp.albedo = latest s.inp.albedo (readsOf (·.albedo) hist)) ∧
    t.time_index = hist.length := by
  induction hist using List.reverseRecOn generalizing t with
  | nil =>
    simp only [run, Except.ok.injEq] at h
    subst h
    exact ⟨rfl, rfl, rfl, rfl, rfl, rfl, rfl, rfl, rfl, rfl, fun _ => rfl, fun _ => rfl, h0⟩
  | append_singleton hist p ih =>
    rw [run_snoc] at h
    split at h
    · simp at h
    · rename_i w hw
      obtain ⟨i1, i2, i3, i4, i5, i6, i7, i8, i9, i10, i11, i12, i13⟩ := ih w hw
      obtain ⟨q1, _, _, q4, q5, q6, _⟩ := update_facts h
      have key : ∀ (f : Reads → Option ℝ) (g : Inputs → ℝ),
          (∀ i r, g (readInputs i r) = (f r).getD (g i)) →
          g w.inp = latest (g s.inp) (readsOf f hist) →
          g (part0 w p.1).inp = latest (g s.inp) (readsOf f (hist ++ [p])) := by
        intro f g hg hi
        rw [readsOf_snoc]
        unfold part0
        rw [i13]
        by_cases hl : hist.length > 0
        · rw [if_pos hl, if_pos hl, latest_snoc]
          exact (hg w.inp p.1).trans (by rw [hi])
        · rw [if_neg hl, if_neg hl]
          have : hist = [] := List.length_eq_zero_iff.1 (by omega)
          subst this
          exact hi
      refine ⟨?_, ?_, ?_, ?_, ?_, ?_, ?_, ?_, ?_, ?_, ?_, ?_, ?_⟩
      · rw [q4]; exact key (·.T_air) (·.T_air) (fun _ _ => rfl) i1
      · rw [q4]; exact key (·.RH) (·.RH) (fun _ _ => rfl) i2
      · rw [q4]; exact key (·.p0) (·.p0) (fun _ _ => rfl) i3
      · rw [q4]; exact key (·.uz) (·.uz) (fun _ _ => rfl) i4
      · rw [q4]; exact key (·.z) (·.z) (fun _ _ => rfl) i5
      · rw [q4]; exact key (·.z0_air) (·.z0_air) (fun _ _ => rfl) i6
      · rw [q4]; exact key (·.em_surf) (·.em_surf) (fun _ _ => rfl) i7
      · rw [q4]; exact key (·.dust_atten) (·.dust_atten) (fun _ _ => rfl) i8
      · rw [q4]; exact key (·.cloud_factor) (·.cloud_factor) (fun _ _ => rfl) i9
      · rw [q4]; exact key (·.canopy_factor) (·.canopy_factor) (fun _ _ => rfl) i10
      · intro hf
        rw [q5 hf]
        exact key (·.T_surf) (·.T_surf) (fun _ _ => rfl) (i11 hf)
      · intro hf
        rw [q6 hf]
        exact key (·.albedo) (·.albedo) (fun _ _ => rfl) (i12 hf)
      · rw [q1, i13, List.length_append]
        rfl

theorem albedo_completes (cfg : Cfg) (st : Step) (s : St) (hw : s.var.window ≠ []) :
    ∃ t, albedo cfg st s = .ok t ∧ t.var.window ≠ [] := by
  unfold albedo
  by_cases hf : cfg.albedo_type.fixed = true
  · rw [if_pos hf]
    cases hs : s.var.window with
    | nil => exact absurd hs hw
    | cons a l => exact ⟨_, rfl, by simp⟩
  · rw [if_neg hf]
    exact ⟨s, rfl, hw⟩

/-- **C238** (completion).  With a time step of at most three days (the window of snowfall depths has an
entry) every run completes. -/
theorem C238_completes (cfg : Cfg) (hist : List (Reads × Step)) (s : St) (hw : s.var.window ≠ []) :
    ∃ t, run cfg s hist = .ok t := by
  induction hist generalizing s with
  | nil => exact ⟨s, rfl⟩
  | cons p hist ih =>
    have h2 : (part2 cfg p.2 (surf cfg p.2 (part1 cfg (part0 s p.1)))).var.window ≠ [] := by
      change (surf cfg p.2 (part1 cfg (part0 s p.1))).var.window ≠ []
      rw [(surf_ok cfg p.2 (part1 cfg (part0 s p.1))).2.1]
      change (part0 s p.1).var.window ≠ []
      rw [(part0_facts s p.1).1]
      exact hw
    obtain ⟨w, hw1, hw2⟩ := albedo_completes cfg p.2 _ h2
    have hu : update cfg s p.1 p.2 =
        .ok { part3 cfg p.2 w with time_index := (part3 cfg p.2 w).time_index + 1 } := by
      rw [update_parts, hw1]
    obtain ⟨t, ht⟩ := ih { part3 cfg p.2 w with time_index := (part3 cfg p.2 w).time_index + 1 } hw2
    exact ⟨t, by simp only [run, hu, ht]⟩

/-! ## C239 -/

/-- **C239** (partial: types time series and grid sequence).  The surface temperature and the albedo
that are used are those last read. -/
theorem C239_series_partial (cfg : Cfg) (s t : St) (hist : List (Reads × Step))
    (h0 : s.time_index = 0) (h : run cfg s hist = .ok t) :
    (cfg.T_surf_type = .timeSeries ∨ cfg.T_surf_type = .gridSequence →
      t.inp.T_surf = latest s.inp.T_surf (readsOf (·.T_surf) hist)) ∧
    (cfg.albedo_type = .timeSeries ∨ cfg.albedo_type = .gridSequence →
      t.inp.albedo = latest s.inp.albedo (readsOf (·.albedo) hist)) := by
  obtain ⟨_, _, _, _, _, _, _, _, _, _, h1, h2, _⟩ := C238_inputs cfg s t hist h0 h
  refine ⟨fun hk => h1 ?_, fun hk => h2 ?_⟩
  · rcases hk with hk | hk <;> rw [hk] <;> rfl
  · rcases hk with hk | hk <;> rw [hk] <;> rfl

/-- **C239 is violated** for a surface temperature of type scalar or grid: the value given has no
influence on anything after the first update. -/
theorem C239_T_surf_violated (cfg : Cfg) (s : St) (a : ℝ) (hist : List (Reads × Step))
    (hne : hist ≠ []) (hk : cfg.T_surf_type = .scalar ∨ cfg.T_surf_type = .grid) :
    run cfg { s with inp := { s.inp with T_surf := a } } hist = run cfg s hist := by
  have hf : cfg.T_surf_type.fixed = true := by rcases hk with hk | hk <;> rw [hk] <;> rfl
  match hist, hne with
  | (r, st) :: rest, _ =>
    have h1 : surf cfg st (part1 cfg (part0 { s with inp := { s.inp with T_surf := a } } r)) =
        surf cfg st (part1 cfg (part0 s r)) := by
      unfold surf
      rw [if_pos hf, if_pos hf]
      unfold part0
      by_cases h : s.time_index > 0
      · rw [if_pos h, if_pos h]
        rfl
      · rw [if_neg h, if_neg h]
        rfl
    simp only [run, update_parts, h1]

theorem albedo_forget (a b h_snow h_ice T n : ℝ) (hs : 0 ≤ h_snow) (hi : 0 ≤ h_ice) :
    MetEnergy.albedo a h_snow h_ice T n = MetEnergy.albedo b h_snow h_ice T n := by
  unfold MetEnergy.albedo
  by_cases h1 : h_snow > 0
  · simp only [if_pos h1]
  · have h2 : h_snow = 0 := le_antisymm (not_lt.1 h1) hs
    by_cases h3 : h_ice > 0
    · simp only [h2, h3, and_self, if_true]
    · have h4 : h_ice = 0 := le_antisymm (not_lt.1 h3) hi
      simp only [h2, h4, and_self, if_true]

/-- **C239 is violated** for an albedo of type scalar or grid: the value given has no influence on
anything after the first update (depths of snow and ice are not negative). -/
theorem C239_albedo_violated (cfg : Cfg) (s : St) (a : ℝ) (r : Reads) (st : Step)
    (rest : List (Reads × Step)) (hs : 0 ≤ st.h_snow) (hi : 0 ≤ st.h_ice)
    (hk : cfg.albedo_type = .scalar ∨ cfg.albedo_type = .grid) :
    run cfg { s with inp := { s.inp with albedo := a } } ((r, st) :: rest) =
      run cfg s ((r, st) :: rest) := by
  have hf : cfg.albedo_type.fixed = true := by rcases hk with hk | hk <;> rw [hk] <;> rfl
  have h0 : ∃ b, part0 { s with inp := { s.inp with albedo := a } } r =
      { part0 s r with inp := { (part0 s r).inp with albedo := b } } := by
    unfold part0
    by_cases h : s.time_index > 0
    · rw [if_pos h, if_pos h]
      exact ⟨r.albedo.getD a, rfl⟩
    · rw [if_neg h, if_neg h]
      exact ⟨a, rfl⟩
  obtain ⟨b, hb⟩ := h0
  have h1 : part2 cfg st (surf cfg st (part1 cfg { part0 s r with
        inp := { (part0 s r).inp with albedo := b } })) =
      { part2 cfg st (surf cfg st (part1 cfg (part0 s r))) with
        inp := { (part2 cfg st (surf cfg st (part1 cfg (part0 s r)))).inp with albedo := b } } := by
    unfold surf
    by_cases h : cfg.T_surf_type.fixed = true
    · rw [if_pos h, if_pos h]
      rfl
    · rw [if_neg h, if_neg h]
      rfl
  have h2 : ∀ u : St, albedo cfg st { u with inp := { u.inp with albedo := b } } =
      albedo cfg st u := by
    intro u
    unfold albedo
    rw [if_pos hf, if_pos hf]
    simp only
    cases MetEnergy.rollWindow u.var.window (st.P_snow * cfg.dt * cfg.snowRatio) with
    | none => rfl
    | some w =>
      simp only
      rw [albedo_forget b u.inp.albedo st.h_snow st.h_ice _ _ hs hi]
  simp only [run, update_parts, hb, h1, h2]

/-- Numbers for the examples: a cloudy day above bare ground. -/
noncomputable def inp0 : Inputs :=
  { T_air := 10
    T_surf := 5
    RH := 1 / 2
    p0 := 1000
    uz := 3
    z := 10
    z0_air := 1 / 50
    albedo := 3 / 10
    em_surf := 1
    dust_atten := 0
    cloud_factor := 1 / 2
    canopy_factor := 0 }

/-- The state at the start. -/
noncomputable def st0 : St where
  inp := inp0
  var :=
    { e_sat_air := 0
      e_air := 0
      T_dew := 0
      e_sat_surf := 0
      e_surf := 0
      Ri := 0
      Dh := 0
      De := 0
      Qh := 0
      W_p := 0
      Qe := 0
      Qn_SW := 0
      em_air := 0
      Qn_LW := 0
      Qa := 0
      Qc := 0
      Q_sum := 0
      window := [0, 0, 0]
      n := 0 }
  time_index := 0

/-- A configuration with a fixed surface temperature. -/
noncomputable def cfg0 : Cfg :=
  { satterlund := false
    T_surf_type := .scalar
    albedo_type := .timeSeries
    lat := 45
    alpha := 0
    beta := 0
    dt := 86400
    days_per_dt := 1
    snowRatio := 5 }

/-- A run of two days from the state above completes, and its variables belong together. -/
example (r1 r2 : Reads) (d1 d2 : Step) :
    ∃ t, run cfg0 st0 ([(r1, d1)] ++ [(r2, d2)]) = .ok t ∧ Together cfg0 d2 t.inp t.var := by
  obtain ⟨t, ht⟩ := C238_completes cfg0 ([(r1, d1)] ++ [(r2, d2)]) st0 (by simp [st0])
  exact ⟨t, ht, C238_together cfg0 st0 t [(r1, d1)] r2 d2 rfl rfl ht⟩

end MetCycle
