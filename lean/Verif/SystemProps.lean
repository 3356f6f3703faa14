import Verif.SystemModel
import Verif.ChannelProps
import Verif.ChannelStateProps
import Verif.SnowProps
import Verif.MetProps

/-!
# C224: the volume error in the final report of a coupled model
-/

set_option autoImplicit false
set_option linter.unusedSectionVars false

noncomputable section

namespace SystemSpec

open D8 (Cell)
open System

variable {ny nx : ℕ}

/-- The water volume that a rate (a depth per time on each cell) brings in one time step. -/
def volume (cfg : Cfg ny nx) (rate : Cell ny nx → ℝ) : ℝ := ∑ c, rate c * cfg.p.da c * cfg.p.dt

/-- The components at the start of a run: channels with initial depths `d0`, running totals zero, no
melt yet, no negative amount of snow. -/
structure AtStart (cfg : Cfg ny nx) (d0 : Cell ny nx → ℝ) (s : Sys ny nx) : Prop where
  chan : s.chan = Chan.initSt cfg.p d0
  precip : s.met.vol_P = 0
  evap : s.evap.volET = 0
  taken : s.evap.removed = 0
  melt : ∀ c, s.snow.SM c = 0
  snow : ∀ c, 0 ≤ s.snow.h_swe c

/-- The last state of a run. -/
def final (s0 : Sys ny nx) (l : List (Sys ny nx)) : Sys ny nx := l.getLastD s0

/-- The water that the settings with overbank flow leave in the books of the channels although it was
counted as outflow: the channel volumes at the cells without flow direction. -/
def countedTwice (cfg : Cfg ny nx) (codes : Cell ny nx → ℤ) (s : Sys ny nx) : ℝ :=
  if cfg.p.flood then ∑ c ∈ Finset.univ.filter (fun c => codes c = 0), s.chan.volChan c else 0

end SystemSpec

namespace System

open D8 (Cell)
open SystemSpec ChanSpec

variable {ny nx : ℕ}

/-- What one step of the model does to each component. -/
theorem sysStep_ok {cfg : Cfg ny nx} {e : Ext ny nx} {s s' : Sys ny nx}
    (h : sysStep cfg e s = .ok s') :
    Met.update cfg.metCfg s.met = .ok s'.met ∧
    Chan.step cfg.p cfg.net (chanInp s'.met s e) s.chan = .ok s'.chan ∧
    s'.snow = Snow.step cfg.snowParams (snowInp s'.met e) s.snow ∧
    s'.evap = Evap.evapUpdate cfg.p.da cfg.p.dt e.pot
      (Evap.chanUses cfg.p (chanInp s'.met s e) s.chan s.evap) := by
  unfold sysStep at h
  split at h
  · cases h
  · rename_i met' hm
    split at h
    · cases h
    · rename_i chan' hc
      cases h
      exact ⟨hm, hc, rfl, rfl⟩

theorem sysRun_cons {cfg : Cfg ny nx} {e : Ext ny nx} {es : List (Ext ny nx)} {s : Sys ny nx}
    {l : List (Sys ny nx)} (h : sysRun cfg s (e :: es) = .ok l) :
    ∃ s' t, sysStep cfg e s = .ok s' ∧ sysRun cfg s' es = .ok t ∧ l = s' :: t := by
  simp only [sysRun] at h
  split at h
  · cases h
  · rename_i s' hs
    split at h
    · cases h
    · rename_i t ht
      cases h
      exact ⟨s', t, hs, ht, rfl⟩

theorem final_cons (s0 s : Sys ny nx) (l : List (Sys ny nx)) : final s0 (s :: l) = final s l := by
  cases l with
  | nil => rfl
  | cons a l => simp [final, List.getLastD]

/-- The books of one step. -/
theorem step_books {cfg : Cfg ny nx} {codes : Cell ny nx → ℤ} (hd : IsDemNet codes cfg.net)
    (hdt : 0 < cfg.p.dt) {e : Ext ny nx} {s s' : Sys ny nx} (h : sysStep cfg e s = .ok s')
    (hinv : Chan.EdgeInv cfg.p codes s.chan) (hs : ∀ c, 0 ≤ s.snow.h_swe c)
    (hP : ∀ c, 0 ≤ s'.met.P_snow.at c) :
    (s'.met.vol_P - totalWater s'.chan - Snow.snowVolume cfg.snowParams s'.snow) =
      (s.met.vol_P - totalWater s.chan - Snow.snowVolume cfg.snowParams s.snow)
      + (volume cfg s'.snow.SM - volume cfg s.snow.SM) + (s'.evap.removed - s.evap.removed)
      + volume cfg e.IN - volume cfg e.GW - volume cfg e.MR
      - createdStep cfg.p codes s.chan s'.chan := by
  obtain ⟨hm, hc, hsn, hev⟩ := sysStep_ok h
  have h1 := Chan.step_total hd hinv hc
  have h2 := (Chan.C22_cell_balance hd hc).2.2.2
  have hR : ∀ c, s'.chan.R c = (s'.met.P_rain.at c + s.snow.SM c + e.GW c + e.MR c)
      - (Chan.actualET cfg.p (chanInp s'.met s e) s.chan c + e.IN c) := by
    intro c
    obtain ⟨u, _, hh, _⟩ := Chan.step_ok hc
    rw [hh]
    rfl
  obtain ⟨_, _, _, r, hr, _, _, _, _, _, e1, _⟩ := Met.update_facts hm
  have v1 := (Met.maybe_vols hr).1
  have hsplit := fun c => (Met.C33_split _ _ _ hm c).2.2
  have hvP : s'.met.vol_P = s.met.vol_P
      + ((∑ c, s'.met.P_rain.at c * cfg.p.da c * cfg.p.dt)
        + ∑ c, s'.met.P_snow.at c * cfg.p.da c * cfg.p.dt) := by
    rw [e1, v1, ← Finset.sum_add_distrib]
    congr 1
    refine Finset.sum_congr rfl (fun c _ => ?_)
    rw [← hsplit c]
    show (_ + _) * cfg.p.da c * cfg.p.dt = _
    ring
  have hswe : Snow.snowVolume cfg.snowParams s'.snow = Snow.snowVolume cfg.snowParams s.snow
      + (∑ c, s'.met.P_snow.at c * cfg.p.da c * cfg.p.dt) - volume cfg s'.snow.SM := by
    unfold Snow.snowVolume volume
    rw [← Finset.sum_add_distrib, ← Finset.sum_sub_distrib]
    refine Finset.sum_congr rfl (fun c _ => ?_)
    have := (Snow.step_swe (p := cfg.snowParams) hdt (snowInp s'.met e) s.snow c (hs c) (hP c)).2
    rw [← hsn] at this
    have e2 : s'.snow.h_swe c + s'.snow.SM c * cfg.p.dt
        = s.snow.h_swe c + s'.met.P_snow.at c * cfg.p.dt := this
    show s'.snow.h_swe c * cfg.p.da c = s.snow.h_swe c * cfg.p.da c + _ - _
    linear_combination cfg.p.da c * e2
  have hrem : s'.evap.removed = s.evap.removed
      + ∑ c, Chan.actualET cfg.p (chanInp s'.met s e) s.chan c * cfg.p.da c * cfg.p.dt := by
    rw [hev]; rfl
  have hsum : ∑ c, s'.chan.R c * cfg.p.da c * cfg.p.dt
      = (∑ c, s'.met.P_rain.at c * cfg.p.da c * cfg.p.dt) + volume cfg s.snow.SM + volume cfg e.GW
        + volume cfg e.MR
        - (∑ c, Chan.actualET cfg.p (chanInp s'.met s e) s.chan c * cfg.p.da c * cfg.p.dt)
        - volume cfg e.IN := by
    unfold volume
    rw [← Finset.sum_add_distrib, ← Finset.sum_add_distrib, ← Finset.sum_add_distrib,
      ← Finset.sum_sub_distrib, ← Finset.sum_sub_distrib]
    refine Finset.sum_congr rfl (fun c _ => ?_)
    rw [hR c]; ring
  rw [h1, h2, hvP, hswe, hrem, hsum]
  ring

/-- The books of a run. -/
theorem run_books {cfg : Cfg ny nx} {codes : Cell ny nx → ℤ} (hd : IsDemNet codes cfg.net)
    (hdt : 0 < cfg.p.dt) {es : List (Ext ny nx)} {s : Sys ny nx} {l : List (Sys ny nx)}
    (h : sysRun cfg s es = .ok l)
    (hinv : Chan.EdgeInv cfg.p codes s.chan) (hs : ∀ c, 0 ≤ s.snow.h_swe c)
    (hP : ∀ t ∈ l, ∀ c, 0 ≤ t.met.P_snow.at c) :
    ((final s l).met.vol_P - totalWater (final s l).chan
        - Snow.snowVolume cfg.snowParams (final s l).snow) =
      (s.met.vol_P - totalWater s.chan - Snow.snowVolume cfg.snowParams s.snow)
      + (volume cfg (final s l).snow.SM - volume cfg s.snow.SM)
      + ((final s l).evap.removed - s.evap.removed)
      + (es.map (fun e => volume cfg e.IN)).sum - (es.map (fun e => volume cfg e.GW)).sum
      - (es.map (fun e => volume cfg e.MR)).sum
      - created cfg.p codes s.chan (l.map Sys.chan) := by
  induction es generalizing s l with
  | nil =>
    simp only [sysRun, Except.ok.injEq] at h
    subst h
    simp [final, created]
  | cons e es ih =>
    obtain ⟨s', t, h1, h2, rfl⟩ := sysRun_cons h
    obtain ⟨_, hc, hsn, _⟩ := sysStep_ok h1
    have hP' := hP s' (by simp)
    have hb := step_books hd hdt h1 hinv hs hP'
    have hs' : ∀ c, 0 ≤ s'.snow.h_swe c := by
      intro c
      rw [hsn]
      exact (Snow.step_swe (p := cfg.snowParams) hdt (snowInp s'.met e) s.snow c (hs c) (hP' c)).1
    have := ih h2 (Chan.edgeInv_step (Chan.IsDemNet.good hd) hc) hs'
      (fun t ht => hP t (List.mem_cons_of_mem _ ht))
    rw [final_cons, this, hb]
    simp only [List.map_cons, List.sum_cons, created]
    ring

/-- Channel and flood plain volumes after a step. -/
theorem chan_books {cfg : Cfg ny nx} {codes : Cell ny nx → ℤ} (hd : IsDemNet codes cfg.net)
    {inp : Chan.Inp ny nx} {s s' : Chan.St ny nx} (h : Chan.step cfg.p cfg.net inp s = .ok s')
    (h0 : cfg.p.flood = false → ∀ c, s.volFlood c = 0) :
    (∑ c, s'.volChan c + ∑ c, s'.volFlood c = ∑ c, s'.vol c +
      if cfg.p.flood then ∑ c ∈ Finset.univ.filter (fun c => codes c = 0), s'.volChan c else 0) ∧
    (cfg.p.flood = false → ∀ c, s'.volFlood c = 0) := by
  have hg := Chan.IsDemNet.good hd
  obtain ⟨u, _, rfl, _⟩ := Chan.step_ok h
  by_cases hf : cfg.p.flood = true
  · refine ⟨?_, fun h => absurd h (by simp [hf])⟩
    rw [if_pos hf, Finset.sum_filter, ← Finset.sum_add_distrib, ← Finset.sum_add_distrib]
    refine Finset.sum_congr rfl (fun c _ => ?_)
    by_cases hc : codes c = 0
    · have hm := (hg.noflow c).2 hc
      simp [Chan.edgeVals, hf, hm, hc]
    · have hm : c ∉ cfg.net.noflow := fun h => hc ((hg.noflow c).1 h)
      simp only [Chan.edgeVals, hf, hm, hc, if_true, if_false, add_zero]
      simp only [Chan.outletVals, Chan.routed, hf, if_true]
      generalize Chan.newVol _ _ _ _ _ c = v
      rcases le_total v (Chan.volBankfull cfg.p c) with h | h
      · rw [min_eq_left h, max_eq_right (by linarith)]; ring
      · rw [min_eq_right h, max_eq_left (by linarith)]; ring
  · have hf' : cfg.p.flood = false := by simpa using hf
    have hz : ∀ c, (Chan.edgeVals cfg.p cfg.net (Chan.outletVals cfg.p
        { Chan.routed cfg.p cfg.net inp s with u := u })).volFlood c = 0 := by
      intro c
      have := h0 hf' c
      simpa [Chan.edgeVals, Chan.outletVals, Chan.routed, hf'] using this
    refine ⟨?_, fun _ c => hz c⟩
    rw [if_neg hf]
    have e : ∑ c, (Chan.edgeVals cfg.p cfg.net (Chan.outletVals cfg.p
        { Chan.routed cfg.p cfg.net inp s with u := u })).volFlood c = 0 :=
      Finset.sum_eq_zero (fun c _ => hz c)
    show _ + ∑ c, (Chan.edgeVals cfg.p cfg.net (Chan.outletVals cfg.p
        { Chan.routed cfg.p cfg.net inp s with u := u })).volFlood c = _
    rw [e]
    simp [Chan.edgeVals, hf']

theorem run_chan_books {cfg : Cfg ny nx} {codes : Cell ny nx → ℤ} (hd : IsDemNet codes cfg.net)
    {es : List (Ext ny nx)} {s : Sys ny nx} {l : List (Sys ny nx)}
    (h : sysRun cfg s es = .ok l) (hne : es ≠ [])
    (h0 : cfg.p.flood = false → ∀ c, s.chan.volFlood c = 0) :
    ∑ c, (final s l).chan.volChan c + ∑ c, (final s l).chan.volFlood c
      = ∑ c, (final s l).chan.vol c + countedTwice cfg codes (final s l) := by
  induction es generalizing s l with
  | nil => exact absurd rfl hne
  | cons e es ih =>
    obtain ⟨s', t, h1, h2, rfl⟩ := sysRun_cons h
    obtain ⟨_, hc, _, _⟩ := sysStep_ok h1
    obtain ⟨hb, hz⟩ := chan_books hd hc h0
    rw [final_cons]
    cases es with
    | nil =>
      simp only [sysRun, Except.ok.injEq] at h2
      subst h2
      exact hb
    | cons e' es => exact ih h2 (by simp) hz

/-- **C224.**  After any run of at least one step, of any length, on any network computed from a
DEM and with any inputs (no negative snowfall), the volume error of the final report is exactly: the
melt of the last step, which the channels have not yet received, plus the water in attenuation storage,
plus the difference between the evaporation taken from the channels and the one reported, plus the
difference between the infiltrated water and the reported change of soil water, minus baseflow and ice
melt, minus the water created in overdrawn cells, minus the water counted twice at the edge cells. -/
theorem C224_reported_error {cfg : Cfg ny nx} {codes : Cell ny nx → ℤ}
    (hd : IsDemNet codes cfg.net) (hdt : 0 < cfg.p.dt) {d0 : Cell ny nx → ℝ} {s0 : Sys ny nx}
    (h0 : AtStart cfg d0 s0) {es : List (Ext ny nx)} (hne : es ≠ []) {l : List (Sys ny nx)}
    (h : sysRun cfg s0 es = .ok l) (hP : ∀ s ∈ l, ∀ c, 0 ≤ s.met.P_snow.at c) (soil0 soil : ℝ) :
    Driver.volError (report cfg s0 (final s0 l) soil0 soil) =
      volume cfg (final s0 l).snow.SM
      + ∑ c, (final s0 l).chan.volStored c
      + ((final s0 l).evap.removed - (final s0 l).evap.volET)
      + ((es.map (fun e => volume cfg e.IN)).sum - (soil - soil0))
      - (es.map (fun e => volume cfg e.GW)).sum
      - (es.map (fun e => volume cfg e.MR)).sum
      - created cfg.p codes s0.chan (l.map Sys.chan)
      - countedTwice cfg codes (final s0 l) := by
  have hi : Chan.EdgeInv cfg.p codes s0.chan := by
    rw [h0.chan]; exact Chan.edgeInv_init cfg.p codes d0
  have hb := run_books hd hdt h hi h0.snow hP
  have hc := run_chan_books hd h hne (by rw [h0.chan]; intro _ _; rfl)
  have hw : totalWater s0.chan = ∑ c, s0.chan.volChan c := by
    rw [h0.chan]; simp [totalWater, Chan.initSt]
  have hSM : volume cfg s0.snow.SM = 0 := by simp [volume, h0.melt]
  rw [h0.precip, hw, hSM, h0.taken] at hb
  unfold totalWater at hb
  simp only [Driver.volError, Driver.storedChange, report]
  linarith

/-- **C224, partial.**  The reported error is zero, without attenuation and overbank flow, when no cell
is overdrawn, infiltration, baseflow and ice melt are off, the channels give all the evaporation that
is reported, and nothing melts in the last step. -/
theorem C224_no_error_partial {cfg : Cfg ny nx} {codes : Cell ny nx → ℤ}
    (hd : IsDemNet codes cfg.net) (hdt : 0 < cfg.p.dt) {d0 : Cell ny nx → ℝ} {s0 : Sys ny nx}
    (h0 : AtStart cfg d0 s0) {es : List (Ext ny nx)} (hne : es ≠ []) {l : List (Sys ny nx)}
    (h : sysRun cfg s0 es = .ok l) (hP : ∀ s ∈ l, ∀ c, 0 ≤ s.met.P_snow.at c) (soil : ℝ)
    (hflood : cfg.p.flood = false) (hatt : cfg.p.attenuate = false)
    (hover : NoOverdraft cfg.p codes s0.chan (l.map Sys.chan))
    (hrest : ∀ e ∈ es, ∀ c, e.IN c = 0 ∧ e.GW c = 0 ∧ e.MR c = 0)
    (het : (final s0 l).evap.removed = (final s0 l).evap.volET)
    (hmelt : ∀ c, (final s0 l).snow.SM c = 0) :
    Driver.volError (report cfg s0 (final s0 l) soil soil) = 0 := by
  have hst : ∀ (es : List (Ext ny nx)) (s : Sys ny nx) (l : List (Sys ny nx)),
      sysRun cfg s es = .ok l → (∀ c, s.chan.volStored c = 0) →
      ∀ c, (final s l).chan.volStored c = 0 := by
    intro es
    induction es with
    | nil =>
      intro s l h hz
      simp only [sysRun, Except.ok.injEq] at h
      subst h
      exact hz
    | cons e es ih =>
      intro s l h hz
      obtain ⟨s', t, h1, h2, rfl⟩ := sysRun_cons h
      obtain ⟨_, hc, _, _⟩ := sysStep_ok h1
      rw [final_cons]
      exact ih s' t h2 (fun c => by rw [(Chan.C22_attenuation hc c).1 hatt, hz c])
  have hz := hst es s0 l h (by rw [h0.chan]; intro _; rfl)
  rw [C224_reported_error hd hdt h0 hne h hP, (Chan.created_zero_iff _ _ _ _).2 hover, het]
  have z : ∀ f : Ext ny nx → Cell ny nx → ℝ, (∀ e ∈ es, ∀ c, f e c = 0) →
      (es.map (fun e => volume cfg (f e))).sum = 0 := by
    intro f hf
    apply List.sum_eq_zero
    intro x hx
    obtain ⟨e, he, rfl⟩ := List.mem_map.1 hx
    simp [volume, hf e he]
  rw [z Ext.IN (fun e he c => (hrest e he c).1), z Ext.GW (fun e he c => (hrest e he c).2.1),
    z Ext.MR (fun e he c => (hrest e he c).2.2)]
  simp [countedTwice, hflood, hz, volume, hmelt]

/-! ### A run with rain on dry ground and some snow -/

/-- Settings: the network `net`, constant rain and temperature, degree-day melt above `b` degrees. -/
def demoCfg (net : Chan.Net ny nx) (o : Cell ny nx) (b : ℝ) : Cfg ny nx where
  p := Chan.unitParams ny nx o false
  net := net
  met :=
    { P_type := .scalar
      T_air_type := .scalar
      P_units := 1
      P_factor := 1
      T_rain_snow := 0
      dt := 1
      da := fun _ => 1 }
  melt := .degreeDay (fun _ => 86400000) (fun _ => b)

/-- Dry channels, one metre of snow (as water) everywhere, rain, air at ten degrees. -/
def demoStart (o : Cell ny nx) : Sys ny nx where
  met :=
    { P := .sc 1
      T_air := .sc 10
      P_rain := .sc 0
      P_snow := .sc 0
      P_file := .text []
      T_file := .text []
      RAIN_OVER := false
      time_index := 0
      vol_P := 0
      vol_PR := 0
      vol_PS := 0 }
  chan := Chan.initSt (Chan.unitParams ny nx o false) (fun _ => 0)
  snow :=
    { SM := fun _ => 0
      h_swe := fun _ => 1
      h_snow := fun _ => 1
      Ecc := fun _ => 0
      vol_SM := 0 }
  evap :=
    { ET := fun _ => 0
      volET := 0
      removed := 0 }

/-- Nothing from the other components. -/
def nothing : Ext ny nx :=
  { IN := fun _ => 0
    GW := fun _ => 0
    MR := fun _ => 0
    Q_sum := fun _ => 0
    ratio := fun _ => 1
    pot := fun _ => 0 }

theorem demo_atStart (net : Chan.Net ny nx) (o : Cell ny nx) (b : ℝ) :
    AtStart (demoCfg net o b) (fun _ => 0) (demoStart o) :=
  ⟨rfl, rfl, rfl, rfl, fun _ => rfl, fun _ => zero_le_one⟩

theorem demo_run (codes : Cell ny nx → ℤ) (net : Chan.Net ny nx)
    (o : Cell ny nx) (b : ℝ) :
    ∃ s, sysRun (demoCfg net o b) (demoStart o) [nothing] = .ok [s] ∧
      (∀ c, s.met.P_rain.at c = 1) ∧ (∀ c, s.met.P_snow.at c = 0) ∧
      (∀ c, s.snow.SM c = max (min (10 - b) 1) 0) ∧
      s.evap.removed = 0 ∧ s.evap.volET = 0 ∧ (∀ c, s.chan.volStored c = 0) ∧
      NoOverdraft (demoCfg net o b).p codes (demoStart o).chan [s.chan] := by
  obtain ⟨met', hm, hr, hs⟩ : ∃ met', Met.update (demoCfg net o b).metCfg (demoStart o).met
      = .ok met' ∧ (∀ c, met'.P_rain.at c = 1) ∧ (∀ c, met'.P_snow.at c = 0) := by
    refine ⟨_, rfl, fun c => ?_, fun c => ?_⟩
    · show (if (10 : ℝ) > 0 then (1 : ℝ) else 0) = 1
      norm_num
    · show (if (10 : ℝ) ≤ 0 then (1 : ℝ) else 0) = 0
      norm_num
  obtain ⟨chan', hc⟩ := Chan.C48_update_completes (Chan.unitParams_physical o false)
    (by simp [Chan.unitParams]) (net := net) (d0 := fun _ => 0) (fun _ => le_refl _) .nil
    (chanInp met' (demoStart o) nothing)
  have hc' : Chan.step (demoCfg net o b).p (demoCfg net o b).net
      (chanInp met' (demoStart o) nothing) (demoStart o).chan = .ok chan' := hc
  have hat : ∀ c, Chan.actualET (demoCfg net o b).p (chanInp met' (demoStart o) nothing)
      (demoStart o).chan c = 0 := by
    intro c
    simp [Chan.actualET, chanInp, demoStart]
  have hst : ∀ c, chan'.volStored c = 0 := fun c => by
    rw [(Chan.C22_attenuation hc' c).1 rfl]; rfl
  have hrun : sysRun (demoCfg net o b) (demoStart o) [nothing] = .ok
      [{ met := met'
         chan := chan'
         snow := Snow.step (demoCfg net o b).snowParams (snowInp met' nothing) (demoStart o).snow
         evap := Evap.evapUpdate (demoCfg net o b).p.da (demoCfg net o b).p.dt nothing.pot
          (Evap.chanUses (demoCfg net o b).p (chanInp met' (demoStart o) nothing) (demoStart o).chan
            (demoStart o).evap) }] := by
    simp only [sysRun, sysStep, hm, hc']
  refine ⟨_, hrun, hr, hs, fun c => ?_, ?_, ?_, hst, ?_, trivial⟩
  · show Snow.enforceMax _ _ _ c = _
    simp [Snow.enforceMax, Snow.potentialMelt, Cfg.snowParams, demoCfg, snowInp, demoStart,
      Chan.unitParams]
    congr 2
    have : met'.T_air.at c = 10 := by
      have : met' = _ := (Except.ok.inj hm).symm
      rw [this]; rfl
    rw [this]
  · show (0 : ℝ) + ∑ c, Chan.actualET _ _ _ c * _ * _ = 0
    rw [zero_add]
    refine Finset.sum_eq_zero (fun c _ => ?_)
    have := hat c
    unfold Evap.withET
    simp only [chanInp] at this ⊢
    rw [show (demoStart o).evap.ET = fun _ => 0 from rfl] at this ⊢
    rw [this]; ring
  · show (0 : ℝ) + ∑ c, (0 : ℝ) * _ * _ = 0
    simp
  · intro c
    have hR : chan'.R c = 1 := by
      obtain ⟨u, _, rfl, _⟩ := Chan.step_ok hc'
      show Chan.excessR _ _ _ c = 1
      unfold Chan.excessR
      rw [hat c]
      simp [chanInp, hr, demoStart, nothing]
    have hQ : ∀ e, chan'.Q e = 0 := by
      obtain ⟨u, _, rfl, _⟩ := Chan.step_ok hc'
      intro e
      show Chan.totalQ (Chan.unitParams ny nx o false)
        (Chan.initSt (Chan.unitParams ny nx o false) fun _ => 0) e = 0
      simp [Chan.totalQ, Chan.chanQ, Chan.floodQ, Chan.initSt]
    have hin : inflow codes chan'.Q c = 0 := by
      unfold inflow
      exact Finset.sum_eq_zero (fun e _ => hQ e)
    simp only [balance, hR, hst, hQ, hin]
    simp [demoStart, demoCfg, Chan.initSt, Chan.unitParams, Chan.wetArea]

/-- **C224 is violated**: on every network there is a run with melting snow in which no water is
created or stored out of sight, nothing evaporates or infiltrates and no other component delivers water,
and yet the final report shows an error: as much water as was melted in the last step. -/
theorem C224_violated {codes : Cell ny nx → ℤ} {net : Chan.Net ny nx} (hd : IsDemNet codes net)
    (o : Cell ny nx) :
    ∃ s, sysRun (demoCfg net o 0) (demoStart o) [nothing] = .ok [s] ∧
      NoOverdraft (demoCfg net o 0).p codes (demoStart o).chan [s.chan] ∧
      (∀ c, s.chan.volStored c = 0) ∧ s.evap.removed = 0 ∧ s.evap.volET = 0 ∧
      Driver.volError (report (demoCfg net o 0) (demoStart o) s 0 0) = ∑ _c : Cell ny nx, (1 : ℝ) ∧
      Driver.volError (report (demoCfg net o 0) (demoStart o) s 0 0) ≠ 0 := by
  obtain ⟨s, h, hr, hs, hSM, hrem, het, hst, hno⟩ := demo_run codes net o 0
  have hdt : (0 : ℝ) < (demoCfg net o 0).p.dt := by simp [demoCfg, Chan.unitParams]
  have e := C224_reported_error (cfg := demoCfg net o 0) hd hdt (demo_atStart net o 0)
    (by simp) h (by simpa using fun c => (hs c).ge) 0 0
  have e2 : Driver.volError (report (demoCfg net o 0) (demoStart o) s 0 0)
      = ∑ _c : Cell ny nx, (1 : ℝ) := by
    have hf : final (demoStart o) [s] = s := rfl
    rw [hf] at e
    rw [e, show List.map Sys.chan [s] = [s.chan] from rfl, (Chan.created_zero_iff _ _ _ _).2 hno,
      hrem, het]
    simp [volume, hSM, hst, nothing, countedTwice, demoCfg, Chan.unitParams]
  refine ⟨s, h, hno, hst, hrem, het, e2, ?_⟩
  rw [e2]
  have : (0 : ℝ) < ∑ _c : Cell ny nx, (1 : ℝ) :=
    Finset.sum_pos (fun _ _ => one_pos) ⟨o, Finset.mem_univ o⟩
  exact this.ne'

/-- The hypotheses of `C224_no_error_partial` are met, with rain on dry ground and snow that does not
melt: on every network. -/
example {codes : Cell ny nx → ℤ} {net : Chan.Net ny nx} (hd : IsDemNet codes net) (o : Cell ny nx) :
    ∃ s, sysRun (demoCfg net o 20) (demoStart o) [nothing] = .ok [s] ∧
      (∀ c, s.met.P_rain.at c = 1) ∧
      Driver.volError (report (demoCfg net o 20) (demoStart o) s 0 0) = 0 := by
  obtain ⟨s, h, hr, hs, hSM, hrem, het, hst, hno⟩ := demo_run codes net o 20
  have hdt : (0 : ℝ) < (demoCfg net o 20).p.dt := by simp [demoCfg, Chan.unitParams]
  refine ⟨s, h, hr, ?_⟩
  exact C224_no_error_partial (cfg := demoCfg net o 20) hd hdt (demo_atStart net o 20) (by simp) h
    (by simpa using fun c => (hs c).ge) 0 rfl rfl hno (by simp [nothing])
    (hrem.trans het.symm) (fun c => by rw [show final (demoStart o) [s] = s from rfl, hSM]; norm_num)

/-- Such networks exist: every DEM with non-periodic borders has one. -/
example : ∃ codes net, IsDemNet (ny := 3) (nx := 4) codes net :=
  Chan.demNet_exists ⟨1, 1, 1, -9999, true, true, false, false⟩ rfl (by norm_num) (by norm_num) (fun c => c.1.val)

end System
