import Verif.MetEnergyModel
import Verif.SolarModel

/-!
# One full update of the meteorology component

The order of the calculations in `update` of topoflow/components/met_base.py, for one cell and a run
with `PRECIP_ONLY` off.  The single calculations are those of MetEnergyModel and SolarModel.  The day
of the year and the hour relative to solar noon (`update_julian_day`, modelled in SolarModel), the
snowfall of the step and the depths of snow and ice (from other components) are given for every step.
Not modelled: output, overflow and division by zero.
-/

set_option autoImplicit false

noncomputable section

namespace MetCycle

/-- The four types of input.  Used in the model of met_base.py:1843, 1997. -/
inductive Kind
  | scalar
  | grid
  | timeSeries
  | gridSequence
  deriving DecidableEq

/-- Used in the model of met_base.py:1843, 1997: the variable does not change by itself. -/
def Kind.fixed : Kind → Bool
  | .scalar => true
  | .grid => true
  | .timeSeries => false
  | .gridSequence => false

/-- What does not change during a run.  `snowRatio` is `rho_H2O / rho_snow`.
Used in the model of met_base.py:736-834. -/
structure Cfg where
  satterlund : Bool
  T_surf_type : Kind
  albedo_type : Kind
  lat : ℝ
  alpha : ℝ
  beta : ℝ
  dt : ℝ
  days_per_dt : ℝ
  snowRatio : ℝ

/-- The variables that `read_input_files` sets after the precipitation.
Used in the model of met_base.py:2435-2520. -/
structure Inputs where
  T_air : ℝ
  T_surf : ℝ
  RH : ℝ
  p0 : ℝ
  uz : ℝ
  z : ℝ
  z0_air : ℝ
  albedo : ℝ
  em_surf : ℝ
  dust_atten : ℝ
  cloud_factor : ℝ
  canopy_factor : ℝ

/-- What `read_next` returns for each of them; `none`: nothing new (constants, or the file has ended).
Used in the model of met_base.py:2435-2520. -/
structure Reads where
  T_air : Option ℝ
  T_surf : Option ℝ
  RH : Option ℝ
  p0 : Option ℝ
  uz : Option ℝ
  z : Option ℝ
  z0_air : Option ℝ
  albedo : Option ℝ
  em_surf : Option ℝ
  dust_atten : Option ℝ
  cloud_factor : Option ℝ
  canopy_factor : Option ℝ

/-- What the rest of the model supplies for a step.  Used in the model of met_base.py:736-834. -/
structure Step where
  h_snow : ℝ
  h_ice : ℝ
  P_snow : ℝ
  julian_day : ℝ
  TSN_offset : ℝ

/-- The computed variables.  Used in the model of met_base.py:736-834. -/
structure Vars where
  e_sat_air : ℝ
  e_air : ℝ
  T_dew : ℝ
  e_sat_surf : ℝ
  e_surf : ℝ
  Ri : ℝ
  Dh : ℝ
  De : ℝ
  Qh : ℝ
  W_p : ℝ
  Qe : ℝ
  Qn_SW : ℝ
  em_air : ℝ
  Qn_LW : ℝ
  Qa : ℝ
  Qc : ℝ
  Q_sum : ℝ
  /-- `P_snow_3day_grid` -/
  window : List ℝ
  /-- days since the last major snowfall -/
  n : ℝ

/-- Used in the model of met_base.py:736-834. -/
structure St where
  inp : Inputs
  var : Vars
  time_index : ℕ

/-- `read_input_files` after the precipitation, met_base.py:2435-2520. -/
def readInputs (i : Inputs) (r : Reads) : Inputs :=
  { T_air := r.T_air.getD i.T_air
    T_surf := r.T_surf.getD i.T_surf
    RH := r.RH.getD i.RH
    p0 := r.p0.getD i.p0
    uz := r.uz.getD i.uz
    z := r.z.getD i.z
    z0_air := r.z0_air.getD i.z0_air
    albedo := r.albedo.getD i.albedo
    em_surf := r.em_surf.getD i.em_surf
    dust_atten := r.dust_atten.getD i.dust_atten
    cloud_factor := r.cloud_factor.getD i.cloud_factor
    canopy_factor := r.canopy_factor.getD i.canopy_factor }

/-- `update_saturation_vapor_pressure(MBAR=True)`, met_base.py:1657-1741. -/
def satAir (cfg : Cfg) (s : St) : St :=
  { s with var := { s.var with e_sat_air := MetEnergy.eSat cfg.satterlund s.inp.T_air } }

/-- `update_vapor_pressure()`, met_base.py:1743-1788. -/
def vapAir (s : St) : St :=
  { s with var := { s.var with e_air := MetEnergy.vaporPressure s.inp.RH s.var.e_sat_air } }

/-- `update_dew_point`, met_base.py:1790-1835. -/
def dew (s : St) : St := { s with var := { s.var with T_dew := MetEnergy.dewPoint s.var.e_air } }

/-- `update_T_surf`, met_base.py:1837-1853. -/
def surf (cfg : Cfg) (st : Step) (s : St) : St :=
  if cfg.T_surf_type.fixed then
    { s with inp := { s.inp with T_surf := MetEnergy.surfaceTemp st.h_snow st.h_ice s.var.T_dew } }
  else s

/-- `update_saturation_vapor_pressure(MBAR=True, SURFACE=True)`, met_base.py:1657-1741. -/
def satSurf (cfg : Cfg) (s : St) : St :=
  { s with var := { s.var with e_sat_surf := MetEnergy.eSat cfg.satterlund s.inp.T_surf } }

/-- `update_bulk_richardson_number`, met_base.py:1448-1474. -/
def rich (s : St) : St :=
  { s with var := { s.var with Ri := MetEnergy.richardson s.inp.z s.inp.uz s.inp.T_air s.inp.T_surf } }

/-- `update_bulk_aero_conductance`, met_base.py:1478-1623. -/
def aero (st : Step) (s : St) : St :=
  let D := MetEnergy.conductance
    (MetEnergy.neutralConductance s.inp.z st.h_snow s.inp.z0_air s.inp.uz) s.var.Ri
  { s with var := { s.var with Dh := D, De := D } }

/-- `update_sensible_heat_flux`, met_base.py:1627-1655. -/
def sensible (s : St) : St :=
  { s with var := { s.var with Qh := MetEnergy.sensibleHeat s.var.Dh s.inp.T_air s.inp.T_surf } }

/-- `update_precipitable_water_content`, met_base.py:1855-1872. -/
def water (s : St) : St :=
  { s with var := { s.var with W_p := MetEnergy.precipitableWater s.var.T_dew } }

/-- `update_vapor_pressure(SURFACE=True)`, met_base.py:1743-1788. -/
def vapSurf (s : St) : St :=
  { s with var := { s.var with e_surf := MetEnergy.vaporPressure s.inp.RH s.var.e_sat_surf } }

/-- `update_latent_heat_flux`, met_base.py:1875-1903. -/
def latent (s : St) : St :=
  { s with
    var := { s.var with Qe := MetEnergy.latentHeat s.var.De s.var.e_air s.var.e_surf s.inp.p0 } }

/-- `update_albedo(method='aging')`, met_base.py:1995-2032. -/
def albedo (cfg : Cfg) (st : Step) (s : St) : Except String St :=
  if cfg.albedo_type.fixed then
    match MetEnergy.rollWindow s.var.window (st.P_snow * cfg.dt * cfg.snowRatio) with
    | none => .error "IndexError"
    | some w =>
      let n := MetEnergy.snowAge cfg.days_per_dt w.sum s.var.n
      .ok { s with
        inp := { s.inp with
          albedo := MetEnergy.albedo s.inp.albedo st.h_snow st.h_ice s.inp.T_air n }
        var := { s.var with
          window := w
          n := n } }
  else .ok s

/-- `update_net_shortwave_radiation`, met_base.py:2048-2086. -/
def shortwave (cfg : Cfg) (st : Step) (s : St) : St :=
  let q := Solar.netShortwave cfg.lat st.julian_day s.var.W_p st.TSN_offset cfg.alpha cfg.beta
    s.inp.albedo s.inp.dust_atten
  { s with var := { s.var with Qn_SW := q } }

/-- `update_em_air`, met_base.py:2090-2149. -/
def emAir (cfg : Cfg) (s : St) : St :=
  let em := MetEnergy.airEmissivity cfg.satterlund s.inp.canopy_factor s.inp.cloud_factor s.var.e_air
    s.inp.T_air
  { s with var := { s.var with em_air := em } }

/-- `update_net_longwave_radiation`, met_base.py:2163-2207. -/
def longwave (s : St) : St :=
  let q := MetEnergy.netLongwave s.var.em_air s.inp.em_surf s.inp.T_air s.inp.T_surf
  { s with var := { s.var with Qn_LW := q } }

/-- `update_net_energy_flux`, met_base.py:2246-2311. -/
def netEnergy (s : St) : St :=
  let q := s.var.Qn_SW + s.var.Qn_LW + s.var.Qh + s.var.Qe + s.var.Qa + s.var.Qc
  { s with var := { s.var with Q_sum := q } }

/-- `update`, met_base.py:736-834: the calls in the order of the code.  (`update_conduction_heat_flux`
and `update_advection_heat_flux`, 1905-1936, do nothing.) -/
def update (cfg : Cfg) (s : St) (r : Reads) (st : Step) : Except String St :=
  let s := if s.time_index > 0 then { s with inp := readInputs s.inp r } else s
  let s := satAir cfg s
  let s := vapAir s
  let s := dew s
  let s := surf cfg st s
  let s := satSurf cfg s
  let s := rich s
  let s := aero st s
  let s := sensible s
  let s := water s
  let s := vapSurf s
  let s := latent s
  match albedo cfg st s with
  | .error e => .error e
  | .ok s =>
    let s := shortwave cfg st s
    let s := emAir cfg s
    let s := longwave s
    let s := netEnergy s
    .ok { s with time_index := s.time_index + 1 }

/-- A run: updates one after the other.  Built on the model of met_base.py:736-834. -/
def run (cfg : Cfg) : St → List (Reads × Step) → Except String St
  | s, [] => .ok s
  | s, (r, st) :: rest =>
    match update cfg s r st with
    | .error e => .error e
    | .ok s' => run cfg s' rest

end MetCycle
