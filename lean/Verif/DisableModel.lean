import Verif.RepoModel
import Verif.ChannelModel

/-!
# Components that are switched off (`comp_status = Disabled` in their CFG file)

`RepoModel.connect` looks up internal names and units only.  Here the missing step is added: the
attribute a provider is asked for must have been created by the provider's own `initialize`, which
`initialize_comp_set` calls right before it connects the provider (emeli.py:1459-1497).  A switched
off component leaves `initialize` early and creates only some of its attributes.

Only attributes that carry the name of a variable in the tables of `RepoModel` are listed; of an
enabled component, only those that another component of the repository asks for.  Reading the CFG
file is taken to succeed and to give every attribute named in it.
-/

set_option autoImplicit false
set_option maxRecDepth 100000

namespace Disable

open Repo

/-- Where the value of an attribute comes from when `initialize` returns: set to zero
(`initialize_scalar(0)`), a constant of `set_constants`, an entry of the CFG file, a grid that is
read, or a value that is computed (enabled components only).
Used in the model of met_base.py:671-700. -/
inductive Kind where
  | zero
  | constant
  | cfg
  | grid
  | computed
  deriving DecidableEq

/-- All attributes with the same origin (a shorthand for runs of assignments such as
snow_base.py:176-190). -/
def allOf (k : Kind) (l : List Attr) : List (Attr × Kind) := l.map (fun a => (a, k))

/-- What `initialize` of a switched off component leaves behind.  `scalarP`: the precipitation is
given as one number (`P_type = Scalar`), met_base.py:664-682.
channels_base.py:677-683 (nothing), diversions_base.py:105-128, evap_base.py:147-155,
ice_base.py:440-450, glacier_base.py:165-185, infil_base.py:242-261, met_base.py:574-583, 671-700,
satzone_base.py:156-188, snow_base.py:176-190, topoflow_driver.py:455-460 (nothing).  The erosion,
flow direction, data and smoothing components have nothing to leave that another one asks for. -/
def offAttrs (scalarP : Bool) : Comp → List (Attr × Kind)
  | .tf_channels_kin_wave | .tf_channels_diff_wave | .tf_channels_dynam_wave => []
  | .tf_data_his => []
  | .tf_diversions_fraction_method =>
      allOf .zero [.n_canals, .n_sinks, .n_sources, .Q_canals_fraction, .Q_canals_out, .Q_sinks,
        .Q_sources, .canals_in_x, .canals_in_y, .canals_out_x, .canals_out_y, .sinks_x, .sinks_y,
        .sources_x, .sources_y]
  | .tf_evap_energy_balance | .tf_evap_priestley_taylor | .tf_evap_read_file =>
      allOf .zero [.ET, .vol_ET]
  | .tf_ice_gc2d => allOf .zero [.mr_ice, .vol_MR]
  | .tf_glacier_energy_balance =>
      (.rho_snow, .cfg) :: allOf .zero [.h_snow, .h_ice, .h_swe, .SM, .IM, .vol_SM, .vol_IM,
        .vol_swe, .vol_swe_start]
  | .tf_infil_green_ampt | .tf_infil_smith_parlange | .tf_infil_beven | .tf_infil_richards_1d =>
      allOf .zero [.IN, .Rg, .vol_IN, .vol_Rg, .vol_soil, .vol_soil_start]
  | .tf_meteorology =>
      allOf .constant [.rho_H2O, .rho_air, .Cp_air] ++ allOf .cfg [.T_air, .T_surf, .RH] ++
      (if scalarP then allOf .zero [.P_rain, .P_snow] else []) ++
      allOf .zero [.e_air, .e_surf, .em_air, .Qn_SW, .Qn_LW, .Q_sum, .Qc]
  | .tf_satzone_darcy_layers | .tf_satzone_attenuate =>
      (.elev, .grid) :: allOf .zero [.h_table, .GW, .vol_GW]
  | .tf_snow_degree_day | .tf_snow_energy_balance =>
      (.rho_snow, .cfg) :: allOf .zero [.h_snow, .h_swe, .SM, .vol_SM, .vol_swe_start, .vol_swe]
  | .topoflow_driver | .erode_d8_global | .erode_d8_local | .d8_global | .dem_smoother => []

/-- What `initialize` of an enabled component leaves behind, of the attributes asked for by others:
channels_base.py:1137-1376, 1449-1499; evap_base.py:303-309; ice_base.py:259-304;
glacier_base.py:400-449; `initialize_computed_vars` of the infiltration methods;
met_base.py:1041-1230; satzone_base.py:367-421, 1612-1620; snow_base.py:376-411.
erode_d8_global.py maps the elevation to an attribute `z` that no function sets. -/
def onAttrs : Comp → List (Attr × Kind)
  | .tf_channels_kin_wave | .tf_channels_diff_wave | .tf_channels_dynam_wave =>
      allOf .computed [.vol, .d, .f_outlet, .d_outlet, .Td_peak, .T_peak, .Tu_peak, .vol_Q, .d_peak,
        .Q_peak, .u_peak, .Q_outlet, .u_outlet, .z0val_max, .z0val_min, .nval_max, .nval_min, .d_max,
        .Q_max, .u_max, .d_min, .Q_min, .u_min, .vol_R, .R, .vol_edge, .vol_chan_sum0,
        .vol_chan_sum, .vol_flood_sum]
  | .tf_evap_energy_balance | .tf_evap_priestley_taylor | .tf_evap_read_file =>
      allOf .computed [.ET, .vol_ET]
  | .tf_ice_gc2d => allOf .computed [.mr_ice, .h_ice, .vol_MR]
  | .tf_glacier_energy_balance =>
      allOf .computed [.IM, .SM, .h_snow, .h_ice, .rho_snow, .vol_IM, .vol_swe_start, .vol_swe,
        .vol_SM]
  | .tf_infil_green_ampt | .tf_infil_smith_parlange | .tf_infil_beven | .tf_infil_richards_1d =>
      allOf .computed [.IN, .Rg, .vol_IN, .vol_soil_start, .vol_soil, .vol_Rg]
  | .tf_meteorology =>
      allOf .computed [.P_rain, .rho_H2O, .T_air, .Qe, .Q_sum, .T_surf, .Qn_LW, .Qn_SW, .rho_air,
        .Cp_air, .RH, .P_snow, .vol_P, .vol_PR, .vol_PS, .P_max]
  | .tf_satzone_darcy_layers | .tf_satzone_attenuate =>
      allOf .computed [.GW, .elev, .h_table, .vol_GW]
  | .tf_snow_degree_day | .tf_snow_energy_balance =>
      allOf .computed [.SM, .h_snow, .rho_snow, .vol_swe_start, .vol_swe, .vol_SM]
  | _ => []

/-- The attributes of a component when its `initialize` has returned; `off c` is
`comp_status.lower() == 'disabled'`.  Used in the model of emeli.py:1459-1497. -/
def afterInit (scalarP : Bool) (off : Comp → Bool) (c : Comp) : List (Attr × Kind) :=
  if off c then offAttrs scalarP c else onAttrs c

/-- `get_value_ptr`, BMI_base.py:596-600: look up the internal name, then the attribute. -/
def valuePtr (attrs : List (Attr × Kind)) (c : Comp) (v : Var) : Except String Kind := do
  let a ← getVarName c v
  match attrs.lookup a with
  | some k => .ok k
  | none => .error "AttributeError"

/-- `connect_comps`, emeli.py:717-779, with the provider's attribute looked up. -/
def connectLive (scalarP : Bool) (off : Comp → Bool) (p u : Comp) (v : Var) :
    Except String Connected := do
  let _ ← valuePtr (afterInit scalarP off p) p v
  connect p u v

/-- `update` and `finalize` of a switched off component: return at once (snow_base.py:233,
285; evap_base.py:184, 236; infil_base.py:310, 364; satzone_base.py:237, 291; glacier_base.py:228, 302;
ice_base.py:476, 763; met_base.py:753, 841; channels_base.py:815, 969; diversions_base.py:153-158,
180-185; diversions_fraction_method.py:230-233).  The other calls of a run leave the attributes alone; what an
enabled component does is not modelled here. -/
def updateOff (s : List (Attr × Kind)) : List (Attr × Kind) := s

/-- What a user of the provider reads after `n` updates of the switched off provider. -/
def readAfter (scalarP : Bool) (off : Comp → Bool) (n : ℕ) (p : Comp) (v : Var) :
    Except String Kind :=
  valuePtr (updateOff^[n] (afterInit scalarP off p)) p v

/-- The rate the channel component finds in one of its inputs: the zero that a switched off
provider leaves, or the provider's rate `x` (channels_base.py:1602-1610). -/
noncomputable def rateRead (scalarP : Bool) (off : Comp → Bool) (n : ℕ) (p : Comp) (v : Var) (x : ℝ) : ℝ :=
  match readAfter scalarP off n p v with
  | .ok .zero => 0
  | _ => x

end Disable
