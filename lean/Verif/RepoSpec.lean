import Verif.RepoModel

/-!
# Specification: process types and what each component needs

Hand-written from the README's point of view: a hydrologic model is put together from one
component per process.
-/

set_option autoImplicit false

namespace RepoSpec

open Repo

/-- The alternatives for each process. -/
inductive Process where
  /-- channel flow: kinematic, diffusive or dynamic wave -/
  | channels
  /-- evapotranspiration -/
  | evap
  /-- infiltration -/
  | infil
  /-- saturated zone -/
  | satzone
  /-- meteorology -/
  | met
  /-- snow melt: a snow component, or the glacier component, which has its own snowpack -/
  | melt
  /-- ice: the glacier component or the ice-flow component -/
  | ice
  /-- topography: a saturated-zone component or the landscape evolution component -/
  | topo
  /-- components that did not override the base class's placeholder names -/
  | placeholder

/-- The components that implement a process. -/
def Process.members : Process → List Comp
  | .channels => [.tf_channels_kin_wave, .tf_channels_diff_wave, .tf_channels_dynam_wave]
  | .evap => [.tf_evap_energy_balance, .tf_evap_priestley_taylor, .tf_evap_read_file]
  | .infil => [.tf_infil_green_ampt, .tf_infil_smith_parlange, .tf_infil_beven,
      .tf_infil_richards_1d]
  | .satzone => [.tf_satzone_darcy_layers, .tf_satzone_attenuate]
  | .met => [.tf_meteorology]
  | .melt => [.tf_glacier_energy_balance, .tf_snow_degree_day, .tf_snow_energy_balance]
  | .ice => [.tf_ice_gc2d, .tf_glacier_energy_balance]
  | .topo => [.tf_satzone_darcy_layers, .tf_satzone_attenuate, .erode_d8_global]
  | .placeholder => [.erode_d8_local, .dem_smoother]

/-- The processes a component needs. -/
def needs : Comp → List Process
  | .tf_channels_kin_wave | .tf_channels_diff_wave | .tf_channels_dynam_wave =>
      [.met, .melt, .ice, .evap, .infil, .satzone]
  | .tf_evap_energy_balance => [.met, .melt]
  | .tf_evap_priestley_taylor => [.met, .channels]
  | .tf_evap_read_file => [.channels]
  | .tf_glacier_energy_balance | .tf_snow_degree_day | .tf_snow_energy_balance => [.met]
  | .tf_infil_green_ampt | .tf_infil_smith_parlange | .tf_infil_beven | .tf_infil_richards_1d =>
      [.met, .melt, .ice, .evap, .satzone, .topo]
  | .tf_meteorology => [.melt, .ice]
  | .tf_satzone_darcy_layers => [.channels, .evap, .infil]
  | .tf_satzone_attenuate => [.channels, .evap, .infil, .met]
  | .topoflow_driver => [.channels, .met, .melt, .ice, .evap, .infil, .satzone]
  | .d8_global => [.topo]
  | .erode_d8_local | .dem_smoother => [.placeholder]
  | .tf_data_his | .tf_diversions_fraction_method | .tf_ice_gc2d | .erode_d8_global => []

/-- Exactly one component of the set implements the process. -/
def ExactlyOne (l : List Comp) (p : Process) : Prop := ∃! c, c ∈ l ∧ c ∈ p.members

end RepoSpec
