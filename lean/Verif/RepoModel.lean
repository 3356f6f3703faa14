import Mathlib.Data.List.Basic

/-!
# The component repository and the variables each component declares

framework/component_repository.xml lists the components; each component class declares its
`_input_var_names`, `_output_var_names`, `_var_name_map` and `_var_units_map`.  The tables below
are copied from those declarations.  A long variable name is a constructor of `Var` spelled
exactly as in the code (python compares strings, so equality of names is equality of
constructors).  The same is done for internal names (`Attr`) and units (`Units`).
-/

set_option autoImplicit false
set_option maxRecDepth 100000

namespace Repo

/-- The long variable names used in the tables (in the order of their character codes).
Used in the model of emeli.py:717-779. -/
inductive Var where
  | «None»
  | «atmosphere_aerosol_dust__reduction_of_transmittance»
  | «atmosphere_air-column_water-vapor__liquid-equivalent_depth»
  | «atmosphere_bottom_air__brutsaert_emissivity_canopy_factor»
  | «atmosphere_bottom_air__brutsaert_emissivity_cloud_factor»
  | «atmosphere_bottom_air__bulk_latent_heat_aerodynamic_conductance»
  | «atmosphere_bottom_air__bulk_sensible_heat_aerodynamic_conductance»
  | «atmosphere_bottom_air__emissivity»
  | «atmosphere_bottom_air__mass-per-volume_density»
  | «atmosphere_bottom_air__mass-specific_isobaric_heat_capacity»
  | «atmosphere_bottom_air__neutral_bulk_aerodynamic_conductance»
  | «atmosphere_bottom_air__neutral_bulk_heat_aerodynamic_conductance»
  | «atmosphere_bottom_air__pressure»
  | «atmosphere_bottom_air__temperature»
  | «atmosphere_bottom_air_flow__bulk_richardson_number»
  | «atmosphere_bottom_air_flow__log_law_roughness_length»
  | «atmosphere_bottom_air_flow__reference-height_speed»
  | «atmosphere_bottom_air_flow__speed_reference_height»
  | «atmosphere_bottom_air_land_net-latent-heat__energy_flux»
  | «atmosphere_bottom_air_land_net-sensible-heat__energy_flux»
  | «atmosphere_bottom_air_water-vapor__dew_point_temperature»
  | «atmosphere_bottom_air_water-vapor__partial_pressure»
  | «atmosphere_bottom_air_water-vapor__relative_saturation»
  | «atmosphere_bottom_air_water-vapor__saturated_partial_pressure»
  | «atmosphere_water__domain_time_integral_of_precipitation_leq-volume_flux»
  | «atmosphere_water__domain_time_integral_of_rainfall_volume_flux»
  | «atmosphere_water__domain_time_integral_of_snowfall_leq-volume_flux»
  | «atmosphere_water__domain_time_max_of_precipitation_leq-volume_flux»
  | «atmosphere_water__geomorphic_precipitation_leq-volume_flux»
  | «atmosphere_water__precipitation_leq-volume_flux»
  | «atmosphere_water__rainfall_volume_flux»
  | «atmosphere_water__snowfall_leq-volume_flux»
  | «basin_outlet_water_flow__half_of_fanning_friction_factor»
  | «basin_outlet_water_x-section__mean_depth»
  | «basin_outlet_water_x-section__peak_time_of_depth»
  | «basin_outlet_water_x-section__peak_time_of_volume_flow_rate»
  | «basin_outlet_water_x-section__peak_time_of_volume_flux»
  | «basin_outlet_water_x-section__time_integral_of_volume_flow_rate»
  | «basin_outlet_water_x-section__time_max_of_mean_depth»
  | «basin_outlet_water_x-section__time_max_of_volume_flow_rate»
  | «basin_outlet_water_x-section__time_max_of_volume_flux»
  | «basin_outlet_water_x-section__volume_flow_rate»
  | «basin_outlet_water_x-section__volume_flux»
  | «bedrock__uplift_rate»
  | «canals__count»
  | «canals_entrance__x_coordinate»
  | «canals_entrance__y_coordinate»
  | «canals_entrance_water__volume_flow_rate»
  | «canals_entrance_water__volume_fraction»
  | «canals_exit__x_coordinate»
  | «canals_exit__y_coordinate»
  | «canals_exit_water__volume_flow_rate»
  | «channel_bottom_surface__slope»
  | «channel_bottom_water_flow__domain_max_of_log_law_roughness_length»
  | «channel_bottom_water_flow__domain_min_of_log_law_roughness_length»
  | «channel_bottom_water_flow__log_law_roughness_length»
  | «channel_bottom_water_flow__magnitude_of_shear_stress»
  | «channel_bottom_water_flow__shear_speed»
  | «channel_centerline__sinuosity»
  | «channel_water__volume»
  | «channel_water_flow__domain_max_of_manning_n_parameter»
  | «channel_water_flow__domain_min_of_manning_n_parameter»
  | «channel_water_flow__froude_number»
  | «channel_water_flow__half_of_fanning_friction_factor»
  | «channel_water_flow__manning_n_parameter»
  | «channel_water_surface__slope»
  | «channel_water_total-sediment__volume_flow_rate»
  | «channel_water_total-sediment__volume_flow_rate_law_area_exponent»
  | «channel_water_total-sediment__volume_flow_rate_law_coefficient»
  | «channel_water_total-sediment__volume_flow_rate_law_slope_exponent»
  | «channel_water_x-section__boundary_time_integral_of_volume_flow_rate»
  | «channel_water_x-section__domain_max_of_mean_depth»
  | «channel_water_x-section__domain_max_of_volume_flow_rate»
  | «channel_water_x-section__domain_max_of_volume_flux»
  | «channel_water_x-section__domain_min_of_mean_depth»
  | «channel_water_x-section__domain_min_of_volume_flow_rate»
  | «channel_water_x-section__domain_min_of_volume_flux»
  | «channel_water_x-section__hydraulic_radius»
  | «channel_water_x-section__initial_mean_depth»
  | «channel_water_x-section__mean_depth»
  | «channel_water_x-section__volume_flow_rate»
  | «channel_water_x-section__volume_flow_rate_law_area_exponent»
  | «channel_water_x-section__volume_flux»
  | «channel_water_x-section__wetted_area»
  | «channel_water_x-section__wetted_perimeter»
  | «channel_water_x-section_top__width»
  | «channel_x-section_trapezoid_bottom__width»
  | «channel_x-section_trapezoid_side__flare_angle»
  | «cryosphere__domain_time_integral_of_melt_volume_flux»
  | «cryosphere__melt_volume_flux»
  | «earth__standard_gravity_constant»
  | «glacier__domain_integral_of_liquid-equivalent_depth»
  | «glacier__energy-per-area_cold_content»
  | «glacier__initial_domain_integral_of_liquid-equivalent_depth»
  | «glacier__initial_liquid_equivalent_depth»
  | «glacier_ice__domain_time_integral_of_melt_volume_flux»
  | «glacier_ice__initial_thickness»
  | «glacier_ice__mass-per-volume_density»
  | «glacier_ice__mass-specific_isobaric_heat_capacity»
  | «glacier_ice__melt_volume_flux»
  | «glacier_ice__thickness»
  | «glacier_top_surface__elevation»
  | «land_surface__albedo»
  | «land_surface__aspect_angle»
  | «land_surface__domain_max_of_increment_of_elevation»
  | «land_surface__elevation»
  | «land_surface__emissivity»
  | «land_surface__increment_of_elevation»
  | «land_surface__initial_elevation»
  | «land_surface__latitude»
  | «land_surface__longitude»
  | «land_surface__slope»
  | «land_surface__slope_angle»
  | «land_surface__temperature»
  | «land_surface__time_derivative_of_elevation»
  | «land_surface_air_water-vapor__partial_pressure»
  | «land_surface_air_water-vapor__saturated_partial_pressure»
  | «land_surface_contour-segment__total_contributing_area»
  | «land_surface_net-longwave-radiation__energy_flux»
  | «land_surface_net-shortwave-radiation__energy_flux»
  | «land_surface_net-total-energy__energy_flux»
  | «land_surface_soil__conduction_heat_flux»
  | «land_surface_water__area_integral_of_depth»
  | «land_surface_water__baseflow_volume_flux»
  | «land_surface_water__depth»
  | «land_surface_water__domain_time_integral_of_baseflow_volume_flux»
  | «land_surface_water__domain_time_integral_of_evaporation_volume_flux»
  | «land_surface_water__domain_time_integral_of_runoff_volume_flux»
  | «land_surface_water__evaporation_volume_flux»
  | «land_surface_water__initial_area_integral_of_depth»
  | «land_surface_water__priestley-taylor_alpha_coefficient»
  | «land_surface_water__runoff_volume_flux»
  | «model__time_step»
  | «model_domain_boundary__lowering_rate»
  | «model_grid_cell__area»
  | «model_grid_cell__d8_flow_length»
  | «model_grid_cell__d8_flow_width»
  | «model_grid_cell__diameter»
  | «model_grid_cell__x_length»
  | «model_grid_cell__y_length»
  | «model_soil_layer-0__porosity»
  | «model_soil_layer-0__saturated_thickness»
  | «model_soil_layer-0__thickness»
  | «model_soil_layer-1__porosity»
  | «model_soil_layer-1__saturated_thickness»
  | «model_soil_layer-1__thickness»
  | «model_soil_layer-2__porosity»
  | «model_soil_layer-2__saturated_thickness»
  | «model_soil_layer-2__thickness»
  | «network_channel_water__volume»
  | «ngen::mass_in»
  | «ngen::mass_leaked»
  | «ngen::mass_out»
  | «ngen::mass_stored»
  | «physics__stefan_boltzmann_constant»
  | «physics__von_karman_constant»
  | «river-network_channel_water__initial_volume»
  | «river-network_channel_water__volume»
  | «sinks__count»
  | «sinks__x_coordinate»
  | «sinks__y_coordinate»
  | «sinks_water__volume_flow_rate»
  | «snowpack__degree-day_coefficient»
  | «snowpack__degree-day_threshold_temperature»
  | «snowpack__depth»
  | «snowpack__domain_integral_of_liquid-equivalent_depth»
  | «snowpack__domain_time_integral_of_melt_volume_flux»
  | «snowpack__energy-per-area_cold_content»
  | «snowpack__initial_depth»
  | «snowpack__initial_domain_integral_of_liquid-equivalent_depth»
  | «snowpack__initial_liquid-equivalent_depth»
  | «snowpack__liquid-equivalent_depth»
  | «snowpack__melt_volume_flux»
  | «snowpack__z_mean_of_mass-per-volume_density»
  | «snowpack__z_mean_of_mass-specific_isobaric_heat_capacity»
  | «soil__reference_depth_temperature»
  | «soil__temperature_reference_depth»
  | «soil__thermal_conductivity»
  | «soil_surface_water__domain_time_integral_of_infiltration_volume_flux»
  | «soil_surface_water__infiltration_volume_flux»
  | «soil_surface_water__time_integral_of_infiltration_volume_flux»
  | «soil_surface_water__volume_fraction»
  | «soil_top-layer__porosity»
  | «soil_top-layer__saturated_thickness»
  | «soil_top-layer__thickness»
  | «soil_water__brooks-corey-smith_c_parameter»
  | «soil_water__brooks-corey-smith_pressure_head_offset_parameter»
  | «soil_water__brooks-corey_eta_parameter»
  | «soil_water__brooks-corey_lambda_parameter»
  | «soil_water__bubbling_pressure_head»
  | «soil_water__domain_integral_of_volume_fraction»
  | «soil_water__green-ampt_capillary_length»
  | «soil_water__hydraulic_conductivity»
  | «soil_water__hygroscopic_volume_fraction»
  | «soil_water__initial_domain_integral_of_volume_fraction»
  | «soil_water__initial_hydraulic_conductivity»
  | «soil_water__initial_volume_fraction»
  | «soil_water__potential_infiltration_volume_flux»
  | «soil_water__pressure_head»
  | «soil_water__residual_volume_fraction»
  | «soil_water__saturated_hydraulic_conductivity»
  | «soil_water__saturated_volume_fraction»
  | «soil_water__smith-parlange_gamma_parameter»
  | «soil_water__volume_fraction»
  | «soil_water_flow__z_component_of_darcy_velocity»
  | «soil_water_sat-zone_top__domain_time_integral_of_recharge_volume_flux»
  | «soil_water_sat-zone_top__recharge_volume_flux»
  | «soil_water_sat-zone_top_surface__elevation»
  | «soil_water_wetting-front__depth»
  | «sources__count»
  | «sources__x_coordinate»
  | «sources__y_coordinate»
  | «sources_water__volume_flow_rate»
  | «water-liquid__mass-per-volume_density»
  | «water__mass-specific_latent_fusion_heat»
  | «water__mass-specific_latent_vaporization_heat»
  deriving DecidableEq

/-- All names, in the same order.  Built on the model of emeli.py:717-779. -/
def Var.all : List Var :=
  [.«None», .«atmosphere_aerosol_dust__reduction_of_transmittance»,
   .«atmosphere_air-column_water-vapor__liquid-equivalent_depth»,
   .«atmosphere_bottom_air__brutsaert_emissivity_canopy_factor»,
   .«atmosphere_bottom_air__brutsaert_emissivity_cloud_factor»,
   .«atmosphere_bottom_air__bulk_latent_heat_aerodynamic_conductance»,
   .«atmosphere_bottom_air__bulk_sensible_heat_aerodynamic_conductance»,
   .«atmosphere_bottom_air__emissivity», .«atmosphere_bottom_air__mass-per-volume_density»,
   .«atmosphere_bottom_air__mass-specific_isobaric_heat_capacity»,
   .«atmosphere_bottom_air__neutral_bulk_aerodynamic_conductance»,
   .«atmosphere_bottom_air__neutral_bulk_heat_aerodynamic_conductance»,
   .«atmosphere_bottom_air__pressure», .«atmosphere_bottom_air__temperature»,
   .«atmosphere_bottom_air_flow__bulk_richardson_number»,
   .«atmosphere_bottom_air_flow__log_law_roughness_length»,
   .«atmosphere_bottom_air_flow__reference-height_speed»,
   .«atmosphere_bottom_air_flow__speed_reference_height»,
   .«atmosphere_bottom_air_land_net-latent-heat__energy_flux»,
   .«atmosphere_bottom_air_land_net-sensible-heat__energy_flux»,
   .«atmosphere_bottom_air_water-vapor__dew_point_temperature»,
   .«atmosphere_bottom_air_water-vapor__partial_pressure»,
   .«atmosphere_bottom_air_water-vapor__relative_saturation»,
   .«atmosphere_bottom_air_water-vapor__saturated_partial_pressure»,
   .«atmosphere_water__domain_time_integral_of_precipitation_leq-volume_flux»,
   .«atmosphere_water__domain_time_integral_of_rainfall_volume_flux»,
   .«atmosphere_water__domain_time_integral_of_snowfall_leq-volume_flux»,
   .«atmosphere_water__domain_time_max_of_precipitation_leq-volume_flux»,
   .«atmosphere_water__geomorphic_precipitation_leq-volume_flux»,
   .«atmosphere_water__precipitation_leq-volume_flux»,
   .«atmosphere_water__rainfall_volume_flux», .«atmosphere_water__snowfall_leq-volume_flux»,
   .«basin_outlet_water_flow__half_of_fanning_friction_factor»,
   .«basin_outlet_water_x-section__mean_depth»,
   .«basin_outlet_water_x-section__peak_time_of_depth»,
   .«basin_outlet_water_x-section__peak_time_of_volume_flow_rate»,
   .«basin_outlet_water_x-section__peak_time_of_volume_flux»,
   .«basin_outlet_water_x-section__time_integral_of_volume_flow_rate»,
   .«basin_outlet_water_x-section__time_max_of_mean_depth»,
   .«basin_outlet_water_x-section__time_max_of_volume_flow_rate»,
   .«basin_outlet_water_x-section__time_max_of_volume_flux»,
   .«basin_outlet_water_x-section__volume_flow_rate»,
   .«basin_outlet_water_x-section__volume_flux», .«bedrock__uplift_rate», .«canals__count»,
   .«canals_entrance__x_coordinate», .«canals_entrance__y_coordinate»,
   .«canals_entrance_water__volume_flow_rate», .«canals_entrance_water__volume_fraction»,
   .«canals_exit__x_coordinate», .«canals_exit__y_coordinate»,
   .«canals_exit_water__volume_flow_rate», .«channel_bottom_surface__slope»,
   .«channel_bottom_water_flow__domain_max_of_log_law_roughness_length»,
   .«channel_bottom_water_flow__domain_min_of_log_law_roughness_length»,
   .«channel_bottom_water_flow__log_law_roughness_length»,
   .«channel_bottom_water_flow__magnitude_of_shear_stress»,
   .«channel_bottom_water_flow__shear_speed», .«channel_centerline__sinuosity»,
   .«channel_water__volume», .«channel_water_flow__domain_max_of_manning_n_parameter»,
   .«channel_water_flow__domain_min_of_manning_n_parameter»,
   .«channel_water_flow__froude_number»,
   .«channel_water_flow__half_of_fanning_friction_factor»,
   .«channel_water_flow__manning_n_parameter», .«channel_water_surface__slope»,
   .«channel_water_total-sediment__volume_flow_rate»,
   .«channel_water_total-sediment__volume_flow_rate_law_area_exponent»,
   .«channel_water_total-sediment__volume_flow_rate_law_coefficient»,
   .«channel_water_total-sediment__volume_flow_rate_law_slope_exponent»,
   .«channel_water_x-section__boundary_time_integral_of_volume_flow_rate»,
   .«channel_water_x-section__domain_max_of_mean_depth»,
   .«channel_water_x-section__domain_max_of_volume_flow_rate»,
   .«channel_water_x-section__domain_max_of_volume_flux»,
   .«channel_water_x-section__domain_min_of_mean_depth»,
   .«channel_water_x-section__domain_min_of_volume_flow_rate»,
   .«channel_water_x-section__domain_min_of_volume_flux»,
   .«channel_water_x-section__hydraulic_radius»,
   .«channel_water_x-section__initial_mean_depth», .«channel_water_x-section__mean_depth»,
   .«channel_water_x-section__volume_flow_rate»,
   .«channel_water_x-section__volume_flow_rate_law_area_exponent»,
   .«channel_water_x-section__volume_flux», .«channel_water_x-section__wetted_area»,
   .«channel_water_x-section__wetted_perimeter», .«channel_water_x-section_top__width»,
   .«channel_x-section_trapezoid_bottom__width»,
   .«channel_x-section_trapezoid_side__flare_angle»,
   .«cryosphere__domain_time_integral_of_melt_volume_flux», .«cryosphere__melt_volume_flux»,
   .«earth__standard_gravity_constant»,
   .«glacier__domain_integral_of_liquid-equivalent_depth»,
   .«glacier__energy-per-area_cold_content»,
   .«glacier__initial_domain_integral_of_liquid-equivalent_depth»,
   .«glacier__initial_liquid_equivalent_depth»,
   .«glacier_ice__domain_time_integral_of_melt_volume_flux»,
   .«glacier_ice__initial_thickness», .«glacier_ice__mass-per-volume_density»,
   .«glacier_ice__mass-specific_isobaric_heat_capacity», .«glacier_ice__melt_volume_flux»,
   .«glacier_ice__thickness», .«glacier_top_surface__elevation», .«land_surface__albedo»,
   .«land_surface__aspect_angle», .«land_surface__domain_max_of_increment_of_elevation»,
   .«land_surface__elevation», .«land_surface__emissivity»,
   .«land_surface__increment_of_elevation», .«land_surface__initial_elevation»,
   .«land_surface__latitude», .«land_surface__longitude», .«land_surface__slope»,
   .«land_surface__slope_angle», .«land_surface__temperature»,
   .«land_surface__time_derivative_of_elevation»,
   .«land_surface_air_water-vapor__partial_pressure»,
   .«land_surface_air_water-vapor__saturated_partial_pressure»,
   .«land_surface_contour-segment__total_contributing_area»,
   .«land_surface_net-longwave-radiation__energy_flux»,
   .«land_surface_net-shortwave-radiation__energy_flux»,
   .«land_surface_net-total-energy__energy_flux», .«land_surface_soil__conduction_heat_flux»,
   .«land_surface_water__area_integral_of_depth»,
   .«land_surface_water__baseflow_volume_flux», .«land_surface_water__depth»,
   .«land_surface_water__domain_time_integral_of_baseflow_volume_flux»,
   .«land_surface_water__domain_time_integral_of_evaporation_volume_flux»,
   .«land_surface_water__domain_time_integral_of_runoff_volume_flux»,
   .«land_surface_water__evaporation_volume_flux»,
   .«land_surface_water__initial_area_integral_of_depth»,
   .«land_surface_water__priestley-taylor_alpha_coefficient»,
   .«land_surface_water__runoff_volume_flux», .«model__time_step»,
   .«model_domain_boundary__lowering_rate», .«model_grid_cell__area»,
   .«model_grid_cell__d8_flow_length», .«model_grid_cell__d8_flow_width»,
   .«model_grid_cell__diameter», .«model_grid_cell__x_length», .«model_grid_cell__y_length»,
   .«model_soil_layer-0__porosity», .«model_soil_layer-0__saturated_thickness»,
   .«model_soil_layer-0__thickness», .«model_soil_layer-1__porosity»,
   .«model_soil_layer-1__saturated_thickness», .«model_soil_layer-1__thickness»,
   .«model_soil_layer-2__porosity», .«model_soil_layer-2__saturated_thickness»,
   .«model_soil_layer-2__thickness», .«network_channel_water__volume», .«ngen::mass_in»,
   .«ngen::mass_leaked», .«ngen::mass_out», .«ngen::mass_stored»,
   .«physics__stefan_boltzmann_constant», .«physics__von_karman_constant»,
   .«river-network_channel_water__initial_volume», .«river-network_channel_water__volume»,
   .«sinks__count», .«sinks__x_coordinate», .«sinks__y_coordinate»,
   .«sinks_water__volume_flow_rate», .«snowpack__degree-day_coefficient»,
   .«snowpack__degree-day_threshold_temperature», .«snowpack__depth»,
   .«snowpack__domain_integral_of_liquid-equivalent_depth»,
   .«snowpack__domain_time_integral_of_melt_volume_flux»,
   .«snowpack__energy-per-area_cold_content», .«snowpack__initial_depth»,
   .«snowpack__initial_domain_integral_of_liquid-equivalent_depth»,
   .«snowpack__initial_liquid-equivalent_depth», .«snowpack__liquid-equivalent_depth»,
   .«snowpack__melt_volume_flux», .«snowpack__z_mean_of_mass-per-volume_density»,
   .«snowpack__z_mean_of_mass-specific_isobaric_heat_capacity»,
   .«soil__reference_depth_temperature», .«soil__temperature_reference_depth»,
   .«soil__thermal_conductivity»,
   .«soil_surface_water__domain_time_integral_of_infiltration_volume_flux»,
   .«soil_surface_water__infiltration_volume_flux»,
   .«soil_surface_water__time_integral_of_infiltration_volume_flux»,
   .«soil_surface_water__volume_fraction», .«soil_top-layer__porosity»,
   .«soil_top-layer__saturated_thickness», .«soil_top-layer__thickness»,
   .«soil_water__brooks-corey-smith_c_parameter»,
   .«soil_water__brooks-corey-smith_pressure_head_offset_parameter»,
   .«soil_water__brooks-corey_eta_parameter», .«soil_water__brooks-corey_lambda_parameter»,
   .«soil_water__bubbling_pressure_head», .«soil_water__domain_integral_of_volume_fraction»,
   .«soil_water__green-ampt_capillary_length», .«soil_water__hydraulic_conductivity»,
   .«soil_water__hygroscopic_volume_fraction»,
   .«soil_water__initial_domain_integral_of_volume_fraction»,
   .«soil_water__initial_hydraulic_conductivity», .«soil_water__initial_volume_fraction»,
   .«soil_water__potential_infiltration_volume_flux», .«soil_water__pressure_head»,
   .«soil_water__residual_volume_fraction», .«soil_water__saturated_hydraulic_conductivity»,
   .«soil_water__saturated_volume_fraction», .«soil_water__smith-parlange_gamma_parameter»,
   .«soil_water__volume_fraction», .«soil_water_flow__z_component_of_darcy_velocity»,
   .«soil_water_sat-zone_top__domain_time_integral_of_recharge_volume_flux»,
   .«soil_water_sat-zone_top__recharge_volume_flux»,
   .«soil_water_sat-zone_top_surface__elevation», .«soil_water_wetting-front__depth»,
   .«sources__count», .«sources__x_coordinate», .«sources__y_coordinate»,
   .«sources_water__volume_flow_rate», .«water-liquid__mass-per-volume_density»,
   .«water__mass-specific_latent_fusion_heat»,
   .«water__mass-specific_latent_vaporization_heat»]

/-- The components of the repository (the `comp_name` tags of
framework/component_repository.xml, in order; read by `read_repository`, emeli.py:262-417). -/
inductive Comp where
  | tf_channels_kin_wave
  | tf_channels_diff_wave
  | tf_channels_dynam_wave
  | tf_data_his
  | tf_diversions_fraction_method
  | tf_evap_energy_balance
  | tf_evap_priestley_taylor
  | tf_evap_read_file
  | tf_ice_gc2d
  | tf_glacier_energy_balance
  | tf_infil_green_ampt
  | tf_infil_smith_parlange
  | tf_infil_beven
  | tf_infil_richards_1d
  | tf_meteorology
  | tf_satzone_darcy_layers
  | tf_satzone_attenuate
  | tf_snow_degree_day
  | tf_snow_energy_balance
  | topoflow_driver
  | erode_d8_global
  | erode_d8_local
  | d8_global
  | dem_smoother
  deriving DecidableEq

/-- `repo_list` (emeli.py:332, 414). -/
def repoList : List Comp :=
  [.tf_channels_kin_wave, .tf_channels_diff_wave, .tf_channels_dynam_wave, .tf_data_his,
   .tf_diversions_fraction_method, .tf_evap_energy_balance, .tf_evap_priestley_taylor,
   .tf_evap_read_file, .tf_ice_gc2d, .tf_glacier_energy_balance, .tf_infil_green_ampt,
   .tf_infil_smith_parlange, .tf_infil_beven, .tf_infil_richards_1d, .tf_meteorology,
   .tf_satzone_darcy_layers, .tf_satzone_attenuate, .tf_snow_degree_day,
   .tf_snow_energy_balance, .topoflow_driver, .erode_d8_global, .erode_d8_local, .d8_global,
   .dem_smoother]

/-- Internal (attribute) names used in the tables.
Used in the model of channels_base.py:186-193. -/
inductive Attr where
  | «A»
  | «A_wet»
  | «BLR»
  | «Cp_air»
  | «Cp_ice»
  | «Cp_snow»
  | «DEM»
  | «De»
  | «Dh»
  | «Dn»
  | «ET»
  | «Ecc»
  | «Ecci»
  | «Eccs»
  | «G»
  | «GW»
  | «I»
  | «IM»
  | «IN»
  | «K»
  | «K_soil»
  | «Ki»
  | «Ks»
  | «Lf»
  | «Lv»
  | «MR»
  | «M_total»
  | «P»
  | «P_max»
  | «P_rain»
  | «P_snow»
  | «P_wet»
  | «Q»
  | «Q_canals_fraction»
  | «Q_canals_in»
  | «Q_canals_out»
  | «Q_max»
  | «Q_min»
  | «Q_outlet»
  | «Q_peak»
  | «Q_sinks»
  | «Q_sources»
  | «Q_sum»
  | «Qc»
  | «Qe»
  | «Qh»
  | «Qn_LW»
  | «Qn_SW»
  | «Qs»
  | «R»
  | «RH»
  | «Rg»
  | «Rh»
  | «Ri»
  | «S»
  | «SM»
  | «S_bed»
  | «S_free»
  | «T0»
  | «T_air»
  | «T_dew»
  | «T_peak»
  | «T_soil_x»
  | «T_surf»
  | «Td_peak»
  | «Tu_peak»
  | «U»
  | «W_p»
  | «Zb»
  | «Zw»
  | «albedo»
  | «alpha»
  | «angle»
  | «beta»
  | «c»
  | «c0»
  | «canals_in_x»
  | «canals_in_y»
  | «canals_out_x»
  | «canals_out_y»
  | «canopy_factor»
  | «cloud_factor»
  | «d»
  | «d0»
  | «d_max»
  | «d_min»
  | «d_outlet»
  | «d_peak»
  | «da»
  | «dd»
  | «df»
  | «ds»
  | «dt»
  | «dust_atten»
  | «dw»
  | «dx»
  | «dy»
  | «dz»
  | «dz_dt»
  | «dz_max»
  | «e_air»
  | «e_sat_air»
  | «e_sat_surf»
  | «e_surf»
  | «elev»
  | «em_air»
  | «em_surf»
  | «eta»
  | «f»
  | «f_outlet»
  | «fc»
  | «froude»
  | «g»
  | «gam»
  | «h0_ice»
  | «h0_iwe»
  | «h0_snow»
  | «h0_swe»
  | «h_ice»
  | «h_snow»
  | «h_swe»
  | «h_table»
  | «kappa»
  | «lam»
  | «lat_deg»
  | «lon_deg»
  | «m»
  | «mr_ice»
  | «n»
  | «n_canals»
  | «n_sinks»
  | «n_sources»
  | «nval»
  | «nval_max»
  | «nval_min»
  | «p»
  | «p0»
  | «pA»
  | «pB»
  | «q»
  | «q0»
  | «qH»
  | «qi»
  | «qr»
  | «qs»
  | «qs_layer_0»
  | «rho_H2O»
  | «rho_air»
  | «rho_ice»
  | «rho_snow»
  | «sigma»
  | «sinks_x»
  | «sinks_y»
  | «sinu»
  | «soil_x»
  | «sources_x»
  | «sources_y»
  | «tau»
  | «th_layer_0»
  | «u»
  | «u_max»
  | «u_min»
  | «u_outlet»
  | «u_peak»
  | «u_star»
  | «uz»
  | «v»
  | «vol»
  | «vol_ET»
  | «vol_GW»
  | «vol_IM»
  | «vol_IN»
  | «vol_MR»
  | «vol_M_total»
  | «vol_P»
  | «vol_PR»
  | «vol_PS»
  | «vol_Q»
  | «vol_R»
  | «vol_Rg»
  | «vol_SM»
  | «vol_chan_sum»
  | «vol_chan_sum0»
  | «vol_edge»
  | «vol_flood_sum»
  | «vol_flood_sum0»
  | «vol_iwe»
  | «vol_iwe_start»
  | «vol_soil»
  | «vol_soil_start»
  | «vol_swe»
  | «vol_swe_start»
  | «width»
  | «y_layer_0»
  | «z»
  | «z0»
  | «z0_air»
  | «z0val»
  | «z0val_max»
  | «z0val_min»
  | «z_ice»
  deriving DecidableEq

/-- Units used in the tables.  Used in the model of multi_bmi.py:1646-1706. -/
inductive Units where
  | «1»
  | «J kg-1»
  | «J kg-1 K-1»
  | «J m-2»
  | «W m-1 K-1]»
  | «W m-2»
  | «W m-2 K-4»
  | «cm»
  | «deg_C»
  | «degrees»
  | «kg m-1 s-2»
  | «kg m-3»
  | «m»
  | «m s-1»
  | «m s-2»
  | «m yr-1»
  | «m-1/3 s»
  | «m2»
  | «m3»
  | «m3 s-1»
  | «m3 yr-1»
  | «m3(1-m) yr(m-1)»
  | «mbar»
  | «min»
  | «mm day-1 K-1 »
  | «mm yr-1»
  | «rad»
  | «radians»
  | «s»
  | «yr»
  deriving DecidableEq

/-- What a component class declares.  Used in the model of channels_base.py:186-193. -/
structure Decl where
  inputs : List Var
  outputs : List Var
  names : List (Var × Attr)
  units : List (Var × Units)

/-- channels_base.py:186-193, channels_base.py:216-276, channels_base.py:295-384, channels_base.py:387-468. -/
def channelsDecl : Decl where
  inputs := [.«atmosphere_water__rainfall_volume_flux», .«glacier_ice__melt_volume_flux»,
    .«land_surface_water__baseflow_volume_flux»,
    .«land_surface_water__evaporation_volume_flux»,
    .«soil_surface_water__infiltration_volume_flux», .«snowpack__melt_volume_flux»,
    .«water-liquid__mass-per-volume_density»]
  outputs := [.«basin_outlet_water_flow__half_of_fanning_friction_factor»,
    .«basin_outlet_water_x-section__mean_depth»,
    .«basin_outlet_water_x-section__peak_time_of_depth»,
    .«basin_outlet_water_x-section__peak_time_of_volume_flow_rate»,
    .«basin_outlet_water_x-section__peak_time_of_volume_flux»,
    .«basin_outlet_water_x-section__time_integral_of_volume_flow_rate»,
    .«basin_outlet_water_x-section__time_max_of_mean_depth»,
    .«basin_outlet_water_x-section__time_max_of_volume_flow_rate»,
    .«basin_outlet_water_x-section__time_max_of_volume_flux»,
    .«basin_outlet_water_x-section__volume_flow_rate»,
    .«basin_outlet_water_x-section__volume_flux», .«canals_entrance_water__volume_flow_rate»,
    .«channel_bottom_surface__slope»,
    .«channel_bottom_water_flow__domain_max_of_log_law_roughness_length»,
    .«channel_bottom_water_flow__domain_min_of_log_law_roughness_length»,
    .«channel_bottom_water_flow__log_law_roughness_length»,
    .«channel_bottom_water_flow__magnitude_of_shear_stress»,
    .«channel_bottom_water_flow__shear_speed», .«channel_centerline__sinuosity»,
    .«channel_water__volume», .«channel_water_flow__froude_number»,
    .«channel_water_flow__half_of_fanning_friction_factor»,
    .«channel_water_flow__domain_max_of_manning_n_parameter»,
    .«channel_water_flow__domain_min_of_manning_n_parameter»,
    .«channel_water_flow__manning_n_parameter», .«channel_water_surface__slope»,
    .«channel_water_x-section__domain_max_of_mean_depth»,
    .«channel_water_x-section__domain_min_of_mean_depth»,
    .«channel_water_x-section__domain_max_of_volume_flow_rate»,
    .«channel_water_x-section__domain_min_of_volume_flow_rate»,
    .«channel_water_x-section__domain_max_of_volume_flux»,
    .«channel_water_x-section__domain_min_of_volume_flux»,
    .«channel_water_x-section__hydraulic_radius»,
    .«channel_water_x-section__initial_mean_depth», .«channel_water_x-section__mean_depth»,
    .«channel_water_x-section__volume_flow_rate», .«channel_water_x-section__volume_flux»,
    .«channel_water_x-section__wetted_area», .«channel_water_x-section__wetted_perimeter»,
    .«channel_water_x-section_top__width», .«channel_x-section_trapezoid_bottom__width»,
    .«channel_x-section_trapezoid_side__flare_angle», .«land_surface_water__depth»,
    .«land_surface_water__runoff_volume_flux»,
    .«land_surface_water__domain_time_integral_of_runoff_volume_flux», .«model__time_step»,
    .«model_grid_cell__area»,
    .«channel_water_x-section__boundary_time_integral_of_volume_flow_rate»,
    .«river-network_channel_water__initial_volume», .«river-network_channel_water__volume»,
    .«land_surface_water__area_integral_of_depth»]
  names := [(.«atmosphere_water__rainfall_volume_flux», .«P_rain»),
    (.«glacier_ice__melt_volume_flux», .«MR»),
    (.«land_surface_water__baseflow_volume_flux», .«GW»),
    (.«land_surface_water__evaporation_volume_flux», .«ET»),
    (.«soil_surface_water__infiltration_volume_flux», .«IN»),
    (.«snowpack__melt_volume_flux», .«SM»),
    (.«water-liquid__mass-per-volume_density», .«rho_H2O»),
    (.«basin_outlet_water_flow__half_of_fanning_friction_factor», .«f_outlet»),
    (.«basin_outlet_water_x-section__mean_depth», .«d_outlet»),
    (.«basin_outlet_water_x-section__peak_time_of_depth», .«Td_peak»),
    (.«basin_outlet_water_x-section__peak_time_of_volume_flow_rate», .«T_peak»),
    (.«basin_outlet_water_x-section__peak_time_of_volume_flux», .«Tu_peak»),
    (.«basin_outlet_water_x-section__volume_flow_rate», .«Q_outlet»),
    (.«basin_outlet_water_x-section__volume_flux», .«u_outlet»),
    (.«basin_outlet_water_x-section__time_integral_of_volume_flow_rate», .«vol_Q»),
    (.«basin_outlet_water_x-section__time_max_of_mean_depth», .«d_peak»),
    (.«basin_outlet_water_x-section__time_max_of_volume_flow_rate», .«Q_peak»),
    (.«basin_outlet_water_x-section__time_max_of_volume_flux», .«u_peak»),
    (.«canals_entrance_water__volume_flow_rate», .«Q_canals_in»),
    (.«channel_bottom_surface__slope», .«S_bed»),
    (.«channel_bottom_water_flow__domain_max_of_log_law_roughness_length», .«z0val_max»),
    (.«channel_bottom_water_flow__domain_min_of_log_law_roughness_length», .«z0val_min»),
    (.«channel_bottom_water_flow__log_law_roughness_length», .«z0val»),
    (.«channel_bottom_water_flow__magnitude_of_shear_stress», .«tau»),
    (.«channel_bottom_water_flow__shear_speed», .«u_star»),
    (.«channel_centerline__sinuosity», .«sinu»), (.«channel_water__volume», .«vol»),
    (.«channel_water_flow__domain_max_of_manning_n_parameter», .«nval_max»),
    (.«channel_water_flow__domain_min_of_manning_n_parameter», .«nval_min»),
    (.«channel_water_flow__froude_number», .«froude»),
    (.«channel_water_flow__half_of_fanning_friction_factor», .«f»),
    (.«channel_water_flow__manning_n_parameter», .«nval»),
    (.«channel_water_surface__slope», .«S_free»),
    (.«channel_water_x-section__domain_max_of_mean_depth», .«d_max»),
    (.«channel_water_x-section__domain_min_of_mean_depth», .«d_min»),
    (.«channel_water_x-section__domain_max_of_volume_flow_rate», .«Q_max»),
    (.«channel_water_x-section__domain_min_of_volume_flow_rate», .«Q_min»),
    (.«channel_water_x-section__domain_max_of_volume_flux», .«u_max»),
    (.«channel_water_x-section__domain_min_of_volume_flux», .«u_min»),
    (.«channel_water_x-section__hydraulic_radius», .«Rh»),
    (.«channel_water_x-section__initial_mean_depth», .«d0»),
    (.«channel_water_x-section__mean_depth», .«d»),
    (.«channel_water_x-section__volume_flow_rate», .«Q»),
    (.«channel_water_x-section__volume_flux», .«u»),
    (.«channel_water_x-section__wetted_area», .«A_wet»),
    (.«channel_water_x-section__wetted_perimeter», .«P_wet»),
    (.«channel_x-section_trapezoid_bottom__width», .«width»),
    (.«channel_x-section_trapezoid_side__flare_angle», .«angle»),
    (.«land_surface_water__depth», .«df»),
    (.«land_surface_water__domain_time_integral_of_runoff_volume_flux», .«vol_R»),
    (.«land_surface_water__runoff_volume_flux», .«R»), (.«model__time_step», .«dt»),
    (.«model_grid_cell__area», .«da»), (.«canals__count», .«n_canals»),
    (.«canals_entrance__x_coordinate», .«canals_in_x»),
    (.«canals_entrance__y_coordinate», .«canals_in_y»),
    (.«canals_entrance_water__volume_fraction», .«Q_canals_fraction»),
    (.«canals_exit__x_coordinate», .«canals_out_x»),
    (.«canals_exit__y_coordinate», .«canals_out_y»),
    (.«canals_exit_water__volume_flow_rate», .«Q_canals_out»), (.«sinks__count», .«n_sinks»),
    (.«sinks__x_coordinate», .«sinks_x»), (.«sinks__y_coordinate», .«sinks_y»),
    (.«sinks_water__volume_flow_rate», .«Q_sinks»), (.«sources__count», .«n_sources»),
    (.«sources__x_coordinate», .«sources_x»), (.«sources__y_coordinate», .«sources_y»),
    (.«sources_water__volume_flow_rate», .«Q_sources»),
    (.«channel_water_x-section__boundary_time_integral_of_volume_flow_rate», .«vol_edge»),
    (.«river-network_channel_water__initial_volume», .«vol_chan_sum0»),
    (.«river-network_channel_water__volume», .«vol_chan_sum»),
    (.«land_surface_water__area_integral_of_depth», .«vol_flood_sum»)]
  units := [(.«atmosphere_water__rainfall_volume_flux», .«m s-1»),
    (.«glacier_ice__melt_volume_flux», .«m s-1»),
    (.«land_surface_water__baseflow_volume_flux», .«m s-1»),
    (.«land_surface_water__evaporation_volume_flux», .«m s-1»),
    (.«soil_surface_water__infiltration_volume_flux», .«m s-1»),
    (.«snowpack__melt_volume_flux», .«m s-1»),
    (.«water-liquid__mass-per-volume_density», .«kg m-3»),
    (.«basin_outlet_water_flow__half_of_fanning_friction_factor», .«1»),
    (.«basin_outlet_water_x-section__mean_depth», .«m»),
    (.«basin_outlet_water_x-section__peak_time_of_depth», .«min»),
    (.«basin_outlet_water_x-section__peak_time_of_volume_flow_rate», .«min»),
    (.«basin_outlet_water_x-section__peak_time_of_volume_flux», .«min»),
    (.«basin_outlet_water_x-section__time_integral_of_volume_flow_rate», .«m3»),
    (.«basin_outlet_water_x-section__time_max_of_mean_depth», .«m»),
    (.«basin_outlet_water_x-section__time_max_of_volume_flow_rate», .«m3 s-1»),
    (.«basin_outlet_water_x-section__time_max_of_volume_flux», .«m s-1»),
    (.«basin_outlet_water_x-section__volume_flow_rate», .«m3 s-1»),
    (.«basin_outlet_water_x-section__volume_flux», .«m s-1»),
    (.«canals_entrance_water__volume_flow_rate», .«m3 s-1»),
    (.«channel_bottom_surface__slope», .«1»),
    (.«channel_bottom_water_flow__domain_max_of_log_law_roughness_length», .«m»),
    (.«channel_bottom_water_flow__domain_min_of_log_law_roughness_length», .«m»),
    (.«channel_bottom_water_flow__log_law_roughness_length», .«m»),
    (.«channel_bottom_water_flow__magnitude_of_shear_stress», .«kg m-1 s-2»),
    (.«channel_bottom_water_flow__shear_speed», .«m s-1»),
    (.«channel_centerline__sinuosity», .«1»), (.«channel_water__volume», .«m3»),
    (.«channel_water_flow__froude_number», .«1»),
    (.«channel_water_flow__half_of_fanning_friction_factor», .«1»),
    (.«channel_water_flow__manning_n_parameter», .«m-1/3 s»),
    (.«channel_water_flow__domain_max_of_manning_n_parameter», .«m-1/3 s»),
    (.«channel_water_flow__domain_min_of_manning_n_parameter», .«m-1/3 s»),
    (.«channel_water_surface__slope», .«1»),
    (.«channel_water_x-section__domain_max_of_mean_depth», .«m»),
    (.«channel_water_x-section__domain_min_of_mean_depth», .«m»),
    (.«channel_water_x-section__domain_max_of_volume_flow_rate», .«m3 s-1»),
    (.«channel_water_x-section__domain_min_of_volume_flow_rate», .«m3 s-1»),
    (.«channel_water_x-section__domain_max_of_volume_flux», .«m s-1»),
    (.«channel_water_x-section__domain_min_of_volume_flux», .«m s-1»),
    (.«channel_water_x-section__hydraulic_radius», .«m»),
    (.«channel_water_x-section__initial_mean_depth», .«m»),
    (.«channel_water_x-section__mean_depth», .«m»),
    (.«channel_water_x-section__volume_flow_rate», .«m3 s-1»),
    (.«channel_water_x-section__volume_flux», .«m s-1»),
    (.«channel_water_x-section__wetted_area», .«m2»),
    (.«channel_water_x-section__wetted_perimeter», .«m»),
    (.«channel_x-section_trapezoid_bottom__width», .«m»),
    (.«channel_x-section_trapezoid_side__flare_angle», .«rad»),
    (.«land_surface_water__depth», .«m»),
    (.«land_surface_water__domain_time_integral_of_runoff_volume_flux», .«m3»),
    (.«land_surface_water__runoff_volume_flux», .«m s-1»), (.«model__time_step», .«s»),
    (.«model_grid_cell__area», .«m2»), (.«canals__count», .«1»),
    (.«canals_entrance__x_coordinate», .«m»), (.«canals_entrance__y_coordinate», .«m»),
    (.«canals_entrance_water__volume_fraction», .«1»), (.«canals_exit__x_coordinate», .«m»),
    (.«canals_exit__y_coordinate», .«m»),
    (.«canals_exit_water__volume_flow_rate», .«m3 s-1»), (.«sinks__count», .«1»),
    (.«sinks__x_coordinate», .«m»), (.«sinks__y_coordinate», .«m»),
    (.«sinks_water__volume_flow_rate», .«m3 s-1»), (.«sources__count», .«1»),
    (.«sources__x_coordinate», .«m»), (.«sources__y_coordinate», .«m»),
    (.«sources_water__volume_flow_rate», .«m3 s-1»),
    (.«channel_water_x-section__boundary_time_integral_of_volume_flow_rate», .«m3»),
    (.«river-network_channel_water__initial_volume», .«m3»),
    (.«river-network_channel_water__volume», .«m3»),
    (.«land_surface_water__area_integral_of_depth», .«m3»)]

/-- HIS_base.py:79, HIS_base.py:82, HIS_base.py:84, HIS_base.py:86. -/
def dataHisDecl : Decl where
  inputs := []
  outputs := []
  names := []
  units := []

/-- diversions_fraction_method.py:110, diversions_fraction_method.py:113-129, diversions_fraction_method.py:131-149, diversions_fraction_method.py:151-169. -/
def diversionsFractionMethodDecl : Decl where
  inputs := []
  outputs := [.«canals__count», .«canals_entrance_water__volume_fraction»,
    .«canals_entrance__x_coordinate», .«canals_entrance__y_coordinate»,
    .«canals_exit_water__volume_flow_rate», .«canals_exit__x_coordinate»,
    .«canals_exit__y_coordinate», .«model__time_step», .«sinks_water__volume_flow_rate»,
    .«sinks__count», .«sinks__x_coordinate», .«sinks__y_coordinate»,
    .«sources_water__volume_flow_rate», .«sources__count», .«sources__x_coordinate»,
    .«sources__y_coordinate»]
  names := [(.«canals_entrance_water__volume_flow_rate», .«Q_canals_in»),
    (.«canals__count», .«n_canals»), (.«canals_entrance__x_coordinate», .«canals_in_x»),
    (.«canals_entrance__y_coordinate», .«canals_in_y»),
    (.«canals_entrance_water__volume_fraction», .«Q_canals_fraction»),
    (.«canals_exit__x_coordinate», .«canals_out_x»),
    (.«canals_exit__y_coordinate», .«canals_out_y»),
    (.«canals_exit_water__volume_flow_rate», .«Q_canals_out»), (.«model__time_step», .«dt»),
    (.«sinks__count», .«n_sinks»), (.«sinks__x_coordinate», .«sinks_x»),
    (.«sinks__y_coordinate», .«sinks_y»), (.«sinks_water__volume_flow_rate», .«Q_sinks»),
    (.«sources__count», .«n_sources»), (.«sources__x_coordinate», .«sources_x»),
    (.«sources__y_coordinate», .«sources_y»),
    (.«sources_water__volume_flow_rate», .«Q_sources»)]
  units := [(.«canals_entrance_water__volume_flow_rate», .«m3 s-1»), (.«canals__count», .«1»),
    (.«canals_entrance__x_coordinate», .«m»), (.«canals_entrance__y_coordinate», .«m»),
    (.«canals_entrance_water__volume_fraction», .«1»), (.«canals_exit__x_coordinate», .«m»),
    (.«canals_exit__y_coordinate», .«m»),
    (.«canals_exit_water__volume_flow_rate», .«m3 s-1»), (.«model__time_step», .«s»),
    (.«sinks__count», .«1»), (.«sinks__x_coordinate», .«m»), (.«sinks__y_coordinate», .«m»),
    (.«sinks_water__volume_flow_rate», .«m3 s-1»), (.«sources__count», .«1»),
    (.«sources__x_coordinate», .«m»), (.«sources__y_coordinate», .«m»),
    (.«sources_water__volume_flow_rate», .«m3 s-1»)]

/-- evap_energy_balance.py:86-91, evap_energy_balance.py:116-120, evap_energy_balance.py:138-156, evap_energy_balance.py:169-187. -/
def evapEnergyBalanceDecl : Decl where
  inputs := [.«atmosphere_bottom_air__temperature»,
    .«atmosphere_bottom_air_land_net-latent-heat__energy_flux»,
    .«land_surface_net-total-energy__energy_flux», .«land_surface__temperature»,
    .«snowpack__depth»]
  outputs := [.«land_surface_soil__conduction_heat_flux»,
    .«land_surface_water__evaporation_volume_flux»,
    .«land_surface_water__domain_time_integral_of_evaporation_volume_flux»,
    .«model__time_step»]
  names := [(.«atmosphere_bottom_air__temperature», .«T_air»),
    (.«atmosphere_bottom_air_land_net-latent-heat__energy_flux», .«Qe»),
    (.«land_surface_net-total-energy__energy_flux», .«Q_sum»),
    (.«land_surface__temperature», .«T_surf»), (.«snowpack__depth», .«h_snow»),
    (.«land_surface_soil__conduction_heat_flux», .«Qc»),
    (.«land_surface_water__domain_time_integral_of_evaporation_volume_flux», .«vol_ET»),
    (.«land_surface_water__evaporation_volume_flux», .«ET»), (.«model__time_step», .«dt»),
    (.«land_surface__elevation», .«DEM»),
    (.«soil__reference_depth_temperature», .«T_soil_x»),
    (.«soil__temperature_reference_depth», .«soil_x»),
    (.«soil__thermal_conductivity», .«K_soil»)]
  units := [(.«atmosphere_bottom_air__temperature», .«deg_C»),
    (.«atmosphere_bottom_air_land_net-latent-heat__energy_flux», .«W m-2»),
    (.«land_surface_net-total-energy__energy_flux», .«W m-2»),
    (.«land_surface__temperature», .«deg_C»), (.«snowpack__depth», .«m»),
    (.«land_surface_soil__conduction_heat_flux», .«W m-2»),
    (.«land_surface_water__domain_time_integral_of_evaporation_volume_flux», .«m3»),
    (.«land_surface_water__evaporation_volume_flux», .«m s-1»), (.«model__time_step», .«s»),
    (.«land_surface__elevation», .«m»), (.«soil__reference_depth_temperature», .«deg_C»),
    (.«soil__temperature_reference_depth», .«m»),
    (.«soil__thermal_conductivity», .«W m-1 K-1]»)]

/-- evap_priestley_taylor.py:97-102, evap_priestley_taylor.py:128-132, evap_priestley_taylor.py:151-170, evap_priestley_taylor.py:182-201. -/
def evapPriestleyTaylorDecl : Decl where
  inputs := [.«atmosphere_bottom_air__temperature», .«channel_water__volume»,
    .«land_surface_net-longwave-radiation__energy_flux»,
    .«land_surface_net-shortwave-radiation__energy_flux», .«land_surface__temperature»]
  outputs := [.«land_surface_soil__conduction_heat_flux»,
    .«land_surface_water__domain_time_integral_of_evaporation_volume_flux»,
    .«land_surface_water__evaporation_volume_flux», .«model__time_step»]
  names := [(.«atmosphere_bottom_air__temperature», .«T_air»), (.«channel_water__volume», .«vol»),
    (.«land_surface__temperature», .«T_surf»),
    (.«land_surface_net-longwave-radiation__energy_flux», .«Qn_LW»),
    (.«land_surface_net-shortwave-radiation__energy_flux», .«Qn_SW»),
    (.«land_surface_soil__conduction_heat_flux», .«Qc»),
    (.«land_surface_water__domain_time_integral_of_evaporation_volume_flux», .«vol_ET»),
    (.«land_surface_water__evaporation_volume_flux», .«ET»), (.«model__time_step», .«dt»),
    (.«land_surface__elevation», .«DEM»),
    (.«land_surface_water__priestley-taylor_alpha_coefficient», .«alpha»),
    (.«soil__reference_depth_temperature», .«T_soil_x»),
    (.«soil__temperature_reference_depth», .«soil_x»),
    (.«soil__thermal_conductivity», .«K_soil»)]
  units := [(.«atmosphere_bottom_air__temperature», .«deg_C»), (.«channel_water__volume», .«m3»),
    (.«land_surface__temperature», .«deg_C»),
    (.«land_surface_net-longwave-radiation__energy_flux», .«W m-2»),
    (.«land_surface_net-shortwave-radiation__energy_flux», .«W m-2»),
    (.«land_surface_soil__conduction_heat_flux», .«W m-2»),
    (.«land_surface_water__evaporation_volume_flux», .«m s-1»),
    (.«land_surface_water__domain_time_integral_of_evaporation_volume_flux», .«m3»),
    (.«model__time_step», .«s»), (.«land_surface__elevation», .«m»),
    (.«land_surface_water__priestley-taylor_alpha_coefficient», .«1»),
    (.«soil__reference_depth_temperature», .«deg_C»),
    (.«soil__temperature_reference_depth», .«m»),
    (.«soil__thermal_conductivity», .«W m-1 K-1]»)]

/-- evap_read_file.py:69-70, evap_read_file.py:72-76, evap_read_file.py:78-83, evap_read_file.py:85-90. -/
def evapReadFileDecl : Decl where
  inputs := [.«channel_water_x-section__mean_depth»]
  outputs := [.«land_surface_water__evaporation_volume_flux»,
    .«land_surface_water__domain_time_integral_of_evaporation_volume_flux»,
    .«model_grid_cell__area», .«model__time_step»]
  names := [(.«channel_water_x-section__mean_depth», .«d»),
    (.«land_surface_water__evaporation_volume_flux», .«ET»),
    (.«land_surface_water__domain_time_integral_of_evaporation_volume_flux», .«vol_ET»),
    (.«model_grid_cell__area», .«da»), (.«model__time_step», .«dt»)]
  units := [(.«channel_water_x-section__mean_depth», .«m»),
    (.«land_surface_water__evaporation_volume_flux», .«m s-1»),
    (.«land_surface_water__domain_time_integral_of_evaporation_volume_flux», .«m3»),
    (.«model_grid_cell__area», .«m2»), (.«model__time_step», .«s»)]

/-- ice_base.py:101, ice_base.py:121-129, ice_base.py:131-142, ice_base.py:144-155. -/
def iceGc2dDecl : Decl where
  inputs := []
  outputs := [.«glacier_ice__domain_time_integral_of_melt_volume_flux»,
    .«glacier_ice__melt_volume_flux», .«glacier_top_surface__elevation»,
    .«glacier_ice__thickness», .«model_grid_cell__x_length», .«model_grid_cell__y_length»,
    .«model__time_step»]
  names := [(.«land_surface__elevation», .«Zb»),
    (.«glacier_ice__domain_time_integral_of_melt_volume_flux», .«vol_MR»),
    (.«glacier_ice__melt_volume_flux», .«mr_ice»),
    (.«glacier_top_surface__elevation», .«z_ice»), (.«glacier_ice__thickness», .«h_ice»),
    (.«model_grid_cell__x_length», .«dx»), (.«model_grid_cell__y_length», .«dy»),
    (.«model__time_step», .«dt»)]
  units := [(.«land_surface__elevation», .«m»),
    (.«glacier_ice__domain_time_integral_of_melt_volume_flux», .«m3»),
    (.«glacier_ice__melt_volume_flux», .«m s-1»), (.«glacier_top_surface__elevation», .«m»),
    (.«glacier_ice__thickness», .«m»), (.«model_grid_cell__x_length», .«m»),
    (.«model_grid_cell__y_length», .«m»), (.«model__time_step», .«yr»)]

/-- glacier_energy_balance.py:86-94, glacier_energy_balance.py:121-145, glacier_energy_balance.py:147-191, glacier_energy_balance.py:197-241. -/
def glacierEnergyBalanceDecl : Decl where
  inputs := [.«atmosphere_bottom_air__mass-per-volume_density»,
    .«atmosphere_bottom_air__mass-specific_isobaric_heat_capacity»,
    .«atmosphere_bottom_air__temperature»,
    .«atmosphere_bottom_air_water-vapor__relative_saturation»,
    .«atmosphere_water__snowfall_leq-volume_flux», .«land_surface__temperature»,
    .«land_surface_net-total-energy__energy_flux», .«water-liquid__mass-per-volume_density»]
  outputs := [.«model__time_step», .«snowpack__domain_time_integral_of_melt_volume_flux»,
    .«snowpack__initial_domain_integral_of_liquid-equivalent_depth»,
    .«snowpack__domain_integral_of_liquid-equivalent_depth»,
    .«snowpack__energy-per-area_cold_content», .«snowpack__depth»,
    .«snowpack__initial_depth», .«snowpack__initial_liquid-equivalent_depth»,
    .«snowpack__liquid-equivalent_depth», .«snowpack__melt_volume_flux»,
    .«snowpack__z_mean_of_mass-per-volume_density»,
    .«snowpack__z_mean_of_mass-specific_isobaric_heat_capacity»,
    .«glacier_ice__domain_time_integral_of_melt_volume_flux»,
    .«glacier__initial_domain_integral_of_liquid-equivalent_depth»,
    .«glacier__domain_integral_of_liquid-equivalent_depth»,
    .«glacier__energy-per-area_cold_content», .«glacier_ice__thickness»,
    .«glacier_ice__initial_thickness», .«glacier__initial_liquid_equivalent_depth»,
    .«glacier_ice__melt_volume_flux», .«glacier_ice__mass-per-volume_density»,
    .«glacier_ice__mass-specific_isobaric_heat_capacity», .«cryosphere__melt_volume_flux»,
    .«cryosphere__domain_time_integral_of_melt_volume_flux»]
  names := [(.«atmosphere_bottom_air__mass-per-volume_density», .«rho_air»),
    (.«atmosphere_bottom_air__mass-specific_isobaric_heat_capacity», .«Cp_air»),
    (.«atmosphere_bottom_air__temperature», .«T_air»),
    (.«atmosphere_bottom_air_water-vapor__relative_saturation», .«RH»),
    (.«atmosphere_water__snowfall_leq-volume_flux», .«P_snow»),
    (.«land_surface_net-total-energy__energy_flux», .«Q_sum»),
    (.«land_surface__temperature», .«T_surf»),
    (.«water-liquid__mass-per-volume_density», .«rho_H2O»), (.«model__time_step», .«dt»),
    (.«snowpack__domain_time_integral_of_melt_volume_flux», .«vol_SM»),
    (.«snowpack__initial_domain_integral_of_liquid-equivalent_depth», .«vol_swe_start»),
    (.«snowpack__domain_integral_of_liquid-equivalent_depth», .«vol_swe»),
    (.«snowpack__depth», .«h_snow»), (.«snowpack__energy-per-area_cold_content», .«Eccs»),
    (.«snowpack__initial_depth», .«h0_snow»),
    (.«snowpack__initial_liquid-equivalent_depth», .«h0_swe»),
    (.«snowpack__liquid-equivalent_depth», .«h_swe»), (.«snowpack__melt_volume_flux», .«SM»),
    (.«snowpack__z_mean_of_mass-per-volume_density», .«rho_snow»),
    (.«snowpack__z_mean_of_mass-specific_isobaric_heat_capacity», .«Cp_snow»),
    (.«glacier_ice__domain_time_integral_of_melt_volume_flux», .«vol_IM»),
    (.«glacier__initial_domain_integral_of_liquid-equivalent_depth», .«vol_iwe_start»),
    (.«glacier__domain_integral_of_liquid-equivalent_depth», .«vol_iwe»),
    (.«glacier__energy-per-area_cold_content», .«Ecci»),
    (.«glacier_ice__thickness», .«h_ice»), (.«glacier_ice__initial_thickness», .«h0_ice»),
    (.«glacier__initial_liquid_equivalent_depth», .«h0_iwe»),
    (.«glacier_ice__melt_volume_flux», .«IM»),
    (.«glacier_ice__mass-per-volume_density», .«rho_ice»),
    (.«glacier_ice__mass-specific_isobaric_heat_capacity», .«Cp_ice»),
    (.«cryosphere__melt_volume_flux», .«M_total»),
    (.«cryosphere__domain_time_integral_of_melt_volume_flux», .«vol_M_total»)]
  units := [(.«atmosphere_bottom_air__mass-per-volume_density», .«kg m-3»),
    (.«atmosphere_bottom_air__mass-specific_isobaric_heat_capacity», .«J kg-1 K-1»),
    (.«atmosphere_bottom_air__temperature», .«deg_C»),
    (.«atmosphere_bottom_air_water-vapor__relative_saturation», .«1»),
    (.«atmosphere_water__snowfall_leq-volume_flux», .«m s-1»),
    (.«land_surface_net-total-energy__energy_flux», .«W m-2»),
    (.«land_surface__temperature», .«deg_C»),
    (.«water-liquid__mass-per-volume_density», .«kg m-3»), (.«model__time_step», .«s»),
    (.«snowpack__domain_time_integral_of_melt_volume_flux», .«m3»),
    (.«snowpack__initial_domain_integral_of_liquid-equivalent_depth», .«m3»),
    (.«snowpack__domain_integral_of_liquid-equivalent_depth», .«m3»),
    (.«snowpack__depth», .«m»), (.«snowpack__energy-per-area_cold_content», .«J m-2»),
    (.«snowpack__initial_depth», .«m»), (.«snowpack__initial_liquid-equivalent_depth», .«m»),
    (.«snowpack__liquid-equivalent_depth», .«m»), (.«snowpack__melt_volume_flux», .«m s-1»),
    (.«snowpack__z_mean_of_mass-per-volume_density», .«kg m-3»),
    (.«snowpack__z_mean_of_mass-specific_isobaric_heat_capacity», .«J kg-1 K-1»),
    (.«glacier_ice__domain_time_integral_of_melt_volume_flux», .«m3»),
    (.«glacier__initial_domain_integral_of_liquid-equivalent_depth», .«m3»),
    (.«glacier__domain_integral_of_liquid-equivalent_depth», .«m3»),
    (.«glacier__energy-per-area_cold_content», .«J m-2»), (.«glacier_ice__thickness», .«m»),
    (.«glacier_ice__initial_thickness», .«m»),
    (.«glacier__initial_liquid_equivalent_depth», .«m»),
    (.«glacier_ice__melt_volume_flux», .«m s-1»),
    (.«glacier_ice__mass-per-volume_density», .«kg m-3»),
    (.«glacier_ice__mass-specific_isobaric_heat_capacity», .«J kg-1 K-1»),
    (.«cryosphere__melt_volume_flux», .«m s-1»)]

/-- infil_green_ampt.py:85-91, infil_green_ampt.py:99-115, infil_green_ampt.py:117-140, infil_green_ampt.py:142-165. -/
def infilGreenAmptDecl : Decl where
  inputs := [.«atmosphere_water__rainfall_volume_flux», .«glacier_ice__melt_volume_flux»,
    .«land_surface__elevation», .«land_surface_water__evaporation_volume_flux»,
    .«snowpack__melt_volume_flux», .«soil_water_sat-zone_top_surface__elevation»]
  outputs := [.«model__time_step»,
    .«soil_surface_water__domain_time_integral_of_infiltration_volume_flux»,
    .«soil_surface_water__infiltration_volume_flux»,
    .«soil_surface_water__time_integral_of_infiltration_volume_flux»,
    .«soil_water__green-ampt_capillary_length»,
    .«soil_water__potential_infiltration_volume_flux»,
    .«soil_water__initial_hydraulic_conductivity», .«soil_water__initial_volume_fraction»,
    .«soil_water__saturated_hydraulic_conductivity»,
    .«soil_water__saturated_volume_fraction»,
    .«soil_water__initial_domain_integral_of_volume_fraction»,
    .«soil_water__domain_integral_of_volume_fraction»,
    .«soil_water_flow__z_component_of_darcy_velocity»,
    .«soil_water_sat-zone_top__domain_time_integral_of_recharge_volume_flux»,
    .«soil_water_sat-zone_top__recharge_volume_flux»]
  names := [(.«atmosphere_water__rainfall_volume_flux», .«P_rain»),
    (.«glacier_ice__melt_volume_flux», .«MR»), (.«land_surface__elevation», .«elev»),
    (.«land_surface_water__evaporation_volume_flux», .«ET»),
    (.«snowpack__melt_volume_flux», .«SM»),
    (.«soil_water_sat-zone_top_surface__elevation», .«h_table»),
    (.«model__time_step», .«dt»),
    (.«soil_surface_water__domain_time_integral_of_infiltration_volume_flux», .«vol_IN»),
    (.«soil_surface_water__infiltration_volume_flux», .«IN»),
    (.«soil_surface_water__time_integral_of_infiltration_volume_flux», .«I»),
    (.«soil_water__initial_domain_integral_of_volume_fraction», .«vol_soil_start»),
    (.«soil_water__domain_integral_of_volume_fraction», .«vol_soil»),
    (.«soil_water__green-ampt_capillary_length», .«G»),
    (.«soil_water__initial_hydraulic_conductivity», .«Ki»),
    (.«soil_water__initial_volume_fraction», .«qi»),
    (.«soil_water__potential_infiltration_volume_flux», .«fc»),
    (.«soil_water__saturated_hydraulic_conductivity», .«Ks»),
    (.«soil_water__saturated_volume_fraction», .«qs»),
    (.«soil_water_flow__z_component_of_darcy_velocity», .«v»),
    (.«soil_water_sat-zone_top__domain_time_integral_of_recharge_volume_flux», .«vol_Rg»),
    (.«soil_water_sat-zone_top__recharge_volume_flux», .«Rg»)]
  units := [(.«atmosphere_water__rainfall_volume_flux», .«m s-1»),
    (.«glacier_ice__melt_volume_flux», .«m s-1»), (.«land_surface__elevation», .«m»),
    (.«land_surface_water__evaporation_volume_flux», .«m s-1»),
    (.«snowpack__melt_volume_flux», .«m s-1»),
    (.«soil_water_sat-zone_top_surface__elevation», .«m»), (.«model__time_step», .«s»),
    (.«soil_surface_water__domain_time_integral_of_infiltration_volume_flux», .«m3»),
    (.«soil_surface_water__infiltration_volume_flux», .«m s-1»),
    (.«soil_surface_water__time_integral_of_infiltration_volume_flux», .«m»),
    (.«soil_water__initial_domain_integral_of_volume_fraction», .«m3»),
    (.«soil_water__domain_integral_of_volume_fraction», .«m3»),
    (.«soil_water__green-ampt_capillary_length», .«m»),
    (.«soil_water__initial_hydraulic_conductivity», .«m s-1»),
    (.«soil_water__initial_volume_fraction», .«1»),
    (.«soil_water__potential_infiltration_volume_flux», .«m s-1»),
    (.«soil_water__saturated_hydraulic_conductivity», .«m s-1»),
    (.«soil_water__saturated_volume_fraction», .«1»),
    (.«soil_water_flow__z_component_of_darcy_velocity», .«m s-1»),
    (.«soil_water_sat-zone_top__domain_time_integral_of_recharge_volume_flux», .«m3»),
    (.«soil_water_sat-zone_top__recharge_volume_flux», .«m s-1»)]

/-- infil_smith_parlange.py:83-89, infil_smith_parlange.py:93-110, infil_smith_parlange.py:112-136, infil_smith_parlange.py:138-162. -/
def infilSmithParlangeDecl : Decl where
  inputs := [.«atmosphere_water__rainfall_volume_flux», .«glacier_ice__melt_volume_flux»,
    .«land_surface__elevation», .«land_surface_water__evaporation_volume_flux»,
    .«snowpack__melt_volume_flux», .«soil_water_sat-zone_top_surface__elevation»]
  outputs := [.«model__time_step»,
    .«soil_surface_water__domain_time_integral_of_infiltration_volume_flux»,
    .«soil_surface_water__infiltration_volume_flux»,
    .«soil_surface_water__time_integral_of_infiltration_volume_flux»,
    .«soil_water__initial_domain_integral_of_volume_fraction»,
    .«soil_water__domain_integral_of_volume_fraction»,
    .«soil_water__green-ampt_capillary_length»,
    .«soil_water__potential_infiltration_volume_flux»,
    .«soil_water__initial_hydraulic_conductivity», .«soil_water__initial_volume_fraction»,
    .«soil_water__saturated_hydraulic_conductivity»,
    .«soil_water__saturated_volume_fraction», .«soil_water__smith-parlange_gamma_parameter»,
    .«soil_water_flow__z_component_of_darcy_velocity»,
    .«soil_water_sat-zone_top__domain_time_integral_of_recharge_volume_flux»,
    .«soil_water_sat-zone_top__recharge_volume_flux»]
  names := [(.«atmosphere_water__rainfall_volume_flux», .«P_rain»),
    (.«glacier_ice__melt_volume_flux», .«MR»), (.«land_surface__elevation», .«elev»),
    (.«land_surface_water__evaporation_volume_flux», .«ET»),
    (.«snowpack__melt_volume_flux», .«SM»),
    (.«soil_water_sat-zone_top_surface__elevation», .«h_table»),
    (.«model__time_step», .«dt»),
    (.«soil_surface_water__domain_time_integral_of_infiltration_volume_flux», .«vol_IN»),
    (.«soil_surface_water__infiltration_volume_flux», .«IN»),
    (.«soil_surface_water__time_integral_of_infiltration_volume_flux», .«I»),
    (.«soil_water__initial_domain_integral_of_volume_fraction», .«vol_soil_start»),
    (.«soil_water__domain_integral_of_volume_fraction», .«vol_soil»),
    (.«soil_water__green-ampt_capillary_length», .«G»),
    (.«soil_water__initial_hydraulic_conductivity», .«Ki»),
    (.«soil_water__initial_volume_fraction», .«qi»),
    (.«soil_water__potential_infiltration_volume_flux», .«fc»),
    (.«soil_water__saturated_hydraulic_conductivity», .«Ks»),
    (.«soil_water__saturated_volume_fraction», .«qs»),
    (.«soil_water__smith-parlange_gamma_parameter», .«gam»),
    (.«soil_water_flow__z_component_of_darcy_velocity», .«v»),
    (.«soil_water_sat-zone_top__domain_time_integral_of_recharge_volume_flux», .«vol_Rg»),
    (.«soil_water_sat-zone_top__recharge_volume_flux», .«Rg»)]
  units := [(.«atmosphere_water__rainfall_volume_flux», .«m s-1»),
    (.«glacier_ice__melt_volume_flux», .«m s-1»), (.«land_surface__elevation», .«m»),
    (.«land_surface_water__evaporation_volume_flux», .«m s-1»),
    (.«snowpack__melt_volume_flux», .«m s-1»),
    (.«soil_water_sat-zone_top_surface__elevation», .«m»), (.«model__time_step», .«s»),
    (.«soil_surface_water__time_integral_of_infiltration_volume_flux», .«m»),
    (.«soil_surface_water__infiltration_volume_flux», .«m s-1»),
    (.«soil_surface_water__domain_time_integral_of_infiltration_volume_flux», .«m3»),
    (.«soil_water__initial_domain_integral_of_volume_fraction», .«m3»),
    (.«soil_water__domain_integral_of_volume_fraction», .«m3»),
    (.«soil_water__green-ampt_capillary_length», .«m»),
    (.«soil_water__initial_hydraulic_conductivity», .«m s-1»),
    (.«soil_water__initial_volume_fraction», .«1»),
    (.«soil_water__potential_infiltration_volume_flux», .«m s-1»),
    (.«soil_water__saturated_hydraulic_conductivity», .«m s-1»),
    (.«soil_water__saturated_volume_fraction», .«1»),
    (.«soil_water__smith-parlange_gamma_parameter», .«1»),
    (.«soil_water_flow__z_component_of_darcy_velocity», .«m s-1»),
    (.«soil_water_sat-zone_top__domain_time_integral_of_recharge_volume_flux», .«m3»),
    (.«soil_water_sat-zone_top__recharge_volume_flux», .«m s-1»)]

/-- infil_beven.py:84-90, infil_beven.py:103-119, infil_beven.py:122-145, infil_beven.py:147-170. -/
def infilBevenDecl : Decl where
  inputs := [.«atmosphere_water__rainfall_volume_flux», .«glacier_ice__melt_volume_flux»,
    .«land_surface__elevation», .«land_surface_water__evaporation_volume_flux»,
    .«snowpack__melt_volume_flux», .«soil_water_sat-zone_top_surface__elevation»]
  outputs := [.«model__time_step»,
    .«soil_surface_water__domain_time_integral_of_infiltration_volume_flux»,
    .«soil_surface_water__infiltration_volume_flux»,
    .«soil_surface_water__time_integral_of_infiltration_volume_flux»,
    .«soil_water__initial_domain_integral_of_volume_fraction»,
    .«soil_water__domain_integral_of_volume_fraction»,
    .«soil_water__green-ampt_capillary_length»,
    .«soil_water__potential_infiltration_volume_flux»,
    .«soil_water__initial_hydraulic_conductivity», .«soil_water__initial_volume_fraction»,
    .«soil_water__saturated_hydraulic_conductivity»,
    .«soil_water__saturated_volume_fraction»,
    .«soil_water_flow__z_component_of_darcy_velocity»,
    .«soil_water_sat-zone_top__domain_time_integral_of_recharge_volume_flux»,
    .«soil_water_sat-zone_top__recharge_volume_flux»]
  names := [(.«atmosphere_water__rainfall_volume_flux», .«P_rain»),
    (.«glacier_ice__melt_volume_flux», .«MR»), (.«land_surface__elevation», .«elev»),
    (.«land_surface_water__evaporation_volume_flux», .«ET»),
    (.«snowpack__melt_volume_flux», .«SM»),
    (.«soil_water_sat-zone_top_surface__elevation», .«h_table»),
    (.«model__time_step», .«dt»),
    (.«soil_surface_water__domain_time_integral_of_infiltration_volume_flux», .«vol_IN»),
    (.«soil_surface_water__infiltration_volume_flux», .«IN»),
    (.«soil_surface_water__time_integral_of_infiltration_volume_flux», .«I»),
    (.«soil_water__initial_domain_integral_of_volume_fraction», .«vol_soil_start»),
    (.«soil_water__domain_integral_of_volume_fraction», .«vol_soil»),
    (.«soil_water__green-ampt_capillary_length», .«G»),
    (.«soil_water__initial_hydraulic_conductivity», .«Ki»),
    (.«soil_water__initial_volume_fraction», .«qi»),
    (.«soil_water__potential_infiltration_volume_flux», .«fc»),
    (.«soil_water__saturated_hydraulic_conductivity», .«Ks»),
    (.«soil_water__saturated_volume_fraction», .«qs»),
    (.«soil_water_flow__z_component_of_darcy_velocity», .«v»),
    (.«soil_water_sat-zone_top__domain_time_integral_of_recharge_volume_flux», .«vol_Rg»),
    (.«soil_water_sat-zone_top__recharge_volume_flux», .«Rg»)]
  units := [(.«atmosphere_water__rainfall_volume_flux», .«m s-1»),
    (.«glacier_ice__melt_volume_flux», .«m s-1»), (.«land_surface__elevation», .«m»),
    (.«land_surface_water__evaporation_volume_flux», .«m s-1»),
    (.«snowpack__melt_volume_flux», .«m s-1»),
    (.«soil_water_sat-zone_top_surface__elevation», .«m»), (.«model__time_step», .«s»),
    (.«soil_surface_water__domain_time_integral_of_infiltration_volume_flux», .«m3»),
    (.«soil_surface_water__infiltration_volume_flux», .«m s-1»),
    (.«soil_surface_water__time_integral_of_infiltration_volume_flux», .«m»),
    (.«soil_water__initial_domain_integral_of_volume_fraction», .«m3»),
    (.«soil_water__domain_integral_of_volume_fraction», .«m3»),
    (.«soil_water__green-ampt_capillary_length», .«m»),
    (.«soil_water__initial_hydraulic_conductivity», .«m s-1»),
    (.«soil_water__initial_volume_fraction», .«1»),
    (.«soil_water__potential_infiltration_volume_flux», .«m s-1»),
    (.«soil_water__saturated_hydraulic_conductivity», .«m s-1»),
    (.«soil_water__saturated_volume_fraction», .«1»),
    (.«soil_water_flow__z_component_of_darcy_velocity», .«m s-1»),
    (.«soil_water_sat-zone_top__domain_time_integral_of_recharge_volume_flux», .«m3»),
    (.«soil_water_sat-zone_top__recharge_volume_flux», .«m s-1»)]

/-- infil_richards_1D.py:196-202, infil_richards_1D.py:218-249, infil_richards_1D.py:251-289, infil_richards_1D.py:291-329. -/
def infilRichards1dDecl : Decl where
  inputs := [.«atmosphere_water__rainfall_volume_flux», .«glacier_ice__melt_volume_flux»,
    .«land_surface__elevation», .«land_surface_water__evaporation_volume_flux»,
    .«snowpack__melt_volume_flux», .«soil_water_sat-zone_top_surface__elevation»]
  outputs := [.«model__time_step»,
    .«soil_surface_water__domain_time_integral_of_infiltration_volume_flux»,
    .«soil_surface_water__infiltration_volume_flux», .«soil_surface_water__volume_fraction»,
    .«soil_water__brooks-corey_eta_parameter», .«soil_water__brooks-corey_lambda_parameter»,
    .«soil_water__brooks-corey-smith_c_parameter»,
    .«soil_water__brooks-corey-smith_pressure_head_offset_parameter»,
    .«soil_water__bubbling_pressure_head»,
    .«soil_water__initial_domain_integral_of_volume_fraction»,
    .«soil_water__domain_integral_of_volume_fraction», .«soil_water__hydraulic_conductivity»,
    .«soil_water__hygroscopic_volume_fraction»,
    .«soil_water__initial_hydraulic_conductivity», .«soil_water__initial_volume_fraction»,
    .«soil_water__pressure_head», .«soil_water__residual_volume_fraction»,
    .«soil_water__saturated_hydraulic_conductivity»,
    .«soil_water__saturated_volume_fraction», .«soil_water__volume_fraction»,
    .«soil_water_flow__z_component_of_darcy_velocity»,
    .«soil_water_sat-zone_top__domain_time_integral_of_recharge_volume_flux»,
    .«soil_water_sat-zone_top__recharge_volume_flux», .«soil_water_wetting-front__depth»]
  names := [(.«atmosphere_water__rainfall_volume_flux», .«P_rain»),
    (.«glacier_ice__melt_volume_flux», .«MR»), (.«land_surface__elevation», .«elev»),
    (.«land_surface_water__evaporation_volume_flux», .«ET»),
    (.«snowpack__melt_volume_flux», .«SM»),
    (.«soil_water_sat-zone_top_surface__elevation», .«h_table»),
    (.«model__time_step», .«dt»),
    (.«soil_surface_water__domain_time_integral_of_infiltration_volume_flux», .«vol_IN»),
    (.«soil_surface_water__infiltration_volume_flux», .«IN»),
    (.«soil_surface_water__volume_fraction», .«q0»),
    (.«soil_water__brooks-corey_eta_parameter», .«eta»),
    (.«soil_water__brooks-corey_lambda_parameter», .«lam»),
    (.«soil_water__brooks-corey-smith_c_parameter», .«c»),
    (.«soil_water__brooks-corey-smith_pressure_head_offset_parameter», .«pA»),
    (.«soil_water__bubbling_pressure_head», .«pB»),
    (.«soil_water__initial_domain_integral_of_volume_fraction», .«vol_soil_start»),
    (.«soil_water__domain_integral_of_volume_fraction», .«vol_soil»),
    (.«soil_water__hydraulic_conductivity», .«K»),
    (.«soil_water__hygroscopic_volume_fraction», .«qH»),
    (.«soil_water__initial_hydraulic_conductivity», .«Ki»),
    (.«soil_water__initial_volume_fraction», .«qi»), (.«soil_water__pressure_head», .«p»),
    (.«soil_water__residual_volume_fraction», .«qr»),
    (.«soil_water__saturated_hydraulic_conductivity», .«Ks»),
    (.«soil_water__saturated_volume_fraction», .«qs»),
    (.«soil_water__volume_fraction», .«q»),
    (.«soil_water_flow__z_component_of_darcy_velocity», .«v»),
    (.«soil_water_sat-zone_top__domain_time_integral_of_recharge_volume_flux», .«vol_Rg»),
    (.«soil_water_sat-zone_top__recharge_volume_flux», .«Rg»),
    (.«soil_water_wetting-front__depth», .«Zw»)]
  units := [(.«atmosphere_water__rainfall_volume_flux», .«m s-1»),
    (.«glacier_ice__melt_volume_flux», .«m s-1»), (.«land_surface__elevation», .«m»),
    (.«land_surface_water__evaporation_volume_flux», .«m s-1»),
    (.«snowpack__melt_volume_flux», .«m s-1»),
    (.«soil_water_sat-zone_top_surface__elevation», .«m»), (.«model__time_step», .«s»),
    (.«soil_surface_water__domain_time_integral_of_infiltration_volume_flux», .«m3»),
    (.«soil_surface_water__infiltration_volume_flux», .«m s-1»),
    (.«soil_surface_water__volume_fraction», .«1»),
    (.«soil_water__brooks-corey_eta_parameter», .«1»),
    (.«soil_water__brooks-corey_lambda_parameter», .«1»),
    (.«soil_water__brooks-corey-smith_c_parameter», .«1»),
    (.«soil_water__brooks-corey-smith_pressure_head_offset_parameter», .«m»),
    (.«soil_water__bubbling_pressure_head», .«m»),
    (.«soil_water__initial_domain_integral_of_volume_fraction», .«m3»),
    (.«soil_water__domain_integral_of_volume_fraction», .«m3»),
    (.«soil_water__hydraulic_conductivity», .«m s-1»),
    (.«soil_water__initial_hydraulic_conductivity», .«m s-1»),
    (.«soil_water__initial_volume_fraction», .«1»), (.«soil_water__pressure_head», .«m»),
    (.«soil_water__hygroscopic_volume_fraction», .«1»),
    (.«soil_water__residual_volume_fraction», .«1»),
    (.«soil_water__saturated_hydraulic_conductivity», .«m s-1»),
    (.«soil_water__saturated_volume_fraction», .«1»), (.«soil_water__volume_fraction», .«1»),
    (.«soil_water_flow__z_component_of_darcy_velocity», .«m s-1»),
    (.«soil_water_sat-zone_top__domain_time_integral_of_recharge_volume_flux», .«m3»),
    (.«soil_water_sat-zone_top__recharge_volume_flux», .«m s-1»),
    (.«soil_water_wetting-front__depth», .«m»)]

/-- met_base.py:169-171, met_base.py:210-261, met_base.py:371-428, met_base.py:452-509. -/
def meteorologyDecl : Decl where
  inputs := [.«snowpack__depth», .«glacier_ice__thickness»,
    .«snowpack__z_mean_of_mass-per-volume_density»]
  outputs := [.«atmosphere_aerosol_dust__reduction_of_transmittance»,
    .«atmosphere_air-column_water-vapor__liquid-equivalent_depth»,
    .«atmosphere_bottom_air__brutsaert_emissivity_canopy_factor»,
    .«atmosphere_bottom_air__brutsaert_emissivity_cloud_factor»,
    .«atmosphere_bottom_air__bulk_latent_heat_aerodynamic_conductance»,
    .«atmosphere_bottom_air__bulk_sensible_heat_aerodynamic_conductance»,
    .«atmosphere_bottom_air__emissivity», .«atmosphere_bottom_air__mass-per-volume_density»,
    .«atmosphere_bottom_air__mass-specific_isobaric_heat_capacity»,
    .«atmosphere_bottom_air__neutral_bulk_aerodynamic_conductance»,
    .«atmosphere_bottom_air__pressure», .«atmosphere_bottom_air__temperature»,
    .«atmosphere_bottom_air_flow__bulk_richardson_number»,
    .«atmosphere_bottom_air_flow__log_law_roughness_length»,
    .«atmosphere_bottom_air_flow__reference-height_speed»,
    .«atmosphere_bottom_air_flow__speed_reference_height»,
    .«atmosphere_bottom_air_land_net-latent-heat__energy_flux»,
    .«atmosphere_bottom_air_land_net-sensible-heat__energy_flux»,
    .«atmosphere_bottom_air_water-vapor__dew_point_temperature»,
    .«atmosphere_bottom_air_water-vapor__partial_pressure»,
    .«atmosphere_bottom_air_water-vapor__relative_saturation»,
    .«atmosphere_bottom_air_water-vapor__saturated_partial_pressure»,
    .«atmosphere_water__domain_time_integral_of_precipitation_leq-volume_flux»,
    .«atmosphere_water__domain_time_integral_of_rainfall_volume_flux»,
    .«atmosphere_water__domain_time_integral_of_snowfall_leq-volume_flux»,
    .«atmosphere_water__domain_time_max_of_precipitation_leq-volume_flux»,
    .«atmosphere_water__precipitation_leq-volume_flux»,
    .«atmosphere_water__rainfall_volume_flux», .«atmosphere_water__snowfall_leq-volume_flux»,
    .«earth__standard_gravity_constant», .«land_surface__albedo»,
    .«land_surface__aspect_angle», .«land_surface__emissivity», .«land_surface__latitude»,
    .«land_surface__longitude», .«land_surface__slope_angle», .«land_surface__temperature»,
    .«land_surface_air_water-vapor__partial_pressure»,
    .«land_surface_air_water-vapor__saturated_partial_pressure»,
    .«land_surface_net-longwave-radiation__energy_flux»,
    .«land_surface_net-shortwave-radiation__energy_flux»,
    .«land_surface_net-total-energy__energy_flux», .«model__time_step»,
    .«physics__stefan_boltzmann_constant», .«physics__von_karman_constant»,
    .«water__mass-specific_latent_fusion_heat»,
    .«water__mass-specific_latent_vaporization_heat»,
    .«water-liquid__mass-per-volume_density»]
  names := [(.«snowpack__depth», .«h_snow»), (.«glacier_ice__thickness», .«h_ice»),
    (.«snowpack__z_mean_of_mass-per-volume_density», .«rho_snow»),
    (.«atmosphere_aerosol_dust__reduction_of_transmittance», .«dust_atten»),
    (.«atmosphere_air-column_water-vapor__liquid-equivalent_depth», .«W_p»),
    (.«atmosphere_bottom_air__brutsaert_emissivity_canopy_factor», .«canopy_factor»),
    (.«atmosphere_bottom_air__brutsaert_emissivity_cloud_factor», .«cloud_factor»),
    (.«atmosphere_bottom_air__bulk_latent_heat_aerodynamic_conductance», .«De»),
    (.«atmosphere_bottom_air__bulk_sensible_heat_aerodynamic_conductance», .«Dh»),
    (.«atmosphere_bottom_air__emissivity», .«em_air»),
    (.«atmosphere_bottom_air__mass-per-volume_density», .«rho_air»),
    (.«atmosphere_bottom_air__mass-specific_isobaric_heat_capacity», .«Cp_air»),
    (.«atmosphere_bottom_air__neutral_bulk_heat_aerodynamic_conductance», .«Dn»),
    (.«atmosphere_bottom_air__pressure», .«p0»),
    (.«atmosphere_bottom_air__temperature», .«T_air»),
    (.«atmosphere_bottom_air_flow__bulk_richardson_number», .«Ri»),
    (.«atmosphere_bottom_air_flow__log_law_roughness_length», .«z0_air»),
    (.«atmosphere_bottom_air_flow__reference-height_speed», .«uz»),
    (.«atmosphere_bottom_air_flow__speed_reference_height», .«z»),
    (.«atmosphere_bottom_air_land_net-latent-heat__energy_flux», .«Qe»),
    (.«atmosphere_bottom_air_land_net-sensible-heat__energy_flux», .«Qh»),
    (.«atmosphere_bottom_air_water-vapor__dew_point_temperature», .«T_dew»),
    (.«atmosphere_bottom_air_water-vapor__partial_pressure», .«e_air»),
    (.«atmosphere_bottom_air_water-vapor__relative_saturation», .«RH»),
    (.«atmosphere_bottom_air_water-vapor__saturated_partial_pressure», .«e_sat_air»),
    (.«atmosphere_water__domain_time_integral_of_precipitation_leq-volume_flux», .«vol_P»),
    (.«atmosphere_water__domain_time_integral_of_rainfall_volume_flux», .«vol_PR»),
    (.«atmosphere_water__domain_time_integral_of_snowfall_leq-volume_flux», .«vol_PS»),
    (.«atmosphere_water__domain_time_max_of_precipitation_leq-volume_flux», .«P_max»),
    (.«atmosphere_water__precipitation_leq-volume_flux», .«P»),
    (.«atmosphere_water__rainfall_volume_flux», .«P_rain»),
    (.«atmosphere_water__snowfall_leq-volume_flux», .«P_snow»),
    (.«earth__standard_gravity_constant», .«g»), (.«land_surface__albedo», .«albedo»),
    (.«land_surface__aspect_angle», .«alpha»), (.«land_surface__emissivity», .«em_surf»),
    (.«land_surface__latitude», .«lat_deg»), (.«land_surface__longitude», .«lon_deg»),
    (.«land_surface__slope_angle», .«beta»), (.«land_surface__temperature», .«T_surf»),
    (.«land_surface_air_water-vapor__partial_pressure», .«e_surf»),
    (.«land_surface_air_water-vapor__saturated_partial_pressure», .«e_sat_surf»),
    (.«land_surface_net-longwave-radiation__energy_flux», .«Qn_LW»),
    (.«land_surface_net-shortwave-radiation__energy_flux», .«Qn_SW»),
    (.«land_surface_net-total-energy__energy_flux», .«Q_sum»), (.«model__time_step», .«dt»),
    (.«physics__stefan_boltzmann_constant», .«sigma»),
    (.«physics__von_karman_constant», .«kappa»),
    (.«water__mass-specific_latent_fusion_heat», .«Lf»),
    (.«water__mass-specific_latent_vaporization_heat», .«Lv»),
    (.«water-liquid__mass-per-volume_density», .«rho_H2O»)]
  units := [(.«snowpack__depth», .«m»), (.«glacier_ice__thickness», .«m»),
    (.«snowpack__z_mean_of_mass-per-volume_density», .«kg m-3»),
    (.«atmosphere_aerosol_dust__reduction_of_transmittance», .«1»),
    (.«atmosphere_air-column_water-vapor__liquid-equivalent_depth», .«cm»),
    (.«atmosphere_bottom_air__brutsaert_emissivity_canopy_factor», .«1»),
    (.«atmosphere_bottom_air__brutsaert_emissivity_cloud_factor», .«1»),
    (.«atmosphere_bottom_air__bulk_latent_heat_aerodynamic_conductance», .«m s-1»),
    (.«atmosphere_bottom_air__bulk_sensible_heat_aerodynamic_conductance», .«m s-1»),
    (.«atmosphere_bottom_air__emissivity», .«1»),
    (.«atmosphere_bottom_air__mass-per-volume_density», .«kg m-3»),
    (.«atmosphere_bottom_air__mass-specific_isobaric_heat_capacity», .«J kg-1 K-1»),
    (.«atmosphere_bottom_air__neutral_bulk_heat_aerodynamic_conductance», .«m s-1»),
    (.«atmosphere_bottom_air__pressure», .«mbar»),
    (.«atmosphere_bottom_air__temperature», .«deg_C»),
    (.«atmosphere_bottom_air_flow__bulk_richardson_number», .«1»),
    (.«atmosphere_bottom_air_flow__log_law_roughness_length», .«m»),
    (.«atmosphere_bottom_air_flow__reference-height_speed», .«m s-1»),
    (.«atmosphere_bottom_air_flow__speed_reference_height», .«m»),
    (.«atmosphere_bottom_air_land_net-latent-heat__energy_flux», .«W m-2»),
    (.«atmosphere_bottom_air_land_net-sensible-heat__energy_flux», .«W m-2»),
    (.«atmosphere_bottom_air_water-vapor__dew_point_temperature», .«deg_C»),
    (.«atmosphere_bottom_air_water-vapor__partial_pressure», .«mbar»),
    (.«atmosphere_bottom_air_water-vapor__relative_saturation», .«1»),
    (.«atmosphere_bottom_air_water-vapor__saturated_partial_pressure», .«mbar»),
    (.«atmosphere_water__domain_time_integral_of_precipitation_leq-volume_flux», .«m3»),
    (.«atmosphere_water__domain_time_integral_of_rainfall_volume_flux», .«m3»),
    (.«atmosphere_water__domain_time_integral_of_snowfall_leq-volume_flux», .«m3»),
    (.«atmosphere_water__domain_time_max_of_precipitation_leq-volume_flux», .«m s-1»),
    (.«atmosphere_water__precipitation_leq-volume_flux», .«m s-1»),
    (.«atmosphere_water__rainfall_volume_flux», .«m s-1»),
    (.«atmosphere_water__snowfall_leq-volume_flux», .«m s-1»),
    (.«earth__standard_gravity_constant», .«m s-2»), (.«land_surface__albedo», .«1»),
    (.«land_surface__aspect_angle», .«radians»), (.«land_surface__emissivity», .«1»),
    (.«land_surface__latitude», .«degrees»), (.«land_surface__longitude», .«degrees»),
    (.«land_surface__slope_angle», .«radians»), (.«land_surface__temperature», .«deg_C»),
    (.«land_surface_air_water-vapor__partial_pressure», .«mbar»),
    (.«land_surface_air_water-vapor__saturated_partial_pressure», .«mbar»),
    (.«land_surface_net-longwave-radiation__energy_flux», .«W m-2»),
    (.«land_surface_net-shortwave-radiation__energy_flux», .«W m-2»),
    (.«land_surface_net-total-energy__energy_flux», .«W m-2»), (.«model__time_step», .«s»),
    (.«physics__stefan_boltzmann_constant», .«W m-2 K-4»),
    (.«physics__von_karman_constant», .«1»),
    (.«water__mass-specific_latent_fusion_heat», .«J kg-1»),
    (.«water__mass-specific_latent_vaporization_heat», .«J kg-1»),
    (.«water-liquid__mass-per-volume_density», .«kg m-3»)]

/-- satzone_darcy_layers.py:64-67, satzone_darcy_layers.py:69-95, satzone_darcy_layers.py:119-152, satzone_darcy_layers.py:154-184. -/
def satzoneDarcyLayersDecl : Decl where
  inputs := [.«channel_water_x-section__mean_depth», .«land_surface_water__evaporation_volume_flux»,
    .«soil_water_sat-zone_top__recharge_volume_flux»]
  outputs := [.«land_surface__elevation», .«land_surface_water__baseflow_volume_flux»,
    .«land_surface_water__domain_time_integral_of_baseflow_volume_flux», .«model__time_step»,
    .«model_soil_layer-0__porosity», .«model_soil_layer-0__saturated_thickness»,
    .«model_soil_layer-0__thickness», .«model_soil_layer-1__porosity»,
    .«model_soil_layer-1__saturated_thickness», .«model_soil_layer-1__thickness»,
    .«model_soil_layer-2__porosity», .«model_soil_layer-2__saturated_thickness»,
    .«model_soil_layer-2__thickness», .«soil_water_sat-zone_top_surface__elevation»,
    .«soil_top-layer__porosity», .«soil_top-layer__saturated_thickness»,
    .«soil_top-layer__thickness»]
  names := [(.«channel_water_x-section__mean_depth», .«d»),
    (.«soil_water_sat-zone_top__recharge_volume_flux», .«Rg»),
    (.«land_surface__elevation», .«elev»),
    (.«land_surface_water__baseflow_volume_flux», .«GW»),
    (.«land_surface_water__domain_time_integral_of_baseflow_volume_flux», .«vol_GW»),
    (.«land_surface_water__evaporation_volume_flux», .«ET»), (.«model__time_step», .«dt»),
    (.«soil_water_sat-zone_top_surface__elevation», .«h_table»),
    (.«soil_top-layer__porosity», .«qs_layer_0»),
    (.«soil_top-layer__saturated_thickness», .«y_layer_0»),
    (.«soil_top-layer__thickness», .«th_layer_0»)]
  units := [(.«channel_water_x-section__mean_depth», .«m»),
    (.«soil_water_sat-zone_top__recharge_volume_flux», .«m s-1»),
    (.«land_surface__elevation», .«m»),
    (.«land_surface_water__baseflow_volume_flux», .«m s-1»),
    (.«land_surface_water__domain_time_integral_of_baseflow_volume_flux», .«m3»),
    (.«land_surface_water__evaporation_volume_flux», .«m s-1»), (.«model__time_step», .«s»),
    (.«model_soil_layer-0__porosity», .«1»),
    (.«model_soil_layer-0__saturated_thickness», .«m»),
    (.«model_soil_layer-0__thickness», .«m»), (.«model_soil_layer-1__porosity», .«1»),
    (.«model_soil_layer-1__saturated_thickness», .«m»),
    (.«model_soil_layer-1__thickness», .«m»), (.«model_soil_layer-2__porosity», .«1»),
    (.«model_soil_layer-2__saturated_thickness», .«m»),
    (.«model_soil_layer-2__thickness», .«m»),
    (.«soil_water_sat-zone_top_surface__elevation», .«m»),
    (.«soil_top-layer__porosity», .«1»), (.«soil_top-layer__saturated_thickness», .«m»),
    (.«soil_top-layer__thickness», .«m»)]

/-- satzone_attenuate.py:61-65, satzone_attenuate.py:67-93, satzone_attenuate.py:117-151, satzone_attenuate.py:153-184. -/
def satzoneAttenuateDecl : Decl where
  inputs := [.«atmosphere_water__rainfall_volume_flux», .«channel_water_x-section__mean_depth»,
    .«land_surface_water__evaporation_volume_flux»,
    .«soil_water_sat-zone_top__recharge_volume_flux»]
  outputs := [.«land_surface__elevation», .«land_surface_water__baseflow_volume_flux»,
    .«land_surface_water__domain_time_integral_of_baseflow_volume_flux», .«model__time_step»,
    .«soil_water_sat-zone_top_surface__elevation», .«soil_top-layer__porosity»,
    .«soil_top-layer__saturated_thickness», .«soil_top-layer__thickness»]
  names := [(.«atmosphere_water__rainfall_volume_flux», .«P_rain»),
    (.«channel_water_x-section__mean_depth», .«d»),
    (.«soil_water_sat-zone_top__recharge_volume_flux», .«Rg»),
    (.«land_surface__elevation», .«elev»),
    (.«land_surface_water__baseflow_volume_flux», .«GW»),
    (.«land_surface_water__domain_time_integral_of_baseflow_volume_flux», .«vol_GW»),
    (.«land_surface_water__evaporation_volume_flux», .«ET»), (.«model__time_step», .«dt»),
    (.«soil_water_sat-zone_top_surface__elevation», .«h_table»),
    (.«soil_top-layer__porosity», .«qs_layer_0»),
    (.«soil_top-layer__saturated_thickness», .«y_layer_0»),
    (.«soil_top-layer__thickness», .«th_layer_0»)]
  units := [(.«atmosphere_water__rainfall_volume_flux», .«m s-1»),
    (.«channel_water_x-section__mean_depth», .«m»),
    (.«soil_water_sat-zone_top__recharge_volume_flux», .«m s-1»),
    (.«land_surface__elevation», .«m»),
    (.«land_surface_water__baseflow_volume_flux», .«m s-1»),
    (.«land_surface_water__domain_time_integral_of_baseflow_volume_flux», .«m3»),
    (.«land_surface_water__evaporation_volume_flux», .«m s-1»), (.«model__time_step», .«s»),
    (.«soil_water_sat-zone_top_surface__elevation», .«m»),
    (.«soil_top-layer__porosity», .«1»), (.«soil_top-layer__saturated_thickness», .«m»),
    (.«soil_top-layer__thickness», .«m»)]

/-- snow_degree_day.py:82-86, snow_degree_day.py:108-120, snow_degree_day.py:126-143, snow_degree_day.py:163-180. -/
def snowDegreeDayDecl : Decl where
  inputs := [.«atmosphere_bottom_air__temperature», .«atmosphere_water__snowfall_leq-volume_flux»,
    .«land_surface__temperature», .«water-liquid__mass-per-volume_density»]
  outputs := [.«model__time_step», .«snowpack__degree-day_coefficient»,
    .«snowpack__degree-day_threshold_temperature»,
    .«snowpack__domain_time_integral_of_melt_volume_flux»,
    .«snowpack__initial_domain_integral_of_liquid-equivalent_depth»,
    .«snowpack__domain_integral_of_liquid-equivalent_depth», .«snowpack__depth»,
    .«snowpack__initial_depth», .«snowpack__initial_liquid-equivalent_depth»,
    .«snowpack__liquid-equivalent_depth», .«snowpack__melt_volume_flux»,
    .«snowpack__z_mean_of_mass-per-volume_density»]
  names := [(.«atmosphere_bottom_air__temperature», .«T_air»),
    (.«atmosphere_water__snowfall_leq-volume_flux», .«P_snow»),
    (.«land_surface__temperature», .«T_surf»),
    (.«water-liquid__mass-per-volume_density», .«rho_H2O»), (.«model__time_step», .«dt»),
    (.«snowpack__domain_time_integral_of_melt_volume_flux», .«vol_SM»),
    (.«snowpack__initial_domain_integral_of_liquid-equivalent_depth», .«vol_swe_start»),
    (.«snowpack__domain_integral_of_liquid-equivalent_depth», .«vol_swe»),
    (.«snowpack__degree-day_coefficient», .«c0»),
    (.«snowpack__degree-day_threshold_temperature», .«T0»), (.«snowpack__depth», .«h_snow»),
    (.«snowpack__initial_depth», .«h0_snow»),
    (.«snowpack__initial_liquid-equivalent_depth», .«h0_swe»),
    (.«snowpack__liquid-equivalent_depth», .«h_swe»), (.«snowpack__melt_volume_flux», .«SM»),
    (.«snowpack__z_mean_of_mass-per-volume_density», .«rho_snow»)]
  units := [(.«atmosphere_bottom_air__temperature», .«deg_C»),
    (.«atmosphere_water__snowfall_leq-volume_flux», .«m s-1»),
    (.«land_surface__temperature», .«deg_C»),
    (.«water-liquid__mass-per-volume_density», .«kg m-3»), (.«model__time_step», .«s»),
    (.«snowpack__domain_time_integral_of_melt_volume_flux», .«m3»),
    (.«snowpack__initial_domain_integral_of_liquid-equivalent_depth», .«m3»),
    (.«snowpack__domain_integral_of_liquid-equivalent_depth», .«m3»),
    (.«snowpack__degree-day_coefficient», .«mm day-1 K-1 »),
    (.«snowpack__degree-day_threshold_temperature», .«deg_C»), (.«snowpack__depth», .«m»),
    (.«snowpack__initial_depth», .«m»), (.«snowpack__initial_liquid-equivalent_depth», .«m»),
    (.«snowpack__liquid-equivalent_depth», .«m»), (.«snowpack__melt_volume_flux», .«m s-1»),
    (.«snowpack__z_mean_of_mass-per-volume_density», .«kg m-3»)]

/-- snow_energy_balance.py:93-100, snow_energy_balance.py:125-137, snow_energy_balance.py:139-170, snow_energy_balance.py:176-207. -/
def snowEnergyBalanceDecl : Decl where
  inputs := [.«atmosphere_bottom_air__mass-per-volume_density»,
    .«atmosphere_bottom_air__mass-specific_isobaric_heat_capacity»,
    .«atmosphere_bottom_air__temperature», .«atmosphere_water__snowfall_leq-volume_flux»,
    .«land_surface__temperature», .«land_surface_net-total-energy__energy_flux»,
    .«water-liquid__mass-per-volume_density»]
  outputs := [.«model__time_step», .«snowpack__domain_time_integral_of_melt_volume_flux»,
    .«snowpack__initial_domain_integral_of_liquid-equivalent_depth»,
    .«snowpack__domain_integral_of_liquid-equivalent_depth»,
    .«snowpack__energy-per-area_cold_content», .«snowpack__depth»,
    .«snowpack__initial_depth», .«snowpack__initial_liquid-equivalent_depth»,
    .«snowpack__liquid-equivalent_depth», .«snowpack__melt_volume_flux»,
    .«snowpack__z_mean_of_mass-per-volume_density»,
    .«snowpack__z_mean_of_mass-specific_isobaric_heat_capacity»]
  names := [(.«atmosphere_bottom_air__mass-per-volume_density», .«rho_air»),
    (.«atmosphere_bottom_air__mass-specific_isobaric_heat_capacity», .«Cp_air»),
    (.«atmosphere_bottom_air__temperature», .«T_air»),
    (.«atmosphere_water__snowfall_leq-volume_flux», .«P_snow»),
    (.«land_surface_net-total-energy__energy_flux», .«Q_sum»),
    (.«land_surface__temperature», .«T_surf»),
    (.«water-liquid__mass-per-volume_density», .«rho_H2O»), (.«model__time_step», .«dt»),
    (.«snowpack__domain_time_integral_of_melt_volume_flux», .«vol_SM»),
    (.«snowpack__initial_domain_integral_of_liquid-equivalent_depth», .«vol_swe_start»),
    (.«snowpack__domain_integral_of_liquid-equivalent_depth», .«vol_swe»),
    (.«snowpack__depth», .«h_snow»), (.«snowpack__energy-per-area_cold_content», .«Ecc»),
    (.«snowpack__initial_depth», .«h0_snow»),
    (.«snowpack__initial_liquid-equivalent_depth», .«h0_swe»),
    (.«snowpack__liquid-equivalent_depth», .«h_swe»), (.«snowpack__melt_volume_flux», .«SM»),
    (.«snowpack__z_mean_of_mass-per-volume_density», .«rho_snow»),
    (.«snowpack__z_mean_of_mass-specific_isobaric_heat_capacity», .«Cp_snow»)]
  units := [(.«atmosphere_bottom_air__mass-per-volume_density», .«kg m-3»),
    (.«atmosphere_bottom_air__mass-specific_isobaric_heat_capacity», .«J kg-1 K-1»),
    (.«atmosphere_bottom_air__temperature», .«deg_C»),
    (.«atmosphere_water__snowfall_leq-volume_flux», .«m s-1»),
    (.«land_surface_net-total-energy__energy_flux», .«W m-2»),
    (.«land_surface__temperature», .«deg_C»),
    (.«water-liquid__mass-per-volume_density», .«kg m-3»), (.«model__time_step», .«s»),
    (.«snowpack__domain_time_integral_of_melt_volume_flux», .«m3»),
    (.«snowpack__initial_domain_integral_of_liquid-equivalent_depth», .«m3»),
    (.«snowpack__domain_integral_of_liquid-equivalent_depth», .«m3»),
    (.«snowpack__depth», .«m»), (.«snowpack__energy-per-area_cold_content», .«J m-2»),
    (.«snowpack__initial_depth», .«m»), (.«snowpack__initial_liquid-equivalent_depth», .«m»),
    (.«snowpack__liquid-equivalent_depth», .«m»), (.«snowpack__melt_volume_flux», .«m s-1»),
    (.«snowpack__z_mean_of_mass-per-volume_density», .«kg m-3»),
    (.«snowpack__z_mean_of_mass-specific_isobaric_heat_capacity», .«J kg-1 K-1»)]

/-- topoflow_driver.py:116-168, topoflow_driver.py:184-187, topoflow_driver.py:189-249, topoflow_driver.py:258-319. -/
def topoflowDriverDecl : Decl where
  inputs := [.«atmosphere_water__domain_time_integral_of_precipitation_leq-volume_flux»,
    .«atmosphere_water__domain_time_integral_of_rainfall_volume_flux»,
    .«atmosphere_water__domain_time_integral_of_snowfall_leq-volume_flux»,
    .«atmosphere_water__domain_time_max_of_precipitation_leq-volume_flux»,
    .«basin_outlet_water_flow__half_of_fanning_friction_factor»,
    .«basin_outlet_water_x-section__mean_depth»,
    .«basin_outlet_water_x-section__peak_time_of_depth»,
    .«basin_outlet_water_x-section__peak_time_of_volume_flow_rate»,
    .«basin_outlet_water_x-section__peak_time_of_volume_flux»,
    .«basin_outlet_water_x-section__time_integral_of_volume_flow_rate»,
    .«basin_outlet_water_x-section__time_max_of_mean_depth»,
    .«basin_outlet_water_x-section__time_max_of_volume_flow_rate»,
    .«basin_outlet_water_x-section__time_max_of_volume_flux»,
    .«basin_outlet_water_x-section__volume_flow_rate»,
    .«basin_outlet_water_x-section__volume_flux»,
    .«channel_bottom_water_flow__domain_max_of_log_law_roughness_length»,
    .«channel_bottom_water_flow__domain_min_of_log_law_roughness_length»,
    .«channel_water_flow__domain_max_of_manning_n_parameter»,
    .«channel_water_flow__domain_min_of_manning_n_parameter»,
    .«channel_water_x-section__domain_max_of_mean_depth»,
    .«channel_water_x-section__domain_max_of_volume_flow_rate»,
    .«channel_water_x-section__domain_max_of_volume_flux»,
    .«channel_water_x-section__domain_min_of_mean_depth»,
    .«channel_water_x-section__domain_min_of_volume_flow_rate»,
    .«channel_water_x-section__domain_min_of_volume_flux»,
    .«glacier_ice__domain_time_integral_of_melt_volume_flux»,
    .«land_surface_water__baseflow_volume_flux»,
    .«land_surface_water__domain_time_integral_of_baseflow_volume_flux»,
    .«land_surface_water__domain_time_integral_of_evaporation_volume_flux»,
    .«land_surface_water__domain_time_integral_of_runoff_volume_flux»,
    .«land_surface_water__runoff_volume_flux»,
    .«snowpack__initial_domain_integral_of_liquid-equivalent_depth»,
    .«snowpack__domain_integral_of_liquid-equivalent_depth»,
    .«snowpack__domain_time_integral_of_melt_volume_flux»,
    .«soil_surface_water__domain_time_integral_of_infiltration_volume_flux»,
    .«soil_water__initial_domain_integral_of_volume_fraction»,
    .«soil_water__domain_integral_of_volume_fraction»,
    .«soil_water_sat-zone_top__domain_time_integral_of_recharge_volume_flux»,
    .«channel_water_x-section__boundary_time_integral_of_volume_flow_rate»,
    .«river-network_channel_water__initial_volume», .«river-network_channel_water__volume»,
    .«land_surface_water__area_integral_of_depth»]
  outputs := [.«model__time_step», .«ngen::mass_in», .«ngen::mass_out», .«ngen::mass_stored»,
    .«ngen::mass_leaked»]
  names := [(.«atmosphere_water__domain_time_integral_of_precipitation_leq-volume_flux», .«vol_P»),
    (.«atmosphere_water__domain_time_integral_of_rainfall_volume_flux», .«vol_PR»),
    (.«atmosphere_water__domain_time_integral_of_snowfall_leq-volume_flux», .«vol_PS»),
    (.«atmosphere_water__domain_time_max_of_precipitation_leq-volume_flux», .«P_max»),
    (.«basin_outlet_water_flow__half_of_fanning_friction_factor», .«f_outlet»),
    (.«basin_outlet_water_x-section__mean_depth», .«d_outlet»),
    (.«basin_outlet_water_x-section__peak_time_of_depth», .«Td_peak»),
    (.«basin_outlet_water_x-section__peak_time_of_volume_flow_rate», .«T_peak»),
    (.«basin_outlet_water_x-section__peak_time_of_volume_flux», .«Tu_peak»),
    (.«basin_outlet_water_x-section__time_integral_of_volume_flow_rate», .«vol_Q»),
    (.«basin_outlet_water_x-section__time_max_of_mean_depth», .«d_peak»),
    (.«basin_outlet_water_x-section__time_max_of_volume_flow_rate», .«Q_peak»),
    (.«basin_outlet_water_x-section__time_max_of_volume_flux», .«u_peak»),
    (.«basin_outlet_water_x-section__volume_flow_rate», .«Q_outlet»),
    (.«basin_outlet_water_x-section__volume_flux», .«u_outlet»),
    (.«channel_bottom_water_flow__domain_max_of_log_law_roughness_length», .«z0val_max»),
    (.«channel_bottom_water_flow__domain_min_of_log_law_roughness_length», .«z0val_min»),
    (.«channel_water_flow__domain_max_of_manning_n_parameter», .«nval_max»),
    (.«channel_water_flow__domain_min_of_manning_n_parameter», .«nval_min»),
    (.«channel_water_x-section__domain_max_of_mean_depth», .«d_max»),
    (.«channel_water_x-section__domain_max_of_volume_flow_rate», .«Q_max»),
    (.«channel_water_x-section__domain_max_of_volume_flux», .«u_max»),
    (.«channel_water_x-section__domain_min_of_mean_depth», .«d_min»),
    (.«channel_water_x-section__domain_min_of_volume_flow_rate», .«Q_min»),
    (.«channel_water_x-section__domain_min_of_volume_flux», .«u_min»),
    (.«glacier_ice__domain_time_integral_of_melt_volume_flux», .«vol_MR»),
    (.«land_surface_water__baseflow_volume_flux», .«GW»),
    (.«land_surface_water__domain_time_integral_of_baseflow_volume_flux», .«vol_GW»),
    (.«land_surface_water__domain_time_integral_of_evaporation_volume_flux», .«vol_ET»),
    (.«land_surface_water__domain_time_integral_of_runoff_volume_flux», .«vol_R»),
    (.«land_surface_water__runoff_volume_flux», .«R»),
    (.«snowpack__initial_domain_integral_of_liquid-equivalent_depth», .«vol_swe_start»),
    (.«snowpack__domain_integral_of_liquid-equivalent_depth», .«vol_swe»),
    (.«snowpack__domain_time_integral_of_melt_volume_flux», .«vol_SM»),
    (.«soil_surface_water__domain_time_integral_of_infiltration_volume_flux», .«vol_IN»),
    (.«soil_water__initial_domain_integral_of_volume_fraction», .«vol_soil_start»),
    (.«soil_water__domain_integral_of_volume_fraction», .«vol_soil»),
    (.«soil_water_sat-zone_top__domain_time_integral_of_recharge_volume_flux», .«vol_Rg»),
    (.«model__time_step», .«dt»),
    (.«channel_water_x-section__boundary_time_integral_of_volume_flow_rate», .«vol_edge»),
    (.«river-network_channel_water__initial_volume», .«vol_chan_sum0»),
    (.«river-network_channel_water__volume», .«vol_chan_sum»),
    (.«land_surface_water__initial_area_integral_of_depth», .«vol_flood_sum0»),
    (.«land_surface_water__area_integral_of_depth», .«vol_flood_sum»)]
  units := [(.«atmosphere_water__domain_time_integral_of_precipitation_leq-volume_flux», .«m3»),
    (.«atmosphere_water__domain_time_integral_of_rainfall_volume_flux», .«m3»),
    (.«atmosphere_water__domain_time_integral_of_snowfall_leq-volume_flux», .«m3»),
    (.«atmosphere_water__domain_time_max_of_precipitation_leq-volume_flux», .«m s-1»),
    (.«basin_outlet_water_flow__half_of_fanning_friction_factor», .«1»),
    (.«basin_outlet_water_x-section__mean_depth», .«m»),
    (.«basin_outlet_water_x-section__peak_time_of_depth», .«min»),
    (.«basin_outlet_water_x-section__peak_time_of_volume_flow_rate», .«min»),
    (.«basin_outlet_water_x-section__peak_time_of_volume_flux», .«min»),
    (.«basin_outlet_water_x-section__time_integral_of_volume_flow_rate», .«m3»),
    (.«basin_outlet_water_x-section__time_max_of_mean_depth», .«m»),
    (.«basin_outlet_water_x-section__time_max_of_volume_flow_rate», .«m3 s-1»),
    (.«basin_outlet_water_x-section__time_max_of_volume_flux», .«m s-1»),
    (.«basin_outlet_water_x-section__volume_flow_rate», .«m3 s-1»),
    (.«basin_outlet_water_x-section__volume_flux», .«m s-1»),
    (.«channel_bottom_water_flow__domain_max_of_log_law_roughness_length», .«m»),
    (.«channel_bottom_water_flow__domain_min_of_log_law_roughness_length», .«m»),
    (.«channel_water_flow__domain_max_of_manning_n_parameter», .«m-1/3 s»),
    (.«channel_water_flow__domain_min_of_manning_n_parameter», .«m-1/3 s»),
    (.«channel_water_x-section__domain_max_of_mean_depth», .«m»),
    (.«channel_water_x-section__domain_max_of_volume_flow_rate», .«m3 s-1»),
    (.«channel_water_x-section__domain_max_of_volume_flux», .«m s-1»),
    (.«channel_water_x-section__domain_min_of_mean_depth», .«m»),
    (.«channel_water_x-section__domain_min_of_volume_flow_rate», .«m3 s-1»),
    (.«channel_water_x-section__domain_min_of_volume_flux», .«m s-1»),
    (.«glacier_ice__domain_time_integral_of_melt_volume_flux», .«m3»),
    (.«land_surface_water__baseflow_volume_flux», .«m s-1»),
    (.«land_surface_water__domain_time_integral_of_baseflow_volume_flux», .«m3»),
    (.«land_surface_water__domain_time_integral_of_evaporation_volume_flux», .«m3»),
    (.«land_surface_water__domain_time_integral_of_runoff_volume_flux», .«m3»),
    (.«land_surface_water__runoff_volume_flux», .«m s-1»),
    (.«network_channel_water__volume», .«m3»),
    (.«snowpack__initial_domain_integral_of_liquid-equivalent_depth», .«m3»),
    (.«snowpack__domain_integral_of_liquid-equivalent_depth», .«m3»),
    (.«snowpack__domain_time_integral_of_melt_volume_flux», .«m3»),
    (.«soil_surface_water__domain_time_integral_of_infiltration_volume_flux», .«m3»),
    (.«soil_water__initial_domain_integral_of_volume_fraction», .«m3»),
    (.«soil_water__domain_integral_of_volume_fraction», .«m3»),
    (.«soil_water_sat-zone_top__domain_time_integral_of_recharge_volume_flux», .«m3»),
    (.«model__time_step», .«s»),
    (.«channel_water_x-section__boundary_time_integral_of_volume_flow_rate», .«m3»),
    (.«river-network_channel_water__initial_volume», .«m3»),
    (.«river-network_channel_water__volume», .«m3»),
    (.«land_surface_water__initial_area_integral_of_depth», .«m3»),
    (.«land_surface_water__area_integral_of_depth», .«m3»), (.«ngen::mass_in», .«m3»),
    (.«ngen::mass_out», .«m3»), (.«ngen::mass_stored», .«m3»), (.«ngen::mass_leaked», .«m3»)]

/-- erode_d8_global.py:91, erode_d8_global.py:99-123, erode_d8_global.py:137-161, erode_d8_global.py:173-197. -/
def erodeD8GlobalDecl : Decl where
  inputs := []
  outputs := [.«atmosphere_water__geomorphic_precipitation_leq-volume_flux», .«bedrock__uplift_rate»,
    .«channel_water_x-section__volume_flow_rate»,
    .«channel_water_x-section__volume_flow_rate_law_area_exponent»,
    .«channel_water_total-sediment__volume_flow_rate»,
    .«channel_water_total-sediment__volume_flow_rate_law_area_exponent»,
    .«channel_water_total-sediment__volume_flow_rate_law_coefficient»,
    .«channel_water_total-sediment__volume_flow_rate_law_slope_exponent»,
    .«land_surface__elevation», .«land_surface__increment_of_elevation»,
    .«land_surface__initial_elevation»,
    .«land_surface__domain_max_of_increment_of_elevation», .«land_surface__slope»,
    .«land_surface__time_derivative_of_elevation»,
    .«land_surface_contour-segment__total_contributing_area», .«model__time_step»,
    .«model_domain_boundary__lowering_rate», .«model_grid_cell__area»,
    .«model_grid_cell__d8_flow_width», .«model_grid_cell__d8_flow_length»,
    .«model_grid_cell__diameter», .«model_grid_cell__x_length», .«model_grid_cell__y_length»]
  names := [(.«atmosphere_water__geomorphic_precipitation_leq-volume_flux», .«R»),
    (.«bedrock__uplift_rate», .«U»), (.«channel_water_x-section__volume_flow_rate», .«Q»),
    (.«channel_water_x-section__volume_flow_rate_law_area_exponent», .«p»),
    (.«channel_water_total-sediment__volume_flow_rate», .«Qs»),
    (.«channel_water_total-sediment__volume_flow_rate_law_area_exponent», .«m»),
    (.«channel_water_total-sediment__volume_flow_rate_law_coefficient», .«K»),
    (.«channel_water_total-sediment__volume_flow_rate_law_slope_exponent», .«n»),
    (.«land_surface__elevation», .«z»), (.«land_surface__increment_of_elevation», .«dz»),
    (.«land_surface__initial_elevation», .«z0»),
    (.«land_surface__domain_max_of_increment_of_elevation», .«dz_max»),
    (.«land_surface__slope», .«S»),
    (.«land_surface__time_derivative_of_elevation», .«dz_dt»),
    (.«land_surface_contour-segment__total_contributing_area», .«A»),
    (.«model__time_step», .«dt»), (.«model_domain_boundary__lowering_rate», .«BLR»),
    (.«model_grid_cell__area», .«da»), (.«model_grid_cell__d8_flow_width», .«dw»),
    (.«model_grid_cell__d8_flow_length», .«ds»), (.«model_grid_cell__diameter», .«dd»),
    (.«model_grid_cell__x_length», .«dx»), (.«model_grid_cell__y_length», .«dy»)]
  units := [(.«atmosphere_water__geomorphic_precipitation_leq-volume_flux», .«m yr-1»),
    (.«bedrock__uplift_rate», .«mm yr-1»),
    (.«channel_water_x-section__volume_flow_rate», .«m3 yr-1»),
    (.«channel_water_x-section__volume_flow_rate_law_area_exponent», .«1»),
    (.«channel_water_total-sediment__volume_flow_rate», .«m3 yr-1»),
    (.«channel_water_total-sediment__volume_flow_rate_law_area_exponent», .«1»),
    (.«channel_water_total-sediment__volume_flow_rate_law_coefficient», .«m3(1-m) yr(m-1)»),
    (.«channel_water_total-sediment__volume_flow_rate_law_slope_exponent», .«1»),
    (.«land_surface__domain_max_of_increment_of_elevation», .«m»),
    (.«land_surface__elevation», .«m»), (.«land_surface__increment_of_elevation», .«m»),
    (.«land_surface__initial_elevation», .«m»), (.«land_surface__slope», .«1»),
    (.«land_surface__time_derivative_of_elevation», .«m yr-1»),
    (.«land_surface_contour-segment__total_contributing_area», .«m2»),
    (.«model__time_step», .«yr»), (.«model_domain_boundary__lowering_rate», .«mm yr-1»),
    (.«model_grid_cell__area», .«m2»), (.«model_grid_cell__d8_flow_width», .«m»),
    (.«model_grid_cell__d8_flow_length», .«m»), (.«model_grid_cell__diameter», .«m»),
    (.«model_grid_cell__x_length», .«m»), (.«model_grid_cell__y_length», .«m»)]

/-- BMI_base.py:325-347, 390-415, 795-807 (the base class, not overridden); its units map has no long name that `get_var_name` knows. -/
def baseDecl : Decl where
  inputs := [.«None»]
  outputs := [.«None»]
  names := [(.«model__time_step», .«dt»)]
  units := []

/-- d8_base.py:100, d8_base.py:115, d8_base.py:117-118, d8_base.py:120-121. -/
def d8GlobalDecl : Decl where
  inputs := [.«land_surface__elevation»]
  outputs := []
  names := [(.«land_surface__elevation», .«DEM»)]
  units := [(.«land_surface__elevation», .«m»)]

/-- The declarations of a repository component (`get_input_var_names`, ... of each class).
Used in the model of emeli.py:1323-1329. -/
def decl : Comp → Decl
  | .tf_channels_kin_wave => channelsDecl
  | .tf_channels_diff_wave => channelsDecl
  | .tf_channels_dynam_wave => channelsDecl
  | .tf_data_his => dataHisDecl
  | .tf_diversions_fraction_method => diversionsFractionMethodDecl
  | .tf_evap_energy_balance => evapEnergyBalanceDecl
  | .tf_evap_priestley_taylor => evapPriestleyTaylorDecl
  | .tf_evap_read_file => evapReadFileDecl
  | .tf_ice_gc2d => iceGc2dDecl
  | .tf_glacier_energy_balance => glacierEnergyBalanceDecl
  | .tf_infil_green_ampt => infilGreenAmptDecl
  | .tf_infil_smith_parlange => infilSmithParlangeDecl
  | .tf_infil_beven => infilBevenDecl
  | .tf_infil_richards_1d => infilRichards1dDecl
  | .tf_meteorology => meteorologyDecl
  | .tf_satzone_darcy_layers => satzoneDarcyLayersDecl
  | .tf_satzone_attenuate => satzoneAttenuateDecl
  | .tf_snow_degree_day => snowDegreeDayDecl
  | .tf_snow_energy_balance => snowEnergyBalanceDecl
  | .topoflow_driver => topoflowDriverDecl
  | .erode_d8_global => erodeD8GlobalDecl
  | .erode_d8_local => baseDecl
  | .d8_global => d8GlobalDecl
  | .dem_smoother => baseDecl

/-- `get_var_name` of a component: `self._var_name_map[long_var_name]`.
Used in the model of emeli.py:717-779. -/
def getVarName (c : Comp) (v : Var) : Except String Attr :=
  match (decl c).names.lookup v with
  | some s => .ok s
  | none => .error "KeyError"

/-- `get_var_units` of a component: `self._var_units_map[long_var_name]`.
Used in the model of emeli.py:717-779. -/
def getVarUnits (c : Comp) (v : Var) : Except String Units :=
  match (decl c).units.lookup v with
  | some s => .ok s
  | none => .error "KeyError"

/-- The effects `connect_comps` has besides exceptions.  Used in the model of emeli.py:717-779. -/
inductive Connected where
  /-- the reference was passed on -/
  | plain
  /-- the reference was passed on and a warning about units printed -/
  | warned
  deriving DecidableEq

/-- `connect_comps(provider, user, var)`, emeli.py:717-779: get the provider's reference
(`get_value_ptr` looks up the internal name, BMI_base.py:596-600), compare units, set the user's
reference (`set_value` looks up the user's internal name, BMI_base.py:634-652).  Whether the
provider has already created the attribute is not modelled here. -/
def connect (p u : Comp) (v : Var) : Except String Connected := do
  let _ ← getVarName p v
  let pu ← getVarUnits p v
  let uu ← getVarUnits u v
  let _ ← getVarName u v
  pure (if uu ≠ pu then .warned else .plain)

/-- The same step in the multi-component BMI, multi_bmi.py:1646-1706: different units are
converted with `Units`, a name that is not imported (multi_bmi.py:182 is commented out). -/
def connectMulti (p u : Comp) (v : Var) : Except String Connected := do
  let _ ← getVarName p v
  let pu ← getVarUnits p v
  let uu ← getVarUnits u v
  if uu ≠ pu then .error "NameError: Units"
  else do
    let _ ← getVarName u v
    pure .plain

/-- The users of `v` in a component set (`self.var_users`, emeli.py:1323-1329; no entry means no
users, 1484-1487). -/
def usersOf (l : List Comp) (v : Var) : List Comp := l.filter (fun u => decide (v ∈ (decl u).inputs))

/-- The connection part of `initialize_comp_set`, emeli.py:1459-1497, multi_bmi.py:2024-2055:
every output of every component, in the order of the provider list, is connected to all its
users by `con`.  The components' own `initialize` calls are not part of this function. -/
def connectAll (con : Comp → Comp → Var → Except String Connected) (l : List Comp) :
    Except String (List Connected) :=
  (l.flatMap (fun p => (decl p).outputs.flatMap (fun v => (usersOf l v).map (fun u => (p, u, v))))).mapM
    (fun x => con x.1 x.2.1 x.2.2)

end Repo
