{
 "claims": [
  {
   "property": "C01",
   "status": "proved",
   "theorems": [
    "D8.C01_resolve_picks_tied_direction",
    "D8.C01_choice_turns_with_the_ties",
    "D8.C01_cycle_turns"
   ],
   "note": ""
  },
  {
   "property": "C02",
   "status": "proved",
   "theorems": [
    "D8.C02_edge_ids_are_border",
    "D8.C02_edge_ids_nodup",
    "D8.C02_edge_ids_count",
    "D8.C02_edge_ids_dup_one_row"
   ],
   "note": "No-duplicates holds for grids with at least 2 rows and 2 columns; on one-row or one-column grids cells are listed twice (proved negation)."
  },
  {
   "property": "C03",
   "status": "proved",
   "theorems": [
    "D8.C03_parent_is_downstream_neighbour",
    "D8.C03_no_wraparound",
    "D8.C03_flow_lists",
    "D8.C03_noflow_ids"
   ],
   "note": ""
  },
  {
   "property": "C04",
   "status": "proved",
   "theorems": [
    "D8.C04_codes_valid",
    "D8.C04_never_uphill",
    "D8.C04_acyclic",
    "D8.C04_paths_end",
    "D8.C04_steepest_descent"
   ],
   "note": ""
  },
  {
   "property": "C05",
   "status": "proved",
   "theorems": [
    "D8.C05_link_flats_terminates",
    "D8.C05_fuel_irrelevant",
    "D8.C05_update_flow_grid_terminates",
    "D8.C05_link_flats_preserves",
    "D8.C05_border_not_linked",
    "D8.C05_no_linkable_flat_remains",
    "D8.C05_flat_at_border_unresolved"
   ],
   "note": "The last theorem records a flat that stays undirected because its only outlet is a non-periodic border."
  },
  {
   "property": "C06",
   "status": "partial",
   "theorems": [
    "D8.C06_area_terminates",
    "D8.C06_area_is_upstream_sum",
    "D8.C06_area_from_dem",
    "D8.C06_zero_area_never_stops"
   ],
   "note": "The sum and termination hold for positive pixel areas, and for cells that have a flow direction (cells without one hold 0). Missing: termination for zero areas, which is false: with a zero pixel area the loop may run forever (proved)."
  },
  {
   "property": "C07",
   "status": "partial",
   "theorems": [
    "Fill.C07_fill_terminates",
    "Fill.C07_each_cell_once",
    "Fill.C07_fill_pits_terminates",
    "Fill.C07_each_cell_once_violated",
    "Fill.C07_two_columns_violated"
   ],
   "note": "Termination holds for all DEMs. At most once holds for distinct starting cells on grids with three or more columns; violated by the starting cells the code chooses: the two upper corners are processed twice in every DEM without missing data (exact count proved), and with two columns (witness)."
  },
  {
   "property": "C08",
   "status": "proved",
   "theorems": [
    "Fill.C08_only_raises",
    "Fill.C08_raised_count"
   ],
   "note": ""
  },
  {
   "property": "C09",
   "status": "partial",
   "theorems": [
    "Fill.C09_filled_is_least_spill_level",
    "Fill.C09_filled_is_least_spill_level_grid",
    "Fill.C09_fill_pits_valid_dem",
    "Fill.C09_wraps_around_violated"
   ],
   "note": "Holds for the adjacency of the ID arithmetic in general, and for true grid adjacency when the first and last columns are outlets. For other starting cells, among them those the code chooses, it fails with true adjacency: the ID arithmetic joins the ends of consecutive rows (witness proved)."
  },
  {
   "property": "C10",
   "status": "partial",
   "theorems": [
    "Fill.C10_no_pit_remains",
    "Fill.C10_no_pit_remains_grid",
    "Fill.C09_fill_pits_valid_dem",
    "Fill.C10_pit_remains_with_nodata",
    "Fill.C09_wraps_around_violated"
   ],
   "note": "Holds for every starting set with the adjacency of the ID arithmetic, and with true grid adjacency when the first and last columns are outlets; otherwise see Fill.C09_wraps_around_violated. With missing data the code flags wrong cells as closed and a pit can remain (proved)."
  },
  {
   "property": "C100",
   "status": "proved",
   "theorems": [
    "Multi.C100_fraction_ignored",
    "Multi.C100_history_is_a_run",
    "Multi.C100_time_on_grid",
    "Multi.C100_calls_never_raise",
    "Multi.C100_raises_only_as_run"
   ],
   "note": ""
  },
  {
   "property": "C101",
   "status": "partial",
   "theorems": [
    "Multi.C101_set_reaches_users",
    "Multi.C101_set_refused_iff",
    "Multi.C101_set_then_get",
    "Multi.C101_set_has_no_effect",
    "Multi.C101_repository"
   ],
   "note": "Violated for all models made of repository components: a value that was set is never used; what set_value does to the state is characterised exactly."
  },
  {
   "property": "C102",
   "status": "partial",
   "theorems": [
    "Multi.C102_indices_ignored",
    "Multi.C102_at_indices_partial",
    "Multi.C102_grid_raises"
   ],
   "note": "Violated: the indices are ignored and the grid queries raise; exact condition for a right answer proved."
  },
  {
   "property": "C103",
   "status": "proved",
   "theorems": [
    "Multi.C103_provider_file",
    "Multi.C103_unknown_name_refused"
   ],
   "note": ""
  },
  {
   "property": "C104",
   "status": "partial",
   "theorems": [
    "Multi.C104_accepted_iff",
    "Multi.C104_independent_partial",
    "Multi.C104_other_channels_rejected",
    "Multi.C104_incomplete_accepted",
    "Multi.C104_violated"
   ],
   "note": "Violated: components of earlier runs stay in the framework object; exact criterion proved."
  },
  {
   "property": "C105",
   "status": "partial",
   "theorems": [
    "Multi.C105_nextgen_names",
    "Multi.C105_multi_bmi_names_partial",
    "Multi.C105_bare_name_violated",
    "Multi.C105_nextgen_prefix_violated"
   ],
   "note": "Violated for file names without directory, prefixes containing _nextgen, and directories containing the file name; proved otherwise."
  },
  {
   "property": "C106",
   "status": "partial",
   "theorems": [
    "Erode.C106_update_raises_violated",
    "Erode.C106_disabled_partial"
   ],
   "note": "Violated: every update of an enabled component raises TypeError (the D8 component is called with a keyword it does not have). C107-C114 are about the rest of the step."
  },
  {
   "property": "C107",
   "status": "proved",
   "theorems": [
    "Erode.C107_slope",
    "Erode.C107_units",
    "Erode.C107_water",
    "Erode.C107_nonneg",
    "Erode.C107_flat_exponent_zero"
   ],
   "note": ""
  },
  {
   "property": "C108",
   "status": "partial",
   "theorems": [
    "Erode.C108_base_cells",
    "Erode.C108_once_iff"
   ],
   "note": "The set of cells is proved for all grid sizes; each cell is listed once exactly on grids of two rows or of three or more rows and at least two columns (proved as an equivalence), so violated for the others."
  },
  {
   "property": "C109",
   "status": "partial",
   "theorems": [
    "Erode.C109_step_limit_partial",
    "Erode.C109_no_inversion_partial",
    "Erode.C109_stops_iff",
    "Erode.C109_no_rain_stops",
    "Erode.C109_corner_violated"
   ],
   "note": "Violated for cells draining into the upper left corner (ID 0 doubles as no parent): time step 1e20 years; proved for all other cells."
  },
  {
   "property": "C11",
   "status": "proved",
   "theorems": [
    "Fill.C11_fill_idempotent",
    "Fill.C11_fill_pits_idempotent"
   ],
   "note": ""
  },
  {
   "property": "C110",
   "status": "proved",
   "theorems": [
    "Erode.C110_cell_balance",
    "Erode.C110_total_balance"
   ],
   "note": ""
  },
  {
   "property": "C111",
   "status": "partial",
   "theorems": [
    "Erode.C111_base_level_partial",
    "Erode.C111_time_argument_violated"
   ],
   "note": "Proved for updates without a time step argument; with one, time and lowering disagree (negation proved)."
  },
  {
   "property": "C112",
   "status": "partial",
   "theorems": [
    "Erode.C112_record",
    "Erode.C112_record_violated"
   ],
   "note": "Violated: the record is rotated by one entry; exact contents proved."
  },
  {
   "property": "C113",
   "status": "partial",
   "theorems": [
    "Erode.C113_finished_iff",
    "Erode.C113_n_steps",
    "Erode.C113_steady_iff",
    "Erode.C113_steady_violated",
    "Erode.C113_unknown_rule"
   ],
   "note": "The steady state rule ignores sinking cells (violated, witness); the exact rules are proved for all runs."
  },
  {
   "property": "C114",
   "status": "partial",
   "theorems": [
    "Erode.C114_totals",
    "Erode.C114_uplift_violated"
   ],
   "note": "Violated: the uplift total is 1000 times too large and lags one step; exact totals proved."
  },
  {
   "property": "C115",
   "status": "partial",
   "theorems": [
    "BMIGrid.C115_get_value_iff",
    "BMIGrid.C115_same_shape_partial",
    "BMIGrid.C115_scalar_partial",
    "BMIGrid.C115_flat_destination_violated",
    "BMIGrid.C115_scalar_destination_violated",
    "BMIGrid.C115_missing"
   ],
   "note": "Violated for flat destinations (ValueError for every grid with more than one row) and 0-dimensional ones; the exact outcome for every shape is proved."
  },
  {
   "property": "C116",
   "status": "partial",
   "theorems": [
    "BMIGrid.C116_grid_type_partial",
    "BMIGrid.C116_grid_zero_partial",
    "BMIGrid.C116_variable_grid_violated",
    "BMIGrid.C116_scalar_untouched",
    "BMIGrid.C116_location_violated",
    "BMIGrid.C116_bytes"
   ],
   "note": "Violated: get_var_grid returns nothing, so every variable is described as a scalar; proved for grid 0 and for the byte counts."
  },
  {
   "property": "C117",
   "status": "partial",
   "theorems": [
    "Regrid.C117_frames",
    "Regrid.C117_all_overlap_partial",
    "Regrid.C117_sticky_violated",
    "Regrid.C117_listing_order",
    "Regrid.C117_sorted",
    "Regrid.C117_extremes"
   ],
   "note": "Violated: after the first file that misses the DEM every later frame is blank; exact contents, counts, extremes and independence of the listing order proved."
  },
  {
   "property": "C118",
   "status": "partial",
   "theorems": [
    "Regrid.C118_disjoint_iff",
    "Regrid.C118_symmetric",
    "Regrid.C118_bounds",
    "Regrid.C118_north_up_partial",
    "Regrid.C118_south_up_violated"
   ],
   "note": "Proved for north-up rasters; for south-up rasters a covered DEM is called disjoint (negation proved)."
  },
  {
   "property": "C119",
   "status": "partial",
   "theorems": [
    "Regrid.C119_reversed_rows_partial",
    "Regrid.C119_mirrored_violated",
    "Regrid.C119_bounds"
   ],
   "note": "Holds if the rows of the file run opposite to what GDAL reports; otherwise the map is mirrored east-west (both proved)."
  },
  {
   "property": "C12",
   "status": "partial",
   "theorems": [
    "Fill.C12_border_cells_missed",
    "Fill.C12_border_cells_partial",
    "Fill.C12_start_in_range",
    "Fill.C12_edges_only_is_border",
    "Fill.C12_border_cell_raised",
    "Fill.C12_interior_start",
    "Fill.C12_too_many_start_cells"
   ],
   "note": "Violated by the code: left and right border cells of the last-but-one row are never starting cells."
  },
  {
   "property": "C120",
   "status": "partial",
   "theorems": [
    "Regrid.C120_convert",
    "Regrid.C120_injective",
    "Regrid.C120_blank_temperature_violated",
    "Regrid.C120_pressure_unit_violated"
   ],
   "note": "Conversions and nodata proved for all variables; violated for blank temperature frames and the unit reported for pressure."
  },
  {
   "property": "C121",
   "status": "partial",
   "theorems": [
    "Regrid.C121_stops_iff",
    "Regrid.C121_value",
    "Regrid.C121_units_violated",
    "Regrid.C121_nonnegative",
    "Regrid.C121_missing_violated"
   ],
   "note": "Violated: two unit conversions are applied one after the other; exact values proved."
  },
  {
   "property": "C122",
   "status": "proved",
   "theorems": [
    "Chan.C122_shear",
    "Chan.C122_froude",
    "Chan.C122_froude_edge",
    "Chan.C122_negative_slope"
   ],
   "note": "For every DEM network, history and cell. Negative bed slopes give negative stress (proved)."
  },
  {
   "property": "C123",
   "status": "partial",
   "theorems": [
    "Chan.C123_manning_partial",
    "Chan.C123_law_of_wall_partial",
    "Chan.C123_violated",
    "Chan.C123_factor"
   ],
   "note": "Violated in every cell with water and slope: the friction factor uses the depth, the velocity the hydraulic radius; the exact ratio is proved."
  },
  {
   "property": "C124",
   "status": "proved",
   "theorems": [
    "Chan.C124_final_grids",
    "Chan.C124_small_grids"
   ],
   "note": "Final grids only; the run before leaves no trace."
  },
  {
   "property": "C125",
   "status": "partial",
   "theorems": [
    "Param.C125_exponent",
    "Param.C125_range",
    "Param.C125_two_points",
    "Param.C125_positive",
    "Param.C125_area_unit",
    "Param.C125_area_unit_all",
    "Param.C125_nothing_iff",
    "Param.C125_border_value",
    "Param.C125_single_area"
   ],
   "note": "Real numbers; files hold float32. Missing: area grids whose positive areas are all equal, for which there is no usable grid (proved)."
  },
  {
   "property": "C126",
   "status": "partial",
   "theorems": [
    "Param.C126_partial",
    "Param.C126_stated",
    "Param.C126_violated"
   ],
   "note": "Violated for every run that is not a whole number of days: divisions are true divisions, so larger units count the rest again; the stated sum is given exactly."
  },
  {
   "property": "C127",
   "status": "partial",
   "theorems": [
    "Calib.C127_best",
    "Calib.C127_success_iff",
    "Calib.C127_costs",
    "Calib.C127_hopeless_violated",
    "Calib.C127_no_values_violated",
    "Calib.C127_report_violated"
   ],
   "note": "Holds for what is stored; violated: the call fails when no cost is below a million, and always fails when a report is asked for."
  },
  {
   "property": "C128",
   "status": "partial",
   "theorems": [
    "Calib.C128_restored_partial",
    "Calib.C128_recoverable_partial",
    "Calib.C128_failed_run_violated",
    "Calib.C128_original_lost_violated",
    "Calib.C128_unknown_name"
   ],
   "note": "Holds when all runs succeed; violated when a run fails, and the next calibration then destroys the backup."
  },
  {
   "property": "C129",
   "status": "proved",
   "theorems": [
    "Calib.C129_values",
    "Calib.C129_single"
   ],
   "note": "Real numbers instead of float64."
  },
  {
   "property": "C13",
   "status": "partial",
   "theorems": [
    "Heap.C13_heap_behaves_as_bag_partial",
    "Heap.C13_heap_total_partial",
    "Heap.C13_python3_insert_raises",
    "Heap.C13_python3_attempts",
    "Heap.C13_capacity_partial",
    "Heap.C13_maximal_size_partial"
   ],
   "note": "Proved with integer division; under Python 3 every finite insert raises (proved)."
  },
  {
   "property": "C130",
   "status": "partial",
   "theorems": [
    "Calib.C130_always_defined",
    "Calib.C130_symmetric",
    "Calib.C130_zero_iff",
    "Calib.C130_triangle",
    "Calib.C130_short_run",
    "Calib.C130_exponent_zero_violated",
    "Calib.C130_negative_exponent_violated"
   ],
   "note": "Real numbers; a run without output counts as perfect (proved). Proved for positive exponents; with exponent 0 every call fails, and with a negative exponent one pair of equal values gives the cost zero (both proved)."
  },
  {
   "property": "C131",
   "status": "partial",
   "theorems": [
    "Calib.C131_newest",
    "Calib.C131_reads_own_output",
    "Calib.C131_foreign_file_violated",
    "Calib.C131_folder_violated",
    "Calib.C131_none"
   ],
   "note": "The greatest number is read; it is the file just written exactly when the existing numbers have no gap. Violated for gaps, other text files with the same beginning and paths that contain the mark."
  },
  {
   "property": "C132",
   "status": "proved",
   "theorems": [
    "Nc.C132_appended",
    "Nc.C132_length",
    "Nc.C132_no_time"
   ],
   "note": "The netCDF library is trusted. Without a time argument the index is the time (Erode does this)."
  },
  {
   "property": "C133",
   "status": "partial",
   "theorems": [
    "Nc.C133_overwrite_partial",
    "Nc.C133_gap_violated"
   ],
   "note": "Violated: after a replacement the next append leaves an unwritten entry and the counter is one too large, for every file."
  },
  {
   "property": "C134",
   "status": "partial",
   "theorems": [
    "Nc.C134_columns_partial",
    "Nc.C134_columns_violated",
    "Nc.C134_rows_violated",
    "Nc.C134_upside_down_violated"
   ],
   "note": "Violated except for the middle row and column of odd numbers; the rows are upside down. Columns are off by at most half a cell (proved)."
  },
  {
   "property": "C135",
   "status": "proved",
   "theorems": [
    "Nc.C135_names",
    "Nc.C135_no_clash",
    "Nc.C135_place",
    "Nc.C135_open",
    "Nc.C135_values"
   ],
   "note": "Rows and columns below 32768; float32 rounding left out."
  },
  {
   "property": "C136",
   "status": "partial",
   "theorems": [
    "Nc.C136_units_violated",
    "Nc.C136_series_violated",
    "Nc.C136_cubes_minutes"
   ],
   "note": "Violated for every unit but minutes (Erode uses years): the datetimes are always in minutes. Minutes: see C135."
  },
  {
   "property": "C137",
   "status": "partial",
   "theorems": [
    "Nc.C137_profile_values_partial",
    "Nc.C137_profiles_violated",
    "Nc.C137_cubes_violated",
    "Nc.C137_reading_violated"
   ],
   "note": "Violated: asking for profiles always fails, cubes are silently never saved, profiles cannot be read back and have no datetimes. The stored values of profiles are right (proved)."
  },
  {
   "property": "C138",
   "status": "proved",
   "theorems": [
    "Nc.C138_grid",
    "Nc.C138_period"
   ],
   "note": ""
  },
  {
   "property": "C139",
   "status": "proved",
   "theorems": [
    "Ice.C139_step",
    "Ice.C139_positive_step",
    "Ice.C139_run"
   ],
   "note": ""
  },
  {
   "property": "C14",
   "status": "proved",
   "theorems": [
    "Emeli.C14_framework_clock",
    "Emeli.C14_clocks_keep_up",
    "Emeli.C14_exact_update_count",
    "Emeli.C14_disabled_never_updated",
    "Emeli.C14_run_never_raises",
    "Emeli.C14_hours_raises",
    "Emeli.C14_lowercase_enabled_stuck"
   ],
   "note": "Every component status must be spelled \"Enabled\" or be some capitalisation of \"disabled\"; findings: other spellings get stuck, and a component measuring time in hours makes the run raise (both proved). Times are exact numbers; for doubles see C254."
  },
  {
   "property": "C140",
   "status": "partial",
   "theorems": [
    "Ice.C140_budget",
    "Ice.C140_conserved_partial",
    "Ice.C140_created_violated"
   ],
   "note": "Violated: where motion takes more ice than a cell has, the thickness is cut to zero and ice is created (witness). The exact budget including this deficit is proved for all inputs, and conservation where there is no deficit."
  },
  {
   "property": "C141",
   "status": "partial",
   "theorems": [
    "Ice.C141_budget",
    "Ice.C141_no_melt_partial",
    "Ice.C141_melt_violated"
   ],
   "note": "Violated: melting is counted with the wrong sign (for every step in which ice melts) and the fluxes across the southern and northern borders are divided by the wrong cell size. Exact difference proved; equality without melting on square cells proved."
  },
  {
   "property": "C142",
   "status": "proved",
   "theorems": [
    "Ice.C142_rows",
    "Ice.C142_columns"
   ],
   "note": ""
  },
  {
   "property": "C143",
   "status": "partial",
   "theorems": [
    "Ice.C143_ice_free",
    "Ice.C143_no_flux",
    "Ice.C143_slope",
    "Ice.C143_accepted",
    "Ice.C143_elevation_violated"
   ],
   "note": "Violated: a given surface elevation always ends in a NameError. The other five are proved to be as named."
  },
  {
   "property": "C144",
   "status": "partial",
   "theorems": [
    "Ice.C144_ignored",
    "Ice.C144_closed_violated"
   ],
   "note": "Violated: boundary conditions and these parameters are default arguments evaluated when the module is imported, so the configured ones have no effect (proved for all configurations and states), and ice leaves through sides configured with zero flux (witness)."
  },
  {
   "property": "C145",
   "status": "partial",
   "theorems": [
    "Ice.C145_thin_partial",
    "Ice.C145_rock_violated"
   ],
   "note": "Violated where the ice below is thinner than the minimum (witness); proved where it is not."
  },
  {
   "property": "C146",
   "status": "partial",
   "theorems": [
    "Ice.C146_line_partial",
    "Ice.C146_choices_violated"
   ],
   "note": "Violated: the other six choices always fail. The three choices with an equilibrium line are proved."
  },
  {
   "property": "C147",
   "status": "proved",
   "theorems": [
    "Ice.C147_melt_rate"
   ],
   "note": ""
  },
  {
   "property": "C148",
   "status": "partial",
   "theorems": [
    "Ice.C148_fixed_partial",
    "Ice.C148_limit",
    "Ice.C148_grids_violated",
    "Ice.C148_maximum_violated"
   ],
   "note": "Violated: variable steps fail on every grid but three by three cells, and the configured largest step is not used. Fixed steps are proved."
  },
  {
   "property": "C149",
   "status": "proved",
   "theorems": [
    "Ice.C149_run",
    "Ice.C149_ends"
   ],
   "note": ""
  },
  {
   "property": "C15",
   "status": "partial",
   "theorems": [
    "Emeli.C15_requests_near_window_partial",
    "Emeli.C15_requests_in_window_partial",
    "Emeli.C15_request_before_window",
    "Emeli.C15_request_after_window"
   ],
   "note": "Fails in general (two proved counterexamples); holds when all steps are whole multiples of the framework step; in general a request misses the window by at most one framework step."
  },
  {
   "property": "C150",
   "status": "partial",
   "theorems": [
    "Ice.C150_disabled_partial",
    "Ice.C150_component_violated"
   ],
   "note": "Violated for every enabled update: update_time takes no argument but is called with one, so the call fails after the ice has changed. The disabled component is proved."
  },
  {
   "property": "C151",
   "status": "partial",
   "theorems": [
    "Ice.C151_thin_partial",
    "Ice.C151_part_violated"
   ],
   "note": "Violated: with ice on a part of the grid the step fails, because full-size grids are combined with the smaller ones. No effect without ice thicker than one metre (proved)."
  },
  {
   "property": "C152",
   "status": "proved",
   "theorems": [
    "Ice.C152_advance",
    "Ice.C152_bare"
   ],
   "note": ""
  },
  {
   "property": "C153",
   "status": "proved",
   "theorems": [
    "Proj.C153_albers_sphere",
    "Proj.C153_albers_origin",
    "Proj.C153_albers_parallels",
    "Proj.C153_albers_orientation"
   ],
   "note": "Real numbers."
  },
  {
   "property": "C154",
   "status": "proved",
   "theorems": [
    "Proj.C154_albers_ellipsoid",
    "Proj.C154_albers_origin",
    "Proj.C154_albers_parallels",
    "Proj.C154_albers_orientation"
   ],
   "note": "Real numbers."
  },
  {
   "property": "C155",
   "status": "proved",
   "theorems": [
    "Proj.C155_lambert_equal_area",
    "Proj.C155_lambert_distance",
    "Proj.C155_lambert_mirror",
    "Proj.C155_lambert_east",
    "Proj.C155_lambert_north"
   ],
   "note": "Real numbers."
  },
  {
   "property": "C156",
   "status": "proved",
   "theorems": [
    "Proj.C156_mercator_sphere",
    "Proj.C156_mercator_ellipsoid",
    "Proj.C156_mercator_order"
   ],
   "note": "Real numbers."
  },
  {
   "property": "C157",
   "status": "proved",
   "theorems": [
    "MetUtils.C157_increasing",
    "MetUtils.C157_same_as_component"
   ],
   "note": "Real numbers."
  },
  {
   "property": "C158",
   "status": "proved",
   "theorems": [
    "MetUtils.C158_range",
    "MetUtils.C158_ratio",
    "MetUtils.C158_monotone",
    "MetUtils.C158_warmer"
   ],
   "note": "Real numbers; not-a-number inputs are not modelled."
  },
  {
   "property": "C159",
   "status": "proved",
   "theorems": [
    "MetUtils.C159_lapse"
   ],
   "note": "Real numbers; reading of the files is not modelled."
  },
  {
   "property": "C16",
   "status": "proved",
   "theorems": [
    "Emeli.C16_check_iff_listed_once",
    "Emeli.C16_unique_provider",
    "Emeli.C16_failed_check_stops_run"
   ],
   "note": ""
  },
  {
   "property": "C160",
   "status": "partial",
   "theorems": [
    "NewSlope.C160_slope_partial",
    "NewSlope.C160_lower_cell_exists",
    "NewSlope.C160_no_zero_slopes_partial",
    "NewSlope.C160_no_flow",
    "NewSlope.C160_defined_iff",
    "NewSlope.C160_long_flat_violated",
    "NewSlope.C160_corner_violated",
    "NewSlope.C160_missing_data_violated"
   ],
   "note": "The code violates the property: slopes stay zero when the first lower cell is more than 4 nx + 1 steps away (C160_long_flat_violated) or is the upper left cell (C160_corner_violated), and a path into missing data is measured to the upper left cell (C160_missing_data_violated). In all other cases the property is proved. Exact arithmetic."
  },
  {
   "property": "C161",
   "status": "proved",
   "theorems": [
    "NewSlope.C161_slopes",
    "NewSlope.C161_defined_iff",
    "NewSlope.C161_agrees"
   ],
   "note": "Exact arithmetic."
  },
  {
   "property": "C162",
   "status": "proved",
   "theorems": [
    "NewSlope.C162_range",
    "NewSlope.C162_ends_unchanged",
    "NewSlope.C162_lowest",
    "NewSlope.C162_defined_iff"
   ],
   "note": "Exact arithmetic; ties broken, as always in the code."
  },
  {
   "property": "C163",
   "status": "partial",
   "theorems": [
    "NewSlope.C163_sources_partial",
    "NewSlope.C163_highest_partial",
    "NewSlope.C163_periodic_violated"
   ],
   "note": "False with periodic borders, where the upper left cell is overwritten (C163_periodic_violated); proved whenever the upper left cell has no flow direction, as without periodic borders."
  },
  {
   "property": "C164",
   "status": "partial",
   "theorems": [
    "NewSlope.C164_downhill_partial",
    "NewSlope.C164_downhill_violated"
   ],
   "note": "False where flow lines join (C164_downhill_violated); proved for grids whose flow lines do not join."
  },
  {
   "property": "C165",
   "status": "proved",
   "theorems": [
    "Multi.C165_clocks",
    "Multi.C165_inputs",
    "Multi.C165_not_updated"
   ],
   "note": "What components and the interpolator compute is arbitrary in the model; interpolation itself is C15 and the interpolation claims."
  },
  {
   "property": "C166",
   "status": "proved",
   "theorems": [
    "D8Local.C166_neighbors",
    "D8Local.C166_has_neighbor"
   ],
   "note": ""
  },
  {
   "property": "C167",
   "status": "proved",
   "theorems": [
    "D8Local.C167_pit",
    "D8Local.C167_interior_pit"
   ],
   "note": ""
  },
  {
   "property": "C168",
   "status": "proved",
   "theorems": [
    "D8Local.C168_kids",
    "D8Local.C168_kids_flow",
    "D8Local.C168_single_cell"
   ],
   "note": ""
  },
  {
   "property": "C169",
   "status": "partial",
   "theorems": [
    "D8Local.C169_neighborhood_partial",
    "D8Local.C169_fails_iff",
    "D8Local.C169_side_violated",
    "D8Local.C169_add_neighbors"
   ],
   "note": "False on the sides of a grid that is not periodic: the call fails there, corners excepted (C169_side_violated; exact condition C169_fails_iff). Wherever it returns, the result is right."
  },
  {
   "property": "C17",
   "status": "partial",
   "theorems": [
    "TInterp.C17_chord_partial",
    "TInterp.C17_chord_properties",
    "TInterp.C17_newest_state_at_t2",
    "TInterp.C17_one_unchanged_cell_disables",
    "TInterp.C17_inplace_grids_not_interpolated",
    "TInterp.C17_violated"
   ],
   "note": "Holds for variables that are replaced (not updated in place) and that change in every cell; the code violates it otherwise (proved)."
  },
  {
   "property": "C170",
   "status": "partial",
   "theorems": [
    "D8Local.C170_first_update_partial",
    "D8Local.C170_local_update_partial",
    "D8Local.C170_history_partial",
    "D8Local.C170_terminates",
    "D8Local.C170_several_cells_violated",
    "D8Local.C170_dem_argument_violated",
    "D8Local.C170_periodic_violated",
    "D8Local.C170_flats_violated",
    "D8Local.C170_pit_code_violated"
   ],
   "note": "False with several cells to update or a DEM argument (the call fails), across periodic borders, for flats, and pits keep a negative code. Proved without periodic borders and flat linking for any history of single-cell changes."
  },
  {
   "property": "C171",
   "status": "partial",
   "theorems": [
    "D8Local.C171_completes_iff",
    "D8Local.C171_first_update_violated",
    "D8Local.C171_second_update_violated",
    "D8Local.C171_parents"
   ],
   "note": "False: the update fails as soon as any flow code changes (C171_first_update_violated, exact condition C171_completes_iff) and on every second call. The parent IDs, when reached, are those of the global component."
  },
  {
   "property": "C172",
   "status": "proved",
   "theorems": [
    "Indicator.C172_max",
    "Indicator.C172_min",
    "Indicator.C172_max_attained",
    "Indicator.C172_min_attained",
    "Indicator.stats_ok_iff"
   ],
   "note": "The minimum leaves out the first grid of the file, as the code documents; the statement says so."
  },
  {
   "property": "C173",
   "status": "partial",
   "theorems": [
    "Indicator.exists_visits",
    "Indicator.stats_exact",
    "Indicator.C173_mean_partial",
    "Indicator.C173_sdev_partial",
    "Indicator.C173_mean_between_partial",
    "Indicator.C173_last_month_violated"
   ],
   "note": "False for the month of the last grid: its sums are divided by one less than the number of visits, so the result is undefined or too large (C173_last_month_violated). Proved for the other eleven months."
  },
  {
   "property": "C174",
   "status": "partial",
   "theorems": [
    "Indicator.C174_counts_partial",
    "Indicator.C174_correct_iff",
    "Indicator.C174_counts_violated",
    "Indicator.kindOf_ok_iff"
   ],
   "note": "False: the last day of each month is counted for the next month and the last day of the file is lost (C174_counts_violated). What is counted is given exactly (C174_counts_partial), with the exact condition under which a count is right (C174_correct_iff)."
  },
  {
   "property": "C175",
   "status": "partial",
   "theorems": [
    "Indicator.C175_threshold_partial",
    "Indicator.C175_last_month_violated"
   ],
   "note": "False in the month of the last grid when it occurs once (every file of less than a year): no low or high value is detected there (C175_last_month_violated)."
  },
  {
   "property": "C176",
   "status": "proved",
   "theorems": [
    "Indicator.C176_affected",
    "Indicator.C176_monotone"
   ],
   "note": ""
  },
  {
   "property": "C177",
   "status": "proved",
   "theorems": [
    "Conflict.C177_tally"
   ],
   "note": ""
  },
  {
   "property": "C178",
   "status": "proved",
   "theorems": [
    "Conflict.C178_edges",
    "Conflict.C178_completes",
    "Conflict.C178_no_unrest"
   ],
   "note": ""
  },
  {
   "property": "C179",
   "status": "proved",
   "theorems": [
    "Conflict.C179_no_conflict",
    "Conflict.C179_origin",
    "Conflict.C179_seed"
   ],
   "note": ""
  },
  {
   "property": "C18",
   "status": "partial",
   "theorems": [
    "BMI.C18_update_until_overshoots",
    "BMI.C18_update_until_result",
    "BMI.C18_update_frac_is_full_step",
    "BMI.C18_past_target_steps",
    "BMI.C18_reaches_target_partial"
   ],
   "note": "Violated for every target time (proved): the clock ends strictly past the target, by at most one step."
  },
  {
   "property": "C180",
   "status": "proved",
   "theorems": [
    "Conflict.C180_step",
    "Conflict.C180_probabilities",
    "Conflict.C180_certain"
   ],
   "note": ""
  },
  {
   "property": "C181",
   "status": "partial",
   "theorems": [
    "Conflict.C181_nonzero_partial",
    "Conflict.C181_violated"
   ],
   "note": "False for one conflict of a run: the IDs are a permutation that contains 0, the ID of the cells without conflict (C181_violated). Proved when 0 is not among the IDs."
  },
  {
   "property": "C182",
   "status": "partial",
   "theorems": [
    "Conflict.C182_fraction_partial",
    "Conflict.C182_violated",
    "Conflict.C182_cfg_violated"
   ],
   "note": "False: the number of cells without the borders is taken as (nx-1)(ny-1), so the fraction is too small (exact factor in C182_fraction_partial), and with a configuration file the model cannot be started."
  },
  {
   "property": "C183",
   "status": "proved",
   "theorems": [
    "ErodeLocal.C183_order",
    "ErodeLocal.C183_not_missed",
    "ErodeLocal.C183_edge_once",
    "ErodeLocal.C183_failures"
   ],
   "note": "Routing and transport law are any function of the state (see C190 for those of the package). heapq of the Python library is trusted."
  },
  {
   "property": "C184",
   "status": "proved",
   "theorems": [
    "ErodeLocal.C184_zone",
    "ErodeLocal.C184_terminates"
   ],
   "note": ""
  },
  {
   "property": "C185",
   "status": "proved",
   "theorems": [
    "ErodeLocal.C185_elevation"
   ],
   "note": "In exact arithmetic."
  },
  {
   "property": "C186",
   "status": "proved",
   "theorems": [
    "ErodeLocal.C186_drift"
   ],
   "note": ""
  },
  {
   "property": "C187",
   "status": "partial",
   "theorems": [
    "ErodeLocal.C187_budget_partial",
    "ErodeLocal.C187_outside_violated"
   ],
   "note": "False in general: a cell outside the splash zone keeps its rate although a cell of the zone now sends it another amount (C187_outside_violated), so sediment is lost or created. Proved for all cells of the zone after each update and for base level."
  },
  {
   "property": "C188",
   "status": "proved",
   "theorems": [
    "ErodeLocal.C188_time_steps",
    "ErodeLocal.C188_target",
    "ErodeLocal.C188_start"
   ],
   "note": ""
  },
  {
   "property": "C189",
   "status": "partial",
   "theorems": [
    "ErodeLocal.C189_stopped_partial",
    "ErodeLocal.C189_missed_violated"
   ],
   "note": "False in one direction: the check sees only the cells brought up to date last in the update (C189_missed_violated). Proved: a stopped run has such a change."
  },
  {
   "property": "C19",
   "status": "partial",
   "theorems": [
    "BMI.C19_set_get_partial",
    "BMI.C19_get_at_indices",
    "BMI.C19_set_at_indices_no_effect",
    "BMI.C19_set_at_indices_violated",
    "BMI.C19_set_value_shares",
    "BMI.C19_update_var_in_place",
    "BMI.C19_update_var_scales_argument"
   ],
   "note": "set_value/get_value round trip proved; set_value_at_indices has no effect on any variable (proved)."
  },
  {
   "property": "C190",
   "status": "partial",
   "theorems": [
    "ErodeLocal.C190_update_violated"
   ],
   "note": "False: in every grid of two or more cells neither the initialisation of the flow variables nor any update gets through, because the DEM is compared with None."
  },
  {
   "property": "C191",
   "status": "proved",
   "theorems": [
    "ErodeLocal.C191_thin_grid"
   ],
   "note": ""
  },
  {
   "property": "C192",
   "status": "partial",
   "theorems": [
    "Climate.C192_regions",
    "Climate.C192_gaps",
    "Climate.C192_span_partial",
    "Climate.C192_violated"
   ],
   "note": "Exact regions and absence of overlap are proved for all options. False that the expanded boundaries span the space: a timing index of -1 (which every basin below freezing all year gets), basins without snow with an index of at most -0.4 (or at most -0.1 with aridity above 0.9), and aridity above 5.8 have no class; C192_gaps lists all gaps up to aridity 5.8."
  },
  {
   "property": "C193",
   "status": "proved",
   "theorems": [
    "Climate.C193_expanded"
   ],
   "note": ""
  },
  {
   "property": "C194",
   "status": "proved",
   "theorems": [
    "Climate.C194_names"
   ],
   "note": ""
  },
  {
   "property": "C195",
   "status": "proved",
   "theorems": [
    "Climate.C195_woods",
    "Climate.C195_range",
    "Climate.C195_snow",
    "Climate.C195_mirror",
    "Climate.C195_monthly"
   ],
   "note": ""
  },
  {
   "property": "C196",
   "status": "partial",
   "theorems": [
    "Climate.C196_temperature_partial",
    "Climate.C196_violated"
   ],
   "note": "Proved within the amplitude. False across its limits: for every snow fraction strictly between 0 and 1 the index falls to -0.999 just below the upper limit and is 1 at and above it, and likewise at the lower limit."
  },
  {
   "property": "C197",
   "status": "partial",
   "theorems": [
    "Climate.C197_fraction_partial",
    "Climate.C197_violated"
   ],
   "note": "Proved for every UNITS other than percent; with percent, in any spelling, the call always fails because the result is never assigned."
  },
  {
   "property": "C198",
   "status": "proved",
   "theorems": [
    "Climate.C198_month",
    "Climate.C198_monotone",
    "Climate.C198_year",
    "Climate.C198_convert"
   ],
   "note": ""
  },
  {
   "property": "C199",
   "status": "partial",
   "theorems": [
    "Climate.C199_day_partial",
    "Climate.C199_months_partial",
    "Climate.C199_temperature",
    "Climate.C199_violated"
   ],
   "note": "Proved for latitudes up to 66.5 degrees (growth with temperature for every length of day, between -237.3 and 3860 degrees). False inside the polar circles: from 67 degrees on the result for January is not a number."
  },
  {
   "property": "C20",
   "status": "proved",
   "theorems": [
    "BMI.C20_clock_after_updates",
    "BMI.C20_n_updates",
    "BMI.C20_updates_never_raise",
    "BMI.C20_run_model_stops",
    "BMI.C20_run_from_initialize",
    "BMI.C20_framework_units_agree_partial",
    "BMI.C20_weeks_disagree"
   ],
   "note": "The framework converts every unit the same way except weeks (proved). The theorems on run_model are about its loop; the call of initialize before it fails, see C244. Times are exact numbers; for doubles see C254."
  },
  {
   "property": "C200",
   "status": "partial",
   "theorems": [
    "Snow.C200_melt_partial",
    "Snow.C200_stale_violated"
   ],
   "note": "Proved for the totals of snow melt and ice melt. False for the totals of stored snow and ice, which stay at their initial values, and for the total melt, which stays zero; so the report of the driver always shows no change of snow storage."
  },
  {
   "property": "C201",
   "status": "proved",
   "theorems": [
    "Snow.C201_depths",
    "Snow.C201_first_update"
   ],
   "note": ""
  },
  {
   "property": "C202",
   "status": "partial",
   "theorems": [
    "Snow.C202_density_partial",
    "Snow.C202_violated"
   ],
   "note": "Proved for a scalar and a grid. False for a time series and a grid sequence: the first update fails."
  },
  {
   "property": "C203",
   "status": "proved",
   "theorems": [
    "Stretch.C203_order",
    "Stretch.C203_histogram",
    "Stretch.C203_unknown"
   ],
   "note": ""
  },
  {
   "property": "C204",
   "status": "proved",
   "theorems": [
    "Stretch.C204_range",
    "Stretch.C204_histogram"
   ],
   "note": ""
  },
  {
   "property": "C205",
   "status": "proved",
   "theorems": [
    "Stretch.C205_units",
    "Stretch.C205_raw"
   ],
   "note": ""
  },
  {
   "property": "C206",
   "status": "proved",
   "theorems": [
    "Series.C206_read",
    "Series.C206_lost"
   ],
   "note": ""
  },
  {
   "property": "C207",
   "status": "proved",
   "theorems": [
    "Series.C207_hhmm",
    "Series.C207_date",
    "Series.C207_datetime",
    "Series.C207_numbers"
   ],
   "note": ""
  },
  {
   "property": "C208",
   "status": "proved",
   "theorems": [
    "Series.C208_linear",
    "Series.C208_between",
    "Series.C208_nearest"
   ],
   "note": ""
  },
  {
   "property": "C209",
   "status": "partial",
   "theorems": [
    "Series.C209_interpolated_partial",
    "Series.C209_regular_partial",
    "Series.C209_violated",
    "Series.C209_irregular_violated"
   ],
   "note": "Proved for irregular observations, for results written more often than observed, and for equal intervals. False for regular observations made more often than results are written: the k-th values are compared although their times differ. Irregular results with regular observations make the call fail."
  },
  {
   "property": "C21",
   "status": "proved",
   "theorems": [
    "Driver.C21_peak_fraction",
    "Driver.C21_peak_fraction_never",
    "Driver.C21_dry_outlet_never_stops",
    "Driver.C21_n_steps",
    "Driver.C21_model_time",
    "Driver.C21_unknown_method_raises",
    "Driver.C21_planned_end",
    "Driver.C21_ends_as_planned"
   ],
   "note": "Each stop method stops exactly at its documented condition. Finding: with the peak-fraction method an outlet that never carries water never satisfies the test. Times are exact numbers; with doubles a run of a given model time can make one update more, see C254."
  },
  {
   "property": "C210",
   "status": "proved",
   "theorems": [
    "Series.C210_tried",
    "Series.C210_backup"
   ],
   "note": ""
  },
  {
   "property": "C211",
   "status": "proved",
   "theorems": [
    "SoilBase.C211_retention",
    "SoilBase.C211_order",
    "SoilBase.C211_residual",
    "SoilBase.C211_initialize",
    "SoilBase.C211_unknown"
   ],
   "note": "The constants of the table are exact rationals; the rounding to float32 (soil_base.py:315) is not modelled."
  },
  {
   "property": "C212",
   "status": "partial",
   "theorems": [
    "SoilBase.C212_conductivity_partial",
    "SoilBase.C212_limit_partial",
    "SoilBase.C212_limit_violated",
    "SoilBase.C212_dry_violated"
   ],
   "note": "Proved from the residual content up and for rainfall rates below K_s. False below the residual content (the result is nan unless 3 + 2/lambda is an integer) and for rates from K_s on (theta_max raises NameError)."
  },
  {
   "property": "C213",
   "status": "proved",
   "theorems": [
    "Mct.C213_column",
    "Mct.C213_length",
    "Mct.C213_stale",
    "Mct.C213_uncounted"
   ],
   "note": ""
  },
  {
   "property": "C214",
   "status": "partial",
   "theorems": [
    "Mct.C214_wettest_partial",
    "Mct.C214_last_line_violated",
    "Mct.C214_start_violated",
    "Mct.C214_gap_violated",
    "Mct.C214_span_violated"
   ],
   "note": "Proved for records that start in January, skip no month and span at most max_years, with the last line left out. False otherwise: the last line is never counted, a record that starts later in the year or skips a month assigns rain to the wrong months, a longer one makes the call fail."
  },
  {
   "property": "C215",
   "status": "proved",
   "theorems": [
    "Hamilton.C215_dx",
    "Hamilton.C215_dy",
    "Hamilton.C215_plane_slope",
    "Hamilton.C215_plane_operator",
    "Hamilton.C215_ridge",
    "Hamilton.C215_laplacian",
    "Hamilton.C215_saddle"
   ],
   "note": ""
  },
  {
   "property": "C216",
   "status": "proved",
   "theorems": [
    "Hamilton.C216_start",
    "Hamilton.C216_slope",
    "Hamilton.C216_curvature",
    "Hamilton.C216_discharge",
    "Hamilton.C216_concave",
    "Hamilton.C216_power_law"
   ],
   "note": ""
  },
  {
   "property": "C217",
   "status": "proved",
   "theorems": [
    "Hamilton.C217_inverse",
    "Hamilton.C217_ideal"
   ],
   "note": ""
  },
  {
   "property": "C218",
   "status": "proved",
   "theorems": [
    "Hamilton.C218_slopes",
    "Hamilton.C218_read",
    "Hamilton.C218_relief",
    "Hamilton.C218_rising"
   ],
   "note": ""
  },
  {
   "property": "C219",
   "status": "partial",
   "theorems": [
    "Start.C219_may_be_off_partial",
    "Start.C219_must_be_on",
    "Start.C219_violated",
    "Start.C222_starts_iff"
   ],
   "note": "The property fails in the code: switched off channels create none of their variables, switched off meteorology lacks the latent heat flux and the totals (and rain and snow unless precipitation is a scalar), a switched off valley glacier has no ice thickness, and connecting them raises AttributeError. C222_starts_iff is the exact condition; C219_may_be_off_partial covers all other components in any combination. A switched off driver starts, but has no clock for the framework to follow; that is outside the statement."
  },
  {
   "property": "C22",
   "status": "proved",
   "theorems": [
    "Chan.C22_runoff_rate",
    "Chan.C22_cell_balance",
    "Chan.C22_no_outflow_from_edges",
    "Chan.C22_water_balance",
    "Chan.C22_exact_iff_no_overdraft",
    "Chan.C22_attenuation"
   ],
   "note": "For the network of any DEM, any inputs and any number of updates, in exact arithmetic."
  },
  {
   "property": "C220",
   "status": "proved",
   "theorems": [
    "Disable.C220_off_is_zero",
    "Disable.C220_runoff"
   ],
   "note": ""
  },
  {
   "property": "C221",
   "status": "partial",
   "theorems": [
    "Couple.C221_user_first",
    "Couple.C221_grid_in_place",
    "Couple.C221_new_scalar",
    "Couple.C221_new_grid",
    "Couple.C221_scalar_in_place",
    "Couple.C221_scalar_in_place_total",
    "Couple.C221_violated",
    "EqualSteps.C221_request_times"
   ],
   "note": "The property fails in the code for scalars updated in place (the first value is used twice and the last is never used) and for grids that are replaced (a value can be skipped or used twice), when the provider is listed before the user. The other three cases are proved; the exact sequence of values used is given in all five."
  },
  {
   "property": "C222",
   "status": "partial",
   "theorems": [
    "Start.C222_starts_iff",
    "Start.C222_violated",
    "Start.C222_read_file_violated",
    "Start.C222_missing_entries",
    "Start.C222_others_start_partial"
   ],
   "note": "The property fails in the code: Green-Ampt, Smith-Parlange and Beven infiltration read attributes dz and q that only the Richards component sets, the energy balance evaporation reads a parameter type and names of output files that its CFG file does not have, groundwater reads names of output files that are spelt differently in every shipped CFG file, the evaporation from files makes a call that always fails (and reads temperatures it does not ask for), and diversions in use read dx and dy that nothing sets. C222_starts_iff is the exact condition for a model to start; C222_others_start_partial covers all other components as far as attributes are concerned; that the snow components also fail when all their inputs are numbers is C252. The theorems about the rates of these components (C29 and others) are about their update functions."
  },
  {
   "property": "C223",
   "status": "partial",
   "theorems": [
    "Start.C223_order_iff",
    "Start.C223_order_partial",
    "Start.C223_violated"
   ],
   "note": "The property fails in the code: a component is initialised before the later listed providers are connected, and several components read their inputs in initialize. C223_order_iff says which orders work: exactly those that list meteorology, snow and channels before the components that read them at the start."
  },
  {
   "property": "C224",
   "status": "partial",
   "theorems": [
    "System.C224_reported_error",
    "System.C224_no_error_partial",
    "System.C224_violated"
   ],
   "note": "The property fails in the code: the melt of the last step has left the snowpack but has not reached the channels, water in attenuation storage is in no line of the report, with overbank flow the water at the edge cells is counted in the channels and in the outflow, baseflow and ice melt are not counted as inflow, and evaporation that the channels could not give is reported all the same. C224_reported_error gives the reported error exactly, for every run."
  },
  {
   "property": "C225",
   "status": "partial",
   "theorems": [
    "Report.C225_report_iff",
    "Report.C225_driver_last_partial",
    "Report.C225_violated"
   ],
   "note": "The property fails in the code when the driver is listed before a component: the report then gives the storage of the start of the run for it. C225_report_iff is the exact condition. The glacier component, whose updates change the total, is not covered."
  },
  {
   "property": "C226",
   "status": "partial",
   "theorems": [
    "Climate.C226_class_partial",
    "Climate.C226_violated"
   ],
   "note": "The theorem gives the exact condition for a class. False for basins that are below freezing all year round (mean temperature below one degree by half of the seasonal range or more), for basins whose evaporation is above 5.8 times the precipitation, and the call fails when every month is at one degree."
  },
  {
   "property": "C227",
   "status": "proved",
   "theorems": [
    "Template.C227_filled",
    "Template.C227_few_values",
    "Template.C227_nested"
   ],
   "note": "Texts are lists of characters; str.replace is modelled as Python defines it, from left to right without overlap."
  },
  {
   "property": "C228",
   "status": "proved",
   "theorems": [
    "Template.C228_line",
    "Template.C228_file"
   ],
   "note": "The template is given by its lines; the regular expression is modelled as a scan. The method STRING (string.Template) is not modelled."
  },
  {
   "property": "C229",
   "status": "proved",
   "theorems": [
    "Bundle.C229_frames",
    "Bundle.C229_time_order",
    "Bundle.C229_not_padded",
    "Bundle.C229_others",
    "Bundle.C229_script",
    "Bundle.C229_script_numbers",
    "Bundle.C229_short_file"
   ],
   "note": "The names that glob found are given, in any order; names are lists of character codes. A file that is too short shifts the grids after it (C229_short_file), so the theorems on grids suppose whole files."
  },
  {
   "property": "C23",
   "status": "proved",
   "theorems": [
    "Chan.C23_nonnegative",
    "Chan.C23_any_state"
   ],
   "note": ""
  },
  {
   "property": "C230",
   "status": "partial",
   "theorems": [
    "Bundle.C230_exact_partial",
    "Bundle.C230_violated"
   ],
   "note": "The property fails in the code for negative angles of less than one degree: the sign is lost. C230_exact_partial is the exact condition."
  },
  {
   "property": "C231",
   "status": "partial",
   "theorems": [
    "ErodeInit.C231_starts_iff_partial",
    "ErodeInit.C231_surface_partial",
    "ErodeInit.C231_violated",
    "ErodeInit.C231_read_partial",
    "ErodeInit.C231_lower_case_violated"
   ],
   "note": "The property fails in the code: only FLAT and PLANE with GAUSSIAN noise can be made (exact condition for grids with more than two rows or columns); MIDPOINTS, which the shipped examples use, addresses cells with fractions, NO_NOISE and CORNER_PLANE use names that are not defined, and READ_FILE in lower case makes noise instead. A file of four-byte integers is read as FLOAT, since only the size is looked at."
  },
  {
   "property": "C232",
   "status": "partial",
   "theorems": [
    "ErodeInit.C232_four_sides_partial",
    "ErodeInit.C232_bottom_violated",
    "ErodeInit.C232_right_violated",
    "ErodeInit.C232_corner_violated"
   ],
   "note": "The property fails in the code for three of the four methods: BOTTOM fails unless the grid is at least twice as high as wide and then overwrites rows of the surface, RIGHT fails unless there is one row or column and then sets the surface to zero, CORNER always fails. FOUR_SIDES is proved."
  },
  {
   "property": "C233",
   "status": "partial",
   "theorems": [
    "Prep.C233_outlet_partial",
    "Prep.C233_inside_partial",
    "Prep.C233_steps_violated"
   ],
   "note": "The property fails in the code for STEP_BACKS above zero: the call always ends with an error. Without steps back it is proved for grids with cells of fixed angle; otherwise the code says that it cannot give the place and writes -999."
  },
  {
   "property": "C234",
   "status": "partial",
   "theorems": [
    "Prep.C234_rows_partial",
    "Prep.C234_gap_violated",
    "Prep.C234_no_start_violated",
    "Prep.C234_same_date_violated"
   ],
   "note": "The property fails in the code when one of the dates does not occur in the file or both are equal; the theorem holds when the start date occurs and the end date is later and occurs or is after the whole file."
  },
  {
   "property": "C235",
   "status": "partial",
   "theorems": [
    "Divert.C235_value_partial",
    "Divert.C235_list_partial",
    "Divert.C235_delimiter_violated",
    "Divert.C235_long_delimiter_violated",
    "Divert.C235_enough_words_violated",
    "Divert.C235_boolean_list_violated"
   ],
   "note": "The property fails in the code for delimiters other than a colon (used for type file only), delimiters of several characters, a required number of words (no result when there are enough) and booleans in lists that are not in lower case. Proved for the colon. The evaluation of a word by Python is a parameter."
  },
  {
   "property": "C236",
   "status": "partial",
   "theorems": [
    "Divert.C236_sources_partial",
    "Divert.C236_canals_partial",
    "Divert.C236_y_violated",
    "Divert.C236_cell_size_violated",
    "Divert.C236_time_step_violated",
    "Divert.C236_sinks_violated",
    "Divert.C236_example_layout_violated"
   ],
   "note": "The property fails in the code: y is wrong outside the first column, the cell size attributes are never set, the time step of the file is not used, every file with a sink is rejected, and the layout of the shipped example (column and row) is misread. Proved: the documented layout gives cells, discharges, fractions and times."
  },
  {
   "property": "C237",
   "status": "partial",
   "theorems": [
    "Divert.C237_violated"
   ],
   "note": "The property fails in the code: no component asks for any variable of the diversions component, and update_diversions of the channels component returns at once. Nothing positive remains to be proved."
  },
  {
   "property": "C238",
   "status": "proved",
   "theorems": [
    "MetCycle.C238_together",
    "MetCycle.C238_inputs",
    "MetCycle.C238_completes"
   ],
   "note": "One grid cell; real arithmetic. Precipitation, snow and ice depths and the sun of the step are parameters of the step. The formulas of dew point, saturation, exchange coefficients and clear-sky radiation are those of MetEnergyModel and SolarModel (C68-C73)."
  },
  {
   "property": "C239",
   "status": "partial",
   "theorems": [
    "MetCycle.C239_series_partial",
    "MetCycle.C239_T_surf_violated",
    "MetCycle.C239_albedo_violated"
   ],
   "note": "The property fails in the code for the types scalar and grid: the values given are overwritten in the first update and change nothing that follows (proved for all runs). It holds for time series and sequences of grids."
  },
  {
   "property": "C24",
   "status": "proved",
   "theorems": [
    "Chan.C24_depth_inverts_volume",
    "Chan.C24_depth_matches_volume",
    "Chan.C24_initial_depth_round_trip"
   ],
   "note": ""
  },
  {
   "property": "C240",
   "status": "partial",
   "theorems": [
    "Opts.C240_options_partial",
    "Opts.C240_flood",
    "Opts.C240_bankfull_violated"
   ],
   "note": "The property fails in the code for a bankfull depth given without its type: it is replaced by 10 m. All other options of the channels component are covered. The options of the other components are in C274."
  },
  {
   "property": "C241",
   "status": "partial",
   "theorems": [
    "Opts.C241_create_violated",
    "Opts.C241_off_partial"
   ],
   "note": "The property fails in the code: the option reads an attribute manning_file that nothing sets, so that the component never starts with it. Without the option the start is that of C240. The computation of the grids themselves is C125."
  },
  {
   "property": "C242",
   "status": "proved",
   "theorems": [
    "Layer.C242_value",
    "Layer.C242_one_layer",
    "Layer.C242_thickness",
    "Layer.C242_depth",
    "Layer.C242_increasing"
   ],
   "note": "Real arithmetic. Grids have the shape of the model grid."
  },
  {
   "property": "C243",
   "status": "partial",
   "theorems": [
    "Layer.C243_one_profile_partial",
    "Layer.C243_cells_partial",
    "Layer.C243_start_partial",
    "Layer.C243_geographic_violated",
    "Layer.C243_geographic_factor_violated",
    "Layer.C243_deeper_grid_violated",
    "Layer.C243_one_cell_violated"
   ],
   "note": "The property fails in the code for one profile on a grid with cells of fixed angle (an error, or a volume too large by the number of rows), for a water content that is a number in the first layer and a grid below, and for a single cell of fixed angle with thicknesses that differ. It is proved for all other combinations."
  },
  {
   "property": "C244",
   "status": "partial",
   "theorems": [
    "Run.C244_violated",
    "Run.C244_steps_argument_violated",
    "Run.C244_run_partial",
    "Run.C244_errors_partial"
   ],
   "note": "The property fails in the code: run_model calls initialize with a keyword cfg_prefix that no component has, so that it raises TypeError before anything is initialised, and the number of steps that is asked for is not used. The loop behaves as stated if initialize is given that parameter."
  },
  {
   "property": "C245",
   "status": "partial",
   "theorems": [
    "Finish.C245_closes_iff",
    "Finish.C245_any_spelling_partial",
    "Finish.C245_spelled_partial",
    "Finish.C245_run_iff",
    "Finish.C245_off",
    "Finish.C245_violated"
   ],
   "note": "The property fails in the code: types are read in any spelling, but nine components compare with Scalar as written when they close their input files; with scalar, finalize raises AttributeError, the output files stay open and the later components are not finalised. C245_closes_iff and C245_run_iff are the exact conditions. Output files: see C62."
  },
  {
   "property": "C246",
   "status": "partial",
   "theorems": [
    "SoilRead.C246_conductivity_iff",
    "SoilRead.C246_conductivity_positive_partial",
    "SoilRead.C246_cut_off_partial",
    "SoilRead.C246_values_partial",
    "SoilRead.C246_computed_partial",
    "SoilRead.C246_lists_partial",
    "SoilRead.C246_time_series_violated",
    "SoilRead.C246_no_positive_violated",
    "SoilRead.C246_numbers_violated",
    "SoilRead.C246_sequence_violated"
   ],
   "note": "The property fails in the code: a time series for one of the three parameters raises an exception, so does a grid without a positive conductivity, numbers in the CFG file are not brought into the valid range, and grids read after the start are not used. theta_of_psi is a parameter of the model."
  },
  {
   "property": "C247",
   "status": "partial",
   "theorems": [
    "ChanIn.C247_geometry_partial",
    "ChanIn.C247_number_factor_partial",
    "ChanIn.C247_missing_file_partial",
    "ChanIn.C247_time_series_violated",
    "ChanIn.C247_number_factor_violated",
    "ChanIn.C247_zero_width_violated",
    "ChanIn.C247_both_formulas_violated",
    "ChanIn.C247_empty_file_violated"
   ],
   "note": "Proved: at every step the geometry is exactly what the inputs say for the first step (width with zeros replaced, angle in radians, lengths and slopes adjusted, initial depth and volume, the roughness of the chosen formula). The full statement is false of the code: update never reads the inputs again, so that time series and sequences stay at their first value; the factor of an input that is a number is ignored; a zero width that is one number raises an error; with both roughness formulas chosen both parameters become -1; an empty grid file is read as zeros."
  },
  {
   "property": "C248",
   "status": "partial",
   "theorems": [
    "FlowCode.C248_codes_partial",
    "FlowCode.C248_any_codes_partial",
    "FlowCode.C248_remainder_violated",
    "FlowCode.C248_other_codes_violated"
   ],
   "note": "Proved: for codes from 0 to 254 every cell gets the code of the same direction or 0, and there is no error exactly when the size of the file is a multiple of 1024 bytes. The full statement is false of the code: for other sizes an undefined name is called after everything was written; the table has no entry for 255; negative codes are taken as indices from the end of the table."
  },
  {
   "property": "C249",
   "status": "partial",
   "theorems": [
    "Slope2.C249_slopes_partial",
    "Slope2.C249_positive_partial",
    "Slope2.C249_runs_partial",
    "Slope2.C249_no_flat_violated",
    "Slope2.C249_few_slopes_violated",
    "Slope2.C249_long_flat_violated",
    "Slope2.C249_single_cell_violated"
   ],
   "note": "Proved for every grid that is written: each value is exactly the least of the own slope and the mean slopes of the paths over flats; it is positive wherever the flow leads to lower ground, but for single level cells at the head of a path. The full statement is false of the code: without a flat, with fewer than three different slopes and with flats longer than twice the shorter side of the grid the function raises an exception; a single level cell at the head of a path can keep the slope zero."
  },
  {
   "property": "C25",
   "status": "partial",
   "theorems": [
    "Chan.C25_partition_partial",
    "Chan.C25_edge_channel_volume_kept",
    "Chan.C25_reported_total",
    "Chan.C25_violated",
    "Chan.C25_no_flood"
   ],
   "note": "Holds in every cell with a flow direction. Violated in cells without flow direction, whose channel volume is not emptied with the total volume; the final report counts it again."
  },
  {
   "property": "C250",
   "status": "partial",
   "theorems": [
    "Recharge.C250_net_inflow_partial",
    "Recharge.C250_cells_partial",
    "Recharge.C250_attenuate_partial",
    "Recharge.C250_uniform_violated"
   ],
   "note": "Proved: the net inflow is computed and right exactly if the recharge rate (or rain rate) or the cell area is a grid, or no cell has a flow direction. The full statement is false of the code: for cells of fixed length and a uniform rate, for instance with the infiltration component disabled, the sum is a number and indexing it raises IndexError."
  },
  {
   "property": "C251",
   "status": "partial",
   "theorems": [
    "Recharge.C251_once_partial",
    "Recharge.C251_attenuate_violated"
   ],
   "note": "Proved for the Green-Ampt, Smith-Parlange and Beven methods with the Darcy component. The full statement is false of the code: the attenuating component takes the rain as recharge while the channel component keeps the rain less infiltration at the surface, so that without infiltration all rain counts twice."
  },
  {
   "property": "C252",
   "status": "partial",
   "theorems": [
    "SnowShape.C252_starts_partial",
    "SnowShape.C252_runs_partial",
    "SnowShape.C252_cells_partial",
    "SnowShape.C252_start_cells_partial",
    "SnowShape.C252_numbers_violated",
    "SnowShape.C252_grid_violated",
    "SnowShape.C252_series_violated"
   ],
   "note": "The property fails in the code: with numbers only the cold content is a NumPy number that cannot be changed in place, so the start fails; with temperature and snowfall as numbers, grids of melt factors, thresholds, initial water equivalents or (with a number as depth) densities let the first update fail; with a time series of densities the first one is used throughout. The partial theorems give the exact conditions for starting and running and what every cell then gets."
  },
  {
   "property": "C253",
   "status": "proved",
   "theorems": [
    "Round.C253_never_negative",
    "Round.C253_melt_capped",
    "Round.C253_update_balance",
    "Round.C253_balance",
    "Round.C253_doubles",
    "Round.C253_cap_rounded",
    "Round.C253_rounding_of_doubles"
   ],
   "note": "For every rounding with the properties of the structure Rounding, which doubles have (binary64, proved for an explicit model of IEEE 754 rounding without overflow). The bound is 5 u M + (4 + dt) eta for each update (u = 2^-53, eta = 2^-1075, M the most water in the pack plus snowfall). C253_cap_rounded: the cap can exceed the pack by the rounding of the quotient."
  },
  {
   "property": "C254",
   "status": "partial",
   "theorems": [
    "Round.C254_clock_forwards",
    "Round.C254_clock_exact",
    "Round.C254_clock_error",
    "Round.C254_seconds_clock",
    "Round.C254_n_steps",
    "Round.C254_model_time_within_one",
    "Round.C254_one_update_per_pass",
    "Round.C254_keeps_up_partial",
    "Round.C254_lag_bounded",
    "Round.C254_whole_steps",
    "Round.C254_model_time_whole_seconds",
    "Round.C254_model_time_doubles",
    "Round.C254_model_time_violated",
    "Round.C254_keeps_up_violated"
   ],
   "note": "Two parts fail in the code (proved on runs in doubles): one minute in steps of 0.8 s takes 76 updates instead of 75, and a component with steps of 0.1 minutes is behind the framework after the pass at 48 s. Proved instead: the number of updates for a model time is exact for whole seconds and never off by more than one (up to 33 million updates); components that keep time in seconds do keep up, and with other units they are behind by at most a few relative rounding errors for each pass."
  },
  {
   "property": "C255",
   "status": "proved",
   "theorems": [
    "RoundChan.C255_same_number",
    "RoundChan.C255_cell_balance",
    "RoundChan.C255_update_balance",
    "RoundChan.C255_never_negative",
    "RoundChan.C255_balance",
    "RoundChan.C255_doubles"
   ],
   "note": "Sums over the grid (the total and the water gone over the edge) are exact sums of the machine volumes: the order of additions inside numpy.sum is not modelled. Discharge and excess rate are arbitrary grids; that discharge is zero in cells without flow direction is a hypothesis, proved for the exact model in C22."
  },
  {
   "property": "C256",
   "status": "partial",
   "theorems": [
    "Import.C256_types",
    "Import.C256_geotiff_partial",
    "Import.C256_geotiff_violated",
    "Import.C256_edges",
    "Import.C256_import_partial",
    "Import.C256_import_violated",
    "Import.C256_import_types"
   ],
   "note": "The property fails in the code: read_from_geotiff tests the method srs.IsProjected without calling it, so every raster with longitudes and latitudes is recorded as projected with its cell size in degrees taken for meters; import_dem_as_rtg records every projected raster as geographic. Proved: right for projected rasters in the first case and for geographic ones in the second, the edges in all cases, and exactly which data types are accepted. Numbers are exact; the text format of the file is C38."
  },
  {
   "property": "C257",
   "status": "partial",
   "theorems": [
    "Import.C257_geotiff_partial",
    "Import.C257_geotiff_double_violated",
    "Import.C257_geotiff_integer_violated",
    "Import.C257_import_partial",
    "Import.C257_import_integer_violated",
    "Import.C257_import_type_violated"
   ],
   "note": "The property fails in the code except for single precision rasters (proved; import_dem_as_rtg on a little-endian machine): the first way writes FLOAT values but leaves the type of the raster in the information file, so a DOUBLE raster cannot be read and an INTEGER one comes back with values from half of its cells; import_dem_as_rtg writes the bytes of the raster but records FLOAT, so 8 and 16 bit rasters cannot be read and 32 bit integers and doubles come back as other numbers."
  },
  {
   "property": "C258",
   "status": "proved",
   "theorems": [
    "Sphere.C258_great_circle",
    "Sphere.C258_metric",
    "Sphere.C258_turn"
   ],
   "note": "Over the real numbers; floating point is not modelled here."
  },
  {
   "property": "C259",
   "status": "proved",
   "theorems": [
    "Sphere.C259_closest",
    "Sphere.C259_unknown"
   ],
   "note": "The table of gauges is a parameter; distances are real numbers."
  },
  {
   "property": "C26",
   "status": "proved",
   "theorems": [
    "Chan.C26_peaks",
    "Chan.C26_outlet_values"
   ],
   "note": ""
  },
  {
   "property": "C260",
   "status": "partial",
   "theorems": [
    "Sphere.C260_minus_zero_violated",
    "Sphere.C260_dms_partial"
   ],
   "note": "The property fails in the code exactly for \"-0\" degrees with minutes or seconds: the sign is lost (first theorem; the second one is an equivalence)."
  },
  {
   "property": "C261",
   "status": "proved",
   "theorems": [
    "Sphere.C261_box",
    "Sphere.C261_default",
    "Sphere.C261_tests"
   ],
   "note": "numpy.around is modelled as exact rounding to the nearest multiple, ties to even."
  },
  {
   "property": "C262",
   "status": "proved",
   "theorems": [
    "Sphere.C262_inside",
    "Sphere.C262_outside",
    "Sphere.hlr_consistent"
   ],
   "note": "The projection is the Lambert azimuthal formula of C155; missing values are recognised only as the text \"-9999\"."
  },
  {
   "property": "C263",
   "status": "proved",
   "theorems": [
    "Collate.C263_lines",
    "Collate.C263_fields"
   ],
   "note": "The lines for basins without USGS id that are appended at the end of the file are not modelled."
  },
  {
   "property": "C264",
   "status": "partial",
   "theorems": [
    "Collate.C264_values_partial",
    "Collate.C264_values_known_partial",
    "Collate.C264_lost_rows_violated",
    "Collate.C264_empty_cell_violated",
    "Collate.C264_repeated_violated"
   ],
   "note": "The property fails in the code: a row for a gauge that is in none of the nine datasets makes collate ignore all later rows of that file; an empty cell counts as a value; of repeated ids the first row is used although the comment says the last. Proved for sorted files with terminated lines: exactly which row is used and which value is taken."
  },
  {
   "property": "C265",
   "status": "partial",
   "theorems": [
    "Collate.C265_area_partial",
    "Collate.C265_elev_partial",
    "Collate.C265_area_violated",
    "Collate.C265_elev_violated"
   ],
   "note": "The property fails in the code: an elevation in feet from HCDN is labelled \"m\" for gauges in GAGES-II that are not in NWIS, and an area gets the unit of the first dataset with a row even if that row has no area. Proved: the unit of the area is that of the first dataset with a row for the gauge, and it is right if the area in that row is set. Elevations are right for gauges with a row in NWIS, and for gauges of HCDN that are in neither NWIS nor GAGES-II."
  },
  {
   "property": "C266",
   "status": "partial",
   "theorems": [
    "Collate.C266_sorted",
    "Collate.C266_file_partial",
    "Collate.C266_last_line_violated"
   ],
   "note": "The property fails in the code for a file whose last line has no newline: this line is joined to the one that follows it after sorting. Proved for all other files."
  },
  {
   "property": "C267",
   "status": "proved",
   "theorems": [
    "RoundTotal.C267_never_decreases",
    "RoundTotal.C267_total",
    "RoundTotal.C267_error",
    "RoundTotal.C267_doubles",
    "RoundTotal.C267_any_order"
   ],
   "note": ""
  },
  {
   "property": "C268",
   "status": "partial",
   "theorems": [
    "Rts.C268_convert_partial",
    "Rts.C268_narrow_violated",
    "Rts.C268_double_violated"
   ],
   "note": "The property fails in the code for data types other than float32: the grids are always read as float32. For uint8 and int16 stacks convert_units fails after having created the new file; for float64 stacks it writes wrong values without an error. Proved for all float32 stacks."
  },
  {
   "property": "C269",
   "status": "partial",
   "theorems": [
    "Smooth.C269_binomial",
    "Smooth.C269_plane",
    "Smooth.C269_inside_bounds",
    "Smooth.C269_volume",
    "Smooth.C269_bounds_partial",
    "Smooth.C269_edges_violated",
    "Smooth.C269_no_pass_violated"
   ],
   "note": "The property fails in the code less than 2n cells away from an edge, where cells outside the DEM count as elevation zero: a level plain of positive height comes out lower there. With zero passes the method fails. Proved: the mean, its bounds and the invariance of planes at all other cells; bounds that include zero, and the volume, for the whole DEM."
  },
  {
   "property": "C27",
   "status": "proved",
   "theorems": [
    "FloatGrid.C27_checked_update",
    "FloatGrid.C27_one_bad_cell",
    "FloatGrid.C27_nan_depths_pass",
    "FloatGrid.C27_unchecked"
   ],
   "note": "NaN depths are not detected (the property does not claim it; the error text does)."
  },
  {
   "property": "C270",
   "status": "proved",
   "theorems": [
    "Smooth.C270_mask"
   ],
   "note": ""
  },
  {
   "property": "C271",
   "status": "partial",
   "theorems": [
    "InfilCheck.C271_update_partial",
    "InfilCheck.C271_run_partial",
    "InfilCheck.C271_richards_violated"
   ],
   "note": "The property fails in the code for the Richards component with its default settings: the check is skipped unless CHECK_STABILITY is set in the configuration file, and NaN rates are written. Proved for all other cases. The process ends by sys.exit() without an argument, so its exit code is zero."
  },
  {
   "property": "C272",
   "status": "partial",
   "theorems": [
    "OutName.C272_directory_partial",
    "OutName.C272_flow_grids_partial",
    "OutName.C272_infiltration_partial",
    "OutName.C272_channels_partial",
    "OutName.C272_met_partial",
    "OutName.C272_no_extension_violated",
    "OutName.C272_flow_grids_violated",
    "OutName.C272_infiltration_violated",
    "OutName.C272_profiles_violated"
   ],
   "note": "The property fails in the code in four cases. A file name without an extension is cut at a dot of the directory. The flow grids cut their names at the first dot, so names with a common part that contains a dot become one name. Three infiltration components switch off the saving of surface soil moisture and wetting front depth at the start, so no file is created although the configuration file asks for it. The files for soil profiles of the Richards component cannot be opened at all; soil cubes are outside this model, see C137. Proved for all other cases."
  },
  {
   "property": "C273",
   "status": "partial",
   "theorems": [
    "InfilShape.C273_green_ampt_partial",
    "InfilShape.C273_smith_parlange_partial",
    "InfilShape.C273_beven_partial",
    "InfilShape.C273_beven_violated",
    "InfilShape.C273_beven_numbers_violated",
    "InfilShape.C273_cells_partial",
    "InfilShape.C273_totals"
   ],
   "note": "The property fails in the code for two of the three methods. Smith-Parlange cannot read any parameter from a file (it stores values in lists that do not exist), so it runs exactly with numbers in the configuration file. The formula of Beven uses two parameters as arrays over layers: with numbers only the first ordinary update fails, and a grid for one of the two fails always. Green-Ampt is proved for all combinations. The water table at the surface is ignored when depths are one number or when all water infiltrates everywhere (C273_cells_partial)."
  },
  {
   "property": "C274",
   "status": "partial",
   "theorems": [
    "Defaults.C274_met_partial",
    "Defaults.C274_met_start_iff",
    "Defaults.C274_met_violated",
    "Defaults.C274_driver",
    "Defaults.C274_cold_content",
    "Defaults.C274_infil_partial",
    "Defaults.C274_infil_violated"
   ],
   "note": "The property fails in the code in two cases. The meteorology component does not start without the names of the files for surface temperature and albedo, unless only precipitation is wanted. Infiltration methods other than Richards turn four output switches off that the file may have turned on. Everything else is proved."
  },
  {
   "property": "C275",
   "status": "partial",
   "theorems": [
    "Defaults.C275_number_partial",
    "Defaults.C275_file_violated"
   ],
   "note": "The property fails in the code for thresholds from a file: no file is read and the threshold is 0. Proved for numbers and for a missing entry. The cell is the unit of the model; arrays are cellwise."
  },
  {
   "property": "C276",
   "status": "partial",
   "theorems": [
    "FinalReport.C276_report_partial",
    "FinalReport.C276_peaks_violated",
    "FinalReport.C276_time_partial",
    "FinalReport.C276_model_time_iff",
    "FinalReport.C276_time_violated"
   ],
   "note": "The property fails in the code in two places. Peak velocity and peak depth are printed with the unit m^3/s. The simulated time is the stopping time and not the time that was simulated, if the run stops at a model time. All other lines are proved. Whether the delivered values are those of the end of the run is C225; the words gain and loss are in C43."
  },
  {
   "property": "C277",
   "status": "partial",
   "theorems": [
    "Rfc.C277_rows",
    "Rfc.C277_codes_partial",
    "Rfc.C277_codes_violated"
   ],
   "note": "Proved in full for the rows and the three totals. The full statement is false of the code: the count of a code starts at zero with its first row, so that each reported count is one too small."
  },
  {
   "property": "C278",
   "status": "partial",
   "theorems": [
    "Rfc.C278_entries_partial",
    "Rfc.C278_saved_violated"
   ],
   "note": "Proved in full for calls without a saved dictionary (all six files assumed to be there). The full statement is false of the code: once a dictionary has been saved, every later call returns it whatever the files contain."
  },
  {
   "property": "C279",
   "status": "partial",
   "theorems": [
    "Rfc.C279_rows_partial",
    "Rfc.C279_short_header_violated",
    "Rfc.C279_last_column_violated"
   ],
   "note": "Proved if every header has at least two columns, as an equivalence, with headings read up to the newline character. The full statement is false of the code: a file that is empty or has one column silently drops its center and all later ones, and a needed column that comes last is not found because its heading is read with the newline character."
  },
  {
   "property": "C28",
   "status": "proved",
   "theorems": [
    "FloatGrid.C28_slopes_repaired",
    "FloatGrid.C28_no_good_slope"
   ],
   "note": ""
  },
  {
   "property": "C280",
   "status": "proved",
   "theorems": [
    "Plan.C280_period"
   ],
   "note": "Dates are compared by stepping from day to day. The part of a call up to the configuration files is modelled."
  },
  {
   "property": "C281",
   "status": "partial",
   "theorems": [
    "Plan.C281_rain_partial",
    "Plan.C281_gpm_violated",
    "Plan.C281_test_violated",
    "Plan.C281_mixed_violated",
    "Plan.C281_leftover_violated"
   ],
   "note": "Proved for the NextGen file, CHIRPS, CHIRPS over ten years and GLDAS, each chosen alone, after any history. The full statement is false of the code: GPM always ends with an error, test rainfall alone ends with an error, two sources are mixed, and with no source an object that was used before writes a file named None."
  },
  {
   "property": "C282",
   "status": "partial",
   "theorems": [
    "Plan.C282_basin_partial",
    "Plan.C282_history_violated",
    "Plan.C282_unknown_violated"
   ],
   "note": "Proved for everything but the option that the basin drains to the ocean, and for that in the four basins that set it. The full statement is false of the code: the other five basins keep the option of the basin before, and an unknown basin keeps all values."
  },
  {
   "property": "C283",
   "status": "partial",
   "theorems": [
    "Plan.C283_files_distinct",
    "Plan.C283_sites_apart",
    "Plan.C283_dirs_partial",
    "Plan.C283_products_partial",
    "Plan.C283_dirs_violated",
    "Plan.C283_case_violated"
   ],
   "note": "Files: proved in full. Directories: proved if the meteorology is prepared. The full statement is false of the code: with the default option runs with different rainfall share a directory, and only the case prefix of the shipped templates works."
  },
  {
   "property": "C284",
   "status": "partial",
   "theorems": [
    "SiteId.C284_table_partial",
    "SiteId.C284_common_partial",
    "SiteId.C284_last_line_violated",
    "SiteId.C284_option_violated"
   ],
   "note": "Proved if every line of the tables is ended by a newline character. The full statement is false of the code: the last character of a last line without newline character is lost, and with an unknown option nothing is returned and no error raised. Digits are the ten ASCII digits."
  },
  {
   "property": "C285",
   "status": "partial",
   "theorems": [
    "Catch.C285_geographic_partial",
    "Catch.C285_albers_partial",
    "Catch.C285_buffer_violated",
    "Catch.C285_conic_violated"
   ],
   "note": "Geographic files: proved after any calls, for buffers that are not negative (a negative one is ignored). Albers: proved without buffer if the transformation is monotonic in each coordinate. The full statement is false of the code: in Albers coordinates a buffer always ends with an error, and for every conic projection the box over the central meridian does not hold its northern point. The transformation of GDAL is a parameter; polygons only, no multipolygons."
  },
  {
   "property": "C286",
   "status": "partial",
   "theorems": [
    "Catch.C286_lookup_partial",
    "Catch.C286_headwaters_partial",
    "Catch.C286_ocean_partial",
    "Catch.C286_ocean_violated",
    "Catch.C286_newer_violated",
    "Catch.C286_prefix_violated"
   ],
   "note": "Proved for files of the older kind with IDs cat-\u2026 and nex-\u2026, the number of ocean outlets for the first time it is asked for. The full statement is false of the code: the count is stored under the name of the method, so that a second call fails; in files of the newer kind all three lookups fail; an outlet ID with another prefix hides a headwater catchment."
  },
  {
   "property": "C287",
   "status": "partial",
   "theorems": [
    "Catch.C287_clip_partial",
    "Catch.C287_values",
    "Catch.C287_both_violated",
    "Catch.C287_conic_violated"
   ],
   "note": "Elevations: proved. Coordinate system and bounds: proved if not both clip options are set, the bounds for the four corners of the box. The full statement is false of the code: with both options a geographic grid is written as Albers, and for every conic projection the southern edge is cut off over the central meridian if its parallel sags by a metre or more. The warping of GDAL and single precision are not modelled."
  },
  {
   "property": "C288",
   "status": "partial",
   "theorems": [
    "CalCfg.C288_read_partial",
    "CalCfg.C288_prefix_violated",
    "CalCfg.C288_equals_violated",
    "CalCfg.C288_placeholder_violated",
    "CalCfg.C288_defaults_violated"
   ],
   "note": "Proved for files whose lines have at most one equals sign and a name before it, with texts that do not look like numbers and placeholders at the beginning of a directory. The full statement is false of the code: a prefix of digits is made a number and the file cannot be read; a value ends before a second equals sign; a placeholder without separator is not replaced, and that of the home directory only in the output directory; the defaults lack the separators of columns. Numbers with a decimal point are a parameter; whole numbers are an optional sign and ASCII digits."
  },
  {
   "property": "C289",
   "status": "partial",
   "theorems": [
    "Bov.C289_header_partial",
    "Bov.C289_name_partial",
    "Bov.C289_name_violated",
    "Bov.C289_order",
    "Bov.C289_order_violated",
    "Bov.C289_extent",
    "Bov.C289_extent_violated"
   ],
   "note": "Proved for the name of the grid file, numbers of columns and rows, data type, variable and corner, and for the name of the header if the grid file has an extension. The full statement is false of the code: the byte order is that of the machine, also when the values are swapped; the extent is given as numbers of cells, which is right only for cells of one unit; without an extension the last character of the name is lost. The text of coordinates is a parameter."
  },
  {
   "property": "C29",
   "status": "proved",
   "theorems": [
    "Infil.C29_bounds",
    "Infil.C29_volume",
    "Infil.C29_decreases_with_depth",
    "Infil.C29_start",
    "Infil.C29_totals"
   ],
   "note": "Also covers Smith-Parlange. The lower bound excepts cells where the water table is at the surface (C30). C29_beven_partial gives the bounds for the third method, which the property does not mention. The model has numbers and grids only; which combinations of kinds let an update fail is C273."
  },
  {
   "property": "C290",
   "status": "partial",
   "theorems": [
    "Dialog.C290_content_partial",
    "Dialog.C290_balanced_violated",
    "Dialog.C290_help_violated",
    "Dialog.C290_columns_violated"
   ],
   "note": "The content is proved for files with a help line whose settings have seven columns; an existing file is kept. The full statement is false of the code: the tab of the last group is never closed, so that the file is not well-formed for any configuration file with a group; without a help line the call ends with an error and leaves an unclosed dialog; settings with fewer than seven columns, as in the current configuration files, end it with an error. Missing: indentation and comments, and that texts with markup characters are not escaped."
  },
  {
   "property": "C291",
   "status": "partial",
   "theorems": [
    "Hcdn.C291_table_partial",
    "Hcdn.C291_columns_unique",
    "Hcdn.C291_tab_violated"
   ],
   "note": "Proved for files without a tab within a column, for lines of every length. False otherwise: such a line gives a row with more columns than the header."
  },
  {
   "property": "C292",
   "status": "partial",
   "theorems": [
    "Hcdn.C292_names_partial",
    "Hcdn.C292_plain_violated",
    "Hcdn.C292_url_partial",
    "Hcdn.C292_observatory_partial",
    "Hcdn.C292_url_violated"
   ],
   "note": "Proved for values with an abbreviation in parentheses at the end, and for the addresses of the sites of the built-in table without report. The full statement is false of the code: without parentheses all sites get the same ID and the name loses its last character; with a report the call always fails; the option for the group is ignored unless another is switched off; the addresses of the two Luquillo catchments are exchanged."
  },
  {
   "property": "C293",
   "status": "partial",
   "theorems": [
    "Camels.C293_whole",
    "Camels.C293_units_partial",
    "Camels.C293_last_violated",
    "Camels.C293_order_violated"
   ],
   "note": "Proved for the shapefile of whole basins, and for that of units for every basin but the last if the units of a basin follow one another; a number below one counts as one. False otherwise: the last basin never gets a row, and units that do not follow one another give several rows. The reading of polygons, the change of coordinates and the sorting of the finished file are not modelled."
  },
  {
   "property": "C294",
   "status": "partial",
   "theorems": [
    "Camels.C294_header",
    "Camels.C294_rows_partial",
    "Camels.C294_order_violated",
    "Camels.C294_newline_violated"
   ],
   "note": "Proved if the four files have the same basins in the same order, IDs of eight characters and complete lines. The full statement is false of the code: the IDs of three files are not looked at, so that another order mixes basins, and a last line without newline character loses its last character."
  },
  {
   "property": "C295",
   "status": "partial",
   "theorems": [
    "Ars.C295_rows_partial",
    "Ars.C295_names",
    "Ars.C295_blank_names",
    "Ars.C295_headings_violated"
   ],
   "note": "Number and order of rows, sixteen cells in each row, and ID, location and state filled from above are proved, as are the watershed names: given in the line, that of 9002, and blank ones, which are those of the row before. The statement about headings is false of the code: the names of the fourth and fifth column stand in one string, so that the table has fifteen headings."
  },
  {
   "property": "C296",
   "status": "partial",
   "theorems": [
    "Ars.C296_positions",
    "Ars.C296_corrected",
    "Ars.C296_dates_partial",
    "Ars.C296_start_violated"
   ],
   "note": "Positions are proved; for the watersheds 69051 to 69053 the code sets the degrees of the longitude to 97. A blank first date is not blank in the table: 19 followed by blanks and hyphens is written. Rounding and texts of numbers are parameters of the model."
  },
  {
   "property": "C297",
   "status": "proved",
   "theorems": [
    "Ars.C297_names"
   ],
   "note": "Proved for every row and its split by tabs."
  },
  {
   "property": "C298",
   "status": "partial",
   "theorems": [
    "Center.C298_fourth_partial",
    "Center.C298_bound_partial",
    "Center.C298_euclid_violated",
    "Center.C298_places_violated"
   ],
   "note": "The full statement is false of the code: the squares of the differences are squared once more, so that the site with the smallest sum of fourth powers is named, and the search ends with an error if the number of sites is not the expected one. Proved: the site is the first with the smallest sum of fourth powers, and its Euclidean distance is at most the fourth root of 3 times the smallest. Indicators are real numbers."
  },
  {
   "property": "C299",
   "status": "partial",
   "theorems": [
    "ClimTab.C299_rows_partial",
    "ClimTab.C299_zero_violated"
   ],
   "note": "Proved for sites that the dictionary has under the ID of the source, and for complete lines whose column names differ from one another and from the new ones. The full statement is false of the code: a site is looked up before its ID is put right, so that a site with a missing zero gets no row if only its right ID is in the dictionary. The indicators are a parameter of the model."
  },
  {
   "property": "C30",
   "status": "partial",
   "theorems": [
    "Infil.C30_water_table_partial",
    "Infil.C30_violated",
    "Infil.C30_scalar_ignored"
   ],
   "note": "False in general: uniform supply below the conductivity, or a rate kept as a scalar, skips the water table check. Proved: it holds whenever the rate after the low rain check is a grid."
  },
  {
   "property": "C31",
   "status": "proved",
   "theorems": [
    "Snow.C31_melt_bounded",
    "Snow.C31_conservation",
    "Snow.C31_volumes",
    "Snow.C31_from_start"
   ],
   "note": ""
  },
  {
   "property": "C32",
   "status": "proved",
   "theorems": [
    "Snow.C32_step",
    "Snow.C32_history",
    "Snow.C32_history_exact",
    "Snow.C32_delay",
    "Snow.C32_initial",
    "Snow.C32_initial_amount"
   ],
   "note": "The sign in the English statement was corrected during review (it first said minus the drop); the theorems did not change."
  },
  {
   "property": "C33",
   "status": "partial",
   "theorems": [
    "Met.C33_split",
    "Met.C33_volumes",
    "Met.C33_completes_partial",
    "Met.C33_violated"
   ],
   "note": "The split holds in every update that completes. A uniform precipitation rate with a non-constant air temperature raises IndexError at the first update (C33_violated)."
  },
  {
   "property": "C34",
   "status": "partial",
   "theorems": [
    "Satzone.C34_initial_layers",
    "Satzone.C34_falling_partial",
    "Satzone.C34_saturated_partial",
    "Satzone.C34_rising_violated",
    "Satzone.C34_ponded_violated",
    "Satzone.C34_exhausted",
    "Satzone.C34_noflow_violated"
   ],
   "note": "Proved for withdrawals from a column without standing water and for inflow into a full column. False for every inflow into a column that is not full (it is filled for free) and for withdrawals from a column with standing water (counted twice)."
  },
  {
   "property": "C35",
   "status": "partial",
   "theorems": [
    "Satzone.C35_violated",
    "Satzone.C35_seepage_below_surface"
   ],
   "note": "Refuted: for every layer stack the land surface is lowered by the total layer thickness; C35_seepage_below_surface shows the effect on seepage."
  },
  {
   "property": "C36",
   "status": "partial",
   "theorems": [
    "Canal.C36_delay_line_partial",
    "Canal.C36_totals",
    "Canal.C36_sources",
    "Canal.C36_sources_accepted",
    "Canal.C36_zero_time_violated",
    "Canal.C36_float_index_violated"
   ],
   "note": "Proved for positive travel times with a numpy that accepts float indices (up to 1.11). With any later numpy the first update raises IndexError; a canal with travel time zero gets the delay of the longest canal. The component also uses attributes it never sets (see CanalModel)."
  },
  {
   "property": "C37",
   "status": "partial",
   "theorems": [
    "Rts.C37_append_read_partial",
    "Rts.C37_overwrite_read_partial",
    "Rts.C37_index_on_new_file_violated",
    "Rts.C37_update_violated",
    "Rts.C37_append_after_reopen_violated",
    "Rts.C37_scalar_violated",
    "Rts.C37_default_dtype_violated",
    "Rts.C37_closed",
    "Rts.C37_new_file_write_only",
    "Rts.C37_scalar_grid"
   ],
   "note": "Proved: appending grids to a new file and reopening it returns them by index, and overwriting on an object opened for reading and then given a dtype. Refuted: an indexed write on a new file (no grid_size), any write after open_file (no dtype), scalars (ValueError), the float32 default on other types."
  },
  {
   "property": "C38",
   "status": "partial",
   "theorems": [
    "Rti.C38_round_trip_partial",
    "Rti.C38_nan_violated",
    "Rti.C38_newline_violated",
    "Rti.C38_rounding",
    "Rti.C38_white_space"
   ],
   "note": "Round trip proved for records whose text fields are stripped upper case lines and numbers with at most 12 decimals (exact arithmetic); NaN limits and line breaks in text fields refute it in general."
  },
  {
   "property": "C39",
   "status": "partial",
   "theorems": [
    "Files.C39_free_name",
    "Files.C39_never_existing",
    "Files.C39_no_extension_violated",
    "Rts.C39_info_file_violated"
   ],
   "note": "The chosen name never exists and is the first free one for names with an extension. For names without extension the last character is moved; the .rti sidecar of the new file can still be overwritten."
  },
  {
   "property": "C40",
   "status": "proved",
   "theorems": [
    "Input.C40_time_series",
    "Input.C40_blank_line",
    "Input.C40_bad_line",
    "Input.C40_grid_sequence",
    "Input.C40_truncated",
    "Input.C40_scalar",
    "Input.C40_before_first_read"
   ],
   "note": "A blank line counts as exhausted data for that one read."
  },
  {
   "property": "C41",
   "status": "partial",
   "theorems": [
    "Output.C41_due_iff",
    "Output.C41_whole_partial",
    "Output.C41_whole_given_partial",
    "Output.C41_zero_interval_violated",
    "Output.C41_real_step_partial",
    "Output.C41_short_step_violated",
    "Output.C41_fractional_violated",
    "Output.C41_subsecond_violated",
    "Output.C41_seconds"
   ],
   "note": "Proved for whole seconds and for real steps of at least one second dividing a whole save interval. Refuted for steps below one second (extra saves), fractional intervals of two seconds or more (missed saves) and intervals below one second (ZeroDivisionError). Snow, groundwater, evaporation, ice and glacier never reach the line that raises the interval to the time step: there an interval shorter than the time step is used as given (C41_whole_given_partial) and an interval below one second stops the run whatever the time step (C41_zero_interval_violated)."
  },
  {
   "property": "C42",
   "status": "partial",
   "theorems": [
    "TimeInfo.C42_any_offset",
    "TimeUtils.C42_roundtrip_partial",
    "TimeUtils.C42_years_violated",
    "TimeUtils.C42_months_violated",
    "TimeUtils.C42_month_difference",
    "TimeUtils.C42_month_inverse",
    "TimeUtils.C42_hhmm",
    "TimeUtils.C42_hhmm_back_violated"
   ],
   "note": "Round trip proved for weeks, days, hours, minutes and seconds over the whole proleptic Gregorian calendar (exact arithmetic); month differences proved; refuted for years (365-day years against calendar years), months (KeyError) and for feeding hhmm numbers back."
  },
  {
   "property": "C43",
   "status": "partial",
   "theorems": [
    "Driver.C43_reported_error",
    "Driver.C43_no_error_partial",
    "Driver.C43_ice_melt_reported_as_error",
    "Driver.C43_label_reversed",
    "Driver.C43_violated"
   ],
   "note": "The full claim is false: glacier melt enters the channels but not the report, so it is printed as an error, and the gain/loss label is reversed. Without ice melt the reported error is zero."
  },
  {
   "property": "C44",
   "status": "partial",
   "theorems": [
    "Fill.C44_nodata_cell_raised",
    "Fill.C44_marked_cells_kept_partial"
   ],
   "note": "Violated by the code (proved)."
  },
  {
   "property": "C45",
   "status": "partial",
   "theorems": [
    "BMI.C45_current_time_is_live",
    "BMI.C45_violated"
   ],
   "note": "Violated by the code (proved for all update sequences)."
  },
  {
   "property": "C46",
   "status": "partial",
   "theorems": [
    "BMI.C46_parts_overcount",
    "BMI.C46_parts_add_up_iff",
    "BMI.C46_violated"
   ],
   "note": "Violated by the code unless the time is a whole number of days (proved)."
  },
  {
   "property": "C47",
   "status": "partial",
   "theorems": [
    "Evap.C47_reported_and_removed",
    "Evap.C47_agree_iff",
    "Evap.C47_violated",
    "Evap.C47_scalar_rate_ignored"
   ],
   "note": "The full claim is false; proved: equality holds exactly when no cell with demand runs short of water."
  },
  {
   "property": "C48",
   "status": "partial",
   "theorems": [
    "Chan.C48_update_completes",
    "Chan.C48_dynamic_wave_always_fails"
   ],
   "note": "Proved for the kinematic and diffusive methods; false for the dynamic wave method, which fails in every state."
  },
  {
   "property": "C49",
   "status": "proved",
   "theorems": [
    "Evap.C49_rates_nonneg",
    "Evap.C49_energy_balance",
    "Evap.C49_pt_monotone",
    "Evap.C49_soil_heat"
   ],
   "note": ""
  },
  {
   "property": "C50",
   "status": "partial",
   "theorems": [
    "Infil.C50_more_supply_more_infiltration",
    "Infil.C50_beven_violated"
   ],
   "note": "Proved for Green-Ampt and Smith-Parlange; false for the Beven method. (The formula; for the combinations of inputs with which that component runs at all see C273.)"
  },
  {
   "property": "C51",
   "status": "partial",
   "theorems": [
    "Snow.C51_glacier",
    "Snow.C51_snow_violated"
   ],
   "note": "Proved for the glacier component; false for the snow component."
  },
  {
   "property": "C52",
   "status": "proved",
   "theorems": [
    "Snow.C52_glacier_melt",
    "Snow.C52_glacier_conservation"
   ],
   "note": ""
  },
  {
   "property": "C53",
   "status": "partial",
   "theorems": [
    "Snow.C53_glacier_energy_partial",
    "Snow.C53_violated"
   ],
   "note": "Proved for updates without snowfall; with snowfall energy is counted twice, by exactly the amount stated in C53_violated."
  },
  {
   "property": "C54",
   "status": "partial",
   "theorems": [
    "Met.C54_rain_follows_data",
    "Met.C54_constant_rain",
    "Met.C54_blank_line_violated"
   ],
   "note": "Proved for files without blank lines; a blank line followed by data is counterexample."
  },
  {
   "property": "C55",
   "status": "partial",
   "theorems": [
    "MetEnergy.C55_dew_point_partial",
    "MetEnergy.C55_dew_point_cold_or_warm_partial",
    "MetEnergy.C55_violated",
    "MetEnergy.C55_freezing_point",
    "MetEnergy.C55_precipitable_water"
   ],
   "note": "False for saturated air between 2 and 10 C; proved within 0.01 C everywhere and exactly outside that band."
  },
  {
   "property": "C56",
   "status": "proved",
   "theorems": [
    "MetEnergy.C56_vapor_pressure",
    "MetEnergy.C56_flux_direction",
    "MetEnergy.C56_stability",
    "MetEnergy.C56_surface_temperature",
    "MetEnergy.C56_richardson",
    "MetEnergy.C56_log_profile"
   ],
   "note": ""
  },
  {
   "property": "C57",
   "status": "partial",
   "theorems": [
    "MetEnergy.C57_three_day_total",
    "MetEnergy.C57_long_step",
    "MetEnergy.C57_age",
    "MetEnergy.C57_range",
    "MetEnergy.C57_darkens_partial",
    "MetEnergy.C57_violated"
   ],
   "note": "Darkening proved while the air stays on one side of freezing; albedo jumps up when it turns cold (C57_violated). Time steps over three days raise IndexError (C57_long_step)."
  },
  {
   "property": "C58",
   "status": "partial",
   "theorems": [
    "MetEnergy.C58_net_longwave",
    "MetEnergy.C58_emissivity_partial",
    "MetEnergy.C58_violated",
    "MetEnergy.C58_satterlund"
   ],
   "note": "The balance is proved; the emissivity bound fails for saturated overcast air at 20 C and above."
  },
  {
   "property": "C59",
   "status": "partial",
   "theorems": [
    "Satzone.C59_cell",
    "Satzone.C59_total",
    "Satzone.C59_depth",
    "Satzone.C59_darcy_partial",
    "Satzone.C59_darcy_violated",
    "Satzone.C59_slope"
   ],
   "note": "Conservation of lateral flow is proved. Darcy discharge proved unless the previous discharge was negative; negative discharges accumulate (C59_darcy_violated)."
  },
  {
   "property": "C60",
   "status": "partial",
   "theorems": [
    "Satzone.C60_seepage_sign",
    "Satzone.C60_seepage_amount_partial",
    "Satzone.C60_crossing_violated"
   ],
   "note": "Amount proved once the water table is at the surface; false in the step in which it crosses the surface."
  },
  {
   "property": "C61",
   "status": "proved",
   "theorems": [
    "Files.C61_info_file"
   ],
   "note": "Full statement for every name and every set of existing files."
  },
  {
   "property": "C62",
   "status": "partial",
   "theorems": [
    "Output.C62_channels",
    "Output.C62_snow",
    "Output.C62_met",
    "Output.C62_satzone_partial",
    "Output.C62_frozen_depth_violated",
    "Output.C62_infiltration_rate_violated",
    "Output.C62_frozen_depth_pixels_violated",
    "Output.C62_infiltration_rate_pixels_violated",
    "Output.C62_evaporation_violated",
    "Output.C62_ice_water_violated"
   ],
   "note": "Proved for channel flow, snow, meteorology and groundwater without frozen depth. Refuted for frozen depth and infiltration rate (grids lost, time series raise), evaporation time series (closing raises) and ice water equivalent (never closed). For the components that do not raise the save interval to the time step (snow, groundwater, evaporation, ice, glacier) the intervals are at least one second; below that C41_zero_interval_violated applies."
  },
  {
   "property": "C63",
   "status": "partial",
   "theorems": [
    "TimeUtils.C63_datetime_str",
    "TimeUtils.C63_minutes_partial",
    "TimeUtils.C63_separator",
    "TimeUtils.C63_fraction_violated"
   ],
   "note": "Proved for whole seconds; refuted for fractions of a second."
  },
  {
   "property": "C64",
   "status": "proved",
   "theorems": [
    "Richards.C64_theta_psi_theta",
    "Richards.C64_psi_theta_psi",
    "Richards.C64_psi_strictMono",
    "Richards.C64_psi_saturated",
    "Richards.C64_psi_le",
    "Richards.C64_theta_range",
    "Richards.C64_theta_strictMono",
    "Richards.C64_cm",
    "Richards.C64_conductivity_agree",
    "Richards.C64_conductivity_range",
    "Richards.C64_conductivity_strictMono",
    "Richards.C64_min_value"
   ],
   "note": "Over the real numbers (no rounding)."
  },
  {
   "property": "C65",
   "status": "partial",
   "theorems": [
    "Richards.C65_moisture_range",
    "Richards.C65_saturation_range",
    "Richards.C65_head_conductivity",
    "Richards.C65_infiltration_limits",
    "Richards.C65_supply",
    "Richards.C65_saturated_rate",
    "Richards.C65_steady_state",
    "Richards.C65_infiltration_sign_violated"
   ],
   "note": "All ranges, limits and the steady state proved for every history; refuted: the reported infiltration rate can be negative without evaporation."
  },
  {
   "property": "C66",
   "status": "partial",
   "theorems": [
    "Richards.C66_balance_partial",
    "Richards.C66_no_creation_partial",
    "Richards.C66_entering_water",
    "Richards.C66_reported_storage_error",
    "Richards.C66_layers_violated",
    "Richards.C66_reported_storage_violated",
    "Richards.C66_reported_infiltration_violated"
   ],
   "note": "Balance proved for uniform spacing, moisture not clipped, bottom node left out; clipping only removes water. Refuted for layers of different spacing, for the reported storage (bottom node) and for the reported infiltration rate (computed after the update)."
  },
  {
   "property": "C67",
   "status": "partial",
   "theorems": [
    "Chan.C67_geometry",
    "Chan.C67_manning",
    "Chan.C67_law_of_wall",
    "Chan.C67_surface_slope",
    "Chan.C67_surface_slope_edge",
    "Chan.C67_surface_slope_edge_violated",
    "Chan.C67_discharge",
    "Chan.C67_edge_no_discharge",
    "Chan.C67_flood_depth",
    "Chan.C67_stage_discharge",
    "Chan.C67_backwater_violated"
   ],
   "note": "All formulas and the stage-discharge relation proved over the reals for kinematic and diffusive wave. Refuted: the surface slope towards a cell without flow direction is that of the water which reached the cell in the same update, not of the reported depth, which is zero; and with an upward water surface slope the diffusive wave still moves water to the higher surface."
  },
  {
   "property": "C68",
   "status": "proved",
   "theorems": [
    "Solar.C68_zenith",
    "Solar.C68_sun_up",
    "Solar.C68_day_length",
    "Solar.C68_equator",
    "Solar.C68_hemispheres",
    "Solar.C68_horizon",
    "Solar.C68_flux",
    "Solar.C68_flux_day",
    "Solar.C68_spencer",
    "Solar.C68_year",
    "Solar.C68_obliquity",
    "Solar.C68_seasons"
   ],
   "note": "Over the reals; at exactly 12 hours from noon under a midnight sun the interval is half open, so |th| < 12."
  },
  {
   "property": "C69",
   "status": "proved",
   "theorems": [
    "Solar.C69_transmissivity",
    "Solar.C69_transmissivity_antitone",
    "Solar.C69_air_mass_day",
    "Solar.C69_air_mass_night",
    "Solar.C69_beer_lambert",
    "Solar.C69_global_bounds",
    "Solar.C69_night",
    "Solar.C69_components",
    "Solar.C69_clear_sky_bounds",
    "Solar.C69_net_shortwave"
   ],
   "note": "Over the reals, for nonnegative water content and dust attenuation in [0,1]."
  },
  {
   "property": "C70",
   "status": "partial",
   "theorems": [
    "Solar.C70_beam_on_slope_partial",
    "Solar.C70_gentle",
    "Solar.C70_level",
    "Solar.C70_slope_day",
    "Solar.C70_slope_sun_partial",
    "Solar.C70_level_day",
    "Solar.C70_slope_angle",
    "Solar.C70_slope_grid",
    "Solar.C70_aspect",
    "Solar.C70_over_the_pole_violated",
    "Solar.C70_north_face_violated"
   ],
   "note": "Proved for every slope whose normal does not lean over the pole; for the others the code computes the beam of a sun twelve hours away (proved for all of them)."
  },
  {
   "property": "C71",
   "status": "partial",
   "theorems": [
    "Solar.C71_day_of_year_partial",
    "Solar.C71_hour",
    "Solar.C71_no_year",
    "Solar.C71_range",
    "Solar.C71_increasing",
    "Solar.C71_century_violated"
   ],
   "note": "Proved for all years that follow the rule of four; in the other century years every day from March on is one too high."
  },
  {
   "property": "C72",
   "status": "partial",
   "theorems": [
    "Solar.C72_calendar_partial",
    "Solar.C72_hour_of_sun",
    "Solar.C72_equation_defined",
    "Solar.C72_equation_bound",
    "Solar.C72_equation_year",
    "Solar.C72_equation_formula",
    "Solar.C72_minutes_violated",
    "Solar.C72_fraction_violated",
    "Solar.C72_wrap_violated",
    "Solar.C72_wrap_witness_violated"
   ],
   "note": "Proved at full hours; refuted: minutes are dropped, a fraction of a second ends in an exception, and hours since noon are not brought to the range of a day, so that such sites are dark in daylight."
  },
  {
   "property": "C73",
   "status": "partial",
   "theorems": [
    "Solar.C73_centres_partial",
    "Solar.C73_inside",
    "Solar.C73_projected_violated"
   ],
   "note": "Proved for geographic grids; projected grids are all placed at Denver."
  },
  {
   "property": "C74",
   "status": "proved",
   "theorems": [
    "Pixel.spec_on_ellipse",
    "Pixel.C74_lon",
    "Pixel.C74_lat",
    "Pixel.C74_monotone",
    "Pixel.C74_row_sizes",
    "Pixel.C74_fixed_length",
    "Pixel.C74_area",
    "Pixel.C74_south_edge"
   ],
   "note": "Sizes are taken at the south edge of each row, as the code documents; C74_south_edge shows the sign of the difference to any other latitude of the row."
  },
  {
   "property": "C75",
   "status": "partial",
   "theorems": [
    "Cfg.C75_format",
    "Cfg.C75_file_variable",
    "Cfg.C75_not_a_subscript",
    "Cfg.C75_ignored",
    "Cfg.C75_frame",
    "Cfg.C75_number",
    "Cfg.C75_bad_number",
    "Cfg.C75_boolean",
    "Cfg.C75_string",
    "Cfg.C75_scalar",
    "Cfg.C75_file",
    "Cfg.C75_unknown_type",
    "Cfg.C75_order_violated"
   ],
   "note": "Proved if the type entry is the last entry before its variable; refuted if another entry stands between them: the file name then becomes the value of the variable."
  },
  {
   "property": "C76",
   "status": "partial",
   "theorems": [
    "Cfg.C76_relative_to_cfg",
    "Cfg.C76_cfg_dir",
    "Cfg.C76_idempotent",
    "Cfg.C76_static",
    "Cfg.C76_bare_name_violated"
   ],
   "note": "Proved for directories that begin with a dot; a bare relative name is left relative to the working directory."
  },
  {
   "property": "C77",
   "status": "partial",
   "theorems": [
    "InitDepth.C77_equation",
    "InitDepth.C77_unique",
    "InitDepth.C77_newton_derivative",
    "InitDepth.C77_monotone",
    "InitDepth.C77_converges",
    "InitDepth.C77_error_bound",
    "InitDepth.C77_grid",
    "InitDepth.C77_baseflow",
    "InitDepth.C77_velocity_violated"
   ],
   "note": "The claims about the depth are proved in full; the velocity grid is refuted: it belongs to the depth before the last update."
  },
  {
   "property": "C78",
   "status": "partial",
   "theorems": [
    "InitDepth.C78_channels",
    "InitDepth.C78_channels_none",
    "InitDepth.C78_initial_depth_partial",
    "InitDepth.C78_perfect_violated"
   ],
   "note": "Proved for the channel component; in init_depth.py only if there is a bad slope: for a perfect grid the function returns None."
  },
  {
   "property": "C79",
   "status": "partial",
   "theorems": [
    "Snow.C79_bare_ice_partial",
    "Snow.C79_violated",
    "Snow.C79_ice_cold"
   ],
   "note": "Proved for bare ice without snowfall; in a snow-covered cell the same energy warms the ice a second time, by exactly the amount stated in C79_violated."
  },
  {
   "property": "C80",
   "status": "partial",
   "theorems": [
    "Soil.C80_checked_partial",
    "Soil.C80_zero_violated",
    "Soil.C80_no_valid_violated",
    "Soil.C80_all_missing",
    "Soil.C80_four_grids_partial",
    "Soil.C80_units_missing",
    "Soil.C80_units"
   ],
   "note": "Proved when some value is positive and in range; otherwise missing values become zero or a value out of range."
  },
  {
   "property": "C81",
   "status": "partial",
   "theorems": [
    "Soil.C81_theta_range",
    "Soil.C81_theta_formula",
    "Soil.C81_Ks",
    "Soil.C81_alpha",
    "Soil.C81_n",
    "Soil.C81_L",
    "Soil.C81_n_one_violated"
   ],
   "note": "Proved in exact arithmetic; with rounding n can be exactly 1, and the check lets it pass."
  },
  {
   "property": "C82",
   "status": "partial",
   "theorems": [
    "Soil.C82_marks_partial",
    "Soil.C82_nodata_violated"
   ],
   "note": "Cells are marked correctly, but the check of the range always replaces the marks."
  },
  {
   "property": "C83",
   "status": "partial",
   "theorems": [
    "Soil.C83_parameters",
    "Soil.C83_G_violated"
   ],
   "note": "All but the continuity is proved; the capillary length jumps at n = 3, the value used for all sands."
  },
  {
   "property": "C84",
   "status": "proved",
   "theorems": [
    "D8Geom.C84_flow_length",
    "D8Geom.C84_flow_width",
    "D8Geom.C84_width_perimeter",
    "D8Geom.C84_width_method2",
    "D8Geom.C84_width_no_flow"
   ],
   "note": "A cell without flow direction gets dx for both (a comment in the code says zero width)."
  },
  {
   "property": "C85",
   "status": "proved",
   "theorems": [
    "D8Geom.C85_slope",
    "D8Geom.C85_slope_fails"
   ],
   "note": ""
  },
  {
   "property": "C86",
   "status": "proved",
   "theorems": [
    "D8Geom.C86_aspect"
   ],
   "note": ""
  },
  {
   "property": "C87",
   "status": "proved",
   "theorems": [
    "Table.C87_round_trip",
    "Table.C87_read",
    "Table.C87_no_entry",
    "Table.C87_fractions",
    "Table.C87_header"
   ],
   "note": ""
  },
  {
   "property": "C88",
   "status": "partial",
   "theorems": [
    "Table.C88_in_grid_partial",
    "Table.C88_violated"
   ],
   "note": "Proved if the columns in the file are columns of the grid; otherwise cells outside the grid are accepted in every grid of two or more rows."
  },
  {
   "property": "C89",
   "status": "partial",
   "theorems": [
    "Table.C89_row",
    "Table.C89_values_at",
    "Table.C89_columns",
    "Table.C89_wide_violated",
    "Table.C89_header_violated",
    "Table.C89_time_label"
   ],
   "note": "Values below ten thousand million are read back; larger ones run together, and labels are in columns of 15 characters above values in columns of 20."
  },
  {
   "property": "C90",
   "status": "proved",
   "theorems": [
    "TimeInfo.C90_start_plus_duration",
    "TimeInfo.C90_units",
    "TimeInfo.C90_sign",
    "TimeInfo.C90_additive",
    "TimeInfo.C90_months",
    "TimeInfo.C90_one_year",
    "TimeInfo.C90_rejects",
    "TimeInfo.C90_accepts",
    "TimeInfo.C90_defaults"
   ],
   "note": ""
  },
  {
   "property": "C91",
   "status": "partial",
   "theorems": [
    "TimeInfo.C91_read_partial",
    "TimeInfo.C91_coverage_partial",
    "TimeInfo.C91_missing_entry",
    "TimeInfo.C91_default_day",
    "TimeInfo.C91_default_output_violated"
   ],
   "note": "Proved for runs with a time info file; the defaults for a missing file lack two attributes, so that no netCDF output file can be opened."
  },
  {
   "property": "C92",
   "status": "proved",
   "theorems": [
    "Rtg.C92_round_trip",
    "Rtg.C92_short_file",
    "Rtg.C92_unknown_type"
   ],
   "note": ""
  },
  {
   "property": "C93",
   "status": "partial",
   "theorems": [
    "Rtg.C93_grid_kept_partial",
    "Rtg.C93_grid_kept_violated",
    "Rtg.C93_save_twice_violated",
    "Rtg.C93_default_type_partial",
    "Rtg.C93_default_type_violated"
   ],
   "note": "With a foreign byte order the grid in memory is swapped in place; the default types agree only for data sets of type FLOAT."
  },
  {
   "property": "C94",
   "status": "proved",
   "theorems": [
    "Rtg.C94_series",
    "Rtg.C94_indexed_name",
    "Rtg.C94_distinct",
    "Rtg.C94_no_extension_violated",
    "Rtg.C94_write_only"
   ],
   "note": "For names without an extension the last theorem shows that the index goes into the directory part."
  },
  {
   "property": "C95",
   "status": "proved",
   "theorems": [
    "Repo.C95_accepted_iff_complete",
    "Repo.C95_hydrologic_model",
    "Repo.C95_snow_and_glacier_rejected",
    "Repo.C95_no_ice_rejected"
   ],
   "note": ""
  },
  {
   "property": "C96",
   "status": "proved",
   "theorems": [
    "Repo.C96_units_agree",
    "Repo.C96_all_connected",
    "Repo.C96_placeholder_raises"
   ],
   "note": ""
  },
  {
   "property": "C97",
   "status": "partial",
   "theorems": [
    "Repo.C97_declared_known_partial",
    "Repo.C97_violated"
   ],
   "note": "Exact list of the declared variables whose name or units cannot be looked up."
  },
  {
   "property": "C98",
   "status": "proved",
   "theorems": [
    "Repo.C98_names_injective"
   ],
   "note": ""
  },
  {
   "property": "C99",
   "status": "partial",
   "theorems": [
    "Multi.C99_until_overshoots",
    "Multi.C99_past_target_advances",
    "Multi.C99_reaches_target_partial"
   ],
   "note": "Violated for every target: the run always ends after the requested time (by at most one step), and a past target still advances the model; proved: the target is reached."
  }
 ]
}