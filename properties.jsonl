{"id": "C01", "title": "Tie-breaking picks one of the tied directions", "statement": "For every combination of tied steepest-descent directions (any sum of distinct D8 codes), the D8 tie-break table returns exactly one D8 code and that code is one of the tied directions; combinations with a single direction and the empty combination are returned unchanged.", "quantifier": "all 256 possible sums of the eight D8 codes", "why_tests_cant": "The table is assembled by overlapping assignments and cyclic rotations; a test on some codes does not show that no later assignment overwrites an earlier one with a direction that is not available.", "anchors": ["topoflow/components/d8_base.py:get_resolve_array", "topoflow/components/d8_base.py:resolve_array_cycle", "topoflow/components/d8_global.py:break_flow_grid_ties"]}
{"id": "C02", "title": "Edge IDs are exactly the border cells", "statement": "The set of edge cell IDs computed for a DEM contains every cell in the first/last row or column, contains no interior cell, and lists no cell twice.", "quantifier": "all grid sizes with at least 2 rows and 2 columns (degenerate 1-row/1-column grids treated separately)", "why_tests_cant": "Ranges over all grid shapes; off-by-one errors only show up in particular corners or shapes.", "anchors": ["topoflow/components/d8_base.py:get_edge_IDs", "topoflow/components/d8_base.py:get_not_edge_grid", "topoflow/utils/BMI_base.py:save_edge_ids"]}
{"id": "C03", "title": "Parent of a cell is the neighbour its D8 code points to", "statement": "After updating the D8 component, each interior cell with a valid nonzero flow code has as parent exactly the neighbour (one row/column step) in the direction of its code, inside the grid; flow-from/flow-to ID lists pair each cell with that parent and list no downstream cell twice within one direction.", "quantifier": "all grid sizes, all flow-code grids whose border cells do not point off the grid", "why_tests_cant": "Index arithmetic over flattened grids must hold for all sizes and codes.", "anchors": ["topoflow/components/d8_base.py:get_parent_inc_map", "topoflow/components/d8_global.py:update_parent_ID_grid", "topoflow/components/d8_global.py:update_flow_from_IDs", "topoflow/components/d8_global.py:update_flow_to_IDs"]}
{"id": "C04", "title": "D8 flow never goes uphill and never cycles", "statement": "Following the D8 flow codes from any cell of any DEM, elevation never increases, and no sequence of downstream steps returns to a cell already visited; so every flow path ends at a no-flow cell.", "quantifier": "all DEMs (any size and elevation values), with and without linking of flats", "why_tests_cant": "Cycles depend on global arrangements of plateaus of arbitrary shape; finite tests cannot enumerate DEMs.", "anchors": ["topoflow/components/d8_global.py:start_new_d8_codes", "topoflow/components/d8_global.py:break_flow_grid_ties", "topoflow/components/d8_global.py:link_flats"]}
{"id": "C05", "title": "Flat linking terminates and resolves every flat that can drain", "statement": "Linking of flats stops after finitely many passes on every grid, never changes a flow code that was already assigned, and on exit no undirected interior cell has a directed neighbour of equal elevation.", "quantifier": "all DEMs and starting flow-code grids", "why_tests_cant": "Termination of a while loop over arbitrary plateau geometry.", "anchors": ["topoflow/components/d8_global.py:link_flats"]}
{"id": "C06", "title": "Contributing area is the sum over the upstream cells", "statement": "On any acyclic flow-code grid the total contributing area of a cell equals the sum of the areas of all cells whose flow path passes through it, itself included; the computation terminates on every grid, cyclic or not, and cells on or below a cycle are left at zero.", "quantifier": "all flow-code grids and cell-area grids", "why_tests_cant": "Accumulation order is data dependent; correctness is a statement about all drainage networks.", "anchors": ["topoflow/components/d8_global.py:update_area_grid"]}
{"id": "C07", "title": "Depression filling terminates", "statement": "Pit filling of any DEM finishes after processing each cell at most once.", "quantifier": "all DEMs, all sets of starting cells", "why_tests_cant": "Termination over all inputs.", "anchors": ["topoflow/utils/fill_pits.py:fill_pits"]}
{"id": "C08", "title": "Depression filling only raises, and keeps outlets", "statement": "Pit filling never lowers any cell, and the cells from which filling starts (outlets) keep their original elevation.", "quantifier": "all DEMs and starting sets", "why_tests_cant": "Universal over DEMs.", "anchors": ["topoflow/utils/fill_pits.py:fill_pits"]}
{"id": "C09", "title": "Filled elevation is the minimal spill elevation", "statement": "For every cell connected to an outlet, the filled elevation equals the smallest value, over all neighbour paths from that cell to an outlet, of the highest original elevation on the path; cells not connected to an outlet are untouched.", "quantifier": "all DEMs, all starting sets, all paths", "why_tests_cant": "Optimality over all paths in all grids.", "anchors": ["topoflow/utils/fill_pits.py:fill_pits"]}
{"id": "C10", "title": "No pit remains after filling", "statement": "After filling, each cell reached from an outlet has a neighbour path to an outlet along which filled elevations never increase.", "quantifier": "all DEMs and starting sets", "why_tests_cant": "Universal over DEMs.", "anchors": ["topoflow/utils/fill_pits.py:fill_pits"]}
{"id": "C11", "title": "Filling a filled DEM changes nothing", "statement": "Applying pit filling twice with the same outlets yields the same DEM as applying it once.", "quantifier": "all DEMs and starting sets", "why_tests_cant": "Universal over DEMs.", "anchors": ["topoflow/utils/fill_pits.py:fill_pits"]}
{"id": "C12", "title": "Every DEM border cell with data is an outlet", "statement": "The starting cells for pit filling include every valid cell on each of the four DEM edges, so that no boundary cell is ever raised.", "quantifier": "all DEM sizes and values", "why_tests_cant": "Depends on row/column index arithmetic for all grid sizes.", "anchors": ["topoflow/utils/fill_pits.py:get_start_pixels"]}
{"id": "C13", "title": "The priority queue returns values in order", "statement": "For any sequence of inserts and min-removals on the heap, each removal returns the smallest value currently stored together with an ID inserted with that value, and no value is lost or duplicated.", "quantifier": "all operation sequences", "why_tests_cant": "State space of the heap is unbounded.", "anchors": ["topoflow/utils/heap_base.py:heap_base.insert", "topoflow/utils/heap_base.py:heap_base.get_min"]}
{"id": "C14", "title": "Coupled components keep up with the framework clock", "statement": "During a coupled run, after each framework time step every enabled component's own clock is at or beyond the framework time at which the step began, is updated at most once in the step, and is at most one own time step ahead of that time (less than one step once the framework clock has moved); a disabled component is never updated.", "quantifier": "all sets of components with positive time steps, all numbers of steps", "why_tests_cant": "Depends on all ratios of time steps and all schedules.", "anchors": ["topoflow/framework/emeli.py:run_model", "topoflow/framework/emeli.py:initialize_framework_dt"]}
{"id": "C15", "title": "Data requests fall within the provider's interpolation window", "statement": "Whenever the framework passes a value to a component, the time requested lies in the time interval currently covered by the provider's two stored states.", "quantifier": "all component time steps and all steps of a run", "why_tests_cant": "Depends on all ratios of time steps.", "anchors": ["topoflow/framework/emeli.py:run_model", "topoflow/framework/time_interpolation.py:time_interpolator.update2", "topoflow/framework/time_interpolation.py:time_interpolator.get_values"]}
{"id": "C16", "title": "Every required input is provided by exactly one component", "statement": "When the framework reports that all input variables have providers, each input variable of each component is output by exactly one component of the configuration, and the recorded provider is that component.", "quantifier": "all component sets and input/output name lists", "why_tests_cant": "Quantifies over configurations.", "anchors": ["topoflow/framework/emeli.py:find_var_users_and_providers", "topoflow/framework/emeli.py:check_var_users_and_providers"]}
{"id": "C17", "title": "Linear time interpolation follows the chord", "statement": "With linear interpolation, the value delivered at time t is the provider's old value plus (t - t1) times the slope to the new value; it equals the old value at t1, the new value at t2, and lies between them for t in between, for every cell of a grid.", "quantifier": "all value grids, all times", "why_tests_cant": "Real-valued inputs of any size.", "anchors": ["topoflow/framework/time_interpolation.py:time_interp_data", "topoflow/framework/time_interpolation.py:time_interpolator.get_values"]}
{"id": "C18", "title": "BMI update_until reaches the requested time", "statement": "Calling update_until(t) leaves the component clock at the requested time t (or unchanged when t is not in the future).", "quantifier": "all start times, time steps and target times", "why_tests_cant": "Depends on all ratios of target time to time step.", "anchors": ["topoflow/utils/BMI_base.py:BMI_component.update_until", "topoflow/utils/BMI_base.py:BMI_component.update_frac"]}
{"id": "C19", "title": "BMI set_value / get_value round trip", "statement": "After set_value(name, v), get_value(name) returns v and all other variables are unchanged; set_value_at_indices changes exactly the listed entries, and get_value_at_indices reads exactly the listed entries.", "quantifier": "all variables, values and index lists", "why_tests_cant": "All histories of sets and gets.", "anchors": ["topoflow/utils/BMI_base.py:BMI_component.set_value", "topoflow/utils/BMI_base.py:BMI_component.set_value_at_indices", "topoflow/utils/BMI_base.py:BMI_component.get_value_at_indices"]}
{"id": "C20", "title": "Clock bookkeeping", "statement": "After n updates a component's time is n times its time step, its step counter is n, and its seconds and minutes clocks agree with each other, for every supported time unit.", "quantifier": "all n, all dt, all units", "why_tests_cant": "Unbounded histories.", "anchors": ["topoflow/utils/BMI_base.py:BMI_component.update_time", "topoflow/utils/BMI_base.py:BMI_component.initialize_time_vars"]}
{"id": "C21", "title": "Model runs stop", "statement": "With the 'Until_n_steps' and 'Until_model_time' stopping methods a run loop performs exactly the number of steps implied by the settings and then stops; with 'Q_peak_fraction' the run stops at the first step where the outlet discharge is falling, positive and at or below the given fraction of the peak so far, or when the outlet discharge has stayed steady for more than 499 consecutive steps at a non-negligible value.", "quantifier": "all outlet discharge histories, time steps and settings", "why_tests_cant": "Quantifies over discharge histories of any length.", "anchors": ["topoflow/components/topoflow_driver.py:check_finished", "topoflow/components/topoflow_driver.py:check_steady_state", "topoflow/utils/BMI_base.py:BMI_component.check_finished"]}
{"id": "C22", "title": "Channel routing conserves water", "statement": "Over any number of channel updates, water stored in channels plus water that left through the boundary plus water waiting in attenuation storage equals the initial storage plus all runoff added, plus only the water created by clamping negative volumes to zero; with no overdrawn cell the balance is exact.", "quantifier": "all drainage networks, rainfall/runoff histories, discharges and step counts", "why_tests_cant": "Conservation must hold for all networks and all histories.", "anchors": ["topoflow/components/channels_base.py:update_flow_volume", "topoflow/components/channels_base.py:update_edge_values", "topoflow/components/channels_base.py:update_R_integral"]}
{"id": "C23", "title": "Flow volumes and depths stay non-negative", "statement": "After any number of channel updates flow volume, flow depth, flood volume and flood depth are non-negative in every cell, for any (possibly negative) runoff rates.", "quantifier": "all inputs and histories", "why_tests_cant": "Universal over inputs and histories.", "anchors": ["topoflow/components/channels_base.py:update_flow_volume", "topoflow/components/channels_base.py:update_channel_depth", "topoflow/components/channels_base.py:update_flood_volume"]}
{"id": "C24", "title": "Channel depth inverts the trapezoid volume", "statement": "The flow depth computed from a volume is the unique non-negative depth at which a trapezoidal channel of the given bed width, bank angle and length holds exactly that volume.", "quantifier": "all non-negative volumes, positive widths/lengths, bank angles in [0, 90 degrees)", "why_tests_cant": "Real-valued inputs; an algebraic identity rather than samples.", "anchors": ["topoflow/components/channels_base.py:update_channel_depth", "topoflow/components/channels_base.py:update_trapezoid_Rh"]}
{"id": "C25", "title": "Overbank partition is exact", "statement": "With overbank flow enabled, each cell's volume splits into in-channel and flood parts that add up to the total, the channel part never exceeds bankfull, and the flood part is non-zero only where the channel part is at bankfull.", "quantifier": "all volumes and bankfull volumes", "why_tests_cant": "Universal over values.", "anchors": ["topoflow/components/channels_base.py:update_channel_volume", "topoflow/components/channels_base.py:update_flood_volume"]}
{"id": "C26", "title": "Reported peaks are the true maxima of the run", "statement": "The reported peak discharge, velocity and depth at the outlet are the maxima over all steps so far, and the reported peak times are the first times those maxima were attained.", "quantifier": "all hydrographs", "why_tests_cant": "Unbounded histories.", "anchors": ["topoflow/components/channels_base.py:update_peak_values", "topoflow/components/channels_base.py:update_Q_out_integral"]}
{"id": "C27", "title": "Unstable runs are detected", "statement": "With stability checking on, a channel update completes only if no cell has a negative or infinite flow depth and no cell has a negative, NaN or infinite velocity; otherwise the run is aborted with an error.", "quantifier": "all depth and velocity grids", "why_tests_cant": "Universal over grids including special float values.", "anchors": ["topoflow/components/channels_base.py:check_flow_depth", "topoflow/components/channels_base.py:check_flow_velocity"]}
{"id": "C28", "title": "Bad slopes are repaired", "statement": "Removing bad slopes leaves a slope grid in which every slope is finite and positive, leaves good slopes unchanged, and replaces each bad slope by the smallest good slope; it fails if there is no good slope.", "quantifier": "all slope grids", "why_tests_cant": "Universal over grids including NaN and infinities.", "anchors": ["topoflow/components/channels_base.py:remove_bad_slopes"]}
{"id": "C29", "title": "Green-Ampt infiltration is bounded by supply and capacity", "statement": "The Green-Ampt infiltration rate is never negative, never exceeds the water supply rate (rain plus snowmelt), is at least the smaller of supply and saturated conductivity, and does not increase with cumulative infiltration at fixed supply; cumulative infiltration never decreases and never exceeds initial value plus total supply.", "quantifier": "all soil parameters in their physical ranges, all rainfall histories", "why_tests_cant": "Unbounded histories of rainfall.", "anchors": ["topoflow/components/infil_green_ampt.py:Green_Ampt_Infil_Rate_v1", "topoflow/components/infil_base.py:update_I", "topoflow/components/infil_base.py:adjust_infil_rate"]}
{"id": "C30", "title": "No infiltration where the water table is at the surface", "statement": "After the infiltration rate is adjusted, it is zero in every cell where the water table is at or above the land surface and otherwise equals the computed rate.", "quantifier": "all grids", "why_tests_cant": "Universal over grids.", "anchors": ["topoflow/components/infil_base.py:adjust_infil_rate"]}
{"id": "C31", "title": "Snowpack conserves water and melts no more than it has", "statement": "In each step the melt rate is non-negative and melts at most the snow water equivalent present; over any history initial SWE plus snowfall equals final SWE plus cumulative melt, and SWE never becomes negative.", "quantifier": "all meteorological histories", "why_tests_cant": "Unbounded histories.", "anchors": ["topoflow/components/snow_base.py:enforce_max_meltrate", "topoflow/components/snow_base.py:update_swe", "topoflow/components/snow_base.py:update_SM_integral", "topoflow/components/snow_degree_day.py:update_meltrate"]}
{"id": "C32", "title": "Cold content delays melt and energy is accounted for", "statement": "With the energy-balance method no melt occurs until the cold content has been overcome, cold content is never negative, and energy input over a step equals potential melt energy plus the drop in cold content.", "quantifier": "all energy flux histories", "why_tests_cant": "Unbounded histories.", "anchors": ["topoflow/components/snow_energy_balance.py:update_meltrate", "topoflow/components/snow_energy_balance.py:update_cold_content"]}
{"id": "C33", "title": "Precipitation splits exactly into rain and snow", "statement": "In every cell exactly one of rain rate and snow rate equals the precipitation rate and the other is zero, so rain plus snow equals precipitation, and the running volume totals satisfy vol_P = vol_PR + vol_PS.", "quantifier": "all precipitation/temperature histories, scalar or grid", "why_tests_cant": "Unbounded histories.", "anchors": ["topoflow/components/met_base.py:update_P_rain", "topoflow/components/met_base.py:update_P_snow", "topoflow/components/met_base.py:update_P_integral"]}
{"id": "C34", "title": "Groundwater column conserves water", "statement": "Updating the water table with a net inflow depth changes the water held in the soil column (saturated thickness times porosity, plus water above the surface) by exactly that depth; layers stay between empty and full.", "quantifier": "all layer stacks (any number of layers), porosities and inflows", "why_tests_cant": "Any number of layers; real-valued inputs.", "anchors": ["topoflow/components/satzone_base.py:update_water_table", "topoflow/components/satzone_base.py:initialize_wetted_thicknesses"]}
{"id": "C35", "title": "Initialising groundwater does not alter the DEM", "statement": "Computing initial saturated layer thicknesses from the water table leaves the land surface elevation grid as it was.", "quantifier": "all DEMs and layer stacks", "why_tests_cant": "An aliasing property, invisible to tests that look only at the computed thicknesses.", "anchors": ["topoflow/components/satzone_base.py:initialize_wetted_thicknesses"]}
{"id": "C36", "title": "Canals are delay lines", "statement": "A canal delivers at its outlet exactly the water that entered it a fixed number of steps before, and zero before that; nothing is lost or duplicated.", "quantifier": "all inflow histories and canal lengths", "why_tests_cant": "Unbounded histories.", "anchors": ["topoflow/components/diversions_fraction_method.py:update_canals", "topoflow/components/diversions_fraction_method.py:update_sources"]}
{"id": "C37", "title": "RTS grid stacks read back what was written", "statement": "After any sequence of appends to an RTS file, reading grid i returns the i-th grid written, the grid count equals the number of appends, and overwriting grid i changes no other grid.", "quantifier": "all histories of writes, all grid sizes, both byte orders", "why_tests_cant": "Unbounded histories.", "anchors": ["topoflow/utils/rts_files.py:rts_file.add_grid", "topoflow/utils/rts_files.py:rts_file.get_grid", "topoflow/utils/rts_files.py:rts_file.number_of_grids"]}
{"id": "C38", "title": "Grid info files round trip", "statement": "Reading back a written RTI header yields the same grid dimensions, data type, byte order, pixel geometry and (up to print precision) extents.", "quantifier": "all grid-info records", "why_tests_cant": "Universal over records, including text fields.", "anchors": ["topoflow/utils/rti_files.py:write_info", "topoflow/utils/rti_files.py:read_info"]}
{"id": "C39", "title": "Existing output files are not overwritten", "statement": "When overwriting is off, the file name chosen for output is never the name of an existing file; it is the requested name when free, otherwise the first free numbered variant.", "quantifier": "all directory contents and file names", "why_tests_cant": "Universal over file system states.", "anchors": ["topoflow/utils/file_utils.py:check_overwrite"]}
{"id": "C40", "title": "Time-varying input is read in order and the last value persists", "statement": "For a time series or grid sequence input, the k-th read delivers the k-th stored value (unit conversion applied), and after the data are exhausted the last value stays in force.", "quantifier": "all data files, all numbers of reads", "why_tests_cant": "Unbounded histories.", "anchors": ["topoflow/utils/model_input.py:read_next", "topoflow/utils/model_input.py:read_scalar", "topoflow/utils/model_input.py:read_grid", "topoflow/utils/BMI_base.py:BMI_component.update_var"]}
{"id": "C41", "title": "Output is saved at every save interval", "statement": "During a run with constant time step, output is written exactly at the steps whose time is a multiple of the save interval.", "quantifier": "all time steps and save intervals", "why_tests_cant": "Number-theoretic condition over all pairs.", "anchors": ["topoflow/components/channels_base.py:write_output_files", "topoflow/components/d8_base.py:write_output_files", "topoflow/components/snow_base.py:write_output_files"]}
{"id": "C42", "title": "Calendar conversions round trip", "statement": "Converting a datetime to a time offset in given units and back yields the original datetime; month differences and hhmm/minute conversions are mutually inverse on valid inputs.", "quantifier": "all datetimes, origins and supported units", "why_tests_cant": "Universal over calendar values.", "anchors": ["topoflow/utils/time_utils.py:get_time_since_from_datetime", "topoflow/utils/time_utils.py:get_datetime_from_time_since", "topoflow/utils/time_utils.py:convert_times_from_hhmm_to_minutes", "topoflow/utils/time_utils.py:convert_times_from_minutes_to_hhmm"]}
{"id": "C43", "title": "The final mass-balance report is consistent", "statement": "If every component conserves its own water, the volume error printed in the final mass balance report is zero for a domain with no losses other than evaporation and boundary outflow.", "quantifier": "all volumes", "why_tests_cant": "Algebraic identity over all component totals.", "anchors": ["topoflow/components/topoflow_driver.py:add_mass_balance_to_report", "topoflow/components/topoflow_driver.py:add_storage_volumes_to_report"]}
{"id": "C44", "title": "Missing-data cells stay missing when pits are filled", "statement": "Pit filling never changes the value of a cell that holds the nodata value.", "quantifier": "all DEMs with missing values", "why_tests_cant": "Depends on where the missing cells lie relative to the index arithmetic; universal over DEMs.", "anchors": ["topoflow/utils/fill_pits.py:fill_pits"]}
{"id": "C45", "title": "A time read from a component is a snapshot", "statement": "The value returned by get_current_time keeps its value when the component is updated afterwards.", "quantifier": "all components, all later update sequences", "why_tests_cant": "Aliasing: a test sees it only if it keeps the returned object across updates.", "anchors": ["topoflow/utils/BMI_base.py:get_current_time", "topoflow/utils/BMI_base.py:update_time"]}
{"id": "C46", "title": "The reported run time adds up", "statement": "The days, hours, minutes and seconds that a component reports for its run time add up to the elapsed time.", "quantifier": "all elapsed times", "why_tests_cant": "Arithmetic over all durations.", "anchors": ["topoflow/utils/BMI_base.py:get_run_time_string"]}
{"id": "C47", "title": "Reported evaporation is the evaporation removed", "statement": "The evaporation volume that enters the final mass balance report equals the water that evaporation removed from the channels.", "quantifier": "all evaporation rates, channel states and numbers of channel steps per evaporation step", "why_tests_cant": "The two totals are kept by two components that share a grid by reference; they differ only when a cell runs dry at some step of some run.", "anchors": ["topoflow/components/evap_base.py:update_ET_integral", "topoflow/components/channels_base.py:update_R"]}
{"id": "C48", "title": "Every channel method can be updated", "statement": "With channel geometry and roughness in their physical range, a channel update completes for every routing method, whatever the other components deliver.", "quantifier": "all routing methods, parameter grids, input rates and histories", "why_tests_cant": "Depends on the whole history of states and inputs; a method that always fails is not covered by tests of the others.", "anchors": ["topoflow/components/channels_base.py:update", "topoflow/components/channels_kinematic_wave.py:update_velocity", "topoflow/components/channels_diffusive_wave.py:update_velocity", "topoflow/components/channels_dynamic_wave.py:update_velocity"]}
{"id": "C49", "title": "Evaporation rates are physical", "statement": "Computed evaporation rates are never negative, the energy-balance rate uses exactly the available energy when there is any, and the Priestley-Taylor rate does not decrease with net radiation.", "quantifier": "all energy fluxes and temperatures in the physical range", "why_tests_cant": "Inequalities over all real inputs.", "anchors": ["topoflow/components/evap_priestley_taylor.py:update_ET_rate", "topoflow/components/evap_energy_balance.py:update_ET_rate"]}
{"id": "C50", "title": "More supply never means less infiltration", "statement": "With the soil in the same state, a larger rate of rain plus snowmelt never gives a smaller infiltration rate.", "quantifier": "all soil parameters in the physical range, infiltrated depths and pairs of supply rates", "why_tests_cant": "An inequality between every pair of inputs; a break occurs only where one branch of the rate law meets another.", "anchors": ["topoflow/components/infil_base.py:check_low_rainrate", "topoflow/components/infil_green_ampt.py:Green_Ampt_Infil_Rate_v1", "topoflow/components/infil_smith_parlange.py:Smith_Parlange_Infil_Rate_v1", "topoflow/components/infil_beven.py:Beven_Exp_K_Infil_Rate_v1"]}
{"id": "C51", "title": "No snow, no cold content", "statement": "A cell without snow has no snow cold content, so snow that falls later does not have to make up for energy lost by bare ground.", "quantifier": "all cells, energy fluxes, snowfall histories and both the snow and glacier components", "why_tests_cant": "The error grows with the length of the snow-free period and shows only after later snowfall.", "anchors": ["topoflow/components/snow_energy_balance.py:update_cold_content", "topoflow/components/glacier_energy_balance.py:update_snowpack_cold_content"]}
{"id": "C52", "title": "Glacier melt conserves water and snow protects ice", "statement": "In the glacier component snow and ice never melt more than is there, never go negative, ice melts only where there is no snow, and stored plus melted water equals the initial storage plus snowfall.", "quantifier": "all initial depths, parameters, snowfall and energy histories", "why_tests_cant": "A conservation law over every history of updates.", "anchors": ["topoflow/components/glacier_base.py:update", "topoflow/components/glacier_base.py:enforce_max_ice_meltrate", "topoflow/components/glacier_energy_balance.py:update_ice_meltrate"]}
{"id": "C53", "title": "Glacier snowpack energy is accounted for", "statement": "In every update with snow on the ground, the energy delivered to a glacier cell's snowpack equals the energy used for melting plus the cold content removed, counting the cold that new snow brings.", "quantifier": "all states, snowfall rates and energy fluxes", "why_tests_cant": "An energy balance over all real inputs that fails only in steps with snowfall.", "anchors": ["topoflow/components/glacier_energy_balance.py:update_snow_meltrate", "topoflow/components/glacier_energy_balance.py:update_snowfall_cold_content", "topoflow/components/glacier_energy_balance.py:update_snowpack_cold_content"]}
{"id": "C54", "title": "Rain follows its data and then stops", "statement": "The n-th meteorology update uses the n-th rain rate stored in the file, and rain is zero at every update after the data end; a constant rain rate lasts exactly one meteorology time step.", "quantifier": "all rain files, scalar rates and numbers of updates", "why_tests_cant": "Unbounded run lengths and arbitrary files, including files with blank lines.", "anchors": ["topoflow/components/met_base.py:read_input_files", "topoflow/components/met_base.py:set_rain_to_zero", "topoflow/utils/model_input.py:read_scalar"]}
{"id": "C55", "title": "Dew point does not exceed air temperature", "statement": "The dew point computed from air temperature and relative humidity is never above the air temperature.", "quantifier": "all air temperatures and relative humidities in (0, 1]", "why_tests_cant": "An inequality between two different real-valued approximations; it fails only in a band of inputs.", "anchors": ["topoflow/components/met_base.py:update_dew_point", "topoflow/components/met_base.py:update_saturation_vapor_pressure"]}
{"id": "C56", "title": "Turbulent fluxes flow from warm to cold", "statement": "Sensible heat flows towards the colder of air and surface and vanishes at equal temperatures, latent heat follows the vapour pressure difference, vapour pressure grows with temperature and humidity, a stable atmosphere damps and an unstable one enhances exchange, and surface temperature is never above freezing where it is estimated over snow.", "quantifier": "all temperatures, humidities, wind speeds and roughness lengths in the physical range", "why_tests_cant": "Sign and monotonicity statements over all real inputs.", "anchors": ["topoflow/components/met_base.py:update_sensible_heat_flux", "topoflow/components/met_base.py:update_latent_heat_flux", "topoflow/components/met_base.py:update_bulk_aero_conductance", "topoflow/components/met_base.py:update_T_surf"]}
{"id": "C57", "title": "Snow albedo stays in range and darkens between snowfalls", "statement": "The albedo is always in (0, 0.84], snow age counts the days since three-day snowfall last reached the threshold, and between major snowfalls the albedo of a snow-covered cell never rises.", "quantifier": "all snowfall and temperature histories and time steps", "why_tests_cant": "A statement over histories of any length.", "anchors": ["topoflow/components/met_base.py:update_albedo"]}
{"id": "C58", "title": "Longwave radiation balance", "statement": "Net longwave radiation is the radiation absorbed by the surface minus that emitted by it, and the emissivity of air is between 0 and 1.", "quantifier": "all temperatures, vapour pressures, cloud and canopy factors in the physical range", "why_tests_cant": "An identity and a bound over all real inputs; the bound fails only for warm, humid, overcast air.", "anchors": ["topoflow/components/met_base.py:update_em_air", "topoflow/components/met_base.py:update_net_longwave_radiation"]}
{"id": "C59", "title": "Groundwater flow between cells is conserved and follows Darcy's law", "statement": "Each cell's net inflow is recharge plus the discharge of its upstream neighbours minus its own, the net inflows over the grid add up to the recharge minus what leaves through cells without flow direction, and the discharge is given by the present water table slope and saturated thicknesses alone.", "quantifier": "all grids, flow directions, recharge rates, discharges and layer stacks, any number of updates", "why_tests_cant": "A conservation law over all grids and drainage networks, and a dependence on history that shows only after several updates.", "anchors": ["topoflow/components/satzone_base.py:update_water_volume_change", "topoflow/components/satzone_base.py:update_Q_gw"]}
{"id": "C60", "title": "Seepage is what rises above the land surface", "statement": "The seepage rate is never negative, is zero while the water table is at or below the land surface or falling, and multiplied by the time step equals the increase of water above the land surface.", "quantifier": "all water table elevations, land surface elevations and time steps", "why_tests_cant": "An identity over all real inputs that fails only in the step in which the water table crosses the surface.", "anchors": ["topoflow/components/satzone_base.py:update_seep_rate"]}
{"id": "C61", "title": "The grid information file that is found is the closest one", "statement": "For a grid file name the library looks for a RiverTools information file named after the whole stem and then after the stem cut at each underscore from the right; it returns the existing candidate with the longest stem and reports failure exactly when none of the candidates exists.", "quantifier": "all file names and all sets of existing files", "why_tests_cant": "The number of underscores, the set of existing files and hence the number of loop iterations are unbounded.", "anchors": ["topoflow/utils/rti_files.py:try_to_find_rti_file", "topoflow/utils/rti_files.py:get_rti_file_name"]}
{"id": "C62", "title": "Every requested output reaches its file", "statement": "Each save switch of a component opens a file, every save of that quantity appends one row with the present time and the present values to that file, in order, a run with any combination of switches ends without error, and at the end all files are closed.", "quantifier": "all combinations of switches, all numbers of steps, all histories of values", "why_tests_cant": "The combinations of switches and the histories are unbounded; failed writes are swallowed, so a run looks successful.", "anchors": ["topoflow/utils/model_output.py:add_grid", "topoflow/utils/model_output.py:add_values_at_IDs", "topoflow/utils/model_output.py:close_gs_file", "topoflow/components/satzone_base.py:save_grids", "topoflow/components/infil_base.py:save_grids", "topoflow/components/evap_base.py:close_output_files", "topoflow/components/glacier_base.py:close_output_files"]}
{"id": "C63", "title": "Datetime strings are read back as written", "statement": "A datetime string built from year, month, day, hour, minute and second is read back as that datetime; offsets in minutes turned into datetime strings are turned back into the same offsets; the separator between date and time does not matter.", "quantifier": "all dates of the calendar, all times of day, all origins and offsets, all separators", "why_tests_cant": "Round trips over the whole calendar, including leap years, padding and fractions of seconds, are too many to enumerate.", "anchors": ["topoflow/utils/time_utils.py:get_datetime_str", "topoflow/utils/time_utils.py:get_datetime_obj_from_one_str", "topoflow/utils/time_utils.py:standardize_datetime_str", "topoflow/utils/time_utils.py:convert_times_from_minutes_to_datetime", "topoflow/utils/time_utils.py:convert_times_from_datetime_to_minutes"]}
{"id": "C64", "title": "Soil retention functions are mutually inverse, monotone and consistent", "statement": "For a usable soil (negative bubbling pressure, positive lambda and c, residual below saturated moisture): converting a soil moisture in (residual, saturated] to a pressure head and back returns the same moisture; converting a head at or below minus the offset to moisture and back returns the same head; wetter soil has a strictly higher head and a strictly higher conductivity; saturated soil has head minus the offset and conductivity Ks; conductivities computed from moisture, saturation or head agree and lie in [0, Ks]; CM_TO_M and MIN_VALUE only change units and the lower limit.", "quantifier": "all real soil parameters meeting the usual sign conditions, all moistures, heads and conductivities", "why_tests_cant": "Inverse and monotonicity laws over continuous parameter ranges with real exponents cannot be enumerated.", "anchors": ["topoflow/utils/soil_trans_BC.py:psi_of_theta", "topoflow/utils/soil_trans_BC.py:theta_of_psi", "topoflow/utils/soil_trans_BC.py:psi_of_sat", "topoflow/utils/soil_trans_BC.py:K_of_sat", "topoflow/utils/soil_trans_BC.py:K_of_psi", "topoflow/utils/soil_trans_BC.py:K_of_theta"]}
{"id": "C65", "title": "Richards infiltration keeps the soil state physical", "statement": "After every update, whatever the history of rain, snowmelt and evaporation and whatever the state before: soil moisture of every node lies between residual plus 0.001 and saturated, effective saturation in (0,1], pressure head at most minus the offset, conductivity in [0, Ks], and head and conductivity are those of the retention functions; the reported infiltration rate exceeds neither the supply nor drainage plus free room of the top node, is never negative when nothing evaporates, equals min(supply, Ks) over saturated soil; unit-gradient flow is steady.", "quantifier": "all soils, layer spacings, time steps, initial states and influx histories of any length", "why_tests_cant": "Invariants over unbounded histories and continuous parameters.", "anchors": ["topoflow/components/infil_richards_1D.py:infil_component.update", "topoflow/components/infil_richards_1D.py:infil_component.enforce_theta_range", "topoflow/components/infil_richards_1D.py:infil_component.update_infil_rate", "topoflow/components/infil_richards_1D.py:infil_component.update_v"]}
{"id": "C66", "title": "The soil column conserves water under Richards infiltration", "statement": "Over any sequence of updates the water stored in the soil changes by what infiltrated at the surface minus the recharge at the bottom; the stored volume, infiltration and recharge the component reports satisfy this balance.", "quantifier": "all soils, layer spacings, time steps, initial states and influx histories", "why_tests_cant": "A balance over every history; violations depend on layering, clipping and the reporting step and are hidden by tolerances in tests.", "anchors": ["topoflow/components/infil_richards_1D.py:infil_component.update_theta", "topoflow/components/infil_richards_1D.py:infil_component.update_surface_BC_for_theta", "topoflow/components/infil_richards_1D.py:infil_component.update_bottom_BC_for_theta", "topoflow/components/infil_richards_1D.py:infil_component.update_Rg", "topoflow/components/infil_base.py:infil_component.update_total_storage"]}
{"id": "C67", "title": "Channel velocities and discharges follow the stated hydraulics", "statement": "After every update, in every cell with a flow direction: wetted area and hydraulic radius are those of the trapezoidal cross section at the new depth; the velocity is Manning's formula (or the logarithmic law of the wall) at that radius, the cell's roughness and the bed slope (kinematic wave) or water surface slope (diffusive wave); the water surface slope is the bed slope plus the difference of water depths along the flow path; the discharge of the next update is velocity times area plus the flow over the flood plain; flood depth holds the flood volume; deeper water is faster and carries more; cells without flow direction pass nothing on; water flows towards the lower water surface.", "quantifier": "all DEMs, channel geometries, roughness grids, options, inputs and states", "why_tests_cant": "Relations between grids over all geometries and histories; direction of flow under backwater depends on states tests rarely reach.", "anchors": ["topoflow/components/channels_base.py:channels_component.manning_formula", "topoflow/components/channels_base.py:channels_component.law_of_the_wall", "topoflow/components/channels_base.py:channels_component.update_trapezoid_Rh", "topoflow/components/channels_base.py:channels_component.update_free_surface_slope", "topoflow/components/channels_base.py:channels_component.update_flood_discharge", "topoflow/components/channels_base.py:channels_component.update_flood_depth", "topoflow/components/channels_diffusive_wave.py:channels_component.update_velocity"]}
{"id": "C68", "title": "The sun is up exactly between the computed sunrise and sunset", "statement": "For every site between the poles, day of the year and hour: the zenith angle is the angle between the vertical and the direction of the sun; the sun is above the horizon exactly between Sunrise_Offset and Sunset_Offset, which lie symmetric about noon within +-12 hours, and stands on the horizon at both where there is a sunrise; Day_Length is between 0 and 24 hours, 12 at the equator, and day and night lengths swap between hemispheres; declination and distance follow the published series of Spencer, repeat after 365 days, keep the sun within 23.5 degrees of the equator, and make northern days short around New Year and long in the middle of the year; the extraterrestrial flux is the distance-corrected solar constant times the sine of the sun's height, positive exactly in that interval, and never negative.", "quantifier": "all latitudes between the poles, days of the year and hours", "why_tests_cant": "Continuous domain with special cases (polar day and night) where clipping decides.", "anchors": ["topoflow/components/solar_funcs.py:Zenith_Angle", "topoflow/components/solar_funcs.py:Sunrise_Offset", "topoflow/components/solar_funcs.py:Sunset_Offset", "topoflow/components/solar_funcs.py:Day_Length", "topoflow/components/solar_funcs.py:ET_Radiation_Flux", "topoflow/components/solar_funcs.py:Declination"]}
{"id": "C69", "title": "Clear-sky radiation creates no energy, vanishes at night and falls with the albedo", "statement": "For every place, day, hour, water content and dust of the air: the atmospheric transmissivity lies in [0,1] and decreases with water and dust; direct plus diffuse radiation on level ground is at most the extraterrestrial flux; the logarithms of the transmitted and unscattered shares are linear in the Kasten-Young air mass of the sun's height in degrees; the clear-sky radiation of a slope is not negative, bounded by the extraterrestrial flux plus one reflection, the sum of its three components by day and zero outside the local day; the net shortwave radiation is not negative for an albedo in [0,1] and does not increase with it.", "quantifier": "all latitudes, days, hours, slopes, aspects, albedos in [0,1], water contents >= 0, dust attenuations in [0,1]", "why_tests_cant": "Inequalities between transcendental functions over a continuous domain.", "anchors": ["topoflow/components/solar_funcs.py:Atmospheric_Transmissivity", "topoflow/components/solar_funcs.py:Optical_Air_Mass", "topoflow/components/solar_funcs.py:Direct_Radiation_Flux", "topoflow/components/solar_funcs.py:Diffuse_Radiation_Flux", "topoflow/components/solar_funcs.py:Global_Radiation_Flux", "topoflow/components/solar_funcs.py:BS_Radiation_Flux", "topoflow/components/solar_funcs.py:Clear_Sky_Radiation", "topoflow/components/met_base.py:met_component.update_net_shortwave_radiation"]}
{"id": "C70", "title": "Radiation on slopes is the beam on the tilted plane", "statement": "For every latitude, day, hour, slope angle and aspect: the extraterrestrial flux on a slope is the distance-corrected solar constant times the scalar product of the plane's normal with the direction of the sun (zero if it faces away); level ground gets the flux of the horizontal plane; the local day of a slope lies within that of level ground. The angles come from the slope file by arc tangent (missing values are level) and from the aspect file by turning counterclockwise-from-east into clockwise-from-north.", "quantifier": "all latitudes, days, hours, slope and aspect values", "why_tests_cant": "The equivalent-slope method uses an arc tangent whose branch is wrong only for some combinations of latitude, slope and aspect.", "anchors": ["topoflow/components/solar_funcs.py:ET_Radiation_Flux_Slope", "topoflow/components/solar_funcs.py:Equivalent_Latitude", "topoflow/components/solar_funcs.py:Longitude_Offset", "topoflow/components/solar_funcs.py:Sunrise_Offset_Slope", "topoflow/components/solar_funcs.py:Sunset_Offset_Slope", "topoflow/components/met_base.py:met_component.set_slope_angle", "topoflow/components/met_base.py:met_component.set_aspect_angle"]}
{"id": "C71", "title": "The day of the year follows the calendar", "statement": "For every valid date: Julian_Day is the number of days since 1 January of the year plus the hour as a fraction of a day; it lies between 0 and the length of the year and increases with date and hour; without a year a common year is assumed.", "quantifier": "all dates of the years 1 to 9999 and hours of the day", "why_tests_cant": "Leap-year rules: errors show only in years such as 1900 or 2100.", "anchors": ["topoflow/components/solar_funcs.py:Julian_Day"]}
{"id": "C72", "title": "The met component follows the sun through the simulated time", "statement": "For every start date, time zone, longitude and simulated time: the day of the year and the hours since true solar noon used for radiation are those of the current moment: clock time minus twelve, plus an hour per 15 degrees east of the zone's meridian, minus the equation of time, brought to the day; the update succeeds for every time step; the equation of time is the two-term formula, below 18 minutes, and is available for every year.", "quantifier": "all start dates, simulated times, longitudes, time zones and years", "why_tests_cant": "Depends on the whole range of simulated times; wrong only for fractions of hours or seconds or for clocks far from solar time.", "anchors": ["topoflow/components/met_base.py:met_component.update_julian_day", "topoflow/components/solar_funcs.py:True_Solar_Noon", "topoflow/components/solar_funcs.py:Equation_Of_Time", "topoflow/components/solar_funcs.py:Earth_Perihelion", "topoflow/components/solar_funcs.py:Vernal_Equinox", "topoflow/utils/time_utils.py:split_datetime_str"]}
{"id": "C73", "title": "Every cell gets the latitude and longitude of its centre", "statement": "For every grid: row i and column j are given the coordinates of the centre of the cell, row 0 being the northernmost and column 0 the westernmost; all centres lie inside the bounding box and neighbours are one cell apart.", "quantifier": "all grid descriptions and cells", "why_tests_cant": "Holds for all grid sizes, resolutions and positions; fails for whole classes of grids (projected coordinates).", "anchors": ["topoflow/components/solar_funcs.py:Latitude_Grid", "topoflow/components/solar_funcs.py:Longitude_Grid", "topoflow/components/met_base.py:met_component.initialize_computed_vars"]}
{"id": "C74", "title": "Cell sizes and areas are lengths on the ellipsoid", "statement": "For every latitude and elevation: meters_per_degree_lon is a degree of the circle that the point of that geodetic latitude describes about the axis of the ellipsoid, and meters_per_degree_lat a degree times the speed with which the point moves along its meridian; with latitude the first decreases to zero at the pole and the second increases. For every geographic grid the sizes of a row are its extents in longitude and latitude times these lengths, taken at the south edge of the row (in kilometres, or metres on request); for fixed-length pixels they are the resolution; get_da gives every cell the product of the sizes of its row, positive between the poles.", "quantifier": "all latitudes, elevations, ellipsoids, grid descriptions and cells", "why_tests_cant": "A formula of differential geometry over a continuous domain; tests compare single values with themselves.", "anchors": ["topoflow/utils/pixels.py:meters_per_degree_lon", "topoflow/utils/pixels.py:meters_per_degree_lat", "topoflow/utils/pixels.py:get_sizes_by_row", "topoflow/utils/pixels.py:get_da"]}
{"id": "C75", "title": "Every setting in a configuration file reaches its variable", "statement": "For every configuration file: a line is an entry if and only if it does not begin with # and has exactly four fields between bars, whitespace around the fields being ignored; other lines have no effect. After reading, a variable declared double, float, int or long holds the number of its last entry (an unreadable number stops the reading), a string variable its text, with [case_prefix] and [site_prefix] expanded, or a boolean for the words yes/no, true/false, on/off, 1/0. A variable with a type entry x_type holds a number if the type is Scalar, and otherwise its file variable x_file (x_file[i] for layers) holds the file name. Variables that no entry names do not change.", "quantifier": "all files, prefixes, prior states of the component", "why_tests_cant": "All files and orders of entries; errors appear only for particular orders or names.", "anchors": ["topoflow/utils/BMI_base.py:BMI_component.read_config_file", "topoflow/utils/BMI_base.py:BMI_component.initialize_scalar"]}
{"id": "C76", "title": "Directories are found from the configuration file and stay put", "statement": "For every configuration file path, working directory and pair of input and output directories: a relative directory denotes the directory reached from the one that contains the configuration file, whatever the working directory is later; all directories end with a separator; setting the directories again changes nothing; topography, soil, meteorology and miscellaneous files are sought in their subdirectory of the input directory if it exists and in the input directory otherwise.", "quantifier": "all paths, working directories, file systems", "why_tests_cant": "All paths with dots, double dots, slashes and tildes, and all later changes of the working directory.", "anchors": ["topoflow/utils/BMI_base.py:BMI_component.set_directories", "topoflow/utils/BMI_base.py:BMI_component.initialize_config_vars"]}
{"id": "C77", "title": "The initial depth carries exactly the baseflow", "statement": "For every channel (positive width, banks not overhanging, positive roughness and slope) and every positive baseflow per area and contributing area: the equation that compute_initial_depth solves has exactly one positive solution, the depth at which the discharge by Manning's formula equals the baseflow of the contributing area. The iteration is Newton's; from the first guess of 500 m, if the solution is not deeper, the depths decrease and stay above the solution, tend to it, and the last change bounds the error; the loop ends after at most 41 passes. The velocity grid written beside the depth grid is Manning's velocity at that depth.", "quantifier": "all grids of channel geometries, baseflows, tolerances", "why_tests_cant": "Existence, uniqueness and global convergence over all real geometries.", "anchors": ["topoflow/utils/init_depth.py:compute_initial_depth", "topoflow/utils/init_depth.py:get_baseflow_volume_flux"]}
{"id": "C78", "title": "Cleaning replaces bad slopes by the smallest good one", "statement": "For every slope grid in which some slope is a positive number, remove_bad_slopes returns a grid with only positive numbers, in which good slopes are unchanged and zero, negative, infinite and undefined ones are the smallest good slope.", "quantifier": "all grids, with NaN and infinities", "why_tests_cant": "All grids, including those without a bad or without a good cell.", "anchors": ["topoflow/utils/init_depth.py:remove_bad_slopes", "topoflow/components/channels_base.py:channels_component.remove_bad_slopes"]}
{"id": "C79", "title": "Energy reaching a glacier cell is spent once", "statement": "In every update the energy spent in a glacier cell (melting snow and ice, warming the snow, warming the ice) is not more than the energy it received.", "quantifier": "all cells, states and energy fluxes", "why_tests_cant": "An inequality over all real states that fails whenever snow covers cold ice.", "anchors": ["topoflow/components/glacier_energy_balance.py:update_snow_meltrate", "topoflow/components/glacier_energy_balance.py:update_ice_meltrate", "topoflow/components/glacier_energy_balance.py:update_snowpack_cold_content"]}
{"id": "C80", "title": "Checked soil grids hold only usable values", "statement": "After a soil grid (clay, silt, organic carbon, density) has been checked, every value is positive and not above its limit; values that were usable are unchanged, zeros are one and missing values are the middle of the usable range. Units are converted exactly: organic carbon in g/kg to organic matter in percent, density in kg/m3 to g/cm3.", "quantifier": "all grids with at least one value in range", "why_tests_cant": "All grids, including those with only zeros or no usable value.", "anchors": ["topoflow/utils/pedotransfer.py:check_soil_grid_values", "topoflow/utils/pedotransfer.py:convert_soil_grid_values"]}
{"id": "C81", "title": "Pedotransfer functions are Wosten's and stay in their ranges", "statement": "For every soil, saturated conductivity is positive, alpha is between -15 and -0.4 per metre, n is above 1 and at most 3, L is strictly between -10 and 10; each is the published regression of Wosten (1998) wherever that is in range. Water contents are forced into [0, 1]: negative ones become the smallest positive one, those above one the largest below one.", "quantifier": "all soils and grids with some water content strictly between 0 and 1", "why_tests_cant": "All real soils; transcendental functions.", "anchors": ["topoflow/utils/pedotransfer.py:wosten_theta_s", "topoflow/utils/pedotransfer.py:wosten_K_s", "topoflow/utils/pedotransfer.py:wosten_alpha", "topoflow/utils/pedotransfer.py:wosten_n", "topoflow/utils/pedotransfer.py:wosten_L"]}
{"id": "C82", "title": "Missing soil data stay missing", "statement": "In the grid of saturated water contents exactly the cells with a missing input hold the missing value.", "quantifier": "all grids", "why_tests_cant": "Needs the order of two passes over all grids.", "anchors": ["topoflow/utils/pedotransfer.py:wosten_theta_s", "topoflow/utils/pedotransfer.py:get_nodata_values"]}
{"id": "C83", "title": "Brooks-Corey parameters describe the same soil", "statement": "For every alpha below zero and n above one the transitional Brooks-Corey parameters are valid (bubbling pressure below zero, c above one, lambda positive, eta = 2 + 3 lambda above two, capillary length between 0.08 and 2.3 m) and give the same pressure head as the van Genuchten parameters at every saturation; the capillary length varies continuously with n.", "quantifier": "all alpha, n and saturations", "why_tests_cant": "An identity of real functions; a pole at a single value of n.", "anchors": ["topoflow/utils/pedotransfer.py:get_tBC_from_vG_vars", "topoflow/utils/pedotransfer.py:capillary_length_G"]}
{"id": "C84", "title": "Flow lengths and widths are those of the cell and its direction", "statement": "For every grid of flow codes and every pixel size per row, the flow length of a cell is the distance between its centre and that of the neighbour it flows to; for flow along a grid axis width times length is the cell area, for diagonal flow the width is the diagonal; with the second method the widths of the eight directions add up to the perimeter. Lengths and widths are positive everywhere.", "quantifier": "all flow grids, pixel sizes and cells", "why_tests_cant": "All grids, with pixel sizes that change from row to row.", "anchors": ["topoflow/components/d8_global.py:update_flow_width_grid", "topoflow/components/d8_global.py:update_flow_length_grid"]}
{"id": "C85", "title": "Slopes are drops over distances and never negative", "statement": "For every DEM from which the flow codes were computed, the slope of a cell is the drop to the cell it flows to divided by the distance to it, never negative, and zero where there is no flow direction; the grid is computed without error unless every cell has a flow direction.", "quantifier": "all DEMs, configurations and pixel sizes", "why_tests_cant": "Depends on flow codes, parent cells and lengths agreeing for every DEM, with plateaus and ties.", "anchors": ["topoflow/components/d8_global.py:update_slope_grid", "topoflow/components/d8_global.py:update_parent_IDs", "topoflow/components/d8_global.py:update_noflow_IDs"]}
{"id": "C86", "title": "Aspects are flow angles", "statement": "The aspect of a cell is an angle in [0, 2 pi), zero without flow direction. On square cells it is the direction of flow, counterclockwise from east; on rectangular cells it is so exactly for flow along a grid axis.", "quantifier": "all flow grids, cells and pixel sizes", "why_tests_cant": "A geometric statement about all pixel sizes.", "anchors": ["topoflow/components/d8_global.py:update_aspect_grid"]}
{"id": "C87", "title": "Files of monitored cells round trip", "statement": "A file written for a monitored cell is read back as that cell, row and column exactly, area and relief to half a hundredth. A file with any number of entries in that format, with blank lines between them, is read as exactly these cells in order, accepted if and only if every ID row*nx+col lies in the grid; a file without entries is refused. Positions given with a fraction are cut off towards zero. In the written file every label ends in the character column in which its value ends.", "quantifier": "all cells, areas and reliefs that fit the columns, and all lists of entries", "why_tests_cant": "All numbers and lists; fixed-width columns without separators.", "anchors": ["topoflow/utils/outlets.py:write_outlet_file", "topoflow/utils/outlets.py:read_outlet_file", "topoflow/utils/outlets.py:check_outlet_IDs"]}
{"id": "C88", "title": "Accepted monitored cells are cells of the grid", "statement": "Every monitored cell accepted from a file lies in the grid, so that its values can be read and are those of the cell named in the file.", "quantifier": "all files and grid sizes", "why_tests_cant": "The check is on the ID, not on row and column; only special pairs reveal it.", "anchors": ["topoflow/utils/outlets.py:read_outlet_file", "topoflow/utils/outlets.py:check_outlet_IDs", "topoflow/utils/text_ts_files.py:values_at_IDs"]}
{"id": "C89", "title": "Text time series can be read back", "statement": "Every line of a text time series, split at white space, gives the time and one value per monitored cell, in order and to half a unit of the seventh decimal; scalar variables are repeated for every cell. The label of every variable stands above its values. The header is written for the six known time units and names the one in use.", "quantifier": "all times, values, variables and lists of cells", "why_tests_cant": "All magnitudes and numbers of columns.", "anchors": ["topoflow/utils/text_ts_files.py:write_header", "topoflow/utils/text_ts_files.py:add_values", "topoflow/utils/text_ts_files.py:values_at_IDs"]}
{"id": "C90", "title": "Durations agree with the calendar", "statement": "The duration between two datetimes given as texts, in seconds, minutes, hours or days, is the time that moves the first to the second on the Gregorian calendar; its sign is the order of the calendar and consecutive durations add up. In months it counts the turns of the month; years have 365 days, and unknown units are taken as hours. Dates that do not exist are refused.", "quantifier": "all pairs and triples of datetimes of years 1 to 9999 and all units", "why_tests_cant": "All dates, including leap years and ends of months.", "anchors": ["topoflow/utils/time_utils.py:get_duration", "topoflow/utils/time_utils.py:get_current_datetime", "topoflow/utils/time_utils.py:get_end_datetime"]}
{"id": "C91", "title": "The period of a run is the one configured", "statement": "The start, end and duration of a run are those given by the last entries of its time info file, whatever the order of entries and comments, and the netCDF output files state that period in their own time units; a file that lacks an entry is refused; without a file the period is a default day, with which outputs can be written as well.", "quantifier": "all files, all datetimes and all time units", "why_tests_cant": "All orders and contents of configuration files.", "anchors": ["topoflow/utils/BMI_base.py:read_time_info", "topoflow/utils/ncts_files.py:open_new_file", "topoflow/utils/ncgs_files.py:open_new_file"]}
{"id": "C92", "title": "Grid files read back what was written", "statement": "A grid written to a binary grid file in any of the six data types and read with this type is the grid converted to the type, in every byte order of the data set; a grid that has the type already is read back unchanged. A file that is too short and an unknown type are refused; no other file changes.", "quantifier": "all grids, sizes, data types, byte orders and contents of the file system", "why_tests_cant": "All sizes and element values; the foreign byte order is rarely tested.", "anchors": ["topoflow/utils/rtg_files.py:read_grid", "topoflow/utils/rtg_files.py:write_grid"]}
{"id": "C93", "title": "Saving a grid does not change it, and default types agree", "statement": "Writing a grid to a file leaves the grid in memory as it was, so that saving it twice gives two equal files; a grid written and read without naming a data type is the grid in single precision.", "quantifier": "all grids, data types and byte orders", "why_tests_cant": "The in-place swap shows only for foreign byte orders and later use of the grid.", "anchors": ["topoflow/utils/rtg_files.py:write_grid", "topoflow/utils/rtg_files.py:rtg_file.write_grid", "topoflow/utils/rtg_files.py:read_grid"]}
{"id": "C94", "title": "A series of saved grids is kept complete", "statement": "An object that saves any number of grids under one name with an extension makes one file per grid, with pairwise different names that carry the indices 1, 2, ... before the extension; every one of them, opened by any object, reads back as the grid of that index; other files stay as they were. A file open for writing cannot be read through the same object.", "quantifier": "all series of grids, names with an extension, data types and byte orders", "why_tests_cant": "Any number of saves, including more than the five digits of the index.", "anchors": ["topoflow/utils/rtg_files.py:rtg_file.open_new_file", "topoflow/utils/rtg_files.py:rtg_file.add_index_to_file_name", "topoflow/utils/rtg_files.py:rtg_file.write_grid", "topoflow/utils/rtg_files.py:rtg_file.open_file", "topoflow/utils/rtg_files.py:rtg_file.read_grid"]}
{"id": "C95", "title": "A set of components is accepted exactly when every process has one component", "statement": "For every selection of repository components, in every order, the coupling check accepts the selection exactly when each selected component finds exactly one component for each process it needs. In particular a model with the hydrologic driver needs exactly one component for channels, evaporation, infiltration, saturated zone, meteorology, melt (snow or glacier) and ice (ice flow or glacier); snow together with glacier, and no ice component at all, are rejected.", "quantifier": "all selections of repository components without repetition, in every order", "why_tests_cant": "There are 2^24 selections, in any order.", "anchors": ["topoflow/framework/emeli.py:check_var_users_and_providers", "topoflow/framework/emeli.py:find_var_users_and_providers", "topoflow/components/topoflow_driver.py:_input_var_names"]}
{"id": "C96", "title": "Connected variables have the same units", "statement": "Whenever one repository component provides a variable that another one uses, both declare the same units, so that connecting any selection of components neither prints a unit warning nor needs the unit converter; only selections with a component that has no declarations of its own fail to connect.", "quantifier": "all selections of repository components, all pairs and shared variables", "why_tests_cant": "All pairs of components and all selections, in any order.", "anchors": ["topoflow/framework/emeli.py:connect_comps", "topoflow/framework/multi_bmi.py:connect_comps", "topoflow/framework/emeli.py:initialize_comp_set"]}
{"id": "C97", "title": "Every declared variable has an internal name and units", "statement": "For every component and every variable it lists as input or output, the name and the units of the variable can be looked up.", "quantifier": "all repository components and all variables they declare", "why_tests_cant": "All variables of all components; a missing entry is found only when this variable is requested.", "anchors": ["topoflow/components/channels_base.py:_var_name_map", "topoflow/components/met_base.py:_var_name_map", "topoflow/utils/BMI_base.py:get_var_name"]}
{"id": "C98", "title": "Different variables do not share storage", "statement": "Within a component two different variables never have the same internal name, so that setting one does not change what is read for the other.", "quantifier": "all repository components, all pairs of variables with an internal name", "why_tests_cant": "All pairs of variables of all components.", "anchors": ["topoflow/utils/BMI_base.py:get_var_name", "topoflow/utils/BMI_base.py:set_value"]}
{"id": "C99", "title": "Advancing a coupled model until a time stops at that time", "statement": "For every coupled model, after any calls, asking the model to advance until a time that is not in the past leaves the model at the first time on its grid of time steps that is not earlier; a time in the past leaves it unchanged.", "quantifier": "all coupled models, all histories of calls, all target times", "why_tests_cant": "All component sets, time steps, histories and targets.", "anchors": ["topoflow/framework/multi_bmi.py:update_until", "topoflow/framework/multi_bmi.py:update"]}
{"id": "C100", "title": "Stepping a coupled model from outside gives the framework's own run", "statement": "For every sequence of calls that advance the model (updates, fractional updates, updates until a time), the state of the coupled model is a state of the run that the framework does on its own, the reported time is a whole number of time steps, and no call raises where that run does not; a fractional update does the same as a full one.", "quantifier": "all coupled models, all finite sequences of calls and arguments", "why_tests_cant": "All interleavings of calls of any length.", "anchors": ["topoflow/framework/multi_bmi.py:update", "topoflow/framework/multi_bmi.py:update_frac", "topoflow/framework/multi_bmi.py:update_until", "topoflow/framework/emeli.py:run_model"]}
{"id": "C101", "title": "A value set from outside is used by the coupled model", "statement": "A value that a user of the coupled model sets for a variable is what the components that use the variable compute with in the next update, and is what is read back.", "quantifier": "all coupled models, all variables, values, states and numbers of later updates, whatever the components compute", "why_tests_cant": "All components, values and later updates.", "anchors": ["topoflow/framework/multi_bmi.py:set_value", "topoflow/framework/multi_bmi.py:get_value", "topoflow/framework/multi_bmi.py:get_required_vars", "topoflow/framework/multi_bmi.py:get_values"]}
{"id": "C102", "title": "Values at cells of the coupled model are the values at these cells", "statement": "Asking the coupled model for the values of a variable at a list of cells gives the values at these cells, and the size and the shape of its grid can be obtained.", "quantifier": "all variables, grids and lists of cells", "why_tests_cant": "All grids and all lists of cells.", "anchors": ["topoflow/framework/multi_bmi.py:get_value_at_indices", "topoflow/framework/multi_bmi.py:get_grid_size", "topoflow/framework/multi_bmi.py:get_grid_shape", "topoflow/framework/multi_bmi.py:get_grid_rank"]}
{"id": "C103", "title": "The provider file names the components of the model", "statement": "For every provider file made of comment lines, empty lines and entries, with any spacing and any text behind the names, the components of the model are exactly the names of the entries in the order of the file; a model with a name that is not in the repository cannot be initialized.", "quantifier": "all provider files, all repositories", "why_tests_cant": "All texts of any length.", "anchors": ["topoflow/framework/emeli.py:read_provider_file", "topoflow/framework/multi_bmi.py:read_provider_file", "topoflow/framework/emeli.py:instantiate", "topoflow/framework/emeli.py:initialize_comp_set"]}
{"id": "C104", "title": "Runs with one framework object are independent", "statement": "Whether a set of components is accepted for a run does not depend on the runs that were done before with the same framework object.", "quantifier": "all histories of runs with repository components, all component sets", "why_tests_cant": "All sequences of runs and all sets.", "anchors": ["topoflow/framework/emeli.py:run_model", "topoflow/framework/emeli.py:instantiate", "topoflow/framework/emeli.py:check_var_users_and_providers"]}
{"id": "C105", "title": "The files of a coupled model are found beside its configuration file", "statement": "For every path of a configuration file, the provider file and the configuration files of the components are looked for in the directory of this file and with the prefix of its name.", "quantifier": "all directories, prefixes and extensions", "why_tests_cant": "All paths.", "anchors": ["topoflow/framework/multi_bmi.py:initialize", "topoflow/framework/multi_bmi.py:get_cfg_filename"]}
{"id": "C106", "title": "A landscape evolution component can be updated", "statement": "For every configuration and every elevation grid, an update of an enabled landscape evolution component either takes one step or reports why not; it does not fail on its own calls. A disabled component is left unchanged.", "quantifier": "all states, configurations and time step arguments", "why_tests_cant": "All states and configurations.", "anchors": ["topoflow/components/erode_d8_global.py:update", "topoflow/components/erode_base.py:update_d8_vars", "topoflow/components/d8_base.py:update"]}
{"id": "C107", "title": "Slopes and sediment discharge follow the flow directions and the transport law", "statement": "For every elevation grid the slope of a cell is the drop to its downstream cell over the flow length, positive where there is a flow direction and zero elsewhere; water and sediment discharges are never negative, and the sediment discharge in cubic metres per second is K Q^m S^n of the discharge in cubic metres per second.", "quantifier": "all elevation grids, sizes, coefficients and exponents", "why_tests_cant": "All grids and all real coefficients.", "anchors": ["topoflow/components/erode_d8_global.py:update_slope_grid", "topoflow/components/erode_d8_global.py:update_Q_grid", "topoflow/components/erode_d8_global.py:update_Qs_grid"]}
{"id": "C108", "title": "The base level cells are the border of the grid", "statement": "With all four sides as base level, the base level cells are exactly the cells on the border of the grid, each listed once.", "quantifier": "all grid sizes", "why_tests_cant": "All sizes.", "anchors": ["topoflow/components/erode_base.py:initialize_boundary_conditions"]}
{"id": "C109", "title": "The adaptive time step keeps the elevation order along the flow", "statement": "In every step the time step is positive and so small that no cell sends more than the chosen fraction of half the volume by which it stands above its downstream cell, so that this exchange cannot turn the order of the two elevations around.", "quantifier": "all elevation grids, discharges, cell areas and fractions", "why_tests_cant": "All grids and all discharges.", "anchors": ["topoflow/components/erode_d8_global.py:update_dt_grid_method1", "topoflow/components/erode_d8_global.py:update_DEM"]}
{"id": "C110", "title": "Sediment is conserved in a step of the landscape evolution", "statement": "In every completed step the volume of each interior cell changes by uplift plus the sediment delivered by the cells draining into it minus the sediment leaving it; the volume of the whole interior changes by uplift minus what leaves over the border.", "quantifier": "all elevation grids, sizes, coefficients and exponents (slope exponent not zero for the total)", "why_tests_cant": "All grids of all sizes.", "anchors": ["topoflow/components/erode_d8_global.py:update_dz_dt_grid", "topoflow/components/erode_d8_global.py:update_DEM"]}
{"id": "C111", "title": "The base level sinks with model time", "statement": "After any number of steps every border cell has been lowered by the base level lowering rate times the model time, whatever time step arguments were used.", "quantifier": "all runs of any length, all time step arguments", "why_tests_cant": "All histories.", "anchors": ["topoflow/components/erode_d8_global.py:update", "topoflow/components/erode_d8_global.py:update_DEM", "topoflow/utils/BMI_base.py:update_time"]}
{"id": "C112", "title": "The record of largest changes lists the steps in order", "statement": "In a run with a fixed number of steps, entry j of the record of the largest elevation change is the largest change in step j+1.", "quantifier": "all runs with a fixed number of steps", "why_tests_cant": "All runs of any length.", "anchors": ["topoflow/components/erode_d8_global.py:update_DEM", "topoflow/components/erode_base.py:initialize_computed_vars"]}
{"id": "C113", "title": "A landscape evolution run ends when its stopping rule is met", "statement": "A run is finished exactly when the selected rule (number of steps, time, or steady state: no elevation changes by a millionth of a metre in a step) has been met or an elevation has risen by more than 1000 m in a step.", "quantifier": "all runs, all stopping rules", "why_tests_cant": "All runs of any length.", "anchors": ["topoflow/components/erode_base.py:check_finished", "topoflow/components/erode_base.py:check_stability", "topoflow/components/erode_d8_global.py:update"]}
{"id": "C114", "title": "Reported rain and uplift totals are the volumes of the run", "statement": "After any number of steps the reported volume totals are the rain and uplift rates times the area times the model time.", "quantifier": "all runs of any length", "why_tests_cant": "All histories with changing time steps.", "anchors": ["topoflow/components/erode_base.py:update_R_integral", "topoflow/components/erode_base.py:update_U_integral", "topoflow/components/erode_d8_global.py:update"]}
{"id": "C115", "title": "Reading a variable through the BMI fills the caller's array with its values", "statement": "For every variable a component has and every destination array the BMI standard allows (a flat array with one element per grid cell, or the variable's own shape), get_value returns the destination filled with the variable's values.", "quantifier": "all variables, shapes, values and destination arrays", "why_tests_cant": "All array shapes and ranks.", "anchors": ["topoflow/utils/BMI_base.py:get_value", "topoflow/utils/BMI_base.py:get_value_ptr"]}
{"id": "C116", "title": "The grid a component reports for a variable describes that variable", "statement": "For every variable, the rank, size, type, shape, spacing and origin of the grid reported for it are those of the variable's array, and the number of bytes is the element size times the number of elements.", "quantifier": "all variables, grids and destination arrays", "why_tests_cant": "All shapes and grids.", "anchors": ["topoflow/utils/BMI_base.py:get_var_grid", "topoflow/utils/BMI_base.py:get_grid_rank", "topoflow/utils/BMI_base.py:get_grid_size", "topoflow/utils/BMI_base.py:get_grid_shape", "topoflow/utils/BMI_base.py:get_grid_spacing", "topoflow/utils/BMI_base.py:get_grid_origin", "topoflow/utils/BMI_base.py:get_var_itemsize", "topoflow/utils/BMI_base.py:get_var_nbytes", "topoflow/utils/BMI_base.py:get_var_location"]}
{"id": "C117", "title": "A prepared rainfall or weather sequence has one frame per file, from that file", "statement": "For every directory of netCDF files, the grid sequence made from it has one frame per file in the order of the file names, independent of the order in which the directory is listed; each frame has the data of its file, or is blank when that file does not overlap the DEM; the reported counts and extremes are those of the frames.", "quantifier": "all directories, files, DEM boxes and resampling methods", "why_tests_cant": "All sequences of files, in any listing order.", "anchors": ["topoflow/utils/regrid.py:create_rts_from_nc_files"]}
{"id": "C118", "title": "A file is set aside exactly when it does not overlap the DEM", "statement": "For every raster and every DEM, the raster is called disjoint exactly when no point covered by its cells lies in the DEM's bounding box.", "quantifier": "all rasters, either direction of the rows, and all boxes", "why_tests_cant": "All real coordinates.", "anchors": ["topoflow/utils/regrid.py:get_raster_bounds", "topoflow/utils/regrid.py:bounds_disjoint"]}
{"id": "C119", "title": "Repairing a GPM raster keeps every value at its longitude and latitude", "statement": "For every GPM raster, after exchanging rows and columns and the geotransform, each value of the file occurs exactly once, at the longitude and latitude it had.", "quantifier": "all rasters, sizes and geotransforms", "why_tests_cant": "All sizes, coordinates and values.", "anchors": ["topoflow/utils/regrid.py:fix_gpm_file_as_geotiff"]}
{"id": "C120", "title": "Weather variables are stored in the reported units, missing data are kept", "statement": "For every GLDAS variable and value, the stored value is the value in the unit that is reported; the nodata value stays as it is, and a frame without data holds only nodata.", "quantifier": "all variable names, values and nodata values", "why_tests_cant": "All real values and all names.", "anchors": ["topoflow/utils/regrid.py:create_rts_from_nc_files"]}
{"id": "C121", "title": "CHIRPS rainfall is stored in mm per hour", "statement": "For every sequence of CHIRPS files, the stored frames hold the rainfall rates in mm per hour, missing values stay missing, and with the option for non-negative values no stored value is negative.", "quantifier": "all files, interval lengths and resampling methods that commute with a change of unit", "why_tests_cant": "All real values and interval lengths.", "anchors": ["topoflow/utils/regrid.py:create_rts_from_chirps_files"]}
{"id": "C122", "title": "Shear stress, shear speed and Froude number describe the reported flow", "statement": "After every update, in every cell with a flow direction and a slope that is not negative, the bed shear stress is density times g times depth times slope, the shear speed is the speed u* with stress = density u*^2, and the Froude number is velocity over the square root of g times depth, zero where there is no water, and below 1 exactly for subcritical flow.", "quantifier": "all DEMs, channel parameters, histories of updates and cells", "why_tests_cant": "All real-valued states, slopes and parameters.", "anchors": ["topoflow/components/channels_base.py:update_shear_stress", "topoflow/components/channels_base.py:update_shear_speed", "topoflow/components/channels_base.py:update_froude_number"]}
{"id": "C123", "title": "Friction factor and velocity balance the bed shear stress", "statement": "After every update, in every cell with water, density times friction factor times velocity squared equals the reported bed shear stress, for both friction laws.", "quantifier": "all DEMs, channel parameters, states and cells", "why_tests_cant": "All real-valued states and cross sections.", "anchors": ["topoflow/components/channels_base.py:update_friction_factor", "topoflow/components/channels_base.py:update_shear_stress", "topoflow/components/channels_base.py:manning_formula", "topoflow/components/channels_base.py:law_of_the_wall"]}
{"id": "C124", "title": "Reported extremes are those of the final grids", "statement": "At the end of a run the reported smallest and largest discharge, velocity and depth are the attained extremes of the final grids over all cells inside the border; finishing fails exactly for grids with fewer than three rows or columns.", "quantifier": "all grid sizes and final states with values within a million", "why_tests_cant": "All grids.", "anchors": ["topoflow/components/channels_base.py:update_mins_and_maxes", "topoflow/components/channels_base.py:initialize_min_and_max_values", "topoflow/components/channels_base.py:finalize"]}
{"id": "C125", "title": "Channel parameter grids follow the power law through the given values", "statement": "For every grid of contributing areas, a channel parameter grid made from it takes the given value at the largest area (and the second value at the smallest positive area), follows a power law in between, so that larger areas never get values further from the first one, is positive everywhere, does not depend on the unit of area, and is 1 where the area is not positive; nothing is written when too few values are given.", "quantifier": "all area grids, values and exponents", "why_tests_cant": "All grids and real values.", "anchors": ["topoflow/utils/parameterize.py:get_grid_from_TCA", "topoflow/components/channels_base.py:initialize"]}
{"id": "C126", "title": "The stated run time is the elapsed time", "statement": "For every elapsed time, the days, hours, minutes and seconds stated in the final report add up to the elapsed time.", "quantifier": "all elapsed times", "why_tests_cant": "Unbounded range of times.", "anchors": ["topoflow/utils/BMI_base.py:get_run_time_string", "topoflow/utils/BMI_base.py:print_final_report"]}
{"id": "C127", "title": "Calibration reports the tried value with the smallest cost", "statement": "Whenever every model run of a calibration succeeds, the call ends normally and the reported best parameter is one of the values tried, no tried value has a smaller cost, it is the first with that cost, and the stored costs are those of the runs with the stored values.", "quantifier": "all parameter ranges, numbers of values, input files and outcomes of the runs (including costs that are not numbers)", "why_tests_cant": "All sequences of run outcomes.", "anchors": ["topoflow/utils/calibrate.py:calibrate", "topoflow/utils/calibrate.py:get_parameter_values"]}
{"id": "C128", "title": "Calibration gives the input file back", "statement": "After a calibration, whatever happens in it, the model input file holds what it held before; at every moment at which the call can be interrupted the original is in the input file or in the backup, also after earlier calibrations.", "quantifier": "all input files, runs, failures, crash points and repeated calls", "why_tests_cant": "All crash points and histories.", "anchors": ["topoflow/utils/calibrate.py:calibrate", "topoflow/utils/calibrate.py:backup_input_file", "topoflow/utils/calibrate.py:restore_input_file"]}
{"id": "C129", "title": "Calibration values cover the range evenly", "statement": "For n of two or more and distinct limits exactly n values are tried; the first is the lower limit, the last the upper limit, and neighbours differ by (max - min)/(n - 1). For n = 1 or equal limits only the lower limit is tried.", "quantifier": "all limits and numbers of values", "why_tests_cant": "All real limits and all n.", "anchors": ["topoflow/utils/calibrate.py:get_parameter_values"]}
{"id": "C130", "title": "The calibration cost is a distance of the common part of two series", "statement": "The cost is never negative, symmetric, zero exactly when observed and simulated series agree as far as the shorter one goes, and obeys the triangle inequality for p of at least 1 and series of one length; cutting the simulated series never raises it.", "quantifier": "all pairs of series of any length and all exponents", "why_tests_cant": "All real series.", "anchors": ["topoflow/utils/calibrate.py:compute_cost", "topoflow/utils/calibrate.py:Lp_norm"]}
{"id": "C131", "title": "Calibration compares with the output of the run just made", "statement": "After a run, the simulated data are read from the file this run wrote: of the output files in the directory, in whatever order they are listed and whatever else is there, the one with the greatest number is read, and that is the file the run wrote.", "quantifier": "all directory contents and listing orders, all file numbers", "why_tests_cant": "All directory histories.", "anchors": ["topoflow/utils/calibrate.py:update_sim_data_file", "topoflow/utils/file_utils.py:check_overwrite"]}
{"id": "C132", "title": "Grids appended to a netCDF file are read back in order with their times", "statement": "After any sequence of appends to a new grid stack, an append is refused exactly when its time is outside the calendar, and entry k of the file is the k-th accepted grid with its own time and with the text of the datetime that lies that many file units after the start of the run; the counter equals the number of accepted grids and nothing can be read beyond them.", "quantifier": "all sequences of appends, all grids and times, all units with a fixed length, all start datetimes, with failures anywhere in the sequence", "why_tests_cant": "All histories of appends and all times.", "anchors": ["topoflow/utils/ncgs_files.py:add_grid", "topoflow/utils/ncgs_files.py:get_grid", "topoflow/utils/ncgs_files.py:open_new_file"]}
{"id": "C133", "title": "A grid in a netCDF file can be replaced", "statement": "Writing to an existing entry of a grid stack changes this entry only; grids appended later follow the existing ones without a gap, and the counter of grids is the number of grids in the file.", "quantifier": "all files of appended grids, all entries, all later appends", "why_tests_cant": "All histories.", "anchors": ["topoflow/utils/ncgs_files.py:add_grid"]}
{"id": "C134", "title": "The coordinate variables of a grid stack give the positions of its cells", "statement": "For every cell the entries of X and Y for its column and row are the longitude and latitude of its centre, where row 0 is the northernmost row, as in all grids of the program.", "quantifier": "all grids, rows and columns", "why_tests_cant": "All grid sizes, resolutions and edges.", "anchors": ["topoflow/utils/ncgs_files.py:open_new_file", "topoflow/utils/nccs_files.py:open_new_file"]}
{"id": "C135", "title": "A netCDF time series holds the values of its own cell", "statement": "For any variable name and any set of different cells the file can be made; each series has a name from which variable, row and column are recovered and which no other series has; its longitude and latitude are those of the cell centre; after any number of savings of a grid or scalar, entry k of the series of a cell is the value at that cell in saving k, with the time and datetime of that saving. A cell listed twice is refused.", "quantifier": "all variable names, sets of cells, grids, numbers of savings and times", "why_tests_cant": "All histories, names and cells.", "anchors": ["topoflow/utils/ncts_files.py:open_new_file", "topoflow/utils/ncts_files.py:add_values_at_IDs", "topoflow/utils/ncts_files.py:values_at_IDs", "topoflow/utils/model_output.py:open_new_ts_file"]}
{"id": "C136", "title": "The datetimes of series and cubes use the units of the file", "statement": "In every time series and cube file the datetime of an entry is its time, in the units given when the file was made, after the start of the run.", "quantifier": "all units, start datetimes, times and values", "why_tests_cant": "All times and units.", "anchors": ["topoflow/utils/ncts_files.py:add_values_at_IDs", "topoflow/utils/nccs_files.py:add_cube"]}
{"id": "C137", "title": "Soil profiles and cubes that are asked for are saved", "statement": "A run with the Richards method that asks for profiles or cubes opens the files and adds one entry for each saving; each profile entry is the column of values under its cell with time and datetime, and it can be read back.", "quantifier": "all combinations of switches, all variables and cells", "why_tests_cant": "All settings and all columns.", "anchors": ["topoflow/utils/model_output.py:open_new_ps_file", "topoflow/utils/model_output.py:open_new_cs_file", "topoflow/utils/model_output.py:add_cube", "topoflow/components/infil_base.py:open_output_files", "topoflow/components/infil_base.py:save_cubes", "topoflow/utils/ncps_files.py:get_profile", "topoflow/utils/ncps_files.py:add_profiles_at_IDs"]}
{"id": "C138", "title": "A netCDF file can be made with the metadata of another", "statement": "The grid and time information taken from a grid stack make a file with the same bounds, sizes, resolution, start, end, length and units.", "quantifier": "all grids, periods and units", "why_tests_cant": "All metadata.", "anchors": ["topoflow/utils/ncgs_files.py:get_grid_info", "topoflow/utils/ncgs_files.py:get_time_info", "topoflow/utils/ncgs_files.py:open_new_file"]}
{"id": "C139", "title": "Ice thickness is never negative and the ice surface is the bed plus the ice", "statement": "After every successful glacier step the thickness of each cell is the old thickness plus the step times (mass balance plus convergence of the ice flux), or zero if that is negative; the ice surface is the bed plus the thickness; the time has advanced by the (positive) step. So the thickness stays nonnegative through any run.", "quantifier": "all grids, beds, ice thicknesses, parameters, options, times and numbers of steps", "why_tests_cant": "All real grids and all run lengths.", "anchors": ["topoflow/components/gc2d.py:update", "topoflow/components/gc2d.py:update_vars", "topoflow/components/gc2d.py:run_model"]}
{"id": "C140", "title": "Ice is conserved by a glacier step", "statement": "In every step the change of the total ice equals snowfall minus melting plus what crosses the border of the grid; motion creates no ice.", "quantifier": "all grids, beds, thicknesses, climates and steps", "why_tests_cant": "All real fields and sizes of grids.", "anchors": ["topoflow/components/gc2d.py:mass_conservation", "topoflow/components/gc2d.py:update_vars"]}
{"id": "C141", "title": "The running ice budget equals the ice", "statement": "The running budget returned by each glacier step changes by exactly as much as the total ice on the grid.", "quantifier": "all grids, climates and steps", "why_tests_cant": "All real fields.", "anchors": ["topoflow/components/gc2d.py:update_vars"]}
{"id": "C142", "title": "Ice moves down the slope of its surface", "statement": "Between any two neighbouring cells the ice flux is directed from the higher to the lower ice surface, and there is none where both are level.", "quantifier": "all grids with nonnegative thickness, all physical parameters, all boundary conditions, with and without sliding", "why_tests_cant": "All surfaces.", "anchors": ["topoflow/components/gc2d.py:basal_shear_stress", "topoflow/components/gc2d.py:iceflow", "topoflow/components/gc2d.py:ice_sliding", "topoflow/components/gc2d.py:mass_conservation"]}
{"id": "C143", "title": "The six boundary conditions of the glacier model do what their names say", "statement": "Through an ice-free side ice can leave but not enter; no ice crosses a side with zero or constant (zero) flux; outside a side with constant slope the surface continues with the slope of the last two cells, down to the bed; a side with a given surface elevation has this elevation; each of the six can be chosen for each side.", "quantifier": "all grids, all combinations of boundary conditions on the four sides", "why_tests_cant": "1296 combinations on all grids.", "anchors": ["topoflow/components/gc2d.py:set_bc", "topoflow/components/gc2d.py:BoundaryCond", "topoflow/components/gc2d.py:mass_conservation"]}
{"id": "C144", "title": "The configured boundary conditions and ice parameters are used", "statement": "A glacier run uses the boundary conditions, the minimum thickness, the ice hardness and the sliding parameters of its configuration: with zero flux configured on all sides no ice leaves the grid.", "quantifier": "all configurations and grids", "why_tests_cant": "All configurations.", "anchors": ["topoflow/components/ice_base.py:set_gc2d_parameters", "topoflow/components/gc2d.py:update", "topoflow/components/gc2d.py:set_bc"]}
{"id": "C145", "title": "No ice is drawn from bare rock", "statement": "The ice flux never takes ice from a cell that has none.", "quantifier": "all grids, beds and thicknesses", "why_tests_cant": "All real fields.", "anchors": ["topoflow/components/gc2d.py:mass_conservation"]}
{"id": "C146", "title": "The climates of the glacier model", "statement": "Every documented mass-balance choice gives a mass balance; with an equilibrium line it is the smaller of the maximum and the gradient times the height above the line: positive above the line and negative below. The line is constant, or is lowered from its start with the configured step size and interval.", "quantifier": "all mass-balance choices, surfaces and times", "why_tests_cant": "All surfaces and times.", "anchors": ["topoflow/components/gc2d.py:mass_balance", "topoflow/components/gc2d.py:MassBalance"]}
{"id": "C147", "title": "The melt rate of a glacier is the water from the ice that melted", "statement": "The melt rate of each cell times the seconds of the step is the thickness of ice melted in the step times the ratio of the densities of ice and water; it is never negative, and zero where the mass balance is not negative.", "quantifier": "all grids, climates and steps", "why_tests_cant": "All real fields.", "anchors": ["topoflow/components/gc2d.py:update_vars"]}
{"id": "C148", "title": "Variable time steps of the glacier model", "statement": "With variable time steps, updates succeed on every grid and no step exceeds the configured largest step; with fixed time steps each step is the configured one.", "quantifier": "all grids, configurations and states", "why_tests_cant": "All sizes of grids and states.", "anchors": ["topoflow/components/gc2d.py:get_timestep", "topoflow/components/gc2d.py:filter2d", "topoflow/components/gc2d.py:update", "topoflow/components/ice_base.py:set_gc2d_parameters"]}
{"id": "C149", "title": "A glacier run ends at the first step at or after its end time", "statement": "For every bed and ice thickness run_model terminates; with fixed steps it takes as many steps as needed to reach the end time and not one more.", "quantifier": "all end times, beds, thicknesses and cell sizes", "why_tests_cant": "Termination for all end times.", "anchors": ["topoflow/components/gc2d.py:run_model", "topoflow/components/gc2d.py:update"]}
{"id": "C150", "title": "Updating the ice component advances the glacier and the clock", "statement": "An update of the enabled ice component performs a glacier step and advances its time by the step; an update of the disabled component does nothing.", "quantifier": "all states and configurations of the component", "why_tests_cant": "All states.", "anchors": ["topoflow/components/ice_base.py:update", "topoflow/components/ice_base.py:update_time"]}
{"id": "C151", "title": "Simulating only the part with ice gives the same result", "statement": "The option to restrict the computation to the rectangle with ice does not change the result of a step.", "quantifier": "all grids and thicknesses", "why_tests_cant": "All grids.", "anchors": ["topoflow/components/gc2d.py:compress_grid", "topoflow/components/gc2d.py:update"]}
{"id": "C152", "title": "Ice advances at most one cell per step", "statement": "A cell without ice whose four neighbours have none (or lie outside the grid) has after a step exactly what fell on it as snow; bare land where the mass balance is nowhere positive stays bare.", "quantifier": "all grids, beds, climates and steps", "why_tests_cant": "All real fields and grids.", "anchors": ["topoflow/components/gc2d.py:mass_conservation", "topoflow/components/gc2d.py:set_bc", "topoflow/components/gc2d.py:update_vars"]}
{"id": "C153", "title": "The spherical Albers map keeps areas", "statement": "Every region of the globe that does not reach the meridian opposite to 96 degrees west has on the spherical Albers map the area it has on the sphere; different points have different images; lengths along the two standard parallels are kept; the origin is at 96 W, 23 N; north is up on the central meridian and east is to the right.", "quantifier": "all measurable regions and all points of the globe without the poles", "why_tests_cant": "All regions and all real coordinates.", "anchors": ["topoflow/utils/projections.py:Albers_XY_Sphere"]}
{"id": "C154", "title": "The ellipsoidal Albers map keeps areas", "statement": "Every region of the globe that does not reach the meridian opposite to 96 degrees west has on the ellipsoidal Albers map the area it has on the ellipsoid; different points have different images; lengths along the two standard parallels are kept; the origin is at 96 W, 23 N; north is up on the central meridian and east is to the right.", "quantifier": "all measurable regions and all points of the globe without the poles", "why_tests_cant": "All regions and all real coordinates.", "anchors": ["topoflow/utils/projections.py:Albers_XY_Ellipsoid", "topoflow/utils/projections.py:Albers_q_for_Ellipsoid"]}
{"id": "C155", "title": "The Lambert azimuthal map keeps areas and distances from its origin", "statement": "For every origin, a region of the globe that does not reach the meridian opposite to the origin has on the Lambert map the area it has on the sphere; different points have different images; the distance of an image from (0,0) is the straight-line distance of the point from the origin; north is up on the meridian of the origin and east is to the right.", "quantifier": "all origins, all measurable regions and all points of the globe without the poles", "why_tests_cant": "All origins, regions and real coordinates.", "anchors": ["topoflow/utils/projections.py:Lambert_Azimuthal_Equal_Area_XY"]}
{"id": "C156", "title": "The Mercator map keeps angles", "statement": "On both Mercator maps meridians and parallels are vertical and horizontal lines and at every point the scale along the meridian equals that along the parallel; the equator is at zero, north and south are mirror images, a more northern point is higher and a more eastern one further right.", "quantifier": "all points of the globe without the poles, all central meridians, sphere and ellipsoid", "why_tests_cant": "All real coordinates.", "anchors": ["topoflow/utils/projections.py:Mercator_XY"]}
{"id": "C157", "title": "Saturation vapour pressure of the utilities and the component agree", "statement": "The saturation vapour pressure is positive and grows with temperature for each method; the utility gives for the same method the value that the meteorology component computes; millibars are ten times kilopascals; an unknown method is refused.", "quantifier": "all temperatures above the pole of the formula, all methods", "why_tests_cant": "All real temperatures.", "anchors": ["topoflow/utils/met_utils.py:saturation_vapor_pressure", "topoflow/components/met_base.py:update_saturation_vapor_pressure"]}
{"id": "C158", "title": "Relative humidity from specific humidity", "statement": "The relative humidity is always between 0 and 1; it is the ratio of the vapour pressure belonging to the mixing ratio to the saturation vapour pressure, capped at 1; it never falls when the specific humidity or the pressure rises and never rises with temperature.", "quantifier": "all specific humidities, pressures and temperatures", "why_tests_cant": "All real values.", "anchors": ["topoflow/utils/met_utils.py:relative_humidity"]}
{"id": "C159", "title": "Lapsed temperature stacks", "statement": "The stack has one frame for each value of the series and one value for each cell: the temperature lowered by the lapse rate times the height above the reference elevation; a cell at the reference elevation gets the series itself.", "quantifier": "all DEMs, series, reference elevations and lapse rates", "why_tests_cant": "All grids and series of any length.", "anchors": ["topoflow/utils/met_utils.py:lapse_air_temperature"]}
{"id": "C160", "title": "Improved slopes of flats", "statement": "In the improved slope grid every cell with a flow direction has a positive slope: the drop to the first lower cell downstream divided by the length of the flow path to it; cells without a flow direction have slope zero.", "quantifier": "all DEMs, grid sizes, flow lengths and border settings", "why_tests_cant": "All DEMs of any size and flats of any extent.", "anchors": ["topoflow/utils/new_slopes.py:get_new_slope_grid"]}
{"id": "C161", "title": "Simple D8 slope grid", "statement": "The simple slope grid is NaN exactly where there is no flow direction; elsewhere it is the drop to the downstream cell divided by the flow length, never negative and zero exactly on flats, and it agrees with the slope grid of the D8 component. It is computed exactly when some cell has no direction and some cell drains to a lower one.", "quantifier": "all DEMs, grid sizes, flow lengths and border settings", "why_tests_cant": "All DEMs of any size.", "anchors": ["topoflow/utils/new_slopes.py:get_d8_slope_grid"]}
{"id": "C162", "title": "Smoothing keeps the range, the lowest cells and the ends of flow paths", "statement": "However many steps are made, every smoothed elevation lies within the range of the DEM; the lowest cells keep their elevation and stay the lowest; cells without flow direction and cells that flow into one are unchanged; smoothing fails only if every cell has a flow direction.", "quantifier": "all DEMs, grid sizes, border settings and numbers of steps", "why_tests_cant": "All DEMs and any number of steps.", "anchors": ["topoflow/utils/new_slopes.py:smooth_dem"]}
{"id": "C163", "title": "Smoothing keeps the highest elevation and the sources", "statement": "Cells into which no cell flows keep their elevation, and the highest elevation of the grid does not change.", "quantifier": "all DEMs, grid sizes, border settings and numbers of steps", "why_tests_cant": "All DEMs and any number of steps.", "anchors": ["topoflow/utils/new_slopes.py:smooth_dem"]}
{"id": "C164", "title": "Smoothing keeps flow going downhill", "statement": "After smoothing every cell is still at least as high as the cell it flows to.", "quantifier": "all DEMs, grid sizes and numbers of steps", "why_tests_cant": "All DEMs and any number of steps.", "anchors": ["topoflow/utils/new_slopes.py:smooth_dem"]}
{"id": "C165", "title": "Components of a coupled model compute with what their providers supply", "statement": "Whenever a component of a coupled model is updated, it computes with exactly the values that the providers of its input variables supply for the component's own time (the provider's array while it has made no update, an interpolated one otherwise) and with its own values of everything else; no value, clock or status of another component changes; clocks and statuses do not depend on what the components compute.", "quantifier": "all coupled models, components, states and numbers of steps, whatever the components compute", "why_tests_cant": "All components, states and any number of steps.", "anchors": ["topoflow/framework/multi_bmi.py:get_required_vars", "topoflow/framework/multi_bmi.py:update", "topoflow/framework/emeli.py:get_required_vars", "topoflow/framework/time_interpolation.py:get_values"]}
{"id": "C166", "title": "Neighbours of a set of cells", "statement": "For any set of cells of a grid, the local D8 component's neighbour search returns exactly the cells of the grid that touch one of the given cells (including or excluding the given cells, as asked), never wrapping around a border, each once and in increasing order; in a grid of two or more cells every cell has a neighbour.", "quantifier": "all grid sizes and all lists of cell IDs", "why_tests_cant": "All grids, all subsets of cells, borders and corners in every combination.", "anchors": ["topoflow/components/d8_local.py:get_neighbors"]}
{"id": "C167", "title": "Pits are recognised exactly", "statement": "A cell is reported as a pit exactly when every other cell of the grid that touches it is strictly higher, and as an interior pit exactly when it is also not on the border.", "quantifier": "all DEMs and cells", "why_tests_cant": "All DEMs and cells, including borders and corners.", "anchors": ["topoflow/components/d8_local.py:is_a_pit", "topoflow/components/d8_local.py:is_an_interior_pit"]}
{"id": "C168", "title": "The cells that flow into a cell are found exactly", "statement": "For any grid of flow codes with two or more cells, the kids returned for a cell are exactly the cells of the grid from which one step in the direction of their code leads to the cell, each once; when border cells carry no code (no periodic borders) these are exactly the cells that flow into it. With a single cell the call fails.", "quantifier": "all grids of flow codes and all cells", "why_tests_cant": "All grids of codes, all cells.", "anchors": ["topoflow/components/d8_local.py:get_kid_IDs", "topoflow/components/d8_local.py:update_kid_IDs"]}
{"id": "C169", "title": "Neighbourhood of a cell with optional periodic borders", "statement": "For every cell, the neighbourhood holds exactly the cell and the cells next to it, wrapping around a border exactly when that border is periodic.", "quantifier": "all grid sizes, cells and settings of the periodic borders", "why_tests_cant": "All grid sizes, cells and border settings.", "anchors": ["topoflow/components/d8_local.py:update_neighborhood_IDs", "topoflow/components/d8_local.py:add_neighbors_to_IDs"]}
{"id": "C170", "title": "Local updates of the flow codes agree with the global component", "statement": "When the DEM changes in some cells and the local D8 component is told these cells, updating its flow codes always ends and gives the codes the global component computes from the new DEM, after any history of such changes; the first update gives the codes of all cells.", "quantifier": "all DEMs, settings, histories of changes", "why_tests_cant": "All DEMs and arbitrarily long histories of local changes.", "anchors": ["topoflow/components/d8_local.py:update_flow_grid", "topoflow/components/d8_local.py:start_new_d8_codes", "topoflow/components/d8_local.py:break_flow_grid_ties", "topoflow/components/d8_local.py:link_flats"]}
{"id": "C171", "title": "The local D8 component can be updated", "statement": "For every DEM an update of the local D8 component gets through, and leaves parent IDs, flow widths, flow lengths and areas that belong to the new flow codes.", "quantifier": "all DEMs, settings and earlier states", "why_tests_cant": "All DEMs, settings and states.", "anchors": ["topoflow/components/d8_local.py:update_parent_ID_grid", "topoflow/components/d8_local.py:update_flow_width_grid", "topoflow/components/d8_local.py:update_flow_length_grid", "topoflow/components/d8_local.py:update_area_grid", "topoflow/components/d8_base.py:update"]}
{"id": "C172", "title": "Monthly maximum and minimum grids", "statement": "For every sequence of dated grids, the maximum grid of a calendar month is, in every cell, at least every value of that month in the file, and is one of them when the month occurs (values not below the fill value); the minimum grid likewise, with the very first grid of the file (the initial condition) left out. Months that do not occur hold the fill value. The statistics fail only for an empty file.", "quantifier": "all sequences of dated grids, cells and months", "why_tests_cant": "All lengths and orders of grids, repeated and missing months.", "anchors": ["topoflow/utils/indicators.py:create_stat_grid_stacks"]}
{"id": "C173", "title": "Monthly means and standard deviations", "statement": "For every month that occurs in the file, the mean (standard deviation) grid is the average over the visits of that month of the mean (population standard deviation) of the grids of the visit.", "quantifier": "all sequences of dated grids, cells and months", "why_tests_cant": "All lengths of files and numbers of years, partial months.", "anchors": ["topoflow/utils/indicators.py:create_stat_grid_stacks"]}
{"id": "C174", "title": "Days per month with a condition", "statement": "For every file of dated grids in calendar order, one grid is written for each month of the file, and it holds in each cell the number of days of that month on which the condition occurred in at least one grid.", "quantifier": "all calendars of grids, conditions and cells", "why_tests_cant": "All lengths of months, grids per day and patterns of the condition.", "anchors": ["topoflow/utils/indicators.py:create_day_count_grid_stack"]}
{"id": "C175", "title": "Low and high values relative to the month", "statement": "With the statistics of the same file, a value counts as low (high) exactly when it is below (above) the monthly mean by one standard deviation of its month.", "quantifier": "all sequences of dated grids, cells and conditions", "why_tests_cant": "All sequences of grids and months.", "anchors": ["topoflow/utils/indicators.py:create_day_count_grid_stack", "topoflow/utils/indicators.py:create_stat_grid_stacks"]}
{"id": "C176", "title": "Affected population", "statement": "One grid of affected population is written per month; in each cell it is the population of the cell if the condition occurred on at least one day of the month and 0 otherwise, so it never exceeds the population, and more days with the condition never lower it.", "quantifier": "all population grids and day counts", "why_tests_cant": "All grids.", "anchors": ["topoflow/utils/indicators.py:create_affected_population_grid_stack"]}
{"id": "C177", "title": "The running number of conflict cells is right", "statement": "At every time of a run of the conflict model, whatever the random generator returns, the running number of cells in conflict equals the number of cells in conflict, and the time index is the number of steps made.", "quantifier": "all parameters, grids, numbers of steps and random draws", "why_tests_cant": "All outcomes of the random generator over runs of any length.", "anchors": ["topoflow/utils/conflict.py:update", "topoflow/utils/conflict.py:update_S", "topoflow/utils/conflict.py:spread_conflicts1"]}
{"id": "C178", "title": "The conflict model stays inside the grid and completes", "statement": "Cells on the border and cells without unrest are never in conflict. With the parameters c_emerge, c_spread and p_resolve in [0, 1], unrest in at least one interior cell and enough IDs (cells times steps), a run of any length completes for all random draws; with no unrest in the interior the first step raises.", "quantifier": "all parameters, grids, numbers of steps and random draws", "why_tests_cant": "All outcomes of the random generator over runs of any length.", "anchors": ["topoflow/utils/conflict.py:initialize_U", "topoflow/utils/conflict.py:update_p", "topoflow/utils/conflict.py:update_S", "topoflow/utils/conflict.py:get_neighbor_cols_and_rows", "topoflow/utils/conflict.py:spread_conflicts1"]}
{"id": "C179", "title": "IDs of conflicts", "statement": "A cell without conflict has ID 0. As long as the distinct IDs are not exhausted, a cell in conflict after a step has the ID it had before while in conflict, or the ID of an adjacent cell in conflict, or an ID that no conflict had at any earlier time of the run; and the cells with an ID that was not in use before the step are one cell and cells adjacent to it.", "quantifier": "all parameters, histories, steps and random draws", "why_tests_cant": "All histories of emergence, spreading and resolution.", "anchors": ["topoflow/utils/conflict.py:update_S", "topoflow/utils/conflict.py:spread_conflicts1"]}
{"id": "C180", "title": "What one step of the conflict model changes", "statement": "After a step a cell is in conflict exactly if it was and its conflict was not resolved, or it was not and a conflict emerged, or, with spreading on, an adjacent cell that is in conflict by then spreads to it; conflicts emerge with probability c_emerge times the unrest relative to the largest unrest of the grid, and spread with probability c_spread times the unrest relative to the largest unrest of the neighbours of the source; cells without unrest are never reached.", "quantifier": "all parameters, reachable states and random draws", "why_tests_cant": "All reachable states and outcomes of the random generator.", "anchors": ["topoflow/utils/conflict.py:update_S", "topoflow/utils/conflict.py:update_p", "topoflow/utils/conflict.py:spread_conflicts1"]}
{"id": "C181", "title": "A nonzero ID marks a conflict", "statement": "In the grids of IDs a cell has an ID different from 0 exactly if it is in conflict.", "quantifier": "all parameters, histories and random draws", "why_tests_cant": "All outcomes of the random generator, including the permutation of IDs.", "anchors": ["topoflow/utils/conflict.py:initialize", "topoflow/utils/conflict.py:update_S"]}
{"id": "C182", "title": "Configuration and final report of the conflict model", "statement": "The model can be started with or without a configuration file, and the fraction reported at the end is the share of the cells off the border that are in conflict.", "quantifier": "all grids and runs", "why_tests_cant": "All grid sizes and runs.", "anchors": ["topoflow/utils/conflict.py:initialize", "topoflow/utils/conflict.py:finalize"]}
{"id": "C183", "title": "Order of the events of the local erosion model", "statement": "In every run of the event-driven erosion model (with any flow routing and transport law), each update executes the cell whose scheduled time is the earliest of all inner cells (smallest ID among equals), at exactly that time; the clock never goes back and equals the model time; superseded events are never executed and no event is missed: when the clock has passed the time scheduled for an inner cell, that cell has had a full update in between; cells on the edge are executed at most once. With an inner cell the queue never runs empty, and an update can only fail because of an infinite event time, a splash zone larger than the arrays, a failing routing or a time step that is not positive.", "quantifier": "all grids, routings, transport laws and numbers of updates", "why_tests_cant": "All histories of rescheduling, any number of events.", "anchors": ["topoflow/components/erode_d8_local.py:update", "topoflow/components/erode_d8_local.py:update_active_ID", "topoflow/components/erode_d8_local.py:update_T_clock", "topoflow/components/erode_d8_local.py:update_T_next_grid", "topoflow/components/erode_d8_local.py:initialize_T_next_grid"]}
{"id": "C184", "title": "The splash zone of an event", "statement": "The cells given a full update by an event are exactly those reached from the active cell through touching cells whose prediction turns out wrong (changed, and either an inner cell without flow direction, or changed by the target or more, or in the other direction); the cells brought up to date are these and all cells touching one of them, each exactly once; all other cells keep elevation, time, schedule, discharge and rate; the zone has at most 100 cells. The search always ends.", "quantifier": "all reachable states and routings", "why_tests_cant": "The zone is found by recursion; all shapes of zones and orders of visits.", "anchors": ["topoflow/components/erode_d8_local.py:update_neighbors", "topoflow/components/erode_d8_local.py:reset_zone_IDs", "topoflow/components/erode_d8_local.py:append_zone_IDs", "topoflow/components/erode_d8_local.py:append_all_now_IDs"]}
{"id": "C185", "title": "Elevations follow the rates without gaps", "statement": "At the end of a run every cell has its initial elevation plus, for every interval between two events, the rate it had in that interval times the length of the interval, however often and whenever it was brought up to date.", "quantifier": "all grids, routings, numbers of updates and cells", "why_tests_cant": "All histories of lazy updates.", "anchors": ["topoflow/components/erode_d8_local.py:update_DEM", "topoflow/components/erode_d8_local.py:update_T_last_grid", "topoflow/components/erode_d8_local.py:update_entire_DEM", "topoflow/components/erode_d8_local.py:finalize"]}
{"id": "C186", "title": "Drift between full updates is bounded by the target", "statement": "Between two full updates of a cell its target stays the same and its recorded elevation never moves from that of the full update by as much as the target, nor in the other direction.", "quantifier": "all grids, routings, histories and cells", "why_tests_cant": "All histories of accumulated changes.", "anchors": ["topoflow/components/erode_d8_local.py:update_flux_cap_grid", "topoflow/components/erode_d8_local.py:update_neighbors", "topoflow/components/erode_d8_local.py:update_dz_target_grid2"]}
{"id": "C187", "title": "Rates are the sediment budget of the cell", "statement": "At all times the rate of every cell that is not held at base level is the uplift rate plus the sediment arriving from all cells that flow to it minus the sediment leaving it, per cell area, so that sediment is conserved; cells at base level fall at the base-level lowering rate.", "quantifier": "all grids, routings, histories and cells", "why_tests_cant": "All flow patterns and histories of local updates.", "anchors": ["topoflow/components/erode_d8_local.py:update_dz_dt_grid", "topoflow/components/erode_d8_local.py:update_fluxes4"]}
{"id": "C188", "title": "Time steps of the local erosion model", "statement": "After a full update the next event of an inner cell is one time step ahead, and the time step is positive: for a cell without flow direction until it will have changed by 0.01 m (never, if its rate is 0), for a cell with sediment discharge until the outflow alone will have lowered it by half the CFL factor times its height above the cell it flows to; a cell that has been active more than ten times running is put off by 1e20 years. The target of a cell is its rate times its time step. The start of a run fails exactly when a cell above base level with a flow direction carries no sediment or is not higher than the cell it flows to; otherwise it schedules every cell one time step ahead.", "quantifier": "all reachable states, routings and cells", "why_tests_cant": "All elevations, discharges and rates.", "anchors": ["topoflow/components/erode_d8_local.py:update_dt_grid6", "topoflow/components/erode_d8_local.py:update_T_next_grid"]}
{"id": "C189", "title": "The stability check of the local erosion model", "statement": "The run is stopped exactly when the elevation of some cell changed by more than 1000 m in an update.", "quantifier": "all reachable states and routings", "why_tests_cant": "All zones and changes.", "anchors": ["topoflow/components/erode_d8_local.py:update", "topoflow/components/erode_d8_local.py:update_DEM", "topoflow/components/erode_base.py:check_stability"]}
{"id": "C190", "title": "The local erosion model runs with the local D8 component", "statement": "With the local D8 component of the package, the event-driven erosion model can be initialised and updated for every grid.", "quantifier": "all grids, states and configurations", "why_tests_cant": "All grids and states.", "anchors": ["topoflow/components/erode_d8_local.py:update_d8_vars", "topoflow/components/erode_d8_local.py:initialize_d8_vars", "topoflow/components/d8_local.py:update_flow_grid"]}
{"id": "C191", "title": "Grids without inner cells run out of events", "statement": "In a grid with fewer than three rows or columns a run consists of at most as many updates as there are cells; after that many the next update fails because no event is left.", "quantifier": "all such grids, routings and runs", "why_tests_cant": "All grids and runs.", "anchors": ["topoflow/components/erode_d8_local.py:update_active_ID", "topoflow/components/erode_d8_local.py:update_T_next_grid", "topoflow/components/erode_d8_local.py:initialize_not_edge_grid"]}
{"id": "C192", "title": "The seasonal water balance classes span the space without overlap", "statement": "get_swb_class gives a basin a class exactly when its timing index, snow fraction and aridity lie in the ranges of that class, and no point lies in two classes (for the original and for the expanded boundaries, with and without B3). With the expanded boundaries every timing index in [-1, 1], snow fraction in [0, 1] and positive aridity has a class, as the documentation says.", "quantifier": "all options and all points of the parameter space", "why_tests_cant": "Three continuous parameters; gaps and overlaps are lines, edges and corners of the boxes.", "anchors": ["topoflow/utils/ngen/swb_utils.py:get_swb_class"]}
{"id": "C193", "title": "Expanded class boundaries keep the original classes", "statement": "Every basin that has a class by the original boundaries of Berghuijs et al. gets the same class by the expanded boundaries, with the same choice of B3 or with B3 added.", "quantifier": "all points of the parameter space", "why_tests_cant": "Needs all points of every box.", "anchors": ["topoflow/utils/ngen/swb_utils.py:get_swb_class"]}
{"id": "C194", "title": "Class names", "statement": "With the same choice of B3 the class returned is always one of the names listed by get_swb_class_names, so that counting by name cannot fail, and every listed name is taken. With the defaults of the two functions, which differ, the class is unlisted exactly when it is B3.", "quantifier": "all options and all points", "why_tests_cant": "All points of the parameter space.", "anchors": ["topoflow/utils/ngen/swb_utils.py:get_swb_class", "topoflow/utils/ngen/swb_utils.py:get_swb_class_names"]}
{"id": "C195", "title": "Timing index of precipitation", "statement": "get_precip_timing_index solves the equation of Woods (2009) that relates snow fraction, temperature and timing when the mean temperature is within the seasonal amplitude (limited to +-0.999), and is -1 or 1 exactly outside it; it always lies in [-1, 1], never rises with the snow fraction, and reverses when rain and snow, warm and cold are exchanged. From monthly temperatures the mean and half of the range are used; the call fails exactly when every month is at one degree.", "quantifier": "all snow fractions and monthly temperatures", "why_tests_cant": "Transcendental equation over a continuous domain.", "anchors": ["topoflow/utils/ngen/gages2_utils.py:get_precip_timing_index"]}
{"id": "C196", "title": "Timing index against temperature", "statement": "At a fixed snow fraction between none and all the timing index never rises with temperature, as the comments in the code derive and ask for ('for continuity').", "quantifier": "all snow fractions and temperatures", "why_tests_cant": "Monotonicity over a continuous domain, with limits at the end of the range.", "anchors": ["topoflow/utils/ngen/gages2_utils.py:get_precip_timing_index"]}
{"id": "C197", "title": "Snow fraction of a basin", "statement": "get_snow_precip_fraction returns the percentage of snow of the table as a fraction in [0, 1], or unchanged when UNITS is percent; missing values count as no snow.", "quantifier": "all values and units", "why_tests_cant": "All values and spellings of the option.", "anchors": ["topoflow/utils/ngen/gages2_utils.py:get_snow_precip_fraction"]}
{"id": "C198", "title": "Climate indicators of Knoben", "statement": "The monthly moisture index is (P - E) / max(P, E): in [-1, 1], 1 only without evaporation, -1 only without precipitation, 0 only for equal amounts, reversed when the two are exchanged, rising with precipitation and falling with evaporation. Of the yearly indicators, aridity lies in [-1, 1], seasonality in [0, 2] (0 only when all months agree) and the snow fraction in [0, 1] (0 when no month is below zero, 1 when all are). convert_knoben_aridity turns a monthly index back into E / P, and the yearly one into the yearly ratio when the ratio is the same in every month.", "quantifier": "all non-negative monthly amounts and temperatures", "why_tests_cant": "Twelve continuous values each.", "anchors": ["topoflow/utils/ngen/classify.py:get_knoben_monthly_moisture_index", "topoflow/utils/ngen/classify.py:get_knoben_annual_aridity", "topoflow/utils/ngen/classify.py:get_knoben_annual_seasonality", "topoflow/utils/ngen/classify.py:get_knoben_annual_snow_fraction", "topoflow/utils/ngen/classify.py:convert_knoben_aridity", "topoflow/utils/ngen/classify.py:get_annual_aridity"]}
{"id": "C199", "title": "Evaporation of Hamon", "statement": "For every latitude strictly between the poles the evaporation of a day is that of Hamon for the astronomical length of the day (the same as in the radiation functions); it is positive on days with light and grows with temperature; the evaporation of a month is the sum over its days, and the twelve months share out the 365 days of the year without gap or overlap.", "quantifier": "all days, temperatures and latitudes", "why_tests_cant": "Trigonometric and exponential formulas over continuous domains.", "anchors": ["topoflow/utils/ngen/classify.py:get_total_PET_for_day", "topoflow/utils/ngen/classify.py:get_total_PET_for_month", "topoflow/utils/ngen/classify.py:get_harmon_monthly_PET_array", "topoflow/utils/ngen/classify.py:get_declination", "topoflow/utils/ngen/classify.py:get_day_angle"]}
{"id": "C200", "title": "Published totals of the glacier component", "statement": "At every time the published totals of stored snow and ice water equal the sums of present depth times cell area, the totals of snow melt, ice melt and total melt equal what has melted since the start, and so the change of snow storage reported by the driver is the true one.", "quantifier": "all configurations, inputs and numbers of updates", "why_tests_cant": "Holds at every time of every run.", "anchors": ["topoflow/components/glacier_base.py:update", "topoflow/components/glacier_base.py:update_SM_integral", "topoflow/components/glacier_base.py:update_IM_integral", "topoflow/components/glacier_base.py:update_total_snowpack_water_volume", "topoflow/components/glacier_base.py:update_total_ice_water_volume", "topoflow/components/topoflow_driver.py:add_storage_volumes_to_report"]}
{"id": "C201", "title": "Depths and water equivalents of snow and ice", "statement": "The component starts with the configured depths and a cold content of density times heat capacity times depth times degrees below T0 (zero when warmer). After every update the depth of snow and of ice is its non-negative water equivalent times the ratio of the densities, so a configured depth that disagrees with the configured water equivalent is dropped by the first update.", "quantifier": "all configurations, inputs and numbers of updates", "why_tests_cant": "Every run, cell and time.", "anchors": ["topoflow/components/glacier_base.py:initialize_computed_vars", "topoflow/components/glacier_base.py:initialize_snow_cold_content", "topoflow/components/glacier_base.py:initialize_ice_cold_content", "topoflow/components/glacier_base.py:update_snow_depth", "topoflow/components/glacier_base.py:update_ice_depth"]}
{"id": "C202", "title": "Types of the density of snow", "statement": "The density of snow may be given as a scalar, a grid, a time series or a grid sequence, as the configuration file allows, and the component can then be updated any number of times.", "quantifier": "all four types and numbers of updates", "why_tests_cant": "All input types and histories.", "anchors": ["topoflow/components/glacier_base.py:update_density_ratio", "topoflow/components/glacier_base.py:update"]}
{"id": "C203", "title": "Stretched images keep the order of the cells", "statement": "With each named stretch and positive parameters a cell is strictly brighter than another exactly when its value is strictly higher (for the power and the logarithm of raw values: when these are defined); equalising the histogram never reverses two cells; an unknown name leaves the grid as it is.", "quantifier": "all grids, parameters and names", "why_tests_cant": "All real grids and parameters.", "anchors": ["topoflow/utils/visualize.py:stretch_grid", "topoflow/utils/visualize.py:normalize_grid", "topoflow/utils/visualize.py:histogram_equalize", "topoflow/utils/visualize.py:power_stretch0", "topoflow/utils/visualize.py:power_stretch1", "topoflow/utils/visualize.py:power_stretch2", "topoflow/utils/visualize.py:power_stretch3", "topoflow/utils/visualize.py:log_stretch", "topoflow/utils/visualize.py:linear_stretch", "topoflow/utils/visualize.py:tanh_stretch"]}
{"id": "C204", "title": "Range of stretched images", "statement": "Stretches of the normalised grid give values from 0 to 1: 0 exactly at the lowest cells and 1 exactly at the highest (power2 ends at 1 - (1 + a)^(-b)); constant grids become 0. Equalising the histogram gives the share of the cells in the bins up to that of the cell, first bin left out, from 0 to 1.", "quantifier": "all grids and positive parameters", "why_tests_cant": "All real grids, sizes and parameters.", "anchors": ["topoflow/utils/visualize.py:stretch_grid", "topoflow/utils/visualize.py:normalize_grid", "topoflow/utils/visualize.py:histogram_equalize"]}
{"id": "C205", "title": "Stretched images do not depend on the unit", "statement": "A change of unit (positive factor, any offset) leaves every stretched grid as it is, except for the logarithm and the power of the raw values.", "quantifier": "all grids, units and parameters", "why_tests_cant": "All real grids and units.", "anchors": ["topoflow/utils/visualize.py:stretch_grid", "topoflow/utils/visualize.py:normalize_grid", "topoflow/utils/visualize.py:histogram_equalize"]}
{"id": "C206", "title": "Reading a time series", "statement": "read_time_series and read_any_time_series return, in order, the time and the value of every line after the header up to the first line that lacks one of the two columns; that line and all later ones are dropped without an error. The call fails exactly when one of the lines read has something that is not a number in these columns.", "quantifier": "all files, delimiters, headers and columns", "why_tests_cant": "All files.", "anchors": ["topoflow/utils/calibrate.py:read_time_series", "topoflow/utils/calibrate.py:read_any_time_series"]}
{"id": "C207", "title": "Observation times in minutes", "statement": "Observation times given as hhmm become the minutes since the first one on the clock of one day, dates the minutes since the first date, datetimes with any separator the minutes since the configured start; numbers stay as they are.", "quantifier": "all lists of valid times", "why_tests_cant": "All dates, times and lengths.", "anchors": ["topoflow/utils/calibrate.py:convert_obs_time_format", "topoflow/utils/calibrate.py:get_observed_values"]}
{"id": "C208", "title": "Interpolated observations", "statement": "With the method linear the interpolated observation lies on the line through the two observations around the time (first and last line continued outside), equals the observation at its time and lies between the two values in between; with the method nearest it is an observation nearest in time.", "quantifier": "all increasing times, values and times of interest", "why_tests_cant": "All series and times.", "anchors": ["topoflow/utils/calibrate.py:interpolate_obs_time_series", "topoflow/utils/calibrate.py:interpolate_sim_time_series"]}
{"id": "C209", "title": "The cost compares values of the same time", "statement": "Every simulated value that enters the cost of a calibration run is compared with the observation of the same time, observed or interpolated.", "quantifier": "all observation and output intervals, regular or not", "why_tests_cant": "All pairs of intervals and lengths.", "anchors": ["topoflow/utils/calibrate.py:get_observed_values", "topoflow/utils/calibrate.py:compute_cost", "topoflow/utils/calibrate.py:calibrate"]}
{"id": "C210", "title": "The tried value reaches the grid", "statement": "For each supported parameter the grid written for a tried value holds that value at the cells it is meant for (largest area for manning_n_min and channel_width_max, smallest positive area for manning_n_max, exponent for channel_width_power) and the fixed values elsewhere on the power law; the file written is the one that was saved before.", "quantifier": "all area grids, fixed parameters, names and tried values", "why_tests_cant": "All grids and values.", "anchors": ["topoflow/utils/calibrate.py:modify_channel_grid_file", "topoflow/utils/calibrate.py:backup_input_file", "topoflow/utils/calibrate.py:calibrate", "topoflow/utils/parameterize.py:get_grid_from_TCA"]}
{"id": "C211", "title": "Order of the soil water contents", "statement": "For each of the eleven soil types, initialize sets 0 < theta_r < theta_H < theta_w < theta_f = theta_i < theta_u < theta_s = porosity < 1 and an initial conductivity strictly between 0 and K_s; for all sensible parameters the retention curve is strictly increasing between theta_r and theta_s, and theta_H, theta_w, theta_f are its values at -310 m, -150 m and -3.4 m. A name outside the list sets nothing and raises no error.", "quantifier": "all soil names and all sensible parameters", "why_tests_cant": "All names and real parameters.", "anchors": ["topoflow/components/soil_base.py:initialize", "topoflow/components/soil_base.py:theta_min", "topoflow/components/soil_base.py:theta_wilting", "topoflow/components/soil_base.py:theta_field", "topoflow/components/soil_base.py:theta_residual"]}
{"id": "C212", "title": "Conductivity and limiting content", "statement": "K_of_theta gives for every water content a conductivity from 0 to K_s, increasing in the content; theta_max gives for every rainfall rate the content at which the soil conducts that rate, and the saturated content for rates from K_s on.", "quantifier": "all sensible parameters, contents and rates", "why_tests_cant": "All real parameters.", "anchors": ["topoflow/components/soil_base.py:K_of_theta", "topoflow/components/soil_base.py:theta_max"]}
{"id": "C213", "title": "Columns of meteorological text files are complete", "statement": "After count_lines of the same file, read_column returns one value per line after the header, in order, each from the requested column; it fails exactly when some line has no such column or no value there. With the count of a shorter file it fails instead of cutting off.", "quantifier": "all files, columns, header lengths, delimiters", "why_tests_cant": "All files.", "anchors": ["topoflow/utils/mct_files.py:count_lines", "topoflow/utils/mct_files.py:read_column"]}
{"id": "C214", "title": "The wettest month", "statement": "find_wettest_month returns the year, month and total of a calendar month whose total rain in the file is the largest.", "quantifier": "all files with lines in order of their dates", "why_tests_cant": "All lengths, start months and gaps.", "anchors": ["topoflow/utils/mct_files.py:find_wettest_month"]}
{"id": "C215", "title": "Quarter-cell derivatives of a DEM", "statement": "In each of the four quarters of each cell the derivative of a grid is the slope of the chord to the neighbour in that direction, and nan exactly when one of the two cells is missing or off the grid (nothing wraps around). On a plane every quarter slope is the length of its gradient (nan if level), the landform operator is 0 for every exponent wherever two neighbours exist and nan elsewhere. On a surface that varies along x only, the plan curvature is 0 and the profile curvature the negative second difference; on a surface a + bx + cy + exy both are the curvatures of the surface itself. With the exponent 1 the landform operator is the Laplacian, the sum of the second differences along x and y.", "quantifier": "all grids, sizes, spacings, planes and exponents", "why_tests_cant": "All grids and real values.", "anchors": ["topoflow/utils/hamiltonian.py:get_d_dx_R", "topoflow/utils/hamiltonian.py:get_d_dx_L", "topoflow/utils/hamiltonian.py:get_d_dy_T", "topoflow/utils/hamiltonian.py:get_d_dy_B", "topoflow/utils/hamiltonian.py:get_qp_gradients", "topoflow/utils/hamiltonian.py:get_qp_slopes", "topoflow/utils/hamiltonian.py:get_qp_divergence_args", "topoflow/utils/hamiltonian.py:get_qp_divergence", "topoflow/utils/hamiltonian.py:get_curvatures_RT"]}
{"id": "C216", "title": "The ideal longitudinal profile", "statement": "get_peckham_profile starts at (x0, z0) with slope S0; at every distance its reported slope is the negative derivative of its elevation and its reported curvature the derivative of that slope, S^gamma grows linearly with the rate Rs, and for gamma < 0 < Rs it is concave up. get_whipple_profile starts at z0 and has the slope c x^(p-1).", "quantifier": "all starts, exponents other than 0, rates and distances where the profile is defined", "why_tests_cant": "All real parameters, with a special case at gamma = -1.", "anchors": ["topoflow/utils/hamiltonian.py:get_peckham_profile", "topoflow/utils/hamiltonian.py:get_whipple_profile"]}
{"id": "C217", "title": "The curvature equation", "statement": "kp_from_curvature_eqn and kc_from_curvature_eqn undo each other, and on the ideal profile they give plan curvature 0 and the profile's own curvature.", "quantifier": "all slopes other than 0, curvatures, exponents and rates", "why_tests_cant": "All real parameters.", "anchors": ["topoflow/utils/hamiltonian.py:kp_from_curvature_eqn", "topoflow/utils/hamiltonian.py:kc_from_curvature_eqn", "topoflow/utils/hamiltonian.py:get_peckham_profile"]}
{"id": "C218", "title": "Clipping of measured profiles", "statement": "A profile read has exactly the points of the file without the clipped head and tail, and with clip_hilltop from the first point of steepest descent on; each slope is the drop to the next point over the distance, 0 at the last point; x0, z0, S0 are those of the first point left. Reading fails exactly when fewer than two points are left, in particular for a profile that rises all the way with clip_hilltop. The drops add up to the relief.", "quantifier": "all profiles and clip sizes", "why_tests_cant": "All lengths and values.", "anchors": ["topoflow/utils/hamiltonian.py:read_profile"]}
{"id": "C219", "title": "Processes can be switched off", "statement": "A set of components that can be connected can still be connected when any of its processes is switched off (comp_status Disabled in its CFG file).", "quantifier": "all sets of components of the repository, in any order, and all choices of the switched off ones", "why_tests_cant": "Exponentially many combinations of components and settings.", "anchors": ["topoflow/framework/emeli.py:initialize_comp_set", "topoflow/framework/emeli.py:connect_comps", "topoflow/components/snow_base.py:initialize", "topoflow/components/channels_base.py:initialize", "topoflow/components/met_base.py:initialize", "topoflow/components/ice_base.py:initialize"]}
{"id": "C220", "title": "A switched off process contributes nothing", "statement": "Every depth, flux and total that a switched off component hands to another component is zero at the start and after any number of updates, so that the runoff in a cell is the sum of the contributions of the processes that are on.", "quantifier": "all components, variables they hand on, numbers of updates, rates and cells", "why_tests_cant": "All combinations of components and histories.", "anchors": ["topoflow/components/snow_base.py:initialize", "topoflow/components/evap_base.py:initialize", "topoflow/components/infil_base.py:initialize", "topoflow/components/satzone_base.py:initialize", "topoflow/components/glacier_base.py:initialize", "topoflow/components/ice_base.py:initialize", "topoflow/components/channels_base.py:update_R"]}
{"id": "C221", "title": "A value handed over between equal time steps is used exactly once", "statement": "In a run in which all components have the same time step, each value that a component computes is used by a component that needs it in exactly one of its updates, in order: either in the same step or, always, one step later. No value is skipped or used twice, so the volumes counted by the two components agree.", "quantifier": "all sequences of values, ways of storing them (in place or replaced, scalar or grid), orders of the provider file, and updates of a run with linear interpolation in time", "why_tests_cant": "All value sequences and all lengths of runs; the order depends on the provider file.", "anchors": ["topoflow/framework/emeli.py:run_model", "topoflow/framework/emeli.py:get_required_vars", "topoflow/framework/time_interpolation.py:time_interp_data.update", "topoflow/framework/time_interpolation.py:time_interpolator.get_values"]}
{"id": "C222", "title": "Every component that is switched on can be started", "statement": "A component of the repository that is switched on and has a CFG file with the entries of the one shipped for it can be initialised in every model in which all its input variables have been provided by components initialised before it.", "quantifier": "all components of the repository, all models that contain them, all combinations of switched off components", "why_tests_cant": "All components in all models; a test starts one component in one model.", "anchors": ["topoflow/framework/emeli.py:initialize_comp_set", "topoflow/components/infil_base.py:initialize", "topoflow/components/infil_base.py:update_total_storage", "topoflow/components/evap_base.py:initialize_input_file_vars", "topoflow/components/evap_base.py:check_input_types", "topoflow/components/diversions_fraction_method.py:read_source_data", "topoflow/components/snow_base.py:initialize_cold_content", "topoflow/components/topoflow_driver.py:initialize_stop_vars", "topoflow/components/satzone_base.py:update_outfile_names"]}
{"id": "C223", "title": "The order of the lines of the provider file does not matter for the start", "statement": "If a model can be initialised with its provider file, it can also be initialised when the lines of the provider file are put in another order.", "quantifier": "all sets of components, all orders of the provider file, all combinations of switched off components", "why_tests_cant": "All permutations of all component sets.", "anchors": ["topoflow/framework/emeli.py:initialize_comp_set", "topoflow/framework/emeli.py:connect_comps", "topoflow/utils/BMI_base.py:is_scalar"]}
{"id": "C224", "title": "The volume error of the final report of a coupled model", "statement": "In a model of meteorology, channels, snow and evaporation with any other components, after any run, the volume error in the final report is zero unless channel cells were overdrawn.", "quantifier": "all drainage networks of DEMs, all settings and initial states, all inputs from the other components (no negative snowfall), all numbers of steps", "why_tests_cant": "All networks, settings and histories; the error is a sum over all steps of flows between components, and a test sees one run in which small terms look like rounding.", "anchors": ["topoflow/framework/emeli.py:run_model", "topoflow/components/topoflow_driver.py:add_mass_balance_to_report", "topoflow/components/topoflow_driver.py:add_storage_volumes_to_report", "topoflow/components/channels_base.py:update", "topoflow/components/snow_base.py:update", "topoflow/components/met_base.py:update", "topoflow/components/evap_base.py:update"]}
{"id": "C225", "title": "The final report gives the final storages", "statement": "The water volumes in channels, snowpack and soil in the final report are those at the end of the run, in whatever order the components are listed in the provider file.", "quantifier": "all provider files with a driver, all combinations of switched off components, both interpolation methods, all runs", "why_tests_cant": "All orders of all component sets and all runs.", "anchors": ["topoflow/framework/emeli.py:finalize_all", "topoflow/framework/time_interpolation.py:get_values", "topoflow/components/topoflow_driver.py:add_storage_volumes_to_report", "topoflow/components/snow_base.py:finalize", "topoflow/components/infil_base.py:finalize", "topoflow/components/channels_base.py:finalize"]}
{"id": "C226", "title": "Every basin of the GAGES-II table gets a class", "statement": "With the expanded boundaries get_swb_points gives every basin (snow percentage from 0 to 100 or missing, positive evaporation and precipitation, any monthly temperatures) one of the listed classes, never 'None', as its comment says; the aridity compares evaporation in mm with precipitation in cm.", "quantifier": "all snow percentages, monthly temperatures, evaporation and precipitation", "why_tests_cant": "A continuous space of 15 numbers per basin; the gaps lie on thin sets and far out.", "anchors": ["topoflow/utils/ngen/gages2_utils.py:get_swb_points", "topoflow/utils/ngen/gages2_utils.py:get_aridity_index", "topoflow/utils/ngen/swb_utils.py:get_swb_class"]}
{"id": "C227", "title": "A configuration file made from a template has every placeholder filled in and nothing else changed", "statement": "make_new_cfg_file writes the template with every {{name}} whose name is listed replaced by the value given for it (the first, if the name is listed twice) and every other character kept, for names without braces, values without an opening brace and a template whose text outside the placeholders has no '{{'. With fewer values than names it fails and writes nothing. A value that is itself a placeholder is replaced in its turn only if its name comes later in the list.", "quantifier": "all templates, all lists of names and values", "why_tests_cant": "Templates, names and values are unbounded texts, and each replacement runs over the result of the ones before; a test sees a few templates only.", "anchors": ["topoflow/utils/cfg_templates.py:make_new_cfg_file", "topoflow/utils/cfg_templates.py:read_cfg_as_string", "topoflow/utils/cfg_templates.py:write_string_as_cfg"]}
{"id": "C228", "title": "The dollar templates are filled in line by line", "statement": "template_files.replace with method RE writes the lines of the template with every ${name} that is a key of the dictionary replaced by its value and every other character kept, including placeholders that are not in the dictionary, for values without '$' and '{', nonempty names without '$', '{' and '}', and lines whose text outside the placeholders has no '${'.", "quantifier": "all templates and dictionaries", "why_tests_cant": "The placeholders are found by a regular expression and replaced one after another in a line that changes; texts are unbounded.", "anchors": ["topoflow/utils/template_files.py:replace", "topoflow/utils/template_files.py:get_replacements"]}
{"id": "C229", "title": "Bundling grid files into a stack keeps their order in time when the index has a fixed width", "statement": "RTG_to_RTS and rtg2rts write the first nx*ny values of every found file, in the order of the file names as texts, whatever order the directory lists them in. So with a time index of fixed width in the names, grid t of the stack is the grid of time index t, for any number of files the width allows; without leading zeros grid 2 is already the one of index 10. An existing file is not overwritten and no other file changes; the script does not swap the bytes, and fails without writing when it is called with numbers instead of texts.", "quantifier": "all numbers of files, widths, prefixes and extensions, grid sizes and contents, all listing orders", "why_tests_cant": "The order of a directory listing is not under the control of a test, and the numbers of files are unbounded.", "anchors": ["topoflow/components/evap_read_file.py:RTG_to_RTS", "topoflow/utils/rtg2rts.py:rtg2rts"]}
{"id": "C230", "title": "Degrees, minutes and seconds become the same angle in decimal degrees", "statement": "convert_dms_to_dec_deg returns plus or minus (degrees + minutes/60 + seconds/3600), with the sign that stands before the degrees.", "quantifier": "all signs, degrees, minutes and seconds", "why_tests_cant": "A continuous range of angles; it goes wrong only between 0 and -1 degree.", "anchors": ["topoflow/utils/ngen/data_utils.py:convert_dms_to_dec_deg"]}
{"id": "C231", "title": "The erosion model makes every initial surface its configuration file offers", "statement": "With make_z0_method FLAT, PLANE or CORNER_PLANE and noise_method GAUSSIAN, MIDPOINTS or NO_NOISE, the start of the erosion model makes the surface that is asked for, noise times its scale on top of the plane, on a grid of any size; with READ_FILE, in any case of the letters, it reads the file with the type its size shows.", "quantifier": "all methods, grid sizes, slopes, random numbers and file sizes", "why_tests_cant": "The combinations of methods and grid sizes, with arbitrary random numbers; failures depend on names that are looked up only when a branch runs.", "anchors": ["topoflow/components/erode_base.py:create_initial_DEM", "topoflow/components/erode_base.py:initialize_DEM", "topoflow/components/erode_base.py:set_computed_input_vars", "topoflow/utils/midpoints.py:make_fractal_surface"]}
{"id": "C232", "title": "The boundary conditions of the erosion model name the right cells and leave the interior alone", "statement": "initialize_boundary_conditions sets the base level cells to the lower edge (BOTTOM), the right edge (RIGHT), all edges (FOUR_SIDES) or the lower left corner (CORNER), and changes the surface at most on the opposite edge, for every grid size.", "quantifier": "all grid sizes and surfaces, all four methods", "why_tests_cant": "Flat cell numbers are used as row numbers; whether this fails or silently overwrites rows depends on the shape of the grid.", "anchors": ["topoflow/components/erode_base.py:initialize_boundary_conditions"]}
{"id": "C233", "title": "The default monitored cell is the cell with the largest contributing area, or upstream of it", "statement": "get_outlets_file writes a cell of the grid with the largest area of all cells, with the longitude and latitude of its centre (inside the grid); with STEP_BACKS it writes a cell that many steps upstream.", "quantifier": "all grids of areas, grid sizes, resolutions and numbers of steps", "why_tests_cant": "All grids; ties and positions on the edges are not sampled by a test, and the steps back were never run.", "anchors": ["topoflow/utils/prepare_inputs.py:get_outlets_file"]}
{"id": "C234", "title": "The part of a forcing file holds exactly the lines of the chosen period", "statement": "subset_ngen_csv_file writes the header and, in order, exactly the lines with a date from the start date up to before the end date, for every forcing file in order of time.", "quantifier": "all files in order of time, all pairs of dates", "why_tests_cant": "It depends on which dates occur in the file; gaps and dates outside the file are rarely tried.", "anchors": ["topoflow/utils/prepare_inputs.py:subset_ngen_csv_file"]}
{"id": "C235", "title": "A value written after a key is read as it is written", "statement": "The readers of key-value lines return what stands after the key: the whole text for files, the first word for strings, a boolean that is true exactly for the yes words in any case, the number for numeric types, and all words of a list in order. The delimiter that is asked for is used and removed as a whole; asking for a number of words gives the words when there are enough.", "quantifier": "all keys, texts after the key, delimiters, types and numbers of words", "why_tests_cant": "All texts and delimiters; the options other than the defaults are not used by any test.", "anchors": ["topoflow/utils/cfg_files.py:read_value", "topoflow/utils/cfg_files.py:read_list_after_key", "topoflow/utils/cfg_files.py:read_words_after_key", "topoflow/utils/cfg_files.py:read_line_after_key"]}
{"id": "C236", "title": "Diversion files are read as documented", "statement": "A source, sink or canal file gives every source, sink and canal its cell, with the coordinates of that cell, and its discharges (in steps of the time step of the file), fraction and travel time; the files of the shipped example are read with their meaning.", "quantifier": "all numbers of sources, sinks and canals, cells, discharges, grid sizes and texts of the lines", "why_tests_cant": "All files; no test reads a diversion file.", "anchors": ["topoflow/components/diversions_fraction_method.py:read_source_data", "topoflow/components/diversions_fraction_method.py:read_sink_data", "topoflow/components/diversions_fraction_method.py:read_canal_data", "topoflow/examples/Diversion_on_a_Plane/plane_canals.txt"]}
{"id": "C237", "title": "Diverted water reaches the channels", "statement": "In a coupled model with an enabled diversions component, what its sources, sinks and canals add or remove is passed on to the component that routes the flow.", "quantifier": "all sets of components", "why_tests_cant": "All combinations of components; the outcome is the absence of an effect, which no failing test shows.", "anchors": ["topoflow/components/diversions_fraction_method.py:get_output_var_names", "topoflow/components/channels_base.py:update_diversions"]}
{"id": "C238", "title": "The published energy fluxes of a step belong together", "statement": "After every update of the meteorology component the vapour pressures, the dew point, the exchange coefficients, the sensible and latent heat fluxes, the precipitable water, the short- and longwave fluxes and their total are all computed from the same current inputs: none of them is left over from an earlier step, and the inputs are the values last read from the input files (those of the start for the first update). Every run completes when the window of snowfall depths has an entry.", "quantifier": "all configurations, start states, numbers of updates, values read from the files at each of them, and depths of snow and ice", "why_tests_cant": "All histories of input values; a wrong order of two calls shows up only when the inputs change between steps.", "anchors": ["topoflow/components/met_base.py:update", "topoflow/components/met_base.py:read_input_files", "topoflow/components/met_base.py:update_net_energy_flux"]}
{"id": "C239", "title": "A prescribed surface temperature or albedo is used", "statement": "The surface temperature and the albedo behind the energy fluxes are those that the configuration file prescribes, as a constant, a grid, a time series or a sequence of grids.", "quantifier": "all types, values, numbers of updates and values read", "why_tests_cant": "The value given for the types scalar and grid has no influence at all; every test with one value passes.", "anchors": ["topoflow/components/met_base.py:update_T_surf", "topoflow/components/met_base.py:update_albedo"]}
{"id": "C240", "title": "Options missing from older configuration files get their defaults, given ones are kept", "statement": "At the start of the channels component every option that the configuration file gives keeps its value, and every option that it lacks gets the documented default: stability check on, no floods, no attenuation, no baseflow, a bankfull depth of 10 m, no new channel files, and factors of 1; the parameters of an option in use get theirs. The output of flood depths is off whenever the flood option is.", "quantifier": "all combinations of options given and missing and all their values", "why_tests_cant": "Combinations of some thirty options that are present or absent; a default that overwrites a given value shows up only in some of them.", "anchors": ["topoflow/components/channels_base.py:set_missing_cfg_options", "topoflow/components/channels_base.py:initialize"]}
{"id": "C241", "title": "Channel files can be created at the start", "statement": "With the option to create channel files the channels component writes the grids of widths, roughness and bankfull depth from the grid of contributing areas and starts; without it no file is written.", "quantifier": "all configuration files", "why_tests_cant": "No shipped configuration uses the option; the statement is about all of them.", "anchors": ["topoflow/components/channels_base.py:initialize", "topoflow/utils/parameterize.py:get_grid_from_TCA"]}
{"id": "C242", "title": "Every node of the soil profile has the parameters of its layer", "statement": "For every number of soil layers, numbers of nodes and thicknesses, each node of the profile lies in exactly one layer, and has the thickness and, in every grid cell, the parameter value configured for this layer, whether the layers are given by numbers, grids or a mixture; the stored depth of a node is the depth of its lower end, and depths increase downwards.", "quantifier": "all layer configurations, nodes, grid sizes and cells", "why_tests_cant": "The layers are laid out with running sums of arbitrary node counts; an error at a boundary depends on the number of layers and on which of them are grids.", "anchors": ["topoflow/components/infil_base.py:build_layer_z_vector", "topoflow/components/infil_base.py:build_layered_var"]}
{"id": "C243", "title": "The reported soil water is the sum over all cells and layers", "statement": "The volume of water in the soil that the infiltration component reports is the sum over all nodes and all grid cells of the water content times the thickness of the node times the area of the cell; at the start this is the configured water content.", "quantifier": "all layer configurations, water contents, grids of fixed length or fixed angle, scalar or gridded inputs", "why_tests_cant": "The result depends on which of several array shapes meet; broadcasting gives errors or silently wrong sums for some combinations of sizes only.", "anchors": ["topoflow/components/infil_base.py:update_total_storage", "topoflow/components/infil_richards_1D.py:check_input_types", "topoflow/components/infil_richards_1D.py:initialize_computed_vars", "topoflow/utils/pixels.py:get_da"]}
{"id": "C244", "title": "A component can be run by itself", "statement": "run_model of a component, given a directory, a CFG prefix and a number of steps, initialises the component with its CFG file as the driver, updates it until it is done - after the number of steps in its CFG file or, if there is none, the number asked for - and finalises it once; if errors are to be skipped, an update that fails is the last one and the component is finalised all the same.", "quantifier": "all components, all CFG prefixes and numbers of steps, all numbers of updates, failures at any step", "why_tests_cant": "All components, any number of steps and a failure at any of them.", "anchors": ["topoflow/utils/BMI_base.py:BMI_component.run_model", "topoflow/utils/BMI_base.py:BMI_component.check_finished"]}
{"id": "C245", "title": "All files are closed at the end of a run", "statement": "When a run ends, every component closes the input files that it opened and its output files, and no error is raised, for every mixture of input types (numbers, time series, grids, sequences) and every spelling of the types that is accepted when the run starts.", "quantifier": "all models, all input types of all inputs in all layers, all spellings of the types", "why_tests_cant": "There are many inputs, each with its own type and spelling, in models of any composition.", "anchors": ["topoflow/utils/model_input.py:open_file", "topoflow/components/met_base.py:met_component.close_input_files", "topoflow/components/infil_richards_1D.py:infil_component.close_input_files", "topoflow/framework/emeli.py:framework.finalize_all"]}
{"id": "C246", "title": "Soil parameters of Richards' method are valid and current", "statement": "The soil parameters of Richards' method may be numbers, time series, grids or sequences of grids. When they are read, the saturated conductivity is made positive, the bubbling pressure at least -3 and the pore size parameter at least 0.1, values in the valid range are kept, and the parameters computed from them agree with them; a value read in a later step is used from that step on.", "quantifier": "all layers, all values and grids of any size, all types, all numbers of updates", "why_tests_cant": "All grids and unbounded sequences of updates.", "anchors": ["topoflow/components/infil_richards_1D.py:infil_component.read_input_files", "topoflow/components/infil_richards_1D.py:infil_component.set_computed_input_vars", "topoflow/components/infil_base.py:infil_component.update"]}
{"id": "C247", "title": "The channels of a run have the geometry that was given", "statement": "In every step of a run the channels component computes with the width, bank angle, sinuosity, bankfull depth and roughness that its configuration gives for that step, whether each is given as a number, a grid, a time series or a sequence of grids, multiplied by the factor of that input. A width of zero is replaced by the flow width of the cell, bank angles are converted from degrees to radians, flow lengths are multiplied and slopes divided by the sinuosity, and the run starts with the given depth of water in trapezoidal channels. An input that cannot be read stops the run.", "quantifier": "all grid sizes, all types, values, factors and files of the inputs, both roughness formulas, all steps of a run", "why_tests_cant": "There are eight inputs with four types each, and the values of files change from step to step; tests use one configuration and one step.", "anchors": ["topoflow/components/channels_base.py: initialize, initialize_input_file_vars, open_input_files, read_input_files, initialize_computed_vars, update", "topoflow/utils/model_input.py: open_file, read_next", "topoflow/utils/BMI_base.py: initialize_var, update_var"]}
{"id": "C248", "title": "Flow grids are converted from ARC to RiverTools codes", "statement": "Converting a flow grid file from the codes of ARC/INFO to those of RiverTools writes a file in which every cell has the code of the same direction, and every cell whose code is not one of the eight directions has the code 0, for grids of every size and item type, and completes without an error.", "quantifier": "all flow grids (all lengths and codes), all item types", "why_tests_cant": "The conversion goes through the file in blocks, so that grids of every length and with every code matter; a test uses a few grids.", "anchors": ["topoflow/utils/tf_utils.py: Convert_Flow_Grid", "topoflow/utils/idl_func.py: fstat"]}
{"id": "C249", "title": "The second version of the new slope grid gives flats the mean slope of the flow path", "statement": "For every DEM whose D8 flow never rises, the second version of the new slope grid is written without an error; a cell without a flow code has slope zero, a cell with a flow code has the least of its own downstream slope (if positive) and the mean slopes of all flow paths over a flat that it belongs to, each taken from the cell where the flat is entered to the cell behind the drop at its end; and every cell from which the flow leads to lower ground has a positive slope.", "quantifier": "all DEMs and D8 flow grids without loops (all sizes and lengths of flats)", "why_tests_cant": "The paths are followed in step with each other through shared arrays, and which value a cell ends with depends on all paths through it; a test sees a few DEMs with short flats.", "anchors": ["topoflow/utils/new_slopes.py: get_new_slope_grid2"]}
{"id": "C250", "title": "Groundwater accepts uniform and gridded recharge", "statement": "The net groundwater inflow of every cell in a time step is recharge plus inflow from the cells that flow into it minus its own outflow, whether the recharge rate is one number or a grid and whether the cells have a fixed length or fixed angles; the attenuating groundwater component does the same with the rain rate as recharge rate. No combination fails.", "quantifier": "all DEM networks, all recharge rates and rain rates (numbers and grids), both kinds of cell geometry, all discharges and time steps", "why_tests_cant": "Whether an expression is a number or a grid depends on the inputs of three components and on the geometry; a test runs few of the combinations.", "anchors": ["topoflow/components/satzone_base.py: update_water_volume_change", "topoflow/components/satzone_attenuate.py: update_water_volume_change", "topoflow/utils/pixels.py: get_da", "topoflow/components/infil_base.py: update_Rg, initialize"]}
{"id": "C251", "title": "Rain enters the model once", "statement": "In every cell and time step, what the surface gets and what the groundwater gets together is the rain, snowmelt, icemelt and seepage less evaporation, for every choice of groundwater component: no water is counted at the surface and in the ground.", "quantifier": "all rates, all cells, all groundwater components", "why_tests_cant": "The two terms are computed in different components, which are tested separately, if at all.", "anchors": ["topoflow/components/channels_base.py: update_R", "topoflow/components/infil_base.py: update_Rg", "topoflow/components/satzone_attenuate.py: update_water_volume_change"]}
{"id": "C252", "title": "Numbers, time series and grids as input of the snow components", "statement": "The degree-day and the energy balance snow component accept every combination of scalars, time series, grids and grid sequences that their CFG files allow, with air temperature, snowfall and surface temperature as numbers or grids, and can be initialised and updated any number of times; every cell follows the melt, balance and depth formulas with its own values at that time.", "quantifier": "all combinations of input types, all values, grids and numbers of updates", "why_tests_cant": "All combinations of types and all histories.", "anchors": ["topoflow/components/snow_base.py:initialize_computed_vars", "topoflow/components/snow_base.py:initialize_cold_content", "topoflow/components/snow_base.py:enforce_max_meltrate", "topoflow/components/snow_base.py:update_swe", "topoflow/components/snow_base.py:update_density_ratio", "topoflow/components/snow_base.py:update_depth", "topoflow/components/snow_degree_day.py:update_meltrate", "topoflow/components/snow_energy_balance.py:update_cold_content", "topoflow/utils/BMI_base.py:initialize_scalar"]}
{"id": "C253", "title": "The snowpack in floating point arithmetic", "statement": "With every operation rounded to a double, in any history of inputs the melt rate, the snow water equivalent and the cold content of a cell never become negative (nor the depth, if the density ratio is not negative); an empty pack releases nothing; the water released in an update is at most what the pack held, up to the rounding of that quotient; and after n updates the pack holds what it held at the start, plus the snowfall, minus the released water, up to n times a few units in the last place of the most water involved in an update.", "quantifier": "all histories of inputs and lengths, all time steps, both melt methods, every rounding that is monotone and accurate to a relative error (doubles in particular), no overflow", "why_tests_cant": "Rounding errors depend on all bits of all inputs and accumulate over histories of any length.", "anchors": ["topoflow/components/snow_base.py:update", "topoflow/components/snow_base.py:enforce_max_meltrate", "topoflow/components/snow_base.py:update_swe", "topoflow/components/snow_base.py:update_depth", "topoflow/components/snow_degree_day.py:update_meltrate", "topoflow/components/snow_energy_balance.py:update_meltrate", "topoflow/components/snow_energy_balance.py:update_cold_content"]}
{"id": "C254", "title": "Clocks in floating point arithmetic", "statement": "With every operation rounded to a double, clocks never run backwards, are exact for steps that are whole numbers, and otherwise are off by at most one relative rounding error for each update; the clocks in seconds and in minutes are the converted time up to a few roundings; a run of a given number of steps makes exactly that number; a run of a given model time makes exactly the number of updates that the settings imply; and after each pass of the framework loop every enabled component has been updated at most once in it and its clock is at or beyond the framework time at which the pass began.", "quantifier": "all time steps, stop times, numbers of updates and time units, every rounding that is monotone and accurate to a relative error (doubles in particular), no overflow", "why_tests_cant": "The accumulated rounding errors decide comparisons of clocks, for all steps and lengths of runs.", "anchors": ["topoflow/utils/BMI_base.py:update_time", "topoflow/components/topoflow_driver.py:check_finished", "topoflow/framework/emeli.py:run_model", "topoflow/framework/emeli.py:convert_time_units", "topoflow/framework/emeli.py:update_time"]}
{"id": "C255", "title": "Channel volumes in floating point", "statement": "With every operation of the volume update rounded as the machine does, no channel volume is ever negative, the number subtracted from a cell for its outflow is exactly the number added to its downstream cell, each new volume differs from the exact balance (emptied at zero) by at most 11 rounding units of the water involved, and the water in the channels and reservoirs plus the water gone over the edge equals the initial water plus runoff plus the water created by emptying overdrawn cells, up to 14 rounding units of the water involved per update.", "quantifier": "every network derived from a DEM, every grid of excess rates and discharges, every cell area and time step, with and without attenuation, every history length, every round-to-nearest arithmetic with unit at most 1/64, including doubles", "why_tests_cant": "Rounding errors depend on every value of the history; a test compares a few totals with a tolerance and cannot bound the drift of a long run.", "anchors": ["topoflow/components/channels_base.py:update_flow_volume", "topoflow/components/channels_base.py:update_edge_values"]}
{"id": "C256", "title": "Importing a DEM records where its cells are", "statement": "After importing a raster (read_from_geotiff or read_from_netcdf with an RTI file, import_dem_as_rtg), the grid information file describes it: number of columns and rows, the four edges, and the cell size, in meters with pixel geometry 1 for a projected raster and in seconds of arc with pixel geometry 0 for one with longitudes and latitudes.", "quantifier": "every raster size, geotransform, data type code and coordinate system, every state of the file system and every file name", "why_tests_cant": "A test imports a handful of files; whether the recorded geometry matches the raster must hold for every raster, and all later lengths and areas depend on it.", "anchors": ["topoflow/utils/import_grid.py:make_rti_for_gdal_grid", "topoflow/utils/import_grid.py:read_from_geotiff", "topoflow/utils/import_grid.py:import_dem_as_rtg", "topoflow/utils/rti_files.py:make_info"]}
{"id": "C257", "title": "An imported DEM is read back as it was", "statement": "A DEM imported and saved as RTG file (save_geotiff_as_rtg, or reading a GeoTIFF and writing the DEM in prepare_inputs, or import_dem_as_rtg) is read back by read_from_rtg with the values of the raster in every cell.", "quantifier": "every raster size, data type, grid of values, byte order of the machine, file name and state of the file system", "why_tests_cant": "The type recorded in one file and the bytes written to the other must agree for every data type and size; a test covers a few.", "anchors": ["topoflow/utils/import_grid.py:save_geotiff_as_rtg", "topoflow/utils/import_grid.py:read_from_rtg", "topoflow/utils/import_grid.py:import_dem_as_rtg", "topoflow/utils/prepare_inputs.py:write_dem_as_rtg"]}
{"id": "C258", "title": "Distances on the sphere are great-circle distances", "statement": "distance_on_sphere returns, for two points given by longitude and latitude in degrees, the great-circle distance on a sphere of the given radius. It is therefore never negative, at most half the circumference, the same in both directions, zero exactly for the same point of the sphere, unchanged by full turns in longitude, and it obeys the triangle inequality.", "quantifier": "all longitudes and latitudes (real numbers, also outside the usual ranges)", "why_tests_cant": "The points form a continuum and the formula has delicate cases (nearby points, antipodes, the date line); samples cannot establish the triangle inequality.", "anchors": ["topoflow/utils/ngen/usgs_utils.py:distance_on_sphere", "topoflow/utils/ngen/usgs_utils.py:haversine"]}
{"id": "C259", "title": "The closest gauge is the closest gauge", "statement": "get_closest_site returns a gauge of the table and its great-circle distance to the given point such that no gauge of the table is closer, the first one among equals; it answers \"unknown\" exactly when the longitude is -999 or less or the latitude lies outside [-90, 90].", "quantifier": "every nonempty table of gauges and all coordinates", "why_tests_cant": "The minimum must be right for every table and every point; a test has one table.", "anchors": ["topoflow/utils/ngen/usgs_utils.py:get_closest_site"]}
{"id": "C260", "title": "Degrees, minutes and seconds are converted with their sign", "statement": "convert_dms_to_dec_deg turns sign, degrees, minutes and seconds into the decimal number of degrees with this sign.", "quantifier": "all signs and all nonnegative degrees, minutes and seconds", "why_tests_cant": "The claim ranges over all coordinates; the wrong ones lie in one narrow band around zero which no ordinary test data hits.", "anchors": ["topoflow/utils/ngen/data_utils.py:convert_dms_to_dec_deg"]}
{"id": "C261", "title": "The bounding box of a basin contains its outline", "statement": "get_bounding_box returns a box that contains all vertices of the outline (with the default buffer and number of decimals), and whose borders are no farther from the outline than the buffer plus the rounding. The tests check_bounding_box and point_in_rectangle answer \"inside\" exactly for points within the borders.", "quantifier": "every polygon with at least one vertex, every buffer and number of decimals, every point", "why_tests_cant": "Rounding could cut off a vertex for particular coordinates only; the claim is about all of them.", "anchors": ["topoflow/utils/ngen/shape_utils.py:get_bounding_box", "topoflow/utils/ngen/shape_utils.py:check_bounding_box", "topoflow/utils/ngen/hlr_utils.py:point_in_rectangle"]}
{"id": "C262", "title": "The HLR code of a point is that of its grid cell", "statement": "get_hlr_code_for_point returns the code stored for the cell of the HLR grid that contains the projected point, never fails with an index out of range and never reads a cell from the other end of the grid; it returns \"0\" for points outside the grid, for missing values (\"-9999\") and for text that is no number.", "quantifier": "all longitudes and latitudes and every content of the grid", "why_tests_cant": "Points on the last row or column, or just outside, decide whether an index goes out of range or wraps around; the claim is about the whole plane.", "anchors": ["topoflow/utils/ngen/hlr_utils.py:get_hlr_code_for_point", "topoflow/utils/ngen/hlr_utils.py:get_hlr_grid_info"]}
{"id": "C263", "title": "The collated table has one line for each gauge", "statement": "collate writes exactly one line for each gauge id of USGS style (at least seven characters, not starting with a letter) that occurs in at least one of the nine datasets, in increasing order of the ids; each line has one field for each heading, starts with the id, and its nine membership flags are \"Y\" exactly for the datasets that list the gauge. With max_count the first such lines are written. The fields are read back as written if they contain no tab.", "quantifier": "all contents of the ten files and of the look-up tables, every max_count", "why_tests_cant": "It is a statement about the merge of ten files with arbitrary contents.", "anchors": ["topoflow/utils/ngen/collate_basins.py:collate", "topoflow/utils/ngen/collate_basins.py:get_inclusion_dict", "topoflow/utils/ngen/collate_basins.py:get_all_site_ids", "topoflow/utils/ngen/collate_basins.py:get_inclusion_list", "topoflow/utils/ngen/collate_basins.py:write_new_values"]}
{"id": "C264", "title": "Each value comes from the first dataset that has it", "statement": "In the table written by collate, each column taken from the datasets holds for each gauge the value of the first dataset, in the order of preference, whose row for this gauge has a value; where an id occurs in several rows of a dataset the last one counts.", "quantifier": "all contents of the ten files (sorted by id) and of the look-up tables", "why_tests_cant": "The ten files are read in step with the list of gauges; whether a row is missed depends on all rows before it.", "anchors": ["topoflow/utils/ngen/collate_basins.py:collate", "topoflow/utils/ngen/collate_basins.py:update_attributes", "topoflow/utils/ngen/collate_basins.py:get_next_line", "topoflow/utils/ngen/collate_basins.py:get_next_id"]}
{"id": "C265", "title": "Areas and elevations carry their own units", "statement": "In the table written by collate, the unit next to a drainage area or an elevation is the unit of the dataset from which the number was taken.", "quantifier": "all contents of the ten files (sorted by id)", "why_tests_cant": "Number and unit are chosen by different rules in up to ten steps; they must agree for every combination of datasets with and without values.", "anchors": ["topoflow/utils/ngen/collate_basins.py:update_attributes"]}
{"id": "C266", "title": "Sorting a file by gauge id keeps its records", "statement": "sort_tsv_by_site_id writes a file with the same records, ordered by gauge id after ids of seven digits have been given a leading zero.", "quantifier": "every file whose ids contain no blanks or control characters", "why_tests_cant": "Whole lines are sorted instead of ids; that both orders agree is a statement about all texts.", "anchors": ["topoflow/utils/ngen/data_utils.py:sort_tsv_by_site_id"]}
{"id": "C267", "title": "Mass totals in floating point arithmetic", "statement": "With every operation rounded to a double, the totals over domain and time that the components report (precipitation, rain, snow, runoff, outflow, melt, evaporation, infiltration, recharge and baseflow) never decrease, and after N updates a total agrees with the exact volume up to 2(N+D+2) relative roundings (plus underflow), in whatever order the cells are summed, D being the number of levels of additions over the cells.", "quantifier": "all grids and grid sizes, all nonnegative rates and cell areas, all nonnegative time steps, every number of updates and every order in which numpy may add the cells", "why_tests_cant": "Rounding errors depend on every bit of every value and on the order of summation; a bound for all of them cannot be sampled.", "anchors": ["topoflow/components/met_base.py:update_P_integral", "topoflow/components/channels_base.py:update_R_integral", "topoflow/components/channels_base.py:update_Q_out_integral", "topoflow/components/snow_base.py:update_SM_integral", "topoflow/components/glacier_base.py:update_IM_integral", "topoflow/components/evap_base.py:update_ET_integral", "topoflow/components/infil_base.py:update_v0_integral", "topoflow/components/infil_base.py:update_Rg_integral", "topoflow/components/satzone_base.py:update_GW_integral"]}
{"id": "C268", "title": "Unit conversion of a grid stack converts every value and keeps the original", "statement": "convert_units writes, to a file name that was not in use, a grid stack with as many grids as the open stack in which every value x is replaced by factor*x + add_val (in the arithmetic of the data type), whatever the data type of the stack; the original stack is unchanged.", "quantifier": "all grid stacks (grid size, number of grids, data type, byte order), factors, offsets, new names and contents of the directory", "why_tests_cant": "Every byte of every grid must end up at the right place for every shape, type and byte order; the tests of the package do not call the method.", "anchors": ["topoflow/utils/rts_files.py:convert_units", "topoflow/utils/rts_files.py:read_grid", "topoflow/utils/rts_files.py:add_grid", "topoflow/utils/rts_files.py:open_new_file"]}
{"id": "C269", "title": "Smoothing a DEM is a Gaussian mean that makes no new peaks and pits", "statement": "After n passes smooth_dem has replaced every elevation by a mean of the elevations at most 2n cells away, with the binomial weights that approximate a Gaussian. Hence all values stay within the bounds of the DEM, level and uniformly sloping terrain is unchanged, and the volume under the surface does not grow. With zero passes the DEM is left as it is.", "quantifier": "all DEMs and sizes, every number of passes", "why_tests_cant": "It is a statement about every cell of every DEM, with special cases along the edges, and about any number of passes.", "anchors": ["topoflow/utils/hamiltonian.py:smooth_dem"]}
{"id": "C270", "title": "A mask file lists exactly the selected cells", "statement": "get_mask writes an RTM file that starts and ends with -1 and contains in between, in increasing order and once each, exactly the row-major numbers of the cells at which slope and both curvatures are defined and meet the condition of the mask type; an unknown mask type is refused.", "quantifier": "all grids of slopes and curvatures with undefined values anywhere, all mask types", "why_tests_cant": "Undefined cells shift the positions of all later cells; the numbers must be right for every pattern of undefined cells.", "anchors": ["topoflow/utils/hamiltonian.py:get_mask"]}
{"id": "C271", "title": "A run stops at the first infiltration rate that is not a number", "statement": "If the infiltration rate of some cell is NaN or infinite after an update of an infiltration component, the run ends in that update with the status failed and the number of such cells: the rates of the update are not written and the clock does not advance. If all rates are finite the update completes and hands them to the output. So the rates written by a run are exactly those of the updates before the first bad one.", "quantifier": "all grids and scalars of rates including special values, all lengths of runs, all infiltration components", "why_tests_cant": "Universal over grids with special values at any place and over the step at which the first one appears.", "anchors": ["topoflow/components/infil_base.py:check_infiltration", "topoflow/components/infil_base.py:update", "topoflow/components/infil_richards_1D.py:update"]}
{"id": "C272", "title": "Every output file is created in the output directory under the name that was given", "statement": "For every combination of the save switches of a component, the files that are created when it starts are exactly those whose switch is on, each in the output directory and with the name in the configuration file, its extension replaced by that of the file type. Flood depths are saved only with the flood option, and a meteorology component for precipitation only saves nothing.", "quantifier": "all components, output directories, file names and combinations of switches", "why_tests_cant": "There are thousands of combinations of switches, names and directories are arbitrary texts, and a file in the wrong place goes unnoticed.", "anchors": ["topoflow/components/channels_base.py:update_outfile_names", "topoflow/components/infil_green_ampt.py:update_outfile_names", "topoflow/components/d8_base.py:update_outfile_names", "topoflow/components/d8_base.py:change_extension_to_rtg", "topoflow/utils/model_output.py:open_new_gs_file", "topoflow/utils/file_utils.py:replace_extension"]}
{"id": "C273", "title": "An infiltration component runs with every combination of input kinds", "statement": "Whatever mixture of constants, time series, grids and grid sequences is given for the soil parameters, the rain, the snowmelt and the water table, the Green-Ampt, Smith-Parlange and Beven components complete every update. The rate of a cell then follows from the values of that cell alone: all the water that arrives if that is less than the saturated conductivity, otherwise the smaller of capacity and supply, and nothing where the water table is at the surface. The infiltrated depth grows by rate times time step, and the reported totals by the sum over the cells.", "quantifier": "all combinations of kinds for the parameters and the inputs, all their values, all grids and lengths of runs", "why_tests_cant": "There are hundreds of combinations of kinds per method, and an update can fail or mix up cells in one of them only.", "anchors": ["topoflow/components/infil_base.py:update", "topoflow/components/infil_base.py:adjust_infil_rate", "topoflow/components/infil_base.py:check_low_rainrate", "topoflow/components/infil_green_ampt.py:read_input_files", "topoflow/components/infil_smith_parlange.py:read_input_files", "topoflow/components/infil_beven.py:Beven_Exp_K_Infil_Rate_v1"]}
{"id": "C274", "title": "Options missing from older configuration files of the other components get their defaults", "statement": "When the meteorology, driver, snow, glacier or an infiltration component starts with a configuration file that lacks options introduced later, each missing option gets its documented default, each option that is given keeps its value, no other option appears, and the component starts.", "quantifier": "all combinations of options given and missing and all their values", "why_tests_cant": "Each component has a dozen or more options that are present or absent, and a default can overwrite a given value in one combination only.", "anchors": ["topoflow/components/met_base.py:set_missing_cfg_options", "topoflow/components/met_base.py:update_outfile_names", "topoflow/components/topoflow_driver.py:set_missing_cfg_options", "topoflow/components/snow_degree_day.py:set_missing_cfg_options", "topoflow/components/snow_base.py:initialize_cold_content", "topoflow/components/infil_base.py:set_new_defaults", "topoflow/components/infil_green_ampt.py:set_computed_input_vars"]}
{"id": "C275", "title": "The temperature threshold between rain and snow is the one that was configured", "statement": "Precipitation counts as snow exactly where the air temperature is at most the threshold that the configuration file gives, as a number or, with the types Grid, Time_Series and Grid_Sequence, in a file; without an entry the threshold is 1 degree.", "quantifier": "all types of the entry in any case of letters, all values, precipitation rates and temperatures", "why_tests_cant": "The threshold and the weather are real numbers and the kind of entry is arbitrary; a wrong threshold gives a plausible run.", "anchors": ["topoflow/components/met_base.py:set_missing_cfg_options", "topoflow/components/met_base.py:update_P_rain", "topoflow/components/met_base.py:update_P_snow", "topoflow/utils/BMI_base.py:read_config_file"]}
{"id": "C276", "title": "The final report states every quantity with its value and its unit", "statement": "The final report has one line for each of the listed quantities (simulated time, run time, numbers of steps, columns and rows, basin area, roughness, final, peak and extreme discharge, velocity and depth with their times, flux and storage volumes, mass balance). The unit of the line is a unit of that kind of quantity, and the digits together with the unit give the value at the end of the run within half a unit of the last digit.", "quantifier": "all final values, stopping methods, stopping times and time steps", "why_tests_cant": "The values are arbitrary numbers, large volumes switch to another unit, and a wrong unit is not visible to a test that compares with an earlier report.", "anchors": ["topoflow/components/topoflow_driver.py:add_basic_info_to_report", "topoflow/components/topoflow_driver.py:add_peak_info_to_report", "topoflow/components/topoflow_driver.py:add_mins_and_maxes_to_report", "topoflow/components/topoflow_driver.py:add_flux_volumes_to_report", "topoflow/components/topoflow_driver.py:add_storage_volumes_to_report", "topoflow/components/topoflow_driver.py:add_mass_balance_to_report", "topoflow/components/topoflow_driver.py:vol_str"]}
{"id": "C277", "title": "Selecting the data collection platforms of the US states", "statement": "The new CSV file has the header line and then, unchanged and in order, exactly the rows whose last field, without spaces around it, is a code of two characters followed by _DCP, other than Guam and the four Pacific networks. The numbers of rows read, written and skipped that are reported are right, and so is the number of rows reported for each code.", "quantifier": "all input files (any lines)", "why_tests_cant": "The rows are arbitrary text; the counts printed at the end are not part of any file a test would compare.", "anchors": ["topoflow/utils/ngen/rfc_utils.py:cull_usa_dcp_data_rows"]}
{"id": "C278", "title": "The dictionary of hydrograph types describes the current files", "statement": "A call gives a dictionary that has an entry for exactly those sites for which one of the six files has a row with a position, or a row without position and the site table has one. The entry has the type of the last such file, the center, hydrologic unit and position of its last row (or of the site table). The call fails only if a row has fewer than eight fields. This holds for every call, whatever calls were made before.", "quantifier": "all contents of the six files and of the site table, all histories of calls", "why_tests_cant": "Sites may be listed in any number of files and in any order, and the result of a call depends on files saved by earlier calls.", "anchors": ["topoflow/utils/ngen/rfc_utils.py:get_hydrograph_type_dict"]}
{"id": "C279", "title": "Merging the basins of all river forecast centers", "statement": "The merged table has, after its header, one line for every row of every center's file in order, and one for every row of the West Gulf file: center, identifier (first of the columns NWS_ID, NWSID, CH5_ID, BASIN, NAME that the file has; the name if it is empty), bounding box and name. The order of the columns in the files does not matter. If a file lacks a column that is needed the merge fails.", "quantifier": "all contents of the twelve files and of the West Gulf file", "why_tests_cant": "Headers and rows are arbitrary text, with columns in any order, and a missing file content must not silently drop other centers.", "anchors": ["topoflow/utils/ngen/rfc_utils.py:merge_rfc_basin_info"]}
{"id": "C280", "title": "Dates and stop time of prepared settings agree", "statement": "Whatever options are set and whatever was prepared before with the same object: if the configuration files of a run are made, the start and end date of the time settings are calendar dates, the model time at which the driver stops is the number of minutes between midnight of the two, the starting month, day and hour of the meteorology component are those of the start date, its offset from GMT is -5 for the period of the NextGen data and 3 for those of East Africa, and driver and channels have the time step that was asked for.", "quantifier": "all options, all histories of calls with one object", "why_tests_cant": "Options can be combined freely and the object keeps what earlier calls have set.", "anchors": ["topoflow/utils/prepare_inputs.py:set_time_info", "topoflow/utils/prepare_inputs.py:get_cfg_files", "topoflow/utils/prepare_inputs.py:prepare_all_inputs"]}
{"id": "C281", "title": "Rainfall settings belong to the source that was chosen", "statement": "For every source of rainfall that can be chosen (NextGen file, test rainfall, CHIRPS, CHIRPS over ten years, GLDAS, GPM) the configuration files are made, and the meteorology component gets the file of that source for the site and its period, with its time step, type and format; the run covers that period. If the choice is empty or not unique nothing is made. This does not depend on earlier calls.", "quantifier": "all options, all sites, all histories of calls with one object", "why_tests_cant": "The settings are made by a sequence of independent blocks, so that combinations and histories matter.", "anchors": ["topoflow/utils/prepare_inputs.py:set_met_info", "topoflow/utils/prepare_inputs.py:set_time_info", "topoflow/utils/prepare_inputs.py:get_cfg_files"]}
{"id": "C282", "title": "Basin information depends on the basin only", "statement": "For each basin that is known by name, cell size (as in the name), bounding box (nonempty, on the globe), width, area, discharge, depth (positive) and whether it drains to the ocean are those of the basin, whatever basins were prepared before with the same object. A basin that is not known does not take the values of another one.", "quantifier": "all sequences of basins prepared with one object", "why_tests_cant": "The values depend on the history of the object.", "anchors": ["topoflow/utils/prepare_inputs.py:set_basin_info", "topoflow/utils/prepare_inputs.py:__init__"]}
{"id": "C283", "title": "Prepared files and directories do not collide", "statement": "The files that are made for a site have different names. Different sites (names without a slash) have no file in common. Configuration files of runs of one site with different rainfall or different periods are put into different directories. The case prefix can be chosen to tell scenarios apart.", "quantifier": "all options, sites, case prefixes and histories of calls", "why_tests_cant": "Names are arbitrary texts; a collision silently overwrites the files of another run.", "anchors": ["topoflow/utils/prepare_inputs.py:set_output_filenames", "topoflow/utils/prepare_inputs.py:create_output_dirs", "topoflow/utils/prepare_inputs.py:copy_cfg_file_templates", "topoflow/utils/prepare_inputs.py:get_cfg_files"]}
{"id": "C284", "title": "Site numbers common to two tables", "statement": "The site numbers of a table are returned in order of their characters, each as often as it occurs in a row (spaces around it not counted), only those that are numbers if that is asked for. For two tables the option common gives exactly the numbers that occur in both, the option in1not2 exactly those of the first that do not occur in the second, sorted and without repetition. An error occurs if a row lacks the column, a data set is unknown or the option is unknown.", "quantifier": "all contents of the two tables, all pairs of data sets and options", "why_tests_cant": "The tables are arbitrary text in any order, with any number of rows and with or without a newline character at the end.", "anchors": ["topoflow/utils/ngen/classify.py:get_site_ids", "topoflow/utils/ngen/classify.py:get_common_site_ids"]}
{"id": "C285", "title": "Bounding box of a catchment", "statement": "The bounding box of a catchment of the hydrofabric is the smallest box in longitude and latitude that holds all points of its outer boundary, widened on all four sides by the buffer, whether the file gives geographic or Albers coordinates, whether it is of the older or the newer kind, and whatever was asked for before. For a catchment that is not in the file, coordinates out of range or an unknown coordinate system the answer is -1.", "quantifier": "all files, catchments, boundaries, buffers, projections and sequences of earlier calls", "why_tests_cant": "Boundaries have any number of points in any place, the projection bends straight edges, and values kept from earlier calls may be used.", "anchors": ["topoflow/utils/ngen/hydrofab_utils.py:catchment.get_bounding_box", "topoflow/utils/ngen/hydrofab_utils.py:catchment.get_dem"]}
{"id": "C286", "title": "Area, outlet, headwater catchments and ocean outlets", "statement": "For a catchment in the file the area and the place of its outlet are those of its record and of the point it drains to; for any other the answer is -1. The headwater catchments are exactly those into which no catchment of the file drains, each once, in order of falling area. The number of outlets to the ocean is that of the catchments that drain to nex-0, however often it is asked for. All this holds for both kinds of files.", "quantifier": "all files, catchments and sequences of calls", "why_tests_cant": "The drainage relation between records is arbitrary, and a call may change what a later one does.", "anchors": ["topoflow/utils/ngen/hydrofab_utils.py:catchment.get_area_sqkm", "topoflow/utils/ngen/hydrofab_utils.py:catchment.get_outlet_coords", "topoflow/utils/ngen/hydrofab_utils.py:catchment.get_headwater_catchments", "topoflow/utils/ngen/hydrofab_utils.py:catchment.ocean_outlet_count"]}
{"id": "C287", "title": "Bounds, projection and elevations of a catchment DEM", "statement": "The DEM of a catchment has the coordinate system asked for, both in its grid and in the file; its bounds hold the bounding box of the catchment, with Albers coordinates rounded outwards to whole metres. Each cell is the elevation of the source in metres, or -9999 where the source has none; the least and largest elevation are those of the cells with data, and if there is none the answer is -1.", "quantifier": "all boxes, projections, clip options, resolutions and elevation grids", "why_tests_cant": "Which edge of the box bends outwards depends on the projection and the place of the catchment, and the options can be combined.", "anchors": ["topoflow/utils/ngen/hydrofab_utils.py:catchment.get_dem"]}
{"id": "C288", "title": "Configuration file of a calibration", "statement": "After the configuration file of a calibration has been read, each setting has the value given by the last line that sets it, a text setting the text after the equals sign, a number the number, and True, False and None these values; lines that begin with # have no effect. The directories have their placeholders for the home directory and the directory of examples replaced and end with a separator, the file of observations lies in its directory, the simulated file is named after directory and prefix, and date and time of the start are separated by a space. Without a configuration file the defaults serve for the same.", "quantifier": "all contents of the file, home directories and directories of examples", "why_tests_cant": "The file is arbitrary text with any number of lines in any order, and a text may look like a number, a placeholder or an assignment.", "anchors": ["topoflow/utils/calibrate.py:calibrator.read_cfg_file", "topoflow/utils/calibrate.py:calibrator.set_info", "topoflow/utils/calibrate.py:calibrator.read_time_series"]}
{"id": "C289", "title": "Header for visualization beside a grid file", "statement": "The header for visualization (BOV file) that is written on request beside a new grid file describes this file: it has the name of the grid file with another extension, one line for each key, and gives the name of the grid file, its numbers of columns and rows, data type, variable, the byte order of its values, and the corner and the extent of the grid.", "quantifier": "all names, variables, grid informations and byte orders of the machine", "why_tests_cant": "Names and grid informations are arbitrary, and tests run on a machine of one byte order with grids of the same byte order.", "anchors": ["topoflow/utils/bov_files.py:write_info_as_bov", "topoflow/utils/bov_files.py:write_bov_file", "topoflow/utils/rtg_files.py:rtg_file.check_and_store_info", "topoflow/utils/rti_files.py:get_file_prefix"]}
{"id": "C290", "title": "Configuration file as a dialog description", "statement": "Converting a configuration file to a dialog description gives a well-formed XML file: one tab for each group of settings, in order, with one entry for each setting of the group, in order, that has its name, label, default, type, help and, unless it is a text, its range; then an About tab with the model name and the help file. Lines that begin with # and empty lines have no effect, and an XML file that exists is not overwritten.", "quantifier": "all configuration files and model names", "why_tests_cant": "Number and order of groups, settings and remarks are arbitrary.", "anchors": ["topoflow/utils/cfg2xml.py:cfg2xml"]}
{"id": "C291", "title": "Station table of the hydro-climatic data network", "statement": "Converting the station file with columns of fixed width to a table with tabs gives a header of 15 names and one row for each line, in order, with 15 columns that are the columns of the line with blanks around them removed; where a line ends early the columns that follow are empty. No character of a line other than these blanks is lost or counted twice.", "quantifier": "all station files", "why_tests_cant": "Lines are arbitrary texts of arbitrary length; names can contain any characters.", "anchors": ["topoflow/utils/ngen/hcdn_utils.py:convert_dat_to_tsv"]}
{"id": "C292", "title": "Names and addresses of critical zone observatory sites", "statement": "The ID of a site of a critical zone observatory consists of the abbreviations of its observatory and catchment, its long name of the name of the catchment and the state, and its address is that of the page of the catchment, or on request that of the observatory or of its group.", "quantifier": "all rows of the table of sites and all options", "why_tests_cant": "Values are arbitrary texts, with or without an abbreviation in parentheses, and the options combine.", "anchors": ["topoflow/utils/ngen/czo_utils.py:get_czo_site_id", "topoflow/utils/ngen/czo_utils.py:get_czo_long_name", "topoflow/utils/ngen/czo_utils.py:get_czo_site_url"]}
{"id": "C293", "title": "Bounding boxes of the CAMELS basins", "statement": "The file of bounding boxes has one row for each basin of the shapefile, up to the number asked for, with its gauge ID filled up to eight characters and the smallest box that holds the basin, also if the shapefile gives the basin by its hydrologic response units.", "quantifier": "all shapefiles, numbers of basins and of units in each basin", "why_tests_cant": "Number, order and boxes of basins and units are arbitrary.", "anchors": ["topoflow/utils/ngen/camels_utils.py:create_camels_bbox_file1", "topoflow/utils/ngen/camels_utils.py:create_camels_bbox_file2"]}
{"id": "C294", "title": "Table of the CAMELS basins", "statement": "The table made from the files of names, bounding boxes, topography and climate has a header with the names of all columns and one row for each basin with the columns of this basin in all four files, the gauge ID once.", "quantifier": "all contents of the four files", "why_tests_cant": "Number and order of rows, columns and texts of the files are arbitrary.", "anchors": ["topoflow/utils/ngen/camels_utils.py:create_tsv"]}
{"id": "C295", "title": "Table of the ARS watersheds", "statement": "The table made from the index of the ARS database has one row for each line of the index that is not empty, in the same order, with one cell under each column heading. ID, location, state and watershed name that are blank in a line are those of the lines above; watershed 9002 is named W-II.", "quantifier": "all index files, all readers and writers of numbers whose text has no tab", "why_tests_cant": "Number of lines and texts in their columns are arbitrary, and blank columns depend on all lines before.", "anchors": ["topoflow/utils/ngen/usda_utils.py:create_tsv", "topoflow/utils/ngen/usda_utils.py:write_tsv_header"]}
{"id": "C296", "title": "Positions and dates of the ARS watersheds", "statement": "In the table of the ARS watersheds the decimal latitude and longitude are the degrees, minutes and seconds of the index, unknown seconds as zero and western longitudes negative, with 97 degrees for the watersheds 69051 to 69053; dates MM/DD/YY are written as 19YY-MM-DD and present as Present. A position or date that is blank in the index is blank in the table.", "quantifier": "all index files, lines, positions and dates", "why_tests_cant": "All texts in the columns of a line are possible.", "anchors": ["topoflow/utils/ngen/usda_utils.py:create_tsv"]}
{"id": "C297", "title": "Names of the ARS watersheds", "statement": "The name of an ARS watershed is its watershed name, location and state with commas between them; the long name has the alternate name before them, unless it is the placeholder -.", "quantifier": "all rows of the table", "why_tests_cant": "The texts of the cells are arbitrary.", "anchors": ["topoflow/utils/ngen/usda_utils.py:get_ars_name", "topoflow/utils/ngen/usda_utils.py:get_ars_long_name"]}
{"id": "C298", "title": "Sites next to the centers of clusters", "statement": "For every cluster of sites the table of centers names the site whose three climate indicators have the smallest Euclidean distance from the center, the first one if there are several, for every number of sites in the table of indicators.", "quantifier": "all tables of sites, all centers", "why_tests_cant": "Number, order and indicators of sites and centers are arbitrary.", "anchors": ["topoflow/utils/ngen/gages2B_utils.py:get_cluster_center_site_ids"]}
{"id": "C299", "title": "Table of climate indicators of the GAGES-II sites", "statement": "The table of climate indicators has one row for each site of the source for which there is site information under its right ID, in the order of the source. A row has the right ID, also if the source lacks its leading zero, the other values of the source and the twelve computed ones, each under its own name.", "quantifier": "all source files, all dictionaries of site information, all ways to compute the indicators", "why_tests_cant": "Number, names and values of columns and sites are arbitrary.", "anchors": ["topoflow/utils/ngen/gages2B_utils.py:create_climate_data_tsv_file", "topoflow/utils/ngen/gages2_utils.py:get_problem_ids"]}
