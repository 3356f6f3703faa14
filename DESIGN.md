# Formal model of peckhams/topoflow36 in Lean 4

Source: `/repo` (python, pinned commit).  Model: `/verif/lean/Verif/*.lean` (Lean 4.33.0, Mathlib).

## Layout

* `lean/Verif/<Topic>Model.lean`: the model, one definition per python function or loop, each citing file and lines.
* `lean/Verif/<Topic>Spec.lean`, or the first section of `<Topic>Props.lean`: the small independent specification (paths, upstream sets, sums over histories, validity of dates, ...).
* `lean/Verif/<Topic>Lemmas.lean`, `EmeliRun.lean`: helper lemmas and invariants.
* `lean/Verif/<Topic>Props.lean` (`D8AreaProps`, `D8IdProps`, `ChannelStateProps` too): the property theorems, named `Cnn_...`, each followed by an `example` that meets its hypotheses in a concrete case, where the theorem has hypotheses.
* `properties.jsonl`: the properties; `MANIFEST.json`: property to exact theorem names.
* `seeded/LOG.jsonl`: mutations of the model tried in a scratch copy.

Naming: `Cnn_..._partial` proves part of a property; its comment says what is missing.  `Cnn_..._violated` (and the theorems named in the outcome column) prove that the code as written does not have the property, with a witness or for a whole family of inputs.

## Technique

Models are shallow: python functions become Lean functions on explicit states; exceptions are `Except String`; a missing dictionary key or attribute is `none`; numpy arrays are functions on cells, or references into a store where aliasing matters; `while` loops take fuel, with a theorem that some fuel always suffices and that more fuel changes nothing.  Numbers are elements of an arbitrary linearly ordered field (or the reals where `sqrt`, `log`, `exp` occur, or the rationals where text is printed).  Where NaN or infinities decide what the code does (stability checks, slope repair, heap inserts, RTI limits), they are modelled as separate values.

## Properties

| id | what is modelled | how it is proved | outcome |
|----|------------------|------------------|---------|
| C01 Tie-breaking picks one of the tied directions | the 256-entry tie-break table, built by the same overlapping assignments and rotations | kernel evaluation of the whole finite table, lifted to sets of directions | proved |
| C02 Edge IDs are exactly the border cells | `get_edge_IDs` as a list of flat IDs | row/column arithmetic for all nx, ny | proved. No-duplicates holds for grids with at least 2 rows and 2 columns; on one-row or one-column grids cells are listed twice (proved negation). |
| C03 Parent of a cell is the neighbour its D8 code points to | code grid, increment map, parent grid, flow lists | index arithmetic for all sizes | proved |
| C04 D8 flow never goes uphill and never cycles | `start_new_d8_codes`, tie break, `link_flats` over an ordered field | lexicographic rank (elevation, pass of linking) strictly decreases along flow | proved |
| C05 Flat linking terminates and resolves every flat that can drain | the `link_flats` loop with fuel | measure: number of undirected cells; fuel is irrelevant | proved. The last theorem records a flat that stays undirected because its only outlet is a non-periodic border. |
| C06 Contributing area is the sum over the upstream cells | the `update_area_grid` loop | induction over passes, refinement to the sum over the upstream set | partial. The sum and termination hold for positive pixel areas, and for cells that have a flow direction (cells without one hold 0). Missing: termination for zero areas, which is false: with a zero pixel area the loop may run forever (proved). |
| C07 Depression filling terminates | `fill_pits` main loop over any linear order | measure: open cells plus queue | partial. Termination holds for all DEMs. At most once holds for distinct starting cells on grids with three or more columns; violated by the starting cells the code chooses: the two upper corners are processed twice in every DEM without missing data (exact count proved), and with two columns (witness). |
| C08 Depression filling only raises, and keeps outlets | as C07 | loop invariant | proved |
| C09 Filled elevation is the minimal spill elevation | as C07 | priority-flood invariant; minimax over paths as separate specification | partial. Holds for the adjacency of the ID arithmetic in general, and for true grid adjacency when the first and last columns are outlets. For other starting cells, among them those the code chooses, it fails with true adjacency: the ID arithmetic joins the ends of consecutive rows (witness proved). |
| C10 No pit remains after filling | as C07 | from C09 | partial. Holds for every starting set with the adjacency of the ID arithmetic, and with true grid adjacency when the first and last columns are outlets; otherwise see Fill.C09_wraps_around_violated. With missing data the code flags wrong cells as closed and a pit can remain (proved). |
| C11 Filling a filled DEM changes nothing | as C07 | from C09 | proved |
| C12 Every DEM border cell with data is an outlet | `get_start_pixels` flat-ID arithmetic | witnesses for all grid sizes; arithmetic for the part that holds | partial. Violated by the code: left and right border cells of the last-but-one row are never starting cells. |
| C13 The priority queue returns values in order | `insert`/`get_min` on 1-based arrays | heap invariant, multiset refinement | partial. Proved with integer division; under Python 3 every finite insert raises (proved). |
| C14 Coupled components keep up with the framework clock | `run_model` of the framework on component clocks | invariant by induction over framework steps | proved. Every component status must be spelled "Enabled" or be some capitalisation of "disabled"; findings: other spellings get stuck, and a component measuring time in hours makes the run raise (both proved). Times are exact numbers; for doubles see C254. |
| C15 Data requests fall within the provider's interpolation window | interpolation windows of provided variables | same invariant plus arithmetic; counterexample runs | partial. Fails in general (two proved counterexamples); holds when all steps are whole multiples of the framework step; in general a request misses the window by at most one framework step. |
| C16 Every required input is provided by exactly one component | user and provider dictionaries | list reasoning | proved |
| C17 Linear time interpolation follows the chord | `time_interp_data`/`get_values` with arrays as references | algebra in an ordered field; heap of references | partial. Holds for variables that are replaced (not updated in place) and that change in every cell; the code violates it otherwise (proved). |
| C18 BMI update_until reaches the requested time | BMI `update_until`, `update_frac` | induction over updates | partial. Violated for every target time (proved): the clock ends strictly past the target, by at most one step. |
| C19 BMI set_value / get_value round trip | BMI value store with references | case analysis | partial. set_value/get_value round trip proved; set_value_at_indices has no effect on any variable (proved). |
| C20 Clock bookkeeping | BMI clock | induction over updates | proved. The framework converts every unit the same way except weeks (proved). The theorems on run_model are about its loop; the call of initialize before it fails, see C244. Times are exact numbers; for doubles see C254. |
| C21 Model runs stop | driver stop tests | induction over discharge histories | proved. Each stop method stops exactly at its documented condition. Finding: with the peak-fraction method an outlet that never carries water never satisfies the test. Times are exact numbers; with doubles a run of a given model time can make one update more, see C254. |
| C22 Channel routing conserves water | channel update on the network of any DEM | finite sums, induction over updates | proved. For the network of any DEM, any inputs and any number of updates, in exact arithmetic. |
| C23 Flow volumes and depths stay non-negative | as C22 | induction over updates | proved |
| C24 Channel depth inverts the trapezoid volume | depth from volume over the reals | algebra with `Real.sqrt` | proved |
| C25 Overbank partition is exact | overbank split | algebra, induction, witnesses | partial. Holds in every cell with a flow direction. Violated in cells without flow direction, whose channel volume is not emptied with the total volume; the final report counts it again. |
| C26 Reported peaks are the true maxima of the run | peak tracking | induction over history | proved |
| C27 Unstable runs are detected | IEEE value classes | case analysis for all grids | proved. NaN depths are not detected (the property does not claim it; the error text does). |
| C28 Bad slopes are repaired | slope repair with special values | case analysis for all grids | proved |
| C29 Green-Ampt infiltration is bounded by supply and capacity | Green-Ampt, Smith-Parlange, Beven | ordered field and real algebra, induction | proved. Also covers Smith-Parlange. The lower bound excepts cells where the water table is at the surface (C30). C29_beven_partial gives the bounds for the third method, which the property does not mention. The model has numbers and grids only; which combinations of kinds let an update fail is C273. |
| C30 No infiltration where the water table is at the surface | water table check | case analysis on scalar/grid; witnesses | partial. False in general: uniform supply below the conductivity, or a rate kept as a scalar, skips the water table check. Proved: it holds whenever the rate after the low rain check is a grid. |
| C31 Snowpack conserves water and melts no more than it has | degree-day and energy-balance snow | ordered field algebra, induction | proved |
| C32 Cold content delays melt and energy is accounted for | cold content | ordered field algebra, induction | proved. The sign in the English statement was corrected during review (it first said minus the drop); the theorems did not change. |
| C33 Precipitation splits exactly into rain and snow | rain/snow split and totals | case analysis, induction | partial. The split holds in every update that completes. A uniform precipitation rate with a non-constant air temperature raises IndexError at the first update (C33_violated). |
| C34 Groundwater column conserves water | water table update layer by layer | induction over layers; witnesses for all columns | partial. Proved for withdrawals from a column without standing water and for inflow into a full column. False for every inflow into a column that is not full (it is filled for free) and for withdrawals from a column with standing water (counted twice). |
| C35 Initialising groundwater does not alter the DEM | in-place change of the DEM | aliasing model, for all layer stacks | partial. Refuted: for every layer stack the land surface is lowered by the total layer thickness; C35_seepage_below_surface shows the effect on seepage. |
| C36 Canals are delay lines | canal array as shift register | induction over history | partial. Proved for positive travel times with a numpy that accepts float indices (up to 1.11). With any later numpy the first update raises IndexError; a canal with travel time zero gets the delay of the longest canal. The component also uses attributes it never sets (see CanalModel). |
| C37 RTS grid stacks read back what was written | byte-level RTS files | induction over operations | partial. Proved: appending grids to a new file and reopening it returns them by index, and overwriting on an object opened for reading and then given a dtype. Refuted: an indexed write on a new file (no grid_size), any write after open_file (no dtype), scalars (ValueError), the float32 default on other types. |
| C38 Grid info files round trip | character-level RTI files | string reasoning, decimal printing | partial. Round trip proved for records whose text fields are stripped upper case lines and numbers with at most 12 decimals (exact arithmetic); NaN limits and line breaks in text fields refute it in general. |
| C39 Existing output files are not overwritten | file name search | search over finite directories | partial. The chosen name never exists and is the first free one for names with an extension. For names without extension the last character is moved; the .rti sidecar of the new file can still be overwritten. |
| C40 Time-varying input is read in order and the last value persists | file cursor | induction over reads | proved. A blank line counts as exhausted data for that one read. |
| C41 Output is saved at every save interval | save schedule | divisibility and floors | partial. Proved for whole seconds and for real steps of at least one second dividing a whole save interval. Refuted for steps below one second (extra saves), fractional intervals of two seconds or more (missed saves) and intervals below one second (ZeroDivisionError). Snow, groundwater, evaporation, ice and glacier never reach the line that raises the interval to the time step: there an interval shorter than the time step is used as given (C41_whole_given_partial) and an interval below one second stops the run whatever the time step (C41_zero_interval_violated). |
| C42 Calendar conversions round trip | Gregorian ordinals, offsets, month arithmetic, hhmm | integer arithmetic over the whole calendar, decimal strings | partial. Round trip proved for weeks, days, hours, minutes and seconds over the whole proleptic Gregorian calendar (exact arithmetic); month differences proved; refuted for years (365-day years against calendar years), months (KeyError) and for feeding hhmm numbers back. |
| C43 The final mass-balance report is consistent | final report | algebra over component balances | partial. The full claim is false: glacier melt enters the channels but not the report, so it is printed as an error, and the gain/loss label is reversed. Without ice melt the reported error is zero. |
| C44 Missing-data cells stay missing when pits are filled | missing data in `fill_pits` | witness; invariant for marked cells | partial. Violated by the code (proved). |
| C45 A time read from a component is a snapshot | shared time array | induction over updates | partial. Violated by the code (proved for all update sequences). |
| C46 The reported run time adds up | `get_run_time_string` arithmetic | arithmetic | partial. Violated by the code unless the time is a whole number of days (proved). |
| C47 Reported evaporation is the evaporation removed | ET grid shared between components | finite sums | partial. The full claim is false; proved: equality holds exactly when no cell with demand runs short of water. |
| C48 Every channel method can be updated | attribute availability per method | case analysis on every state | partial. Proved for the kinematic and diffusive methods; false for the dynamic wave method, which fails in every state. |
| C49 Evaporation rates are physical | evaporation rates | real algebra | proved |
| C50 More supply never means less infiltration | infiltration rate as a function of supply | monotonicity | partial. Proved for Green-Ampt and Smith-Parlange; false for the Beven method. (The formula; for the combinations of inputs with which that component runs at all see C273.) |
| C51 No snow, no cold content | cold content without snow | induction, witness | partial. Proved for the glacier component; false for the snow component. |
| C52 Glacier melt conserves water and snow protects ice | glacier update | algebra, induction | proved |
| C53 Glacier snowpack energy is accounted for | glacier energy | algebra, induction | partial. Proved for updates without snowfall; with snowfall energy is counted twice, by exactly the amount stated in C53_violated. |
| C54 Rain follows its data and then stops | precipitation files | induction over reads | partial. Proved for files without blank lines; a blank line followed by data is counterexample. |
| C55 Dew point does not exceed air temperature | dew point formula | real analysis (log bounds) | partial. False for saturated air between 2 and 10 C; proved within 0.01 C everywhere and exactly outside that band. |
| C56 Turbulent fluxes flow from warm to cold | vapour pressure, turbulent fluxes | monotonicity | proved |
| C57 Snow albedo stays in range and darkens between snowfalls | albedo | induction, exponential bounds | partial. Darkening proved while the air stays on one side of freezing; albedo jumps up when it turns cold (C57_violated). Time steps over three days raise IndexError (C57_long_step). |
| C58 Longwave radiation balance | longwave balance | real analysis | partial. The balance is proved; the emissivity bound fails for saturated overcast air at 20 C and above. |
| C59 Groundwater flow between cells is conserved and follows Darcy's law | lateral groundwater flow | finite sums, induction | partial. Conservation of lateral flow is proved. Darcy discharge proved unless the previous discharge was negative; negative discharges accumulate (C59_darcy_violated). |
| C60 Seepage is what rises above the land surface | seepage | case analysis | partial. Amount proved once the water table is at the surface; false in the step in which it crosses the surface. |
| C61 The grid information file that is found is the closest one | RTI file search | case analysis on existing files | proved. Full statement for every name and every set of existing files. |
| C62 Every requested output reaches its file | open/save/close dispatch tables of nine components | induction over steps for all switch combinations | partial. Proved for channel flow, snow, meteorology and groundwater without frozen depth. Refuted for frozen depth and infiltration rate (grids lost, time series raise), evaporation time series (closing raises) and ice water equivalent (never closed). For the components that do not raise the save interval to the time step (snow, groundwater, evaporation, ice, glacier) the intervals are at least one second; below that C41_zero_interval_violated applies. |
| C63 Datetime strings are read back as written | datetime strings | decimal strings, calendar arithmetic | partial. Proved for whole seconds; refuted for fractions of a second. |
| C64 Soil retention functions are mutually inverse, monotone and consistent | retention functions of soil_trans_BC.py over the reals | real power laws | proved. Over the real numbers (no rounding). |
| C65 Richards infiltration keeps the soil state physical | Richards update step for one column | invariant after each update, induction over histories | partial. All ranges, limits and the steady state proved for every history; refuted: the reported infiltration rate can be negative without evaporation. |
| C66 The soil column conserves water under Richards infiltration | Richards update step, reported storage | telescoping sum of fluxes, induction over runs; witnesses for the violations | partial. Balance proved for uniform spacing, moisture not clipped, bottom node left out; clipping only removes water. Refuted for layers of different spacing, for the reported storage (bottom node) and for the reported infiltration rate (computed after the update). |
| C67 Channel velocities and discharges follow the stated hydraulics | velocity, hydraulic radius, surface slope, flood depth of the channel step | direct from the step; real power laws for monotonicity | partial. All formulas and the stage-discharge relation proved over the reals for kinematic and diffusive wave. Refuted: the surface slope towards a cell without flow direction is that of the water which reached the cell in the same update, not of the reported depth, which is zero; and with an upward water surface slope the diffusive wave still moves water to the higher surface. |
| C68 The sun is up exactly between the computed sunrise and sunset | solar_funcs.py over the reals, one cell | spherical geometry with vectors; monotonicity of the cosine | proved. Over the reals; at exactly 12 hours from noon under a midnight sun the interval is half open, so |th| < 12. |
| C69 Clear-sky radiation creates no energy, vanishes at night and falls with the albedo | radiation functions of solar_funcs.py and the net shortwave update | bounds on exponentials of nonpositive arguments | proved. Over the reals, for nonnegative water content and dust attenuation in [0,1]. |
| C70 Radiation on slopes is the beam on the tilted plane | slope versions of the radiation functions, slope and aspect angles | unit normal decomposed in equatorial axes; branch of the arc tangent by sign | partial. Proved for every slope whose normal does not lean over the pole; for the others the code computes the beam of a sun twelve hours away (proved for all of them). |
| C71 The day of the year follows the calendar | Julian_Day as rational | case split over months and leap years against the calendar ordinals | partial. Proved for all years that follow the rule of four; in the other century years every day from March on is one too high. |
| C72 The met component follows the sun through the simulated time | update_julian_day with the datetime model; equation of time | reuse of the datetime round trips; periodicity | partial. Proved at full hours; refuted: minutes are dropped, a fraction of a second ends in an exception, and hours since noon are not brought to the range of a day, so that such sites are dark in daylight. |
| C73 Every cell gets the latitude and longitude of its centre | latitude and longitude of rows and columns | arithmetic | partial. Proved for geographic grids; projected grids are all placed at Denver. |
| C74 Cell sizes and areas are lengths on the ellipsoid | pixels.py over the reals | the point of the ellipse with given normal as specification; derivatives of its coordinates | proved. Sizes are taken at the south edge of each row, as the code documents; C74_south_edge shows the sign of the difference to any other latitude of the row. |
| C75 Every setting in a configuration file reaches its variable | read_config_file line by line on lists of characters; number parsing and the layer hook are parameters | format characterised by an if-and-only-if; frame conditions by induction over the lines | partial. Proved if the type entry is the last entry before its variable; refuted if another entry stands between them: the file name then becomes the value of the variable. |
| C76 Directories are found from the configuration file and stay put | set_directories with the POSIX functions of os.path | denotation of paths as walks in the directory tree; normalisation preserves the denotation | partial. Proved for directories that begin with a dot; a bare relative name is left relative to the working directory. |
| C77 The initial depth carries exactly the baseflow | the equation, its derivative and the loop of compute_initial_depth over the reals | monotone hydraulic radius and intermediate value theorem; convexity by Bernoulli; monotone convergence | partial. The claims about the depth are proved in full; the velocity grid is refuted: it belongs to the depth before the last update. |
| C78 Cleaning replaces bad slopes by the smallest good one | both versions of remove_bad_slopes on lists of finite numbers, NaN and infinities | case analysis; negation for perfect grids | partial. Proved for the channel component; in init_depth.py only if there is a bad slope: for a perfect grid the function returns None. |
| C79 Energy reaching a glacier cell is spent once | glacier step: snow melt, ice melt and both cold contents | case analysis on the maxima; the excess is computed exactly | partial. Proved for bare ice without snowfall; in a snow-covered cell the same energy warms the ice a second time, by exactly the amount stated in C79_violated. |
| C80 Checked soil grids hold only usable values | the check and the conversions on lists of values | folded minimum and maximum, case analysis | partial. Proved when some value is positive and in range; otherwise missing values become zero or a value out of range. |
| C81 Pedotransfer functions are Wosten's and stay in their ranges | the five functions over the reals; the published regressions as a table of coefficients | ring normalisation against the table; exp and log | partial. Proved in exact arithmetic; with rounding n can be exactly 1, and the check lets it pass. |
| C82 Missing soil data stay missing | marking followed by the check of the range | case analysis on both passes | partial. Cells are marked correctly, but the check of the range always replaces the marks. |
| C83 Brooks-Corey parameters describe the same soil | get_tBC_from_vG_vars and capillary_length_G over the reals | algebra of exponents; the recurrence and differentiability of the gamma function give the limit at the pole | partial. All but the continuity is proved; the capillary length jumps at n = 3, the value used for all sands. |
| C84 Flow lengths and widths are those of the cell and its direction | the width and length rules at one cell, sizes by row | case analysis on the direction against the Euclidean length of the step | proved. A cell without flow direction gets dx for both (a comment in the code says zero width). |
| C85 Slopes are drops over distances and never negative | parent cells by divmod, division by the length, zero at no-flow cells | composition of C03 (parents), C04 (never uphill) and C84 (lengths) | proved |
| C86 Aspects are flow angles | the table of angles | trigonometry of multiples of pi/4; the step must be the length times cosine and sine | proved |
| C87 Files of monitored cells round trip | both functions on the characters of the file | induction on the list of entries; the words of a line of columns are its entries if they fit | proved |
| C88 Accepted monitored cells are cells of the grid | check of the IDs and the indexing of a grid with python indices | arithmetic of row and column; witnesses for every grid size | partial. Proved if the columns in the file are columns of the grid; otherwise cells outside the grid are accepted in every grid of two or more rows. |
| C89 Text time series can be read back | header and rows at the level of characters | words and character positions of lines of columns | partial. Values below ten thousand million are read back; larger ones run together, and labels are in columns of 15 characters above values in columns of 20. |
| C90 Durations agree with the calendar | the function on the characters of its arguments, with the calendar of C42 | order of the calendar against counted days; round trip through the addition of C42 | proved |
| C91 The period of a run is the one configured | the reader on the lines of the file; the attributes the netCDF writers take | induction on the lines: the last entry of a name decides | partial. Proved for runs with a time info file; the defaults for a missing file lack two attributes, so that no netCDF output file can be opened. |
| C92 Grid files read back what was written | both functions on files of bytes (as in C37), conversion of elements as a parameter | bytes of a list of elements of equal size are cut into these elements again | proved |
| C93 Saving a grid does not change it, and default types agree | the writers return the array of the caller as it is afterwards | case analysis; the identity of converted arrays is a parameter | partial. With a foreign byte order the grid in memory is swapped in place; the default types agree only for data sets of type FLOAT. |
| C94 A series of saved grids is kept complete | the methods of the class on files of bytes; a run of saves as a recursive function | induction on the series; injectivity of the padded index | proved. For names without an extension the last theorem shows that the index goes into the directory part. |
| C95 A set of components is accepted exactly when every process has one component | the variable tables of the 24 repository components, generated from the source by reading their literals; the check of EmeliModel on them | the check accepts iff every input is listed once as an output (C16); the map from processes to variables is checked by kernel evaluation over the tables; then for all sets and orders | proved |
| C96 Connected variables have the same units | connect_comps of both frameworks on the tables | units of all pairs by kernel evaluation, lifted to all sets by induction | proved |
| C97 Every declared variable has an internal name and units | get_var_name, get_var_units | exact by kernel evaluation over all components and declared variables (the whole finite domain) | partial. Exact list of the declared variables whose name or units cannot be looked up. |
| C98 Different variables do not share storage | get_var_name | no duplicates in the value columns of the tables | proved |
| C99 Advancing a coupled model until a time stops at that time | multi_bmi update, update_until over the run model of emeli | exact number of passes by arithmetic with floor; violated for every target | partial. Violated for every target: the run always ends after the requested time (by at most one step), and a past target still advances the model; proved: the target is reached. |
| C100 Stepping a coupled model from outside gives the framework's own run | multi_bmi update, update_frac, update_until, arbitrary call sequences | refinement: every history is a prefix of the run of EmeliRun, by induction over the calls | proved |
| C101 A value set from outside is used by the coupled model | multi_bmi set_value, get_value and the exchange of references in the run loop, with arbitrary component updates | relational invariant between the run with and without the value set | partial. Violated for all models made of repository components: a value that was set is never used; what set_value does to the state is characterised exactly. |
| C102 Values at cells of the coupled model are the values at these cells | multi_bmi get_value_at_indices, get_grid_size, get_grid_shape, get_grid_rank | direct, for all lists | partial. Violated: the indices are ignored and the grid queries raise; exact condition for a right answer proved. |
| C103 The provider file names the components of the model | read_provider_file, instantiate, initialize_comp_set | round trip over a grammar of files, induction | proved |
| C104 Runs with one framework object are independent | run_model on one object: comp_set keeps its keys | union invariant by induction over runs, with C95 | partial. Violated: components of earlier runs stay in the framework object; exact criterion proved. |
| C105 The files of a coupled model are found beside its configuration file | multi_bmi.initialize (names), get_cfg_filename | string lemmas: replace, split, substring search, for all paths | partial. Violated for file names without directory, prefixes containing _nextgen, and directories containing the file name; proved otherwise. |
| C106 A landscape evolution component can be updated | update, update_d8_vars, the parameter list of d8 update | keyword rule of Python calls; for all states | partial. Violated: every update of an enabled component raises TypeError (the D8 component is called with a keyword it does not have). C107-C114 are about the rest of the step. |
| C107 Slopes and sediment discharge follow the flow directions and the transport law | update_slope_grid, update_Q_grid, update_Qs_grid over the reals | with C03, C04 on the D8 model; rpow algebra | proved |
| C108 The base level cells are the border of the grid | initialize_boundary_conditions (FOUR_SIDES) | reduction to C02 | partial. The set of cells is proved for all grid sizes; each cell is listed once exactly on grids of two rows or of three or more rows and at least two columns (proved as an equivalence), so violated for the others. |
| C109 The adaptive time step keeps the elevation order along the flow | update_dt_grid_method1, dt_min | minimum over the grid, case analysis; witness 3 by 3 for the corner | partial. Violated for cells draining into the upper left corner (ID 0 doubles as no parent): time step 1e20 years; proved for all other cells. |
| C110 Sediment is conserved in a step of the landscape evolution | update_dz_dt_grid, update_DEM | sum over directions = sum over upstream cells; double counting over the border | proved |
| C111 The base level sinks with model time | step, update_time | induction over runs | partial. Proved for updates without a time step argument; with one, time and lowering disagree (negation proved). |
| C112 The record of largest changes lists the steps in order | update_DEM: dz_max_vec with Python indexing | induction over runs with the index invariant | partial. Violated: the record is rotated by one entry; exact contents proved. |
| C113 A landscape evolution run ends when its stopping rule is met | check_finished, check_stability | induction over runs; concrete 3 by 3 step for the violation | partial. The steady state rule ignores sinking cells (violated, witness); the exact rules are proved for all runs. |
| C114 Reported rain and uplift totals are the volumes of the run | update_R_integral, update_U_integral | invariant by induction over runs | partial. Violated: the uplift total is 1000 times too large and lags one step; exact totals proved. |
| C115 Reading a variable through the BMI fills the caller's array with its values | get_value with numpy broadcasting on shapes | reversed-shape induction; exact outcome, then the two destination shapes | partial. Violated for flat destinations (ValueError for every grid with more than one row) and 0-dimensional ones; the exact outcome for every shape is proved. |
| C116 The grid a component reports for a variable describes that variable | get_var_grid, get_grid_*, itemsize, nbytes, location | case analysis over grid ids and arrays | partial. Violated: get_var_grid returns nothing, so every variable is described as a scalar; proved for grid 0 and for the byte counts. |
| C117 A prepared rainfall or weather sequence has one frame per file, from that file | create_rts_from_nc_files: sorted file loop with the BAD_FILE flag; gdal.Warp as an arbitrary function | invariant by induction over the files; uniqueness of sorted permutations | partial. Violated: after the first file that misses the DEM every later frame is blank; exact contents, counts, extremes and independence of the listing order proved. |
| C118 A file is set aside exactly when it does not overlap the DEM | get_raster_bounds, bounds_disjoint | ordered field arguments | partial. Proved for north-up rasters; for south-up rasters a covered DEM is called disjoint (negation proved). |
| C119 Repairing a GPM raster keeps every value at its longitude and latitude | fix_gpm_file_as_geotiff (rot90 and new geotransform) | index and field arithmetic | partial. Holds if the rows of the file run opposite to what GDAL reports; otherwise the map is mirrored east-west (both proved). |
| C120 Weather variables are stored in the reported units, missing data are kept | GLDAS unit conversions and unit table | case analysis over names | partial. Conversions and nodata proved for all variables; violated for blank temperature frames and the unit reported for pressure. |
| C121 CHIRPS rainfall is stored in mm per hour | create_rts_from_chirps_files | map fusion with a scaling resampler | partial. Violated: two unit conversions are applied one after the other; exact values proved. |
| C122 Shear stress, shear speed and Froude number describe the reported flow | update_shear_stress, update_shear_speed, update_froude_number | real arithmetic on the state after update | proved. For every DEM network, history and cell. Negative bed slopes give negative stress (proved). |
| C123 Friction factor and velocity balance the bed shear stress | update_friction_factor with the velocity laws | rpow and log identities, hydraulic radius < depth | partial. Violated in every cell with water and slope: the friction factor uses the depth, the velocity the hydraulic radius; the exact ratio is proved. |
| C124 Reported extremes are those of the final grids | initialize_min_and_max_values, update_mins_and_maxes | fold induction | proved. Final grids only; the run before leaves no trace. |
| C125 Channel parameter grids follow the power law through the given values | get_grid_from_TCA with its three options | log/exp identities, monotonicity of powers | partial. Real numbers; files hold float32. Missing: area grids whose positive areas are all equal, for which there is no usable grid (proved). |
| C126 The stated run time is the elapsed time | get_run_time_string | integer division arithmetic | partial. Violated for every run that is not a whole number of days: divisions are true divisions, so larger units count the rest again; the stated sum is given exactly. |
| C127 Calibration reports the tried value with the smallest cost | calibrate: loop over parameter values, comparison of costs | loop invariant over the list of values | partial. Holds for what is stored; violated: the call fails when no cost is below a million, and always fails when a report is asked for. |
| C128 Calibration gives the input file back | backup, overwrite and restore of the input file; crash points | case analysis of the loop outcome | partial. Holds when all runs succeed; violated when a run fails, and the next calibration then destroys the backup. |
| C129 Calibration values cover the range evenly | get_parameter_values | list of equally spaced values | proved. Real numbers instead of float64. |
| C130 The calibration cost is a distance of the common part of two series | compute_cost, Lp_norm | sums of powers; Minkowski inequality | partial. Real numbers; a run without output counts as perfect (proved). Proved for positive exponents; with exponent 0 every call fails, and with a negative exponent one pair of equal values gives the cost zero (both proved). |
| C131 Calibration compares with the output of the run just made | update_sim_data_file on names; with check_overwrite (C39) | string lemmas, invariant of the loop over the listing | partial. The greatest number is read; it is the file just written exactly when the existing numbers have no gap. Violated for gaps, other text files with the same beginning and paths that contain the mark. |
| C132 Grids appended to a netCDF file are read back in order with their times | add_grid, get_grid of the grid stacks over a trusted netCDF map | invariant over all histories of appends; C42 for the datetimes | proved. The netCDF library is trusted. Without a time argument the index is the time (Erode does this). |
| C133 A grid in a netCDF file can be replaced | add_grid with time_index | state after overwriting, then appending | partial. Violated: after a replacement the next append leaves an unwritten entry and the counter is one too large, for every file. |
| C134 The coordinate variables of a grid stack give the positions of its cells | coordinate vectors X and Y (linspace) | field arithmetic | partial. Violated except for the middle row and column of odd numbers; the rows are upside down. Columns are off by at most half a cell (proved). |
| C135 A netCDF time series holds the values of its own cell | open_new_file, add_values_at_IDs of time series; names var_row_col | string lemmas; invariant over all savings | proved. Rows and columns below 32768; float32 rounding left out. |
| C136 The datetimes of series and cubes use the units of the file | the unit passed to get_current_datetime | texts of datetimes more than a second apart differ | partial. Violated for every unit but minutes (Erode uses years): the datetimes are always in minutes. Minutes: see C135. |
| C137 Soil profiles and cubes that are asked for are saved | Python call binding of open_new_file; save_cubes; profiles | case analysis; the loop of C135 | partial. Violated: asking for profiles always fails, cubes are silently never saved, profiles cannot be read back and have no datetimes. The stored values of profiles are right (proved). |
| C138 A netCDF file can be made with the metadata of another | get_grid_info, get_time_info | round trip | proved |
| C139 Ice thickness is never negative and the ice surface is the bed plus the ice | update, update_vars of gc2d on real grids; run_model loop | case analysis of max/min; induction on steps | proved |
| C140 Ice is conserved by a glacier step | fluxes at cell borders and their divergence | telescoping double sums; cell-wise budget; witness of two cells | partial. Violated: where motion takes more ice than a cell has, the thickness is cut to zero and ice is created (witness). The exact budget including this deficit is proved for all inputs, and conservation where there is no deficit. |
| C141 The running ice budget equals the ice | conserveIce in update_vars | same sums as C140 | partial. Violated: melting is counted with the wrong sign (for every step in which ice melts) and the fluxes across the southern and northern borders are divided by the wrong cell size. Exact difference proved; equality without melting on square cells proved. |
| C142 Ice moves down the slope of its surface | shear stress, deformation and sliding velocity, flux | flux = minus a nonnegative factor times the surface slope | proved |
| C143 The six boundary conditions of the glacier model do what their names say | set_bc with six conditions on four sides | halo specification lemma, then C142; case analysis | partial. Violated: a given surface elevation always ends in a NameError. The other five are proved to be as named. |
| C144 The configured boundary conditions and ice parameters are used | default arguments captured at import, set_gc2d_parameters | update does not read the changed fields; witness of one cell | partial. Violated: boundary conditions and these parameters are default arguments evaluated when the module is imported, so the configured ones have no effect (proved for all configurations and states), and ice leaves through sides configured with zero flux (witness). |
| C145 No ice is drawn from bare rock | class of neighbours in mass_conservation | case analysis of the class; witness | partial. Violated where the ice below is thinner than the minimum (witness); proved where it is not. |
| C146 The climates of the glacier model | mass_balance | case analysis; order reasoning | partial. Violated: the other six choices always fail. The three choices with an equilibrium line are proved. |
| C147 The melt rate of a glacier is the water from the ice that melted | meltrate in update_vars | case analysis of max/min | proved |
| C148 Variable time steps of the glacier model | get_timestep, filter2d (shape of its result) | case analysis; empty set of limiting cells | partial. Violated: variable steps fail on every grid but three by three cells, and the configured largest step is not used. Fixed steps are proved. |
| C149 A glacier run ends at the first step at or after its end time | run_model loop with fuel | induction on the number of steps; monotone in fuel | proved |
| C150 Updating the ice component advances the glacier and the clock | IceComponent.update, Python call binding | case analysis | partial. Violated for every enabled update: update_time takes no argument but is called with one, so the call fails after the ice has changed. The disabled component is proved. |
| C151 Simulating only the part with ice gives the same result | compress_grid and the shapes of the grids | maximal row/column of ice; case analysis | partial. Violated: with ice on a part of the grid the step fails, because full-size grids are combined with the smaller ones. No effect without ice thicker than one metre (proved). |
| C152 Ice advances at most one cell per step | set_bc, fluxes | all four fluxes vanish | proved |
| C153 The spherical Albers map keeps areas | Albers_XY_Sphere as a map of the plane | derivative and Jacobian determinant of a conic map; change of variables for measurable sets; injectivity | proved. Real numbers. |
| C154 The ellipsoidal Albers map keeps areas | Albers_XY_Ellipsoid, Albers_q_for_Ellipsoid | as C153; the constants of the cone by the theorem of Rolle | proved. Real numbers. |
| C155 The Lambert azimuthal map keeps areas and distances from its origin | Lambert_Azimuthal_Equal_Area_XY | as C153, with the unit sphere in rotated coordinates | proved. Real numbers. |
| C156 The Mercator map keeps angles | Mercator_XY | derivatives along meridian and parallel | proved. Real numbers. |
| C157 Saturation vapour pressure of the utilities and the component agree | saturation_vapor_pressure | monotone functions; comparison with the model of the component | proved. Real numbers. |
| C158 Relative humidity from specific humidity | relative_humidity | real inequalities | proved. Real numbers; not-a-number inputs are not modelled. |
| C159 Lapsed temperature stacks | lapse_air_temperature | lists | proved. Real numbers; reading of the files is not modelled. |
| C160 Improved slopes of flats | get_new_slope_grid, over the D8 model | loop invariant: slope after k passes; rank of the D8 links for the existence of a lower cell | partial. The code violates the property: slopes stay zero when the first lower cell is more than 4 nx + 1 steps away (C160_long_flat_violated) or is the upper left cell (C160_corner_violated), and a path into missing data is measured to the upper left cell (C160_missing_data_violated). In all other cases the property is proved. Exact arithmetic. |
| C161 Simple D8 slope grid | get_d8_slope_grid | cases on the flow code | proved. Exact arithmetic. |
| C162 Smoothing keeps the range, the lowest cells and the ends of flow paths | smooth_dem | induction on the steps; fold of assignments | proved. Exact arithmetic; ties broken, as always in the code. |
| C163 Smoothing keeps the highest elevation and the sources | smooth_dem | induction on the steps; maximal rank | partial. False with periodic borders, where the upper left cell is overwritten (C163_periodic_violated); proved whenever the upper left cell has no flow direction, as without periodic borders. |
| C164 Smoothing keeps flow going downhill | smooth_dem | induction on the steps | partial. False where flow lines join (C164_downhill_violated); proved for grids whose flow lines do not join. |
| C165 Components of a coupled model compute with what their providers supply | get_required_vars, update of multi_bmi and emeli on values | refinement of the clock model; frame conditions | proved. What components and the interpolator compute is arbitrary in the model; interpolation itself is C15 and the interpolation claims. |
| C166 Neighbours of a set of cells | d8_local.get_neighbors | membership through the two cuts; sortedness of unique | proved |
| C167 Pits are recognised exactly | d8_local.is_a_pit, is_an_interior_pit | from C166 | proved |
| C168 The cells that flow into a cell are found exactly | d8_local.get_kid_IDs | membership; offsets of the eight codes | proved |
| C169 Neighbourhood of a cell with optional periodic borders | d8_local.update_neighborhood_IDs, add_neighbors_to_IDs | values of the two axes, case analysis | partial. False on the sides of a grid that is not periodic: the call fails there, corners excepted (C169_side_violated; exact condition C169_fails_iff). Wherever it returns, the result is right. |
| C170 Local updates of the flow codes agree with the global component | d8_local.update_flow_grid, start_new_d8_codes, break_flow_grid_ties, link_flats | locality of the codes; induction on the passes and on the history | partial. False with several cells to update or a DEM argument (the call fails), across periodic borders, for flats, and pits keep a negative code. Proved without periodic borders and flat linking for any history of single-cell changes. |
| C171 The local D8 component can be updated | d8_local.update_parent_ID_grid, update_flow_width_grid, update_area_grid; d8_base.update | case analysis | partial. False: the update fails as soon as any flow code changes (C171_first_update_violated, exact condition C171_completes_iff) and on every second call. The parent IDs, when reached, are those of the global component. |
| C172 Monthly maximum and minimum grids | indicators.create_stat_grid_stacks | invariant of the loop over the grids | proved. The minimum leaves out the first grid of the file, as the code documents; the statement says so. |
| C173 Monthly means and standard deviations | indicators.create_stat_grid_stacks | induction on the visits of months | partial. False for the month of the last grid: its sums are divided by one less than the number of visits, so the result is undefined or too large (C173_last_month_violated). Proved for the other eleven months. |
| C174 Days per month with a condition | indicators.create_day_count_grid_stack | induction on months, days and grids of a calendar | partial. False: the last day of each month is counted for the next month and the last day of the file is lost (C174_counts_violated). What is counted is given exactly (C174_counts_partial), with the exact condition under which a count is right (C174_correct_iff). |
| C175 Low and high values relative to the month | the thresholds of create_day_count_grid_stack with the output of create_stat_grid_stacks | from C173 | partial. False in the month of the last grid when it occurs once (every file of less than a year): no low or high value is detected there (C175_last_month_violated). |
| C176 Affected population | indicators.create_affected_population_grid_stack | case analysis | proved |
| C177 The running number of conflict cells is right | conflict.update, update_S, spread_conflicts1 | induction on the run, random draws as inputs | proved |
| C178 The conflict model stays inside the grid and completes | conflict.initialize_U, update_p, update_S, get_neighbor_cols_and_rows, spread_conflicts1 | induction on the run; bounds of the probabilities | proved |
| C179 IDs of conflicts | conflict.update_S, spread_conflicts1 (IDs) | invariant: IDs of conflicts come from the used part of ran_IDs | proved |
| C180 What one step of the conflict model changes | conflict.update_S, update_p, spread_conflicts1 | case analysis of one step from a reachable state | proved |
| C181 A nonzero ID marks a conflict | conflict.initialize (ran_IDs) | from the invariant of C179; concrete run | partial. False for one conflict of a run: the IDs are a permutation that contains 0, the ID of the cells without conflict (C181_violated). Proved when 0 is not among the IDs. |
| C182 Configuration and final report of the conflict model | conflict.finalize, initialize | arithmetic; concrete run | partial. False: the number of cells without the borders is taken as (nx-1)(ny-1), so the fraction is too small (exact factor in C182_fraction_partial), and with a configuration file the model cannot be started. |
| C183 Order of the events of the local erosion model | erode_d8_local: update, update_active_ID, update_T_clock, update_T_next_grid, initialize_T_next_grid; heapq as a list with its least pair | invariant of histories: every inner cell has its scheduled time in the heap, no pair is before the clock | proved. Routing and transport law are any function of the state (see C190 for those of the package). heapq of the Python library is trusted. |
| C184 The splash zone of an event | update_neighbors as a recursion with fuel | invariant of the search; the zone compared with an inductive definition of the reached cells | proved |
| C185 Elevations follow the rates without gaps | update_DEM, update_T_last_grid, update_entire_DEM | induction over the history | proved. In exact arithmetic. |
| C186 Drift between full updates is bounded by the target | update_flux_cap_grid, update_neighbors, update_dz_target_grid2 | induction over the history | proved |
| C187 Rates are the sediment budget of the cell | update_dz_dt_grid | sum over the grid split by direction; concrete run | partial. False in general: a cell outside the splash zone keeps its rate although a cell of the zone now sends it another amount (C187_outside_violated), so sediment is lost or created. Proved for all cells of the zone after each update and for base level. |
| C188 Time steps of the local erosion model | update_dt_grid6, update_T_next_grid, update_dz_target_grid2, initialize_dt_grid5 | field arithmetic | proved |
| C189 The stability check of the local erosion model | update_DEM (dz_max), check_stability | from the zone; concrete run | partial. False in one direction: the check sees only the cells brought up to date last in the update (C189_missed_violated). Proved: a stopped run has such a change. |
| C190 The local erosion model runs with the local D8 component | update_d8_vars with the model of d8_local | C170 | partial. False: in every grid of two or more cells neither the initialisation of the flow variables nor any update gets through, because the DEM is compared with None. |
| C191 Grids without inner cells run out of events | update_T_next_grid, update_active_ID | length of the heap | proved |
| C192 The seasonal water balance classes span the space without overlap | get_swb_class, boundaries of both options, over any ordered field | class = first matching box; boxes pairwise separated | partial. Exact regions and absence of overlap are proved for all options. False that the expanded boundaries span the space: a timing index of -1 (which every basin below freezing all year gets), basins without snow with an index of at most -0.4 (or at most -0.1 with aridity above 0.9), and aridity above 5.8 have no class; C192_gaps lists all gaps up to aridity 5.8. |
| C193 Expanded class boundaries keep the original classes | get_swb_class | every original box inside the expanded box of the same name | proved |
| C194 Class names | get_swb_class, get_swb_class_names | names of the boxes; a witness for each name | proved |
| C195 Timing index of precipitation | get_precip_timing_index | algebra on the equation of Woods; cases of the temperature | proved |
| C196 Timing index against temperature | get_precip_timing_index | arc cosine substitution, sin x / x decreasing by concavity; limits by sin x < x | partial. Proved within the amplitude. False across its limits: for every snow fraction strictly between 0 and 1 the index falls to -0.999 just below the upper limit and is 1 at and above it, and likewise at the lower limit. |
| C197 Snow fraction of a basin | get_snow_precip_fraction | cases | partial. Proved for every UNITS other than percent; with percent, in any spelling, the call always fails because the result is never assigned. |
| C198 Climate indicators of Knoben | Knoben indicators of classify.py | normal form (P-E)/max; sums over twelve months | proved |
| C199 Evaporation of Hamon | Hamon evaporation of classify.py, with the model of solar_funcs | C68 (declination at most 23.5 degrees), tangent bounds, exp x >= 1 + x, telescoping of the months | partial. Proved for latitudes up to 66.5 degrees (growth with temperature for every length of day, between -237.3 and 3860 degrees). False inside the polar circles: from 67 degrees on the result for January is not a number. |
| C200 Published totals of the glacier component | volume totals of glacier_base.py and the storage report of the driver | induction over updates; C52 for the true change | partial. Proved for the totals of snow melt and ice melt. False for the totals of stored snow and ice, which stay at their initial values, and for the total melt, which stays zero; so the report of the driver always shows no change of snow storage. |
| C201 Depths and water equivalents of snow and ice | initial depths and cold content, depth updates of glacier_base.py | unfolding the last update of a run | proved |
| C202 Types of the density of snow | update_density_ratio and the input types of rho_snow | case split on the type | partial. Proved for a scalar and a grid. False for a time series and a grid sequence: the first update fails. |
| C203 Stretched images keep the order of the cells | all stretches of visualize.py and stretch_grid | each stretch is a strictly increasing curve of the normalised grid | proved |
| C204 Range of stretched images | the same, with the 256 bins of the histogram | values of the curves at 0 and 1; counting cells by bin | proved |
| C205 Stretched images do not depend on the unit | the same | minimum, maximum and bins under a positive affine map | proved |
| C206 Reading a time series | read_time_series, read_any_time_series | induction over the lines: the result is what the lines up to the first short one say | proved |
| C207 Observation times in minutes | convert_obs_time_format over the model of time_utils | C42 and C63 element by element | proved |
| C208 Interpolated observations | interp1d, linear and nearest, as used by interpolate_obs_time_series | searchsorted on increasing times | proved |
| C209 The cost compares values of the same time | get_observed_values and the pairing in compute_cost | case split on the two intervals | partial. Proved for irregular observations, for results written more often than observed, and for equal intervals. False for regular observations made more often than results are written: the k-th values are compared although their times differ. Irregular results with regular observations make the call fail. |
| C210 The tried value reaches the grid | modify_channel_grid_file over the model of get_grid_from_TCA | C125 | proved |
| C211 Order of the soil water contents | soil_base over the reals, with the table of soil types | monotonicity of real powers; the rows of the table by evaluation | proved. The constants of the table are exact rationals; the rounding to float32 (soil_base.py:315) is not modelled. |
| C212 Conductivity and limiting content | K_of_theta and theta_max | real powers; two counter-theorems | partial. Proved from the residual content up and for rainfall rates below K_s. False below the residual content (the result is nan unless 3 + 2/lambda is an integer) and for rates from K_s on (theta_max raises NameError). |
| C213 Columns of meteorological text files are complete | count_lines and read_column on lists of lines | induction on the lines | proved |
| C214 The wettest month | find_wettest_month over the model of text splitting | invariant on the lines read; four counter-theorems | partial. Proved for records that start in January, skip no month and span at most max_years, with the last line left out. False otherwise: the last line is never counted, a record that starts later in the year or skips a month assigns rain to the wrong months, a longer one makes the call fail. |
| C215 Quarter-cell derivatives of a DEM | differences on quarter cells with nan as none, slopes, landform operator, curvatures | index arithmetic of the rolls; planes and ridges | proved |
| C216 The ideal longitudinal profile | get_peckham_profile, get_whipple_profile over the reals | derivatives of real powers and logarithm | proved |
| C217 The curvature equation | kp_from_curvature_eqn, kc_from_curvature_eqn | field identities; the law of C216 | proved |
| C218 Clipping of measured profiles | read_profile from the two columns on | induction on the points; first position of the maximum | proved |
| C219 Processes can be switched off | attributes created by initialize of enabled and disabled components, attributes it reads; the loop of initialize_comp_set with the attribute lookups | kernel decision over the tables, lifted to every list of components by induction | partial. The property fails in the code: switched off channels create none of their variables, switched off meteorology lacks the latent heat flux and the totals (and rain and snow unless precipitation is a scalar), a switched off valley glacier has no ice thickness, and connecting them raises AttributeError. C222_starts_iff is the exact condition; C219_may_be_off_partial covers all other components in any combination. A switched off driver starts, but has no clock for the framework to follow; that is outside the statement. |
| C220 A switched off process contributes nothing | the same, plus update_R of the channels | kernel decision over the tables; iteration; field arithmetic | proved |
| C221 A value handed over between equal time steps is used exactly once | the time interpolation of one variable between a provider and a user with the same step, over all updates; the request times of the framework | induction over the updates; invariants of the framework run | partial. The property fails in the code for scalars updated in place (the first value is used twice and the last is never used) and for grids that are replaced (a value can be skipped or used twice), when the provider is listed before the user. The other three cases are proved; the exact sequence of values used is given in all five. |
| C222 Every component that is switched on can be started | the attributes that initialize of each component reads, which of them come from the CFG file, and the loop that initialises and connects the components | induction over the provider list; kernel decision over the tables | partial. The property fails in the code: Green-Ampt, Smith-Parlange and Beven infiltration read attributes dz and q that only the Richards component sets, the energy balance evaporation reads a parameter type and names of output files that its CFG file does not have, groundwater reads names of output files that are spelt differently in every shipped CFG file, the evaporation from files makes a call that always fails (and reads temperatures it does not ask for), and diversions in use read dx and dy that nothing sets. C222_starts_iff is the exact condition for a model to start; C222_others_start_partial covers all other components as far as attributes are concerned; that the snow components also fail when all their inputs are numbers is C252. The theorems about the rates of these components (C29 and others) are about their update functions. |
| C223 The order of the lines of the provider file does not matter for the start | the same loop, for every order of the provider list | the exact condition of C222, reduced to processes by kernel decision over the tables | partial. The property fails in the code: a component is initialised before the later listed providers are connected, and several components read their inputs in initialize. C223_order_iff says which orders work: exactly those that list meteorology, snow and channels before the components that read them at the start. |
| C224 The volume error of the final report of a coupled model | one pass through the provider list with meteorology, channels, snow and evaporation (the models of these components coupled), the volumes in the final report | balance of one step from those of the components; induction over the run | partial. The property fails in the code: the melt of the last step has left the snowpack but has not reached the channels, water in attenuation storage is in no line of the report, with overbank flow the water at the edge cells is counted in the channels and in the outflow, baseflow and ice melt are not counted as inflow, and evaporation that the channels could not give is reported all the same. C224_reported_error gives the reported error exactly, for every run. |
| C225 The final report gives the final storages | finalize_all with the values that get_values delivers to the driver | induction over the provider list; the interpolation theorem for an unchanged scalar | partial. The property fails in the code when the driver is listed before a component: the report then gives the storage of the start of the run for it. C225_report_iff is the exact condition. The glacier component, whose updates change the total, is not covered. |
| C226 Every basin of the GAGES-II table gets a class | get_snow_precip_fraction, get_precip_timing_index, get_aridity_index and get_swb_class applied to one row of the table | composition of C192, C194 and C195; without snow the index is positive | partial. The theorem gives the exact condition for a class. False for basins that are below freezing all year round (mean temperature below one degree by half of the seasonal range or more), for basins whose evaporation is above 5.8 times the precipitation, and the call fails when every month is at one degree. |
| C227 A configuration file made from a template has every placeholder filled in and nothing else changed | str.replace on lists of characters, the loop of make_new_cfg_file | a template as a list of characters and placeholders; one replacement is the replacement of one name, by induction over the template; induction over the names | proved. Texts are lists of characters; str.replace is modelled as Python defines it, from left to right without overlap. |
| C228 The dollar templates are filled in line by line | the regular expression as a scan, the loop over the matches, the lines | the scan finds exactly the placeholders; then as C227 | proved. The template is given by its lines; the regular expression is modelled as a scan. The method STRING (string.Template) is not modelled. |
| C229 Bundling grid files into a stack keeps their order in time when the index has a fixed width | the sorted names, fromfile with a count, the file that is written | a sorted list is determined by its members; numbers of one width are ordered as their texts, by induction over the width | proved. The names that glob found are given, in any order; names are lists of character codes. A file that is too short shifts the grids after it (C229_short_file), so the theorems on grids suppose whole files. |
| C230 Degrees, minutes and seconds become the same angle in decimal degrees | the three numbers with the sign of the degrees | cases on the sign and on zero degrees | partial. The property fails in the code for negative angles of less than one degree: the sign is lost. C230_exact_partial is the exact condition. |
| C231 The erosion model makes every initial surface its configuration file offers | the branches of create_initial_DEM and initialize_DEM with the undefined names and fractional cell numbers as errors | cases on the methods; the number of levels is positive for more than two cells | partial. The property fails in the code: only FLAT and PLANE with GAUSSIAN noise can be made (exact condition for grids with more than two rows or columns); MIDPOINTS, which the shipped examples use, addresses cells with fractions, NO_NOISE and CORNER_PLANE use names that are not defined, and READ_FILE in lower case makes noise instead. A file of four-byte integers is read as FLOAT, since only the size is looked at. |
| C232 The boundary conditions of the erosion model name the right cells and leave the interior alone | row indexing of a grid by flat cell numbers, the lists of base level cells | exact conditions on the shape by arithmetic; membership of flat numbers by division with remainder | partial. The property fails in the code for three of the four methods: BOTTOM fails unless the grid is at least twice as high as wide and then overwrites rows of the surface, RIGHT fails unless there is one row or column and then sets the surface to zero, CORNER always fails. FOUR_SIDES is proved. |
| C233 The default monitored cell is the cell with the largest contributing area, or upstream of it | the search for the largest area, the place of its centre, the steps back as an error | members of the list of cells; first cell found | partial. The property fails in the code for STEP_BACKS above zero: the call always ends with an error. Without steps back it is proved for grids with cells of fixed angle; otherwise the code says that it cannot give the place and writes -999. |
| C234 The part of a forcing file holds exactly the lines of the chosen period | the two loops over the lines | induction over the lines, with the order of the dates as texts | partial. The property fails in the code when one of the dates does not occur in the file or both are equal; the theorem holds when the start date occurs and the end date is later and occurs or is after the whole file. |
| C235 A value written after a key is read as it is written | the readers of cfg_files.py on lists of lines, Python eval as a parameter | words of a stripped text by induction; the key ends at the first colon | partial. The property fails in the code for delimiters other than a colon (used for type file only), delimiters of several characters, a required number of words (no result when there are enough) and booleans in lists that are not in lower case. Proved for the colon. The evaluation of a word by Python is a parameter. |
| C236 Diversion files are read as documented | the readers of the three diversion files | induction over the blocks of lines | partial. The property fails in the code: y is wrong outside the first column, the cell size attributes are never set, the time step of the file is not used, every file with a sink is rejected, and the layout of the shipped example (column and row) is misread. Proved: the documented layout gives cells, discharges, fractions and times. |
| C237 Diverted water reaches the channels | the declared inputs and outputs of all components (RepoModel) | case distinction over the components | partial. The property fails in the code: no component asks for any variable of the diversions component, and update_diversions of the channels component returns at once. Nothing positive remains to be proved. |
| C238 The published energy fluxes of a step belong together | the update of met_base after the precipitation, one cell, call by call in order, and runs of updates with the values read | invariant over runs; every call shown to leave the variables of earlier calls alone | proved. One grid cell; real arithmetic. Precipitation, snow and ice depths and the sun of the step are parameters of the step. The formulas of dew point, saturation, exchange coefficients and clear-sky radiation are those of MetEnergyModel and SolarModel (C68-C73). |
| C239 A prescribed surface temperature or albedo is used | the same model | noninterference: states that differ only in the prescribed value have the same runs | partial. The property fails in the code for the types scalar and grid: the values given are overwritten in the first update and change nothing that follows (proved for all runs). It holds for time series and sequences of grids. |
| C240 Options missing from older configuration files get their defaults, given ones are kept | set_missing_cfg_options of the channels component over attributes that are present or absent | pointwise characterisation of every step, case distinction over the options | partial. The property fails in the code for a bankfull depth given without its type: it is replaced by 10 m. All other options of the channels component are covered. The options of the other components are in C274. |
| C241 Channel files can be created at the start | the part of the start of the channels component that creates channel files | case distinction on the attributes read | partial. The property fails in the code: the option reads an attribute manning_file that nothing sets, so that the component never starts with it. Without the option the start is that of C240. The computation of the grids themselves is C125. |
| C242 Every node of the soil profile has the parameters of its layer | build_layer_z_vector and build_layered_var with index bounds from running sums | induction over the layers | proved. Real arithmetic. Grids have the shape of the model grid. |
| C243 The reported soil water is the sum over all cells and layers | update_total_storage over numpy arrays with shapes and broadcasting, the choice of one profile, the water content at the start | case distinction on shapes, rearranging of sums | partial. The property fails in the code for one profile on a grid with cells of fixed angle (an error, or a volume too large by the number of rows), for a water content that is a number in the first layer and a grid below, and for a single cell of fixed angle with thicknesses that differ. It is proved for all other combinations. |
| C244 A component can be run by itself | run_model with the component as a parameter; the parameters of initialize of all component classes | induction over the passes of the loop | partial. The property fails in the code: run_model calls initialize with a keyword cfg_prefix that no component has, so that it raises TypeError before anything is initialised, and the number of steps that is asked for is not used. The loop behaves as stated if initialize is given that parameter. |
| C245 All files are closed at the end of a run | open_file, close_input_files of all components, finalize, finalize_all | induction over the inputs and over the components | partial. The property fails in the code: types are read in any spelling, but nine components compare with Scalar as written when they close their input files; with scalar, finalize raises AttributeError, the output files stay open and the later components are not finalised. C245_closes_iff and C245_run_iff are the exact conditions. Output files: see C62. |
| C246 Soil parameters of Richards' method are valid and current | read_input_files of the Richards component, the computed parameters, updates | case distinction on what is read, properties of the minimum of a list, induction over the updates | partial. The property fails in the code: a time series for one of the three parameters raises an exception, so does a grid without a positive conductivity, numbers in the CFG file are not brought into the valid range, and grids read after the start are not used. theta_of_psi is a parameter of the model. |
| C247 The channels of a run have the geometry that was given | ChanInModel: one variable from its configuration (type, number, file, factor), read_input_files, the first part of initialize_computed_vars, and the steps of a run; the reading of a value is InputModel | each input delivers what a separate specification of the four types says for the first step; then projections of the computed geometry; counterexamples from the same theorem | partial. Proved: at every step the geometry is exactly what the inputs say for the first step (width with zeros replaced, angle in radians, lengths and slopes adjusted, initial depth and volume, the roughness of the chosen formula). The full statement is false of the code: update never reads the inputs again, so that time series and sequences stay at their first value; the factor of an input that is a number is ignored; a zero width that is one number raises an error; with both roughness formulas chosen both parameters become -1; an empty grid file is read as zeros. |
| C248 Flow grids are converted from ARC to RiverTools codes | FlowCodeModel: the table, the loop over blocks of 1024 items with the number of runs of np.arange, the part for the remainder | induction over the blocks: the runs suffice to read everything; the table against a specification by directions | partial. Proved: for codes from 0 to 254 every cell gets the code of the same direction or 0, and there is no error exactly when the size of the file is a multiple of 1024 bytes. The full statement is false of the code: for other sizes an undefined name is called after everything was written; the table has no entry for 255; negative codes are taken as indices from the end of the table. |
| C249 The second version of the new slope grid gives flats the mean slope of the flow path | Slope2Model: the D8 slopes, the start cells, the paths with their rows, distances and flags, one pass of the while loop, the loop with its three ends, the three smallest slopes | invariant over the passes: row, distance and flag of each path as functions of the number of the pass, the slope grid as the least of the slopes counted so far; induction upstream along level cells for the positivity | partial. Proved for every grid that is written: each value is exactly the least of the own slope and the mean slopes of the paths over flats; it is positive wherever the flow leads to lower ground, but for single level cells at the head of a path. The full statement is false of the code: without a flat, with fewer than three different slopes and with flats longer than twice the shorter side of the grid the function raises an exception; a single level cell at the head of a path can keep the slope zero. |
| C250 Groundwater accepts uniform and gridded recharge | RechargeModel: values that are numbers or grids, the product, the eight additions with indexing, both versions of update_water_volume_change | induction over the directions for numbers and for grids; the balance from C59; exact condition for the exception | partial. Proved: the net inflow is computed and right exactly if the recharge rate (or rain rate) or the cell area is a grid, or no cell has a flow direction. The full statement is false of the code: for cells of fixed length and a uniform rate, for instance with the infiltration component disabled, the sum is a number and indexing it raises IndexError. |
| C251 Rain enters the model once | RechargeModel: excess rain rate, recharge rate of the infiltration component and of the attenuating component | algebra; the surplus of the attenuating component is computed exactly | partial. Proved for the Green-Ampt, Smith-Parlange and Beven methods with the Darcy component. The full statement is false of the code: the attenuating component takes the rain as recharge while the channel component keeps the rain less infiltration at the surface, so that without infiltration all rain counts twice. |
| C252 Numbers, time series and grids as input of the snow components | The snow components with NumPy numbers, rank-0 arrays and grids told apart, with the failures of in-place operations | Invariant of the kinds of objects, exact conditions for start and update by cases, cellwise formulas by induction over updates; counterexample classes | partial. The property fails in the code: with numbers only the cold content is a NumPy number that cannot be changed in place, so the start fails; with temperature and snowfall as numbers, grids of melt factors, thresholds, initial water equivalents or (with a number as depth) densities let the first update fail; with a time series of densities the first one is used throughout. The partial theorems give the exact conditions for starting and running and what every cell then gets. |
| C253 The snowpack in floating point arithmetic | RoundModel: the update of one snow cell with each operation followed by a rounding; rounding to doubles defined by exponent and nearest integer, ties to even | Rounding facts (monotone, idempotent, relative error) proved for doubles; error of one update by linear arithmetic, sum over the history by induction | proved. For every rounding with the properties of the structure Rounding, which doubles have (binary64, proved for an explicit model of IEEE 754 rounding without overflow). The bound is 5 u M + (4 + dt) eta for each update (u = 2^-53, eta = 2^-1075, M the most water in the pack plus snowfall). C253_cap_rounded: the cap can exceed the pack by the rounding of the quotient. |
| C254 Clocks in floating point arithmetic | RoundModel: component, driver and framework clocks with each operation rounded | Induction over updates with monotonicity and the relative error; number of updates bracketed by the clock error; counterexample runs in doubles computed in the kernel | partial. Two parts fail in the code (proved on runs in doubles): one minute in steps of 0.8 s takes 76 updates instead of 75, and a component with steps of 0.1 minutes is behind the framework after the pass at 48 s. Proved instead: the number of updates for a model time is exact for whole seconds and never off by more than one (up to 33 million updates); components that keep time in seconds do keep up, and with other units they are behind by at most a few relative rounding errors for each pass. |
| C255 Channel volumes in floating point | RoundChanModel: the volume update of the channel component on the D8 network, with attenuation, each operation rounded | Each cell gets at most one addition per flow code, so at most ten roundings: error by induction over the additions; transfers cancel because both sides compute the same product; sum over cells and history | proved. Sums over the grid (the total and the water gone over the edge) are exact sums of the machine volumes: the order of additions inside numpy.sum is not modelled. Discharge and excess rate are arbitrary grids; that discharge is zero in cells without flow direction is a hypothesis, proved for the exact model in C22. |
| C256 Importing a DEM records where its cells are | ImportModel: the import functions on a raster given by size, geotransform, type code and coordinate system; the grid information record | Unfolding the record; counterexample classes for all geographic (projected) rasters | partial. The property fails in the code: read_from_geotiff tests the method srs.IsProjected without calling it, so every raster with longitudes and latitudes is recorded as projected with its cell size in degrees taken for meters; import_dem_as_rtg records every projected raster as geographic. Proved: right for projected rasters in the first case and for geographic ones in the second, the edges in all cases, and exactly which data types are accepted. Numbers are exact; the text format of the file is C38. |
| C257 An imported DEM is read back as it was | ImportModel on the files and bytes of RtsModel and RtgModel | Round trip of bytes (C92); lengths of files against the recorded type; reading depends on the first bytes only (induction) | partial. The property fails in the code except for single precision rasters (proved; import_dem_as_rtg on a little-endian machine): the first way writes FLOAT values but leaves the type of the raster in the information file, so a DOUBLE raster cannot be read and an INTEGER one comes back with values from half of its cells; import_dem_as_rtg writes the bytes of the raster but records FLOAT, so 8 and 16 bit rasters cannot be read and 32 bit integers and doubles come back as other numbers. |
| C258 Distances on the sphere are great-circle distances | SphereModel: haversine formula over the reals | Identify the haversine with the angle between unit vectors; metric properties of angles | proved. Over the real numbers; floating point is not modelled here. |
| C259 The closest gauge is the closest gauge | SphereModel: the search for the minimum over the table | Induction over the table | proved. The table of gauges is a parameter; distances are real numbers. |
| C260 Degrees, minutes and seconds are converted with their sign | SphereModel: conversion with a sign that can sit on zero | Case analysis; equivalence | partial. The property fails in the code exactly for "-0" degrees with minutes or seconds: the sign is lost (first theorem; the second one is an equivalence). |
| C261 The bounding box of a basin contains its outline | SphereModel: minimum and maximum of coordinates, buffer, rounding | Induction over vertices; rounding error at most half a unit | proved. numpy.around is modelled as exact rounding to the nearest multiple, ties to even. |
| C262 The HLR code of a point is that of its grid cell | SphereModel: projection, test, floor and Python indexing | Inequalities for floor; the constants of the shipped grid checked in the kernel | proved. The projection is the Lambert azimuthal formula of C155; missing values are recognised only as the text "-9999". |
| C263 The collated table has one line for each gauge | CollateModel: the merge of ten files, the dictionary of gauges, the loop over sorted ids | Invariant of the dictionary; induction over the loop over sites; induction over fields for the text | proved. The lines for basins without USGS id that are appended at the end of the file are not modelled. |
| C264 Each value comes from the first dataset that has it | CollateModel: positions in the ten files | Invariant: the rest of a sorted file determines the rows that will be used; induction over sites and datasets; counterexamples computed in the kernel | partial. The property fails in the code: a row for a gauge that is in none of the nine datasets makes collate ignore all later rows of that file; an empty cell counts as a value; of repeated ids the first row is used although the comment says the last. Proved for sorted files with terminated lines: exactly which row is used and which value is taken. |
| C265 Areas and elevations carry their own units | CollateModel: update_attributes | Label of the first dataset with a row by induction over datasets; counterexamples computed in the kernel | partial. The property fails in the code: an elevation in feet from HCDN is labelled "m" for gauges in GAGES-II that are not in NWIS, and an area gets the unit of the first dataset with a row even if that row has no area. Proved: the unit of the area is that of the first dataset with a row for the gauge, and it is right if the area in that row is set. Elevations are right for gauges with a row in NWIS, and for gauges of HCDN that are in neither NWIS nor GAGES-II. |
| C266 Sorting a file by gauge id keeps its records | CollateModel: sorting of whole lines | Tab is smaller than all characters of ids, so the order of lines refines that of ids | partial. The property fails in the code for a file whose last line has no newline: this line is joined to the one that follows it after sorting. Proved for all other files. |
| C267 Mass totals in floating point arithmetic | RoundTotalModel: the total of a flux over cells and updates with every product and sum rounded; sums as binary trees | Bounds by induction over the tree of additions and the list of updates; instance for doubles | proved |
| C268 Unit conversion of a grid stack converts every value and keeps the original | ConvertModel on top of RtsModel: the loop that reads, converts and appends grids | Invariant of the loop: the new file holds the converted grids read so far and the old file is untouched; failure for narrow types by induction to the last grid | partial. The property fails in the code for data types other than float32: the grids are always read as float32. For uint8 and int16 stacks convert_units fails after having created the new file; for float64 stacks it writes wrong values without an error. Proved for all float32 stacks. |
| C269 Smoothing a DEM is a Gaussian mean that makes no new peaks and pits | SmoothModel: 5x5 kernel, zero fill, cropping, passes | Pass without edges as a product of neighbour sums, whose powers have binomial weights; passes on the grid agree with it by induction while away from the edges; maximum principle; sums by shifting | partial. The property fails in the code less than 2n cells away from an edge, where cells outside the DEM count as elevation zero: a level plain of positive height comes out lower there. With zero passes the method fails. Proved: the mean, its bounds and the invariance of planes at all other cells; bounds that include zero, and the volume, for the whole DEM. |
| C270 A mask file lists exactly the selected cells | SmoothModel: removal of undefined cells, tests, file contents | Filtering with positions: order and membership | proved |
| C271 A run stops at the first infiltration rate that is not a number | InfilCheckModel: the check, both update methods around it, runs as sequences of computed rates | Counting of bad cells against a specification; induction over the run | partial. The property fails in the code for the Richards component with its default settings: the check is skipped unless CHECK_STABILITY is set in the configuration file, and NaN rates are written. Proved for all other cases. The process ends by sys.exit() without an argument, so its exit code is zero. |
| C272 Every output file is created in the output directory under the name that was given | OutNameModel: name tables and save switches of eleven components, prepending of the directory, synonyms, extensions, created files | Generic proof for tables that fit what the configuration file offers; the fit is decided for each component | partial. The property fails in the code in four cases. A file name without an extension is cut at a dot of the directory. The flow grids cut their names at the first dot, so names with a common part that contains a dot become one name. Three infiltration components switch off the saving of surface soil moisture and wetting front depth at the start, so no file is created although the configuration file asks for it. The files for soil profiles of the Richards component cannot be opened at all; soil cubes are outside this model, see C137. Proved for all other cases. |
| C273 An infiltration component runs with every combination of input kinds | InfilShapeModel: arrays with the four shapes that occur, broadcasting and in-place operations, the three capacity formulas, reading, updates and runs | Shapes as ranks that broadcasting joins by max; invariant on the shape of the depth; induction over the updates | partial. The property fails in the code for two of the three methods. Smith-Parlange cannot read any parameter from a file (it stores values in lists that do not exist), so it runs exactly with numbers in the configuration file. The formula of Beven uses two parameters as arrays over layers: with numbers only the first ordinary update fails, and a grid for one of the two fails always. Green-Ampt is proved for all combinations. The water table at the surface is ignored when depths are one number or when all water infiltrates everywhere (C273_cells_partial). |
| C274 Options missing from older configuration files of the other components get their defaults | DefaultModel: set_missing_cfg_options of meteorology, driver and degree-day snow, set_new_defaults and set_computed_input_vars of infiltration, cold content reference, joining of output names | induction over the list of assignments; the list is compared with a separate table | partial. The property fails in the code in two cases. The meteorology component does not start without the names of the files for surface temperature and albedo, unless only precipitation is wanted. Infiltration methods other than Richards turn four output switches off that the file may have turned on. Everything else is proved. |
| C275 The temperature threshold between rain and snow is the one that was configured | DefaultModel: reading of the two entries, default, split into rain and snow | case distinction on the type of the entry | partial. The property fails in the code for thresholds from a file: no file is read and the threshold is 0. Proved for numbers and for a missing entry. The cell is the unit of the model; arrays are cellwise. |
| C276 The final report states every quantity with its value and its unit | FinalReportModel: lines of the final report with label, numbers and unit; stopping rules from DriverModel, decimal numbers from TableModel | line by line comparison with a separate list of quantities, rounding bound of decimal numbers | partial. The property fails in the code in two places. Peak velocity and peak depth are printed with the unit m^3/s. The simulated time is the stopping time and not the time that was simulated, if the run stops at a model time. All other lines are proved. Whether the delivered values are those of the end of the run is C225; the words gain and loss are in C43. |
| C277 Selecting the data collection platforms of the US states | RfcModel: loop over the rows with output lines and counts | invariant of the loop; fields of a line characterised by their join with commas | partial. Proved in full for the rows and the three totals. The full statement is false of the code: the count of a code starts at zero with its first row, so that each reported count is one too small. |
| C278 The dictionary of hydrograph types describes the current files | RfcModel: rows of the six files, site table, dictionary and saved dictionary | files flattened to one list of rows; induction over it (last row wins) | partial. Proved in full for calls without a saved dictionary (all six files assumed to be there). The full statement is false of the code: once a dictionary has been saved, every later call returns it whatever the files contain. |
| C279 Merging the basins of all river forecast centers | RfcModel: headings, columns, rows and lines of the table; reading and formatting of numbers is a parameter | relational specification of a line, induction over rows and centers | partial. Proved if every header has at least two columns, as an equivalence, with headings read up to the newline character. The full statement is false of the code: a file that is empty or has one column silently drops its center and all later ones, and a needed column that comes last is not found because its heading is read with the newline character. |
| C280 Dates and stop time of prepared settings agree | PlanModel: options, state kept by the object, set_time_info, set_met_info, cfg_dir, get_cfg_files, sequence of calls | invariant over the calls (one of three periods); dates compared by stepping from day to day | proved. Dates are compared by stepping from day to day. The part of a call up to the configuration files is modelled. |
| C281 Rainfall settings belong to the source that was chosen | PlanModel: as for C280 | case distinction on the source; step by step evaluation with the earlier state left free | partial. Proved for the NextGen file, CHIRPS, CHIRPS over ten years and GLDAS, each chosen alone, after any history. The full statement is false of the code: GPM always ends with an error, test rainfall alone ends with an error, two sources are mixed, and with no source an object that was used before writes a file named None. |
| C282 Basin information depends on the basin only | PlanModel: set_basin_info with the numbers of the source | case distinction on the nine basins with the earlier values left free | partial. Proved for everything but the option that the basin drains to the ocean, and for that in the four basins that set it. The full statement is false of the code: the other five basins keep the option of the basin before, and an unknown basin keeps all values. |
| C283 Prepared files and directories do not collide | PlanModel: set_output_filenames, cfg_dir | cancellation of common prefixes of texts | partial. Files: proved in full. Directories: proved if the meteorology is prepared. The full statement is false of the code: with the default option runs with different rainfall share a directory, and only the case prefix of the shipped templates works. |
| C284 Site numbers common to two tables | SiteIdModel: reading of a table, sorting, the two set operations, layout of the data sets | relational specification of a row; sorted lists that are permutations are equal; membership through sorting and removal of repetitions | partial. Proved if every line of the tables is ended by a newline character. The full statement is false of the code: the last character of a last line without newline character is lost, and with an unknown option nothing is returned and no error raised. Digits are the ten ASCII digits. |
| C285 Bounding box of a catchment | CatchModel: lookup by id or divide_id, ring box, range test, four corners, buffer on the attributes, sequence of calls | minimum and maximum of a list; invariant over the calls (attributes never set in Albers files); distance from the pole point for conic projections | partial. Geographic files: proved after any calls, for buffers that are not negative (a negative one is ignored). Albers: proved without buffer if the transformation is monotonic in each coordinate. The full statement is false of the code: in Albers coordinates a buffer always ends with an error, and for every conic projection the box over the central meridian does not hold its northern point. The transformation of GDAL is a parameter; polygons only, no multipolygons. |
| C286 Area, outlet, headwater catchments and ocean outlets | CatchModel: lookups, headwater catchments, count of ocean outlets with the attribute that hides the method | uniqueness of IDs; sorted permutation; invariant over the calls | partial. Proved for files of the older kind with IDs cat-… and nex-…, the number of ocean outlets for the first time it is asked for. The full statement is false of the code: the count is stored under the name of the method, so that a second call fails; in files of the newer kind all three lookups fail; an outlet ID with another prefix hides a headwater catchment. |
| C287 Bounds, projection and elevations of a catchment DEM | CatchModel: clip options, rounding of bounds, replacement of the nodata value, least and largest elevation | case distinction on the options; floor and ceiling bounds; minimum and maximum of a filtered list | partial. Elevations: proved. Coordinate system and bounds: proved if not both clip options are set, the bounds for the four corners of the box. The full statement is false of the code: with both options a geographic grid is written as Albers, and for every conic projection the southern edge is cut off over the central meridian if its parallel sags by a metre or more. The warping of GDAL and single precision are not modelled. |
| C288 Configuration file of a calibration | CalCfgModel: lines, conversion of values, assignment of attributes, replacement of placeholders, separators, derived names, defaults | relational specification of lines and values; induction over the lines (last one wins); step by step evaluation of the assignments that follow | partial. Proved for files whose lines have at most one equals sign and a name before it, with texts that do not look like numbers and placeholders at the beginning of a directory. The full statement is false of the code: a prefix of digits is made a number and the file cannot be read; a value ends before a second equals sign; a placeholder without separator is not replaced, and that of the home directory only in the output directory; the defaults lack the separators of columns. Numbers with a decimal point are a parameter; whole numbers are an optional sign and ASCII digits. |
| C289 Header for visualization beside a grid file | BovModel: the text of the header, its name, byte order of the values | relational specification of lines and keys; prefix comparison of the labels; case distinction on the byte orders | partial. Proved for the name of the grid file, numbers of columns and rows, data type, variable and corner, and for the name of the header if the grid file has an extension. The full statement is false of the code: the byte order is that of the machine, also when the values are swapped; the extent is given as numbers of cells, which is right only for cells of one unit; without an extension the last character of the name is lost. The text of coordinates is a parameter. |
| C290 Configuration file as a dialog description | DialogModel: words of lines, sequence of writes, group flag, About tab, as a list of tags and texts | relational specification of lines; induction over the lines; counting of tags against well-formedness | partial. The content is proved for files with a help line whose settings have seven columns; an existing file is kept. The full statement is false of the code: the tab of the last group is never closed, so that the file is not well-formed for any configuration file with a group; without a help line the call ends with an error and leaves an unclosed dialog; settings with fewer than seven columns, as in the current configuration files, end it with an error. Missing: indentation and comments, and that texts with markup characters are not escaped. |
| C291 Station table of the hydro-climatic data network | HcdnModel: slices of a line, join with tabs | relational specification of columns by widths; slices against successive cuts; counting of tabs | partial. Proved for files without a tab within a column, for lines of every length. False otherwise: such a line gives a row with more columns than the header. |
| C292 Names and addresses of critical zone observatory sites | HcdnModel: search of the parenthesis with -1 if there is none, table of sites, options | first parenthesis of a concatenation; infix with one occurrence of its first character; distinct keys | partial. Proved for values with an abbreviation in parentheses at the end, and for the addresses of the sites of the built-in table without report. The full statement is false of the code: without parentheses all sites get the same ID and the name loses its last character; with a report the call always fails; the option for the group is ignored unless another is switched off; the addresses of the two Luquillo catchments are exchanged. |
| C293 Bounding boxes of the CAMELS basins | CamelsModel: loops over features with their counters, join of boxes | induction over the groups of features; box by minimum and maximum of a list | partial. Proved for the shapefile of whole basins, and for that of units for every basin but the last if the units of a basin follow one another; a number below one counts as one. False otherwise: the last basin never gets a row, and units that do not follow one another give several rows. The reading of polygons, the change of coordinates and the sorting of the finished file are not modelled. |
| C294 Table of the CAMELS basins | CamelsModel: header and loop over four files with replaced separators | split of joined texts; row by row evaluation | partial. Proved if the four files have the same basins in the same order, IDs of eight characters and complete lines. The full statement is false of the code: the IDs of three files are not looked at, so that another order mixes basins, and a last line without newline character loses its last character. |
| C295 Table of the ARS watersheds | ArsModel: slices of a line, columns kept for the next line, cells of a row, header | relational specification of columns and of the latest line that is not blank; induction over the lines with the kept columns as invariant | partial. Number and order of rows, sixteen cells in each row, and ID, location and state filled from above are proved, as are the watershed names: given in the line, that of 9002, and blank ones, which are those of the row before. The statement about headings is false of the code: the names of the fourth and fifth column stand in one string, so that the table has fifteen headings. |
| C296 Positions and dates of the ARS watersheds | ArsModel: degrees, minutes and seconds by position, dates by position | slices of concatenations; rational arithmetic; evaluation of the cells of a row | partial. Positions are proved; for the watersheds 69051 to 69053 the code sets the degrees of the longitude to 97. A blank first date is not blank in the table: 19 followed by blanks and hyphens is written. Rounding and texts of numbers are parameters of the model. |
| C297 Names of the ARS watersheds | ArsModel: names from the cells of a row | split of joined cells; case distinction on the placeholder | proved. Proved for every row and its split by tabs. |
| C298 Sites next to the centers of clusters | CenterModel: distance, argmin over an array with zeros where there is no site | induction over the values (first smallest); inequalities between sums of squares and fourth powers | partial. The full statement is false of the code: the squares of the differences are squared once more, so that the site with the smallest sum of fourth powers is named, and the search ends with an error if the number of sites is not the expected one. Proved: the site is the first with the smallest sum of fourth powers, and its Euclidean distance is at most the fourth root of 3 times the smallest. Indicators are real numbers. |
| C299 Table of climate indicators of the GAGES-II sites | ClimTabModel: values of a line, dictionary by names, loop with skipped sites | relational specification of lines and dictionaries; induction over the lines | partial. Proved for sites that the dictionary has under the ID of the source, and for complete lines whose column names differ from one another and from the new ones. The full statement is false of the code: a site is looked up before its ID is put right, so that a site with a missing zero gets no row if only its right ID is in the dictionary. The indicators are a parameter of the model. |

## Trusted base

* Lean 4.33.0's kernel.  No compiled code is trusted: no `native_decide`, no `bv_decide`; `decide +kernel` is evaluated by the kernel.
* Axioms: every theorem depends on a subset of `propext`, `Classical.choice`, `Quot.sound` (checked with `#print axioms` for every manifest theorem).  No axiom is declared, nothing is left as `sorry`.
* The correspondence between the python text and the Lean definitions is by reading.  Each definition cites the lines it models.
* The python library functions the code uses (integer division, slicing, `str.split`, `datetime`, `dateutil.relativedelta`, `heapq`, numpy indexing) are modelled as documented.

## What is modelled

| module | code |
|--------|------|
| D8Model | components/d8_base.py, d8_global.py: tie break, edge IDs, flow codes, flat linking, parents, contributing area |
| FillModel | utils/fill_pits.py |
| HeapModel | utils/heap_base.py |
| EmeliModel | framework/emeli.py: run loop, users and providers |
| TimeInterpModel | framework/time_interpolation.py |
| BMIModel | utils/BMI_base.py: clock, value store, run time string |
| DriverModel | components/topoflow_driver.py: stop tests, mass-balance report |
| ChannelModel, FloatGridModel | components/channels_*.py |
| EvapModel | components/evap_*.py and their use in the channels |
| InfilModel | components/infil_base.py, infil_green_ampt.py, infil_smith_parlange.py, infil_beven.py |
| SnowModel | components/snow_*.py, glacier_*.py |
| InputModel | utils/model_input.py, BMI_base `initialize_var`/`update_var` |
| MetModel, MetEnergyModel | components/met_base.py |
| SatzoneModel | components/satzone_base.py, satzone_darcy_layers.py |
| CanalModel | components/diversions_fraction_method.py |
| FilesModel, RtiModel, RtsModel | utils/file_utils.py, rti_files.py, rts_files.py |
| OutputModel | the output parts of nine components, utils/model_output.py |
| TimeUtilsModel | utils/time_utils.py |
| SolarModel, SolarSeason | components/solar_funcs.py (all functions used by the met component; not the degree and DMS output formats); met_base.py (slope and aspect angles, julian day, net shortwave, cell coordinates) |
| PixelModel | utils/pixels.py |
| CfgModel, CfgDirModel | utils/BMI_base.py: read_config_file, read_path_info (reading), set_directories |
| InitDepthModel | utils/init_depth.py: compute_initial_depth (numerics), remove_bad_slopes, get_baseflow_volume_flux; channels_base.remove_bad_slopes |
| SoilModel | utils/pedotransfer.py: check_soil_grid_values, convert_soil_grid_values, wosten_*, get_tBC_from_vG_vars, capillary_length_G (TBC=False); not reading, regridding and writing of files |
| D8GeomModel | components/d8_global.py: flow widths, lengths, slopes, aspects |
| TableModel, TableProps, TableMore | utils/outlets.py: write_outlet_file, read_outlet_file, check_outlet_IDs; utils/text_ts_files.py: write_header, add_values, values_at_IDs |
| TimeInfoModel | utils/time_utils.py: get_duration, get_current_datetime, get_end_datetime, get_time_dtype; utils/BMI_base.py: read_time_info; the time coverage part of open_new_file in the netCDF writers |
| RtgModel | utils/rtg_files.py: read_grid, write_grid, class rtg_file (without read_xyz_as_grid; BOV files in BovModel) |
| RepoModel | _input_var_names, _output_var_names, _var_name_map, _var_units_map of the 24 components of framework/component_repository.xml; framework/emeli.py, multi_bmi.py: connect_comps, connections of initialize_comp_set. Names, attributes and units are constructors of enumerations instead of strings; RepoProps quantifies over all injective spellings |
| MultiModel | framework/multi_bmi.py: update, update_frac, update_until, set_value, get_value, get_value_at_indices, get_grid_size/shape/rank, names in initialize, get_cfg_filename, read_provider_file, instantiate; the reference exchange of get_required_vars / initialize_comp_set; framework/emeli.py: the same set-up functions |
| ErodeModel | components/erode_d8_global.py: update, update_slope_grid, update_Q_grid, update_Qs_grid, update_dz_dt_grid, update_dt_grid_method1, update_DEM; components/erode_base.py: constants, base level cells (FOUR_SIDES), volume totals, check_stability, check_finished. Over the reals, scalar coefficients; not create_initial_DEM, the other boundary options, erode_d8_local |
| GridInfoModel | utils/BMI_base.py: get_value (numpy broadcasting on shapes), get_var_grid, get_grid_rank/size/type/shape/spacing/origin, get_var_itemsize/nbytes/location |
| RegridModel | utils/regrid.py: get_raster_bounds, bounds_disjoint, fix_gpm_file_as_geotiff, create_rts_from_nc_files, create_rts_from_chirps_files. GDAL reading and resampling are an arbitrary function; exact arithmetic |
| ChannelDiagModel, ChannelDiagProps | channels_base.py: shear stress, shear speed, friction factor, Froude number, extremes | C122-C124 |
| ParamModel, ParamProps | utils/parameterize.py get_grid_from_TCA; BMI_base.get_run_time_string | C125, C126 |
| CalibModel, CalibProps | utils/calibrate.py: calibrate, values, cost, backup and restore, newest output file | C127-C131 |
| NcModel, NcProps | utils/ncgs_files.py, ncts_files.py, ncps_files.py, nccs_files.py: writers and readers; model_output.py and infil_base.py: opening and saving of profiles and cubes | C132-C138 |
| IceModel, IceProps, IceMore | components/gc2d.py: set_bc, stresses, velocities, fluxes, mass_balance, get_timestep, update_vars, update, run_model, compress_grid (shapes); components/ice_base.py: set_gc2d_parameters, update, update_time | C139-C152 |
| ProjModel, ProjProps | utils/projections.py (all) | C153-C156 |
| MetUtilsModel, MetUtilsProps | utils/met_utils.py (all but reading of files) | C157-C159 |
| NewSlopeModel, NewSlopeProps | utils/new_slopes.py: get_d8_slope_grid, get_new_slope_grid, smooth_dem | C160-C164 |
| D8LocalModel, D8LocalProps, D8LocalProps2, D8LocalProps3 | components/d8_local.py (not update_noflow_IDs, update_kid_IDs_BAD; the area loop is never reached) | C166-C171 |
| IndicatorModel, IndicatorProps, IndicatorProps2 | utils/indicators.py (not the file handling, create_population_grid_file and create_stat_grid_stacks_old) | C172-C176 |
| ConflictModel, ConflictProps, ConflictProps2 | utils/conflict.py (random draws are inputs; not the GeoTIFF input, the unused C1, C2 and durations, the loop variant and the older variants of update_S) | C177-C182 |
| ErodeLocalModel | components/erode_d8_local.py: the event loop (update and what it calls), initialisation of time steps and events, end of a run; routing, slope, Q and Qs are a parameter; not output, reports and the older variants of the update functions |
| ClimateModel, ClimateProps, ClimateIndex, ClimateHamon, ClimateBasin | utils/ngen/swb_utils.py (whole file); utils/ngen/gages2_utils.py: get_snow_precip_fraction, get_precip_timing_index (range_method 1), get_aridity_index; utils/ngen/classify.py: Knoben indicators, Hamon evaporation (real numbers; not the reading of the tables) | C192-C199, C226 |
| GlacierModel, GlacierProps | glacier_base.py 209-294, 370-559, 743-760, 866-917: totals, depths and density around the step of SnowModel | C200-C202 |
| StretchModel, StretchProps | visualize.py 87-208: contrast stretches over the reals | C203-C205 |
| SeriesModel, SeriesProps | calibrate.py 294-651, 739-775, 1090-1141: reading, converting, interpolating and pairing series | C206-C210 |
| SoilBaseModel, SoilBaseProps | soil_base.py 40-431 over the reals (soil_funcs.py has no imports: every call raises NameError) | C211-C212 |
| MctModel, MctProps | mct_files.py 55-200 | C213-C214 |
| HamiltonModel, HamiltonProps | hamiltonian.py 308-536, 982-1091, 1266-1285 over the reals with nan as a missing value (fits, masks, histograms, smoothing and plots are not modelled) | C215-C218 |
| DisableModel, DisableProps | the disabled branch of initialize, update and finalize of all components; get_value_ptr and connect_comps with the attribute lookup (CFG reading is taken to succeed) | C219, C220 |
| Couple | emeli.py, time_interpolation.py: what a user with the provider's time step computes with, update by update (on TimeInterpModel and EmeliModel) | C221 |
| Start | emeli.py initialize_comp_set: the loop that initialises and connects the components; the attributes that initialize of the process components reads (erosion, flow direction, data and smoothing components not examined) | C219, C222, C223 |
| System | emeli.py run_model with met, channels, snow and evaporation coupled; the volumes of the final report | C224 |
| Report | emeli.py finalize_all and the values the driver gets from time_interpolation.py get_values | C225 |
| TemplateModel, TemplateProps | utils/cfg_templates.py, utils/template_files.py |
| BundleModel, BundleProps | evap_read_file.RTG_to_RTS, utils/rtg2rts.py, data_utils.convert_dms_to_dec_deg |
| ErodeInitModel, ErodeInitProps | erode_base.initialize_DEM, create_initial_DEM, initialize_boundary_conditions; midpoints.make_fractal_surface |
| PrepModel, PrepProps | prepare_inputs.get_outlets_file, subset_ngen_csv_file |
| DivertModel, DivertProps | cfg_files.py readers; diversions_fraction_method.read_source_data, read_sink_data, read_canal_data |
| MetCycleModel, MetCycleProps | met_base.update (736-834) after the precipitation, read_input_files, update_T_surf, update_albedo and the order of the calls |
| OptionModel, OptionProps | channels_base: set_missing_cfg_options (540-631), flood output and channel files in initialize (648-757) |
| LayerModel, LayerProps | infil_base: build_layer_z_vector, build_layered_var (385-500), update_total_storage (827-885); infil_richards_1D: check_input_types, water content at the start (531-697); pixels.get_da (shape) |
| RunModel, RunProps | BMI_base.run_model (874-946); the parameters of initialize in all component classes |
| FinishModel, FinishProps | model_input.open_file; open_input_files, close_input_files and finalize of all hydrologic components; emeli.finalize_all (exceptions) |
| SoilReadModel, SoilReadProps | infil_richards_1D: read_input_files (2486-2590), set_computed_input_vars (461-494); infil_base: order of reading in initialize and update |
| ChanInModel, ChanInProps | channels_base.py: initialize_input_file_vars, open_input_files, read_input_files, the first part of initialize_computed_vars; model_input.py: open_file |
| FlowCodeModel, FlowCodeProps | tf_utils.Convert_Flow_Grid |
| Slope2Model, Slope2Props | utils/new_slopes.py: get_new_slope_grid2 (after the D8 component; not the printing and the files) | C249 |
| RechargeModel, RechargeProps | components/satzone_base.py and satzone_attenuate.py: update_water_volume_change with numbers and grids; components/infil_base.py: update_Rg; components/channels_base.py: update_R; utils/pixels.py: get_da (kind of result) | C250, C251 |
| SnowShapeModel, SnowShapeProps | kinds of objects in the snow components | C252 |
| RoundModel, RoundFormat, RoundProps | float64 arithmetic: snow update, clocks, driver loop, framework loop | C253, C254 |
| RoundChanModel, RoundChanProps | float64 arithmetic of the channel volumes | C255 |
| ImportModel, ImportProps | utils/import_grid.py: importing DEMs as RTG and RTI files | C256, C257 |
| SphereModel, SphereProps | utils/ngen: distances and closest gauge (usgs_utils.py), coordinates in degrees, minutes and seconds (data_utils.py), bounding boxes (shape_utils.py), HLR code of a point (hlr_utils.py) | C258-C262 |
| CollateModel, CollateProps, CollateUse | utils/ngen/collate_basins.py: merging ten datasets by gauge id; data_utils.sort_tsv_by_site_id | C263-C266 |
| RoundTotalModel, RoundTotalProps | float64 arithmetic of the totals over domain and time | C267 |
| ConvertModel, ConvertProps | unit conversion of grid stacks | C268 |
| SmoothModel, SmoothProps | smoothing of DEMs, mask files of the landform analysis | C269, C270 |
| InfilCheckModel, InfilCheckProps | check of the infiltration rates | C271 |
| OutNameModel, OutNameProps | names of output files | C272 |
| InfilShapeModel, InfilShapeProps | shapes of arrays in infiltration updates | C273 |
| DefaultModel, DefaultProps | options missing from CFG files of meteorology, driver, snow, glacier and infiltration; threshold between rain and snow | C274, C275 |
| FinalReportModel, FinalReportProps | lines of the final report | C276 |
| RfcModel, RfcProps | tables of the river forecast centers (rfc_utils.py) | C277, C278, C279 |
| PlanModel, PlanProps | prepare_inputs.prepare_all_inputs up to the configuration files: set_time_info, set_basin_info, set_met_info, create_output_dirs (names), set_output_filenames, copy_cfg_file_templates (names), get_cfg_files | C280, C281, C282, C283 |
| SiteIdModel, SiteIdProps | classify.get_site_ids, get_common_site_ids | C284 |
| CatchModel, CatchProps | class catchment of utils/ngen/hydrofab_utils.py: bounding box, area, outlet, headwater catchments, ocean outlets, clip options and elevations of the DEM; not modelled: GDAL (transformations are parameters, reading and warping are not), reading of JSON, multipolygons, forcing files | C285, C286, C287 |
| CalCfgModel, CalCfgProps | calibrate.py: read_cfg_file, set_info, beginning of read_time_series; not modelled: float() (a parameter), Python keywords as names, dotted names | C288 |
| BovModel, BovProps | bov_files.py: write_info_as_bov, write_bov_file; rti_files.py: get_file_prefix, byte_swap_needed; byte order of rtg_files.py: write_grid; not modelled: str of a float (a parameter) | C289 |
| DialogModel, DialogProps | cfg2xml.py: cfg2xml; not modelled: indentation, comments, escaping, failure to open the files | C290 |
| HcdnModel, HcdnProps | hcdn_utils.py: convert_dat_to_tsv; czo_utils.py: get_czo_site_id, get_czo_long_name, get_czo_site_url | C291, C292 |
| CamelsModel, CamelsProps | camels_utils.py: create_camels_bbox_file1, create_camels_bbox_file2, create_tsv; not modelled: polygons, coordinates, text of numbers, sorting of the finished file | C293, C294 |
| ArsModel, ArsProps | topoflow/utils/ngen/usda_utils.py: create_tsv, header, names, notes; readers and writers of numbers are parameters | C295, C296, C297 |
| CenterModel, CenterProps | topoflow/utils/ngen/gages2B_utils.py: the search of get_cluster_center_site_ids; not modelled: clustering, text of the table, float32 | C298 |
| ClimTabModel, ClimTabProps | topoflow/utils/ngen/gages2B_utils.py: create_climate_data_tsv_file; gages2_utils.py: get_problem_ids; the computed indicators are a parameter | C299 |
| MultiValues | the value part of MultiModel against EmeliModel | C165 |
| RichardsModel | utils/soil_trans_BC.py (retention functions); components/infil_richards_1D.py (update of one column, fixed parameters) |


## What is not modelled

* Rounding of float32/float64 arithmetic (except in RoundModel: clocks, the snow update and the channel volumes in doubles, without overflow) and overflow of int16/int32 (exact arithmetic instead).
* Messages, logging, timing, plotting, the GUI and notebook utilities, visualisation, data preparation scripts and tests.
* netCDF as a format (a netCDF file is the list of rows appended to it).
* Wetting-front depth and re-reading of soil parameters in Richards infiltration, the erosion and ice-flow components (`erode_*`, `gc2d`, including its avalanches, calving and loading of files), regridding and import of external data, except where listed above.
* Concurrency: the code is sequential.

Each model file states its own further simplifications in its header and at the definitions concerned.
