{"id": "C01", "title": "The layer counter always equals the number of stored layers", "statement": "After any sequence of Grid operations that return normally (adding snow, removing, merging, splitting, correcting, remeshing, removing melt, percolating, refreezing, radiation, heat conduction, densification, any setter), get_number_layers() equals the number of layers in the column and no getter for a layer index below it raises.", "quantifier": "every grid, every finite sequence of operations with arbitrary arguments, every arithmetic (IEEE doubles with NaN included)", "why_tests_cant": "the counter is maintained by hand in seven places; a wrong decrement shows up only in particular interleavings of operations", "anchors": ["cosipy/cpkernel/grid.py:Grid.add_fresh_snow", "cosipy/cpkernel/grid.py:Grid.remove_node", "cosipy/cpkernel/grid.py:Grid.merge_nodes", "cosipy/cpkernel/grid.py:Grid.correct_layer", "cosipy/cpkernel/grid.py:Grid.split_node", "cosipy/cpkernel/grid.py:Grid.get_number_layers"]}
{"id": "C02", "title": "Merging two layers conserves column height, ice, liquid water and heat", "statement": "If merge_nodes(i) returns normally, the column totals of height, height*ice_fraction, height*liquid_water_content and height*temperature are unchanged, one layer fewer is stored, and all layers other than i and i+1 are unchanged and keep their order.", "quantifier": "every column, every index for which the two layers are distinct", "why_tests_cant": "tests check a few hand-picked columns; conservation is an algebraic law over all real-valued layer states", "anchors": ["cosipy/cpkernel/grid.py:Grid.merge_nodes", "cosipy/cpkernel/grid.py:Grid.update_node", "cosipy/cpkernel/grid.py:Grid.remove_node"]}
{"id": "C03", "title": "A merged layer is a mixture of its parents", "statement": "When both merged layers have positive height, the temperature, ice fraction and liquid water content of the merged layer lie between the parents' values, its density is at most the larger parent density, so merging two snow layers never yields ice.", "quantifier": "every pair of layers with positive height", "why_tests_cant": "needs all real values; the clamped air porosity makes density non-linear", "anchors": ["cosipy/cpkernel/grid.py:Grid.merge_nodes", "cosipy/cpkernel/node.py:Node.get_layer_density"]}
{"id": "C04", "title": "Adjusting a layer to a target height conserves the column and never mixes snow and ice", "statement": "correct_layer(i,h) conserves column height, ice, liquid water and height-weighted temperature; it only merges layers on the same side of the snow/ice threshold; layers above i are untouched; if it ends by splitting then layer i has exactly height h.", "quantifier": "every column, index and target height (any number of layers merged)", "why_tests_cant": "the number of merges is data dependent and unbounded", "anchors": ["cosipy/cpkernel/grid.py:Grid.correct_layer"]}
{"id": "C05", "title": "Logarithmic remeshing conserves the column", "statement": "If update_grid() with remesh_method log_profile returns normally, column height, ice, liquid water and height-weighted temperature are unchanged, except that the top layer is dropped when it ends up thinner than minimum_snow_layer_height; then exactly that layer's content is lost.", "quantifier": "every column, every first_layer_height and layer_stretching", "why_tests_cant": "loop of data-dependent merges and splits over arbitrarily many layers", "anchors": ["cosipy/cpkernel/grid.py:Grid.log_profile", "cosipy/cpkernel/grid.py:Grid.update_grid"]}
{"id": "C06", "title": "Adaptive remeshing only discards thin layers and limits merges", "statement": "adaptive_profile() conserves column totals up to the layers it deletes; every deleted layer is a layer of height at most minimum_snow_layer_height. The documented limit says at most merge_max similarity merges happen per call (the code performs up to merge_max+1).", "quantifier": "every column and threshold setting", "why_tests_cant": "order and number of merges depend on all layer states", "anchors": ["cosipy/cpkernel/grid.py:Grid.adaptive_profile"]}
{"id": "C07", "title": "Remeshing always terminates", "statement": "update_grid() terminates: adaptive remeshing and correct_layer for any input whatsoever, logarithmic remeshing whenever first_layer_height>0 and layer_stretching>=1; with layer_stretching<1 it can loop forever.", "quantifier": "every column and every setting", "why_tests_cant": "non-termination cannot be observed by a finite test", "anchors": ["cosipy/cpkernel/grid.py:Grid.log_profile", "cosipy/cpkernel/grid.py:Grid.adaptive_profile", "cosipy/cpkernel/grid.py:Grid.correct_layer"]}
{"id": "C08", "title": "Remeshing keeps volume fractions physical", "statement": "If every layer has ice_fraction+liquid_water_content<=1 before remeshing, then so it is after: true for merging, false for correct_layer, which puts all retained water of the old thick layer in the new thin top layer.", "quantifier": "every column with physical fractions", "why_tests_cant": "only particular wet columns break it", "anchors": ["cosipy/cpkernel/grid.py:Grid.merge_nodes", "cosipy/cpkernel/grid.py:Grid.correct_layer"]}
{"id": "C09", "title": "The top layer has the configured first layer height after remeshing", "statement": "After log_profile() the first layer has height first_layer_height whenever there is at least that much snow: false as documented (the last remainder may be merged into it); the first correction itself does establish it and the first layer is never thinner.", "quantifier": "every snow-covered column", "why_tests_cant": "depends on the divisibility of total snow height by the geometric profile", "anchors": ["cosipy/cpkernel/grid.py:Grid.log_profile", "cosipy/cpkernel/grid.py:Grid.correct_layer"]}
{"id": "C10", "title": "Splitting a layer conserves its content", "statement": "split_node(i) yields two layers whose heights, ice and liquid water add up to the original: true for height, ice and heat; false for liquid water (half of it is lost).", "quantifier": "every column and index", "why_tests_cant": "conservation law over all values", "anchors": ["cosipy/cpkernel/grid.py:Grid.split_node"]}
{"id": "C11", "title": "Removing melt removes exactly the requested water equivalent", "statement": "remove_melt_weq(m) with 0<=m<column water equivalent lowers the column water equivalent (sum of height*density/water density) by exactly m; with m>=column water equivalent the column becomes empty.", "quantifier": "every column with positive layer masses, every m>=0, any number of layers consumed", "why_tests_cant": "data-dependent number of removed layers", "anchors": ["cosipy/cpkernel/grid.py:Grid.remove_melt_weq"]}
{"id": "C12", "title": "Melt is taken strictly from the top", "statement": "remove_melt_weq removes a prefix of layers, thins at most the next one and leaves everything below unchanged (temperature, fractions and heights); it returns exactly the liquid water stored in the removed layers; a non-positive melt leaves all layers unchanged.", "quantifier": "every column and melt amount", "why_tests_cant": "unbounded number of layers", "anchors": ["cosipy/cpkernel/grid.py:Grid.remove_melt_weq"]}
{"id": "C13", "title": "Water handed to percolation equals the mass taken from the column", "statement": "The water from melting (melt plus liquid water released from removed layers) equals the water equivalent removed from the column: false, liquid water of removed layers is counted twice because the removed water equivalent already includes it.", "quantifier": "every column and melt", "why_tests_cant": "needs an exact mass budget", "anchors": ["cosipy/cpkernel/grid.py:Grid.remove_melt_weq", "cosipy/cpkernel/cosipy_core.py:cosipy_core"]}
{"id": "C14", "title": "The tracked fresh-snow height shrinks with melt", "statement": "After melt is removed from the surface the tracked fresh snow height decreases by the melt: false, it is unchanged unless the whole column melts, and net deposition increases it.", "quantifier": "every column and melt", "why_tests_cant": "only visible by comparing state across calls", "anchors": ["cosipy/cpkernel/grid.py:Grid.remove_melt_weq", "cosipy/cpkernel/grid.py:Grid.get_fresh_snow_props"]}
{"id": "C15", "title": "Snow age counts the time since the last significant snowfall", "statement": "For any history of time steps the recorded age of the fresh snow equals dt times the number of steps since the last snowfall of at least minimum_snowfall, the recorded age of the underlying snow is never smaller, and both are non-negative.", "quantifier": "every finite history of snowfall / no snowfall / surface-property queries", "why_tests_cant": "quantifies over all histories", "anchors": ["cosipy/cpkernel/grid.py:Grid.add_fresh_snow", "cosipy/cpkernel/grid.py:Grid.set_fresh_snow_props", "cosipy/cpkernel/grid.py:Grid.set_fresh_snow_props_update_time", "cosipy/modules/albedo.py:get_surface_properties"]}
{"id": "C16", "title": "Percolation conserves water", "statement": "percolation(GRID,w) returns runoff Q with Q + stored liquid water after = stored liquid water before + w; layer heights, ice fractions, temperatures and the layer count do not change.", "quantifier": "every column with non-zero layer heights and every w", "why_tests_cant": "cascade through arbitrarily many layers", "anchors": ["cosipy/modules/percolation.py:percolation", "cosipy/modules/percolation.py:get_runoff"]}
{"id": "C17", "title": "After percolation no layer holds more than its irreducible water", "statement": "After percolation every layer but the last holds at most its irreducible water content, and if it overflowed exactly that; the last layer holds none; with non-negative input all contents and the runoff are non-negative.", "quantifier": "every column", "why_tests_cant": "inductive over layers", "anchors": ["cosipy/modules/percolation.py:percolation", "cosipy/cpkernel/node.py:Node.get_layer_irreducible_water_content"]}
{"id": "C18", "title": "Refreezing conserves mass and reports what it froze", "statement": "refreezing(GRID) keeps ice_fraction*ice_density+liquid_water*water_density of every layer and every height; it returns the sum over layers of (liquid water before - after)*height, which is also the sum of the per-layer refreeze values.", "quantifier": "every column", "why_tests_cant": "algebraic over all layer states", "anchors": ["cosipy/modules/refreezing.py:refreezing"]}
{"id": "C19", "title": "Refreezing never overheats, cools or over-densifies a layer and never fails on valid input", "statement": "For layers with fractions in [0,1] and temperature above about 119 K: refreezing returns normally, never cools a layer, leaves every layer that was at or below melting point at or below it, never increases liquid water, keeps fractions in [0,1], and never raises dry density above the snow/ice threshold.", "quantifier": "every column of valid layers", "why_tests_cant": "inequality over four simultaneous limits", "anchors": ["cosipy/modules/refreezing.py:refreezing", "cosipy/modules/refreezing.py:check_oob"]}
{"id": "C20", "title": "Refreezing releases exactly the latent heat of the frozen water", "statement": "For each layer, (new heat capacity)*(temperature increase) = latent heat of the refrozen water; a layer at melting point refreezes nothing; a dry layer is unchanged. The analytic cold-content limit in the documentation is not the one of the energy equation it cites (sign of (c_i-c_w)).", "quantifier": "every layer", "why_tests_cant": "algebraic", "anchors": ["cosipy/modules/refreezing.py:refreezing"]}
{"id": "C21", "title": "Heat conduction obeys the maximum principle", "statement": "solveHeatEquation never creates a temperature above the maximum or below the minimum of the profile it started from, for any integration time.", "quantifier": "every column of at least three layers with positive heights and diffusivities, any dt", "why_tests_cant": "any number of sub-steps and layers", "anchors": ["cosipy/modules/heatEquation.py:solveHeatEquation"]}
{"id": "C22", "title": "Heat conduction keeps the end layers fixed and is flux conservative and order preserving", "statement": "The first and last temperatures are unchanged; an isothermal profile is unchanged; a warmer initial profile stays warmer everywhere; per sub-step the spacing-weighted temperature change sums to the boundary fluxes.", "quantifier": "every column of at least three layers", "why_tests_cant": "unbounded layers and steps", "anchors": ["cosipy/modules/heatEquation.py:solveHeatEquation"]}
{"id": "C23", "title": "Heat conduction sub-stepping terminates and integrates exactly dt", "statement": "The sub-stepping loop ends after finitely many steps and the step lengths used are positive and sum to dt.", "quantifier": "every positive stable step and dt", "why_tests_cant": "termination", "anchors": ["cosipy/modules/heatEquation.py:solveHeatEquation"]}
{"id": "C24", "title": "Columns of fewer than three layers cannot be advanced", "statement": "solveHeatEquation raises for columns with fewer than three layers, so the model stops instead of returning a wrong profile; percolation raises on an empty column.", "quantifier": "all such columns", "why_tests_cant": "absence of a silent wrong result", "anchors": ["cosipy/modules/heatEquation.py:solveHeatEquation", "cosipy/modules/percolation.py:percolation"]}
{"id": "C25", "title": "Penetrating radiation never exceeds its share of net shortwave", "statement": "method_Bintanja withdraws exactly 10% (snow surface) or 20% (ice surface) of SWnet, and the energy distributed over the layers sums to at most that share (exactly share*(1-exp(-k*z_n))).", "quantifier": "every column of positive heights and SWnet>=0", "why_tests_cant": "telescoping sum over layers with exp", "anchors": ["cosipy/modules/penetratingRadiation.py:method_Bintanja"]}
{"id": "C26", "title": "Penetrating radiation leaves layers at or below melting and conserves mass of thinned layers", "statement": "Afterwards every processed layer is at or below melting point, heights do not grow and stay positive, a thinned layer keeps its ice+water mass, unmelted layers only warm, the last layer is untouched, and removed layers are exactly those whose ice would melt completely.", "quantifier": "every column of positive heights", "why_tests_cant": "per-layer algebra with data-dependent removal", "anchors": ["cosipy/modules/penetratingRadiation.py:method_Bintanja"]}
{"id": "C27", "title": "Reported subsurface melt equals the ice that melted", "statement": "The subsurface melt returned equals the water equivalent of ice lost: false, a thinned layer reports (1-dh) times it and a removed layer reports at least its whole ice and its water vanishes.", "quantifier": "every column", "why_tests_cant": "needs an exact budget", "anchors": ["cosipy/modules/penetratingRadiation.py:method_Bintanja"]}
{"id": "C28", "title": "Densification conserves mass", "statement": "Compaction changes height and fractions so that mass is unchanged: false for Boone, a dry layer's mass is multiplied by 1-d^2 and a wet layer's by (1+d/2)(1-d); true: temperatures and ice layers are untouched, thickness never grows, density never falls.", "quantifier": "every column, every dt", "why_tests_cant": "exact factor for all inputs", "anchors": ["cosipy/modules/densification.py:method_Boone", "cosipy/modules/densification.py:densification"]}
{"id": "C29", "title": "Oerlemans albedo stays in its physical range and ages monotonically", "statement": "The albedo lies between ice albedo and fresh-snow albedo for snow surfaces, equals ice albedo on ice, does not increase with time since snowfall and does not decrease with snow depth.", "quantifier": "all ages, depths and constants in the documented order", "why_tests_cant": "real analysis with exp", "anchors": ["cosipy/modules/albedo.py:method_Oerlemans", "cosipy/modules/albedo.py:get_simple_albedo", "cosipy/modules/albedo.py:get_albedo_with_decay"]}
{"id": "C30", "title": "Bougamont snow albedo stays between firn and fresh-snow albedo", "statement": "Repeated updates keep the snow albedo within [firn, fresh]: true if t_star*dt_days>=1, false for the default hourly step on a melting surface, where the deviation from firn is multiplied by -1.4 each step and grows without bound.", "quantifier": "every number of steps", "why_tests_cant": "divergence over unbounded steps", "anchors": ["cosipy/modules/albedo.py:method_Bougamont"]}
{"id": "C31", "title": "Roughness length is bounded and non-decreasing with snow age", "statement": "updateRoughness returns a value between the fresh-snow and firn roughness lengths for snow (in metres, 1/1000 of the constants), the ice value on ice, and it never decreases as the snow ages.", "quantifier": "all ages >= 0", "why_tests_cant": "order property for all reals", "anchors": ["cosipy/modules/roughness.py:method_Moelg"]}
{"id": "C32", "title": "Precipitation is split without creating or losing water", "statement": "From total precipitation the snow part (water equivalent) plus rain equals the total, both non-negative; after the detection thresholds each part is either zero or at least its threshold and the loss is less than the thresholds.", "quantifier": "all temperatures, wind speeds and precipitation >= 0", "why_tests_cant": "tanh over all reals", "anchors": ["cosipy/cpkernel/cosipy_core.py:cosipy_core"]}
{"id": "C33", "title": "Surface vapour fluxes have the right sign, exclude each other and match the latent heat flux", "statement": "Sublimation and evaporation are <=0, deposition and condensation >=0, at most one of the four is non-zero, below melting only sublimation/deposition occur, and their mass times the latent heat equals the latent heat flux over the step; melt is never negative; the mass balance equals surface plus internal balance.", "quantifier": "all fluxes and temperatures", "why_tests_cant": "sign logic for all reals", "anchors": ["cosipy/cpkernel/cosipy_core.py:cosipy_core"]}
{"id": "C34", "title": "Surface temperature never exceeds melting point", "statement": "update_surface_temperature returns and stores in layer 0 a temperature in [220 K, melting point] whenever it returns normally with the secant or Newton method and the bounded fallback respects its bounds.", "quantifier": "all forcings, all solver outcomes", "why_tests_cant": "solver outcome is unconstrained", "anchors": ["cosipy/modules/surfaceTemperature.py:update_surface_temperature", "cosipy/modules/surfaceTemperature.py:check_residual_clip"]}
{"id": "C35", "title": "Turbulent fluxes vanish in calm or very stable air and follow the gradient", "statement": "With the Richardson correction the damping factor lies in [0,1]; sensible heat is directed along T2-T0; without wind or with Richardson number above 0.2 both turbulent fluxes are zero. The factor is not continuous at 0.01.", "quantifier": "all forcings with positive log-profile denominators", "why_tests_cant": "all reals", "anchors": ["cosipy/modules/surfaceTemperature.py:eb_fluxes"]}
{"id": "C36", "title": "The secant solver terminates, never divides by zero and solves affine balances exactly", "statement": "secant() evaluates the function at most maxiter+2 times, never divides by zero, and for an affine function with non-zero slope returns the root; it may also return an unconverged value after maxiter iterations.", "quantifier": "every function and start value", "why_tests_cant": "all functions", "anchors": ["cosipy/modules/secant.py:secant"]}
{"id": "C37", "title": "The Monin-Obukhov iteration stops within seven passes", "statement": "The stability iteration always terminates after at most seven passes and returns the fluxes of its last pass; without wind both turbulent fluxes are zero.", "quantifier": "all inputs, any arithmetic", "why_tests_cant": "termination for all inputs incl. NaN", "anchors": ["cosipy/modules/surfaceTemperature.py:eb_fluxes"]}
{"id": "C38", "title": "Interpolated subsurface temperature lies between its two neighbours", "statement": "For a depth that lies between the first and last cumulative depth, get_subsurface_temperature interpolates linearly between the two adjacent layers, so the result lies between their temperatures and a linear profile is reproduced exactly; for shallower depths the code wraps to the bottom layer, for deeper ones it raises.", "quantifier": "every column and depth", "why_tests_cant": "argmin over arbitrary profiles", "anchors": ["cosipy/modules/surfaceTemperature.py:get_subsurface_temperature"]}
{"id": "C39", "title": "The initial snowpack is well formed", "statement": "init_snowpack builds a column whose snow part sums to the initial snow height in at most five layers (one if thinner than 10 cm) followed by ice layers summing to at most the glacier height; temperatures lie between the bottom temperature and min(air temperature, melting point); snow densities lie between the configured top and bottom densities; no liquid water.", "quantifier": "all initial heights and temperatures", "why_tests_cant": "real-valued sizes determine the layer count", "anchors": ["cosipy/cpkernel/init.py:init_snowpack"]}
{"id": "C40", "title": "A layer reports the density it was created with", "statement": "Node(height,density,T,0) followed by get_layer_density() returns the density: false, it is larger by (1-density/ice_density)*air_density^2/ice_density; exact for pure ice.", "quantifier": "all densities", "why_tests_cant": "exact algebraic error", "anchors": ["cosipy/cpkernel/node.py:Node.__init__", "cosipy/cpkernel/node.py:Node.get_layer_density"]}
{"id": "C41", "title": "Column getters agree with each other", "statement": "get_depth()[i]=get_node_depth(i) is the mid-layer depth; total height = snow height + ice heights when snow overlies ice; with an ice layer above snow get_total_snowheight does not return the height of the snow layers.", "quantifier": "every column", "why_tests_cant": "ordering of layers is state dependent", "anchors": ["cosipy/cpkernel/grid.py:Grid.get_depth", "cosipy/cpkernel/grid.py:Grid.get_node_depth", "cosipy/cpkernel/grid.py:Grid.get_total_snowheight", "cosipy/cpkernel/grid.py:Grid.get_ice_heights"]}
{"id": "C42", "title": "Saving and reloading a column is lossless in coupled mode", "statement": "load_snowpack of the arrays returned by a coupled step rebuilds the same heights, temperatures, liquid water, ice fractions and snow-age bookkeeping for every column with at most max_layers layers; more layers raise. Loading needs every number exactly once and all profiles.", "quantifier": "every column", "why_tests_cant": "all columns", "anchors": ["cosipy/cpkernel/init.py:load_snowpack", "cosipy/cpkernel/cosipy_core.py:cosipy_core"]}
{"id": "C43", "title": "A standalone restart file can be loaded", "statement": "load_snowpack applied to the restart dataset written by a standalone run returns the column: false, the file uses NEWSNOWHEIGHT, NEWSNOWTIMESTAMP, OLDSNOWTIMESTAMP while the loader asks for new_snow_height, new_snow_timestamp, old_snow_timestamp and raises.", "quantifier": "every run", "why_tests_cant": "restart path needs a full run and a second run", "anchors": ["cosipy/cpkernel/io.py:IOClass.create_local_restart_dataset", "cosipy/cpkernel/init.py:load_snowpack"]}
{"id": "C44", "title": "Interrupting and resuming a simulation does not change it", "statement": "Advancing a column over A++B equals advancing over A, saving, reloading, advancing over B, for the Oerlemans albedo; with Bougamont the snow albedo and surface temperature are not saved and the results may differ.", "quantifier": "every forcing sequence, every interruption point", "why_tests_cant": "all histories and crash points", "anchors": ["cosipy/cpkernel/cosipy_core.py:cosipy_core", "cosipy/cpkernel/init.py:load_snowpack"]}
{"id": "C45", "title": "The order in which grid points finish does not matter", "statement": "The aggregated result arrays and restart arrays are the same for every completion order of the workers.", "quantifier": "all permutations of completed tasks with distinct cells", "why_tests_cant": "schedules", "anchors": ["COSIPY.py:run_cosipy", "cosipy/cpkernel/io.py:IOClass.copy_local_to_global"]}
{"id": "C46", "title": "Exactly the glacier cells are simulated and written", "statement": "A task is submitted for every cell with MASK==1 and no other; after aggregation those cells hold the worker's result and every other cell keeps the fill value.", "quantifier": "all masks and grid sizes", "why_tests_cant": "all masks", "anchors": ["COSIPY.py:run_cosipy", "cosipy/cpkernel/io.py:IOClass.create_global_result_arrays"]}
{"id": "C47", "title": "Every configured output variable can be written", "statement": "Each name in the configured output lists has an array and metadata when results are written: holds for the default atmospheric and internal lists, false for the default full-field list (LW has no metadata).", "quantifier": "all names in the default configuration, all sublists", "why_tests_cant": "configuration dependent code path", "anchors": ["cosipy/cpkernel/io.py:IOClass.get_full_field_metadata", "config.toml:output_full"]}
{"id": "C48", "title": "Worker results are stored under their own name", "statement": "The 45-tuple returned by the kernel, the tuple unpacked by the main program and the arguments of the storing routine line up, so each quantity ends in the variable of its own name.", "quantifier": "all results", "why_tests_cant": "positional wiring of 45 values", "anchors": ["cosipy/cpkernel/cosipy_core.py:cosipy_core", "COSIPY.py:run_cosipy", "cosipy/cpkernel/io.py:IOClass.copy_local_to_global"]}
{"id": "C49", "title": "Coupled mode forces consistent settings", "statement": "Loading a configuration sets each key to its last value in the file, keeps keys not in the file, and coupled mode always ends with full_field, Oerlemans98 and MO; applying the correction twice changes nothing.", "quantifier": "all configuration tables", "why_tests_cant": "all tables", "anchors": ["cosipy/config.py:TomlLoader.set_config_values", "cosipy/config.py:Config.set_correct_config", "cosipy/constants.py:Constants.set_correct_config"]}
{"id": "C50", "title": "Input range checks flag exactly the values outside the documented range", "statement": "check_for range flags a field iff some value is outside [min,max]: true for the routine, false for SLOPE where bounds are swapped so every valid slope is flagged; the overall check always reports success.", "quantifier": "all input fields", "why_tests_cant": "all fields", "anchors": ["cosipy/cpkernel/io.py:IOClass.check_input_data", "cosipy/cpkernel/io.py:IOClass.check_field"]}
{"id": "C51", "title": "Time-sorting the input keeps each record with its timestamp", "statement": "After loading, each value is still attached to its original timestamp: true for sorted input, false otherwise because only the time labels are sorted.", "quantifier": "all time axes", "why_tests_cant": "all permutations", "anchors": ["cosipy/cpkernel/io.py:IOClass.init_data_dataset"]}
{"id": "C52", "title": "Setup never overwrites a file without consent", "statement": "cosipy-setup leaves an existing target file unchanged unless the user passed -y or answered y/yes to the prompt for that file; answers other than yes/no are asked again; missing files are always created.", "quantifier": "all file systems and answer sequences", "why_tests_cant": "all interaction histories", "anchors": ["cosipy/utilities/setup_cosipy/setup_cosipy.py:copy_file_to_target", "cosipy/utilities/setup_cosipy/setup_cosipy.py:get_user_confirmation"]}
{"id": "C53", "title": "Preprocessing clamps humidity, radiation and precipitation to valid ranges", "statement": "After aws2cosipy bounds, relative humidity is in (0,100] and in-range values are unchanged; biased fields with a zero limit are never negative.", "quantifier": "all inputs", "why_tests_cant": "all reals", "anchors": ["cosipy/utilities/aws2cosipy/aws2cosipy.py:set_relative_humidity_bounds", "cosipy/utilities/aws2cosipy/aws2cosipy.py:set_bias"]}
{"id": "C54", "title": "Pressure extrapolation leaves the station value unchanged at station height", "statement": "Pressure computed for the station's own altitude equals the measured pressure: true for the distributed variant, false for the point variant (exponents 5.255 and 5.22).", "quantifier": "all pressures and altitudes", "why_tests_cant": "real powers", "anchors": ["cosipy/utilities/aws2cosipy/aws2cosipy.py:get_pressure_bias"]}
{"id": "C55", "title": "WRF conversion: bounded humidity, telescoping precipitation, binary mask", "statement": "Converted relative humidity is in [0,100] and is 100 s percent for air that holds the share s of its saturation humidity; hourly precipitation sums to the accumulated difference; the mask is 1 exactly on the chosen land-use class (false for class 0).", "quantifier": "all fields and lengths", "why_tests_cant": "all reals and lengths", "anchors": ["cosipy/utilities/wrf2cosipy/wrf2cosipy.py:main"]}
{"id": "C56", "title": "Radiation correction is the identity on flat ground", "statement": "radCor2D returns the measured radiation for zero slope and never returns negative radiation; the diffuse fraction lies in a fixed range; great-circle distance is symmetric and zero for equal points.", "quantifier": "all sun positions and radiation values", "why_tests_cant": "trigonometry over reals", "anchors": ["cosipy/modules/radCor.py:radCor2D", "cosipy/modules/radCor.py:Fdif", "cosipy/modules/radCor.py:haversine"]}
{"id": "C57", "title": "Every combination of optional forcings is handled", "statement": "For each combination of SNOWFALL, RRR, LWin, N and the force flags the first time step either runs or raises a documented ValueError: false for SNOWFALL without RRR (TypeError) and for force_use_N without N.", "quantifier": "all combinations of present inputs and flags", "why_tests_cant": "all combinations", "anchors": ["cosipy/cpkernel/cosipy_core.py:cosipy_core"]}
{"id": "C58", "title": "Column mass budget of a time step", "statement": "Over one step the change of column water equals snowfall minus removed melt/vapour plus percolating water minus runoff plus explicitly identified non-conservative terms (dropped thin layer, compaction, subsurface removal, air).", "quantifier": "every column and forcing", "why_tests_cant": "exact global budget", "anchors": ["cosipy/cpkernel/cosipy_core.py:cosipy_core"]}
{"id": "C59", "title": "Simulated columns stay physical", "statement": "For any forcing sequence with air temperatures above a physical floor (about 120 K with the shipped constants), as long as the simulation returns normally and per-step compaction is below 100% (recorded layer heights stay positive), every layer keeps a positive ice fraction, non-negative liquid water and a temperature at or below melting point.", "quantifier": "all forcing sequences of any length", "why_tests_cant": "invariant over unbounded runs", "anchors": ["cosipy/cpkernel/cosipy_core.py:cosipy_core"]}
{"id": "C60", "title": "Cumulative mass balance is the sum of the step balances", "statement": "The cumulative mass balance used for stake evaluation equals the sum of reported per-step balances from the start; the RMSE score is the root of the mean squared residual, zero iff all residuals vanish.", "quantifier": "all lengths", "why_tests_cant": "all series", "anchors": ["cosipy/cpkernel/cosipy_core.py:cosipy_core", "cosipy/modules/evaluation.py:evaluate"]}
{"id": "C62", "title": "The sun is where astronomy puts it", "statement": "For every latitude but the poles the sun position is computed, the elevation is highest at solar noon and symmetric around it, solar noon follows longitude and time zone, and the azimuth is zero at noon, negative before and positive after it.", "quantifier": "all latitudes, longitudes, time zones, days and hours", "why_tests_cant": "trigonometry over all reals", "anchors": ["cosipy/modules/radCor.py:solarFParallel", "cosipy/modules/radCor.py:correctRadiation"]}
{"id": "C63", "title": "Radiation look-up tables are filled and read consistently", "statement": "Every hour of the data reads the shading entry written for its own day and step, inside the table, and computed for the same hour angle; the sky-view factor is the share of sampled points of the sky that are seen, lies in [0,1] and is 1 on flat unshaded ground; solar parameters are computed for every latitude, and those of a day hold the equation of time and the distance of the sun on that day.", "quantifier": "all time steps, days, hours, latitudes, slopes and shading patterns", "why_tests_cant": "all steps and reals", "anchors": ["cosipy/modules/radCor.py:LUTshad", "cosipy/modules/radCor.py:LUTsvf", "cosipy/modules/radCor.py:calcRad", "cosipy/modules/radCor.py:solpars"]}
{"id": "C64", "title": "Aggregated station data keep the recorded totals", "statement": "Every record falls into exactly one interval of the aggregation step (an hour for a point, configurable for a region); aggregation keeps precipitation and snowfall totals; means stay within the range of the records; stations without pressure data get the documented default of 660 hPa.", "quantifier": "all station files, all aggregation steps", "why_tests_cant": "all lengths, time stamps and gaps", "anchors": ["cosipy/utilities/aws2cosipy/aws2cosipy.py:create_1D_input", "cosipy/utilities/aws2cosipy/aws2cosipy.py:nansumwrapper", "cosipy/utilities/aws2cosipy/aws2cosipy.py:set_order_and_type"]}
{"id": "C61", "title": "Generated and converted configuration files contain every key the programs read", "statement": "A user who creates configuration files with cosipy-setup, or converts an old config.py/constants.py with convert_config.py, and then fills in any values gets files that load, and in which every setting the main program and the utilities read is defined, so no run stops with a missing section or key; the converter keeps the values and derives the output prefix from the file name.", "quantifier": "every configuration file with the generated keys (any values, order, extra entries), every station table (columns, time steps, glacier cells), every old configuration module, every file name", "why_tests_cant": "Tests run the shipped files with their shipped values; the settings read depend on values chosen by the user (mode, radiation module, look-up tables) and on the columns of their data.", "anchors": ["cosipy/config.py:Config.load", "cosipy/constants.py:Constants.load", "cosipy/utilities/config_utils.py:UtilitiesConfig", "cosipy/utilities/aws2cosipy/aws2cosipy.py:create_1D_input, create_2D_input", "cosipy/utilities/createStatic/create_static_file.py", "cosipy/utilities/wrf2cosipy/wrf2cosipy.py", "cosipy/utilities/setup_cosipy/utilities_config.toml", "convert_config.py"]}
{"id": "C65", "title": "A simulation can be continued from its restart file", "statement": "If a simulation up to some time was written to a restart file, the user can set restart=true with the start time set to that time, and the program resumes with the saved state and simulates exactly the records after it; both runs together process each record of the whole period once; a restart whose file or period does not fit is reported.", "quantifier": "every input series, every form of the time settings (quoted, unquoted date/datetime/time/number/array), every time step, every content of the restart directory, every cell simulation", "why_tests_cant": "A test restarts one configuration once; the outcome depends on the TOML type of the time settings, spacing of records and file system state.", "anchors": ["COSIPY.py:main", "cosipy/cpkernel/io.py:IOClass.create_data_file, init_data_dataset, load_restart"]}
{"id": "C66", "title": "Runs with different settings do not destroy each other's files", "statement": "A run writes only its own result file and restart file and leaves all others as they were; two runs share a result file only if prefix and simulated period agree; a restart file is replaced only by a run of the same glacier and end time.", "quantifier": "every pair of settings, every content of the output directories, every simulation result", "why_tests_cant": "Needs all pairs of configurations and all prior disk states.", "anchors": ["COSIPY.py:main", "COSIPY.py:get_timestamp_label, get_output_path"]}
{"id": "C67", "title": "Simulating tiles gives the same results as simulating the whole domain", "statement": "The tile settings select exactly the cells with the given index ranges; tiles with consecutive bounds cover each row and column exactly once; each cell of a tile gets the values it gets when the whole domain is simulated; tiles work for every supported dimension naming.", "quantifier": "every domain size, tile bounds (also negative or beyond the domain), every cell simulation that depends on the cell's data only, every completion order of the workers", "why_tests_cant": "All domain shapes, tile decompositions and schedules.", "anchors": ["cosipy/cpkernel/io.py:IOClass.init_data_dataset", "COSIPY.py:run_cosipy"]}
{"id": "C68", "title": "Stakes are evaluated in the nearest grid cell", "statement": "Every stake is assigned to exactly one cell of the domain, and no other cell is nearer to it; a stake at a cell's coordinates is evaluated in a cell with these coordinates, whatever longitude convention is used; stakes outside the domain are not evaluated.", "quantifier": "every grid (size, coordinates, also irregular), every stake position, every correct nearest-neighbour search", "why_tests_cant": "Holds for all real coordinates; relies on injectivity of the geodetic transformation.", "anchors": ["COSIPY.py:transform_coordinates", "COSIPY.py:run_cosipy"]}
{"id": "C69", "title": "The result and restart files hold what the simulations computed", "statement": "For every domain, input and completion order: if the program finishes, every requested variable in the result file has, at each glacier cell and time, the quantity its name says of that time step of the simulation of that cell with that cell's data (layer variables from the surface down, missing below the last layer), and the restart file holds the column after the last step.", "quantifier": "all domains, masks, inputs, initial states, constants, output variable lists, orders in which workers finish, all time steps and layers", "why_tests_cant": "Tests compare a few variables for one small domain; the claim is about every variable, cell, time step and schedule, and mix-ups between 39 positional arrays only show for particular variable lists", "anchors": ["cosipy/cpkernel/cosipy_core.py:cosipy_core", "COSIPY.py:run_cosipy", "cosipy/cpkernel/io.py:IOClass.copy_local_to_global", "cosipy/cpkernel/io.py:IOClass.write_results_to_file", "cosipy/cpkernel/io.py:IOClass.write_restart_to_file"]}
{"id": "C70", "title": "The numbers in a result file are consistent with each other and physically possible", "statement": "In every result file of a finished run, at every glacier cell and time: the mass balance is surface plus internal, the internal balance is refreezing minus subsurface melt and the surface balance is snowfall minus melt plus the vapour terms; evaporation and sublimation are not positive, condensation and deposition not negative, the first pair only without and the second only with melting conditions; the vapour terms carry the latent heat flux, the melt carries the melt energy, and both are not negative; the surface temperature is between 220 K and the melting point; the layer heights add up to the total height and the snow height to that of the first layers; ice fraction, water and porosity add up to one and give the density; where recorded layer heights are positive (always, with the constant or empirical densification), each layer has positive ice fraction, water content not negative, temperature at most the melting point and cold content not negative; from a fresh start the albedo (Oerlemans98) lies between the configured ice and fresh snow values and the roughness is the ice value or between fresh snow and firn.", "quantifier": "all finished program runs: domains, forcing, initial states, constants in the stated ranges, output variable lists, cells, time steps and layers", "why_tests_cant": "A test sees a few output files; the relations must hold for every forcing and every state the simulation can reach, after arbitrarily many steps, and between variables written by different parts of the code", "anchors": ["cosipy/cpkernel/cosipy_core.py:cosipy_core", "cosipy/cpkernel/io.py:IOClass", "cosipy/modules/surfaceTemperature.py", "cosipy/modules/albedo.py", "cosipy/modules/roughness.py", "cosipy/cpkernel/grid.py:Grid"]}
{"id": "C71", "title": "An interrupted run leaves the data directory consistent", "statement": "If the program is stopped at any moment, every result and restart file other than the two the run is going to write is as before; the restart file is touched only after the result file of the same run is complete; every readable file is either the one from before or the complete new one; a run that ends with an exception (even in a single cell, whatever order the cells finish in) has written neither file; and repeating a run from scratch after an interruption ends with exactly the files of the uninterrupted run. Exception, stated as part of the property: a result of the same name from before is unreadable while the new one is being written.", "quantifier": "every crash point, configuration, input, directory content, cell order and failing cell", "why_tests_cant": "A crash can happen at any write and over any earlier directory content; tests exercise the finished run only.", "anchors": ["COSIPY.py:main", "COSIPY.py:create_data", "COSIPY.py:run_cosipy"]}
{"id": "C72", "title": "Calling the model step by step from an atmospheric model is one simulation", "statement": "In coupled mode a call simulates exactly the first time step of the data it is given and returns a tuple with the layout of the standalone result: at the position of an output variable stands that variable's value after the step, profiles are padded with the fill value, and seven named variables are None. If the caller passes the returned column back at the next call, a sequence of any number of calls, with time step, number of layers, measurement height and slope changing from call to call, returns the results and columns of one uninterrupted simulation, or the same exception. Without a time step the call returns None.", "quantifier": "every sequence of coupled calls of any length, with any settings, forcings and start column", "why_tests_cant": "The driver is a Fortran model that calls the kernel thousands of times; no test compares the sequence of calls with a continuous run.", "anchors": ["cosipy/cpkernel/cosipy_core.py:cosipy_core", "cosipy/cpkernel/init.py:load_snowpack", "cosipy/constants.py:Constants.set_correct_config"]}
{"id": "C73", "title": "The reported surface energy balance closes", "statement": "In every time step the reported net shortwave radiation, longwave, sensible, latent, ground and rain heat fluxes belong to one energy balance at the reported surface temperature, and they sum to the reported melt energy up to the tolerance of the solver; below the melting point nothing melts.", "quantifier": "every column, forcing, solver behaviour and time step", "why_tests_cant": "Whether the balance closes depends on the outcome of an iterative solver and its fall-back, which only fails for particular columns and forcings; a test sees the few it runs.", "anchors": ["cosipy/modules/surfaceTemperature.py:update_surface_temperature", "cosipy/modules/surfaceTemperature.py:eb_fluxes", "cosipy/modules/surfaceTemperature.py:eb_optim", "cosipy/cpkernel/cosipy_core.py:cosipy_core"]}
{"id": "C74", "title": "The Monin-Obukhov scheme carries heat and vapour along their gradients and is damped in stable air", "statement": "With the Monin-Obukhov stability correction the sensible heat flux has the sign of the temperature difference between air and surface and the latent heat flux the sign of the difference of their mixing ratios; over a surface that is not warmer than the air both are at most the fluxes of neutral stratification; the friction velocity is not negative.", "quantifier": "every column, wind speed, temperature, humidity, pressure, roughness length, slope and number of passes of the iteration; standalone and coupled mode", "why_tests_cant": "The coefficients come out of an iteration whose Obukhov length can take any sign and size; tests evaluate a few weather situations.", "anchors": ["cosipy/modules/surfaceTemperature.py:eb_fluxes", "cosipy/modules/surfaceTemperature.py:phi_m", "cosipy/modules/surfaceTemperature.py:phi_tq", "cosipy/modules/surfaceTemperature.py:ustar", "cosipy/modules/surfaceTemperature.py:MO"]}
{"id": "C75", "title": "Vapour is exchanged in the right direction", "statement": "The saturation vapour pressure is 6.112 hPa at the triple point, rises strictly with temperature and has no jump. In a time step whose surface is at least as warm as air of at most 100 per cent humidity nothing is deposited or condensed; in a time step whose surface is at most as warm as saturated air nothing sublimates or evaporates.", "quantifier": "every column, forcing, solver behaviour, both stability schemes, and every time step that returns", "why_tests_cant": "The direction depends on two branches of the vapour-pressure formula, two stability schemes and the solver's answer together; tests see single combinations.", "anchors": ["cosipy/modules/surfaceTemperature.py:method_EW_Sonntag", "cosipy/modules/surfaceTemperature.py:eb_fluxes", "cosipy/cpkernel/cosipy_core.py:cosipy_core"]}
{"id": "C76", "title": "A time step on a sound column ends, in a result or for one of five stated reasons", "statement": "If every method named in the configuration exists, the forcing of a step gives precipitation and longwave radiation or cloud cover, fresh snow is between 2 and 100 per cent ice, and every layer has positive height, water content in [0,1], a temperature between a lower bound and melting, and 2 to 100 per cent ice, then the time step ends. It completes unless (1) remeshing uses up the column, (2) the column is a single layer or does not reach the deeper interpolation depth, (3) a numerical solver raises, (4) melt and sublimation leave fewer than three layers, or (5) the column has more layers than the output can hold. A simulation of any length completes or stops at a first step with such a reason or with a column outside these bounds; with constant density the bounds are kept, so only the five reasons remain.", "quantifier": "every column meeting the bounds, every forcing sequence, both remeshing schemes, all densification, albedo, conductivity, penetration and stability schemes, every solver behaviour that respects the bound and ends", "why_tests_cant": "The step chains more than ten routines each of which can divide by zero, index out of range or loop for ever on some column; tests run a handful of columns.", "anchors": ["cosipy/cpkernel/cosipy_core.py:cosipy_core", "cosipy/cpkernel/grid.py:Grid", "cosipy/modules/heatEquation.py:solveHeatEquation", "cosipy/modules/surfaceTemperature.py:update_surface_temperature", "cosipy/modules/surfaceTemperature.py:interp_subT", "cosipy/modules/densification.py:densification"]}
{"id": "C77", "title": "Modelled shortwave radiation is physically bounded and belongs to its cell", "statement": "With the radiation module Moelg2009 every glacier cell of the input file gets at every time a shortwave radiation that is 0 while the sun is below the cut-off, never negative and never more than the solar beam on the slope plus the diffuse part allow; it equals the clear-sky radiation on a level cell without clouds, falls to the diffuse part in the shade, falls with cloud cover continuously, and is computed from the cell's own temperature, pressure, humidity, clouds, elevation, slope, aspect and table rows although the arrays are turned upside down twice.", "quantifier": "Every day, hour, latitude, slope, aspect, pressure, humidity, cloud fraction, sky-view factor and shading table, every grid size", "why_tests_cant": "The transmissivities are products of exponentials of fractional powers of the air mass; bounds and the violations near the horizon, at zero cloud cover or in the row order show up only for particular inputs.", "anchors": ["cosipy/modules/radCor.py:calcRad", "cosipy/modules/radCor.py:solpars", "cosipy/utilities/aws2cosipy/aws2cosipy.py:create_2D_input"]}
{"id": "C78", "title": "Topographic shading follows the line of sight", "statement": "For every terrain and every position of the sun, a glacier cell is marked as lit exactly if no terrain on its profile towards the sun rises above the line of sight; a higher sun, a higher cell or lower surroundings never darken it, a shift of all elevations changes nothing, plains and summits are lit and see the whole sky; the direction used is that of the sun; and the computation returns for every glacier cell.", "quantifier": "Every elevation grid, glacier mask, coordinates, elevation and direction of the sun", "why_tests_cant": "Whether the ray tracing returns and what it compares depends on the geometry of the grid (row order, spacing, distance to the border) and on the whole terrain; a test fixes one grid and one sun.", "anchors": ["cosipy/modules/radCor.py:relshad", "cosipy/modules/radCor.py:LUTshad", "cosipy/modules/radCor.py:LUTsvf", "cosipy/modules/radCor.py:haversine"]}
{"id": "C79", "title": "Merging a snow layer into the glacier keeps the column's content", "statement": "merge_snow_with_glacier(i) replaces a snow layer over an ice layer by one layer with the same total water equivalent, liquid water and heat, and leaves any other pair of layers alone.", "quantifier": "Every column, every position, every state of the two layers", "why_tests_cant": "A conservation law over all layer states; a test with dry pure ice below sees no loss.", "anchors": ["cosipy/cpkernel/grid.py:Grid.merge_snow_with_glacier"]}
{"id": "C80", "title": "Incoming longwave radiation from clouds and humidity", "statement": "A measured incoming longwave radiation is used as it is. Without it the radiation computed from air temperature, humidity and cloud fraction lies between the clear-sky and the overcast value, equals them at cloud fractions 0 and 1, rises with the cloud fraction and with the humidity, and lies between 0.23 and 0.984 of the black-body radiation of the air for all temperatures from 200 K to 40 degrees Celsius. Cloud cover given in percent is not rejected: it gives more than 300 times black-body radiation.", "quantifier": "all inputs, columns, constants; cloud fractions in [0,1], relative humidity in [0,100], air temperature in [200, 313.16] K", "why_tests_cant": "the bounds hold over a continuum of temperatures, humidities and cloud fractions and go through real powers and exponentials", "anchors": ["cosipy/modules/surfaceTemperature.py:eb_fluxes", "cosipy/cpkernel/io.py:check_input_data"]}
{"id": "C81", "title": "Signs survive floating-point rounding", "statement": "Computed in floating point instead of exactly, a time step started from layers without negative height, ice or water has no negative height, ice fraction or water content in any intermediate column, snowfall, rain, melt, runoff, deposition, condensation and subsurface melt are stored with values >= 0, sublimation and evaporation with values <= 0, and the surface temperature is at most the melting point; as long as compaction keeps the heights non-negative this holds over whole runs. It needs only that rounding is monotone and exact at 0 and 1, as in IEEE double precision without overflow.", "quantifier": "every rounded arithmetic (in particular binary64), every column without negative contents, forcing, method, solver and run length", "why_tests_cant": "tests run a few inputs in one floating-point format; whether a rounded difference can dip below zero depends on bit patterns no sample covers", "anchors": ["cosipy/cpkernel/cosipy_core.py:cosipy_core", "cosipy/cpkernel/grid.py:Grid", "cosipy/cpkernel/node.py:Node", "cosipy/modules/percolation.py", "cosipy/modules/refreezing.py", "cosipy/modules/penetratingRadiation.py", "cosipy/modules/densification.py"]}
{"id": "C82", "title": "Heat conduction sub-stepping in double precision", "statement": "Computed in binary floating point, the heat conduction of a time step advances the temperatures by positive sub-steps, none longer than the stability bound of the column, whose running sum ends exactly at the length of the time step (never beside it); it returns whenever the stability bound is at least 2^-51 of the time step, and never returns when it is at most 2^-55 of it.", "quantifier": "every binary precision from single on (so binary64), every column, time step and settings for which the stability bound exists and is positive", "why_tests_cant": "the sub-step lengths are results of rounded divisions; whether their sum hits the end exactly, and whether it keeps growing, depends on bit patterns, and non-termination cannot be observed", "anchors": ["cosipy/modules/heatEquation.py:solveHeatEquation"]}
{"id": "C83", "title": "Rounding errors of the balances", "statement": "In double precision the recorded mass balance of a step equals the exact balance of the recorded snowfall, melt, vapour fluxes, refreezing and subsurface melt up to five roundings; the balance accumulated over n steps (the one compared with stakes) equals the exact sum of all these terms up to n+5 roundings, for a century of hourly steps less than 2e-10 of the turnover; the total height equals the sum of the layer heights up to as many roundings as layers.", "quantifier": "every binary precision from single on, every run, forcing, settings, solver and column", "why_tests_cant": "a bound on accumulated rounding must hold for the worst bit patterns and any run length", "anchors": ["cosipy/cpkernel/cosipy_core.py:cosipy_core", "cosipy/cpkernel/grid.py:Grid.get_total_height"]}
{"id": "C84", "title": "Remeshing terminates in double precision", "statement": "In binary floating point update_grid() returns (a grid or an exception) on every column if first_layer_height > 0, layer_stretching >= 1 and the first layer height is at least 2^-52 of the snow height and of the glacier height to be distributed.", "quantifier": "every binary precision from single on, every column and settings with these bounds", "why_tests_cant": "a loop that subtracts rounded numbers may stop making progress only for rare combinations of magnitudes; non-termination cannot be observed by running", "anchors": ["cosipy/cpkernel/grid.py:Grid.log_profile", "cosipy/cpkernel/grid.py:Grid.update_grid"]}
{"id": "C85", "title": "The result file describes itself", "statement": "A result file carries the settings it was computed with as global attributes (files with equal attributes were computed with equal constants and switches), the coordinates and values of its input unchanged, and for every variable the units and the description of the quantity it holds.", "quantifier": "every configuration and constants file with the shipped keys, every input data set, every set of output lists", "why_tests_cant": "the property is about pairs of runs with any settings and about every variable in every combination of output lists; a test looks at one file", "anchors": ["cosipy/cpkernel/io.py:IOClass.get_result_metadata", "cosipy/cpkernel/io.py:IOClass.init_result_dataset", "cosipy/cpkernel/io.py:IOClass.write_results_to_file"]}
{"id": "C86", "title": "Prepared input files say where and what their data are", "statement": "Files written by aws2cosipy and wrf2cosipy give every cell the latitude and longitude of the static file (or the configured point), and label every variable with the unit in which the simulation takes it.", "quantifier": "every static file, point, grid and set of columns", "why_tests_cant": "swapped coordinates and labels do not change the shape of the data; every combination of switches (point or grid, WRF dimensions, static file) counts", "anchors": ["cosipy/utilities/aws2cosipy/aws2cosipy.py:create_1D_input", "cosipy/utilities/aws2cosipy/aws2cosipy.py:create_2D_input", "cosipy/utilities/wrf2cosipy/wrf2cosipy.py:create_input"]}
{"id": "C87", "title": "Checks of preparation and simulation agree", "statement": "A variable about which aws2cosipy or wrf2cosipy does not warn when it writes the input file is called ok when the simulation reads that file.", "quantifier": "every field of values (with NaN), every variable", "why_tests_cant": "bounds are written down in three places; whether one range contains the other is a statement about all values", "anchors": ["cosipy/utilities/aws2cosipy/aws2cosipy.py:check", "cosipy/utilities/wrf2cosipy/wrf2cosipy.py:check", "cosipy/cpkernel/io.py:IOClass.check_input_data", "cosipy/utilities/aws2cosipy/aws2cosipy.py:create_1D_input"]}
{"id": "C88", "title": "Profiles show the value of the layer at a depth", "statement": "The density or temperature printed for a depth, or drawn at a height, is that of the layer that contains it; the grid point shown for a location is the nearest one.", "quantifier": "every column of positive layer heights, every depth and height, every padding with NaN, every grid", "why_tests_cant": "the layer boundaries can lie anywhere relative to the depth; equal-looking numbers of a neighbouring layer are not noticed", "anchors": ["cosipy/postprocessing/profile_plots/plot_profiles.py:plot_profile_1D", "cosipy/postprocessing/profile_plots/plot_profiles.py:plot_profile_1D_timeseries", "cosipy/postprocessing/profile_plots/plot_profiles.py:naive_fast"]}
{"id": "C89", "title": "Merging and conduction keep the heat of the column", "statement": "The heat of the column (capacity times height times temperature, summed over the layers) is unchanged by merging two layers, and conduction changes it only by what enters through the ends.", "quantifier": "every column with positive heights, every pair of layers, every temperature profile, every capacity per layer, every dt and every number of sub-steps", "why_tests_cant": "whether heat is kept depends on how heights and capacities vary through the column; tests use uniform columns, where it is", "anchors": ["cosipy/cpkernel/grid.py:Grid.merge_nodes", "cosipy/modules/heatEquation.py:solveHeatEquation"]}
{"id": "C90", "title": "A time step can fail to end only in remeshing or heat conduction", "statement": "While all numbers compare (no NaN), a time step and a whole simulation end, with a result or an exception, if remeshing and heat conduction end in every step reached; with adaptive remeshing only heat conduction matters. If the uppermost layer is NaN, removing melt never ends.", "quantifier": "every arithmetic in which zero is not positive and any two numbers compare, including binary floating point, and every column, forcing, settings and number of steps; external solvers that end on objectives that end", "why_tests_cant": "a test that hangs does not say which loop hung or for which inputs the others would, and rounding makes loops stall only for rare values", "anchors": ["cosipy/cpkernel/cosipy_core.py:cosipy_core", "cosipy/cpkernel/grid.py:Grid.remove_melt_weq", "cosipy/cpkernel/grid.py:Grid.update_grid", "cosipy/modules/heatEquation.py:solveHeatEquation"]}
{"id": "C91", "title": "The shading table of a year says for each day and hour which cells the sun reaches", "statement": "The entry looked up for a day and hour is the one computed for that day and the step the hour lies in. It is -1 at night, 1 for glacier cells the sun reaches, 0 for those in the shade of terrain, NaN elsewhere.", "quantifier": "every terrain, glacier mask, grid, place, day of the year, hour, and every step of the table", "why_tests_cant": "the table has up to 8784 entries per cell, each read far from where it is written; tests look at a few with one step", "anchors": ["cosipy/modules/radCor.py:LUTshad", "cosipy/modules/radCor.py:calcRad", "cosipy/modules/radCor.py:relshad"]}
{"id": "C92", "title": "Maps and profiles of a result file show each value at its place and time", "statement": "The 3D surface has one point per grid cell at the cell's place and height, coloured by the value of that cell. A map for a time shows the record of that time; with daily means, the mean of the day of the time. Pictures of different variables or times go to different files. The labels of the time axis stand under their records. The maps of several fields find all their variables in a file written with the shipped settings.", "quantifier": "every grid, elevation, field with gaps, series of records, time, file name, and every file written with the shipped output lists", "why_tests_cant": "a misplaced colour, a mean of the wrong day or a shifted label look plausible; tests do not compare pictures with all cells and times", "anchors": ["cosipy/postprocessing/vtk_plots/plot_cosipy_fields_vtk.py:create_points", "cosipy/postprocessing/vtk_plots/plot_cosipy_fields_vtk.py:add_scalar", "cosipy/postprocessing/vtk_plots/plot_cosipy_fields_vtk.py:createDEM_v2", "cosipy/postprocessing/field_plots/plot_cosipy_fields.py:get_selection", "cosipy/postprocessing/field_plots/plot_cosipy_fields.py:save_image", "cosipy/postprocessing/profile_plots/plot_profiles.py"]}
{"id": "C93", "title": "The stake files compare every stake with the simulation of its cell", "statement": "After a run with stake evaluation, stake_simulations.csv has for every stake the simulated cumulative balance or snow height of the stake's cell at the times of measurement, and stake_statistics.csv one row per stake with the score of its measurements against these values.", "quantifier": "every domain, glacier mask, schedule of the workers, list of stakes, table of measurements with gaps, and both kinds of observation", "why_tests_cant": "the values pass from the time loop of a worker through its returned tuple into columns by name, in the order in which workers finish; a stake attached to another cell or another time gives plausible numbers", "anchors": ["COSIPY.py:run_cosipy", "cosipy/cpkernel/cosipy_core.py:cosipy_core", "cosipy/modules/evaluation.py:evaluate", "cosipy/modules/evaluation.py:rmse"]}
{"id": "C94", "title": "The reported mass balance is the change of the ice of the column", "statement": "The mass balance reported for a step, times the density of water, is the change of the mass of ice in the column during that step; summed over a run, the cumulative balance is the change of the ice since the start.", "quantifier": "every physical column, forcing sequence of any length, remeshing and densification method, and surface temperature solver that respects its lower bound", "why_tests_cant": "the balance is computed from the fluxes and the column from the layer operations, by separate code; a flux that is reported and not applied shifts the balance by amounts smaller than any tolerance of a test and accumulates over years", "anchors": ["cosipy/cpkernel/cosipy_core.py:cosipy_core", "cosipy/cpkernel/grid.py:Grid.remove_melt_weq", "cosipy/modules/penetratingRadiation.py:method_Bintanja", "cosipy/modules/refreezing.py:refreezing"]}
{"id": "C95", "title": "A simulation of numbers gives numbers", "statement": "With constants, settings and forcing in range, a simulation that starts on a physical column never produces a not-a-number value: every value reported for a step and every value of the column after it is a number, whatever the surface temperature solver answers, also NaN.", "quantifier": "every physical column, forcing sequence of any length in range, remeshing, albedo, roughness, conductivity and densification method with the Richardson stability correction, and every solver that does not answer with a number below its lower bound", "why_tests_cant": "a single division of zero by zero, logarithm or root outside its domain anywhere in the step silently turns the rest of the run into NaN; tests run the few inputs whose denominators are known not to vanish", "anchors": ["cosipy/cpkernel/cosipy_core.py:cosipy_core", "cosipy/modules/surfaceTemperature.py:eb_fluxes", "cosipy/modules/surfaceTemperature.py:update_surface_temperature", "cosipy/modules/heatEquation.py:solveHeatEquation", "cosipy/modules/densification.py:densification", "cosipy/modules/albedo.py:updateAlbedo"]}
{"id": "C96", "title": "A missing forcing value is noticed", "statement": "If a forcing value used in a time step is missing (NaN), the step stops with an error or the mass balance it reports is NaN.", "quantifier": "every column, constants, settings, forcing with a missing value, and solver", "why_tests_cant": "which of the comparisons, minima and maxima on the way from an input to the balance let NaN through depends on the order of their arguments; tests use complete forcing", "anchors": ["cosipy/cpkernel/cosipy_core.py:cosipy_core", "cosipy/modules/surfaceTemperature.py:eb_fluxes", "COSIPY.py:check_for_nan"]}
{"id": "C97", "title": "The model reports impossible states", "statement": "If merging, splitting or compacting produces a layer whose fractions of ice and water are negative or exceed the whole volume, or a time step starts with such a layer, or the surface temperature leaves its bounds, the program prints its message about it; otherwise it does not.", "quantifier": "every column, layer, constants and solver", "why_tests_cant": "tests never reach the states the checks are for, so nothing shows whether a check can fire at all", "anchors": ["cosipy/cpkernel/grid.py:merge_nodes", "cosipy/cpkernel/grid.py:correct_layer", "cosipy/cpkernel/grid.py:check", "cosipy/cpkernel/grid.py:grid_check", "cosipy/modules/densification.py:log_fraction_warning", "cosipy/modules/surfaceTemperature.py:update_surface_temperature"]}
{"id": "C98", "title": "The simulated time is the time of the input", "statement": "A run that finishes has simulated every record of the input for the time until the next record: the time stamps it used are one configured step (dt) apart. Input with another step or with gaps is refused.", "quantifier": "every input axis in time order, every configured period and step, every simulation of the records", "why_tests_cant": "the shipped example input has the step of the shipped constants; nothing in a finished result shows that hours were skipped", "anchors": ["cosipy/cpkernel/io.py:init_data_dataset", "cosipy/cpkernel/io.py:create_data_file", "cosipy/cpkernel/cosipy_core.py:cosipy_core", "COSIPY.py:main"]}
{"id": "C99", "title": "Remeshing keeps the snow cover and the glacier apart", "statement": "After remeshing, a column of dry snow over glacier ice is still dry snow over glacier ice; snow cover and glacier each have the same height, ice, water and heat as before (the adaptive method may delete snow layers that are too thin).", "quantifier": "every column of dry snow layers over dry ice layers, every thickness of snow and glacier, both remeshing methods", "why_tests_cant": "the mixing needs a glacier thinner than the next layer height, which no test sets up; sums over the whole column are unaffected and hide it", "anchors": ["cosipy/cpkernel/grid.py:log_profile", "cosipy/cpkernel/grid.py:adaptive_profile", "cosipy/cpkernel/grid.py:merge_nodes", "cosipy/cpkernel/grid.py:get_total_snowheight"]}
{"id": "C100", "title": "Nothing happens without a cause", "statement": "A time step without snowfall, rain, melt and vapour exchange, in the dark, over a column without liquid water reports no runoff, no refreezing, no subsurface melt and no mass balance, and changes nothing in the layers except temperatures (apart from remeshing and settling). A column of the temperature of its surface with fixed layers stays exactly as it is for any number of such steps: rounding causes no drift.", "quantifier": "every dry column, every constant setting, every forcing in the dark, any number of steps, in rounded (double precision) and exact arithmetic", "why_tests_cant": "drift by rounding accumulates over long histories; tests compare single steps with a tolerance", "anchors": ["cosipy/cpkernel/cosipy_core.py:cosipy_core", "cosipy/modules/percolation.py:percolation", "cosipy/modules/refreezing.py:refreezing", "cosipy/modules/heatEquation.py:solveHeatEquation", "cosipy/cpkernel/grid.py:remove_melt_weq"]}
{"id": "C101", "title": "Remeshing a remeshed column changes nothing", "statement": "log_profile leaves a column alone that it has already brought to its mesh; remeshing before every time step does not mix layers again and again.", "quantifier": "every column of dry snow over dry ice, every first layer height and stretching factor", "why_tests_cant": "unit tests remesh one column once; the repeated mixing appears only over several steps and conserves all totals", "anchors": ["cosipy/cpkernel/grid.py:log_profile", "cosipy/cpkernel/grid.py:correct_layer", "cosipy/cpkernel/grid.py:merge_nodes", "cosipy/cpkernel/grid.py:update_grid"]}
{"id": "C102", "title": "The static file is made from the configured terrain and nothing else is touched", "statement": "cosipy-create-static makes the static file from the configured DEM and outline only, leaves all other files alone, keeps an earlier static file if it fails and cleans up after itself.", "quantifier": "every content of the folder, every settings and every behaviour of the external tools, every history of earlier runs", "why_tests_cant": "tests run the converters in a fresh folder with correct settings; the stale result needs a failed run before", "anchors": ["cosipy/utilities/createStatic/create_static_file.py:main"]}
{"id": "C103", "title": "What comes later does not change what came before", "statement": "The results of a grid point up to a time depend only on its forcing up to that time; simulating the first part of the input gives the first part of the results.", "quantifier": "every input, every number of records n, every two continuations, all settings and number types", "why_tests_cant": "tests run one input; independence from all possible continuations ranges over pairs of runs", "anchors": ["cosipy/cpkernel/cosipy_core.py:cosipy_core"]}
{"id": "C104", "title": "The weather determines the surface temperature", "statement": "For given weather and subsurface temperatures there is one surface temperature at which the energy fluxes balance; the reported one does not depend on the surface temperature of the step before.", "quantifier": "every weather, column and net shortwave radiation; Richardson scheme with wind, both schemes without", "why_tests_cant": "tests compare single values; whether an equation has no, one or two solutions is a statement about all real temperatures", "anchors": ["cosipy/modules/surfaceTemperature.py:update_surface_temperature", "cosipy/modules/surfaceTemperature.py:eb_fluxes", "cosipy/modules/secant.py:secant"]}
{"id": "C105", "title": "More water never means less runoff", "statement": "Of two columns with the same layers, the one that holds at least as much liquid water in every layer and gets at least as much water from above has at least the same runoff, also in rounded arithmetic; no layer ends with less water, and the runoff grows by no more than the water that was added.", "quantifier": "every pair of columns with equal layer heights and ice contents, every two water inputs in order", "why_tests_cant": "tests look at single columns; monotonicity compares all pairs, and rounding could break it for inputs that differ in the last digit", "anchors": ["cosipy/modules/percolation.py:percolation", "cosipy/modules/percolation.py:get_runoff"]}
{"id": "C106", "title": "Dividing a layer does not change where its water goes", "statement": "How finely a column is layered does not matter for its drainage: dividing layers into parts with the same contents changes neither the runoff nor the water stored.", "quantifier": "every column, every sequence of divisions of its layers", "why_tests_cant": "tests compare single layerings; this is about all layerings of all columns", "anchors": ["cosipy/modules/percolation.py:percolation", "cosipy/modules/percolation.py:get_runoff"]}
{"id": "C107", "title": "The reported ground heat flux is the heat the column loses", "statement": "In a time step in which no matter is exchanged, the heat content of the column changes by exactly the reported ground heat flux times the time step.", "quantifier": "every column and weather of a step without precipitation, melt, vapour exchange and sunshine; fixed layers", "why_tests_cant": "the heat of the column is not an output; that two outputs of different parts of the program agree for all columns is not seen in single cases", "anchors": ["cosipy/modules/surfaceTemperature.py:update_surface_temperature", "cosipy/modules/surfaceTemperature.py:eb_fluxes", "cosipy/modules/heatEquation.py:solveHeatEquation", "cosipy/cpkernel/cosipy_core.py:cosipy_core"]}
{"id": "C108", "title": "Snow is compacted by the weight of the snow above it", "statement": "The load with which a snow layer is compacted is the weight of the layers above it.", "quantifier": "every column of snow, every layer of it, both pressure dependent methods", "why_tests_cant": "the load is an internal running sum; that it equals the weight above for all columns, with thin layers anywhere, needs all of them", "anchors": ["cosipy/modules/densification.py:method_Boone", "cosipy/modules/densification.py:method_Vionnet"]}
{"id": "C109", "title": "Conduction respects the range of temperatures exactly in double precision", "statement": "In double precision arithmetic, with all its roundings, heat conduction never produces a layer temperature outside the range of the temperatures the column had before, not even by one unit in the last place. In particular it never lifts a layer above the melting point.", "quantifier": "every column of layers at least two nanometres thick with temperatures of at least 1 K, every time step, any number of sub-steps and layers", "why_tests_cant": "rounding errors depend on every bit of the inputs; an overshoot of one unit would occur for few of them and trigger melt far away in the program", "anchors": ["cosipy/modules/heatEquation.py:solveHeatEquation", "cosipy/cpkernel/node.py:get_layer_thermal_diffusivity"]}
{"id": "C110", "title": "Water and ice are conserved in double precision up to the roundings", "statement": "In double precision, percolation, refreezing and the merging of layers conserve the water and ice stored in the column up to a few roundings for each layer: percolation up to 10^-12 of the water (up to a thousand layers), refreezing up to 10^-15 of the mass whatever the number of layers, and the reported refrozen water is the liquid water lost. No cancellation makes the error large relative to the amounts present.", "quantifier": "every column of layers with positive thickness and without negative contents, every amount of water supplied, any number of layers, with underflow", "why_tests_cant": "rounding errors depend on every bit of the inputs, and the excess of water over what a layer retains is a difference of nearly equal numbers whose relative error is unbounded", "anchors": ["cosipy/modules/percolation.py:percolation", "cosipy/modules/refreezing.py:refreezing", "cosipy/cpkernel/grid.py:merge_nodes"]}
{"id": "C111", "title": "More radiation never makes the surface colder or the melt smaller", "statement": "With all else the same, a surface that receives more shortwave or longwave radiation is reported at least as warm and with at least as much melt energy; below the melting point it is warmer; at the melting point the melt energy grows by exactly the additional radiation.", "quantifier": "every column, every weather, every pair of amounts of radiation, every solver, with balances met exactly or up to a tolerance", "why_tests_cant": "a comparison of two runs over a continuum of inputs; where it fails, it does so for radiation within a few hundredths of a W m-2 of a threshold", "anchors": ["cosipy/modules/surfaceTemperature.py:update_surface_temperature", "cosipy/modules/surfaceTemperature.py:eb_fluxes", "cosipy/modules/secant.py:secant", "cosipy/cpkernel/cosipy_core.py:cosipy_core"]}
{"id": "C112", "title": "Settings of methods that are not selected have no effect", "statement": "Changing the parameters of a method that is not selected (decay times of the Bougamont albedo, time scale of the Oerlemans albedo, constant density, stretching factor of the logarithmic mesh, merging thresholds of the adaptive mesh, conductivities of ice, water and air), the description of the initial column when a restart file is given, the initial snow height when the input has one, or the split of precipitation when the snowfall is given, changes nothing in the result, restart and stake files.", "quantifier": "every pair of settings, every forcing, every start column, every number of time steps, every grid, every arithmetic (also floating point)", "why_tests_cant": "compares two whole simulations for every pair of settings; a stray use of a parameter shows up only for particular column histories", "anchors": ["constants.toml", "cosipy/modules/albedo.py:get_surface_properties", "cosipy/cpkernel/node.py:Node.get_layer_thermal_conductivity", "cosipy/cpkernel/grid.py:Grid.update_grid", "cosipy/cpkernel/init.py:init_snowpack", "cosipy/cpkernel/cosipy_core.py:cosipy_core"]}
{"id": "C113", "title": "Heat conduction is linear, mirror-symmetric, non-expansive and local", "statement": "For a column with given layer heights and densities, whether conduction completes does not depend on the temperatures. Mixing two temperature profiles gives the mixed result; a profile warmer by a constant gives a result warmer by that constant; two profiles that differ by at most some amount never differ by more afterwards. A column upside down gives the result upside down. A change of one layer reaches only the layers within the number of sub-steps, which is below the time divided by any time that is stable at every layer boundary, plus one.", "quantifier": "every column with at least the layers the solver needs, every pair of temperature profiles, every time step", "why_tests_cant": "compares the solver on pairs of inputs for every column and any number of sub-steps", "anchors": ["cosipy/modules/heatEquation.py:solveHeatEquation", "cosipy/cpkernel/grid.py:Grid.set_node_temperature"]}
{"id": "C114", "title": "Refreezing takes each layer by itself and stops when water, pore space or cold is used up", "statement": "What refreezing makes of a layer depends on that layer only. In a colder and wetter column every layer refreezes at least as much. Dividing layers into pieces changes neither the refrozen water nor the temperatures. After refreezing no snow layer is both below the melting point and wet.", "quantifier": "every column, every pair of comparable columns, every division into pieces", "why_tests_cant": "compares pairs of columns and quantifies over the end state of every layer", "anchors": ["cosipy/modules/refreezing.py:refreezing"]}
{"id": "C115", "title": "Upper limits survive floating-point rounding: no more ice than volume, albedo at most one, no more shortwave absorbed than arrives", "statement": "In arithmetic in which every operation is rounded (as IEEE double precision does), no layer of any column of a simulation ever holds more ice than its volume, not even by one unit in the last place; the albedo lies between 0 and 1 and the net shortwave radiation between 0 and the incoming radiation.", "quantifier": "every monotone rounding (binary64 included), column, forcing sequence with fresh snow not denser than ice, every stage of every step", "why_tests_cant": "Tests compare with tolerances; a violation by rounding alone shows only in rare combinations of merging, splitting and freezing, and would make the range check of a later step stop the simulation.", "anchors": ["cosipy/cpkernel/grid.py:merge_nodes", "cosipy/cpkernel/grid.py:correct_layer", "cosipy/cpkernel/node.py:__init__", "cosipy/modules/refreezing.py", "cosipy/modules/densification.py", "cosipy/modules/albedo.py:method_Oerlemans", "cosipy/cpkernel/cosipy_core.py:cosipy_core"]}
{"id": "C116", "title": "Station data are distributed over the glacier by height alone", "statement": "In prepared distributed input, the weather of a glacier cell is the station's record shifted by the lapse rates times the cell's height above the station (pressure by the barometric formula), humidity clamped to its range and precipitation to zero. Cells of the same height get identical values; a cell at the station's height gets the station's values; temperature differs by exactly lapse rate times height difference; a cell's values do not depend on which other cells are prepared. A cell has precipitation only in hours with precipitation at the station.", "quantifier": "every station record, every set of cells of any heights, every lapse rates, with and without aggregation", "why_tests_cant": "Tests look at one small domain and one set of lapse rates; independence of the other cells and the dry hours need a statement about all domains and records.", "anchors": ["cosipy/utilities/aws2cosipy/aws2cosipy.py:create_2D_input", "cosipy/utilities/aws2cosipy/aws2cosipy.py:set_bias"]}
{"id": "C117", "title": "Penetrating radiation is absorbed at the depth Beer's law gives", "statement": "The shortwave radiation that penetrates is extinguished exponentially with depth, with the coefficient of the surface (snow or ice). Every layer takes up what is extinguished between its upper and its lower face, so that the heat taken up above any depth does not depend on how the column is divided into layers, and all that is withdrawn from the surface balance reaches the column.", "quantifier": "every column of any number of layers, every net radiation and time step", "why_tests_cant": "Tests run one column and compare totals; that each depth gets its share for every layering, and that the shares add up to what is withdrawn, needs a telescoping sum over columns of any length.", "anchors": ["cosipy/modules/penetratingRadiation.py:method_Bintanja", "cosipy/cpkernel/grid.py:get_depth"]}
{"id": "C118", "title": "A glacier cell's results depend on the cell alone", "statement": "What the program writes for a glacier cell, into the result file and into the restart file, is determined by the cell's own forcing, slope, start state and the settings. The other cells, the position of the cell in the domain, the size of the domain, the order in which cells finish, the stakes and the labels of the times have no influence.", "quantifier": "every two domains, every schedule of the cells on the workers, every number of time steps", "why_tests_cant": "A test runs one domain with one schedule; independence compares two whole programs over arbitrary domains and orders of completion.", "anchors": ["COSIPY.py:run_cosipy", "cosipy/cpkernel/cosipy_core.py:cosipy_core", "cosipy/cpkernel/io.py:IOClass.copy_local_to_global", "cosipy/cpkernel/io.py:IOClass.write_results_to_file"]}
{"id": "C119", "title": "The surface fluxes are computed without dividing by zero", "statement": "For weather that makes sense (wind not negative, pressure above the vapour pressure, roughness below the measurement height) the surface fluxes are computed for every surface temperature the solver tries, without a division by zero, which in the compiled code ends the program.", "quantifier": "every air and surface temperature, humidity, pressure, wind, slope, roughness and measurement height in the sane range; both stability schemes; every number of passes of the iteration", "why_tests_cant": "A zero divisor is hit on a set of inputs of measure zero, which no sample of inputs meets; that it exists or not is a statement about a continuous range.", "anchors": ["cosipy/modules/surfaceTemperature.py:eb_fluxes", "cosipy/modules/surfaceTemperature.py:ustar", "cosipy/modules/surfaceTemperature.py:phi_m", "cosipy/modules/surfaceTemperature.py:method_EW_Sonntag"]}
{"id": "C120", "title": "The configured period is what is simulated from a file prepared from WRF", "statement": "A simulation driven by a file that wrf2cosipy prepared uses the records from time_start to time_end of the configuration, both included, in time order, as it does for files prepared from a weather station; the dates given to wrf2cosipy select the days from the first to the last.", "quantifier": "every list of records, every start and end and every time with a four-digit year, to the minute", "why_tests_cant": "The shipped tests use no file prepared from WRF; that the order of texts agrees with the order of times, and where it does not, is a statement about all pairs of times.", "anchors": ["cosipy/utilities/wrf2cosipy/wrf2cosipy.py:create_input", "cosipy/cpkernel/io.py:IOClass.init_data_dataset"]}
{"id": "C121", "title": "The number of layers stays bounded however long a simulation runs", "statement": "The number of layers of a simulated column is bounded by the depth of the column and the mesh settings, not by the number of time steps. With the logarithmic mesh, where the first L + 1 levels are thicker than twice the deepest column with new snow, it never exceeds the larger of 2 L + 2 and what it was at the start (118 with the shipped settings and columns up to 1000 m); with the adaptive mesh all but four layers of a remeshed column take up at least the minimum layer height. A run with max_layers at least the bound does not stop for too many layers.", "quantifier": "every column with non-negative layer heights, every setting with non-negative mesh constants, every forcing series of any length", "why_tests_cant": "Snowfall adds layers, remeshing splits and merges them; that no sequence of weather lets layers accumulate over decades is a statement about all histories.", "anchors": ["cosipy/cpkernel/grid.py:Grid.log_profile", "cosipy/cpkernel/grid.py:Grid.adaptive_profile", "cosipy/cpkernel/grid.py:Grid.correct_layer", "cosipy/cpkernel/cosipy_core.py:cosipy_core"]}
{"id": "C122", "title": "What is written to the layers is what is read from them", "statement": "The profile of a stored quantity (height, temperature, liquid water, ice fraction, refrozen water) lists the value of each layer from the surface down. The query of a single layer returns the entry of the profile, counting from the bottom for negative positions, and raises IndexError elsewhere. Setting a profile or a single value is read back exactly and changes no other quantity, layer or record; settings of different quantities commute and the last of two settings counts. The five stored profiles determine the layers. Density, heat capacity, porosity, cold content, conductivity and diffusivity are those of the stored values, and diffusivity times density times heat capacity is the conductivity.", "quantifier": "every column, every position, every list with a value for each layer, every arithmetic (also rounded numbers and missing values); the formulas over ordered fields", "why_tests_cant": "the number of layers changes with every step, and an accessor that reads a neighbour or a stale counter is right on the columns of a test", "anchors": ["cosipy/cpkernel/grid.py:Grid.set_temperature", "cosipy/cpkernel/grid.py:Grid.get_temperature", "cosipy/cpkernel/grid.py:Grid.set_node_temperature", "cosipy/cpkernel/grid.py:Grid.get_thermal_diffusivity", "cosipy/cpkernel/node.py:Node"]}
{"id": "C123", "title": "Every process changes only what it is about", "statement": "Heat conduction changes temperatures only, percolation liquid water only, the surface energy balance the temperature of the first layer only, and the albedo no layer. Refreezing keeps the thickness of the layers, densification their temperature, their record of refrozen water and everything below the snow. The record of refrozen water at the end of a step therefore has an entry for each layer and adds up to the reported refreezing exactly, in the arithmetic of the program.", "quantifier": "every column, every step of every simulation, every selectable method, every arithmetic", "why_tests_cant": "a process that also touches another quantity shows in long simulations only, and as a drift that other processes hide", "anchors": ["cosipy/modules/heatEquation.py:solveHeatEquation", "cosipy/modules/percolation.py:percolation", "cosipy/modules/refreezing.py:refreezing", "cosipy/modules/densification.py:densification", "cosipy/modules/surfaceTemperature.py:update_surface_temperature", "cosipy/cpkernel/cosipy_core.py:cosipy_core"]}
{"id": "C124", "title": "The column has no built-in thickness", "statement": "Multiplying all thicknesses by the same positive factor (those of the layers, of the water added and of the melt removed, and the configured ones) multiplies the thicknesses in the result by it and changes nothing else: for merging, halving and adjusting layers, remeshing, melt removal, percolation and refreezing. Conduction reaches the same temperatures by the same sub-steps when the time is multiplied by the square of the factor. A call that fails on one column fails in the same way on the other.", "quantifier": "every column, every positive factor, every amount of water and melt, every number of passes, ordered fields", "why_tests_cant": "a threshold written into the code instead of the configuration is right for the column of a test and wrong at another scale", "anchors": ["cosipy/cpkernel/grid.py:Grid.merge_nodes", "cosipy/cpkernel/grid.py:Grid.correct_layer", "cosipy/cpkernel/grid.py:Grid.log_profile", "cosipy/cpkernel/grid.py:Grid.adaptive_profile", "cosipy/cpkernel/grid.py:Grid.remove_melt_weq", "cosipy/modules/percolation.py:percolation", "cosipy/modules/refreezing.py:refreezing", "cosipy/modules/heatEquation.py:solveHeatEquation"]}
{"id": "C125", "title": "A part of the glacier is prepared as it is in the whole", "statement": "Preparing station data for a sub-area given by bounds of longitude and latitude gives exactly the cells of the full preparation whose coordinates lie within the bounds (bounds included, a missing bound does not restrict), at the same times, with the same coordinates and the same series. Two adjoining sub-areas cover their union and share only the row on the border.", "quantifier": "every static field, every box (any bound may be missing), every station record, elevation or slope correction of radiation by cell; axes that ascend", "why_tests_cant": "a test prepares one area; that each cell's series does not depend on the area around it must hold for every cut", "anchors": ["cosipy/utilities/aws2cosipy/aws2cosipy.py:create_2D_input", "cosipy/utilities/aws2cosipy/aws2cosipy.py:main", "cosipy/utilities/aws2cosipy/aws2cosipy.py:check"]}
{"id": "C126", "title": "The unit of heat does not matter", "statement": "Counting all heats in another unit (incoming radiation, latent and specific heats, conductivities, the radiation constant) leads to the same columns, temperatures, masses and albedo in every step of a simulation of any length, and to the same heat fluxes and cold contents in the new unit, in the result file too. A run that fails in one unit fails in the same way in the other.", "quantifier": "every column, forcing, number of steps and positive factor; all surface temperature methods (minimisers that do not look at the scale of the function), Richardson stability, bulk conductivity", "why_tests_cant": "a constant written into the code instead of the configured one gives the right answer for the shipped values and a wrong one for any other", "anchors": ["cosipy/cpkernel/cosipy_core.py:cosipy_core", "cosipy/modules/surfaceTemperature.py:eb_fluxes", "cosipy/modules/surfaceTemperature.py:update_surface_temperature", "cosipy/modules/secant.py:secant", "cosipy/modules/penetratingRadiation.py:method_Bintanja", "cosipy/modules/refreezing.py:refreezing", "cosipy/modules/heatEquation.py:solveHeatEquation", "cosipy/cpkernel/node.py:Node"]}
{"id": "C127", "title": "The energy spent on melting is the latent heat of what melts", "statement": "In every step the mass of the melt water times the latent heat of fusion is the melt energy of the step, and the column loses that mass, whatever densities and latent heats are configured.", "quantifier": "every column, forcing, configuration and step", "why_tests_cant": "the shipped density of water is 1000 kg m-3, and with it a density written into the code cannot be told from the configured one", "anchors": ["cosipy/cpkernel/cosipy_core.py:cosipy_core", "cosipy/cpkernel/grid.py:Grid.remove_melt_weq"]}
{"id": "C128", "title": "Melt removal is right in double precision up to the roundings", "statement": "Removing an amount of melt from a column takes that amount of water equivalent, and hands on the water of the layers that melt away, also in double precision arithmetic with rounding and underflow: the error is at most 10^-12 of the water equivalent and the melt for columns of up to a thousand layers. The column only vanishes if the melt is at least its water equivalent, up to the same error. Below the layer that is thinned nothing changes.", "quantifier": "every column with layers of positive thickness and contents that are not negative, every amount of melt, all densities that are not negative, every binary floating point format of at least 24 bits", "why_tests_cant": "an error that grows with the number of layers, or that cancels catastrophically, shows up only for rare inputs and below the tolerance of a test", "anchors": ["cosipy/cpkernel/grid.py:Grid.remove_melt_weq"]}
{"id": "C129", "title": "Logarithmic remeshing conserves the column in double precision up to the roundings", "statement": "Remeshing the column with the logarithmic profile changes its water, its ice and its thickness in double precision, rounding and underflow included, by at most three roundings (one for the thickness) for each merge and each split; there are at most n + 10 T/f of them for n layers, a thickness T of the column and f of the first layer. In double precision that is at most 10^-9 of each for up to a million. Only a top layer thinner than the minimum is removed afterwards.", "quantifier": "every column with layers of positive thickness and contents that are not negative, every first layer height and stretching factor of at least one, every binary floating point format of at least 24 bits fine enough for the column", "why_tests_cant": "the number of merges and splits is decided by comparisons of rounded heights, and an error that accumulates over them stays below the tolerance of a test on a short column", "anchors": ["cosipy/cpkernel/grid.py:Grid.log_profile", "cosipy/cpkernel/grid.py:Grid.correct_layer", "cosipy/cpkernel/grid.py:Grid.merge_nodes", "cosipy/cpkernel/grid.py:Grid.split_node", "cosipy/cpkernel/grid.py:Grid.update_grid"]}
{"id": "C130", "title": "Every program follows its own command line", "statement": "A program uses the value given last for each of its options and the documented default otherwise, in every process that simulates cells, does not start with an option it does not know or without one it needs, and shows its own help with -h wherever it is started.", "quantifier": "every command line, environment and directory, for run-cosipy, cosipy-help and the programs that prepare input", "why_tests_cant": "command lines are unbounded, and importing a module reads the command line of whichever program imports it", "anchors": ["cosipy/config.py:get_user_arguments", "cosipy/constants.py", "cosipy/utilities/config_utils.py:UtilitiesConfig", "cosipy/utilities/aws2cosipy/aws2cosipy.py:get_user_arguments", "cosipy/utilities/wrf2cosipy/wrf2cosipy.py:get_user_arguments", "COSIPY.py:main"]}
{"id": "C131", "title": "Every setting in the configuration files has the effect it describes", "statement": "A value written into config.toml, constants.toml or slurm_config.toml is the value the simulation or the job uses: every number, method and switch reaches the computation unchanged, and none of the offered settings is without effect.", "quantifier": "every configuration, constants and Slurm file, every domain, input and solver", "why_tests_cant": "a setting that is ignored goes unnoticed as long as tests use the shipped values, and no finite set of files shows that it has no effect", "anchors": ["cosipy/constants.py:Constants.load", "cosipy/config.py:Config.load", "cosipy/config.py:SlurmConfig", "cosipy/cpkernel/init.py:init_snowpack", "cosipy/cpkernel/cosipy_core.py:cosipy_core", "COSIPY.py:main", "constants.toml", "slurm_config.toml"]}
{"id": "C132", "title": "Penetrating radiation conserves the mass of the layers it thins in double precision up to the roundings", "statement": "Melt by penetrating radiation changes the mass of every layer that stays, ice and water together, in double precision, rounding and underflow included, by at most nine roundings, and so that of the column with the removed layers added back, however many layers there are: 2*10^-15 of the mass with the shipped constants. Thinned layers keep a positive thickness and their ice fraction and do not get thicker; the last layer is not touched.", "quantifier": "every column with layers of positive thickness and contents that are not negative and ice fractions up to one, every net shortwave radiation (of any sign) and time step, every binary floating point format of at least 24 bits, every exponential function", "why_tests_cant": "ice and water of a thinned layer are computed along different paths (height loss and new height), and the errors are below every tolerance of a test", "anchors": ["cosipy/modules/penetratingRadiation.py:method_Bintanja", "cosipy/cpkernel/grid.py:Grid.remove_node"]}
{"id": "C133", "title": "Only the distance from the melting point counts in the column", "statement": "The melting point is a setting. Raising it together with all temperatures of the column, of the air and of the configuration raises the temperatures in the result and changes nothing else: initial column, snowfall, remeshing, albedo, penetrating radiation, melt, percolation, refreezing, conduction and densification. No process has a melting point of its own.", "quantifier": "every column, configuration, shift and forcing, every method", "why_tests_cant": "a number such as 273.16 written into a formula agrees with the setting in every test that uses the shipped value; that all processes use the same melting point is a statement about all values of it", "anchors": ["constants.toml:zero_temperature", "cosipy/cpkernel/grid.py:Grid", "cosipy/cpkernel/init.py:init_snowpack", "cosipy/modules/refreezing.py:refreezing", "cosipy/modules/penetratingRadiation.py:method_Bintanja", "cosipy/modules/heatEquation.py:solveHeatEquation", "cosipy/modules/densification.py:densification", "cosipy/cpkernel/cosipy_core.py:cosipy_core"]}
{"id": "C134", "title": "The sun belongs to the time of the record", "statement": "When station data are distributed over a glacier, the radiation of every record is corrected, or computed, for the position of the sun on the day and at the time of that record; for aggregated data, for the interval over which the values were aggregated.", "quantifier": "all dates (any year), all time stamps, aggregation steps, places, slopes and both radiation modules", "why_tests_cant": "the calendar is infinite, and tests use a handful of hourly records, for which the dropped minutes and the labels of the intervals do not show", "anchors": ["cosipy/utilities/aws2cosipy/aws2cosipy.py:create_2D_input", "cosipy/modules/radCor.py:correctRadiation", "cosipy/modules/radCor.py:calcRad", "cosipy/modules/radCor.py:LUTshad"]}
{"id": "C135", "title": "Cold comes only from outside", "statement": "After any number of steps, every layer of the column is at least as warm as some layer of the initial column, as some simulated surface temperature or as the air of some record with snowfall. Remeshing, penetrating radiation, melt, percolation, refreezing, heat conduction and densification never produce a temperature below all those that entered the column.", "quantifier": "every physical initial column, every forcing sequence of any length whose runs never compact a whole layer away, every time step, all methods, every solver result of at least the solver's lower bound", "why_tests_cant": "undershoots of an explicit scheme or of a weighted mean appear only for particular layer sizes and gradients; tests look at single processes and not at the column after many steps", "anchors": ["cosipy/cpkernel/cosipy_core.py:cosipy_core", "cosipy/modules/heatEquation.py:solveHeatEquation", "cosipy/modules/refreezing.py:refreezing", "cosipy/cpkernel/grid.py:Grid.merge_nodes", "cosipy/cpkernel/grid.py:Grid.add_fresh_snow", "cosipy/modules/penetratingRadiation.py:method_Bintanja"]}
{"id": "C136", "title": "The mass budget of a time step holds in double precision", "statement": "In IEEE double arithmetic, one time step changes the mass of ice and liquid water in the column by the fresh snow and the water given to percolation, minus a top layer too thin to be kept, minus layers used up by penetrating radiation, minus what melt and sublimation take and minus the runoff, up to 2e-9 of the masses involved, however the roundings of remeshing, radiation, percolation, refreezing and heat conduction fall together.", "quantifier": "every column of up to a thousand layers and a thousand metres, every record, every time step, logarithmic layering, all densification methods (column before densification; the returned column with the method constant), every solver result", "why_tests_cant": "roundings of hundreds of sums and products could accumulate or cancel in any way; a test sees one rounding history and cannot bound all of them", "anchors": ["cosipy/cpkernel/cosipy_core.py:cosipy_core", "cosipy/cpkernel/grid.py:Grid.log_profile", "cosipy/cpkernel/grid.py:Grid.update_grid", "cosipy/modules/penetratingRadiation.py:penetrating_radiation", "cosipy/modules/percolation.py:percolation", "cosipy/modules/refreezing.py:refreezing", "cosipy/modules/heatEquation.py:solveHeatEquation"]}
{"id": "C137", "title": "Maps show what was asked for, and the installed commands start", "statement": "cosipy-plot-field draws, for a given variable, one map of that variable, and otherwise a fixed figure of twelve variables in fixed places; each map shows the record of the given time (with --mean a mean), carries the name and unit of the variable, and is saved exactly if asked for, under the name for the date, the variable and the type. After a distributed run with the shipped output lists the figure can be drawn for every record. Every installed command can be started, and cosipy-shortcuts lists them.", "quantifier": "every result file, every variable, every date argument and time axis, both types of figure, every name of a command", "why_tests_cant": "a wrong record, panel or label gives a plausible map; only some variables, dates and commands are ever tried", "anchors": ["cosipy/postprocessing/field_plots/plot_cosipy_fields.py:main", "cosipy/postprocessing/field_plots/plot_cosipy_fields.py:plot_data", "cosipy/postprocessing/field_plots/plot_cosipy_fields.py:plot_axes", "cosipy/postprocessing/field_plots/plot_cosipy_fields.py:get_selection", "pyproject.toml:project.scripts", "cosipy/config.py:print_entry_points"]}
{"id": "C138", "title": "Switches act when they are given, and only then", "statement": "The commands with switches (cosipy-setup, cosipy-plot-field, cosipy-plot-vtk) set a switch only if an argument of the command line asks for it, alone, abbreviated or behind one dash with other letters. In particular cosipy-setup replaces an existing file only if -y/--yes was given or the user agreed. A required option is always present, arguments that belong to nothing stop the command, and help does nothing else. A command line that uses the documented names in any order gives each option its last value and sets exactly the switches it names.", "quantifier": "every command line, every order and form of options and values, every set of existing files and every sequence of answers", "why_tests_cant": "a value taken for a switch, or a switch lost behind one dash, shows only for particular combinations of arguments; overwriting a configuration cannot be undone", "anchors": ["cosipy/utilities/setup_cosipy/setup_cosipy.py:get_user_arguments", "cosipy/utilities/setup_cosipy/setup_cosipy.py:main", "cosipy/postprocessing/field_plots/plot_cosipy_fields.py:parse_arguments", "cosipy/postprocessing/vtk_plots/plot_cosipy_fields_vtk.py:parse_arguments"]}
{"id": "C139", "title": "The printed column is the column", "statement": "The methods that print the state of the snowpack print, for every layer asked for, from the surface down, the values of that layer under the names of the quantities; by default all layers. The reported depth is the sum of the heights of all layers.", "quantifier": "every column, every number of rows asked for, every arithmetic", "why_tests_cant": "a value under the wrong name or of the wrong layer is a plausible number; a user who looks for an error in the model trusts the print", "anchors": ["cosipy/cpkernel/grid.py:Grid.info", "cosipy/cpkernel/grid.py:Grid.grid_info", "cosipy/cpkernel/grid.py:Grid.grid_info_screen"]}
