{
 "claims": [
  {
   "property": "C01",
   "status": "proved",
   "theorems": [
    "Cosipy.C01_op",
    "Cosipy.C01_new",
    "Cosipy.C01_history",
    "Cosipy.C01_counter",
    "Cosipy.C01_step",
    "Cosipy.C01_run"
   ],
   "note": "Induction over arbitrary histories of all 32 column operations and over time steps and runs; any arithmetic (no field laws used)."
  },
  {
   "property": "C02",
   "status": "proved",
   "theorems": [
    "Cosipy.C02_merge_conserves",
    "Cosipy.C02_merge_local",
    "Cosipy.C02_merge_returns"
   ],
   "note": "Over every linearly ordered field; also that merge_nodes returns whenever the index is valid and the total height is non-zero."
  },
  {
   "property": "C03",
   "status": "proved",
   "theorems": [
    "Cosipy.C03_merge_mixture"
   ],
   "note": "Over every linearly ordered field."
  },
  {
   "property": "C04",
   "status": "proved",
   "theorems": [
    "Cosipy.C04_correct_layer",
    "Cosipy.C04_conserves"
   ],
   "note": "Conservation, locality, same-side merging and exact target height after a split."
  },
  {
   "property": "C05",
   "status": "proved",
   "theorems": [
    "Cosipy.C05_log_profile_conserves",
    "Cosipy.C05_log_profile_alone",
    "Cosipy.C05_single_layer_lost"
   ],
   "note": "No assumption on the column or constants. C05_single_layer_lost shows the one case in which log_profile itself empties the column."
  },
  {
   "property": "C06",
   "status": "partial",
   "theorems": [
    "Cosipy.C06_adaptive_conserves",
    "Cosipy.C06_update_grid_conserves",
    "Cosipy.C06_merge_limit_partial",
    "Cosipy.C06_merge_limit_exceeded"
   ],
   "note": "Conservation up to deleted thin layers is proved in full. The documented merge limit is violated by one (C06_merge_limit_exceeded); C06_merge_limit_partial proves merge_max+1."
  },
  {
   "property": "C07",
   "status": "proved",
   "theorems": [
    "Cosipy.C07_correct_layer",
    "Cosipy.C07_adaptive",
    "Cosipy.C07_log",
    "Cosipy.C07_shrinking_diverges"
   ],
   "note": "Termination for every input (adaptive, correct_layer); log_profile for first_layer_height>0, stretching>=1; a diverging case for stretching<1."
  },
  {
   "property": "C08",
   "status": "partial",
   "theorems": [
    "Cosipy.C08_merge_physical",
    "Cosipy.C08_update_grid_ranges_partial",
    "Cosipy.C08_update_grid_dry_partial",
    "Cosipy.C08_correct_layer_oversaturates"
   ],
   "note": "True for merging; refuted for correct_layer/update_grid (C08_correct_layer_oversaturates). The _partial theorems prove the true remainder: ranges of ice fraction and temperature, non-negative water, dry columns."
  },
  {
   "property": "C09",
   "status": "partial",
   "theorems": [
    "Cosipy.C09_first_correction",
    "Cosipy.C09_top_not_thinner_partial",
    "Cosipy.C09_top_exact_partial",
    "Cosipy.C09_top_layer_thicker"
   ],
   "note": "False as documented: C09_top_layer_thicker is a concrete column whose top layer ends thicker. Proved: the first correction sets it (C09_first_correction), dry snow over ice never ends with a thinner top layer, and it is exact when enough snow remains below."
  },
  {
   "property": "C10",
   "status": "partial",
   "theorems": [
    "Cosipy.C10_split_effect",
    "Cosipy.C10_split_conserves_partial",
    "Cosipy.C10_split_loses_water",
    "Cosipy.C10_negative_adds",
    "Cosipy.C10_negative_grows",
    "Cosipy.C10_negative_position"
   ],
   "note": "Height, ice and heat conserved; C10_split_loses_water refutes the liquid-water part; for positions counted from the bottom, C10_negative_position and C10_negative_grows show that the new layer goes to the top (lowest layer) or is the one that is halved, so that the column grows."
  },
  {
   "property": "C11",
   "status": "proved",
   "theorems": [
    "Cosipy.C11_exact",
    "Cosipy.C11_all",
    "Cosipy.C11_returns"
   ],
   "note": "Exact water-equivalent accounting over any number of consumed layers; also that it returns on every such column."
  },
  {
   "property": "C12",
   "status": "proved",
   "theorems": [
    "Cosipy.C12_prefix",
    "Cosipy.C12_minimal",
    "Cosipy.C12_no_melt"
   ],
   "note": "Removed layers are a prefix, at most the next one is thinned, everything below is untouched; non-positive melt changes no layer."
  },
  {
   "property": "C13",
   "status": "partial",
   "theorems": [
    "Cosipy.C13_balance_partial",
    "Cosipy.C13_dry_partial",
    "Cosipy.C13_double_count"
   ],
   "note": "False: C13_double_count is a concrete column. Proved: the exact surplus (liquid water of the removed layers), and equality for dry columns."
  },
  {
   "property": "C14",
   "status": "partial",
   "theorems": [
    "Cosipy.C14_unchanged",
    "Cosipy.C14_deposition",
    "Cosipy.C14_column_gone_partial",
    "Cosipy.C14_refuted"
   ],
   "note": "False: C14_refuted. Proved: exact behaviour of the tracked height (unchanged, grows on deposition, reduced only when the column is gone)."
  },
  {
   "property": "C15",
   "status": "proved",
   "theorems": [
    "Cosipy.C15_significant",
    "Cosipy.C15_step_snow",
    "Cosipy.C15_step_dry",
    "Cosipy.C15_dry_run",
    "Cosipy.C15_age",
    "Cosipy.C15_before_first_snow",
    "Cosipy.C15_ordered_step",
    "Cosipy.C15_ordered"
   ],
   "note": "Per time step and over arbitrary runs of the model; any solver behaviour, any forcing."
  },
  {
   "property": "C16",
   "status": "proved",
   "theorems": [
    "Cosipy.C16_conserves",
    "Cosipy.C16_returns"
   ],
   "note": "Over every linearly ordered field, any column with a consistent layer counter; also that percolation returns on every non-empty column of non-degenerate layers."
  },
  {
   "property": "C17",
   "status": "proved",
   "theorems": [
    "Cosipy.C17_saturation",
    "Cosipy.C17_flux",
    "Cosipy.C17_nonneg"
   ],
   "note": "Saturation needs no sign assumptions; the flux form says that any cumulative deficit implies the layer holds exactly its irreducible water."
  },
  {
   "property": "C18",
   "status": "proved",
   "theorems": [
    "Cosipy.C18_layers",
    "Cosipy.C18_total"
   ],
   "note": "Layer by layer and for the column total."
  },
  {
   "property": "C19",
   "status": "proved",
   "theorems": [
    "Cosipy.C19_layer_returns",
    "Cosipy.C19_returns",
    "Cosipy.C19_layer",
    "Cosipy.C19_effect"
   ],
   "note": "Under the physical ordering of the constants (Consts.Phys, satisfied by the shipped ones)."
  },
  {
   "property": "C20",
   "status": "proved",
   "theorems": [
    "Cosipy.C20_energy",
    "Cosipy.C20_skipped",
    "Cosipy.C20_at_melting",
    "Cosipy.C20_limit_balance",
    "Cosipy.C20_code_limit_too_large",
    "Cosipy.C20_code_limit_inactive"
   ],
   "note": "Energy balance per layer; the cold-content limit coded is larger than the one of the cited energy equation, but a second, stricter limit makes it inactive, so the result is right (C20_code_limit_inactive)."
  },
  {
   "property": "C21",
   "status": "proved",
   "theorems": [
    "Cosipy.C21_max_principle"
   ],
   "note": "Discrete maximum principle for every column of conducting layers: temperatures after solve_heat_equation stay between the extremes before it."
  },
  {
   "property": "C22",
   "status": "proved",
   "theorems": [
    "Cosipy.C22_only_temperature",
    "Cosipy.C22_ends",
    "Cosipy.C22_isothermal",
    "Cosipy.C22_comparison",
    "Cosipy.C22_flux"
   ],
   "note": "Only temperatures change; the end layers keep theirs; an isothermal column stays so; order is preserved; heat balance of the interior equals the flux difference at its ends."
  },
  {
   "property": "C23",
   "status": "proved",
   "theorems": [
    "Cosipy.C23_integrates",
    "Cosipy.C23_negative_dt",
    "Cosipy.C23_terminates",
    "Cosipy.C23_zero_heights_diverge"
   ],
   "note": "Sub-steps add up to dt exactly; terminates when all diffusivities and spacings are positive; two adjacent zero-height layers make the loop run for ever."
  },
  {
   "property": "C24",
   "status": "proved",
   "theorems": [
    "Cosipy.C24_heat_raises",
    "Cosipy.C24_heat_value_error",
    "Cosipy.C24_percolation_empty",
    "Cosipy.C24_step",
    "Cosipy.C24_run"
   ],
   "note": "Columns with fewer than three layers make heat conduction raise ValueError; consequences for one step and a whole run; an empty column makes percolation raise IndexError."
  },
  {
   "property": "C25",
   "status": "proved",
   "theorems": [
    "Cosipy.C25_share",
    "Cosipy.C25_energy",
    "Cosipy.C25_total"
   ],
   "note": "Over the reals: the absorbed share is between 0 and 1, energy given to layers is nonnegative and its total never exceeds the absorbed radiation."
  },
  {
   "property": "C26",
   "status": "proved",
   "theorems": [
    "Cosipy.C26_outcome",
    "Cosipy.C26_returns"
   ],
   "note": "Every layer is warmed, thinned or removed exactly as the energy it got says; the method returns on every valid column."
  },
  {
   "property": "C27",
   "status": "partial",
   "theorems": [
    "Cosipy.C27_formula_partial",
    "Cosipy.C27_underreports",
    "Cosipy.C27_refuted"
   ],
   "note": "Refuted: reported melt is less than the ice lost whenever a layer thins (C27_underreports, C27_refuted). Kept: the exact formula per layer."
  },
  {
   "property": "C28",
   "status": "partial",
   "theorems": [
    "Cosipy.C28_boone_factor",
    "Cosipy.C28_boone_loses",
    "Cosipy.C28_boone_refuted",
    "Cosipy.C28_vionnet_factor",
    "Cosipy.C28_empirical_change",
    "Cosipy.C28_monotone_partial",
    "Cosipy.C28_vionnet_slope_refuted"
   ],
   "note": "Refuted for Boone on every column with compactible top snow; exact mass factors for all methods; Vionnet swells snow on a 3 degree slope. Kept: temperatures, ice layers, monotone thickness and density."
  },
  {
   "property": "C29",
   "status": "proved",
   "theorems": [
    "Cosipy.C29_range",
    "Cosipy.C29_ages",
    "Cosipy.C29_depth"
   ],
   "note": "Over the reals, Oerlemans scheme: range, no brightening with age, no darkening with depth."
  },
  {
   "property": "C30",
   "status": "partial",
   "theorems": [
    "Cosipy.C30_range_partial",
    "Cosipy.C30_melting_factor",
    "Cosipy.C30_refuted",
    "Cosipy.C30_step",
    "Cosipy.C30_oerlemans_step",
    "Cosipy.C30_oerlemans_run"
   ],
   "note": "Refuted: with the shipped constants and hourly steps an aged melting surface leaves every bound (C30_refuted, factor -1.4 per step in C30_melting_factor). C30_range_partial: the range holds when time scale times step length in days is at least one. With the Oerlemans method the value is handed on unchanged (C30_oerlemans_run)."
  },
  {
   "property": "C31",
   "status": "proved",
   "theorems": [
    "Cosipy.C31_range",
    "Cosipy.C31_ages",
    "Cosipy.C31_linear",
    "Cosipy.C31_returns"
   ],
   "note": "Range, monotone ageing, linear growth, and that the method returns."
  },
  {
   "property": "C32",
   "status": "proved",
   "theorems": [
    "Cosipy.C32_split",
    "Cosipy.C32_step",
    "Cosipy.C32_given",
    "Cosipy.C32_missing"
   ],
   "note": "Splitting by tanh needs only -1 <= tanh <= 1; given snowfall is used as is; missing inputs raise."
  },
  {
   "property": "C33",
   "status": "proved",
   "theorems": [
    "Cosipy.C33_signs",
    "Cosipy.C33_energy",
    "Cosipy.C33_melt",
    "Cosipy.C33_balance",
    "Cosipy.C33_cumulative"
   ],
   "note": "Signs of the vapour terms, melt energy, surface/internal balance and cumulative balance for every step and run."
  },
  {
   "property": "C34",
   "status": "proved",
   "theorems": [
    "Cosipy.C34_bounds",
    "Cosipy.C34_step",
    "Cosipy.C34_unknown_method"
   ],
   "note": "Assumes only that the external minimisers respect their lower bound (RespectsLower); an unknown method raises."
  },
  {
   "property": "C35",
   "status": "proved",
   "theorems": [
    "Cosipy.C35_factor",
    "Cosipy.C35_jump",
    "Cosipy.C35_factor_antitone",
    "Cosipy.C35_vanish",
    "Cosipy.C35_direction"
   ],
   "note": "Over the reals, Richardson correction: factor in [0,1], jump at 0.01, monotone, vanishing fluxes, flux directions."
  },
  {
   "property": "C36",
   "status": "proved",
   "theorems": [
    "Cosipy.C36_denominators",
    "Cosipy.C36_chord",
    "Cosipy.C36_evaluations",
    "Cosipy.C36_errors",
    "Cosipy.C36_affine",
    "Cosipy.C36_unconverged"
   ],
   "note": "The secant iteration: denominators, chord update, number of evaluations, errors, exact on affine functions, silent non-convergence."
  },
  {
   "property": "C37",
   "status": "proved",
   "theorems": [
    "Cosipy.C37_terminates",
    "Cosipy.C37_fluxes",
    "Cosipy.C37_calm"
   ],
   "note": "At least one and at most seven passes of the Monin-Obukhov loop, for any arithmetic; calm air gives zero turbulent fluxes."
  },
  {
   "property": "C38",
   "status": "proved",
   "theorems": [
    "Cosipy.C38_between",
    "Cosipy.C38_linear",
    "Cosipy.C38_shallow",
    "Cosipy.C38_deep",
    "Cosipy.C38_shallow_witness"
   ],
   "note": "Between neighbours, exact on linear profiles; shallow depths wrap to the lowest layer, deep ones raise."
  },
  {
   "property": "C39",
   "status": "partial",
   "theorems": [
    "Cosipy.C39_snowpack_partial",
    "Cosipy.C39_ice_only",
    "Cosipy.C39_density_refuted",
    "Cosipy.C39_missing"
   ],
   "note": "Layer counts, heights, temperatures and dryness are proved for every height and temperature. The density part is false: some layer reports more than the configured bottom density (C39_density_refuted)."
  },
  {
   "property": "C40",
   "status": "partial",
   "theorems": [
    "Cosipy.C40_reported",
    "Cosipy.C40_refuted",
    "Cosipy.C40_reported_partial",
    "Cosipy.C40_fraction_given"
   ],
   "note": "False below the density of ice (C40_refuted, exact excess C40_reported). Kept: bound, order and exactness for ice."
  },
  {
   "property": "C41",
   "status": "partial",
   "theorems": [
    "Cosipy.C41_depth",
    "Cosipy.C41_depth_step",
    "Cosipy.C41_heights_partial",
    "Cosipy.C41_counts",
    "Cosipy.C41_snowheight_refuted"
   ],
   "note": "Depth getters agree on every non-empty column. Snow height is refuted for ice above snow (C41_snowheight_refuted) and proved when snow overlies ice."
  },
  {
   "property": "C42",
   "status": "proved",
   "theorems": [
    "Cosipy.C42_roundtrip",
    "Cosipy.C42_overflow",
    "Cosipy.C42_injective",
    "Cosipy.C42_needed"
   ],
   "note": "Everything but the refreezing amounts (which are not saved and are overwritten by the next step, see C44); more layers than max_layers raise ValueError."
  },
  {
   "property": "C43",
   "status": "partial",
   "theorems": [
    "Cosipy.C43_refuted",
    "Cosipy.C43_renamed_partial"
   ],
   "note": "False: loading any standalone restart file raises AttributeError (C43_refuted). Kept: after renaming the three scalars the loader returns what the coupled path returns."
  },
  {
   "property": "C44",
   "status": "proved",
   "theorems": [
    "Cosipy.C44_append",
    "Cosipy.C44_resume",
    "Cosipy.C44_bougamont_differs"
   ],
   "note": "Every run, every interruption point, including exceptions, for the Oerlemans albedo; a concrete run shows that the Bougamont albedo differs after a restart."
  },
  {
   "property": "C45",
   "status": "proved",
   "theorems": [
    "Cosipy.C45_order",
    "Cosipy.C45_run",
    "Cosipy.C45_stake_rows",
    "Cosipy.C45_stake_order_matters"
   ],
   "note": "All schedules: any two completion orders give the same arrays and datasets. Rows of the stake statistics are the same up to order; their order follows the schedule (C45_stake_order_matters)."
  },
  {
   "property": "C46",
   "status": "proved",
   "theorems": [
    "Cosipy.C46_tasks",
    "Cosipy.C46_written",
    "Cosipy.C46_restart",
    "Cosipy.C46_sizes",
    "Cosipy.C46_no_glacier"
   ],
   "note": "Submitted tasks, result variables and restart variables with their sizes (C46_sizes) on every domain and schedule; without a glacier cell the files get no output variables (C46_no_glacier)."
  },
  {
   "property": "C47",
   "status": "partial",
   "theorems": [
    "Cosipy.C47_iff",
    "Cosipy.C47_default",
    "Cosipy.C47_default_full",
    "Cosipy.C47_stops",
    "Cosipy.C47_wrong_list"
   ],
   "note": "Exact condition on the configured names (C47_iff). False for the default layer list: KeyError on every domain (C47_default_full). True for all selections of the other default names."
  },
  {
   "property": "C48",
   "status": "proved",
   "theorems": [
    "Cosipy.C48_stored",
    "Cosipy.C48_restart",
    "Cosipy.C48_complete",
    "Cosipy.C48_coupled"
   ],
   "note": "Every stored array comes from the position of its own value in the worker result; same for the restart data and the coupled return."
  },
  {
   "property": "C49",
   "status": "partial",
   "theorems": [
    "Cosipy.C49_last",
    "Cosipy.C49_fails_iff",
    "Cosipy.C49_correct",
    "Cosipy.C49_idempotent",
    "Cosipy.C49_constants_idempotent",
    "Cosipy.C49_coupled_partial",
    "Cosipy.C49_refuted",
    "Cosipy.C49_shipped",
    "Cosipy.C49_slurm",
    "Cosipy.C49_values"
   ],
   "note": "The last table with a key wins, when loading fails, the corrections and their idempotence hold for every file. Refuted for coupled mode when a later table repeats a key (C49_refuted); C49_coupled_partial holds when the keys occur in their own tables only, as in the shipped files (C49_shipped)."
  },
  {
   "property": "C50",
   "status": "partial",
   "theorems": [
    "Cosipy.C50_routine",
    "Cosipy.C50_empty",
    "Cosipy.C50_others_partial",
    "Cosipy.C50_slope",
    "Cosipy.C50_always_true",
    "Cosipy.C50_returns"
   ],
   "note": "The routine and nine of ten fields are proved. The slope bounds are swapped, so every slope strictly between 0 and 90 is reported (C50_slope), and the check always returns True."
  },
  {
   "property": "C51",
   "status": "partial",
   "theorems": [
    "Cosipy.C51_sorted_partial",
    "Cosipy.C51_iff",
    "Cosipy.C51_refuted",
    "Cosipy.C51_period",
    "Cosipy.C51_gap",
    "Cosipy.C51_restart"
   ],
   "note": "Refuted for input out of time order: labels are sorted, records are not (C51_refuted, C51_iff). C51_sorted_partial: for ordered input exactly the records of the period are used. Empty selections and quoted restart times are characterised."
  },
  {
   "property": "C52",
   "status": "proved",
   "theorems": [
    "Cosipy.C52_consent",
    "Cosipy.C52_again"
   ],
   "note": "Every file system, every list of answers, every set of arguments: nothing is overwritten without consent, other files are untouched."
  },
  {
   "property": "C53",
   "status": "partial",
   "theorems": [
    "Cosipy.C53_humidity_partial",
    "Cosipy.C53_refuted",
    "Cosipy.C53_bias",
    "Cosipy.C53_temperature",
    "Cosipy.C53_point",
    "Cosipy.C53_domain",
    "Cosipy.C53_point_temperature",
    "Cosipy.C53_domain_temperature"
   ],
   "note": "Range [0,100] with values in range unchanged; exactly 0 passes and the order is not kept (C53_refuted). Written point and domain files have no gaps on the glacier, humidity in range and no negative precipitation, snowfall or corrected radiation."
  },
  {
   "property": "C54",
   "status": "partial",
   "theorems": [
    "Cosipy.C54_grid_partial",
    "Cosipy.C54_grid_transitive",
    "Cosipy.C54_grid_decreasing",
    "Cosipy.C54_point_factor",
    "Cosipy.C54_point_iff",
    "Cosipy.C54_point_high",
    "Cosipy.C54_refuted"
   ],
   "note": "Proved for distributed input; for point input the error factor is exact and the claim fails for every station not at sea level (C54_point_iff, C54_refuted)."
  },
  {
   "property": "C55",
   "status": "partial",
   "theorems": [
    "Cosipy.C55_humidity",
    "Cosipy.C55_precipitation",
    "Cosipy.C55_nonneg_iff",
    "Cosipy.C55_snow_mass",
    "Cosipy.C55_density",
    "Cosipy.C55_mask_partial",
    "Cosipy.C55_mask_refuted",
    "Cosipy.C55_static_mask",
    "Cosipy.C55_static_check",
    "Cosipy.C55_wind",
    "Cosipy.C55_saturation"
   ],
   "note": "Humidity range and value (C55_saturation), telescoping precipitation, snow mass and wind are proved; the mask is right for every class but 0 (C55_mask_partial, C55_mask_refuted)."
  },
  {
   "property": "C56",
   "status": "partial",
   "theorems": [
    "Cosipy.C56_diffuse",
    "Cosipy.C56_diffuse_antitone",
    "Cosipy.C56_formula",
    "Cosipy.C56_flat",
    "Cosipy.C56_horizon",
    "Cosipy.C56_threshold",
    "Cosipy.C56_nonneg_partial",
    "Cosipy.C56_lower",
    "Cosipy.C56_refuted",
    "Cosipy.C56_haversine",
    "Cosipy.C56_symmetric",
    "Cosipy.C56_self",
    "Cosipy.C56_range",
    "Cosipy.C56_triangle"
   ],
   "note": "Flat ground, diffuse fraction and great-circle distance (with triangle inequality) are proved over the reals. Never-negative is false for slopes facing away from the sun (C56_refuted); C56_nonneg_partial covers the rest."
  },
  {
   "property": "C57",
   "status": "partial",
   "theorems": [
    "Cosipy.C57_prepare",
    "Cosipy.C57_absent",
    "Cosipy.C57_only_supported",
    "Cosipy.C57_supported",
    "Cosipy.C57_outcome_partial",
    "Cosipy.C57_empty",
    "Cosipy.C57_ignores_snowfall",
    "Cosipy.C57_ignores_lwin",
    "Cosipy.C57_ignores_n",
    "Cosipy.C57_refuted"
   ],
   "note": "C57_prepare/C57_supported/C57_only_supported: which inputs are read, how a cell with the supported combinations runs and that every other combination raises. Refuted (C57_refuted): not always the documented ValueError. SNOWFALL without RRR raises TypeError, force_use_N without N or no inputs AttributeError, an empty period UnboundLocalError."
  },
  {
   "property": "C58",
   "status": "proved",
   "theorems": [
    "Cosipy.C58_step",
    "Cosipy.C58_closed",
    "Cosipy.C58_compaction_sign",
    "Cosipy.C58_no_creation"
   ],
   "note": "C58_step: exact budget of every returning step, with the terms that are not conserved named (thin layer dropped, compaction, pore air counted as melt, water of removed layers, vapour not taken from the column). C58_closed, C58_compaction_sign, C58_no_creation: when the terms vanish and which sign they have."
  },
  {
   "property": "C59",
   "status": "proved",
   "theorems": [
    "Cosipy.C59_run_constant",
    "Cosipy.C59_step",
    "Cosipy.C59_run",
    "Cosipy.C59_run_empirical",
    "Cosipy.C59_boone_light",
    "Cosipy.C59_boone_refuted"
   ],
   "note": "C59_step, C59_run: all forcing sequences, all densification methods (Vionnet: cosine as computed not negative), given positive heights after compaction and air temperature above the floor at which freezing cannot overheat a layer. C59_run_constant and C59_run_empirical need no assumption on compaction; C59_boone_light gives a sufficient mass bound, C59_boone_refuted shows a negative height without it. SciPy minimisers are assumed to respect their lower bound."
  },
  {
   "property": "C60",
   "status": "proved",
   "theorems": [
    "Cosipy.C60_run",
    "Cosipy.C60_returns",
    "Cosipy.C60_mass_balance",
    "Cosipy.C60_snow_height",
    "Cosipy.C60_no_stakes",
    "Cosipy.C60_resume",
    "Cosipy.C60_evaluate",
    "Cosipy.C60_rmse"
   ],
   "note": "C60_run/C60_returns: recording stakes does not alter or break a run. C60_mass_balance, C60_snow_height: table entry per measured time. C60_rmse over the reals. C60_evaluate: every outcome of the evaluation. C60_resume: a resumed run counts from zero, so its value lacks the balance before the interruption."
  },
  {
   "property": "C62",
   "status": "partial",
   "theorems": [
    "Cosipy.C62_pole",
    "Cosipy.C62_elevation_partial",
    "Cosipy.C62_noon_highest",
    "Cosipy.C62_mirror",
    "Cosipy.C62_longitude",
    "Cosipy.C62_site",
    "Cosipy.C62_noon_refuted",
    "Cosipy.C62_sign",
    "Cosipy.C62_corrected",
    "Cosipy.C62_low_sun"
   ],
   "note": "Elevation, symmetry and poles are proved over the reals. Refuted: longitude, time zone and equation of time cancel (C62_longitude), and the azimuth at noon is positive unless the sun is in the zenith (C62_noon_refuted). C62_corrected, C62_low_sun: how the position enters the corrected radiation."
  },
  {
   "property": "C63",
   "status": "partial",
   "theorems": [
    "Cosipy.C63_lookup_partial",
    "Cosipy.C63_write_injective",
    "Cosipy.C63_short_step",
    "Cosipy.C63_five_hours_refuted",
    "Cosipy.C63_nine_hours_refuted",
    "Cosipy.C63_hour_angle",
    "Cosipy.C63_hour_angle_iff",
    "Cosipy.C63_hour_angle_shipped",
    "Cosipy.C63_svf_range",
    "Cosipy.C63_svf_shaded",
    "Cosipy.C63_svf_flat",
    "Cosipy.C63_svf_share",
    "Cosipy.C63_polar_refuted",
    "Cosipy.C63_solpars_ok",
    "Cosipy.C63_parameters"
   ],
   "note": "Lookup is right for steps that divide the day (C63_lookup_partial); refuted for 5 and 9 hours; hour angles agree only for hourly steps; the sky view factor is the share of sampled points that are seen (C63_svf_share); ValueError beyond 66.56 degrees latitude (C63_polar_refuted), none up to 66.46 degrees (C63_solpars_ok); the solar parameters of every day are given exactly (C63_parameters)."
  },
  {
   "property": "C64",
   "status": "partial",
   "theorems": [
    "Cosipy.C64_bins",
    "Cosipy.C64_clock",
    "Cosipy.C64_total_partial",
    "Cosipy.C64_fields",
    "Cosipy.C64_total_nogap",
    "Cosipy.C64_gap",
    "Cosipy.C64_gap_ge",
    "Cosipy.C64_mean",
    "Cosipy.C64_pressure_refuted",
    "Cosipy.C64_pressure_measured",
    "Cosipy.C64_precipitation",
    "Cosipy.C64_gap_refuted"
   ],
   "note": "Intervals, totals and means are proved for every file and, in the distributed case, every aggregation step. Refuted: gap filling repeats precipitation (C64_gap_refuted) and the 660 hPa fallback is never reached (C64_pressure_refuted)."
  },
  {
   "property": "C61",
   "status": "partial",
   "theorems": [
    "Cosipy.C61_aws_partial",
    "Cosipy.C61_aws_root",
    "Cosipy.C61_static_wrf",
    "Cosipy.C61_needed",
    "Cosipy.C61_aws_needed",
    "Cosipy.C61_lapse_needed",
    "Cosipy.C61_radiation_needed",
    "Cosipy.C61_refuted",
    "Cosipy.C61_config",
    "Cosipy.C61_constants",
    "Cosipy.C61_convert",
    "Cosipy.C61_convert_constants",
    "Cosipy.C61_convert_utilities",
    "Cosipy.C61_convert_all",
    "Cosipy.C61_convert_refuted",
    "Cosipy.C61_prefix_partial",
    "Cosipy.C61_prefix_refuted"
   ],
   "note": "Main program, constants, create_static, wrf2cosipy and the converter: proved for every file with the generated keys. aws2cosipy: the generated utilities_config.toml lacks LUT_path, so grid mode with Moelg2009 stops with KeyError (C61_refuted); C61_aws_partial shows this is the only case, C61_aws_root that the file at the repository root has no such case. Output prefix: C61_prefix_partial for names of the form prefix_date or prefix.nc; other names are cut (C61_prefix_refuted). Converted utilities_config.toml: all keys with the old values (C61_convert_utilities), but None is written as 0, and radiationModule = 0 stops aws2cosipy (C61_convert_refuted). Which settings the utilities cannot do without: C61_needed, C61_aws_needed."
  },
  {
   "property": "C65",
   "status": "partial",
   "theorems": [
    "Cosipy.C65_refuted",
    "Cosipy.C65_stops_early",
    "Cosipy.C65_stops_late",
    "Cosipy.C65_continue_partial",
    "Cosipy.C65_plain",
    "Cosipy.C65_outside",
    "Cosipy.C65_dates"
   ],
   "note": "C65_refuted: with restart=true main fails for every form of the time settings, every input and disk (quoted times: AttributeError strftime before anything runs, C65_stops_early; unquoted: TypeError when naming the output after the whole simulation, C65_stops_late). C65_continue_partial: the selection itself is right: both runs together process every record once, in order, with the saved state. C65_plain: a run without restart writes the restart file of its last record. C65_dates: unquoted dates mean their midnight."
  },
  {
   "property": "C66",
   "status": "partial",
   "theorems": [
    "Cosipy.C66_frame",
    "Cosipy.C66_output_partial",
    "Cosipy.C66_hours_refuted",
    "Cosipy.C66_restart_refuted"
   ],
   "note": "C66_frame: a run changes only its own two files. C66_output_partial: result names agree iff prefix and first ten characters (dates) of both times agree. C66_hours_refuted: two halves of one day share a result file. C66_restart_refuted: restart files carry no prefix, so another glacier with the same end time replaces them."
  },
  {
   "property": "C67",
   "status": "partial",
   "theorems": [
    "Cosipy.C67_cells",
    "Cosipy.C67_cover",
    "Cosipy.C67_same_partial",
    "Cosipy.C67_names_refuted"
   ],
   "note": "C67_cells, C67_cover: selected rows/columns are exactly the requested ones and consecutive tiles cover all once. C67_same_partial: a tile cell has the same stored value as in the full run for every variable (non-restart, non-negative bounds). C67_names_refuted: dimension names other than lat/lon (south_north/west_east with WRF) always fail."
  },
  {
   "property": "C68",
   "status": "partial",
   "theorems": [
    "Cosipy.C68_nearest",
    "Cosipy.C68_wrap",
    "Cosipy.C68_injective",
    "Cosipy.C68_exact_partial",
    "Cosipy.C68_once",
    "Cosipy.C68_far_refuted"
   ],
   "note": "C68_nearest, C68_once, C68_wrap, C68_injective and C68_exact_partial (away from the poles, one longitude convention among cells). C68_far_refuted: stakes anywhere on the globe are assigned to some cell of the domain."
  },
  {
   "property": "C69",
   "status": "proved",
   "theorems": [
    "Cosipy.C69_simulated",
    "Cosipy.C69_series",
    "Cosipy.C69_layers",
    "Cosipy.C69_recorded",
    "Cosipy.C69_restart"
   ],
   "note": "End to end: `C69_simulated` (one simulation per glacier cell, independent of the schedule), `C69_series`, `C69_layers`, `C69_restart`. The meaning of every name is spelled out in Spec/Output.lean. Input variables copied to the result file are treated in C47/C48."
  },
  {
   "property": "C70",
   "status": "proved",
   "theorems": [
    "Cosipy.C70_balance",
    "Cosipy.C70_signs",
    "Cosipy.C70_energy",
    "Cosipy.C70_temperature",
    "Cosipy.C70_heights",
    "Cosipy.C70_layers",
    "Cosipy.C70_mixture",
    "Cosipy.C70_start",
    "Cosipy.C70_layers_constant",
    "Cosipy.C70_roughness",
    "Cosipy.C70_layers_empirical",
    "Cosipy.C70_layers_general",
    "Cosipy.C70_albedo"
   ],
   "note": "Values read off the result file of a finished run of the whole program. Layers: `C70_layers` assumes the physical ranges hold at the visited columns; `C70_layers_constant` and `C70_layers_empirical` discharge this for these densification methods, and `C70_layers_general` for every method provided all recorded layer heights are positive (compaction can make them negative: C59). Albedo for Oerlemans98 with constants in the usual order. Solver: respects its lower bound."
  },
  {
   "property": "C71",
   "status": "proved",
   "theorems": [
    "Cosipy.C71_exception",
    "Cosipy.C71_others",
    "Cosipy.C71_order",
    "Cosipy.C71_rerun",
    "Cosipy.C71_old_result_lost",
    "Cosipy.C71_one_cell"
   ],
   "note": "Crash states are those between file openings and completed writes; the stake CSV files, log files and Slurm scratch files are not included. C71_old_result_lost shows the window in which the previous result of the same name is already gone."
  },
  {
   "property": "C72",
   "status": "proved",
   "theorems": [
    "Cosipy.C72_first_step",
    "Cosipy.C72_chain",
    "Cosipy.C72_values",
    "Cosipy.C72_empty"
   ],
   "note": "The driver is not part of the repository; it is assumed to pass back the returned entries under the names load_snowpack reads. The albedo scheme is the one coupled mode sets (C49). Stake evaluation in coupled mode is not modelled (it raises)."
  },
  {
   "property": "C73",
   "status": "partial",
   "theorems": [
    "Cosipy.C73_fluxes",
    "Cosipy.C73_closed_partial",
    "Cosipy.C73_fallback",
    "Cosipy.C73_cold",
    "Cosipy.C73_calm",
    "Cosipy.C73_unstable",
    "Cosipy.C73_cold_night"
   ],
   "note": "The fluxes of every step are those of one balance at the reported temperature and the melt energy is its positive part (C73_fluxes). Closure up to the solver tolerance is proved for balanced solver answers and a balance that does not rise (C73_closed_partial); the latter is proved for calm air in both schemes and for surfaces warmer than the air (C73_calm, C73_unstable). Refuted in general: the fall-back minimises the signed residual, so it answers the melting point; on a calm cold night with a column below 220 K the surface is reported at the melting point and the missing energy is dropped (C73_cold_night, with a concrete column)."
  },
  {
   "property": "C74",
   "status": "partial",
   "theorems": [
    "Cosipy.C74_stable_function",
    "Cosipy.C74_unstable_function",
    "Cosipy.C74_direction",
    "Cosipy.C74_friction_partial",
    "Cosipy.C74_stable",
    "Cosipy.C74_friction_refuted"
   ],
   "note": "Directions (C74_direction), damping over surfaces not warmer than the air (C74_stable) and the shape of the stability functions are proved for every number of passes. The friction velocity is proved not negative in stable and neutral air (C74_friction_partial) and refuted in strongly unstable air (C74_friction_refuted): the stability correction exceeds the logarithm."
  },
  {
   "property": "C75",
   "status": "proved",
   "theorems": [
    "Cosipy.C75_saturation",
    "Cosipy.C75_latent",
    "Cosipy.C75_no_uptake",
    "Cosipy.C75_no_loss"
   ],
   "note": "Over the real numbers, for wind, humidity, pressure, roughness and slope in their physical ranges (structure SaneStep). Wet-bulb and supersaturated air colder than the surface are outside the two statements."
  },
  {
   "property": "C76",
   "status": "proved",
   "theorems": [
    "Cosipy.C76_step",
    "Cosipy.C76_completes",
    "Cosipy.C76_run",
    "Cosipy.C76_run_constant",
    "Cosipy.C76_quiet",
    "Cosipy.C76_quiet_outcome"
   ],
   "note": "Exact real arithmetic. Hypotheses: Ready (settings, solvers that end and respect the lower bound), Supplied (forcing), GoodLayer (layers). The result of the step does not depend on the loop bound of the model from some bound on. C76_quiet and C76_quiet_outcome run a concrete step through all of it."
  },
  {
   "property": "C77",
   "status": "partial",
   "theorems": [
    "Cosipy.C77_geometry",
    "Cosipy.C77_clear_sky",
    "Cosipy.C77_night",
    "Cosipy.C77_night_gaps",
    "Cosipy.C77_range",
    "Cosipy.C77_shade",
    "Cosipy.C77_level",
    "Cosipy.C77_clouds",
    "Cosipy.C77_jump_refuted",
    "Cosipy.C77_rayleigh_refuted",
    "Cosipy.C77_rows",
    "Cosipy.C77_svf_rows",
    "Cosipy.C77_domain"
   ],
   "note": "Proved over the reals: sun and slope geometry against a vector specification, bounds for pressures up to 820 hPa, night (with gaps too, C77_night_gaps), shade, level cells, exact condition for the fall with clouds; rows and tables for any arithmetic. Violated: the radiation jumps at cloud fraction 0 (C77_jump_refuted) and the Rayleigh transmissivity exceeds 1 near the horizon at sea level (C77_rayleigh_refuted), so the bounds carry the hypothesis on the pressure."
  },
  {
   "property": "C78",
   "status": "partial",
   "theorems": [
    "Cosipy.C78_sight_line",
    "Cosipy.C78_where",
    "Cosipy.C78_sun_height",
    "Cosipy.C78_terrain",
    "Cosipy.C78_reference",
    "Cosipy.C78_summit",
    "Cosipy.C78_returns",
    "Cosipy.C78_order_refuted",
    "Cosipy.C78_border_refuted",
    "Cosipy.C78_sun_partial",
    "Cosipy.C78_sun_mirrored",
    "Cosipy.C78_sun_refuted",
    "Cosipy.C78_svf_plain"
   ],
   "note": "Exact real arithmetic. Proved: line of sight, monotone in sun and terrain, shift, summits, plains, which cells get a value, return on equally spaced grids with latitudes from north to south if the glacier is two cells away from the border, direction for hour angles up to 180 degrees. Violated: latitudes from south to north raise (C78_order_refuted), cells next to the border can raise (C78_border_refuted), the sun is mirrored beyond 180 degrees (C78_sun_mirrored, C78_sun_refuted); border cells get no value (C78_where)."
  },
  {
   "property": "C79",
   "status": "partial",
   "theorems": [
    "Cosipy.C79_effect",
    "Cosipy.C79_weq",
    "Cosipy.C79_weq_partial",
    "Cosipy.C79_water_refuted",
    "Cosipy.C79_firn_refuted",
    "Cosipy.C79_heat_refuted"
   ],
   "note": "Effect and exact mass change for every column (C79_effect, C79_weq); conserved for dry pure ice below (C79_weq_partial). Violated: liquid water of the ice is lost (C79_water_refuted), mass changes over porous ice (C79_firn_refuted), the temperature of the snow is dropped (C79_heat_refuted). The function has no caller in the repository."
  },
  {
   "property": "C80",
   "status": "proved",
   "theorems": [
    "Cosipy.C80_measured",
    "Cosipy.C80_clouds",
    "Cosipy.C80_humidity",
    "Cosipy.C80_range",
    "Cosipy.C80_percent"
   ],
   "note": "Over the reals. C80_measured holds for any arithmetic. C80_percent states what happens outside the stated range (the program only prints a warning)."
  },
  {
   "property": "C81",
   "status": "proved",
   "theorems": [
    "Cosipy.C81_step",
    "Cosipy.C81_run",
    "Cosipy.C81_run_constant",
    "Cosipy.C81_binary64"
   ],
   "note": "C81_step for one step and all its stages, C81_run for runs (assuming that compaction leaves no negative height, which C59_boone_refuted shows is needed), C81_run_constant without that assumption, C81_binary64 for double precision with the shipped constants. Overflow, infinities and NaN are not covered. Upper bounds (temperature of inner layers at the melting point, ice fraction at 1) and conservation are not claimed under rounding."
  },
  {
   "property": "C82",
   "status": "proved",
   "theorems": [
    "Cosipy.C82_integrates",
    "Cosipy.C82_terminates",
    "Cosipy.C82_diverges"
   ],
   "note": "Exactness for any positive stability bound; the criterion 2^(1-p) (ends) and 2^-(p+3) (never ends) leaves a factor 16 between. The divergence needs layers below a nanometre, which remeshing does not leave in the snow. Overflow is not modelled."
  },
  {
   "property": "C83",
   "status": "proved",
   "theorems": [
    "Cosipy.C83_step",
    "Cosipy.C83_cumulative",
    "Cosipy.C83_cumulative_linear",
    "Cosipy.C83_height",
    "Cosipy.C83_century"
   ],
   "note": "Errors of the terms themselves (melt, refreezing, ...) are not bounded, only those of their sums."
  },
  {
   "property": "C84",
   "status": "proved",
   "theorems": [
    "Cosipy.C84_snow_loop",
    "Cosipy.C84_ice_loop",
    "Cosipy.C84_log"
   ],
   "note": "The adaptive method ends in any arithmetic (C07). The glacier height is the one the program computes between the two loops."
  },
  {
   "property": "C85",
   "status": "partial",
   "theorems": [
    "Cosipy.C85_attributes",
    "Cosipy.C85_settings_partial",
    "Cosipy.C85_lost",
    "Cosipy.C85_settings_refuted",
    "Cosipy.C85_labels_partial",
    "Cosipy.C85_input_described",
    "Cosipy.C85_labels_refuted",
    "Cosipy.C85_carried",
    "Cosipy.C85_coordinates",
    "Cosipy.C85_output",
    "Cosipy.C85_described",
    "Cosipy.C85_snowfall",
    "Cosipy.C85_same",
    "Cosipy.C85_water_refuted"
   ],
   "note": "Refuted: thermal_conductivity_method, sfc_temperature_method, zlt1, zlt2, t_star_* and most of the configuration leave no trace in the attributes; absent RRR and N carry swapped units and description; LAYER_LWC is labelled kg m^-2 but is a fraction. Everything else proved: units, and descriptions of input, surface and layer variables (C85_input_described, C85_described)."
  },
  {
   "property": "C86",
   "status": "partial",
   "theorems": [
    "Cosipy.C86_grid",
    "Cosipy.C86_wrf",
    "Cosipy.C86_point_partial",
    "Cosipy.C86_point_refuted",
    "Cosipy.C86_static_latitude",
    "Cosipy.C86_aws_variables",
    "Cosipy.C86_aws_units_partial",
    "Cosipy.C86_aws_units_refuted",
    "Cosipy.C86_wrf_units_partial",
    "Cosipy.C86_wrf_units_refuted"
   ],
   "note": "Refuted: the 1-D branch with WRF dimensions swaps latitude and longitude; N is labelled % but a fraction is meant (aws2cosipy); T2 is labelled m (wrf2cosipy). Everything else proved."
  },
  {
   "property": "C87",
   "status": "partial",
   "theorems": [
    "Cosipy.C87_routine",
    "Cosipy.C87_aws_warned",
    "Cosipy.C87_wrf_warned",
    "Cosipy.C87_aws_partial",
    "Cosipy.C87_wrf_partial",
    "Cosipy.C87_aws_refuted",
    "Cosipy.C87_wrf_refuted",
    "Cosipy.C87_converse_refuted"
   ],
   "note": "Refuted for temperature, pressure, longwave radiation (and snowfall of wrf2cosipy); proved for the other variables."
  },
  {
   "property": "C88",
   "status": "partial",
   "theorems": [
    "Cosipy.C88_printed_partial",
    "Cosipy.C88_printed_upper",
    "Cosipy.C88_printed_outside",
    "Cosipy.C88_drawn_partial",
    "Cosipy.C88_drawn_above",
    "Cosipy.C88_cell",
    "Cosipy.C88_refuted"
   ],
   "note": "Refuted: in the upper half of every layer but the first the value of the layer above is shown. Proved: lower halves, the first layer, outside the column, the grid point."
  },
  {
   "property": "C89",
   "status": "partial",
   "theorems": [
    "Cosipy.C89_merge",
    "Cosipy.C89_merge_partial",
    "Cosipy.C89_conduct",
    "Cosipy.C89_conduct_partial",
    "Cosipy.C89_iff",
    "Cosipy.C89_call",
    "Cosipy.C89_uniform_partial",
    "Cosipy.C89_conduct_refuted",
    "Cosipy.C89_merge_refuted"
   ],
   "note": "Refuted: merging averages temperatures by height, not by heat capacity; conduction divides fluxes by spacing, not by the height and capacity of the layer. Exact change proved for both and for whole calls; heat is kept exactly if capacities or temperatures agree (merging), and for all closed profiles exactly if all inner layers have the same share C*h/spacing (conduction)."
  },
  {
   "property": "C90",
   "status": "proved",
   "theorems": [
    "Cosipy.C90_parts",
    "Cosipy.C90_step",
    "Cosipy.C90_adaptive",
    "Cosipy.C90_iff",
    "Cosipy.C90_run",
    "Cosipy.C90_patience",
    "Cosipy.C90_nan",
    "Cosipy.C90_float"
   ],
   "note": "Generic in the arithmetic. C90_iff: the condition on heat conduction is necessary. C90_patience: the number of loop passes the model allows never changes an outcome. C90_float: in binary floating point with adaptive remeshing a step ends if the stability bound is positive and at least 2^(1-p) of dt. C90_nan: a NaN top layer makes melt removal endless. SciPy's solvers are assumed to end (Solvers.Halt)."
  },
  {
   "property": "C91",
   "status": "partial",
   "theorems": [
    "Cosipy.C91_lookup_partial",
    "Cosipy.C91_built_partial",
    "Cosipy.C91_five_hours_refuted",
    "Cosipy.C91_short_step",
    "Cosipy.C91_entry"
   ],
   "note": "Proved for steps of a whole number of hours that divides the day (C91_lookup_partial, C91_built_partial); the content of an entry (C91_entry) without that bound. Refuted otherwise: with five hours the table is never built (C91_five_hours_refuted), under an hour it raises (C91_short_step). The direction of the sun is that of C78. Real arithmetic for the content, any arithmetic for the positions."
  },
  {
   "property": "C92",
   "status": "partial",
   "theorems": [
    "Cosipy.C92_distributed",
    "Cosipy.C92_points",
    "Cosipy.C92_scalars",
    "Cosipy.C92_quads_partial",
    "Cosipy.C92_quads_refuted",
    "Cosipy.C92_mean_partial",
    "Cosipy.C92_mean_refuted",
    "Cosipy.C92_mean",
    "Cosipy.C92_time",
    "Cosipy.C92_names_partial",
    "Cosipy.C92_names_refuted",
    "Cosipy.C92_ticks_partial",
    "Cosipy.C92_ticks_refuted",
    "Cosipy.C92_first_stake",
    "Cosipy.C92_fields",
    "Cosipy.C92_panels"
   ],
   "note": "Surface points, colours, single times, means and variables in full (C92_points, C92_scalars, C92_time, C92_mean, C92_fields, C92_panels; for the places of the panels see C137); the search for the closest point (VTK) is assumed exact. Refuted: times from noon on show the mean of the next day (C92_mean_refuted, C92_mean_partial before noon); the mesh by indexing (createDEM_v2, not called) lacks and misconnects patches and refers to a missing point (C92_quads_refuted, C92_quads_partial); timestamps of different form can share a file name (C92_names_refuted, C92_names_partial); the time axis of profiles is right for hourly records only (C92_ticks_refuted, C92_ticks_partial); a measurement at the first record is not drawn (C92_first_stake)."
  },
  {
   "property": "C93",
   "status": "partial",
   "theorems": [
    "Cosipy.C93_simulations_partial",
    "Cosipy.C93_statistics",
    "Cosipy.C93_elsewhere_refuted"
   ],
   "note": "Proved for stakes on glacier cells (C93_simulations_partial, C93_statistics), exact arithmetic, different stake names, time stamps that occur once. Refuted for the others: the measurements themselves stand in the file of simulations (C93_elsewhere_refuted). The cell of a stake is that of C68. Rounding in the files is not modelled."
  },
  {
   "property": "C94",
   "status": "partial",
   "theorems": [
    "Cosipy.C94_step_partial",
    "Cosipy.C94_run_partial",
    "Cosipy.C94_overstates",
    "Cosipy.C94_understates",
    "Cosipy.C94_exact",
    "Cosipy.C94_refuted"
   ],
   "note": "Refuted: an hour with frost reports a gain and leaves the column as it was (C94_refuted). Proved instead, in exact arithmetic: the difference is exactly the sum of seven named terms, per step and over a run of any length (C94_step_partial, C94_run_partial), its sign in frosty and in melt hours (C94_overstates, C94_understates) and a condition for equality (C94_exact)."
  },
  {
   "property": "C95",
   "status": "proved",
   "theorems": [
    "Cosipy.C95_step",
    "Cosipy.C95_run_constant",
    "Cosipy.C95_solver",
    "Cosipy.C95_real",
    "Cosipy.C95_run"
   ],
   "note": "Arithmetic with NaN, no infinities (a division by zero gives NaN, so none occurs), no overflow, Richardson scheme. For densification methods other than constant the theorem assumes that no layer height reaches zero (C59 shows that compaction can use up a layer)."
  },
  {
   "property": "C96",
   "status": "partial",
   "theorems": [
    "Cosipy.C96_swallowed",
    "Cosipy.C96_noticed_partial",
    "Cosipy.C96_not_noticed"
   ],
   "note": "Refuted for the three radiation inputs: without global or longwave radiation (or, without it, cloud cover) the melt is reported as zero and the balance is an ordinary number (C96_not_noticed, C96_swallowed). Proved for the other inputs (C96_noticed_partial). Only standalone runs check their input for NaN."
  },
  {
   "property": "C97",
   "status": "partial",
   "theorems": [
    "Cosipy.C97_silent",
    "Cosipy.C97_merge_checked",
    "Cosipy.C97_split_checked",
    "Cosipy.C97_not_reported",
    "Cosipy.C97_surface_partial",
    "Cosipy.C97_surface_exact",
    "Cosipy.C97_check_partial",
    "Cosipy.C97_check_empty",
    "Cosipy.C97_silent_double"
   ],
   "note": "Refuted: the air fraction is computed as what is missing to 1, so the checked sum is 1 whatever the fractions are; no message ever appears, in exact arithmetic and (those with a tolerance) in double precision, and the check before each time step has no content (C97_silent, C97_silent_double, C97_not_reported). Proved: the surface temperature message is exact and never needed; the uncalled Grid.check reports exactly what it says."
  },
  {
   "property": "C98",
   "status": "partial",
   "theorems": [
    "Cosipy.C98_accepts",
    "Cosipy.C98_relabel",
    "Cosipy.C98_refuted",
    "Cosipy.C98_regular_partial",
    "Cosipy.C98_clock",
    "Cosipy.C98_drift"
   ],
   "note": "Refuted: any axis in order inside the period is accepted (C98_accepts, C98_refuted), and the time stamps only label the results (C98_relabel); the clock of the simulation advances by dt per record (C98_clock) and falls behind on a coarser axis (C98_drift). C98_regular_partial: on an axis with the configured step they agree."
  },
  {
   "property": "C99",
   "status": "partial",
   "theorems": [
    "Cosipy.C99_log_partial",
    "Cosipy.C99_adaptive",
    "Cosipy.C99_snowheight_partial",
    "Cosipy.C99_log_refuted",
    "Cosipy.C99_log_not_kept"
   ],
   "note": "Refuted for the logarithmic profile (C99_log_refuted, C99_log_not_kept): a glacier remnant thinner than the next layer height is merged into the lowest snow layer and counted as snow. C99_log_partial / C99_snowheight_partial: it holds if the glacier is at least first_layer_height + (layer_stretching-1)*snow height thick. C99_adaptive: holds for the adaptive profile without condition."
  },
  {
   "property": "C100",
   "status": "proved",
   "theorems": [
    "Cosipy.C100_step",
    "Cosipy.C100_matter",
    "Cosipy.C100_rest",
    "Cosipy.C100_run",
    "Cosipy.C100_run_rest"
   ],
   "note": "C100_step, C100_matter, C100_rest for one step; C100_run, C100_run_rest for runs of any length. Arithmetic is any `Rounded` one, which binary64 without overflow is (C81); the example is in double precision. For the run theorems the layers must be fixed: no remeshing, constant density, surface layer of at least the minimum height."
  },
  {
   "property": "C101",
   "status": "partial",
   "theorems": [
    "Cosipy.C101_fixed_partial",
    "Cosipy.C101_update_partial",
    "Cosipy.C101_refuted",
    "Cosipy.C101_not_idempotent"
   ],
   "note": "Refuted (C101_refuted, C101_not_idempotent): layers below the last full mesh layer are merged in pairs, one level further with every call, so a second call changes the result of the first. C101_fixed_partial, C101_update_partial: a column whose layers have the heights h, s*h, s^2*h, ... (lowest snow and lowest glacier layer possibly with a remainder) is returned unchanged, of any length."
  },
  {
   "property": "C102",
   "status": "partial",
   "theorems": [
    "Cosipy.C102_others",
    "Cosipy.C102_failed",
    "Cosipy.C102_tidy",
    "Cosipy.C102_content_partial",
    "Cosipy.C102_fresh_partial",
    "Cosipy.C102_stale",
    "Cosipy.C102_eats_input"
   ],
   "note": "C102_others, C102_failed, C102_tidy: files that are neither the output nor named like an intermediate file keep their content, a failing run leaves the earlier static file, a successful one leaves no intermediate file. C102_fresh_partial: without leftovers the outcome and the static file are determined by DEM and outline. C102_content_partial: then elevation, slope, aspect and mask are all made from the terrain of the settings (window, average), the mask with the configured outline. Refuted in general: C102_stale (exit status of the gdal commands is ignored and leftovers of a failed run are read; a run with a DEM that does not exist reports success with the earlier terrain), C102_eats_input (a DEM named dem.nc is overwritten and deleted)."
  },
  {
   "property": "C103",
   "status": "proved",
   "theorems": [
    "Cosipy.C103_past",
    "Cosipy.C103_shorter",
    "Cosipy.C103_file"
   ],
   "note": "C103_past: two successful runs on inputs with the same first n records return the same numbers for the first n steps in every array. C103_shorter: a run over the first n records of an input that can be simulated succeeds with the same numbers, or (only without full_field) stops with the ValueError about max_layers. C103_file: the same for the result file of the program on a domain. No laws of arithmetic are used, so it holds for doubles. A later step that raises loses the whole result of the program (C71_one_cell)."
  },
  {
   "property": "C104",
   "status": "partial",
   "theorems": [
    "Cosipy.C104_calm_partial",
    "Cosipy.C104_neutral",
    "Cosipy.C104_stable",
    "Cosipy.C104_exists_partial",
    "Cosipy.C104_two",
    "Cosipy.C104_none",
    "Cosipy.C104_none_refuted",
    "Cosipy.C104_refuted"
   ],
   "note": "Refuted both ways: the stability factor jumps from 1 to 0.9025 at a Richardson number of 0.01. C104_two / C104_refuted: with the shipped constants and the shipped secant method, two columns that differ only in the temperature of the top layer report different surface temperatures under the same weather, both balanced. C104_none / C104_none_refuted: there is weather for which no temperature below the melting point is balanced, whatever the method and solver. Proved: exactly one solution in calm air (C104_calm_partial), at most one in near neutral or unstable air (C104_neutral) and in very stable air (C104_stable), existence where the turbulent fluxes heat the surface at the jump (C104_exists_partial). Exact real arithmetic; nothing is shown about uniqueness between the Richardson numbers 0.01 and 0.2 or with wind in the Monin-Obukhov scheme."
  },
  {
   "property": "C105",
   "status": "proved",
   "theorems": [
    "Cosipy.C105_runoff",
    "Cosipy.C105_binary64",
    "Cosipy.C105_stored"
   ],
   "note": "C105_runoff for every rounded arithmetic (C105_binary64: double precision); C105_stored (layers and the bound on the growth) in exact arithmetic. Heights not negative; both calls succeed (C16_returns)."
  },
  {
   "property": "C106",
   "status": "partial",
   "theorems": [
    "Cosipy.C106_layer",
    "Cosipy.C106_runoff",
    "Cosipy.C106_lowest_partial",
    "Cosipy.C106_refuted"
   ],
   "note": "Proved for all divisions of layers above the lowest one (C106_layer for one division with the exact layers, C106_runoff for any sequence). Refuted for the lowest layer (C106_refuted): it is always drained completely, so divided, its upper part keeps its irreducible water and the runoff is smaller by just that (C106_lowest_partial). Exact arithmetic."
  },
  {
   "property": "C107",
   "status": "partial",
   "theorems": [
    "Cosipy.C107_step_partial",
    "Cosipy.C107_uniform_partial",
    "Cosipy.C107_refuted"
   ],
   "note": "Refuted: C107_refuted is a calm dry night with an exactly closed surface balance in which the column gains more than four times what the ground heat flux brings. Proved instead: the exact change, namely the heat that brings the whole top layer to the surface temperature plus what conduction adds (C107_step_partial; C107_uniform_partial for layers of equal height and capacity). Exact arithmetic; heat relative to 0 K; no remeshing and constant density. The witness uses rational numbers with the correct powers and no wind, so the other elementary functions do not matter."
  },
  {
   "property": "C108",
   "status": "partial",
   "theorems": [
    "Cosipy.C108_boone",
    "Cosipy.C108_vionnet",
    "Cosipy.C108_excess",
    "Cosipy.C108_bounds_partial",
    "Cosipy.C108_hidden",
    "Cosipy.C108_refuted"
   ],
   "note": "Refuted: half the top layer is counted on top of the weight above (C108_excess), and a layer of at most the minimum height hides the layer above it from all layers below (C108_hidden), so the load can be smaller than any fraction of the weight above (C108_refuted). Proved: the exact load for every layer in both methods (C108_boone, C108_vionnet), and that it lies between the weight above and one and a half times that if all layers are compacted (C108_bounds_partial). Exact arithmetic."
  },
  {
   "property": "C109",
   "status": "proved",
   "theorems": [
    "Cosipy.C109_max_principle",
    "Cosipy.C109_melting_point",
    "Cosipy.C109_binary64"
   ],
   "note": "IEEE 754 arithmetic without overflow (Model/Float.lean), for at least 24 bits and gradual underflow; C109_binary64 is double precision with the shipped constants. The material constants are assumed to lie in wide ranges (Consts.Ranged), the ice fraction and water content of the layers between 0 and 1."
  },
  {
   "property": "C110",
   "status": "proved",
   "theorems": [
    "Cosipy.C110_percolation",
    "Cosipy.C110_refreezing",
    "Cosipy.C110_refrozen",
    "Cosipy.C110_merge",
    "Cosipy.C110_percolation_binary64",
    "Cosipy.C110_refreezing_binary64"
   ],
   "note": "IEEE 754 arithmetic without overflow (Model/Float.lean). The totals are exact sums of exact products of the stored numbers. Refreezing: layers not colder than 200 K with the shipped constants (NotAbsurdlyCold in general), because below some 120 K the code's refreezing amount changes sign. Merging: at an index that is not negative, as called by the remeshing of ordinary columns."
  },
  {
   "property": "C111",
   "status": "partial",
   "theorems": [
    "Cosipy.C111_calm_partial",
    "Cosipy.C111_tolerance_partial",
    "Cosipy.C111_melting",
    "Cosipy.C111_neutral_partial",
    "Cosipy.C111_step_partial",
    "Cosipy.C111_refuted"
   ],
   "note": "The code violates the property: C111_refuted (shipped constants and method, calm air, a column at 215 K: a surface that would settle just below 220 K makes the secant answer be rejected, the fall-back minimiser minimises the signed balance, and the surface is reported at 273.16 K; with more sun it is reported at 220.01 K). Proved: calm air, both stability schemes, settled surfaces (C111_calm_partial), with a tolerance (C111_tolerance_partial), for whole time steps that differ in incoming longwave radiation (C111_step_partial); with wind and the Richardson scheme among nearly neutral or unstable surfaces (C111_neutral_partial); at the melting point without restriction (C111_melting). Exact real arithmetic."
  },
  {
   "property": "C112",
   "status": "partial",
   "theorems": [
    "Cosipy.C112_step_partial",
    "Cosipy.C112_run_partial",
    "Cosipy.C112_cell_partial",
    "Cosipy.C112_domain_partial",
    "Cosipy.C112_refuted"
   ],
   "note": "The code violates the property for one setting: C112_refuted (with albedo_method = Bougamont05, albedo_mod_snow_aging, documented as the ageing scale of Oerlemans and Knap, still decides which snow age counts once fresh snow has melted; the reported roughness changes). For all other settings proved for a step, a run, a cell with everything it returns, and a domain with its files (C112_step_partial, C112_run_partial, C112_cell_partial, C112_domain_partial), over any arithmetic without laws."
  },
  {
   "property": "C113",
   "status": "proved",
   "theorems": [
    "Cosipy.C113_success",
    "Cosipy.C113_superposition",
    "Cosipy.C113_shift",
    "Cosipy.C113_nonexpansive",
    "Cosipy.C113_mirror",
    "Cosipy.C113_local"
   ],
   "note": "C113_success (any arithmetic), C113_superposition, C113_shift, C113_nonexpansive, C113_mirror and C113_local, over any ordered field. Rounding is treated in C82 and C109."
  },
  {
   "property": "C114",
   "status": "partial",
   "theorems": [
    "Cosipy.C114_own",
    "Cosipy.C114_colder_wetter",
    "Cosipy.C114_divided",
    "Cosipy.C114_stops_partial",
    "Cosipy.C114_stays_cold",
    "Cosipy.C114_refuted"
   ],
   "note": "C114_own (any arithmetic), C114_colder_wetter, C114_divided hold. The end state is violated: C114_refuted (a concrete column whose top snow layer is below the melting point and wet afterwards) and C114_stays_cold (in every valid column a layer below the melting point stays below it, however much water it has: the amount is limited by the cold of the ice alone, but the latent heat is spread over ice and water). C114_stops_partial says what the freezing stops at: no water, glacier ice, or the cold of the ice."
  },
  {
   "property": "C115",
   "status": "partial",
   "theorems": [
    "Cosipy.C115_albedo",
    "Cosipy.C115_step",
    "Cosipy.C115_shortwave",
    "Cosipy.C115_run_constant",
    "Cosipy.C115_run_partial",
    "Cosipy.C115_binary64",
    "Cosipy.C115_boone_refuted"
   ],
   "note": "C115_step: all eight columns inside a step, from snowfall to conduction; after densification for the constant and the empirical method. C115_run_constant, C115_binary64: whole runs. C115_run_partial: whole runs of all methods, under hypotheses on what compaction leaves (heights not negative; for Boone and Vionnet no more ice than volume). Without them it is violated: C115_boone_refuted (30 m of fresh snow and a daily time step; the method multiplies the ice fraction without a limit). C115_albedo, C115_shortwave: Oerlemans albedo, under the condition BrightSane, which the shipped parameters meet in double precision."
  },
  {
   "property": "C116",
   "status": "partial",
   "theorems": [
    "Cosipy.C116_series",
    "Cosipy.C116_same_height",
    "Cosipy.C116_local",
    "Cosipy.C116_station_height",
    "Cosipy.C116_gradient",
    "Cosipy.C116_dry_partial",
    "Cosipy.C116_dry_refuted"
   ],
   "note": "C116_series, C116_same_height and C116_local for every number type, floating point included. C116_station_height, C116_gradient in exact arithmetic. Dry hours: proved for a precipitation lapse rate of zero, as shipped (C116_dry_partial); violated otherwise, C116_dry_refuted: with a positive lapse rate it rains in every hour above the station."
  },
  {
   "property": "C117",
   "status": "partial",
   "theorems": [
    "Cosipy.C117_profile_partial",
    "Cosipy.C117_warming_partial",
    "Cosipy.C117_extent_refuted",
    "Cosipy.C117_lost_refuted",
    "Cosipy.C117_division",
    "Cosipy.C117_cold"
   ],
   "note": "Over the reals. C117_profile_partial, C117_warming_partial: down to the middle of any layer exactly what Beer's law extinguishes above it is given out, and taken up if nothing melts (C117_cold says when). C117_division: the heat taken up down to a layer below does not depend on dividing a layer above it. Violated for the extent of the layers: C117_extent_refuted (the first layer always gets less than its share), C117_division (dividing a layer moves heat upwards), C117_lost_refuted (what passes the middle of the last layer but one is withdrawn from the surface and given to no layer)."
  },
  {
   "property": "C118",
   "status": "proved",
   "theorems": [
    "Cosipy.C118_cell",
    "Cosipy.C118_restart"
   ],
   "note": "C118_cell: two programs over any two domains with the same number of times that both have a cell with the same forcing, slope and start write the same values for it in every variable of the result file. C118_restart: the same for the restart file. No laws of arithmetic are used, so it holds for doubles. Both programs are assumed to finish: an exception in any cell ends the whole program (C71)."
  },
  {
   "property": "C119",
   "status": "partial",
   "theorems": [
    "Cosipy.C119_agree",
    "Cosipy.C119_ri",
    "Cosipy.C119_mo_partial",
    "Cosipy.C119_friction_refuted",
    "Cosipy.C119_mo_refuted",
    "Cosipy.C119_range"
   ],
   "note": "Model/Divisions.lean is the flux routine with every division by a non-literal checked. C119_agree (every arithmetic): when it returns, the routine of the model returns the same. Over the reals: C119_ri (Richardson scheme: no divisor is zero in sane weather), C119_range (between 220 K and 330 K, where the solvers search, the surface does not boil at 210 hPa or more), C119_mo_partial (Monin-Obukhov scheme over a surface not warmer than the air). Violated in unstable air: C119_friction_refuted, C119_mo_refuted (for every sane weather over a warmer surface there is a wind speed for which the second pass divides by zero)."
  },
  {
   "property": "C120",
   "status": "partial",
   "theorems": [
    "Cosipy.C120_order",
    "Cosipy.C120_selected_partial",
    "Cosipy.C120_hourly_partial",
    "Cosipy.C120_first_refuted",
    "Cosipy.C120_days"
   ],
   "note": "C120_order: among themselves the texts are in time order and distinct. Violated for the period: the file has a hyphen between hour and minute, the configuration a colon, which sorts later. C120_first_refuted: the record of the configured start is never simulated, and all records of the hour of the end are. C120_selected_partial and C120_hourly_partial say exactly which records are simulated; C120_days: wrf2cosipy leaves out the whole day given as the end."
  },
  {
   "property": "C121",
   "status": "proved",
   "theorems": [
    "Cosipy.C121_log",
    "Cosipy.C121_adaptive",
    "Cosipy.C121_step_log",
    "Cosipy.C121_step_adaptive",
    "Cosipy.C121_run_log",
    "Cosipy.C121_never_stops",
    "Cosipy.C121_default",
    "Cosipy.C121_adaptive_stops"
   ],
   "note": "C121_log and C121_adaptive: one remeshing. C121_step_log, C121_step_adaptive: one step. C121_run_log, C121_default: runs of any length on the logarithmic mesh. C121_never_stops: with max_layers at least the bound the run with its layer check is the run without it. The depth of the columns, their heights not being negative and the hourly snowfall are hypotheses on the run. C121_adaptive_stops: max_layers itself is not enforced by remeshing. Exact arithmetic."
  },
  {
   "property": "C122",
   "status": "proved",
   "theorems": [
    "Cosipy.C122_profile",
    "Cosipy.C122_layer",
    "Cosipy.C122_outside",
    "Cosipy.C122_set_profile",
    "Cosipy.C122_set_layer",
    "Cosipy.C122_last_wins",
    "Cosipy.C122_commute",
    "Cosipy.C122_complete",
    "Cosipy.C122_queries",
    "Cosipy.C122_derived",
    "Cosipy.C122_conductivity",
    "Cosipy.C122_diffusivity"
   ],
   "note": "A list shorter than the number of layers is outside the statement (compiled code does not check the bounds of arrays)."
  },
  {
   "property": "C123",
   "status": "proved",
   "theorems": [
    "Cosipy.C123_conduction",
    "Cosipy.C123_percolation",
    "Cosipy.C123_refreezing",
    "Cosipy.C123_densification",
    "Cosipy.C123_surface",
    "Cosipy.C123_albedo",
    "Cosipy.C123_step",
    "Cosipy.C123_run"
   ],
   "note": "Remeshing, melt removal and penetrating radiation change several quantities by design and have their own claims (C02-C13, C25-C27)."
  },
  {
   "property": "C124",
   "status": "partial",
   "theorems": [
    "Cosipy.C124_merge",
    "Cosipy.C124_split",
    "Cosipy.C124_glacier",
    "Cosipy.C124_adjust",
    "Cosipy.C124_remesh_partial",
    "Cosipy.C124_melt",
    "Cosipy.C124_percolation",
    "Cosipy.C124_refreezing",
    "Cosipy.C124_conduction",
    "Cosipy.C124_back",
    "Cosipy.C124_adaptive_refuted"
   ],
   "note": "Violated by the adaptive remeshing, which merges layers up to 10 cm whatever is configured (C124_adaptive_refuted); proved for everything else. Penetrating radiation and densification have physical length scales by design and are outside the statement."
  },
  {
   "property": "C125",
   "status": "partial",
   "theorems": [
    "Cosipy.C125_selection",
    "Cosipy.C125_parts",
    "Cosipy.C125_descending_refuted",
    "Cosipy.C125_part",
    "Cosipy.C125_checked",
    "Cosipy.C125_empty_refuted"
   ],
   "note": "Violated for static files whose latitudes descend: the box is empty, a file without cells is written and the final check raises (C125_descending_refuted, C125_empty_refuted). Proved for ascending axes, for no radiation correction and for corrections that depend on the cell only (Wohlfahrt2016). The shading model (Moelg2009) uses the terrain of the selected part only and is outside the statement. The selection by labels is the documented behaviour of xarray and pandas. C125_checked: what the final check warns about."
  },
  {
   "property": "C126",
   "status": "partial",
   "theorems": [
    "Cosipy.C126_step_partial",
    "Cosipy.C126_run_partial",
    "Cosipy.C126_record",
    "Cosipy.C126_mo_refuted"
   ],
   "note": "Violated by the Monin-Obukhov scheme, whose iteration stops at a change of 0.1 W m-2 written in the code (C126_mo_refuted: in any state with a changing flux there is a unit in which the pass is the last one and one in which it is not). Proved for everything else (C126_step_partial, C126_run_partial, C126_record). The empirical conductivity is a formula in watts by design and outside the statement. The external minimisers are assumed to be scale free; for the secant method this is proved."
  },
  {
   "property": "C127",
   "status": "partial",
   "theorems": [
    "Cosipy.C127_melt",
    "Cosipy.C127_partial",
    "Cosipy.C127_column",
    "Cosipy.C127_refuted"
   ],
   "note": "Violated when the density of water is configured other than 1000 kg m-3: the melt formula contains 1000, removal and vapour fluxes use the configured value (C127_refuted, 999 kg m-3). C127_partial: the statement holds exactly when the configured density is 1000 or nothing melts; C127_melt and C127_column give the factor, also for what the column loses."
  },
  {
   "property": "C128",
   "status": "proved",
   "theorems": [
    "Cosipy.C128_loss",
    "Cosipy.C128_vanish",
    "Cosipy.C128_water",
    "Cosipy.C128_loss_binary64"
   ],
   "note": "Error of the state itself: totals are exact sums of exact products of stored numbers. The relative density of a layer is taken as the program computes it. No overflow."
  },
  {
   "property": "C129",
   "status": "proved",
   "theorems": [
    "Cosipy.C129_log",
    "Cosipy.C129_update",
    "Cosipy.C129_update_binary64"
   ],
   "note": "Error of the state itself: totals are exact sums of exact products of stored numbers. Logarithmic profile only (the adaptive profile does not conserve even in exact arithmetic, see C05). log_profile alone can leave no layer of a column of one layer (C05); update_grid then raises. No overflow."
  },
  {
   "property": "C130",
   "status": "partial",
   "theorems": [
    "Cosipy.C130_number",
    "Cosipy.C130_cosipy",
    "Cosipy.C130_wrf_help_refuted",
    "Cosipy.C130_wrf_constants_refuted",
    "Cosipy.C130_help_needs_config",
    "Cosipy.C130_misspelt_refuted",
    "Cosipy.C130_local",
    "Cosipy.C130_slurm_refuted",
    "Cosipy.C130_rejected",
    "Cosipy.C130_aws",
    "Cosipy.C130_required",
    "Cosipy.C130_borders",
    "Cosipy.C130_static",
    "Cosipy.C130_wrf_partial",
    "Cosipy.C130_help_alias_refuted",
    "Cosipy.C130_commands_partial"
   ],
   "note": "C130_cosipy, C130_aws, C130_static, C130_wrf_partial: for options given as two arguments or with an equals sign the last value is used, else the default; negative numbers are values (C130_number). C130_borders: borders must be numbers. C130_rejected, C130_required: an unknown short option or a missing required one stops the programs that prepare input, whatever else is on the command line. Violated: run-cosipy drops options it does not know (C130_misspelt_refuted); with Slurm the workers do not see the command line and use the default files (C130_slurm_refuted; on one computer they use those given, C130_local); wrf2cosipy never shows its help (C130_wrf_help_refuted) and cannot be given constants (C130_wrf_constants_refuted), because COSIPY reads its command line on import; cosipy-help needs a readable configuration (C130_help_needs_config); the other documented commands are the installed ones (C130_commands_partial); help-cosipy is documented but not installed (C130_help_alias_refuted)."
  },
  {
   "property": "C131",
   "status": "partial",
   "theorems": [
    "Cosipy.C131_constants",
    "Cosipy.C131_methods",
    "Cosipy.C131_switches",
    "Cosipy.C131_offered",
    "Cosipy.C131_ignored_refuted",
    "Cosipy.C131_simulated",
    "Cosipy.C131_slurm_partial",
    "Cosipy.C131_slurm_refuted",
    "Cosipy.C131_snow_layers_refuted"
   ],
   "note": "C131_constants, C131_methods, C131_switches: every number, method and switch of the files reaches the simulation as written; C131_simulated: a finished run has simulated every glacier cell with what was read; C131_offered: these are all settings of the shipped constants.toml but three. Violated: initial_snow_layer_heights, const_init_temp and saturation_water_vapour_method have no effect on any simulation (C131_ignored_refuted; C131_snow_layers_refuted: 2 cm configured, 10 cm used). C131_slurm_partial: what a run on Slurm asks for; queue, port, processes and shebang have no effect (C131_slurm_refuted). That a setting reaches the computation does not say that results depend on it for every input; C112 says which settings matter for which methods."
  },
  {
   "property": "C132",
   "status": "proved",
   "theorems": [
    "Cosipy.C132_layers",
    "Cosipy.C132_mass",
    "Cosipy.C132_binary64"
   ],
   "note": "Totals are exact sums of exact products of stored numbers. The mass of the removed layers, which the code drops (C27), is added back. Ice must not be denser than water. No overflow."
  },
  {
   "property": "C133",
   "status": "partial",
   "theorems": [
    "Cosipy.C133_merge",
    "Cosipy.C133_split",
    "Cosipy.C133_glacier",
    "Cosipy.C133_remesh",
    "Cosipy.C133_melt",
    "Cosipy.C133_percolation",
    "Cosipy.C133_refreezing",
    "Cosipy.C133_conduction",
    "Cosipy.C133_penetrating",
    "Cosipy.C133_depths",
    "Cosipy.C133_albedo",
    "Cosipy.C133_phase",
    "Cosipy.C133_snowfall",
    "Cosipy.C133_densification_partial",
    "Cosipy.C133_freshdensity_partial",
    "Cosipy.C133_initial",
    "Cosipy.C133_back",
    "Cosipy.C133_vionnet_refuted",
    "Cosipy.C133_freshdensity_refuted"
   ],
   "note": "C133_initial, C133_snowfall, C133_remesh, C133_merge, C133_split, C133_glacier, C133_albedo, C133_phase, C133_penetrating, C133_depths, C133_melt, C133_percolation, C133_conduction: results of the shifted column are the shifted results, failures included; C133_refreezing for a warmer column (the code rejects temperatures below absolute zero). Violated: Vionnet's densification uses 273.14 (C133_vionnet_refuted, any loaded layer and any shift), the computed density of fresh snow uses 273.16 (C133_freshdensity_refuted); C133_densification_partial and C133_freshdensity_partial cover the other methods. The surface energy balance depends on absolute temperatures (longwave emission, saturation vapour pressure) and is not part of the claim."
  },
  {
   "property": "C134",
   "status": "partial",
   "theorems": [
    "Cosipy.C134_calendar",
    "Cosipy.C134_minutes",
    "Cosipy.C134_same_hour",
    "Cosipy.C134_full_hours_partial",
    "Cosipy.C134_sunrise_refuted",
    "Cosipy.C134_interval",
    "Cosipy.C134_daily_refuted",
    "Cosipy.C134_moelg",
    "Cosipy.C134_moelg_shade",
    "Cosipy.C134_moelg_used",
    "Cosipy.C134_moelg_refuted"
   ],
   "note": "C134_calendar: the day of the year is right for every date. C134_full_hours_partial, C134_moelg_used: at full hours the sun of the record (Wohlfahrt2016) or of the middle of the step before it (Moelg2009) is used. Violated: minutes are dropped (C134_minutes, C134_same_hour, C134_sunrise_refuted); aggregated values get the sun at the beginning of the interval (C134_interval), so for daily values slope and aspect have no influence (C134_daily_refuted); with Moelg2009 the sun is a whole step before the middle of the interval (C134_moelg_refuted). Whether the position is right for the given hour is C62; the shading table for other steps is C91."
  },
  {
   "property": "C135",
   "status": "proved",
   "theorems": [
    "Cosipy.C135_run_constant",
    "Cosipy.C135_step",
    "Cosipy.C135_run",
    "Cosipy.C135_surface"
   ],
   "note": "Exact arithmetic. C59 gives the bound of the solver and of the coldest air; here the bound is what was simulated. For the method constant without an assumption on compaction and in every exact ordered field. C135_surface: the surface temperature cannot be left out."
  },
  {
   "property": "C136",
   "status": "proved",
   "theorems": [
    "Cosipy.C136_interior",
    "Cosipy.C136_step",
    "Cosipy.C136_constant",
    "Cosipy.C136_run"
   ],
   "note": "Binary64 without overflow, exact totals of the stored numbers. What removal by melt takes enters as the difference of the two totals; C128 bounds it against the demand. Columns before radiation and after melt must have at most 1000 layers and 1000 m, no layer of zero thickness after melt and no layer colder than the latent heat allows (the shipped constants: 200 K suffices, C110)."
  },
  {
   "property": "C137",
   "status": "partial",
   "theorems": [
    "Cosipy.C137_shown",
    "Cosipy.C137_drawn",
    "Cosipy.C137_run",
    "Cosipy.C137_static_refuted",
    "Cosipy.C137_start_partial",
    "Cosipy.C137_profile_refuted",
    "Cosipy.C137_listed"
   ],
   "note": "Proved for every file: what is drawn, where and under which name (C137_shown); every variable over time and space can be drawn (C137_drawn), and after a run with the shipped output lists the whole figure (C137_run). Refuted: MASK, SLOPE and ASPECT of the result file cannot be drawn, nor can variables of layers (C137_static_refuted); the installed command cosipy-plot-profile names a function that does not exist (C137_profile_refuted; the others start, C137_start_partial). That a module imports without error is not modelled. Means: C92."
  },
  {
   "property": "C138",
   "status": "partial",
   "theorems": [
    "Cosipy.C138_switch",
    "Cosipy.C138_required",
    "Cosipy.C138_line",
    "Cosipy.C138_missing",
    "Cosipy.C138_leftover",
    "Cosipy.C138_help",
    "Cosipy.C138_consent",
    "Cosipy.C138_setup",
    "Cosipy.C138_field",
    "Cosipy.C138_vtk",
    "Cosipy.C138_needed",
    "Cosipy.C138_vtk_refuted",
    "Cosipy.C138_setup_help"
   ],
   "note": "Proved for every command line: C138_switch, C138_required, C138_consent; for lines with the documented names: C138_line, C138_missing, C138_needed, C138_leftover, C138_help, C138_setup, C138_setup_help, C138_field, C138_vtk. Refuted: cosipy-plot-vtk documents -n/--name as required, but accepts every line without it (C138_vtk_refuted). argparse is modelled as in CPython 3.11."
  },
  {
   "property": "C139",
   "status": "partial",
   "theorems": [
    "Cosipy.C139_screen",
    "Cosipy.C139_info_partial",
    "Cosipy.C139_info_refuted",
    "Cosipy.C139_rows",
    "Cosipy.C139_total"
   ],
   "note": "grid_info_screen and info in full (C139_screen, C139_rows, C139_total). Refuted for grid_info: it prints nine values under ten names, so from \"LW [m]\" on every value stands under a wrong name (C139_info_refuted); C139_info_partial says which values they are. How numbers become text is not modelled."
  }
 ]
}