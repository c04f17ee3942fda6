{
 "claims": [
  {
   "property": "C01",
   "status": "proved",
   "theorems": [
    "Verif.NV.getItem_run",
    "Verif.NV.mem_run",
    "Verif.NV.order_run",
    "Verif.NV.step_error"
   ],
   "note": "Refinement of the container to the history of accepted calls."
  },
  {
   "property": "C02",
   "status": "proved",
   "theorems": [
    "Verif.NV.getVal_setVal_same",
    "Verif.NV.getVal_setVal_other",
    "Verif.NV.getVal_convert",
    "Verif.NV.getVal_errors"
   ],
   "note": "Unit database is a parameter (affine conversions, non-zero factors)."
  },
  {
   "property": "C03",
   "status": "partial",
   "theorems": [
    "Verif.NV.update_eq_sequential",
    "Verif.NV.applyAll_prefix",
    "Verif.NV.applyAll_base_get",
    "Verif.NV.update_mixed_violated"
   ],
   "note": "Holds for mappings, iterables and same-class sources; violated for AviaryValues.update(NamedValues), which raises TypeError (update_mixed_violated)."
  },
  {
   "property": "C04",
   "status": "partial",
   "theorems": [
    "Verif.avRun_conforms_partial",
    "Verif.avRun_object_array_violated",
    "Verif.avSet_rejects",
    "Verif.avSet_value"
   ],
   "note": "Invariant for every history; object-dtype arrays are only checked in their first entry (negation proved)."
  },
  {
   "property": "C05",
   "status": "partial",
   "theorems": [
    "Verif.wrappedConvert_shape",
    "Verif.wrappedConvert_roundtrip_arrF",
    "Verif.wrappedConvert_roundtrip_list",
    "Verif.wrappedConvert_int_array_violated"
   ],
   "note": "Violated for integer arrays (result truncated to the integer dtype)."
  },
  {
   "property": "C06",
   "status": "partial",
   "theorems": [
    "Verif.enumSetter_scalar",
    "Verif.enumSetter_list_partial",
    "Verif.enumSetter_string_list_violated",
    "Verif.enumSetter_break_violated",
    "Verif.enumSetter_unknown"
   ],
   "note": "Scalars and lists of members/integers are right; lists of names return only the first member."
  },
  {
   "property": "C07",
   "status": "partial",
   "theorems": [
    "Verif.mergeAll_content",
    "Verif.mergeAll_ok_iff",
    "Verif.mergeAll_exact",
    "Verif.mergeAll_order_violated",
    "Verif.mergeAll_chain_violated",
    "Verif.almostEq_spec"
   ],
   "note": "Union content, acceptance condition and exactness proved for any number of dictionaries; order independence is violated because the tolerance comparison is not transitive (negations proved)."
  },
  {
   "property": "C08",
   "status": "partial",
   "theorems": [
    "Verif.mergeHier_contains_partial",
    "Verif.mergeHier_returns_input",
    "Verif.compareRec_spec",
    "Verif.mergeHier_mutates_violated",
    "Verif.mergeHier_kind_violated",
    "Verif.pickBase_spec",
    "Verif.compareAll_spec"
   ],
   "note": "Containment holds when the inputs have no variable/class kind clash; the first input is mutated and returned, and kind clashes overwrite silently (negations proved)."
  },
  {
   "property": "C09",
   "status": "partial",
   "theorems": [
    "Verif.addMeta_spec",
    "Verif.updateMeta_spec",
    "Verif.mrun_invariant",
    "Verif.entry_units",
    "Verif.updateMeta_resets_violated",
    "Verif.entry_fields"
   ],
   "note": "update_meta_data resets fields that were not listed (negation proved)."
  },
  {
   "property": "C10",
   "status": "partial",
   "theorems": [
    "Verif.deckTokens_render",
    "Verif.splitUnits_spec",
    "Verif.convertEntry_spec",
    "Verif.deckValue_spec",
    "Verif.deckLine_unknown",
    "Verif.deckLine_known",
    "Verif.parseDeck_conforms",
    "Verif.convertEntry_exponent_violated",
    "Verif.deckLine_text_is_unit_violated",
    "Verif.deckLine_guess"
   ],
   "note": "Exponent notation without a dot stays text and a text value that is a unit name is taken as units (negations proved)."
  },
  {
   "property": "C11",
   "status": "partial",
   "theorems": [
    "Verif.splitDelim_join",
    "Verif.headerParts_text",
    "Verif.readRows_columns",
    "Verif.readFile_writeFile",
    "Verif.readFile_duplicate_header_violated",
    "Verif.readFile_blank_cell_violated",
    "Verif.readFile_no_header_violated",
    "Verif.headerCell_metadata",
    "Verif.headerLoop_positions",
    "Verif.readLine_rejects"
   ],
   "note": "Attribution and the write/read round trip hold for distinct headers and no blank cells; repeated headers and blank cells misattribute columns (negations proved)."
  },
  {
   "property": "C12",
   "status": "partial",
   "theorems": [
    "Verif.separatePhases_spec",
    "Verif.separatePhases_concat",
    "Verif.separatePhases_drops_violated"
   ],
   "note": "Everything holds for phases with user_options; a phase without user_options is dropped from both lists (negation proved)."
  },
  {
   "property": "C13",
   "status": "partial",
   "theorems": [
    "Verif.crewPayload_pax_consistent_partial",
    "Verif.crewPayload_pax_source",
    "Verif.crewPayload_pax_gasp",
    "Verif.crewPayload_negative_violated"
   ],
   "note": "Proved for non-negative counts; negative class counts are accepted and leave an inconsistent total (negation proved)."
  },
  {
   "property": "C14",
   "status": "proved",
   "theorems": [
    "Verif.crewPayload_crew",
    "Verif.crewDefaults_mono",
    "Verif.crewPayload_tail"
   ],
   "note": ""
  },
  {
   "property": "C15",
   "status": "partial",
   "theorems": [
    "Verif.fixMounts_consistent_iff",
    "Verif.fixMounts_raises",
    "Verif.fixMounts_idem",
    "Verif.countEngines_totals_partial",
    "Verif.countEngines_unmounted_violated",
    "Verif.countEngines_error_iff"
   ],
   "note": "Exact characterisation: one case (fuselage engines given, none on the wing, one more engine in total) leaves an engine unmounted (negation proved)."
  },
  {
   "property": "C16",
   "status": "partial",
   "theorems": [
    "Verif.cargoStep_limits",
    "Verif.cargoStep_idem_iff",
    "Verif.crewPayload_idem_flops",
    "Verif.crewPayload_cargo_not_idempotent_violated",
    "Verif.cargoStep_values"
   ],
   "note": "Limits and FLOPS idempotence proved; GASP cargo is idempotent exactly when not sizing or flown = design cargo (negation proved)."
  },
  {
   "property": "C17",
   "status": "partial",
   "theorems": [
    "Verif.countData_spec",
    "Verif.packData_faithful_partial",
    "Verif.packData_violated",
    "Verif.countData_error",
    "Verif.closeTo_spec"
   ],
   "note": "Faithful when every flight condition has at least two points and the last Mach/flight condition is not the largest; otherwise points are lost, shifted or an IndexError is raised (negations proved)."
  },
  {
   "property": "C18",
   "status": "partial",
   "theorems": [
    "Verif.normalize_spec",
    "Verif.globalThrottle_spec",
    "Verif.hybridNorm_spec",
    "Verif.normalize_const_violated",
    "Verif.globalHybrid_limits_violated",
    "Verif.globalHybrid_limits_raw"
   ],
   "note": "Global/list normalisation proved for all columns; constant columns divide by zero and global hybrid limits are stored un-normalised (negations proved). The per-flight-condition loop is covered through normalize_spec on each slice only."
  },
  {
   "property": "C19",
   "status": "proved",
   "theorems": [
    "Verif.setReferenceThrust_consistent",
    "Verif.setReferenceThrust_conflict_iff",
    "Verif.findRef_spec",
    "Verif.setReferenceThrust_idem"
   ],
   "note": "A zero reference thrust with a given scaled thrust is modelled as a ZeroDivision error."
  },
  {
   "property": "C20",
   "status": "partial",
   "theorems": [
    "Verif.checkRequired_iff",
    "Verif.checkRequired_complete_partial",
    "Verif.checkRequired_violated",
    "Verif.netThrust_check_violated"
   ],
   "note": "Exact behaviour proved: raises only if no required variable is present, and the thrust check is inverted (negations)."
  },
  {
   "property": "C21",
   "status": "proved",
   "theorems": [
    "Verif.smoothMax_bounds",
    "Verif.smoothMin_bounds",
    "Verif.smoothMax_deriv",
    "Verif.smoothMin_deriv",
    "Verif.dSmooth_range"
   ],
   "note": ""
  },
  {
   "property": "C22",
   "status": "partial",
   "theorems": [
    "Verif.sigmoidArr_spec",
    "Verif.sigmoidArr_mono",
    "Verif.sigmoidArr_deriv",
    "Verif.sigmoidScalar_cutoff_violated",
    "Verif.dSigmoidScalar_violated",
    "Verif.sinInt_deriv",
    "Verif.sinInt4_deriv",
    "Verif.sinInt_fixed",
    "Verif.sinInt_mono",
    "Verif.sinInt4_approx",
    "Verif.sinInt4_mono",
    "Verif.smoothIntTanh_deriv",
    "Verif.smoothIntTanh_range",
    "Verif.smoothIntTanh_discontinuous_violated"
   ],
   "note": "Array branch of the sigmoid and all derivatives away from integers are proved; the scalar branch cuts off to a different value, its derivative branch raises, and smooth_int_tanh jumps at integers (negations proved)."
  },
  {
   "property": "C23",
   "status": "partial",
   "theorems": [
    "Verif.bin_eventually_const",
    "Verif.hasDerivAt_z",
    "Verif.atm_jT",
    "Verif.atm_jP",
    "Verif.atm_jRho",
    "Verif.atm_jSos",
    "Verif.atm_jVisc",
    "Verif.atm_dsosDh_true",
    "Verif.atm_jDsos_partial",
    "Verif.atm_jDsos_violated",
    "Verif.exAtm_dsos_wrong"
   ],
   "note": "Temperature, pressure, density, speed of sound and viscosity partials proved for all tables, offsets and altitudes off the table points. The dsos_dh partial is wrong for geometric altitude (dz_dh squared, negation proved); exact for geopotential altitude when the slope table agrees with the temperature table."
  },
  {
   "property": "C24",
   "status": "proved",
   "theorems": [
    "Verif.fc_tas_mach",
    "Verif.fc_mach_tas",
    "Verif.fc_tas_eas",
    "Verif.fc_eas_tas",
    "Verif.fc_mach_eas",
    "Verif.fc_eas_mach",
    "Verif.fc_dynamic_pressure",
    "Verif.fcTAS_partials",
    "Verif.fcEAS_partials",
    "Verif.fcMach_partials"
   ],
   "note": "All three input modes, all positive densities and sound speeds."
  },
  {
   "property": "C25",
   "status": "proved",
   "theorems": [
    "Verif.throttleDyn_sum",
    "Verif.throttleStat_sum",
    "Verif.throttleDyn_bounds",
    "Verif.throttleStat_bounds",
    "Verif.aggPartialDyn_exact",
    "Verif.aggPartialStat_exact",
    "Verif.allocPartialDyn_exact",
    "Verif.allocDyn_offpattern",
    "Verif.allocPartialStat_exact"
   ],
   "note": "Any number of nodes and engine types; includes the declared sparsity patterns."
  },
  {
   "property": "C26",
   "status": "proved",
   "theorems": [
    "Verif.fuelNeg_ff",
    "Verif.fuelNeg_esf",
    "Verif.fuelNeg_mach",
    "Verif.fuelNeg_mach_one_discontinuous",
    "Verif.scaledVar_partials",
    "Verif.scaledThrust_partials",
    "Verif.scaling_identity",
    "Verif.scaling_consistent"
   ],
   "note": "Per node; the Mach switch is discontinuous at Mach 1, where no partial exists."
  },
  {
   "property": "C27",
   "status": "proved",
   "theorems": [
    "Verif.fuel_closes",
    "Verif.fuel_capacity_iff",
    "Verif.fuel_block",
    "Verif.fuel_margin_skip",
    "Verif.fuel_sufficient"
   ],
   "note": "fuel_closes assumes the two final-mass inputs are fed from the same phase, as energy_builder.py:60-95 connects them."
  },
  {
   "property": "C28",
   "status": "partial",
   "theorems": [
    "Verif.buildSemi_rows",
    "Verif.buildStructured_partial",
    "Verif.buildStructured_column_order_violated",
    "Verif.buildStructured_column_order_crash"
   ],
   "note": "Proved for all full grids in any row order when the inputs are stored before the outputs; false when an output column comes first (negation proved)."
  },
  {
   "property": "C29",
   "status": "partial",
   "theorems": [
    "Verif.updateDependent_spec",
    "Verif.dependentTable_ok",
    "Verif.updateDependent_unknown_violated"
   ],
   "note": "An unknown relation reuses the previous outcome (negation proved)."
  },
  {
   "property": "C30",
   "status": "partial",
   "theorems": [
    "Verif.initGuess_error_iff",
    "Verif.initGuess_reserves_nonneg",
    "Verif.initGuess_fractions",
    "Verif.initGuess_durations",
    "Verif.guessGamma_range",
    "Verif.initGuess_climb_pos",
    "Verif.initGuess_climb_units_violated",
    "Verif.initGuess_not_idempotent",
    "Verif.initGuess_reserves_values",
    "Verif.initGuess_mass_values",
    "Verif.initGuess_default_values"
   ],
   "note": "Climb time mixes ft and knots (negation proved)."
  },
  {
   "property": "C31",
   "status": "partial",
   "theorems": [
    "Verif.NV.deepcopy_independent",
    "Verif.NV.copy_aliases_violated",
    "Verif.NV.copy_tracks_original"
   ],
   "note": "deepcopy is independent; copy() shares the mapping: negation proved, together with the general law that every later write is visible through both."
  },
  {
   "property": "C32",
   "status": "partial",
   "theorems": [
    "Verif.storedVerbosity_arg_partial",
    "Verif.storedVerbosity_ignores_deck_violated",
    "Verif.storedVerbosity_not_documented"
   ],
   "note": "The argument wins when given; the deck value is ignored (negation proved)."
  },
  {
   "property": "C33",
   "status": "proved",
   "theorems": [
    "Verif.fuelCaps_spec",
    "Verif.fuelCaps_other"
   ],
   "note": ""
  },
  {
   "property": "C34",
   "status": "partial",
   "theorems": [
    "Verif.vectorize_per_engine_partial",
    "Verif.vectorize_empty_violated",
    "Verif.vectorize_multi_duplicates_violated",
    "Verif.vectorize_multi_own"
   ],
   "note": "Holds for one-value-per-engine variables with non-empty option arrays; empty arrays misalign and array-valued variables are duplicated (negations proved)."
  },
  {
   "property": "C35",
   "status": "proved",
   "theorems": [
    "Verif.checkData_thrust",
    "Verif.checkData_columns"
   ],
   "note": ""
  },
  {
   "property": "C36",
   "status": "partial",
   "theorems": [
    "Verif.dropNegative_partial",
    "Verif.dropNegative_violated"
   ],
   "note": "Holds if every variable has data; otherwise an IndexError is raised (negation proved)."
  },
  {
   "property": "C37",
   "status": "partial",
   "theorems": [
    "Verif.clampIdle_bounds",
    "Verif.extrapolate_line",
    "Verif.idlePoint_linear_partial",
    "Verif.idlePoint_none_iff",
    "Verif.idlePoint_not_max_violated",
    "Verif.idlePoint_padded_violated",
    "Verif.idlePoint_single"
   ],
   "note": "Linear extrapolation and limits proved for full rows; the idle thrust uses the last-but-one point and padded rows give zero (negations proved)."
  },
  {
   "property": "C38",
   "status": "proved",
   "theorems": [
    "Verif.MassSum.run_idem",
    "Verif.MassSum.run_solved",
    "Verif.MassSum.flops_one_sweep",
    "Verif.MassSum.gasp_one_sweep",
    "Verif.MassSum.flops_empty",
    "Verif.MassSum.flops_alt_empty",
    "Verif.MassSum.flops_groups_add_up",
    "Verif.MassSum.flops_zeroFuel",
    "Verif.MassSum.flops_useful",
    "Verif.MassSum.gasp_empty",
    "Verif.MassSum.gasp_zeroFuel",
    "Verif.MassSum.gasp_useful",
    "Verif.MassSum.flops_monotone_chain",
    "Verif.MassSum.gasp_monotone_chain",
    "Verif.MassSum.flopsDry_nodup",
    "Verif.MassSum.dot_split"
   ],
   "note": "Both groups, all stores; order independence of the sweep proved for any ordered group."
  },
  {
   "property": "C39",
   "status": "proved",
   "theorems": [
    "Verif.AtmD.standard_seaLevel",
    "Verif.AtmD.tropical_seaLevel",
    "Verif.AtmD.polar_seaLevel",
    "Verif.AtmD.hot_seaLevel",
    "Verif.AtmD.cold_seaLevel",
    "Verif.AtmD.marsReference_seaLevel",
    "Verif.AtmD.marsHellasHot_seaLevel",
    "Verif.AtmD.marsHellasCold_seaLevel",
    "Verif.AtmD.marsEquatorHot_seaLevel",
    "Verif.AtmD.marsEquatorCold_seaLevel",
    "Verif.AtmD.marsPolarHot_seaLevel",
    "Verif.AtmD.marsPolarCold_seaLevel",
    "Verif.AtmD.venus_seaLevel",
    "Verif.AtmD.all_wf",
    "Verif.AtmD.no_index_error",
    "Verif.atm_no_index_error"
   ],
   "note": "Sea level density agrees to a relative 1e-12 (the tables store rounded coefficients)."
  },
  {
   "property": "C40",
   "status": "partial",
   "theorems": [
    "Verif.AtmD.positive_all",
    "Verif.atm_positive",
    "Verif.atm_partials_on_table",
    "Verif.AtmD.venus_positive_violated",
    "Verif.AtmD.venus_temperature_partial",
    "Verif.AtmD.standard_range",
    "Verif.AtmD.standard_pos",
    "Verif.AtmD.tropical_pos",
    "Verif.AtmD.polar_pos",
    "Verif.AtmD.hot_pos",
    "Verif.AtmD.cold_pos",
    "Verif.AtmD.marsReference_pos",
    "Verif.AtmD.marsHellasHot_pos",
    "Verif.AtmD.marsHellasCold_pos",
    "Verif.AtmD.marsEquatorHot_pos",
    "Verif.AtmD.marsEquatorCold_pos",
    "Verif.AtmD.marsPolarHot_pos",
    "Verif.AtmD.marsPolarCold_pos"
   ],
   "note": "Proved for 12 of the 13 atmospheres. False for Venus: the last Akima segment (127.5-146.4 km) goes negative in pressure and density (negation proved at 141.6 km)."
  },
  {
   "property": "C41",
   "status": "partial",
   "theorems": [
    "Verif.AtmD.standard_pressure_antitone",
    "Verif.AtmD.standard_rawDensity_antitone",
    "Verif.AtmD.marsHellasHot_pressure_antitone",
    "Verif.AtmD.marsEquatorHot_pressure_antitone",
    "Verif.AtmD.marsEquatorHot_rawDensity_antitone",
    "Verif.AtmD.marsEquatorCold_pressure_antitone",
    "Verif.AtmD.marsEquatorCold_rawDensity_antitone",
    "Verif.AtmD.marsPolarHot_pressure_antitone",
    "Verif.AtmD.tropical_pressure_antitone_violated",
    "Verif.AtmD.tropical_rawDensity_antitone_violated",
    "Verif.AtmD.polar_rawDensity_antitone_violated",
    "Verif.AtmD.hot_pressure_antitone_violated",
    "Verif.AtmD.hot_rawDensity_antitone_violated",
    "Verif.AtmD.cold_pressure_antitone_violated",
    "Verif.AtmD.cold_rawDensity_antitone_violated",
    "Verif.AtmD.marsReference_pressure_antitone_violated",
    "Verif.AtmD.marsReference_rawDensity_antitone_violated",
    "Verif.AtmD.marsHellasHot_rawDensity_antitone_violated",
    "Verif.AtmD.marsHellasCold_pressure_antitone_violated",
    "Verif.AtmD.marsHellasCold_rawDensity_antitone_violated",
    "Verif.AtmD.marsPolarHot_rawDensity_antitone_violated",
    "Verif.AtmD.marsPolarCold_pressure_antitone_violated",
    "Verif.AtmD.marsPolarCold_rawDensity_antitone_violated",
    "Verif.AtmD.standard_slope_table_violated",
    "Verif.AtmD.marsHellasHot_slope_table_violated"
   ],
   "note": "Monotone: standard, Mars equator hot/cold (both), Mars Hellas hot and polar hot (pressure). The other tables rise somewhere (witness altitudes proved, up to 12% for Mars polar cold pressure); Polar pressure and Venus undecided here. The slope table disagrees with the temperature slope between table points (0.0049 K/m near the standard tropopause)."
  },
  {
   "property": "C42",
   "status": "proved",
   "theorems": [
    "Verif.override_promotions",
    "Verif.override_plain_iff",
    "Verif.override_reported",
    "Verif.promoteStems_covers",
    "Verif.static_group_one_source",
    "Verif.nameFilter_iff"
   ],
   "note": "OpenMDAO calls are modelled by their arguments."
  },
  {
   "property": "C43",
   "status": "partial",
   "theorems": [
    "Verif.setup_external",
    "Verif.setup_core_partial",
    "Verif.setup_core_targets",
    "Verif.setup_core_targets_violated"
   ],
   "note": "The external part is proved in full. Core parameters target all phases only without external parameters; otherwise the loop variable phases (functions.py:428) replaces the argument, shown by a witness."
  },
  {
   "property": "C44",
   "status": "partial",
   "theorems": [
    "Verif.extractOptions_spec",
    "Verif.engine_options_partial",
    "Verif.engine_options_ok_iff",
    "Verif.engine_options_prefix_violated",
    "Verif.engine_options_same_name_violated"
   ],
   "note": "Option extraction is proved in full. The engine part needs names none of which begins another; witnesses show the failure otherwise. The last matching OpenMDAO pattern is taken to win."
  },
  {
   "property": "C45",
   "status": "proved",
   "theorems": [
    "Verif.atm_values",
    "Verif.atm_values_below",
    "Verif.atm_values_above",
    "Verif.atm_ideal_gas",
    "Verif.atm_sos_sq",
    "Verif.atm_sutherland",
    "Verif.atm_geopotential",
    "Verif.atm_geopotential_mono",
    "Verif.atm_geopotential_id"
   ],
   "note": "Real numbers, one node."
  },
  {
   "property": "C46",
   "status": "proved",
   "theorems": [
    "Verif.getModel_spec",
    "Verif.getModel_exists",
    "Verif.getPath_spec",
    "Verif.getPath_exists",
    "Verif.getPath_absolute",
    "Verif.stemSuffix_spec",
    "Verif.join_under",
    "Verif.modelTarget_under"
   ],
   "note": "The file system is a predicate and a folder listing; str.lower is a parameter."
  },
  {
   "property": "C47",
   "status": "partial",
   "theorems": [
    "Verif.roundIt_digits",
    "Verif.roundIt_idem",
    "Verif.roundIt_zero",
    "Verif.roundIt_default_partial",
    "Verif.roundIt_default_violated",
    "Verif.roundEven_tie"
   ],
   "note": "The default of two decimal places holds only for positive numbers of at least 1 that keep their digit count; witnesses otherwise. Rational arithmetic instead of floats."
  },
  {
   "property": "C48",
   "status": "proved",
   "theorems": [
    "Verif.HS.blend_eq",
    "Verif.HS.unint_node",
    "Verif.HS.unint_outside",
    "Verif.HS.unint_inside",
    "Verif.HS.unint_closed",
    "Verif.HS.unint_exact",
    "Verif.HS.unint_flag",
    "Verif.HS.S_ends",
    "Verif.HS.unint_slope_inside",
    "Verif.HS.unint_slope_node",
    "Verif.HS.unint_slope_continuous",
    "Verif.HS.unint_continuous"
   ],
   "note": "Field numbers (reals for slopes) instead of floats."
  },
  {
   "property": "C49",
   "status": "proved",
   "theorems": [
    "Verif.HS.locate_unint",
    "Verif.HS.biquad_eq",
    "Verif.HS.biquad_univariate",
    "Verif.HS.biquad_node"
   ],
   "note": "Field numbers; packed table as a function on indices with integer sizes."
  },
  {
   "property": "C50",
   "status": "partial",
   "theorems": [
    "Verif.HS.preChecks_none_iff",
    "Verif.HS.preChecks_violated",
    "Verif.HS.preChecks_zero_partial"
   ],
   "note": "The checks compare any(v), a truth value, with zero: negative nodes are accepted and the shaft power check never fires (witness). What the checks do is proved in full; only arrays that are zero throughout are refused."
  },
  {
   "property": "C51",
   "status": "proved",
   "theorems": [
    "Verif.HS.tables_ok",
    "Verif.HS.ct_increasing",
    "Verif.HS.jWindow",
    "Verif.HS.clWindow"
   ],
   "note": "The tables are transcribed from the source as exact decimals."
  },
  {
   "property": "C52",
   "status": "proved",
   "theorems": [
    "Verif.HS.secant_found",
    "Verif.HS.secant_pos",
    "Verif.HS.findCt_found",
    "Verif.HS.findCt_affine",
    "Verif.HS.findCt_gives_up",
    "Verif.HS.bladeRow_spec",
    "Verif.HS.tipLoss_one",
    "Verif.HS.hsNode_loss",
    "Verif.HS.hsNode_even",
    "Verif.HS.hsNode_odd",
    "Verif.HS.resid_half",
    "Verif.HS.bladeRow_half",
    "Verif.HS.published_points",
    "Verif.HS.afcte_blend",
    "Verif.HS.clNear_spec",
    "Verif.HS.floorAt_spec",
    "Verif.HS.hsNode_mach"
   ],
   "note": "Field numbers; division by zero is a value of its own; messages and counters are left out."
  },
  {
   "property": "C53",
   "status": "partial",
   "theorems": [
    "Verif.HS.comp_shape_partial",
    "Verif.HS.comp_shape_violated",
    "Verif.HS.hsNode_zero_violated"
   ],
   "note": "The entries .900 at excess 0.06 break the shape; zero blades are computed as eight. All other entries have the shape."
  },
  {
   "property": "C54",
   "status": "proved",
   "theorems": [
    "Verif.Prep.run_ok_iff",
    "Verif.Prep.run_noMass",
    "Verif.Prep.run_keeps",
    "Verif.Prep.run_defaults",
    "Verif.Prep.run_again",
    "Verif.Prep.run_warnings"
   ],
   "note": "The other three preprocessors called at the start work on other options and are modelled in C13-C16, C33, C34. Repeating needs that aspect ratio and thickness are not empty arrays."
  },
  {
   "property": "C55",
   "status": "partial",
   "theorems": [
    "Verif.Prep.designType_recorded_violated",
    "Verif.Prep.gravity_follows_atmosphere_violated",
    "Verif.Prep.run_defaults"
   ],
   "note": "Both parts are false of the code (witnesses). run_defaults shows what holds: on a first run gravity and density are those of the atmosphere in use."
  },
  {
   "property": "C56",
   "status": "proved",
   "theorems": [
    "Verif.Phys.requiredThrust_inverse",
    "Verif.Phys.rangeRate_triangle",
    "Verif.Phys.Climb.altitude_energy",
    "Verif.Phys.Climb.triangle",
    "Verif.Phys.Climb.distance_rangeRate",
    "Verif.Phys.FlightPath.energy",
    "Verif.Phys.FlightPath.altitude_rate_agrees",
    "Verif.Phys.FlightPath.triangle",
    "Verif.Phys.FlightPath.straight_iff_load_factor",
    "Verif.Phys.FlightPath.level_accel",
    "Verif.Phys.FlightPath.required_lift_straight",
    "Verif.Phys.FlightPath.climb_speed_error",
    "Verif.Phys.Takeoff.rates_kinematic",
    "Verif.Phys.Takeoff.climbing_agrees",
    "Verif.Phys.Takeoff.rolling_agrees",
    "Verif.Phys.Takeoff.stall_lift",
    "Verif.Phys.Ground.groundroll_friction",
    "Verif.Phys.Ground.taxi_balance",
    "Verif.Phys.Solved.gamma_kinematic"
   ],
   "note": "Over the real numbers, one node; component formulas are the mechanically translated ones in Verif/Comp."
  },
  {
   "property": "C57",
   "status": "partial",
   "theorems": [
    "Verif.Phys.FlightPath.steady_climb_violated",
    "Verif.Phys.FlightPath.steady_climb_partial",
    "Verif.Phys.Ground.flightpath_friction_violated",
    "Verif.Phys.Ground.groundroll_agrees_partial"
   ],
   "note": "Violated: with the thrust line inclined to the path the climb loses speed, and FlightPathEOM does not clamp the normal force so friction accelerates when lift exceeds weight. The _partial theorems give the cases where the property holds."
  },
  {
   "property": "C58",
   "status": "proved",
   "theorems": [
    "Verif.Wing.area",
    "Verif.Wing.mean_aerodynamic_chord",
    "Verif.Wing.edge_sweep",
    "Verif.Wing.root_chord_is_chord",
    "Verif.Wing.wing_size",
    "Verif.Wing.thickness_average",
    "Verif.Wing.exposed_area",
    "Verif.Wing.exposed_area_bwb",
    "Verif.Wing.mount_circle",
    "Verif.Wing.mount_joins",
    "Verif.Wing.sqt_curvature",
    "Verif.Wing.mount_range",
    "Verif.Wing.mount_slope",
    "Verif.Wing.exposed_area_range"
   ],
   "note": "Real numbers; exposed_area_range is for the transport variant."
  },
  {
   "property": "C59",
   "status": "partial",
   "theorems": [
    "Verif.Nacelle.f_slope",
    "Verif.Nacelle.df_slope",
    "Verif.Nacelle.low_fit",
    "Verif.Nacelle.high_fit",
    "Verif.Nacelle.joins",
    "Verif.Nacelle.value_ok_iff",
    "Verif.Nacelle.slope_ok_iff",
    "Verif.Nacelle.value_slope",
    "Verif.Nacelle.middle",
    "Verif.Nacelle.half",
    "Verif.Nacelle.compute_single_partial",
    "Verif.Nacelle.compute_types_violated"
   ],
   "note": "Proved for one engine type. Violated for several: the branch asks for the truth value of an array, which numpy refuses for more than one entry although the input is declared with one entry per engine type."
  },
  {
   "property": "C60",
   "status": "proved",
   "theorems": [
    "Verif.Comp.GeometryFlopsBasedCharacteristicLengths.BWBWingCharacteristicLength.partials",
    "Verif.Comp.GeometryFlopsBasedCharacteristicLengths.CanardCharacteristicLength.partials",
    "Verif.Comp.GeometryFlopsBasedCharacteristicLengths.FuselageCharacteristicLengths.partials",
    "Verif.Comp.GeometryFlopsBasedCharacteristicLengths.HorizontalTailCharacteristicLength.partials",
    "Verif.Comp.GeometryFlopsBasedCharacteristicLengths.VerticalTailCharacteristicLength.partials",
    "Verif.Comp.GeometryFlopsBasedCharacteristicLengths.WingCharacteristicLength_wingspanefficiencyreduction.partials",
    "Verif.Comp.GeometryFlopsBasedCharacteristicLengths.WingCharacteristicLength_no_wingspanefficiencyreduction.partials",
    "Verif.Comp.GeometryFlopsBasedFuselage.BWBFuselagePrelim.partials",
    "Verif.Comp.GeometryFlopsBasedFuselage.FuselagePrelim.partials",
    "Verif.Comp.GeometryFlopsBasedFuselage.SimpleCabinLayout.partials",
    "Verif.Comp.GeometryFlopsBasedPrepGeom._FuselageRatios.partials",
    "Verif.Comp.GeometryFlopsBasedWettedAreaTotal.TailWettedArea_wingspanefficiencyreduction.partials",
    "Verif.Comp.GeometryFlopsBasedWettedAreaTotal.TailWettedArea_no_wingspanefficiencyreduction.partials",
    "Verif.Comp.GeometryFlopsBasedWettedAreaTotal.WingWettedArea.partials",
    "Verif.Comp.GeometryFlopsBasedWing.WingPrelim.partials",
    "Verif.Comp.GeometryGaspBasedEngine.GASPEngineDiameter.partials",
    "Verif.Comp.GeometryGaspBasedEngine.GASPEngineLength.partials",
    "Verif.Comp.GeometryGaspBasedEngine.GASPEngineSurfaceArea.partials",
    "Verif.Comp.GeometryGaspBasedFuselage.BWBFuselageParameters2.partials",
    "Verif.Comp.GeometryGaspBasedFuselage.FuselageParameters.partials",
    "Verif.Comp.GeometryGaspBasedFuselage.FuselageSize.partials",
    "Verif.Comp.GeometryGaspBasedWing.WingParameters.partials",
    "Verif.Comp.GeometryGaspBasedWing.WingSize.partials",
    "Verif.Comp.GeometryGaspBasedWing.WingVolume.partials",
    "Verif.Comp.GeometryGaspBasedEmpennage.TailSize_horizontal.partials",
    "Verif.Comp.GeometryGaspBasedEmpennage.TailSize_otherorientation.partials",
    "Verif.Comp.GeometryGaspBasedEmpennage.TailVolCoef_vertical.partials",
    "Verif.Comp.GeometryGaspBasedEmpennage.TailVolCoef_otherorientation.partials",
    "Verif.Comp.GeometryGaspBasedNonDimensionalConversion.FoldCalcs_wingfolddimensionallocationspecified.partials",
    "Verif.Comp.GeometryGaspBasedNonDimensionalConversion.FoldCalcs_no_wingfolddimensionallocationspecified.partials",
    "Verif.Comp.GeometryGaspBasedNonDimensionalConversion.StrutCalcs_strutdimensionallocationspecified_winghasstrut.partials",
    "Verif.Comp.GeometryGaspBasedNonDimensionalConversion.StrutCalcs_no_strutdimensionallocationspecified_winghasstrut.partials",
    "Verif.Comp.GeometryGaspBasedWing.BWBWingFoldVolume_wingchoosefoldlocation.partials",
    "Verif.Comp.GeometryGaspBasedWing.BWBWingFoldVolume_no_wingchoosefoldlocation.partials",
    "Verif.Comp.GeometryGaspBasedWing.ExposedWing_blendedwingbody.partials",
    "Verif.Comp.GeometryGaspBasedWing.ExposedWing_transport.partials",
    "Verif.Comp.GeometryGaspBasedWing.WingFoldArea_wingchoosefoldlocation.partials",
    "Verif.Comp.GeometryGaspBasedWing.WingFoldArea_no_wingchoosefoldlocation.partials",
    "Verif.Comp.GeometryGaspBasedWing.WingFoldVolume_wingchoosefoldlocation.partials",
    "Verif.Comp.GeometryGaspBasedWing.WingFoldVolume_no_wingchoosefoldlocation.partials"
   ],
   "note": "Real numbers, one node, options fixed per variant; hypotheses are shown satisfiable by an example next to each theorem. Components whose partials are wrong or not completely proved are in C66."
  },
  {
   "property": "C61",
   "status": "proved",
   "theorems": [
    "Verif.Comp.MassFlopsBasedAirConditioning.AltAirCondMass.partials",
    "Verif.Comp.MassFlopsBasedAirConditioning.TransportAirCondMass.partials",
    "Verif.Comp.MassFlopsBasedApu.TransportAPUMass.partials",
    "Verif.Comp.MassFlopsBasedAvionics.TransportAvionicsMass.partials",
    "Verif.Comp.MassFlopsBasedCanard.CanardMass.partials",
    "Verif.Comp.MassFlopsBasedCargoContainers.TransportCargoContainersMass.partials",
    "Verif.Comp.MassFlopsBasedElectrical.AltElectricalMass.partials",
    "Verif.Comp.MassFlopsBasedElectrical.ElectricalMass.partials",
    "Verif.Comp.MassFlopsBasedEmptyMargin.EmptyMassMargin.partials",
    "Verif.Comp.MassFlopsBasedFin.FinMass.partials",
    "Verif.Comp.MassFlopsBasedFuelCapacity.WingFuelCapacity.partials",
    "Verif.Comp.MassFlopsBasedFuelSystem.AltFuelSystemMass.partials",
    "Verif.Comp.MassFlopsBasedFurnishings.AltFurnishingsGroupMassBase.partials",
    "Verif.Comp.MassFlopsBasedFurnishings.BWBFurnishingsGroupMass_fuselagemilitarycargofloor.partials",
    "Verif.Comp.MassFlopsBasedFurnishings.TransportFurnishingsGroupMass.partials",
    "Verif.Comp.MassFlopsBasedFuselage.AltFuselageMass.partials",
    "Verif.Comp.MassFlopsBasedFuselage.BWBFuselageMass.partials",
    "Verif.Comp.MassFlopsBasedFuselage.TransportFuselageMass_fuselagemilitarycargofloor.partials",
    "Verif.Comp.MassFlopsBasedFuselage.TransportFuselageMass_no_fuselagemilitarycargofloor.partials",
    "Verif.Comp.MassFlopsBasedHorizontalTail.AltHorizontalTailMass.partials",
    "Verif.Comp.MassFlopsBasedHorizontalTail.HorizontalTailMass.partials",
    "Verif.Comp.MassFlopsBasedHydraulics.AltHydraulicsGroupMass.partials",
    "Verif.Comp.MassFlopsBasedInstruments.TransportInstrumentMass.partials",
    "Verif.Comp.MassFlopsBasedLandingGear.AltLandingGearMass.partials",
    "Verif.Comp.MassFlopsBasedLandingGear.MainGearMass.partials",
    "Verif.Comp.MassFlopsBasedLandingGear.NoseGearMass.partials",
    "Verif.Comp.MassFlopsBasedLandingMass.LandingMass.partials",
    "Verif.Comp.MassFlopsBasedLandingMass.LandingTakeoffMassRatio.partials",
    "Verif.Comp.MassFlopsBasedNacelle.NacelleMass_blendedwingbody.partials",
    "Verif.Comp.MassFlopsBasedNacelle.NacelleMass_otherdesigntype.partials",
    "Verif.Comp.MassFlopsBasedPaint.PaintMass.partials",
    "Verif.Comp.MassFlopsBasedPassengerService.AltPassengerServiceMass.partials",
    "Verif.Comp.MassFlopsBasedPassengerService.PassengerServiceMass.partials",
    "Verif.Comp.MassFlopsBasedSurfaceControls.AltSurfaceControlMass.partials",
    "Verif.Comp.MassFlopsBasedSurfaceControls.SurfaceControlMass.partials",
    "Verif.Comp.MassFlopsBasedUnusableFuel.AltUnusableFuelMass.partials",
    "Verif.Comp.MassFlopsBasedVerticalTail.AltVerticalTailMass.partials",
    "Verif.Comp.MassFlopsBasedVerticalTail.VerticalTailMass.partials",
    "Verif.Comp.MassFlopsBasedWingCommon.BWBWingMiscMass.partials",
    "Verif.Comp.MassFlopsBasedWingCommon.WingMiscMass.partials",
    "Verif.Comp.MassFlopsBasedWingCommon.WingShearControlMass.partials",
    "Verif.Comp.MassFlopsBasedWingCommon.WingTotalMass.partials",
    "Verif.Comp.MassFlopsBasedCrew.CabinCrewMass.partials",
    "Verif.Comp.MassFlopsBasedCrew.FlightCrewMass.partials",
    "Verif.Comp.MassFlopsBasedEngineControls.TransportEngineCtrlsMass.partials",
    "Verif.Comp.MassFlopsBasedEngineOil.AltEngineOilMass.partials",
    "Verif.Comp.MassFlopsBasedEngineOil.TransportEngineOilMass.partials",
    "Verif.Comp.MassFlopsBasedFuselage.BWBAftBodyMass_brief.partials",
    "Verif.Comp.MassFlopsBasedFuselage.BWBAftBodyMass_otherverbosity.partials",
    "Verif.Comp.MassFlopsBasedUnusableFuel.TransportUnusableFuelMass.partials"
   ],
   "note": "Real numbers, one node, options fixed per variant; hypotheses are shown satisfiable by an example next to each theorem. Components whose partials are wrong or not completely proved are in C66."
  },
  {
   "property": "C62",
   "status": "proved",
   "theorems": [
    "Verif.Comp.MassGaspBasedAirConditioning.ACMass_smooth.partials",
    "Verif.Comp.MassGaspBasedAirConditioning.ACMass_no_smooth.partials",
    "Verif.Comp.MassGaspBasedAirConditioning.BWBACMass_smooth.partials",
    "Verif.Comp.MassGaspBasedAirConditioning.BWBACMass_no_smooth.partials",
    "Verif.Comp.MassGaspBasedAntiIcing.AntiIcingMass_smooth.partials",
    "Verif.Comp.MassGaspBasedAntiIcing.AntiIcingMass_no_smooth.partials",
    "Verif.Comp.MassGaspBasedAvionics.AvionicsMass_smooth.partials",
    "Verif.Comp.MassGaspBasedAvionics.AvionicsMass_no_smooth.partials",
    "Verif.Comp.MassGaspBasedControl.MiscControlMass.partials",
    "Verif.Comp.MassGaspBasedCrew.CabinCrewMass.partials",
    "Verif.Comp.MassGaspBasedCrew.FlightCrewMass_turbojet.partials",
    "Verif.Comp.MassGaspBasedCrew.FlightCrewMass_otherenginetype.partials",
    "Verif.Comp.MassGaspBasedElectrical.ElectricalMass.partials",
    "Verif.Comp.MassGaspBasedEngine.AdditionalEngineMass.partials",
    "Verif.Comp.MassGaspBasedFixed.ElectricAugmentationMass.partials",
    "Verif.Comp.MassGaspBasedFixed.MassParameters_no_smooth.partials",
    "Verif.Comp.MassGaspBasedFuel.FuelComponents_no_smooth.partials",
    "Verif.Comp.MassGaspBasedFuel.FuelMass.partials",
    "Verif.Comp.MassGaspBasedFuel.FuelSysAndFullFuselageMass.partials",
    "Verif.Comp.MassGaspBasedFuelCapacity.TrappedFuelCapacity_smooth.partials",
    "Verif.Comp.MassGaspBasedFuelCapacity.TrappedFuelCapacity_no_smooth.partials",
    "Verif.Comp.MassGaspBasedInstruments.InstrumentMass_turbojet.partials",
    "Verif.Comp.MassGaspBasedInstruments.InstrumentMass_otherenginetype.partials",
    "Verif.Comp.MassGaspBasedLanding.LandingGearMass.partials",
    "Verif.Comp.MassGaspBasedLanding.LandingMass.partials",
    "Verif.Comp.MassGaspBasedOxygenSystem.OxygenSystemMass_smooth.partials",
    "Verif.Comp.MassGaspBasedWing.StrutAndFoldMass_winghasstrut_winghasfold.partials",
    "Verif.Comp.MassGaspBasedWing.StrutAndFoldMass_winghasstrut_no_winghasfold.partials",
    "Verif.Comp.MassGaspBasedWing.StrutAndFoldMass_no_winghasstrut_winghasfold.partials",
    "Verif.Comp.MassGaspBasedWing.WingMassTotal.partials",
    "Verif.Comp.MassGaspBasedHydraulics.HydraulicsMass_landinggearfixedgear.partials",
    "Verif.Comp.MassGaspBasedHydraulics.HydraulicsMass_no_landinggearfixedgear.partials"
   ],
   "note": "Real numbers, one node, options fixed per variant; hypotheses are shown satisfiable by an example next to each theorem. Components whose partials are wrong or not completely proved are in C66."
  },
  {
   "property": "C63",
   "status": "proved",
   "theorems": [
    "Verif.Comp.AerodynamicsAeroCommon.DynamicPressure.partials",
    "Verif.Comp.AerodynamicsFlopsBasedDrag.SimpleDrag.partials",
    "Verif.Comp.AerodynamicsFlopsBasedLift.LiftEqualsWeight.partials",
    "Verif.Comp.AerodynamicsFlopsBasedLift.SimpleLift.partials",
    "Verif.Comp.AerodynamicsFlopsBasedPremissionAero.TakeoffLoverD.partials",
    "Verif.Comp.AerodynamicsFlopsBasedTabularAeroGroup._DynamicPressure.partials",
    "Verif.Comp.AerodynamicsGaspBasedCommon.AeroForces.partials",
    "Verif.Comp.AerodynamicsGaspBasedCommon.CLFromLift.partials",
    "Verif.Comp.AerodynamicsGaspBasedGaspAeroCoeffs.AeroFormfactors.partials",
    "Verif.Comp.AerodynamicsGaspBasedGaspAeroCoeffs.BWBFormFactor.partials",
    "Verif.Comp.AerodynamicsGaspBasedGaspAeroCoeffs.FormFactor.partials",
    "Verif.Comp.AerodynamicsGaspBasedGaspaero.BWBLiftCoeff.partials",
    "Verif.Comp.AerodynamicsGaspBasedGaspaero.BWBLiftCoeffClean_outputalpha.partials",
    "Verif.Comp.AerodynamicsGaspBasedGaspaero.BWBLiftCoeffClean_no_outputalpha.partials",
    "Verif.Comp.AerodynamicsGaspBasedGaspaero.BWBSIWB.partials",
    "Verif.Comp.AerodynamicsGaspBasedGaspaero.LiftCoeff.partials",
    "Verif.Comp.AerodynamicsGaspBasedGaspaero.LiftCoeffClean_outputalpha.partials",
    "Verif.Comp.AerodynamicsGaspBasedGaspaero.LiftCoeffClean_no_outputalpha.partials",
    "Verif.Comp.AerodynamicsGaspBasedGaspaero.SIWB.partials",
    "Verif.Comp.AerodynamicsGaspBasedInterference.BodyRatios.partials",
    "Verif.Comp.AerodynamicsGaspBasedInterference.CommonVariables.partials",
    "Verif.Comp.AerodynamicsGaspBasedInterference.InterferenceDrag.partials",
    "Verif.Comp.AerodynamicsGaspBasedInterference.RootChord.partials",
    "Verif.Comp.AerodynamicsGaspBasedTableBased.GearDragIncrement.partials",
    "Verif.Comp.ModelsExternalSubsystemsSimpleAeroSimpleDrag.SimpleDragCoeff.partials",
    "Verif.Comp.AerodynamicsFlopsBasedDrag.ScaledCD.partials",
    "Verif.Comp.AerodynamicsGaspBasedGaspaero.BWBBodyLiftCurveSlope.partials",
    "Verif.Comp.AerodynamicsGaspBasedInterference.TopAndBottomWidth.partials"
   ],
   "note": "Real numbers, one node, options fixed per variant; hypotheses are shown satisfiable by an example next to each theorem. Components whose partials are wrong or not completely proved are in C66."
  },
  {
   "property": "C64",
   "status": "proved",
   "theorems": [
    "Verif.Comp.MissionEnergyStateOdeRangeRate.RangeRate.partials",
    "Verif.Comp.MissionEnergyStateOdeRequiredThrust.RequiredThrust.partials",
    "Verif.Comp.MissionEnergyStateOdeTakeoffEom.Accelerations.partials",
    "Verif.Comp.MissionEnergyStateOdeTakeoffEom.DistanceRates_climbing.partials",
    "Verif.Comp.MissionEnergyStateOdeTakeoffEom.DistanceRates_no_climbing.partials",
    "Verif.Comp.MissionEnergyStateOdeTakeoffEom.FlightPathAngleRate.partials",
    "Verif.Comp.MissionEnergyStateOdeTakeoffEom.StallSpeed.partials",
    "Verif.Comp.MissionEnergyStateOdeTakeoffEom.SumForces_climbing.partials",
    "Verif.Comp.MissionEnergyStateOdeTakeoffEom.SumForces_no_climbing.partials",
    "Verif.Comp.MissionEnergyStateOdeTakeoffEom.VelocityRate.partials",
    "Verif.Comp.MissionEnergyStatePhasesSimplifiedLanding.LandingCalc.partials",
    "Verif.Comp.MissionEnergyStatePhasesSimplifiedTakeoff.FinalTakeoffConditions.partials",
    "Verif.Comp.MissionEnergyStatePhasesSimplifiedTakeoff.StallSpeed.partials",
    "Verif.Comp.MissionOdeAltitudeRate.AltitudeRate.partials",
    "Verif.Comp.MissionOdeSpecificEnergyRate.SpecificEnergyRate.partials",
    "Verif.Comp.MissionSolvedTwoDofOdeGammaComp.GammaComp.partials",
    "Verif.Comp.MissionSolvedTwoDofOdeGroundrollEom.GroundrollEOM.partials",
    "Verif.Comp.MissionSolvedTwoDofOdeUnsteadySolvedFlightConditions.UnsteadySolvedFlightConditions_groundroll_tas.partials",
    "Verif.Comp.MissionSolvedTwoDofOdeUnsteadySolvedFlightConditions.UnsteadySolvedFlightConditions_no_groundroll_tas.partials",
    "Verif.Comp.MissionTwoDofOdeAccelEom.AccelerationRates.partials",
    "Verif.Comp.MissionTwoDofOdeConstraintsFlightConstraints.ClimbAtTopOfClimb.partials",
    "Verif.Comp.MissionTwoDofOdeConstraintsFlightConstraints.FlightConstraints.partials",
    "Verif.Comp.MissionTwoDofOdeFlightEom.EOMRates.partials",
    "Verif.Comp.MissionTwoDofOdeFlightPathEom.FlightPathEOM_groundroll.partials",
    "Verif.Comp.MissionTwoDofOdeFlightPathEom.FlightPathEOM_no_groundroll.partials",
    "Verif.Comp.MissionTwoDofOdeLandingEom.LandingAltitudeComponent.partials",
    "Verif.Comp.MissionTwoDofOdeLandingEom.LandingGroundRollComponent.partials",
    "Verif.Comp.MissionTwoDofOdeTaxiEom.TaxiFuelComponent.partials",
    "Verif.Comp.MissionTwoDofOdeVRotateComp.VRotateComp.partials",
    "Verif.Comp.MissionEnergyStateOdeLandingEom.FlareSumForces.partials",
    "Verif.Comp.MissionEnergyStateOdeLandingEom.GlideSlopeForces.partials",
    "Verif.Comp.MissionEnergyStateOdeLandingEom.GroundSumForces.partials",
    "Verif.Comp.MissionEnergyStateOdeTakeoffEom.ClimbGradientForces.partials",
    "Verif.Comp.MissionSolvedTwoDofOdeUnsteadySolvedEom.UnsteadySolvedEOM_groundroll.partials",
    "Verif.Comp.MissionSolvedTwoDofOdeUnsteadySolvedEom.UnsteadySolvedEOM_no_groundroll.partials",
    "Verif.Comp.MissionTwoDofOdeTakeoffEom.TakeoffEOM_groundroll_rotation.partials",
    "Verif.Comp.MissionTwoDofOdeTakeoffEom.TakeoffEOM_groundroll_no_rotation.partials",
    "Verif.Comp.MissionTwoDofOdeTakeoffEom.TakeoffEOM_no_groundroll_rotation.partials",
    "Verif.Comp.MissionTwoDofOdeTakeoffEom.TakeoffEOM_no_groundroll_no_rotation.partials"
   ],
   "note": "Real numbers, one node, options fixed per variant; hypotheses are shown satisfiable by an example next to each theorem. Components whose partials are wrong or not completely proved are in C66."
  },
  {
   "property": "C65",
   "status": "proved",
   "theorems": [
    "Verif.Comp.AtmosphereFlightConditions.FlightConditions_tas.partials",
    "Verif.Comp.AtmosphereFlightConditions.FlightConditions_eas.partials",
    "Verif.Comp.AtmosphereFlightConditions.FlightConditions_mach.partials",
    "Verif.Comp.EnergyBatterySizing.SizeBattery.partials",
    "Verif.Comp.ModelsExternalSubsystemsDetailedBatteryModelBatteryPremission.BatteryPreMission.partials",
    "Verif.Comp.ModelsExternalSubsystemsDetailedBatteryModelCellComp.CellComp.partials",
    "Verif.Comp.PerformancePerformancePremission.PerformancePremission.partials",
    "Verif.Comp.PropulsionEngineSizing.SizeEngine.partials",
    "Verif.Comp.PropulsionPropellerHamiltonStandard.PostHamiltonStandard.partials",
    "Verif.Comp.PropulsionPropellerPropellerPerformance.AdvanceRatio_smoothzje.partials",
    "Verif.Comp.PropulsionPropellerPropellerPerformance.AdvanceRatio_no_smoothzje.partials",
    "Verif.Comp.PropulsionPropellerPropellerPerformance.AreaSquareRatio_smoothsqa.partials",
    "Verif.Comp.PropulsionPropellerPropellerPerformance.AreaSquareRatio_no_smoothsqa.partials"
   ],
   "note": "Real numbers, one node, options fixed per variant; hypotheses are shown satisfiable by an example next to each theorem. Components whose partials are wrong or not completely proved are in C66."
  },
  {
   "property": "C66",
   "status": "partial",
   "theorems": [
    "Verif.Comp.AerodynamicsGaspBasedInterference.WingFuselageInterferenceMission.partials_partial",
    "Verif.Comp.GeometryGaspBasedFuselage.BWBFuselageParameters1.partials_partial",
    "Verif.Comp.GeometryGaspBasedFuselage.BWBFuselageSize.partials_partial",
    "Verif.Comp.GeometryGaspBasedStrut.StrutGeom.partials_partial",
    "Verif.Comp.GeometryGaspBasedWing.BWBWingVolume_winghasfold_no_smooth.partials_partial",
    "Verif.Comp.GeometryGaspBasedWing.BWBWingVolume_no_winghasfold_no_smooth.partials_partial",
    "Verif.Comp.MassFlopsBasedFuelSystem.TransportFuelSystemMass.partials_partial",
    "Verif.Comp.MassFlopsBasedFurnishings.BWBFurnishingsGroupMass_no_fuselagemilitarycargofloor.partials_partial",
    "Verif.Comp.MassFlopsBasedHydraulics.TransportHydraulicsGroupMass.partials_partial",
    "Verif.Comp.MassFlopsBasedWingCommon.WingBendingMass.partials_partial",
    "Verif.Comp.MassGaspBasedControl.SurfaceControlMass.partials_partial",
    "Verif.Comp.MassGaspBasedDesignLoad.LoadParameters_smooth.partials_partial",
    "Verif.Comp.MassGaspBasedDesignLoad.LoadParameters_no_smooth.partials_partial",
    "Verif.Comp.MassGaspBasedFixed.HighLiftMass_plain.partials_partial",
    "Verif.Comp.MassGaspBasedFixed.HighLiftMass_split.partials_partial",
    "Verif.Comp.MassGaspBasedFixed.HighLiftMass_singleslotted.partials_partial",
    "Verif.Comp.MassGaspBasedFixed.HighLiftMass_doubleslotted.partials_partial",
    "Verif.Comp.MassGaspBasedFixed.HighLiftMass_tripleslotted.partials_partial",
    "Verif.Comp.MassGaspBasedFixed.HighLiftMass_fowler.partials_partial",
    "Verif.Comp.MassGaspBasedFixed.HighLiftMass_doubleslottedfowler.partials_partial",
    "Verif.Comp.MassGaspBasedFixed.HorizontalTailMass.partials_partial",
    "Verif.Comp.MassGaspBasedFixed.MassParameters_smooth.partials_partial",
    "Verif.Comp.MassGaspBasedFixed.VerticalTailMass.partials_partial",
    "Verif.Comp.MassGaspBasedFuel.BWBFuselageMass.partials_partial",
    "Verif.Comp.MassGaspBasedFuel.FuelComponents_smooth.partials_partial",
    "Verif.Comp.MassGaspBasedFuel.FuselageMass.partials_partial",
    "Verif.Comp.MassGaspBasedPassengerService.PassengerServiceMass.partials_partial",
    "Verif.Comp.MissionSolvedTwoDofOdeUnsteadySolvedFlightConditions.UnsteadySolvedFlightConditions_groundroll_eas.partials_partial",
    "Verif.Comp.MissionSolvedTwoDofOdeUnsteadySolvedFlightConditions.UnsteadySolvedFlightConditions_groundroll_otherinputspeedtype.partials_partial",
    "Verif.Comp.MissionSolvedTwoDofOdeUnsteadySolvedFlightConditions.UnsteadySolvedFlightConditions_no_groundroll_eas.partials_partial",
    "Verif.Comp.MissionSolvedTwoDofOdeUnsteadySolvedFlightConditions.UnsteadySolvedFlightConditions_no_groundroll_otherinputspeedtype.partials_partial",
    "Verif.Comp.MissionTwoDofOdeLandingEom.GlideConditionComponent.partials_partial",
    "Verif.Comp.MassGaspBasedControl.SurfaceControlMass.J_wing_surface_control_mass__min_dive_vel_violated",
    "Verif.Comp.MassGaspBasedControl.SurfaceControlMass.J_wing_surface_control_mass__wing_area_violated",
    "Verif.Comp.MassGaspBasedControl.SurfaceControlMass.J_wing_surface_control_mass__wing_ultimate_load_factor_violated",
    "Verif.Comp.MassGaspBasedFixed.HorizontalTailMass.J_horizontaltail_mass__design_gross_mass_violated",
    "Verif.Comp.MassGaspBasedFixed.HorizontalTailMass.J_horizontaltail_mass__fuselage_length_violated",
    "Verif.Comp.MassGaspBasedFixed.HorizontalTailMass.J_horizontaltail_mass__horizontaltail_area_violated",
    "Verif.Comp.MassGaspBasedFixed.HorizontalTailMass.J_horizontaltail_mass__horizontaltail_mass_coefficient_violated",
    "Verif.Comp.MassGaspBasedFixed.HorizontalTailMass.J_horizontaltail_mass__horizontaltail_moment_arm_violated",
    "Verif.Comp.MassGaspBasedFixed.HorizontalTailMass.J_horizontaltail_mass__horizontaltail_root_chord_violated",
    "Verif.Comp.MassGaspBasedFixed.HorizontalTailMass.J_horizontaltail_mass__horizontaltail_span_violated",
    "Verif.Comp.MassGaspBasedFixed.HorizontalTailMass.J_horizontaltail_mass__horizontaltail_taper_ratio_violated",
    "Verif.Comp.MassGaspBasedFixed.HorizontalTailMass.J_horizontaltail_mass__horizontaltail_thickness_to_chord_violated",
    "Verif.Comp.MassGaspBasedFixed.HorizontalTailMass.J_horizontaltail_mass__landinggear_tail_hook_mass_scaler_violated",
    "Verif.Comp.MassGaspBasedFixed.HorizontalTailMass.J_horizontaltail_mass__min_dive_vel_violated",
    "Verif.Comp.MassGaspBasedFixed.VerticalTailMass.J_verticaltail_mass__design_gross_mass_violated",
    "Verif.Comp.MassGaspBasedFixed.VerticalTailMass.J_verticaltail_mass__fuselage_length_violated",
    "Verif.Comp.MassGaspBasedFixed.VerticalTailMass.J_verticaltail_mass__horizontaltail_mass_coefficient_violated",
    "Verif.Comp.MassGaspBasedFixed.VerticalTailMass.J_verticaltail_mass__horizontaltail_span_violated",
    "Verif.Comp.MassGaspBasedFixed.VerticalTailMass.J_verticaltail_mass__horizontaltail_taper_ratio_violated",
    "Verif.Comp.MassGaspBasedFixed.VerticalTailMass.J_verticaltail_mass__horizontaltail_vertical_tail_mount_location_violated",
    "Verif.Comp.MassGaspBasedFixed.VerticalTailMass.J_verticaltail_mass__landinggear_tail_hook_mass_scaler_violated",
    "Verif.Comp.MassGaspBasedFixed.VerticalTailMass.J_verticaltail_mass__min_dive_vel_violated",
    "Verif.Comp.MassGaspBasedFixed.VerticalTailMass.J_verticaltail_mass__verticaltail_area_violated",
    "Verif.Comp.MassGaspBasedFixed.VerticalTailMass.J_verticaltail_mass__verticaltail_mass_coefficient_violated",
    "Verif.Comp.MassGaspBasedFixed.VerticalTailMass.J_verticaltail_mass__verticaltail_moment_arm_violated",
    "Verif.Comp.MassGaspBasedFixed.VerticalTailMass.J_verticaltail_mass__verticaltail_root_chord_violated",
    "Verif.Comp.MassGaspBasedFixed.VerticalTailMass.J_verticaltail_mass__verticaltail_span_violated",
    "Verif.Comp.MassGaspBasedFixed.VerticalTailMass.J_verticaltail_mass__verticaltail_taper_ratio_violated",
    "Verif.Comp.MassGaspBasedFixed.VerticalTailMass.J_verticaltail_mass__verticaltail_thickness_to_chord_violated",
    "Verif.Comp.MassGaspBasedFixed.VerticalTailMass.J_verticaltail_mass__wing_span_violated",
    "Verif.Comp.MassGaspBasedFuel.BWBFuselageMass.J_fuselage_mass__design_gross_mass_violated",
    "Verif.Comp.MassGaspBasedFuel.BWBFuselageMass.J_fuselage_mass__fuselage_aftbody_mass_per_unit_area_violated",
    "Verif.Comp.MassGaspBasedFuel.BWBFuselageMass.J_fuselage_mass__fuselage_cabin_area_violated",
    "Verif.Comp.MassGaspBasedFuel.BWBFuselageMass.J_fuselage_mass__fuselage_mass_coefficient_violated",
    "Verif.Comp.MassGaspBasedFuel.BWBFuselageMass.J_fuselage_mass__fuselage_wetted_area_violated",
    "Verif.Comp.MassGaspBasedFuel.BWBFuselageMass.J_fuselage_mass__fuselage_wetted_area_ratio_aftbody_to_total_violated",
    "Verif.Comp.MassGaspBasedFuel.FuselageMass.J_fuselage_mass__mat_violated",
    "Verif.Comp.MissionSolvedTwoDofOdeUnsteadySolvedFlightConditions.UnsteadySolvedFlightConditions_groundroll_eas.J_dtas_dt_approx__atmosphere_density_violated",
    "Verif.Comp.MissionSolvedTwoDofOdeUnsteadySolvedFlightConditions.UnsteadySolvedFlightConditions_groundroll_eas.J_dtas_dt_approx__eas_violated",
    "Verif.Comp.MissionSolvedTwoDofOdeUnsteadySolvedFlightConditions.UnsteadySolvedFlightConditions_groundroll_otherinputspeedtype.J_dtas_dt_approx__atmosphere_mach_violated",
    "Verif.Comp.MissionSolvedTwoDofOdeUnsteadySolvedFlightConditions.UnsteadySolvedFlightConditions_no_groundroll_eas.J_dtas_dt_approx__atmosphere_density_violated",
    "Verif.Comp.MissionSolvedTwoDofOdeUnsteadySolvedFlightConditions.UnsteadySolvedFlightConditions_no_groundroll_eas.J_dtas_dt_approx__eas_violated",
    "Verif.Comp.MissionSolvedTwoDofOdeUnsteadySolvedFlightConditions.UnsteadySolvedFlightConditions_no_groundroll_otherinputspeedtype.J_dtas_dt_approx__atmosphere_mach_violated",
    "Verif.Comp.MissionSolvedTwoDofOdeUnsteadySolvedFlightConditions.UnsteadySolvedFlightConditions_no_groundroll_otherinputspeedtype.J_dtas_dt_approx__atmosphere_speed_of_sound_violated",
    "Verif.Findings.hydraulic_aisle_iff",
    "Verif.Findings.wetted_additional_width_violated",
    "Verif.Findings.countFactor_lt",
    "Verif.Findings.countFactor_mono",
    "Verif.Findings.countFactor_bound",
    "Verif.Findings.fuel_capacity_partial",
    "Verif.Findings.fuel_capacity_violated",
    "Verif.Findings.slope_eq",
    "Verif.Findings.slopeA_partial",
    "Verif.Findings.slopeM_partial",
    "Verif.Findings.slopeS_partial",
    "Verif.Comp.AerodynamicsFlopsBasedGroundEffect.GroundEffect.partials_partial",
    "Verif.Comp.AerodynamicsFlopsBasedInducedDrag.InducedDrag_wingspanefficiencyreduction.partials_partial",
    "Verif.Comp.AerodynamicsFlopsBasedInducedDrag.InducedDrag_no_wingspanefficiencyreduction.partials_partial",
    "Verif.Comp.AerodynamicsGaspBasedGaspaero.UFac_transport.partials_partial",
    "Verif.Comp.GeometryFlopsBasedWettedAreaTotal.FuselageWettedArea.partials_partial"
   ],
   "note": "partials_partial bundles the entries that are proved; theorems ending in _violated show an entry is not the derivative; DESIGN.md section 5 lists the entries that are wrong and those not proved."
  },
  {
   "property": "C67",
   "status": "partial",
   "theorems": [
    "Verif.Cabin.attendants_mono",
    "Verif.Cabin.lavatories_mono",
    "Verif.Cabin.pilots_mono",
    "Verif.Cabin.lavatories_eq_attendants",
    "Verif.Cabin.attendants_rule",
    "Verif.Cabin.hard_ok_iff",
    "Verif.Cabin.hard_total_violated",
    "Verif.Cabin.hard_min",
    "Verif.Cabin.hardGrad_ok_iff",
    "Verif.Cabin.hardT_light",
    "Verif.Cabin.hardT_large",
    "Verif.Cabin.large_partials",
    "Verif.Cabin.light_partials",
    "Verif.Cabin.softRaw_error",
    "Verif.Cabin.sigX_half",
    "Verif.Cabin.soft_blend_violated",
    "Verif.Cabin.soft_partials_violated",
    "Verif.Cabin.blend_partials",
    "Verif.Cabin.oxygenGrad_ok_iff",
    "Verif.Cabin.oxygenGrad_total_violated",
    "Verif.Cabin.oxygenGrad_partial",
    "Verif.Cabin.oxygen_mono",
    "Verif.Cabin.service_partials_partial",
    "Verif.Cabin.service_partials_violated",
    "Verif.Cabin.service_water_catering",
    "Verif.Cabin.pilots_iff",
    "Verif.Cabin.attendants_iff"
   ],
   "note": "Violated parts are named _violated: furnishing mass is unbound below 50 passengers for cabin widths in (5.667, 8.90], the smooth furnishing mass multiplies the second formula by the option instead of the blending weight, oxygen partials are unbound for light aircraft with fewer than nine passengers, and the passenger service partial is zero for 10 to 19 passengers."
  },
  {
   "property": "C68",
   "status": "partial",
   "theorems": [
    "Verif.Geo.geopotential_eq",
    "Verif.Geo.geopotential_slope",
    "Verif.Geo.gravity_bounds",
    "Verif.Geo.geopotential_zero",
    "Verif.Geo.geopotential_integral",
    "Verif.Geo.geopotential_step",
    "Verif.Geo.step_abs",
    "Verif.Geo.pass_range",
    "Verif.Geo.pass_residual",
    "Verif.Geo.loop_ends",
    "Verif.Geo.start_range",
    "Verif.Geo.convert_ok",
    "Verif.Geo.convert_accuracy",
    "Verif.Geo.convert_zero",
    "Verif.Geo.loop_mono",
    "Verif.Geo.convert_negative_violated"
   ],
   "note": "Altitudes below sea level give no real result (convert_negative_violated); altitudes above 600000 ft are not treated."
  },
  {
   "property": "C69",
   "status": "partial",
   "theorems": [
    "Verif.POpt.get?_set_self",
    "Verif.POpt.get?_set_other",
    "Verif.POpt.keys_set",
    "Verif.POpt.unitsSetter_units",
    "Verif.POpt.setItem_ok",
    "Verif.POpt.setItem_wf",
    "Verif.POpt.read_wf",
    "Verif.POpt.setItem_frame",
    "Verif.POpt.getVal_setItem",
    "Verif.POpt.convertUnits_trans",
    "Verif.POpt.getVal_any_units",
    "Verif.POpt.convertUnits_self",
    "Verif.POpt.convertLeaf_float",
    "Verif.POpt.convertLeaf_self",
    "Verif.POpt.convertItems_self",
    "Verif.POpt.mapM_self",
    "Verif.POpt.truncToInt_int",
    "Verif.POpt.converted_stable",
    "Verif.POpt.read_suffix",
    "Verif.POpt.roundtrip",
    "Verif.POpt.roundtrip_violated",
    "Verif.POpt.setItem_none_violated",
    "Verif.POpt.read_short_tuple_violated",
    "Verif.POpt.setItem_undeclared",
    "Verif.POpt.getVal_bare"
   ],
   "note": "Violated parts: a value that is itself a (value, units) looking tuple is not kept by the round trip, an option with units refuses None, a legacy tuple shorter than two raises IndexError."
  },
  {
   "property": "C70",
   "status": "partial",
   "theorems": [
    "Verif.Fortran.splitChar_ne_nil",
    "Verif.Fortran.splitChar_append",
    "Verif.Fortran.splitChar_single",
    "Verif.Fortran.splitChar_sep",
    "Verif.Fortran.splitChar_join",
    "Verif.Fortran.joinChar_split",
    "Verif.Fortran.joinChar_snoc",
    "Verif.Fortran.joinChar_snoc_append",
    "Verif.Fortran.not_mem_join",
    "Verif.Fortran.data_no_eq",
    "Verif.Fortran.split_render",
    "Verif.Fortran.takeWhile_append_alpha",
    "Verif.Fortran.pieces_tails",
    "Verif.Fortran.line_roundtrip",
    "Verif.Fortran.line_without_eq",
    "Verif.Fortran.pieces_ns",
    "Verif.Fortran.line_ns",
    "Verif.Fortran.takeWhile_self",
    "Verif.Fortran.clean_comment",
    "Verif.Fortran.clean_blank",
    "Verif.Fortran.clean_comma",
    "Verif.Fortran.clean_self",
    "Verif.Fortran.step_header",
    "Verif.Fortran.step_body",
    "Verif.Fortran.step_term",
    "Verif.Fortran.deckActs_append",
    "Verif.Fortran.deckEnd_append",
    "Verif.Fortran.block_body",
    "Verif.Fortran.block_acts",
    "Verif.Fortran.deck_blocks",
    "Verif.Fortran.deck_outside",
    "Verif.Fortran.written_acts",
    "Verif.Fortran.parse_written",
    "Verif.Fortran.runActs_fold",
    "Verif.Fortran.runActs_error",
    "Verif.Fortran.continuation_violated",
    "Verif.Fortran.exponent_violated",
    "Verif.Fortran.logical_violated",
    "Verif.Fortran.header_data_violated",
    "Verif.Fortran.header_slash_violated",
    "Verif.Fortran.closing_units_violated",
    "Verif.Fortran.bare_tag_violated"
   ],
   "note": "Proved for decks written one entry group per line with separators; continued value lists, exponent or logical values without comma, data or a slash on the header line, units with a slash on the closing line and a tag without text are not read correctly (\u2026_violated)."
  },
  {
   "property": "C71",
   "status": "partial",
   "theorems": [
    "Verif.Fortran.setValue_ok",
    "Verif.Fortran.setValue_units_fixed",
    "Verif.Fortran.entryUnits_ne",
    "Verif.Fortran.write_get",
    "Verif.Fortran.entryValue_write",
    "Verif.Fortran.entryValue_fresh",
    "Verif.Fortran.write_comm",
    "Verif.Fortran.writes_append",
    "Verif.Fortran.writes_any_order",
    "Verif.Fortran.setValue_any_order",
    "Verif.Fortran.missing_first_violated",
    "Verif.Fortran.index_zero_violated",
    "Verif.Fortran.bool_converted",
    "Verif.Fortran.bool_range_violated",
    "Verif.Fortran.bool_twice_violated",
    "Verif.Fortran.matchAlts_sound",
    "Verif.Fortran.matchAlts_ind",
    "Verif.Fortran.matchAlts_mono",
    "Verif.Fortran.matchAlts_complete",
    "Verif.Fortran.matchAll_mono",
    "Verif.Fortran.matchAll_sound",
    "Verif.Fortran.matchAll_complete",
    "Verif.Fortran.updateName_complete",
    "Verif.Fortran.updateName_sound",
    "Verif.Fortran.updateName_ne_nil",
    "Verif.Fortran.splitIndex_plain",
    "Verif.Fortran.splitIndex_indexed",
    "Verif.Fortran.endsWith_suffix",
    "Verif.Fortran.endsWith_self",
    "Verif.Fortran.endsWith_qualified",
    "Verif.Fortran.unqualified_unreachable_violated",
    "Verif.Fortran.second_element_violated",
    "Verif.Fortran.matchAt_append",
    "Verif.Fortran.search_infix",
    "Verif.Fortran.matchAt_short",
    "Verif.Fortran.search_short",
    "Verif.Fortran.pyStrList_infix",
    "Verif.Fortran.skipped_infix",
    "Verif.Fortran.deprecated_skipped",
    "Verif.Fortran.deprecated_prefix_violated",
    "Verif.Fortran.none_skipped",
    "Verif.Fortran.storeName_core",
    "Verif.Fortran.storeNames_core",
    "Verif.Fortran.store_core",
    "Verif.Fortran.written_units_violated",
    "Verif.Fortran.gear_ratio_violated",
    "Verif.Fortran.guess_no_dot",
    "Verif.Fortran.splitIndex_dot",
    "Verif.Fortran.guesses_never_set_violated",
    "Verif.Fortran.aviary_name_violated",
    "Verif.Fortran.entryUnits_new"
   ],
   "note": "Violated parts have witnesses: None in lists without first element, index 0, boolean range check, boolean assigned twice, names without namelist, second variable of one element, prefixes of deprecated names, written units, gear ratio, initial guesses and Aviary names outside namelists."
  },
  {
   "property": "C72",
   "status": "partial",
   "theorems": [
    "Verif.Fortran.updateScaler_spec",
    "Verif.Fortran.updateScaler_nodup",
    "Verif.Fortran.updateScaler_frame",
    "Verif.Fortran.toList_inj",
    "Verif.Fortran.flops_last",
    "Verif.Fortran.scalerName_last",
    "Verif.Fortran.flops_separate",
    "Verif.Fortran.scalerName_inj",
    "Verif.Fortran.updateScalers_frame",
    "Verif.Fortran.updateScaler_local",
    "Verif.Fortran.updateScalers_each",
    "Verif.Fortran.updateScalers_spec",
    "Verif.Fortran.flops_scalers",
    "Verif.Fortran.zero_scaler_violated",
    "Verif.Fortran.oil_eq",
    "Verif.Fortran.oil_scaler_violated",
    "Verif.Fortran.gasp_scaler",
    "Verif.Fortran.updateScalers_idem"
   ],
   "note": "Violated: a scaler of zero is deleted, so the component keeps its full weight; the engine oil scaler is not in the list. The value equal to the limit stays a factor."
  },
  {
   "property": "C73",
   "status": "partial",
   "theorems": [
    "Verif.Fortran.designRange_spec",
    "Verif.Fortran.designRange_violated",
    "Verif.Fortran.trunc_nonneg",
    "Verif.Fortran.trunc_le_int",
    "Verif.Fortran.gaspPassengers_sum",
    "Verif.Fortran.gaspPassengers_violated",
    "Verif.Fortran.seatsAbreast_spec",
    "Verif.Fortran.seatPitch_spec",
    "Verif.Fortran.strutFold_table",
    "Verif.Fortran.strutFold_attachment_violated",
    "Verif.Fortran.flapType_table",
    "Verif.Fortran.flaps_ok",
    "Verif.Fortran.flapType_zero_violated",
    "Verif.Fortran.flapType_range",
    "Verif.Fortran.reserve_partial",
    "Verif.Fortran.reserve_violated",
    "Verif.Fortran.volumeMargin_violated",
    "Verif.Fortran.volumeMargin_partial",
    "Verif.Fortran.furnishings_spec"
   ],
   "note": "Violated parts: nested range list for off design problems, unbound variable for a first class fraction alone, flap number 0, reserve between 0 and 10 dropped, margin in pounds, negative attachment location."
  },
  {
   "property": "C74",
   "status": "partial",
   "theorems": [
    "Verif.Fortran.scalerAsMass_spec",
    "Verif.Fortran.wingFuel_spec",
    "Verif.Fortran.landingLift_spec",
    "Verif.Fortran.bwbStations_lengths",
    "Verif.Fortran.fill_below",
    "Verif.Fortran.fill_zero",
    "Verif.Fortran.tailDefaults_partial",
    "Verif.Fortran.tailTC_rest",
    "Verif.Fortran.tailTaper_rest",
    "Verif.Fortran.tailSweep_violated",
    "Verif.Fortran.tailAspect_violated",
    "Verif.Fortran.tailTaper_violated",
    "Verif.Fortran.fuelFlow_spec",
    "Verif.Fortran.removeIf_spec"
   ],
   "note": "Violated: the horizontal tail defaults for sweep and aspect ratio raise AttributeError, the taper default KeyError without a wing taper ratio."
  },
  {
   "property": "C75",
   "status": "partial",
   "theorems": [
    "Verif.LinkPhases.mem_sorted",
    "Verif.LinkPhases.sorted_perm",
    "Verif.LinkPhases.sorted_nodup",
    "Verif.LinkPhases.isInitial_append",
    "Verif.LinkPhases.stem_append",
    "Verif.LinkPhases.append_stem",
    "Verif.LinkPhases.runAll_ok",
    "Verif.LinkPhases.runAll_each",
    "Verif.LinkPhases.runAll_total",
    "Verif.LinkPhases.commonLoop_mem",
    "Verif.LinkPhases.commonLoop_opt2",
    "Verif.LinkPhases.linkPair_mem",
    "Verif.LinkPhases.findScaling_acts",
    "Verif.LinkPhases.analyticScaling_acts",
    "Verif.LinkPhases.commonActs_mem",
    "Verif.LinkPhases.downActs_mem",
    "Verif.LinkPhases.upActs_mem",
    "Verif.LinkPhases.linkPair_shape",
    "Verif.LinkPhases.adjacent_cons",
    "Verif.LinkPhases.not_adjacent_single",
    "Verif.LinkPhases.linkFrom_sound",
    "Verif.LinkPhases.linkFrom_complete",
    "Verif.LinkPhases.linkPhases_ok",
    "Verif.LinkPhases.links_consecutive",
    "Verif.LinkPhases.links_parallel",
    "Verif.LinkPhases.links_kw",
    "Verif.LinkPhases.links_configured",
    "Verif.LinkPhases.commonActs_link",
    "Verif.LinkPhases.truthy_iff",
    "Verif.LinkPhases.linkPair_continuous",
    "Verif.LinkPhases.links_continuous_partial",
    "Verif.LinkPhases.runAll_congr",
    "Verif.LinkPhases.linkPair_perm",
    "Verif.LinkPhases.filterMap_target_off",
    "Verif.LinkPhases.commonActs_target",
    "Verif.LinkPhases.commonLoop_target",
    "Verif.LinkPhases.runAll_target",
    "Verif.LinkPhases.downActs_target",
    "Verif.LinkPhases.upActs_target",
    "Verif.LinkPhases.linkPair_once",
    "Verif.LinkPhases.analyticScaling_total",
    "Verif.LinkPhases.linkPair_total",
    "Verif.LinkPhases.linkFrom_total",
    "Verif.LinkPhases.links_total_partial",
    "Verif.LinkPhases.commonActs_connected",
    "Verif.LinkPhases.scaling_upstream",
    "Verif.LinkPhases.scaling_downstream",
    "Verif.LinkPhases.scaling_time",
    "Verif.LinkPhases.scaleName_spec",
    "Verif.LinkPhases.zero_pin_connected_violated",
    "Verif.LinkPhases.zero_pin_duplicate_violated",
    "Verif.LinkPhases.pinned_jump_violated",
    "Verif.LinkPhases.linkPair_initial_tied",
    "Verif.LinkPhases.breguet_chain_violated",
    "Verif.LinkPhases.unbound_opt2_violated",
    "Verif.LinkPhases.single_not_configured",
    "Verif.LinkPhases.linkKey_spec"
   ],
   "note": "Continuity is proved for variables without fixed ends (links_continuous_partial). Violated: ends fixed at zero count as free, different fixed ends leave a jump without error, consecutive Breguet phases tie start to start, an unbound option in loops over analytic phases."
  },
  {
   "property": "C76",
   "status": "partial",
   "theorems": [
    "Verif.PhaseInfo.setDurations_length",
    "Verif.PhaseInfo.setDurations_get",
    "Verif.PhaseInfo.setDurations_of",
    "Verif.PhaseInfo.preprocess_ok",
    "Verif.PhaseInfo.preprocess_positive",
    "Verif.PhaseInfo.setDuration_guess",
    "Verif.PhaseInfo.setDuration_frame",
    "Verif.PhaseInfo.setDuration_idem",
    "Verif.PhaseInfo.preprocess_idem",
    "Verif.PhaseInfo.setDuration_total",
    "Verif.PhaseInfo.duration_error_violated",
    "Verif.PhaseInfo.isIn_iff",
    "Verif.PhaseInfo.tabularLoop_append",
    "Verif.PhaseInfo.tabularLoop_some",
    "Verif.PhaseInfo.tabular_iff",
    "Verif.PhaseInfo.tabular_all_partial",
    "Verif.PhaseInfo.tabular_only_if_all_violated",
    "Verif.PhaseInfo.tabular_order_violated",
    "Verif.PhaseInfo.geomOrigin_spec"
   ],
   "note": "Violated: nonpositive durations end in a TypeError instead of the ValueError written, the tabular flag is set when only some phases are tabular and depends on their order."
  },
  {
   "property": "C77",
   "status": "partial",
   "theorems": [
    "Verif.PhaseInfo.energyTime_fixed",
    "Verif.PhaseInfo.energyTime_durationBounds",
    "Verif.PhaseInfo.energyTime_initialBounds",
    "Verif.PhaseInfo.initial_bounds_dropped_violated",
    "Verif.PhaseInfo.energyInitialRef_spec",
    "Verif.PhaseInfo.energyDurationRef_spec",
    "Verif.PhaseInfo.energyDurationRef_between",
    "Verif.PhaseInfo.energyDurationRef_pos_partial",
    "Verif.PhaseInfo.energyDurationRef_zero_violated",
    "Verif.PhaseInfo.energyInitialRef_user_violated",
    "Verif.PhaseInfo.twoDofTime_initialBounds",
    "Verif.PhaseInfo.twoDofTime_duration",
    "Verif.PhaseInfo.twoDofTime_total",
    "Verif.PhaseInfo.twoDofTime_initialRef",
    "Verif.PhaseInfo.twoDof_parallel_bounds_violated",
    "Verif.PhaseInfo.timeGuess_fixed",
    "Verif.PhaseInfo.timeGuess_midpoint_violated",
    "Verif.PhaseInfo.timeGuess_none_violated",
    "Verif.PhaseInfo.issues_iff",
    "Verif.PhaseInfo.issues_value_partial",
    "Verif.PhaseInfo.issues_units_violated",
    "Verif.PhaseInfo.printed_iff",
    "Verif.PhaseInfo.twoDofTime_initialRef_ne"
   ],
   "note": "Violated: start bounds are dropped for later phases on one process and for all in parallel two degree of freedom missions, reference 0 for bounds (0, None), a reference of one second is replaced, the guess is the lower bound and raises without one, equal values in different units are reported."
  },
  {
   "property": "C78",
   "status": "partial",
   "theorems": [
    "Verif.Objective.addObjective_total",
    "Verif.Objective.addObjective_errors",
    "Verif.Objective.addObjective_ref",
    "Verif.Objective.addObjective_default_pos",
    "Verif.Objective.addObjective_problem",
    "Verif.Objective.fuelValue_prefers",
    "Verif.Objective.rangeValue_prefers",
    "Verif.Objective.rangeValue_negative_ref_violated",
    "Verif.Objective.mass_objective_violated",
    "Verif.Objective.hybrid_objective_violated",
    "Verif.Objective.hybridValue_time",
    "Verif.Objective.objectivePhase_spec",
    "Verif.Objective.hybridPhase_partial",
    "Verif.Objective.hybridPhase_reserve_violated",
    "Verif.Objective.addObjective_named",
    "Verif.Objective.objectives_trade"
   ],
   "note": "Violated: the mass objective minimises the final mass, the hybrid objective ignores the reference value, prefers less mass and reads the end of a reserve phase, a negative reference makes the range objective prefer short ranges."
  },
  {
   "property": "C79",
   "status": "partial",
   "theorems": [
    "Verif.Objective.parseArg_ok",
    "Verif.Objective.parseArgs_ok",
    "Verif.Objective.sum_map_div",
    "Verif.Objective.terms_factor",
    "Verif.Objective.terms_sum",
    "Verif.Objective.value_mem",
    "Verif.Objective.terms_scale",
    "Verif.Objective.addComposite_ok",
    "Verif.Objective.addComposite_sum",
    "Verif.Objective.composite_no_args_violated",
    "Verif.Objective.composite_zero_weight_violated",
    "Verif.Objective.composite_names_violated",
    "Verif.Objective.mass_objectives_differ_violated",
    "Verif.Objective.composite_mass_minimised_violated",
    "Verif.Objective.advFactors_sum_aux",
    "Verif.Objective.advFactors_mem",
    "Verif.Objective.advFactors_sum_partial",
    "Verif.Objective.advFactors_default",
    "Verif.Objective.adv_weights_violated",
    "Verif.Objective.advConnections_mem",
    "Verif.Objective.adv_connections_violated",
    "Verif.Objective.cleanName_spec"
   ],
   "note": "Violated: no arguments give an empty expression, cancelling weights divide by zero, names that differ in : and _ collide, the mass term has the sign opposite to the plain mass objective, surplus weights are not normalised and the connections pair missions with factors in reverse."
  },
  {
   "property": "C80",
   "status": "partial",
   "theorems": [
    "Verif.Objective.getD_nonneg",
    "Verif.Objective.offDesignPax_none",
    "Verif.Objective.offDesign_pax",
    "Verif.Objective.offDesign_default",
    "Verif.Objective.offDesign_empty",
    "Verif.Objective.offDesign_design",
    "Verif.Objective.offDesign_num_pax_violated",
    "Verif.Objective.offDesign_gasp",
    "Verif.Objective.gasp_ferry_violated",
    "Verif.Objective.offDesignCargo_spec",
    "Verif.Objective.fillCargo_flops",
    "Verif.Objective.fillCargo_gasp_violated",
    "Verif.Objective.offDesignCheck_ok",
    "Verif.Objective.firstFree_spec",
    "Verif.Objective.firstFree_total",
    "Verif.Objective.offDesignTargets_spec",
    "Verif.Objective.offDesign_gross_guess_violated",
    "Verif.Objective.fillCargo_gasp_partial"
   ],
   "note": "Violated: with FLOPS masses the total asked for is overridden by the class counts of the design unless all are zero, a ferry flight with GASP masses keeps its passengers, fill_cargo raises for GASP, the guess of the gross mass lies ten percent below the one given."
  },
  {
   "property": "C81",
   "status": "partial",
   "theorems": [
    "Verif.Objective.ferry_gross",
    "Verif.Objective.ferry_limits",
    "Verif.Objective.payloadFrac_pos",
    "Verif.Objective.payloadFrac_le_one_iff",
    "Verif.Objective.scaleCount_le",
    "Verif.Objective.mission3_spec",
    "Verif.Objective.mission3_pax",
    "Verif.Objective.payloadRange_table",
    "Verif.Objective.payloadRange_bounds_violated",
    "Verif.Objective.quiet_unconverged_violated",
    "Verif.Objective.no_point3_violated",
    "Verif.Objective.gasp_table_violated",
    "Verif.Objective.no_cruise_violated",
    "Verif.Objective.payloadFrac_above_one_violated",
    "Verif.Objective.ferry_fuel",
    "Verif.Objective.ferry_empty"
   ],
   "note": "Violated: the cruise bounds of the sized problem are changed in place, quiet runs skip the convergence check, the table fails when the third point is absent, GASP gives no table, missions without cruise raise, the payload fraction can exceed one."
  },
  {
   "property": "C82",
   "status": "partial",
   "theorems": [
    "Verif.Save.jsonVal_plain",
    "Verif.Save.prepare_plain",
    "Verif.Save.tagOf_plain",
    "Verif.Save.jsonList_plain",
    "Verif.Save.castType_plain",
    "Verif.Save.avStep_accepts",
    "Verif.Save.plain_returns",
    "Verif.Save.ofStr_wellNamed",
    "Verif.Save.convertEntry_name",
    "Verif.Save.enum_returns",
    "Verif.Save.wellNamed_iff",
    "Verif.Save.enums_wellNamed",
    "Verif.Save.list_returns_of",
    "Verif.Save.callTy_same",
    "Verif.Save.mapM_same",
    "Verif.Save.flatten_plain",
    "Verif.Save.checkType_items",
    "Verif.Save.castType_list",
    "Verif.Save.list_returns",
    "Verif.Save.array_returns",
    "Verif.Save.gross_returns",
    "Verif.Save.set_append",
    "Verif.Save.rows_return",
    "Verif.Save.loadFrom_append",
    "Verif.Save.save_load",
    "Verif.Save.design_gross_violated",
    "Verif.Save.enum_list_violated",
    "Verif.Save.empty_list_violated",
    "Verif.Save.enum_array_violated",
    "Verif.Save.save_mutates_violated",
    "Verif.Save.afterSave_plain",
    "Verif.Save.int_array_violated",
    "Verif.Save.marked_text_violated",
    "Verif.Save.unknown_violated",
    "Verif.Save.enums_numbers"
   ],
   "note": "Violated: the design gross mass is overwritten by the gross mass of the mission, lists of enum members come back as their first member, empty lists and arrays or tuples of enum members make saving raise, saving changes lists of enum members in place, integer arrays may come back as floats, texts with < in lists are cut, names without metadata are lost."
  },
  {
   "property": "C83",
   "status": "partial",
   "theorems": [
    "Verif.Wiring.lastPart_mass",
    "Verif.Wiring.targets_ne",
    "Verif.Wiring.energy_conns_many",
    "Verif.Wiring.energy_conns_none",
    "Verif.Wiring.energy_conns_single",
    "Verif.Wiring.energy_no_main",
    "Verif.Wiring.ends_distinct",
    "Verif.Wiring.wired_many",
    "Verif.Wiring.wired_none",
    "Verif.Wiring.single_reserve_violated",
    "Verif.Wiring.chain_burn",
    "Verif.Wiring.wired_fuel_closes_partial",
    "Verif.Wiring.single_reserve_fuel_violated"
   ],
   "note": "Proved for none or at least two reserve phases. Violated for exactly one: the second assignment to the bus replaces the first, the initial mass keeps its default of one pound."
  },
  {
   "property": "C84",
   "status": "partial",
   "theorems": [
    "Verif.Wiring.lastPart_plain",
    "Verif.Wiring.lastPart_dotted",
    "Verif.Wiring.inPhases_ok",
    "Verif.Wiring.missionName_ok",
    "Verif.Wiring.missionNames_ok",
    "Verif.Wiring.addBus_spec",
    "Verif.Wiring.missionName_total",
    "Verif.Wiring.missionNames_total",
    "Verif.Wiring.addBus_total",
    "Verif.Wiring.metadata_name_violated",
    "Verif.Wiring.same_parameter_violated"
   ],
   "note": "Violated: mission names found in the metadata are neither added nor connected; names that differ only before the last point give one parameter with two sources."
  },
  {
   "property": "C85",
   "status": "partial",
   "theorems": [
    "Verif.Wiring.externalMass_sum_partial",
    "Verif.Wiring.flat_injective",
    "Verif.Wiring.externalMass_perm",
    "Verif.Wiring.externalMass_twice_violated",
    "Verif.Wiring.externalMass_collision_violated"
   ],
   "note": "Proved for names that stay different after \":\" becomes \"_\". Violated otherwise and for a name given twice."
  },
  {
   "property": "C86",
   "status": "partial",
   "theorems": [
    "Verif.Wiring.postCons_iff",
    "Verif.Wiring.names_ne",
    "Verif.Wiring.sizing_feasible_iff",
    "Verif.Wiring.minFuel_feasible_iff",
    "Verif.Wiring.maxRange_feasible_iff",
    "Verif.Wiring.multi_feasible_iff",
    "Verif.Wiring.multi_heaviest",
    "Verif.Wiring.multi_equal_violated",
    "Verif.Wiring.sizing_upper_violated",
    "Verif.Wiring.multi_upper_violated",
    "Verif.Wiring.minFuel_range_violated",
    "Verif.Wiring.duration_free",
    "Verif.Wiring.solved_feasible_iff"
   ],
   "note": "Violated: the documented upper bound of sizing is absent, several missions are capped at 900000 lbm and leave the design heavier than the heaviest mission, fuel problems force the range without a target range, solved missions ignore the kind of problem."
  },
  {
   "property": "C87",
   "status": "partial",
   "theorems": [
    "Verif.Cruise.prod_eq",
    "Verif.Cruise.prod_upper",
    "Verif.Cruise.jacRange_eq",
    "Verif.Cruise.cum_hasDerivAt",
    "Verif.Cruise.rangeOut_eq",
    "Verif.Cruise.ratio_eq",
    "Verif.Cruise.star_eq",
    "Verif.Cruise.hasDerivAt_star",
    "Verif.Cruise.update_comp",
    "Verif.Cruise.range_by_mass",
    "Verif.Cruise.hasDerivAt_overNeg",
    "Verif.Cruise.range_by_flow",
    "Verif.Cruise.cum_by_speed",
    "Verif.Cruise.range_by_speed",
    "Verif.Cruise.vm_hasDerivAt",
    "Verif.Cruise.time_by_other",
    "Verif.Cruise.time_by_mass",
    "Verif.Cruise.time_by_flow",
    "Verif.Cruise.time_by_speed_of",
    "Verif.Cruise.time_by_speed",
    "Verif.Cruise.range_monotone",
    "Verif.Cruise.range_breguet",
    "Verif.Cruise.time_constant_speed_partial",
    "Verif.Cruise.time_backwards_violated"
   ],
   "note": "Range, its order and all partial derivatives proved. The time is right for constant speed only: it is the whole distance over the mean speed of the last leg and can run backwards."
  },
  {
   "property": "C88",
   "status": "partial",
   "theorems": [
    "Verif.Cruise.cum_edrange",
    "Verif.Cruise.erange_by_power",
    "Verif.Cruise.erange_by_energy",
    "Verif.Cruise.ecum_by_speed",
    "Verif.Cruise.erange_by_speed",
    "Verif.Cruise.etime_by_power",
    "Verif.Cruise.etime_by_energy",
    "Verif.Cruise.etime_by_speed",
    "Verif.Cruise.erange_constant_partial",
    "Verif.Cruise.erange_no_energy_violated",
    "Verif.Cruise.erange_backwards_violated",
    "Verif.Cruise.distance_by_speed",
    "Verif.Cruise.distance_by_time",
    "Verif.Cruise.distance_by_start_partial",
    "Verif.Cruise.distance_by_start_violated",
    "Verif.Cruise.distance_history_violated"
   ],
   "note": "All entries of the electric Jacobian proved. Violated: range changes with power although no energy is used and can fall while energy is used; the entry by the initial distance exists at the first node only; the simple distance ignores earlier speeds."
  },
  {
   "property": "C89",
   "status": "partial",
   "theorems": [
    "Verif.LandingEom.climb_newton",
    "Verif.LandingEom.climbGradient_rates",
    "Verif.LandingEom.climbGradient_steady",
    "Verif.LandingEom.flare_forces",
    "Verif.LandingEom.flare_rates",
    "Verif.LandingEom.flare_level",
    "Verif.LandingEom.flare_newton_iff",
    "Verif.LandingEom.flare_newton_violated",
    "Verif.LandingEom.flare_newton_partial",
    "Verif.LandingEom.roll_newton",
    "Verif.LandingEom.roll_friction_partial",
    "Verif.LandingEom.roll_friction_violated",
    "Verif.LandingEom.groundSum_friction",
    "Verif.LandingEom.glideSlope_steady"
   ],
   "note": "Climb, ground roll, glide slope and all rates proved. Violated: the flare sums a horizontal force that points backwards and feeds it unchanged into the accelerations, so an aircraft gliding without thrust speeds up; the takeoff friction pushes forward when lift exceeds weight."
  },
  {
   "property": "C90",
   "status": "partial",
   "theorems": [
    "Verif.FlightPhase.addControl_cons",
    "Verif.FlightPhase.addControl_states",
    "Verif.FlightPhase.addState_cons",
    "Verif.FlightPhase.addSubsystems_spec",
    "Verif.FlightPhase.build_shape",
    "Verif.FlightPhase.mass_final",
    "Verif.FlightPhase.distance_final",
    "Verif.FlightPhase.ends_met_partial",
    "Verif.FlightPhase.ends_met_violated",
    "Verif.FlightPhase.ends_met_altitude_violated",
    "Verif.FlightPhase.verticalLimits_partial",
    "Verif.FlightPhase.verticalLimits_violated",
    "Verif.FlightPhase.throttle_limits",
    "Verif.FlightPhase.throttle_limits_violated",
    "Verif.FlightPhase.climbRate_limit",
    "Verif.FlightPhase.bounds_hold",
    "Verif.FlightPhase.rateTargets_partial",
    "Verif.FlightPhase.rateTargets_violated",
    "Verif.FlightPhase.constraintRef_violated",
    "Verif.FlightPhase.constraintRef_zero_violated",
    "Verif.FlightPhase.le_maxAbs",
    "Verif.FlightPhase.ctrlRef_spec",
    "Verif.FlightPhase.ctrlRef_violated",
    "Verif.FlightPhase.allocation_even",
    "Verif.FlightPhase.allocation_none",
    "Verif.FlightPhase.userCon_ok_iff",
    "Verif.FlightPhase.userCon_ok",
    "Verif.FlightPhase.userCons_iff",
    "Verif.FlightPhase.user_constraints_hold",
    "Verif.FlightPhase.build_ok_iff",
    "Verif.FlightPhase.subsystem_message_violated",
    "Verif.FlightPhase.names_nodup",
    "Verif.FlightPhase.addState_call",
    "Verif.FlightPhase.addControl_call",
    "Verif.FlightPhase.userCon_error_iff",
    "Verif.FlightPhase.subsystemCons_ok",
    "Verif.FlightPhase.subsystem_constraints_hold",
    "Verif.FlightPhase.timeseries_nodup"
   ],
   "note": "Everything proved except the following, for which negations are proved: any user constraint on Mach number, altitude, rate of climb or throttle, even a weaker one at other nodes, silently removes the built-in one; the option for the scaling of a final constraint has no effect; scaling references can be zero; the energy-state ground roll targets inputs its ODE does not have."
  },
  {
   "property": "C91",
   "status": "partial",
   "theorems": [
    "Verif.InitGuess.linspace_spec",
    "Verif.InitGuess.processGuess_ok_iff",
    "Verif.InitGuess.processGuess_values",
    "Verif.InitGuess.processGuess_single",
    "Verif.InitGuess.processGuess_int_violated",
    "Verif.InitGuess.stripKey_spec",
    "Verif.InitGuess.stripKey_control",
    "Verif.InitGuess.stripKey_state",
    "Verif.InitGuess.processGuess_control",
    "Verif.InitGuess.strip_nested_violated",
    "Verif.InitGuess.fillE_spec",
    "Verif.InitGuess.endpoints_within",
    "Verif.InitGuess.endpoints_numbers_iff",
    "Verif.InitGuess.endpoints_none_violated",
    "Verif.InitGuess.energy_ok_iff",
    "Verif.InitGuess.energy_user_partial",
    "Verif.InitGuess.energy_complete",
    "Verif.InitGuess.energy_user_violated",
    "Verif.InitGuess.initialMass_violated",
    "Verif.InitGuess.breguet_spec",
    "Verif.InitGuess.twoDof_ok_iff",
    "Verif.InitGuess.twoDof_int_violated",
    "Verif.InitGuess.angleOfAttack_dest",
    "Verif.InitGuess.twoDof_mass",
    "Verif.InitGuess.twoDof_user_violated",
    "Verif.InitGuess.ascentPrefix_violated",
    "Verif.InitGuess.solved_only_ends",
    "Verif.InitGuess.solved_user_violated",
    "Verif.InitGuess.solved_scalar_violated",
    "Verif.InitGuess.addMeta_spec",
    "Verif.InitGuess.addMeta_repeat_violated",
    "Verif.InitGuess.sharedMeta_violated",
    "Verif.InitGuess.validate_ok_iff",
    "Verif.InitGuess.applyAll_spec",
    "Verif.InitGuess.register_nodup",
    "Verif.InitGuess.builderType_violated",
    "Verif.InitGuess.builder_noOptions_violated",
    "Verif.InitGuess.applyKind_spec"
   ],
   "note": "Acceptance, destinations, defaults, even spacing and the bookkeeping of the builders are proved for all dictionaries in which no prefixed key repeats a plain variable. Violated: a default replaces a guess given with its prefix; mass_initial fixes the mass at the guess, not at its value; default guesses can be None; whole numbers are refused by two of three configurators; solved missions drop guesses for Mach number and altitude; ascent times ignore the prefix of the mission; the shared dictionary of guess kinds depends on the import order; repeats are not refused; every phase info gets the first registered builder type."
  },
  {
   "property": "C92",
   "status": "partial",
   "theorems": [
    "Verif.EngineTypes.engineCountFactor_of_le",
    "Verif.EngineTypes.engineCountFactor_strictMono",
    "Verif.EngineTypes.engineCountFactor_lt",
    "Verif.EngineTypes.arctan_le_self",
    "Verif.EngineTypes.engineCountFactor_le",
    "Verif.EngineTypes.engineCountFactor_lt_self",
    "Verif.EngineTypes.thrustFactor_ge",
    "Verif.EngineTypes.total_pos_of",
    "Verif.EngineTypes.avgDiam_const",
    "Verif.EngineTypes.avgDiam_mem",
    "Verif.EngineTypes.nacelleCount_eq",
    "Verif.EngineTypes.nacelleCount_ge",
    "Verif.EngineTypes.engineMass_ref",
    "Verif.EngineTypes.engineMass_off",
    "Verif.EngineTypes.engineMass_strictMono",
    "Verif.EngineTypes.engineMass_pos_partial",
    "Verif.EngineTypes.engineMass_pos_violated",
    "Verif.EngineTypes.engineMass_jump_violated",
    "Verif.EngineTypes.engineMass_thrust",
    "Verif.EngineTypes.engineMass_refThrust",
    "Verif.EngineTypes.engineMass_ref_mass",
    "Verif.EngineTypes.engineMass_scaler",
    "Verif.EngineTypes.engineMass_partials",
    "Verif.EngineTypes.totalEngineMass_off",
    "Verif.EngineTypes.reverser_partials",
    "Verif.EngineTypes.misc_partials",
    "Verif.EngineTypes.max_one_nat",
    "Verif.EngineTypes.thrustRatio_sum",
    "Verif.EngineTypes.pods_conserve",
    "Verif.EngineTypes.pod_nacelle",
    "Verif.EngineTypes.pod_partials_partial",
    "Verif.EngineTypes.pod_engine_partial_violated",
    "Verif.EngineTypes.diamFactor_partial",
    "Verif.EngineTypes.diamFactorDeriv_partial",
    "Verif.EngineTypes.diamFactorDeriv_violated",
    "Verif.EngineTypes.antiIcing_partials_partial",
    "Verif.EngineTypes.antiIcing_partials_violated",
    "Verif.EngineTypes.starter_partials_partial",
    "Verif.EngineTypes.starter_partials_violated",
    "Verif.EngineTypes.nacelleSum_partial",
    "Verif.EngineTypes.nacelleSum_bwb_violated",
    "Verif.EngineTypes.nacelleSum_bwb",
    "Verif.EngineTypes.nacelleArea_partials",
    "Verif.EngineTypes.totalNacelleArea_partial",
    "Verif.EngineTypes.nacelleArea_none",
    "Verif.EngineTypes.fuelSystem_capacity_partial",
    "Verif.EngineTypes.fuelSystem_capacity_violated",
    "Verif.EngineTypes.diamFactor1_deriv",
    "Verif.EngineTypes.mainGear_ge",
    "Verif.EngineTypes.mainGear_no_wing_engine",
    "Verif.EngineTypes.mainGear_deriv",
    "Verif.EngineTypes.mainGear_partials",
    "Verif.EngineTypes.mainGear_span_partial",
    "Verif.EngineTypes.mainGear_span_violated"
   ],
   "note": "Proved for every number of engine types: conservation over the pods, reference mass, monotonicity, bounds of averages and factors, all partials with the stated exceptions. Violated: a linear mass law gives negative engine masses, the mass jumps where the scaler reaches 0.3; the partial of the pod mass by the engine mass for a type without engines; the derivatives of the average nacelle diameter, hence those of starter and anti-icing mass, for several engine types; the nacelle mass of blended wing bodies is counted once per engine; the capacity partial of the fuel system for more than four engines; the span partial of the gear length when the engine location is in inches."
  },
  {
   "property": "C93",
   "status": "partial",
   "theorems": [
    "Verif.GaspEngines.totalEngineMass_partials",
    "Verif.GaspEngines.nacelleMass_partials",
    "Verif.GaspEngines.pylon_aux",
    "Verif.GaspEngines.pylon_partials",
    "Verif.GaspEngines.pylon_nacelle",
    "Verif.GaspEngines.pylon_nacelle_partial",
    "Verif.GaspEngines.pylon_nacelle_violated",
    "Verif.GaspEngines.pod_partials",
    "Verif.GaspEngines.totalPodMass_one",
    "Verif.GaspEngines.engCombMass_gasp",
    "Verif.GaspEngines.engComb_partials",
    "Verif.GaspEngines.spanFactor_lt_one",
    "Verif.GaspEngines.startIdx_zero",
    "Verif.GaspEngines.wingMounted_one_pair",
    "Verif.GaspEngines.wingMounted_one_type",
    "Verif.GaspEngines.wingMounted_le_partial",
    "Verif.GaspEngines.wingMounted_le_violated",
    "Verif.GaspEngines.spanSum_beyond",
    "Verif.GaspEngines.wingMounted_second_type_violated",
    "Verif.GaspEngines.inSlice_unique",
    "Verif.GaspEngines.spanSum_total_le",
    "Verif.GaspEngines.wingMounted_partials",
    "Verif.GaspEngines.wingMounted_location",
    "Verif.GaspEngines.wingMounted_location_partial",
    "Verif.GaspEngines.wingMounted_location_violated",
    "Verif.GaspEngines.oilMass_partial",
    "Verif.GaspEngines.oilMass_ge",
    "Verif.GaspEngines.oilMass_other"
   ],
   "note": "Sums, GASP formula for one pair of engines, disjoint slices of the locations and all partials with the stated exceptions are proved. Violated: pylon partials by nacelle mass and area lack the scaler; four engines with two locations are counted twice on the wing; the second of two engine types gets no location and does not count; the partial by the location ignores a given additional mass; engines of other kinds have no oil."
  },
  {
   "property": "C94",
   "status": "partial",
   "theorems": [
    "Verif.SkinFriction.slp_pos",
    "Verif.SkinFriction.combK_pos",
    "Verif.SkinFriction.RE_pos",
    "Verif.SkinFriction.RE_p",
    "Verif.SkinFriction.RE_T",
    "Verif.SkinFriction.reynolds_partials",
    "Verif.SkinFriction.rpow_half",
    "Verif.SkinFriction.comb_aux",
    "Verif.SkinFriction.wtr_aux",
    "Verif.SkinFriction.CFL_aux",
    "Verif.SkinFriction.wall_aux",
    "Verif.SkinFriction.wtr_pos",
    "Verif.SkinFriction.CFL_pos",
    "Verif.SkinFriction.comb_pos",
    "Verif.SkinFriction.resWall_deriv",
    "Verif.SkinFriction.wall_partials_partial",
    "Verif.SkinFriction.wall_taw_violated",
    "Verif.SkinFriction.RP_aux",
    "Verif.SkinFriction.cf_aux",
    "Verif.SkinFriction.reynolds_pos",
    "Verif.SkinFriction.RP_pos",
    "Verif.SkinFriction.cf_partials",
    "Verif.SkinFriction.skf_partials",
    "Verif.SkinFriction.resWall_zero",
    "Verif.SkinFriction.wall_unique",
    "Verif.SkinFriction.wall_lt",
    "Verif.SkinFriction.sq_lt_exp",
    "Verif.SkinFriction.cf_unique",
    "Verif.SkinFriction.cf_anti",
    "Verif.SkinFriction.bodyForm_deriv",
    "Verif.SkinFriction.ff1_deriv",
    "Verif.SkinFriction.surfForm_deriv",
    "Verif.SkinFriction.form_deriv",
    "Verif.SkinFriction.bodyForm_ge",
    "Verif.SkinFriction.form_body_ge",
    "Verif.SkinFriction.bodyFormSwapped_neg",
    "Verif.SkinFriction.form_seam_upper",
    "Verif.SkinFriction.form_seam_lower",
    "Verif.SkinFriction.surfForm_ge_partial",
    "Verif.SkinFriction.surfForm_ge_violated",
    "Verif.SkinFriction.lamFlow_deriv",
    "Verif.SkinFriction.lamFlow_zero",
    "Verif.SkinFriction.lamFlow_mono",
    "Verif.SkinFriction.lamFlow_full",
    "Verif.SkinFriction.cfLam_none",
    "Verif.SkinFriction.cfLam_some",
    "Verif.SkinFriction.cfLam_zero",
    "Verif.SkinFriction.cfLam_between",
    "Verif.SkinFriction.drag_nonneg",
    "Verif.SkinFriction.drag_comp",
    "Verif.SkinFriction.drag_partials",
    "Verif.SkinFriction.drag_re_partial",
    "Verif.SkinFriction.drag_re_violated",
    "Verif.SkinFriction.drag_lam_partial",
    "Verif.SkinFriction.drag_lam_violated",
    "Verif.SkinFriction.drag_lam_zero",
    "Verif.SkinFriction.constants"
   ],
   "note": "Uniqueness, bounds, monotonicity, positivity of the body form factors (and the need for the odd order of coefficients), continuity gaps and all partials are proved with the stated exceptions. Violated: the wall temperature partials by temperature and Mach number leave out that TAW follows both, at every flight condition; the form factor of surfaces thicker than about 35 percent is negative; the partial by the Reynolds number keeps an old value when laminar flow ends; the partial by a laminar percentage below zero is not zero."
  },
  {
   "property": "C95",
   "status": "partial",
   "theorems": [
    "Verif.LiftDrag.edge_curve",
    "Verif.LiftDrag.edge_A",
    "Verif.LiftDrag.inner_curve",
    "Verif.LiftDrag.curve_of_eventually",
    "Verif.LiftDrag.ev_lt",
    "Verif.LiftDrag.ev_gt",
    "Verif.LiftDrag.ev_lt'",
    "Verif.LiftDrag.ev_gt'",
    "Verif.LiftDrag.fcdp_curve",
    "Verif.LiftDrag.raw_eq",
    "Verif.LiftDrag.rpow_deriv",
    "Verif.LiftDrag.raw_deriv",
    "Verif.LiftDrag.set_get",
    "Verif.LiftDrag.partials_partial",
    "Verif.LiftDrag.drag_nonneg",
    "Verif.LiftDrag.drag_sweep",
    "Verif.LiftDrag.inner_hit",
    "Verif.LiftDrag.edge_lower",
    "Verif.LiftDrag.edge_upper",
    "Verif.LiftDrag.edge_meets_iff",
    "Verif.LiftDrag.edge_tendsto",
    "Verif.LiftDrag.fcdp_continuous_six_partial",
    "Verif.LiftDrag.fcdp_continuous_mid_partial",
    "Verif.LiftDrag.not_cont",
    "Verif.LiftDrag.fcdp_half_violated",
    "Verif.LiftDrag.fcdp_low_violated",
    "Verif.LiftDrag.fcdp_high_violated",
    "Verif.LiftDrag.const_diff",
    "Verif.LiftDrag.lin_diff",
    "Verif.LiftDrag.quad_deriv",
    "Verif.LiftDrag.exW_deriv",
    "Verif.LiftDrag.ex_A",
    "Verif.LiftDrag.ex_regular"
   ],
   "note": "All ten partials, the sign, the sweep law and the ranges where the interpolation is continuous are proved. Violated: the factor 2.0 of edge_interp is the spacing of the middle tables only, so the drag jumps by a factor of 4, 20 and 10 at the other breakpoints."
  },
  {
   "property": "C96",
   "status": "partial",
   "theorems": [
    "Verif.CompressDrag.clamp_diff",
    "Verif.CompressDrag.clamp_val",
    "Verif.CompressDrag.clamp_nonneg",
    "Verif.CompressDrag.partials_fresh",
    "Verif.CompressDrag.pow53",
    "Verif.CompressDrag.pow23",
    "Verif.CompressDrag.wing1_deriv",
    "Verif.CompressDrag.wing3_deriv",
    "Verif.CompressDrag.fus_deriv",
    "Verif.CompressDrag.kInt_eq",
    "Verif.CompressDrag.int_deriv",
    "Verif.CompressDrag.set_get",
    "Verif.CompressDrag.cont_fuse",
    "Verif.CompressDrag.cont_mach",
    "Verif.CompressDrag.cont_mdes",
    "Verif.CompressDrag.ev_of_lt",
    "Verif.CompressDrag.ev_of_gt",
    "Verif.CompressDrag.sub_partials_partial",
    "Verif.CompressDrag.super_partials_partial",
    "Verif.CompressDrag.super_taper_violated",
    "Verif.CompressDrag.partials_some",
    "Verif.CompressDrag.sub_nonneg",
    "Verif.CompressDrag.super_nonneg",
    "Verif.CompressDrag.lin_diff",
    "Verif.CompressDrag.ex_sub",
    "Verif.CompressDrag.ex_super"
   ],
   "note": "All partials are proved for taper ratios other than one, with freshness of every entry. Violated: compute replaces a taper ratio of one by 0.5, compute_partials does not and divides by zero."
  },
  {
   "property": "C97",
   "status": "partial",
   "theorems": [
    "Verif.InducedDrag.set_get",
    "Verif.InducedDrag.fact3_pos",
    "Verif.InducedDrag.fact4_pos",
    "Verif.InducedDrag.pow32",
    "Verif.InducedDrag.invsqrt_deriv",
    "Verif.InducedDrag.cosA_curve",
    "Verif.InducedDrag.cosB_curve",
    "Verif.InducedDrag.cayt_curve",
    "Verif.InducedDrag.cayt_full",
    "Verif.InducedDrag.cl_deriv",
    "Verif.InducedDrag.se0_AR",
    "Verif.InducedDrag.se_deriv",
    "Verif.InducedDrag.base_deriv",
    "Verif.InducedDrag.fwd_deriv",
    "Verif.InducedDrag.aft_partials_partial",
    "Verif.InducedDrag.fwd_partials_partial",
    "Verif.InducedDrag.fwd_adds",
    "Verif.InducedDrag.fwd_untapered",
    "Verif.InducedDrag.base_classical",
    "Verif.InducedDrag.angle_scale",
    "Verif.InducedDrag.tsw_periodic_violated",
    "Verif.InducedDrag.angle_violated",
    "Verif.InducedDrag.b_set_get",
    "Verif.InducedDrag.buffet_partials",
    "Verif.InducedDrag.buffet_angle_violated",
    "Verif.InducedDrag.buffet_unswept",
    "Verif.InducedDrag.ex_ok"
   ],
   "note": "The partials and the structure of the drag are proved. Violated: SW25 / degree makes the angle (180/pi)^2 too large, so the tangent repeats every twentieth of a degree, a tiny forward sweep can divide by zero and the buffet margin changes its sign."
  },
  {
   "property": "C98",
   "status": "partial",
   "theorems": [
    "Verif.UFac.set_get",
    "Verif.UFac.raw_deriv",
    "Verif.UFac.transport_partials_partial",
    "Verif.UFac.transport_ratio_iff",
    "Verif.UFac.transport_ratio_violated",
    "Verif.UFac.bwb_le",
    "Verif.UFac.bwbSmooth_lt",
    "Verif.UFac.bwb_tail_ignored_violated",
    "Verif.UFac.bwb_raw",
    "Verif.UFac.bwb_partials_partial",
    "Verif.UFac.bwbSmooth_partials_partial",
    "Verif.UFac.bwb_bbar_violated",
    "Verif.UFac.bwb_ratio_violated"
   ],
   "note": "Partials by the interference factors and the span ratio, the bound 0.975 and the exact condition for the lift ratio entry are proved. Violated: the numerator is divided by the span ratio in the derivative; the replacement of the span ratio by one and the limit are missing in the partials; the span ratio is compared with a hundredth of the span in feet, so the tail of every wing over 100 ft is ignored."
  },
  {
   "property": "C99",
   "status": "partial",
   "theorems": [
    "Verif.BodyTank.set_get",
    "Verif.BodyTank.hard_nonneg",
    "Verif.BodyTank.hard_aux",
    "Verif.BodyTank.hard_wmin",
    "Verif.BodyTank.hard_cap",
    "Verif.BodyTank.get_deriv",
    "Verif.BodyTank.ite_deriv",
    "Verif.BodyTank.hVol_eq",
    "Verif.BodyTank.hVol_deriv",
    "Verif.BodyTank.hAux_deriv",
    "Verif.BodyTank.volMass_deriv",
    "Verif.BodyTank.hdVol_zero",
    "Verif.BodyTank.hWmin_deriv",
    "Verif.BodyTank.hAvail_deriv",
    "Verif.BodyTank.hard_partials_partial",
    "Verif.BodyTank.sig_deriv",
    "Verif.BodyTank.sig_comp",
    "Verif.BodyTank.sVol_deriv",
    "Verif.BodyTank.sdVol_zero",
    "Verif.BodyTank.smooth_volume_partials_partial",
    "Verif.BodyTank.dsig_pos",
    "Verif.BodyTank.sAux_deriv",
    "Verif.BodyTank.smooth_aux_iff",
    "Verif.BodyTank.smooth_wmin_violated",
    "Verif.BodyTank.sAvail_deriv",
    "Verif.BodyTank.smooth_cap_iff",
    "Verif.BodyTank.smooth_cap_wmax_violated",
    "Verif.BodyTank.sAvail_deriv_gross",
    "Verif.BodyTank.smooth_cap_gross_iff"
   ],
   "note": "All entries of the hard switches and the volume entries of the smooth ones are proved. Violated for smooth switches: extra factors 1/50 and 1/110 in the entries of the auxiliary tank and the capacity, a derivative taken at the smoothed value, and the entry by the maximum wing fuel mass, which uses the structural volume instead."
  },
  {
   "property": "C100",
   "status": "partial",
   "theorems": [
    "Verif.WettedArea.set_get",
    "Verif.WettedArea.get_deriv",
    "Verif.WettedArea.xdx_get",
    "Verif.WettedArea.xdx_deriv",
    "Verif.WettedArea.fusVar_cases",
    "Verif.WettedArea.surf_deriv",
    "Verif.WettedArea.spanht_deriv",
    "Verif.WettedArea.croot_deriv",
    "Verif.WettedArea.crotm_deriv",
    "Verif.WettedArea.crootb_deriv",
    "Verif.WettedArea.sqrt_ratio",
    "Verif.WettedArea.crthtb_deriv",
    "Verif.WettedArea.spanvt_deriv",
    "Verif.WettedArea.crotvt_deriv",
    "Verif.WettedArea.prelim_partials",
    "Verif.WettedArea.canard_partials_partial",
    "Verif.WettedArea.canard_violated",
    "Verif.WettedArea.xdx_scale",
    "Verif.WettedArea.sqrt_scale",
    "Verif.WettedArea.prelim_scale_partial",
    "Verif.WettedArea.wing_tail_scale",
    "Verif.WettedArea.crthtb_scale_violated",
    "Verif.WettedArea.no_tail_violated",
    "Verif.WettedArea.crootb_between",
    "Verif.WettedArea.wing_nonneg",
    "Verif.WettedArea.hWet_mount",
    "Verif.WettedArea.fusAdj_rect"
   ],
   "note": "All partials of PrelimWettedArea, homogeneity of wing, tails and canard and the bounds are proved for transports. Violated: the body chord of the horizontal tail adds a ratio to a length where the wing multiplies, without vertical tail its chord is one foot and still cuts the fuselage, and the canard partials are nonzero for the constant branch. Missing: partials of the wing, tail and fuselage components beyond those mechanically translated."
  },
  {
   "property": "C101",
   "status": "partial",
   "theorems": [
    "Verif.PreHamilton.anyNum_le",
    "Verif.PreHamilton.anyNum_nonneg",
    "Verif.PreHamilton.compute_ok_iff",
    "Verif.PreHamilton.power_violated",
    "Verif.PreHamilton.checks_violated",
    "Verif.PreHamilton.compute_ok",
    "Verif.PreHamilton.static_branch_violated",
    "Verif.PreHamilton.cp_eq",
    "Verif.PreHamilton.partials_partial",
    "Verif.PreHamilton.velocity_violated"
   ],
   "note": "Exact acceptance condition, values and partials are proved. Violated: `any(x) <= 0.0` compares a truth value, so negative tip speeds, speeds of sound, densities and powers pass and the power check can never fire; the velocity entry is nonzero where the velocity is clamped; the static branch of the map is unreachable because the advance ratio is never zero."
  },
  {
   "property": "C102",
   "status": "partial",
   "theorems": [
    "Verif.Flaps.Inc.lt",
    "Verif.Flaps.Inc.tail",
    "Verif.Flaps.line_left",
    "Verif.Flaps.line_right",
    "Verif.Flaps.lin_point",
    "Verif.Flaps.line_cont",
    "Verif.Flaps.lin_cont",
    "Verif.Flaps.line_mem",
    "Verif.Flaps.lin_within",
    "Verif.Flaps.Up.inc",
    "Verif.Flaps.line_mono",
    "Verif.Flaps.lin_mono",
    "Verif.Flaps.UpMul.inc",
    "Verif.Flaps.mul_line_lt",
    "Verif.Flaps.mul_lin_mono",
    "Verif.Flaps.tables_inc",
    "Verif.Flaps.vlam6_zero",
    "Verif.Flaps.vlam10_zero",
    "Verif.Flaps.no_deflection",
    "Verif.Flaps.no_flap",
    "Verif.Flaps.drag_grows",
    "Verif.Flaps.vdel4_mem",
    "Verif.Flaps.slatSpan_eq",
    "Verif.Flaps.optimum_partial",
    "Verif.Flaps.optimum_violated",
    "Verif.Flaps.slat_optimum",
    "Verif.Flaps.extrapolation_violated",
    "Verif.Flaps.vlam13_up",
    "Verif.Flaps.vlam14_up",
    "Verif.Flaps.carried_cont",
    "Verif.Flaps.carried_mono",
    "Verif.Flaps.converged_iff",
    "Verif.Flaps.converged_unique",
    "Verif.Flaps.converged_exists_iff",
    "Verif.Flaps.exGeom_lift",
    "Verif.Flaps.deltaCL_scale"
   ],
   "note": "Tables, zero contributions, monotone drag, existence and uniqueness of the converged subsonic state are proved. Violated: the optimum deflections of double and triple slotted and both Fowler flaps are not the maximum of the lift table (40 degrees gives more), and beyond 63 degrees the continued table gives Fowler flaps negative lift."
  },
  {
   "property": "C103",
   "status": "partial",
   "theorems": [
    "Verif.WingBend.lastD_eq",
    "Verif.WingBend.lastD_mem",
    "Verif.WingBend.lastD_cons",
    "Verif.WingBend.loadIntensity_some_iff",
    "Verif.WingBend.loadIntensity_eq",
    "Verif.WingBend.sqrt_between",
    "Verif.WingBend.loadIntensity_mem",
    "Verif.WingBend.loadIntensity_mono",
    "Verif.WingBend.linspace_length",
    "Verif.WingBend.linspace_mem",
    "Verif.WingBend.linspace_mem_end",
    "Verif.WingBend.linspace_sorted",
    "Verif.WingBend.stations_mem",
    "Verif.WingBend.stations_sorted",
    "Verif.WingBend.sweeps_length",
    "Verif.WingBend.perSection_bounds",
    "Verif.WingBend.stations_count",
    "Verif.WingBend.stations_last",
    "Verif.WingBend.tip_reached_iff",
    "Verif.WingBend.tip_violated",
    "Verif.WingBend.sweep_sum",
    "Verif.WingBend.avgSweepBWB_const",
    "Verif.WingBend.avgSweep_partial",
    "Verif.WingBend.avgSweep_violated",
    "Verif.WingBend.Sorted.inc",
    "Verif.WingBend.quad_integral",
    "Verif.WingBend.cubic_integral",
    "Verif.WingBend.delLoad_integral",
    "Verif.WingBend.delMoment_integral",
    "Verif.WingBend.lin_head",
    "Verif.WingBend.lin_tail",
    "Verif.WingBend.cp_cont",
    "Verif.WingBend.cp_head",
    "Verif.WingBend.cp_tail",
    "Verif.WingBend.el_integral",
    "Verif.WingBend.cumsum_append",
    "Verif.WingBend.suffix_eq",
    "Verif.WingBend.outboard_cons",
    "Verif.WingBend.outboard_eq",
    "Verif.WingBend.emi_cons",
    "Verif.WingBend.emi_two",
    "Verif.WingBend.moment_step",
    "Verif.WingBend.momentAt_congr",
    "Verif.WingBend.moment_sums",
    "Verif.WingBend.totalMoment_integral",
    "Verif.WingBend.delme_sums",
    "Verif.WingBend.bounded_eq",
    "Verif.WingBend.inertia_ge",
    "Verif.WingBend.firstOf_min",
    "Verif.WingBend.factors_spec",
    "Verif.WingBend.inertia_le_partial",
    "Verif.WingBend.inertia_violated",
    "Verif.WingBend.rear_engines_violated",
    "Verif.WingBend.inertiaBWB_cases",
    "Verif.WingBend.typeFactor_root",
    "Verif.WingBend.chordScale_once",
    "Verif.WingBend.chordBWB_violated",
    "Verif.WingBend.tcBWB_violated",
    "Verif.WingBend.trapSum_integral",
    "Verif.WingBend.trapz_eq",
    "Verif.WingBend.material_get",
    "Verif.WingBend.btb_integral",
    "Verif.WingBend.bte_integral",
    "Verif.WingBend.zipWith_map_replicate",
    "Verif.WingBend.sums_map_mul",
    "Verif.WingBend.delme_length",
    "Verif.WingBend.arms",
    "Verif.WingBend.typeFactor_between",
    "Verif.WingBend.no_reference"
   ],
   "note": "Violated: the last station need not be the tip; the mean sweep of the conventional wing leaves out the first interval; an engine type with at most one engine on the wing leaves a factor of zero which gives the full relief; in the blended wing body chords and thickness are scaled twice. The rest is proved."
  },
  {
   "property": "C104",
   "status": "partial",
   "theorems": [
    "Verif.BwbWing.upd_length",
    "Verif.BwbWing.updChord_feet",
    "Verif.BwbWing.updSweep_entry",
    "Verif.BwbWing.updTc_entry",
    "Verif.BwbWing.tcRows_iff",
    "Verif.BwbWing.sweepRows_partial",
    "Verif.BwbWing.sweepRows_violated",
    "Verif.BwbWing.computeDist_some_iff",
    "Verif.BwbWing.swpLd_deriv",
    "Verif.BwbWing.dSweep_deriv",
    "Verif.BwbWing.angle_chain",
    "Verif.BwbWing.dOs_deriv",
    "Verif.BwbWing.dRc_deriv",
    "Verif.BwbWing.dW_deriv",
    "Verif.BwbWing.trap_integral",
    "Verif.BwbWing.loop_shift",
    "Verif.BwbWing.area_integral",
    "Verif.BwbWing.prelimStation_ends",
    "Verif.BwbWing.prelim_feet",
    "Verif.BwbWing.pctLoad_mem",
    "Verif.BwbWing.aspect_area",
    "Verif.BwbWing.feet_units",
    "Verif.BwbWing.updChord_get",
    "Verif.BwbWing.rate_lt_one"
   ],
   "note": "Violated: the declared rows of the load path sweep miss an entry when the root station is below one; the error text names another length than the check. The rest is proved."
  },
  {
   "property": "C105",
   "status": "partial",
   "theorems": [
    "Verif.LowSpeed.gain_sum",
    "Verif.LowSpeed.takeoff_ok_iff",
    "Verif.LowSpeed.landing_ok_iff",
    "Verif.LowSpeed.takeoff_shape",
    "Verif.LowSpeed.landing_shape",
    "Verif.LowSpeed.keys_put",
    "Verif.LowSpeed.nodup_put",
    "Verif.LowSpeed.keys_foldl_mem",
    "Verif.LowSpeed.nodup_foldl",
    "Verif.LowSpeed.foldl_distinct",
    "Verif.LowSpeed.takeoff_phases",
    "Verif.LowSpeed.landing_phases",
    "Verif.LowSpeed.takeoff_ends",
    "Verif.LowSpeed.landing_ends",
    "Verif.LowSpeed.takeoff_continuous",
    "Verif.LowSpeed.takeoff_continuous_air",
    "Verif.LowSpeed.abort_continuous",
    "Verif.LowSpeed.balanced_field",
    "Verif.LowSpeed.landing_continuous",
    "Verif.LowSpeed.landing_altitude",
    "Verif.LowSpeed.landing_distance_partial",
    "Verif.LowSpeed.landing_distance_violated",
    "Verif.LowSpeed.takeoff_ignored",
    "Verif.LowSpeed.get_run",
    "Verif.LowSpeed.ext_get",
    "Verif.LowSpeed.run_last",
    "Verif.LowSpeed.same_name",
    "Verif.LowSpeed.obstacle_altitude",
    "Verif.LowSpeed.obstacle_altitude_violated",
    "Verif.LowSpeed.mic_range",
    "Verif.LowSpeed.brake_delay_speed"
   ],
   "note": "Violated: at the obstacle of a landing no link carries distance and speed; the scaling reference of the altitude to the takeoff obstacle is also its upper bound, so the default cannot clear any obstacle. The rest is proved."
  },
  {
   "property": "C106",
   "status": "partial",
   "theorems": [
    "Verif.GaspMaps.strparse_shift",
    "Verif.GaspMaps.strparse_fields",
    "Verif.GaspMaps.Pen.fld_ok",
    "Verif.GaspMaps.floats_append",
    "Verif.GaspMaps.floats_flds",
    "Verif.GaspMaps.fmt_flds",
    "Verif.GaspMaps.readWrapped_wrap",
    "Verif.GaspMaps.readRow_row",
    "Verif.GaspMaps.readRows_rows",
    "Verif.GaspMaps.assemble_tidy",
    "Verif.GaspMaps.readMap_map",
    "Verif.GaspMaps.readMaps_maps",
    "Verif.GaspMaps.readTable_table",
    "Verif.GaspMaps.readEngine_deck",
    "Verif.GaspMaps.readPropeller_map",
    "Verif.GaspMaps.iread_refused",
    "Verif.GaspMaps.insertU_mem",
    "Verif.GaspMaps.insertU_sorted",
    "Verif.GaspMaps.unique_spec",
    "Verif.GaspMaps.sorted_ext",
    "Verif.GaspMaps.unique_of_increasing",
    "Verif.GaspMaps.minL_le",
    "Verif.GaspMaps.le_maxL",
    "Verif.GaspMaps.arange_spec",
    "Verif.GaspMaps.gridPts_spec",
    "Verif.GaspMaps.fieldCells_conditions",
    "Verif.GaspMaps.fieldCells_value",
    "Verif.GaspMaps.zip_same",
    "Verif.GaspMaps.points_aligned_partial",
    "Verif.GaspMaps.points_aligned_violated",
    "Verif.GaspMaps.method_partial",
    "Verif.GaspMaps.method_violated",
    "Verif.GaspMaps.rows_in_grid_order_partial",
    "Verif.GaspMaps.rows_in_grid_order_violated",
    "Verif.GaspMaps.valid_iff",
    "Verif.GaspMaps.dropWhile_all",
    "Verif.GaspMaps.flopsField_text",
    "Verif.GaspMaps.flopsField_blank",
    "Verif.GaspMaps.flopsLine_fields",
    "Verif.GaspMaps.slice_pad",
    "Verif.GaspMaps.flopsLine_short",
    "Verif.GaspMaps.blank_line_violated",
    "Verif.GaspMaps.readFlops_iff"
   ],
   "note": "Violated: thrust and fuel tables with different altitudes are paired by position; the method of one altitude is kept for the following ones and for the following fields; Mach numbers written downwards are paired with the wrong values; an empty line of a FLOPS deck becomes a point of zeros. The rest is proved."
  },
  {
   "property": "C107",
   "status": "partial",
   "theorems": [
    "Verif.AeroTables.words_word",
    "Verif.AeroTables.words_gap",
    "Verif.AeroTables.words_spaced",
    "Verif.AeroTables.blocks_append",
    "Verif.AeroTables.blocks_length",
    "Verif.AeroTables.scan_block",
    "Verif.AeroTables.readAt_block",
    "Verif.AeroTables.cm_append",
    "Verif.AeroTables.cm_one",
    "Verif.AeroTables.readRowsAt_rows",
    "Verif.AeroTables.readPart_part",
    "Verif.AeroTables.loadFlops_file",
    "Verif.AeroTables.columnsOf_rows",
    "Verif.AeroTables.readAt_bad",
    "Verif.AeroTables.classify_blank",
    "Verif.AeroTables.missing_row_violated",
    "Verif.AeroTables.gather_append",
    "Verif.AeroTables.lineStep_hash",
    "Verif.AeroTables.gather_comments",
    "Verif.AeroTables.gather_data",
    "Verif.AeroTables.gather_late",
    "Verif.AeroTables.gather_file",
    "Verif.AeroTables.setCol_new",
    "Verif.AeroTables.setCols_distinct",
    "Verif.AeroTables.loadColumns_partial",
    "Verif.AeroTables.gather_none",
    "Verif.AeroTables.empty_line_violated",
    "Verif.AeroTables.late_comment_violated",
    "Verif.AeroTables.readAero_file",
    "Verif.AeroTables.onAlpha_rows",
    "Verif.AeroTables.onAlpha_isSome_iff",
    "Verif.AeroTables.aeroRows_aligned",
    "Verif.AeroTables.aeroPts_beyond_violated",
    "Verif.AeroTables.aeroPts_partial",
    "Verif.AeroTables.rowLe_trans",
    "Verif.AeroTables.rowLe_total",
    "Verif.AeroTables.sortRows_spec",
    "Verif.AeroTables.default_output_violated",
    "Verif.AeroTables.flops_comments_violated",
    "Verif.AeroTables.gasp_comments_partial",
    "Verif.AeroTables.unitOf_paren"
   ],
   "note": "Violated: a missing FLOPS row is filled from the next part without notice; an empty line in a table of columns is refused; comments behind the headers are read as units and lost; the grid extrapolates a whole step; FLOPS without an output file fails; for FLOPS the comments are passed as names of outputs. The rest is proved."
  },
  {
   "property": "C108",
   "status": "partial",
   "theorems": [
    "Verif.PropMission.item_scalar",
    "Verif.PropMission.first_scalar",
    "Verif.PropMission.item_ok_iff",
    "Verif.PropMission.preKey_ok_iff",
    "Verif.PropMission.mapM_ok_iff",
    "Verif.PropMission.mapM_ok_forall\u2082",
    "Verif.PropMission.preprocess_ok_iff",
    "Verif.PropMission.preKey_kept",
    "Verif.PropMission.preprocess_kept",
    "Verif.PropMission.isSeq_false",
    "Verif.PropMission.preKey_again",
    "Verif.PropMission.preprocess_again",
    "Verif.PropMission.matrix_violated",
    "Verif.PropMission.again_violated",
    "Verif.PropMission.engineKey_iff",
    "Verif.PropMission.type_check_violated",
    "Verif.PropMission.update_get?",
    "Verif.PropMission.update_keys",
    "Verif.PropMission.update_nodup",
    "Verif.PropMission.foldl_update_get?",
    "Verif.PropMission.combine_get?",
    "Verif.PropMission.combine_keys",
    "Verif.PropMission.combine_agrees",
    "Verif.PropMission.needsSolver_iff",
    "Verif.PropMission.updateNames_ok_iff",
    "Verif.PropMission.foldlM_ok_iff",
    "Verif.PropMission.collectNames_ok_iff",
    "Verif.PropMission.collectNames_partial",
    "Verif.PropMission.collectNames_violated",
    "Verif.PropMission.timeseries_spec",
    "Verif.PropMission.prefix_inj",
    "Verif.PropMission.busFold_get?",
    "Verif.PropMission.busFold_keys",
    "Verif.PropMission.busVariables_spec",
    "Verif.PropMission.get?_map",
    "Verif.PropMission.parameters_spec",
    "Verif.PropMission.mux_spec",
    "Verif.PropMission.mux_determined_iff",
    "Verif.PropMission.muxConnect_partial",
    "Verif.PropMission.muxConnect_violated",
    "Verif.PropMission.preMissionInput_spec",
    "Verif.PropMission.vectorizedKey_iff",
    "Verif.PropMission.supported_perm",
    "Verif.PropMission.get?_filter",
    "Verif.PropMission.maxPart_get?",
    "Verif.PropMission.maxPart_value",
    "Verif.PropMission.offered_spec",
    "Verif.PropMission.offered_own",
    "Verif.PropMission.maxIn_spec",
    "Verif.PropMission.set_new",
    "Verif.PropMission.foldl_set_new",
    "Verif.PropMission.outputDict_eq",
    "Verif.PropMission.find?_flatMap_eq",
    "Verif.PropMission.find?_var",
    "Verif.PropMission.find?_other",
    "Verif.PropMission.findSome?_zipIdx",
    "Verif.PropMission.muxed_spec",
    "Verif.PropMission.muxed_own_inputs",
    "Verif.PropMission.engineIn_spec",
    "Verif.PropMission.preMissionOptions_spec",
    "Verif.PropMission.mission_options_violated",
    "Verif.PropMission.dotFrom_eq",
    "Verif.PropMission.total_eq",
    "Verif.PropMission.zip_append'",
    "Verif.PropMission.sum_lengths",
    "Verif.PropMission.sumRows_succ",
    "Verif.PropMission.sumCols_succ",
    "Verif.PropMission.sumVals_succ",
    "Verif.PropMission.block_sum",
    "Verif.PropMission.foldr_append_add",
    "Verif.PropMission.sum_partials_exact",
    "Verif.PropMission.total_linear",
    "Verif.PropMission.enter_ok"
   ],
   "note": "Violated: the type of the options is checked after they have been used; a vector of matrices is cut again when preprocessed twice; get_mass_names of the propulsion builder updates a dictionary with lists; the mux of the pre-mission group has two slots whatever the number of engine types; the mission gives engines the wrong options. The rest is proved."
  },
  {
   "property": "C109",
   "status": "partial",
   "theorems": [
    "Verif.Turboprop.mem_drop",
    "Verif.Turboprop.inn_inj",
    "Verif.Turboprop.isOut_out",
    "Verif.Turboprop.out_base",
    "Verif.Turboprop.configure_gearless_violated",
    "Verif.Turboprop.inv_add",
    "Verif.Turboprop.inv_less",
    "Verif.Turboprop.inv_shpThrust",
    "Verif.Turboprop.inv_gearLink",
    "Verif.Turboprop.inv_rpmFixed",
    "Verif.Turboprop.inv_rpmFree",
    "Verif.Turboprop.inv_gearPromote",
    "Verif.Turboprop.inv_exactLink",
    "Verif.Turboprop.inv_exactFold",
    "Verif.Turboprop.inv_outLink",
    "Verif.Turboprop.inv_propThrust",
    "Verif.Turboprop.inv_fold",
    "Verif.Turboprop.inv_upstream",
    "Verif.Turboprop.dests_mono",
    "Verif.Turboprop.Step.refl",
    "Verif.Turboprop.Step.trans",
    "Verif.Turboprop.step_same",
    "Verif.Turboprop.step_add",
    "Verif.Turboprop.step_prop",
    "Verif.Turboprop.step_shp",
    "Verif.Turboprop.step_ite",
    "Verif.Turboprop.step_shpThrust",
    "Verif.Turboprop.step_gearLink",
    "Verif.Turboprop.step_fold",
    "Verif.Turboprop.step_rpmFixed",
    "Verif.Turboprop.step_rpmFree",
    "Verif.Turboprop.step_exactLink",
    "Verif.Turboprop.step_outLink",
    "Verif.Turboprop.step_propThrust",
    "Verif.Turboprop.step_downstream",
    "Verif.Turboprop.step_upstream",
    "Verif.Turboprop.inv_downstream",
    "Verif.Turboprop.single_source",
    "Verif.Turboprop.prop_inputs_partial",
    "Verif.Turboprop.shp_inputs_covered",
    "Verif.Turboprop.gearLink_gearOut",
    "Verif.Turboprop.gearFold_gearOut",
    "Verif.Turboprop.gearLink_gearIn",
    "Verif.Turboprop.gearFold_gearIn",
    "Verif.Turboprop.gearLink_shpOut",
    "Verif.Turboprop.gearFold_shpOut",
    "Verif.Turboprop.gearFold_conns",
    "Verif.Turboprop.shaft_to_gearbox",
    "Verif.Turboprop.exactLink_gearOut",
    "Verif.Turboprop.exactFold_gearOut",
    "Verif.Turboprop.exactFold_conns",
    "Verif.Turboprop.exactFold_propIn",
    "Verif.Turboprop.outLink_outputs",
    "Verif.Turboprop.outFold_outputs",
    "Verif.Turboprop.outFold_conns",
    "Verif.Turboprop.upstream_gearOut",
    "Verif.Turboprop.upstream_propIn",
    "Verif.Turboprop.gearbox_to_prop",
    "Verif.Turboprop.gearbox_exact_to_prop",
    "Verif.Turboprop.mid_gearIn",
    "Verif.Turboprop.mid_shpOut",
    "Verif.Turboprop.mid_same",
    "Verif.Turboprop.fixed_rpm",
    "Verif.Turboprop.free_rpm",
    "Verif.Turboprop.thrust_summed",
    "Verif.Turboprop.unset_rpm_violated",
    "Verif.Turboprop.fixed_prop_violated",
    "Verif.Turboprop.engine_rpm_violated",
    "Verif.Turboprop.prop_inputs_violated",
    "Verif.Turboprop.controls_spec",
    "Verif.Turboprop.nameLists_mem",
    "Verif.Turboprop.parts_spec",
    "Verif.Turboprop.gear_power",
    "Verif.Turboprop.gear_reduction",
    "Verif.Turboprop.motor_chain",
    "Verif.Turboprop.motor_limit",
    "Verif.Turboprop.torque_max_partial",
    "Verif.Turboprop.torque_max_violated",
    "Verif.Turboprop.gear_design",
    "Verif.Turboprop.gear_design_bound",
    "Verif.Turboprop.gear_mass_scale",
    "Verif.Turboprop.rpm_agree_partial",
    "Verif.Turboprop.rpm_agree_violated",
    "Verif.Turboprop.isIn_iff",
    "Verif.Turboprop.gearPromote_mem",
    "Verif.Turboprop.motor_power_torque",
    "Verif.Turboprop.gearMass_torque"
   ],
   "note": "Violated: without a gearbox configure fails; RPM that is not fixed reaches the propeller from a source that nothing sets when the gearbox takes RPM and does not give it; fixed RPM does not reach the propeller in that case; a gearbox that gives RPM under its plain name does not get the RPM of the engine; shaft power of a propeller that the gearbox does not give dangles; the largest torque of the motor is read in the units of the file; RPM fixed at 0. The rest is proved."
  },
  {
   "property": "C110",
   "status": "partial",
   "theorems": [
    "Verif.SmallMass.flops_payload",
    "Verif.SmallMass.flops_payload_partials",
    "Verif.SmallMass.gasp_payload",
    "Verif.SmallMass.gasp_payload_le",
    "Verif.SmallMass.containers_cover",
    "Verif.SmallMass.containerMass_mono",
    "Verif.SmallMass.no_uld_violated",
    "Verif.SmallMass.exact_demand_extra",
    "Verif.SmallMass.attendants_mono",
    "Verif.SmallMass.attendants_block",
    "Verif.SmallMass.attendants_capped",
    "Verif.SmallMass.emergency_mono",
    "Verif.SmallMass.emergency_value",
    "Verif.SmallMass.emergency_small",
    "Verif.SmallMass.capacity_undetermined",
    "Verif.SmallMass.capacity_pass",
    "Verif.SmallMass.capacity_default_violated",
    "Verif.SmallMass.capacity_total_given",
    "Verif.SmallMass.capacity_tanks_given",
    "Verif.SmallMass.capacity_fus_given",
    "Verif.SmallMass.capacity_aux_given_violated",
    "Verif.SmallMass.capacity_sum",
    "Verif.SmallMass.capacity_all_given_violated",
    "Verif.SmallMass.res_eq",
    "Verif.SmallMass.foo_curve",
    "Verif.SmallMass.wing_partials",
    "Verif.SmallMass.res_strictMono",
    "Verif.SmallMass.wing_exists_unique",
    "Verif.SmallMass.wing_ge_high",
    "Verif.SmallMass.res_antitone_gross"
   ],
   "note": "Violated: an aircraft without containers is charged for one, and a whole demand for one more; the fuel capacities are undetermined when too little is given, contradictory when all are given, and the default total of 0 gives a negative fuselage capacity. The rest is proved."
  },
  {
   "property": "C111",
   "status": "partial",
   "theorems": [
    "Verif.NacIdx.mem_numIdx",
    "Verif.NacIdx.range_filter_lt",
    "Verif.NacIdx.numIdx_prefix",
    "Verif.NacIdx.fineness_partial",
    "Verif.NacIdx.fineness_violated",
    "Verif.NacIdx.fineness_undefined_violated",
    "Verif.NacIdx.charLen_spec",
    "Verif.NacIdx.numIdx_length_le",
    "Verif.NacIdx.partials_run_iff",
    "Verif.NacIdx.partials_violated",
    "Verif.NacIdx.charLen_partials",
    "Verif.NacIdx.fineness_partials",
    "Verif.NacIdx.tiled_length",
    "Verif.NacIdx.colsOf_aux",
    "Verif.NacIdx.cols_eq",
    "Verif.NacIdx.tiled_count",
    "Verif.NacIdx.tiled_sorted",
    "Verif.NacIdx.block_eq",
    "Verif.NacIdx.ite_add",
    "Verif.NacIdx.nc_eq",
    "Verif.NacIdx.range_map_getD",
    "Verif.NacIdx.writes_partials",
    "Verif.NacIdx.block_rows",
    "Verif.NacIdx.block_src",
    "Verif.NacIdx.writes_order",
    "Verif.NacIdx.writes_declared",
    "Verif.NacIdx.no_engine_violated",
    "Verif.NacIdx.declared_iff"
   ],
   "note": "Violated: with a type without engines the fineness of another type is written or left undefined, the partials fail with a shape error, and an aircraft with no engine at all reads inputs never declared. The rest is proved."
  },
  {
   "property": "C112",
   "status": "partial",
   "theorems": [
    "Verif.Ramps.search_spec",
    "Verif.Ramps.sorted_spec",
    "Verif.Ramps.ramp_up_eq",
    "Verif.Ramps.ramp_split",
    "Verif.Ramps.frac_mem",
    "Verif.Ramps.ramp_between",
    "Verif.Ramps.ramp_mono",
    "Verif.Ramps.ramp_up_partials",
    "Verif.Ramps.ramp_partials_split",
    "Verif.Ramps.tanh_symmetry",
    "Verif.Ramps.tanh_ends",
    "Verif.Ramps.tanh_between",
    "Verif.Ramps.tanh_partials",
    "Verif.Ramps.rampCols_length",
    "Verif.Ramps.ramp_shape",
    "Verif.Ramps.ramp_shape_violated",
    "Verif.Ramps.speed_iff",
    "Verif.Ramps.speed_default_violated",
    "Verif.Ramps.speed_partials",
    "Verif.Ramps.cubic_add",
    "Verif.Ramps.err_add",
    "Verif.Ramps.fit_minimal",
    "Verif.Ramps.cubic_smul",
    "Verif.Ramps.fit_residual",
    "Verif.Ramps.fit_gradient",
    "Verif.Ramps.fit_heights",
    "Verif.Ramps.fit_exact",
    "Verif.Ramps.ks_bounds",
    "Verif.Ramps.tip_limit_bounds",
    "Verif.Ramps.tip_helical",
    "Verif.Ramps.tip_helical_limit",
    "Verif.Ramps.ks_deriv",
    "Verif.Ramps.tip_partials"
   ],
   "note": "Violated: the smooth ramp declares partials of unequal length for every shape but one entry per node; with the default target speed of 0 the Mach constraint is void. np.searchsorted and the KS function are modelled from their documentation. The rest is proved."
  },
  {
   "property": "C113",
   "status": "partial",
   "theorems": [
    "Verif.Builders.has_iff",
    "Verif.Builders.construct_ok_iff",
    "Verif.Builders.mem_drop",
    "Verif.Builders.ex_method",
    "Verif.Builders.buildFlops_ok_iff",
    "Verif.Builders.buildGasp_ok_iff",
    "Verif.Builders.build_ok_iff",
    "Verif.Builders.build_none_iff",
    "Verif.Builders.tabular_low_speed_violated",
    "Verif.Builders.methods_usable",
    "Verif.Builders.varMsg_all",
    "Verif.Builders.varMsg_violated",
    "Verif.Builders.flops_solve_alpha_violated",
    "Verif.Builders.default_drops_options_violated",
    "Verif.Builders.default_method",
    "Verif.Builders.solve_alpha_group",
    "Verif.Builders.built_method",
    "Verif.Builders.built_promotes",
    "Verif.Builders.external_inputs_violated",
    "Verif.Builders.output_alpha_false_violated",
    "Verif.Builders.polar_promoted",
    "Verif.Builders.polarEntry_ok",
    "Verif.Builders.built_params",
    "Verif.Builders.bwb_tabular_violated",
    "Verif.Builders.coreComputed_bwb",
    "Verif.Builders.hTail_iff",
    "Verif.Builders.vTail_iff",
    "Verif.Builders.computedCore_mem",
    "Verif.Builders.coreComputed_sub",
    "Verif.Builders.coreComputed_nodup",
    "Verif.Builders.covers_aircraft",
    "Verif.Builders.params_promoted",
    "Verif.Builders.params_user",
    "Verif.Builders.params_nodup",
    "Verif.Builders.unique_eq",
    "Verif.Builders.unique_of_mem",
    "Verif.Builders.gridX_length",
    "Verif.Builders.gridY_length",
    "Verif.Builders.mem_gridX",
    "Verif.Builders.mem_gridY",
    "Verif.Builders.shape_formatted",
    "Verif.Builders.shape_free_iff",
    "Verif.Builders.shape_violated",
    "Verif.Builders.shape_free3_iff",
    "Verif.Builders.busVars_partial",
    "Verif.Builders.busVars_violated",
    "Verif.Builders.tabular_external_violated",
    "Verif.Builders.geo_partial",
    "Verif.Builders.geo_order_violated",
    "Verif.Builders.findVar_found",
    "Verif.Builders.findVar_units",
    "Verif.Builders.findVar_units_unknown",
    "Verif.Builders.engineRows_num",
    "Verif.Builders.engineRows_first",
    "Verif.Builders.engineRows_iff",
    "Verif.Builders.engineRows_violated",
    "Verif.Builders.sumRow_same",
    "Verif.Builders.sumRow_convert",
    "Verif.Builders.sumRow_first",
    "Verif.Builders.sumRow_second_violated",
    "Verif.Builders.truth_false",
    "Verif.Builders.covers_iff",
    "Verif.Builders.timeseries_spec",
    "Verif.Builders.geoInit_ok",
    "Verif.Builders.unitName_spec"
   ],
   "note": "Violated: the method tabular_low_speed can never be built; solve_alpha is announced as unused for FLOPS but raises; the default method drops the other options; blended wing bodies with tables call add on a list; a grid with one value on the second axis gets the wrong shape; the geometry codes in the other order build nothing; the mass report gives every engine type the mass of the first. OpenMDAO is modelled by the declared option names. The rest is proved."
  },
  {
   "property": "C114",
   "status": "partial",
   "theorems": [
    "Verif.MetaTable.mulPow_assoc",
    "Verif.MetaTable.evalToks_mul",
    "Verif.MetaTable.units_parse",
    "Verif.MetaTable.insert_spec",
    "Verif.MetaTable.insertAll_spec",
    "Verif.MetaTable.names_nodup",
    "Verif.MetaTable.names_complete",
    "Verif.MetaTable.default_typed",
    "Verif.MetaTable.typed_unitless",
    "Verif.MetaTable.units_of_word_partial",
    "Verif.MetaTable.battery_volume_violated",
    "Verif.MetaTable.same_dimension",
    "Verif.MetaTable.rate_dimension_partial",
    "Verif.MetaTable.rate_dimension_violated",
    "Verif.MetaTable.digit_spec",
    "Verif.MetaTable.digit_digits",
    "Verif.MetaTable.evalToks_expr",
    "Verif.MetaTable.splitAt_join",
    "Verif.MetaTable.splitAt_free",
    "Verif.MetaTable.words_spec",
    "Verif.MetaTable.words_no_colon"
   ],
   "note": "Violated: the battery volume has the units ft*3, a length; the rate of the Mach number is unitless and the specific energy has the units of its rate. The rest is proved. The table is finite and complete, so the kernel decides it."
  },
  {
   "property": "C115",
   "status": "partial",
   "theorems": [
    "Verif.OdeOpts.put_lookup",
    "Verif.OdeOpts.put_keys",
    "Verif.OdeOpts.lookup_none_of_not_mem",
    "Verif.OdeOpts.merge_lookup",
    "Verif.OdeOpts.merge_keys",
    "Verif.OdeOpts.update_get",
    "Verif.OdeOpts.update_method",
    "Verif.OdeOpts.update_keys",
    "Verif.OdeOpts.takeoff_setup",
    "Verif.OdeOpts.takeoff_user_wins",
    "Verif.OdeOpts.setEntry_lookup",
    "Verif.OdeOpts.over_step",
    "Verif.OdeOpts.over_setup",
    "Verif.OdeOpts.over_method",
    "Verif.OdeOpts.base_keys",
    "Verif.OdeOpts.over_other",
    "Verif.OdeOpts.over_table_violated",
    "Verif.OdeOpts.over_external_violated",
    "Verif.OdeOpts.over_again",
    "Verif.OdeOpts.over_shared_violated",
    "Verif.OdeOpts.carry_setup",
    "Verif.OdeOpts.foldl_update_keys",
    "Verif.OdeOpts.foldl_update_method",
    "Verif.OdeOpts.carry_leak_violated",
    "Verif.OdeOpts.carry_partial",
    "Verif.OdeOpts.flightPath_setup",
    "Verif.OdeOpts.landing_setup",
    "Verif.OdeOpts.ignores_user_violated",
    "Verif.OdeOpts.flightPath_all_violated",
    "Verif.OdeOpts.accel_loop",
    "Verif.OdeOpts.append_lookup",
    "Verif.OdeOpts.accel_start",
    "Verif.OdeOpts.accel_partial",
    "Verif.OdeOpts.accel_name_violated",
    "Verif.OdeOpts.base_build_iff",
    "Verif.OdeOpts.clean_ascent_violated",
    "Verif.OdeOpts.clean_ascent_stuck",
    "Verif.OdeOpts.base_flops_iff",
    "Verif.OdeOpts.cruise_alpha",
    "Verif.OdeOpts.flight_clmax_iff",
    "Verif.OdeOpts.takeoff_params_violated",
    "Verif.OdeOpts.tabularFlag_snoc",
    "Verif.OdeOpts.tabularFlag_iff",
    "Verif.OdeOpts.tabularFlag_partial",
    "Verif.OdeOpts.tabularFlag_violated",
    "Verif.OdeOpts.tabularFlag_order_violated",
    "Verif.OdeOpts.retract_defaults",
    "Verif.OdeOpts.landing_flags"
   ],
   "note": "Proved for the takeoff ODE (the user wins, nothing is shared). Violated: flight, Breguet and simple cruise ODEs override the user and change the dictionary of the user, so tables and external aerodynamics cannot be used there; the clean ascent always raises; solved ODEs pass options of one subsystem to the next; the flight path and landing ODEs ignore the user; AccelODE writes under a fixed name; a takeoff phase without options gets cruise parameters; the tabular flag is set by any phase and depends on the order. The partial theorems state when each of these does no harm."
  },
  {
   "property": "C116",
   "status": "partial",
   "theorems": [
    "Verif.GaspDrag.hbar_nonneg",
    "Verif.GaspDrag.hbar_mid",
    "Verif.GaspDrag.hbar_mirror",
    "Verif.GaspDrag.ratios",
    "Verif.GaspDrag.bbarAlt_ge",
    "Verif.GaspDrag.cla_pos",
    "Verif.GaspDrag.cla_le",
    "Verif.GaspDrag.cla_mono",
    "Verif.GaspDrag.cla_sonic",
    "Verif.GaspDrag.bodySlope_ok",
    "Verif.GaspDrag.bodySlope_partial",
    "Verif.GaspDrag.bodySlope_violated",
    "Verif.GaspDrag.lift_system",
    "Verif.GaspDrag.lift_unique",
    "Verif.GaspDrag.ratio_eq",
    "Verif.GaspDrag.ratio_neutral",
    "Verif.GaspDrag.ratio_anti",
    "Verif.GaspDrag.warns_iff",
    "Verif.GaspDrag.warns_violated",
    "Verif.GaspDrag.warns_partial",
    "Verif.GaspDrag.Geom.cf_pos",
    "Verif.GaspDrag.Geom.cf_anti",
    "Verif.GaspDrag.Geom.sigX_range",
    "Verif.GaspDrag.Geom.sigX_half",
    "Verif.GaspDrag.Geom.reli_good",
    "Verif.GaspDrag.Geom.reli_between",
    "Verif.GaspDrag.Geom.logb10_pos",
    "Verif.GaspDrag.Geom.fre_pos",
    "Verif.GaspDrag.Geom.fre_one",
    "Verif.GaspDrag.Geom.fre_strictAnti",
    "Verif.GaspDrag.strutArr_partial",
    "Verif.GaspDrag.strutArr_violated",
    "Verif.GaspDrag.strutArr_spread_violated",
    "Verif.GaspDrag.Geom.sa5_eq",
    "Verif.GaspDrag.Geom.fen_perm",
    "Verif.GaspDrag.Geom.fen_split",
    "Verif.GaspDrag.Geom.cd0_eq",
    "Verif.GaspDrag.Geom.cd0_partial",
    "Verif.GaspDrag.Geom.cd0_violated",
    "Verif.GaspDrag.Geom.wing_factor_violated",
    "Verif.GaspDrag.Geom.no_strut_violated",
    "Verif.GaspDrag.Geom.no_strut_partial",
    "Verif.GaspDrag.Geom.sa7_eq",
    "Verif.GaspDrag.Geom.see_le",
    "Verif.GaspDrag.Geom.sweepAt_quarter",
    "Verif.GaspDrag.Geom.sa1_anti",
    "Verif.GaspDrag.Geom.sa2_nonpos",
    "Verif.GaspDrag.engines_ext",
    "Verif.GaspDrag.declared_partial",
    "Verif.GaspDrag.plane_cd",
    "Verif.GaspDrag.missing_violated",
    "Verif.GaspDrag.Clean.machDiv_anti",
    "Verif.GaspDrag.Clean.delcdm_above",
    "Verif.GaspDrag.Clean.delcdm_violated",
    "Verif.GaspDrag.Clean.delcdm_partial",
    "Verif.GaspDrag.foldl_set_get",
    "Verif.GaspDrag.cdScaled_eq",
    "Verif.GaspDrag.clean_missing_violated",
    "Verif.GaspDrag.Low.betag_range",
    "Verif.GaspDrag.Low.betag_pos",
    "Verif.GaspDrag.Low.sig_range",
    "Verif.GaspDrag.Low.ground_nonpos",
    "Verif.GaspDrag.Low.ground_far",
    "Verif.GaspDrag.Low.gear_pos_iff",
    "Verif.GaspDrag.Low.scale_parts",
    "Verif.GaspDrag.Low.scale_violated",
    "Verif.GaspDrag.Ground.kclge_ge",
    "Verif.GaspDrag.Ground.kclge_high",
    "Verif.GaspDrag.Ground.kclge_low",
    "Verif.GaspDrag.Ground.kclge_scale",
    "Verif.GaspDrag.Ground.c1_partial",
    "Verif.GaspDrag.tail_geometry",
    "Verif.GaspDrag.onTail_vortex",
    "Verif.GaspDrag.onWing_vortex",
    "Verif.GaspDrag.clat0_ends",
    "Verif.GaspDrag.fk_eq",
    "Verif.GaspDrag.rlmc2_half_chord",
    "Verif.GaspDrag.cloge_affine",
    "Verif.GaspDrag.cdi_square",
    "Verif.GaspDrag.rlmle_leading_edge",
    "Verif.GaspDrag.c3_root"
   ],
   "note": "Violated: the drag factor of the wing is missing in SA6, so the drag without lift is wrong for any factor but one and can fall as the factor grows; partials of SA5 and SA7 are declared to be zero for the strut chord, and of SA7 for all ten drag factors, and of the clean coefficient for its scale factors; the ground term of the low speed drag lacks the chord and depends on the unit of length; the compressibility increment is negative below divergence (by less than 7.5e-6); the body slope accepts Mach one and above; the warning about zero denominators needs all to be zero; an aircraft without a strut has strut drag if the area ratio is given. The rest is proved, over the reals."
  },
  {
   "property": "C117",
   "status": "partial",
   "theorems": [
    "Verif.DeckWiring.accepted_iff",
    "Verif.DeckWiring.undriven_iff",
    "Verif.DeckWiring.one_source",
    "Verif.DeckWiring.implicit_iff",
    "Verif.DeckWiring.build_accepted",
    "Verif.DeckWiring.memory_deck_violated",
    "Verif.DeckWiring.hybrid_global_violated",
    "Verif.DeckWiring.hybrid_max_violated",
    "Verif.DeckWiring.rpm_violated",
    "Verif.DeckWiring.other_input_violated",
    "Verif.DeckWiring.rpm_input_violated",
    "Verif.DeckWiring.thrust_iff"
   ],
   "note": "Exact conditions are proved for acceptance, undriven inputs and implicit connections. Violated: decks given in memory cannot build the group (inputs never set); a global hybrid throttle without a global throttle connects a missing output; the maximum hybrid throttle is never connected; the speed of rotation leaves the scaling as zero times the factor while the interpolated value goes nowhere, and feeds back into the interpolation when it is an input; any other variable declared as an input breaks the group."
  },
  {
   "property": "C118",
   "status": "partial",
   "theorems": [
    "Verif.DeckRead.lexLe_trans",
    "Verif.DeckRead.order_perm",
    "Verif.DeckRead.order_sorted",
    "Verif.DeckRead.order_stable",
    "Verif.DeckRead.sort_spec",
    "Verif.DeckRead.sort_column_perm",
    "Verif.DeckRead.sort_idem",
    "Verif.DeckRead.sort_ragged",
    "Verif.DeckRead.rename_get",
    "Verif.DeckRead.read_value",
    "Verif.DeckRead.torque_violated",
    "Verif.DeckRead.two_aliases_violated",
    "Verif.DeckRead.case_violated",
    "Verif.DeckRead.table_changed_violated"
   ],
   "note": "Sorting and reading are proved in full. Violated: of two columns for one variable the first is dropped without a message; names in memory are compared with upper and lower case (the file reader ignores it); the torque is stored without conversion of units and is not a variable of the deck; the table of the user is changed in place."
  },
  {
   "property": "C119",
   "status": "partial",
   "theorems": [
    "Verif.MissionParams.names_append",
    "Verif.MissionParams.names_valueOf",
    "Verif.MissionParams.cruise_lists",
    "Verif.MissionParams.lowSpeed_lists",
    "Verif.MissionParams.missing_lists",
    "Verif.MissionParams.gasp_names",
    "Verif.MissionParams.cruise_covered_iff",
    "Verif.MissionParams.lowSpeed_covered_iff",
    "Verif.MissionParams.missing_read",
    "Verif.MissionParams.tabCruise_covered",
    "Verif.MissionParams.tabLowSpeed_covered_iff",
    "Verif.MissionParams.coreComputed_iff",
    "Verif.MissionParams.five_lists",
    "Verif.MissionParams.rest_lists",
    "Verif.MissionParams.computed_covered",
    "Verif.MissionParams.takeoff_covered",
    "Verif.MissionParams.tabular_covered_iff",
    "Verif.MissionParams.seen_user",
    "Verif.MissionParams.seen_missing",
    "Verif.MissionParams.computed_seen",
    "Verif.MissionParams.cruise_seen_partial",
    "Verif.MissionParams.phase_params",
    "Verif.MissionParams.cruise_seen_violated",
    "Verif.MissionParams.eom_covered_iff",
    "Verif.MissionParams.friction_violated",
    "Verif.MissionParams.muxIn_iff",
    "Verif.MissionParams.takeoffDefaults_iff"
   ],
   "note": "Full coverage is proved for the FLOPS computed and take-off groups and for the GASP tabular cruise. Violated: the GASP cruise and low-speed groups read eleven drag factors that no builder lists, so the mission always uses their defaults; the rolling friction coefficient is in no list. Exact conditions are given for the other groups."
  },
  {
   "property": "C120",
   "status": "partial",
   "theorems": [
    "Verif.Declare.addVar_absent",
    "Verif.Declare.addVar_sound",
    "Verif.Declare.convertUnits_ok_iff",
    "Verif.Declare.float_cast",
    "Verif.Declare.addVar_float",
    "Verif.Declare.mapM_replicate",
    "Verif.Declare.callTy_floats",
    "Verif.Declare.npArray_floats",
    "Verif.Declare.addVar_shape",
    "Verif.Declare.addVar_shape_single",
    "Verif.Declare.addVar_none",
    "Verif.Declare.addVar_bad_units",
    "Verif.Declare.addOption_sound",
    "Verif.Declare.addOption_default",
    "Verif.Declare.setOption_value",
    "Verif.Declare.given_units_violated",
    "Verif.Declare.disagree_spec",
    "Verif.Declare.calls_disagree",
    "Verif.Declare.calls_agree_partial",
    "Verif.Declare.excrescence_violated",
    "Verif.Declare.numbers_iff",
    "Verif.Declare.broadcast_iff",
    "Verif.Declare.onesTimes_scalar",
    "Verif.Declare.onesTimes_list"
   ],
   "note": "Units, description, type and physical value of the declared default are proved for all metadata. Violated: units given with an option value are never checked; units of another dimension raise another exception than the documented one; extra arguments are dropped for options with units; one option of the metadata is declared as an input, so the value of the user does not reach it. All other calls agree with the metadata."
  },
  {
   "property": "C121",
   "status": "partial",
   "theorems": [
    "Verif.GroupDefaults.mem_allPromoted",
    "Verif.GroupDefaults.starts_iff",
    "Verif.GroupDefaults.stripParam_append",
    "Verif.GroupDefaults.not_param",
    "Verif.GroupDefaults.mem_allLooked",
    "Verif.GroupDefaults.scan_names",
    "Verif.GroupDefaults.getsVal_false_iff",
    "Verif.GroupDefaults.scan_shapes",
    "Verif.GroupDefaults.scan_shaped",
    "Verif.GroupDefaults.metaVal_spec",
    "Verif.GroupDefaults.considered_iff",
    "Verif.GroupDefaults.one_key",
    "Verif.GroupDefaults.configure_calls",
    "Verif.GroupDefaults.user_value_partial",
    "Verif.GroupDefaults.not_set",
    "Verif.GroupDefaults.configure_error",
    "Verif.GroupDefaults.user_value_violated",
    "Verif.GroupDefaults.shape_order_violated",
    "Verif.GroupDefaults.optionDefaults_spec",
    "Verif.GroupDefaults.isOption_spec",
    "Verif.GroupDefaults.metaVal_scalar"
   ],
   "note": "Proved for all variables that at least one looked-at input reads without shape_by_conn, or that no looked-at input reads. Violated: the value of the user is dropped when only inputs with shape_by_conn read the variable, and the last subsystem decides the shape when they differ."
  },
  {
   "property": "C122",
   "status": "partial",
   "theorems": [
    "Verif.Configure.overrideVerbosity_spec",
    "Verif.Configure.load_loud",
    "Verif.Configure.load_proper",
    "Verif.Configure.load_quiet_violated",
    "Verif.Configure.choose_spec",
    "Verif.Configure.splitInfo_spec",
    "Verif.Configure.validateModifier_iff",
    "Verif.Configure.postponed_violated",
    "Verif.Configure.subsystemGuesses_spec",
    "Verif.Configure.guess_dropped_violated",
    "Verif.Configure.post_options_violated",
    "Verif.Configure.post_options_ignored",
    "Verif.Configure.twoDofBuilder_spec",
    "Verif.Configure.solvedBuilder_spec",
    "Verif.Configure.energyBuilder_spec",
    "Verif.Configure.ranges_spec",
    "Verif.Configure.energy_start",
    "Verif.Configure.solved_start",
    "Verif.Configure.twoDof_start",
    "Verif.Configure.twoDof_start_violated",
    "Verif.Configure.solvedTime_spec",
    "Verif.Configure.fixed_duration_violated",
    "Verif.Configure.initial_ref_violated"
   ],
   "note": "Violated: with quiet messages an object that is no builder is loaded; subsystems after the mission get the options given for before it; guesses of other kinds are dropped; postponed annotations are refused; with two degrees of freedom the start is tied to fixed names that need not exist; a fixed duration still needs bounds or a scaler."
  },
  {
   "property": "C123",
   "status": "partial",
   "theorems": [
    "Verif.ProblemSteps.step_all",
    "Verif.ProblemSteps.step_error",
    "Verif.ProblemSteps.build_all",
    "Verif.ProblemSteps.build_refines",
    "Verif.ProblemSteps.build_empty_violated",
    "Verif.ProblemSteps.addGroup_spec",
    "Verif.ProblemSteps.addGroup_type_violated",
    "Verif.ProblemSteps.single_external",
    "Verif.ProblemSteps.loadAll_proper",
    "Verif.ProblemSteps.multi_external",
    "Verif.ProblemSteps.multi_external_violated",
    "Verif.ProblemSteps.multi_external_partial",
    "Verif.ProblemSteps.no_group_violated",
    "Verif.ProblemSteps.setup_meta",
    "Verif.ProblemSteps.driver_limit",
    "Verif.ProblemSteps.driver_limit_violated",
    "Verif.ProblemSteps.driver_coloring",
    "Verif.ProblemSteps.driver_nodup",
    "Verif.ProblemSteps.driver_print_mono",
    "Verif.ProblemSteps.driver_results",
    "Verif.ProblemSteps.npMax_spec",
    "Verif.ProblemSteps.rangesOf_mem",
    "Verif.ProblemSteps.designRange_spec",
    "Verif.ProblemSteps.designRange_error",
    "Verif.ProblemSteps.designRange_unknown_violated",
    "Verif.ProblemSteps.promoteInputs_spec",
    "Verif.ProblemSteps.run_spec",
    "Verif.ProblemSteps.run_error",
    "Verif.ProblemSteps.payload_multi_violated",
    "Verif.ProblemSteps.driver_tolerances",
    "Verif.ProblemSteps.new_plain"
   ],
   "note": "Proved: order, reach and errors of the steps, driver settings, design range and run. Violated: a mission is accepted by a problem of another type and then skipped; external subsystems of several missions are loaded too late; a problem without missions builds nothing silently or ends in UnboundLocalError; the limit of iterations is ignored for some optimizers; unknown mission names are ignored; the payload-range diagram is not made for several missions."
  },
  {
   "property": "C124",
   "status": "partial",
   "theorems": [
    "Verif.GaspLoads.speeds_error",
    "Verif.GaspLoads.speeds_ok",
    "Verif.GaspLoads.speeds_limits",
    "Verif.GaspLoads.speeds_smooth",
    "Verif.GaspLoads.speeds_load_partial",
    "Verif.GaspLoads.speeds_struct_partial",
    "Verif.GaspLoads.bwb_speeds",
    "Verif.GaspLoads.speeds_category_violated",
    "Verif.GaspLoads.speeds_category_reachable",
    "Verif.GaspLoads.cr_deriv",
    "Verif.GaspLoads.dv_deriv",
    "Verif.GaspLoads.ulf_max",
    "Verif.GaspLoads.ulf_maneuver",
    "Verif.GaspLoads.ulf_plain",
    "Verif.GaspLoads.jUlf_linear",
    "Verif.GaspLoads.bwb_plain",
    "Verif.GaspLoads.ulf_smooth_true",
    "Verif.GaspLoads.ulf_smooth_partial",
    "Verif.GaspLoads.ulf_smooth_violated",
    "Verif.GaspLoads.ulf_smooth_slope_violated",
    "Verif.GaspLoads.bwb_smooth_violated",
    "Verif.GaspLoads.violated_reachable",
    "Verif.GaspLoads.dks_weights",
    "Verif.GaspLoads.h_bounds",
    "Verif.GaspLoads.h_single",
    "Verif.GaspLoads.height_spec",
    "Verif.GaspLoads.scaler_ok",
    "Verif.GaspLoads.coefficient_scaled",
    "Verif.GaspLoads.clearance_scaled",
    "Verif.GaspLoads.clearance_high",
    "Verif.GaspLoads.scaler_violated",
    "Verif.GaspLoads.factor_pos",
    "Verif.GaspLoads.diameter_violated",
    "Verif.GaspLoads.diameter_partial",
    "Verif.GaspLoads.location_violated"
   ],
   "note": "Proved for speeds except category 1 of LoadSpeeds, for load factors without smoothing and three inputs with smoothing, and for the gear by scaler and, up to the scaler, coefficient, touchdown mass and clearance ratio. Violated: category 1 entries; wing loading, density ratio, lift curve slope and dive speed with smoothing; the scaler is missing in four gear entries, the diameter entry has a wrong sign, the wing position has no entry."
  },
  {
   "property": "C125",
   "status": "partial",
   "theorems": [
    "Verif.CabinLayout.abreast_economy",
    "Verif.CabinLayout.abreast_first",
    "Verif.CabinLayout.abreast_business",
    "Verif.CabinLayout.abreast_pos",
    "Verif.CabinLayout.small_cabin_default_violated",
    "Verif.CabinLayout.widebody_aisle_violated",
    "Verif.CabinLayout.aisle_spec",
    "Verif.CabinLayout.aisle_economy",
    "Verif.CabinLayout.aisles_spec",
    "Verif.CabinLayout.capsTable_mono",
    "Verif.CabinLayout.over_six_hundred_violated",
    "Verif.CabinLayout.caps_spec",
    "Verif.CabinLayout.caps_pos",
    "Verif.CabinLayout.counts_spec",
    "Verif.CabinLayout.counts_bounds",
    "Verif.CabinLayout.compute_ok_iff",
    "Verif.CabinLayout.no_first_class_violated",
    "Verif.CabinLayout.compute_ok",
    "Verif.CabinLayout.compute_out",
    "Verif.CabinLayout.engFlag_spec",
    "Verif.CabinLayout.length_spec",
    "Verif.CabinLayout.centre_engine_violated",
    "Verif.CabinLayout.mult_pos",
    "Verif.CabinLayout.mult_spec",
    "Verif.CabinLayout.final_mono",
    "Verif.CabinLayout.cabin_lower",
    "Verif.CabinLayout.cabin_mono_pitch",
    "Verif.CabinLayout.width_spec",
    "Verif.CabinLayout.width_tight",
    "Verif.CabinLayout.more_passengers_violated",
    "Verif.BwbCabin.simple_ok",
    "Verif.BwbCabin.simple_err",
    "Verif.BwbCabin.simple_geometry",
    "Verif.BwbCabin.simple_bays",
    "Verif.BwbCabin.simple_bays_out",
    "Verif.BwbCabin.simple_bays_minimal_violated",
    "Verif.BwbCabin.simple_partials",
    "Verif.BwbCabin.orDefault_pos",
    "Verif.BwbCabin.orDefault_given",
    "Verif.BwbCabin.seat_area",
    "Verif.BwbCabin.units_ceil",
    "Verif.BwbCabin.lavs_spec",
    "Verif.BwbCabin.service_spec",
    "Verif.BwbCabin.width_area",
    "Verif.BwbCabin.body_area",
    "Verif.BwbCabin.body_cases",
    "Verif.BwbCabin.bay_limit",
    "Verif.BwbCabin.bays_limit",
    "Verif.BwbCabin.bays_fill",
    "Verif.BwbCabin.bays_integer_violated",
    "Verif.BwbCabin.sidewall_kept",
    "Verif.BwbCabin.sidewall_partial",
    "Verif.BwbCabin.sidewall_violated",
    "Verif.BwbCabin.loop_converged",
    "Verif.BwbCabin.loop_exhausted",
    "Verif.BwbCabin.loop_body",
    "Verif.BwbCabin.loop_fixed",
    "Verif.BwbCabin.run_spec"
   ],
   "note": "Violated: five abreast for small cabins, narrow business aisle of a widebody, limits above 600 passengers and their growth at 320, absent classes with zero seats abreast raise, engines of other types ignored; smoothed numbers of bays are no integers and the sidewall can become shorter than its minimum. Convergence of the bay iteration is not claimed."
  },
  {
   "property": "C126",
   "status": "partial",
   "theorems": [
    "Verif.CabinRows.after_succ",
    "Verif.CabinRows.row_len",
    "Verif.CabinRows.fill_some",
    "Verif.CabinRows.fill_none",
    "Verif.CabinRows.fill_spec",
    "Verif.CabinRows.fill_terminates",
    "Verif.CabinRows.narrow_cabin_violated",
    "Verif.CabinRows.wid_eventually",
    "Verif.CabinRows.terminates_iff",
    "Verif.CabinRows.rows_spec",
    "Verif.CabinRows.last_spec",
    "Verif.CabinRows.dropped_row_violated",
    "Verif.CabinRows.seat_error",
    "Verif.CabinRows.pax_error",
    "Verif.CabinRows.no_economy_violated",
    "Verif.CabinRows.aft_spec",
    "Verif.CabinRows.economy_only",
    "Verif.CabinRows.first_to_next",
    "Verif.CabinRows.business_pitch_violated",
    "Verif.CabinRows.fill_more",
    "Verif.CabinRows.compute_terminates",
    "Verif.CabinRows.last_row_width_violated"
   ],
   "note": "Termination is exactly that the cabin holds the aisles and one seat; otherwise the loop runs forever. Violated: the pitch of the last business row is lost before economy, no economy passengers raise UnboundLocalError, the width beside the last row is that of the cabin, a dropped last row leaves one passenger without a seat. Seats of first and business class of width zero are excluded."
  },
  {
   "property": "C127",
   "status": "proved",
   "theorems": [
    "Verif.BwbWingMass.base_eq",
    "Verif.BwbWingMass.res_plain",
    "Verif.BwbWingMass.fac_plain",
    "Verif.BwbWingMass.foo_plain",
    "Verif.BwbWingMass.res_conventional",
    "Verif.BwbWingMass.bwb_partials",
    "Verif.BwbWingMass.bwb_exists_unique",
    "Verif.BwbWingMass.res_mono_ratio"
   ],
   "note": "GRAV_ENGLISH_LBM is 1. Convergence of the Newton solver is not claimed."
  },
  {
   "property": "C128",
   "status": "partial",
   "theorems": [
    "Verif.OdeAssembly.add_eq",
    "Verif.OdeAssembly.odePart_cons",
    "Verif.OdeAssembly.solverPart_cons",
    "Verif.OdeAssembly.loop_spec",
    "Verif.OdeAssembly.loop_ok_iff",
    "Verif.OdeAssembly.parts_count",
    "Verif.OdeAssembly.no_solver_group",
    "Verif.OdeAssembly.flag_iff",
    "Verif.OdeAssembly.entry_other",
    "Verif.OdeAssembly.entry_own",
    "Verif.OdeAssembly.alpha_ok_iff",
    "Verif.OdeAssembly.altitude_rate_violated",
    "Verif.OdeAssembly.alpha_balance",
    "Verif.OdeAssembly.alpha_solver",
    "Verif.OdeAssembly.solver_for_balance_violated",
    "Verif.OdeAssembly.throttle_own",
    "Verif.OdeAssembly.throttle_self",
    "Verif.OdeAssembly.throttle_default_violated",
    "Verif.OdeAssembly.merge_get",
    "Verif.OdeAssembly.kwargs_get",
    "Verif.OdeAssembly.user_options_absent",
    "Verif.OdeAssembly.user_options_violated",
    "Verif.OdeAssembly.phase_ode",
    "Verif.OdeAssembly.phase_bus"
   ],
   "note": "That add_subsystem raises for a name in use is assumed of OpenMDAO. Violated: three modes of the angle of attack have no component, a formula gets a Newton solver, the default group of the throttle is shared by all ODEs, and only the energy method and the solved phases hand on the user options."
  },
  {
   "property": "C129",
   "status": "partial",
   "theorems": [
    "Verif.AeroGrid.mem_table",
    "Verif.AeroGrid.unique_fst",
    "Verif.AeroGrid.unique_snd",
    "Verif.AeroGrid.flatMap_const",
    "Verif.AeroGrid.flatMap_flatMap_const",
    "Verif.AeroGrid.special_spec",
    "Verif.AeroGrid.table_length_const",
    "Verif.AeroGrid.special_grid",
    "Verif.AeroGrid.special_length",
    "Verif.AeroGrid.row_order_violated",
    "Verif.AeroGrid.single_angle_violated",
    "Verif.AeroGrid.short_first_violated",
    "Verif.AeroGrid.getElem_blocks",
    "Verif.AeroGrid.flatMap_range_mul",
    "Verif.AeroGrid.dclMax_entry",
    "Verif.AeroGrid.dclMax_length",
    "Verif.AeroGrid.dclMax_ok_iff",
    "Verif.AeroGrid.dclMax_comm",
    "Verif.AeroGrid.dclMax_max_partial",
    "Verif.AeroGrid.dclMax_stall_violated",
    "Verif.AeroGrid.clMax_entry",
    "Verif.AeroGrid.clMax_length",
    "Verif.AeroGrid.clMax_axes_violated",
    "Verif.AeroGrid.check_ok_iff",
    "Verif.AeroGrid.check_connect_violated",
    "Verif.AeroGrid.promoted_exists_iff",
    "Verif.AeroGrid.method_violated",
    "Verif.AeroGrid.gear_ramp",
    "Verif.AeroGrid.flaps_ramp_violated",
    "Verif.AeroGrid.flap_defaults"
   ],
   "note": "Proved for sorted full grids and for lift growing with the angle. Violated for rows in another order, for one angle per pair, for a first pair with fewer angles, for a stall in the table, for connected training data, and for the ramp of the flaps."
  },
  {
   "property": "C130",
   "status": "partial",
   "theorems": [
    "Verif.DeckOptions.pick_ok_iff",
    "Verif.DeckOptions.pick_first",
    "Verif.DeckOptions.pick_several",
    "Verif.DeckOptions.gather_get?",
    "Verif.DeckOptions.gather_ok_iff",
    "Verif.DeckOptions.gather_settings_violated",
    "Verif.DeckOptions.deckName_ok_iff",
    "Verif.DeckOptions.fill_get?",
    "Verif.DeckOptions.fill_ok_iff",
    "Verif.DeckOptions.fill_full",
    "Verif.DeckOptions.idleCheck_ok_iff",
    "Verif.DeckOptions.sortCheck_ok_iff",
    "Verif.DeckOptions.generates_fill",
    "Verif.DeckOptions.preprocess_ok",
    "Verif.DeckOptions.preprocess_get?",
    "Verif.DeckOptions.preprocess_required",
    "Verif.DeckOptions.preprocess_idem",
    "Verif.DeckOptions.fill_eff",
    "Verif.DeckOptions.preprocess_ok_iff",
    "Verif.DeckOptions.preprocess_core_empty",
    "Verif.DeckOptions.preprocess_core_idle",
    "Verif.DeckOptions.idle_unchecked",
    "Verif.DeckOptions.warned_iff",
    "Verif.DeckOptions.throttles_none_violated",
    "Verif.DeckOptions.throttles_get?",
    "Verif.DeckOptions.setup_steps",
    "Verif.DeckOptions.setup_ok_iff",
    "Verif.DeckOptions.scalars_get?",
    "Verif.DeckOptions.build_convert_violated",
    "Verif.DeckOptions.build_geopotential_violated",
    "Verif.DeckOptions.update_violated",
    "Verif.DeckOptions.update_unchecked_violated"
   ],
   "note": "Violated: a deck built from an aircraft loses the settings, so asking for the conversion of altitudes is a KeyError; a deck without options is a TypeError; an update fails without data and does not check its options."
  },
  {
   "property": "C131",
   "status": "proved",
   "theorems": [
    "Verif.WingSimple.slam_eq",
    "Verif.WingSimple.one_sub_slam",
    "Verif.WingSimple.dslam_eq",
    "Verif.WingSimple.hasDerivAt_slam",
    "Verif.WingSimple.hasDerivAt_tlam_sweep",
    "Verif.WingSimple.hasDerivAt_tlam_ar",
    "Verif.WingSimple.hasDerivAt_tlam_tr",
    "Verif.WingSimple.hasDerivAt_caya",
    "Verif.WingSimple.hasDerivAt_cayl",
    "Verif.WingSimple.hasDerivAt_bend",
    "Verif.WingSimple.partial_sweep",
    "Verif.WingSimple.partial_ar",
    "Verif.WingSimple.partial_tr",
    "Verif.WingSimple.partial_faert",
    "Verif.WingSimple.partial_fstrt",
    "Verif.WingSimple.partial_span",
    "Verif.WingSimple.partial_area",
    "Verif.WingSimple.partial_tca",
    "Verif.WingSimple.kayl_pos",
    "Verif.WingSimple.bend_pos",
    "Verif.WingSimple.bend_mono_span",
    "Verif.WingSimple.pod_pos_iff",
    "Verif.WingSimple.caya_five_violated",
    "Verif.WingSimple.bend_plain"
   ],
   "note": "At the aspect ratio five the correction has no derivative, which is shown."
  },
  {
   "property": "C132",
   "status": "partial",
   "theorems": [
    "Verif.ThrottleLocal.packedRow_take",
    "Verif.ThrottleLocal.loop_ok",
    "Verif.ThrottleLocal.grid_groups",
    "Verif.ThrottleLocal.normLocal_partial",
    "Verif.ThrottleLocal.throttle_partial",
    "Verif.ThrottleLocal.hybrid_partial",
    "Verif.ThrottleLocal.single_point_violated",
    "Verif.ThrottleLocal.equal_settings_violated",
    "Verif.packData_grouped"
   ],
   "note": "Proved if every condition has two points (two different settings for throttles) and the last groups are not larger than earlier ones. Violated otherwise: a condition with a single point takes the next point and makes the column longer than the deck."
  },
  {
   "property": "C133",
   "status": "partial",
   "theorems": [
    "Verif.Reports.lstrip_name",
    "Verif.Reports.lstrip_eq_iff",
    "Verif.Reports.bare_iff",
    "Verif.Reports.bare_single",
    "Verif.Reports.given_partial",
    "Verif.Reports.given_violated",
    "Verif.Reports.tables_split",
    "Verif.Reports.tables_bare",
    "Verif.Reports.overrides_ext",
    "Verif.Reports.overrides_data",
    "Verif.Reports.overrides_ok_iff",
    "Verif.Reports.column_length",
    "Verif.Reports.column_ok_iff",
    "Verif.Reports.column_aligned",
    "Verif.Reports.vector_violated",
    "Verif.Reports.column_units",
    "Verif.Reports.units_violated",
    "Verif.Reports.order_perm",
    "Verif.Reports.duplicates_violated",
    "Verif.Reports.phases_rows",
    "Verif.Reports.phases_ok_iff",
    "Verif.Reports.phases_totals",
    "Verif.Reports.elapsed_sum",
    "Verif.Reports.summary_empty_violated",
    "Verif.Reports.summary_stale_violated",
    "Verif.Reports.summary_own"
   ],
   "note": "Writing of the files and conversion of units are those of the libraries. Violated: an input given to a mission is reported if its first character is in the name of the mission; vectors shift the column against the times; a first phase without units; duplicate rows are kept; a mission without phases."
  },
  {
   "property": "C134",
   "status": "partial",
   "theorems": [
    "Verif.LandingPhases.setAll_ok_iff",
    "Verif.LandingPhases.setAll_get",
    "Verif.LandingPhases.build_ok_iff",
    "Verif.LandingPhases.build_spec",
    "Verif.LandingPhases.optional_violated",
    "Verif.LandingPhases.missing_obstacle_violated",
    "Verif.LandingPhases.default_heights",
    "Verif.LandingPhases.ground_iff",
    "Verif.LandingPhases.fixed_final",
    "Verif.LandingPhases.touchdown_altitude",
    "Verif.LandingPhases.below_sea_violated",
    "Verif.LandingPhases.airport_touchdown_violated",
    "Verif.LandingPhases.touchdown_aoa",
    "Verif.LandingPhases.anchored_full",
    "Verif.LandingPhases.short_mass_violated",
    "Verif.LandingPhases.landing_time",
    "Verif.LandingPhases.mic_altitudes"
   ],
   "note": "That fixed ends keep the values of the guess is assumed of dymos. Violated: the aircraft options are not optional, the TypeError for a missing obstacle height is a KeyError, airports below the sea have no touchdown, the altitude of the airport is not asked for at the touchdown, and without the approach the mass is free."
  },
  {
   "property": "C135",
   "status": "partial",
   "theorems": [
    "Verif.GaspIdle.inletT_ge",
    "Verif.GaspIdle.inletP_eq",
    "Verif.GaspIdle.inletP_mono",
    "Verif.GaspIdle.idleOf_eq",
    "Verif.GaspIdle.idleOf_sls",
    "Verif.GaspIdle.idleOf_mono",
    "Verif.GaspIdle.addIdle_cols",
    "Verif.GaspIdle.mesh_spec",
    "Verif.GaspIdle.deckLines_spec",
    "Verif.GaspIdle.throttle_le_one",
    "Verif.GaspIdle.throttle_nonneg",
    "Verif.GaspIdle.idle_line",
    "Verif.GaspIdle.idle_count",
    "Verif.GaspIdle.distinct_lines_violated",
    "Verif.GaspIdle.idle_first",
    "Verif.GaspIdle.step_keys",
    "Verif.GaspIdle.keys_spec",
    "Verif.GaspIdle.readTpHeader_lines",
    "Verif.GaspIdle.readTurboshaft_deck",
    "Verif.GaspIdle.source_spec",
    "Verif.GaspIdle.outName_ne"
   ],
   "note": "Rounding, the text of the numbers and the atmosphere are left out. Violated: a deck with ratio or throttle zero in its data gets two lines for the same condition and throttle."
  },
  {
   "property": "C136",
   "status": "partial",
   "theorems": [
    "Verif.TwoDofPhases.opt_ok",
    "Verif.TwoDofPhases.num_ok",
    "Verif.TwoDofPhases.flag_ok",
    "Verif.TwoDofPhases.int_ok",
    "Verif.TwoDofPhases.raw_ok",
    "Verif.TwoDofPhases.pair_ok",
    "Verif.TwoDofPhases.state_ok",
    "Verif.TwoDofPhases.control_ok",
    "Verif.TwoDofPhases.transcription_ok",
    "Verif.TwoDofPhases.takeoff_spec",
    "Verif.TwoDofPhases.accel_spec",
    "Verif.TwoDofPhases.flight_spec",
    "Verif.TwoDofPhases.simple_spec",
    "Verif.TwoDofPhases.breguet_spec",
    "Verif.TwoDofPhases.groundroll_spec",
    "Verif.TwoDofPhases.defaults_wellTyped",
    "Verif.TwoDofPhases.links_offered",
    "Verif.TwoDofPhases.carries",
    "Verif.TwoDofPhases.chain_continuous",
    "Verif.TwoDofPhases.unlinked_jump",
    "Verif.TwoDofPhases.flight_path_angle_continuous_violated",
    "Verif.TwoDofPhases.accel_altitude_continuous_violated",
    "Verif.TwoDofPhases.altitude_continuous_partial",
    "Verif.TwoDofPhases.defaultPhase_isPhase",
    "Verif.TwoDofPhases.initial_time_direct_link_ignored"
   ],
   "note": "Time series outputs are listed only where links need them. Violated: flight path angle and the altitude of an acceleration are never linked."
  },
  {
   "property": "C137",
   "status": "partial",
   "theorems": [
    "Verif.EngineParts.collect_get?",
    "Verif.EngineParts.collect_keys",
    "Verif.EngineParts.init_parts",
    "Verif.EngineParts.controls_get?",
    "Verif.EngineParts.guess_control_partial",
    "Verif.EngineParts.guess_rpm_violated",
    "Verif.EngineParts.postBus_violated",
    "Verif.EngineParts.postBus_partial",
    "Verif.EngineParts.names_eq",
    "Verif.EngineParts.needsSolver_iff",
    "Verif.EngineParts.gear_mass_violated",
    "Verif.EngineParts.preprocess_ok_iff",
    "Verif.EngineParts.preprocess_violated",
    "Verif.EngineParts.busVariables_violated",
    "Verif.EngineParts.buildPre_spec",
    "Verif.EngineParts.buildPost_spec",
    "Verif.EngineParts.soc_spec",
    "Verif.EngineParts.soc_empty"
   ],
   "note": "Violated: preprocess_inputs asks gearbox and propeller for names of masses and fails with the default gearbox; get_bus_variables always raises; bus variables after the mission are merged by phase only; a guess for the rotational speed keeps the name its control loses."
  },
  {
   "property": "C138",
   "status": "partial",
   "theorems": [
    "Verif.MissionEditor.inv_start",
    "Verif.MissionEditor.step_inv",
    "Verif.MissionEditor.session_inv",
    "Verif.MissionEditor.delete_spec",
    "Verif.MissionEditor.toggle_inv",
    "Verif.MissionEditor.applyUnits_inv",
    "Verif.MissionEditor.edit_inv",
    "Verif.MissionEditor.drag_inv",
    "Verif.MissionEditor.point_inv",
    "Verif.MissionEditor.addPoint_spec",
    "Verif.MissionEditor.sig_nonneg",
    "Verif.MissionEditor.sig_idem",
    "Verif.MissionEditor.sig_mono",
    "Verif.MissionEditor.sig_bounds",
    "Verif.MissionEditor.sig_near",
    "Verif.MissionEditor.create_spec",
    "Verif.MissionEditor.number_spec",
    "Verif.MissionEditor.number_nodup",
    "Verif.MissionEditor.save_spec",
    "Verif.MissionEditor.open_create",
    "Verif.MissionEditor.opened_inv",
    "Verif.MissionEditor.save_open_save",
    "Verif.MissionEditor.file_bounds",
    "Verif.MissionEditor.file_continuous",
    "Verif.MissionEditor.file_times",
    "Verif.MissionEditor.bounds_iff",
    "Verif.MissionEditor.bounds_nonempty_iff",
    "Verif.MissionEditor.trapz_const",
    "Verif.MissionEditor.trapz_nonneg",
    "Verif.MissionEditor.trapz_mono",
    "Verif.MissionEditor.range_const",
    "Verif.MissionEditor.delete_first",
    "Verif.MissionEditor.delete_first_violated",
    "Verif.MissionEditor.click_early",
    "Verif.MissionEditor.click_early_violated",
    "Verif.MissionEditor.delete_unticks",
    "Verif.MissionEditor.toggle_unticks",
    "Verif.MissionEditor.open_empty_violated",
    "Verif.MissionEditor.negative_limit_violated",
    "Verif.MissionEditor.first_start",
    "Verif.MissionEditor.hours_violated",
    "Verif.MissionEditor.units_violated",
    "Verif.MissionEditor.cancel_orders",
    "Verif.MissionEditor.cancel_violated",
    "Verif.MissionEditor.one_point_violated",
    "Verif.MissionEditor.no_point_violated",
    "Verif.MissionEditor.open_long",
    "Verif.MissionEditor.open_short"
   ],
   "note": "Violated outside the proved conditions: see the findings. Tk, plots and the text of the file are not modelled; numbers are rational."
  },
  {
   "property": "C139",
   "status": "partial",
   "theorems": [
    "Verif.InfoText.read_val",
    "Verif.InfoText.read_vals",
    "Verif.InfoText.read_entries",
    "Verif.InfoText.cost_le",
    "Verif.InfoText.exec_fmt",
    "Verif.InfoText.norm_true",
    "Verif.InfoText.norm_false",
    "Verif.InfoText.read_numpy1",
    "Verif.InfoText.read_numpy2",
    "Verif.InfoText.single_violated",
    "Verif.InfoText.info_noSingle",
    "Verif.InfoText.info_usesNp",
    "Verif.InfoText.file_numpy1",
    "Verif.InfoText.file_numpy2_violated"
   ],
   "note": "Tokens instead of characters: literals are read as they are printed. Violated: tuples of one item; every file since numpy 2."
  },
  {
   "property": "C140",
   "status": "partial",
   "theorems": [
    "Verif.DocTape.allKeys_nodup",
    "Verif.DocTape.allKeys_mem",
    "Verif.DocTape.allKeys_off",
    "Verif.DocTape.keys_values",
    "Verif.DocTape.dot_violated",
    "Verif.DocTape.empty_key_violated",
    "Verif.DocTape.named_layer",
    "Verif.DocTape.join_split",
    "Verif.DocTape.split_join",
    "Verif.DocTape.gramatical_spec",
    "Verif.DocTape.checkValue_partial",
    "Verif.DocTape.checkValue_violated",
    "Verif.DocTape.checkContains_iff",
    "Verif.DocTape.checkArgs_names",
    "Verif.DocTape.checkArgs_subset",
    "Verif.DocTape.checkArgs_defaults",
    "Verif.DocTape.attributeName_spec",
    "Verif.DocTape.glue_spec",
    "Verif.DocTape.glueMethods_spec",
    "Verif.DocTape.addAttributes_violated",
    "Verif.DocTape.default_violated",
    "Verif.DocTape.grouped_spec",
    "Verif.DocTape.table_spec",
    "Verif.DocTape.row_kind",
    "Verif.DocTape.lone_violated"
   ],
   "note": "Objects are the dictionaries of their attributes; values are integers. Violated: keys with dots or without letters; equal arrays; defaults of parameters without one; add_attributes; names of lone variables."
  },
  {
   "property": "C141",
   "status": "partial",
   "theorems": [
    "Verif.SolvedPhases.read_energy",
    "Verif.SolvedPhases.read_solved",
    "Verif.SolvedPhases.transcription_spec",
    "Verif.SolvedPhases.energy_spec",
    "Verif.SolvedPhases.timeCall_spec",
    "Verif.SolvedPhases.solved_spec",
    "Verif.SolvedPhases.energy_links",
    "Verif.SolvedPhases.solved_links",
    "Verif.SolvedPhases.solved_timeseries_violated",
    "Verif.SolvedPhases.continuous_partial",
    "Verif.SolvedPhases.defaults_ok"
   ],
   "note": "Continuity of controls is missing if neither phase optimises them (see C75). Options are rational; the choices of transcription, throttle and constraints are given apart. Violated: outputs asked for twice."
  },
  {
   "property": "C142",
   "status": "partial",
   "theorems": [
    "Verif.Fortran.sortEntries_perm",
    "Verif.Fortran.sortEntries_sorted",
    "Verif.Fortran.sortEntries_unique",
    "Verif.Fortran.row_tokens",
    "Verif.Fortran.input_line",
    "Verif.Fortran.guess_line",
    "Verif.Fortran.unused_line",
    "Verif.Fortran.converted_readback",
    "Verif.Fortran.reads_bool",
    "Verif.Fortran.reads_float",
    "Verif.Fortran.reads_int",
    "Verif.Fortran.float_exponent_violated",
    "Verif.Fortran.hole_dropped_violated",
    "Verif.Fortran.comment_comma_violated",
    "Verif.Fortran.unused_empty_violated",
    "Verif.Fortran.store_empty",
    "Verif.Fortran.addSettings_spec",
    "Verif.Fortran.convertDeck_guesses_violated",
    "Verif.Fortran.convertDeck_settings",
    "Verif.Fortran.convertDeck_order",
    "Verif.Fortran.outputPath_default",
    "Verif.Fortran.outputPath_absolute",
    "Verif.Fortran.outputPath_relative",
    "Verif.Fortran.fortranToAviary_frame",
    "Verif.Fortran.fortranToAviary_refuses"
   ],
   "note": "Round trip for values whose text the reader understands. Violated: floats written with exponent and no point, lists without first element, unknown names without value, names of decks with a comma, guesses. The updates of the options are a parameter."
  },
  {
   "property": "C143",
   "status": "partial",
   "theorems": [
    "Verif.SmallComponents.clThick_deriv",
    "Verif.SmallComponents.clThin_deriv",
    "Verif.SmallComponents.clDesign_deriv",
    "Verif.SmallComponents.mach_subsonic_deriv",
    "Verif.SmallComponents.mach_supersonic_deriv",
    "Verif.SmallComponents.ans_technology",
    "Verif.SmallComponents.mach_ge_section",
    "Verif.SmallComponents.clDesign_jump",
    "Verif.SmallComponents.wet_bounds",
    "Verif.SmallComponents.wet_constant",
    "Verif.SmallComponents.planform_split",
    "Verif.SmallComponents.station_feet",
    "Verif.SmallComponents.first_station_ignored",
    "Verif.SmallComponents.side_feet",
    "Verif.SmallComponents.side_feet_violated",
    "Verif.SmallComponents.chord_jump",
    "Verif.SmallComponents.bwbWetted_value",
    "Verif.SmallComponents.bwbWetted_ok",
    "Verif.SmallComponents.cable_deriv",
    "Verif.SmallComponents.apuMass_pos",
    "Verif.SmallComponents.apuMass_zero",
    "Verif.SmallComponents.sums_deriv",
    "Verif.SmallComponents.massToWeight_deriv"
   ],
   "note": "Partials proved in both branches; at a thickness of 0.065 the design lift coefficient jumps, so no derivative exists there. Violated: the side of a fuselage up to 2.2 ft wide is read as a fraction. The mass of the auxiliary power unit is proved positive up to 34000 passengers."
  },
  {
   "property": "C144",
   "status": "partial",
   "theorems": [
    "Verif.CommandLine.split_spec",
    "Verif.CommandLine.dispatch_script_iff",
    "Verif.CommandLine.script_alone_violated",
    "Verif.CommandLine.dispatch_index_iff",
    "Verif.CommandLine.help_index_violated",
    "Verif.CommandLine.dispatch_help",
    "Verif.CommandLine.dispatch_alone",
    "Verif.CommandLine.dispatch_call",
    "Verif.CommandLine.dispatch_parsed",
    "Verif.CommandLine.after_spec",
    "Verif.CommandLine.executorOf_convert_iff",
    "Verif.CommandLine.convert_partial",
    "Verif.CommandLine.convert_alone_violated",
    "Verif.CommandLine.convert_message_unreachable",
    "Verif.CommandLine.conversions_spec",
    "Verif.CommandLine.commands_spec",
    "Verif.CommandLine.execRun_allowed",
    "Verif.CommandLine.levelAfter_spec",
    "Verif.CommandLine.level_stays_violated",
    "Verif.CommandLine.runAviary_ok",
    "Verif.CommandLine.runAviary_multi_violated",
    "Verif.CommandLine.reload_eq",
    "Verif.CommandLine.reload_core_violated",
    "Verif.CommandLine.dashboard_missing_violated",
    "Verif.CommandLine.dashboard_zip",
    "Verif.CommandLine.dashboard_script",
    "Verif.CommandLine.dashboard_save_only",
    "Verif.CommandLine.optimizer_choice",
    "Verif.CommandLine.check_iff",
    "Verif.CommandLine.check_exit_violated"
   ],
   "note": "Violated: `aviary convert` alone recurses without end, a script without arguments for it is refused, `aviary -h -- x` is an IndexError, the level of `load_inputs` stays for the problem, a deck of several missions cannot be run, the exception for a missing name of the dashboard is a TypeError, and a failed check exits with 0. What argparse does is part of the model only as far as the code uses it."
  },
  {
   "property": "C145",
   "status": "partial",
   "theorems": [
    "Verif.PolyFit.resA_gradient",
    "Verif.PolyFit.err_expand",
    "Verif.PolyFit.resA_zero_iff",
    "Verif.PolyFit.resA_unique",
    "Verif.PolyFit.resA_exists",
    "Verif.PolyFit.resA_exact",
    "Verif.PolyFit.errors_balance",
    "Verif.PolyFit.solve_iff",
    "Verif.PolyFit.zero_altitude_violated"
   ],
   "note": "Violated for an exact zero as last coefficient (for example altitudes that are all zero): numpy drops zeros at the end, and the unpacking into four names fails. The fit of numpy is taken as some set of coefficients of least error."
  },
  {
   "property": "C146",
   "status": "partial",
   "theorems": [
    "Verif.PostTies.takeoff_met_iff",
    "Verif.PostTies.mass_met_iff",
    "Verif.PostTies.energyPost_error_iff",
    "Verif.PostTies.energyPost_ran",
    "Verif.PostTies.twoDofPost_error_iff",
    "Verif.PostTies.events_in_ascent",
    "Verif.PostTies.guesses_set_iff",
    "Verif.PostTies.guesses_after_addPhases",
    "Verif.PostTies.setGuesses_cases",
    "Verif.PostTies.parent_phases_violated",
    "Verif.PostTies.missing_phase"
   ],
   "note": "Violated with a parent problem: the loop runs over the phases of the trajectory of the parent but reads the settings of the group. Without a phase ascent the two-degrees-of-freedom configurator raises an AttributeError. All variables are taken in the same units; the conversion is that of the framework."
  },
  {
   "property": "C147",
   "status": "partial",
   "theorems": [
    "Verif.BwbVolume.vol_closed",
    "Verif.BwbVolume.jac_closed",
    "Verif.BwbVolume.vol_deriv",
    "Verif.BwbVolume.entry_right",
    "Verif.BwbVolume.gear_hard",
    "Verif.BwbVolume.gear_smooth_ratio",
    "Verif.BwbVolume.gear_smooth_violated",
    "Verif.BwbVolume.vol_prism",
    "Verif.BwbVolume.compute_error_iff"
   ],
   "note": "Violated for the location of the main gear with smoothing: the derivative of the bay lacks the factor 6 and is divided by the steepness once more, and terms of the chord and of the aspect ratio are missing. For an untapered wing the entry is a thirtieth of the derivative. All other entries are proved."
  },
  {
   "property": "C148",
   "status": "partial",
   "theorems": [
    "Verif.OpenEntries.sig_mirror",
    "Verif.OpenEntries.dsig_mirror",
    "Verif.OpenEntries.dsig_prod",
    "Verif.OpenEntries.sig_moves",
    "Verif.OpenEntries.strut_length_by_diameter",
    "Verif.OpenEntries.strut_chord_by_diameter",
    "Verif.OpenEntries.fuselage_area_by_diameter",
    "Verif.OpenEntries.position_factor_by_mach",
    "Verif.OpenEntries.gear_factor_slope",
    "Verif.OpenEntries.gear_factor_violated",
    "Verif.OpenEntries.mach_linear",
    "Verif.OpenEntries.mach_by_airspeed",
    "Verif.OpenEntries.ratio_by_airspeed",
    "Verif.OpenEntries.at_cap",
    "Verif.OpenEntries.ratio_at_cap",
    "Verif.OpenEntries.v9_slope",
    "Verif.OpenEntries.v9_violated",
    "Verif.OpenEntries.bounded_slope",
    "Verif.OpenEntries.ratio_low_violated",
    "Verif.OpenEntries.ratio_high_violated",
    "Verif.OpenEntries.dsig_even",
    "Verif.OpenEntries.min_slope",
    "Verif.OpenEntries.fuel_by_gross",
    "Verif.OpenEntries.fuel_by_operating",
    "Verif.OpenEntries.fuel_by_volume",
    "Verif.OpenEntries.fuel_by_density",
    "Verif.OpenEntries.fuel_mass_violated",
    "Verif.OpenEntries.fuel_volume_violated"
   ],
   "note": "Violated with smoothing: the factor for the gear location is declared 100 times too large; the derivative of V9 by the airspeed multiplies two terms of the product rule instead of adding them; the derivative of the density ratio uses the wrong step below category 3 and the wrong steps from category 3 on; the eight derivatives of the largest wing fuel mass and volume have a sign error in one term. The other entries are proved."
  },
  {
   "property": "C149",
   "status": "proved",
   "theorems": [
    "Verif.GlideEntries.theta_chain",
    "Verif.GlideEntries.gamma_chain",
    "Verif.GlideEntries.glide_chain",
    "Verif.GlideEntries.flare_chain",
    "Verif.GlideEntries.tr_chain",
    "Verif.GlideEntries.theta_by_mass",
    "Verif.GlideEntries.glide_by_mass",
    "Verif.GlideEntries.flare_by_mass",
    "Verif.GlideEntries.tr_by_mass",
    "Verif.GlideEntries.theta_by_area",
    "Verif.GlideEntries.glide_by_area",
    "Verif.GlideEntries.flare_by_area",
    "Verif.GlideEntries.tr_by_area",
    "Verif.GlideEntries.theta_by_lift",
    "Verif.GlideEntries.glide_by_lift",
    "Verif.GlideEntries.flare_by_lift",
    "Verif.GlideEntries.tr_by_lift",
    "Verif.GlideEntries.theta_by_density",
    "Verif.GlideEntries.glide_by_density",
    "Verif.GlideEntries.flare_by_density",
    "Verif.GlideEntries.tr_by_density",
    "Verif.GlideEntries.theta_by_ratio",
    "Verif.GlideEntries.glide_by_ratio",
    "Verif.GlideEntries.flare_by_ratio",
    "Verif.GlideEntries.tr_by_ratio",
    "Verif.GlideEntries.theta_by_rate",
    "Verif.GlideEntries.glide_by_rate",
    "Verif.GlideEntries.flare_by_rate",
    "Verif.GlideEntries.tr_by_rate"
   ],
   "note": "The 24 entries the translation left open; the other entries are proved in the translated file."
  },
  {
   "property": "C150",
   "status": "partial",
   "theorems": [
    "Verif.WingEntries.affine_slope",
    "Verif.WingEntries.bend_chain",
    "Verif.WingEntries.sweep_slope",
    "Verif.WingEntries.span_slope",
    "Verif.WingEntries.slat_pow",
    "Verif.WingEntries.fowler_pow",
    "Verif.WingEntries.sle_chain",
    "Verif.WingEntries.sflap_chain",
    "Verif.WingEntries.btsr_tc",
    "Verif.WingEntries.btsr_cc",
    "Verif.WingEntries.btsr_cw",
    "Verif.WingEntries.btsr_span",
    "Verif.WingEntries.power_160",
    "Verif.WingEntries.bending_bt",
    "Verif.WingEntries.bending_ulf",
    "Verif.WingEntries.bending_pctl",
    "Verif.WingEntries.bending_compfrac",
    "Verif.WingEntries.bending_faert",
    "Verif.WingEntries.bending_varswp",
    "Verif.WingEntries.bending_sweep",
    "Verif.WingEntries.bending_span",
    "Verif.WingEntries.plain.slat_fuselage_avg_diameter",
    "Verif.WingEntries.plain.slat_wing_center_chord",
    "Verif.WingEntries.plain.slat_wing_thickness_to_chord_root",
    "Verif.WingEntries.plain.all_fuselage_avg_diameter",
    "Verif.WingEntries.plain.all_wing_center_chord",
    "Verif.WingEntries.plain.all_wing_thickness_to_chord_root",
    "Verif.WingEntries.split.slat_fuselage_avg_diameter",
    "Verif.WingEntries.split.slat_wing_area",
    "Verif.WingEntries.split.slat_wing_center_chord",
    "Verif.WingEntries.split.slat_wing_slat_chord_ratio",
    "Verif.WingEntries.split.slat_wing_slat_span_ratio",
    "Verif.WingEntries.split.slat_wing_span",
    "Verif.WingEntries.split.slat_wing_taper_ratio",
    "Verif.WingEntries.split.slat_wing_thickness_to_chord_root",
    "Verif.WingEntries.split.flap_design_wing_loading",
    "Verif.WingEntries.split.flap_landing_lift_coefficient_max",
    "Verif.WingEntries.split.all_design_wing_loading",
    "Verif.WingEntries.split.all_fuselage_avg_diameter",
    "Verif.WingEntries.split.all_landing_lift_coefficient_max",
    "Verif.WingEntries.split.all_wing_area",
    "Verif.WingEntries.split.all_wing_center_chord",
    "Verif.WingEntries.split.all_wing_slat_chord_ratio",
    "Verif.WingEntries.split.all_wing_slat_span_ratio",
    "Verif.WingEntries.split.all_wing_span",
    "Verif.WingEntries.split.all_wing_taper_ratio",
    "Verif.WingEntries.split.all_wing_thickness_to_chord_root",
    "Verif.WingEntries.singleslotted.slat_fuselage_avg_diameter",
    "Verif.WingEntries.singleslotted.slat_wing_center_chord",
    "Verif.WingEntries.singleslotted.slat_wing_thickness_to_chord_root",
    "Verif.WingEntries.singleslotted.all_fuselage_avg_diameter",
    "Verif.WingEntries.singleslotted.all_wing_center_chord",
    "Verif.WingEntries.singleslotted.all_wing_thickness_to_chord_root",
    "Verif.WingEntries.doubleslotted.slat_fuselage_avg_diameter",
    "Verif.WingEntries.doubleslotted.slat_wing_center_chord",
    "Verif.WingEntries.doubleslotted.slat_wing_thickness_to_chord_root",
    "Verif.WingEntries.doubleslotted.all_fuselage_avg_diameter",
    "Verif.WingEntries.doubleslotted.all_wing_center_chord",
    "Verif.WingEntries.doubleslotted.all_wing_thickness_to_chord_root",
    "Verif.WingEntries.tripleslotted.slat_fuselage_avg_diameter",
    "Verif.WingEntries.tripleslotted.slat_wing_center_chord",
    "Verif.WingEntries.tripleslotted.slat_wing_thickness_to_chord_root",
    "Verif.WingEntries.tripleslotted.all_fuselage_avg_diameter",
    "Verif.WingEntries.tripleslotted.all_wing_center_chord",
    "Verif.WingEntries.tripleslotted.all_wing_thickness_to_chord_root",
    "Verif.WingEntries.fowler.slat_fuselage_avg_diameter",
    "Verif.WingEntries.fowler.slat_wing_center_chord",
    "Verif.WingEntries.fowler.slat_wing_thickness_to_chord_root",
    "Verif.WingEntries.fowler.flap_fuselage_avg_diameter",
    "Verif.WingEntries.fowler.flap_wing_center_chord",
    "Verif.WingEntries.fowler.flap_wing_span",
    "Verif.WingEntries.fowler.flap_wing_thickness_to_chord_root",
    "Verif.WingEntries.fowler.all_fuselage_avg_diameter",
    "Verif.WingEntries.fowler.all_wing_center_chord",
    "Verif.WingEntries.fowler.all_wing_span",
    "Verif.WingEntries.fowler.all_wing_thickness_to_chord_root",
    "Verif.WingEntries.doubleslottedfowler.slat_fuselage_avg_diameter",
    "Verif.WingEntries.doubleslottedfowler.slat_wing_center_chord",
    "Verif.WingEntries.doubleslottedfowler.slat_wing_thickness_to_chord_root",
    "Verif.WingEntries.doubleslottedfowler.flap_fuselage_avg_diameter",
    "Verif.WingEntries.doubleslottedfowler.flap_wing_center_chord",
    "Verif.WingEntries.doubleslottedfowler.flap_wing_span",
    "Verif.WingEntries.doubleslottedfowler.flap_wing_thickness_to_chord_root",
    "Verif.WingEntries.doubleslottedfowler.all_fuselage_avg_diameter",
    "Verif.WingEntries.doubleslottedfowler.all_wing_center_chord",
    "Verif.WingEntries.doubleslottedfowler.all_wing_span",
    "Verif.WingEntries.doubleslottedfowler.all_wing_thickness_to_chord_root",
    "Verif.WingEntries.split.flap_jump_violated"
   ],
   "note": "All 74 entries the translation left open are proved. Continuity is violated: past a flap speed of 160 knots the mass of a split flap is more than two percent above the mass at 160 knots, for any step."
  },
  {
   "property": "C151",
   "status": "proved",
   "theorems": [
    "Verif.GroundEntries.lift_denom_pos",
    "Verif.GroundEntries.drag_denom_pos",
    "Verif.GroundEntries.height_slope",
    "Verif.GroundEntries.lift_height",
    "Verif.GroundEntries.lift_aspect",
    "Verif.GroundEntries.drag_height",
    "Verif.GroundEntries.drag_chain",
    "Verif.GroundEntries.gate",
    "Verif.GroundEntries.lift_by_mission_altitude",
    "Verif.GroundEntries.drag_by_mission_altitude",
    "Verif.GroundEntries.lift_by_wing_height",
    "Verif.GroundEntries.drag_by_wing_height",
    "Verif.GroundEntries.lift_by_wing_span",
    "Verif.GroundEntries.drag_by_wing_span",
    "Verif.GroundEntries.lift_by_wing_aspect_ratio",
    "Verif.GroundEntries.drag_by_wing_aspect_ratio",
    "Verif.GroundEntries.lift_not_less",
    "Verif.GroundEntries.drag_factor_mem"
   ],
   "note": "All 8 entries the translation left open are proved, away from the heights of 1 and 1.1 spans where the formula changes; the other entries are in Verif.Comp.AerodynamicsFlopsBasedGroundEffect."
  },
  {
   "property": "C152",
   "status": "partial",
   "theorems": [
    "Verif.ServiceEntries.service_slope",
    "Verif.ServiceEntries.service_entry_partial",
    "Verif.ServiceEntries.service_entry_violated",
    "Verif.ServiceEntries.furnishings_by_sweep",
    "Verif.ServiceEntries.root_bounds",
    "Verif.ServiceEntries.rounding_bounds",
    "Verif.ServiceEntries.hydraulics_by_pressure",
    "Verif.ServiceEntries.hydraulics_none",
    "Verif.ServiceEntries.reynolds_chain",
    "Verif.ServiceEntries.cfin_slope",
    "Verif.ServiceEntries.reli_pos",
    "Verif.ServiceEntries.interference_by_mach",
    "Verif.ServiceEntries.interference_by_temperature",
    "Verif.ServiceEntries.interference_by_viscosity"
   ],
   "note": "Violated for 10 to 19 passengers: the service mass depends on the mass per passenger but the declared derivative is zero. The entry of the hydraulics is right up to two parts in ten to the sixteenth. The others are right."
  },
  {
   "property": "C153",
   "status": "partial",
   "theorems": [
    "Verif.PropMap.machTypes_eq",
    "Verif.PropMap.memory_violated",
    "Verif.PropMap.memory_unbound",
    "Verif.PropMap.file_ok_iff",
    "Verif.PropMap.file_no_mach",
    "Verif.PropMap.inputs_iff",
    "Verif.PropMap.helical_iff",
    "Verif.PropMap.helical_fed_partial",
    "Verif.PropMap.both_mach_violated",
    "Verif.PropMap.addAll_spec",
    "Verif.PropMap.addAll_iff",
    "Verif.PropMap.premission_order",
    "Verif.PropMap.premission_clash",
    "Verif.PropMap.overridesOf_mem",
    "Verif.PropMap.overridesOf_absent",
    "Verif.PropMap.overrides_collected",
    "Verif.PropMap.overrides_twice_violated",
    "Verif.PropMap.mass_names_nodup",
    "Verif.PropMap.wing_names_nodup",
    "Verif.PropMap.mass_names_alt",
    "Verif.PropMap.mass_summation_last",
    "Verif.PropMap.bwb_fuselage_partial",
    "Verif.PropMap.alt_bwb_violated",
    "Verif.PropMap.simple_bwb_violated"
   ],
   "note": "Violated: data in memory always fail because the names of the outputs are never set; with both Mach numbers in the file the helical one stays an input nobody computes; two builders of one name, one of which builds nothing, double the overrides; the alternative masses give a blended wing body the fuselage of a tube."
  },
  {
   "property": "C154",
   "status": "partial",
   "theorems": [
    "Verif.ControlIter.after_lookup",
    "Verif.ControlIter.after_twice",
    "Verif.ControlIter.given_ok_iff",
    "Verif.ControlIter.method_name_violated",
    "Verif.ControlIter.given_get",
    "Verif.ControlIter.clean_ignored_violated",
    "Verif.ControlIter.method_lost_violated",
    "Verif.ControlIter.always_cruise_violated",
    "Verif.ControlIter.reversed_violated",
    "Verif.ControlIter.given_partial",
    "Verif.ControlIter.leak_violated"
   ],
   "note": "Violated: the method is written into the dictionary of subsystems, reversed, and reaches no subsystem, so clean has no effect; options of one subsystem reach all later ones. Proved in part: aerodynamics with its own entry naming the method, and no options before it, is told what the solved flight ODE tells it."
  }
 ]
}