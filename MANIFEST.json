{
 "claims": [
  {
   "property": "C01",
   "status": "proved",
   "theorems": [
    "Verif.Parser.C01_last_setting_wins",
    "Verif.Parser.C01_query_case_insensitive",
    "Verif.Parser.C01_declarations_unchanged",
    "Verif.Parser.C01_declare",
    "Verif.Parser.C01_boolean_values"
   ],
   "note": "All declared arguments, all capitalisations, all setting lists. The reserved name help is excluded because the parser never stores it."
  },
  {
   "property": "C02",
   "status": "proved",
   "theorems": [
    "Verif.Parser.C02_undeclared_rejected",
    "Verif.Parser.C02_rejection_keeps_prefix",
    "Verif.Parser.C02_missing_required",
    "Verif.Parser.C02_no_duplicate_keys"
   ],
   "note": "Rejection iff an undeclared name occurs; a rejected list is applied up to the offending entry."
  },
  {
   "property": "C03",
   "status": "partial",
   "theorems": [
    "Verif.Parser.C03_json_case_sensitive",
    "Verif.Parser.C03_json_partial",
    "Verif.Parser.C03_json_unreadable",
    "Verif.Parser.C03_help",
    "Verif.Parser.C03_many_arguments",
    "Verif.Parser.C03_one_argument"
   ],
   "note": "False of the code for a single --JSON=... in other than lower case (C03_json_case_sensitive); help works in any capitalisation."
  },
  {
   "property": "C04",
   "status": "proved",
   "theorems": [
    "Verif.Parser.C04_key_value",
    "Verif.Parser.C04_key_space_value",
    "Verif.Parser.C04_no_separator",
    "Verif.Parser.C04_dashes_only"
   ],
   "note": "All names without dashes in front and without '='; all values."
  },
  {
   "property": "C05",
   "status": "proved",
   "theorems": [
    "Verif.Utility.C05_pieces_have_no_delimiter",
    "Verif.Utility.C05_join_of_split",
    "Verif.Utility.C05_split_of_join_terminated",
    "Verif.Utility.C05_split_of_join",
    "Verif.Utility.C05_print_then_split",
    "Verif.Utility.C05_startsWith",
    "Verif.Utility.C05_endsWith"
   ],
   "note": ""
  },
  {
   "property": "C06",
   "status": "partial",
   "theorems": [
    "Verif.Parser.C06_switches_partial",
    "Verif.Parser.C06_bounce_partial",
    "Verif.Parser.C06_bounce_switch_ignored",
    "Verif.Parser.C06_disabled",
    "Verif.Parser.C06_applied_after_input",
    "Verif.Parser.C06_initial",
    "Verif.Parser.C06_set_level",
    "Verif.Parser.C06_set_levels",
    "Verif.Parser.C06_raw_arguments",
    "Verif.Parser.C06_raw_complete",
    "Verif.Parser.C06_raw_arguments_undefined"
   ],
   "note": "False for the bounce level when complete=true is combined with an explicit setting (C06_bounce_switch_ignored); proved for all other levels. SetLogger on raw arguments is undefined behaviour for non-logging arguments."
  },
  {
   "property": "C07",
   "status": "proved",
   "theorems": [
    "Verif.Utility.C07_transpose",
    "Verif.Utility.C07_transpose_twice",
    "Verif.Utility.C07_ragged_is_undefined",
    "Verif.Utility.C07_not_memory_safe",
    "Verif.Utility.C07_degenerate"
   ],
   "note": "Ragged input is undefined behaviour (C07_ragged_is_undefined), stated separately."
  },
  {
   "property": "C08",
   "status": "proved",
   "theorems": [
    "Verif.Utility.C08_add",
    "Verif.Utility.C08_sub",
    "Verif.Utility.C08_scale",
    "Verif.Utility.C08_dot",
    "Verif.Utility.C08_matVec",
    "Verif.Utility.C08_nonsquare_product_refused",
    "Verif.Utility.C08_flatten"
   ],
   "note": "Over any ring; rounding not modelled."
  },
  {
   "property": "C09",
   "status": "proved",
   "theorems": [
    "Verif.Utility.C09_factorial"
   ],
   "note": ""
  },
  {
   "property": "C10",
   "status": "proved",
   "theorems": [
    "Verif.Models.C10_names_differ",
    "Verif.Models.C10_name_read_back",
    "Verif.Models.C10_other_strings",
    "Verif.Models.C10_name_table",
    "Verif.Models.C10_inverse_table",
    "Verif.Models.C10_inverse_unknown",
    "Verif.Models.C10_construct"
   ],
   "note": "All model ids and all strings."
  },
  {
   "property": "C11",
   "status": "proved",
   "theorems": [
    "Verif.Transition.C11_table",
    "Verif.Transition.C11_aligned",
    "Verif.Transition.C11_short_line"
   ],
   "note": "Proved for CalcTemps and CalcGW, all point lists, with the content of every column, not only the width. Input rows must have the width of the input header; C11_short_line shows what happens otherwise. nVEV >= 1 and tab-free names and numbers are hypotheses."
  },
  {
   "property": "C12",
   "status": "proved",
   "theorems": [
    "Verif.Minimizer.C12_decode_encode",
    "Verif.Minimizer.C12_codes",
    "Verif.Minimizer.C12_encode_decode",
    "Verif.Minimizer.C12_zero_is_none",
    "Verif.Minimizer.C12_single"
   ],
   "note": "With the library-availability flags as parameters."
  },
  {
   "property": "C13",
   "status": "partial",
   "theorems": [
    "Verif.Minimizer.C13_effective_selection",
    "Verif.Minimizer.C13_lowest_partial",
    "Verif.Minimizer.C13_single_threaded_ignores_cmaes",
    "Verif.Minimizer.C13_not_lowest",
    "Verif.Minimizer.C13_nan_at_origin",
    "Verif.Minimizer.C13_check",
    "Verif.Minimizer.C13_gsl_selection"
   ],
   "note": "False of the code without multithreading when CMAES is selected (its result is never looked at) and when the potential at the origin is NaN; proved otherwise."
  },
  {
   "property": "C14",
   "status": "partial",
   "theorems": [
    "Verif.Minimizer.Threads.C14_no_point_twice",
    "Verif.Minimizer.Threads.C14_number_of_results",
    "Verif.Minimizer.Threads.C14_results_when_finished",
    "Verif.Minimizer.Threads.C14_every_schedule_ends",
    "Verif.Minimizer.Threads.C14_single_thread_safe_partial",
    "Verif.Minimizer.Threads.C14_pop_of_empty_queue",
    "Verif.Minimizer.Threads.C14_data_race"
   ],
   "note": "Number of results, at-most-once processing and termination hold for every number of threads and every interleaving; absence of pops from the empty queue holds for one worker only and is refuted for two or more (C14_pop_of_empty_queue, C14_data_race)."
  },
  {
   "property": "C15",
   "status": "partial",
   "theorems": [
    "Verif.Minimizer.C15_terminates",
    "Verif.Minimizer.C15_terminates_always",
    "Verif.Minimizer.C15_early_answers",
    "Verif.Minimizer.C15_success_partial",
    "Verif.Minimizer.C15_failures",
    "Verif.Minimizer.C15_success_without_minimum",
    "Verif.Minimizer.C15_status_codes"
   ],
   "note": "Termination and the temperature claim hold; the claim about the minimum fails when nothing broken is found during the bisection (C15_success_without_minimum). Temperatures in an ordered field, no rounding."
  },
  {
   "property": "C16",
   "status": "partial",
   "theorems": [
    "Verif.Tracer.C16_potential_unchanged",
    "Verif.Tracer.C16_connected",
    "Verif.Tracer.C16_all_flips_considered",
    "Verif.Tracer.C16_principal_quadrant_partial",
    "Verif.Tracer.C16_same_representative_partial",
    "Verif.Tracer.C16_representative_not_unique"
   ],
   "note": "Refuted for general groups (C16_representative_not_unique); proved: the potential and all absolute values are kept, all flips are searched, and the representative is unique and in the principal quadrant for groups of disjoint block flips."
  },
  {
   "property": "C17",
   "status": "partial",
   "theorems": [
    "Verif.Tracer.C17_length_mismatch",
    "Verif.Tracer.C17_meaning",
    "Verif.Tracer.C17_flag_inverted",
    "Verif.Tracer.C17_scalar"
   ],
   "note": "Refuted: the flag allow_for_sign_flip is inverted for all inputs (C17_flag_inverted). The actual meaning is proved (C17_meaning)."
  },
  {
   "property": "C18",
   "status": "partial",
   "theorems": [
    "Verif.Tracer.C18_grid",
    "Verif.Tracer.C18_grid_monotone",
    "Verif.Tracer.C18_grid_edge",
    "Verif.Tracer.C18_line",
    "Verif.Tracer.C18_line_not_npoints_long"
   ],
   "note": "Proved for both grids; the documented number of points of the line grid is refuted (one more than documented)."
  },
  {
   "property": "C19",
   "status": "partial",
   "theorems": [
    "Verif.Tracer.C19_unchanged",
    "Verif.Tracer.C19_endpoints_partial",
    "Verif.Tracer.C19_straight_line",
    "Verif.Tracer.C19_misses_false_vacuum"
   ],
   "note": "The false vacuum is reached only if new vacua agree where the old ones do; refuted otherwise (C19_misses_false_vacuum)."
  },
  {
   "property": "C20",
   "status": "partial",
   "theorems": [
    "Verif.Tracer.C20_add_ordered",
    "Verif.Tracer.C20_ordered",
    "Verif.Tracer.C20_stored",
    "Verif.Tracer.C20_add_range",
    "Verif.Tracer.C20_constructed",
    "Verif.Tracer.C20_range_needs_constructor",
    "Verif.Tracer.C20_start_checked",
    "Verif.Tracer.C20_directions"
   ],
   "note": "Order, uniqueness and content hold after any additions; the recorded range is exact for every constructed phase but not after Add alone (C20_range_needs_constructor)."
  },
  {
   "property": "C21",
   "status": "partial",
   "theorems": [
    "Verif.Tracer.C21_result",
    "Verif.Tracer.C21_status",
    "Verif.Tracer.C21_degenerate",
    "Verif.Tracer.C21_terminates",
    "Verif.Tracer.C21_terminates_from_zero",
    "Verif.Tracer.C21_touching_phases_never_finish",
    "Verif.Tracer.C21_crossing_at_end_fails"
   ],
   "note": "Soundness of every status, accuracy and termination for windows of positive width at positive temperature (and from zero under a sign condition). False for phases touching at a single temperature: the plotting loop never ends (C21_touching_phases_never_finish). No rounding."
  },
  {
   "property": "C22",
   "status": "proved",
   "theorems": [
    "Verif.Tracer.C22_pairs"
   ],
   "note": "All lists of phases."
  },
  {
   "property": "C23",
   "status": "partial",
   "theorems": [
    "Verif.Transition.C23_step",
    "Verif.Transition.C23_text_length",
    "Verif.Transition.C23_history",
    "Verif.Transition.C23_pairs_ordered",
    "Verif.Transition.C23_endless",
    "Verif.Transition.C23_patched_phase_id",
    "Verif.Transition.C23_endless_patched"
   ],
   "note": "Proved when every pair leads to a phase with a higher id (C23_pairs_ordered: numbered phases). False when a patched phase, which keeps id 0, is reached from phase 0: C23_endless_patched. Completion temperatures are assumed to be > -1, the sentinel of the code."
  },
  {
   "property": "C24",
   "status": "proved",
   "theorems": [
    "Verif.Transition.C24_one_entry_per_pair",
    "Verif.Transition.C24_vev_lengths",
    "Verif.Transition.C24_gw"
   ],
   "note": "All outcomes of all stages and any number of pairs. That Phase::Get returns points with nVEV entries is a hypothesis of C24_vev_lengths."
  },
  {
   "property": "C25",
   "status": "proved",
   "theorems": [
    "Verif.Bounce.C25_calculation",
    "Verif.Bounce.C25_list",
    "Verif.Bounce.C25_success_iff"
   ],
   "note": "All results of the action calculation, NaN included; new solutions keep a minimal distance, lie in the window and come from the nearest known solution."
  },
  {
   "property": "C26",
   "status": "proved",
   "theorems": [
    "Verif.Bounce.C26_nucleation",
    "Verif.Bounce.C26_nucleation_iff",
    "Verif.Bounce.C26_approximate",
    "Verif.Bounce.C26_approximate_iff"
   ],
   "note": "For solutions whose temperatures are positive; completeness for solutions within a factor 100000 (the bisection has 50 rounds)."
  },
  {
   "property": "C27",
   "status": "partial",
   "theorems": [
    "Verif.Bounce.C27_goal",
    "Verif.Bounce.C27_search_ends",
    "Verif.Bounce.C27_search_result",
    "Verif.Bounce.C27_exact_hit_fails",
    "Verif.Bounce.C27_slow_fails",
    "Verif.Bounce.C27_ends",
    "Verif.Bounce.C27_status_partial",
    "Verif.Bounce.C27_success_with_marker",
    "Verif.Bounce.C27_transition_temp"
   ],
   "note": "The search always ends and returns the marker -1 or a valid temperature. False: an exact hit of the goal is reported as failure (C27_exact_hit_fails), slowly varying integrals never succeed (C27_slow_fails), and status success can come with the marker -1 (C27_success_with_marker). The integrals are parameters."
  },
  {
   "property": "C28",
   "status": "partial",
   "theorems": [
    "Verif.Bounce.C28_not_set",
    "Verif.Bounce.C28_given_velocity",
    "Verif.Bounce.C28_ends_partial",
    "Verif.Bounce.C28_endless"
   ],
   "note": "Ends if the strength at the default velocity is a non-zero number; endless recursion if the strength is zero or NaN everywhere (C28_endless). Percolation temperature and strength as functions of the velocity are parameters."
  },
  {
   "property": "C29",
   "status": "partial",
   "theorems": [
    "Verif.GW.C29_after_peaks_partial",
    "Verif.GW.C29_first_call",
    "Verif.GW.C29_zero_turbulence"
   ],
   "note": "Proved for objects whose peaks were calculated first, as the transition tracer does. False on a fresh object: the first amplitude is NaN (C29_first_call), and stays NaN without turbulence (C29_zero_turbulence). Infinity and zero products are represented as NaN by hand."
  },
  {
   "property": "C30",
   "status": "proved",
   "theorems": [
    "Verif.Potential.C30_value",
    "Verif.Potential.C30_counterterm_value",
    "Verif.Potential.C30_other_modes",
    "Verif.Potential.C30_gradient",
    "Verif.Potential.C30_counterterm_gradient",
    "Verif.Potential.C30_field_derivative"
   ],
   "note": "Doubles are an arbitrary field of characteristic zero; derivatives over the reals."
  },
  {
   "property": "C31",
   "status": "proved",
   "theorems": [
    "Verif.Potential.C31_symmetric",
    "Verif.Potential.C31_hessian",
    "Verif.Potential.C31_hessian_counterterm",
    "Verif.Potential.C31_derivative_modes"
   ],
   "note": "Doubles are an arbitrary field; the eigenvalue routine is outside the model."
  },
  {
   "property": "C32",
   "status": "proved",
   "theorems": [
    "Verif.Potential.C32_sym2",
    "Verif.Potential.C32_sym3",
    "Verif.Potential.C32_sym4",
    "Verif.Potential.C32_symmetric_tensors"
   ],
   "note": "sym2Dim/sym3Dim/sym4Dim proved to symmetrise for every size; stated for the tensors as total functions of the indices."
  },
  {
   "property": "C33",
   "status": "partial",
   "theorems": [
    "Verif.Models.C33_embedding",
    "Verif.Models.C33_reads_past_the_end",
    "Verif.Models.C33_too_few_values",
    "Verif.Models.C33_models_partial",
    "Verif.Models.C33_sm_reads_past_the_end",
    "Verif.Models.C33_not_for_every_model"
   ],
   "note": "Proved for every model except SM, whose nVEV and VevOrder disagree so that the code reads past the end (C33_sm_reads_past_the_end)."
  },
  {
   "property": "C34",
   "status": "partial",
   "theorems": [
    "Verif.Potential.C34_orders",
    "Verif.Potential.C34_orders_all_fields",
    "Verif.Potential.C34_bad_length",
    "Verif.Potential.C34_order_ignored",
    "Verif.Potential.C34_both_shapes_partial",
    "Verif.Potential.C34_order_dropped"
   ],
   "note": "False for short vectors in combination with derivative modes (C34_order_dropped). Proved: orders of the loop expansion for all vectors of the right length."
  },
  {
   "property": "C35",
   "status": "partial",
   "theorems": [
    "Verif.Potential.C35_coleman_weinberg",
    "Verif.Potential.C35_below_threshold",
    "Verif.Potential.C35_first_field_partial",
    "Verif.Potential.C35_zero_temperature",
    "Verif.Potential.C35_thermal_part_missing",
    "Verif.Potential.C35_fails",
    "Verif.Potential.C35_negative_mass",
    "Verif.Potential.C35_temperature"
   ],
   "note": "True for the first field and at zero temperature; false for further fields (C35_fails) and for negative squared masses (C35_negative_mass). The thermal functions are parameters with their derivative property as hypothesis."
  },
  {
   "property": "C36",
   "status": "partial",
   "theorems": [
    "Verif.Potential.C36_two_value",
    "Verif.Potential.C36_two_limit",
    "Verif.Potential.C36_two_symmetric_partial",
    "Verif.Potential.C36_two_asymmetric",
    "Verif.Potential.C36_three_symmetric_partial",
    "Verif.Potential.C36_three_value",
    "Verif.Potential.C36_three_pair",
    "Verif.Potential.C36_three_equal",
    "Verif.Potential.C36_three_zero",
    "Verif.Potential.C36_three_two_zero",
    "Verif.Potential.C36_three_asymmetric",
    "Verif.Potential.C36_three_negative",
    "Verif.Potential.C36_four_symmetric_partial",
    "Verif.Potential.C36_four_value",
    "Verif.Potential.C36_four_pair",
    "Verif.Potential.C36_four_pairs",
    "Verif.Potential.C36_four_triple",
    "Verif.Potential.C36_four_equal",
    "Verif.Potential.C36_four_single_zero",
    "Verif.Potential.C36_four_single_zero_fails",
    "Verif.Potential.C36_four_two_zero",
    "Verif.Potential.C36_four_two_zero_equal",
    "Verif.Potential.C36_four_three_zero"
   ],
   "note": "Symmetric for all masses the thresholds of the code can tell apart (\u2026_symmetric_partial) with the values of the continuous loop functions; below the thresholds fbase and fbaseTri are asymmetric (C36_two_asymmetric, C36_three_asymmetric), and fbaseFour returns 0 for one vanishing and three different masses (C36_four_single_zero_fails). Reals without rounding."
  },
  {
   "property": "C37",
   "status": "partial",
   "theorems": [
    "Verif.Potential.C37_close_partial",
    "Verif.Potential.C37_nan_skipped",
    "Verif.Potential.C37_nan_accepted"
   ],
   "note": "A NaN vacuum is accepted (C37_nan_accepted)."
  },
  {
   "property": "C38",
   "status": "partial",
   "theorems": [
    "Verif.Potential.C38_value",
    "Verif.Potential.C38_zero_or_large",
    "Verif.Potential.C38_short_vector",
    "Verif.Potential.C38_set_zero_partial",
    "Verif.Potential.C38_then_zero",
    "Verif.Potential.C38_sm_reads_past_the_end",
    "Verif.Potential.C38_models_partial",
    "Verif.Potential.C38_singlet_first_fails"
   ],
   "note": "False for the SM (reads past the end of VevOrder) and for orders with a singlet before a doublet (C38_singlet_first_fails)."
  },
  {
   "property": "C39",
   "status": "proved",
   "theorems": [
    "Verif.Minimizer.C39_transform",
    "Verif.Minimizer.C39_wrong_length",
    "Verif.Minimizer.C39_index_too_large",
    "Verif.Minimizer.C39_base_point",
    "Verif.Minimizer.C39_same_minima",
    "Verif.Minimizer.C39_minimize_plane",
    "Verif.Minimizer.C39_no_minimizer",
    "Verif.Minimizer.C39_nan_first"
   ],
   "note": "Doubles are an arbitrary ordered field; what the external minimisers return is a parameter (coordinates of the right number, NLopt's value the potential at its point). A NaN of the first minimiser is kept (C39_nan_first)."
  },
  {
   "property": "C40",
   "status": "partial",
   "theorems": [
    "Verif.Programs.C40_integers",
    "Verif.Programs.C40_blanks",
    "Verif.Programs.C40_switch",
    "Verif.Programs.C40_settings",
    "Verif.Programs.C40_read",
    "Verif.Programs.C40_minimizers",
    "Verif.Programs.C40_minimizers_missing",
    "Verif.Programs.C40_temps_accepts_partial",
    "Verif.Programs.C40_temps_keep_ewsr",
    "Verif.Programs.C40_gw_accepts",
    "Verif.Programs.C40_gw_only",
    "Verif.Programs.C40_gw_negative_lines",
    "Verif.Programs.C40_unknown_text"
   ],
   "note": "Exact characterisation of what is accepted. False for keep_ewsr in CalcTemps (C40_temps_keep_ewsr); CalcGW also accepts negative line numbers (C40_gw_negative_lines). std::stod is a parameter."
  },
  {
   "property": "C41",
   "status": "proved",
   "theorems": [
    "Verif.Utility.C41_nabla_length",
    "Verif.Utility.C41_nabla_exact",
    "Verif.Utility.C41_nabla_fifth",
    "Verif.Utility.C41_hessian_shape",
    "Verif.Utility.C41_hessian_symmetric",
    "Verif.Utility.C41_hessian_diagonal",
    "Verif.Utility.C41_hessian_offdiagonal",
    "Verif.Utility.C41_nabla_deriv",
    "Verif.Utility.C41_nabla_error"
   ],
   "note": "Fields of characteristic zero without rounding; in addition an error bound for every five times differentiable function (C41_nabla_error)."
  },
  {
   "property": "C42",
   "status": "partial",
   "theorems": [
    "Verif.Potential.C42_enumeration",
    "Verif.Potential.C42_reported",
    "Verif.Potential.C42_once",
    "Verif.Potential.C42_symmetries_found",
    "Verif.Potential.C42_accidental",
    "Verif.Potential.C42_nan"
   ],
   "note": "Every pattern is tried exactly once and every true symmetry is found; the converse fails because of the tolerance at the single test point (C42_accidental). The potential is a parameter."
  },
  {
   "property": "C43",
   "status": "proved",
   "theorems": [
    "Verif.Tracer.C43_outcomes",
    "Verif.Tracer.C43_check",
    "Verif.Tracer.C43_filter",
    "Verif.Tracer.C43_names_distinct",
    "Verif.Tracer.C43_names"
   ],
   "note": "Whole tables; one of the printed names is misspelt in the source (ew_syum_non_res) but distinct."
  },
  {
   "property": "C44",
   "status": "partial",
   "theorems": [
    "Verif.Potential.C44_init",
    "Verif.Potential.C44_history",
    "Verif.Potential.C44_history_triple",
    "Verif.Potential.C44_triple",
    "Verif.Potential.C44_line",
    "Verif.Potential.C44_reset_scale",
    "Verif.Potential.C44_reset_scale_uninitialised",
    "Verif.Potential.C44_triple_stale",
    "Verif.Potential.C44_triple_scale",
    "Verif.Potential.C44_set_all_stale",
    "Verif.Potential.C44_set_all_fresh",
    "Verif.Potential.Obj.C44_set_gen"
   ],
   "note": "initModel makes everything independent of the history; resetScale updates the counterterms. Not so for set_All on a used object (C44_set_all_stale) and the cached triple couplings of the C2HDM after resetScale (C44_triple_stale). What a concrete model calculates is a parameter."
  },
  {
   "property": "C45",
   "status": "partial",
   "theorems": [
    "Verif.Minimizer.C45_box_partial",
    "Verif.Minimizer.C45_box_collapses",
    "Verif.Minimizer.C45_box_scales"
   ],
   "note": "False of the code for tree-level VEVs below -300 (C45_box_collapses)."
  },
  {
   "property": "C46",
   "status": "partial",
   "theorems": [
    "Verif.Minimizer.C46_tracks",
    "Verif.Minimizer.C46_ends_partial",
    "Verif.Minimizer.C46_overshoots",
    "Verif.Minimizer.C46_wrong_direction",
    "Verif.Minimizer.C46_next_minima"
   ],
   "note": "The tracks are characterised exactly; the scan overshoots the final temperature (C46_overshoots) and never ends for a step in the wrong direction (C46_wrong_direction)."
  },
  {
   "property": "C47",
   "status": "partial",
   "theorems": [
    "Verif.Tracer.C47_potential_unchanged_partial",
    "Verif.Tracer.C47_norm",
    "Verif.Tracer.C47_rotation_found",
    "Verif.Tracer.C47_exchange_mistaken_for_flat"
   ],
   "note": "Refuted: an exchange symmetry is taken for a flat direction (C47_exchange_mistaken_for_flat). Proved for rotation-invariant planes."
  },
  {
   "property": "C48",
   "status": "partial",
   "theorems": [
    "Verif.Tracer.C48_seed_has_wrong_sign",
    "Verif.Tracer.C48_status_unaffected"
   ],
   "note": "Refuted for every non-zero gradient (C48_seed_has_wrong_sign); the status itself is unaffected."
  },
  {
   "property": "C49",
   "status": "partial",
   "theorems": [
    "Verif.Tracer.C49_get",
    "Verif.Tracer.C49_get_keeps_invariants",
    "Verif.Tracer.C49_get_again",
    "Verif.Tracer.C49_get_range_partial",
    "Verif.Tracer.C49_get_extends_range"
   ],
   "note": "Found minimum is at the requested temperature when present; order kept. False that a look-up never changes the range (C49_get_extends_range)."
  },
  {
   "property": "C50",
   "status": "partial",
   "theorems": [
    "Verif.Tracer.C50_never_ends",
    "Verif.Tracer.C50_leaves_the_interval",
    "Verif.Tracer.C50_covers_interval",
    "Verif.Tracer.C50_ends_partial",
    "Verif.Tracer.C50_zero_eigenvalue",
    "Verif.Tracer.C50_zero_accuracy",
    "Verif.Tracer.C50_zero_ends",
    "Verif.Tracer.C50_locate",
    "Verif.Tracer.C50_followed",
    "Verif.Tracer.C50_first",
    "Verif.Tracer.C50_global_end",
    "Verif.Tracer.C50_not_beyond"
   ],
   "note": "What is listed, the first temperature, the final bound, coverage for a persistent phase, the end of the global-minimum range, the local search and the search for the vanishing eigenvalue are proved. False of the code: tracking ends only if the search at the final temperature never fails (C50_never_ends), and temperatures can leave the interval (C50_leaves_the_interval)."
  },
  {
   "property": "C51",
   "status": "proved",
   "theorems": [
    "Verif.Tracer.C51_registered",
    "Verif.Tracer.C51_merge",
    "Verif.Tracer.C51_small",
    "Verif.Tracer.C51_found"
   ],
   "note": "The identification criterion is stated for phases that already hold the compared temperatures; the invariants hold for every tracker."
  },
  {
   "property": "C52",
   "status": "partial",
   "theorems": [
    "Verif.Tracer.C52_ends",
    "Verif.Tracer.C52_patched",
    "Verif.Tracer.C52_endless_fails",
    "Verif.Tracer.C52_count",
    "Verif.Tracer.C52_all_intervals",
    "Verif.Tracer.C52_status",
    "Verif.Tracer.C52_covered_partial",
    "Verif.Tracer.C52_middle",
    "Verif.Tracer.C52_outer_gap",
    "Verif.Tracer.C52_touching"
   ],
   "note": "Counts, coexistence and gaps between phases are exact. The patching of gaps ends (C52_ends), because every phase added for a gap exists at its middle (C52_patched); a tracer without this property would be asked without end (C52_endless_fails). False for gaps at the outer ends of the requested range (C52_outer_gap); touching phases are not reported (C52_touching)."
  },
  {
   "property": "C53",
   "status": "partial",
   "theorems": [
    "Verif.Tracer.C53_tracer_ends_partial",
    "Verif.Tracer.C53_tracer_dropped_phase",
    "Verif.Tracer.C53_tracer_zero_step",
    "Verif.Tracer.C53_overlap",
    "Verif.Tracer.C53_glob_overlap",
    "Verif.Tracer.C53_glob_overlap_trivial",
    "Verif.Tracer.C53_glob_overlap_nested",
    "Verif.Tracer.C53_mode0",
    "Verif.Tracer.C53_mode1_success",
    "Verif.Tracer.C53_mode1_connected",
    "Verif.Tracer.C53_mode1_endless",
    "Verif.Tracer.C53_mode1_throws",
    "Verif.Tracer.C53_mode1_phases",
    "Verif.Tracer.C53_mode1_gap",
    "Verif.Tracer.C53_mode2_uninitialised",
    "Verif.Tracer.C53_mode2_start",
    "Verif.Tracer.C53_mode2_low_side",
    "Verif.Tracer.C53_mode2_endless",
    "Verif.Tracer.C53_mode2_ends_partial",
    "Verif.Tracer.C53_finish"
   ],
   "note": "Termination is false of the default mode (C53_tracer_dropped_phase, C53_tracer_zero_step), mode 1 (C53_mode1_endless) and mode 2 (C53_mode2_endless), and proved under progress conditions for the default mode and mode 2. Undefined behaviour: nested phases (C53_glob_overlap_nested), failed start in mode 2 (C53_mode2_uninitialised). Status, order and numbering are proved."
  },
  {
   "property": "C54",
   "status": "proved",
   "theorems": [
    "Verif.Transition.C54_unstable",
    "Verif.Transition.C54_filtered",
    "Verif.Transition.C54_traced",
    "Verif.Transition.C54_no_pairs"
   ],
   "note": "All combinations of the two checks and their outcomes."
  },
  {
   "property": "C55",
   "status": "partial",
   "theorems": [
    "Verif.Bounce.C55_first_element",
    "Verif.Bounce.C55_considered",
    "Verif.Bounce.C55_target_partial",
    "Verif.Bounce.C55_not_nearest",
    "Verif.Bounce.C55_identity"
   ],
   "note": "False of the code: the first symmetry of the list is always taken (C55_first_element, C55_not_nearest). Proved: the target is a copy of the true vacuum."
  },
  {
   "property": "C56",
   "status": "partial",
   "theorems": [
    "Verif.Bounce.C56_initial_scan",
    "Verif.Bounce.C56_construction_ends",
    "Verif.Bounce.C56_endless"
   ],
   "note": "Proved for windows of positive width; for a window of width zero the initial scan does not end (C56_endless)."
  },
  {
   "property": "C57",
   "status": "partial",
   "theorems": [
    "Verif.Bounce.C57_rate",
    "Verif.Bounce.C57_larger_action",
    "Verif.Bounce.C57_negative_action",
    "Verif.Bounce.C57_hubble",
    "Verif.Bounce.C57_friedmann",
    "Verif.Bounce.C57_time_scale",
    "Verif.Bounce.C57_time_scale_stale",
    "Verif.Bounce.C57_action_spline",
    "Verif.Bounce.C57_time_scale_slope",
    "Verif.Bounce.C57_time_scale_cubic",
    "Verif.Bounce.C57_time_scale_sign"
   ],
   "note": "False: a negative interpolated action gives the largest rate of all (C57_negative_action); the inverse time scale is not recalculated (C57_time_scale_stale); the rate dereferences an empty list. Real numbers without rounding."
  },
  {
   "property": "C58",
   "status": "partial",
   "theorems": [
    "Verif.GW.C58_peaks",
    "Verif.GW.C58_sensitivity",
    "Verif.GW.C58_sound_peak",
    "Verif.GW.C58_turbulence_power",
    "Verif.GW.C58_hubble_units",
    "Verif.GW.C58_snr"
   ],
   "note": "False for turbulence: integer division makes the power 3 (C58_turbulence_power). C58_hubble_units records that the Hubble rate in GeV is combined with frequencies in Hz. Real numbers without rounding."
  },
  {
   "property": "C59",
   "status": "partial",
   "theorems": [
    "Verif.Bounce.C59_request_ignored",
    "Verif.Bounce.C59_inconsistent",
    "Verif.Bounce.C59_default_partial"
   ],
   "note": "False of the code: the reported velocity is always 0.95 and so is the velocity behind the reported temperatures (C59_request_ignored, C59_inconsistent). Proved for the default velocity."
  },
  {
   "property": "C60",
   "status": "proved",
   "theorems": [
    "Verif.GW.C60_turbulence_frequency",
    "Verif.GW.C60_efficiency",
    "Verif.GW.C60_kappa_joins",
    "Verif.GW.C60_kappa_pos",
    "Verif.GW.C60_fractions",
    "Verif.GW.C60_sound_amplitude"
   ],
   "note": "For a velocity of sound below the Chapman-Jouguet velocity. C60_kappa_joins states that neighbouring formulas agree where they meet."
  },
  {
   "property": "C61",
   "status": "partial",
   "theorems": [
    "Verif.GW.C61_construct",
    "Verif.GW.C61_snr_overwrites"
   ],
   "note": "GetSNR overwrites a failure with success (C61_snr_overwrites)."
  },
  {
   "property": "C62",
   "status": "partial",
   "theorems": [
    "Verif.Potential.C62_scalars_independent",
    "Verif.Potential.C62_temperature_fails",
    "Verif.Potential.C62_field_mode",
    "Verif.Potential.C62_field_fails",
    "Verif.Potential.C62_fermions_partial",
    "Verif.Potential.C62_gauge_term_missing"
   ],
   "note": "False: the scalar contribution to the temperature derivative is computed from the derivative of the mass matrix and is the same in every vacuum (C62_scalars_independent, C62_temperature_fails), likewise for the fields (C62_field_fails); the thermal mass term of gauge bosons is missing (C62_gauge_term_missing). Proved for fermions. The eigenvalue routine is a parameter."
  },
  {
   "property": "C63",
   "status": "partial",
   "theorems": [
    "Verif.Thermal.C63_fermion_interpolated",
    "Verif.Thermal.C63_boson_interpolated",
    "Verif.Thermal.C63_boson_negative",
    "Verif.Thermal.C63_boson_high_fails",
    "Verif.Thermal.C63_fermion_high_fails",
    "Verif.Thermal.C63_boson_jump",
    "Verif.Thermal.C63_nan",
    "Verif.Thermal.C63_other_modes",
    "Verif.Thermal.C63_boson_integrand",
    "Verif.Thermal.C63_fermion_integrand",
    "Verif.Thermal.C63_integrands_positive",
    "Verif.Thermal.C63_coefficient",
    "Verif.Thermal.C63_coefficient_negative",
    "Verif.Thermal.C63_fermion_low",
    "Verif.Thermal.C63_boson_low",
    "Verif.Thermal.C63_low_at_zero",
    "Verif.Thermal.C63_high_fails",
    "Verif.Thermal.C63_fermion_value",
    "Verif.Thermal.C63_boson_value",
    "Verif.Thermal.C63_large_values",
    "Verif.Thermal.C63_nan_modes"
   ],
   "note": "Proved for the expansions for small arguments (also at zero), the integrands and the coefficient store. False for large arguments: the exponent is an integer division, so mode 1 is never the derivative above the boson matching point (C63_high_fails); the boson function jumps by about 3.5e-6 at zero (C63_boson_jump) and returns 0 for NaN (C63_nan). The zeta function and the spline are parameters; the numerical integration is not modelled."
  },
  {
   "property": "C64",
   "status": "partial",
   "theorems": [
    "Verif.Spline.C64_make_monotonic",
    "Verif.Spline.C64_make_monotonic_interpolates",
    "Verif.Spline.C64_interpolates",
    "Verif.Spline.C64_linear",
    "Verif.Spline.C64_derivative",
    "Verif.Spline.C64_second_derivative",
    "Verif.Spline.C64_higher_derivatives",
    "Verif.Spline.C64_boundary_right",
    "Verif.Spline.C64_boundary_left_partial",
    "Verif.Spline.C64_boundary_left_dropped",
    "Verif.Spline.C64_boundary_left_fails",
    "Verif.Spline.C64_reproduces",
    "Verif.Spline.C64_hermite_slopes",
    "Verif.Spline.C64_hermite_boundary",
    "Verif.Spline.C64_extrapolation",
    "Verif.Spline.C64_set_boundary",
    "Verif.Spline.C64_hermite_curvature",
    "Verif.Spline.C64_make_monotonic_keeps"
   ],
   "note": "Everything is proved in exact arithmetic except the condition at the left end together with not-a-knot at the right end: the code then clears element 0 instead of element n-1 of the right hand side, so the left value is dropped (C64_boundary_left_dropped, C64_boundary_left_fails). At an end with a given slope the extrapolation is a straight line, so the second derivative jumps there (excluded in C64_second_derivative). spline::solve is not modelled."
  },
  {
   "property": "C65",
   "status": "partial",
   "theorems": [
    "Verif.Spline.C65_points",
    "Verif.Spline.C65_ends",
    "Verif.Spline.C65_dl_norm",
    "Verif.Spline.C65_straight",
    "Verif.Spline.C65_length_fails",
    "Verif.Spline.C65_add_outside",
    "Verif.Spline.C65_add_inside_fails",
    "Verif.Spline.C65_second"
   ],
   "note": "Proved: ends of the path, norm of the velocity, everything for straight paths. False: for curved paths the length is not the integral of the speed because the integration limits are taken from list_l instead of list_x (C65_length_fails), and add_point reads behind the end of vev_position for every position inside the path (C65_add_inside_fails). The rounding of linL and L to float is a parameter."
  },
  {
   "property": "C66",
   "status": "partial",
   "theorems": [
    "Verif.Action.C66_nChoosek",
    "Verif.Action.C66_nChoosek_small",
    "Verif.Action.C66_nChoosek_overflow",
    "Verif.Action.C66_bernstein",
    "Verif.Action.C66_partition_of_unity",
    "Verif.Action.C66_derivatives",
    "Verif.Action.C66_ends",
    "Verif.Action.C66_gram",
    "Verif.Action.C66_projection"
   ],
   "note": "Proved for degrees up to 29 (the program uses 10). Binomial coefficients overflow int from n = 31 (C66_nChoosek_overflow)."
  },
  {
   "property": "C67",
   "status": "partial",
   "theorems": [
    "Verif.Action.C67_equation",
    "Verif.Action.C67_order",
    "Verif.Action.C67_order_sharp",
    "Verif.Action.C67_step",
    "Verif.Action.C67_quadrature",
    "Verif.Action.C67_exponential",
    "Verif.Action.C67_constant_force",
    "Verif.Action.C67_float_step_fails",
    "Verif.Action.C67_centre_fails"
   ],
   "note": "Order conditions, exactness for polynomials, exponential series and constant force are proved. The general theorem that order conditions imply the order of the error is not in Mathlib and not proved. False: radius and step size are passed as float, so the state advances by another step than the radius (C67_float_step_fails); the acceleration at the centre lacks the factor 1/(1+alpha) (C67_centre_fails). Constants are exact rationals in the model."
  },
  {
   "property": "C68",
   "status": "partial",
   "theorems": [
    "Verif.Action.C68_bessel",
    "Verif.Action.C68_linear_4d",
    "Verif.Action.C68_velocity_4d",
    "Verif.Action.C68_minimum_4d",
    "Verif.Action.C68_centre_4d",
    "Verif.Action.C68_fallback_values",
    "Verif.Action.C68_numerical_velocity",
    "Verif.Action.C68_minimum_3d",
    "Verif.Action.C68_linear_3d",
    "Verif.Action.C68_search",
    "Verif.Action.C68_search_fails",
    "Verif.Action.C68_start_minimum",
    "Verif.Action.C68_start_linear",
    "Verif.Action.C68_start_linear_neg",
    "Verif.Action.C68_recursion_ends",
    "Verif.Action.C68_fallback_fails",
    "Verif.Action.C68_logistic",
    "Verif.Action.C68_mixture_partial",
    "Verif.Action.C68_mixture_fails",
    "Verif.Action.C68_mixture_else"
   ],
   "note": "Proved: formulas and velocities for both signs of the second derivative in three dimensions, the series in four dimensions with their remainder, radius within 1e-10 if it lies within the scanned radii, end of the recursion, mixture for a minimum below the threshold. False: a radius behind the scanned ones is not noticed (C68_search_fails); the fallback, taken also for vanishing second derivative, lacks the factor 1/(1+alpha) (C68_fallback_fails); the mixture is the wrong way round when the position of the minimum exceeds the threshold (C68_mixture_fails). The velocity in four dimensions for negative second derivative is a difference quotient in the code and only modelled."
  },
  {
   "property": "C69",
   "status": "partial",
   "theorems": [
    "Verif.Action.C69_minimum_search",
    "Verif.Action.C69_flags",
    "Verif.Action.C69_first_flag",
    "Verif.Action.C69_length",
    "Verif.Action.C69_points",
    "Verif.Action.C69_classes",
    "Verif.Action.C69_no_lost",
    "Verif.Action.C69_nan_fails",
    "Verif.Action.C69_minimum",
    "Verif.Action.C69_threshold_fails",
    "Verif.Action.C69_upper_limit",
    "Verif.Action.C69_upper_limit_fails",
    "Verif.Action.C69_release_point",
    "Verif.Action.C69_never_overshoots_fails",
    "Verif.Action.C69_failures"
   ],
   "note": "Proved: number of points and classification of trajectories, the true minimum, the upper limit, end of the search and position of the release point for separating trajectories (linear and logarithmic search). False: a trajectory that becomes NaN counts as overshooting (C69_nan_fails), the threshold of the analytic start is computed with the stale or uninitialised position of the minimum (C69_threshold_fails), the gradient in the scan for the upper limit is taken at another point than the potential (C69_upper_limit_fails), a search that never overshoots ends as converged (C69_never_overshoots_fails)."
  },
  {
   "property": "C70",
   "status": "partial",
   "theorems": [
    "Verif.Action.C70_force_normal",
    "Verif.Action.C70_equation_of_motion",
    "Verif.Action.C70_pythagoras",
    "Verif.Action.C70_check",
    "Verif.Action.C70_check_fails",
    "Verif.Action.C70_several",
    "Verif.Action.C70_reported",
    "Verif.Action.C70_single",
    "Verif.Action.C70_failure",
    "Verif.Action.C70_reasons",
    "Verif.Action.C70_failed_object",
    "Verif.Action.C70_no_success",
    "Verif.Action.C70_never_overshot_fails",
    "Verif.Action.C70_stale_spline_fails",
    "Verif.Action.C70_failed_unsolved"
   ],
   "note": "Proved: decomposition of the equation of motion into normal force and one-dimensional equation, the test points of the check, soundness and completeness of the reported bounces for several fields, the single-field case, the value -1 on failure and the reasons. False: paths with NaN forces or backward trajectories are accepted and the check of a trajectory of zero length does not end (C70_check_fails); an action is reported without overshooting for one field or if the first path is accepted (C70_never_overshot_fails); for one field every reason is overwritten (C70_reasons); the check uses the spline of the trajectory on the path before (C70_stale_spline_fails)."
  },
  {
   "property": "C71",
   "status": "partial",
   "theorems": [
    "Verif.Action.C71_knots",
    "Verif.Action.C71_knots_fails",
    "Verif.Action.C71_pass",
    "Verif.Action.C71_step_rule",
    "Verif.Action.C71_reversed",
    "Verif.Action.C71_displacement",
    "Verif.Action.C71_passes",
    "Verif.Action.C71_best",
    "Verif.Action.C71_step",
    "Verif.Action.C71_no_progress",
    "Verif.Action.C71_end_fixed",
    "Verif.Action.C71_moved_fails",
    "Verif.Action.C71_relative_error"
   ],
   "note": "Proved as stated except that the returned path is the path with the least error moved once more by its forces, whose own error is not known (C71_moved_fails), and that backward trajectories lead to an access past the end (C71_knots_fails). The smoothing with Bernstein polynomials and the forces are parameters."
  },
  {
   "property": "C72",
   "status": "partial",
   "theorems": [
    "Verif.Action.C72_sum",
    "Verif.Action.C72_parts",
    "Verif.Action.C72_endless_fails",
    "Verif.Action.C72_integral_3d",
    "Verif.Action.C72_integral_4d",
    "Verif.Action.C72_simpson_fails",
    "Verif.Action.C72_virial_derivative",
    "Verif.Action.C72_virial",
    "Verif.Action.C72_virial_integral"
   ],
   "note": "Proved: the sum computed, the error bound of first order in both dimensions, the virial theorem. The integral reaches one cell beyond the last radius; the volume weight is taken at the lower end of each cell, so that the order of Simpson's rule is lost (C72_simpson_fails); the loop does not end for a last radius of zero (C72_endless_fails)."
  },
  {
   "property": "C73",
   "status": "proved",
   "theorems": [
    "Verif.Bounce.C73_refined_twice",
    "Verif.Bounce.C73_positive",
    "Verif.Bounce.C73_start_path",
    "Verif.Bounce.C73_early_end",
    "Verif.Bounce.C73_line",
    "Verif.Bounce.C73_high",
    "Verif.Bounce.C73_low",
    "Verif.Bounce.C73_scan_end",
    "Verif.Bounce.C73_ends",
    "Verif.Bounce.C73_between"
   ],
   "note": "The rule of each scan is characterised for every pair of outermost solutions; the end of a scan is one of the reasons listed in C73_scan_end. NaN actions of the initial scan count as a found path (C73_start_path)."
  },
  {
   "property": "C74",
   "status": "partial",
   "theorems": [
    "Verif.Lagrangian.C2HDM.C74_c2hdm_potential",
    "Verif.Lagrangian.C2HDM.C74_c2hdm_counterterms",
    "Verif.Lagrangian.C2HDM.C74_c2hdm_simplified",
    "Verif.Lagrangian.C2HDM.C74_c2hdm_simplified_fails",
    "Verif.Lagrangian.CPintheDark.C74_cpinthedark_potential",
    "Verif.Lagrangian.CPintheDark.C74_cpinthedark_quartic_fails",
    "Verif.Lagrangian.CPintheDark.C74_cpinthedark_counterterms",
    "Verif.Lagrangian.CPintheDark.C74_cpinthedark_simplified",
    "Verif.Lagrangian.CPintheDark.C74_cpinthedark_simplified_fails",
    "Verif.Lagrangian.CxSM.C74_cxsm_potential",
    "Verif.Lagrangian.CxSM.C74_cxsm_counterterms",
    "Verif.Lagrangian.N2HDM.C74_n2hdm_potential",
    "Verif.Lagrangian.N2HDM.C74_n2hdm_counterterms",
    "Verif.Lagrangian.R2HDM.C74_r2hdm_potential",
    "Verif.Lagrangian.R2HDM.C74_r2hdm_counterterms",
    "Verif.Lagrangian.SM.C74_sm_potential",
    "Verif.Lagrangian.SM.C74_sm_counterterms",
    "Verif.Lagrangian.Template.C74_template_potential",
    "Verif.Lagrangian.Template.C74_template_counterterms"
   ],
   "note": "All models of the program are covered, each by the theorems with its name. The _fails theorems show where the code differs from the documentation: the quartic singlet coupling of CPintheDark, and the simplified potentials outside the subspace of the vacuum expectation values."
  },
  {
   "property": "C75",
   "status": "partial",
   "theorems": [
    "Verif.Lagrangian.C2HDM.C75_c2hdm_angle",
    "Verif.Lagrangian.C2HDM.C75_c2hdm_stationary",
    "Verif.Lagrangian.C2HDM.C75_c2hdm_negative_fails",
    "Verif.Lagrangian.C2HDM.C75_c2hdm_masses",
    "Verif.Lagrangian.CPintheDark.C75_cpinthedark_stationary",
    "Verif.Lagrangian.CPintheDark.C75_cpinthedark_masses",
    "Verif.Lagrangian.CxSM.C75_cxsm_stationary",
    "Verif.Lagrangian.CxSM.C75_cxsm_masses",
    "Verif.Lagrangian.N2HDM.C75_n2hdm_angle",
    "Verif.Lagrangian.N2HDM.C75_n2hdm_stationary",
    "Verif.Lagrangian.N2HDM.C75_n2hdm_negative_fails",
    "Verif.Lagrangian.N2HDM.C75_n2hdm_masses",
    "Verif.Lagrangian.R2HDM.C75_r2hdm_angle",
    "Verif.Lagrangian.R2HDM.C75_r2hdm_stationary",
    "Verif.Lagrangian.R2HDM.C75_r2hdm_masses",
    "Verif.Lagrangian.SM.C75_sm_stationary",
    "Verif.Lagrangian.SM.C75_sm_masses",
    "Verif.Lagrangian.Template.C75_template_stationary",
    "Verif.Lagrangian.Template.C75_template_masses"
   ],
   "note": "All models of the program are covered, each by the theorems with its name. False for negative tan beta (C2HDM, N2HDM); CPintheDark and the template do not solve the tadpole equation, for them the exact condition is proved."
  },
  {
   "property": "C76",
   "status": "partial",
   "theorems": [
    "Verif.Lagrangian.C2HDM.C76_c2hdm_cancel",
    "Verif.Lagrangian.CPintheDark.C76_cpinthedark_cancel",
    "Verif.Lagrangian.CxSM.C76_cxsm_cancel_partial",
    "Verif.Lagrangian.CxSM.C76_cxsm_mixing_fails",
    "Verif.Lagrangian.CxSM.C76_cxsm_threshold_fails",
    "Verif.Lagrangian.N2HDM.C76_n2hdm_cancel",
    "Verif.Lagrangian.N2HDM.C76_n2hdm_singlet_fails",
    "Verif.Lagrangian.R2HDM.C76_r2hdm_cancel_partial",
    "Verif.Lagrangian.R2HDM.C76_r2hdm_threshold_fails",
    "Verif.Lagrangian.SM.C76_sm_cancel",
    "Verif.Lagrangian.Template.C76_template_cancel"
   ],
   "note": "All models of the program are covered, each by the theorems with its name. The one-loop potential enters as an arbitrary invariant function together with its exact gradient and Hesse matrix (the code calculates them from the tensors, C35). The _fails theorems show the thresholds and the vacua for which the cancellation is not exact."
  },
  {
   "property": "C77",
   "status": "proved",
   "theorems": [
    "Verif.Lagrangian.C2HDM.C77_c2hdm_gauge",
    "Verif.Lagrangian.C2HDM.C77_c2hdm_gauge_symmetric",
    "Verif.Lagrangian.CPintheDark.C77_cpinthedark_gauge",
    "Verif.Lagrangian.CPintheDark.C77_cpinthedark_gauge_symmetric",
    "Verif.Lagrangian.CxSM.C77_cxsm_gauge",
    "Verif.Lagrangian.CxSM.C77_cxsm_gauge_symmetric",
    "Verif.Lagrangian.N2HDM.C77_n2hdm_gauge",
    "Verif.Lagrangian.N2HDM.C77_n2hdm_gauge_symmetric",
    "Verif.Lagrangian.R2HDM.C77_r2hdm_gauge",
    "Verif.Lagrangian.R2HDM.C77_r2hdm_gauge_symmetric",
    "Verif.Lagrangian.SM.C77_sm_gauge",
    "Verif.Lagrangian.SM.C77_sm_gauge_symmetric",
    "Verif.Lagrangian.Template.C77_template_gauge"
   ],
   "note": "All models of the program are covered, each by the theorems with its name."
  },
  {
   "property": "C78",
   "status": "proved",
   "theorems": [
    "Verif.Yukawa.CPintheDark.C78_cpinthedark_quarks",
    "Verif.Yukawa.CPintheDark.C78_cpinthedark_leptons",
    "Verif.Yukawa.CPintheDark.C78_cpinthedark_symmetric",
    "Verif.Yukawa.CxSM.C78_cxsm_quarks",
    "Verif.Yukawa.CxSM.C78_cxsm_leptons",
    "Verif.Yukawa.CxSM.C78_cxsm_symmetric",
    "Verif.Yukawa.SM.C78_sm_quarks",
    "Verif.Yukawa.SM.C78_sm_leptons",
    "Verif.Yukawa.SM.C78_sm_symmetric",
    "Verif.Yukawa.TwoHDM.C78_2hdm_quarks",
    "Verif.Yukawa.TwoHDM.C78_2hdm_leptons",
    "Verif.Yukawa.TwoHDM.C78_2hdm_symmetric",
    "Verif.Yukawa.TwoHDM.C78_n2hdm_quarks",
    "Verif.Yukawa.TwoHDM.C78_n2hdm_leptons",
    "Verif.Yukawa.TwoHDM.C78_n2hdm_symmetric"
   ],
   "note": "All models with three generations are covered; the template model has a single quark pair and is not covered."
  },
  {
   "property": "C79",
   "status": "partial",
   "theorems": [
    "Verif.Spectrum.C79_ckm_unitary",
    "Verif.Spectrum.C79_constants",
    "Verif.Spectrum.C79_constants_masses",
    "Verif.Spectrum.C79_sm_gauge",
    "Verif.Spectrum.C79_cxsm_gauge_partial",
    "Verif.Spectrum.C79_cxsm_gauge_fails",
    "Verif.Spectrum.C79_cpinthedark_gauge",
    "Verif.Spectrum.C79_r2hdm_gauge",
    "Verif.Spectrum.C79_c2hdm_gauge",
    "Verif.Spectrum.C79_n2hdm_gauge",
    "Verif.Spectrum.C79_sm_fermions",
    "Verif.Spectrum.C79_cxsm_fermions",
    "Verif.Spectrum.C79_cpinthedark_fermions",
    "Verif.Spectrum.C79_r2hdm_fermions",
    "Verif.Spectrum.C79_c2hdm_fermions",
    "Verif.Spectrum.C79_n2hdm_fermions",
    "Verif.Spectrum.C79_2hdm_type_fails"
   ],
   "note": "Proved for all models; false for Yukawa types other than 1 to 4, which are accepted (C79_2hdm_type_fails), and for the gauge bosons of the CxSM, whose vacuum expectation value is an input (C79_cxsm_gauge_fails). Stated for the matrices; the eigenvalues are calculated by Eigen and then rounded to zero below 1e-5."
  },
  {
   "property": "C80",
   "status": "proved",
   "theorems": [
    "Verif.Lagrangian.SM.C80_sm_tree_symmetric",
    "Verif.Lagrangian.SM.C80_sm_counter_symmetric",
    "Verif.Lagrangian.SM.C80_sm_tree",
    "Verif.Lagrangian.SM.C80_sm_counter",
    "Verif.Lagrangian.CxSM.C80_cxsm_tree_symmetric",
    "Verif.Lagrangian.CxSM.C80_cxsm_counter_symmetric",
    "Verif.Lagrangian.CxSM.C80_cxsm_tree",
    "Verif.Lagrangian.CxSM.C80_cxsm_counter",
    "Verif.Lagrangian.R2HDM.C80_r2hdm_tree_symmetric",
    "Verif.Lagrangian.R2HDM.C80_r2hdm_counter_symmetric",
    "Verif.Lagrangian.R2HDM.C80_r2hdm_tree",
    "Verif.Lagrangian.R2HDM.C80_r2hdm_counter",
    "Verif.Lagrangian.C2HDM.C80_c2hdm_tree_symmetric",
    "Verif.Lagrangian.C2HDM.C80_c2hdm_counter_symmetric",
    "Verif.Lagrangian.C2HDM.C80_c2hdm_tree",
    "Verif.Lagrangian.C2HDM.C80_c2hdm_counter",
    "Verif.Lagrangian.N2HDM.C80_n2hdm_tree_symmetric",
    "Verif.Lagrangian.N2HDM.C80_n2hdm_counter_symmetric",
    "Verif.Lagrangian.N2HDM.C80_n2hdm_tree",
    "Verif.Lagrangian.N2HDM.C80_n2hdm_counter",
    "Verif.Lagrangian.CPintheDark.C80_cpinthedark_tree_symmetric",
    "Verif.Lagrangian.CPintheDark.C80_cpinthedark_counter_symmetric",
    "Verif.Lagrangian.CPintheDark.C80_cpinthedark_tree",
    "Verif.Lagrangian.CPintheDark.C80_cpinthedark_counter",
    "Verif.Lagrangian.Template.C80_template_tree_symmetric",
    "Verif.Lagrangian.Template.C80_template_counter_symmetric",
    "Verif.Lagrangian.Template.C80_template_tree",
    "Verif.Lagrangian.Template.C80_template_counter",
    "Verif.Lagrangian.C80_symmetry_needed"
   ],
   "note": "All seven models; doubles are real numbers without rounding."
  },
  {
   "property": "C81",
   "status": "partial",
   "theorems": [
    "Verif.Debye.C81_high_temperature",
    "Verif.Debye.C81_sm_higgs",
    "Verif.Debye.C81_cxsm_higgs",
    "Verif.Debye.C81_cpinthedark_higgs",
    "Verif.Debye.C81_r2hdm_higgs",
    "Verif.Debye.C81_c2hdm_higgs",
    "Verif.Debye.C81_n2hdm_higgs",
    "Verif.Debye.C81_simplified_difference",
    "Verif.Debye.C81_simplified_fails",
    "Verif.Debye.C81_sm_gauge",
    "Verif.Debye.C81_cxsm_gauge",
    "Verif.Debye.C81_cpinthedark_gauge",
    "Verif.Debye.C81_r2hdm_gauge",
    "Verif.Debye.C81_c2hdm_gauge",
    "Verif.Debye.C81_n2hdm_gauge"
   ],
   "note": "The general calculation has the property for all parameters (if the SU(2) coupling is not zero). The default calculation of the R2HDM, C2HDM and N2HDM omits the light quarks and the leptons (C81_simplified_fails, exact difference in C81_simplified_difference) and skips the removal of small values. Six models; the template model is not included. Doubles are real numbers without rounding."
  },
  {
   "property": "C82",
   "status": "partial",
   "theorems": [
    "Verif.Invariance.C82_sm_one_loop",
    "Verif.Invariance.C82_cxsm_one_loop",
    "Verif.Invariance.C82_r2hdm_one_loop",
    "Verif.Invariance.C82_c2hdm_one_loop",
    "Verif.Invariance.C82_n2hdm_one_loop",
    "Verif.Invariance.C82_cpinthedark_one_loop",
    "Verif.Invariance.C82_sm_potential",
    "Verif.Invariance.C82_cxsm_potential",
    "Verif.Invariance.C82_r2hdm_potential",
    "Verif.Invariance.C82_c2hdm_potential_partial",
    "Verif.Invariance.C82_c2hdm_potential_fails",
    "Verif.Invariance.C82_n2hdm_potential",
    "Verif.Invariance.C82_cpinthedark_potential_partial",
    "Verif.Invariance.C82_cpinthedark_potential_fails",
    "Verif.Invariance.C82_sm_cancel",
    "Verif.Invariance.C82_cxsm_cancel_partial",
    "Verif.Invariance.C82_r2hdm_cancel_partial",
    "Verif.Invariance.C82_c2hdm_cancel",
    "Verif.Invariance.C82_n2hdm_cancel",
    "Verif.Invariance.C82_cpinthedark_cancel"
   ],
   "note": "V1Loop is invariant in all six models. VEff of the C2HDM and of CP in the Dark uses simplified tree-level and counterterm potentials that ignore four fields, and is not invariant (C82_c2hdm_potential_fails, C82_cpinthedark_potential_fails); the theorems for these models are about the explicit potentials. The cancellation assumes that the one-loop potential has a second-order expansion at the vacuum, and in the CxSM and R2HDM the conditions of C76. The eigenvalue solver is assumed to return the roots of the characteristic polynomial in ascending order; doubles are real numbers without rounding."
  },
  {
   "property": "C83",
   "status": "partial",
   "theorems": [
    "Verif.Weinberg.C83_first",
    "Verif.Weinberg.C83_second",
    "Verif.Weinberg.C83_exact",
    "Verif.Weinberg.C83_loop",
    "Verif.Weinberg.C83_loop_derivatives",
    "Verif.Weinberg.C83_uncalculated",
    "Verif.Weinberg.C83_negative",
    "Verif.Weinberg.C83_sm_renormalised",
    "Verif.Weinberg.C83_cxsm_renormalised_partial",
    "Verif.Weinberg.C83_r2hdm_renormalised_partial",
    "Verif.Weinberg.C83_c2hdm_renormalised",
    "Verif.Weinberg.C83_n2hdm_renormalised",
    "Verif.Weinberg.C83_cpinthedark_renormalised",
    "Verif.Weinberg.C83_sm_first"
   ],
   "note": "True under the conditions Regular, Apart, Clean and Uncut (Verif/Weinberg/Spec.lean), which are met by a standard model with massless fermions (Verif/Weinberg/Example.lean). With the constants of the program the electron is lighter than the threshold below which V1Loop neglects a particle but not the derivatives: the first derivatives are then those of the Coleman-Weinberg potential with all particles (C83_sm_first). In the CxSM and the R2HDM the condition of C76 on the one-loop derivatives remains. The eigenvectors are assumed orthonormal, those of fermions real; doubles are real numbers without rounding."
  },
  {
   "property": "C84",
   "status": "proved",
   "theorems": [
    "Verif.Invariance.C84_minimum",
    "Verif.Invariance.C84_sm",
    "Verif.Invariance.C84_cxsm",
    "Verif.Invariance.C84_r2hdm",
    "Verif.Invariance.C84_c2hdm",
    "Verif.Invariance.C84_c2hdm_neutral_fails",
    "Verif.Invariance.C84_n2hdm",
    "Verif.Invariance.C84_cpinthedark"
   ],
   "note": "In the SM the statement is about the embedding of the vacuum expectation value, since MinimizeOrderVEV itself has undefined behaviour there (C33). Without the charge-breaking direction, an option of the C2HDM, minima are missed (C84_c2hdm_neutral_fails). The existence of a minimum and its numerical search are not part of the claim. Counterterms without tadpoles: those of calc_CT by C82."
  },
  {
   "property": "C85",
   "status": "partial",
   "theorems": [
    "Verif.Baryo.C85_config",
    "Verif.Baryo.C85_refused",
    "Verif.Baryo.C85_constructor",
    "Verif.Baryo.C85_legend",
    "Verif.Baryo.C85_columns",
    "Verif.Baryo.C85_model",
    "Verif.Baryo.C85_history",
    "Verif.Baryo.C85_switches",
    "Verif.Baryo.C85_velocity",
    "Verif.Baryo.C85_massless_fails",
    "Verif.Baryo.C85_refused_point_fails",
    "Verif.Baryo.C85_construct",
    "Verif.Baryo.C85_switch"
   ],
   "note": "False in two cases: with a massless bottom quark the bottom and tau methods always end in an exception (C85_massless_fails), and after a refused point the object mixes old and new numerics (C85_refused_point_fails). The transport solvers are parameters."
  },
  {
   "property": "C86",
   "status": "partial",
   "theorems": [
    "Verif.Wall.C86_base_points",
    "Verif.Wall.C86_every_schedule",
    "Verif.Wall.C86_terminates",
    "Verif.Wall.C86_one_thread",
    "Verif.Wall.C86_completes",
    "Verif.Wall.C86_race_fails",
    "Verif.Wall.C86_no_threads_fails",
    "Verif.Wall.C86_thickness",
    "Verif.Wall.C86_sizes"
   ],
   "note": "False with two or more threads: the index is tested and incremented in two actions, so for every such number of threads a schedule exists in which a thread reads past the end and the exception ends the program (C86_race_fails); with hardware_concurrency() = 0 nothing is computed (C86_no_threads_fails). All schedules that do not fail are right. Spline and Brent minimiser are parameters with the assumptions of C86_thickness."
  },
  {
   "property": "C87",
   "status": "partial",
   "theorems": [
    "Verif.Wall.C87_choice",
    "Verif.Wall.C87_thickness_partial",
    "Verif.Wall.C87_two_barriers_fails",
    "Verif.Wall.C87_symmetric_vev_fails"
   ],
   "note": "False with several barriers, where the lowest is used (C87_two_barriers_fails), and when the symmetric minimum is not the origin (C87_symmetric_vev_fails). Proved for one barrier and a symmetric minimum at the origin. The GSL minimiser is a parameter; whether it finds twenty solutions is not modelled."
  },
  {
   "property": "C88",
   "status": "proved",
   "theorems": [
    "Verif.Via.C88_theta",
    "Verif.Via.C88_theta_threshold",
    "Verif.Via.C88_source_linear",
    "Verif.Via.C88_cp_odd",
    "Verif.Via.C88_no_cp_violation",
    "Verif.Via.C88_unique",
    "Verif.Via.C88_bottom_conserved",
    "Verif.Via.C88_tau_conserved"
   ],
   "note": "Exact solutions; the adaptive integrator is not modelled. Masses, statistical factors, mass rates and the integral over the source are parameters, continuous in the wall, with positive statistical factors and a source linear in the derivative of the phase (proved for its integrand)."
  },
  {
   "property": "C89",
   "status": "partial",
   "theorems": [
    "Verif.Via.C89_bottom_reactions_partial",
    "Verif.Via.C89_tau_reactions_partial",
    "Verif.Via.C89_top_reactions_partial",
    "Verif.Via.C89_reactions_relax",
    "Verif.Via.C89_bottom_yukawa_fails",
    "Verif.Via.C89_hypercharge_fails",
    "Verif.Via.C89_top_sphaleron_fails",
    "Verif.Via.C89_statistics_fails",
    "Verif.Via.C89_tau_quarks",
    "Verif.Via.C89_flags",
    "Verif.Via.C89_tau_source_fails",
    "Verif.Via.C89_left_partial",
    "Verif.Via.C89_second_generation_fails"
   ],
   "note": "Exact flows are proved; they differ from the reactions in the sign of the Higgs potentials in the bottom Yukawa reaction (C89_bottom_yukawa_fails), the missing sphaleron term for right-handed top quarks (C89_top_sphaleron_fails), the statistical factor of the doublet (C89_statistics_fails), hypercharge (C89_hypercharge_fails) and the sources for massless bottom or tau (C89_tau_source_fails). The second light generation is not counted (C89_second_generation_fails)."
  },
  {
   "property": "C90",
   "status": "partial",
   "theorems": [
    "Verif.Via.C90_steady_exists",
    "Verif.Via.C90_baryons",
    "Verif.Via.C90_baryons_everywhere",
    "Verif.Via.C90_result",
    "Verif.Via.C90_asymmetry_partial",
    "Verif.Via.C90_asymmetry_fails"
   ],
   "note": "False: the returned value is the density at the wall for sphalerons in both phases (C90_asymmetry_partial), smaller by (v+w)/(2w) than the asymmetry and, for the equation of the specification, of the opposite sign, because the integral runs from the far end to the wall while the factor already has the minus sign (C90_asymmetry_fails). The exact asymmetry is C90_baryons. Spline and integrator are parameters."
  },
  {
   "property": "C91",
   "status": "proved",
   "theorems": [
    "Verif.Fh.C91_velocity",
    "Verif.Fh.C91_second_order",
    "Verif.Fh.C91_conserved",
    "Verif.Fh.C91_mubl",
    "Verif.Fh.C91_source",
    "Verif.Fh.C91_rates"
   ],
   "note": "C91_velocity and C91_second_order are equivalences with the equations of Fh/Spec.lean. The statistical factors are parameters."
  },
  {
   "property": "C92",
   "status": "partial",
   "theorems": [
    "Verif.Fh.C92_ahead",
    "Verif.Fh.C92_unique",
    "Verif.Fh.C92_no_diffusion",
    "Verif.Fh.C92_diffusion_fails",
    "Verif.Fh.C92_cp_odd",
    "Verif.Fh.C92_top_diffusion_fails"
   ],
   "note": "Odd in CP violation, unique, zero without it (C92_cp_odd, C92_unique). The second part is false: the program integrates from zeros at the far end, so that the result at a position depends only on the CP violation in front of it (C92_ahead), is zero in front of all CP violation (C92_no_diffusion), and differs everywhere from each solution with particles at the far end (C92_diffusion_fails, C92_top_diffusion_fails for the VEV insertion method). The adaptive integrator is replaced by exact solutions."
  },
  {
   "property": "C93",
   "status": "partial",
   "theorems": [
    "Verif.Fh.C93_direct",
    "Verif.Fh.C93_interpolation",
    "Verif.Fh.C93_vev",
    "Verif.Fh.C93_symmetric_fails",
    "Verif.Fh.C93_theta",
    "Verif.Fh.C93_fields_fails",
    "Verif.Fh.C93_mass",
    "Verif.Fh.C93_source_partial",
    "Verif.Fh.C93_source_fails",
    "Verif.Fh.C93_eta",
    "Verif.Fh.C93_spline",
    "Verif.Fh.C93_cut"
   ],
   "note": "Proved for the fields, the phase, the top mass and the asymmetry (C93_vev, C93_theta, C93_mass, C93_eta, C93_spline, C93_cut). False: the fields end at the origin instead of a symmetric minimum with a singlet (C93_symmetric_fails); the source without velocities is not the derivative of the source (C93_source_partial, C93_source_fails); models with fewer than eight fields end with an exception (C93_fields_fails)."
  },
  {
   "property": "C94",
   "status": "partial",
   "theorems": [
    "Verif.Eigen.C94_threshold_fails",
    "Verif.Eigen.C94_small_fails",
    "Verif.Eigen.C94_derivatives",
    "Verif.Eigen.C94_curves",
    "Verif.Eigen.C94_moving"
   ],
   "note": "Proved when different eigenvalues are more than 10\u207b\u2076 apart and nonzero ones are not below it (C94_derivatives, C94_curves, C94_moving). False otherwise: eigenvalues at most 10\u207b\u2076 apart are treated as equal, with wrong derivatives (C94_threshold_fails); smaller eigenvalues and derivatives are replaced by zero (C94_small_fails)."
  },
  {
   "property": "C95",
   "status": "partial",
   "theorems": [
    "Verif.Eigen.C95_gauge",
    "Verif.Eigen.C95_gauge_temperature",
    "Verif.Eigen.C95_fermion",
    "Verif.Eigen.C95_higgs_fails"
   ],
   "note": "Proved for gauge bosons, quarks and leptons with separated masses (C95_gauge, C95_gauge_temperature, C95_fermion). False for the scalars: the eigenvalues of the derivative of the mass matrix are returned twice (C95_higgs_fails)."
  },
  {
   "property": "C96",
   "status": "partial",
   "theorems": [
    "Verif.Via.C96_expansion",
    "Verif.Via.C96_integrand",
    "Verif.Via.C96_throws",
    "Verif.Via.C96_nonneg",
    "Verif.Via.C96_low_temperature_fails"
   ],
   "note": "The integrand is the expansion (C96_expansion, C96_integrand) and not negative for equal energies (C96_nonneg); when an exception is thrown is stated exactly (C96_throws). False: at all temperatures up to 14 GeV the integration up to 10\u2074 GeV ends in an exception because the exponential overflows (C96_low_temperature_fails)."
  },
  {
   "property": "C97",
   "status": "partial",
   "theorems": [
    "Verif.Via.C97_fermi",
    "Verif.Via.C97_source_partial",
    "Verif.Via.C97_expansion_fails",
    "Verif.Via.C97_small_momenta_fails",
    "Verif.Via.C97_prefactor"
   ],
   "note": "False: one term is divided by k\u2074 instead of w\u2074, so the integrand is no expansion of the published one (C97_expansion_fails) and does not vanish for small momenta (C97_small_momenta_fails). All other terms are right (C97_source_partial), as are the distribution, its derivative (C97_fermi) and the prefactor (C97_prefactor)."
  },
  {
   "property": "C98",
   "status": "partial",
   "theorems": [
    "Verif.Via.C98_top",
    "Verif.Via.C98_bottom_fails",
    "Verif.Via.C98_tau_partial",
    "Verif.Via.C98_tau_fails",
    "Verif.Via.C98_tau_sign_fails",
    "Verif.Via.C98_yukawa",
    "Verif.Via.C98_types_fails"
   ],
   "note": "Proved for the top (C98_top), the right-handed tau (C98_tau_partial) and the Yukawa couplings of types 1 and 2 (C98_yukawa). False for the bottom, which gets the hypercharge of the top (C98_bottom_fails), the difference for the tau (C98_tau_fails, C98_tau_sign_fails) and types 3 and 4, which throw (C98_types_fails)."
  },
  {
   "property": "C99",
   "status": "partial",
   "theorems": [
    "Verif.Batch.C99_bad_stream",
    "Verif.Batch.C99_legend",
    "Verif.Batch.C99_test",
    "Verif.Batch.C99_tracing_partial",
    "Verif.Batch.C99_tracing_fails",
    "Verif.Batch.C99_nlovev_partial",
    "Verif.Batch.C99_nlovev_fails",
    "Verif.Batch.C99_search_partial",
    "Verif.Batch.C99_search_fails"
   ],
   "note": "Proved for CalcCT, BSMPT, TripleHiggsNLO and CalculateEWBG (C99_legend) and Test (C99_test). False for CalcTemps, CalcGW and MinimaTracer with first line 1, which calculate the header (C99_tracing_fails), for NLOVEV, which calculates an empty line after the end (C99_nlovev_fails), and for the programs for a single line, which take the end of the file for a line (C99_search_fails); the partial theorems give the cases in which they are right."
  },
  {
   "property": "C100",
   "status": "partial",
   "theorems": [
    "Verif.Batch.C100_separators",
    "Verif.Batch.C100_columns",
    "Verif.Batch.C100_short_fails",
    "Verif.Batch.C100_text_fails",
    "Verif.Batch.C100_blank_fails",
    "Verif.Batch.C100_empty_fails"
   ],
   "note": "Proved for lines whose cells are numbers (C100_columns). False for malformed lines, none of which is rejected: missing columns take the last number (C100_short_fails), text makes it and all later parameters 0 (C100_text_fails), an empty cell shifts all later ones (C100_blank_fails) and an empty line uses variables without value (C100_empty_fails)."
  },
  {
   "property": "C101",
   "status": "partial",
   "theorems": [
    "Verif.Batch.C101_cpinthedark_others",
    "Verif.Batch.C101_particle_names",
    "Verif.Batch.C101_calcct_partial",
    "Verif.Batch.C101_calcct_fails",
    "Verif.Batch.C101_bsmpt_partial",
    "Verif.Batch.C101_nlovev_partial",
    "Verif.Batch.C101_vevevo",
    "Verif.Batch.C101_ewbg_partial",
    "Verif.Batch.C101_ewbg_fails",
    "Verif.Batch.C101_triple_partial"
   ],
   "note": "Proved for VEVEVO and all models (C101_vevevo) and for the other programs and all models but CPintheDark. False for CPintheDark, where four counterterms stand under names of others (C101_calcct_fails), and for CalculateEWBG without strong transition, where the ratio and the minimum are exchanged (C101_ewbg_fails)."
  },
  {
   "property": "C102",
   "status": "partial",
   "theorems": [
    "Verif.Triple.C102_r2hdm",
    "Verif.Triple.C102_c2hdm",
    "Verif.Triple.C102_n2hdm_partial",
    "Verif.Triple.C102_cpinthedark_partial",
    "Verif.Triple.C102_cxsm_partial",
    "Verif.Triple.C102_cxsm_fails",
    "Verif.Triple.C102_cpinthedark_fails",
    "Verif.Triple.C102_sm_partial",
    "Verif.Triple.C102_window_fails",
    "Verif.Triple.C102_history_fails",
    "Verif.Triple.C102_degenerate_fails",
    "Verif.Triple.C102_overrun_fails",
    "Verif.Triple.C102_sm_fails"
   ],
   "note": "Proved for R2HDM and C2HDM, and under conditions for the other models (C102_*_partial). False for the name h_SM without a scalar near 125 GeV (C102_window_fails), where in the N2HDM it depends on the points before (C102_history_fails); for degenerate states that mix (C102_degenerate_fails, C102_overrun_fails); for CxSM and CPintheDark when the lightest scalar comes before the Goldstone bosons (C102_cxsm_fails, C102_cpinthedark_fails); and for the SM, whose names are given by position (C102_sm_fails)."
  },
  {
   "property": "C103",
   "status": "proved",
   "theorems": [
    "Verif.Weinberg.C103_third",
    "Verif.Weinberg.C103_loop",
    "Verif.Weinberg.C103_symmetric",
    "Verif.Weinberg.C103_vector",
    "Verif.Weinberg.C103_uncalculated",
    "Verif.Weinberg.C103_negative",
    "Verif.Weinberg.C103_negative_throws"
   ],
   "note": "For squared masses that are zero or above 1e-5 and whose differences are zero or above 1e-5, and real eigenvectors of the fermions with a basis without entries below 1e-10 (as in C83); derivatives smaller than 1e-10 are returned as zero."
  },
  {
   "property": "C104",
   "status": "proved",
   "theorems": [
    "Verif.Weinberg.C104_coordinates",
    "Verif.Weinberg.C104_couplings",
    "Verif.Weinberg.C104_effective",
    "Verif.Weinberg.C104_negative",
    "Verif.Weinberg.C104_symmetric",
    "Verif.Weinberg.C104_sm"
   ],
   "note": "Under the conditions of C103; the assignment of rows to particles is C102, the printed table C101."
  },
  {
   "property": "C105",
   "status": "partial",
   "theorems": [
    "Verif.Check.C105_scalar",
    "Verif.Check.C105_derivatives",
    "Verif.Check.C105_lawful",
    "Verif.Check.C105_sm",
    "Verif.Check.C105_cxsm",
    "Verif.Check.C105_r2hdm",
    "Verif.Check.C105_c2hdm",
    "Verif.Check.C105_n2hdm",
    "Verif.Check.C105_cpinthedark",
    "Verif.Check.C105_second",
    "Verif.Check.C105_mass",
    "Verif.Check.C105_third",
    "Verif.Check.C105_fourth",
    "Verif.Check.C105_yukawa_partial",
    "Verif.Check.C105_yukawa_fails",
    "Verif.Check.C105_gauge"
   ],
   "note": "Full equivalence for all tensors except the Yukawa couplings, where the lengths of the innermost vectors are not compared (C105_yukawa_fails)."
  },
  {
   "property": "C106",
   "status": "partial",
   "theorems": [
    "Verif.Check.C106_renormalised",
    "Verif.Check.C106_saddle_fails",
    "Verif.Check.C106_gauge_spectrum",
    "Verif.Check.C106_gauge_models",
    "Verif.Check.C106_fermion_spectrum",
    "Verif.Check.C106_fermion_models",
    "Verif.Check.C106_c2hdm_simplified",
    "Verif.Check.C106_cpinthedark_simplified",
    "Verif.Check.C106_ckm_close",
    "Verif.Check.C106_ckm",
    "Verif.Check.C106_gauge",
    "Verif.Check.C106_gauge_close",
    "Verif.Check.C106_gauge_fails",
    "Verif.Check.C106_leptons",
    "Verif.Check.C106_quarks_partial",
    "Verif.Check.C106_fermions",
    "Verif.Check.C106_quarks_fails",
    "Verif.Check.C106_light_fails",
    "Verif.Check.C106_fermions_nan_fails",
    "Verif.Check.C106_minimum_partial",
    "Verif.Check.C106_minimum_fails",
    "Verif.Check.C106_tadpoles",
    "Verif.Check.C106_tadpoles_fails",
    "Verif.Check.C106_nlo_partial",
    "Verif.Check.C106_nlo_fails",
    "Verif.Check.C106_simplified_partial",
    "Verif.Check.C106_simplified_equal",
    "Verif.Check.C106_simplified_fails",
    "Verif.Check.C106_factor_fails",
    "Verif.Check.C106_conditions_partial",
    "Verif.Check.C106_conditions_fails",
    "Verif.Check.C106_identities"
   ],
   "note": "The exact condition of every test is proved. Several tests accept what they should reject: NaN everywhere, massless light fermions, missing quarks, opposite signs of vacuum and masses, potentials of the form 0/0 at a point and wrong factors of the counterterm potential (the *_fails theorems)."
  },
  {
   "property": "C107",
   "status": "partial",
   "theorems": [
    "Verif.Check.C107_tests",
    "Verif.Check.C107_throws",
    "Verif.Check.C107_message",
    "Verif.Check.C107_rows",
    "Verif.Check.C107_aligned",
    "Verif.Check.C107_counts",
    "Verif.Check.C107_triples",
    "Verif.Check.C107_labels",
    "Verif.Check.C107_labels_fails",
    "Verif.Check.C107_program",
    "Verif.Check.C107_status_fails",
    "Verif.Check.C107_nothing_fails",
    "Verif.Check.C107_errors"
   ],
   "note": "Table, numbers and message are right; the exit status is that of success also if tests fail or no line was tested (C107_status_fails, C107_nothing_fails), and labels are only counted (C107_labels_fails)."
  },
  {
   "property": "C108",
   "status": "partial",
   "theorems": [
    "Verif.Kfactors.C108_distribution",
    "Verif.Kfactors.C108_derivatives",
    "Verif.Kfactors.C108_integrand",
    "Verif.Kfactors.C108_components",
    "Verif.Kfactors.C108_even",
    "Verif.Kfactors.C108_box",
    "Verif.Kfactors.C108_norm",
    "Verif.Kfactors.C108_massless",
    "Verif.Kfactors.C108_switch",
    "Verif.Kfactors.C108_cutoff",
    "Verif.Kfactors.C108_cutoff_fails",
    "Verif.Kfactors.C108_tilde_norm",
    "Verif.Kfactors.C108_tilde_bound",
    "Verif.Kfactors.C108_interpolated",
    "Verif.Kfactors.C108_k8_fails"
   ],
   "note": "Integrands, octants, norms and the massless limits are the published ones. False as a whole: the cut-off at 1000 GeV does not grow with the temperature and misses more than three percent of K4 at T = 250 (C108_cutoff_fails), and the interpolated K8 has the norm of the wrong bracket and so the wrong sign (C108_k8_fails). Numerical integration and interpolation are exact in the model."
  },
  {
   "property": "C109",
   "status": "partial",
   "theorems": [
    "Verif.Plotter.C109_good",
    "Verif.Plotter.C109_bound_fails",
    "Verif.Plotter.C109_fraction_fails",
    "Verif.Plotter.C109_read",
    "Verif.Plotter.C109_grid",
    "Verif.Plotter.C109_count",
    "Verif.Plotter.C109_distinct",
    "Verif.Plotter.C109_slice",
    "Verif.Plotter.C109_status",
    "Verif.Plotter.C109_seven_fails",
    "Verif.Plotter.C109_columns"
   ],
   "note": "Tables, columns and status are right for up to six fields. False: bounds are read as integers (C109_fraction_fails), -1 is taken for a missing bound (C109_bound_fails), and for more than six fields the program reports an index out of range (C109_seven_fails). The line of the input file is that of C99."
  },
  {
   "property": "C110",
   "status": "proved",
   "theorems": [
    "Verif.Perc.C110_published",
    "Verif.Perc.C110_bounds",
    "Verif.Perc.C110_monotone",
    "Verif.Perc.C110_rate",
    "Verif.Perc.C110_code",
    "Verif.Perc.C110_velocity",
    "Verif.Perc.C110_order"
   ],
   "note": "The integration routines of the GSL are taken to return the integral. C110_order is for one state of the solutions."
  },
  {
   "property": "C111",
   "status": "partial",
   "theorems": [
    "Verif.Perc.C111_default_partial",
    "Verif.Perc.C111_ignored_fails",
    "Verif.Perc.C111_fraction_fails",
    "Verif.Perc.C111_result",
    "Verif.Perc.C111_exception_fails",
    "Verif.Perc.C111_program_fails",
    "Verif.Perc.C111_program"
   ],
   "note": "False: the fractions requested on the command line are stored in user_input and never used (C111_ignored_fails, C111_fraction_fails); a found nucleation temperature without percolation ends the program with an exception (C111_exception_fails, C111_program_fails). Proved for the default fractions (C111_default_partial)."
  },
  {
   "property": "C112",
   "status": "partial",
   "theorems": [
    "Verif.Perc.C112_strength",
    "Verif.Perc.C112_bag",
    "Verif.Perc.C112_cj_range",
    "Verif.Perc.C112_cj_published",
    "Verif.Perc.C112_cj_same",
    "Verif.Perc.C112_approx",
    "Verif.Perc.C112_approx_nan_fails",
    "Verif.Perc.C112_upper",
    "Verif.Perc.C112_upper_superluminal_fails",
    "Verif.Perc.C112_upper_cj_fails"
   ],
   "note": "Strength, Chapman-Jouguet velocity and the velocity for the value -1 are right where the true vacuum is the deeper one. False: NaN otherwise (C112_approx_nan_fails); the velocity for the value -2 exceeds the Chapman-Jouguet velocity (C112_upper_cj_fails) and even the velocity of light (C112_upper_superluminal_fails)."
  },
  {
   "property": "C113",
   "status": "partial",
   "theorems": [
    "Verif.Ascii.C113_plane",
    "Verif.Ascii.C113_columns",
    "Verif.Ascii.C113_critical",
    "Verif.Ascii.C113_constant_fails",
    "Verif.Ascii.C113_negative_fails",
    "Verif.Ascii.C113_point_fails",
    "Verif.Ascii.C113_curves",
    "Verif.Ascii.C113_spacing_fails",
    "Verif.Ascii.C113_title",
    "Verif.Ascii.C113_title_fails",
    "Verif.Ascii.C113_legend",
    "Verif.Ascii.C113_legend_fails",
    "Verif.Ascii.C113_markers_fails"
   ],
   "note": "Proved for curves of at least two points with equidistant coordinates or more points than columns and values that are not all equal (C113_plane, C113_columns), in particular for the plot of each critical temperature (C113_critical). False otherwise: equal values (C113_constant_fails), single points (C113_point_fails), as many unequally spaced points as columns (C113_spacing_fails), negative values only (C113_negative_fails), an eleventh curve (C113_curves), long titles and labels (C113_title_fails, C113_legend_fails), the eighth phase (C113_markers_fails)."
  },
  {
   "property": "C114",
   "status": "partial",
   "theorems": [
    "Verif.Tracer.C114_check",
    "Verif.Tracer.C114_flat_never_reported",
    "Verif.Tracer.C114_flat_inconclusive",
    "Verif.Tracer.C114_thermal_mass",
    "Verif.Tracer.C114_ends_early_fails"
   ],
   "note": "Proved: which temperatures are visited and which one decides (C114_check), and the right sign for masses a + b T^2 (C114_thermal_mass). False: a flat potential is never reported as such (C114_flat_never_reported, C114_flat_inconclusive), and three agreeing temperatures near 1 GeV decide (C114_ends_early_fails)."
  },
  {
   "property": "C115",
   "status": "partial",
   "theorems": [
    "Verif.Tracer.C115_marked_flat",
    "Verif.Tracer.C115_copies_flat",
    "Verif.Tracer.C115_marked",
    "Verif.Tracer.C115_copies",
    "Verif.Tracer.C115_flat",
    "Verif.Tracer.C115_neighbour_not_marked",
    "Verif.Tracer.C115_other_minimum_marked"
   ],
   "note": "Proved: a marked minimum has a copy with the same potential within 1 GeV of the global one (C115_marked, with flat planes C115_marked_flat); copies under symmetries and rotations of flat planes, also both at the same time, are marked (C115_copies, C115_flat, C115_copies_flat; for symmetries composed of flips of disjoint sets of directions and planes without common directions). False: a minimum 1e-5 GeV away from the global one need not be marked (C115_neighbour_not_marked), and another minimum closer than 1 GeV is marked (C115_other_minimum_marked)."
  },
  {
   "property": "C116",
   "status": "partial",
   "theorems": [
    "Verif.Thermal.Negative.C116_tables_agree",
    "Verif.Thermal.Negative.C116_tabulated",
    "Verif.Thermal.Negative.C116_derivative",
    "Verif.Thermal.Negative.C116_join",
    "Verif.Thermal.Negative.C116_outside",
    "Verif.Thermal.Negative.C116_legacy",
    "Verif.Thermal.Negative.C116_legacy_value"
   ],
   "note": "Proved: the tables agree in every line (C116_tables_agree), the values at the tabulated points (C116_tabulated), the derivative (C116_derivative), the join at zero within 1e-9 in the value and exactly in the slope (C116_join), the interpolation of the first version never reads outside its table (C116_legacy, C116_legacy_value). Not as relied on: below the table, m^2 <= -3000 T^2, the function is a straight line that grows for ever (C116_outside). Missing: that the tabulated values are those of the integral."
  },
  {
   "property": "C117",
   "status": "proved",
   "theorems": [
    "Verif.Batch.Minima.C117_longest",
    "Verif.Batch.Minima.C117_table",
    "Verif.Batch.Minima.C117_names",
    "Verif.Batch.Minima.C117_rectangular",
    "Verif.Batch.Minima.C117_empty_phase",
    "Verif.Batch.Minima.C117_read",
    "Verif.Batch.Minima.C117_accepts",
    "Verif.Batch.C117_good"
   ],
   "note": "Each minimum is taken to have a value for each field and no phase to be empty, as the tracing produces them; C117_empty_phase shows why the latter is needed."
  },
  {
   "property": "C118",
   "status": "proved",
   "theorems": [
    "Verif.Minimizer.Runs.C118_run",
    "Verif.Minimizer.Runs.C118_short_start",
    "Verif.Minimizer.Runs.C118_start_points",
    "Verif.Minimizer.Runs.C118_solutions",
    "Verif.Minimizer.Runs.C118_global",
    "Verif.Minimizer.Runs.C118_number",
    "Verif.Minimizer.Runs.C118_cmaes",
    "Verif.Minimizer.Runs.C118_flat_directions",
    "Verif.Minimizer.Runs.C118_short_candidate"
   ],
   "note": "The lowest potential is delivered if the first saved point has a number as potential (as in C13). C118_flat_directions and C118_short_candidate describe start vectors of another dimension for the evolution strategy."
  },
  {
   "property": "C119",
   "status": "partial",
   "theorems": [
    "Verif.Programs.Positional.C119_plain_call",
    "Verif.Programs.Positional.C119_too_few",
    "Verif.Programs.Positional.C119_rest_ignored",
    "Verif.Programs.Positional.C119_named_call",
    "Verif.Programs.Positional.C119_no_arguments",
    "Verif.Programs.Positional.C119_help",
    "Verif.Programs.Positional.C119_potplotter",
    "Verif.Programs.Positional.C119_required",
    "Verif.Programs.Positional.C119_minimizer_options",
    "Verif.Programs.Positional.C119_help_not_printed"
   ],
   "note": "False for the last sentence: words beyond those of the help, options with a name among them, are ignored without a message (C119_rest_ignored). PotPlotter has no call without names; its words are dropped (C119_potplotter). The rest is proved for all command lines."
  },
  {
   "property": "C120",
   "status": "partial",
   "theorems": [
    "Verif.Batch.C120_nan_evolution",
    "Verif.Programs.Scan.C120_read",
    "Verif.Programs.Scan.C120_terminal_unused",
    "Verif.Programs.Scan.C120_accepts",
    "Verif.Programs.Scan.C120_accepted_partial",
    "Verif.Programs.Scan.C120_answers",
    "Verif.Programs.Scan.C120_negative_step_fails",
    "Verif.Programs.Scan.C120_nan_fails",
    "Verif.Programs.Scan.C120_vevevo_line_fails",
    "Verif.Programs.Scan.C120_unreadable_number",
    "Verif.Programs.Scan.C120_scan",
    "Verif.Programs.Scan.C120_endless_scan",
    "Verif.Programs.Scan.C120_endless_fails",
    "Verif.Programs.Scan.C120_nan_scan",
    "Verif.Programs.Scan.C120_evolution"
   ],
   "note": "False as stated: PlotEWBG_vw accepts a negative step and then never ends (C120_negative_step_fails, C120_endless_fails), NaN passes every test (C120_nan_fails), VEVEVO accepts any line number (C120_vevevo_line_fails), NLOVEV and VEVEVO ignore terminalOutput (C120_terminal_unused). Without these cases acceptance is exact (C120_accepts, C120_accepted_partial)."
  },
  {
   "property": "C121",
   "status": "partial",
   "theorems": [
    "Verif.Batch.Ewbg.C121_velocities_partial",
    "Verif.Batch.Ewbg.C121_no_transition_fails",
    "Verif.Batch.Ewbg.C121_exception",
    "Verif.Batch.Ewbg.C121_missing_line",
    "Verif.Batch.Ewbg.C121_densities_partial",
    "Verif.Batch.Ewbg.C121_no_density_fails",
    "Verif.Batch.Ewbg.C121_grid",
    "Verif.Batch.Ewbg.C121_grid_unchecked_fails",
    "Verif.Batch.C121_grid_failure"
   ],
   "note": "False without a strong transition: PlotEWBG_vw and PlotEWBG_nL then write the single word -1-1-1-1-1 under a header with at least five columns (C121_no_transition_fails, C121_no_density_fails), CreateMuGrid writes a full table without looking at the transition (C121_grid_unchecked_fails). The rest is proved."
  },
  {
   "property": "C122",
   "status": "partial",
   "theorems": [
    "Verif.Programs.MuGrid.C122_named",
    "Verif.Programs.MuGrid.C122_plain",
    "Verif.Programs.MuGrid.C122_help",
    "Verif.Programs.MuGrid.C122_unknown_fails",
    "Verif.Programs.MuGrid.C122_good_partial",
    "Verif.Programs.MuGrid.C122_answers",
    "Verif.Programs.MuGrid.C122_nan_fails"
   ],
   "note": "False for unknown arguments, which are undefined behaviour (C122_unknown_fails), and for NaN as velocity (C122_nan_fails). The rest is proved for all command lines."
  },
  {
   "property": "C123",
   "status": "partial",
   "theorems": [
    "Verif.Tracer.Flat.C123_stored",
    "Verif.Tracer.Flat.C123_chosen",
    "Verif.Tracer.Flat.C123_sphere",
    "Verif.Tracer.Flat.C123_independent",
    "Verif.Tracer.Flat.C123_log",
    "Verif.Tracer.Flat.C123_background_fails",
    "Verif.Tracer.Flat.C123_repeated_index_fails",
    "Verif.Tracer.Flat.C123_log_fails",
    "Verif.Tracer.Flat.C123_pairs_removed"
   ],
   "note": "False in three respects: only points at which all other fields are 1 are compared, so a potential that depends on a field can pass for independent of it (C123_background_fails); a flat direction of three fields can consist of two (C123_repeated_index_fails); pairs and triples are not logged if a field is flat on its own (C123_log_fails). The rest is proved."
  },
  {
   "property": "C124",
   "status": "partial",
   "theorems": [
    "Verif.Tracer.Begin.C124_unbounded",
    "Verif.Tracer.Begin.C124_search",
    "Verif.Tracer.Begin.C124_search_exception",
    "Verif.Tracer.Begin.C124_extras_keep",
    "Verif.Tracer.Begin.C124_lookup",
    "Verif.Tracer.Begin.C124_ew_retraced_fails",
    "Verif.Tracer.Begin.C124_grid",
    "Verif.Tracer.Begin.C124_grid_phase",
    "Verif.Tracer.Begin.C124_bottom",
    "Verif.Tracer.Begin.C124_grid_step",
    "Verif.Tracer.Begin.C124_unknown_mode_fails"
   ],
   "note": "False for modes that do not exist, which search nothing and report success (C124_unknown_mode_fails), and for the electroweak minimum, which is looked up at temperature 0 and is always traced again if the lowest temperature is positive (C124_ew_retraced_fails). The rest is proved."
  },
  {
   "property": "C125",
   "status": "partial",
   "theorems": [
    "Verif.Tracer.Smallest.C125_smallest",
    "Verif.Tracer.Smallest.C125_negative",
    "Verif.Tracer.Smallest.C125_huge",
    "Verif.Tracer.Smallest.C125_nan_fails",
    "Verif.Tracer.Smallest.C125_nan_last",
    "Verif.Tracer.Smallest.C125_curvature"
   ],
   "note": "False for NaN: an eigenvalue that is not a number is forgotten, together with all before it, if another follows (C125_nan_fails). The rest is proved."
  },
  {
   "property": "C126",
   "status": "partial",
   "theorems": [
    "Verif.Eigen.Second.C126_refused",
    "Verif.Eigen.Second.C126_second",
    "Verif.Eigen.Second.C126_repeated_fails",
    "Verif.Eigen.Second.C126_degenerate_fails",
    "Verif.Eigen.Second.C126_empty_fails"
   ],
   "note": "The derivatives are proved. False for repeated eigenvalues, which are never reported because the threshold is an unsigned integer (C126_repeated_fails, C126_degenerate_fails), and for the empty matrix (C126_empty_fails)."
  },
  {
   "property": "C127",
   "status": "partial",
   "theorems": [
    "Verif.Kfactors.C127_layout",
    "Verif.Kfactors.C127_tables",
    "Verif.Kfactors.C127_nodes",
    "Verif.Kfactors.C127_axes",
    "Verif.Kfactors.C127_increasing",
    "Verif.Kfactors.C127_integrals",
    "Verif.Kfactors.C127_range",
    "Verif.Kfactors.C127_temperature_fails"
   ],
   "note": "False for temperatures between 250 and 300, where a critical temperature may be found but no K function has a value (C127_temperature_fails). The rest is proved, for any interpolation that is exact at its nodes."
  },
  {
   "property": "C128",
   "status": "partial",
   "theorems": [
    "Verif.Fh.C128_w",
    "Verif.Fh.C128_w_neutral",
    "Verif.Fh.C128_charge_breaking_fails",
    "Verif.Fh.C128_nan_fails",
    "Verif.Fh.C128_top",
    "Verif.Fh.C128_short",
    "Verif.Fh.C128_w_short"
   ],
   "note": "False in a charge-breaking vacuum, where the W mass found is zero (C128_charge_breaking_fails), and for masses of the W boson that are not numbers, which give zero because the check for them is never reached (C128_nan_fails). The rest is proved."
  },
  {
   "property": "C129",
   "status": "partial",
   "theorems": [
    "Verif.Wall.Search.C129_run",
    "Verif.Wall.Search.C129_accuracy",
    "Verif.Wall.Search.C129_tries",
    "Verif.Wall.Search.C129_barrier",
    "Verif.Wall.Search.C129_thickness",
    "Verif.Wall.Search.C129_endless_fails",
    "Verif.Wall.Search.C129_rejected_guess_fails",
    "Verif.Wall.Search.C129_wrong_length_fails"
   ],
   "note": "False in three places: the search never ends if fewer than 20 guesses converge (C129_endless_fails), a guess that encloses no maximum is not refused (C129_rejected_guess_fails), and for a point of the wrong length the height is measured nevertheless (C129_wrong_length_fails). The rest is proved."
  },
  {
   "property": "C130",
   "status": "partial",
   "theorems": [
    "Verif.Via.C130_normalised",
    "Verif.Via.C130_accuracy",
    "Verif.Via.C130_range",
    "Verif.Via.C130_heavy_fails",
    "Verif.Via.C130_momenta"
   ],
   "note": "False for masses of more than 300 temperatures, for which the range is turned around and the result is not a number (C130_heavy_fails). The accuracy is proved up to 299 temperatures, for an exact integrator."
  },
  {
   "property": "C131",
   "status": "partial",
   "theorems": [
    "Verif.Thermal.C131_value",
    "Verif.Thermal.C131_derivative",
    "Verif.Thermal.C131_derivative_accuracy",
    "Verif.Thermal.C131_other_modes",
    "Verif.Thermal.C131_negative_fails"
   ],
   "note": "Proved, for an exact integrator, for squared masses that are not negative (derivatives: positive). False for negative ones: at -900 the part cut off exceeds 4 (C131_negative_fails)."
  },
  {
   "property": "C132",
   "status": "partial",
   "theorems": [
    "Verif.Minimizer.PlaneRuns.C132_run",
    "Verif.Minimizer.PlaneRuns.C132_one_field_fails",
    "Verif.Minimizer.PlaneRuns.C132_objective",
    "Verif.Minimizer.PlaneRuns.C132_search",
    "Verif.Minimizer.PlaneRuns.C132_all_failed_fails",
    "Verif.Minimizer.PlaneRuns.C132_saved_fails",
    "Verif.Minimizer.PlaneRuns.C132_bounds",
    "Verif.Minimizer.PlaneRuns.C132_nlopt",
    "Verif.Minimizer.PlaneRuns.C132_cmaes_start",
    "Verif.Minimizer.PlaneRuns.C132_cmaes"
   ],
   "note": "False in three places: if no run of the simplex algorithm converges, success is reported at the point with zeros (C132_all_failed_fails); a list of minima that is not empty at the start makes the search look at the wrong rows (C132_saved_fails); for one field the library makes no minimiser and a null pointer is used (C132_one_field_fails). The rest is proved."
  },
  {
   "property": "C133",
   "status": "partial",
   "theorems": [
    "Verif.Tracer.Diagram.C133_round_trip",
    "Verif.Tracer.Diagram.C133_models",
    "Verif.Tracer.Diagram.C133_short_point",
    "Verif.Tracer.Diagram.C133_bar",
    "Verif.Tracer.Diagram.C133_outside",
    "Verif.Tracer.Diagram.C133_temperatures",
    "Verif.Tracer.Diagram.C133_point_fails",
    "Verif.Tracer.Diagram.C133_curves",
    "Verif.Tracer.Diagram.C133_eleven_fails",
    "Verif.Tracer.Diagram.C133_markers",
    "Verif.Tracer.Diagram.C133_marker_fails"
   ],
   "note": "False for a phase that fills no cell of the diagram (C133_point_fails), for more than ten phases (C133_eleven_fails) and for the marker of the eighth (C133_marker_fails). The change of coordinates is proved for all models but the standard model, where the embedding itself fails (C33)."
  },
  {
   "property": "C134",
   "status": "partial",
   "theorems": [
    "Verif.Models.Report.C134_signs",
    "Verif.Models.Report.C134_r2hdm",
    "Verif.Models.Report.C134_r2hdm_overflow",
    "Verif.Models.Report.C134_r2hdm_missing",
    "Verif.Models.Report.C134_n2hdm",
    "Verif.Models.Report.C134_n2hdm_undefined",
    "Verif.Models.Report.C134_c2hdm",
    "Verif.Models.Report.C134_c2hdm_undefined",
    "Verif.Models.Report.C134_cxsm",
    "Verif.Models.Report.C134_no_sm_like",
    "Verif.Models.Report.C134_names_fails",
    "Verif.Models.Report.C134_dark",
    "Verif.Models.Report.C134_dark_fails"
   ],
   "note": "Proved if the neutral rows have the expected number and one boson lies between 124 and 126 GeV. False otherwise: without such a boson H_SM is printed with mass 0 and the compositions are those of other states (C134_no_sm_like, C134_names_fails); a number of neutral rows other than expected is undefined behaviour (C134_r2hdm_overflow, C134_r2hdm_missing, C134_n2hdm_undefined, C134_c2hdm_undefined); a dark state in row 0 is printed as the heaviest (C134_dark_fails)."
  },
  {
   "property": "C135",
   "status": "partial",
   "theorems": [
    "Verif.Spline.Roots.C135_linear",
    "Verif.Spline.Roots.C135_quadratic",
    "Verif.Spline.Roots.C135_cubic",
    "Verif.Spline.Roots.C135_exact",
    "Verif.Spline.Roots.C135_margin_fails",
    "Verif.Spline.Roots.C135_zero",
    "Verif.Spline.Roots.C135_inside_partial",
    "Verif.Spline.Roots.C135_everywhere_partial",
    "Verif.Spline.Roots.C135_last_node_fails",
    "Verif.Spline.Roots.C135_separated_inside",
    "Verif.Spline.Roots.C135_separated_everywhere",
    "Verif.Spline.Roots.C135_sound",
    "Verif.Spline.Roots.C135_merge_fails"
   ],
   "note": "Polynomials: proved for every precision if the discriminant is zero or outside the round-off margin (C135_cubic); within the margin it is false (C135_margin_fails). Splines: proved for exact arithmetic (precision 0, where every polynomial is clear), C135_inside_partial and C135_everywhere_partial; for a precision above 0 if the discriminants are clear and the solutions further apart than 512 times the precision (C135_separated_inside, C135_separated_everywhere). Without this distance every returned value still solves the cubic of a piece at most this distance away (C135_sound), but solutions can be merged (C135_merge_fails). Without extrapolation a solution at the last node is missed (C135_last_node_fails); on a constant piece only one solution is given (C135_zero)."
  },
  {
   "property": "C136",
   "status": "partial",
   "theorems": [
    "Verif.Baryo.Align.C136_used",
    "Verif.Baryo.Align.C136_idempotent",
    "Verif.Baryo.Align.C136_equivalent",
    "Verif.Baryo.Align.C136_nearer",
    "Verif.Baryo.Align.C136_long",
    "Verif.Baryo.Align.C136_nearest_fails",
    "Verif.Baryo.Align.C136_pair_fails",
    "Verif.Baryo.Align.C136_kept_fails",
    "Verif.Baryo.Align.C136_started"
   ],
   "note": "Proved for all vacua whose lengths fit (C136_used, C136_idempotent, C136_equivalent, C136_nearer, C136_started). Not true: that the nearest copy is used (C136_nearest_fails, C136_kept_fails), and that both vacua are moved by the same symmetry, so the wall may run between vacua that are not a copy of the given pair (C136_pair_fails)."
  },
  {
   "property": "C137",
   "status": "partial",
   "theorems": [
    "Verif.Baryo.Phases.C137_2hdm_quarks",
    "Verif.Baryo.Phases.C137_2hdm_leptons",
    "Verif.Baryo.Phases.C137_phase",
    "Verif.Baryo.Phases.C137_phases_partial",
    "Verif.Baryo.Phases.C137_doublet_partial",
    "Verif.Baryo.Phases.C137_signs",
    "Verif.Baryo.Phases.C137_short",
    "Verif.Baryo.Phases.C137_order_fails",
    "Verif.Baryo.Phases.C137_imaginary_fails"
   ],
   "note": "The masses are proved for the models with two doublets (C137_2hdm_quarks, C137_2hdm_leptons). The phases are proved for masses listed with bottom and top quark and with the tau lepton at the end (C137_phases_partial, C137_doublet_partial, C137_signs); the eigenvalue routine does not promise this order, and with another order other phases are used (C137_order_fails). For an imaginary mass the sign of the phase depends on the order (C137_imaginary_fails)."
  },
  {
   "property": "C138",
   "status": "partial",
   "theorems": [
    "Verif.Shapes.C138_full",
    "Verif.Shapes.C138_minimizer_partial",
    "Verif.Shapes.C138_models_partial",
    "Verif.Shapes.C138_other_length",
    "Verif.Shapes.C138_not_ready",
    "Verif.Shapes.C138_other_derivative",
    "Verif.Shapes.C138_higgs_derivative_fails",
    "Verif.Shapes.C138_message_fails",
    "Verif.Shapes.C138_message",
    "Verif.Shapes.C138_sm_fails"
   ],
   "note": "Proved for all fields (C138_full), for the fields of the minimizer except derivatives of scalar masses (C138_minimizer_partial, C138_models_partial), for refused calls (C138_other_length, C138_not_ready, C138_message) and for numbers of a derivative that do not exist, which are not refused (C138_other_derivative). False: with the fields of the minimizer the derivatives of the scalar masses (C138_higgs_derivative_fails) and the message about a fermion derivative that is not a number (C138_message_fails) read past the end of the vector, and in the SM every function reads past the end of VevOrder (C138_sm_fails)."
  },
  {
   "property": "C139",
   "status": "partial",
   "theorems": [
    "Verif.Minimizer.Whole.C139_lowest_partial",
    "Verif.Minimizer.Whole.C139_below_origin",
    "Verif.Minimizer.Whole.C139_check",
    "Verif.Minimizer.Whole.C139_bounds",
    "Verif.Minimizer.Whole.C139_nlopt",
    "Verif.Minimizer.Whole.C139_local",
    "Verif.Minimizer.Whole.C139_objective",
    "Verif.Minimizer.Whole.C139_tracer",
    "Verif.Minimizer.Whole.C139_tree",
    "Verif.Minimizer.Whole.C139_nlopt_exception",
    "Verif.Minimizer.Whole.C139_zeroed_fails"
   ],
   "note": "The lowest point is chosen (C139_lowest_partial, with threads or without CMAES; without threads the point of CMAES is dropped, C13_single_threaded_ignores_cmaes) and a point with broken electroweak symmetry is not above the origin (C139_below_origin). For points with an electroweak VEV up to 0.5 GeV it is false: the electroweak part is set to zero afterwards and the potential of the new point can be above that of the origin (C139_zeroed_fails)."
  },
  {
   "property": "C140",
   "status": "proved",
   "theorems": [
    "Verif.GW.C140_value",
    "Verif.GW.C140_reported",
    "Verif.GW.C140_duration",
    "Verif.GW.C140_range",
    "Verif.GW.C140_parts",
    "Verif.GW.C140_positive",
    "Verif.GW.C140_off"
   ],
   "note": "For objects whose peaks were calculated, as the transition tracer does (before, the amplitude can be NaN, see C29). The integral of the GSL is taken as exact. The turbulence spectrum has the power 3 of the code (see C58)."
  },
  {
   "property": "C141",
   "status": "proved",
   "theorems": [
    "Verif.Potential.C141_one_loop",
    "Verif.Potential.C141_logarithm",
    "Verif.Potential.C141_scale"
   ],
   "note": "For spectra with as many entries as particles. Squared masses below 1e-4 have no Coleman-Weinberg term. The thermal functions are parameters (see C63, C131); the derivative modes are treated in C35 and C62."
  }
 ]
}