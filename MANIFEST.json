{
 "claims": [
  {
   "property": "C01",
   "status": "partial",
   "theorems": [
    "Verif.Elastic.C01_pair_determines_material_partial",
    "Verif.Elastic.C01_lam_v_always_raises",
    "Verif.Elastic.C01_E_M_wrong_for_negative_v",
    "Verif.Elastic.C01_full_statement_false"
   ],
   "note": "Proved for all isotropic materials and all pairs except {Lam,v} and {E,M} with negative Poisson ratio. The full statement is false of the code: {Lam,v} always raises TypeError (l.279 calls a number), {E,M} takes the wrong root for every v<0; both negations proved."
  },
  {
   "property": "C02",
   "status": "proved",
   "theorems": [
    "Verif.Elastic.C02_wrong_number_rejected",
    "Verif.Elastic.C02_unknown_name_rejected",
    "Verif.Elastic.C02_known_names_accepted",
    "Verif.Elastic.C02_order_irrelevant",
    "Verif.Elastic.C02_rank_is_name_order",
    "Verif.Elastic.C02_constructor_rejects_more_than_two"
   ],
   "note": "Rejection of wrong counts and unknown names, acceptance of every other pair, order independence."
  },
  {
   "property": "C03",
   "status": "partial",
   "theorems": [
    "Verif.Elastic.C03_new_material_determined_partial",
    "Verif.Elastic.C03_construction_can_fail",
    "Verif.Elastic.C03_one_pair_programs_partial"
   ],
   "note": "False in full: after {E,v} and {G,K} materials every {E,v} construction raises TypeError (proved). Proved: in every state a construction that returns gives the right constants; programs using one pair of names never fail."
  },
  {
   "property": "C04",
   "status": "partial",
   "theorems": [
    "Verif.Elastic.C04_reads_isolated_partial",
    "Verif.Elastic.C04_assignment_interference",
    "Verif.Elastic.C04_single_property_read_interference",
    "Verif.Elastic.C04_full_statement_false",
    "Verif.Elastic.C04_assigned_value_is_read"
   ],
   "note": "False in full (two proved counterexamples through the shared class attributes). Proved: reads of a material with two given properties are isolated from all operations on other materials."
  },
  {
   "property": "C05",
   "status": "proved",
   "theorems": [
    "Verif.Memo.C05_memoised_equals_direct",
    "Verif.Memo.C05_evaluated_at_most_once",
    "Verif.Memo.C05_method_variant_always_fails"
   ],
   "note": "For static functions, the variant used for the influence matrices. The method variant (static_method=False) always raises TypeError: proved negation."
  },
  {
   "property": "C06",
   "status": "proved",
   "theorems": [
    "Verif.Conv.C06_plan_is_superposition",
    "Verif.Conv.C06_no_wrap_around",
    "Verif.Conv.C06_flags_checked"
   ],
   "note": "For the planned convolution (plan_convolve, fftw branch) including the transform, the padding, the roll by half the matrix span and the normalisation; next_fast_len is any function returning at least its argument."
  },
  {
   "property": "C07",
   "status": "proved",
   "theorems": [
    "Verif.Conv.C07_unequal_sizes_rejected",
    "Verif.Conv.C07_cyclic_superposition",
    "Verif.Conv.C07_shift_equivariant"
   ],
   "note": "Cyclic superposition, shift equivariance, and rejection of unequal sizes."
  },
  {
   "property": "C08",
   "status": "proved",
   "theorems": [
    "Verif.Conv.C08_unit_load",
    "Verif.Conv.C08_unit_load_full_span",
    "Verif.Conv.C08_routes_agree"
   ],
   "note": "Offsets of the matrix filler and of both convolution routes agree for odd and even spans."
  },
  {
   "property": "C09",
   "status": "proved",
   "theorems": [
    "Verif.Conv.C09_domain_superposition",
    "Verif.Conv.C09_restriction_exact",
    "Verif.Conv.C09_linear"
   ],
   "note": "Domain-restricted inner function is the superposition over the domain, exact for loads vanishing outside, linear."
  },
  {
   "property": "C10",
   "status": "partial",
   "theorems": [
    "Verif.InfMat.C10_pair_is_sum_partial",
    "Verif.InfMat.C10_diagonal_equal_poisson",
    "Verif.InfMat.C10_diagonal_wrong_for_unequal_poisson",
    "Verif.InfMat.C10_half_given_ignored",
    "Verif.InfMat.C10_half_given_rejected_false",
    "Verif.InfMat.C10_components",
    "Verif.InfMat.C10_order_of_bodies_partial"
   ],
   "note": "Proved for zz, xz, zx, xy, yx, yz, zy. False for xx and yy: the code uses only the first body's Poisson ratio (negation proved for every pair of different ratios). The rejection of half given second materials is false too (negation proved)."
  },
  {
   "property": "C11",
   "status": "proved",
   "theorems": [
    "Verif.InfMat.C11_reversal",
    "Verif.InfMat.C11_exchange",
    "Verif.InfMat.C11_matrix_mirror"
   ],
   "note": "All offsets, spacings, materials; also lifted to the filled matrix with odd spans."
  },
  {
   "property": "C12",
   "status": "partial",
   "theorems": [
    "Verif.Cg.C12_free_entries_untouched",
    "Verif.Cg.C12_displacements_of_loads",
    "Verif.Cg.C12_within_tolerance_partial",
    "Verif.Cg.C12_definite_operator_partial",
    "Verif.Cg.C12_silent_nan"
   ],
   "note": "Proved for operators positive definite on the prescribed entries, and in general whenever the loads returned are numbers. False in full: a vanishing denominator gives nan loads without the warning (proved). Exact arithmetic with nan/inf."
  },
  {
   "property": "C13",
   "status": "proved",
   "theorems": [
    "Verif.Bccg.C13_pressures_admissible",
    "Verif.Bccg.C13_finite_pressures_admissible"
   ],
   "note": "For every arithmetic (the model is generic in the number operations, so floating point rounding is covered), any operator."
  },
  {
   "property": "C14",
   "status": "proved",
   "theorems": [
    "Verif.Bccg.C14_sign_conditions"
   ],
   "note": "Exact arithmetic with nan/inf; any linear operator; any number of inner iterations; minimum pressure 0."
  },
  {
   "property": "C15",
   "status": "partial",
   "theorems": [
    "Verif.Bccg.C15_one_node_partial",
    "Verif.Bccg.C15_one_node_fails",
    "Verif.Bccg.C15_stops_and_reports",
    "Verif.Bccg.C15_free_nodes_counted",
    "Verif.Bccg.C15_success_means_converged",
    "Verif.Bccg.C15_start_at_solution_fails"
   ],
   "note": "Termination and honest reporting proved for every arithmetic and operator. The last part is false: started from any solution of the contact problem the solver returns nan everywhere and reports failure; with a single node this happens from almost every start (proved). One node with a first step below the tolerance: C15_one_node_partial."
  },
  {
   "property": "C16",
   "status": "proved",
   "theorems": [
    "Verif.Outputs.C16_every_nth_increment",
    "Verif.Outputs.C16_every_nth_increment_int"
   ],
   "note": "For every real interval > 0 (rounded up), any history of steps and increments."
  },
  {
   "property": "C17",
   "status": "partial",
   "theorems": [
    "Verif.Outputs.C17_never_early_partial",
    "Verif.Outputs.C17_all_honoured_partial",
    "Verif.Outputs.C17_n_outputs_in_step_partial",
    "Verif.Outputs.C17_single_global_time_never_fires",
    "Verif.Outputs.C17_global_times_lose_one_per_step_partial",
    "Verif.Outputs.C17_global_times_never_early_partial",
    "Verif.Outputs.C17_global_times_constructor"
   ],
   "note": "Proved for step_times and n_outputs_per_step. False for global_times: the first time is lost, and one more at the start of each step; a single global time never fires (proved). What remains true of global_times is proved."
  },
  {
   "property": "C18",
   "status": "proved",
   "theorems": [
    "Verif.Outputs.C18_records_read_back",
    "Verif.Outputs.C18_iteration_round_trip",
    "Verif.Outputs.C18_needs_context",
    "Verif.Outputs.C18_duplicate_time_loses_record",
    "Verif.Outputs.C18_code_like_string_lost"
   ],
   "note": "For numbers, strings that do not begin like an array code, and arrays; iteration for distinct non-negative times. Counterexamples proved for repeated times and for strings that begin like a code. tinydb/JSON and zip are assumed to return what was put in; codes are modelled to the character."
  },
  {
   "property": "C19",
   "status": "proved",
   "theorems": [
    "Verif.Outputs.C19_index_by_time",
    "Verif.Outputs.C19_index_by_field",
    "Verif.Outputs.C19_index_orders_differ",
    "Verif.Outputs.C19_negative_time_invisible"
   ],
   "note": "Index by time and by field, absent fields, IndexError; repeated times: the two index orders differ (proved counterexample)."
  },
  {
   "property": "C20",
   "status": "partial",
   "theorems": [
    "Verif.Lubricant.C20_checked_lubricant_evaluates_partial",
    "Verif.Lubricant.C20_each_sub_model_in_order",
    "Verif.Lubricant.C20_add_sub_model_invariant",
    "Verif.Lubricant.C20_add_sub_model_order",
    "Verif.Lubricant.C20_names",
    "Verif.Lubricant.C20_constant_lubricant",
    "Verif.Lubricant.C20_keyword_only_escapes",
    "Verif.Lubricant.C20_self_parameter_escapes",
    "Verif.Lubricant.C20_positional_only_escapes",
    "Verif.Lubricant.C20_default_parameter_rejected"
   ],
   "note": "Proved for sub models with ordinary parameters (C20_checked_lubricant_evaluates_partial, with the order, the constructor and add_sub_model); false for required keyword-only or positional-only parameters and for a plain function with a parameter called self (C20_keyword_only_escapes, C20_positional_only_escapes, C20_self_parameter_escapes)."
  },
  {
   "property": "C21",
   "status": "partial",
   "theorems": [
    "Verif.Steps.C21_checked_step_solves",
    "Verif.Steps.C21_reported_quantities",
    "Verif.Steps.C21_problem_iff",
    "Verif.Steps.C21_repeated_checks_partial",
    "Verif.Steps.C21_second_check_differs",
    "Verif.Steps.C21_second_check_unsound",
    "Verif.Steps.C21_default_settings_never_report",
    "Verif.Steps.C21_suppressed_settings_report"
   ],
   "note": "Soundness, the reported quantities and an exact characterisation of the problems are proved; repeated checks agree in error mode (C21_repeated_checks_partial) and may differ with warnings (C21_second_check_differs, C21_second_check_unsound). The ERROR_IF_MISSING settings are inverted (C21_default_settings_never_report, C21_suppressed_settings_report)."
  },
  {
   "property": "C22",
   "status": "partial",
   "theorems": [
    "Verif.Steps.C22_one_record_with_everything_requested_partial",
    "Verif.Steps.C22_time_in_record",
    "Verif.Steps.C22_no_requests_nothing_written",
    "Verif.Steps.C22_inactive_still_written",
    "Verif.Steps.C22_missing_saved_as_string"
   ],
   "note": "One record with every provided quantity that is asked for (C22_one_record_with_everything_requested_partial). False: a record with only the time is written when no request is active (C22_inactive_still_written); quantities that are not provided, including all surface attributes, are saved as the string 'surface_2_points' (C22_missing_saved_as_string)."
  },
  {
   "property": "C23",
   "status": "partial",
   "theorems": [
    "Verif.ModelSteps.C23_new_step_placed_partial",
    "Verif.ModelSteps.C23_names_unique",
    "Verif.ModelSteps.C23_appended_in_call_order",
    "Verif.ModelSteps.C23_single_pass",
    "Verif.ModelSteps.C23_collision_drops_new_step",
    "Verif.ModelSteps.C23_same_name_replaces",
    "Verif.ModelSteps.C23_failed_add_locks_step",
    "Verif.ModelSteps.C23_before_initial_fails"
   ],
   "note": "Placement of steps with new names, uniqueness of names and the single pass are proved. False for a used name with a position (C23_collision_drops_new_step), a failed call makes the step unusable (C23_failed_add_locks_step), and a step can be put before the initial step unnoticed (C23_before_initial_fails). A named position means before, not after, the named step."
  },
  {
   "property": "C24",
   "status": "partial",
   "theorems": [
    "Verif.Interp.C24_accepted_iff",
    "Verif.Interp.C24_two_values_exact",
    "Verif.Interp.C24_table_exact",
    "Verif.Interp.C24_outside_rejected",
    "Verif.Interp.C24_load_ends_exact",
    "Verif.Interp.C24_curve",
    "Verif.Interp.C24_step_quantities_partial",
    "Verif.Interp.C24_step_runs",
    "Verif.Interp.C24_single_increment_stays_at_start",
    "Verif.Interp.C24_relative_number_not_shifted",
    "Verif.Interp.C24_relative_rolling_speed_fails",
    "Verif.Interp.C24_static_target",
    "Verif.Interp.C24_static_relative_load_after_initial"
   ],
   "note": "Interpolation is proved exact at both ends and at every table entry. False in parts: with a single increment (the lubrication default) the value stays at its start; relative loading does not shift constants; relative with a varying rolling speed and a static relative load after the initial step raise KeyError. Only kind='linear' is modelled."
  },
  {
   "property": "C25",
   "status": "proved",
   "theorems": [
    "Verif.HeightCache.C25_sorted_and_truthful",
    "Verif.HeightCache.C25_repeated_height",
    "Verif.HeightCache.C25_remembered",
    "Verif.HeightCache.C25_bracket",
    "Verif.HeightCache.C25_bracket_both_sides",
    "Verif.HeightCache.C25_other_materials_fail",
    "Verif.HeightCache.C25_initial_nodes_fail",
    "Verif.HeightCache.C25_no_bounds_for_zero_target",
    "Verif.HeightCache.C25_stale_after_change_of_nodes",
    "Verif.HeightCache.C25_error_against_current_load"
   ],
   "note": "For influence matrix materials and a non negative height at the maximum pressure. Extra theorems record that other materials, initial contact nodes and a zero target fail with an exception, and that the cache is stale after a change of the contact nodes."
  },
  {
   "property": "C26",
   "status": "proved",
   "theorems": [
    "Verif.Gap.C26_minimum_is_minus_interference",
    "Verif.Gap.C26_first_touch_at_zero",
    "Verif.Gap.C26_difference_analytic",
    "Verif.Gap.C26_difference_periodic",
    "Verif.Gap.C26_difference_overlap",
    "Verif.Gap.C26_off_set_sign_differs",
    "Verif.Gap.C26_fractional_off_set_fails"
   ],
   "note": "Minimum, first touch and the pointwise difference (analytic, periodic, overlapping) for every off set the code supports, nearest interpolation in the discrete cases. Negations record that the sign of the off set differs between the periodic and the non periodic branch and that an off set of part of a grid spacing fails without periodicity."
  },
  {
   "property": "C27",
   "status": "partial",
   "theorems": [
    "Verif.Tdma.C27_dominant",
    "Verif.Tdma.C27_solves_cyclic_system_partial",
    "Verif.Tdma.C27_correction_defined",
    "Verif.Tdma.C27_argument_changed",
    "Verif.Tdma.C27_argument_after",
    "Verif.Tdma.C27_tdma_unchanged",
    "Verif.Tdma.C27_inner_system_may_be_singular",
    "Verif.Tdma.C27_integer_right_hand_side",
    "Verif.Tdma.C27_integer_main_diagonal"
   ],
   "note": "For at least three unknowns the vector returned solves the cyclic system if the inner solves are exact (C27_solves_cyclic_system_partial); for diagonally dominant matrices it is the only solution, with any exact solver (C27_dominant); the correction is defined whenever the cyclic system is regular. False: every call changes the main diagonal of the caller although the documentation says that nothing is mutated. Also shown: the inner system may have no solution although the cyclic one has; exactly when integer arrays give a wrong result (C27_integer_right_hand_side, C27_integer_main_diagonal)."
  },
  {
   "property": "C28",
   "status": "proved",
   "theorems": [
    "Verif.Reynolds.C28_never_stale",
    "Verif.Reynolds.C28_missing_parameter"
   ],
   "note": "All histories of the five setters and reads; missing parameters raise TypeError."
  },
  {
   "property": "C29",
   "status": "proved",
   "theorems": [
    "Verif.Reynolds.C29_round_trips",
    "Verif.Reynolds.C29_scales"
   ],
   "note": "Pressure, viscosity, density, gap and length. The code has no conversions for speed and load."
  },
  {
   "property": "C30",
   "status": "proved",
   "theorems": [
    "Verif.Reynolds.C30_pressure_in_range",
    "Verif.Reynolds.C30_solution_in_range",
    "Verif.Reynolds.C30_edges_kept",
    "Verif.Reynolds.C30_row_order_is_kept",
    "Verif.Reynolds.C30_stale_row_order"
   ],
   "note": "For any row solver, nan included (nan can only come from the row solver). Holds for the first solution and for later ones of the same shape; C30_stale_row_order shows that the row order is not remade after a change of shape."
  },
  {
   "property": "C31",
   "status": "proved",
   "theorems": [
    "Verif.Fluid.C31_roelands_reference",
    "Verif.Fluid.C31_roelands_increases",
    "Verif.Fluid.C31_roelands_falls_for_thin_fluids",
    "Verif.Fluid.C31_roelands_positive",
    "Verif.Fluid.C31_roelands_consistent",
    "Verif.Fluid.C31_barus_reference",
    "Verif.Fluid.C31_barus_increases",
    "Verif.Fluid.C31_barus_lower_bound",
    "Verif.Fluid.C31_barus_consistent",
    "Verif.Fluid.C31_density_reference",
    "Verif.Fluid.C31_density_increases_bounded",
    "Verif.Fluid.C31_density_limit",
    "Verif.Fluid.C31_density_consistent",
    "Verif.Fluid.C31_nd_density_range"
   ],
   "note": "For reference viscosities above exp(-9.67) in the Roelands law; below it the law falls, shown as a separate theorem."
  },
  {
   "property": "C32",
   "status": "partial",
   "theorems": [
    "Verif.Hertz.C32_positive_problems_are_solved",
    "Verif.Hertz.C32_both_poisson_missing",
    "Verif.Hertz.C32_given_load_is_ignored",
    "Verif.Hertz.C32_from_independent",
    "Verif.Hertz.C32_round_trip_partial",
    "Verif.Hertz.C32_given_pressure_is_returned",
    "Verif.Hertz.C32_given_shear_is_returned",
    "Verif.Hertz.C32_given_width_is_returned",
    "Verif.Hertz.C32_relations_hold"
   ],
   "note": "Proved for every admissible choice of givens except the branch where both Poisson's ratios are missing; that branch is shown to be wrong (C32_both_poisson_missing), and a given load is shown to be ignored when the system is already closed (C32_given_load_is_ignored)."
  },
  {
   "property": "C33",
   "status": "partial",
   "theorems": [
    "Verif.Hertz.C33_positive_problems_are_solved",
    "Verif.Hertz.C33_given_quantity_is_returned",
    "Verif.Hertz.C33_both_poisson_missing",
    "Verif.Hertz.C33_given_load_is_ignored",
    "Verif.Hertz.C33_from_independent",
    "Verif.Hertz.C33_round_trip_partial",
    "Verif.Hertz.C33_tensile_load_or_radius",
    "Verif.Hertz.C33_tensile_moduli_key_error"
   ],
   "note": "Proved for every admissible choice of givens except the branch where both Poisson's ratios are missing, which is shown to be wrong (C33_both_poisson_missing). The numerical root finder is an oracle. C33_given_load_is_ignored records a finding."
  },
  {
   "property": "C34",
   "status": "partial",
   "theorems": [
    "Verif.Hertz.C34_both_poisson_wrong",
    "Verif.Hertz.C34_materials_consistent_partial",
    "Verif.Hertz.C34_exchange_line",
    "Verif.Hertz.C34_exchange_point"
   ],
   "note": "Fill-in is consistent except when both Poisson's ratios are missing, which is shown to be wrong (C34_both_poisson_wrong). Exchange of the bodies is proved for both solvers."
  },
  {
   "property": "C35",
   "status": "proved",
   "theorems": [
    "Verif.HertzFull.C35_ellipse_turned",
    "Verif.HertzFull.C35_line",
    "Verif.HertzFull.C35_sphere",
    "Verif.HertzFull.C35_ellipse"
   ],
   "note": "Line, spherical and elliptical contacts: zero outside, positive inside, bounded by the reported maximum, maximum at the centre, and the pressure integrates to the load (for the elliptical contact the root finder is assumed to return positive factors)."
  },
  {
   "property": "C36",
   "status": "partial",
   "theorems": [
    "Verif.HertzFull.C36_sphere_partial",
    "Verif.HertzFull.C36_line_mean_is_double",
    "Verif.HertzFull.C36_ellipse_mean_is_wrong"
   ],
   "note": "True for spherical contacts (C36_sphere_partial). False for line contacts (reported mean is twice load over width and exceeds the maximum pressure) and for elliptical contacts (right only if the area happens to be 3/2)."
  },
  {
   "property": "C37",
   "status": "partial",
   "theorems": [
    "Verif.HertzFull.C37_right_sum",
    "Verif.HertzFull.C37_principal_curvatures",
    "Verif.HertzFull.C37_internal_error_iff",
    "Verif.HertzFull.C37_smaller_curvature_first_fails",
    "Verif.HertzFull.C37_depends_on_the_names_of_the_axes",
    "Verif.HertzFull.C37_spheres_at_an_angle_fail",
    "Verif.HertzFull.C37_half_turn",
    "Verif.HertzFull.C37_elliptical_contact_partial",
    "Verif.HertzFull.C37_line_contact_partial",
    "Verif.HertzFull.C37_spheres_partial"
   ],
   "note": "The relative curvatures are always right (C37_right_sum, C37_principal_curvatures), but the internal check refuses exactly the bodies that have the smaller curvature first in both bodies (C37_internal_error_iff) and two spheres at an angle. All other problems are solved, given that the root finder succeeds. The case of equal curvature differences at exactly ninety degrees depends on rounding and is excluded."
  },
  {
   "property": "C38",
   "status": "partial",
   "theorems": [
    "Verif.SurfaceGeo.C38_size_and_shape",
    "Verif.SurfaceGeo.C38_extent_partial",
    "Verif.SurfaceGeo.C38_extent_within_tolerance_partial",
    "Verif.SurfaceGeo.C38_new_surface",
    "Verif.SurfaceGeo.C38_extent_can_disagree",
    "Verif.SurfaceGeo.C38_first_length",
    "Verif.SurfaceGeo.C38_deletions",
    "Verif.SurfaceGeo.C38_refused"
   ],
   "note": "Size, shape and profile agree after every history (proved). The extent agrees for all histories without exceptions in which shapes are whole numbers and extents have the proportions of the profile (exactly, or within the tolerance of the code). Refuted in general: C38_extent_can_disagree gives four histories, one of them an exception that leaves the attributes half changed. NaN spacing is not modelled."
  },
  {
   "property": "C39",
   "status": "proved",
   "theorems": [
    "Verif.Wear.C39_conserved",
    "Verif.Wear.C39_reset"
   ],
   "note": "For the stored profile and all histories, in exact arithmetic; invert_surface (never set in the package) is False."
  },
  {
   "property": "C40",
   "status": "partial",
   "theorems": [
    "Verif.Wear.C40_malformed",
    "Verif.Wear.C40_at_nodes_partial",
    "Verif.Wear.C40_spacing_one_partial",
    "Verif.Wear.C40_fails"
   ],
   "note": "Malformed input changes nothing (proved). The effect is right for positions at nodes and a spacing below 2, and for all positions if the spacing is exactly 1, without repeated nodes. Refuted in general: C40_fails (the index is x/gs + gs/2 instead of x/gs + 1/2, repeated nodes do not add up, indices wrap at 65536)."
  },
  {
   "property": "C41",
   "status": "partial",
   "theorems": [
    "Verif.Mask.C41_value",
    "Verif.Mask.C41_array",
    "Verif.Mask.C41_list_masks_nothing",
    "Verif.Mask.C41_list_right_iff",
    "Verif.Mask.C41_other_types"
   ],
   "note": "Proved for single values and arrays. Refuted for lists: a list never masks anything (C41_list_right_iff)."
  },
  {
   "property": "C42",
   "status": "partial",
   "theorems": [
    "Verif.SurfArith.C42_equal_spacing",
    "Verif.SurfArith.C42_different_spacing",
    "Verif.SurfArith.C42_add_comm",
    "Verif.SurfArith.C42_add_mul_number",
    "Verif.SurfArith.C42_subtract_number_adds"
   ],
   "note": "Proved for surfaces of equal and different spacing (spline as an oracle) and for sums and products with numbers. Refuted for the difference with a number, which adds (C42_subtract_number_adds)."
  },
  {
   "property": "C43",
   "status": "proved",
   "theorems": [
    "Verif.Analytic.C43_totals",
    "Verif.Analytic.C43_order",
    "Verif.Analytic.C43_distance",
    "Verif.Analytic.C43_default_shift",
    "Verif.Analytic.C43_shift_direction"
   ],
   "note": "For all sequences of rotate and shift calls. C43_shift_direction records that a shift moves the shape by the negative of its argument."
  },
  {
   "property": "C44",
   "status": "proved",
   "theorems": [
    "Verif.Analytic.C44_samples",
    "Verif.Analytic.C44_missing",
    "Verif.Analytic.C44_combination",
    "Verif.Analytic.C44_conflict"
   ],
   "note": "In exact arithmetic (linspace)."
  },
  {
   "property": "C45",
   "status": "partial",
   "theorems": [
    "Verif.Interpolate.C45_nearest",
    "Verif.Interpolate.C45_spline_exchanges",
    "Verif.Interpolate.C45_spline_symmetric_partial",
    "Verif.Interpolate.C45_stale"
   ],
   "note": "Proved for nearest. Refuted for the spline modes: rows and columns are exchanged (C45_spline_exchanges) and replaced profiles are ignored (C45_stale). The spline is an oracle that goes through the nodes."
  },
  {
   "property": "C46",
   "status": "partial",
   "theorems": [
    "Verif.Analytic.C46_round_inside_partial",
    "Verif.Analytic.C46_round_falls_partial",
    "Verif.Analytic.C46_round_outside",
    "Verif.Analytic.C46_pyramid",
    "Verif.Analytic.C46_pyramid_lengths",
    "Verif.Analytic.C46_flat"
   ],
   "note": "Proved for pyramids; for round surfaces over the ellipse. Refuted outside of the ellipse, where the height is that of the top (C46_round_outside), and for flat surfaces with a slope (C46_flat). Lengths given as a list fail (C46_pyramid_lengths)."
  },
  {
   "property": "C47",
   "status": "partial",
   "theorems": [
    "Verif.Rough.C47_summits",
    "Verif.Rough.C47_border",
    "Verif.Rough.C47_no_neighbours",
    "Verif.Rough.C47_eight_is_four",
    "Verif.Rough.C47_mask_overwrites",
    "Verif.Rough.C47_small"
   ],
   "note": "C47_summits (for 4 and 8 neighbours, with an arbitrary shape-keeping filter, for profiles of at least 2x2, with nan), C47_border, C47_no_neighbours and C47_eight_is_four are proved. False with a mask: C47_mask_overwrites shows that the points of the mask become nan in the caller's array, that the True points are hidden instead of used, and that mask nan finds no summit at all. C47_small: a profile with one row gives a result of two rows."
  },
  {
   "property": "C48",
   "status": "partial",
   "theorems": [
    "Verif.Rough.C48_sq_sa",
    "Verif.Rough.C48_ssk_sku",
    "Verif.Rough.C48_not_a_number",
    "Verif.Rough.C48_scaling",
    "Verif.Rough.C48_list_partial",
    "Verif.Rough.C48_list_fails",
    "Verif.Rough.C48_sv",
    "Verif.Rough.C48_sds",
    "Verif.Rough.C48_ssc",
    "Verif.Rough.C48_ssc_spacing_wrong"
   ],
   "note": "C48_sq_sa, C48_ssk_sku, C48_not_a_number (the zero profile gives nan) for values without nan, C48_scaling for whole calls with and without flattening and with masks. Lists of names: C48_list_partial without a mask, or with a mask for lists without sds, sz, ssc; C48_list_fails refutes the rest, since find_summits overwrites the shared array with nan."
  },
  {
   "property": "C49",
   "status": "partial",
   "theorems": [
    "Verif.Rough.C49_flat_is_negative",
    "Verif.Rough.C49_least_for_flat_partial"
   ],
   "note": "False: C49_flat_is_negative gives the exact negative value for a flat surface (cells are compared with points). C49_least_for_flat_partial: every surface has at least the ratio of a flat one, and less than 1. Stated for calls without flattening."
  },
  {
   "property": "C50",
   "status": "partial",
   "theorems": [
    "Verif.Rough.C50_orthogonal",
    "Verif.Rough.C50_polynomial",
    "Verif.Rough.C50_polynomial_added",
    "Verif.Rough.C50_mask_meaning",
    "Verif.Rough.C50_excluded_do_not_matter",
    "Verif.Rough.C50_integers_refused"
   ],
   "note": "C50_orthogonal, C50_polynomial, C50_polynomial_added, C50_mask_meaning, C50_excluded_do_not_matter are proved for every order and mask, with numpy.linalg.lstsq as an arbitrary function that returns a least squares solution if it returns one. False for profiles of integers: C50_integers_refused (TypeError)."
  },
  {
   "property": "C51",
   "status": "partial",
   "theorems": [
    "Verif.Acf.C51_symmetric",
    "Verif.Acf.C51_centre",
    "Verif.Acf.C51_largest",
    "Verif.Acf.C51_odd_sizes_partial",
    "Verif.Acf.C51_even_sizes_fail",
    "Verif.Acf.C51_exponential"
   ],
   "note": "The array estimate is symmetric, largest and equal to the variance at the centre, and the exponential model holds; the interpolated function is off by half a spacing for even sizes (C51_even_sizes_fail), right for odd sizes (C51_odd_sizes_partial)."
  },
  {
   "property": "C52",
   "status": "partial",
   "theorems": [
    "Verif.Fractal.C52_conjugate",
    "Verif.Fractal.C52_real",
    "Verif.Fractal.C52_zero_mean",
    "Verif.Fractal.C52_shape",
    "Verif.Fractal.C52_square_partial",
    "Verif.Fractal.C52_shape_fails",
    "Verif.Fractal.C52_errors",
    "Verif.Fractal.C52_hurst"
   ],
   "note": "Real, zero mean, conjugate symmetric for all sizes; the requested shape is obtained only for even square shapes: in general the profile is transposed and rounded up to even (C52_shape_fails, C52_square_partial)."
  },
  {
   "property": "C53",
   "status": "partial",
   "theorems": [
    "Verif.Perez.C53_rearrangement",
    "Verif.Perez.C53_ordered",
    "Verif.Perez.C53_iterations",
    "Verif.Perez.C53_last_iteration",
    "Verif.Perez.C53_psd_after",
    "Verif.Perez.C53_psd_changed",
    "Verif.Perez.C53_psd_unchanged_partial",
    "Verif.Perez.C53_errors"
   ],
   "note": "The result is a rearrangement in every case; the caller's target array is changed in place at the first entry (C53_psd_changed), and convergence in the last allowed iteration counts as failure (C53_last_iteration)."
  },
  {
   "property": "C54",
   "status": "proved",
   "theorems": [
    "Verif.Filter.C54_moving_average",
    "Verif.Filter.C54_cyclic_shift",
    "Verif.Filter.C54_errors"
   ],
   "note": "Shape, moving average and cyclic shifts for all sizes with at least one point. fftconvolve is the convolution sum."
  },
  {
   "property": "C55",
   "status": "proved",
   "theorems": [
    "Verif.Filter.C55_estimates_agree",
    "Verif.Filter.C55_gradient",
    "Verif.Filter.C55_gradient_symmetric"
   ],
   "note": "Directional derivative in every direction for both variants; the two estimates of the autocorrelation agree."
  },
  {
   "property": "C56",
   "status": "partial",
   "theorems": [
    "Verif.Johnson.C56_unbounded",
    "Verif.Johnson.C56_bounded",
    "Verif.Johnson.C56_lognormal_partial",
    "Verif.Johnson.C56_mirrored_lognormal_nan",
    "Verif.Johnson.C56_ratio_e_nan",
    "Verif.Johnson.C56_normal_fails"
   ],
   "note": "Bounded and unbounded branches reproduce all four quantiles. Lognormal: three exactly and the lowest up to the tolerance for a longer upper tail; nan for a longer lower tail (C56_mirrored_lognormal_nan) and for the ratio e. The normal branch is wrong unless the spacing is one (C56_normal_fails)."
  },
  {
   "property": "C57",
   "status": "partial",
   "theorems": [
    "Verif.Csv.C57_words",
    "Verif.Csv.C57_numeric_rows_partial",
    "Verif.Csv.C57_order",
    "Verif.Csv.C57_round_trip",
    "Verif.Csv.C57_fails",
    "Verif.Csv.C57_no_numbers_accepted"
   ],
   "note": "Files without empty cells: exactly the rows of numbers, in order (C57_numeric_rows_partial), with word splitting and a round trip. The claim fails: an empty cell is dropped and shifts the columns, blank rows reject the file, and a file without numbers is accepted as an empty profile (C57_fails)."
  },
  {
   "property": "C58",
   "status": "partial",
   "theorems": [
    "Verif.DiscFreq.C58_sum_of_waves",
    "Verif.DiscFreq.C58_complex_amplitudes",
    "Verif.DiscFreq.C58_periodic",
    "Verif.DiscFreq.C58_additive",
    "Verif.DiscFreq.C58_additive_in_amplitudes",
    "Verif.DiscFreq.C58_mismatch_partial",
    "Verif.DiscFreq.C58_fails"
   ],
   "note": "Sum of waves, periodicity, independence of y and additivity are proved. Rejection of mismatched lists fails for the phases when some amplitude is a Python complex number: they are ignored (C58_fails)."
  },
  {
   "property": "C59",
   "status": "partial",
   "theorems": [
    "Verif.Cuda.C59_new_object_restores",
    "Verif.Cuda.C59_object_restores_partial",
    "Verif.Cuda.C59_object_keeps_creation_value",
    "Verif.Cuda.C59_program_restores",
    "Verif.Cuda.C59_off_inside",
    "Verif.Cuda.C59_fails",
    "Verif.Cuda.C59_lubrication_returns",
    "Verif.Cuda.C59_lubrication_raises",
    "Verif.Cuda.C59_caught_wrong"
   ],
   "note": "Proved for blocks that create their object on entry, whatever they contain, and for objects created under the same value. Fails for an object created before a change of the switch, and for reuse (C59_fails); the lubrication step leaves the switch off after an exception (C59_lubrication_raises)."
  },
  {
   "property": "C60",
   "status": "partial",
   "theorems": [
    "Verif.Epp.C60_construct",
    "Verif.Epp.C60_not_converged",
    "Verif.Epp.C60_exact_partial",
    "Verif.Epp.C60_never_adds",
    "Verif.Epp.C60_no_time_once",
    "Verif.Epp.C60_reported",
    "Verif.Epp.C60_fails"
   ],
   "note": "Exact removal for contact nodes on distinct grid nodes; never adds material in any case; once per step without time. Fails for proportions adding to more than one, repeated positions and repeated new-step calls (C60_fails); the documented default of the second proportion raises TypeError (C60_construct)."
  },
  {
   "property": "C61",
   "status": "proved",
   "theorems": [
    "Verif.Cg.C61_converges_within_number_of_entries"
   ],
   "note": "Exact arithmetic."
  },
  {
   "property": "C62",
   "status": "partial",
   "theorems": [
    "Verif.Outputs.C62_at_most_one_per_interval_partial",
    "Verif.Outputs.C62_every_interval_honoured_partial",
    "Verif.Outputs.C62_first_increment_always_written"
   ],
   "note": "Bound and exact count proved. The documented times (multiples of the interval) are not the ones used: the first increment of each step always writes an output (proved)."
  },
  {
   "property": "C63",
   "status": "proved",
   "theorems": [
    "Verif.Steps.C63_checked_outputs_are_saved",
    "Verif.Steps.C63_missing_output_reported"
   ],
   "note": "check_outputs and save_outputs agree: C63_checked_outputs_are_saved, C63_missing_output_reported."
  },
  {
   "property": "C64",
   "status": "proved",
   "theorems": [
    "Verif.Reynolds.C64_converged_sweep_solves_reynolds",
    "Verif.Reynolds.C64_mass_is_not_conserved"
   ],
   "note": "With exact row solves. C64_mass_is_not_conserved shows that the remainder (product of the increments of density and gap) is real: mass is not conserved exactly for varying density."
  },
  {
   "property": "C65",
   "status": "proved",
   "theorems": [
    "Verif.HertzFull.C65_exchange_bodies"
   ],
   "note": "For ordinary materials (positive moduli, Poisson's ratios between -1 and 1)."
  },
  {
   "property": "C66",
   "status": "partial",
   "theorems": [
    "Verif.HertzFull.C66_auxiliary_angle_iff",
    "Verif.HertzFull.C66_auxiliary_angle_partial"
   ],
   "note": "False in general: exact condition in C66_auxiliary_angle_iff (a factor 2 is missing in the code). True for a ball or flat against any body (C66_auxiliary_angle_partial)."
  },
  {
   "property": "C67",
   "status": "partial",
   "theorems": [
    "Verif.HertzFull.C67_point_not_attained",
    "Verif.HertzFull.C67_line_disagree"
   ],
   "note": "False: C67_point_not_attained (all depths, Poisson's ratios from 0 to 1/2) and C67_line_disagree (the two line solvers disagree; solve_hertz_line reports the stress at the centre of the surface)."
  },
  {
   "property": "C68",
   "status": "proved",
   "theorems": [
    "Verif.HertzFull.C68_continuous",
    "Verif.HertzFull.C68_gap_closed",
    "Verif.HertzFull.C68_radial_edge",
    "Verif.HertzFull.C68_radial_continuous"
   ],
   "note": "Exact inside, strict inequality outside, continuity everywhere."
  },
  {
   "property": "C69",
   "status": "partial",
   "theorems": [
    "Verif.HertzFull.C69_axis_limit",
    "Verif.HertzFull.C69_centre_partial",
    "Verif.HertzFull.C69_hoop_stress_at_centre",
    "Verif.HertzFull.C69_normal_stress_is_pressure_partial"
   ],
   "note": "Radial and normal stress agree (partial theorems); the hoop stress has a sign error (C69_hoop_stress_at_centre)."
  },
  {
   "property": "C70",
   "status": "partial",
   "theorems": [
    "Verif.HertzFull.C70_surface_normal_stress",
    "Verif.HertzFull.C70_axis_normal_stress_grows"
   ],
   "note": "False: zero normal stress on the surface (C70_surface_normal_stress) and unbounded growth with depth (C70_axis_normal_stress_grows)."
  },
  {
   "property": "C71",
   "status": "partial",
   "theorems": [
    "Verif.SurfArith.C71_stale_profile",
    "Verif.SurfArith.C71_fresh_partial"
   ],
   "note": "Refuted: C71_stale_profile. Holds for surfaces without memoised interpolator (C71_fresh_partial)."
  },
  {
   "property": "C72",
   "status": "partial",
   "theorems": [
    "Verif.Analytic.C72_heights",
    "Verif.Analytic.C72_combination_moves",
    "Verif.Analytic.C72_number_result_does_not_move",
    "Verif.Analytic.C72_operands_stay_connected"
   ],
   "note": "Heights at the time of the operation and movement of combinations proved. Refuted: results with numbers do not move, and operands stay connected."
  },
  {
   "property": "C73",
   "status": "partial",
   "theorems": [
    "Verif.Rough.C73_never_a_number",
    "Verif.Rough.C73_entries_wrong",
    "Verif.Rough.C73_points_partial",
    "Verif.Rough.C73_valleys_partial"
   ],
   "note": "False: C73_never_a_number (the result is an array for every input), C73_entries_wrong (with concrete heights no entry is the ten point height)."
  },
  {
   "property": "C74",
   "status": "partial",
   "theorems": [
    "Verif.Rough.C74_array",
    "Verif.Rough.C74_wrong",
    "Verif.Rough.C74_below_all_partial",
    "Verif.Rough.C74_void_partial"
   ],
   "note": "False: C74_array (the result has an entry per point), C74_wrong (concrete heights). C74_below_all_partial: for heights below all points all entries are right."
  },
  {
   "property": "C75",
   "status": "partial",
   "theorems": [
    "Verif.Rough.C75_nan",
    "Verif.Rough.C75_array",
    "Verif.Rough.C75_number"
   ],
   "note": "False: C75_nan, C75_array, C75_number give for each kind of mask the points that each function uses."
  },
  {
   "property": "C76",
   "status": "partial",
   "theorems": [
    "Verif.Acf.C76_transposed",
    "Verif.Acf.C76_fails",
    "Verif.Acf.C76_symmetric_partial"
   ],
   "note": "False: arrays and surfaces give the transpose of the layout of the models (C76_fails); symmetric cases agree."
  },
  {
   "property": "C77",
   "status": "partial",
   "theorems": [
    "Verif.Fractal.C77_mean_square_partial",
    "Verif.Fractal.C77_below_sigma"
   ],
   "note": "False: the roughness is always below the requested one because corner entries of the spectrum are set to zero (C77_below_sigma); the exact mean square is proved."
  },
  {
   "property": "C78",
   "status": "partial",
   "theorems": [
    "Verif.Fractal.C78_own_partial",
    "Verif.Fractal.C78_new_fails"
   ],
   "note": "True for the surface itself up to four zeroed entries; false for surfaces returned as new (C78_new_fails)."
  },
  {
   "property": "C79",
   "status": "partial",
   "theorems": [
    "Verif.Perez.C79_spectrum",
    "Verif.Perez.C79_odd_fails",
    "Verif.Perez.C79_roughness"
   ],
   "note": "True for targets that are even functions of the frequency; false otherwise (C79_odd_fails): the magnitude is then the mean over opposite frequencies."
  },
  {
   "property": "C80",
   "status": "partial",
   "theorems": [
    "Verif.Filter.C80_variance_partial",
    "Verif.Filter.C80_fails"
   ],
   "note": "False: the variance is the target times the number of coefficients (C80_variance_partial, C80_fails), because the transfer function is stored as coefficients."
  },
  {
   "property": "C81",
   "status": "partial",
   "theorems": [
    "Verif.Filter.C81_skewness",
    "Verif.Filter.C81_kurtosis_partial",
    "Verif.Filter.C81_excess_kurtosis_fails",
    "Verif.Filter.C81_kurtosis_fails",
    "Verif.Filter.C81_normal_surface_raises"
   ],
   "note": "Skewness right. Kurtosis wrong in both conventions (C81_excess_kurtosis_fails, C81_kurtosis_fails); asking for a normal surface with two equal coefficients raises ZeroDivisionError."
  },
  {
   "property": "C82",
   "status": "partial",
   "theorems": [
    "Verif.Johnson.C82_lognormal_partial",
    "Verif.Johnson.C82_negative_skewness_nan",
    "Verif.Johnson.C82_negative_kurtosis_raises",
    "Verif.Johnson.C82_normal",
    "Verif.Johnson.C82_unbounded",
    "Verif.Johnson.C82_symmetric",
    "Verif.Johnson.C82_errors"
   ],
   "note": "Normal, unbounded (mean, deviation; all four for symmetric) and lognormal with positive skewness proved with integrals against the Gaussian measure. Lognormal with negative skewness gives nan; negative kurtosis without skewness raises. The iterations of su_fit and sb_fit are the subject of C136 and C137."
  },
  {
   "property": "C83",
   "status": "partial",
   "theorems": [
    "Verif.Csv.C83_names_found",
    "Verif.Csv.C83_names_missing",
    "Verif.Csv.C83_fails"
   ],
   "note": "Named variables are found, missing names raise ValueError. The fallbacks of the docstring do not exist and a failing call may set the grid spacing (C83_fails)."
  },
  {
   "property": "C84",
   "status": "partial",
   "theorems": [
    "Verif.HertzFull.C84_radial_stress_partial",
    "Verif.HertzFull.C84_hoop_stress_partial",
    "Verif.HertzFull.C84_hoop_stress_inside",
    "Verif.HertzFull.C84_displacement_sign"
   ],
   "note": "The reported radial displacement has the wrong sign for the reported radial stress (negation); with the other sign the radial stress agrees everywhere and the hoop stress outside of the contact; inside the hoop stress differs by 4 v times the pressure (negation)."
  },
  {
   "property": "C85",
   "status": "partial",
   "theorems": [
    "Verif.Bouss.C85_normal_partial",
    "Verif.Bouss.C85_pair_partial",
    "Verif.Bouss.C85_rectangular_wrong"
   ],
   "note": "Holds on square grids for every offset, one and two bodies (C85_normal_partial, C85_pair_partial). False on rectangular grids: the logarithms use node numbers instead of lengths, and for every pair of different spacings the coefficient of the own cell is too large (C85_rectangular_wrong)."
  },
  {
   "property": "C86",
   "status": "partial",
   "theorems": [
    "Verif.Bouss.C86_components_partial",
    "Verif.Bouss.C86_shear",
    "Verif.Bouss.C86_opposite",
    "Verif.Bouss.C86_reciprocity_wrong",
    "Verif.Bouss.C86_spec_reciprocal",
    "Verif.Bouss.C86_exchange"
   ],
   "note": "On square grids xx, yy, xz, zy are the displacements (C86_components_partial), xy and yx on all grids (C86_shear). zx and yz have the opposite sign (C86_opposite), so that reciprocity fails for every Poisson's ratio other than one half (C86_reciprocity_wrong; the fields themselves are reciprocal, C86_spec_reciprocal). Exchange of the axes: C86_exchange."
  },
  {
   "property": "C87",
   "status": "proved",
   "theorems": [
    "Verif.Bouss.C87_positive",
    "Verif.Bouss.C87_decay"
   ],
   "note": "C87_positive on all grids, C87_decay along both axes on square grids."
  },
  {
   "property": "C88",
   "status": "partial",
   "theorems": [
    "Verif.Bouss.C88_twice_partial",
    "Verif.Bouss.C88_square",
    "Verif.Bouss.C88_documented_wrong",
    "Verif.Bouss.C88_round_trip",
    "Verif.Bouss.C88_load"
   ],
   "note": "The divisor is twice the displacement at the centre of the loaded square, because full instead of half widths are used (C88_twice_partial, C88_documented_wrong). The round trip, the square default and the load are as stated (C88_round_trip, C88_square, C88_load)."
  },
  {
   "property": "C89",
   "status": "partial",
   "theorems": [
    "Verif.Tangential.C89_pure_sliding_partial",
    "Verif.Tangential.C89_replaces",
    "Verif.Tangential.C89_names",
    "Verif.Tangential.C89_refused",
    "Verif.Tangential.C89_zero_direction_wrong",
    "Verif.Tangential.C89_negative_coefficient_wrong",
    "Verif.Tangential.C89_no_normal_load"
   ],
   "note": "Proved for directions that are not zero; the zero vector and negative coefficients are accepted (negations proved)."
  },
  {
   "property": "C90",
   "status": "partial",
   "theorems": [
    "Verif.Tangential.C90_bookkeeping",
    "Verif.Tangential.C90_limits_partial",
    "Verif.Tangential.C90_backward_wrong",
    "Verif.Tangential.C90_gross_sliding_wrong",
    "Verif.Tangential.C90_arguments",
    "Verif.Tangential.C90_prescribed",
    "Verif.Tangential.C90_extrapolation_wrong",
    "Verif.Tangential.C90_table"
   ],
   "note": "Bookkeeping, limits, interpolation and arguments proved. Negations: no displacement or a negative one, gross sliding and extrapolation give wrong results."
  },
  {
   "property": "C91",
   "status": "partial",
   "theorems": [
    "Verif.Stiffness.C91_accepts",
    "Verif.Stiffness.C91_definitions",
    "Verif.Stiffness.C91_names",
    "Verif.Stiffness.C91_names_once",
    "Verif.Stiffness.C91_documented_name_wrong",
    "Verif.Stiffness.C91_tangential_mean_lines_wrong"
   ],
   "note": "Arguments and announced names proved; the documented names lack the border number and the mean line definition is accepted for tangential directions (negations proved)."
  },
  {
   "property": "C92",
   "status": "partial",
   "theorems": [
    "Verif.Stiffness.C92_entries",
    "Verif.Stiffness.C92_call",
    "Verif.Stiffness.C92_loading_below_unloading_partial",
    "Verif.Stiffness.C92_elastic_same",
    "Verif.Stiffness.C92_loading_nodes",
    "Verif.Stiffness.C92_mean_lines_partial",
    "Verif.Stiffness.C92_full_contact",
    "Verif.Stiffness.C92_repeat_wrong",
    "Verif.Stiffness.C92_single_node_wrong",
    "Verif.Stiffness.C92_no_contact",
    "Verif.Stiffness.C92_memory",
    "Verif.Stiffness.C92_border"
   ],
   "note": "The inequalities are proved for exact solutions of the solver; repeated calls from an exact solution and single node contacts give nan (negations proved)."
  },
  {
   "property": "C93",
   "status": "partial",
   "theorems": [
    "Verif.Static.C93_arguments",
    "Verif.Static.C93_interference_partial",
    "Verif.Static.C93_no_contact_wrong",
    "Verif.Static.C93_load",
    "Verif.Static.C93_converged_partial",
    "Verif.Static.C93_relative_wrong",
    "Verif.Static.C93_relative_unloading_wrong",
    "Verif.Static.C93_out_of_reach",
    "Verif.Static.C93_zero_load_wrong",
    "Verif.Static.C93_flat_wrong",
    "Verif.Static.C93_unloading_wrong",
    "Verif.Static.C93_relative_first",
    "Verif.Static.C93_other_materials_wrong"
   ],
   "note": "True: arguments, given interferences, and convergence for loads that are not relative (C93_converged_partial). False: relative loads are compared with the increment, so a step ending exactly at its target is not converged and a decrease always is (C93_relative_wrong, C93_relative_unloading_wrong); a zero load returns the solution at three times the greatest gap (C93_zero_load_wrong); an interference of zero or without contact raises TypeError (C93_no_contact_wrong); unloading after contact raises AttributeError (C93_unloading_wrong); flat surfaces and materials without influence matrices fail (C93_flat_wrong, C93_other_materials_wrong)."
  },
  {
   "property": "C94",
   "status": "partial",
   "theorems": [
    "Verif.Materials.C94_superposition",
    "Verif.Materials.C94_error",
    "Verif.Materials.C94_linear",
    "Verif.Materials.C94_dict_wrong",
    "Verif.Materials.C94_sequence",
    "Verif.Materials.C94_short_wrong",
    "Verif.Materials.C94_shapes",
    "Verif.Materials.C94_spacing",
    "Verif.Materials.C94_elastic",
    "Verif.Materials.C94_no_spacing",
    "Verif.Materials.C94_default_span_wrong"
   ],
   "note": "False for dictionaries (always ValueError), for sequences of other lengths (shorter ones accepted) and, for elastic materials, for the default span (C94_default_span_wrong); the values are proved for tuples and sequences and any span, and for elastic materials for spans of at least twice the shape less one."
  },
  {
   "property": "C95",
   "status": "partial",
   "theorems": [
    "Verif.Materials.C95_dictionary",
    "Verif.Materials.C95_key",
    "Verif.Materials.C95_sequence_wrong",
    "Verif.Materials.C95_sequence_partial",
    "Verif.Materials.C95_length",
    "Verif.Materials.C95_shapes",
    "Verif.Materials.C95_coupled_wrong",
    "Verif.Materials.C95_pair",
    "Verif.Materials.C95_free_nodes",
    "Verif.Materials.C95_reproduces_partial",
    "Verif.Materials.C95_split",
    "Verif.Materials.C95_guess",
    "Verif.Materials.C95_guess_wrong",
    "Verif.Materials.C95_small_wrong"
   ],
   "note": "false for sequences with None, coupled directions and small displacements; within tolerance proved for positive definite matrices (partial, as C12), the rest in general"
  },
  {
   "property": "C96",
   "status": "partial",
   "theorems": [
    "Verif.Materials.C96_totals",
    "Verif.Materials.C96_rigid",
    "Verif.Materials.C96_reverse_wrong",
    "Verif.Materials.C96_options"
   ],
   "note": "False for a reversed direction without loads (TypeError, C96_reverse_wrong); the rest is proved."
  },
  {
   "property": "C97",
   "status": "partial",
   "theorems": [
    "Verif.Interference.C97_stops",
    "Verif.Interference.C97_success",
    "Verif.Interference.C97_no_contact",
    "Verif.Interference.C97_removal_partial",
    "Verif.Interference.C97_removal_wrong",
    "Verif.Interference.C97_iteration",
    "Verif.Interference.C97_callable_partial",
    "Verif.Interference.C97_callable_wrong"
   ],
   "note": "Proved: bound on the calls, meaning of success and failure (C97_success; with a function C97_callable_partial), what one iteration does (C97_iteration), no contact. Not true: the limit on removed nodes (C97_removal_wrong: with a limit below one the slice [-0:] removes all nodes) and the documented callable (two arrays are a ValueError). C97_removal_partial covers limits of at least one."
  },
  {
   "property": "C98",
   "status": "partial",
   "theorems": [
    "Verif.Interference.C98_displacements",
    "Verif.Interference.C98_loads_partial",
    "Verif.Interference.C98_adhesion_wrong",
    "Verif.Interference.C98_one_node_partial",
    "Verif.Interference.C98_one_node_wrong",
    "Verif.Interference.C98_default_guess_wrong",
    "Verif.Interference.C98_arguments_wrong"
   ],
   "note": "Proved: displacements, bounds of the loads, contact nodes, no overlap outside, one contact node with a start near the solution (C98_one_node_partial). Not true: adhesion (no tension is ever returned), the documented guess as array (AttributeError), a callable (TypeError), one contact node (nan, C98_one_node_wrong), the default guess (multiplied by the influence instead of divided, C98_default_guess_wrong). Missing: closure of the gap to within a tolerance on the nodes with load."
  },
  {
   "property": "C99",
   "status": "partial",
   "theorems": [
    "Verif.Files.C99_fresh",
    "Verif.Files.C99_folder_wrong"
   ],
   "note": "Proved for files. Not true for folders with a number as name, which are ignored (C99_folder_wrong)."
  },
  {
   "property": "C100",
   "status": "partial",
   "theorems": [
    "Verif.Quasi.C100_times",
    "Verif.Quasi.C100_refused",
    "Verif.Quasi.C100_fast_wrong",
    "Verif.Quasi.C100_unloading_wrong",
    "Verif.Quasi.C100_unloading_ignored_wrong"
   ],
   "note": "Times, markers and refused arguments proved. fast_ld is not implemented (C100_fast_wrong); unloading fails after a state with contact nodes and does nothing otherwise (C100_unloading_wrong, C100_unloading_ignored_wrong)."
  },
  {
   "property": "C101",
   "status": "partial",
   "theorems": [
    "Verif.Quasi.C101_time_partial",
    "Verif.Quasi.C101_no_time_partial",
    "Verif.Quasi.C101_no_contact_wrong",
    "Verif.Quasi.C101_repeat_wrong",
    "Verif.Quasi.C101_second_wrong"
   ],
   "note": "Proved for interferences with contact, without time dependence if no interference is repeated. Others fail (C101_no_contact_wrong, C101_repeat_wrong); a second run uses the surfaces of the first (C101_second_wrong)."
  },
  {
   "property": "C102",
   "status": "partial",
   "theorems": [
    "Verif.Quasi.C102_cached_wrong",
    "Verif.Quasi.C102_second_wrong",
    "Verif.Quasi.C102_load",
    "Verif.Quasi.C102_converged_partial",
    "Verif.Quasi.C102_height_partial",
    "Verif.Quasi.C102_height_wrong",
    "Verif.Quasi.C102_zero_load_wrong",
    "Verif.Quasi.C102_out_of_reach",
    "Verif.Quasi.C102_in_reach",
    "Verif.Quasi.C102_no_time_partial",
    "Verif.Quasi.C102_other_materials_wrong"
   ],
   "note": "Loads, convergence and reach proved with time dependence; without it C102_no_time_partial. The interference may not be that of the loads (C102_height_wrong); without time dependence a load that was found in an earlier increment is reported with the loads of another height (C102_cached_wrong, C102_second_wrong). A load of zero gives the solution at the upper bound (C102_zero_load_wrong), other materials fail (C102_other_materials_wrong)."
  },
  {
   "property": "C103",
   "status": "proved",
   "theorems": [
    "Verif.LubStep.C103_fits",
    "Verif.LubStep.C103_converged",
    "Verif.LubStep.C103_not_converged",
    "Verif.LubStep.C103_limit",
    "Verif.LubStep.C103_iterations"
   ],
   "note": "C103_fits, C103_converged (with the change of units of pressures invertible and a tolerance of at most one), C103_not_converged, C103_limit, C103_iterations."
  },
  {
   "property": "C104",
   "status": "partial",
   "theorems": [
    "Verif.LubStep.C104_times",
    "Verif.LubStep.C104_runs_iff",
    "Verif.LubStep.C104_interference_wrong",
    "Verif.LubStep.C104_set_interference_wrong",
    "Verif.LubStep.C104_guess_wrong",
    "Verif.LubStep.C104_moves"
   ],
   "note": "True: times, which steps run, direction of the movement in load control. False: the set interference has no effect at all (C104_interference_wrong: the interference stays that of the previous state; C104_set_interference_wrong), and neither has the initial guess (C104_guess_wrong)."
  },
  {
   "property": "C105",
   "status": "partial",
   "theorems": [
    "Verif.LubStep.C105_kept",
    "Verif.LubStep.C105_still_partial",
    "Verif.LubStep.C105_moved_wrong"
   ],
   "note": "False if the surfaces have moved or worn: the kept gap is that of the surfaces at their new place with the displacement and interference of the increment before (C105_kept, C105_moved_wrong). True if nothing has moved (C105_still_partial)."
  },
  {
   "property": "C106",
   "status": "partial",
   "theorems": [
    "Verif.LubStep.C106_second_wrong",
    "Verif.LubStep.C106_later_wrong"
   ],
   "note": "False: the second and each later call raises IndexError, also for other steps, as the lists are attributes of the class."
  },
  {
   "property": "C107",
   "status": "partial",
   "theorems": [
    "Verif.Holes.C107_ends",
    "Verif.Holes.C107_frame_partial",
    "Verif.Holes.C107_bounds",
    "Verif.Holes.C107_all_holes_wrong",
    "Verif.Holes.C107_copy_wrong",
    "Verif.Holes.C107_inverted_wrong",
    "Verif.Holes.C107_threshold_wrong",
    "Verif.Holes.C107_small_threshold_wrong",
    "Verif.Holes.C107_rows_partial",
    "Verif.Holes.C107_mask"
   ],
   "note": "False in general, proved where it holds. Ends within 2 rows + 2 columns + 1 passes of each loop for every profile, C107_ends. A frame of holes around a rectangle whose border lines have few enough holes is removed and nothing else, C107_frame_partial; with a threshold of at least one hole less than a line the result is the smallest rectangle with all values, C107_bounds; with whole rows of holes and any threshold exactly these rows are removed, C107_rows_partial; which values are holes, C107_mask. Negations: a profile of holes only gives IndexError after its values were replaced by zeros, C107_all_holes_wrong; the threshold is compared with the proportion of holes instead of values, C107_threshold_wrong; smaller thresholds give IndexError, nothing left or bad borders for particular patterns, C107_small_threshold_wrong; mk_copy fills the holes of the surface itself with zeros, C107_copy_wrong; an inverted surface has minus the filled profile, C107_inverted_wrong. The inpainting is an arbitrary function."
  },
  {
   "property": "C108",
   "status": "partial",
   "theorems": [
    "Verif.Alicona.C108_header",
    "Verif.Alicona.C108_carriage_wrong",
    "Verif.Alicona.C108_depth",
    "Verif.Alicona.C108_icon_wrong",
    "Verif.Alicona.C108_texture_wrong",
    "Verif.Alicona.C108_columns_wrong"
   ],
   "note": "False for files with icon or texture, proved without. The tags are read for every written header, C108_header; the depth data of files without icon and texture, also with padding and with less than half a column of trailing bytes, C108_depth. Negations: a file with an icon is never read, C108_icon_wrong; nor one with a texture and more than one row, C108_texture_wrong (numpy makes a scalar of a bytes object, which cannot be reshaped; the conversion to a byte is arbitrary); with a texture the number of columns of the depth data is too large, C108_columns_wrong; with carriage returns the planes of a texture are not recognised, C108_carriage_wrong. Simplified: text is decoded byte by byte, offsets are whole numbers."
  },
  {
   "property": "C109",
   "status": "partial",
   "theorems": [
    "Verif.Alicona.C109_number",
    "Verif.Alicona.C109_no_blank_wrong",
    "Verif.Alicona.C109_images_partial",
    "Verif.Alicona.C109_documented_wrong",
    "Verif.Alicona.C109_no_folder_wrong",
    "Verif.Alicona.C109_dots_wrong"
   ],
   "note": "False for the documented names, proved for the names used. The number in brackets or after a blank is found, C109_number; the images with the number directly after the kind come first, then the ones without, C109_images_partial. Negations: 'texture (3).bmp' is not found, C109_documented_wrong; a number without bracket or blank is not found, C109_no_blank_wrong; without a folder the root folder is searched, C109_no_folder_wrong; names with two dots give ValueError, C109_dots_wrong."
  },
  {
   "property": "C110",
   "status": "partial",
   "theorems": [
    "Verif.ContactModel.C110_named",
    "Verif.ContactModel.C110_single",
    "Verif.ContactModel.C110_all",
    "Verif.ContactModel.C110_no_initial",
    "Verif.ContactModel.C110_unknown",
    "Verif.ContactModel.C110_all_name_wrong",
    "Verif.ContactModel.C110_twice_wrong"
   ],
   "note": "Named steps and all: proved, with unknown names (KeyError, earlier steps already changed). Wrong: a step called all cannot be chosen alone; a request for every second increment that is in a step twice is active in every increment."
  },
  {
   "property": "C111",
   "status": "partial",
   "theorems": [
    "Verif.ContactModel.C111_fresh",
    "Verif.ContactModel.C111_made",
    "Verif.ContactModel.C111_kept_partial",
    "Verif.ContactModel.C111_last_wrong",
    "Verif.ContactModel.C111_nested_wrong",
    "Verif.ContactModel.C111_file"
   ],
   "note": "Proved for the model made last and as long as only models without a directory follow. Wrong: all models write to the directory of the last one; a directory below a missing one is not made (ValueError)."
  },
  {
   "property": "C112",
   "status": "partial",
   "theorems": [
    "Verif.ContactModel.C112_error",
    "Verif.ContactModel.C112_warning_partial",
    "Verif.ContactModel.C112_missing_wrong"
   ],
   "note": "Proved with errors, and with warnings if both surfaces are there. Wrong: with warnings a missing surface is an AttributeError."
  },
  {
   "property": "C113",
   "status": "partial",
   "theorems": [
    "Verif.Tst.C113_line",
    "Verif.Tst.C113_stars",
    "Verif.Tst.C113_no_hash",
    "Verif.Tst.C113_not_a_number",
    "Verif.Tst.C113_hash_wrong",
    "Verif.Tst.C113_dollar_wrong"
   ],
   "note": "Round trip for all lines whose parts have none of the marks, lines of stars, lines without a mark. Wrong: # is taken out of values, and what follows a $ in a value is lost."
  },
  {
   "property": "C114",
   "status": "partial",
   "theorems": [
    "Verif.Tst.C114_file",
    "Verif.Tst.C114_data_partial",
    "Verif.Tst.C114_same_name_wrong",
    "Verif.Tst.C114_length_wrong",
    "Verif.Tst.C114_channel_stars"
   ],
   "note": "Round trip of whole files as written by a specification; the list of each channel if names are distinct. Wrong: channels of the same name are mixed in one list; a channel with a length other than eight bytes is an error."
  },
  {
   "property": "C115",
   "status": "proved",
   "theorems": [
    "Verif.Tst.C115_ends",
    "Verif.Tst.C115_short",
    "Verif.Tst.C115_no_channels",
    "Verif.Tst.C115_channel",
    "Verif.Tst.C115_count"
   ],
   "note": "Ends for every sequence of bytes; data cut short are a struct.error."
  },
  {
   "property": "C116",
   "status": "proved",
   "theorems": [
    "Verif.Fractal.C116_law"
   ],
   "note": "Sizes two are left out (the wave vectors are not unwrapped then). The new surface that return_new gives has the same entries in the other order (C78)."
  },
  {
   "property": "C117",
   "status": "partial",
   "theorems": [
    "Verif.Perez.C117_first",
    "Verif.Perez.C117_converged_partial",
    "Verif.Perez.C117_best_wrong",
    "Verif.Perez.C117_fails"
   ],
   "note": "The iteration and its end are as stated (C117_first, C117_fails, C117_converged_partial). Which estimate is used is not: C117_best_wrong shows that with 'best' it is always the other one. C117_converged_partial does not say that the profile is the converged one."
  },
  {
   "property": "C118",
   "status": "proved",
   "theorems": [
    "Verif.Conv.C118_superposition",
    "Verif.Conv.C118_agree",
    "Verif.Conv.C118_calls",
    "Verif.Conv.C118_domain",
    "Verif.Conv.C118_nodes",
    "Verif.Conv.C118_ignore_domain"
   ],
   "note": "C118_agree, C118_superposition (either version), C118_calls (flat inputs), C118_domain and C118_nodes, C118_ignore_domain."
  },
  {
   "property": "C119",
   "status": "partial",
   "theorems": [
    "Verif.Spectra.C119_fft",
    "Verif.Spectra.C119_fft_argument",
    "Verif.Spectra.C119_acf",
    "Verif.Spectra.C119_acf_argument",
    "Verif.Spectra.C119_psd_partial",
    "Verif.Spectra.C119_stale_wrong",
    "Verif.Spectra.C119_replaced_wrong",
    "Verif.Spectra.C119_sign_wrong",
    "Verif.Spectra.C119_mean_wrong",
    "Verif.Spectra.C119_phase_partial"
   ],
   "note": "Proved: get_fft and get_acf (C119_fft, C119_fft_argument, C119_acf) and get_psd when no autocorrelation was stored or it has just been found (C119_psd_partial). Not true: after a new profile get_psd uses the old autocorrelation (C119_stale_wrong, C119_replaced_wrong); the stored spectrum is not real or negative (C119_sign_wrong), also at frequency zero (C119_mean_wrong). For odd sizes it is real up to the phase of the centre (C119_phase_partial)."
  },
  {
   "property": "C120",
   "status": "partial",
   "theorems": [
    "Verif.LowPass.C120_spacing",
    "Verif.LowPass.C120_linear",
    "Verif.LowPass.C120_method",
    "Verif.LowPass.C120_level_wrong",
    "Verif.LowPass.C120_response",
    "Verif.LowPass.C120_moved_wrong"
   ],
   "note": "Proved: spacing, shape, linearity, the exact response, and what the method stores (C120_spacing, C120_linear, C120_response, C120_method). Not true: level surfaces are scaled (C120_level_wrong), and a peak in the middle becomes highest in the corner (C120_moved_wrong), since the kernel is one quarter of the filter with its centre outside."
  },
  {
   "property": "C121",
   "status": "partial",
   "theorems": [
    "Verif.Equal.C121_heights_partial",
    "Verif.Equal.C121_symmetric_partial",
    "Verif.Equal.C121_transitive_partial",
    "Verif.Equal.C121_symmetric_wrong",
    "Verif.Equal.C121_nan_wrong",
    "Verif.Equal.C121_perez_wrong",
    "Verif.Equal.C121_combination_wrong",
    "Verif.Equal.C121_frequencies_wrong",
    "Verif.Equal.C121_filter_wrong",
    "Verif.Equal.C121_moments_partial"
   ],
   "note": "Proved for discrete surfaces: equal exactly for the same heights and spacing, symmetric and transitive (C121_heights_partial, C121_symmetric_partial, C121_transitive_partial). Not true: a Surface equals a discretised analytical surface but not the other way round (C121_symmetric_wrong); nan (C121_nan_wrong); surfaces not discretised: TypeError for RandomPerezSurface (C121_perez_wrong), two equal sums are never equal (C121_combination_wrong), ValueError for arrays of frequencies (C121_frequencies_wrong), different filter surfaces are equal (C121_filter_wrong)."
  },
  {
   "property": "C122",
   "status": "partial",
   "theorems": [
    "Verif.ProbFreq.C122_height_wrong",
    "Verif.ProbFreq.C122_discretise_wrong",
    "Verif.ProbFreq.C122_square_wrong",
    "Verif.ProbFreq.C122_discretise_partial"
   ],
   "note": "Not true: height raises for all coordinates (C122_height_wrong), so that discretise always fails and leaves the surface marked as discrete (C122_discretise_wrong); on square grids it is the ValueError of the comparison of arrays (C122_square_wrong). The method discretise works for height functions with a result (C122_discretise_partial)."
  },
  {
   "property": "C123",
   "status": "partial",
   "theorems": [
    "Verif.SurfaceGeo.C123_refused",
    "Verif.SurfaceGeo.C123_profile_spacing",
    "Verif.SurfaceGeo.C123_profile",
    "Verif.SurfaceGeo.C123_profile_extent",
    "Verif.SurfaceGeo.C123_proportions",
    "Verif.SurfaceGeo.C123_proportions_wrong",
    "Verif.SurfaceGeo.C123_file",
    "Verif.SurfaceGeo.C123_file_error",
    "Verif.SurfaceGeo.C123_spacing_shape",
    "Verif.SurfaceGeo.C123_extent_shape_partial",
    "Verif.SurfaceGeo.C123_spacing_wrong",
    "Verif.SurfaceGeo.C123_short_wrong",
    "Verif.SurfaceGeo.C123_discrete_wrong",
    "Verif.SurfaceGeo.C123_keywords_wrong",
    "Verif.SurfaceGeo.C123_unknown_keyword",
    "Verif.SurfaceGeo.C123_read_surface"
   ],
   "note": "Proved: refused combinations (C123_refused), profile with spacing, extent or nothing (C123_profile_spacing, C123_profile, C123_profile_extent, C123_proportions), files (C123_file, C123_file_error, C123_read_surface), spacing with shape (C123_spacing_shape), extent with shape (C123_extent_shape_partial). Not true: a given spacing is changed if an extent is given too (C123_spacing_wrong, C123_short_wrong), extents of wrong proportions are accepted (C123_proportions_wrong), surfaces without profile are marked as discrete (C123_discrete_wrong), the documented keywords of read_surface are a TypeError (C123_keywords_wrong)."
  },
  {
   "property": "C124",
   "status": "partial",
   "theorems": [
    "Verif.Jacobian.C124_plain",
    "Verif.Jacobian.C124_product_partial",
    "Verif.Jacobian.C124_sign_wrong",
    "Verif.Jacobian.C124_periodic_refused",
    "Verif.Jacobian.C124_periodic",
    "Verif.Jacobian.C124_periodic_partial",
    "Verif.Jacobian.C124_periodic_wrong",
    "Verif.Jacobian.C124_elastic",
    "Verif.Jacobian.C124_text_wrong",
    "Verif.Jacobian.C124_rigid_wrong"
   ],
   "note": "Proved: all entries of the Jacobian (C124_plain, C124_periodic), the product for symmetric components (C124_product_partial), half of the entries of periodic surfaces (C124_periodic_partial), refused sizes (C124_periodic_refused), dictionaries for sequences of names and 'all' (C124_elastic). Not true: the sign of antisymmetric components (C124_sign_wrong), the other half of the periodic entries, which come from the wrong row (C124_periodic_wrong), a component given as text (C124_text_wrong), 'all' for rigid materials (C124_rigid_wrong). The decorated method always fails (C05)."
  },
  {
   "property": "C125",
   "status": "partial",
   "theorems": [
    "Verif.Rough.C125_unmasked_wrong",
    "Verif.Rough.C125_sbi_unmasked_wrong",
    "Verif.Rough.C125_sbi_partial",
    "Verif.Rough.C125_sbi_level_wrong",
    "Verif.Rough.C125_stp_spacing_wrong",
    "Verif.Rough.C125_sci_wrong",
    "Verif.Rough.C125_nothing_kept",
    "Verif.Rough.C125_sci_single_wrong",
    "Verif.Rough.C125_svi_wrong",
    "Verif.Rough.C125_stp_partial",
    "Verif.Rough.C125_stp_scale_wrong",
    "Verif.Rough.C125_stp_area_wrong",
    "Verif.Rough.C125_names_wrong"
   ],
   "note": "Without a mask stp, sci and svi raise an exception for every profile with two rows and columns, sbi for 20 or more columns; sbi uses the height from below; svi uses the points that the mask leaves out; stp compares unscaled heights and divides by the area; Sdelq, Smr and Svr are refused. Proved: the values of sbi and stp with a mask. Missing: the claim itself, which is false."
  },
  {
   "property": "C126",
   "status": "partial",
   "theorems": [
    "Verif.Rough.C126_refused",
    "Verif.Rough.C126_small",
    "Verif.Rough.C126_shape_wrong",
    "Verif.Rough.C126_sal_partial",
    "Verif.Rough.C126_threshold_wrong",
    "Verif.Rough.C126_transposed",
    "Verif.Rough.C126_str_range",
    "Verif.Rough.C126_std_partial",
    "Verif.Rough.C126_std_range_wrong",
    "Verif.Rough.C126_std_mirror_wrong"
   ],
   "note": "Proved: sal for square profiles of even size, range of str, exchange of the axes, the form of std. False: profiles that are not square (IndexError), the threshold is absolute, odd sizes are half a spacing off, the direction of mirrored waves."
  },
  {
   "property": "C127",
   "status": "partial",
   "theorems": [
    "Verif.Filter.C127_autocorrelation",
    "Verif.Filter.C127_first_guess",
    "Verif.Filter.C127_first_guess_symmetric_wrong",
    "Verif.Filter.C127_fit_partial",
    "Verif.Filter.C127_stored",
    "Verif.Filter.C127_unimproved_wrong",
    "Verif.Filter.C127_max_it_wrong",
    "Verif.Filter.C127_failure",
    "Verif.Filter.C127_layout_wrong",
    "Verif.Filter.C127_layout_symmetric_wrong",
    "Verif.Filter.C127_other_sign_wrong"
   ],
   "note": "Proved: the autocorrelation of filtered white noise is that of the filter (also periodic), hence within the root of the objective of the target, for functions and for square filters; symmetric filters for both signs of the lag; shape, spacing and failures; first guess. False: targets from arrays or surfaces with filters that are not square (C127_layout_wrong, C127_layout_symmetric_wrong), the other sign without symmetry (C127_other_sign_wrong), max_it (C127_max_it_wrong), first guess of symmetric filters (C127_first_guess_symmetric_wrong, C127_unimproved_wrong)."
  },
  {
   "property": "C128",
   "status": "partial",
   "theorems": [
    "Verif.Perez.C128_heights_partial",
    "Verif.Perez.C128_drawn",
    "Verif.Perez.C128_size_wrong",
    "Verif.Perez.C128_rows_wrong",
    "Verif.Perez.C128_nested_wrong",
    "Verif.Perez.C128_refused",
    "Verif.Perez.C128_psd_list_wrong",
    "Verif.Perez.C128_target_wrong"
   ],
   "note": "Proved: flat lists and arrays of the right number of heights give surfaces with exactly these heights, distributions those drawn; what is refused. False: nested lists are refused (C128_nested_wrong), arrays of another size (C128_size_wrong) or with as many rows as points (C128_rows_wrong) and targets in lists (C128_psd_list_wrong) are accepted and fail later, the target of the caller is changed (C128_target_wrong)."
  },
  {
   "property": "C129",
   "status": "partial",
   "theorems": [
    "Verif.Ellipse.C129_calls",
    "Verif.Ellipse.C129_domain",
    "Verif.Ellipse.C129_axes",
    "Verif.Ellipse.C129_numbers",
    "Verif.Ellipse.C129_turned",
    "Verif.Ellipse.C129_round_wrong",
    "Verif.Ellipse.C129_longer_axis_partial",
    "Verif.Ellipse.C129_shorter_axis_wrong",
    "Verif.Ellipse.C129_centre_wrong"
   ],
   "note": "Proved: calls do not depend on earlier calls, the domain is the open ellipse, axes of the bodies, the displacement falls along the longer axis. False: ellipk and ellipe get the eccentricity e instead of the parameter e^2, so the value at the centre exceeds the reported deflection of each body, and for b >= 0.911 a the displacement grows along the shorter axis."
  },
  {
   "property": "C130",
   "status": "partial",
   "theorems": [
    "Verif.Ellipse.C130_solved_partial",
    "Verif.Ellipse.C130_convex",
    "Verif.Ellipse.C130_groove_wrong",
    "Verif.Ellipse.C130_closes_partial",
    "Verif.Ellipse.C130_closes_wrong"
   ],
   "note": "Proved: the bracket [1e-5, 1] has a change of sign if the auxiliary angle is a number, convex bodies always have one, and the solution closes the gap exactly if the cross term of the curvatures vanishes. False otherwise (wrong sign under the root, C66), and for bodies in grooves the auxiliary angle is not a number."
  },
  {
   "property": "C131",
   "status": "partial",
   "theorems": [
    "Verif.HertzArgs.C131_radii",
    "Verif.HertzArgs.C131_radii_refused",
    "Verif.HertzArgs.C131_material_partial",
    "Verif.HertzArgs.C131_zero_moduli_wrong",
    "Verif.HertzArgs.C131_material_refused"
   ],
   "note": "Proved: accepted radii and material properties are exactly those standing for two numbers (radii other than zero), and which errors refuse radii. False: zero moduli are never refused because the check asks for the name 'e' while the caller passes 'moduli'."
  },
  {
   "property": "C132",
   "status": "partial",
   "theorems": [
    "Verif.Show.C132_filled",
    "Verif.Show.C132_restored",
    "Verif.Show.C132_assigned_wrong",
    "Verif.Show.C132_fft1d_wrong",
    "Verif.Show.C132_fft1d_error_wrong",
    "Verif.Show.C132_apsd_wrong",
    "Verif.Show.C132_kind_wrong",
    "Verif.Show.C132_ten_wrong",
    "Verif.Show.C132_several_partial",
    "Verif.Show.C132_mesh_partial",
    "Verif.Show.C132_surface_wrong",
    "Verif.Show.C132_profile",
    "Verif.Show.C132_analytical_heights",
    "Verif.Show.C132_heights",
    "Verif.Show.C132_acf",
    "Verif.Show.C132_apsd_partial",
    "Verif.Show.C132_fft1d_partial",
    "Verif.Show.C132_fft1d_order_wrong",
    "Verif.Show.C132_layout"
   ],
   "note": "True parts: C132_filled (only missing spectra are filled), C132_restored (analytical surfaces are as before), C132_several_partial (up to nine plots as if one after another), C132_profile, C132_heights, C132_acf, C132_layout, C132_mesh_partial, C132_apsd_partial, C132_fft1d_partial (square surfaces). False parts: C132_assigned_wrong (a profile assigned to an analytical surface is lost), C132_fft1d_wrong, C132_fft1d_order_wrong, C132_fft1d_error_wrong, C132_apsd_wrong (never shown), C132_kind_wrong (unknown kinds accepted), C132_ten_wrong, C132_surface_wrong (heights over the wrong frequencies)."
  },
  {
   "property": "C133",
   "status": "partial",
   "theorems": [
    "Verif.Elastic.C133_speeds",
    "Verif.Elastic.C133_density_remembered",
    "Verif.Elastic.C133_missing",
    "Verif.Elastic.C133_new_material",
    "Verif.Elastic.C133_density_wrong"
   ],
   "note": "Speeds, constants and densities are right (C133_speeds, C133_density_remembered, C133_missing, C133_new_material). False: densities of zero and below are accepted (C133_density_wrong)."
  },
  {
   "property": "C134",
   "status": "partial",
   "theorems": [
    "Verif.Rough.C134_hidden",
    "Verif.Rough.C134_fit_wrong",
    "Verif.Rough.C134_nan_wrong",
    "Verif.Rough.C134_statistics_wrong",
    "Verif.Rough.C134_erased_wrong",
    "Verif.Rough.C134_inverted_wrong",
    "Verif.Rough.C134_absolute_wrong",
    "Verif.Rough.C134_given",
    "Verif.Rough.C134_spacing",
    "Verif.Rough.C134_plain_partial",
    "Verif.Rough.C134_ratio_partial",
    "Verif.Rough.C134_summits_partial"
   ],
   "note": "True parts: C134_hidden, C134_given (given masks replace the own one), C134_spacing, C134_plain_partial (no mask, not inverted), C134_ratio_partial, C134_summits_partial. False parts: C134_fit_wrong (only the hidden points are fitted and changed), C134_nan_wrong, C134_statistics_wrong, C134_erased_wrong (hidden heights are overwritten), C134_inverted_wrong (flattening turns inverted surfaces upside down), C134_absolute_wrong."
  },
  {
   "property": "C135",
   "status": "partial",
   "theorems": [
    "Verif.Repr.C135_new_partial",
    "Verif.Repr.C135_unshifted_wrong",
    "Verif.Repr.C135_shape_wrong",
    "Verif.Repr.C135_material_wrong",
    "Verif.Repr.C135_rotated_wrong",
    "Verif.Repr.C135_filter_wrong",
    "Verif.Repr.C135_surface_wrong",
    "Verif.Repr.C135_surface_partial",
    "Verif.Repr.C135_empty_partial",
    "Verif.Repr.C135_hurst_wrong",
    "Verif.Repr.C135_bracket_wrong"
   ],
   "note": "True parts: C135_new_partial (new analytical surfaces that are shifted or have no extent), C135_surface_partial, C135_empty_partial. False parts: C135_unshifted_wrong, C135_shape_wrong, C135_material_wrong, C135_rotated_wrong, C135_filter_wrong, C135_surface_wrong, C135_hurst_wrong, C135_bracket_wrong."
  },
  {
   "property": "C136",
   "status": "partial",
   "theorems": [
    "Verif.Johnson.C136_first",
    "Verif.Johnson.C136_end_partial",
    "Verif.Johnson.C136_kurtosis_wrong",
    "Verif.Johnson.C136_case_wrong"
   ],
   "note": "Proved: C136_first (the first estimate is real and above one in the whole region), C136_end_partial (every run that ends has found a distribution with exactly the kurtosis asked for and the squared skewness within the tolerance; if the skewness is hit exactly, it is the one returned). False for the distribution returned: w is updated once more after the last test while m is kept, so the kurtosis is the one asked for only if the skewness is hit exactly (C136_kurtosis_wrong for all runs, C136_case_wrong a complete run). Missing: that the iteration ends."
  },
  {
   "property": "C137",
   "status": "partial",
   "theorems": [
    "Verif.Johnson.C137_kurtosis_derivatives_partial",
    "Verif.Johnson.C137_skewness_derivative_wrong",
    "Verif.Johnson.C137_symmetric_derivative_wrong",
    "Verif.Johnson.C137_end_partial",
    "Verif.Johnson.C137_first_partial",
    "Verif.Johnson.C137_first_wrong"
   ],
   "note": "C137_kurtosis_derivatives_partial: both derivatives of the kurtosis are right. C137_skewness_derivative_wrong / C137_symmetric_derivative_wrong: the derivative of the skewness is right only on an exceptional set (a product where a difference is meant), never at gamma = 0. C137_end_partial: the residuals when the iteration ends, for any function in the place of get_moments. C137_first_partial: first estimate positive for skewnesses up to 300; C137_first_wrong: negative for enormous ones. Convergence is not proved."
  },
  {
   "property": "C138",
   "status": "partial",
   "theorems": [
    "Verif.Johnson.C138_nonpositive",
    "Verif.Johnson.C138_failures",
    "Verif.Johnson.C138_left_out_partial",
    "Verif.Johnson.C138_left_out_wrong",
    "Verif.Johnson.C138_returns",
    "Verif.Johnson.C138_sum",
    "Verif.Johnson.C138_order"
   ],
   "note": "C138_sum, C138_order, C138_returns, C138_nonpositive, C138_failures hold as stated. C138_left_out_partial: points left out are negligible for gamma/delta ≤ 5 only; C138_left_out_wrong: for gamma/delta > 23.7 and delta ≥ 3 the mean misses more than 2 %. The error of the sum against the integral is not bounded in general."
  },
  {
   "property": "C139",
   "status": "partial",
   "theorems": [
    "Verif.JohnsonSL.C139_inverse",
    "Verif.JohnsonSL.C139_increasing",
    "Verif.JohnsonSL.C139_refused",
    "Verif.JohnsonSL.C139_density_wrong",
    "Verif.JohnsonSL.C139_total_wrong",
    "Verif.JohnsonSL.C139_not_one_wrong",
    "Verif.JohnsonSL.C139_support_wrong"
   ],
   "note": "True parts: C139_inverse, C139_increasing, C139_refused. False parts: C139_density_wrong (both densities differ from the derivative everywhere but at one point), C139_total_wrong and C139_not_one_wrong (they do not integrate to 1), C139_support_wrong (values above the declared end 1)."
  },
  {
   "property": "C140",
   "status": "partial",
   "theorems": [
    "Verif.FilterState.C140_given",
    "Verif.FilterState.C140_default",
    "Verif.FilterState.C140_ignored_wrong",
    "Verif.FilterState.C140_failed_wrong",
    "Verif.FilterState.C140_moments_failed_wrong",
    "Verif.FilterState.C140_stale_wrong",
    "Verif.FilterState.C140_quantiles_wrong",
    "Verif.FilterState.C140_discretise",
    "Verif.FilterState.C140_discretise_raises"
   ],
   "note": "True for a given target of type ACF, for the defaults and for discretise. False: a target of another type is ignored, failing calls leave a changed name, spacing or moments, a new filter leaves the distribution of the old one, and set_quantiles only keeps the shape of the distribution."
  },
  {
   "property": "C141",
   "status": "partial",
   "theorems": [
    "Verif.ReynoldsNew.C141_kernel",
    "Verif.ReynoldsNew.C141_order",
    "Verif.ReynoldsNew.C141_units_partial",
    "Verif.ReynoldsNew.C141_units_wrong",
    "Verif.ReynoldsNew.C141_directions",
    "Verif.ReynoldsNew.C141_steps",
    "Verif.ReynoldsNew.C141_check",
    "Verif.ReynoldsNew.C141_check_wrong"
   ],
   "note": "Proved: the coefficients are 2/π² times the integral of 1/r over unit cells, positive and falling, 3 ak10 < ak00 (C141_kernel, C141_order); sweep directions, missing speed (C141_directions, C141_steps); what the check asks for (C141_check). False: the rows use the coefficients without the factor of the non-dimensional spacing, so that they are the changes of the gap only if the spacing is 1 (C141_units_wrong; with the factor: C141_units_partial); the check forgets what was there (C141_check_wrong)."
  },
  {
   "property": "C142",
   "status": "partial",
   "theorems": [
    "Verif.ReynoldsNew.C142_one_solution",
    "Verif.ReynoldsNew.C142_ends",
    "Verif.ReynoldsNew.C142_determined",
    "Verif.ReynoldsNew.C142_backwards_wrong"
   ],
   "note": "Proved for positive speeds: exactly one solution for every right-hand side (C142_one_solution), zero at both ends (C142_ends), result of a sweep independent of the linear solver (C142_determined). False for negative speeds: for each spacing there is a negative speed parameter with a singular system (C142_backwards_wrong)."
  },
  {
   "property": "C143",
   "status": "partial",
   "theorems": [
    "Verif.AcfNew.C143_names",
    "Verif.AcfNew.C143_more_arguments",
    "Verif.AcfNew.C143_exponential_partial",
    "Verif.AcfNew.C143_documented_wrong",
    "Verif.AcfNew.C143_arrays",
    "Verif.AcfNew.C143_not_an_array",
    "Verif.AcfNew.C143_spacing_wrong",
    "Verif.AcfNew.C143_callables_wrong",
    "Verif.AcfNew.C143_array"
   ],
   "note": "Proved: which names work (C143_names), exponential functions with three numbers (C143_exponential_partial), arrays and surfaces (C143_arrays), conversion to arrays (C143_array), ignored further arguments (C143_more_arguments). False: the documented example can be made but never evaluated (C143_documented_wrong); a missing spacing is reported differently for surfaces (C143_spacing_wrong); callable objects that are no functions are refused with IndexError (C143_callables_wrong)."
  },
  {
   "property": "C144",
   "status": "partial",
   "theorems": [
    "Verif.LubCheck.C144_passes",
    "Verif.LubCheck.C144_warnings_wrong",
    "Verif.LubCheck.C144_given",
    "Verif.LubCheck.C144_refused_wrong",
    "Verif.LubCheck.C144_delivers",
    "Verif.LubCheck.C144_deleted_wrong",
    "Verif.LubCheck.C144_first_evaluation_partial",
    "Verif.LubCheck.C144_gap_wrong"
   ],
   "note": "Proved: when the check passes (C144_passes), the solver is given what it requires (C144_given), declared and delivered names agree (C144_delivers), first evaluation for lubricants whose own check accepts the first names (C144_first_evaluation_partial). False: with warnings instead of errors missing parts raise AttributeError (C144_warnings_wrong); solvers that require the pressure or gap are refused (C144_refused_wrong); lubricants that need the gap fail at first (C144_gap_wrong); a sub model called total_displacement_z is deleted (C144_deleted_wrong)."
  },
  {
   "property": "C145",
   "status": "partial",
   "theorems": [
    "Verif.Mixed.C145_sum_partial",
    "Verif.Mixed.C145_coarse_wrong",
    "Verif.Mixed.C145_order_wrong",
    "Verif.Mixed.C145_discrete",
    "Verif.Mixed.C145_numbers",
    "Verif.Mixed.C145_division_wrong",
    "Verif.Mixed.C145_left_wrong"
   ],
   "note": "Proved: an analytical plus a measured surface if the spacing of the analytical one is not larger than the measured surface (C145_sum_partial), discrete analytical surfaces in all orders (C145_discrete), numbers on the right (C145_numbers). False: coarse analytical surfaces (ZeroDivisionError, C145_coarse_wrong), the other order and both differences always raise (C145_order_wrong), division always raises TypeError because the method has the name of Python 2 (C145_division_wrong), numbers on the left (C145_left_wrong). Scalars and arrays of numpy are not modelled."
  },
  {
   "property": "C146",
   "status": "partial",
   "theorems": [
    "Verif.Outputs.C146_search",
    "Verif.Outputs.C146_arrays",
    "Verif.Outputs.C146_read_once",
    "Verif.Outputs.C146_lazy_wrong"
   ],
   "note": "Proved: searches (C146_search, for fields with numbers and strings), arrays never match (C146_arrays), an array that has been read keeps its values (C146_read_once). False: an array that has not been read gives the values of a later run with the same name (C146_lazy_wrong)."
  },
  {
   "property": "C147",
   "status": "partial",
   "theorems": [
    "Verif.SlipMemo.C147_unchanged_partial",
    "Verif.SlipMemo.C147_refused",
    "Verif.SlipMemo.C147_changed_wrong",
    "Verif.SlipMemo.C147_spacing_wrong"
   ],
   "note": "Proved for surfaces that stay the same and have equal spacings (C147_unchanged_partial), refused materials (C147_refused). False: after a change of materials or spacing with the same span the old matrices are used (C147_changed_wrong); the second material is evaluated with the spacing of the first surface (C147_spacing_wrong)."
  },
  {
   "property": "C148",
   "status": "partial",
   "theorems": [
    "Verif.HeightResults.C148_results_partial",
    "Verif.HeightResults.C148_again",
    "Verif.HeightResults.C148_cached_wrong",
    "Verif.HeightResults.C148_no_contact_wrong",
    "Verif.HeightResults.C148_single_wrong",
    "Verif.HeightResults.C148_none",
    "Verif.HeightResults.C148_other_materials_wrong"
   ],
   "note": "Proved: for every history, after a call for a height that is not in the cache and has contact nodes, the results are one contact solution at that height whose load is the one compared with the set load; cached calls, clearing and reading do not change them, reading twice gives the same, and a change of the load removes them. The claim is false for the last call in general: a call answered from the cache leaves the results of an earlier height (C148_cached_wrong); a call without contact nodes leaves the loads of an earlier height but plans the convolution for no nodes, so that reading raises ValueError (C148_no_contact_wrong) or, for a single loaded node, gives a total displacement of zero (C148_single_wrong); for other materials every call raises (C148_other_materials_wrong)."
  },
  {
   "property": "C149",
   "status": "partial",
   "theorems": [
    "Verif.HeightResults.C149_near_partial",
    "Verif.HeightResults.C149_far_wrong",
    "Verif.HeightResults.C149_solver_wrong",
    "Verif.HeightResults.C149_periodic"
   ],
   "note": "C149_near_partial: at nodes with all loaded nodes within half the grid, and at all contact nodes of a contact no wider than half the grid, the displacements reported are those of the two half spaces. Negations: C149_far_wrong (zero displacement at nodes more than half the grid away from the loads, where both bodies settle), C149_solver_wrong (the same for the operator given to the solver). C149_periodic: on periodic axes the nearest images count. One periodic axis only: not stated. The rounding of floating point numbers is not modelled."
  },
  {
   "property": "C150",
   "status": "partial",
   "theorems": [
    "Verif.Contact.C150_one_solution",
    "Verif.Contact.C150_distance_partial",
    "Verif.Contact.C150_tolerance_wrong"
   ],
   "note": "The contact problem has exactly one solution. The distance of a success from it is bounded by the residuals at the free nodes, but the tolerance does not bound these: for every tolerance there are two nodes with a success and both pressures off by 0.9 and more."
  },
  {
   "property": "C151",
   "status": "proved",
   "theorems": [
    "Verif.HeightResults.C151_value",
    "Verif.HeightResults.C151_rises",
    "Verif.HeightResults.C151_one_height",
    "Verif.HeightResults.C151_reached",
    "Verif.HeightResults.C151_bracket"
   ],
   "note": "For a solver that solves the contact problem at every height (its quality is the matter of C13, C14 and C150) and nodes that are never fixed with change_load."
  },
  {
   "property": "C152",
   "status": "proved",
   "theorems": [
    "Verif.LoadControl.C152_carried",
    "Verif.LoadControl.C152_one_contact",
    "Verif.LoadControl.C152_one_height",
    "Verif.LoadControl.C152_static",
    "Verif.LoadControl.C152_reach",
    "Verif.LoadControl.C152_refused"
   ],
   "note": "C152_carried, C152_one_contact, C152_one_height for the contact problem; C152_reach and C152_refused (for every bracket there are loads that the contact carries and the step refuses), C152_static for the state. The heights tried by the root finder are arbitrary."
  },
  {
   "property": "C153",
   "status": "proved",
   "theorems": [
    "Verif.Definite.C153_interference",
    "Verif.Definite.C153_loads",
    "Verif.Definite.C153_pair",
    "Verif.Definite.C153_work",
    "Verif.Definite.C153_reciprocal",
    "Verif.Definite.C153_one_contact",
    "Verif.Definite.C153_search",
    "Verif.Definite.C153_results"
   ],
   "note": "Definiteness, reciprocity, one contact, loads from displacements of one or two materials, set interference, height search with contact nodes within half the grid (exact solver as hypothesis). Real arithmetic; the truncated matrices of the height search for wider contacts are not covered, C149."
  },
  {
   "property": "C154",
   "status": "proved",
   "theorems": [
    "Verif.Definite.C154_definite",
    "Verif.Definite.C154_symmetric",
    "Verif.Definite.C154_square",
    "Verif.Definite.C154_work",
    "Verif.Definite.C154_reciprocal",
    "Verif.Definite.C154_loads",
    "Verif.Definite.C154_half_space",
    "Verif.Definite.C154_pair"
   ],
   "note": "Coefficients, work, reciprocity, loads for one and two materials; hypotheses: shear moduli positive, Poisson's ratios below one, span at least twice the grid."
  },
  {
   "property": "C155",
   "status": "partial",
   "theorems": [
    "Verif.ReynoldsNew.C155_surplus_partial",
    "Verif.ReynoldsNew.C155_lowest_partial",
    "Verif.ReynoldsNew.C155_positive_wrong",
    "Verif.ReynoldsNew.C155_zero_wrong"
   ],
   "note": "False: each row system is solved without bounds and clipped afterwards, so that the equation beside a clipped node is solved with the negative value: C155_positive_wrong (a node with positive pressure at which the equation does not hold), C155_zero_wrong (no pressure at all in a film whose gap narrows at a node). Proved: the residual is exactly what the clipped parts contribute (C155_surplus_partial), it has the right sign at the lowest node of a broken film (C155_lowest_partial); where neither the node nor its neighbours are clipped the equation holds (C64)."
  },
  {
   "property": "C156",
   "status": "proved",
   "theorems": [
    "Verif.LoadControl.C156_state",
    "Verif.LoadControl.C156_no_memory",
    "Verif.LoadControl.C156_order",
    "Verif.LoadControl.C156_static",
    "Verif.LoadControl.C156_converged"
   ],
   "note": "Under the conditions of C151 (Ideal: positive definite influence matrices, exact contact solver); C153 gives the definiteness for the matrices of the code. The height meant is the one that the loads were solved at (solvedAt), which need not be the interference that is reported, see C102_height_wrong."
  },
  {
   "property": "C157",
   "status": "partial",
   "theorems": [
    "Verif.Again.C157_time_partial",
    "Verif.Again.C157_lubrication",
    "Verif.Again.C157_true",
    "Verif.Again.C157_no_time_wrong",
    "Verif.Again.C157_outputs_partial",
    "Verif.Again.C157_interval",
    "Verif.Again.C157_interval_wrong",
    "Verif.Again.C157_global_wrong"
   ],
   "note": "True for quasi static steps with time dependence (C157_time_partial), lubrication steps (C157_lubrication) and requests for step times, numbers of outputs per step and time intervals (C157_outputs_partial). False: without time dependence a step with a set interference raises in the second call (C157_no_time_wrong); requests for every n-th increment go on counting (C157_interval exact, C157_interval_wrong); global times are used up (C157_global_wrong). In every call the states hold the loads of the contact at their heights (C157_true)."
  },
  {
   "property": "C158",
   "status": "partial",
   "theorems": [
    "Verif.HertzFull.C158_depth_partial",
    "Verif.HertzFull.C158_sphere_wrong",
    "Verif.HertzFull.C158_point_wrong",
    "Verif.HertzFull.C158_line_wrong",
    "Verif.HertzFull.C158_line_solution_partial"
   ],
   "note": "The depth that hertz_full reports for point contacts is where the shear stress on the axis is greatest, and the stress that solve_hertz_line reports is right to one part in a thousand. False otherwise: the stress of hertz_full for point contacts is too great by half the Poisson's ratio times the greatest pressure, the one of solve_hertz_point exceeds the shear stress at all points of the axis (Poisson's ratio of at least 0), and the one of hertz_full for line contacts is at most half of the shear stress at the depth it reports."
  },
  {
   "property": "C159",
   "status": "proved",
   "theorems": [
    "Verif.RunFiles.C159_log",
    "Verif.RunFiles.C159_verbose",
    "Verif.RunFiles.C159_ended",
    "Verif.RunFiles.C159_stdout",
    "Verif.RunFiles.C159_closed",
    "Verif.RunFiles.C159_directory"
   ],
   "note": "Also: a directory with the name of the file for arrays leaves the database open (C159_directory), because the exception is raised within __enter__."
  },
  {
   "property": "C160",
   "status": "partial",
   "theorems": [
    "Verif.SlipMemo.C160_deformation_partial",
    "Verif.SlipMemo.C160_unique_partial",
    "Verif.SlipMemo.C160_far_wrong",
    "Verif.SlipMemo.C160_reciprocity_wrong",
    "Verif.Stiffness.C160_stick_slip_partial"
   ],
   "note": "False of the code: the influence matrices have the span of the grid (tangential_partial_slip.py l.104), so that loads more than half the grid away on one axis have no effect (C160_far_wrong: the deformation is then strictly smaller than that of the half spaces), and on grids with an even number of rows the matrix is not even reciprocal (C160_reciprocity_wrong). Proved: at nodes less than half the grid away from all contact nodes the deformation is that of the two half spaces (C160_deformation_partial); for compact contacts loads that deform the contact equally are equal (C160_unique_partial), and the problem of stick and slip has exactly one solution, that of the half spaces (C160_stick_slip_partial)."
  },
  {
   "property": "C161",
   "status": "partial",
   "theorems": [
    "Verif.Stiffness.C161_plan",
    "Verif.Stiffness.C161_far_points_partial",
    "Verif.Stiffness.C161_tolerance_partial",
    "Verif.Stiffness.C161_loading_partial",
    "Verif.Stiffness.C161_mean_lines_wrong"
   ],
   "note": "False of the code: the influence matrices have the span of the (cropped) grid (contact_stiffness.py l.120), so that displacements more than half the grid away from a load are counted as gap and the mean line stiffness reported is strictly smaller than that of the half spaces under the same loads (C161_mean_lines_wrong). Proved: the plan succeeds (C161_plan), for contacts whose nodes are less than half the grid apart the problem solved by the code has exactly one solution and it is that of the half spaces (C161_far_points_partial), and loads that solve it up to a relative error give the far point stiffness up to a factor close to one (C161_tolerance_partial)."
  },
  {
   "property": "C162",
   "status": "partial",
   "theorems": [
    "Verif.SubNames.C162_honest_partial",
    "Verif.SubNames.C162_sliding_wrong",
    "Verif.SubNames.C162_sliding_partial",
    "Verif.SubNames.C162_slip_wrong",
    "Verif.SubNames.C162_slip_partial",
    "Verif.SubNames.C162_wear_wrong",
    "Verif.SubNames.C162_wear_partial",
    "Verif.SubNames.C162_not_honest_wrong",
    "Verif.SubNames.C162_lubrication_wrong",
    "Verif.SubNames.C162_steps_partial",
    "Verif.SubNames.C162_lubrication_partial"
   ],
   "note": "Coulomb friction and the contact stiffness are as declared (C162_honest_partial). False for pure sliding (reads the loads), partial slip (returns the whole state, and never returns under load control) and wear (reads loads, contact nodes and gap; returns the state unchanged without convergence): C162_sliding_wrong, C162_slip_wrong, C162_wear_wrong; in lubrication steps wear passes the data check and then raises KeyError (C162_lubrication_wrong). Proved otherwise: on static and quasi static steps every list of built-in sub models (no load controlled partial slip) that passes the data check solves (C162_steps_partial)."
  },
  {
   "property": "C163",
   "status": "partial",
   "theorems": [
    "Verif.ReynoldsNew.C163_balance_partial",
    "Verif.ReynoldsNew.C163_constant_density_partial",
    "Verif.ReynoldsNew.C163_created_wrong",
    "Verif.ReynoldsNew.C163_sections_partial",
    "Verif.ReynoldsNew.C163_time_partial"
   ],
   "note": "False for lubricants of varying density: the increments of density and gap are taken one-sided in both factors, so their product appears in every cell (C163_balance_partial); in a steady inlet (gap narrows, density rises) lubricant is created (C163_created_wrong). True for constant density (C163_constant_density_partial, C163_sections_partial for periodic films). Over time with the products as the only error (C163_time_partial). Exact row solves; unbroken film (beside broken film see C155)."
  },
  {
   "property": "C164",
   "status": "partial",
   "theorems": [
    "Verif.Bccg.C164_units_partial",
    "Verif.Bccg.C164_threshold_wrong",
    "Verif.Bccg.C164_coefficients_partial",
    "Verif.Bccg.C164_similar_bodies_partial"
   ],
   "note": "Proved: the influence coefficients of every component scale with the ratio of the factors of length and modulus, for one and two elastic bodies; two calls of the solver that are the same contact in other units make the same iterations, with the same verdict, iteration count and bound nodes, and their pressures and residuals differ by the units only, provided no pressure or residual met on the way lies between the fixed threshold 1e-14 of the one and of the other system of units; with the coefficients this gives similar contacts of elastic bodies. False without that condition: the threshold has no unit, and a pair of calls that are the same contact in units differing by 1000 is given for which the one converges in one iteration (with a negative pressure) and the other fails with nan for every iteration limit. Exact arithmetic with infinities and nan, no rounding."
  },
  {
   "property": "C165",
   "status": "proved",
   "theorems": [
    "Verif.Bccg.C165_renamed",
    "Verif.Bccg.C165_moved",
    "Verif.Bccg.C165_symmetric",
    "Verif.Bccg.C165_exchanged",
    "Verif.Bccg.C165_periodic"
   ],
   "note": "For every renaming of the nodes and every law, in exact arithmetic with infinities and nan: same iterations, verdict, count, pressures, residuals and bound nodes. For contacts of elastic bodies with the coefficients of elastic_influence_matrix: translations by whole cells, reflections, half turns, exchange of the axes; symmetric data give symmetric pressures. For periodic grids: cyclic translations with any kernel. Rounding, for which sums depend on the order of the nodes, is outside."
  },
  {
   "property": "C166",
   "status": "partial",
   "theorems": [
    "Verif.Exchange.C166_gap_partial",
    "Verif.Exchange.C166_gap_periodic_partial",
    "Verif.Exchange.C166_size_wrong",
    "Verif.Exchange.C166_analytic_wrong",
    "Verif.Exchange.C166_interference_partial",
    "Verif.Exchange.C166_solve_partial",
    "Verif.Exchange.C166_search"
   ],
   "note": "Proved for surfaces of the same grid and off sets of whole cells, with and without periodicity (C166_gap_partial, C166_gap_periodic_partial, the latter for less than 2^52 points per axis), for influence matrix materials whose matrices can be found and whose greatest loads are not nan (C166_interference_partial, C166_solve_partial), and for every history of the search object (C166_search). False for surfaces of different size (C166_size_wrong: the larger one is refused as surface 1 unless the surfaces are periodic) and for analytic surfaces (C166_analytic_wrong: accepted as surface 2 only). Not treated: materials that are not influence matrix materials, for which the code uses the method of the first one only."
  },
  {
   "property": "C167",
   "status": "proved",
   "theorems": [
    "Verif.Exchange.C167_interference",
    "Verif.Exchange.C167_shares",
    "Verif.Exchange.C167_search"
   ],
   "note": "In the height search the solver and the cache entry for the greatest load are arbitrary functions of the sum of the matrices; real arithmetic. C167_shares is for a set interference and finite loads."
  },
  {
   "property": "C168",
   "status": "proved",
   "theorems": [
    "Verif.Rough.C168_raw",
    "Verif.Rough.C168_quarter",
    "Verif.Rough.C168_flattened"
   ],
   "note": "Nine parameters (sq, sa, ssk, sku, sv, sds, sz, ssc, sdr), without low pass filter. With flattening the two fits are assumed to succeed and the heights used to be numbers; least squares is an oracle with the contract of C50."
  },
  {
   "property": "C169",
   "status": "partial",
   "theorems": [
    "Verif.Rough.C169_masked_partial",
    "Verif.Rough.C169_flattened_partial",
    "Verif.Rough.C169_unmasked_wrong",
    "Verif.Rough.C169_str_wrong"
   ],
   "note": "True for stp, sbi, sci and svi with a mask (arrays up to order), with and without flattening. False without a mask: sbi is made from one row, so reversing the rows changes it (C169_unmasked_wrong). False for str: with an odd number of points a diagonal texture and its mirror image have different ratios (C169_str_wrong). That str and sal are the same for exchanged axes of a square surface is in C126, that std is not mirrored also."
  },
  {
   "property": "C170",
   "status": "partial",
   "theorems": [
    "Verif.Rough.C170_unmasked",
    "Verif.Rough.C170_masked_partial",
    "Verif.Rough.C170_summits_wrong"
   ],
   "note": "True without a mask (C170_unmasked), and with a mask for the parameters made from the heights used only (C170_masked_partial). False for the density of summits with a mask (C170_summits_wrong): only the points used are flattened, and the search for summits leaves them out."
  },
  {
   "property": "C171",
   "status": "partial",
   "theorems": [
    "Verif.Rough.C171_raw_partial",
    "Verif.Rough.C171_flattened_partial",
    "Verif.Rough.C171_density_wrong"
   ],
   "note": "True for all parameters modelled in Params but the density of summits (C171_raw_partial, C171_flattened_partial). False for the density of summits, which is a number for each point (C171_density_wrong)."
  },
  {
   "property": "C172",
   "status": "partial",
   "theorems": [
    "Verif.Hertz.C172_line_partial",
    "Verif.Hertz.C172_point_partial",
    "Verif.Hertz.C172_ratios_wrong"
   ],
   "note": "True (C172_line_partial, C172_point_partial) unless both Poisson's ratios are to be found from an argument other than the tensile stress, where the code is not homogeneous (C172_ratios_wrong). Not covered: one material parameter from the tensile stress, which is left to a numerical search that starts at a fixed number."
  },
  {
   "property": "C173",
   "status": "partial",
   "theorems": [
    "Verif.Ellipse.C173_ellipse_displacement",
    "Verif.HertzFull.C173_results_partial",
    "Verif.HertzFull.C173_mean_wrong",
    "Verif.HertzFull.C173_fields",
    "Verif.HertzFull.C173_line_stress_wrong"
   ],
   "note": "Proved for the exceptions, shape, angles, radii, area, maximum pressure, deflection and the pressure at each point of all three kinds of contacts, the mean pressure of line and round contacts, the displacements and stresses of round contacts, the displacements of elliptical contacts, the greatest shear stresses with their depths and the von Mises stress of a line contact. False for the mean pressure of an elliptical contact, which is divided by the area twice (l.751), and for the stresses inside a line contact, where a root is missing."
  },
  {
   "property": "C174",
   "status": "proved",
   "theorems": [
    "Verif.Ellipse.C174_one_root",
    "Verif.Ellipse.C174_accuracy",
    "Verif.Ellipse.C174_finders"
   ],
   "note": "The equation for all cosines of the auxiliary angle, the results for all contacts that meet the condition of C130 on the curvatures, as all convex bodies do. A search that stops early is as close to the one root as its last bracket is wide. Other bodies may have no auxiliary angle at all (C130_groove_wrong). The integrals are taken to be exact; brentq is any function that returns a root in the interval if the sign changes."
  },
  {
   "property": "C175",
   "status": "partial",
   "theorems": [
    "Verif.Ellipse.C175_ellipse_displacement",
    "Verif.HertzFull.C175_exceptions",
    "Verif.HertzFull.C175_point_partial",
    "Verif.HertzFull.C175_line_partial",
    "Verif.HertzFull.C175_mean_wrong",
    "Verif.HertzFull.C175_line_deflection",
    "Verif.HertzFull.C175_fields"
   ],
   "note": "Proved for all results that are modelled, with the displacements of round and elliptical contacts and the stresses of round contacts, but for two: the mean pressure of an elliptical contact falls when the load grows (it is divided by the area twice, l.751), and the deflection of a line contact grows with the load only up to 4 pi E R / e^2 and falls above. The stresses inside a line contact are not covered (they do not depend on lengths consistently, C173)."
  },
  {
   "property": "C176",
   "status": "partial",
   "theorems": [
    "Verif.Ellipse.C176_becomes_round_partial",
    "Verif.Ellipse.C176_mean_wrong",
    "Verif.Ellipse.C176_round"
   ],
   "note": "Proved for the two radii, the maximum pressure and the deflection, uniformly in the bodies, as the cosine of the auxiliary angle goes to zero; the area follows. False for the mean pressure (C176_mean_wrong), because that of an elliptical contact is divided by the area twice (C36). Missing: the fields inside the bodies. The displacement of an exactly round closure is nan (C129_round_wrong). Integrals and roots are taken to be exact."
  },
  {
   "property": "C177",
   "status": "partial",
   "theorems": [
    "Verif.Ellipse.C177_longer_partial",
    "Verif.Ellipse.C177_same_shape_partial",
    "Verif.Ellipse.C177_curvatures_partial",
    "Verif.Ellipse.C177_same_curvatures_wrong"
   ],
   "note": "Proved that the contact with the greater cosine of the auxiliary angle has the longer ellipse, that equal cosines give equal shapes, and both bounds for all bodies whose auxiliary angle is right (C66 says which). False for other bodies: two pairs with the same ratio of the principal relative curvatures have contact ellipses of different shape, because the auxiliary angle lacks a factor of two. Integrals and roots are taken to be exact."
  }
 ]
}