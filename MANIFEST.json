{
 "claims": [
  {
   "property": "C01",
   "status": "proved",
   "theorems": [
    "BP.C01_ab_matrix_realises_eom",
    "BP.C01_singular_mass_matrix_excluded"
   ],
   "note": ""
  },
  {
   "property": "C02",
   "status": "proved",
   "theorems": [
    "BP.C02_eigenvalues_are_roots",
    "BP.C02_eigenvalues_reverse_with_speed"
   ],
   "note": ""
  },
  {
   "property": "C03",
   "status": "proved",
   "theorems": [
    "BP.C03_canonical_structure",
    "BP.C03_canonical_depends_only_on_its_keys",
    "BP.C03_ignored_keys"
   ],
   "note": ""
  },
  {
   "property": "C04",
   "status": "proved",
   "theorems": [
    "BP.C04_mass_matrix_is_kinetic_energy",
    "BP.C04_mass_matrix_psd",
    "BP.C04_mass_matrix_pd",
    "BP.C04_mass_matrix_invertible"
   ],
   "note": ""
  },
  {
   "property": "C05",
   "status": "proved",
   "theorems": [
    "BP.C05_canonical_depends_on_moments"
   ],
   "note": ""
  },
  {
   "property": "C06",
   "status": "proved",
   "theorems": [
    "BP.C06_succeeds_iff_keys",
    "BP.C06_error_is_missing_key",
    "BP.C06_other_keys_untouched",
    "BP.C06_sets_wheel_inertias",
    "BP.C06_second_call_same",
    "BP.C06_argument_is_modified"
   ],
   "note": ""
  },
  {
   "property": "C07",
   "status": "proved",
   "theorems": [
    "BP.C07_sort_picks_pairs",
    "BP.C07_sort_modes_splits_rows"
   ],
   "note": ""
  },
  {
   "property": "C08",
   "status": "partial",
   "theorems": [
    "BP.C08_sort_is_not_a_permutation",
    "BP.C08_sweep_permutes_partial",
    "BP.C08_sort_two_modes_permutes_partial"
   ],
   "note": "The claim that sorted eigenvalues are always a permutation of the input rows is false of the code (C08_sort_is_not_a_permutation); proved under a distinctness condition on the nearest-neighbour choice."
  },
  {
   "property": "C09",
   "status": "proved",
   "theorems": [
    "BP.C09_trail_geometry",
    "BP.C09_mechanical_trail_is_distance"
   ],
   "note": ""
  },
  {
   "property": "C10",
   "status": "proved",
   "theorems": [
    "BP.C10_lambda_solves_offset_equation",
    "BP.C10_tilt_exists_iff",
    "BP.C10_guess_exact_for_equal_wheels"
   ],
   "note": ""
  },
  {
   "property": "C11",
   "status": "proved",
   "theorems": [
    "BP.C11_geometry_reproduces_offsets",
    "BP.C11_offsets_from_measurements",
    "BP.C11_geometry_reproduces_fork_offset"
   ],
   "note": ""
  },
  {
   "property": "C12",
   "status": "proved",
   "theorems": [
    "BP.C12_geometry_effects",
    "BP.C12_missing_measurement"
   ],
   "note": ""
  },
  {
   "property": "C13",
   "status": "proved",
   "theorems": [
    "BP.C13_distance_is_minimal"
   ],
   "note": ""
  },
  {
   "property": "C14",
   "status": "proved",
   "theorems": [
    "BP.C14_projection"
   ],
   "note": ""
  },
  {
   "property": "C15",
   "status": "proved",
   "theorems": [
    "BP.C15_angle_law",
    "BP.C15_angle_scale",
    "BP.C15_parallel_and_opposite"
   ],
   "note": ""
  },
  {
   "property": "C16",
   "status": "partial",
   "theorems": [
    "BP.C16_int_direction_is_not_a_projection",
    "BP.C16_array_direction_raises",
    "BP.C16_int_direction_partial"
   ],
   "note": "vec_project is not a projection and raises for array directions (both proved); the partial theorem states the exact result."
  },
  {
   "property": "C17",
   "status": "proved",
   "theorems": [
    "BP.C17_l1_l2_pythagoras",
    "BP.C17_handlebar_reference_rotates",
    "BP.C17_zero_tilt_raises"
   ],
   "note": ""
  },
  {
   "property": "C18",
   "status": "partial",
   "theorems": [
    "BP.C18_two_links_close_iff_partial",
    "BP.C18_two_links_do_not_close",
    "BP.C18_angles_nonneg"
   ],
   "note": "The chain closes iff L1^2 <= D^2 + L2^2; counterexample proved."
  },
  {
   "property": "C19",
   "status": "proved",
   "theorems": [
    "BP.C19_plot_points"
   ],
   "note": ""
  },
  {
   "property": "C20",
   "status": "proved",
   "theorems": [
    "BP.C20_parallel_axis_theorem",
    "BP.C20_parallel_axis_laws",
    "BP.C20_parallel_axis_composite"
   ],
   "note": ""
  },
  {
   "property": "C21",
   "status": "partial",
   "theorems": [
    "BP.C21_combine_conserves",
    "BP.C21_lateral_rider_not_conserved",
    "BP.C21_combine_mass_and_plane_partial",
    "BP.C21_combine_dictionary",
    "BP.C21_rider_in_canonical_matrices"
   ],
   "note": "Conservation holds for a rider in the symmetry plane; the lateral case is refuted."
  },
  {
   "property": "C22",
   "status": "proved",
   "theorems": [
    "BP.C22_pendulum_inverts_period",
    "BP.C22_nonneg_iff"
   ],
   "note": ""
  },
  {
   "property": "C23",
   "status": "proved",
   "theorems": [
    "BP.C23_calibration_roundtrip",
    "BP.C23_inertia_ratio",
    "BP.C23_period_law"
   ],
   "note": ""
  },
  {
   "property": "C24",
   "status": "proved",
   "theorems": [
    "BP.C24_inertia_components_exact",
    "BP.C24_two_orientations_not_enough"
   ],
   "note": ""
  },
  {
   "property": "C25",
   "status": "proved",
   "theorems": [
    "BP.C25_rotation_matrix",
    "BP.C25_rotation_invariants",
    "BP.C25_rotations_compose",
    "BP.C25_rotation_axis_moment"
   ],
   "note": ""
  },
  {
   "property": "C26",
   "status": "proved",
   "theorems": [
    "BP.C26_principal_axes_sorted"
   ],
   "note": ""
  },
  {
   "property": "C27",
   "status": "proved",
   "theorems": [
    "BP.C27_tube_is_rod_minus_core",
    "BP.C27_tube_physical"
   ],
   "note": ""
  },
  {
   "property": "C28",
   "status": "proved",
   "theorems": [
    "BP.C28_mean_of_intersections",
    "BP.C28_concurrent_lines",
    "BP.C28_failures",
    "BP.C28_permutation"
   ],
   "note": ""
  },
  {
   "property": "C29",
   "status": "proved",
   "theorems": [
    "BP.C29_com_line_geometry",
    "BP.C29_offset_is_distance"
   ],
   "note": ""
  },
  {
   "property": "C30",
   "status": "proved",
   "theorems": [
    "BP.C30_weighted_mean",
    "BP.C30_grouping",
    "BP.C30_order_and_translation",
    "BP.C30_within_extent"
   ],
   "note": ""
  },
  {
   "property": "C31",
   "status": "proved",
   "theorems": [
    "BP.C31_cartesian_is_product",
    "BP.C31_product_rows",
    "BP.C31_empty_first_array_raises"
   ],
   "note": ""
  },
  {
   "property": "C32",
   "status": "proved",
   "theorems": [
    "BP.C32_principal_tensor",
    "BP.C32_conversion_preserves_moments",
    "BP.C32_succeeds_iff"
   ],
   "note": ""
  },
  {
   "property": "C33",
   "status": "partial",
   "theorems": [
    "BP.C33_documented_set_does_not_convert",
    "BP.C33_converts_partial"
   ],
   "note": "Refuted for the documented principal set (C33_documented_set_does_not_convert); C33_converts_partial states which dictionaries convert."
  },
  {
   "property": "C34",
   "status": "proved",
   "theorems": [
    "BP.C34_loaded_sets",
    "BP.C34_construction",
    "BP.C34_no_data",
    "BP.C34_forced_without_data",
    "BP.C34_stray_file"
   ],
   "note": ""
  },
  {
   "property": "C35",
   "status": "partial",
   "theorems": [
    "BP.C35_file_names",
    "BP.C35_two_sets_break_the_directory",
    "BP.C35_single_set_roundtrip_partial"
   ],
   "note": "Proved for one saved set; with two or more sets the round trip is refuted (C35_two_sets_break_the_directory)."
  },
  {
   "property": "C36",
   "status": "proved",
   "theorems": [
    "BP.C36_file_lines",
    "BP.C36_idempotent",
    "BP.C36_reload",
    "BP.C36_missing_final_newline"
   ],
   "note": ""
  },
  {
   "property": "C37",
   "status": "partial",
   "theorems": [
    "BP.C37_file_matches_object_partial",
    "BP.C37_unmeasured_period_lost"
   ],
   "note": "Refuted for periods that are in the object but in no raw file (C37_unmeasured_period_lost); proved for the others."
  },
  {
   "property": "C38",
   "status": "proved",
   "theorems": [
    "BP.C38_one_call",
    "BP.C38_at_most_one_rider"
   ],
   "note": ""
  },
  {
   "property": "C39",
   "status": "proved",
   "theorems": [
    "BP.C39_assembly_tensor",
    "BP.C39_about_steer_axis",
    "BP.C39_is_canonical_IAll",
    "BP.C39_unmeasured_part"
   ],
   "note": ""
  },
  {
   "property": "C40",
   "status": "proved",
   "theorems": [
    "BP.C40_parts",
    "BP.C40_parts_distinct",
    "BP.C40_fork_split"
   ],
   "note": ""
  },
  {
   "property": "C41",
   "status": "proved",
   "theorems": [
    "BP.C41_flywheel_is_difference",
    "BP.C41_split_fork_is_sum"
   ],
   "note": ""
  },
  {
   "property": "C42",
   "status": "proved",
   "theorems": [
    "BP.C42_nominal",
    "BP.C42_canonical_same_effect",
    "BP.C42_canonical_effect_on_bicycle"
   ],
   "note": ""
  },
  {
   "property": "C43",
   "status": "proved",
   "theorems": [
    "BP.C43_phase_alignment"
   ],
   "note": ""
  },
  {
   "property": "C44",
   "status": "proved",
   "theorems": [
    "BP.C44_write_load",
    "BP.C44_lossless_roundtrip"
   ],
   "note": ""
  },
  {
   "property": "C45",
   "status": "proved",
   "theorems": [
    "BP.C45_load_documented",
    "BP.C45_other_lines_fail"
   ],
   "note": ""
  },
  {
   "property": "C46",
   "status": "proved",
   "theorems": [
    "BP.C46_overwrite_protocol",
    "BP.C46_result_is_truthful"
   ],
   "note": ""
  },
  {
   "property": "C47",
   "status": "proved",
   "theorems": [
    "BP.C47_remove_uncertainties",
    "BP.C47_idempotent_on_numbers",
    "BP.C47_sequences_fail_the_second_time"
   ],
   "note": ""
  },
  {
   "property": "C48",
   "status": "proved",
   "theorems": [
    "BP.C48_words_recovered",
    "BP.C48_only_spaces_inserted",
    "BP.C48_bad_output"
   ],
   "note": ""
  },
  {
   "property": "C49",
   "status": "proved",
   "theorems": [
    "BP.C49_filename_roundtrip"
   ],
   "note": ""
  },
  {
   "property": "C50",
   "status": "proved",
   "theorems": [
    "BP.C50_jacobian"
   ],
   "note": ""
  },
  {
   "property": "C51",
   "status": "proved",
   "theorems": [
    "BP.C51_period",
    "BP.C51_period_minimal"
   ],
   "note": ""
  },
  {
   "property": "C52",
   "status": "proved",
   "theorems": [
    "BP.C52_sse_identity",
    "BP.C52_orthogonal_residuals",
    "BP.C52_at_least_squares_fit",
    "BP.C52_sse_can_be_negative"
   ],
   "note": ""
  },
  {
   "property": "C53",
   "status": "partial",
   "theorems": [
    "BP.C53_check_for_period",
    "BP.C53_check_misses_a_needed_period"
   ],
   "note": "The counting rule is proved; that a dictionary passing the check has all needed periods is refuted (C53_check_misses_a_needed_period)."
  },
  {
   "property": "C54",
   "status": "proved",
   "theorems": [
    "BP.C54_period_key",
    "BP.C54_key_identifies_experiment",
    "BP.C54_rod_entry_shadows"
   ],
   "note": ""
  },
  {
   "property": "C55",
   "status": "proved",
   "theorems": [
    "BP.C55_mean_per_experiment",
    "BP.C55_file_order"
   ],
   "note": ""
  },
  {
   "property": "C56",
   "status": "proved",
   "theorems": [
    "BP.C56_slice",
    "BP.C56_failures",
    "BP.C56_may_be_empty"
   ],
   "note": ""
  },
  {
   "property": "C57",
   "status": "partial",
   "theorems": [
    "BP.C57_variable_list",
    "BP.C57_order_is_deterministic",
    "BP.C57_case_twins_depend_on_the_run"
   ],
   "note": "Set and order proved; determinism proved when no two names differ only in case, refuted otherwise (C57_case_twins_depend_on_the_run)."
  },
  {
   "property": "C58",
   "status": "proved",
   "theorems": [
    "BP.C58_rows",
    "BP.C58_table_exists_iff"
   ],
   "note": "Also proved when the constructor fails: C58_table_exists_iff (a zero standard deviation, as the documentation prescribes, raises UnboundLocalError)."
  },
  {
   "property": "C59",
   "status": "partial",
   "theorems": [
    "BP.C59_equal_widths_partial",
    "BP.C59_cells_read_back",
    "BP.C59_sub_header",
    "BP.C59_header_rule",
    "BP.C59_second_call_differs"
   ],
   "note": "Equal widths and read-back proved for the first call; a second call provably returns another text for every table."
  },
  {
   "property": "C60",
   "status": "partial",
   "theorems": [
    "BP.C60_uround_rounds_partial",
    "BP.C60_uround_fails",
    "BP.C60_zero_loses_uncertainty"
   ],
   "note": "Proved for uncertainties between 5e-15 and 1-5e-15; outside it uround provably raises (C60_uround_fails). Exact rational arithmetic."
  },
  {
   "property": "C61",
   "status": "proved",
   "theorems": [
    "BP.C61_accepts_iff",
    "BP.C61_documented_keys_refused",
    "BP.C61_missing_from_documentation"
   ],
   "note": "Findings: the documented keys of the two Meijaard2007 classes are not enough (C61_documented_keys_refused)."
  },
  {
   "property": "C62",
   "status": "partial",
   "theorems": [
    "BP.C62_result_is_what_was_asked",
    "BP.C62_with_feedback",
    "BP.C62_to_moore2012",
    "BP.C62_moore2019_to_meijaard_partial",
    "BP.C62_moore2019_to_feedback_never",
    "BP.C62_other_names"
   ],
   "note": "Everything but 'advertised conversions do not raise', which is refuted for Moore2019 (C62_moore2019_to_feedback_never; KeyError without yD, yP, yH)."
  },
  {
   "property": "C63",
   "status": "partial",
   "theorems": [
    "BP.C63_round_trip_partial",
    "BP.C63_rider_flag_lost",
    "BP.C63_moore2012_never_loads",
    "BP.C63_numpy_values_not_readable"
   ],
   "note": "Refuted for the rider flag, for Moore2012 and for numpy values; proved for parameters made of Python floats. PyYAML is modelled, not verified."
  },
  {
   "property": "C64",
   "status": "proved",
   "theorems": [
    "BP.C64_body_center",
    "BP.C64_mass_center_of",
    "BP.C64_order",
    "BP.C64_inertia_tensor",
    "BP.C64_conversion_keeps_mass_centers"
   ],
   "note": ""
  },
  {
   "property": "C65",
   "status": "proved",
   "theorems": [
    "BP.C65_overrides",
    "BP.C65_overrides_raise"
   ],
   "note": "Heap model: the stored dictionary is a heap object; the parsed copy is a new one."
  },
  {
   "property": "C66",
   "status": "proved",
   "theorems": [
    "BP.C66_state_space_pointwise",
    "BP.C66_canonical_pointwise",
    "BP.C66_irrelevant_sweep"
   ],
   "note": "For the reduced canonical matrices and the state-space matrices of Meijaard2007Model; see C67 and C69 for the other two models. C66_irrelevant_sweep: an array for a parameter the matrices do not read still yields a stack."
  },
  {
   "property": "C67",
   "status": "partial",
   "theorems": [
    "BP.C67_closed_loop",
    "BP.C67_control_law",
    "BP.C67_zero_gains",
    "BP.C67_empty_gain_sweep",
    "BP.C67_gains_rounded"
   ],
   "note": "A - B K holds when the gains are stored exactly; the code builds the gain matrix with the type of its first entry, so an integer first gain truncates the others (C67_gains_rounded) and an empty array gain raises IndexError (C67_empty_gain_sweep)."
  },
  {
   "property": "C68",
   "status": "proved",
   "theorems": [
    "BP.C68_simulation_rejects_arrays",
    "BP.C68_plot_gains"
   ],
   "note": "plot_gains accepts more than one swept non-gain parameter and then uses the first; C68_plot_gains states what it does."
  },
  {
   "property": "C69",
   "status": "proved",
   "theorems": [
    "BP.C69_rider_lean_matrices",
    "BP.C69_states"
   ],
   "note": "eval_linear and the pitch solver are parameters of the model here."
  },
  {
   "property": "C70",
   "status": "proved",
   "theorems": [
    "BP.EL.C70_no_uninitialised_memory",
    "BP.EL.C70_shape"
   ],
   "note": "The statements are generated from the source text by tools/gen_eval_linear.py; the checks are evaluated by the kernel."
  },
  {
   "property": "C71",
   "status": "proved",
   "theorems": [
    "BP.C71_returns_iff",
    "BP.C71_rigid",
    "BP.C71_seat"
   ],
   "note": ""
  },
  {
   "property": "C72",
   "status": "proved",
   "theorems": [
    "BP.C72_residual_iff",
    "BP.C72_configuration",
    "BP.C72_dimensions",
    "BP.C72_rider_on_bike",
    "BP.C72_no_convergence_check"
   ],
   "note": "fsolve is a parameter; Yeadon's joint conventions are specified in Spec/Rider.lean. C72_no_convergence_check: nothing checks convergence."
  },
  {
   "property": "C73",
   "status": "partial",
   "theorems": [
    "BP.C73_figures_swapped",
    "BP.C73_figures_partial"
   ],
   "note": "Refuted: C73_figures_swapped."
  },
  {
   "property": "C74",
   "status": "partial",
   "theorems": [
    "BP.C74_tables_filled",
    "BP.C74_tables_raise",
    "BP.C74_tables_read",
    "BP.C74_dropdown",
    "BP.C74_round_trip_partial",
    "BP.C74_tilt_truncated"
   ],
   "note": "All parameters round-trip except the tilt (C74_round_trip_partial gives the exact condition)."
  },
  {
   "property": "C75",
   "status": "proved",
   "theorems": [
    "BP.C75_on_ellipse",
    "BP.C75_closed"
   ],
   "note": ""
  },
  {
   "property": "C76",
   "status": "proved",
   "theorems": [
    "BP.C76_unstable_at_rest"
   ],
   "note": ""
  },
  {
   "property": "C77",
   "status": "proved",
   "theorems": [
    "BP.C77_part_com_lines"
   ],
   "note": ""
  },
  {
   "property": "C78",
   "status": "proved",
   "theorems": [
    "BP.C78_mat_file_cleaned"
   ],
   "note": ""
  },
  {
   "property": "C79",
   "status": "proved",
   "theorems": [
    "BP.C79_sample_times",
    "BP.C79_sample_rate"
   ],
   "note": ""
  },
  {
   "property": "C80",
   "status": "partial",
   "theorems": [
    "BP.C80_orientation_paired_with_its_period",
    "BP.C80_ten_orientations_mispaired"
   ],
   "note": "Proved for up to nine orientations numbered consecutively (C80_orientation_paired_with_its_period); refuted for ten (C80_ten_orientations_mispaired)."
  },
  {
   "property": "C81",
   "status": "proved",
   "theorems": [
    "BP.C81_measuring_and_computing"
   ],
   "note": ""
  },
  {
   "property": "C82",
   "status": "partial",
   "theorems": [
    "BP.C82_y_row_partial",
    "BP.C82_diagonal_tensor_wrong_row",
    "BP.C82_negative_y_not_found"
   ],
   "note": "Refuted for diagonal tensors and for an eigenvector with negative y (counterexamples proved); the partial theorem states when the choice is right."
  },
  {
   "property": "C83",
   "status": "proved",
   "theorems": [
    "BP.C83_steer_axis_ground_point",
    "BP.C83_pendulum_segment"
   ],
   "note": ""
  },
  {
   "property": "C84",
   "status": "proved",
   "theorems": [
    "BP.C84_canonical_is_newton_euler",
    "BP.C84_state_space_is_newton_euler"
   ],
   "note": ""
  },
  {
   "property": "C85",
   "status": "partial",
   "theorems": [
    "BP.C85_documented_names",
    "BP.C85_families",
    "BP.C85_two_letter_names",
    "BP.C85_ten_orientations"
   ],
   "note": "Proved for the documented names with up to six orientations and for one-letter, one-digit families; refuted for ten orientations."
  },
  {
   "property": "C86",
   "status": "partial",
   "theorems": [
    "BP.C86_labels_distinct_partial",
    "BP.C86_ambiguous_labels",
    "BP.C86_keys_distinct"
   ],
   "note": "Refuted for the Moore2012 classes (id11 and ie11 share a label); proved for the others."
  },
  {
   "property": "C87",
   "status": "proved",
   "theorems": [
    "BP.C87_ini_lines",
    "BP.C87_small_values_lost",
    "BP.C87_html_rows"
   ],
   "note": ""
  },
  {
   "property": "C88",
   "status": "partial",
   "theorems": [
    "BP.C88_radii_describe_tensor",
    "BP.C88_semi_axes",
    "BP.C88_drawn_at_half_size",
    "BP.C88_gyration_lines"
   ],
   "note": "Radii and lines proved; the drawn ellipse is proved to have half the size of the ellipsoid's outline."
  },
  {
   "property": "C89",
   "status": "proved",
   "theorems": [
    "BP.C89_person_rhombus"
   ],
   "note": ""
  },
  {
   "property": "C90",
   "status": "partial",
   "theorems": [
    "BP.C90_wheels_touch_ground",
    "BP.C90_steer_axis_line_partial"
   ],
   "note": "The dashed line does not start at the wheel centre as documented; its actual end points are proved."
  },
  {
   "property": "C91",
   "status": "partial",
   "theorems": [
    "BP.C91_simulate_keeps_dictionaries",
    "BP.C91_rider_lean_overwrites",
    "BP.C91_initial_conditions_changed"
   ],
   "note": "Dictionaries are never changed (C91_simulate_keeps_dictionaries); for the rider-lean model the initial conditions are overwritten (C91_rider_lean_overwrites, C91_initial_conditions_changed)."
  },
  {
   "property": "C92",
   "status": "partial",
   "theorems": [
    "BP.C92_eigenvectors_fixed_parameters",
    "BP.C92_eigenvectors_sweep_transposed",
    "BP.C92_eigenvectors_raise"
   ],
   "note": "Proved for fixed parameters; with a sweep the drawn components are proved to be the transposed ones, and 5 to 10 values raise for a 4-state model."
  },
  {
   "property": "C93",
   "status": "partial",
   "theorems": [
    "BP.C93_angle",
    "BP.C93_real_mode",
    "BP.C93_depends_on_phase",
    "BP.C93_modal_controllability",
    "BP.C93_fixed_parameters_raise"
   ],
   "note": "Angle and range proved; dependence on the phase of the eigenvector and the TypeError for fixed parameters are proved as refutations."
  },
  {
   "property": "C94",
   "status": "proved",
   "theorems": [
    "BP.C94_modes_follow_exponentials"
   ],
   "note": "solve_ivp is assumed exact and eig correct (hypotheses ExactSolver, EigenpairsOf); example_modes_returned shows they can be met by every model."
  },
  {
   "property": "C95",
   "status": "partial",
   "theorems": [
    "BP.C95_eigenvalue_parts_unsorted",
    "BP.C95_eigenvalue_parts_sorted",
    "BP.C95_no_sweep_raises",
    "BP.C95_shades_unstable"
   ],
   "note": "Curves and unsorted shading proved; with sorted modes the shading is refuted (C95_shades_unstable)."
  },
  {
   "property": "C96",
   "status": "proved",
   "theorems": [
    "BP.C96_whipple",
    "BP.C96_feedback",
    "BP.C96_rider_lean",
    "BP.C96_eigen_pointwise",
    "BP.C96_left_eigenvectors"
   ],
   "note": "eig is a parameter; its correctness is a hypothesis of C96_left_eigenvectors only."
  },
  {
   "property": "C97",
   "status": "proved",
   "theorems": [
    "BP.C97_simulate_free",
    "BP.C97_simulate_inputs",
    "BP.C97_simulate_raises",
    "BP.C97_simulate_free_unique"
   ],
   "note": "solve_ivp is assumed exact (hypothesis ExactSolver, met by idealSolver)."
  },
  {
   "property": "C98",
   "status": "proved",
   "theorems": [
    "BP.C98_rider_parameters",
    "BP.C98_configured"
   ],
   "note": "yeadon's inertia_transformed is taken as R I R^T about the mass centre."
  },
  {
   "property": "C99",
   "status": "proved",
   "theorems": [
    "BP.C99_speeds"
   ],
   "note": "Exact arithmetic."
  },
  {
   "property": "C100",
   "status": "proved",
   "theorems": [
    "BP.EL.C100_units"
   ],
   "note": "Exact arithmetic; the pitch function of dtk is assumed to depend on ratios of lengths."
  },
  {
   "property": "C101",
   "status": "proved",
   "theorems": [
    "BP.EL.C101_mirror"
   ],
   "note": "Exact arithmetic; the pitch function of dtk is assumed to be even."
  },
  {
   "property": "C102",
   "status": "proved",
   "theorems": [
    "BP.EL.C102_time_reversal",
    "BP.EL.C102_at_rest"
   ],
   "note": "Exact arithmetic."
  },
  {
   "property": "C103",
   "status": "proved",
   "theorems": [
    "BP.EL.C103_upright"
   ],
   "note": "Exact arithmetic, in which 0/0 is 0."
  },
  {
   "property": "C104",
   "status": "proved",
   "theorems": [
    "BP.C104_newton_euler"
   ],
   "note": "Exact arithmetic; dtk's pitch_from_roll_and_steer is assumed to return the tilt at which the front wheel touches the ground. The motions are the first order ones; their specification is Spec/RiderLean.lean."
  },
  {
   "property": "C105",
   "status": "proved",
   "theorems": [
    "BP.C105_energy"
   ],
   "note": "As C104."
  },
  {
   "property": "C106",
   "status": "proved",
   "theorems": [
    "BP.C106_locked_rider"
   ],
   "note": "As C104."
  },
  {
   "property": "C107",
   "status": "proved",
   "theorems": [
    "BP.C107_eig",
    "BP.C107_single_speed"
   ],
   "note": "numpy.linalg.eig is a parameter assumed correct (exists_correct_eig shows there is one)."
  },
  {
   "property": "C108",
   "status": "partial",
   "theorems": [
    "BP.C108_curves",
    "BP.C108_stable_speeds_shaded",
    "BP.C108_fails_iff",
    "BP.C108_given_figure_raises",
    "BP.C108_single_unstable_raises",
    "BP.C108_at_rest_raises",
    "BP.C108_shaded_is_damped_partial",
    "BP.C108_shades_unstable"
   ],
   "note": "Half of the property is refuted: C108_shades_unstable gives a physical bicycle with two ranges of self-stable speeds whose shaded range contains an unstable sample, and C108_at_rest_raises / C108_single_unstable_raises show UnboundLocalError instead of the annotation. Proved: no self-stable sample is left out (C108_stable_speeds_shaded), exactly when drawing fails (C108_fails_iff), and that the shaded samples are damped if each curve's negative part is contiguous (C108_shaded_is_damped_partial)."
  },
  {
   "property": "C109",
   "status": "proved",
   "theorems": [
    "BP.C109_abscissae",
    "BP.C109_largest",
    "BP.C109_modes"
   ],
   "note": "numpy.linalg.eig is a parameter assumed correct; drawing is represented by abscissae, labels and ordinates."
  },
  {
   "property": "C110",
   "status": "proved",
   "theorems": [
    "BP.C110_bode",
    "BP.C110_response_unique"
   ],
   "note": "control.bode itself is outside the model; the theorem is about the system passed to it."
  },
  {
   "property": "C111",
   "status": "partial",
   "theorems": [
    "BP.C111_panels",
    "BP.C111_each_state_once",
    "BP.C111_rows",
    "BP.C111_lean_rate_not_drawn"
   ],
   "note": "Proved for models that list a unit and a name for every state (Whipple); refuted for the rider lean model, which lists eleven units for twelve states (C111_lean_rate_not_drawn). Fewer than two shown modes raise (C111_rows)."
  },
  {
   "property": "C112",
   "status": "proved",
   "theorems": [
    "BP.C112_whipple",
    "BP.C112_rider_lean"
   ],
   "note": "Drawing is represented by panels, labels and ordinates."
  },
  {
   "property": "C113",
   "status": "proved",
   "theorems": [
    "BP.C113_rider_files",
    "BP.C113_names_differ",
    "BP.C113_reload",
    "BP.C113_without_rider",
    "BP.C113_other_file_types",
    "BP.C113_description"
   ],
   "note": "Directories are maps from names to contents; the answers of the user are a parameter."
  },
  {
   "property": "C114",
   "status": "proved",
   "theorems": [
    "BP.C114_period",
    "BP.C114_correlation_dropped",
    "BP.C114_failures",
    "BP.C114_from_truncated"
   ],
   "note": "leastsq is a parameter, assumed to return a local minimum; exact arithmetic."
  },
  {
   "property": "C115",
   "status": "proved",
   "theorems": [
    "BP.C115_too_short",
    "BP.C115_guess"
   ],
   "note": "np.where on a masked array is modelled with and without the mask."
  },
  {
   "property": "C116",
   "status": "proved",
   "theorems": [
    "BP.C116_slice",
    "BP.C116_sections",
    "BP.C116_failures",
    "BP.C116_may_be_empty"
   ],
   "note": ""
  },
  {
   "property": "C117",
   "status": "proved",
   "theorems": [
    "BP.C117_session_keeps",
    "BP.C117_session_view",
    "BP.C117_colors",
    "BP.C117_colors_distinct",
    "BP.C117_mass_centers",
    "BP.C117_inertia",
    "BP.C117_unknown_body",
    "BP.C117_plot_all",
    "BP.C117_geometry",
    "BP.C117_person",
    "BP.C117_no_plots"
   ],
   "note": "matplotlib axes are a list of artists; transforms, styles and text placement apart from what each method draws are not modelled"
  },
  {
   "property": "C118",
   "status": "partial",
   "theorems": [
    "BP.C118_ellipses",
    "BP.C118_ellipse_shape_partial",
    "BP.C118_ellipse_mirrored",
    "BP.C118_unbound",
    "BP.C118_succeeds",
    "BP.C118_bicycle_drawn",
    "BP.C118_mass_centers",
    "BP.C118_part_colors",
    "BP.C118_labels",
    "BP.C118_pendulums",
    "BP.C118_rider",
    "BP.C118_limits"
   ],
   "note": "Everything but the shape of the ellipses is proved for all inputs. The ellipse is the momental ellipse when the code finds the y axis and the first in-plane eigenvector does not point up (C118_ellipse_shape_partial); otherwise the claim is false of the code (C118_ellipse_mirrored, C118_unbound)."
  },
  {
   "property": "C119",
   "status": "partial",
   "theorems": [
    "BP.C119_bicycle_drawn",
    "BP.C119_pendulums",
    "BP.C119_too_many_parts",
    "BP.C119_mass_centers",
    "BP.C119_fork_without_mass",
    "BP.C119_rider_lower_leg_only",
    "BP.C119_ellipse_centers",
    "BP.C119_ellipse_wrong",
    "BP.C119_succeeds"
   ],
   "note": "Ground, wheels, frame, steer axis, pendulum lines and mass centres are proved for all inputs; false of the code for ellipses (C119_ellipse_wrong), riders (C119_rider_lower_leg_only), forks without mass (C119_fork_without_mass) and more parts than colours (C119_too_many_parts)."
  },
  {
   "property": "C120",
   "status": "proved",
   "theorems": [
    "BP.C120_groups",
    "BP.C120_legend",
    "BP.C120_colors_distinct",
    "BP.C120_failures",
    "BP.C120_styles_ignored"
   ],
   "note": "Axis limits, grid and the size of the figure are not modelled; a name that begins with an underscore is left out by matplotlib's legend, which the theorem excludes."
  },
  {
   "property": "C121",
   "status": "proved",
   "theorems": [
    "BP.C121_bicycles",
    "BP.C121_speeds",
    "BP.C121_frequencies",
    "BP.C121_failures",
    "BP.C121_again"
   ],
   "note": "control.bode is a parameter that is assumed to add one line to each axes with magnitude and phase of the response (C110 shows which system it is given). The figure left behind by a call that raises is not modelled."
  },
  {
   "property": "C122",
   "status": "proved",
   "theorems": [
    "BP.C122_canonical",
    "BP.C122_nominal_canonical",
    "BP.C122_nominal_state_space",
    "BP.C122_state_space",
    "BP.C122_independent"
   ],
   "note": "A number with uncertainties is its nominal value and its linear part, as in the uncertainties package; the derivative rules used are those of the package. C122_state_space needs the mass matrix of the nominal values to be invertible."
  },
  {
   "property": "C123",
   "status": "partial",
   "theorems": [
    "BP.C123_float_raises",
    "BP.C123_nominal",
    "BP.C123_std",
    "BP.C123_true_derivative",
    "BP.C123_variance_deficit",
    "BP.C123_std_partial",
    "BP.C123_too_small"
   ],
   "note": "Nominal value proved for all inputs (C123_nominal); the exact standard deviation returned is C123_std. False of the code: floats raise (C123_float_raises) and the variance misses that of the wheel radii (C123_variance_deficit, C123_too_small). Correct for equal radii whose difference is known (C123_std_partial)."
  },
  {
   "property": "C124",
   "status": "partial",
   "theorems": [
    "BP.C124_nominal",
    "BP.C124_floats_raise",
    "BP.C124_measured_wheelbase_partial",
    "BP.C124_wheelbase_equal_radii_partial",
    "BP.C124_trail_refuted"
   ],
   "note": "Nominal values proved for all inputs (C124_nominal); with a measured wheelbase all standard deviations are right (C124_measured_wheelbase_partial), without it that of the wheelbase for equal radii (C124_wheelbase_equal_radii_partial). False of the code for the trail (C124_trail_refuted) and for measurements without uncertainties (C124_floats_raise, exact condition)."
  },
  {
   "property": "C125",
   "status": "partial",
   "theorems": [
    "BP.C125_nominal",
    "BP.C125_first_order_partial"
   ],
   "note": "Nominal values and exceptions for all measurements (C125_nominal); value and all first-order sensitivities of every parameter, for a measured wheelbase and at measurements where the formulas are differentiable (Spec.Regular) (C125_first_order_partial). False of the code without a measured wheelbase: the tilt loses its correlations (C124_trail_refuted). The pseudo-inverse `.I` of numpy and of unumpy.matrix are parameters with contracts NominalInv and PropagatesInv; Props/UncertainMeasuredExample builds a pair satisfying both and a bicycle meeting all hypotheses."
  },
  {
   "property": "C126",
   "status": "proved",
   "theorems": [
    "BP.EL.C126_jacobian",
    "BP.EL.C126_defined",
    "BP.EL.C126_outputs"
   ],
   "note": "lam (line 73), which the code computes from roll and steer, is a constant of the equations that the code differentiates: C126 states it that way. The derivative is Mathlib's HasFDerivAt over the reals; the tables of Gen/Jacobian*.lean are untrusted, the kernel checks them against the statements."
  },
  {
   "property": "C127",
   "status": "proved",
   "theorems": [
    "BP.C127_steady_riding",
    "BP.C127_small_motions"
   ],
   "note": "For parameters that satisfy Spec.LeanUsable (as C104). C127_small_motions: IsLittleO at 0."
  },
  {
   "property": "C128",
   "status": "proved",
   "theorems": [
    "BP.EL.C128_wheels_round",
    "BP.EL.C128_matrices",
    "BP.EL.C128_steady_ride"
   ],
   "note": "C128_matrices assumes that no division by zero occurs (C126_defined says when). The tables of Gen/Invariance.lean are untrusted, the kernel checks them against the statements."
  },
  {
   "property": "C129",
   "status": "proved",
   "theorems": [
    "BP.EL.C129_places_alike",
    "BP.EL.C129_same_ride",
    "BP.EL.C129_matrices",
    "BP.EL.C129_heading_column",
    "BP.EL.C129_straight_ride"
   ],
   "note": "The rates and rides: without any condition (division by zero gives 0 in the model, in both positions). The matrices: where no division by zero occurs."
  },
  {
   "property": "C130",
   "status": "proved",
   "theorems": [
    "BP.EL.C130_rear_rolls",
    "BP.EL.C130_front_rolls",
    "BP.EL.C130_stays_on_ground",
    "BP.EL.C130_above_ground",
    "BP.EL.C130_contact_points"
   ],
   "note": "Spec/Rolling.lean gives the points of the wheels by rotations. C130_contact_points shows that it has the contact points of the linear model. The tables of Gen/Rolling.lean are untrusted, the kernel checks them against the statements."
  },
  {
   "property": "C131",
   "status": "proved",
   "theorems": [
    "BP.EL.C131_mirror",
    "BP.EL.C131_reversal",
    "BP.EL.C131_mirror_ride",
    "BP.EL.C131_backwards",
    "BP.EL.C131_units",
    "BP.EL.C131_units_ride"
   ],
   "note": "C131_mirror, C131_reversal and C131_units are the statements for the rates at each state, the others are for motions. Together with C100 to C102, which are about the matrices."
  },
  {
   "property": "C132",
   "status": "proved",
   "theorems": [
    "BP.EL.C132_ride_exists",
    "BP.EL.C132_determined",
    "BP.EL.C132_stays_straight"
   ],
   "note": "By smoothness of the statements where no division by zero occurs (Picard-Lindel\u00f6f from Mathlib)."
  },
  {
   "property": "C133",
   "status": "proved",
   "theorems": [
    "BP.EL.C133_alembert",
    "BP.EL.C133_ride_rolls"
   ],
   "note": "The tilt lam is an argument that does not change during a ride: it is the tilt of the lean axis in the rear frame. With kernel checks of the thousand statements of eval_linear as polynomials."
  },
  {
   "property": "C134",
   "status": "proved",
   "theorems": [
    "BP.EL.C134_energy_balance",
    "BP.EL.C134_energy_kept",
    "BP.EL.C134_energy_falls"
   ],
   "note": "From the principle of C133 with the ride itself as the other motion."
  },
  {
   "property": "C135",
   "status": "proved",
   "theorems": [
    "BP.EL.C135_mechanics"
   ],
   "note": "Both directions. The tilt lam of the lean axis does not change during a ride."
  },
  {
   "property": "C136",
   "status": "partial",
   "theorems": [
    "BP.C136_damage",
    "BP.C136_pendulum_data",
    "BP.C136_files_stay",
    "BP.C136_declined",
    "BP.C136_other_bicycles",
    "BP.C136_measurements_partial",
    "BP.C136_stop_loses_measurements"
   ],
   "note": "The last clause holds for histories without stops (C136_measurements_partial); a stop while periods are written can leave the file of the measurements empty (C136_stop_loses_measurements)."
  },
  {
   "property": "C137",
   "status": "proved",
   "theorems": [
    "BP.C137_cut_between_lines",
    "BP.C137_cut_anywhere",
    "BP.C137_cut_number_loads"
   ],
   "note": "The wrong value of a cut number is not noticed: C137_cut_number_loads."
  },
  {
   "property": "C138",
   "status": "proved",
   "theorems": [
    "BP.C138_new_figure",
    "BP.C138_period_figure",
    "BP.C138_failed_save_leaks",
    "BP.C138_no_figures_left",
    "BP.C138_other_figure_active",
    "BP.C138_no_figure_open",
    "BP.C138_title"
   ],
   "note": "Lines of equal length are assumed. A failed savefig leaves the figure open (C138_failed_save_leaks), and plot_osfit with a figure that is not the active one draws the fit elsewhere (C138_other_figure_active)."
  },
  {
   "property": "C139",
   "status": "proved",
   "theorems": [
    "BP.C139_app_shows_the_file"
   ],
   "note": "The directory of the bicycle is assumed to exist; a value that is a sequence does not come from a file."
  },
  {
   "property": "C140",
   "status": "partial",
   "theorems": [
    "BP.C140_one_writer",
    "BP.C140_same_text",
    "BP.C140_same_reads_partial",
    "BP.C140_reader_of_a_save",
    "BP.C140_two_constructions_lose",
    "BP.C140_two_saves_spoil"
   ],
   "note": "The third clause holds when all programs read before the first one opens the file (C140_same_reads_partial) and fails otherwise (C140_two_constructions_lose); the last clause is false (C140_two_saves_spoil). C140_reader_of_a_save combines the first clause with C137."
  },
  {
   "property": "C141",
   "status": "partial",
   "theorems": [
    "BP.C141_calls_change_nothing",
    "BP.C141_set_is_the_dict",
    "BP.C141_conversion_separate",
    "BP.C141_own_name_is_the_set",
    "BP.C141_models_share",
    "BP.C141_converted_model_keeps",
    "BP.C141_stays_valid_partial",
    "BP.C141_change_spoils"
   ],
   "note": "The last clause holds as long as the program's own changes store floats and remove no required key (C141_stays_valid_partial) and fails otherwise (C141_change_spoils). Rebinding the attribute `parameters` is not modelled."
  },
  {
   "property": "C142",
   "status": "proved",
   "theorems": [
    "BP.C142_routh_hurwitz",
    "BP.C142_one_direction",
    "BP.C142_one_capsize_speed",
    "BP.C142_lost_on_the_axis",
    "BP.C142_at_most_two_ranges"
   ],
   "note": "The criterion for real quartics is proved in Lemmas/Hurwitz from the factorisation into quadratics. The example bicycle is self-stable from 5.5 to 7.5 m/s and not at 10 m/s."
  },
  {
   "property": "C143",
   "status": "proved",
   "theorems": [
    "BP.C143_canonical_units",
    "BP.C143_state_space_units",
    "BP.C143_eigenvalues_units"
   ],
   "note": "The package itself has no units; the constants of the measurement pipeline (9.81) are not covered."
  },
  {
   "property": "C144",
   "status": "proved",
   "theorems": [
    "BP.C144_gains_assign",
    "BP.C144_gains_stabilise"
   ],
   "note": "The gains are given as keyword arguments that override the stored ones; all eight are actuated (roll torque and steer torque)."
  },
  {
   "property": "C145",
   "status": "proved",
   "theorems": [
    "BP.C145_lean",
    "BP.C145_leans_into",
    "BP.C145_one_turn",
    "BP.C145_hands_off",
    "BP.C145_held_back"
   ],
   "note": "Small angles, as in the linear model. The moments are spelled out from the parameters in Props/SteadyTurn."
  },
  {
   "property": "C146",
   "status": "proved",
   "theorems": [
    "BP.C146_physical",
    "BP.C146_mass_matrix",
    "BP.C146_unstable_at_rest",
    "BP.C146_order"
   ],
   "note": "Physically sensible is Bench.Physical of Props/Canonical: non-negative masses, positive semidefinite in-plane inertias. The order is shown for riders with yB = 0; off the plane C21 already fails."
  },
  {
   "property": "C147",
   "status": "proved",
   "theorems": [
    "BP.C147_stable_iff",
    "BP.C147_routh_hurwitz",
    "BP.C147_common_rate",
    "BP.C147_gains",
    "BP.C147_falls_at_rest"
   ],
   "note": "A free motion is a solution of the differential equation that simulate hands to the solver (C97)."
  },
  {
   "property": "C148",
   "status": "proved",
   "theorems": [
    "BP.C148_bode_is_the_steady_answer"
   ],
   "note": "control.bode evaluates the response of the system it is given (C110); its numerics are outside."
  },
  {
   "property": "C149",
   "status": "proved",
   "theorems": [
    "BP.C149_energy",
    "BP.C149_real_or_imaginary",
    "BP.C149_pairs",
    "BP.C149_no_swinging"
   ],
   "note": "Small angles. The kinetic energy is that of C04, the energy of the weights is spelled out from the parameters."
  },
  {
   "property": "C150",
   "status": "proved",
   "theorems": [
    "BP.C150_benchmark_bicycle",
    "BP.C150_browser_jason",
    "BP.C150_browser_jasonlegs",
    "BP.C150_floats",
    "BP.C150_model_sweep"
   ],
   "note": "The ranges are proved for the decimals of the source and (C150_floats) for all numbers within one part in 2^53 of them, so for the floats Python reads; arithmetic is exact. The signs are computed in the kernel with rational intervals (Lemmas/Boxes, StableCheck), which are proved to hold the canonical matrices."
  },
  {
   "property": "C151",
   "status": "partial",
   "theorems": [
    "BP.C151_accepted",
    "BP.C151_wheels_exchanged_partial",
    "BP.C151_masses_partial",
    "BP.C151_exchange_shows",
    "BP.C151_frame_lengths"
   ],
   "note": "Refuted in part: meijaard2007_browser_jason has IFxx and IRxx exchanged against the three others and the data file (C151_wheels_exchanged_partial), which moves the lower end of the self-stable range by 0.006 m/s (C151_exchange_shows); moore2019_browser_jason is 11.5 kg heavier (C151_masses_partial)."
  },
  {
   "property": "C152",
   "status": "proved",
   "theorems": [
    "BP.C152_simulations_die_out",
    "BP.C152_shipped",
    "BP.C152_only_at_stable_speeds"
   ],
   "note": "solve_ivp is ideal: it returns values of a solution, as in C97."
  },
  {
   "property": "C153",
   "status": "proved",
   "theorems": [
    "BP.C153_converted",
    "BP.C153_range",
    "BP.C153_differ",
    "BP.C153_set",
    "BP.C153_model_sweep"
   ],
   "note": "Entries as numbers within one part in 2^53 of the decimals; arithmetic of the conversion and of the matrices is exact. The difference to meijaard2007_browser_jason (C153_differ) comes with the 11.5 kg of C151."
  },
  {
   "property": "C154",
   "status": "proved",
   "theorems": [
    "BP.C154_accurate",
    "BP.C154_structure",
    "BP.C154_range"
   ],
   "note": "The lines bicycle.py:105-165 are kept as assignments (Model/Rounding), run with any operations that round (Spec.Rounds); machineCanon_exact ties them to the model of the other claims. Forming the state matrix and the eigenvalues is exact here (the state matrix with rounding: C156). The ranges of Gen/RoundingCert.lean are a certificate, checked by the kernel."
  },
  {
   "property": "C155",
   "status": "proved",
   "theorems": [
    "BP.C155_entries",
    "BP.C155_pendulum",
    "BP.C155_tube"
   ],
   "note": "The machine has no smallest and no largest number (Spec.RoundsRel). The other entries are differences of terms of either sign, for which no relative bound is claimed; C154 bounds their absolute errors for the shipped bicycles. The comment in the source (bicycle.py:150, 13 digits) is consistent: the bound for K0[0,0] is 7e-15."
  },
  {
   "property": "C156",
   "status": "proved",
   "theorems": [
    "BP.C156_state_matrix",
    "BP.C156_backward"
   ],
   "note": "ab_matrix in the arithmetic of a machine (machineA, Model/Rounding; machineA_exact ties it to abA). For np.dot only the usual error bound of a dot product is assumed, which holds in any order of the operations and with fused multiply-add. The eigenvalues are those of the computed matrix, exactly (numpy.linalg.eig is outside)."
  },
  {
   "property": "C157",
   "status": "proved",
   "theorems": [
    "BP.C157_eigenvalues"
   ],
   "note": "numpy.linalg.eig is not modelled: it is any function that is backward stable (Spec.BackwardStable), with a real error matrix and the constant 2^-47. Outside 2 to 10 m/s nothing is claimed. The constant of LAPACK is not proved."
  },
  {
   "property": "C158",
   "status": "partial",
   "theorems": [
    "BP.C158_tensor_partial",
    "BP.C158_type_error",
    "BP.C158_missing",
    "BP.C158_floats"
   ],
   "note": "False of the code: the type of IBxx decides the type of the array for every part, so one exactly known IBxx makes the call raise TypeError for every part with an uncertain entry (C158_type_error), and a wheel needs IBxx. Proved otherwise (C158_tensor_partial, exact condition together with C158_type_error and C158_missing). That float() of a UFloat raises TypeError is taken from the uncertainties package."
  },
  {
   "property": "C159",
   "status": "partial",
   "theorems": [
    "BP.C159_stored_with_the_first_type",
    "BP.C159_product_partial",
    "BP.C159_truncated"
   ],
   "note": "False of the code: the result has the type of the first array, so floats after an array of integers lose their digits (C159_truncated). Proved: exactly what is returned (C159_stored_with_the_first_type) and that the values are unchanged when the first array is of floats or all values are integers (C159_product_partial). center_of_mass uses only integers. Overflow of integers is not modelled."
  },
  {
   "property": "C160",
   "status": "proved",
   "theorems": [
    "BP.C160_follows_the_modes",
    "BP.C160_small_steps",
    "BP.C160_sort_modes"
   ],
   "note": "Complements C08: C160_follows_the_modes needs only that each step is smaller than the distance to the other modes. Exact arithmetic. Modes that meet (a real pair that becomes complex) are excluded."
  },
  {
   "property": "C161",
   "status": "proved",
   "theorems": [
    "BP.C161_no_eigenvalue_lost",
    "BP.C161_bicycle"
   ],
   "note": "Complements the refuted C08. The eigenvalues are exact and given in any order. Ranges in which eigenvalues meet are excluded; how small the step must be is not said."
  },
  {
   "property": "C162",
   "status": "proved",
   "theorems": [
    "BP.C162_four_modes",
    "BP.C162_sorted"
   ],
   "note": "The hypothesis of C161 discharged for the benchmark bicycle. The eigenvalues are exact ones of the state matrix formed without rounding from the rounded canonical matrices; how small the step must be is not said."
  },
  {
   "property": "C163",
   "status": "proved",
   "theorems": [
    "BP.C163_listing_order",
    "BP.C163_periods"
   ],
   "note": "The directory is a list of names and contents, different names; loading a pendulum file (the fit) is a parameter. Names are compared by code points, as Python does."
  },
  {
   "property": "C164",
   "status": "proved",
   "theorems": [
    "BP.C164_raw_data_order",
    "BP.C164_parameters_order",
    "BP.C164_same_set"
   ],
   "note": "C164_same_set is the counterexample for two files of one set. The sets are compared as dictionaries (their order is that of the listing). With files that do not load, which exception is raised may depend on the order of Parameters."
  }
 ]
}