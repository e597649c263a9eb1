{
 "claims": [
  {
   "property": "C01",
   "status": "proved",
   "theorems": [
    "PySwarms.C01_personal_best_inside",
    "PySwarms.C01_personal_best"
   ],
   "note": ""
  },
  {
   "property": "C02",
   "status": "proved",
   "theorems": [
    "PySwarms.C02_never_nan",
    "PySwarms.C02_returned_not_nan",
    "PySwarms.C02_bad_evaluation_ignored"
   ],
   "note": ""
  },
  {
   "property": "C03",
   "status": "proved",
   "theorems": [
    "PySwarms.C03_compute_pbest"
   ],
   "note": ""
  },
  {
   "property": "C04",
   "status": "proved",
   "theorems": [
    "PySwarms.C04_cost_history_running_min",
    "PySwarms.C04_cost_history_antitone"
   ],
   "note": ""
  },
  {
   "property": "C05",
   "status": "proved",
   "theorems": [
    "PySwarms.C05_first_call"
   ],
   "note": ""
  },
  {
   "property": "C06",
   "status": "proved",
   "theorems": [
    "PySwarms.C06_repeated_call",
    "PySwarms.C06_mismatch_witness"
   ],
   "note": ""
  },
  {
   "property": "C07",
   "status": "proved",
   "theorems": [
    "PySwarms.C07_covered",
    "PySwarms.C07_history_covered",
    "PySwarms.C07_dynamic_ring",
    "PySwarms.C07_all_neighbours"
   ],
   "note": ""
  },
  {
   "property": "C08",
   "status": "proved",
   "theorems": [
    "PySwarms.C08_position_optimal",
    "PySwarms.C08_coincident_witness"
   ],
   "note": ""
  },
  {
   "property": "C09",
   "status": "proved",
   "theorems": [
    "PySwarms.C09_ring",
    "PySwarms.C09_ring_single",
    "PySwarms.C09_vonNeumann",
    "PySwarms.C09_vonNeumann_single",
    "PySwarms.C09_random",
    "PySwarms.C09_pyramid",
    "PySwarms.C09_ring_succeeds"
   ],
   "note": ""
  },
  {
   "property": "C10",
   "status": "proved",
   "theorems": [
    "PySwarms.C10_random_graph",
    "PySwarms.C10_repair_passes",
    "PySwarms.C10_too_many_neighbours"
   ],
   "note": ""
  },
  {
   "property": "C11",
   "status": "proved",
   "theorems": [
    "PySwarms.C11_optimizer_static",
    "PySwarms.C11_optimizer_dynamic",
    "PySwarms.C11_optimizer_first",
    "PySwarms.C11_static_neighbours_fixed",
    "PySwarms.C11_pyramid_small",
    "PySwarms.C11_static_result_indep",
    "PySwarms.C11_dynamic_forgets",
    "PySwarms.C11_uses_current_positions"
   ],
   "note": ""
  },
  {
   "property": "C12",
   "status": "proved",
   "theorems": [
    "PySwarms.C12_history_bound",
    "PySwarms.C12_never_returns",
    "PySwarms.C12_first_31_succeed",
    "PySwarms.C12_32nd_fails",
    "PySwarms.C12_vonNeumann_zero",
    "PySwarms.C12_dynamic_ok"
   ],
   "note": ""
  },
  {
   "property": "C13",
   "status": "proved",
   "theorems": [
    "PySwarms.C13_delannoy_counts",
    "PySwarms.C13_delannoy_symm",
    "PySwarms.C13_delannoy_terminates",
    "PySwarms.C13_delannoy_negative"
   ],
   "note": ""
  },
  {
   "property": "C14",
   "status": "proved",
   "theorems": [
    "PySwarms.C14_memoryless",
    "PySwarms.C14_memory",
    "PySwarms.C14_total",
    "PySwarms.C14_unknown_strategy"
   ],
   "note": ""
  },
  {
   "property": "C15",
   "status": "proved",
   "theorems": [
    "PySwarms.C15_coordinate",
    "PySwarms.C15_particle",
    "PySwarms.C15_identity"
   ],
   "note": ""
  },
  {
   "property": "C16",
   "status": "proved",
   "theorems": [
    "PySwarms.C16_projection",
    "PySwarms.C16_idempotent",
    "PySwarms.C16_monotone"
   ],
   "note": ""
  },
  {
   "property": "C17",
   "status": "proved",
   "theorems": [
    "PySwarms.C17_terminates_iff",
    "PySwarms.C17_diverges",
    "PySwarms.C17_passes",
    "PySwarms.C17_mirror",
    "PySwarms.C17_single_bounce"
   ],
   "note": ""
  },
  {
   "property": "C18",
   "status": "proved",
   "theorems": [
    "PySwarms.C18_defined_iff",
    "PySwarms.C18_wraps"
   ],
   "note": ""
  },
  {
   "property": "C19",
   "status": "proved",
   "theorems": [
    "PySwarms.C19_shrink",
    "PySwarms.C19_intermediate",
    "PySwarms.C19_first_call"
   ],
   "note": ""
  },
  {
   "property": "C20",
   "status": "proved",
   "theorems": [
    "PySwarms.C20_shared"
   ],
   "note": ""
  },
  {
   "property": "C21",
   "status": "proved",
   "theorems": [
    "PySwarms.C21_all_inside",
    "PySwarms.C21_from_inside",
    "PySwarms.C21_returned",
    "PySwarms.C21_from_inside_returned"
   ],
   "note": ""
  },
  {
   "property": "C22",
   "status": "proved",
   "theorems": [
    "PySwarms.C22_clamp",
    "PySwarms.C22_zero_witness"
   ],
   "note": ""
  },
  {
   "property": "C23",
   "status": "proved",
   "theorems": [
    "PySwarms.C23_frozen",
    "PySwarms.C23_returned",
    "PySwarms.C23_velocities"
   ],
   "note": ""
  },
  {
   "property": "C24",
   "status": "proved",
   "theorems": [
    "PySwarms.C24_optimize",
    "PySwarms.C24_invert",
    "PySwarms.C24_inside"
   ],
   "note": ""
  },
  {
   "property": "C25",
   "status": "proved",
   "theorems": [
    "PySwarms.C25_never_returns",
    "PySwarms.C25_type_error"
   ],
   "note": ""
  },
  {
   "property": "C26",
   "status": "proved",
   "theorems": [
    "PySwarms.C26_update",
    "PySwarms.C26_history",
    "PySwarms.C26_missing_never_returns",
    "PySwarms.C26_missing_key_error"
   ],
   "note": ""
  },
  {
   "property": "C27",
   "status": "proved",
   "theorems": [
    "PySwarms.C27_exact",
    "PySwarms.C27_at_least",
    "PySwarms.C27_no_stop",
    "PySwarms.C27_constant"
   ],
   "note": ""
  },
  {
   "property": "C28",
   "status": "proved",
   "theorems": [
    "PySwarms.C28_equal_lengths",
    "PySwarms.C28_at_most",
    "PySwarms.C28_aligned"
   ],
   "note": ""
  },
  {
   "property": "C29",
   "status": "proved",
   "theorems": [
    "PySwarms.C29_reset",
    "PySwarms.C29_static_witness"
   ],
   "note": ""
  },
  {
   "property": "C30",
   "status": "proved",
   "theorems": [
    "PySwarms.C30_enough_particles",
    "PySwarms.C30_more_processes",
    "PySwarms.C30_optimize_enough",
    "PySwarms.C30_split",
    "PySwarms.C30_parallel_eq_serial",
    "PySwarms.C30_exceptions",
    "PySwarms.C30_optimize",
    "PySwarms.C30_not_rowwise_witness"
   ],
   "note": ""
  },
  {
   "property": "C31",
   "status": "proved",
   "theorems": [
    "PySwarms.C31_vectorises",
    "PySwarms.C31_rejects_arrays",
    "PySwarms.C31_propagates",
    "PySwarms.C31_rowWise",
    "PySwarms.C31_rowWiseRaising"
   ],
   "note": ""
  },
  {
   "property": "C32",
   "status": "proved",
   "theorems": [
    "PySwarms.C32_no_iterations",
    "PySwarms.C32_star_all_inf",
    "PySwarms.C32_local_all_inf"
   ],
   "note": ""
  },
  {
   "property": "C33",
   "status": "proved",
   "theorems": [
    "PySwarms.C33_keys_and_values",
    "PySwarms.C33_no_drift",
    "PySwarms.C33_no_strategy",
    "PySwarms.C33_run_keys"
   ],
   "note": ""
  },
  {
   "property": "C34",
   "status": "proved",
   "theorems": [
    "PySwarms.C34_lin_between",
    "PySwarms.C34_lin_monotone",
    "PySwarms.C34_nonlin_between",
    "PySwarms.C34_nonlin_monotone",
    "PySwarms.C34_run"
   ],
   "note": ""
  },
  {
   "property": "C35",
   "status": "proved",
   "theorems": [
    "PySwarms.C35_range",
    "PySwarms.C35_monotone",
    "PySwarms.C35_c2_negative"
   ],
   "note": ""
  },
  {
   "property": "C36",
   "status": "proved",
   "theorems": [
    "PySwarms.C36_never_returns",
    "PySwarms.C36_key_error"
   ],
   "note": ""
  },
  {
   "property": "C37",
   "status": "proved",
   "theorems": [
    "PySwarms.C37_generated_inside",
    "PySwarms.C37_init_pos",
    "PySwarms.C37_center_witness",
    "PySwarms.C37_optimizer"
   ],
   "note": ""
  },
  {
   "property": "C38",
   "status": "proved",
   "theorems": [
    "PySwarms.C38_clamped",
    "PySwarms.C38_default",
    "PySwarms.C38_degenerate"
   ],
   "note": ""
  },
  {
   "property": "C39",
   "status": "proved",
   "theorems": [
    "PySwarms.C39_only_bits",
    "PySwarms.C39_rule",
    "PySwarms.C39_fair_coin"
   ],
   "note": ""
  },
  {
   "property": "C40",
   "status": "proved",
   "theorems": [
    "PySwarms.C40_run",
    "PySwarms.C40_equal",
    "PySwarms.C40_monotone"
   ],
   "note": ""
  },
  {
   "property": "C41",
   "status": "proved",
   "theorems": [
    "PySwarms.C41_binary",
    "PySwarms.C41_permutation",
    "PySwarms.C41_init_pos",
    "PySwarms.C41_not_bits_witness"
   ],
   "note": ""
  },
  {
   "property": "C42",
   "status": "proved",
   "theorems": [
    "PySwarms.C42_grid",
    "PySwarms.C42_multiplicity",
    "PySwarms.C42_no_duplicates"
   ],
   "note": ""
  },
  {
   "property": "C43",
   "status": "proved",
   "theorems": [
    "PySwarms.C43_optimal",
    "PySwarms.C43_empty",
    "PySwarms.C43_exception",
    "PySwarms.C43_nan_witness",
    "PySwarms.C43_with_optimizer",
    "PySwarms.C43_best_of_all_runs"
   ],
   "note": ""
  },
  {
   "property": "C44",
   "status": "proved",
   "theorems": [
    "PySwarms.C44_in_range",
    "PySwarms.C44_succeeds",
    "PySwarms.C44_missing_p",
    "PySwarms.C44_unknown_key",
    "PySwarms.C44_all_required",
    "PySwarms.C44_exact",
    "PySwarms.C44_double",
    "PySwarms.C44_upper_end_reached"
   ],
   "note": ""
  },
  {
   "property": "C45",
   "status": "proved",
   "theorems": [
    "PySwarms.Bench.C45_beale",
    "PySwarms.Bench.C45_booth",
    "PySwarms.Bench.C45_bukin6",
    "PySwarms.Bench.C45_crossintray",
    "PySwarms.Bench.C45_easom",
    "PySwarms.Bench.C45_eggholder",
    "PySwarms.Bench.C45_goldstein",
    "PySwarms.Bench.C45_himmelblau",
    "PySwarms.Bench.C45_holdertable",
    "PySwarms.Bench.C45_levi",
    "PySwarms.Bench.C45_matyas",
    "PySwarms.Bench.C45_schaffer2",
    "PySwarms.Bench.C45_threehump",
    "PySwarms.Bench.C45_sphere",
    "PySwarms.Bench.C45_rosenbrock",
    "PySwarms.Bench.C45_rastrigin",
    "PySwarms.Bench.C45_ackley"
   ],
   "note": ""
  },
  {
   "property": "C46",
   "status": "proved",
   "theorems": [
    "PySwarms.Bench.C46_crossintray",
    "PySwarms.Bench.C46_crossintray_point",
    "PySwarms.Bench.C46_crossintray_value",
    "PySwarms.Bench.C46_eggholder",
    "PySwarms.Bench.C46_sphere",
    "PySwarms.Bench.C46_rosenbrock",
    "PySwarms.Bench.C46_rosenbrock_one",
    "PySwarms.Bench.C46_booth",
    "PySwarms.Bench.C46_beale",
    "PySwarms.Bench.C46_himmelblau",
    "PySwarms.Bench.C46_himmelblau_others",
    "PySwarms.Bench.C46_matyas",
    "PySwarms.Bench.C46_goldstein",
    "PySwarms.Bench.C46_threehump",
    "PySwarms.Bench.C46_bukin6",
    "PySwarms.Bench.C46_rastrigin",
    "PySwarms.Bench.C46_ackley",
    "PySwarms.Bench.C46_easom",
    "PySwarms.Bench.C46_schaffer2",
    "PySwarms.Bench.C46_levi",
    "PySwarms.Bench.C46_holdertable"
   ],
   "note": ""
  },
  {
   "property": "C47",
   "status": "proved",
   "theorems": [
    "PySwarms.Bench.C47_rows_only",
    "PySwarms.Bench.C47_parallel"
   ],
   "note": ""
  },
  {
   "property": "C48",
   "status": "proved",
   "theorems": [
    "PySwarms.C48_arange",
    "PySwarms.C48_mesh",
    "PySwarms.C48_mesh_exception",
    "PySwarms.C48_history",
    "PySwarms.C48_history_of_run"
   ],
   "note": ""
  },
  {
   "property": "C49",
   "status": "proved",
   "theorems": [
    "PySwarms.Mem.C49_kept",
    "PySwarms.Mem.C49_exist",
    "PySwarms.Mem.C49_as_if_copied",
    "PySwarms.Mem.C49_history",
    "PySwarms.Mem.C49_boundary_call",
    "PySwarms.Mem.C49_velocity_call",
    "PySwarms.Mem.C49_pure_strategies"
   ],
   "note": ""
  },
  {
   "property": "C50",
   "status": "proved",
   "theorems": [
    "PySwarms.C50_crash",
    "PySwarms.C50_as_if_shorter",
    "PySwarms.C50_usable"
   ],
   "note": ""
  },
  {
   "property": "C51",
   "status": "proved",
   "theorems": [
    "PySwarms.C51_monotone"
   ],
   "note": ""
  },
  {
   "property": "C52",
   "status": "proved",
   "theorems": [
    "PySwarms.C52_mean_pbest",
    "PySwarms.C52_last_is_mean"
   ],
   "note": ""
  },
  {
   "property": "C53",
   "status": "proved",
   "theorems": [
    "PySwarms.C53_velocity_strategy",
    "PySwarms.C53_boundary_strategy",
    "PySwarms.C53_boundary_unused",
    "PySwarms.C53_only_velocity",
    "PySwarms.C53_only_boundary",
    "PySwarms.C53_option_strategy",
    "PySwarms.C53_only_option",
    "PySwarms.C53_option_unused"
   ],
   "note": ""
  },
  {
   "property": "C54",
   "status": "proved",
   "theorems": [
    "PySwarms.C54_ftol_iter",
    "PySwarms.C54_window_positive"
   ],
   "note": ""
  },
  {
   "property": "C55",
   "status": "proved",
   "theorems": [
    "PySwarms.C55_translation"
   ],
   "note": ""
  },
  {
   "property": "C56",
   "status": "proved",
   "theorems": [
    "PySwarms.Rep.C56_file",
    "PySwarms.Rep.C56_defaults",
    "PySwarms.Rep.C56_raises",
    "PySwarms.Rep.C56_exhaustive",
    "PySwarms.Rep.C56_output",
    "PySwarms.Rep.C56_hook"
   ],
   "note": ""
  },
  {
   "property": "C57",
   "status": "proved",
   "theorems": [
    "PySwarms.C57_random",
    "PySwarms.C57_pyramid",
    "PySwarms.C57_pyramid_history"
   ],
   "note": ""
  },
  {
   "property": "C58",
   "status": "proved",
   "theorems": [
    "PySwarms.C58_returns",
    "PySwarms.C58_all_strategies"
   ],
   "note": ""
  },
  {
   "property": "C59",
   "status": "proved",
   "theorems": [
    "PySwarms.C59_mean_neighbor"
   ],
   "note": ""
  },
  {
   "property": "C60",
   "status": "proved",
   "theorems": [
    "PySwarms.C60_units"
   ],
   "note": ""
  },
  {
   "property": "C61",
   "status": "proved",
   "theorems": [
    "PySwarms.C61_dimensions"
   ],
   "note": ""
  },
  {
   "property": "C62",
   "status": "proved",
   "theorems": [
    "PySwarms.C62_same_run",
    "PySwarms.C62_tutorial",
    "PySwarms.C62_nan_differs"
   ],
   "note": ""
  },
  {
   "property": "C63",
   "status": "proved",
   "theorems": [
    "PySwarms.C63_no_effect",
    "PySwarms.C63_other_option",
    "PySwarms.C63_ignored_entries",
    "PySwarms.C63_random",
    "PySwarms.C63_keys",
    "PySwarms.C63_between",
    "PySwarms.C63_default_ends",
    "PySwarms.C63_nonlin_between"
   ],
   "note": ""
  },
  {
   "property": "C64",
   "status": "proved",
   "theorems": [
    "PySwarms.C64_steps",
    "PySwarms.C64_reach",
    "PySwarms.C64_search"
   ],
   "note": ""
  },
  {
   "property": "C65",
   "status": "proved",
   "theorems": [
    "PySwarms.C65_hull",
    "PySwarms.C65_inertia_leaves"
   ],
   "note": ""
  },
  {
   "property": "C66",
   "status": "proved",
   "theorems": [
    "PySwarms.C66_fully_connected",
    "PySwarms.C66_ties_matter"
   ],
   "note": ""
  },
  {
   "property": "C67",
   "status": "proved",
   "theorems": [
    "PySwarms.C67_reflective_far",
    "PySwarms.C67_reflective_near",
    "PySwarms.C67_handlers",
    "PySwarms.C67_created",
    "PySwarms.C67_all_inside",
    "PySwarms.C67_shrink_leaves",
    "PySwarms.C67_reflective_loops",
    "PySwarms.C67_reflective_hangs",
    "PySwarms.C67_clamp",
    "PySwarms.C67_created_velocity",
    "PySwarms.C67_shrink_excursion",
    "PySwarms.C67_shrink_throws"
   ],
   "note": ""
  },
  {
   "property": "C68",
   "status": "proved",
   "theorems": [
    "PySwarms.C68_personal_best",
    "PySwarms.C68_cost_history",
    "PySwarms.C68_never_nan",
    "PySwarms.C68_returned",
    "PySwarms.C68_local"
   ],
   "note": ""
  },
  {
   "property": "C69",
   "status": "proved",
   "theorems": [
    "PySwarms.C69_unmodified",
    "PySwarms.C69_adjust",
    "PySwarms.C69_adjust_first",
    "PySwarms.C69_zero",
    "PySwarms.C69_zero_inside",
    "PySwarms.C69_zero_optimize"
   ],
   "note": ""
  },
  {
   "property": "C70",
   "status": "proved",
   "theorems": [
    "PySwarms.C70_star",
    "PySwarms.C70_ring",
    "PySwarms.C70_ring_missing",
    "PySwarms.C70_vonNeumann"
   ],
   "note": ""
  },
  {
   "property": "C71",
   "status": "proved",
   "theorems": [
    "PySwarms.C71_particles"
   ],
   "note": ""
  },
  {
   "property": "C72",
   "status": "proved",
   "theorems": [
    "PySwarms.C72_dimension",
    "PySwarms.C72_swarm",
    "PySwarms.C72_start",
    "PySwarms.C72_random_reopens"
   ],
   "note": ""
  },
  {
   "property": "C73",
   "status": "proved",
   "theorems": [
    "PySwarms.C73_recorded",
    "PySwarms.C73_mean",
    "PySwarms.C73_bounded",
    "PySwarms.C73_explores",
    "PySwarms.C73_best_particle",
    "PySwarms.C73_unstable"
   ],
   "note": ""
  },
  {
   "property": "C74",
   "status": "proved",
   "theorems": [
    "PySwarms.C74_initial_positions",
    "PySwarms.C74_initial_velocities",
    "PySwarms.C74_miss",
    "PySwarms.C74_guarantee",
    "PySwarms.C74_velocity",
    "PySwarms.C74_relocation",
    "PySwarms.C74_binary",
    "PySwarms.C74_random_search"
   ],
   "note": ""
  },
  {
   "property": "C75",
   "status": "proved",
   "theorems": [
    "PySwarms.C75_visits",
    "PySwarms.C75_almost_surely",
    "PySwarms.C75_optimum"
   ],
   "note": ""
  },
  {
   "property": "C76",
   "status": "proved",
   "theorems": [
    "PySwarms.C76_contour",
    "PySwarms.C76_surface",
    "PySwarms.C76_wrong_columns",
    "PySwarms.C76_workflow",
    "PySwarms.C76_cost_line"
   ],
   "note": ""
  },
  {
   "property": "C77",
   "status": "proved",
   "theorems": [
    "PySwarms.C77_wrong_shape",
    "PySwarms.C77_completed_run",
    "PySwarms.C77_same_run"
   ],
   "note": ""
  },
  {
   "property": "C78",
   "status": "proved",
   "theorems": [
    "PySwarms.C78_same_run",
    "PySwarms.C78_accepted_shapes"
   ],
   "note": ""
  },
  {
   "property": "C79",
   "status": "proved",
   "theorems": [
    "PySwarms.C79_prefix",
    "PySwarms.C79_converged",
    "PySwarms.C79_not_worse"
   ],
   "note": ""
  },
  {
   "property": "C80",
   "status": "proved",
   "theorems": [
    "PySwarms.C80_truncation",
    "PySwarms.C80_prefix"
   ],
   "note": ""
  },
  {
   "property": "C81",
   "status": "proved",
   "theorems": [
    "PySwarms.C81_continue",
    "PySwarms.C81_star_remembers"
   ],
   "note": ""
  },
  {
   "property": "C82",
   "status": "proved",
   "theorems": [
    "PySwarms.C82_ignored_parameters",
    "PySwarms.C82_row_strategies_couple"
   ],
   "note": ""
  },
  {
   "property": "C83",
   "status": "proved",
   "theorems": [
    "PySwarms.C83_mirror",
    "PySwarms.C83_invert_directed",
    "PySwarms.C83_random_directed"
   ],
   "note": ""
  },
  {
   "property": "C84",
   "status": "proved",
   "theorems": [
    "PySwarms.C84_confined",
    "PySwarms.C84_documented_options_can_explode"
   ],
   "note": ""
  },
  {
   "property": "C85",
   "status": "proved",
   "theorems": [
    "PySwarms.C85_same_numbers",
    "PySwarms.C85_consumption",
    "PySwarms.C85_common_numbers",
    "PySwarms.C85_seeded_prefix",
    "PySwarms.C85_seeded_truncation",
    "PySwarms.C85_construct",
    "PySwarms.C85_loud_objective",
    "PySwarms.C85_reset",
    "PySwarms.C85_construct_any",
    "PySwarms.C85_any_objective",
    "PySwarms.C85_history"
   ],
   "note": ""
  },
  {
   "property": "C86",
   "status": "proved",
   "theorems": [
    "PySwarms.C86_fixed_numbers",
    "PySwarms.C86_independent_scores",
    "PySwarms.C86_consumption",
    "PySwarms.C86_place_matters"
   ],
   "note": ""
  },
  {
   "property": "C87",
   "status": "proved",
   "theorems": [
    "PySwarms.C87_cone",
    "PySwarms.C87_isolated",
    "PySwarms.C87_random",
    "PySwarms.C87_sharp"
   ],
   "note": ""
  },
  {
   "property": "C88",
   "status": "proved",
   "theorems": [
    "PySwarms.C88_plain",
    "PySwarms.C88_refused",
    "PySwarms.C88_adjust",
    "PySwarms.C88_unsigned",
    "PySwarms.C88_unsigned_run"
   ],
   "note": ""
  },
  {
   "property": "C89",
   "status": "proved",
   "theorems": [
    "PySwarms.C89_personal_bests",
    "PySwarms.C89_star",
    "PySwarms.C89_covered",
    "PySwarms.C89_score",
    "PySwarms.C89_place"
   ],
   "note": ""
  },
  {
   "property": "C90",
   "status": "proved",
   "theorems": [
    "PySwarms.C90_call",
    "PySwarms.C90_returns",
    "PySwarms.C90_hopeless",
    "PySwarms.C90_same",
    "PySwarms.C90_numbers"
   ],
   "note": ""
  },
  {
   "property": "C91",
   "status": "proved",
   "theorems": [
    "PySwarms.C91_constructors",
    "PySwarms.C91_general",
    "PySwarms.C91_binary",
    "PySwarms.C91_missing",
    "PySwarms.C91_returns",
    "PySwarms.C91_never"
   ],
   "note": ""
  },
  {
   "property": "C92",
   "status": "proved",
   "theorems": [
    "PySwarms.C92_personal_best",
    "PySwarms.C92_histories",
    "PySwarms.C92_position",
    "PySwarms.C92_cost",
    "PySwarms.C92_python_float",
    "PySwarms.C92_builtin"
   ],
   "note": ""
  },
  {
   "property": "C93",
   "status": "proved",
   "theorems": [
    "PySwarms.C93_call",
    "PySwarms.C93_reset",
    "PySwarms.C93_construct",
    "PySwarms.C93_identity",
    "PySwarms.C93_write",
    "PySwarms.C93_swarm_options",
    "PySwarms.C93_swarm_options_fresh",
    "PySwarms.C93_assign",
    "PySwarms.C93_assign_binary"
   ],
   "note": ""
  },
  {
   "property": "C94",
   "status": "proved",
   "theorems": [
    "PySwarms.C94_agrees",
    "PySwarms.C94_agrees_exact",
    "PySwarms.C94_handlers",
    "PySwarms.C94_inside",
    "PySwarms.C94_clamped",
    "PySwarms.C94_reflective_hangs",
    "PySwarms.C94_periodic_nan",
    "PySwarms.C94_shrink_nan",
    "PySwarms.C94_default_nan"
   ],
   "note": ""
  },
  {
   "property": "C95",
   "status": "proved",
   "theorems": [
    "PySwarms.C95_refused",
    "PySwarms.C95_accepted",
    "PySwarms.C95_forever",
    "PySwarms.C95_poisoned",
    "PySwarms.C95_confined"
   ],
   "note": ""
  },
  {
   "property": "C96",
   "status": "proved",
   "theorems": [
    "PySwarms.Mem.C96_personal_best",
    "PySwarms.Mem.C96_returned",
    "PySwarms.Mem.C96_feasible",
    "PySwarms.Mem.C96_user_arrays",
    "PySwarms.Mem.C96_init_pos",
    "PySwarms.Mem.C96_history",
    "PySwarms.Mem.C96_history_witness",
    "PySwarms.Mem.C96_processes",
    "PySwarms.Mem.C96_processes_witness"
   ],
   "note": ""
  },
  {
   "property": "C97",
   "status": "proved",
   "theorems": [
    "PySwarms.C97_dynamic",
    "PySwarms.C97_dynamic_answer",
    "PySwarms.C97_call",
    "PySwarms.C97_static",
    "PySwarms.C97_first_ring",
    "PySwarms.C97_first_random",
    "PySwarms.C97_first_pyramid",
    "PySwarms.C97_pyramid_small",
    "PySwarms.C97_size",
    "PySwarms.C97_size_error",
    "PySwarms.C97_one_particle",
    "PySwarms.C97_static_witness",
    "PySwarms.C97_one_particle_witness"
   ],
   "note": ""
  },
  {
   "property": "C98",
   "status": "proved",
   "theorems": [
    "PySwarms.C98_points",
    "PySwarms.C98_bounds",
    "PySwarms.C98_clamp",
    "PySwarms.C98_personal_bests",
    "PySwarms.C98_returns",
    "PySwarms.C98_star",
    "PySwarms.C98_next_call",
    "PySwarms.C98_histories",
    "PySwarms.C98_recorded",
    "PySwarms.C98_reset",
    "PySwarms.C98_evaluation_lost",
    "PySwarms.C98_torn_pair",
    "PySwarms.C98_misaligned",
    "PySwarms.C98_cut_reset"
   ],
   "note": ""
  },
  {
   "property": "C99",
   "status": "proved",
   "theorems": [
    "PySwarms.C99_threads",
    "PySwarms.C99_reachable",
    "PySwarms.C99_finishes",
    "PySwarms.C99_alone",
    "PySwarms.C99_order"
   ],
   "note": ""
  },
  {
   "property": "C100",
   "status": "proved",
   "theorems": [
    "PySwarms.C100_inside",
    "PySwarms.C100_primed",
    "PySwarms.C100_separate",
    "PySwarms.C100_default_options",
    "PySwarms.C100_no_options",
    "PySwarms.C100_first_use",
    "PySwarms.C100_unprimed",
    "PySwarms.C100_shared_handler"
   ],
   "note": ""
  },
  {
   "property": "C101",
   "status": "proved",
   "theorems": [
    "PySwarms.C101_reads",
    "PySwarms.C101_reset",
    "PySwarms.C101_bounds",
    "PySwarms.C101_clamp",
    "PySwarms.C101_personal_costs",
    "PySwarms.C101_star",
    "PySwarms.C101_histories",
    "PySwarms.C101_torn"
   ],
   "note": ""
  },
  {
   "property": "C102",
   "status": "proved",
   "theorems": [
    "PySwarms.C102_accepted",
    "PySwarms.C102_optimize",
    "PySwarms.C102_lists",
    "PySwarms.C102_constructor"
   ],
   "note": ""
  },
  {
   "property": "C103",
   "status": "proved",
   "theorems": [
    "PySwarms.Kw.C103_reach",
    "PySwarms.Kw.C103_clash",
    "PySwarms.Kw.C103_refused",
    "PySwarms.Kw.C103_cost",
    "PySwarms.Kw.C103_declared",
    "PySwarms.Kw.C103_forgotten"
   ],
   "note": ""
  },
  {
   "property": "C104",
   "status": "proved",
   "theorems": [
    "PySwarms.Od.C104_irrelevant",
    "PySwarms.Od.C104_split",
    "PySwarms.Od.C104_reserved",
    "PySwarms.Od.C104_parameter",
    "PySwarms.Od.C104_missing"
   ],
   "note": ""
  },
  {
   "property": "C105",
   "status": "proved",
   "theorems": [
    "PySwarms.Ct.C105_converted",
    "PySwarms.Ct.C105_converted_history",
    "PySwarms.Ct.C105_exact",
    "PySwarms.Ct.C105_nearly_optimal",
    "PySwarms.Ct.C105_not_optimal",
    "PySwarms.Ct.C105_object"
   ],
   "note": ""
  },
  {
   "property": "C106",
   "status": "proved",
   "theorems": [
    "PySwarms.C106_no_effect",
    "PySwarms.C106_lin",
    "PySwarms.C106_lin_monotone",
    "PySwarms.C106_lin_overshoots",
    "PySwarms.C106_nonlin",
    "PySwarms.C106_nonlin_monotone",
    "PySwarms.C106_exp",
    "PySwarms.C106_exp_c2",
    "PySwarms.C106_random",
    "PySwarms.C106_no_drift",
    "PySwarms.C106_run"
   ],
   "note": ""
  },
  {
   "property": "C107",
   "status": "proved",
   "theorems": [
    "PySwarms.C107_kept",
    "PySwarms.C107_handlers_return",
    "PySwarms.C107_free_parameters",
    "PySwarms.C107_shrink_frozen",
    "PySwarms.C107_random_collapses",
    "PySwarms.C107_no_result",
    "PySwarms.C107_periodic_nan",
    "PySwarms.C107_periodic_run"
   ],
   "note": ""
  },
  {
   "property": "C108",
   "status": "proved",
   "theorems": [
    "PySwarms.C108_init_pos",
    "PySwarms.C108_accepted",
    "PySwarms.C108_nearest",
    "PySwarms.C108_periodic",
    "PySwarms.C108_reflective",
    "PySwarms.C108_random",
    "PySwarms.C108_intermediate",
    "PySwarms.C108_intermediate_between",
    "PySwarms.C108_shrink",
    "PySwarms.C108_shrink_others"
   ],
   "note": ""
  },
  {
   "property": "C109",
   "status": "proved",
   "theorems": [
    "PySwarms.C109_exact",
    "PySwarms.C109_no_stop",
    "PySwarms.C109_infinite",
    "PySwarms.C109_unchanged",
    "PySwarms.C109_constant",
    "PySwarms.C109_close",
    "PySwarms.C109_tiny",
    "PySwarms.C109_overflow",
    "PySwarms.C109_overflow_small"
   ],
   "note": ""
  },
  {
   "property": "C110",
   "status": "proved",
   "theorems": [
    "PySwarms.C110_best",
    "PySwarms.C110_histories",
    "PySwarms.C110_widen",
    "PySwarms.C110_narrow",
    "PySwarms.C110_outside",
    "PySwarms.C110_reset",
    "PySwarms.C110_reset_topology",
    "PySwarms.C110_dormant",
    "PySwarms.C110_binary_options",
    "PySwarms.C110_particles",
    "PySwarms.C110_returned"
   ],
   "note": ""
  },
  {
   "property": "C111",
   "status": "proved",
   "theorems": [
    "PySwarms.C111_only_bits",
    "PySwarms.C111_personal_best",
    "PySwarms.C111_never_nan",
    "PySwarms.C111_clamped",
    "PySwarms.C111_frozen",
    "PySwarms.C111_saturated",
    "PySwarms.C111_agrees",
    "PySwarms.C111_agrees_created"
   ],
   "note": ""
  },
  {
   "property": "C112",
   "status": "proved",
   "theorems": [
    "PySwarms.C112_same_object",
    "PySwarms.C112_reset_separates",
    "PySwarms.C112_two_optimizers",
    "PySwarms.C112_failed_reset",
    "PySwarms.C112_static"
   ],
   "note": ""
  },
  {
   "property": "C113",
   "status": "proved",
   "theorems": [
    "PySwarms.Fl.C113_exact_two",
    "PySwarms.Fl.C113_exact_many",
    "PySwarms.Fl.C113_never_negative",
    "PySwarms.Fl.C113_not_below",
    "PySwarms.Fl.C113_ackley_positive",
    "PySwarms.Fl.C113_ackley_at_zero",
    "PySwarms.Fl.C113_attained",
    "PySwarms.Fl.C113_levi_at_one",
    "PySwarms.Fl.C113_goldstein_below",
    "PySwarms.Fl.C113_sphere_zero",
    "PySwarms.Fl.C113_matyas"
   ],
   "note": ""
  },
  {
   "property": "C114",
   "status": "proved",
   "theorems": [
    "PySwarms.C114_global",
    "PySwarms.C114_local",
    "PySwarms.C114_random",
    "PySwarms.C114_pyramid",
    "PySwarms.C114_personal_best",
    "PySwarms.C114_history"
   ],
   "note": ""
  },
  {
   "property": "C115",
   "status": "proved",
   "theorems": [
    "PySwarms.Cls.C115_swarm",
    "PySwarms.Cls.C115_swarm_error",
    "PySwarms.Cls.C115_swarm_attributes",
    "PySwarms.Cls.C115_assign",
    "PySwarms.Cls.C115_formatters"
   ],
   "note": ""
  },
  {
   "property": "C116",
   "status": "proved",
   "theorems": [
    "PySwarms.C116_global",
    "PySwarms.C116_start",
    "PySwarms.C116_local",
    "PySwarms.C116_random",
    "PySwarms.C116_pyramid",
    "PySwarms.C116_personal_best",
    "PySwarms.C116_history"
   ],
   "note": ""
  },
  {
   "property": "C117",
   "status": "proved",
   "theorems": [
    "PySwarms.Say.C117_verbose",
    "PySwarms.Say.C117_output",
    "PySwarms.Say.C117_last",
    "PySwarms.Say.C117_star",
    "PySwarms.Say.C117_quiet",
    "PySwarms.Say.C117_records"
   ],
   "note": ""
  },
  {
   "property": "C118",
   "status": "proved",
   "theorems": [
    "PySwarms.Memo.C118_covered",
    "PySwarms.Memo.C118_serial",
    "PySwarms.Memo.C118_lost",
    "PySwarms.Memo.C118_frozen",
    "PySwarms.Memo.C118_transparent",
    "PySwarms.Memo.C118_cache",
    "PySwarms.Memo.C118_budget",
    "PySwarms.Memo.C118_budget_ignored",
    "PySwarms.Memo.C118_schedule_matters"
   ],
   "note": ""
  },
  {
   "property": "C119",
   "status": "proved",
   "theorems": [
    "PySwarms.C119_restarts",
    "PySwarms.C119_almost_surely",
    "PySwarms.C119_converges",
    "PySwarms.C119_found",
    "PySwarms.C119_any_topology",
    "PySwarms.C119_any_converges",
    "PySwarms.C119_without_restart",
    "PySwarms.C119_binary",
    "PySwarms.C119_binary_almost_surely"
   ],
   "note": ""
  },
  {
   "property": "C120",
   "status": "proved",
   "theorems": [
    "PySwarms.C120_shift",
    "PySwarms.C120_scale_down",
    "PySwarms.C120_scale_up",
    "PySwarms.C120_narrow",
    "PySwarms.C120_strict"
   ],
   "note": ""
  },
  {
   "property": "C121",
   "status": "proved",
   "theorems": [
    "PySwarms.C121_call",
    "PySwarms.C121_first_call",
    "PySwarms.C121_stages",
    "PySwarms.C121_star_cost",
    "PySwarms.C121_second_call"
   ],
   "note": ""
  },
  {
   "property": "C122",
   "status": "proved",
   "theorems": [
    "PySwarms.C122_alone",
    "PySwarms.C122_after",
    "PySwarms.C122_best_of",
    "PySwarms.C122_more",
    "PySwarms.C122_social",
    "PySwarms.C122_more_can_hurt"
   ],
   "note": ""
  },
  {
   "property": "C123",
   "status": "proved",
   "theorems": [
    "PySwarms.C123_blind",
    "PySwarms.C123_path",
    "PySwarms.C123_reach"
   ],
   "note": ""
  },
  {
   "property": "C124",
   "status": "proved",
   "theorems": [
    "PySwarms.C124_not_worse",
    "PySwarms.C124_first_option",
    "PySwarms.C124_grid_search",
    "PySwarms.C124_other_option"
   ],
   "note": ""
  },
  {
   "property": "C125",
   "status": "proved",
   "theorems": [
    "PySwarms.C125_refines",
    "PySwarms.C125_blocks",
    "PySwarms.C125_more_c1",
    "PySwarms.C125_shift",
    "PySwarms.C125_in_range",
    "PySwarms.C125_more_can_hurt"
   ],
   "note": ""
  },
  {
   "property": "C126",
   "status": "proved",
   "theorems": [
    "PySwarms.C126_group",
    "PySwarms.C126_nested",
    "PySwarms.C126_better_guides",
    "PySwarms.C126_norm",
    "PySwarms.C126_clusters",
    "PySwarms.C126_not_mutual",
    "PySwarms.C126_norm_matters",
    "PySwarms.C126_norm_bits",
    "PySwarms.C126_norm_binary"
   ],
   "note": ""
  },
  {
   "property": "C127",
   "status": "proved",
   "theorems": [
    "PySwarms.C127_neighbours",
    "PySwarms.C127_calls",
    "PySwarms.C127_too_small"
   ],
   "note": ""
  },
  {
   "property": "C128",
   "status": "proved",
   "theorems": [
    "PySwarms.C128_entries",
    "PySwarms.C128_never_increases",
    "PySwarms.C128_integers",
    "PySwarms.C128_below_best"
   ],
   "note": ""
  },
  {
   "property": "C129",
   "status": "proved",
   "theorems": [
    "PySwarms.C129_call",
    "PySwarms.C129_search",
    "PySwarms.C129_grid_search",
    "PySwarms.C129_random_search"
   ],
   "note": ""
  },
  {
   "property": "C130",
   "status": "proved",
   "theorems": [
    "PySwarms.C130_start",
    "PySwarms.C130_reset",
    "PySwarms.C130_run",
    "PySwarms.C130_never_hit",
    "PySwarms.C130_exact_hit",
    "PySwarms.C130_almost_surely"
   ],
   "note": ""
  },
  {
   "property": "C131",
   "status": "proved",
   "theorems": [
    "PySwarms.C131_bounds",
    "PySwarms.C131_clamp",
    "PySwarms.C131_start",
    "PySwarms.C131_nearest_untouched",
    "PySwarms.C131_clamp_untouched",
    "PySwarms.C131_periodic_wraps_unseen"
   ],
   "note": ""
  },
  {
   "property": "C132",
   "status": "proved",
   "theorems": [
    "PySwarms.C132_black_box",
    "PySwarms.C132_unseen",
    "PySwarms.C132_bounded",
    "PySwarms.C132_bits",
    "PySwarms.C132_arbitrarily_wrong",
    "PySwarms.C132_float_black_box"
   ],
   "note": ""
  },
  {
   "property": "C133",
   "status": "proved",
   "theorems": [
    "PySwarms.C133_no_bounds",
    "PySwarms.C133_inside",
    "PySwarms.C133_nearest",
    "PySwarms.C133_periodic",
    "PySwarms.C133_sum",
    "PySwarms.C133_life",
    "PySwarms.C133_reflective",
    "PySwarms.C133_shrink",
    "PySwarms.C133_intermediate",
    "PySwarms.C133_random"
   ],
   "note": ""
  },
  {
   "property": "C134",
   "status": "proved",
   "theorems": [
    "PySwarms.C134_replay",
    "PySwarms.C134_recovery",
    "PySwarms.C134_float_replay",
    "PySwarms.C134_float_recovery"
   ],
   "note": ""
  },
  {
   "property": "C135",
   "status": "proved",
   "theorems": [
    "PySwarms.Memo.C135_same",
    "PySwarms.Memo.C135_calls",
    "PySwarms.Memo.C135_bits",
    "PySwarms.Memo.C135_bits_life",
    "PySwarms.Memo.C135_lost"
   ],
   "note": ""
  },
  {
   "property": "C136",
   "status": "proved",
   "theorems": [
    "PySwarms.C136_stricter",
    "PySwarms.C136_not_worse",
    "PySwarms.C136_float"
   ],
   "note": ""
  }
 ]
}