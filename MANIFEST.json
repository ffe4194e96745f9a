{
 "claims": [
  {
   "property": "C01",
   "status": "proved",
   "theorems": [
    "Verif.C01_evolve_iterates",
    "Verif.C01_time_reached"
   ],
   "note": ""
  },
  {
   "property": "C02",
   "status": "proved",
   "theorems": [
    "Verif.C02_stored",
    "Verif.C02_stored_crash",
    "Verif.C02_times"
   ],
   "note": ""
  },
  {
   "property": "C03",
   "status": "proved",
   "theorems": [
    "Verif.C03_valueError_iff",
    "Verif.C03_refused_lists",
    "Verif.C03_negative_step",
    "Verif.C03_empty_interval",
    "Verif.C03_zero_step_never_returns",
    "Verif.C03_zero_step_runs_forever"
   ],
   "note": ""
  },
  {
   "property": "C04",
   "status": "proved",
   "theorems": [
    "Verif.C04_adaptive_zeroDivision",
    "Verif.C04_zeroDivision_iff"
   ],
   "note": ""
  },
  {
   "property": "C05",
   "status": "proved",
   "theorems": [
    "Verif.C05_iterates",
    "Verif.C05_times",
    "Verif.C05_one_step",
    "Verif.C05_never_returns",
    "Verif.C05_stagnation",
    "Verif.C05_steps_near",
    "Verif.C05_near",
    "Verif.C05_binary64",
    "Verif.C05_binary64_time"
   ],
   "note": ""
  },
  {
   "property": "C06",
   "status": "proved",
   "theorems": [
    "Verif.C06_trials_any",
    "Verif.C06_trials"
   ],
   "note": ""
  },
  {
   "property": "C07",
   "status": "proved",
   "theorems": [
    "Verif.C07_step_iff",
    "Verif.C07_sizes_decrease",
    "Verif.C07_maxLoops_iff",
    "Verif.C07_minStep_iff"
   ],
   "note": ""
  },
  {
   "property": "C08",
   "status": "proved",
   "theorems": [
    "Verif.C08_step_sizes"
   ],
   "note": ""
  },
  {
   "property": "C09",
   "status": "proved",
   "theorems": [
    "Verif.C09_tolerance",
    "Verif.C09_stored"
   ],
   "note": ""
  },
  {
   "property": "C10",
   "status": "proved",
   "theorems": [
    "Verif.C10_zero_error_rejected",
    "Verif.C10_zero_solution_rejected",
    "Verif.C10_linear_step",
    "Verif.C10_linear_evolve"
   ],
   "note": ""
  },
  {
   "property": "C11",
   "status": "proved",
   "theorems": [
    "Verif.C11_lands_on_tf",
    "Verif.C11_empty_interval"
   ],
   "note": ""
  },
  {
   "property": "C12",
   "status": "proved",
   "theorems": [
    "Verif.C12_terminates",
    "Verif.C12_step_lengths"
   ],
   "note": ""
  },
  {
   "property": "C13",
   "status": "proved",
   "theorems": [
    "Verif.C13_stored"
   ],
   "note": ""
  },
  {
   "property": "C14",
   "status": "proved",
   "theorems": [
    "Verif.C14_evolve_fresh_cs",
    "Verif.C14_evolve_fresh_as"
   ],
   "note": ""
  },
  {
   "property": "C15",
   "status": "proved",
   "theorems": [
    "Verif.C15_step_fresh_cs",
    "Verif.C15_step_fresh_as",
    "Verif.C15_chain_cs",
    "Verif.C15_chain_as"
   ],
   "note": ""
  },
  {
   "property": "C16",
   "status": "proved",
   "theorems": [
    "Verif.C16_stale_cs",
    "Verif.C16_stale_as",
    "Verif.C16_etd35"
   ],
   "note": ""
  },
  {
   "property": "C17",
   "status": "proved",
   "theorems": [
    "Verif.C17_stale",
    "Verif.C17_ignored",
    "Verif.C17_reset",
    "Verif.C17_reset_cs"
   ],
   "note": ""
  },
  {
   "property": "C18",
   "status": "proved",
   "theorems": [
    "Verif.C18_retry_cs",
    "Verif.C18_retry_as"
   ],
   "note": ""
  },
  {
   "property": "C19",
   "status": "proved",
   "theorems": [
    "Verif.C19_raises_cs",
    "Verif.C19_silent_cs",
    "Verif.C19_silent_as",
    "Verif.C19_raises_as",
    "Verif.C19_fresh_cs",
    "Verif.C19_previous_cs",
    "Verif.C19_fresh_as",
    "Verif.C19_previous_as",
    "Verif.C19_dropped_cs",
    "Verif.C19_other_size_cs",
    "Verif.C19_other_size_as"
   ],
   "note": ""
  },
  {
   "property": "C20",
   "status": "proved",
   "theorems": [
    "Verif.C20_evals_cs",
    "Verif.C20_evals_as"
   ],
   "note": ""
  },
  {
   "property": "C21",
   "status": "proved",
   "theorems": [
    "Verif.C21_rk4_textbook",
    "Verif.C21_if4",
    "Verif.C21_if34",
    "Verif.C21_if45dp"
   ],
   "note": ""
  },
  {
   "property": "C22",
   "status": "proved",
   "theorems": [
    "Verif.C22_exact_step",
    "Verif.C22_exact_trial",
    "Verif.C22_limit_step",
    "Verif.C22_limit_trial",
    "Verif.C22_etd4",
    "Verif.C22_etd34",
    "Verif.C22_etd5",
    "Verif.C22_etd35",
    "Verif.C22_exact_diag"
   ],
   "note": ""
  },
  {
   "property": "C23",
   "status": "proved",
   "theorems": [
    "Verif.C23_if",
    "Verif.C23_etd4",
    "Verif.C23_etd5"
   ],
   "note": ""
  },
  {
   "property": "C24",
   "status": "proved",
   "theorems": [
    "Verif.C24_step",
    "Verif.C24_trial",
    "Verif.C24_evolve"
   ],
   "note": ""
  },
  {
   "property": "C25",
   "status": "proved",
   "theorems": [
    "Verif.C25_forcing_step",
    "Verif.C25_forcing_trial",
    "Verif.C25_forcing_limit",
    "Verif.C25_forcing_trial_limit",
    "Verif.C25_forcing_approx",
    "Verif.C25_stages",
    "Verif.C25_equilibrium_step",
    "Verif.C25_equilibrium_trial",
    "Verif.C25_equilibrium_limit",
    "Verif.C25_equilibrium_trial_limit"
   ],
   "note": ""
  },
  {
   "property": "C26",
   "status": "proved",
   "theorems": [
    "Verif.C26_etd",
    "Verif.C26_etd_trial",
    "Verif.C26_if4",
    "Verif.C26_if34"
   ],
   "note": ""
  },
  {
   "property": "C27",
   "status": "proved",
   "theorems": [
    "Verif.C27_etd",
    "Verif.C27_decision",
    "Verif.C27_if34"
   ],
   "note": ""
  },
  {
   "property": "C28",
   "status": "proved",
   "theorems": [
    "Verif.C28_phi_integral",
    "Verif.C28_psi",
    "Verif.C28_recurrence",
    "Verif.C28_series",
    "Verif.C28_at_zero"
   ],
   "note": ""
  },
  {
   "property": "C29",
   "status": "proved",
   "theorems": [
    "Verif.C29_geometric",
    "Verif.C29_default",
    "Verif.C29_alias",
    "Verif.C29_converges",
    "Verif.C29_converges_radius",
    "Verif.C29_error"
   ],
   "note": ""
  },
  {
   "property": "C30",
   "status": "proved",
   "theorems": [
    "Verif.C30_geometric",
    "Verif.C30_eigenvector",
    "Verif.C30_formula",
    "Verif.C30_inside",
    "Verif.C30_outside",
    "Verif.C30_matrix",
    "Verif.C30_hit"
   ],
   "note": ""
  },
  {
   "property": "C31",
   "status": "proved",
   "theorems": [
    "Verif.C31_args",
    "Verif.C31_no_zero",
    "Verif.C31_krogstad",
    "Verif.C31_etd5",
    "Verif.C31_zero",
    "Verif.C31_full"
   ],
   "note": ""
  },
  {
   "property": "C32",
   "status": "proved",
   "theorems": [
    "Verif.C32_step",
    "Verif.C32_trial",
    "Verif.C32_evolve"
   ],
   "note": ""
  },
  {
   "property": "C33",
   "status": "proved",
   "theorems": [
    "Verif.C33_step",
    "Verif.C33_evolve",
    "Verif.C33_adaptive_step",
    "Verif.C33_adaptive_evolve",
    "Verif.C33_real_step",
    "Verif.C33_real_evolve",
    "Verif.C33_real_adaptive_step",
    "Verif.C33_real_adaptive_evolve"
   ],
   "note": ""
  },
  {
   "property": "C34",
   "status": "proved",
   "theorems": [
    "Verif.C34_if4",
    "Verif.C34_if34",
    "Verif.C34_if45dp",
    "Verif.C34_if45dp_corrected",
    "Verif.C34_etd4",
    "Verif.C34_etd5",
    "Verif.C34_etd34",
    "Verif.C34_etd35"
   ],
   "note": ""
  },
  {
   "property": "C35",
   "status": "proved",
   "theorems": [
    "Verif.C35_step",
    "Verif.C35_if4",
    "Verif.C35_trial",
    "Verif.C35_trial_if",
    "Verif.C35_etd5_leading",
    "Verif.C35_etd35_leading",
    "Verif.C35_etd5_commuting",
    "Verif.C35_etd35_commuting",
    "Verif.C35_estimate",
    "Verif.C35_estimate_if45dp",
    "Verif.C35_solution",
    "Verif.C35_solution_trial",
    "Verif.C35_etd5_not_five",
    "Verif.C35_etd35_not_five",
    "Verif.C35_uniform",
    "Verif.C35_uniform_trial"
   ],
   "note": ""
  },
  {
   "property": "C36",
   "status": "proved",
   "theorems": [
    "Verif.C36_assign",
    "Verif.C36_last",
    "Verif.C36_init",
    "Verif.C36_invariant",
    "Verif.C36_no_nan",
    "Verif.C36_nan"
   ],
   "note": ""
  },
  {
   "property": "C37",
   "status": "proved",
   "theorems": [
    "Verif.C37_assign",
    "Verif.C37_last",
    "Verif.C37_invariant",
    "Verif.C37_init"
   ],
   "note": ""
  },
  {
   "property": "C38",
   "status": "proved",
   "theorems": [
    "Verif.C38_shared",
    "Verif.C38_shared_etd",
    "Verif.C38_assign",
    "Verif.C38_new",
    "Verif.C38_unaffected",
    "Verif.C38_rebind_etd",
    "Verif.C38_defaults",
    "Verif.C38_in_range"
   ],
   "note": ""
  },
  {
   "property": "C39",
   "status": "proved",
   "theorems": [
    "Verif.C39_success",
    "Verif.C39_shape_error",
    "Verif.C39_strategy"
   ],
   "note": ""
  },
  {
   "property": "C40",
   "status": "proved",
   "theorems": [
    "Verif.C40_quiet",
    "Verif.C40_handlers",
    "Verif.C40_has_handler",
    "Verif.C40_level",
    "Verif.C40_invalid"
   ],
   "note": ""
  },
  {
   "property": "C41",
   "status": "proved",
   "theorems": [
    "Verif.C41_parse_str",
    "Verif.C41_parse_other",
    "Verif.C41_level_name"
   ],
   "note": ""
  },
  {
   "property": "C42",
   "status": "proved",
   "theorems": [
    "Verif.C42_type_error",
    "Verif.C42_value_error",
    "Verif.C42_rfft",
    "Verif.C42_fft",
    "Verif.C42_points",
    "Verif.C42_empty_interval",
    "Verif.C42_rounding",
    "Verif.C42_binary64_extra_point"
   ],
   "note": ""
  },
  {
   "property": "C43",
   "status": "proved",
   "theorems": [
    "Verif.C43_errors",
    "Verif.C43_points",
    "Verif.C43_order"
   ],
   "note": ""
  },
  {
   "property": "C44",
   "status": "proved",
   "theorems": [
    "Verif.C44_exact",
    "Verif.C44_unique",
    "Verif.C44_row_sums",
    "Verif.C44_dx_cheb",
    "Verif.C44_dx_cheb_columns"
   ],
   "note": ""
  },
  {
   "property": "C45",
   "status": "proved",
   "theorems": [
    "Verif.C45_exact",
    "Verif.C45_interpolant",
    "Verif.C45_linear",
    "Verif.C45_compose",
    "Verif.C45_real_same",
    "Verif.C45_real"
   ],
   "note": ""
  },
  {
   "property": "C46",
   "status": "proved",
   "theorems": [
    "Verif.C46_exact",
    "Verif.C46_interpolant",
    "Verif.C46_linear",
    "Verif.C46_compose",
    "Verif.C46_agrees"
   ],
   "note": ""
  },
  {
   "property": "C47",
   "status": "proved",
   "theorems": [
    "Verif.C47_rfft_typeError",
    "Verif.C47_rfft_valueError",
    "Verif.C47_rfft_returns",
    "Verif.C47_fft_typeError",
    "Verif.C47_fft_valueError",
    "Verif.C47_fft_returns",
    "Verif.C47_cheb_returns",
    "Verif.C47_cheb_shape",
    "Verif.C47_cheb_errors"
   ],
   "note": ""
  },
  {
   "property": "C48",
   "status": "proved",
   "theorems": [
    "Verif.C48_new",
    "Verif.C48_invalid",
    "Verif.C48_history"
   ],
   "note": ""
  },
  {
   "property": "C49",
   "status": "proved",
   "theorems": [
    "Verif.C49_ht",
    "Verif.C49_iht",
    "Verif.C49_length",
    "Verif.C49_linear",
    "Verif.C49_round_trip",
    "Verif.C49_inverse_iff",
    "Verif.C49_grid",
    "Verif.C49_radius"
   ],
   "note": ""
  },
  {
   "property": "C50",
   "status": "proved",
   "theorems": [
    "Verif.C50_grid",
    "Verif.C50_increasing",
    "Verif.C50_same_grid",
    "Verif.C50_even",
    "Verif.C50_palindrome",
    "Verif.C50_rows",
    "Verif.C50_columns",
    "Verif.C50_default_axis_2d",
    "Verif.C50_other"
   ],
   "note": ""
  },
  {
   "property": "C51",
   "status": "proved",
   "theorems": [
    "Verif.C51_pde",
    "Verif.C51_travels",
    "Verif.C51_peak",
    "Verif.C51_multi_error",
    "Verif.C51_multi_sum"
   ],
   "note": ""
  },
  {
   "property": "C52",
   "status": "proved",
   "theorems": [
    "Verif.C52_zero_mode",
    "Verif.C52_zero_mode_iff",
    "Verif.C52_real_signal",
    "Verif.C52_burgers",
    "Verif.C52_burgers_adaptive",
    "Verif.C52_burgers_step",
    "Verif.C52_burgers_adaptive_step",
    "Verif.C52_kdv_filtered",
    "Verif.C52_kdv_filtered_adaptive",
    "Verif.C52_kdv_drift"
   ],
   "note": ""
  },
  {
   "property": "C53",
   "status": "proved",
   "theorems": [
    "Verif.C53_splitting",
    "Verif.C53_stationary"
   ],
   "note": ""
  },
  {
   "property": "C54",
   "status": "proved",
   "theorems": [
    "Verif.C54_error",
    "Verif.C54_not_embedded"
   ],
   "note": ""
  },
  {
   "property": "C55",
   "status": "proved",
   "theorems": [
    "Verif.C55_step",
    "Verif.C55_evolve",
    "Verif.C55_adaptive_step",
    "Verif.C55_adaptive_evolve"
   ],
   "note": ""
  },
  {
   "property": "C56",
   "status": "proved",
   "theorems": [
    "Verif.C56_evolve",
    "Verif.C56_at_tf",
    "Verif.C56_if4"
   ],
   "note": ""
  },
  {
   "property": "C57",
   "status": "proved",
   "theorems": [
    "Verif.C57_trajectory",
    "Verif.C57_stored",
    "Verif.C57_if"
   ],
   "note": ""
  },
  {
   "property": "C58",
   "status": "proved",
   "theorems": [
    "Verif.C58_kdv",
    "Verif.C58_kdv_rhs",
    "Verif.C58_burgers",
    "Verif.C58_dealiased"
   ],
   "note": ""
  },
  {
   "property": "C59",
   "status": "proved",
   "theorems": [
    "Verif.C59_kdv_smooth",
    "Verif.C59_burgers_smooth",
    "Verif.C59_allen_cahn_smooth",
    "Verif.C59_solution",
    "Verif.C59_converges",
    "Verif.C59_converges_adaptive"
   ],
   "note": ""
  },
  {
   "property": "C60",
   "status": "proved",
   "theorems": [
    "Verif.C60_agree",
    "Verif.C60_error",
    "Verif.C60_error_only",
    "Verif.C60_both",
    "Verif.C60_super",
    "Verif.C60_str"
   ],
   "note": ""
  },
  {
   "property": "C61",
   "status": "proved",
   "theorems": [
    "Verif.C61_small_accepted",
    "Verif.C61_rate",
    "Verif.C61_if45dp",
    "Verif.C61_step",
    "Verif.C61_evolve"
   ],
   "note": ""
  },
  {
   "property": "C62",
   "status": "proved",
   "theorems": [
    "Verif.C62_clock",
    "Verif.C62_terminates",
    "Verif.C62_stagnation",
    "Verif.C62_overshoot"
   ],
   "note": ""
  },
  {
   "property": "C63",
   "status": "proved",
   "theorems": [
    "Verif.C63_lists_cs",
    "Verif.C63_lists_as",
    "Verif.C63_step_cs",
    "Verif.C63_step_as",
    "Verif.C63_evolve_cs",
    "Verif.C63_evolve_as",
    "Verif.C63_first_snapshot_cs",
    "Verif.C63_first_snapshot_as",
    "Verif.C63_returned_free_cs",
    "Verif.C63_returned_free_as",
    "Verif.C63_returned_needed_cs"
   ],
   "note": ""
  },
  {
   "property": "C64",
   "status": "proved",
   "theorems": [
    "Verif.C64_step",
    "Verif.C64_evolve",
    "Verif.C64_if4"
   ],
   "note": ""
  },
  {
   "property": "C65",
   "status": "proved",
   "theorems": [
    "Verif.C65_lists_cs",
    "Verif.C65_lists_as",
    "Verif.C65_step_cs",
    "Verif.C65_ignored_cs",
    "Verif.C65_evolve_cs",
    "Verif.C65_step_as",
    "Verif.C65_fresh_as",
    "Verif.C65_ignored_as",
    "Verif.C65_evolve_as"
   ],
   "note": ""
  },
  {
   "property": "C66",
   "status": "proved",
   "theorems": [
    "Verif.C66_step",
    "Verif.C66_evolve",
    "Verif.C66_trial",
    "Verif.C66_trial_error",
    "Verif.C66_subspace_step",
    "Verif.C66_subspace_adaptive_step",
    "Verif.C66_subspace_evolve",
    "Verif.C66_subspace_adaptive_evolve",
    "Verif.C66_functional_step",
    "Verif.C66_functional_adaptive_step",
    "Verif.C66_conserved",
    "Verif.C66_conserved_adaptive",
    "Verif.C66_exponential",
    "Verif.C66_exponential_adaptive"
   ],
   "note": ""
  },
  {
   "property": "C67",
   "status": "proved",
   "theorems": [
    "Verif.C67_exact_cs",
    "Verif.C67_exact_as",
    "Verif.C67_step",
    "Verif.C67_trial",
    "Verif.C67_evolve",
    "Verif.C67_trajectory",
    "Verif.C67_stored",
    "Verif.C67_numpy"
   ],
   "note": ""
  },
  {
   "property": "C68",
   "status": "proved",
   "theorems": [
    "Verif.C68_step",
    "Verif.C68_trial",
    "Verif.C68_evolve"
   ],
   "note": ""
  },
  {
   "property": "C69",
   "status": "proved",
   "theorems": [
    "Verif.C69_evolve",
    "Verif.C69_trajectory",
    "Verif.C69_stored"
   ],
   "note": ""
  },
  {
   "property": "C70",
   "status": "proved",
   "theorems": [
    "Verif.C70_if4",
    "Verif.C70_trial",
    "Verif.C70_reduction"
   ],
   "note": ""
  },
  {
   "property": "C71",
   "status": "proved",
   "theorems": [
    "Verif.C71_steps_cs",
    "Verif.C71_steps_as",
    "Verif.C71_reset_cs",
    "Verif.C71_reset_as",
    "Verif.C71_evolve_cs",
    "Verif.C71_evolve_as",
    "Verif.C71_lengths_cs",
    "Verif.C71_lengths_as",
    "Verif.C71_first_cs",
    "Verif.C71_first_as"
   ],
   "note": ""
  },
  {
   "property": "C72",
   "status": "proved",
   "theorems": [
    "Verif.C72_lists_cs",
    "Verif.C72_lists_as",
    "Verif.C72_step_cs",
    "Verif.C72_ignored_cs",
    "Verif.C72_evolve_cs",
    "Verif.C72_step_as",
    "Verif.C72_fresh_as",
    "Verif.C72_ignored_as",
    "Verif.C72_evolve_as",
    "Verif.C72_write_step",
    "Verif.C72_write_if4",
    "Verif.C72_write_etd",
    "Verif.C72_write_as",
    "Verif.C72_rebind_evolve",
    "Verif.C72_rebind_step"
   ],
   "note": ""
  },
  {
   "property": "C73",
   "status": "proved",
   "theorems": [
    "Verif.C73_step",
    "Verif.C73_evolve",
    "Verif.C73_adaptive_step",
    "Verif.C73_adaptive_evolve",
    "Verif.C73_shift",
    "Verif.C73_adaptive_shift",
    "Verif.C73_binary64",
    "Verif.C73_adaptive_binary64"
   ],
   "note": ""
  },
  {
   "property": "C74",
   "status": "proved",
   "theorems": [
    "Verif.C74_unit_step",
    "Verif.C74_unit_evolve",
    "Verif.C74_unit_adaptive_step",
    "Verif.C74_unit_adaptive_evolve",
    "Verif.C74_modes_step",
    "Verif.C74_modes_evolve",
    "Verif.C74_modes_adaptive_step",
    "Verif.C74_modes_adaptive_evolve",
    "Verif.C74_translate",
    "Verif.C74_translate_adaptive",
    "Verif.C74_reflect",
    "Verif.C74_reflect_adaptive",
    "Verif.C74_odd",
    "Verif.C74_odd_adaptive"
   ],
   "note": ""
  },
  {
   "property": "C75",
   "status": "proved",
   "theorems": [
    "Verif.C75_resume",
    "Verif.C75_past",
    "Verif.C75_raise"
   ],
   "note": ""
  },
  {
   "property": "C76",
   "status": "proved",
   "theorems": [
    "Verif.C76_vec_cs",
    "Verif.C76_vec_as",
    "Verif.C76_rows_cs",
    "Verif.C76_rows_as",
    "Verif.C76_flat_cs",
    "Verif.C76_flat_as",
    "Verif.C76_one_cs",
    "Verif.C76_one_as",
    "Verif.C76_cols_cs",
    "Verif.C76_cols_as",
    "Verif.C76_eig_cols",
    "Verif.C76_shape_cs",
    "Verif.C76_shape_as",
    "Verif.C76_empty_as",
    "Verif.C76_mismatch_cs",
    "Verif.C76_mismatch_as",
    "Verif.C76_full_mismatch_cs",
    "Verif.C76_full_mismatch_as",
    "Verif.C76_eig_mismatch"
   ],
   "note": ""
  },
  {
   "property": "C77",
   "status": "proved",
   "theorems": [
    "Verif.C77_shapes_cs",
    "Verif.C77_shapes_as",
    "Verif.C77_stack_cs",
    "Verif.C77_stack_as",
    "Verif.C77_number_cs",
    "Verif.C77_number_if34",
    "Verif.C77_number_as",
    "Verif.C77_constant_cs",
    "Verif.C77_constant_as"
   ],
   "note": ""
  },
  {
   "property": "C78",
   "status": "proved",
   "theorems": [
    "Verif.C78_kdv_cs",
    "Verif.C78_burgers_cs",
    "Verif.C78_kdv_as",
    "Verif.C78_burgers_as",
    "Verif.C78_spectral_shapes",
    "Verif.C78_allen_cahn_vec",
    "Verif.C78_allen_cahn_cs",
    "Verif.C78_allen_cahn_as",
    "Verif.C78_evolve_cs",
    "Verif.C78_evolve_as"
   ],
   "note": ""
  },
  {
   "property": "C79",
   "status": "proved",
   "theorems": [
    "Verif.C79_vec",
    "Verif.C79_columns",
    "Verif.C79_stack",
    "Verif.C79_errors",
    "Verif.C79_no_round_trip",
    "Verif.C79_number",
    "Verif.C79_multi_soliton",
    "Verif.C79_soliton_sum"
   ],
   "note": ""
  },
  {
   "property": "C80",
   "status": "proved",
   "theorems": [
    "Verif.C80_step_cs",
    "Verif.C80_step_full",
    "Verif.C80_evolve_cs",
    "Verif.C80_factor",
    "Verif.C80_step_as",
    "Verif.C80_evolve_as",
    "Verif.C80_bad_step",
    "Verif.C80_bad_evolve",
    "Verif.C80_exact_cs",
    "Verif.C80_exact_as",
    "Verif.C80_negative_cutoff"
   ],
   "note": ""
  },
  {
   "property": "C81",
   "status": "proved",
   "theorems": [
    "Verif.C81_cs_nan",
    "Verif.C81_cs_size_nan",
    "Verif.C81_cs_size_inf",
    "Verif.C81_cs_forever",
    "Verif.C81_cs_beginning",
    "Verif.C81_as_nan",
    "Verif.C81_as_size",
    "Verif.C81_as_size_inf",
    "Verif.C81_as_infinite",
    "Verif.C81_as_forever",
    "Verif.C81_minh_nan",
    "Verif.C81_incr_nan",
    "Verif.C81_decr_nan",
    "Verif.C81_setting_factor",
    "Verif.C81_setting_step",
    "Verif.C81_tie_cs",
    "Verif.C81_tie_as"
   ],
   "note": ""
  },
  {
   "property": "C82",
   "status": "proved",
   "theorems": [
    "Verif.C82_exact_cs",
    "Verif.C82_exact_as",
    "Verif.C82_coefs_cs",
    "Verif.C82_coefs_as",
    "Verif.C82_if4",
    "Verif.C82_if34",
    "Verif.C82_if45dp",
    "Verif.C82_evolve",
    "Verif.C82_stored",
    "Verif.C82_numpy"
   ],
   "note": ""
  },
  {
   "property": "C83",
   "status": "proved",
   "theorems": [
    "Verif.C83_dtype_cs",
    "Verif.C83_dtype_as",
    "Verif.C83_complex_cs",
    "Verif.C83_complex_as",
    "Verif.C83_complex_nl",
    "Verif.C83_complex_nl_as",
    "Verif.C83_step_cs",
    "Verif.C83_real_if4",
    "Verif.C83_real_as",
    "Verif.C83_entries_cs",
    "Verif.C83_entries_as",
    "Verif.C83_values_cs",
    "Verif.C83_values_as"
   ],
   "note": ""
  },
  {
   "property": "C84",
   "status": "proved",
   "theorems": [
    "Verif.C84_kdv_numpy_stored",
    "Verif.C84_burgers_numpy_stored",
    "Verif.C84_kdv_numpy",
    "Verif.C84_burgers_numpy",
    "Verif.C84_kdv_nl",
    "Verif.C84_burgers_nl",
    "Verif.C84_allen_cahn_nl",
    "Verif.C84_kdv_lin",
    "Verif.C84_burgers_lin",
    "Verif.C84_allen_cahn_lin",
    "Verif.C84_kx_rfft",
    "Verif.C84_kx_fft",
    "Verif.C84_dx_rfft",
    "Verif.C84_dx_fft",
    "Verif.C84_dx_rfft_raises",
    "Verif.C84_dx_fft_raises",
    "Verif.C84_kdv_problem",
    "Verif.C84_burgers_problem",
    "Verif.C84_kdv_evolve",
    "Verif.C84_burgers_evolve",
    "Verif.C84_kdv_stored",
    "Verif.C84_burgers_stored",
    "Verif.C84_allen_cahn_problem",
    "Verif.C84_allen_cahn_evolve",
    "Verif.C84_allen_cahn_stored",
    "Verif.C84_evolve",
    "Verif.C84_stored"
   ],
   "note": ""
  },
  {
   "property": "C85",
   "status": "proved",
   "theorems": [
    "Verif.C85_allen_cahn_numpy_stored",
    "Verif.C85_allen_cahn_numpy",
    "Verif.C85_cheb",
    "Verif.C85_cheb_raises",
    "Verif.C85_dx_cheb",
    "Verif.C85_dx_cheb_raises",
    "Verif.C85_hankel",
    "Verif.C85_hankel_raises",
    "Verif.C85_transform",
    "Verif.C85_transform_complex",
    "Verif.C85_transform_length",
    "Verif.C85_round_trip"
   ],
   "note": ""
  },
  {
   "property": "C86",
   "status": "proved",
   "theorems": [
    "Verif.C86_exists",
    "Verif.C86_equation",
    "Verif.C86_regular",
    "Verif.C86_grid",
    "Verif.C86_iht_exact",
    "Verif.C86_ht_exact",
    "Verif.C86_every_array",
    "Verif.C86_ht_defect",
    "Verif.C86_iht_float",
    "Verif.C86_ht_float"
   ],
   "note": ""
  },
  {
   "property": "C87",
   "status": "proved",
   "theorems": [
    "Verif.C87_arrays",
    "Verif.C87_complex",
    "Verif.C87_evolve",
    "Verif.C87_kdv",
    "Verif.C87_burgers",
    "Verif.C87_stored",
    "Verif.C87_gradual",
    "Verif.C87_flush",
    "Verif.C87_sums"
   ],
   "note": ""
  },
  {
   "property": "C88",
   "status": "proved",
   "theorems": [
    "Verif.C88_grid",
    "Verif.C88_one",
    "Verif.C88_rows",
    "Verif.C88_rows_one",
    "Verif.C88_columns",
    "Verif.C88_default",
    "Verif.C88_raises",
    "Verif.C88_same_grid",
    "Verif.C88_grid_nd",
    "Verif.C88_lists"
   ],
   "note": ""
  },
  {
   "property": "C89",
   "status": "proved",
   "theorems": [
    "Verif.C89_if4_step",
    "Verif.C89_if34_trial",
    "Verif.C89_if45dp_trial",
    "Verif.C89_if4_evolve",
    "Verif.C89_limits",
    "Verif.C89_if4_bounded",
    "Verif.C89_if4_unstable",
    "Verif.C89_if34_accepts",
    "Verif.C89_if45dp_accepts"
   ],
   "note": ""
  },
  {
   "property": "C90",
   "status": "proved",
   "theorems": [
    "Verif.C90_first",
    "Verif.C90_steps",
    "Verif.C90_evolve",
    "Verif.C90_if4",
    "Verif.C90_adaptive_first",
    "Verif.C90_adaptive_evolve",
    "Verif.C90_adaptive_own"
   ],
   "note": ""
  },
  {
   "property": "C91",
   "status": "proved",
   "theorems": [
    "Verif.C91_etd_step",
    "Verif.C91_etd_trial",
    "Verif.C91_etd_evolve",
    "Verif.C91_if4_step",
    "Verif.C91_if4_evolve",
    "Verif.C91_if34_trial",
    "Verif.C91_if45dp_trial",
    "Verif.C91_exact"
   ],
   "note": ""
  },
  {
   "property": "C92",
   "status": "proved",
   "theorems": [
    "Verif.C92_step",
    "Verif.C92_trial",
    "Verif.C92_evolve",
    "Verif.C92_accept",
    "Verif.C92_loss",
    "Verif.C92_if4",
    "Verif.C92_mixed_step",
    "Verif.C92_mixed_trial",
    "Verif.C92_mixed_evolve"
   ],
   "note": ""
  },
  {
   "property": "C93",
   "status": "proved",
   "theorems": [
    "Verif.C93_adaptive_step",
    "Verif.C93_adaptive_evolve",
    "Verif.C93_if45dp",
    "Verif.C93_if45dp_step",
    "Verif.C93_if4_step",
    "Verif.C93_if4_equilibrium",
    "Verif.C93_shift"
   ],
   "note": ""
  },
  {
   "property": "C94",
   "status": "proved",
   "theorems": [
    "Verif.C94_step",
    "Verif.C94_evolve",
    "Verif.C94_adaptive_step",
    "Verif.C94_adaptive_evolve",
    "Verif.C94_homogeneous"
   ],
   "note": ""
  },
  {
   "property": "C95",
   "status": "proved",
   "theorems": [
    "Verif.C95_growth",
    "Verif.C95_steps",
    "Verif.C95_default"
   ],
   "note": ""
  },
  {
   "property": "C96",
   "status": "proved",
   "theorems": [
    "Verif.C96_step",
    "Verif.C96_evolve",
    "Verif.C96_adaptive_step",
    "Verif.C96_adaptive_evolve",
    "Verif.C96_frozen"
   ],
   "note": ""
  },
  {
   "property": "C97",
   "status": "proved",
   "theorems": [
    "Verif.C97_prefix",
    "Verif.C97_first_fifth"
   ],
   "note": ""
  },
  {
   "property": "C98",
   "status": "proved",
   "theorems": [
    "Verif.C98_repeat",
    "Verif.C98_replay"
   ],
   "note": ""
  },
  {
   "property": "C99",
   "status": "proved",
   "theorems": [
    "Verif.C99_step",
    "Verif.C99_replay"
   ],
   "note": ""
  },
  {
   "property": "C100",
   "status": "proved",
   "theorems": [
    "Verif.C100_step",
    "Verif.C100_evolve",
    "Verif.C100_both"
   ],
   "note": ""
  },
  {
   "property": "C101",
   "status": "proved",
   "theorems": [
    "Verif.C101_trade",
    "Verif.C101_incr",
    "Verif.C101_decr"
   ],
   "note": ""
  }
 ]
}