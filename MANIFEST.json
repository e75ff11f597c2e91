{
 "claims": [
  {
   "property": "C01",
   "status": "proved",
   "theorems": [
    "Verif.C01_power",
    "Verif.C01_powers",
    "Verif.C01_powers_overflow"
   ],
   "note": "Values over exact reals; buffer behaviour for any previous contents; overflow for n<2 is part of the property and proved."
  },
  {
   "property": "C02",
   "status": "proved",
   "theorems": [
    "Verif.C02_dichotomy_safe",
    "Verif.C02_dichotomy_reads_range",
    "Verif.C02_dichotomy_terminates",
    "Verif.C02_dichotomy_brackets",
    "Verif.C02_dichotomy_start_irrelevant"
   ],
   "note": "Safety for every arithmetic (NaN included); bracketing over exact reals."
  },
  {
   "property": "C03",
   "status": "proved",
   "theorems": [
    "Verif.C03_interpolPoly_safe",
    "Verif.C03_interpolPoly_empty"
   ],
   "note": "Every arithmetic and comparison outcome; n < 2^63."
  },
  {
   "property": "C04",
   "status": "proved",
   "theorems": [
    "Verif.C04_interpolPoly_unique",
    "Verif.C04_interpolPoly_exists",
    "Verif.C04_interpolPoly_node",
    "Verif.C04_interpolPoly_perm",
    "Verif.C04_interpolPoly_linear"
   ],
   "note": "Over exact reals, any n."
  },
  {
   "property": "C05",
   "status": "proved",
   "theorems": [
    "Verif.C05_interpolLin_ends",
    "Verif.C05_interpolLin_affine",
    "Verif.C05_interpolLin_between"
   ],
   "note": "Over exact reals."
  },
  {
   "property": "C06",
   "status": "partial",
   "theorems": [
    "Verif.C06_findPk_poly_safe",
    "Verif.C06_findPk_lin_violation",
    "Verif.C06_findPk_lin_safe_partial",
    "Verif.C06_single_mode_violation",
    "Verif.C06_run_lin_violation"
   ],
   "note": "Proved in poly mode for every arithmetic; violated in lin mode: requesting the last tabulated mode reads one cell past the table (C06_findPk_lin_violation); the other requests are safe (C06_findPk_lin_safe_partial)."
  },
  {
   "property": "C07",
   "status": "partial",
   "theorems": [
    "Verif.C07_findPk_pointwise_partial",
    "Verif.C07_findPk_order_violation",
    "Verif.C07_findPk_order_violation_poly"
   ],
   "note": "Holds for ascending requests; violated for unordered requests in both modes (C07_findPk_order_violation, C07_findPk_order_violation_poly)."
  },
  {
   "property": "C08",
   "status": "proved",
   "theorems": [
    "Verif.C08_findPk_node_poly",
    "Verif.C08_findPk_lin_between",
    "Verif.C08_findPk_poly_quadratic",
    "Verif.C08_findPk_poly_quartic"
   ],
   "note": "Over exact reals."
  },
  {
   "property": "C09",
   "status": "proved",
   "theorems": [
    "Verif.C09_extrapolation_powerlaw",
    "Verif.C09_extrapolation_pos",
    "Verif.C09_extrapolation_zero"
   ],
   "note": "Over exact reals."
  },
  {
   "property": "C10",
   "status": "partial",
   "theorems": [
    "Verif.C10_continuous_highk",
    "Verif.C10_limit_lowk",
    "Verif.C10_lowk_violation",
    "Verif.C10_continuous_inside"
   ],
   "note": "Holds at the high end and between the modes of the table; violated at the low end, where the extrapolation is anchored at the second mode (C10_lowk_violation)."
  },
  {
   "property": "C11",
   "status": "partial",
   "theorems": [
    "Verif.C11_sigmad2_safe",
    "Verif.C11_sigmad2_integral_partial",
    "Verif.C11_sigmad2_order_violation"
   ],
   "note": "Memory safety for every arithmetic; value equals the integral of the piecewise linear spectrum for ascending requests; violated for unordered requests (C11_sigmad2_order_violation)."
  },
  {
   "property": "C12",
   "status": "proved",
   "theorems": [
    "Verif.C12_sigmaSpec_monotone",
    "Verif.C12_sigmaSpec_saturates",
    "Verif.C12_sigmad2_shape",
    "Verif.C12_sigmad2_linear"
   ],
   "note": "Over exact reals, for ascending requests and a non-negative cutoff."
  },
  {
   "property": "C13",
   "status": "proved",
   "theorems": [
    "Verif.C13_nodes_cells",
    "Verif.C13_nodes_mirror",
    "Verif.C13_nodes_affine"
   ],
   "note": "Cells: every arithmetic; mirror and affine map: exact reals, any root-search outcome."
  },
  {
   "property": "C14",
   "status": "proved",
   "theorems": [
    "Verif.C14_recurrence",
    "Verif.C14_derivative",
    "Verif.C14_newton",
    "Verif.C14_exact",
    "Verif.C14_roots_exist"
   ],
   "note": "Recurrence, derivative, Newton step and exactness over exact reals; hypotheses of exactness are satisfiable for every n (C14_roots_exist). Termination of the Newton loop in floating point is not claimed."
  },
  {
   "property": "C15",
   "status": "proved",
   "theorems": [
    "Verif.C15_mu_history",
    "Verif.C15_q_history",
    "Verif.C15_mu_range",
    "Verif.C15_mu_is_rule"
   ],
   "note": "History: every arithmetic; sums and containment: exact reals."
  },
  {
   "property": "C16",
   "status": "proved",
   "theorems": [
    "Verif.C16_muRange_safe",
    "Verif.C16_muRange"
   ],
   "note": "Safety: every arithmetic; containment: exact reals, all five copies through one parametrised transcription."
  },
  {
   "property": "C17",
   "status": "proved",
   "theorems": [
    "Verif.C17_F2_symm",
    "Verif.C17_F2_rotation",
    "Verif.C17_F2_parity",
    "Verif.C17_F2_cancel",
    "Verif.C17_F2_mu",
    "Verif.C17_gamma2_tree",
    "Verif.C17_F2_spt"
   ],
   "note": "Over exact reals; also equality with the second-order kernel of an independently written perturbation theory recursion."
  },
  {
   "property": "C18",
   "status": "proved",
   "theorems": [
    "Verif.C18_F3_perm",
    "Verif.C18_F3_perm_list",
    "Verif.C18_F3_parity",
    "Verif.C18_F3_zero",
    "Verif.C18_F3_spt"
   ],
   "note": "Over exact reals, guard thresholds included; equality with the recursion for configurations outside the guards."
  },
  {
   "property": "C19",
   "status": "proved",
   "theorems": [
    "Verif.C19_sqrt_nonneg",
    "Verif.C19_LFunc",
    "Verif.C19_WFunc",
    "Verif.C19_small_beta",
    "Verif.C19_big_beta",
    "Verif.C19_WFunc_singular"
   ],
   "note": "Domain errors are explicit outcomes of the checked transcription; exact reals."
  },
  {
   "property": "C20",
   "status": "proved",
   "theorems": [
    "Verif.C20_betafunc_closed",
    "Verif.C20_betafunc_series",
    "Verif.C20_small_beta_arg",
    "Verif.C20_big_beta_arg"
   ],
   "note": "Over exact reals."
  },
  {
   "property": "C21",
   "status": "proved",
   "theorems": [
    "Verif.C21_ff_middle",
    "Verif.C21_gg_middle",
    "Verif.C21_ff_near",
    "Verif.C21_gg_near",
    "Verif.C21_ff_far",
    "Verif.C21_gg_far"
   ],
   "note": "Middle branch equals the closed form exactly; both expansions bounded with explicit constants."
  },
  {
   "property": "C22",
   "status": "partial",
   "theorems": [
    "Verif.C22_delta_near",
    "Verif.C22_theta_near_partial",
    "Verif.C22_theta_near_violation",
    "Verif.C22_delta_small",
    "Verif.C22_theta_small",
    "Verif.C22_middle"
   ],
   "note": "Density fifth order, velocity only third order: cubic coefficient has the wrong sign (violation theorem)."
  },
  {
   "property": "C23",
   "status": "proved",
   "theorems": [
    "Verif.C23_symm",
    "Verif.C23_scale",
    "Verif.C23_one_loop_sum",
    "Verif.C23_two_loop_sum",
    "Verif.C23_order"
   ],
   "note": "Symmetry, scale covariance, node order independence of both sums."
  },
  {
   "property": "C24",
   "status": "partial",
   "theorems": [
    "Verif.C24_branch_symm",
    "Verif.C24_branch_partial",
    "Verif.C24_kernel_partial",
    "Verif.C24_kernel_wide_partial",
    "Verif.C24_gamma2_partial",
    "Verif.C24_kernel_violation",
    "Verif.C24_gamma2_violation"
   ],
   "note": "Each of the six expressions per field is symmetric; branch selection is not (two tests single out k1); violation at sides 1,500,500, loop momentum 51."
  },
  {
   "property": "C25",
   "status": "proved",
   "theorems": [
    "Verif.C25_one_loop",
    "Verif.C25_two_loop",
    "Verif.C25_pk_one_loop",
    "Verif.C25_pk_two_loop"
   ],
   "note": "Runs for (b,a) are defined when runs for (a,b) are, with the propagator columns exchanged; pk of both classes unchanged."
  },
  {
   "property": "C26",
   "status": "partial",
   "theorems": [
    "Verif.C26_run_one_loop",
    "Verif.C26_run_bias",
    "Verif.C26_run_B",
    "Verif.C26_run_A_two_loop",
    "Verif.C26_run_two_loop_partial",
    "Verif.C26_gamma2_loop_violation",
    "Verif.C26_B",
    "Verif.C26_A",
    "Verif.C26_gamma2_tree",
    "Verif.C26_bias",
    "Verif.C26_bias_full",
    "Verif.C26_half_space"
   ],
   "note": "Violated by the tree-loop and loop-loop columns of Spectrum2Loop, integrated over the half plane with the kernel of C24 (C26_gamma2_loop_violation). Proved for the runs: the stored columns of Spectrum1Loop, tree-tree of Spectrum2Loop, Bias1Loop, B1Loop/B2Loop and the deterministic part of A2Loop are doubled half-plane integrals of symmetric densities, the four other bias columns full-plane integrals."
  },
  {
   "property": "C27",
   "status": "proved",
   "theorems": [
    "Verif.C27_permutation",
    "Verif.C27_reversal",
    "Verif.C27_parity"
   ],
   "note": "Permutation, loop-momentum reversal and parity for every table, interpolation mode and configuration in which the computation is defined; definedness in poly mode proved beside."
  },
  {
   "property": "C28",
   "status": "partial",
   "theorems": [
    "Verif.C28_exchange_partial",
    "Verif.C28_threshold_violation"
   ],
   "note": "Proved outside the legs in [1e-2,3e-2) and outside the asymmetric branch tests of C24; C28_threshold_violation is a triangle where the exchange fails."
  },
  {
   "property": "C29",
   "status": "partial",
   "theorems": [
    "Verif.C29_II_III_zero",
    "Verif.C29_I_suppressed_partial",
    "Verif.C29_I_violation"
   ],
   "note": "Zero for the Monte-Carlo part; in bispectrum_1loop_I the zeros are overwritten (C29_I_violation), only the exp(-100) suppression holds."
  },
  {
   "property": "C30",
   "status": "partial",
   "theorems": [
    "Verif.C30_gamma2_tree",
    "Verif.C30_gamma2_tree_cross",
    "Verif.C30_gamma2_loop",
    "Verif.C30_gamma2_loop_cross",
    "Verif.C30_gamma3",
    "Verif.C30_gamma3_cross",
    "Verif.C30_one_loop_partial",
    "Verif.C30_one_loop_cross_partial",
    "Verif.C30_two_loop_partial",
    "Verif.C30_two_loop_cross_partial",
    "Verif.C30_one_loop_violation",
    "Verif.C30_gamma2_tree_violation"
   ],
   "note": "Proved for each quadrature and whole runs when tables are looked up by lin and the Gauss weights are positive (the nodes are found in order, C79_near); the default poly interpolation violates it, with a witness table. Cubature value enters as an assumption on the routine (non-negative on non-negative integrands)."
  },
  {
   "property": "C31",
   "status": "partial",
   "theorems": [
    "Verif.C31_A_two_loop_violation",
    "Verif.C31_B_two_loop_partial",
    "Verif.C31_B_two_loop_violation",
    "Verif.C31_one_loop",
    "Verif.C31_two_loop",
    "Verif.C31_bias_partial",
    "Verif.C31_A_one_loop",
    "Verif.C31_B_one_loop",
    "Verif.C31_sigma3sq_violation"
   ],
   "note": "One-loop, two-loop, bias (all columns but sigma3sq), A and B one-loop runs on the spectrum multiplied by s^2 give the columns rescale(s) gives, for all spectra, modes, memories and schedules; the two-loop statement assumes a cubature routine that is homogeneous (the code uses an absolute tolerance of 1e-12). sigma3sq is refuted for every s with s^2 != 0, 1. A2Loop and B2Loop are refuted for some s > 0 (their integrands are damped), A2Loop for every cubature routine that integrates zero to zero; what holds for B2Loop is C31_B_two_loop_partial."
  },
  {
   "property": "C32",
   "status": "partial",
   "theorems": [
    "Verif.C32_rescale_val",
    "Verif.C32_rescale_total",
    "Verif.C32_scale_tables",
    "Verif.C32_rescale_rescale",
    "Verif.C32_pk1",
    "Verif.C32_pk1_sigma",
    "Verif.C32_pk2",
    "Verif.C32_pkLin",
    "Verif.C32_pkOfLin",
    "Verif.C32_pkBias",
    "Verif.C32_pkBiasDamp",
    "Verif.C32_pkAB",
    "Verif.C32_sigma3sq_violation",
    "Verif.C32_sigma3sq_partial"
   ],
   "note": "Holds for every spectrum and bias spectrum except pk_sigma3sq, where rescale applies the wrong power (C32_sigma3sq_violation)."
  },
  {
   "property": "C33",
   "status": "proved",
   "theorems": [
    "Verif.C33_one_loop",
    "Verif.C33_two_loop"
   ],
   "note": "Over exact reals, with memory behaviour of the C loops."
  },
  {
   "property": "C34",
   "status": "partial",
   "theorems": [
    "Verif.C34_columns_B",
    "Verif.C34_columns_A",
    "Verif.C34_interp_A",
    "Verif.C34_interp_B",
    "Verif.C34_outside_partial",
    "Verif.C34_left_A_violation",
    "Verif.C34_left_B_violation"
   ],
   "note": "Column sums and interpolation inside the modes proved for A and B. Outside the modes the result is 0 for left=right=0; with other values A returns a multiple and B ignores them (C34_left_A_violation, C34_left_B_violation)."
  },
  {
   "property": "C35",
   "status": "proved",
   "theorems": [
    "Verif.C35_set",
    "Verif.C35_restore",
    "Verif.C35_idempotent",
    "Verif.C35_only",
    "Verif.C35_mode",
    "Verif.C35_reachable"
   ],
   "note": ""
  },
  {
   "property": "C36",
   "status": "partial",
   "theorems": [
    "Verif.C36_single",
    "Verif.C36_members",
    "Verif.C36_depth",
    "Verif.C36_arguments_partial",
    "Verif.C36_all_pklin_violation",
    "Verif.C36_sigmad2_violation",
    "Verif.C36_cutoff"
   ],
   "note": "Composite names reach exactly their members; every single name gets the declared argument list except the two misnamed cutoff setters; 'all_pklin' raises (C36_all_pklin_violation, C36_sigmad2_violation)."
  },
  {
   "property": "C37",
   "status": "partial",
   "theorems": [
    "Verif.C37_clear_partial",
    "Verif.C37_clear_violation"
   ],
   "note": "C37_clear_partial says exactly what clear() restores; C37_clear_violation is a history after which settings differ from the defaults."
  },
  {
   "property": "C38",
   "status": "partial",
   "theorems": [
    "Verif.C38_run_one_loop",
    "Verif.C38_run_bias",
    "Verif.C38_run_A_one_loop",
    "Verif.C38_run_B",
    "Verif.C38_run_two_loop",
    "Verif.C38_run_A_two_loop",
    "Verif.C38_history_partial",
    "Verif.C38_quadrature",
    "Verif.C38_stale_violation"
   ],
   "note": "Every run behaves as with the automatic ranges written out for the current spectrum (C38_run_*), and after every history the quadrature terms use the user's setting with the range of the spectrum set last (C38_quadrature). Violated for the two cubature terms: the first run with an automatic range overwrites the setting with the range of its spectrum, which later runs keep (C38_stale_violation)."
  },
  {
   "property": "C39",
   "status": "partial",
   "theorems": [
    "Verif.C39_history_partial",
    "Verif.C39_history_terms_first_partial",
    "Verif.C39_results_kept",
    "Verif.C39_last_set",
    "Verif.C39_spectrum_violation",
    "Verif.C39_columns_violation",
    "Verif.C39_dangling_violation"
   ],
   "note": "World of Python objects, library pointers and memory as a state machine, over every history. Holds while no later call points the library elsewhere (C39_history_partial, C39_history_terms_first_partial); results stay until something writes them (C39_results_kept); in general the columns last set are filled from the spectrum last set (C39_last_set). Violated when another object sets its spectrum or terms in between, or is discarded (C39_spectrum_violation, C39_columns_violation, C39_dangling_violation)."
  },
  {
   "property": "C40",
   "status": "partial",
   "theorems": [
    "Verif.C40_quiet_partial",
    "Verif.C40_set_verbosity",
    "Verif.C40_set_quiet",
    "Verif.C40_construction_violation",
    "Verif.C40_B2_violation"
   ],
   "note": "Holds for every history without construction, copy, clear or a two-loop B run (C40_quiet_partial); violated by each of these (C40_construction_violation, C40_B2_violation)."
  },
  {
   "property": "C41",
   "status": "partial",
   "theorems": [
    "Verif.C41_set_spectra_partial",
    "Verif.C41_density_violation",
    "Verif.C41_unknown_violation"
   ],
   "note": "Holds for every pair of field names but density-density (C41_set_spectra_partial), which replaces the density-velocity spectrum (C41_density_violation), as does a pair with an unknown name (C41_unknown_violation)."
  },
  {
   "property": "C42",
   "status": "partial",
   "theorems": [
    "Verif.C42_run_terms_B_partial",
    "Verif.C42_python",
    "Verif.C42_second_run_violation",
    "Verif.C42_use_after_free_violation"
   ],
   "note": "Every history of Python calls is free of it (C42_python); the C function used directly is safe when both spectra were supplied (C42_run_terms_B_partial) and reads freed arrays on a second run after the fallback (C42_second_run_violation, C42_use_after_free_violation)."
  },
  {
   "property": "C43",
   "status": "proved",
   "theorems": [
    "Verif.C43_static_schedule",
    "Verif.C43_single_writer",
    "Verif.C43_one_loop",
    "Verif.C43_two_loop",
    "Verif.C43_bias",
    "Verif.C43_A_one_loop",
    "Verif.C43_A_two_loop",
    "Verif.C43_B"
   ],
   "note": "Every schedule of the worksharing loop (any number of threads, any interleaving of steps and stores) of every one of the six runs gives the same memory and the same settings; each cell has a single writer."
  },
  {
   "property": "C44",
   "status": "proved",
   "theorems": [
    "Verif.C44_one_loop",
    "Verif.C44_bias",
    "Verif.C44_A_one_loop",
    "Verif.C44_B",
    "Verif.C44_two_loop",
    "Verif.C44_A_two_loop"
   ],
   "note": "Two runs with the same settings, linear spectrum and modes leave the same values in every output cell whatever the arrays contained, for every run; the automatic range stored by a run is idempotent."
  },
  {
   "property": "C45",
   "status": "proved",
   "theorems": [
    "Verif.C45_positions",
    "Verif.C45_one_loop",
    "Verif.C45_two_loop",
    "Verif.C45_bias",
    "Verif.C45_A_one_loop",
    "Verif.C45_A_two_loop",
    "Verif.C45_B"
   ],
   "note": "Positions of the fields, and the contents of every column of every class after a run, row by row for the two-dimensional ones."
  },
  {
   "property": "C46",
   "status": "partial",
   "theorems": [
    "Verif.C46_terms_partial",
    "Verif.C46_regpt_partial",
    "Verif.C46_two_dimensional_violation",
    "Verif.C46_no_upper_violation",
    "Verif.C46_overwrite_violation",
    "Verif.C46_broadcast_violation",
    "Verif.C46_mode_violation",
    "Verif.C46_flat_violation",
    "Verif.C46_sigmad2_violation"
   ],
   "note": "NumPy padding and slice assignment written out. Holds for one-dimensional columns when some mode lies above the range (C46_terms_partial, C46_regpt_partial); violated for the two-dimensional classes, for requests without mode above the range, for other modes than constant, for flat A1Loop columns and after runs with another cutoff (seven violations)."
  },
  {
   "property": "C47",
   "status": "partial",
   "theorems": [
    "Verif.C47_deepcopy_equal",
    "Verif.C47_independent_partial",
    "Verif.C47_copy_shares",
    "Verif.C47_run_violation"
   ],
   "note": "Equality of the copy and independence over every later history that does not run through library pointers into the other (C47_deepcopy_equal, C47_independent_partial, C47_copy_shares); violated by run_terms of the copy, which fills the original (C47_run_violation)."
  },
  {
   "property": "C48",
   "status": "proved",
   "theorems": [
    "Verif.C48_never_modified",
    "Verif.C48_arguments_copied"
   ],
   "note": "Every history of calls; results are unchanged by any later modification of the caller's arrays."
  },
  {
   "property": "C49",
   "status": "partial",
   "theorems": [
    "Verif.C49_increasing",
    "Verif.C49_percent_partial",
    "Verif.C49_percent_violation"
   ],
   "note": "Percentages increase and stay below 200; they exceed 100 for some mode counts (C49_percent_violation, 19 modes)."
  },
  {
   "property": "C50",
   "status": "partial",
   "theorems": [
    "Verif.C50_transfer",
    "Verif.C50_large_scales",
    "Verif.C50_normalised",
    "Verif.C50_amplitude",
    "Verif.C50_parameters",
    "Verif.C50_shape",
    "Verif.C50_default",
    "Verif.C50_set_terms_partial",
    "Verif.C50_set_terms_violation"
   ],
   "note": "Transfer function, large-scale limit, normalisation and amplitude proved; set_terms needs an attribute the class does not have (C50_set_terms_violation)."
  },
  {
   "property": "C51",
   "status": "proved",
   "theorems": [
    "Verif.C51_decreasing",
    "Verif.C51_range"
   ],
   "note": ""
  },
  {
   "property": "C52",
   "status": "proved",
   "theorems": [
    "Verif.C52_momentum",
    "Verif.C52_region",
    "Verif.C52_exchange",
    "Verif.C52_half_space",
    "Verif.C52_normalisation"
   ],
   "note": ""
  },
  {
   "property": "C53",
   "status": "proved",
   "theorems": [
    "Verif.C53_pointwise",
    "Verif.C53_angle",
    "Verif.C53_near",
    "Verif.C53_equal"
   ],
   "note": "Pointwise identity for all columns and exact angular average; within EPS of q=k the dropped logarithm is bounded by 1e-26."
  },
  {
   "property": "C54",
   "status": "proved",
   "theorems": [
    "Verif.C54_small",
    "Verif.C54_large"
   ],
   "note": "Over exact reals, all columns, explicit constants."
  },
  {
   "property": "C55",
   "status": "partial",
   "theorems": [
    "Verif.C55_run",
    "Verif.C55_spectrum",
    "Verif.C55_fallback",
    "Verif.C55_history_partial",
    "Verif.C55_second_run_violation",
    "Verif.C55_terms_violation"
   ],
   "note": "Every run, on any number of threads and for every interleaving, uses no released block and releases each block it allocates exactly once; the same for the self-contained spectrum, the B run that computes its own spectra, and every history of registrations and runs. The numerical code is left open: a trace may access anything its code can reach. Refuted: after the B fallback and after run_spectrum_1loop the statics point to released blocks, so a history must register these arrays again. Failing calloc is not modelled."
  },
  {
   "property": "C56",
   "status": "partial",
   "theorems": [
    "Verif.C56_run_violation",
    "Verif.C56_lookup_violation",
    "Verif.C56_set_terms_violation",
    "Verif.C56_set_pk_lin_violation",
    "Verif.C56_set_terms_partial",
    "Verif.C56_set_pk_lin_partial",
    "Verif.C56_run_partial",
    "Verif.C56_lookup_partial"
   ],
   "note": "Violated for a run and a lookup without spectrum and for empty arrays with printing on (four violations); the guarded cases are proved."
  },
  {
   "property": "C57",
   "status": "proved",
   "theorems": [
    "Verif.C57_B"
   ],
   "note": "Over exact reals."
  },
  {
   "property": "C58",
   "status": "proved",
   "theorems": [
    "Verif.C58_A"
   ],
   "note": "Over exact reals."
  },
  {
   "property": "C59",
   "status": "proved",
   "theorems": [
    "Verif.C59_one_loop",
    "Verif.C59_bias",
    "Verif.C59_A_one_loop",
    "Verif.C59_B",
    "Verif.C59_two_loop",
    "Verif.C59_A_two_loop",
    "Verif.C59_spectrum_one_loop"
   ],
   "note": "In poly mode, over exact reals; the root search and the cubature are parameters."
  },
  {
   "property": "C60",
   "status": "proved",
   "theorems": [
    "Verif.C60_integrand",
    "Verif.C60_large_scales",
    "Verif.C60_sigma3sq_ultraviolet",
    "Verif.C60_tidal_average"
   ],
   "note": "Over exact reals; kernels compared at the wavevectors, column assignment is C45."
  },
  {
   "property": "C61",
   "status": "partial",
   "theorems": [
    "Verif.C61_threads_apart_partial",
    "Verif.C61_B_violation"
   ],
   "note": "Proved for the five runs other than B, for every pair of threads and every trace. Refuted for B: each thread assigns the static spectra of calc_pkcorr_from_B.c. Disjointness of the array cells written by the threads is part of C43."
  },
  {
   "property": "C62",
   "status": "proved",
   "theorems": [
    "Verif.C62_one_loop",
    "Verif.C62_bias",
    "Verif.C62_A_one_loop",
    "Verif.C62_two_loop"
   ],
   "note": "All four kinds of run under lin interpolation; that the nodes are found in order is C79_near; the excluded case (last tabulated mode requested) is the violation C06_run_lin_violation."
  },
  {
   "property": "C63",
   "status": "proved",
   "theorems": [
    "Verif.C63_loop_222",
    "Verif.C63_loop_321",
    "Verif.C63_table"
   ],
   "note": "Over exact reals. C63_table holds for every table of positive ascending modes with polynomial interpolation and every triangle with non-zero sides, convergence included; the two general statements take any defined lookup and assume integrability."
  },
  {
   "property": "C64",
   "status": "partial",
   "theorems": [
    "Verif.C64_triangle",
    "Verif.C64_integrand_partial",
    "Verif.C64_domain_violation",
    "Verif.C64_loop_partial",
    "Verif.C64_table_partial"
   ],
   "note": "Coordinates, triangle, assembly, damping, Jacobian (C64_triangle, C64_integrand_partial) and the loop integral, for every table of positive ascending modes (C64_loop_partial, C64_table_partial), are proved; violated for the region: the Monte-Carlo part does not keep |k-p| inside the range."
  },
  {
   "property": "C65",
   "status": "proved",
   "theorems": [
    "Verif.C65_angle",
    "Verif.C65_loop",
    "Verif.C65_sum",
    "Verif.C65_table",
    "Verif.C65_code"
   ],
   "note": "Over exact reals. The loop integral is stated with the closed kernels; the sum over nodes excludes the ranges where the code expands them (errors bounded in C21)."
  },
  {
   "property": "C66",
   "status": "proved",
   "theorems": [
    "Verif.C66_plane",
    "Verif.C66_tree",
    "Verif.C66_one_loop",
    "Verif.C66_bias",
    "Verif.C66_run_bias"
   ],
   "note": "The second-order column of Spectrum1Loop and the eight columns of Bias1Loop, as stored by a run with poly lookup, are the double-rule expression; with integrals in place of the rules it equals the loop integral in Euclidean space for every physical table."
  },
  {
   "property": "C67",
   "status": "proved",
   "theorems": [
    "Verif.C67_error",
    "Verif.C67_smooth",
    "Verif.C67_limit",
    "Verif.C67_ends"
   ],
   "note": "Error bound against every polynomial of degree below 2n and explicit bound for smooth integrands for exact roots (C79_integral gives the bound for the roots found); limit for continuous integrands and limit of the extreme abscissae for the roots that the search finds (C79_near). The limit is stated for the sum over the cells that the routine writes, which for n below 2^63 is what a call returns."
  },
  {
   "property": "C68",
   "status": "proved",
   "theorems": [
    "Verif.C68_one_loop",
    "Verif.C68_bias"
   ],
   "note": "Limit of the double rule for continuous spectra and densities, applied to the second-order term and to the eight bias columns; the value stored by a run is the entry of the convergent double sequence. For the roots found by the search of the code (C79_near), in exact real arithmetic."
  },
  {
   "property": "C69",
   "status": "proved",
   "theorems": [
    "Verif.C69_lowk",
    "Verif.C69_highk",
    "Verif.C69_kernel_lowk",
    "Verif.C69_kernel_highk",
    "Verif.C69_reg3rd",
    "Verif.C69_coll",
    "Verif.C69_elongate",
    "Verif.C69_elongate_first",
    "Verif.C69_kernel_elongate"
   ],
   "note": "Every special expression is compared with the exact one: large and small q (also for the selected kernel), short third side, short second or first side, and the regular expression wherever its auxiliary functions use closed forms."
  },
  {
   "property": "C70",
   "status": "proved",
   "theorems": [
    "Verif.C70_window",
    "Verif.C70_window_bound",
    "Verif.C70_sigmar_limit",
    "Verif.C70_sigmar_bound",
    "Verif.C70_growth",
    "Verif.C70_units"
   ],
   "note": "Window as average of the wave over the sphere, limit of the trapezoid rule for every continuous non-negative spectrum, bounds by the unsmoothed variance, growth and units. One value per mode, positive modes and radius, exact real arithmetic."
  },
  {
   "property": "C71",
   "status": "proved",
   "theorems": [
    "Verif.C71_B",
    "Verif.C71_python"
   ],
   "note": "Limit of the stored columns for tables that cover the range with polynomial interpolation and the roots found by the search (C79_near); the spectra are the two tables handed to set_spectra_B. Rounding is not modelled."
  },
  {
   "property": "C72",
   "status": "proved",
   "theorems": [
    "Verif.C72_A",
    "Verif.C72_python",
    "Verif.C72_twice"
   ],
   "note": "For k shorter than the sum of the ends of the range (otherwise radial nodes are skipped) and the roots found by the search (C79_near)."
  },
  {
   "property": "C73",
   "status": "proved",
   "theorems": [
    "Verif.C73_propagator",
    "Verif.C73_spectrum"
   ],
   "note": "For ascending modes, polynomial interpolation and the roots found by the search (C79_near); the remaining distance is the error of the branches of the propagator kernel."
  },
  {
   "property": "C74",
   "status": "proved",
   "theorems": [
    "Verif.C74_third",
    "Verif.C74_guard_small",
    "Verif.C74_column"
   ],
   "note": "The cubature itself is an arbitrary routine; the column is compared with the loop integral up to its error and an explicit bound of the effect of the guard in the coded kernel."
  },
  {
   "property": "C75",
   "status": "proved",
   "theorems": [
    "Verif.C75_kernel_one",
    "Verif.C75_kernel_two",
    "Verif.C75_one_loop",
    "Verif.C75_two_loop",
    "Verif.C75_columns"
   ],
   "note": "Bounds are explicit, for the roots found by the search (C79_near); the two-loop constant is a double quadrature of the coded kernel, which depends on the ratio of the loop wavenumbers only (C22 relates it to its closed form)."
  },
  {
   "property": "C76",
   "status": "proved",
   "theorems": [
    "Verif.C76_kernel_one",
    "Verif.C76_kernel_two",
    "Verif.C76_one_loop",
    "Verif.C76_reg_one",
    "Verif.C76_second",
    "Verif.C76_reg_two",
    "Verif.C76_two_loop_assembly"
   ],
   "note": "The dispersion enters as a number changed by the same quadrature as the loop; the trapezoidal rule of calc_running_sigmad2 on the table is not related to it."
  },
  {
   "property": "C77",
   "status": "proved",
   "theorems": [
    "Verif.C77_rule_tree",
    "Verif.C77_rule_bias",
    "Verif.C77_rule_difference",
    "Verif.C77_rule_sigma",
    "Verif.C77_one_loop",
    "Verif.C77_bias",
    "Verif.C77_bias_difference",
    "Verif.C77_sigma3sq",
    "Verif.C77_integral"
   ],
   "note": "For loop ranges inside the table, polynomial interpolation and the roots found by the search (C79_near); the statement on sigma3sq is for fixed numbers of nodes and exact roots."
  },
  {
   "property": "C78",
   "status": "proved",
   "theorems": [
    "Verif.C78_interpol_lin",
    "Verif.C78_sigmad2",
    "Verif.C78_sigmad2_error",
    "Verif.C78_power",
    "Verif.C78_double"
   ],
   "note": "Standard model of rounding: relative error u per operation, no underflow, overflow or fused operations."
  },
  {
   "property": "C79",
   "status": "proved",
   "theorems": [
    "Verif.C79_zeros",
    "Verif.C79_start",
    "Verif.C79_search",
    "Verif.C79_unique",
    "Verif.C79_call_found",
    "Verif.C79_call",
    "Verif.C79_integral",
    "Verif.C79_limit",
    "Verif.C79_near"
   ],
   "note": "For every number of nodes, in exact arithmetic. The limit statement is about the sums for n below 2^63, continued beyond by the same formula."
  },
  {
   "property": "C80",
   "status": "proved",
   "theorems": [
    "Verif.C80_one_loop",
    "Verif.C80_two_loop_any",
    "Verif.C80_two_loop",
    "Verif.C80_bias",
    "Verif.C80_A_one_loop",
    "Verif.C80_B",
    "Verif.C80_sum",
    "Verif.C80_parallelogram",
    "Verif.C80_outside"
   ],
   "note": "Spectrum1Loop, Spectrum2Loop (third-order column for cubature rules with fixed points and weights; the others for every cubature), Bias1Loop, A1Loop, B; lookups inside the table; exact arithmetic. The two-loop A term holds exponentials of the dispersion and is not a polynomial."
  },
  {
   "property": "C81",
   "status": "partial",
   "theorems": [
    "Verif.C81_slice_elements",
    "Verif.C81_slice_reversed",
    "Verif.C81_layout_partial",
    "Verif.C81_set_pk_lin",
    "Verif.C81_find_pk_lin",
    "Verif.C81_lengths",
    "Verif.C81_spectrum_partial",
    "Verif.C81_cuts_partial",
    "Verif.C81_pick_partial",
    "Verif.C81_step_violation",
    "Verif.C81_reversed_violation",
    "Verif.C81_table_violation",
    "Verif.C81_B2_violation",
    "Verif.C81_interpol_poly_partial",
    "Verif.C81_interpol_poly_lengths",
    "Verif.C81_interpol_poly_violation",
    "Verif.C81_interpol_lin"
   ],
   "note": "Proved for every layout: set_pk_lin, find_pk_lin and interpol_lin read the elements (C81_set_pk_lin, C81_find_pk_lin, C81_interpol_lin), wrong lengths and types are refused (C81_lengths, C81_interpol_poly_lengths). The code violates it for set_spectrum_lin, set_spectra_B and interpol_poly with arrays whose stride is not one (C81_*_violation); C81_layout_partial says exactly which layouts are read correctly, C81_cuts_partial and C81_pick_partial cover plain slices and selections."
  },
  {
   "property": "C82",
   "status": "partial",
   "theorems": [
    "Verif.C82_select_partial",
    "Verif.C82_select_one_partial",
    "Verif.C82_spectra_partial",
    "Verif.C82_assign_partial",
    "Verif.C82_positions",
    "Verif.C82_flat_violation",
    "Verif.C82_mask_violation",
    "Verif.C82_set_terms_partial"
   ],
   "note": "Holds whenever all columns have one row per mode: all classes after run_terms, and after set_terms for the classes without components and those that reshape there. A1Loop leaves pk flat between set_terms and run_terms: selections then keep single numbers of the first modes, masks are refused."
  },
  {
   "property": "C83",
   "status": "proved",
   "theorems": [
    "Verif.C83_arguments",
    "Verif.C83_reshape",
    "Verif.C83_dictionary"
   ],
   "note": "For every class with a field k, every history of the dictionary and every list of modes. Which memory the arrays share is the subject of C47, C48 and C81."
  },
  {
   "property": "C84",
   "status": "partial",
   "theorems": [
    "Verif.C84_nan_partial",
    "Verif.C84_rescale_partial",
    "Verif.C84_rescale_violation",
    "Verif.C84_nan_violation",
    "Verif.C84_assign_violation"
   ],
   "note": "Proved when every column has a power (rescale), every field is present as an array (nan_to_zero), all columns have one row per mode (assignment). Otherwise the loops stop at the exception with the earlier columns changed."
  },
  {
   "property": "C85",
   "status": "partial",
   "theorems": [
    "Verif.C85_sigmav_partial",
    "Verif.C85_shape_violation",
    "Verif.C85_two_modes_violation",
    "Verif.C85_components_violation",
    "Verif.C85_sphere_shape_violation",
    "Verif.C85_sphere_components_violation"
   ],
   "note": "Proved for classes with one value per mode. For the A and B classes sigmav raises for every number of modes except two and five (nine), for which it sums over the components of one mode."
  },
  {
   "property": "C86",
   "status": "partial",
   "theorems": [
    "Verif.C86_density",
    "Verif.C86_density_error",
    "Verif.C86_theta_partial",
    "Verif.C86_theta_error_partial",
    "Verif.C86_theta_violation"
   ],
   "note": "proved for density (value, derivative and error); the velocity kernel has a misplaced parenthesis: right for k1 = 1 only, the error in closed form for k1 = k2"
  },
  {
   "property": "C87",
   "status": "proved",
   "theorems": [
    "Verif.C87_poly",
    "Verif.C87_poly_inside",
    "Verif.C87_lin",
    "Verif.C87_sigma",
    "Verif.C87_one_loop",
    "Verif.C87_bias",
    "Verif.C87_spectrum"
   ],
   "note": "Inside the table; outside it the code extrapolates by a power law (C10). Constants depend on the spectrum, the wavenumber and the range, not on the table. The linear lookup at the last mode is undefined behaviour (C06) and is excluded."
  },
  {
   "property": "C88",
   "status": "partial",
   "theorems": [
    "Verif.C88_methods_partial",
    "Verif.C88_missing_violation",
    "Verif.C88_spectrum",
    "Verif.C88_selection_violation",
    "Verif.C88_copies"
   ],
   "note": "All methods of all nine classes for every object history, by a checked closed set of names; fails for seven listed (class, method) pairs and for selections, which lose the spectrum."
  },
  {
   "property": "C89",
   "status": "partial",
   "theorems": [
    "Verif.C89_wrappers_partial",
    "Verif.C89_refused",
    "Verif.C89_find_pk_lin_violation",
    "Verif.C89_cutoff",
    "Verif.C89_runs",
    "Verif.C89_negative_violation",
    "Verif.C89_set_terms"
   ],
   "note": "All wrappers, runs and set_terms agree with the prototypes for every size; fails for the enumeration argument of find_pk_lin and for negative counts."
  },
  {
   "property": "C90",
   "status": "partial",
   "theorems": [
    "Verif.C90_same",
    "Verif.C90_columns",
    "Verif.C90_completes_partial",
    "Verif.C90_empty_violation",
    "Verif.C90_files_same",
    "Verif.C90_no_files",
    "Verif.C90_files",
    "Verif.C90_exit_violation",
    "Verif.C90_exit_B_violation",
    "Verif.C90_time"
   ],
   "note": "Non-interference over all histories and placements of set_verbosity, contents of the debugging files of run_terms, elapsed times; the columns of debug_spectra_B.dat and the file written within run_spectrum_1loop are modelled but no theorem fixes their contents (log entries u006, u008); fails for empty arrays in mode info and where a debugging file cannot be created, which ends the process."
  },
  {
   "property": "C91",
   "status": "partial",
   "theorems": [
    "Verif.C91_pk1",
    "Verif.C91_pk2",
    "Verif.C91_damped",
    "Verif.C91_bispectrum_partial",
    "Verif.C91_bispectrum_computed",
    "Verif.C91_bispectrum_violation"
   ],
   "note": "Spectra to all orders kept, for every displacement; all eight outputs of the bispectrum above the thresholds. Below them the damping is kept without the counterterms and the expansion fails at third order (witness)."
  },
  {
   "property": "C92",
   "status": "partial",
   "theorems": [
    "Verif.C92_one_loop",
    "Verif.C92_bias",
    "Verif.C92_A_one_loop",
    "Verif.C92_B_one_loop",
    "Verif.C92_two_loop_partial",
    "Verif.C92_bispectrum_partial",
    "Verif.C92_F3_violation",
    "Verif.C92_bispectrum_violation"
   ],
   "note": "One-loop spectrum, bias, A and B: every column, every table, setting, mode and schedule. Two-loop spectrum and bispectrum where the absolute thresholds of F3 (3e-14) and of the propagators (0.01, 0.03) come out the same in both units; where they do not, results change with the unit (witnesses)."
  },
  {
   "property": "C93",
   "status": "partial",
   "theorems": [
    "Verif.C93_one_loop",
    "Verif.C93_bias",
    "Verif.C93_A_one_loop",
    "Verif.C93_B",
    "Verif.C93_two_loop",
    "Verif.C93_A_two_loop_partial",
    "Verif.C93_window",
    "Verif.C93_linear_columns",
    "Verif.C93_cut",
    "Verif.C93_bispectrum_violation"
   ],
   "note": "One-loop spectrum, bias, A, B and the two-loop spectrum; which tables agree (C93_window, C93_linear_columns, C93_cut). Fails for the Monte-Carlo part of the two-loop A term, which looks the spectrum up outside the range (witness); holds for it in the larger window up to the request plus twice the range."
  },
  {
   "property": "C94",
   "status": "partial",
   "theorems": [
    "Verif.C94_one_loop",
    "Verif.C94_bias",
    "Verif.C94_A_one_loop",
    "Verif.C94_B",
    "Verif.C94_two_loop",
    "Verif.C94_A_two_loop",
    "Verif.C94_linear_partial",
    "Verif.C94_linear_bias_partial",
    "Verif.C94_linear_A_one_loop_partial",
    "Verif.C94_linear_B_partial",
    "Verif.C94_linear_A_two_loop_partial",
    "Verif.C94_linear_two_loop_partial",
    "Verif.C94_sigmad2_violation",
    "Verif.C94_pk_lin_violation"
   ],
   "note": "Loop terms of all runs do not depend on the other requests; linear spectrum and displacement variance only for ascending requests, violated otherwise with witnesses at the level of a run."
  },
  {
   "property": "C95",
   "status": "proved",
   "theorems": [
    "Verif.C95_one_loop",
    "Verif.C95_bias",
    "Verif.C95_A_one_loop",
    "Verif.C95_B",
    "Verif.C95_two_loop",
    "Verif.C95_A_two_loop",
    "Verif.C95_A_two_loop_rows",
    "Verif.C95_calls",
    "Verif.C95_own_cutoff"
   ],
   "note": "All runs of terms, any two settings that agree in the settings of the run, any sequence of setter calls for other calculations; C95_own_cutoff shows that an own setting does matter."
  },
  {
   "property": "C96",
   "status": "partial",
   "theorems": [
    "Verif.C96_loop_columns",
    "Verif.C96_linear_columns_partial",
    "Verif.C96_cutoff_violation"
   ],
   "note": "Loop columns common to the one- and two-loop runs agree; linear spectrum and displacement variance agree between any two runs with the same interpolation and cut-off; a cut-off set for all calculations does not reach the A and B terms, with a witness at the level of a run."
  },
  {
   "property": "C97",
   "status": "proved",
   "theorems": [
    "Verif.C97_interpol_lin",
    "Verif.C97_find_pk",
    "Verif.C97_double",
    "Verif.C97_find_pk_double",
    "Verif.C97_upper_end",
    "Verif.C97_interpol_poly_node",
    "Verif.C97_find_pk_nodes",
    "Verif.C97_find_pk_table",
    "Verif.C97_nonneg"
   ],
   "note": "find_pk under rounding: linear interpolation for every order-preserving rounding inside and outside the table, polynomial interpolation at tabulated modes, double precision as an instance; no underflow, overflow or fused operations"
  },
  {
   "property": "C98",
   "status": "proved",
   "theorems": [
    "Verif.C98_any_angle",
    "Verif.C98_half_plane",
    "Verif.C98_full_range"
   ],
   "note": "double precision as in the code's order of operations; no underflow, overflow or fused operations; full-range rules under the stated bound on the reference nodes"
  }
 ]
}