{
"C01": ["proved", "Values over exact reals; buffer behaviour for any previous contents; overflow for n<2 is part of the property and proved."],
"C02": ["proved", "Safety for every arithmetic (NaN included); bracketing over exact reals."],
"C03": ["proved", "Every arithmetic and comparison outcome; n < 2^63."],
"C04": ["proved", "Over exact reals, any n."],
"C05": ["proved", "Over exact reals."],
"C06": ["partial", "Proved in poly mode for every arithmetic; violated in lin mode: requesting the last tabulated mode reads one cell past the table (C06_findPk_lin_violation); the other requests are safe (C06_findPk_lin_safe_partial)."],
"C07": ["partial", "Holds for ascending requests; violated for unordered requests in both modes (C07_findPk_order_violation, C07_findPk_order_violation_poly)."],
"C08": ["proved", "Over exact reals."],
"C09": ["proved", "Over exact reals."],
"C10": ["partial", "Holds at the high end and between the modes of the table; violated at the low end, where the extrapolation is anchored at the second mode (C10_lowk_violation)."],
"C11": ["partial", "Memory safety for every arithmetic; value equals the integral of the piecewise linear spectrum for ascending requests; violated for unordered requests (C11_sigmad2_order_violation)."],
"C12": ["proved", "Over exact reals, for ascending requests and a non-negative cutoff."],
"C13": ["proved", "Cells: every arithmetic; mirror and affine map: exact reals, any root-search outcome."],
"C14": ["proved", "Recurrence, derivative, Newton step and exactness over exact reals; hypotheses of exactness are satisfiable for every n (C14_roots_exist). Termination of the Newton loop in floating point is not claimed."],
"C15": ["proved", "History: every arithmetic; sums and containment: exact reals."],
"C16": ["proved", "Safety: every arithmetic; containment: exact reals, all five copies through one parametrised transcription."],
"C17": ["proved", "Over exact reals; also equality with the second-order kernel of an independently written perturbation theory recursion."],
"C18": ["proved", "Over exact reals, guard thresholds included; equality with the recursion for configurations outside the guards."],
"C19": ["proved", "Domain errors are explicit outcomes of the checked transcription; exact reals."],
"C20": ["proved", "Over exact reals."],
"C21": ["proved", "Middle branch equals the closed form exactly; both expansions bounded with explicit constants."],
"C22": ["partial", "Density fifth order, velocity only third order: cubic coefficient has the wrong sign (violation theorem)."],
"C23": ["proved", "Symmetry, scale covariance, node order independence of both sums."],
"C24": ["partial", "Each of the six expressions per field is symmetric; branch selection is not (two tests single out k1); violation at sides 1,500,500, loop momentum 51."],
"C25": ["proved", "Runs for (b,a) are defined when runs for (a,b) are, with the propagator columns exchanged; pk of both classes unchanged."],
"C26": ["partial", "Violated by the tree-loop and loop-loop columns of Spectrum2Loop, integrated over the half plane with the kernel of C24 (C26_gamma2_loop_violation). Proved for the runs: the stored columns of Spectrum1Loop, tree-tree of Spectrum2Loop, Bias1Loop, B1Loop/B2Loop and the deterministic part of A2Loop are doubled half-plane integrals of symmetric densities, the four other bias columns full-plane integrals."],
"C27": ["proved", "Permutation, loop-momentum reversal and parity for every table, interpolation mode and configuration in which the computation is defined; definedness in poly mode proved beside."],
"C28": ["partial", "Proved outside the legs in [1e-2,3e-2) and outside the asymmetric branch tests of C24; C28_threshold_violation is a triangle where the exchange fails."],
"C29": ["partial", "Zero for the Monte-Carlo part; in bispectrum_1loop_I the zeros are overwritten (C29_I_violation), only the exp(-100) suppression holds."],
"C30": ["partial", "Proved for each quadrature and whole runs when tables are looked up by lin and the Gauss weights are positive (the nodes are found in order, C79_near); the default poly interpolation violates it, with a witness table. Cubature value enters as an assumption on the routine (non-negative on non-negative integrands)."],
"C31": ["partial", "One-loop, two-loop, bias (all columns but sigma3sq), A and B one-loop runs on the spectrum multiplied by s^2 give the columns rescale(s) gives, for all spectra, modes, memories and schedules; the two-loop statement assumes a cubature routine that is homogeneous (the code uses an absolute tolerance of 1e-12). sigma3sq is refuted for every s with s^2 != 0, 1. A2Loop and B2Loop are refuted for some s > 0 (their integrands are damped), A2Loop for every cubature routine that integrates zero to zero; what holds for B2Loop is C31_B_two_loop_partial."],
"C32": ["partial", "Holds for every spectrum and bias spectrum except pk_sigma3sq, where rescale applies the wrong power (C32_sigma3sq_violation)."],
"C33": ["proved", "Over exact reals, with memory behaviour of the C loops."],
"C34": ["partial", "Column sums and interpolation inside the modes proved for A and B. Outside the modes the result is 0 for left=right=0; with other values A returns a multiple and B ignores them (C34_left_A_violation, C34_left_B_violation)."],
"C35": ["proved", ""],
"C36": ["partial", "Composite names reach exactly their members; every single name gets the declared argument list except the two misnamed cutoff setters; 'all_pklin' raises (C36_all_pklin_violation, C36_sigmad2_violation)."],
"C37": ["partial", "C37_clear_partial says exactly what clear() restores; C37_clear_violation is a history after which settings differ from the defaults."],
"C38": ["partial", "Every run behaves as with the automatic ranges written out for the current spectrum (C38_run_*), and after every history the quadrature terms use the user's setting with the range of the spectrum set last (C38_quadrature). Violated for the two cubature terms: the first run with an automatic range overwrites the setting with the range of its spectrum, which later runs keep (C38_stale_violation)."],
"C39": ["partial", "World of Python objects, library pointers and memory as a state machine, over every history. Holds while no later call points the library elsewhere (C39_history_partial, C39_history_terms_first_partial); results stay until something writes them (C39_results_kept); in general the columns last set are filled from the spectrum last set (C39_last_set). Violated when another object sets its spectrum or terms in between, or is discarded (C39_spectrum_violation, C39_columns_violation, C39_dangling_violation)."],
"C40": ["partial", "Holds for every history without construction, copy, clear or a two-loop B run (C40_quiet_partial); violated by each of these (C40_construction_violation, C40_B2_violation)."],
"C41": ["partial", "Holds for every pair of field names but density-density (C41_set_spectra_partial), which replaces the density-velocity spectrum (C41_density_violation), as does a pair with an unknown name (C41_unknown_violation)."],
"C42": ["partial", "Every history of Python calls is free of it (C42_python); the C function used directly is safe when both spectra were supplied (C42_run_terms_B_partial) and reads freed arrays on a second run after the fallback (C42_second_run_violation, C42_use_after_free_violation)."],
"C43": ["proved", "Every schedule of the worksharing loop (any number of threads, any interleaving of steps and stores) of every one of the six runs gives the same memory and the same settings; each cell has a single writer."],
"C44": ["proved", "Two runs with the same settings, linear spectrum and modes leave the same values in every output cell whatever the arrays contained, for every run; the automatic range stored by a run is idempotent."],
"C45": ["proved", "Positions of the fields, and the contents of every column of every class after a run, row by row for the two-dimensional ones."],
"C46": ["partial", "NumPy padding and slice assignment written out. Holds for one-dimensional columns when some mode lies above the range (C46_terms_partial, C46_regpt_partial); violated for the two-dimensional classes, for requests without mode above the range, for other modes than constant, for flat A1Loop columns and after runs with another cutoff (seven violations)."],
"C47": ["partial", "Equality of the copy and independence over every later history that does not run through library pointers into the other (C47_deepcopy_equal, C47_independent_partial, C47_copy_shares); violated by run_terms of the copy, which fills the original (C47_run_violation)."],
"C48": ["proved", "Every history of calls; results are unchanged by any later modification of the caller's arrays."],
"C49": ["partial", "Percentages increase and stay below 200; they exceed 100 for some mode counts (C49_percent_violation, 19 modes)."],
"C50": ["partial", "Transfer function, large-scale limit, normalisation and amplitude proved; set_terms needs an attribute the class does not have (C50_set_terms_violation)."],
"C51": ["proved", ""],
"C52": ["proved", ""],
"C53": ["proved", "Pointwise identity for all columns and exact angular average; within EPS of q=k the dropped logarithm is bounded by 1e-26."],
"C54": ["proved", "Over exact reals, all columns, explicit constants."],
"C55": ["partial", "Every run, on any number of threads and for every interleaving, uses no released block and releases each block it allocates exactly once; the same for the self-contained spectrum, the B run that computes its own spectra, and every history of registrations and runs. The numerical code is left open: a trace may access anything its code can reach. Refuted: after the B fallback and after run_spectrum_1loop the statics point to released blocks, so a history must register these arrays again. Failing calloc is not modelled."],
"C56": ["partial", "Violated for a run and a lookup without spectrum and for empty arrays with printing on (four violations); the guarded cases are proved."],
"C57": ["proved", "Over exact reals."],
"C58": ["proved", "Over exact reals."],
"C59": ["proved", "In poly mode, over exact reals; the root search and the cubature are parameters."],
"C60": ["proved", "Over exact reals; kernels compared at the wavevectors, column assignment is C45."],
"C61": ["partial", "Proved for the five runs other than B, for every pair of threads and every trace. Refuted for B: each thread assigns the static spectra of calc_pkcorr_from_B.c. Disjointness of the array cells written by the threads is part of C43."],
"C62": ["proved", "All four kinds of run under lin interpolation; that the nodes are found in order is C79_near; the excluded case (last tabulated mode requested) is the violation C06_run_lin_violation."],
"C63": ["proved", "Over exact reals. C63_table holds for every table of positive ascending modes with polynomial interpolation and every triangle with non-zero sides, convergence included; the two general statements take any defined lookup and assume integrability."],
"C64": ["partial", "Coordinates, triangle, assembly, damping, Jacobian (C64_triangle, C64_integrand_partial) and the loop integral, for every table of positive ascending modes (C64_loop_partial, C64_table_partial), are proved; violated for the region: the Monte-Carlo part does not keep |k-p| inside the range."],
"C65": ["proved", "Over exact reals. The loop integral is stated with the closed kernels; the sum over nodes excludes the ranges where the code expands them (errors bounded in C21)."],
"C66": ["proved", "The second-order column of Spectrum1Loop and the eight columns of Bias1Loop, as stored by a run with poly lookup, are the double-rule expression; with integrals in place of the rules it equals the loop integral in Euclidean space for every physical table."],
"C67": ["proved", "Error bound against every polynomial of degree below 2n and explicit bound for smooth integrands for exact roots (C79_integral gives the bound for the roots found); limit for continuous integrands and limit of the extreme abscissae for the roots that the search finds (C79_near). The limit is stated for the sum over the cells that the routine writes, which for n below 2^63 is what a call returns."],
"C68": ["proved", "Limit of the double rule for continuous spectra and densities, applied to the second-order term and to the eight bias columns; the value stored by a run is the entry of the convergent double sequence. For the roots found by the search of the code (C79_near), in exact real arithmetic."],
"C69": ["proved", "Every special expression is compared with the exact one: large and small q (also for the selected kernel), short third side, short second or first side, and the regular expression wherever its auxiliary functions use closed forms."],
"C70": ["proved", "Window as average of the wave over the sphere, limit of the trapezoid rule for every continuous non-negative spectrum, bounds by the unsmoothed variance, growth and units. One value per mode, positive modes and radius, exact real arithmetic."],
"C71": ["proved", "Limit of the stored columns for tables that cover the range with polynomial interpolation and the roots found by the search (C79_near); the spectra are the two tables handed to set_spectra_B. Rounding is not modelled."],
"C72": ["proved", "For k shorter than the sum of the ends of the range (otherwise radial nodes are skipped) and the roots found by the search (C79_near)."],
"C73": ["proved", "For ascending modes, polynomial interpolation and the roots found by the search (C79_near); the remaining distance is the error of the branches of the propagator kernel."],
"C74": ["proved", "The cubature itself is an arbitrary routine; the column is compared with the loop integral up to its error and an explicit bound of the effect of the guard in the coded kernel."],
"C75": ["proved", "Bounds are explicit, for the roots found by the search (C79_near); the two-loop constant is a double quadrature of the coded kernel, which depends on the ratio of the loop wavenumbers only (C22 relates it to its closed form)."],
"C76": ["proved", "The dispersion enters as a number changed by the same quadrature as the loop; the trapezoidal rule of calc_running_sigmad2 on the table is not related to it."],
"C77": ["proved", "For loop ranges inside the table, polynomial interpolation and the roots found by the search (C79_near); the statement on sigma3sq is for fixed numbers of nodes and exact roots."],
"C78": ["proved", "Standard model of rounding: relative error u per operation, no underflow, overflow or fused operations."],
"C79": ["proved", "For every number of nodes, in exact arithmetic. The limit statement is about the sums for n below 2^63, continued beyond by the same formula."],
"C80": ["proved", "Spectrum1Loop, Spectrum2Loop (third-order column for cubature rules with fixed points and weights; the others for every cubature), Bias1Loop, A1Loop, B; lookups inside the table; exact arithmetic. The two-loop A term holds exponentials of the dispersion and is not a polynomial."],
"C81": ["partial", "Proved for every layout: set_pk_lin, find_pk_lin and interpol_lin read the elements (C81_set_pk_lin, C81_find_pk_lin, C81_interpol_lin), wrong lengths and types are refused (C81_lengths, C81_interpol_poly_lengths). The code violates it for set_spectrum_lin, set_spectra_B and interpol_poly with arrays whose stride is not one (C81_*_violation); C81_layout_partial says exactly which layouts are read correctly, C81_cuts_partial and C81_pick_partial cover plain slices and selections."],
"C82": ["partial", "Holds whenever all columns have one row per mode: all classes after run_terms, and after set_terms for the classes without components and those that reshape there. A1Loop leaves pk flat between set_terms and run_terms: selections then keep single numbers of the first modes, masks are refused."],
"C83": ["proved", "For every class with a field k, every history of the dictionary and every list of modes. Which memory the arrays share is the subject of C47, C48 and C81."],
"C84": ["partial", "Proved when every column has a power (rescale), every field is present as an array (nan_to_zero), all columns have one row per mode (assignment). Otherwise the loops stop at the exception with the earlier columns changed."],
"C85": ["partial", "Proved for classes with one value per mode. For the A and B classes sigmav raises for every number of modes except two and five (nine), for which it sums over the components of one mode."],
"C86": ["partial", "proved for density (value, derivative and error); the velocity kernel has a misplaced parenthesis: right for k1 = 1 only, the error in closed form for k1 = k2"],
"C87": ["proved", "Inside the table; outside it the code extrapolates by a power law (C10). Constants depend on the spectrum, the wavenumber and the range, not on the table. The linear lookup at the last mode is undefined behaviour (C06) and is excluded."],
"C88": ["partial", "All methods of all nine classes for every object history, by a checked closed set of names; fails for seven listed (class, method) pairs and for selections, which lose the spectrum."],
"C89": ["partial", "All wrappers, runs and set_terms agree with the prototypes for every size; fails for the enumeration argument of find_pk_lin and for negative counts."],
"C90": ["partial", "Non-interference over all histories and placements of set_verbosity, contents of the debugging files of run_terms, elapsed times; the columns of debug_spectra_B.dat and the file written within run_spectrum_1loop are modelled but no theorem fixes their contents (log entries u006, u008); fails for empty arrays in mode info and where a debugging file cannot be created, which ends the process."],
"C91": ["partial", "Spectra to all orders kept, for every displacement; all eight outputs of the bispectrum above the thresholds. Below them the damping is kept without the counterterms and the expansion fails at third order (witness)."],
"C92": ["partial", "One-loop spectrum, bias, A and B: every column, every table, setting, mode and schedule. Two-loop spectrum and bispectrum where the absolute thresholds of F3 (3e-14) and of the propagators (0.01, 0.03) come out the same in both units; where they do not, results change with the unit (witnesses)."],
"C93": ["partial", "One-loop spectrum, bias, A, B and the two-loop spectrum; which tables agree (C93_window, C93_linear_columns, C93_cut). Fails for the Monte-Carlo part of the two-loop A term, which looks the spectrum up outside the range (witness); holds for it in the larger window up to the request plus twice the range."],
"C94": ["partial", "Loop terms of all runs do not depend on the other requests; linear spectrum and displacement variance only for ascending requests, violated otherwise with witnesses at the level of a run."],
"C95": ["proved", "All runs of terms, any two settings that agree in the settings of the run, any sequence of setter calls for other calculations; C95_own_cutoff shows that an own setting does matter."],
"C96": ["partial", "Loop columns common to the one- and two-loop runs agree; linear spectrum and displacement variance agree between any two runs with the same interpolation and cut-off; a cut-off set for all calculations does not reach the A and B terms, with a witness at the level of a run."],
"C97": ["proved", "find_pk under rounding: linear interpolation for every order-preserving rounding inside and outside the table, polynomial interpolation at tabulated modes, double precision as an instance; no underflow, overflow or fused operations"],
"C98": ["proved", "double precision as in the code's order of operations; no underflow, overflow or fused operations; full-range rules under the stated bound on the reference nodes"]
}
