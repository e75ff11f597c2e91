{"id": "C01", "title": "Integer powers are exact powers", "statement": "power(x,n) returns the n-th power of x, and powers(x,tab,n) fills tab[i] with the i-th power of x for every i<n; powers touches no cell outside a buffer of n cells as soon as n>=2 (with n<2 it writes past the buffer).", "quantifier": "every base x, every exponent / table length n, every previous buffer content", "why_tests_cant": "The square-and-multiply loop takes a different path for every bit pattern of the exponent; tests only use a handful of exponents and a fixed table length.", "anchors": ["src/common.c:power", "src/common.c:powers"]}
{"id": "C02", "title": "Table lookup index terminates, stays in range and brackets the argument", "statement": "The bisection used by every lookup terminates for every non-empty index range, reads only cells of the range, returns an index inside the range whatever the comparisons answer (NaN included), and for a sorted table returns an index i with tab[i] <= x and x < tab[i+1] (when i is not the last index of the range).", "quantifier": "every table length, every table, every argument, every sub-range min<max", "why_tests_cant": "The recursion depth and path depend on the table length and on the argument; off-by-one errors show only for specific lengths or for arguments equal to a node.", "anchors": ["src/common.c:get_dichotomy_index", "src/common.c:find_pk"]}
{"id": "C03", "title": "Polynomial interpolation never leaves its buffers", "statement": "interpol_poly(x,tabx,taby) with n>=1 points reads and writes only cells 0..n-1 of its arrays, although the running index wraps around below zero as an unsigned integer, whatever the values (NaN and duplicated abscissae included); with n=0 it reads out of bounds.", "quantifier": "every n, every argument x, every abscissae/ordinates including NaN, every closest-node choice", "why_tests_cant": "The unsigned index wraps to SIZE_MAX for arguments left of the table; whether the wrapped value is ever used as an index depends on the whole path of the algorithm.", "anchors": ["src/common.c:interpol_poly", "pyregpt/pyregpt.py:PyRegPT.interpol_poly"]}
{"id": "C04", "title": "Polynomial interpolation returns the interpolating polynomial", "statement": "For pairwise distinct abscissae interpol_poly(x,tabx,taby) is the value at x of the unique polynomial of degree <n through the n points: it reproduces taby at the nodes, reproduces every polynomial of degree <n, does not depend on the order of the points and is linear in taby.", "quantifier": "every n>=1, every set of distinct abscissae, every ordinates, every x", "why_tests_cant": "Tests compare a few points with a tolerance; the claim is an identity over a continuum of inputs and over all internal index paths.", "anchors": ["src/common.c:interpol_poly", "pyregpt/pyregpt.py:PyRegPT.interpol_poly"]}
{"id": "C05", "title": "Linear interpolation reproduces end points and stays between them", "statement": "interpol_lin(x,[x0,x1],[y0,y1]) with x0 != x1 returns y0 at x0 and y1 at x1, reproduces affine functions, and for x between x0 and x1 the result lies between y0 and y1.", "quantifier": "every x0 != x1, every y0,y1, every x", "why_tests_cant": "A statement over a continuum of inputs.", "anchors": ["src/common.c:interpol_lin", "pyregpt/pyregpt.py:PyRegPT.interpol_lin"]}
{"id": "C06", "title": "Reading the linear power spectrum never reads outside the table", "statement": "find_pk_lin(k) on a table of at least three modes reads no cell outside the table, for every requested k (inside, outside, equal to a node, NaN) and both interpolation modes.", "quantifier": "every table of length >=3, every array of requested k, both interpolation modes", "why_tests_cant": "An out-of-bounds read by one cell returns garbage times zero in most runs, so that tests (which never request the last node in 'lin' mode) pass.", "anchors": ["src/common.c:find_pk", "src/common.c:extrapol_pk_lowk", "src/common.c:extrapol_pk_highk", "pyregpt/pyregpt.py:PyRegPT.find_pk_lin"]}
{"id": "C07", "title": "Each requested k is looked up independently", "statement": "The value find_pk_lin returns for one k does not depend on the other k of the request nor on their order: find_pk_lin(k)[i] == find_pk_lin([k[i]])[0].", "quantifier": "every table, every array of requested k in any order, both interpolation modes", "why_tests_cant": "The lookup carries its search start from one k to the next; tests only request ascending k.", "anchors": ["src/common.c:find_pk", "pyregpt/pyregpt.py:PyRegPT.find_pk_lin"]}
{"id": "C08", "title": "Lookup reproduces the tabulated spectrum", "statement": "find_pk_lin returns the tabulated value at every table node; in 'lin' mode every in-range value lies between the two neighbouring table values; in 'poly' mode it is exact on the whole range when the table samples a polynomial of degree <=2 and, two nodes away from the ends, of degree <=4.", "quantifier": "every strictly increasing table, every in-range k", "why_tests_cant": "Tests check one smooth table with a tolerance.", "anchors": ["src/common.c:find_pk", "pyregpt/pyregpt.py:PyRegPT.find_pk_lin"]}
{"id": "C09", "title": "Out-of-range extrapolation continues a power law", "statement": "Outside the table find_pk_lin is exact for tables sampling a power law A k^n; it is positive when the table is positive, exactly zero when the slope window holds a non-positive value, and scales linearly with the spectrum amplitude.", "quantifier": "every table of at least three modes with positive increasing k, every k out of range", "why_tests_cant": "A statement over all amplitudes, slopes, tables and k.", "anchors": ["src/common.c:extrapol_pk_lowk", "src/common.c:extrapol_pk_highk"]}
{"id": "C10", "title": "Extrapolation joins the table continuously", "statement": "As k approaches the first (last) tabulated mode from outside, find_pk_lin approaches the tabulated value at that mode.", "quantifier": "every strictly increasing positive table with at least three modes", "why_tests_cant": "Limits at the boundary for arbitrary tables; the tests extrapolate a near power law, where a misplaced anchor is invisible.", "anchors": ["src/common.c:extrapol_pk_lowk", "src/common.c:extrapol_pk_highk", "src/common.c:find_pk"]}
{"id": "C11", "title": "Running displacement variance is the stated integral", "statement": "calc_running_sigmad2(k,uvcutoff)[i] equals 1/(6 pi^2) times the integral of the piecewise-linear spectrum from the first mode up to min(uvcutoff*k[i], last mode), and 0 when uvcutoff*k[i] is below the first mode, whatever the order of the requested k.", "quantifier": "every strictly increasing table, every array of requested k, every cutoff", "why_tests_cant": "The routine streams through the table and keeps an accumulator between requests; tests only use ascending k.", "anchors": ["src/common.c:calc_running_sigmad2", "pyregpt/pyregpt.py:PyRegPT.calc_running_sigmad2"]}
{"id": "C12", "title": "Running displacement variance is non-negative, monotone and saturates", "statement": "For a non-negative spectrum sigmad2 is non-negative, non-decreasing in k, at most sigmav^2 of the linear spectrum, equal to it once uvcutoff*k reaches the last mode, and linear in the spectrum.", "quantifier": "every strictly increasing table with non-negative values, every ascending array of k, every cutoff >= 0", "why_tests_cant": "Order relations over all spectra and all k.", "anchors": ["src/common.c:calc_running_sigmad2", "pyregpt/pyregpt.py:Terms.sigmav"]}
{"id": "C13", "title": "Quadrature nodes fill the arrays, are mirror symmetric and follow the interval", "statement": "nodes_weights_gauss_legendre(xmin,xmax,n) writes every cell 0..n-1 of both arrays and no other; nodes i and n-1-i (i != n-1-i) are mirror images about the mid-point with equal weights; mapping the interval by an affine map maps the nodes by it and multiplies the weights by its slope.", "quantifier": "every n, every interval, whatever the root finder returns", "why_tests_cant": "Index coverage and symmetry must hold for every n, odd and even; tests use a few n.", "anchors": ["src/common.c:nodes_weights_gauss_legendre", "pyregpt/pyregpt.py:PyRegPT.nodes_weights_gauss_legendre"]}
{"id": "C14", "title": "Quadrature solves for Legendre roots and is exact on polynomials", "statement": "The recurrence evaluates the Legendre polynomial P_n and its exact derivative at the current iterate, so the iteration is Newton's method on P_n; if the returned abscissae are the n distinct roots of P_n then the rule integrates every polynomial of degree <= 2n-1 exactly and the weights are positive and sum to the interval length.", "quantifier": "every n, every iterate, every polynomial of degree <= 2n-1", "why_tests_cant": "Exactness is an identity over all polynomials and all n.", "anchors": ["src/common.c:nodes_weights_gauss_legendre"]}
{"id": "C15", "title": "Re-targeting a quadrature rule forgets its history", "statement": "Changing the angular range or the output wavenumber of an integration rule depends only on the last request: any sequence of range changes followed by a final one leaves the same nodes and weights as the final one alone; the remapped weights sum to the range length (relative to the reference rule) and the nodes lie inside the range.", "quantifier": "every finite sequence of range changes", "why_tests_cant": "Drift would accumulate over thousands of in-place updates along an unbounded history.", "anchors": ["src/common.c:update_gauss_legendre_mu", "src/common.c:update_gauss_legendre_q"]}
{"id": "C16", "title": "Angular range keeps |k-q| inside the integration range", "statement": "For every radial node the angular integration range lies in [-1,1], is not reversed, and every angle of it gives |k-q| between the smallest and the largest radial node; in half-plane mode it additionally gives |k-q| >= q for q >= k/2, and without half-plane mode every excluded angle gives |k-q| outside.", "quantifier": "every set of increasing positive radial nodes, every k>0, every node, every angle of the range", "why_tests_cant": "Continuum of angles and wavenumbers; the half-plane code overwrites the upper limit after the emptiness check.", "anchors": ["src/calc_pkcorr_from_gamma2.c:set_mu_range", "src/calc_pkcorr_from_B.c:set_mu_range", "src/calc_pkcorr_from_A_1loop.c:set_mu_range", "src/calc_pkcorr_from_A_2loop_I.c:set_mu_range", "src/calc_pkcorr_from_bias_1loop.c:set_mu_range"]}
{"id": "C17", "title": "Second-order kernel symmetries", "statement": "The second-order kernel is symmetric in its two wavevectors, invariant under rotation and under simultaneous sign change, vanishes when the two wavevectors cancel (both density and velocity), and its three implementations (moduli and product, vectors, moduli and cosine) agree.", "quantifier": "every pair of non-zero wavevectors, both fields", "why_tests_cant": "Identities over a continuum.", "anchors": ["src/kernels.c:F2_sym_fast", "src/kernels.c:F2_sym_full", "src/kernels.c:F2_sym", "src/calc_pkcorr_from_gamma2.c:gamma2_tree"]}
{"id": "C18", "title": "Third-order kernel is totally symmetric", "statement": "The symmetrised third-order kernel takes the same value for all six orderings of its three wavevectors, is invariant under simultaneous sign change, is zero when the three wavevectors sum to zero, and, for generic wavevectors, agrees with an independently written recursion of standard perturbation theory.", "quantifier": "every triple of wavevectors (including degenerate ones), both fields", "why_tests_cant": "Identities over a continuum, including the guarded degenerate configurations.", "anchors": ["src/kernels.c:F3", "src/kernels.c:F3_sym", "src/kernels.c:sigmaab"]}
{"id": "C19", "title": "Triangle functions have no domain error", "statement": "For every triangle of side lengths k1,k2,k3>0 and every q>0 the square roots taken by the one-loop kernels have non-negative argument, the logarithms have positive argument unless q equals one of the sides, and for non-degenerate triangles no division by zero occurs.", "quantifier": "every non-degenerate triangle, every q>0 outside the guarded neighbourhoods", "why_tests_cant": "A single bad configuration poisons the integral with NaN; the set of triangles is a continuum.", "anchors": ["src/kernels.c:WFunc", "src/kernels.c:big_beta", "src/kernels.c:LFunc", "src/kernels.c:small_beta"]}
{"id": "C20", "title": "Auxiliary beta function is the incomplete series", "statement": "betafunc(a,z) for a in {2,4,6} and 0.1<z<1 equals sum_{n>=a} z^n/n, and for 0<=z<=0.1 is below that sum by at most z^(a+7)/((a+7)(1-z)); the callers only ever pass arguments in [0,1).", "quantifier": "every z in [0,1), a in {2,4,6}; every k,q>0 and every triangle for the callers", "why_tests_cant": "Analytic identity and error bound over a continuum.", "anchors": ["src/kernels.c:betafunc", "src/kernels.c:small_beta", "src/kernels.c:big_beta"]}
{"id": "C21", "title": "One-loop propagator kernels are consistent across their branches", "statement": "Near x=1 and for x>10 the series branches of the one-loop propagator kernels (density and velocity) differ from the closed form by no more than the neglected order (|x-1|^3-type and x^-6-type bounds).", "quantifier": "every x>0 in the respective branch, both fields", "why_tests_cant": "Branch consistency has to hold for all x in the branch.", "anchors": ["src/gamma1_1loop.c:kernel_ff", "src/gamma1_1loop.c:kernel_gg"]}
{"id": "C22", "title": "Two-loop propagator kernel is consistent across its branches", "statement": "The expansion of the two-loop propagator kernel used for strongly unequal wavenumbers (ratio variable within 0.05 of one) agrees with the closed form up to fifth order in the distance, for density and for velocity.", "quantifier": "every pair of wavenumbers in the branch, both fields", "why_tests_cant": "The size of the mismatch is far below the test tolerance.", "anchors": ["src/gamma1_2loop.c:beta"]}
{"id": "C23", "title": "Two-loop propagator kernel is symmetric and the two-loop sum is order independent", "statement": "The integrand of the two-loop propagator is symmetric in the two loop momenta and scale-covariant: it depends on q1/k and q2/k only.", "quantifier": "every q1,q2,k>0, both fields", "why_tests_cant": "Identity over a continuum.", "anchors": ["src/gamma1_2loop.c:beta", "src/gamma1_2loop.c:alpha", "src/gamma1_2loop.c:integ_gamma1_2loop"]}
{"id": "C24", "title": "One-loop second-order kernels are symmetric in the two incoming momenta", "statement": "gamma2d_1loop(k1,k2,k3) and gamma2t_1loop(k1,k2,k3) do not change when k1 and k2 are exchanged.", "quantifier": "every k1,k2,k3>0, every loop momentum", "why_tests_cant": "Tests evaluate integrals for a few spectra; the symmetry concerns every branch of a seven-way dispatch on a four-dimensional continuum.", "anchors": ["src/gamma2d_1loop.c:kernel_gamma2d", "src/gamma2d_1loop.c:kernel_gamma2d_exact", "src/gamma2t_1loop.c:kernel_gamma2t", "src/gamma2t_1loop.c:kernel_gamma2t_exact"]}
{"id": "C25", "title": "Cross spectra do not depend on the order of the fields", "statement": "Running the one-loop or two-loop terms with (a,b) and with (b,a) gives the same spectrum.", "quantifier": "every linear spectrum, every k, all field pairs", "why_tests_cant": "Holds for all inputs; tests only check one table.", "anchors": ["src/spectrum_1loop.c:run_terms_spectrum_1loop", "src/spectrum_2loop.c:run_terms_spectrum_2loop", "pyregpt/pyregpt.py:Spectrum1Loop.pk", "pyregpt/pyregpt.py:Spectrum2Loop.pk"]}
{"id": "C26", "title": "Half-plane integrations are licensed by a q <-> k-q symmetry", "statement": "Every quantity integrated over the half plane |k-q|>=q and doubled has an integrand density invariant under exchanging q and k-q: the second-order one-loop term, the b2 and bs2 bias terms, each of the nine B columns and each of the five two-loop A columns (given an exchange-symmetric bispectrum); the bias terms that are not symmetric are integrated over the full plane.", "quantifier": "every k,q,mu, every spectrum", "why_tests_cant": "Algebraic identities over a continuum; a single wrong coefficient in one of the 12 kernels biases the result by less than test tolerances.", "anchors": ["src/calc_pkcorr_from_B.c:kernel_B", "src/spectrum_B.c:run_terms_B", "src/calc_pkcorr_from_A_2loop_I.c:kernel_projection_A_tA", "src/spectrum_A_2loop.c:run_terms_A_2loop", "src/spectrum_bias_1loop.c:run_terms_bias_1loop", "src/calc_pkcorr_from_gamma2.c:kernel_pk_gamma2_tree"]}
{"id": "C27", "title": "One-loop bispectrum loop terms are permutation symmetric", "statement": "The two Monte-Carlo integrated bispectrum contributions are invariant under permuting the three (wavevector, field) pairs and under reversing the loop momentum.", "quantifier": "every three wavevectors, every loop momentum, all field triples, every spectrum", "why_tests_cant": "Identity over nine-dimensional inputs with six conditional terms each.", "anchors": ["src/bispectrum_1loop.c:bispectrum_1loop_II_III"]}
{"id": "C28", "title": "Regularised bispectrum exchanges its A and tA parts", "statement": "Exchanging the two loop legs p and |k-p| turns the four A bispectra into the four tA bispectra.", "quantifier": "every k,p,|k-p|, every spectrum", "why_tests_cant": "The low-wavenumber switches of the regularised propagators are thresholds inside a continuum.", "anchors": ["src/bispectrum_1loop.c:bispectrum_1loop_I", "src/bispectrum_1loop.c:gamma1_reg_1loop", "src/bispectrum_1loop.c:gamma2_reg_1loop"]}
{"id": "C29", "title": "Strongly damped configurations contribute zero", "statement": "When the damping exponent of the regularised bispectrum exceeds 100 its contribution is exactly zero.", "quantifier": "every configuration", "why_tests_cant": "The branch exists in the code but whether it has an effect cannot be seen from results of order e^-100.", "anchors": ["src/bispectrum_1loop.c:bispectrum_1loop_I", "src/calc_pkcorr_from_A_2loop_II_III.c:kernel_A_tA_2loop_II_III"]}
{"id": "C30", "title": "Auto spectra are non-negative and cross spectra obey Cauchy-Schwarz", "statement": "For a non-negative linear spectrum the mode-coupling terms of an auto spectrum (tree second-order and third-order) are non-negative, the cross term obeys P_dt^2 <= P_dd P_tt, and the one-loop auto spectrum is non-negative.", "quantifier": "every non-negative linear spectrum, every k, every quadrature rule with positive weights", "why_tests_cant": "Inequalities over all spectra.", "anchors": ["src/calc_pkcorr_from_gamma2.c:calc_pk_gamma2_tree", "src/calc_pkcorr_from_gamma3.c:kernel_pk_gamma3_tree", "pyregpt/pyregpt.py:Spectrum1Loop.pk", "src/common.c:find_pk"]}
{"id": "C31", "title": "Rescaling terms equals rescaling the input spectrum", "statement": "Running the terms with the linear spectrum multiplied by s^2 gives the same terms as running with the original spectrum and calling rescale(s), for every class and every term.", "quantifier": "every linear spectrum, every s != 0, every k, every term of every class", "why_tests_cant": "A homogeneity law through interpolation, extrapolation, quadrature and kernels for all inputs; a wrong exponent of one term goes unnoticed when no test rescales it.", "anchors": ["pyregpt/pyregpt.py:Terms.rescale", "pyregpt/pyregpt.py:Spectrum1Loop", "pyregpt/pyregpt.py:Spectrum2Loop", "pyregpt/pyregpt.py:Bias1Loop", "pyregpt/pyregpt.py:A1Loop", "pyregpt/pyregpt.py:B1Loop", "src/calc_pkcorr_from_bias_1loop.c:calc_pk_bias_1loop"]}
{"id": "C32", "title": "Growth factor argument equals rescaling", "statement": "pk(Dgrowth=D) equals pk() after rescale(D), and rescale(s) followed by pk(D) equals pk(s*D), for all spectra and all bias spectra; rescale(s) then rescale(t) equals rescale(s*t).", "quantifier": "every term values, every D, s, t", "why_tests_cant": "Algebraic law over all values.", "anchors": ["pyregpt/pyregpt.py:Terms.rescale", "pyregpt/pyregpt.py:scale_factor", "pyregpt/pyregpt.py:damping_factor", "pyregpt/pyregpt.py:Spectrum1Loop.pk", "pyregpt/pyregpt.py:Spectrum2Loop.pk", "pyregpt/pyregpt.py:Bias1Loop"]}
{"id": "C33", "title": "C and Python assemble the same spectrum", "statement": "The C routines that assemble the one-loop and two-loop spectra from the terms give the same result as the Python pk() with unit growth factor.", "quantifier": "every term values", "why_tests_cant": "The C assembly is not reachable from the Python tests.", "anchors": ["src/spectrum_1loop.c:spectrum_1loop", "src/spectrum_2loop.c:spectrum_2loop", "pyregpt/pyregpt.py:Spectrum1Loop.pk", "pyregpt/pyregpt.py:Spectrum2Loop.pk"]}
{"id": "C34", "title": "Redshift-space columns carry the right angular and growth powers", "statement": "pk_interp of the A and B terms is the polynomial in mu^2 and beta whose coefficients are the stored columns, each column's (mu,beta) powers being the ones of the (n,a,b) components the C code sums into it; requests outside the k range return the given left/right values.", "quantifier": "every column values, every k, mu, beta, left, right", "why_tests_cant": "Column bookkeeping spans C index arithmetic and Python; the left/right arguments are never used in tests.", "anchors": ["pyregpt/pyregpt.py:A1Loop.pk_interp", "pyregpt/pyregpt.py:B1Loop.pk_interp", "src/spectrum_B.c:run_terms_B", "src/spectrum_A_2loop.c:run_terms_A_2loop"]}
{"id": "C35", "title": "Per-term precision setters change exactly what was given", "statement": "A precision call sets the node count if positive, the range if max>=min and the interpolation mode if it is 'poly' or 'lin', keeps every other setting, restores the defaults exactly when none of the three is valid, and repeating a call changes nothing; the node count stays positive and the range stays ordered in every reachable state.", "quantifier": "every history of precision calls with any arguments", "why_tests_cant": "Invariant over unbounded histories.", "anchors": ["src/common.c:set_precision", "src/common.c:set_interpol"]}
{"id": "C36", "title": "Composite precision names reach exactly their members", "statement": "Python set_precision with a composite name ('all_q','all_mu','spectrum_1loop_q','spectrum_2loop_q','gamma2_1loop_q','A_2loop_q','all') has the same effect as calling the member setters once each and touches no other setting; every documented name is served without error and with the argument list the C setter expects.", "quantifier": "every composite name, every argument, every prior state", "why_tests_cant": "Dispatch falls through in one case and some names do not exist in the library; the effect on other settings is not observed by tests.", "anchors": ["pyregpt/pyregpt.py:PyRegPT.set_precision", "pyregpt/pyregpt.py:PyRegPT.set_running_uvcutoff"]}
{"id": "C37", "title": "clear() restores the library defaults", "statement": "After clear() every precision, interpolation and cutoff setting of the library has its default value, whatever was set before.", "quantifier": "every history of setting calls before clear()", "why_tests_cant": "Unbounded histories; tests clear only settings they changed.", "anchors": ["pyregpt/pyregpt.py:PyRegPT.clear"]}
{"id": "C38", "title": "Automatic integration range follows the current spectrum", "statement": "When the range of a term is set to automatic (non-positive limits), a run integrates over the k range of the linear spectrum set at the time of the run.", "quantifier": "every history of set_pk_lin, set_precision and run_terms calls", "why_tests_cant": "History dependence: only a second run with another spectrum exposes a stale range.", "anchors": ["src/common.c:init_gauss_legendre_q", "src/calc_pkcorr_from_gamma3.c:init_gamma3_tree", "src/calc_pkcorr_from_A_2loop_II_III.c:init_A_2loop_II_III"]}
{"id": "C39", "title": "An object's run fills that object's arrays from its own spectrum", "statement": "run_terms() of an object writes the results into that object's columns, computed from the spectrum that object was given, whatever other objects exist or did in between.", "quantifier": "every interleaving of set_pk_lin / set_terms / run_terms / construction / deepcopy on any number of objects", "why_tests_cant": "Interleavings of several objects sharing the library are unbounded; tests use one object at a time.", "anchors": ["pyregpt/pyregpt.py:PyRegPT", "pyregpt/pyregpt.py:Spectrum1Loop.run_terms", "src/regpt.c:set_pk_lin", "src/spectrum_1loop.c:set_terms_spectrum_1loop"]}
{"id": "C40", "title": "Verbosity stays as set", "statement": "After set_verbosity('quiet') the library prints nothing until set_verbosity is called again.", "quantifier": "every history of API calls without set_verbosity", "why_tests_cant": "Histories with construction, copies and composite runs.", "anchors": ["pyregpt/pyregpt.py:PyRegPT.__init__", "pyregpt/pyregpt.py:PyRegPT.set_verbosity", "pyregpt/pyregpt.py:B2Loop.run_terms", "src/regpt.c:set_verbosity"]}
{"id": "C41", "title": "Supplying a spectrum for B only affects that spectrum", "statement": "Supplying the density-velocity spectrum sets only that one, supplying the velocity-velocity spectrum sets only that one, and supplying any other pair changes neither.", "quantifier": "every pair of field names, every prior state", "why_tests_cant": "An assignment in a condition; tests never supply the density-density pair.", "anchors": ["src/spectrum_B.c:set_spectra_B", "src/regpt.c:set_flag"]}
{"id": "C42", "title": "B runs never use freed spectra", "statement": "No sequence of B-term calls reads a spectrum array that has been freed.", "quantifier": "every history of set_spectra_B / run_terms_B calls", "why_tests_cant": "Use-after-free needs a second run in the same process and typically reads plausible old values.", "anchors": ["src/spectrum_B.c:run_terms_B", "src/spectrum_B.c:run_spectra_B_1loop", "src/spectrum_B.c:free_spectra_B", "pyregpt/pyregpt.py:B1Loop.run_terms", "pyregpt/pyregpt.py:B2Loop.run_terms"]}
{"id": "C43", "title": "Results do not depend on threads or schedule", "statement": "The arrays filled by a run are the same for every number of threads, every assignment of output modes to threads and every order in which a thread processes them, and each output mode is written by exactly one iteration.", "quantifier": "every number of threads, every schedule, every interleaving", "why_tests_cant": "Schedules are not enumerable by testing; per-thread scratch state survives between iterations.", "anchors": ["src/spectrum_1loop.c:run_terms_spectrum_1loop", "src/spectrum_2loop.c:run_terms_spectrum_2loop", "src/spectrum_A_2loop.c:run_terms_A_2loop", "src/spectrum_B.c:run_terms_B", "src/spectrum_bias_1loop.c:run_terms_bias_1loop"]}
{"id": "C44", "title": "Re-running is idempotent", "statement": "Calling run_terms twice with unchanged inputs leaves the same values as calling it once, whatever the output arrays contained before.", "quantifier": "every initial content of the output arrays, every number of repetitions", "why_tests_cant": "The two-loop A term accumulates into its output in a second pass.", "anchors": ["src/spectrum_A_2loop.c:run_terms_A_2loop", "src/spectrum_1loop.c:run_terms_spectrum_1loop", "src/spectrum_B.c:run_terms_B", "src/spectrum_bias_1loop.c:run_terms_bias_1loop"]}
{"id": "C45", "title": "Named columns hold the named quantities", "statement": "After set_terms and run_terms each named column of an object holds the quantity of that name: the positional pointer list passed to the library follows the library's parameter order for every class, and the multi-component columns are laid out row by row.", "quantifier": "every class, every k array", "why_tests_cant": "A permuted pointer of the same type passes every type check.", "anchors": ["pyregpt/pyregpt.py:Terms.tolist", "pyregpt/pyregpt.py:Terms.zeros", "pyregpt/pyregpt.py:Terms.reshape", "src/spectrum_2loop.c:set_terms_spectrum_2loop", "src/spectrum_bias_1loop.c:set_terms_bias_1loop"]}
{"id": "C46", "title": "Padding extends the k range and keeps the interior", "statement": "pad_k(k) extends the columns to the modes of k outside the present range, leaves all existing entries unchanged and keeps k ascending, for every class and whether or not there are modes to add on either side.", "quantifier": "every class, every present k array, every ascending k", "why_tests_cant": "Zero-width padding and two-dimensional columns are not exercised.", "anchors": ["pyregpt/pyregpt.py:Terms.pad_k", "pyregpt/pyregpt.py:PyRegPT.pad_k"]}
{"id": "C47", "title": "Copies are independent where promised", "statement": "deepcopy() gives an object with equal columns whose later modification leaves the original unchanged, and vice versa; copy() shares the columns.", "quantifier": "every object, every later modification", "why_tests_cant": "Aliasing over arbitrary later histories.", "anchors": ["pyregpt/pyregpt.py:Terms.copy", "pyregpt/pyregpt.py:Terms.deepcopy", "pyregpt/pyregpt.py:PyRegPT.deepcopy"]}
{"id": "C48", "title": "Caller arrays are neither kept nor modified", "statement": "set_pk_lin(k,pk) and set_terms(k) copy their arguments: later modification of the caller's arrays does not change results, and no run modifies them.", "quantifier": "every later modification of the caller's arrays, every run", "why_tests_cant": "Aliasing over arbitrary histories.", "anchors": ["pyregpt/pyregpt.py:PyRegPT.set_pk_lin", "pyregpt/pyregpt.py:Terms.zeros"]}
{"id": "C49", "title": "Progress report stays within 0..100 percent", "statement": "The progress percentages printed during a run are non-decreasing along the modes and never exceed 100.", "quantifier": "every number of output modes", "why_tests_cant": "Depends on integer division for each number of modes.", "anchors": ["src/spectrum_1loop.c:run_terms_spectrum_1loop", "src/spectrum_2loop.c:run_terms_spectrum_2loop"]}
{"id": "C50", "title": "Smooth reference spectrum is normalised and bounded", "statement": "A no-wiggle spectrum object can be set up with set_terms(k) and run; the transfer function lies in (0,1]; the spectrum matches the given one at the first mode when no amplitude is given.", "quantifier": "every k>0, every cosmology with positive effective shape", "why_tests_cant": "Continuum of k and parameters; set_terms of this class is not called in tests.", "anchors": ["pyregpt/pyregpt.py:SpectrumNoWiggle", "pyregpt/pyregpt.py:Terms.zeros"]}
{"id": "C51", "title": "Shot-noise damping is a cut-off", "statement": "shotnoise(kmin,kmax) lies in (0,1], equals 1 exactly for kmin<=k<=kmax and decreases away from that range.", "quantifier": "every k>0, every 0<kmin<=kmax", "why_tests_cant": "Continuum.", "anchors": ["pyregpt/pyregpt.py:Bias1Loop.shotnoise"]}
{"id": "C52", "title": "Third-order integrand region is a half space and conserves momentum", "statement": "The three wavevectors of the third-order tree integrand always sum to k, the integrand is evaluated exactly when |q| <= |k-p-q| and |k-p-q| is within range, and the integrand is unchanged by exchanging q with k-p-q, so that the doubled half-space integral covers the whole space.", "quantifier": "every sample point of the unit cube, every k", "why_tests_cant": "Identity over a five-dimensional continuum.", "anchors": ["src/calc_pkcorr_from_gamma3.c:kernel_pk_gamma3_tree"]}
{"id": "C53", "title": "Two-loop A projections reproduce the one-loop A kernels at tree level", "statement": "Inserting the tree-level bispectrum into the projection kernels of the two-loop A term gives, term by term, the one-loop A kernels: the pieces proportional to P(k)P(|k-q|) and P(q)P(|k-q|) pointwise, and the piece proportional to P(k)P(q) after integrating over the angle.", "quantifier": "every k,q,mu", "why_tests_cant": "Two independently typed sets of rational functions; agreement on a continuum.", "anchors": ["src/calc_pkcorr_from_A_1loop.c:kernel_A_tA_1loop", "src/calc_pkcorr_from_A_1loop.c:kernel_a_1loop", "src/calc_pkcorr_from_A_2loop_I.c:kernel_projection_A_tA"]}
{"id": "C54", "title": "Series branches of the one-loop A kernel agree with the closed form", "statement": "For x<1e-4 and for x>100 the series used for the angle-averaged one-loop A kernel differ from the closed form by no more than the first neglected order.", "quantifier": "every x>0 in the respective branch, all columns", "why_tests_cant": "Continuum; cancellation hides errors in floating point.", "anchors": ["src/calc_pkcorr_from_A_1loop.c:kernel_a_1loop"]}
{"id": "C55", "title": "Every run releases what it allocates", "statement": "Every buffer allocated during a run (quadrature tables, interpolation scratch, temporary spectra) is released exactly once and not used afterwards.", "quantifier": "every run, every number of threads, every history", "why_tests_cant": "Leaks and double frees depend on the path and accumulate over histories.", "anchors": ["src/common.c:init_gauss_legendre_q", "src/common.c:free_gauss_legendre_q", "src/common.c:interpol_poly", "src/spectrum_1loop.c:run_spectrum_1loop", "src/spectrum_B.c:run_terms_B"]}
{"id": "C56", "title": "Runs need a spectrum and a non-empty request", "statement": "No sequence of public calls makes the library dereference a missing spectrum or read element -1 of an empty request: running or looking up before set_pk_lin, or with an empty k array, is reported or harmless.", "quantifier": "every history of public calls", "why_tests_cant": "The failing histories are the ones tests never write.", "anchors": ["src/regpt.c:print_k", "src/regpt.c:print_pk_lin", "src/common.c:find_pk", "src/common.c:calc_running_sigmad2"]}
{"id": "C57", "title": "The B kernels are the azimuthal average of the redshift-space integrand", "statement": "For every pair (q, k-q) the polynomials of the B correction, weighted with the powers of the growth rate and of the cosine to the line of sight that the Python layer attaches to each column, equal the average over the azimuth of q around k of the product of the two line-of-sight velocity projections (with their Kaiser factors) that defines the correction.", "quantifier": "every x>0, every cosine in [-1,1], every line-of-sight cosine, every growth rate, every value of the spectra", "why_tests_cant": "Twelve polynomials in three variables: a grid of regression values cannot show that an identity holds everywhere.", "anchors": ["src/calc_pkcorr_from_B.c:kernel_B", "src/spectrum_B.c:run_terms_B", "pyregpt/pyregpt.py:B1Loop.pk_interp"]}
{"id": "C58", "title": "The two-loop A projection kernels are the azimuthal average of the redshift-space integrand", "statement": "For every pair (q, k-q) the projection polynomials of the A correction, weighted with the powers of the growth rate and of the line-of-sight cosine that the Python layer attaches to each column, equal the average over the azimuth of q around k of the line-of-sight velocity projections multiplying the cross bispectra.", "quantifier": "every x>0, every cosine in [-1,1], every line-of-sight cosine, every growth rate, every value of the bispectra", "why_tests_cant": "The identity holds between polynomials; sampled values cannot establish it.", "anchors": ["src/calc_pkcorr_from_A_2loop_I.c:kernel_projection_A_tA", "src/spectrum_A_2loop.c:run_terms_A_2loop", "pyregpt/pyregpt.py:A1Loop.pk_interp"]}
{"id": "C59", "title": "Whole runs are free of undefined behaviour", "statement": "With a registered spectrum of at least two modes, result arrays of the announced size and the default interpolation mode, each of the six term runs and the self-contained one-loop spectrum completes without reading or writing outside an array, without reading an uninitialised cell and without unsigned wrap-around, on any number of threads.", "quantifier": "every table contents, every list of requested modes (unordered, repeated, outside the table), every pair of fields, every table size below 2^63 including 0, every integration range including the automatic one, every schedule, every cubature routine that only evaluates its integrand", "why_tests_cant": "A run touches tens of millions of cells whose indices depend on data; a test sees one data set on one schedule, and a small overrun goes unnoticed.", "anchors": ["src/spectrum_1loop.c:run_terms_spectrum_1loop", "src/spectrum_2loop.c:run_terms_spectrum_2loop", "src/spectrum_bias_1loop.c:run_terms_bias_1loop", "src/spectrum_A_1loop.c:run_terms_A_1loop", "src/spectrum_A_2loop.c:run_terms_A_2loop", "src/spectrum_B.c:run_terms_B"]}
{"id": "C60", "title": "Bias integrands are those of the local and tidal bias expansion", "statement": "At every pair of wavevectors (k, q) the integrand of each bias column equals the published one: products of spectra with the second-order kernel and the tidal kernel S2(q,k-q), with the subtractions that make the auto terms vanish on large scales; the subtraction in sigma3sq makes its angular average vanish for large q, and S2 has no monopole.", "quantifier": "every pair of vectors with k, q, k-q non-zero, every spectrum, both fields", "why_tests_cant": "A kernel evaluated at the wrong one of two cosines gives smooth plausible curves; regression values only freeze it.", "anchors": ["src/spectrum_bias_1loop.c:kernel_b2", "src/spectrum_bias_1loop.c:kernel_sigma3sq", "src/calc_pkcorr_from_bias_1loop.c:kernel_pk_bias_1loop", "src/kernels.c:S2", "src/kernels.c:D2"]}
{"id": "C61", "title": "Threads of a run share no variable that one of them writes", "statement": "In the parallel region of every run, a static variable or table pointer written by one thread is not read or written by any other thread.", "quantifier": "every kind of run, every pair of threads, every sequence of accesses the numerical code can make", "why_tests_cant": "A race on a static variable usually writes equal values and shows nothing on one machine; whether it is harmless is up to the compiler and the memory model.", "anchors": ["src/calc_pkcorr_from_B.c:init_B", "src/gamma1_1loop.c:init_gamma1_1loop", "src/calc_pkcorr_from_gamma2.c:init_gamma2_tree", "src/calc_pkcorr_from_A_2loop_I.c:init_A_2loop_I", "src/spectrum_B.c:run_terms_B"]}
{"id": "C62", "title": "Runs with linear interpolation stay where the lookup is defined", "statement": "With linear interpolation everywhere, ranges of the radial integrals that end within the tabulated modes and nodes found in order, the one-loop, two-loop, bias and one-loop A runs look up only wavenumbers at which the linear lookup is defined: the angular ranges keep |k-q| between the first and the last node, which lie strictly below the last tabulated mode. So the runs are free of undefined behaviour as long as the last tabulated mode itself is not requested.", "quantifier": "every table of at least two increasing positive modes, every table contents, every list of positive requested modes not containing the last tabulated one, every pair of fields, every schedule, every cubature routine that keeps to the unit cube", "why_tests_cant": "The out-of-bounds read of the linear lookup happens at a single wavenumber; whether one of the millions of points of the integrals can hit it depends on an invariant of the angular ranges.", "anchors": ["src/common.c:find_pk", "src/common.c:init_gauss_legendre_q", "src/calc_pkcorr_from_gamma2.c:set_mu_range", "src/calc_pkcorr_from_bias_1loop.c:calc_pk_bias_1loop", "src/calc_pkcorr_from_A_1loop.c:calc_pk_A_1loop", "src/calc_pkcorr_from_gamma3.c:kernel_pk_gamma3_tree"]}
{"id": "C63", "title": "The Monte-Carlo bispectrum sums are the standard one-loop bispectrum integrals", "statement": "Integrated over loop momenta q with |q| in the range, the 222 part returned by bispectrum_1loop_II_III equals the standard one-loop 222 integrand (8 F2 F2 F2 P P P) integrated over all loop momenta whose shortest internal momentum lies in the range, and the 321 part equals the sum of the six standard 321 integrals (6 F3 F2 P P P) restricted in the same way: the conditional sums over the three internal momenta count every configuration once.", "quantifier": "every closed triangle of non-zero wavevectors, every choice of the three fields, every spectrum for which the lookups are defined and the standard integrands integrable, every positive lower end and every upper end of the range", "why_tests_cant": "The conditional sums agree with the standard integrand at no single loop momentum; only the five-dimensional integral can be compared, where a double-counted region hides in the Monte-Carlo error.", "anchors": ["src/bispectrum_1loop.c:bispectrum_1loop_II_III", "src/kernels.c:F2_sym_full", "src/kernels.c:F3_sym"]}
{"id": "C64", "title": "Both parts of the two-loop A correction integrate the same configurations with the same measure", "statement": "A point of the unit cube handed to the Monte-Carlo integrand of the two-loop A term stands for a triangle (k, p, k-p) and a loop momentum q with radii in the range; the integrand is the assembly used by the quadrature part, applied to the loop bispectra of that triangle, times the damping factor and the Jacobian of the coordinates, and it is evaluated exactly where the quadrature part is: p <= |k-p| with p and |k-p| inside the integration range.", "quantifier": "every linear spectrum, every mode, every range, every point of the unit cube", "why_tests_cant": "The two parts are added and only the sum is compared with published curves, at the percent accuracy of the Monte-Carlo routine; a slightly different domain of one part changes nothing visible.", "anchors": ["src/calc_pkcorr_from_A_2loop_II_III.c:kernel_A_tA_2loop_II_III", "src/calc_pkcorr_from_A_2loop_I.c:set_mu_range", "src/calc_pkcorr_from_A_2loop_I.c:calc_pk_A_2loop_I", "src/spectrum_A_2loop.c:run_terms_A_2loop"]}
{"id": "C65", "title": "The one-loop propagator correction is the loop integral of the third-order kernel", "statement": "The closed kernels that gamma1_1loop integrates are, for each field and each ratio of loop momentum to mode, the average over directions of the symmetrised third-order kernel at (k, q, -q); the quadrature sum is therefore the sum over nodes of 3 q^3/(2 pi)^2 times the angular integral times the spectrum per unit log q, and in the continuum the correction is 3 times the integral of F3(k,q,-q) P(q) d^3q/(2 pi)^3 over the shell of the range. The third-order kernel coded in kernels.c gives the same angular average as the kernels coded in gamma1_1loop.c.", "quantifier": "both fields, every table of positive ascending modes, every mode vector, every range, every ratio outside the ranges where the kernels are expanded", "why_tests_cant": "The closed kernels and the vector kernels are never evaluated on the same quantity by any test; a wrong coefficient in either would be absorbed in the few-percent agreement of the final spectra. The equality is between an integral and a formula with a logarithm, for a continuum of ratios.", "anchors": ["src/gamma1_1loop.c:kernel_ff", "src/gamma1_1loop.c:kernel_gg", "src/gamma1_1loop.c:gamma1_1loop", "src/kernels.c:F3_sym", "src/common.c:update_gauss_legendre_q"]}
{"id": "C66", "title": "The double rule approximates the standard loop integral", "statement": "The columns filled by the double loops over (q, mu) — the second-order term of Spectrum1Loop and the eight columns of Bias1Loop — are one expression in two rules: a radial rule in log q and an angular rule on the range chosen by set_mu_range, over the half plane and doubled or over the whole plane. The same expression with integrals in place of the two rules equals the integral of the standard integrand over d^3q/(2 pi)^3, on the wavevectors for which both |q| and |k-q| lie between the extreme nodes. Prefactors, volume element, angular limits, the half-plane restriction and its factor of two are therefore all consistent.", "quantifier": "every physical table of at least two modes, both fields, every bias column, every mode vector, every radial rule with at least two ascending nodes, every angular rule", "why_tests_cant": "Tests compare final spectra with stored numbers; they do not know the three-dimensional integral. A wrong angular limit, volume element or factor of two that is compensated elsewhere, or acts only near the edges of the range, is invisible. The statement is about an integral over space for a continuum of spectra and modes.", "anchors": ["src/calc_pkcorr_from_gamma2.c:set_mu_range", "src/calc_pkcorr_from_gamma2.c:calc_pk_gamma2_tree", "src/calc_pkcorr_from_bias_1loop.c:set_mu_range", "src/calc_pkcorr_from_bias_1loop.c:calc_pk_bias_1loop", "src/common.c:init_gauss_legendre_q", "src/common.c:update_gauss_legendre_mu"]}
{"id": "C67", "title": "Error and convergence of the Gauss-Legendre rule for arbitrary integrands", "statement": "If the abscissae and derivatives used by nodes_weights_gauss_legendre are those at the roots of the Legendre polynomial, the rule of n nodes on [a,b] integrates every integrable function with an error of at most 2(b-a) times its distance from the polynomials of degree below 2n; for 2n times differentiable functions with that derivative bounded by M the error is at most 2(b-a) M (b-a)^(2n)/(2n-1)!; with the roots that the search of the routine finds, for every continuous function the rules tend to the integral as n grows and the first and last abscissae tend to the ends of the interval.", "quantifier": "every number of nodes, every interval, every integrand of the stated class", "why_tests_cant": "Tests evaluate a few rules on a few integrands. Convergence is a statement about all continuous integrands and an unbounded number of nodes, and the error bound is about all polynomials.", "anchors": ["src/common.c:nodes_weights_gauss_legendre", "src/common.c:init_gauss_legendre_mu", "src/common.c:init_gauss_legendre_q"]}
{"id": "C68", "title": "The stored loop terms converge to the loop integrals as the rules are refined", "statement": "For a table of positive ascending modes, the Legendre roots found by the search of the code and a configured radial range inside the table, what Spectrum1Loop stores as second-order term and what Bias1Loop stores in each of its eight columns is an entry, indexed by the numbers of radial and angular nodes, of a double sequence that tends to the loop integral of the standard integrand over d^3q/(2 pi)^3 with both |q| and |k-q| in the configured range. The angular limits used by the code depend on the extreme nodes, not on the ends of the range; this and the clipping of empty ranges do not change the limit.", "quantifier": "every such table, range, mode vector, pair of fields and bias column; numbers of nodes growing independently", "why_tests_cant": "A test can compare two numbers of nodes for one spectrum; it cannot tell a converged value from the right value, nor see an error of the limits that vanishes or does not vanish as nodes are added, for every spectrum.", "anchors": ["src/calc_pkcorr_from_gamma2.c:calc_pk_gamma2_tree", "src/calc_pkcorr_from_gamma2.c:set_mu_range", "src/calc_pkcorr_from_bias_1loop.c:calc_pk_bias_1loop", "src/calc_pkcorr_from_bias_1loop.c:set_mu_range", "src/common.c:nodes_weights_gauss_legendre", "src/common.c:find_pk"]}
{"id": "C69", "title": "The branches of the one-loop second-order kernels agree where they meet", "statement": "kernel_gamma2d and kernel_gamma2t choose among six expressions. Each of the special ones is an expansion or a rewriting of the exact one: for every triangle the large-q expansion (lowk) differs from the exact expression by O(q^-6) and the small-q expansion (highk) by O(q^4), and the kernel with its branch selection inherits both; when the third side shrinks and the other two approach a common length the collapsed expression (coll) differs by the sixth power of the short side; when the second side shrinks the elongated expression (elongate) differs by the square of the short side; and wherever the auxiliary functions small_beta and big_beta use their closed forms the regular expression (reg3rd) equals the exact one.", "quantifier": "both fields, every non-degenerate triangle and loop wavenumber q different from the sides; limits q to infinity, q to 0 and short side to 0", "why_tests_cant": "The expressions are polynomials with up to hundreds of integer coefficients; a wrong digit in a high-order coefficient shifts the result by a part in a million in a corner of the domain, below any tolerance a numerical comparison at sampled points could use because the exact expression itself loses digits there.", "anchors": ["src/gamma2d_1loop.c:kernel_gamma2d", "src/gamma2d_1loop.c:kernel_gamma2d_lowk", "src/gamma2d_1loop.c:kernel_gamma2d_highk", "src/gamma2d_1loop.c:kernel_gamma2d_coll", "src/gamma2d_1loop.c:kernel_gamma2d_elongate", "src/gamma2d_1loop.c:kernel_gamma2d_reg3rd", "src/gamma2d_1loop.c:kernel_gamma2d_exact", "src/gamma2t_1loop.c:kernel_gamma2t", "src/kernels.c:small_beta", "src/kernels.c:big_beta"]}
{"id": "C70", "title": "The variance in spheres is that of the smoothed field", "statement": "The window of sigmar is the average of the plane wave over the sphere of the given radius. For a continuous non-negative spectrum the square of sigmar tends, as the table between two fixed modes is refined in any way, to the variance of the field averaged over the sphere, the integral of P(|q|) times the squared window over d^3q/(2 pi)^3. It never exceeds the unsmoothed variance and differs from it by at most the square of the phase of the last mode across the sphere. Both sigmar and sigmav of the linear spectrum are proportional to |Dgrowth|, and sigmar does not depend on the unit of length.", "quantifier": "every container with one value per mode, every ascending table of positive modes, every radius, growth factor and unit", "why_tests_cant": "A test compares one number such as sigma8 with a reference for one cosmology and one table; it can neither cover all spectra and refinements nor separate a wrong window from a coarse table.", "anchors": ["pyregpt/pyregpt.py:sigmar", "pyregpt/pyregpt.py:sigma8", "pyregpt/pyregpt.py:sigmav"]}
{"id": "C71", "title": "The stored B columns converge to the loop integral of the B correction", "statement": "The nine columns stored by run_terms_B, weighted with the powers of the growth rate f and of the line-of-sight cosine that the Python layer attaches to them, are the entry of a double sequence in the two quadrature sizes that tends to (f n.k)^2 times the integral over d^3p/(2 pi)^3 of F(p) F(k-p), with F(p) = (n.p/p^2) (P_dt(p) + f (n.p)^2/p^2 P_tt(p)), over the wavevectors with |p| and |k-p| inside the integration range. At a stored mode the interpolated B correction is the fourth power of the relative growth factor times this weighted sum.", "quantifier": "every wavevector k, every direction of the line of sight n, every growth rate, every pair of spectra covering the range, every thread schedule, in the limit of large quadrature sizes with the Legendre roots found by the search of the code", "why_tests_cant": "A test evaluates one grid of sizes for one spectrum; it can compare with a reference table but not show that the nine projections together are the integral over all wavevectors for every direction of the line of sight.", "anchors": ["src/spectrum_B.c:run_terms_B", "src/calc_pkcorr_from_B.c:calc_pk_B", "pyregpt/pyregpt.py:pk_interp"]}
{"id": "C72", "title": "The stored one-loop A columns converge to the loop integral of the A correction", "statement": "The five columns stored by run_terms_A_1loop, weighted with the powers of the growth rate f and of the line-of-sight cosine that the Python layer attaches to them, are the entry of a double sequence in the two quadrature sizes that comes within any distance, beyond the error 1/(6 10^22) of the branches of the radial kernel, of f n.k times the integral over d^3p/(2 pi)^3 of the A integrand of the tree-level bispectrum: the line-of-sight velocity at p or k-p correlated with the redshift-space densities at the other wavevector and at -k. The wavevector p runs over the integration range, and the spectrum at k-p counts as zero where k-p is outside the range. At a stored mode the interpolated A correction is the fourth power of the relative growth factor times this weighted sum.", "quantifier": "every wavevector k shorter than the sum of the ends of the range, every direction of the line of sight n, every growth rate, every spectrum covering the range, every thread schedule, in the limit of large quadrature sizes with the Legendre roots found by the search of the code", "why_tests_cant": "A test evaluates one grid of sizes for one spectrum; it can compare with a reference table but not show that five projected kernels, two of them integrated over the angle in closed form and replaced by series at both ends, together are the integral over all wavevectors for every direction of the line of sight.", "anchors": ["src/spectrum_A_1loop.c:run_terms_A_1loop", "src/calc_pkcorr_from_A_1loop.c:calc_pk_A_1loop", "src/calc_pkcorr_from_A_1loop.c:kernel_A_tA_1loop", "src/calc_pkcorr_from_A_1loop.c:kernel_a_1loop", "pyregpt/pyregpt.py:pk_interp"]}
{"id": "C73", "title": "The stored one-loop propagators and the assembled one-loop spectrum come close to the loop integrals", "statement": "The columns gamma1a_1loop and gamma1b_1loop stored by run_terms_spectrum_1loop for a mode k are entries of sequences in the quadrature size that come within any distance, beyond 1/500000 times k^3/(2 pi^2) times the integral of |P(q)|/q over the range, of the loop integral 3 times the integral over d^3q/(2 pi)^3 of the symmetrised third-order kernel at k, q, -q times P(q) over the shell of the range. Spectrum1Loop.pk after such a run is the entry of a triple sequence that comes within any distance, beyond the effect of that error on both propagators, of exp(-2F)(D^2 (1+F+D^2 Ga)(1+F+D^2 Gb) P(k) + D^4 M), where Ga and Gb are these loop integrals, M is the integral over d^3q/(2 pi)^3 of twice the product of the second-order kernels with both spectra, both wavevectors in the range, and F is k^2 D^2/2 times the displacement dispersion, either the integral of the piecewise-linear spectrum up to the cutoff or the value passed by the caller.", "quantifier": "every non-zero wavevector, pair of fields, growth factor, value of the dispersion, physical spectrum covering the ranges, thread schedule and list of ascending modes, in the limit of large quadrature sizes with the Legendre roots found by the search of the code", "why_tests_cant": "A test compares one spectrum at fixed sizes with a reference table; it cannot show that the sum of tabulated terms, each with its own rule, kernel branches and regularisation, is the regularised one-loop spectrum for every input, nor bound what remains when the sizes grow.", "anchors": ["src/spectrum_1loop.c:run_terms_spectrum_1loop", "src/gamma1_1loop.c:gamma1_1loop", "src/gamma1_1loop.c:kernel_ff", "src/common.c:calc_running_sigmad2", "pyregpt/pyregpt.py:Spectrum1Loop.pk"]}
{"id": "C74", "title": "The third-order term of the two-loop spectrum is the loop integral of two symmetrised third-order kernels", "statement": "The integrand which kernel_pk_gamma3_tree hands to the cubature for a mode k is integrable over the unit cube, and 6/(2 pi)^6 times its integral is 6 times the integral over d^3p d^3q/(2 pi)^6 of the product of the symmetrised third-order kernels of perturbation theory of both fields at p, q, k-p-q with the linear spectra at the three moduli, over all p and q such that the three moduli are in the range, up to an explicit bound of the effect of the guard in the coded kernel. Over the default range and for k between 1/1000 and 10 that bound is below 10^-22 times the cube of the largest spectrum value. The column pk_gamma3_tree stored by run_terms_spectrum_2loop is within this bound plus 6/(2 pi)^6 times the cubature error of that loop integral.", "quantifier": "every physical spectrum of at least two samples, pair of fields, wavevector of modulus at least four times the guard threshold, integration range from at least that value, thread schedule, list of modes, and cubature error", "why_tests_cant": "A test compares one Monte-Carlo value, noisy at the requested accuracy, with a reference table; it cannot show that the restriction to half of the space with the factor two, the missing azimuth, the logarithmic variables and the guard in the kernel together give the full six-dimensional integral for every spectrum and direction of k.", "anchors": ["src/calc_pkcorr_from_gamma3.c:kernel_pk_gamma3_tree", "src/calc_pkcorr_from_gamma3.c:calc_pk_gamma3_tree", "src/kernels.c:F3_sym", "src/spectrum_2loop.c:run_terms_spectrum_2loop"]}
{"id": "C75", "title": "On large scales the corrections to the propagators go like the square of the wavenumber", "statement": "For a mode k below a tenth of the lower end of the loop range, the columns gamma1a_1loop and gamma1b_1loop stored by a two-loop run are -k^2/(2 pi^2) times the quadrature of the integral of P dq times 61/630 for the density and 3/10 for the velocity, up to an explicit error proportional to k^4. The columns gamma1a_2loop and gamma1b_2loop, less half the square of the one-loop column, are -k^2 times a double quadrature of the spectrum that does not depend on k, up to an explicit error proportional to k^4 and a relative error of 10^-16 from the digits of the coded constants.", "quantifier": "every spectrum, settings, pair of fields, thread schedule, list of modes, quadrature size with the Legendre roots found by the search of the code and mode below a tenth of the loop range", "why_tests_cant": "Conservation of mass and momentum fixes the power of k for every spectrum; the two-loop kernel is a fit whose constants must cancel to sixteen digits, and a test at a few modes sees only the tabulated accuracy.", "anchors": ["src/gamma1_1loop.c:kernel_ff", "src/gamma1_1loop.c:kernel_gg", "src/gamma1_2loop.c:alpha", "src/gamma1_2loop.c:delta", "src/spectrum_2loop.c:run_terms_spectrum_2loop"]}
{"id": "C76", "title": "Long-wavelength modes cancel between the damping factor and the loop corrections", "statement": "Change the spectrum only at loop wavenumbers below a tenth of the mode k. The factor 1 + k^2 sigma^2/2 + gamma1_1loop of a propagator, with the dispersion sigma^2 changed by the same quadrature of the change over 6 pi^2, then changes by at most the quadrature of q^3 |Delta P| over 10 pi^2: the contribution of order q |Delta P| k^2 cancels, for the density and for the velocity. In the same way the factor gamma2_tree (1 + k3^2 sigma^2/2) + gamma2_1loop loses its term of order k3^2 q Delta P and keeps only terms of order q^3 and q^5, when the change is below a tenth of the three sides. In the two-loop spectrum the propagator depends on k^2 sigma^2/2 + gamma1_1loop alone, beside the damping.", "quantifier": "every quadrature table, mode, triangle, field and change of the spectrum at wavenumbers below a tenth of the mode or of the sides", "why_tests_cant": "The cancellation relates coefficients of separate files (one-loop kernels, second-order kernels, tree kernel and damping) for every spectrum; a wrong leading coefficient only shows as a loss of accuracy for spectra with power on large scales.", "anchors": ["src/gamma1_1loop.c:kernel_ff", "src/gamma1_1loop.c:kernel_gg", "src/gamma2d_1loop.c:kernel_gamma2d_highk", "src/gamma2t_1loop.c:kernel_gamma2t_highk", "src/calc_pkcorr_from_gamma2.c:gamma2_tree", "src/bispectrum_1loop.c:gamma1_reg_1loop", "src/bispectrum_1loop.c:gamma2_reg_1loop"]}
{"id": "C77", "title": "On large scales the mode-coupling term goes like the fourth power of the wavenumber and the bias spectra vanish", "statement": "The column pk_gamma2_tree_tree stored by a one-loop run at a mode k is at most k^4 times a constant fixed by a bound of the linear spectrum and the loop range, for every pair of fields and every number of nodes; the loop integral obeys the same bound. The bias columns with one second-order kernel (pk_b2d, pk_bs2d, pk_b2t, pk_bs2t) are at most k^2 times such a constant. The columns pk_b22, pk_b2s2 and pk_bs22 become as small as wanted below a wavenumber that does not depend on the numbers of nodes. The column sigma3sq, for given numbers of nodes with at least two angular ones, is at most proportional to small k.", "quantifier": "every increasing table of a linear spectrum, loop range inside the table, pair of fields, number of nodes with the Legendre roots found by the search of the code (exact roots for sigma3sq), thread schedule and list of modes", "why_tests_cant": "The power of k comes from cancellations inside the kernels (conservation of mass and momentum) and from the subtraction of white noise in the bias kernels, for every spectrum; at the modes of a reference file a term that goes to a constant is hidden below the linear spectrum.", "anchors": ["src/calc_pkcorr_from_gamma2.c:gamma2_tree", "src/calc_pkcorr_from_gamma2.c:calc_pk_gamma2_tree", "src/spectrum_bias_1loop.c:kernel_b2", "src/spectrum_bias_1loop.c:kernel_bs2", "src/spectrum_bias_1loop.c:kernel_b22", "src/spectrum_bias_1loop.c:kernel_b2s2", "src/spectrum_bias_1loop.c:kernel_bs22", "src/spectrum_bias_1loop.c:kernel_sigma3sq", "src/calc_pkcorr_from_bias_1loop.c:calc_pk_bias_1loop"]}
{"id": "C78", "title": "Rounding errors of the displacement dispersion, of integer powers and of linear interpolation are bounded", "statement": "Let every addition, subtraction, multiplication, division, literal and constant be rounded with a relative error of at most u. For a table of n ascending modes with non-negative values and requests with ascending cutoffs, each value of calc_running_sigmad2 then differs from 1/(6 pi^2) times the integral of the piecewise linear spectrum up to the rounded cutoff by at most n + 17 roundings, that is a relative error of at most 2 (n + 17) u; in double precision and for up to a million modes this is below 10^-9. power(x, n) of a non-negative x differs from the power by at most n + 1 roundings, and interpol_lin inside its interval by at most 14 u times the larger of the two values, of any sign.", "quantifier": "every rounding function with relative error u up to 1/100 without underflow and overflow, table, cutoff and list of requests with ascending cutoffs; double precision as a concrete instance", "why_tests_cant": "Tests compare with reference values at a few digits and cannot separate rounding from approximation; the running sum over the table has no cancellation for every non-negative spectrum, including steeply falling ones, although the interpolation alone may lose all digits.", "anchors": ["src/common.c:calc_running_sigmad2", "src/common.c:interpol_lin", "src/common.c:power"]}
{"id": "C79", "title": "The root search of the Gauss-Legendre routine ends on every root, in order, within its tolerance", "statement": "For every number of nodes n the Newton search of nodes_weights_gauss_legendre for index i starts at or above the (i+1)-th largest zero of the Legendre polynomial of degree n and below the next larger one, ends after at most five steps, and leaves a number above the zero by at most 1/17 of the tolerance EPS and a derivative that is right to a relative (n+1/2)^2 EPS. So a whole call writes ascending abscissae inside the interval, each within (b-a)/2 EPS/17 of the exact one, and positive weights, each within a relative 2(n+1/2)^2 EPS of the exact one; the sum for an integrand bounded by M with Lipschitz constant L differs from the integral by at most the error of the exact rule plus (b-a)(2(n+1/2)^2 M + L(b-a)/34) EPS; and for continuous integrands the sums of such calls tend to the integral.", "quantifier": "every number of nodes, every index, every interval, every content of the arrays before the call, every integrand of the stated class; exact arithmetic", "why_tests_cant": "The search could loop for ever, land on a neighbouring root twice or divide by a vanishing derivative for some number of nodes; a test tries a few numbers, whereas the starting values are only asymptotic and have to be compared with all zeros of all Legendre polynomials.", "anchors": ["src/common.c:nodes_weights_gauss_legendre"]}
{"id": "C80", "title": "The stored terms are polynomials in the input spectrum", "statement": "When all radial ranges and requested modes lie among the tabulated wavenumbers, adding s times a fixed list to the values of the linear spectrum changes every stored value of Spectrum1Loop, Spectrum2Loop, Bias1Loop, A1Loop and the B terms as a polynomial in s whose degree is at most the power of the spectrum declared for rescale (one for sigma3sq, whose declaration is wrong), and a run that is defined on one spectrum is defined on all of them; the third-order column needs a cubature rule with fixed points and weights. Consequently the linear spectrum, the displacement dispersion and the one-loop propagators of the sum of two spectra are the sums of those of the two, and the mode-coupling term obeys the parallelogram law of a quadratic form.", "quantifier": "every table of increasing positive wavenumbers with at least two entries, every list of the same length (of any signs), every s, every interpolation mode, every settings with ranges inside the table, every list of modes inside the table, every pair of fields, every schedule", "why_tests_cant": "A statement on whole lines of spectra through interpolation, tables, quadratures and loop kernels; a branch that depends on the values of the spectrum, or a stale table, breaks it only for some pairs of spectra.", "anchors": ["src/common.c:find_pk", "src/common.c:interpol_poly", "src/common.c:calc_running_sigmad2", "src/calc_pkcorr_from_gamma1.c:calc_pk_gamma1_2loop", "src/calc_pkcorr_from_gamma2.c:calc_pk_gamma2_tree", "src/calc_pkcorr_from_gamma2.c:calc_pk_gamma2_1loop", "src/calc_pkcorr_from_gamma3.c:calc_pk_gamma3_tree", "src/calc_pkcorr_from_bias_1loop.c:calc_pk_bias_1loop", "src/calc_pkcorr_from_A_1loop.c:calc_pk_A_1loop", "src/calc_pkcorr_from_B.c:calc_pk_B", "src/spectrum_1loop.c:run_terms_spectrum_1loop"]}
{"id": "C81", "title": "Arrays are read as the caller sees them", "statement": "The modes and values that the library reads after set_pk_lin, set_spectrum_lin, find_pk_lin, set_spectra_B or in interpol_poly and interpol_lin are the elements of the arrays handed over, in their order, also when these arrays are slices, columns of a larger array or selections; arrays of different lengths or of another type are refused and leave the library as it was.", "quantifier": "every block of memory, every offset, stride and length, every chain of slices and selections", "why_tests_cant": "Tests pass freshly made arrays; strided ones are accepted without error and give plausible numbers, or memory beyond the array.", "anchors": ["pyregpt/pyregpt.py:PyRegPT.set_spectrum_lin", "pyregpt/pyregpt.py:PyRegPT.set_pk_lin", "pyregpt/pyregpt.py:PyRegPT.find_pk_lin", "pyregpt/pyregpt.py:PyRegPT.interpol_poly", "pyregpt/pyregpt.py:PyRegPT.interpol_lin", "pyregpt/pyregpt.py:Terms.__getitem__", "pyregpt/pyregpt.py:B2Loop.run_terms", "src/regpt.c:set_pk_lin"]}
{"id": "C82", "title": "Selecting modes of an object selects the same modes of every column", "statement": "obj[index] for a range, a mask, a list of positions or a single position is accepted exactly if the index makes sense for the number of modes of the object, and gives an object of the same class with the same columns in which every column consists of its rows at the positions that the index means, the same positions for every column; the spectra assembled from it are those of the whole object at these modes. obj[index] = number changes in every column all entries of the selected rows and nothing else. This holds from set_terms on.", "quantifier": "every object whose columns have one row per mode, every class with its components, every index (integer, slice with any ends and positive step, mask, list of integers, negative positions included), every content", "why_tests_cant": "Columns with one and with several numbers per mode, flat or reshaped, meet indices of four kinds with ends inside and outside; a selection that takes other rows in one column gives arrays of plausible shapes.", "anchors": ["pyregpt/pyregpt.py:Terms.__getitem__", "pyregpt/pyregpt.py:Terms.__setitem__", "pyregpt/pyregpt.py:Terms.zeros", "pyregpt/pyregpt.py:Terms.reshape", "pyregpt/pyregpt.py:A1Loop.set_terms"]}
{"id": "C83", "title": "The arrays handed to the library have the order and the sizes it expects", "statement": "Whatever columns an object had before and in whatever order they were inserted, after zeros(k) iterating over it gives exactly the fields of its class in their order, and tolist() the modes followed by arrays of zeros with (number of modes) x (number of components) entries; reshape() turns the arrays with components into rows such that component c of mode i is entry i w + c of what the library wrote, leaves the order of the numbers and all other columns as they were, and may be repeated. Reading, assigning, testing for, removing and listing columns obey the laws of a dictionary.", "quantifier": "every class with a field k, every earlier content and order of columns, every list of modes, every name", "why_tests_cant": "The C functions take up to eleven bare addresses; one missing, additional or exchanged array is accepted and silently fills another column, depending on the history of the dictionary.", "anchors": ["pyregpt/pyregpt.py:Terms.zeros", "pyregpt/pyregpt.py:Terms.__iter__", "pyregpt/pyregpt.py:Terms.tolist", "pyregpt/pyregpt.py:Terms.reshape", "pyregpt/pyregpt.py:Terms.pop", "pyregpt/pyregpt.py:Terms.as_dict", "pyregpt/pyregpt.py:Terms.__contains__"]}
{"id": "C84", "title": "Operations on all columns act on all of them or on none", "statement": "nan_to_zero replaces in every field the entries that are not numbers by zero and nothing else, rescale multiplies every entry of every column by the scale to twice the power of that column, and assigning to selected modes writes these in every column; an operation that raises leaves the object as it was.", "quantifier": "every object, every scale, every index, every value", "why_tests_cant": "The loops change one column after the other in place; an exception in the middle, for a column that a user added or removed, leaves an object half of which is changed, which a repeated call changes again.", "anchors": ["pyregpt/pyregpt.py:Terms.nan_to_zero", "pyregpt/pyregpt.py:Terms.rescale", "pyregpt/pyregpt.py:Terms.__setitem__"]}
{"id": "C85", "title": "The displacement dispersion and the variance in spheres are those of each component, for every class", "statement": "The square of sigmav is the integral of the spectrum returned by pk_interp over the modes of the object, divided by 6 pi^2; for classes whose spectrum has several components it is that of each component. Likewise sigmar and sigma8 give the variance in spheres of each component.", "quantifier": "every object with strictly increasing modes, every non-negative spectrum, every number of modes and components, every values outside the modes", "why_tests_cant": "sigmav is inherited by all classes; whether it raises, or pairs modes with components, depends on the number of modes.", "anchors": ["pyregpt/pyregpt.py:Terms.sigmav", "pyregpt/pyregpt.py:Terms.pk_interp", "pyregpt/pyregpt.py:A1Loop.pk", "pyregpt/pyregpt.py:B1Loop.pk", "pyregpt/pyregpt.py:Terms.sigmar"]}
{"id": "C86", "title": "The kernels for nearly isosceles triangles are first-order expansions of the exact kernels", "statement": "For k1 > 0, 0 < k3 < 2 k1 and a loop mode q other than k1 and k3, kernel_gamma2d_iso and kernel_gamma2t_iso at k2 are the value of the exact kernel at k2 = k1 plus its derivative in k2 there times k2 - k1.", "quantifier": "every k1, k2, k3, q with k1 = k2 forming a triangle with k3 and q not equal to k1 or k3", "why_tests_cant": "The two functions are not called and each is one expression of seventy lines; an error in one factor of a denominator vanishes when lengths are measured in units of k1, and one in a coefficient of first order vanishes at k1 = k2.", "anchors": ["src/gamma2d_1loop.c:kernel_gamma2d_iso", "src/gamma2t_1loop.c:kernel_gamma2t_iso", "src/gamma2d_1loop.c:kernel_gamma2d_exact", "src/gamma2t_1loop.c:kernel_gamma2t_exact"]}
{"id": "C87", "title": "The table lookup, the dispersion and the one-loop terms approximate those of the spectrum that was sampled", "statement": "If the table holds samples of a spectrum with five derivatives, the polynomial lookup differs from the spectrum by a bound of third order in the largest gap between modes on the whole range of the table and of fifth order two modes away from its ends; the linear lookup (below the last mode) and the running dispersion (ascending request) differ by a bound of second order; as the numbers of nodes grow, the stored second-order and bias columns come within a constant times the third power of the gap of the loop integrals of the spectrum, and Spectrum1Loop.pk within a constant times the square of the gap of the regularised one-loop spectrum, up to the branches of the propagator kernels.", "quantifier": "every five times differentiable spectrum, every table that samples it, every wavenumber in the table, every range inside the table, every schedule", "why_tests_cant": "The error for one spectrum and one table says nothing about the order in the gap or about another spectrum; the loop integrals have no closed form to compare with, and a wrong window of the interpolation still returns plausible numbers.", "anchors": ["src/common.c:find_pk", "src/common.c:interpol_poly", "src/common.c:interpol_lin", "src/common.c:calc_running_sigmad2", "src/calc_pkcorr_from_gamma2.c:calc_pk_gamma2_tree", "src/calc_pkcorr_from_bias_1loop.c:calc_pk_bias_1loop", "pyregpt/pyregpt.py:Spectrum1Loop.pk"]}
{"id": "C88", "title": "Every method of every class finds what it uses", "statement": "Whatever a program did before with an object (giving it a spectrum, selecting modes, copying, deep copying), every method that its class defines or inherits finds the methods, class attributes, attributes of the object and columns that it uses, directly or through the methods it calls. Copies, deep copies and selections of an object can do what the object can do.", "quantifier": "every class offered to users, every defined or inherited method, every history of the object", "why_tests_cant": "A missing attribute shows only when the one method is called on the one class that lacks it; there are some 400 pairs, times the ways an object can be made.", "anchors": ["pyregpt/pyregpt.py:Terms", "pyregpt/pyregpt.py:SpectrumLin", "pyregpt/pyregpt.py:SpectrumNoWiggle", "pyregpt/pyregpt.py:PyRegPT", "pyregpt/pyregpt.py:Bias1Loop", "pyregpt/pyregpt.py:PyRegPT.deepcopy", "pyregpt/pyregpt.py:Terms.__getitem__"]}
{"id": "C89", "title": "Python calls the library as it is declared", "statement": "Every call that the Python classes make names a function of the library and passes arguments of the number and types of its parameters; results are read with their type; counts arrive as given and are the lengths of the arrays passed with them; set_terms passes one array per parameter with the number of modes times the number of components, whatever columns the object had before. Arguments that do not fit are refused.", "quantifier": "every wrapper, every class, every number of modes and threads, every earlier content of the object", "why_tests_cant": "ctypes knows nothing of the prototypes: a wrong type or number of arguments is undefined behaviour that may give right results on one machine.", "anchors": ["pyregpt/pyregpt.py:PyRegPT.find_pk_lin", "pyregpt/pyregpt.py:PyRegPT.interpol_poly", "pyregpt/pyregpt.py:PyRegPT.set_spectrum_lin", "pyregpt/pyregpt.py:Spectrum2Loop.set_terms", "pyregpt/pyregpt.py:B1Loop.run_terms", "src/common.c:find_pk_lin", "src/common.c:interpol_poly", "src/regpt.c:set_pk_lin", "src/spectrum_2loop.c:set_terms_spectrum_2loop", "src/spectrum_B.c:set_spectra_B"]}
{"id": "C90", "title": "Results do not depend on the verbosity", "statement": "Programs that differ only in calls of set_verbosity leave the same arrays, columns, objects and registered spectra, and one completes if the other does. In debugging mode the files written contain the modes and the terms computed; a file that cannot be written does not end the computation. The elapsed time is reported in hours, minutes and seconds.", "quantifier": "every history of calls and every placement of set_verbosity in it; every class, spectrum and number of modes; writable and unwritable directories", "why_tests_cant": "Verbosity is shared by all objects and reset by constructors, so any call may run in any mode after any history; tests run in one mode and in a writable directory.", "anchors": ["src/regpt.c:set_verbosity", "src/regpt.c:print_k", "src/spectrum_1loop.c:run_terms_spectrum_1loop", "src/spectrum_1loop.c:write_terms_spectrum_1loop", "src/spectrum_2loop.c:write_terms_spectrum_2loop", "src/spectrum_B.c:write_spectra_B", "src/spectrum_B.c:run_terms_B", "src/common.c:error_open_file", "src/common.c:timer"]}
{"id": "C91", "title": "At small amplitude the regularised results expand to standard perturbation theory", "statement": "As the growth factor or the amplitude of the linear spectrum tends to zero, the regularised spectra and bispectrum agree with those of standard perturbation theory to the order kept: the linear spectrum and the undamped one-loop terms up to D^6 for Spectrum1Loop.pk, also the two-loop terms up to D^8 for Spectrum2Loop.pk, the terms without damping up to D^8 for the damped bias terms, the tree bispectrum and the one-loop propagators up to the fourth power of the amplitude for the bispectrum of A2Loop. The displacement that sets the damping does not appear.", "quantifier": "every set of terms, every mode, every supplied or computed displacement; every triangle, spectrum, quadrature table and all eight field combinations of the bispectrum", "why_tests_cant": "An asymptotic statement concerns a limit; at any amplitude tested the terms left out are of a size that hides a wrong coefficient in the last order kept.", "anchors": ["pyregpt/pyregpt.py:Spectrum1Loop.pk", "pyregpt/pyregpt.py:Spectrum2Loop.pk", "pyregpt/pyregpt.py:damping_factor", "src/bispectrum_1loop.c:bispectrum_1loop_I", "src/bispectrum_1loop.c:gamma1_reg_1loop", "src/bispectrum_1loop.c:gamma2_reg_1loop"]}
{"id": "C92", "title": "Results do not depend on the unit of length", "statement": "If table, requested modes and ranges of integration are given in a unit of length u times as long (wavenumbers multiplied by u, powers divided by u^3), a run is defined if it was before and every column is the same quantity in the new unit: spectra divided by u^3, displacement variances by u^2, propagators and sigma3sq unchanged, the bispectrum divided by u^6.", "quantifier": "every u > 0, every table with positive wavenumbers, every list of modes, all settings, every schedule; all classes at one loop, the two-loop spectrum for every homogeneous cubature routine, all triangles of the bispectrum", "why_tests_cant": "Tests use the one unit the reference tables are in; a dimensional error in one of some hundred branches of the kernels, or an absolute threshold, shows in another unit only.", "anchors": ["src/gamma2d_1loop.c:gamma2d_1loop", "src/gamma2t_1loop.c:gamma2t_1loop", "src/gamma1_1loop.c:gamma1_1loop", "src/gamma1_2loop.c:gamma1_2loop", "src/kernels.c:F3", "src/common.c:find_pk", "src/common.c:calc_running_sigmad2", "src/common.c:init_gauss_legendre_q", "src/bispectrum_1loop.c:gamma1_reg_1loop", "src/bispectrum_1loop.c:gamma2_reg_1loop"]}
{"id": "C93", "title": "Loop terms depend on the spectrum within the range of integration only", "statement": "Two linear spectra that are looked up to the same values over the range of the radial settings give the same loop terms: two runs with the same settings and requests agree in every column but those of the linear spectrum and of the displacement variance, and in all columns if these agree. Tables that share their entries up to beyond the range, the requests and the cut-off agree in this sense, however they go on.", "quantifier": "every pair of tables with positive increasing wavenumbers, every given range of integration, every list of positive modes, both interpolations, all schedules; the spectrum and A at one and two loops, bias, B; every cubature routine that keeps to the unit cube", "why_tests_cant": "The reference tables extend far beyond every range used, so a lookup outside of it returns a plausible small value; only a pair of tables that differ nowhere else shows it, for one of all possible loop momenta.", "anchors": ["src/calc_pkcorr_from_gamma1.c:calc_pk_gamma1_2loop", "src/calc_pkcorr_from_gamma2.c:calc_pk_gamma2_tree", "src/calc_pkcorr_from_gamma3.c:calc_pk_gamma3_tree", "src/calc_pkcorr_from_A_2loop_II_III.c:kernel_A_tA_2loop_II_III", "src/bispectrum_1loop.c:bispectrum_1loop_II_III", "src/common.c:find_pk", "src/common.c:calc_running_sigmad2"]}
{"id": "C94", "title": "The result at a mode does not depend on the other requested modes", "statement": "If a mode is in two lists of requests, runs on the two lists with the same linear spectrum and settings write the same row for it: every column at its position in the one list equals the column at its position in the other, whatever else is requested, how the modes are shared out over threads and what the arrays held before.", "quantifier": "every table and setting, every pair of lists of modes and every pair of positions with the same mode, all schedules and memories; the spectrum and A at one and two loops, bias, B; every cubature routine", "why_tests_cant": "The reference runs request one ascending list each. A value carried over from the mode before shows only if the same mode is requested in another company, of which there are infinitely many.", "anchors": ["src/common.c:find_pk", "src/common.c:calc_running_sigmad2", "src/spectrum_1loop.c:run_terms_spectrum_1loop", "src/spectrum_2loop.c:run_terms_spectrum_2loop", "src/spectrum_bias_1loop.c:run_terms_bias_1loop", "src/spectrum_A_1loop.c:run_terms_A_1loop", "src/spectrum_A_2loop.c:run_terms_A_2loop", "src/spectrum_B.c:run_terms_B"]}
{"id": "C95", "title": "A run obeys the settings of its own terms and no others", "statement": "A run gives the same result, undefined cases included, for any two settings that agree in the precisions of the terms it computes and in the interpolation and cut-off of its own file (for the two-loop A term also of the bispectrum). Of the settings it changes at most the automatic range of its Monte-Carlo term. Hence any sequence of set_precision and set_running_uvcutoff calls for other calculations succeeds and leaves its result as it was.", "quantifier": "every pair of settings, every sequence of setter calls with any arguments, every spectrum, request, schedule and memory; the spectrum and A at one and two loops, bias, B; every cubature routine", "why_tests_cant": "The settings are file-scope variables, sixteen precisions and seven pairs of interpolation and cut-off, of which tests change a few before one run; that no other one is read is a statement on all combinations of values.", "anchors": ["pyregpt/pyregpt.py:PyRegPT.set_precision", "pyregpt/pyregpt.py:PyRegPT.set_running_uvcutoff", "src/spectrum_1loop.c:run_terms_spectrum_1loop", "src/spectrum_2loop.c:run_terms_spectrum_2loop", "src/spectrum_bias_1loop.c:run_terms_bias_1loop", "src/spectrum_A_1loop.c:run_terms_A_1loop", "src/spectrum_A_2loop.c:run_terms_A_2loop", "src/spectrum_B.c:run_terms_B"]}
{"id": "C96", "title": "Quantities common to several calculations have the same value in each", "statement": "The one-loop propagators and the tree-level mode coupling stored by the two-loop run are those of the one-loop run on the same spectrum, settings and requests; the linear spectrum and the displacement variance stored by any two runs agree, also after the settings were changed for all calculations at once.", "quantifier": "every spectrum, setting and list of requests, all pairs of schedules and memories, every cubature routine; all pairs of the six runs; every cut-off set for all calculations", "why_tests_cant": "Each class is compared with its own reference table, computed with default settings; the two codes for the same term and the separate copies of a setting are never confronted.", "anchors": ["src/calc_pkcorr_from_gamma2.c:calc_pk_gamma2_tree", "src/calc_pkcorr_from_gamma2.c:calc_pk_gamma2_1loop", "src/calc_pkcorr_from_gamma1.c:calc_pk_gamma1_2loop", "src/common.c:calc_running_sigmad2", "src/common.c:find_pk_lin", "pyregpt/pyregpt.py:PyRegPT.set_running_uvcutoff"]}
{"id": "C97", "title": "The lookup keeps signs and tabulated values under rounding", "statement": "Let every operation be rounded by a function that preserves the order and leaves representable numbers unchanged, as double precision does. find_pk with linear interpolation then returns, for ascending requests from the first mode up to but excluding the last, a non-negative value whenever the table is non-negative, exactly the tabulated value at a tabulated mode, and a value that does not lie on the wrong side of the one tabulated below the request. With polynomial interpolation it returns exactly the tabulated values at all tabulated modes, the last one included. A single request with linear interpolation, below, inside or above the table, of a non-negative spectrum at positive modes gives a non-negative value, the last mode of the table excepted.", "quantifier": "every such rounding function, every ascending table of representable values whose neighbouring modes differ after rounding, every ascending list of requests; double precision (53 bits, no underflow or overflow) as a concrete instance without the condition on the modes", "why_tests_cant": "Rounding is not visible in comparisons at a few digits; a single value of the wrong sign among all spectra and requests would break the positivity of the loop terms and the logarithms taken of the spectrum.", "anchors": ["src/common.c:find_pk", "src/common.c:interpol_lin", "src/common.c:interpol_poly", "src/common.c:get_dichotomy_index"]}
{"id": "C98", "title": "The modulus of k-q is the root of a non-negative number under rounding", "statement": "The integration over angles takes the square root of 1 + x*x - 2*mu*x. Evaluated in double precision in the order of the code, this argument is never negative: for every double x >= 0 and every mu <= 1, and for all angles that set_mu_range and update_gauss_legendre_mu produce themselves under rounding. In the rules restricted to half of the plane this holds for every range, in the rules over the full range when the reference nodes stay at least 2^-20 below one; there the angles do not exceed one either.", "quantifier": "every double x within the range of the integration, every list of x, every reference rule with nodes in [-1,1] (full range: at most 1-2^-20); double precision with 53 bits, no underflow or overflow, no fused operations", "why_tests_cant": "The argument vanishes for x = mu = 1, and a rounding error of either sign there gives NaN in one angle of one mode; whether that happens depends on the last bits of the nodes and of x.", "anchors": ["src/calc_pkcorr_from_gamma2.c:set_mu_range", "src/calc_pkcorr_from_gamma2.c:kernel_pk_gamma2_1loop", "src/calc_pkcorr_from_gamma2.c:kernel_pk_gamma2_tree", "src/calc_pkcorr_from_bias_1loop.c:set_mu_range", "src/calc_pkcorr_from_A_2loop_I.c:set_mu_range", "src/common.c:update_gauss_legendre_mu"]}
