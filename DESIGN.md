# Design

Target: pyregpt (C library in `/repo/src`, ctypes wrapper `/repo/pyregpt/pyregpt.py`).
Properties: `properties.jsonl`.  Model and proofs: `lean/Verif`.  Status per property: `MANIFEST.json`.

## Trusted base

* Lean 4.33 kernel, and Mathlib definitions for the notions used in statements (`ℝ`, `Real.log`, `Real.sqrt`,
  interval integral, `Polynomial`, ...).
* Axioms: every theorem depends on a subset of `propext`, `Classical.choice`, `Quot.sound`.  No own axioms, no
  `sorry`, no `native_decide`, no `bv_decide`.
* The transcription from C/Python to Lean, which is by hand (function by function, each definition cites file and
  lines).  It is not checked mechanically; mutation testing (`seeded/LOG.jsonl`) checks that the theorems are
  sensitive to it.  In the log `claim` is the property a change was aimed at and `failed` lists the first declarations
  that no longer compile; these may be lemmas the property rests on or theorems of another property.  The changes
  s024, s068, s088 and s101 passed the modules of the property they were aimed at and were noticed only by those of
  another one (C85, C26, C91 and the lemma `bi_growth` behind the growth scalings).
  An empty `failed` list marks a change that the modules built for it did not notice.  The last two of these, u006
  and u008, are open gaps of C90: no theorem fixes the columns of `debug_spectra_B.dat`, nor which terms
  `run_spectrum_1loop` writes in debugging mode.

### What is modelled

* `src/common.c` completely (apart from `printf`), `src/kernels.c`, the integrands and angular ranges of every
  `calc_pkcorr_from_*.c`, `gamma1_1loop.c`, `gamma1_2loop.c`, `gamma2d_1loop.c` / `gamma2t_1loop.c`,
  `bispectrum_1loop.c`, the term drivers `spectrum_*.c`, the setters of `regpt.c`, and `pyregpt.py` (set-up calls,
  dispatch, containers, assembly formulas).
* Arrays are lists with checked access.  An access out of bounds, a read of a freed/missing array and an unsigned
  wrap that is then used as an index are a distinct outcome `Res.ub`; `size_t` subtraction is modulo 2^64.
* Loops that need not terminate in C (Newton iteration, recursion) take fuel, or their exit is a hypothesis.

### What is not modelled

* Floating point.  Numeric code is written over an arbitrary type `α` with *lawless* operations (`class Histo`).
  Theorems on indices, memory, schedules and state are proved for every `α`, hence also for IEEE doubles with NaN.
  Theorems on values are at `α = ℝ`: they concern the formula that the code evaluates, not rounding.
  C78, C97 and C98 read the same definitions at a type of rounded numbers (relative error, no underflow or overflow, no fused operations).
* The Monte-Carlo / cubature library (`src/cuba`): an opaque function of the integrand.
* The OpenMP runtime: a parallel loop is an arbitrary assignment and order of iterations over threads with private
  state; races inside one C statement are discussed only where shared variables are written.
* I/O (modelled: which files are written and what they contain, C90), `malloc` failure, ctypes marshalling (modelled: position, types and tests of arguments, C81 and C89), NumPy
  beyond the operations used.
* Commented-out code.

## Layout

* `Verif/Model/*` – transcription. `Verif/Spec/*` – small specifications that do not use model helpers.
* `Verif/Proofs/*` – lemmas. `Verif/Props/*` – one theorem group per property (`Cxx_...`), each with `example`s showing
  that its hypotheses are satisfiable on a non-trivial case. `_partial` marks a theorem weaker than the property.
* Where the code contradicts the property, the negation is proved on a concrete witness (`Cxx_..._violation`) and a
  `_partial` theorem gives the precondition under which it does hold.

## Plan per property

| id | modelled | how |
|---|---|---|
| C01 | `power`, `powers` with buffer | loop invariant; `= x^n`; buffer contents; overflow witness for n<2 |
| C02 | `get_dichotomy_index` | well-founded recursion; range for every comparator; bracket on sorted tables over a linear order |
| C03 | `interpol_poly` with wrapping index, checked reads | invariant on `ixclose` (wrapped value only if remaining path reads `c[ix+1]`), any `α` |
| C04 | same, at ℝ | Neville tableau invariant, telescoping path = value of the Lagrange interpolant |
| C05 | `interpol_lin` | field algebra, convexity |
| C06 | `find_pk`, both extrapolations, checked reads | any `α`; violation: last node in `lin` mode reads cell nk |
| C07 | same | prefix induction for ascending k; violation for a descending request |
| C08 | same at ℝ | via C04/C05 and window arithmetic |
| C09, C10 | extrapolations at ℝ | telescoping of log ratios; limits; violation of continuity at the low end (anchor is mode 1) |
| C11, C12 | `calc_running_sigmad2` at ℝ | streaming invariant; `intervalIntegral` of the piecewise linear function; violation for descending k |
| C13 | `nodes_weights_gauss_legendre` with abstract root finder | loop invariants on written cells, mirror, affine map |
| C14 | recurrence, Newton step at ℝ | Legendre three-term recurrence, derivative identity; exactness by orthogonality |
| C15 | `update_gauss_legendre_mu/_q` state | history induction |
| C16 | the five `set_mu_range` | order reasoning at ℝ |
| C17, C18 | `F2_*`, `F3`, `F3_sym`, `sigmaab` | field algebra, incl. guarded degenerate cases; independent SPT recursion as spec |
| C19 | `LFunc`, `WFunc`, `small_beta`, `big_beta` | positivity of Heron-type polynomial |
| C20 | `betafunc` | `log` series of Mathlib and remainder |
| C21 | `kernel_ff`, `kernel_gg` | `log` series remainder |
| C22 | `beta` of two-loop propagator | same; violation for the velocity branch (sign of the cubic term) |
| C23 | `beta`, `alpha`, `cc`, `dd`, `delta` | algebra |
| C24 | `gamma2d/t` kernels and dispatcher | `ring` per branch; violation for dispatcher |
| C25 | term drivers, `pk` | algebra |
| C26 | B, A, bias, gamma2 integrands | polynomial identities in x,y |
| C27–C29 | `bispectrum_1loop.c` | algebra, case split on guards; violations (thresholds; unused early exit) |
| C30 | gamma2/gamma3 tree terms, `pk` | positivity, Cauchy–Schwarz for finite sums; violation for `poly` interpolation |
| C31 | drivers through `find_pk`, sigmad2, quadrature | homogeneity lemma per function; violations for `sigma3sq` and for the damped `A2Loop`, `B2Loop` (an exponential times a polynomial in the factor is no power) |
| C32, C33 | `rescale`, `pk`, C assembly | algebra |
| C34 | `pk_interp` and column sums | table of exponents; violation: B ignores left/right |
| C35 | `set_precision`, `set_interpol` | decision table and invariant over histories |
| C36, C37 | Python dispatch over named settings | refinement to "set of touched settings"; violations |
| C38 | range initialisation of quadrature and Monte-Carlo terms | history semantics; violation for gamma3 and A II/III |
| C39, C40, C41, C42 | library globals + Python objects as state machine | invariants over histories; violations |
| C43, C44 | drivers as fold over arbitrary schedule with thread-private scratch | refinement to pointwise map |
| C45 | field tables vs C parameter order | finite tables |
| C46–C48 | heap model of arrays, containers | heap reasoning; violations of padding |
| C49 | percent formula | integer arithmetic; violation nk=19 |
| C50, C51 | closed formulas | real analysis; violation `set_terms` |
| C52 | gamma3 integrand | vector algebra |
| C53, C54 | A one-loop kernels | algebra, integrals, log series |
| C55 | allocation traces | trace semantics: every run balanced |
| C56 | `print_k`, lookups on missing table | violations with witness, preconditions |
| C57, C58 | projection kernels of A and B | azimuthal average computed in closed form, polynomial identities |
| C59 | whole runs | definedness of every step from lengths of the tables, lifted through arbitrary schedules |
| C60 | bias integrands | vector specification, algebra, elementary integrals |
| C61 | allocation traces with assignments to statics | ownership of variables by threads; violation for `init_B` |
| C62 | whole runs with linear interpolation | every wavenumber met by the integrals lies between the first and last node, below the last tabulated mode |
| C63 | `bispectrum_1loop_II_III` over loop momenta | standard one-loop integrands in Euclidean space, changes of variable between the three internal momenta, ties have measure zero; convergence for every table from a bound on the third-order kernel near its removable directions |
| C64 | Monte-Carlo integrand of the two-loop A term | coordinates described separately, integrand compared with the assembly of the quadrature part; spherical change of variables gives the loop integral for every table; violation for the region |
| C65 | kernels of `gamma1_1loop` against the third-order kernel | angular integral in closed form, then spherical coordinates, a reflection and Fubini for the loop integral in Euclidean space; also against the coded `F3_sym` |
| C66 | the double rules of `calc_pk_gamma2_tree` and `calc_pk_bias_1loop` against loop integrals in space | one expression with two functionals: with the rules it is the stored column, with integrals it is the loop integral (shells, a reflection, Fubini, cosine and logarithm as variables, exchange of `q` and `k-q`) |
| C67 | `nodes_weights_gauss_legendre` applied to arbitrary integrands | positivity and exactness of the weights give the distance bound; Weierstrass, Taylor and a bump function give limit, rate and extreme nodes |
| C68 | the same double rules as their numbers of nodes grow | angular error uniform over the compact set of radii and extreme nodes, uniform continuity in the extreme nodes, radial rule; continuity of the interpolated spectrum inside the table; limit identified by C66 |
| C69 | the six expressions of the second-order loop kernels, each against the exact one | exact kernel as rational part plus six logarithms; each logarithm replaced by its truncated series with a bounded remainder; the rest is a polynomial identity whose remainder is written out and bounded |
| C70 | `sigmar`, `sigma8`, `sigmav` of the containers | wave averaged over shells down to radius zero gives the window; trapezoid rule for continuous integrands by uniform continuity; sum over modes in spherical coordinates |
| C71 | `run_terms_B` and `pk_interp` of `B1Loop`/`B2Loop` | line-of-sight component replaced by its average over the azimuth inside the shell integral; columns as plane integrals (C57, C66); convergence of the double rule (C67) |
| C72 | `run_terms_A_1loop` and `pk_interp` of `A1Loop` | integrand affine in the spectrum at `k-p`, so that the rest is integrated over the angle in closed form; the closed form compared with the branches of `kernel_a`; azimuthal average, columns as plane integrals and convergence as in C71; radial rule used at every node once the last node is close enough to the end |
| C73 | `run_terms_spectrum_1loop` and `Spectrum1Loop.pk` | propagator rule compared with the rule for the closed form of the kernel, whose branches agree with it within 1/500000, and convergence of the Gauss–Legendre rule in log q; loop integral from C65, second-order term from C68; continuity of the assembled expression in its three integrals |
| C74 | Monte-Carlo integrand of the third-order term, `run_terms_spectrum_2loop` | spherical change of variables for both wavevectors, the azimuth of the second one integrated out by rotations about `k`; half space by the exchange of the second and the remaining wavevector; guard of the kernel bounded by the volume where two wavevectors nearly cancel times a bound of the kernels there |
| C75 | `gamma1_1loop`, `gamma1_2loop`, columns of `run_terms_spectrum_2loop` | explicit bounds of the branches above `10 k` and of each term of the fit at high wavenumber; sums over nodes |
| C76 | `gamma1_1loop`, `gamma2d_1loop`, `gamma2t_1loop`, `gamma1_reg_1loop`, `gamma2_reg_1loop`, `Spectrum2Loop.pk` | series of the logarithm in the one-loop kernels; leading coefficient of the `highk` expressions against the tree kernel; sums over nodes |
| C77 | `gamma2_tree`, `calc_pk_gamma2_tree`, the bias kernels, `calc_pk_bias_1loop` | second-order kernel on a triangle; a bound of the integrand bounds the double rule; exact angular rule for the third-order term; uniform continuity of the interpolated spectrum |
| C78 | `calc_running_sigmad2`, `interpol_lin`, `power` | the generic model at a type of rounded numbers (`Model/Rounded.lean`); number of roundings as a two-sided bound; induction over the table and the requests; 53-bit rounding as instance |
| C79 | `nodes_weights_gauss_legendre`, with its searches (`Model/NodesCall.lean`) | Sturm comparison of `sqrt(sin t) P_n(cos t)` with sines places the zeros against the starting cosines; a bound of `P''/P'` above the zero gives quadratic convergence from above, so five steps; weights from the derivative of `(1-x²)P'²` |
| C80 | whole runs on the spectra `p + s d` | families of executions indexed by `s`: all undefined, or all defined with values in polynomials of bounded degree; branches see only the wavenumbers as long as no lookup leaves the table (`C80_outside`: beyond it the claim fails); parallelogram law from homogeneity (C31) on two crossing lines |
| C81 | `set_spectrum_lin`, `set_pk_lin`, `find_pk_lin`, `interpol_poly`, `interpol_lin`, `Terms.__getitem__` (`Model/Views.lean`) | arrays as offset, stride and length in a block; C reads with step one; a layout is read correctly for all contents exactly if the stride is one or there is at most one element; witnesses for `[::2]`, `[::-1]`, columns of a table and `B2Loop` |
| C82 | `Terms.__getitem__`, `__setitem__`, `set_terms` of the classes (`Model/Container.lean`) | positions of an index on an axis against a specification of what the index means; the same positions for all columns; assembled spectra at the selected modes; witness on the flat column of `A1Loop` |
| C83 | `zeros`, `__iter__`, `tolist`, `reshape`, `pop`, `as_dict`, `__contains__` | dictionary as association list; loop over the fields; rows as successive pieces of the flat array |
| C84 | `nan_to_zero`, `rescale`, `__setitem__` as loops that may raise | a loop over distinct columns without exception is a map; witnesses of half-done loops |
| C85 | `sigmav`, `sigmar`, `pk_interp`, SciPy `trapz` along the last axis with broadcasting | the trapezoidal rule is the integral of the straight lines of `np.interp`; shapes that do not fit; five modes against five components |
| C86 | `kernel_gamma2d_iso`, `kernel_gamma2t_iso` (never called) | exact kernels as linear forms in logarithms; derivative of every coefficient in `k2`, written by `tools/gamma2iso.py` and checked; logarithms differentiated |
| C87 | `find_pk`, `calc_running_sigmad2`, the one-loop runs, `Spectrum1Loop.pk` | remainder of interpolation by a chain of Rolle's theorem; window of the lookup; integrals stable under a change of the spectrum; added to the limits of C68 and C73 |
| C88 | class bodies, attribute lookup, constructors and copies (`Model/Attributes.lean`, written by `tools/attrs.py`; `Model/Resolve.lean`) | what a method asks for, as a relation on names; a set of names that is there and asks for nothing outside, checked by computation; attributes of an object only grow; chains to missing names |
| C89 | the calls of the library and the conversions of ctypes (`Model/Foreign.lean`) | prototypes and calls side by side; conversion of lists; `C83_arguments` for the arrays of `set_terms` |
| C90 | the C state, the objects and the files of debugging mode (`Model/Library.lean`, `Model/Debug.lean`) | two worlds that differ in verbosity and output only stay so under every event; reads of `print_k` as the only difference; files as columns |
| C91 | `Spectrum1Loop.pk`, `Spectrum2Loop.pk`, `damping_factor`, `bispectrum_1loop_I` | polynomial times exponential, expanded with a remainder of the next order; homogeneity of every ingredient in the spectrum; bispectrum as a sum over the legs |
| C92 | all runs at one loop, `run_terms_spectrum_2loop`, `bispectrum_1loop_I` | table of dimensions of the columns; degree of every expression of the kernels found by a tactic; a change of unit as multiplied wavenumbers followed by multiplied powers (C31) |
| C93 | all runs at one loop, `run_terms_spectrum_2loop`, `kernel_A_tA_2loop_II_III` | every lookup of an integrand is at a node within the range; lookups with two entries to spare see the shared entries only; running sums below the cut-off; two runs compared column by column |
| C94 | all runs of terms, `find_pk`, `calc_running_sigmad2` | every column as the value at its mode (C45), compared between two lists of requests; the lookup and the running sum for ascending requests by C07 and C11 |
| C95 | all runs of terms, the setters called from Python | list of the settings of each run; equality of runs by rewriting; effect of a setter call by C36, induction over calls. The lists show that the two-loop A term reads the precisions of the propagators, which its composite name `A_2loop_q` does not reach, and takes interpolation and cut-off of its loop columns from `bispectrum_1loop` (`C95_A_two_loop_rows`) |
| C96 | all runs of terms, `set_running_uvcutoff` | columns of C45 of two runs on the same spectrum and requests compared; the settings after the call by C36 |
| C97 | `find_pk`, `interpol_lin`, `interpol_poly`, `get_dichotomy_index` | the generic definitions read at rounded numbers (`Fl r`) with an order-preserving rounding; the bisection does not see the rounding, `interpol_lin` by monotonicity, `interpol_poly` because at a node all corrections of the tableau used are exactly zero; outside the table the sign follows from the power law (`C97_nonneg`); `C97_upper_end` shows that the upper end of an interval is not reproduced |
| C98 | `set_mu_range`, `update_gauss_legendre_mu`, the kernels over angles | `kqArg` read at doubles (`Fl dbl`); near x = mu = 1 by the spacing of doubles, elsewhere by the size of the argument; the full-range rules need reference nodes at most 1 - 2^-20, which a Gauss-Legendre rule satisfies up to well above a thousand nodes (not proved here) |

Not expressible: nothing is ruled out a priori; rounding error, convergence of the Monte-Carlo integrals and
wall-clock behaviour are outside every statement above.

## Disagreements between code and property

Each entry names the property, what the code does instead, and the witness theorem. Where the code satisfies part of the
property, that part is proved beside the witness.

- C06 `C06_findPk_lin_violation`, `C06_single_mode_violation`, `C06_run_lin_violation`: in `lin` mode a request equal to the last tabulated mode reads
  one cell past the end of the table (`src/common.c`, `find_pk`); a table of one mode is read out of bounds as well.
- C07 `C07_findPk_order_violation`, `C07_findPk_order_violation_poly`: the lookup keeps its bracket between requests, so an
  unordered request is answered from the wrong interval.
- C10 `C10_lowk_violation`: the low-k extrapolation is anchored at the second mode, so it does not join the table.
- C11 `C11_sigmad2_order_violation`: the running variance accumulates over requests in the order given, so unordered requests
  get the value of an earlier bracket.
- C22 `C22_theta_near_violation`: the cubic coefficient of the velocity two-loop expansion has the wrong sign.
- C24 `C24_kernel_violation`, `C24_gamma2_violation`: two branch tests of the second-order loop kernel single out the first
  leg, so the value changes when the two incoming momenta are exchanged.
- C26 `C26_gamma2_loop_violation`: `calc_pk_gamma2_1loop` integrates that kernel over the half plane and doubles, although the density
  is not symmetric; the tree-tree density, and all densities of the other runs, are (`C26_run_*`).
- C30 `C30_one_loop_violation`, `C30_gamma2_tree_violation`: with the default `poly` interpolation a non-negative
  table is looked up with negative values between and beyond its modes, so the one-loop power can come out negative
  and the quadratic form behind it is not positive; with `lin` interpolation of all tables and positive weights the
  positivity theorems hold (`C30_*_partial`).
- C31 `C31_sigma3sq_violation`: `Bias1Loop.SCALE` declares `sigma3sq` of second order in the linear spectrum; the integral is of first
  order, so a run on the multiplied spectrum differs from `rescale` of a run by one power of the factor squared. All other columns of
  the one-loop, two-loop, bias, A and B runs agree (`C31_one_loop`, `C31_two_loop`, `C31_bias_partial`, `C31_A_one_loop`,
  `C31_B_one_loop`); the two-loop statement is for a cubature without absolute tolerance, the code passes `EPSABS` 1e-12.
- C31 `C31_B_two_loop_violation`, `C31_A_two_loop_violation`: `A2Loop` and `B2Loop` inherit the second order of `A1Loop`, `B1Loop`, but
  their integrands carry the damping `exp(-k^2 sigmad2)`, so the terms are no power of the spectrum: for some factor a run on the
  multiplied spectrum is not `rescale` of a run. For B the run on the multiplied spectrum is the run with the one-loop spectra at that
  growth factor (`C31_B_two_loop_partial`).
- C32 `C32_sigma3sq_violation`: `rescale` multiplies `sigma3sq` by the fourth power of the factor although it is linear in the
  spectrum, so `pk_sigma3sq` is rescaled by the sixth power instead of the fourth.
- C28 `C28_threshold_violation`: `gamma1_reg_1loop` regularises the leg `p` from 1e-2 on but the leg `|k-p|` only from 3e-2 on,
  so exchanging the legs changes the bispectrum when one lies in between.
- C29 `C29_I_violation`: `bispectrum_1loop_I` writes zeros when the exponent exceeds 100 but does not return; the outputs are
  overwritten with the (tiny, non-zero) damped values.
- C34 `C34_left_A_violation`, `C34_left_B_violation`: `A.pk_interp` passes `left`/`right` to the interpolation of each column
  before the columns are weighted and summed, so the value below the range is a combination of the bias powers, not `left`; `B.pk_interp`
  ignores both arguments.
- C49 `C49_percent_violation`: with 19 modes the progress report ends at 180 percent; `C49_percent_partial` gives the mode
  counts for which it stays within 100.
- C50 `C50_set_terms_violation`: `SpectrumNoWiggle` has no `C_TYPE`, so its `set_terms` raises.
- C36 `C36_all_pklin_violation`, `C36_sigmad2_violation`: `set_precision('all_pklin')` fails at a name the library does not
  export, after two members have been set; the cutoff setters of the A terms carry the prefix `set_precision_` and are called
  with four arguments instead of one, and `set_running_uvcutoff` does not find them.
- C37 `C37_clear_violation`: `clear()` leaves the `A_1loop_q`/`A_1loop_mu` precisions, all lookup modes and the cutoffs of the A
  and B terms as they were.
- C38 `C38_stale_violation`: `init_gamma3_tree` and `init_A_2loop_II_III` store the automatic range into the setting; after a run with
  one spectrum a run with another spectrum still integrates over the range of the first.
- C39 `C39_spectrum_violation`, `C39_columns_violation`, `C39_dangling_violation`: the library keeps one set of pointers per
  process. When a second object sets its spectrum (or its terms) between the setting and the run of a first one, the first run
  is computed from the second spectrum (or fills the columns of the second object); when the second object was discarded, the
  run reads freed memory.
- C40 `C40_construction_violation`, `C40_B2_violation`: every constructor, `copy`, `deepcopy`, `clear` and `B2Loop.run_terms` ends with
  the verbosity at `info`, so later calls print after `set_verbosity('quiet')`.
- C41 `C41_density_violation`, `C41_unknown_violation`: `set_spectra_B` looks only at `a` when choosing the density-velocity slot, so
  supplying the density-density spectrum replaces the density-velocity one; names other than `delta` and `theta` count as `delta`, so a
  pair with an unknown name replaces it too.
- C42 `C42_second_run_violation`, `C42_use_after_free_violation`: after the one-loop fallback `run_terms_B` frees the arrays but leaves
  `nk`, so a second direct run reads freed arrays. The Python classes always supply both spectra first (`C42_python`).
- C47 `C47_run_violation`: the library still points to the arrays of the original after `deepcopy`, so `run_terms` of the copy
  writes into the original.
- C56 `C56_run_violation`, `C56_lookup_violation`, `C56_set_terms_violation`, `C56_set_pk_lin_violation`: a run or lookup before
  `set_pk_lin` dereferences a missing table; setting an empty array while printing is on reads element -1.
- C46 `C46_two_dimensional_violation`: `((0, 0)) * (ndim - 1) + ((pad_start, pad_end))` is a flat tuple, so `np.pad` raises for the A and B
  classes after three columns were padded. `C46_no_upper_violation`, `C46_overwrite_violation`, `C46_broadcast_violation`: with no mode above
  the range the slice `[-0:]` is the whole array, so `pad_k` raises or replaces every mode. `C46_mode_violation`: every other mode name
  raises. `C46_flat_violation`: the flat column of `A1Loop` between `set_terms` and `run_terms` gets one cell per mode.
  `C46_sigmad2_violation`: the variance of the present modes is recomputed with the default cutoff.
- C55 `C55_second_run_violation`: every B run that computes its own spectra leaves the static spectra pointing at released blocks, and a
  further run reads them. `C55_terms_violation`: `run_spectrum_1loop` leaves the static one-loop term arrays pointing at released blocks.
- C61 `C61_B_violation`: every thread of the B run assigns `pk_dt` and `pk_tt` in `init_B`; these statics are not private to the threads,
  so two threads write the same variable without synchronisation.
- C64 `C64_domain_violation`: `set_mu_range` keeps |k-p| inside the integration range in the quadrature part of the two-loop A term;
  the Monte-Carlo part only tests `mu > 0.5/x` and integrates triangles with |k-p| beyond the upper end as well. Measure, damping
  and assembly agree (`C64_integrand_partial`).
- C81 `C81_step_violation`, `C81_reversed_violation`, `C81_table_violation`, `C81_B2_violation`, `C81_interpol_poly_violation`: `ndpointer` is
  used without `flags`, so arrays that are not contiguous are accepted and read with step one: `set_spectrum_lin(spectrum[::2])` uses the
  first half of the modes, `spectrum[::-1]` is read beyond its end, two columns of a table are mixed, and `B2Loop` pairs the spectra
  with other modes than those they were computed at. `set_pk_lin` and `find_pk_lin` copy first and are right for every layout.
- C82 `C82_flat_violation`, `C82_mask_violation`: `A1Loop` reshapes its column `pk` in `run_terms` only (`A2Loop` and the B classes do so in
  `set_terms`). Between `set_terms` and `run_terms` `obj[:m]` keeps `m` single numbers of the first modes, and a mask with one entry per
  mode is refused.
- C84 `C84_rescale_violation`, `C84_nan_violation`, `C84_assign_violation`: the loops change column after column in place and stop at the
  exception: `rescale` of an object with a further column has rescaled the earlier ones, `nan_to_zero` with a field missing has changed
  the fields before it, and an assignment to `A1Loop` before `run_terms` has written all columns but `pk`.
- C85 `C85_shape_violation`, `C85_two_modes_violation`, `C85_components_violation`: `sigmav` integrates along the last axis, which for the A and B classes is that of the
  components. It raises `ValueError` for every number of modes except two and five (nine), and sums over components for these.
  `C85_sphere_shape_violation`, `C85_sphere_components_violation`: `sigmar` and `sigma8` raise for every number of modes except five
  (nine), where they take component `j` with the window of mode `j`.
- C86 `C86_theta_violation`: the denominator `k1[1]*my_pow(...,1.5)` of the density kernel reads `my_pow(k1[1]*(...),1.5)` in
  `kernel_gamma2t_iso` (`src/gamma2t_1loop.c:119-189`), so one term is divided by a further square root of `k1`; the kernel is right for
  `k1 = 1` only. It is not called.
- C88 `C88_missing_violation`: `Terms.zeros` uses `C_TYPE`, which `SpectrumLin` and `SpectrumNoWiggle` do not have; `pk_interp`, `sigmav`,
  `sigmar` and `sigma8` of `Bias1Loop` use `pk`, which it does not have. `C88_selection_violation`: `obj[index]` makes an object without
  `spectrum_lin`, so its `deepcopy` (and for the B classes `run_terms`) raises `AttributeError` although `obj` has a spectrum.
- C89 `C89_find_pk_lin_violation`: the last parameter of `find_pk_lin` is an enumeration (32 bits with the usual compilers) and is passed
  as `size_t`; the value survives where arguments go in registers or are little-endian. `C89_negative_violation`: negative numbers of
  threads are passed as numbers near `2^64`.
- C90 `C90_empty_violation`: reports read the first and last mode, so that a history with an empty array that completes silently has
  undefined behaviour in mode `info`. `C90_exit_violation`, `C90_exit_B_violation`: in mode `debug`, if `debug_*.dat` cannot be created in
  the working directory, `error_open_file` calls `exit(1)`: the Python process ends and the terms, already computed for the spectra, are
  lost. What holds: `C90_same`, `C90_completes_partial` (no empty arrays), `C90_files`, `C90_no_files`, `C90_time`.
- C91 `C91_bispectrum_violation`: below `k = 0.01` the propagators of `bispectrum_1loop_I` are replaced by their tree values while the
  exponential damping of all legs is kept, so that the third order in the amplitude is minus the exponent times the tree bispectrum
  instead of the one-loop term. What holds: `C91_bispectrum_partial` (`k, p >= 0.01`, `|k-p| >= 0.03`), `C91_pk1`, `C91_pk2`, `C91_damped`.
- C92 `C92_bispectrum_violation`: `gamma1_reg_1loop` and `gamma2_reg_1loop` compare wavenumbers with `0.01` and `0.03` whatever their unit:
  in one unit the propagator is returned, in another one. `C92_F3_violation`: `F3` takes sums of wavevectors below `EPS = 3e-14` for zero,
  again in whatever unit. What holds: `C92_one_loop`, `C92_bias`, `C92_A_one_loop`, `C92_B_one_loop` without exception,
  `C92_two_loop_partial` and `C92_bispectrum_partial` where these tests come out the same in both units. The default ranges
  `0.0005 ... 10` are absolute too and have to be set in the unit used.
- C93 `C93_bispectrum_violation`: the Monte-Carlo part of the two-loop A term looks the spectrum up at `|k-p|`, `|p+-q|`, `|k+-q|` and
  `|k-p+-q|` without testing them against the range, so that changing one entry of the table above the range changes the result; the
  quadratures and the Monte-Carlo integral of the two-loop spectrum do test. What holds: `C93_one_loop`, `C93_bias`, `C93_B`,
  `C93_A_one_loop` (spectra that also agree at the requested modes), `C93_two_loop`, and `C93_A_two_loop_partial` for spectra that agree
  from zero up to the largest request plus twice the range, with the same displacement variance below.
- C94 `C94_sigmad2_violation`, `C94_pk_lin_violation`: `calc_running_sigmad2` and `find_pk` carry a position in the table from one request to
  the next, so that for unordered requests the displacement variance and the linear spectrum of a mode depend on the modes before it. With
  default settings a variance is four times the one of the mode alone. What holds: the loop terms of every run in any order
  (`C94_one_loop`, `C94_two_loop`, `C94_bias`, `C94_A_one_loop`, `C94_A_two_loop`, `C94_B`), and the two columns for ascending requests
  (`C94_linear_partial` and the like). This is C07 and C11 seen in the results of a run.
- C96 `C96_cutoff_violation`: `set_running_uvcutoff('all')` does not reach the A and B terms, which keep a copy of the cut-off each. After it
  their column `sigmad2`, and with it the damping, is not the one of the spectrum they are added to: a quarter of it in the witness. What
  holds: `C96_loop_columns` without exception, and `C96_linear_columns_partial` for any two runs whose files have the same interpolation and
  cut-off, as by default.
