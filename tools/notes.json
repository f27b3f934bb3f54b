{
 "C03": "The full claim is false of the code: three proved counterexamples (default distance vs distance=0; no separators in the joined key; particle distributions without param_names). Proved positively: energies are always separated, and requests differing in a single printed field are separated.",
 "C04": "The full claim is false of the code (cached array returned by reference), proved. Proved positively: only writes into the very array object returned matter.",
 "C05": "The full claim is false of the code (stale specic after a cache hit), proved with a history. Proved positively: right on every cache miss and right after computing the same request.",
 "C06": "Sum, names and unknown names proved; the out-of-range check is false of the code at seed = number of seeds and for negative numbers (proved).",
 "C08": "Exact over ideal IEEE numbers (no rounding). PionDecay: both with the lookup table and with the full calculation; PionDecayKelner06 for every quadrature routine that is itself homogeneous.",
 "C09": "Full statement proved for set_We/set_Wp with an explicitly named attribute. With the default name the amplitude Quantity is multiplied in place, so 'only the amplitude of this distribution changes' is false when the same Quantity object is shared by two distributions (proved: C09_false_shared_amplitude); the _partial theorems assume it is not shared.",
 "C100": "Acceptance exactly characterised for all five classes (finite scalar Etrans for PionDecayKelner06); defaults and keyword overriding proved for all. Missing because false of the code, with proofs: Bremsstrahlung n0 and PionDecayKelner06 distribution unchecked, good amplitude hides bad output, keywords unchecked, InverseCompton nEed default differs from the documentation.",
 "C101": "Proved in exact arithmetic; also covers generated bin edges (scale equivariance with groups).",
 "C102": "The recipe is that of docs/radiative.rst and examples/CrabNebula_SynSSC.py. Proved: which field the kernel reads, quadratic scaling, scaling with the source size, sum with other fields, non-negativity. With fewer than two photon energies the recipe is refused (C102_false_one_energy).",
 "C103": "Bounds hold at every finite grid up to the rounding of local indices, a factor (Emax/Emin)^(2e-10).",
 "C104": "The 1 % is the accuracy of the fitting formula (AKP10) and of the quadrature table checked by the kernel.",
 "C105": "The 1 % is the accuracy of the fitting formula (Khangulyan et al. 2014) and of the quadrature table checked by the kernel. Isotropic thermal fields; monochromatic fields are C75.",
 "C106": "How wide and how fine depends on the source (existence only). The 2 % are the accuracy of the two fitting formulae (C104, C105) and of the table sums.",
 "C107": {
  "note": "False of the code for several upper limits at one energy with different confidence levels (C107_false_ties): the level used is found by position in the table. The statement names the cases in which the natural property fails; those are proved as well.",
  "status": "proved"
 },
 "C108": "The exact value is the integral of the AKP10 emission formula (C70); the accuracy of that approximation against the Bessel-function kernel is not considered. Beyond five critical energies of the most energetic electrons only the any-grid bound holds.",
 "C109": "The log-likelihood is that of `lnprobmodel`, in exact arithmetic, without priors.",
 "C110": {
  "note": "Drawable: at least one measurement, positive energies and bins, no negative flux or error in a measured point, and not all measured points compatible with zero (C80 shows these are refused). matplotlib's rendering is not modelled. The statement names the cases in which the natural property fails; those are proved as well.",
  "status": "proved"
 },
 "C111": "emcee as in C48.",
 "C112": {
  "note": "Figures are modelled by what they show; number formatting and the kernel density are trusted (gaussian_kde is assumed to refuse fewer than two samples and samples that are all equal). Real numbers stand for floats in the choice of the emphasised traces. The statement names the cases in which the natural property fails; those are proved as well.",
  "status": "proved"
 },
 "C113": "Composition of C07 (flux and sed), C08 (scaling with the normalisation), C40 (likelihood) and C109 (the normalisation of a fixed spectrum); C103 for the positivity of the synchrotron spectrum. Exact real arithmetic.",
 "C114": "Sherpa's Parameter (limits, set raising ParameterErr, default limits) is trusted. Not covered: finite non-negative counts of bremsstrahlung, which is false of the code (C18, C93_false_negative: NaN at and negative just below every energy of the electron grid).",
 "C115": "_partial: only runs with labels whose first blob is a Quantity or pair (as every run made by naima), or without blobs and model function; outside it fails (C115_false_*). The corner package is a parameter.",
 "C117": "The documented integral of C117_documented is the limit of the computed spectrum (C93), except at photon energies above the lowest electron energy, where the code interpolates across the kinematic limit (C93_false).",
 "C119": "Falsities: runs with gcd(n, 20) = 1 print once; the report lags the chain by one step. Exact arithmetic: where 20 i mod n is exactly 1 the two sides of the comparison are equal reals, and in floating point it may go either way.",
 "C12": "Proved for array requests of Synchrotron, InverseCompton, Bremsstrahlung and PionDecay. 'Requested alone' as a bare scalar raises for InverseCompton and PionDecay (proved), and PionDecayKelner06 depends on the other energies of the request (proved) unless all lie on one side of Etrans.",
 "C123": "C123_one_electron bounds the kernel of one electron; C123_average ties the spec to C105; C123_total_power is the claim",
 "C124": "C124_one_electron bounds the kernel of one electron; C124_average and C124_cmb tie the spec to known results; C124_total_number is the claim",
 "C125": "the claim as stated is false (C125_false_order); what is proved is the exact effect of the reversal, C125_descending_partial and C125_reverse",
 "C126": "the table is refined after the electron grid; the rule's fixed threshold 1e-10 on local indices leaves the stated factor; C126_tables_exist shows that such tables exist for every field and mesh",
 "C127": "numpy's default print options (threshold 1000, edgeitems 3) are modelled, the format of one number is a parameter. C127_false_*: stale answers for long tables. _partial: the request after the exchange is answered afresh when the text differs; C127_short_tables: up to 1000 rows every density is in the text (up to the printed precision).",
 "C128": "C128_scattered/_radiated: one electron; C128_total_*: all electrons, limit of the grid; C128_field_*: one electron in a continuous field (limit of tables by C126).",
 "C129": "False of the code: the key holds tobytes() of the energies, not their shape. C129_false_other_shape: the result of the first shape is returned; C129_false_scalar: a bare energy, which raises in InverseCompton, returns the array of an earlier request; C129_false_column: sed of a column is silently an n x n matrix. C129_one_shape_partial: histories that ask for the same energies in one shape only (all one-dimensional arrays, C129_one_dimensional) are right, with the key of the code in place of the assumption of C94.",
 "C13": "The matching holds whenever the two calculations at Etrans are positive numbers. For protons that end below Etrans the factor is 0/0 and the spectrum is NaN at all energies below Etrans (C13_false_no_tail, proved with the exact integral).",
 "C130": "True of flux (C130_flux). False of sed (C130_false_sed), which hands the distance to flux by position: the key then holds its repr, with as many digits as numpy prints (8, or numpy.set_printoptions(precision=...)), so that distances printed alike share one result. C130_sed_partial: each SED is that for a distance asked for in the history, in the same unit, within 10^-p of the unit or two parts in 10^p; C130_sed_value_partial: with the default digits all numbers are wrong by one factor within 3e-4 of 1, and within 5e-8 from one unit of distance on. InverseCompton is not affected: its flux passes the distance on by keyword.",
 "C131": "C131_sample: each recorded sample of a walker has non-zero probability or is the position the walker started from, and the recorded log-probability is that of the position; C131_no_return: a walker once allowed stays allowed; C131_ml: find_ML returns an allowed position if any walker ever reached one, whatever the start. C131_box: the sum of uniform_prior terms of the documentation is such a prior. C131_prior_partial and C131_table_partial need the walkers to start inside; the walkers get_sampler makes are scattered by 10 % around p0 without regard to the prior, and C131_false_start shows a run of any length all of whose samples, and results, are forbidden although p0 is allowed. The acceptance rule of emcee (accept iff factor + new - old > log u, NaN log-probability raises) is trusted.",
 "C132": "C132_same_program: with exact operations this is the model of trapz_loglog used elsewhere. C132_bin: relative error of a bin at most 27 u (1+|b|)(1+L)(1+1/L)(1+1/|b+1|), b the index and L the logarithmic width; C132_bin_any_index: for every index, also within 1e-10 of -1 where the code changes formula; C132_integral: the whole integral, added in any order (numpy adds pairwise); C132_double: the numbers for double precision. C132_bin_log: within 5e-11 of index -1 the other formula is taken and is right to 1e-10; C132_power_law, C132_energy_content: the integral of a power law and the energy content of power-law particles from samples with errors of 5e-14, on any grid, to 1.1e-8, index -1 (alpha = 2) included. C132_sharp: near index -1 the loss is real: at -1 + 2e-10 and samples one per cent apart a single rounding error of 2^-53 makes 5e-5. Overflow, underflow and the rounding of the samples themselves are not covered.",
 "C133": "C133_synchrotron, C133_inverse_compton, C133_pion, C133_compute_We, C133_compute_Wp: relative change at most (1+eps)(hi/lo)^(2e-10)-1, C133_allowed: which is at most eps + 1e-8; C84_tolerance_needed: the second term cannot be dropped. C133_power_law, C133_exponential_cutoff_power_law, C133_broken_power_law, C133_exponential_cutoff_broken_power_law, C133_log_parabola: the distributions. C133_synchrotron_parameters: magnetic field and distribution changed together. C133_likelihood: the log-likelihood; C133_fit: synchrotron with a power law, all parameters at once.",
 "C134": "C134_model: the value at every energy and the blob, from the fluxes the components return; Leaves: what is known of the transmission (above 100 TeV it is the constant of C26_false_above). C134_electrons: the electron distribution. C134_normalisation, C134_absorption, C134_errors.",
 "C135": "C135_prior: the prior of the example. C135_within: log-probability and blobs from the fluxes the components return and gaussLnL. C135_electrons: the electron distribution. C135_upper_limits: tables with upper limits of one confidence level. C135_outside, C135_errors. C135_zero_field: NaN at the boundary the prior admits (consequence of C14_false_zero_field).",
 "C136": "C136_prior: the prior of the example. C136_within: log-probability and blobs. C136_outside, C136_electrons, C136_sed_table.",
 "C137": "C137_components. The total is that of examples/CrabNebula_SynSSC.py with amplitude and field as parameters; the spectra of the single fields are those of a model given that field alone.",
 "C138": "C138_ecpl, C138_lp: the value and blobs, `Told` being the small specification. C138_best: maximum. C138_errors.",
 "C14": "Proved for B > 0. For B = 0 the code computes 0 * nan (proved counterexample).",
 "C15": "Isotropic thermal, monochromatic and spectral kernels proved in full; anisotropic for theta > 0. False of the code at theta = 0 and T = 0, where the kernel is NaN (proved).",
 "C16": "Proved for every accepted form of specification; false of the code: two fields of the same name are merged silently, the angle given for a non-thermal field is ignored, and a negative photon density array is accepted (all proved).",
 "C17": "Linear in n0 and the weighted sum for non-zero weights proved. A zero weight raises UnitConversionError instead (proved).",
 "C18": "Vanishing above the electron energy proved. Non-negativity is false of the code close to the endpoint, at the endpoint (-inf), and for the electron-electron cross sections (NaN at half the electron mass, negative in the non-relativistic form), all proved; the sign is proved where it holds.",
 "C19": "Sign and kinematic limits proved at and above threshold for all four models. Below threshold the code returns NaN rather than zero, and one such grid point makes the whole spectrum NaN (proved).",
 "C20": "Proved for every sequential history over any number of instances. False when two evaluations interleave in threads (proved).",
 "C21": "Proved that the table in use is never a wrong one, and the full selection rule until a missing table has been met. After one missing table useLUT has been switched off for good, which contradicts the claim (proved).",
 "C23": "Continuity and slopes proved; 'value at e_0 is amplitude' is false of the code when e_0 is above the break or, for the cutoff models, always affected by the cutoff (proved counterexample).",
 "C25": "Node values, zero outside, units, row order and error cases proved; positive inside for every spline. False for tables with a negative value, which give NaN in the whole range, and with a negative energy, which the constructor lets through and which make the model NaN from the lowest positive energy on (both proved). The cubic spline is a parameter with the assumption that it passes through its nodes (Spec.CubicSpline), shown satisfiable.",
 "C26": "Proved: closest redshift, transmission 1 below 1 GeV, exp(-tau) at tabulated energies, decreasing in tau, error cases. False of the code, each proved: above 100 TeV tau is log10(6000), so the transmission jumps up for absorbed sources and down for a source at redshift 0; redshifts of 4 and more silently use the last column; scalar energies raise; between nodes spline overshoot can make the transmission exceed 1.",
 "C27": "Exact acceptance condition proved for numbers and scalar Quantities with every domain. False of the code for NaN (always accepted) and for one-element array Quantities, which pass as scalars (proved).",
 "C28": "False of the code: the domain argument of validate_array is never used (proved for every input). Dimension, shape and physical type checks are proved.",
 "C33": "Proved for all supported types except differential number density, which is in the list of differential types but gets a unit of wrong dimensions (proved). ",
 "C35": "Proved for tables with explicit bin widths (same multiset of rows; identical table if energies are distinct). False when the widths are generated, because that happens before sorting (proved).",
 "C36": "Proved up to the confidence level, and in full for cl = 0.9; otherwise validating again resets cl to 0.9 (proved).",
 "C39": "Scaling laws, formula and value proved for two tables of the same kind; a luminosity table with a flux table is accepted and gives a meaningless number (proved).",
 "C41": "Proved for tables in which every row has the same confidence level below 1 and not every row is a violated limit. False of the code otherwise, each proved: the level is looked up at the row whose index is the number of violated limits; IndexError if all rows are violated limits; cl = 1 gives NaN.",
 "C42": "uniform_prior proved. normal_prior is the normal log-density only if sigma is read as the variance (proved iff sigma = 1 otherwise); log_uniform_prior returns 1/v instead of -log v (proved false), its support is right (proved).",
 "C44": "Proved for labels recognised in lower case; false of the code for capitalised log labels and for surplus labels (proved).",
 "C46": "Proved for every objective; 'never worse' for float start vectors and likelihoods that are never NaN.",
 "C47": "Termination, budget, honest status and best-of-all-evaluations proved; false of the code when the objective returns NaN somewhere (fun is NaN) and for integer start vectors (both proved).",
 "C48": "Proved for normal returns; false of the code: exceptions leak the pool, a finished multi-process sampler cannot be run again, zero steps raises UnboundLocalError (all proved).",
 "C52": "Proved for last_step=False and labels that are plain or start with log( / log10(; false of the code for last_step=True (samples of the last walker are used, not of the last step) and for labels containing log( elsewhere (stale or unbound samples); all proved.",
 "C53": "Round trip proved for all runs whose blobs are of fixed kinds (scalar/vector Quantity, float, pair of vectors), at most 100 of them, not all of the same length. False of the code otherwise, each proved: triples lose a member, one-tuples and unsaveable blobs hide all later blobs, units varying between samples are mislabelled, equal-length blobs lose units, >100 blobs and surplus labels are dropped. h5py bytes and astropy table I/O are trusted.",
 "C54": "No-clobber, rejected suffix, other files untouched at every crash point: proved. Crash with clobber=True destroys the old file (proved false); proved instead: an incompletely written file cannot be read back as a run.",
 "C56": "Proved for all event histories in which no fit raises; false of the code otherwise (proved). With auto-update on, the plot is refreshed after a fit unless the model raises at the fitted parameters, in which case auto-update stays off (both proved).",
 "C57": "Bins, points, amplitude, guess, particle distributions, parameter order, units and the luminosities of the four models proved. False of the code: upper edges other than the last are ignored, so bins with gaps are integrated over the gaps; distance 0 raises (proved). Sherpa's own Parameter limits and cache are not modelled. Bremsstrahlung as far as C72.",
 "C58": "Proved for positive, log-labelled and in-range index parameters; false of the code for negative parameters (proved).",
 "C59": "The check rejects only units that are not spectral at all; flux data with a luminosity model passes (proved).",
 "C63": "False of the code for a parameter equal to zero: every walker starts at exactly zero there and no sequence of stretch moves leaves it (proved). Proved positively: number, position, sign and unit-independence of the walkers, spread of non-zero parameters. emcee's stretch move is trusted as described in Model/GetSampler.",
 "C64": "False of the code: the guess overwrites the caller's p0 and short label lists are extended in place (proved). Proved positively: no change without a guess; labels only extended; a second call starts from the same point for a model proportional to its normalisation.",
 "C65": "False of the code for a tuple p0 (TypeError) and an integer array p0 (guess truncated, possibly to zero), both proved. Proved positively: the composition of guess, window and prefit, and the end-to-end statement for lists and float arrays.",
 "C66": "False of the code for (energy, spectrum) pairs whose energies differ between samples, and for arrays of another length (UnboundLocalError), both proved. Proved positively: one row per sample in chain order, same physical values, energies when all pairs agree.",
 "C68": "Symmetry is false of the code (both indices rounded down), proved. Proved positively: coverage bounds for every sample set.",
 "C69": "False of the code: capped at 100 samples, never warns (proved). Proved positively for tail probabilities of at least 1/99.",
 "C71": "Proved for thermal, monochromatic and spectral fields in any units and sums of fields with distinct names. Missing: repeated names (C16_false_duplicate_names) and a thermal field seen under angle 0 (C15_false_zero_angle).",
 "C72": "Proved at all photon energies other than those where the code is -inf or NaN (photon energy equal to an electron energy of the grid; half the electron rest mass for e-e), see C18; and non-zero weights, see C17. False of the code, proved: the electron-electron cross section jumps at half the electron rest energy, for every electron above 2 MeV, because 4 eps is subtracted in A3 where only adding it makes the two branches meet; the formula compared with is the one with that sign.",
 "C77": "Proved for a model of the same kind evaluated at the energies of the table. False of the code, each proved: energies below 1e-8 in the unit used are never compared (np.allclose with its absolute tolerance), so a model with as many points as the table is subtracted position by position although its energies differ; with interpolation a luminosity is subtracted from a flux without error.",
 "C78": "Proved when the median is not zero and strictly between the percentiles, for labels without a logarithm and labels log(name), log10(name). False of the code, each proved: OverflowError if the median is zero or equals the 16th percentile; if it equals the 84th the lower uncertainty is printed as upper one; UnboundLocalError for labels with log( not at the beginning (LaTeX). Number formatting is trusted to round to a nearest decimal; gaussian_kde and drawing are not modelled.",
 "C79": "Proved exactly: which options are used after any history, what the caller's dictionary holds afterwards, the order of the bands. False of the code, each proved: errorbar_opts={'elinewidth': w} in a call without ulim_opts changes the default dictionary of the function, so later calls draw upper limits with that width; the caller's ulim_opts is modified in place; plot_CI sorts the caller's list of levels in place. Independence proved for histories without such a call.",
 "C80": "Proved for tables with non-negative fluxes and limits, at least one row, horizontal bars within positive energies and, if some point is compatible with zero, one that is not. False of the code, each proved: a negative flux or limit, or only points compatible with zero, raise ValueError; an empty table raises UnboundLocalError; the x range of plot_data is that of the last group only, so other groups may be outside.",
 "C81": "Proved: the name of the file is the one PionDecay looks for; for all grids of proton energies above threshold the table loads and returns the cross section of C73 at all pairs of grid energies; a request in ascending order is answered element-wise, another one raises ValueError. Missing: energies between those of the grid. False of the code, each proved: the first proton energy of the default grid is below threshold with the constants of CODATA 2018 (astropy >= 4), so that row of the table is NaN; above the largest photon energy (1 PeV) the value is that at 1 PeV instead of zero, so the spectrum of any distribution is constant there (spline clamping is a hypothesis on scipy).",
 "C84": "Proved for all five quantities with a relative tolerance (Emax/Emin)^(2e-10) - 1 (below 1e-8 for 20 decades); the tolerance is needed (C84_tolerance_needed: slopes within 1e-10 of -1 are integrated with another formula). Not covered: Bremsstrahlung, whose cross section is negative at some energies (C18), and PionDecayKelner06, whose low-energy part is renormalised.",
 "C85": "False as stated on every finite grid: log-log interpolation is not linear (C85_false_exact). Proved: the sum of the spectra never exceeds the spectrum of the sum (relative tolerance (Emax/Emin)^(2e-10) - 1), and as the number of points per decade grows the difference tends to zero (C85_limit_*, inverse Compton on thermal fields).",
 "C86": "Proved, for every subset of failing chain and model drawings: if parameter names are distinct once the logarithm is taken off, flags and labels fit the models and the corner plot does not raise, each figure is in its own file (page, in order) with its flag and label, everything else is as before. False of the code, each proved: `x` and `log10(x)` are saved to the same file; an exception of plot_corner leaves matplotlib non-interactive, with its line width, and the pdf open; pdf=True leaves pdf.fonttype changed; a label string for several models is cut into letters or raises; a short list of flags drops models silently; the caller's list of labels is extended.",
 "C87": "Proved for all formats, options and run_info without matrices or reserved names (which holds for get_sampler and run_sampler, C87_runInfo_good): all entries, success, rows, file effects. False of the code, each proved: with last_step=True the recorded number of samples is the number of steps; a blob whose unit differs between samples is tabulated without conversion. astropy's table writers are trusted.",
 "C88": "Proved: the exact rule for every combination of arguments; the axis contains all bars and e_range and is within a decade of them; for a model alone all points above the lower limit. False of the code, each proved: by default data are not shown if model and table differ in the number of points, although the types match; n_samples=None gives no bands (data only, or the best model); plotresiduals=True with plotdata=False shows no residuals and raises nothing; a model that is zero everywhere raises ValueError without data. matplotlib's automatic limits are a parameter.",
 "C89": {
  "note": "C89_samples, C89_range, C89_bands and C89_bands_range prove the positive statement for every run with drawable spectra. C89_false_hundred and C89_false_sed_none prove that the documented meaning of n_samples (with e_range) and of sed=None does not hold. The statement names the cases in which the natural property fails; those are proved as well.",
  "status": "proved"
 },
 "C90": "Proved for every history: one energy unit in effect and one kind of plot give one unit per axis; a readable label fixes the unit. False of the code, proved: tables in different energy units without e_unit; an SED followed by a differential spectrum. astropy's reading and printing of unit names is a parameter, of which it is assumed that a unit printed for LaTeX has no square brackets and does not parse.",
 "C91": "Proved for all runs: scalar and spectrum blobs, median and span counts, best sample stored or recomputed. False of the code, proved: a median of zero or equal to a percentile raises OverflowError; a scalar Quantity with one data point is taken for a spectrum; a bare array returned without blobs. Histogram drawing itself (bins) is not modelled beyond the number of bins.",
 "C93": "Proved for photon energies below the electron range, where both cross sections are not negative (also proved, with the sign of the electron-electron cross section above 2 MeV). Not so at the lowest electron energy: NaN, proved of the default grid. Photon energies inside the range are missing because it is false there: just below every energy of the grid but the last the spectrum is negative, whatever the (positive) electron spectrum (C93_false_negative; the bin with the logarithmic singularity outweighs all others).",
 "C94": "Proved of sed for every form; of flux for Quantities, tables and dicts, in every history; refusal of everything else. The rest is false of the code: lists of Quantities, error kind of a missing column, single energies in a dict, and sed(table, seed=...), each proved.",
 "C95": "Proved when the window opens, after every redraw in any history, and in every history with automatic updating on and fits that converge, raise or keep their start. The rest is false of the code and each failure is proved: stale curve and ln L after a fit that raises or does not converge with automatic updating off, a fit out of evaluations changes the parameters but not sliders, curve or ln L, luminosity data with e_range.",
 "C96": "Limits that are not positive are refused, with the error given in the theorems (protons: except both negative, where nothing is refused and the energy content is NaN, C96_proton_limits_all). Limits in the wrong order are accepted: contents and spectra become negative and set_We changes the sign of the amplitude (C96_false_reversed_*).",
 "C97": "Same physical input is defined in Spec/Same, independently of the models. Values are finite; errors are equal too.",
 "C98": "Density 0 of a thermal field asks for a black body and is excluded (shown beside the theorem).",
 "C99": "Proved for Synchrotron, InverseCompton, Bremsstrahlung, PionDecay (own caches) and for the spectral models with their default (no caching). False for PionDecayKelner06, whose cache is a class attribute: two objects with distributions that list no parameters return each other's results (C99_false_kelner_*); it holds for shared caches whenever the keys separate the requests (C99_shared_separated_partial). The class tables of PionDecay are the subject of C20."
}