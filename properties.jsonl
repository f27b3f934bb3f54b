{"id": "C01", "title": "Result cache is bounded and consistent", "statement": "Whatever sequence of flux/sed calls (including calls that raise) is made on a memoised model, its cache never holds more than 17 results, holds at most one result per key, and its eviction queue lists exactly the cached keys, oldest first.", "quantifier": "all call histories of any length, all keys, all results, failing and succeeding calls", "why_tests_cant": "the bound and the queue/cache agreement are invariants over unbounded histories", "anchors": ["src/naima/model_utils.py:memoize", "src/naima/radiative.py:BaseElectron.__init__", "src/naima/radiative.py:BaseProton.__init__"]}
{"id": "C02", "title": "Memoised calls return what an uncached call would return", "statement": "Provided the cache key distinguishes requests that have different results, every memoised call in every history returns exactly what recomputing would return, and an exception raised by the computation is never cached.", "quantifier": "all histories, all model functions, all key functions that separate different results", "why_tests_cant": "transparency of a cache depends on every earlier call", "anchors": ["src/naima/model_utils.py:memoize"]}
{"id": "C03", "title": "The cache key separates requests that differ", "statement": "Two flux requests on the same model that differ in photon energies, distance or any model or particle-distribution parameter never share a cache entry.", "quantifier": "all pairs of requests", "why_tests_cant": "needs injectivity of the key over all parameter values; tests only try a few", "anchors": ["src/naima/model_utils.py:memoize"]}
{"id": "C04", "title": "Returned fluxes do not alias the cache", "statement": "Modifying the array returned by flux() in place never changes what later calls return.", "quantifier": "all histories mixing calls and in-place modification by the caller", "why_tests_cant": "aliasing shows only for particular interleavings of calls and writes", "anchors": ["src/naima/model_utils.py:memoize", "src/naima/radiative.py:BaseRadiative.flux"]}
{"id": "C05", "title": "Inverse Compton per-seed flux belongs to the request", "statement": "InverseCompton.flux(E, seed=k) returns the contribution of seed k at exactly the energies, and with exactly the parameters, of that call, whatever was called before.", "quantifier": "all histories of flux calls on one InverseCompton object", "why_tests_cant": "depends on the interleaving of earlier calls with cache hits", "anchors": ["src/naima/radiative.py:InverseCompton.flux", "src/naima/radiative.py:InverseCompton._spectrum", "src/naima/model_utils.py:memoize"]}
{"id": "C06", "title": "Per-seed contributions add up and seed arguments are checked", "statement": "On a freshly computed request the sum over all seeds of flux(E, seed=k) is flux(E); a seed name not in the model raises ValueError, a seed name selects the same contribution as its position, and an out-of-range seed number raises ValueError.", "quantifier": "all seed lists, all seed names and integers", "why_tests_cant": "universal over seed numbers including the boundary equal to the number of seeds", "anchors": ["src/naima/radiative.py:InverseCompton.flux"]}
{"id": "C07", "title": "flux falls as the inverse square of distance; sed is E^2 flux", "statement": "For every radiative model, flux(E, d) = L(E)/(4 pi d^2) for d != 0 and the differential luminosity L(E) for d = 0, sed(E, d) = E^2 flux(E, d), in the documented units, whatever units E and d are given in.", "quantifier": "all energies, distances, units and spectra", "why_tests_cant": "real-valued identity for all inputs and unit choices", "anchors": ["src/naima/radiative.py:BaseRadiative.flux", "src/naima/radiative.py:BaseRadiative.sed"]}
{"id": "C08", "title": "Spectra are homogeneous in the particle normalisation", "statement": "Multiplying the particle distribution by any c > 0 multiplies the Synchrotron, InverseCompton, Bremsstrahlung and PionDecay spectrum, and We/Wp, by exactly c.", "quantifier": "all particle distributions, all c > 0, all photon energies and model parameters", "why_tests_cant": "holds for a non-linear quadrature only because of an algebraic identity in each bin", "anchors": ["src/naima/radiative.py:Synchrotron._spectrum", "src/naima/radiative.py:InverseCompton._calc_specic", "src/naima/radiative.py:Bremsstrahlung._spectrum", "src/naima/radiative.py:PionDecay._spectrum", "src/naima/utils.py:trapz_loglog"]}
{"id": "C09", "title": "set_We / set_Wp normalise to the requested energy", "statement": "After set_We(W, Emin, Emax) (or set_Wp) on a distribution with an amplitude attribute and non-zero energy content, compute_We(Emin, Emax) returns W, and only the amplitude has changed; if the distribution has no such attribute nothing changes (default name) or AttributeError is raised (explicit name).", "quantifier": "all distributions linear in their amplitude, all energy ranges, all W > 0", "why_tests_cant": "post-condition over all distributions and ranges", "anchors": ["src/naima/radiative.py:BaseElectron.set_We", "src/naima/radiative.py:BaseProton.set_Wp", "src/naima/radiative.py:BaseElectron.compute_We", "src/naima/radiative.py:BaseProton.compute_Wp"]}
{"id": "C10", "title": "compute_We/compute_Wp defaults agree with explicit limits", "statement": "compute_We() equals compute_We(Emin=self.Eemin, Emax=self.Eemax), and giving one limit leaves the other at the model's own; the same for protons.", "quantifier": "all models and limits", "why_tests_cant": "two code paths must agree for all inputs", "anchors": ["src/naima/radiative.py:BaseElectron.compute_We", "src/naima/radiative.py:BaseProton.compute_Wp"]}
{"id": "C11", "title": "The internal particle-energy grid spans exactly the requested range", "statement": "For 0 < Emin < Emax the grid used has at least 10 points, starts exactly at Emin, ends exactly at Emax, is strictly increasing and geometric.", "quantifier": "all Emin < Emax and all points-per-decade settings", "why_tests_cant": "all real limits including nearly equal ones", "anchors": ["src/naima/radiative.py:BaseElectron._gam", "src/naima/radiative.py:BaseProton._Ep"]}
{"id": "C12", "title": "Spectrum at one energy does not depend on the other energies requested", "statement": "For Synchrotron, InverseCompton, Bremsstrahlung and PionDecay the value returned at an energy is the same whether it is requested alone or inside any array.", "quantifier": "all energy arrays and positions", "why_tests_cant": "must hold for all arrays", "anchors": ["src/naima/radiative.py:Synchrotron._spectrum", "src/naima/radiative.py:InverseCompton._calc_specic", "src/naima/radiative.py:Bremsstrahlung._spectrum", "src/naima/radiative.py:PionDecay._spectrum", "src/naima/radiative.py:PionDecayKelner06._spectrum"]}
{"id": "C13", "title": "PionDecayKelner06 is continuous at Etrans and density-linear", "statement": "When a request straddles Etrans the delta-approximation is rescaled so that its value at Etrans equals the full calculation; the spectrum is proportional to nh.", "quantifier": "all proton distributions, all energy arrays straddling Etrans, all nh", "why_tests_cant": "identity for all distributions", "anchors": ["src/naima/radiative.py:PionDecayKelner06._spectrum", "src/naima/radiative.py:PionDecayKelner06._calc_specpp_loE"]}
{"id": "C14", "title": "Synchrotron spectra are non-negative", "statement": "For a non-negative electron distribution and B >= 0 every Synchrotron flux value is finite and non-negative.", "quantifier": "all electron distributions, energies and fields", "why_tests_cant": "inequality over all reals", "anchors": ["src/naima/radiative.py:Synchrotron._spectrum"]}
{"id": "C15", "title": "Inverse Compton kernels respect kinematics", "statement": "The thermal (isotropic and anisotropic) and monochromatic IC kernels are exactly zero when the photon energy is not below the electron energy, and finite and non-negative otherwise.", "quantifier": "all electron energies, photon energies, temperatures, angles", "why_tests_cant": "includes singular points of the formula that are masked", "anchors": ["src/naima/radiative.py:InverseCompton._iso_ic_on_planck", "src/naima/radiative.py:InverseCompton._ani_ic_on_planck", "src/naima/radiative.py:InverseCompton._iso_ic_on_monochromatic", "src/naima/radiative.py:G12", "src/naima/radiative.py:G34"]}
{"id": "C16", "title": "Seed photon field specifications are parsed faithfully", "statement": "Each accepted seed specification yields one field with the given name, temperature, energy density (blackbody density when 0) and isotropy, in order; any other specification raises; 'A-B-C' is the same as the list of its parts.", "quantifier": "all seed specification lists", "why_tests_cant": "all lists of all shapes", "anchors": ["src/naima/radiative.py:InverseCompton._process_input_seed"]}
{"id": "C17", "title": "Bremsstrahlung channels can be switched off", "statement": "Setting weight_ee or weight_ep to 0 gives the spectrum of the other channel alone; the spectrum is linear in n0.", "quantifier": "all electron distributions, energies, weights and densities", "why_tests_cant": "all weights including exactly 0, which takes a separate code path", "anchors": ["src/naima/radiative.py:Bremsstrahlung._spectrum", "src/naima/radiative.py:Bremsstrahlung._emiss_ee", "src/naima/radiative.py:Bremsstrahlung._emiss_ep"]}
{"id": "C18", "title": "Bremsstrahlung cross sections are non-negative and vanish above the electron energy", "statement": "The electron-proton cross section is zero for photon energies above the electron energy and non-negative below.", "quantifier": "all electron and photon energies", "why_tests_cant": "sign near the kinematic endpoint", "anchors": ["src/naima/radiative.py:Bremsstrahlung._sigma_1", "src/naima/radiative.py:Bremsstrahlung._sigma_ep"]}
{"id": "C19", "title": "Pion-decay cross section is non-negative and vanishes below threshold", "statement": "For all four high-energy models, the differential cross section computed without lookup table is zero for proton kinetic energies below threshold, non-negative above, and zero for photons above the kinematic maximum.", "quantifier": "all proton and photon energies, all four models, with and without nuclear enhancement", "why_tests_cant": "inequality over piecewise real formulas", "anchors": ["src/naima/radiative.py:PionDecay._diffsigma", "src/naima/radiative.py:PionDecay._F", "src/naima/radiative.py:PionDecay._Amax", "src/naima/radiative.py:PionDecay._sigma_pi", "src/naima/radiative.py:PionDecay._nuclear_factor"]}
{"id": "C20", "title": "Pion-decay shape function is independent of earlier evaluations", "statement": "The class-level parameter tables that are overwritten during evaluation never make a later evaluation depend on an earlier one, on any instance.", "quantifier": "all interleavings of evaluations on all instances", "why_tests_cant": "shared mutable class state: all histories", "anchors": ["src/naima/radiative.py:PionDecay._F", "src/naima/radiative.py:PionDecay._F_mp"]}
{"id": "C21", "title": "The lookup table in use is the one configured", "statement": "After any sequence of changes to hiEmodel, nuclear_enhancement and useLUT, the spectrum is computed with the lookup table for the current hiEmodel/nuclear_enhancement if useLUT is set and that table is installed, and with the full calculation otherwise.", "quantifier": "all histories of attribute changes and evaluations, all sets of installed tables", "why_tests_cant": "state machine over unbounded histories", "anchors": ["src/naima/radiative.py:PionDecay._spectrum", "src/naima/radiative.py:PionDecay._loadLUT"]}
{"id": "C22", "title": "Analytic spectral models equal their documented formula in any units", "statement": "PowerLaw, ExponentialCutoffPowerLaw, BrokenPowerLaw, ExponentialCutoffBrokenPowerLaw and LogParabola return the documented formula and do not depend on the units in which the energy, reference, break or cutoff energies are expressed.", "quantifier": "all parameters, energies and energy units", "why_tests_cant": "real identities over all inputs", "anchors": ["src/naima/models.py:PowerLaw", "src/naima/models.py:ExponentialCutoffPowerLaw", "src/naima/models.py:BrokenPowerLaw", "src/naima/models.py:ExponentialCutoffBrokenPowerLaw", "src/naima/models.py:LogParabola"]}
{"id": "C23", "title": "Broken power laws are continuous at the break and have the stated indices", "statement": "BrokenPowerLaw and ExponentialCutoffBrokenPowerLaw are continuous functions of energy on (0, inf), with logarithmic slopes -alpha_1 and -alpha_2 on either side of the break, and the value at e_0 is amplitude if e_0 is below the break.", "quantifier": "all parameters and energies", "why_tests_cant": "continuity at a point", "anchors": ["src/naima/models.py:BrokenPowerLaw.eval", "src/naima/models.py:ExponentialCutoffBrokenPowerLaw.eval"]}
{"id": "C24", "title": "Spectral models nest", "statement": "With no break, no curvature or in the limit of no cutoff each model reduces to the simpler one; all are proportional to amplitude and positive for positive amplitude.", "quantifier": "all parameters and energies", "why_tests_cant": "identities over all reals", "anchors": ["src/naima/models.py:PowerLaw", "src/naima/models.py:LogParabola", "src/naima/models.py:BrokenPowerLaw"]}
{"id": "C25", "title": "TableModel interpolates its table and is zero outside it", "statement": "A TableModel returns amplitude times the tabulated value at each tabulated energy, a positive value between tabulated energies, exactly 0 outside the tabulated range, and its result does not depend on energy units or on the order of the rows; fewer than four rows or repeated energies are a ValueError.", "quantifier": "all tables, energies and units", "why_tests_cant": "all tables and energies", "anchors": ["src/naima/models.py:TableModel"]}
{"id": "C26", "title": "EBL transmission is a probability that decreases with optical depth", "statement": "EblAbsorptionModel.transmission returns 1 below 1 GeV, exp(-tau) with the tabulated optical depth of the closest tabulated redshift within the table, and never increases abruptly above 100 TeV.", "quantifier": "all redshifts and energies", "why_tests_cant": "all redshifts/energies including table edges", "anchors": ["src/naima/models.py:EblAbsorptionModel"]}
{"id": "C27", "title": "Scalar arguments are validated against their domain and physical type", "statement": "A scalar parameter is accepted exactly when it has the required physical type and lies in the stated domain, and is returned unchanged; otherwise TypeError or ValueError respectively is raised.", "quantifier": "all values (including NaN and infinities), types and domains", "why_tests_cant": "all values including special floats", "anchors": ["src/naima/extern/validator.py:validate_scalar", "src/naima/extern/validator.py:validate_physical_type"]}
{"id": "C28", "title": "Array arguments are validated against their domain", "statement": "An array argument declared positive is rejected if it has a negative element.", "quantifier": "all arrays and domains", "why_tests_cant": "universally quantified over arrays", "anchors": ["src/naima/extern/validator.py:validate_array", "src/naima/utils.py:validate_column", "src/naima/models.py:TableModel"]}
{"id": "C29", "title": "trapz_loglog is exact for power laws", "statement": "On any increasing positive grid, trapz_loglog of y = A x^p is the exact integral of A x^p (for |p + 1| > 1e-10 or p = -1).", "quantifier": "all grids of any length, all A > 0 and p", "why_tests_cant": "all grids and exponents", "anchors": ["src/naima/utils.py:trapz_loglog"]}
{"id": "C30", "title": "trapz_loglog is additive, homogeneous, non-negative and zero-safe", "statement": "The integral is the sum of its per-interval contributions, splits at any grid point, scales with y and with x, is non-negative for non-negative samples on an increasing grid, and bins with a zero endpoint or zero width contribute exactly 0 rather than NaN.", "quantifier": "all grids and sample arrays of any length", "why_tests_cant": "all arrays; singular bins are evaluated and then masked", "anchors": ["src/naima/utils.py:trapz_loglog"]}
{"id": "C31", "title": "Generated energy bins tile the axis", "statement": "For strictly increasing positive energies generate_energy_edges gives strictly positive half-widths, each bin contains its energy, the upper edge of every bin equals the lower edge of the next (their geometric mean) and the first bin is logarithmically symmetric.", "quantifier": "all increasing energy arrays of any length >= 2", "why_tests_cant": "all lengths", "anchors": ["src/naima/utils.py:_generate_energy_edges_single", "src/naima/utils.py:generate_energy_edges"]}
{"id": "C32", "title": "Energy bins are generated per group", "statement": "With group labels, the edges of the rows of each group are exactly those generated from that group's energies alone.", "quantifier": "all energy arrays and groupings", "why_tests_cant": "all groupings", "anchors": ["src/naima/utils.py:generate_energy_edges"]}
{"id": "C33", "title": "SED conversion is consistent and reversible", "statement": "For every supported physical type the returned unit has the dimensions of the input unit times the factor; converting to SED and back restores the differential flux; unsupported types raise UnitsError.", "quantifier": "all units of all physical types, all energies", "why_tests_cant": "all units", "anchors": ["src/naima/utils.py:sed_conversion"]}
{"id": "C34", "title": "Validated data tables are sorted permutations of the input rows", "statement": "validate_data_table returns, for any list of valid tables, every input row exactly once, in ascending energy, converted to one common flux unit, with the row's own upper-limit flag, confidence level and group.", "quantifier": "all lists of valid tables of any size and order", "why_tests_cant": "all tables and orders", "anchors": ["src/naima/utils.py:validate_data_table", "src/naima/utils.py:_validate_single_data_table"]}
{"id": "C35", "title": "Row order of a data table does not matter", "statement": "Permuting the rows of an input table does not change the validated table.", "quantifier": "all tables and permutations", "why_tests_cant": "all permutations", "anchors": ["src/naima/utils.py:validate_data_table", "src/naima/utils.py:_validate_single_data_table"]}
{"id": "C36", "title": "Validation is idempotent", "statement": "Validating an already validated table again changes nothing.", "quantifier": "all valid tables", "why_tests_cant": "all tables", "anchors": ["src/naima/utils.py:validate_data_table", "src/naima/model_fitter.py:InteractiveModelFitter.__init__"]}
{"id": "C37", "title": "Flux and luminosity tables are never mixed", "statement": "A list containing both flux-like and luminosity-like tables is rejected, whichever is first and whether differential or SED.", "quantifier": "all lists of tables", "why_tests_cant": "all orders and unit combinations", "anchors": ["src/naima/utils.py:validate_data_table"]}
{"id": "C38", "title": "Required columns and upper-limit flags are checked", "statement": "A table is accepted only with energy, flux and flux_error (or both asymmetric errors) columns of allowed physical types; upper limit flags are accepted only as integers, booleans or the strings True/False, and mean what they say.", "quantifier": "all tables", "why_tests_cant": "all column combinations", "anchors": ["src/naima/utils.py:_validate_single_data_table", "src/naima/utils.py:validate_column"]}
{"id": "C39", "title": "estimate_B scales correctly", "statement": "estimate_B is sqrt(8 pi u Lx/Lg) in Gauss: scaling X-ray fluxes by k scales B by sqrt(k), scaling both tables by the same factor leaves it unchanged.", "quantifier": "all tables, all k > 0", "why_tests_cant": "all tables", "anchors": ["src/naima/utils.py:estimate_B"]}
{"id": "C40", "title": "Gaussian likelihood with asymmetric errors", "statement": "Without upper limits the log-likelihood is -1/2 sum ((model-flux)/sigma)^2 with the upper error where the model is above the data and the lower error otherwise; it is at most 0, 0 exactly when the model matches, and independent of row order and of SED versus differential representation.", "quantifier": "all data tables and models", "why_tests_cant": "all data and models", "anchors": ["src/naima/core.py:lnprobmodel"]}
{"id": "C41", "title": "Upper limits are penalised at their own confidence level", "statement": "Each violated upper limit adds ln(1 - cl) of that limit to the log-likelihood; satisfied limits add nothing.", "quantifier": "all data tables with any mix of confidence levels", "why_tests_cant": "all mixtures of tables", "anchors": ["src/naima/core.py:lnprobmodel"]}
{"id": "C42", "title": "Prior functions are log-densities", "statement": "uniform_prior is 0 inside the closed interval and -inf outside; normal_prior and log_uniform_prior are, up to an additive constant, the logarithms of the normal and log-uniform densities.", "quantifier": "all parameter values and prior parameters", "why_tests_cant": "all reals", "anchors": ["src/naima/core.py:uniform_prior", "src/naima/core.py:normal_prior", "src/naima/core.py:log_uniform_prior"]}
{"id": "C43", "title": "A forbidding prior always wins", "statement": "If the prior is -inf the total log-probability is -inf whatever the model returns; otherwise it is the sum of prior and likelihood, and the model output is always passed on as blob.", "quantifier": "all priors, models and data", "why_tests_cant": "all model outputs including NaN", "anchors": ["src/naima/core.py:lnprob"]}
{"id": "C44", "title": "Normalisation guess matches the data", "statement": "If exactly one label denotes a normalisation and the model is proportional to it (or to its exponential for log/log10 labels), after get_sampler's guess the energy-weighted integral of the model equals that of the data; otherwise p0 is unchanged.", "quantifier": "all label lists, parameter vectors, models and data", "why_tests_cant": "all label spellings and models", "anchors": ["src/naima/core.py:get_sampler"]}
{"id": "C45", "title": "Labels always cover all parameters", "statement": "get_sampler and InteractiveModelFitter use at least one label per parameter, keeping user-given labels in place.", "quantifier": "all label lists and parameter counts", "why_tests_cant": "all lengths", "anchors": ["src/naima/core.py:get_sampler", "src/naima/model_fitter.py:InteractiveModelFitter.__init__"]}
{"id": "C46", "title": "Pre-fit never installs forbidden or worse parameters", "statement": "The pre-fit returns the optimiser's vector only if it converged (or ran out of evaluations) at a point allowed by the prior, and otherwise the original vector; the returned vector's flat-prior likelihood is never below that of p0; the maximum-likelihood flag is set only on convergence.", "quantifier": "all models, priors and starting points", "why_tests_cant": "all optimiser outcomes", "anchors": ["src/naima/core.py:_prefit", "src/naima/extern/minimize.py:_minimize_neldermead"]}
{"id": "C47", "title": "Nelder-Mead never gets worse, reports honestly and terminates", "statement": "For every objective the minimiser terminates; result.fun = f(result.x) is the least value over the final simplex and at most f(x0); the best value never increases; nfev counts the evaluations and exceeds maxfev by at most N+1; success is reported exactly when neither limit was hit.", "quantifier": "all objective functions, starting points, dimensions and tolerances", "why_tests_cant": "all objectives, unbounded iteration", "anchors": ["src/naima/extern/minimize.py:_minimize_neldermead"]}
{"id": "C48", "title": "Worker pool is released after a run", "statement": "run_sampler leaves no worker pool attached to the sampler; a pool exists only if more than one thread was requested; burn-in samples are discarded and exactly nrun steps recorded.", "quantifier": "all argument combinations and histories of get_sampler/run_sampler", "why_tests_cant": "state machine over call sequences", "anchors": ["src/naima/core.py:run_sampler", "src/naima/core.py:get_sampler"]}
{"id": "C49", "title": "Maximum-likelihood sample is consistent", "statement": "find_ML returns the largest log-probability of the chain together with the parameters and model blob of the same step and walker.", "quantifier": "all chains of all shapes", "why_tests_cant": "all chains, including ties", "anchors": ["src/naima/plot.py:find_ML"]}
{"id": "C50", "title": "Confidence bands are nested and ordered", "statement": "For every energy the lower band is at most the upper band, a higher confidence level gives a band containing that of a lower one, and bands lie within the range of the samples.", "quantifier": "all sample arrays and confidence lists", "why_tests_cant": "all sample arrays", "anchors": ["src/naima/plot.py:_calc_CI"]}
{"id": "C51", "title": "Reported uncertainties are non-negative and bracket the median", "statement": "Every row of the results table has non-negative unc_lo and unc_hi, and the reported median and percentiles lie within the sampled values and are monotone in the quantile.", "quantifier": "all sample distributions", "why_tests_cant": "all samples", "anchors": ["src/naima/analysis.py:save_results_table", "src/naima/plot.py:find_ML"]}
{"id": "C52", "title": "Results table rows describe the right samples", "statement": "With last_step=True the table describes the walkers of the last step; with last_step=False all samples; the row added for a log-labelled parameter is computed from that parameter.", "quantifier": "all chains and label lists", "why_tests_cant": "all label spellings and chain shapes", "anchors": ["src/naima/analysis.py:save_results_table"]}
{"id": "C53", "title": "save_run / read_run round trip", "statement": "Reading a saved run gives back the chain, log-probabilities, labels, run information and every blob in the same step/walker position with the same units.", "quantifier": "all chains and blob structures", "why_tests_cant": "all blob shapes and counts", "anchors": ["src/naima/analysis.py:save_run", "src/naima/analysis.py:read_run"]}
{"id": "C54", "title": "save_run never damages an existing file unless asked", "statement": "With clobber=False an existing file is left untouched; a file name without .h5/.hdf5 suffix is rejected before anything is written; a crash while saving with clobber=True leaves either the old or the new contents.", "quantifier": "all filesystem states, file names and crash points", "why_tests_cant": "all crash points", "anchors": ["src/naima/analysis.py:save_run"]}
{"id": "C55", "title": "Flattened chain order is consistent", "statement": "get_chain(flat=True), get_log_prob(flat=True) and the blobs of a reloaded run list samples in the same order.", "quantifier": "all chain shapes", "why_tests_cant": "all shapes", "anchors": ["src/naima/analysis.py:_result.get_value", "src/naima/analysis.py:read_run"]}
{"id": "C56", "title": "Interactive fitter's ML flag is truthful", "statement": "In every sequence of slider moves, updates, auto-update toggles and fits, the 'parameters are maximum-likelihood' flag is set only while the parameters are those returned by a converged fit.", "quantifier": "all event sequences", "why_tests_cant": "unbounded event sequences", "anchors": ["src/naima/model_fitter.py:InteractiveModelFitter"]}
{"id": "C57", "title": "Sherpa bins integrate to the whole", "statement": "For contiguous bins the photons per bin returned to Sherpa add up to the integral over the whole band, each bin is integrated over its own edges, and guess() matches the observed flux.", "quantifier": "all contiguous bin arrays", "why_tests_cant": "all bin arrays", "anchors": ["src/naima/sherpa_models.py:_mergex", "src/naima/sherpa_models.py:SherpaModel.calc", "src/naima/sherpa_models.py:SherpaModel.guess"]}
{"id": "C58", "title": "Interactive sliders show and change the parameters faithfully", "statement": "Each slider of the interactive fitter initially shows its parameter's value, and moving one slider (automatic updating on) changes that parameter and no other.", "quantifier": "all labels, initial vectors and slider moves", "why_tests_cant": "all labels and values, including negative ones", "anchors": ["src/naima/model_fitter.py:InteractiveModelFitter.__init__", "src/naima/model_fitter.py:InteractiveModelFitter.update"]}
{"id": "C59", "title": "get_sampler rejects incompatible model and data units", "statement": "get_sampler raises UnitsError whenever the model's physical type cannot be compared with that of the data, and never otherwise.", "quantifier": "all pairs of model and data units", "why_tests_cant": "all physical types", "anchors": ["src/naima/core.py:get_sampler"]}
{"id": "C60", "title": "Inverse-Compton spectrum is additive over seed fields", "statement": "The InverseCompton spectrum of several seed photon fields is, energy by energy, the sum of the spectra of the single fields, and the contribution of a thermal field is proportional to its energy density.", "quantifier": "all lists of seed fields, electron distributions and photon energies, all density factors > 0", "why_tests_cant": "lists of any length and all distributions", "anchors": ["src/naima/radiative.py:InverseCompton._spectrum", "src/naima/radiative.py:InverseCompton._calc_specic"]}
{"id": "C61", "title": "Pion-decay spectrum is proportional to the target density", "statement": "Multiplying nh by any c > 0, in any density unit, multiplies every value of the PionDecay spectrum by exactly c.", "quantifier": "all proton distributions, densities and units, photon energies and evaluation histories", "why_tests_cant": "all distributions and histories", "anchors": ["src/naima/radiative.py:PionDecay._spectrum"]}
{"id": "C62", "title": "PionDecayKelner06 spectra are non-negative and vanish below threshold", "statement": "The inelastic cross section is zero up to 1.22 GeV and positive above; the number of photons per collision is positive at every fraction of the proton energy; so the spectrum of a non-negative proton distribution is finite and non-negative.", "quantifier": "all proton energies and fractions, all distributions and requests", "why_tests_cant": "sign of a product of formulas with poles, over all reals", "anchors": ["src/naima/radiative.py:PionDecayKelner06._sigma_inel", "src/naima/radiative.py:PionDecayKelner06._Fgamma", "src/naima/radiative.py:PionDecayKelner06._spectrum"]}
{"id": "C63", "title": "Every parameter is explored by the initial ensemble", "statement": "get_sampler starts nwalkers walkers; each differs from the starting point by a relative normal deviate (0.5% at a maximum-likelihood point, 10% otherwise) in every parameter, so that no parameter is common to all walkers, independently of the unit a parameter is expressed in.", "quantifier": "all starting points, numbers of walkers, random draws and sequences of ensemble moves", "why_tests_cant": "an invariant over every sequence of moves of the sampler", "anchors": ["src/naima/core.py:get_sampler"]}
{"id": "C64", "title": "get_sampler leaves the caller's objects as it found them", "statement": "The p0 and labels passed to get_sampler are not modified by it, so that they can be used for another call; a second call with the same objects starts from the same parameters.", "quantifier": "all p0, labels, models and data", "why_tests_cant": "aliasing of arguments over all inputs and call histories", "anchors": ["src/naima/core.py:get_sampler"]}
{"id": "C65", "title": "Sampling starts from the guess, the interactive fit or the prefit", "statement": "The point around which walkers are placed (and which run_info records) is the guess; or the result of the interactive window; or, if requested and not already done there, the prefit of it; for every sequence type of p0. After a guess the model's energy flux is that of the data; after a prefit the likelihood is no smaller.", "quantifier": "all models, data tables, option combinations and kinds of p0", "why_tests_cant": "end to end over all inputs", "anchors": ["src/naima/core.py:get_sampler", "src/naima/core.py:_prefit"]}
{"id": "C66", "title": "Model samples are read back faithfully from the chain", "statement": "Samples read from the sampler's metadata are one per chain sample in chain order, have the same physical values whatever unit each was returned in, and are returned with the energies at which they were computed; other formats raise TypeError.", "quantifier": "all chains, blob formats, units and step selections", "why_tests_cant": "chains of any length and all formats", "anchors": ["src/naima/plot.py:_process_blob"]}
{"id": "C67", "title": "Samples recomputed for an energy range come from the chain", "statement": "With e_range the models are evaluated at e_npoints energies running from the lower to the upper limit, equally spaced in the logarithm, at parameter vectors drawn from the chain (or its last step), one sample per draw.", "quantifier": "all ranges, numbers of points, chains and draws", "why_tests_cant": "all chains and draws", "anchors": ["src/naima/plot.py:_read_or_calc_samples", "src/naima/plot.py:_calc_ML"]}
{"id": "C68", "title": "Confidence bands contain the nominal fraction of samples", "statement": "At every energy the band at c sigma contains at least the nominal fraction of the samples, with at most the nominal fraction on either side, treating both sides alike.", "quantifier": "all sample sets and confidence levels", "why_tests_cant": "sample sets of any size", "anchors": ["src/naima/plot.py:_calc_CI"]}
{"id": "C69", "title": "Enough samples are computed for the requested confidence", "statement": "When bands are recomputed for an energy range, at least 1/cdf(-c) samples are used for the highest level c requested, up to a limit of 1000; if that limit is hit, a warning is issued.", "quantifier": "all lists of confidence levels", "why_tests_cant": "all confidence levels", "anchors": ["src/naima/plot.py:_calc_CI"]}
{"id": "C70", "title": "Synchrotron spectrum is the documented formula with its normalisation", "statement": "The Synchrotron spectrum is the integral over the electrons of the documented emissivity (Aharonian, Kelner & Prosekin 2010) in absolute units; multiplying the magnetic field and all photon energies by the same k > 0 leaves every value as it was; expressing B in another unit changes nothing.", "quantifier": "all electron distributions and energy ranges, fields > 0, photon energies > 0", "why_tests_cant": "an identity between formulas over all real inputs", "anchors": ["src/naima/radiative.py:Synchrotron._spectrum"]}
{"id": "C71", "title": "Inverse-Compton spectrum is the documented formula with its normalisation", "statement": "For thermal (isotropic or directed), monochromatic and tabulated seed fields the contribution to the InverseCompton spectrum is the integral over the electrons of the published rate (Khangulyan et al. 2014; Aharonian & Atoyan 1981; Jones 1968) in absolute units; the built-in numeric constants agree with their definitions in fundamental constants.", "quantifier": "all electron distributions and ranges, seed fields, photon energies > 0", "why_tests_cant": "an identity between formulas over all real inputs", "anchors": ["src/naima/radiative.py:InverseCompton._calc_specic", "src/naima/radiative.py:InverseCompton._iso_ic_on_planck", "src/naima/radiative.py:InverseCompton._ani_ic_on_planck", "src/naima/radiative.py:InverseCompton._iso_ic_on_monochromatic"]}
{"id": "C72", "title": "Bremsstrahlung spectrum is the documented formula with its normalisation", "statement": "The cross sections are those of the appendix of Baring et al. (1999) with their kinematic limits, in cm2, and the spectrum is n0 c times the weighted sum of the integrals of the electron-electron and electron-ion terms.", "quantifier": "all electron energies, photon energies > 0, distributions, densities and weights", "why_tests_cant": "an identity between formulas over all real inputs", "anchors": ["src/naima/radiative.py:Bremsstrahlung._sigma_1", "src/naima/radiative.py:Bremsstrahlung._sigma_2", "src/naima/radiative.py:Bremsstrahlung._sigma_ee_rel", "src/naima/radiative.py:Bremsstrahlung._sigma_ee_nonrel", "src/naima/radiative.py:Bremsstrahlung._spectrum"]}
{"id": "C73", "title": "Pion-decay spectrum is the documented formula with its normalisation", "statement": "For each of the four high-energy models, with or without nuclear enhancement, the differential cross section at every proton energy above threshold is that of Kafexhiu et al. (2014), and the spectrum (without lookup table) is nh c times its integral over the protons.", "quantifier": "all proton energies above threshold, photon energies > 0, models, distributions, densities, evaluation histories", "why_tests_cant": "an identity between piecewise formulas over all real inputs and histories", "anchors": ["src/naima/radiative.py:PionDecay._sigma_inel", "src/naima/radiative.py:PionDecay._sigma_pi", "src/naima/radiative.py:PionDecay._Amax", "src/naima/radiative.py:PionDecay._F", "src/naima/radiative.py:PionDecay._diffsigma", "src/naima/radiative.py:PionDecay._spectrum"]}
{"id": "C74", "title": "PionDecayKelner06 spectrum is the documented formula with its normalisation", "statement": "The number of photons per collision and energy fraction is eq. 58 of Kelner et al. (2006), i.e. the derivative of a closed form for the number of photons above a fraction; the spectrum at and above Etrans is nh times their eq. 72, below Etrans the delta approximation.", "quantifier": "all proton energies, fractions in (0,1), distributions, densities, photon energies > 0", "why_tests_cant": "an identity between formulas over all real inputs", "anchors": ["src/naima/radiative.py:PionDecayKelner06._Fgamma", "src/naima/radiative.py:PionDecayKelner06._sigma_inel", "src/naima/radiative.py:PionDecayKelner06._delta_integrand", "src/naima/radiative.py:PionDecayKelner06._spectrum"]}
{"id": "C75", "title": "Inverse Compton obeys the Thomson limit and never exceeds it", "statement": "For one electron in a monochromatic isotropic photon field the InverseCompton rate integrated over all photon energies never exceeds sigma_T c per photon, the emitted power never exceeds 4/3 sigma_T c gamma^2 eps0, and both attain these values in the Thomson limit. For a whole electron spectrum, as the electron grid is refined, the photons and the energy of the computed spectrum integrated over all photon energies tend to values between the sums of these bounds over the electrons.", "quantifier": "all electron Lorentz factors >= 1 and seed photon energies > 0; all electron spectra, ranges from the rest energy up, and seed densities", "why_tests_cant": "a bound on an integral over all real inputs and a limit", "anchors": ["src/naima/radiative.py:InverseCompton._iso_ic_on_monochromatic"]}
{"id": "C76", "title": "Pion bump", "statement": "The gamma-ray spectrum from neutral-pion decay is symmetric, in log energy, about half the pion mass: its value at E and at (m_pi/2)^2/E are the same, for PionDecay at all energies and for PionDecayKelner06 in the delta approximation.", "quantifier": "all proton distributions above threshold, densities, high-energy models, photon energies > 0, histories", "why_tests_cant": "a symmetry over all real inputs", "anchors": ["src/naima/radiative.py:PionDecay._F", "src/naima/radiative.py:PionDecay._spectrum", "src/naima/radiative.py:PionDecayKelner06._calc_photon_spectrum"]}
{"id": "C77", "title": "Residuals of a fit", "statement": "The residual plotted for a data point is (data - model)/(mean of its two uncertainties) at its energy, the same for plots with sed=True and False and for every e_unit; upper limits are left out and groups are kept apart; a model of another kind is an error.", "quantifier": "all data tables, units, groups, models, e_unit and sed", "why_tests_cant": "all tables, models and unit combinations", "anchors": ["src/naima/plot.py:_plot_residuals_to_ax"]}
{"id": "C78", "title": "Printed summary of a parameter", "statement": "plot_chain prints for every parameter a text from which the median and its distances to the 16th and 84th percentiles can be read: the value to less than a third of either uncertainty, the uncertainties to 40 per cent (20 when printed separately), powers of ten included; a parameter whose label is a logarithm gets a second line with the percentiles of the parameter itself.", "quantifier": "all sample sets, labels and magnitudes", "why_tests_cant": "all real sample sets and labels", "anchors": ["src/naima/plot.py:round2", "src/naima/plot.py:_latex_value_error", "src/naima/plot.py:_plot_chain_func"]}
{"id": "C79", "title": "Plotting options belong to the call they are given to", "statement": "The options used to draw the upper limits of a plot_data or plot_fit call are those given to that call (ulim_opts, with the line width of errorbar_opts if given there), whatever was plotted before in the session; the caller's option dictionaries and its list of confidence levels are not modified; the confidence bands are drawn from the widest to the narrowest.", "quantifier": "all sequences of plotting calls, option dictionaries and lists of confidence levels", "why_tests_cant": "all histories of calls in a session", "anchors": ["src/naima/plot.py:_plot_data_to_ax", "src/naima/plot.py:plot_data", "src/naima/plot.py:plot_fit", "src/naima/plot.py:plot_CI"]}
{"id": "C80", "title": "Plotted data points", "statement": "plot_data draws each measured point of the table at its energy and at its SED (or differential spectrum) value in the unit of the axes, with a bar from flux minus lower to flux plus upper uncertainty (cut above zero on the logarithmic axis), each upper limit at its value with an arrow down to three quarters of it, the horizontal error bars as given, groups apart, and the axes contain them; tables with units that do not fit are refused.", "quantifier": "all data tables, units, groups, e_unit and sed", "why_tests_cant": "all tables and unit combinations", "anchors": ["src/naima/plot.py:_plot_data_to_ax", "src/naima/plot.py:plot_data"]}
{"id": "C81", "title": "Lookup tables hold the cross section they are named after", "statement": "generate_lut_pp writes, for every model, a table that PionDecay finds under the name of its settings and that returns, for every proton and photon energy, the cross section PionDecay computes without table; so switching useLUT does not change the physics.", "quantifier": "all high-energy models, nuclear enhancement, energy grids, units and distributions of the work over processes", "why_tests_cant": "all grids and energies, any worker history", "anchors": ["src/naima/radiative.py:LookupTable", "src/naima/radiative.py:generate_lut_pp", "src/naima/radiative.py:_calc_lut_pp", "src/naima/radiative.py:PionDecay._loadLUT"]}
{"id": "C82", "title": "No photon carries more energy than the most energetic particle", "statement": "The spectrum of InverseCompton and Bremsstrahlung is exactly zero at photon energies above Eemax, that of PionDecay at energies above the kinetic energy of the most energetic proton, and that of PionDecayKelner06 above the energy where the distribution ends.", "quantifier": "all particle distributions, seed fields, target densities, models and requests", "why_tests_cant": "all distributions and energies", "anchors": ["src/naima/radiative.py:InverseCompton._spectrum", "src/naima/radiative.py:Bremsstrahlung._spectrum", "src/naima/radiative.py:PionDecay._spectrum", "src/naima/radiative.py:PionDecay._calc_Egmax", "src/naima/radiative.py:PionDecayKelner06._spectrum"]}
{"id": "C83", "title": "Refining the particle grid converges to the documented integral", "statement": "As nEed (nEpd) grows, the spectra of Synchrotron, of InverseCompton on any combination of thermal and monochromatic photon fields and of PionDecay, and compute_We and compute_Wp, converge to the integrals over particle energy of the documented formulas, also for distributions with jumps. For a photon field given as an array the spectrum comes arbitrarily close to the same integral with power laws between the array's samples, up to a relative rounding under 2e-8 for forty decades of energies.", "quantifier": "all bounded particle distributions continuous up to finitely many energies, ranges, fields, models, photon energies > 0", "why_tests_cant": "a limit over all grids and distributions", "anchors": ["src/naima/utils.py:trapz_loglog", "src/naima/radiative.py:Synchrotron._spectrum", "src/naima/radiative.py:InverseCompton._calc_specic", "src/naima/radiative.py:PionDecay._spectrum", "src/naima/radiative.py:BaseElectron.compute_We", "src/naima/radiative.py:BaseProton.compute_Wp"]}
{"id": "C84", "title": "More particles never give less radiation", "statement": "If one particle distribution is at every energy at least as large as another, its Synchrotron, InverseCompton and PionDecay spectra, and its total energy, are at least as large, up to a relative rounding of (Emax/Emin)^(2e-10) - 1.", "quantifier": "all pairs of ordered distributions in any units, ranges, grids, fields, photon energies > 0", "why_tests_cant": "an order relation over all pairs of functions", "anchors": ["src/naima/utils.py:trapz_loglog", "src/naima/radiative.py:Synchrotron._spectrum", "src/naima/radiative.py:InverseCompton._spectrum", "src/naima/radiative.py:PionDecay._spectrum", "src/naima/radiative.py:BaseElectron.compute_We", "src/naima/radiative.py:BaseProton.compute_Wp"]}
{"id": "C85", "title": "Superposition of particle populations", "statement": "The spectrum (and the total energy) of the sum of two particle distributions is the sum of their spectra.", "quantifier": "all pairs of distributions in any units, ranges, grids, fields, photon energies > 0", "why_tests_cant": "a relation over all pairs of functions", "anchors": ["src/naima/utils.py:trapz_loglog", "src/naima/radiative.py:Synchrotron._spectrum", "src/naima/radiative.py:InverseCompton._spectrum", "src/naima/radiative.py:PionDecay._spectrum", "src/naima/radiative.py:BaseElectron.compute_We", "src/naima/radiative.py:BaseProton.compute_Wp"]}
{"id": "C86", "title": "Diagnostic plots: each in its own file", "statement": "save_diagnostic_plots saves the chain of every parameter, the corner plot and every selected model, with its sed flag and label (default 'Model output N'), each in a file (or page of the pdf) of its own; a drawing that fails does not stop the others; other files, matplotlib's settings and the caller's list of labels are left as they were.", "quantifier": "all numbers of parameters and models, labels, flags, selections, and all subsets of drawings that fail", "why_tests_cant": "any subset of drawings may fail; label strings are arbitrary", "anchors": ["src/naima/analysis.py:save_diagnostic_plots", "src/naima/plot.py:plot_corner"]}
{"id": "C87", "title": "Metadata and file of the results table", "statement": "save_results_table returns, and stores in the file outname_results with the extension of the format, a table whose metadata hold the number of samples used, the largest log-probability with the parameters that have it, the Bayesian information criterion k ln N - 2 max(log-probability), everything in run_info, and the unit of every blob that gets a row, in which the numbers of that row are to be read; without overwrite=True no existing file is changed, and a call that raises changes no file.", "quantifier": "all runs, formats, options, run_info dictionaries, blobs and existing files", "why_tests_cant": "all chains, blob structures and dictionaries", "anchors": ["src/naima/analysis.py:save_results_table", "src/naima/plot.py:find_ML"]}
{"id": "C88", "title": "plot_fit shows what was asked for", "statement": "plot_fit shows the data if asked for (default: if the physical types of data and model match), the residuals if asked for (default: with data and confs or n_samples), confidence bands for confs, otherwise n_samples sample models or, for n_samples=None, bands; the energy axis contains the horizontal error bars of all data (or all of the model within 10, resp. 20, decades of the top) and all of e_range.", "quantifier": "all combinations of arguments, tables, models, units and energy ranges", "why_tests_cant": "all argument combinations and all tables and models", "anchors": ["src/naima/plot.py:plot_fit"]}
{"id": "C89", "title": "The curves and bands drawn are those of the samples of the chain", "statement": "plot_samples draws exactly n_samples curves, each of which is the spectrum stored with (or, for an e_range, the model evaluated at the parameters of) a sample of the chain or of its last step, converted to the energy unit of the axis and to an SED or differential spectrum; plot_CI draws for each confidence level, widest first, the two edges of the band of the samples at each energy, the lower edge below the upper and narrower bands inside wider ones; both then draw the curve of a sample of greatest log-probability. It is not so that n_samples is the number of samples used with e_range (all curves are among 100 evaluations), nor that sed=None uses the units of the observed spectrum (an observed SED is drawn as a differential spectrum).", "quantifier": "all chains, log-probabilities without NaN, stored spectra (alone or paired with energies) of every spectral type and unit, all model functions, numbers of samples, confidence levels and outcomes of the random draws", "why_tests_cant": "the samples drawn are random and the chain arbitrary; a test looks at one figure and does not read the numbers back", "anchors": ["src/naima/plot.py:plot_samples", "src/naima/plot.py:plot_CI", "src/naima/plot.py:_plot_MLmodel", "src/naima/plot.py:_calc_ML", "src/naima/plot.py:_read_or_calc_samples"]}
{"id": "C90", "title": "Several tables on one figure are drawn in the units of its axes", "statement": "Calling plot_data repeatedly on one figure draws every table in the units named on the axes: with the same e_unit (or tables in the same energy unit) and the same sed, for spectra in any units of matching type; and a table added to axes whose label ends with a readable energy unit in brackets is drawn in that unit. It is not so for tables in different energy units without e_unit: the label written by the first call cannot be read back, so the second table is drawn in its own unit; nor for a second call with the other value of sed, which renames the axis.", "quantifier": "all histories of plot_data calls on a figure, tables, units and labels", "why_tests_cant": "a property of every sequence of calls; a test sees one pair of tables, and the numbers drawn are not compared with the label", "anchors": ["src/naima/plot.py:plot_data", "src/naima/plot.py:_plot_data_to_ax"]}
{"id": "C91", "title": "plot_blob and plot_distribution show the samples of the blob; find_ML returns the best sample with its spectrum", "statement": "If blob k of every sample is a number or a scalar Quantity, plot_blob shows the distribution of exactly the values of all samples (or of the last step), in one unit; if it is a spectrum, plot_blob shows plot_fit of that blob. plot_distribution draws the median, a span holding at least 68 % of the samples (but two), and at most half of the samples (and one) on either side of the line. find_ML returns the greatest log-probability, the parameters that have it, the spectrum of that same sample (stored, or recomputed when there are no blobs) and half the width of every parameter's 16-84 % range. It is not so for a distribution with median zero or with equal samples (OverflowError), for scalar Quantities of a run on a single data point (taken for a spectrum), nor for a model function returning a bare array in a run without blobs (a single value is returned).", "quantifier": "all runs, blobs, units, samples and model functions", "why_tests_cant": "a statement about every set of samples and every kind of blob; tests check that figures are made", "anchors": ["src/naima/plot.py:find_ML", "src/naima/plot.py:plot_blob", "src/naima/plot.py:plot_distribution"]}
{"id": "C92", "title": "The energy content is accurate at every number of grid points, and to 0.1 % with the default grid", "statement": "For every positive continuous particle spectrum, every range and every number of points per decade, with h the step of the grid in ln E and K a bound on the change of the logarithmic slope per e-folding: if the slope rises by at most K, compute_We/compute_Wp is at most exp(K h²/8 + 1e-10 h) times ∫ E dN/dE dE; if it falls by at most K, the integral is at most exp(K h²/8 + 1e-10 h) times the result. So for spectra that only steepen (power laws, exponential cutoffs, log-parabolas) the result is never above the true energy by more than a part in 10^11 with the default 100 points per decade, and for an exponential cutoff up to ten times the cutoff energy it is within 0.1 %.", "quantifier": "all spectra, ranges, numbers of points per decade, curvature bounds and units", "why_tests_cant": "a numerical error bound over all spectra, ranges and grids; tests compare a few values with stored numbers", "anchors": ["src/naima/radiative.py:compute_We", "src/naima/radiative.py:compute_Wp", "src/naima/utils.py:trapz_loglog"]}
{"id": "C93", "title": "Refining the electron grid, bremsstrahlung converges to the documented integral", "statement": "As nEed grows, the Bremsstrahlung spectrum of electrons above 2 MeV at every photon energy below the electron energies converges to n0 c ∫ dN/dE (weight_ee σ_ee + weight_ep σ_ep) dE with the cross sections of Baring et al. It is not so at a photon energy equal to the lowest electron energy, where the spectrum is NaN on grids such as the default one, nor just below any grid energy, where it is negative.", "quantifier": "all bounded electron distributions continuous up to finitely many energies, ranges, densities, non-zero weights, photon energies", "why_tests_cant": "a limit over all grids and distributions", "anchors": ["src/naima/radiative.py:Bremsstrahlung._spectrum", "src/naima/radiative.py:Bremsstrahlung._sigma_ee", "src/naima/radiative.py:Bremsstrahlung._sigma_ep", "src/naima/utils.py:trapz_loglog"]}
{"id": "C94", "title": "In which forms photon energies may be given", "statement": "flux and sed accept energies as a Quantity, as a table or dict with an `energy` column or as a list of Quantities, give for them what they give for the same energies as a Quantity, and refuse with a TypeError what is not an energy; caching makes no difference. It fails: with caching (the default) flux refuses a list of Quantities with an AttributeError, a table without the column is a KeyError instead of a TypeError, a dict with a single energy is accepted although it is refused without caching, and InverseCompton.sed(table, seed=...) always raises.", "quantifier": "all arguments, cache contents, histories of cached and uncached calls, functions of the energies", "why_tests_cant": "forms of the argument interact with the cache state and the code path", "anchors": ["src/naima/model_utils.py:memoize", "src/naima/radiative.py:_validate_ene", "src/naima/radiative.py:BaseRadiative.sed", "src/naima/radiative.py:InverseCompton.sed", "src/naima/models.py:_validate_ene"]}
{"id": "C95", "title": "The interactive fitter shows the model with its current parameters", "statement": "The curve in the window of InteractiveModelFitter is the model with the current parameters, in the representation asked for and the unit of the axis, at the energies of the data, of e_range or the default ones, and ln L is the likelihood of the data for these parameters, whatever the user does with sliders and buttons. It fails: after a fit that raises or does not converge while automatic updating is off, after a fit that runs out of evaluations, and for luminosity data with an e_range the window does not open.", "quantifier": "all model functions, data, energy ranges, initial parameters, fits and sequences of slider moves and button presses", "why_tests_cant": "histories of user actions are unbounded and the fit may end in several ways", "anchors": ["src/naima/model_fitter.py:InteractiveModelFitter.__init__", "src/naima/model_fitter.py:InteractiveModelFitter.update", "src/naima/model_fitter.py:InteractiveModelFitter.do_fit"]}
{"id": "C96", "title": "Limits of the particle energies that do not make a range are refused", "statement": "Limits of the particle energy range (attributes Eemin/Eemax, Epmin/Epmax or arguments of compute_We, compute_Wp, set_We, set_Wp) that are not positive energies, or of which the lower one exceeds the upper one, are refused with an error; no energy content or spectrum is computed from them.", "quantifier": "all pairs of limits, particle distributions, numbers of grid points and photon energies", "why_tests_cant": "the limits range over all real pairs; a test tries a few", "anchors": ["src/naima/radiative.py:BaseElectron._gam", "src/naima/radiative.py:BaseElectron.compute_We", "src/naima/radiative.py:BaseElectron.set_We", "src/naima/radiative.py:BaseProton._Ep", "src/naima/radiative.py:BaseProton.compute_Wp", "src/naima/radiative.py:Synchrotron._spectrum"]}
{"id": "C97", "title": "Results do not depend on the units of the inputs", "statement": "Expressing the same inputs in other units - limits of the particle energies, magnetic field, densities, transition energy, seed photon temperatures, energy densities, photon energies and angles, the particle distribution, the photon energies of the request and the distance - changes neither the spectrum, flux, sed nor energy content that any radiative model returns, nor the error it raises.", "quantifier": "all radiative models, particle distributions, seed fields (built-in, thermal, anisotropic, array), photon energies, distances and all pairs of proper units for each of them", "why_tests_cant": "The units of ten kinds of input vary independently over a continuum; a missing conversion shows only in the combination of units it affects.", "anchors": ["src/naima/radiative.py:flux", "src/naima/radiative.py:sed", "src/naima/radiative.py:_process_input_seed", "src/naima/radiative.py:_calc_specic", "src/naima/radiative.py:compute_We", "src/naima/radiative.py:compute_Wp", "src/naima/radiative.py:_spectrum", "src/naima/radiative.py:_validate_ene"]}
{"id": "C98", "title": "Synchrotron and inverse-Compton spectra scale with the magnetic field and the photon densities", "statement": "In a magnetic field c times as strong the number of synchrotron photons per energy at c times the photon energy is unchanged; with c times the density of every seed photon field the inverse-Compton spectrum is c times as large at every energy.", "quantifier": "all electron distributions and grids, fields, positive factors, photon energies, lists of seed fields with a stated density (thermal, anisotropic, arrays)", "why_tests_cant": "The scaling must hold for every factor, field and spectrum; a test compares a few pairs within a tolerance.", "anchors": ["src/naima/radiative.py:Synchrotron._spectrum", "src/naima/radiative.py:InverseCompton._spectrum", "src/naima/radiative.py:_process_input_seed", "src/naima/radiative.py:_iso_ic_on_monochromatic", "src/naima/radiative.py:_calc_specic"]}
{"id": "C99", "title": "Model objects are independent of each other", "statement": "What a model object returns depends only on its own parameters, particle distribution and request, not on which other model objects exist or were used before, in any order of calls.", "quantifier": "all sessions: any number of model objects of the ten classes with a memoised method, any interleaving of calls, caching on or off", "why_tests_cant": "Interference needs a particular order of calls on particular objects; the space of sessions is unbounded.", "anchors": ["src/naima/model_utils.py:memoize", "src/naima/radiative.py:BaseElectron.__init__", "src/naima/radiative.py:BaseProton.__init__", "src/naima/radiative.py:PionDecayKelner06", "src/naima/models.py:PowerLaw"]}
{"id": "C100", "title": "Constructors accept what they document, store it, and use the documented defaults", "statement": "A radiative model is constructed exactly when its particle distribution is a number of particles per unit energy and its named arguments have the documented physical type (TypeError otherwise); an accepted distribution can be evaluated at any particle energy; arguments not given have the documented default values (the default field is in equipartition with the microwave background), and an argument given as a keyword has the given value and changes no other attribute; every public attribute a constructor sets other than the distribution is a listed parameter, of which the memoisation key is made. False as stated and proved so: Bremsstrahlung takes any n0, PionDecayKelner06 any distribution, a distribution with an amplitude attribute per unit energy and values in other units is accepted by all, keywords are checked neither for name nor for value, and the default grid of InverseCompton has 100 points per decade, not the documented 300.", "quantifier": "every particle distribution (with or without an amplitude, raising or not), every value of the named arguments, every set of keywords with any names and values, all five radiative classes", "why_tests_cant": "The arguments are arbitrary Python values and the keywords arbitrary names; a test tries a few. Which wrong arguments slip through is a statement about all of them.", "anchors": ["src/naima/radiative.py:BaseRadiative.__init__", "src/naima/radiative.py:Synchrotron.__init__", "src/naima/radiative.py:InverseCompton.__init__", "src/naima/radiative.py:Bremsstrahlung.__init__", "src/naima/radiative.py:PionDecay.__init__", "src/naima/radiative.py:PionDecayKelner06.__init__", "src/naima/extern/validator.py:validate_physical_type"]}
{"id": "C101", "title": "A fit does not depend on the units of the data tables", "statement": "Giving the same measurements in other units, column by column and table by table (energies in keV or TeV, fluxes in erg/(cm2 s) or SI units, widths in yet another unit), validation accepts or refuses alike and produces the same table content with fluxes in the same unit; the log-probability of every parameter vector is the same, and get_sampler guesses the same normalisation and starts the walkers at the same points, for every model function that gives the same physical spectrum for the same physical data.", "quantifier": "all lists of tables with any subset of columns in any proper units, all requests for sed, all model functions and priors, parameter vectors, get_sampler options and random numbers", "why_tests_cant": "One would have to try every combination of units of a dozen optional columns; a test fixes one.", "anchors": ["src/naima/utils.py:validate_data_table", "src/naima/utils.py:_validate_single_data_table", "src/naima/utils.py:generate_energy_edges", "src/naima/utils.py:sed_conversion", "src/naima/core.py:lnprobmodel", "src/naima/core.py:lnprob", "src/naima/core.py:get_sampler"]}
{"id": "C102", "title": "Synchrotron self Compton by the documented recipe", "statement": "Following the documentation, the synchrotron luminosity of an electron population (flux with distance 0) divided by 4 pi R^2 c and multiplied by 2.24 can be given to InverseCompton as a seed field: it is accepted in whatever units, the field seen by the electrons is exactly that photon density, the resulting spectrum is finite and non-negative, quadratic in the number of electrons, inversely proportional to the square of the source size, and adds to that of other fields.", "quantifier": "all electron distributions, ranges and grids, magnetic fields, source sizes, units, arrays of synchrotron photon energies and lists of other seed fields, all photon energies", "why_tests_cant": "The result of one model is the input of another: unit conversions, array validation, two quadratures and the per-field sum are composed; the scaling must hold for all inputs, not for the one example.", "anchors": ["src/naima/radiative.py:Synchrotron", "src/naima/radiative.py:InverseCompton", "src/naima/radiative.py:BaseRadiative.flux"]}
{"id": "C103", "title": "Synchrotron spectra have the documented slope, index and cutoff", "statement": "Every synchrotron spectrum rises towards low photon energies as A E^(-2/3) (nu F_nu as E^(4/3)), with one coefficient A for all photon energies, never exceeds A E^(-2/3) exp(-E/Ec(Emax)), and is at least A E^(-2/3) times a factor that tends to one below the critical energy of the slowest electrons. Electrons with a power law of index a > 1/3 on a range wide enough and a grid fine enough give a photon index (a+1)/2 and a normalisation proportional to B^((a+1)/2).", "quantifier": "all electron distributions, ranges, grids and magnetic fields, all photon energies > 0; for the index all power laws and any precision", "why_tests_cant": "bounds at every photon energy for every distribution; a limit over ranges and grids", "anchors": ["src/naima/radiative.py:Synchrotron._spectrum", "src/naima/radiative.py:Synchrotron"]}
{"id": "C104", "title": "The total synchrotron power is the classical loss rate", "statement": "Integrated over all photon energies, the synchrotron luminosity of one electron (Lorentz factor at least 30) in a field B is within 1 % of 4/3 sigma_T c B^2/(8 pi) (gamma^2 - 1); the luminosity E dN/dE of a Synchrotron spectrum is integrable over all photon energies and as the electron grid is refined its integral tends to a value within 1 % of the sum of these losses over the electrons.", "quantifier": "all magnetic fields and Lorentz factors; all electron distributions (continuous up to finitely many jumps), ranges from 30 rest energies up, grids fine enough", "why_tests_cant": "an integral over all photon energies, uniformly in B and the electron spectrum: a test samples a few photon energies and one source", "anchors": ["src/naima/radiative.py:Synchrotron._spectrum", "src/naima/radiative.py:Synchrotron"]}
{"id": "C105", "title": "The total inverse Compton power in a thermal field is the Thomson loss rate", "statement": "Integrated over all photon energies, the inverse Compton luminosity of one electron (Lorentz factor at least 30) in an isotropic thermal photon field of energy density U and temperature T is at most 1 % above 4/3 sigma_T c U (gamma^2 - 1), and below it by at most 1 % plus 60 gamma kT/mc^2 (the Klein-Nishina suppression); the luminosity E dN/dE of an InverseCompton spectrum is integrable over all photon energies and as the electron grid is refined its integral tends to a value within these bounds summed over the electrons.", "quantifier": "all temperatures > 0, energy densities and Lorentz factors; all electron distributions (continuous up to finitely many jumps), ranges from 30 rest energies up, grids fine enough", "why_tests_cant": "an integral over all photon energies, uniformly in T, U and the electron spectrum: a test samples a few photon energies and one source", "anchors": ["src/naima/radiative.py:InverseCompton._calc_specic", "src/naima/radiative.py:InverseCompton._iso_ic_on_planck"]}
{"id": "C106", "title": "estimate_B recovers the magnetic field of the emitter", "statement": "If the synchrotron spectrum of some electrons in a field B and the inverse Compton spectrum of the same electrons in an isotropic thermal photon field of energy density U, seen from the same distance, are given to estimate_B as X-ray and VHE tables that cover a wide enough range of energies in small enough steps, with photon_energy_density=U, then the returned field differs from B by at most 2 % plus a bound kappa on the Klein-Nishina suppression 60 gamma kT/mc^2.", "quantifier": "all fields B > 0, temperatures, energy densities, distances, electron distributions (continuous up to finitely many jumps) on ranges from 30 rest energies up with kappa at most 1/2, all fine enough electron grids, all pairs of validated tables of the same kind with wide enough range and small enough steps", "why_tests_cant": "a limit over tables and grids for every electron spectrum and every field: a test runs one source with one table", "anchors": ["src/naima/utils.py:estimate_B", "src/naima/radiative.py:Synchrotron", "src/naima/radiative.py:InverseCompton"]}
{"id": "C107", "title": "The likelihood depends on the measurements, not on their layout in tables", "statement": "Two lists of data tables that contain the same measurements (energies, differential fluxes, errors, upper-limit flags) give every spectrum the same log-likelihood and the same log-probability, however the measurements are ordered, distributed over tables and expressed (SED or differential flux, units, error columns, bin widths given or generated), and whatever sed option is used to validate them; fitting two sets of tables together adds their log-likelihoods. The tables state one confidence level; with several levels it holds when no two measurements have the same energy, and fails for ties.", "quantifier": "all lists of accepted tables of any length with positive energies, all permutations and splits of their rows, all tie orders of the sort, all spectra (NaN and infinities included), all priors", "why_tests_cant": "a relation between all pairs of layouts of the same data: a test compares one pair", "anchors": ["src/naima/utils.py:validate_data_table", "src/naima/core.py:lnprobmodel", "src/naima/core.py:lnprob"]}
{"id": "C108", "title": "Synchrotron spectra are accurate at the default number of grid points", "statement": "With the default 100 electron energies per decade over at least a decade, the synchrotron spectrum of any positive continuous electron distribution whose logarithmic slope rises by at most 10 and falls by at most 60 per e-folding is, at every photon energy up to five times the critical energy of the most energetic electrons, at most 0.1 % above and at most 1.1 % below the exact integral of (electrons per unit energy) x (AKP10 emission of one electron). In particular for power laws of index up to 10, and for exponential cutoffs (index up to 5) when Eemax is up to 60 cutoff energies and the photon energy up to 200 critical energies of electrons at the cutoff. At any number n of points per decade there is an explicit error bound in the step of the grid.", "quantifier": "all fields B > 0, electron limits, electron distributions with bounded curvature, all numbers of grid points, all lists of photon energies in the stated range", "why_tests_cant": "an error bound over all electron spectra and photon energies: a test compares a few values with a reference that has its own error", "anchors": ["src/naima/radiative.py:Synchrotron._spectrum", "src/naima/utils.py:trapz_loglog"]}
{"id": "C109", "title": "The best-fit normalisation exists, is unique and is the weighted mean", "statement": "When only the normalisation A of a fixed spectral shape m is fitted to a table without upper limits and the shape is non-zero at some measured energy, the log-likelihood is a strictly concave function of A with exactly one maximum, also with asymmetric errors. With symmetric errors it is exactly a parabola whose top is the weighted mean sum(m f/e^2)/sum(m^2/e^2) and whose width is the inverse of sum(m^2/e^2). If the data are an exact multiple A0 of the shape, A0 has log-likelihood 0 and every other A a negative one. With upper limits at one common confidence level a best A still exists and, for a non-negative shape, no best A exceeds the best A of the detections alone.", "quantifier": "all spectral shapes, data tables (any length, units, asymmetric errors, upper limits) and amplitudes", "why_tests_cant": "existence and uniqueness of a maximum over all real amplitudes, for every table", "anchors": ["src/naima/core.py:lnprobmodel"]}
{"id": "C110", "title": "plot_data draws the measurements it is given, in each documented form", "statement": "Given a table or a list of tables, plot_data adds to the figure each measurement exactly once: at its energy in the unit of the axis, with its flux as an SED or differential spectrum as asked for, bars as long as its errors (shortened where they would reach zero), upper limits as limits; the axes are labelled with the units used. The order of rows and tables, their units, the kind of the fluxes and the form of the error columns do not matter. Given a sampler it draws the same points and limits as for the tables that were fitted, whatever data_sed was used in the fit. Tables that are refused by the validation are refused with the same exception. (False for dictionaries, the third documented form: none is ever drawn.)", "quantifier": "all lists of tables with drawable measurements, all ways of sorting equal energies, all data_sed, sed, e_unit options, figures", "why_tests_cant": "ranges over all tables and layouts; a test draws one and looks at no values", "anchors": ["src/naima/plot.py:plot_data", "src/naima/plot.py:_plot_data_to_ax", "src/naima/utils.py:validate_data_table"]}
{"id": "C111", "title": "The sampler, position and settings that are given are the ones used", "statement": "run_sampler with a sampler and a position runs that sampler with its own data and model from that position, whatever other arguments are given, and the chain holds exactly the states of the run; without them it makes a sampler for the data and model of the arguments, burns it in and runs it. A missing data table or model is a TypeError, an invalid table the exception of its validation, before any worker pool is made. After an interactive fit matplotlib's interactive setting is what it was, and parameters count as a maximum only if the fitter says so. (False: a sampler without position, or a position without sampler, is ignored; when the fitter raises interactive mode stays off.)", "quantifier": "all samplers, positions, keyword arguments, models that raise at any evaluation, outcomes of the fitter", "why_tests_cant": "all combinations of arguments and points of failure", "anchors": ["src/naima/core.py:run_sampler", "src/naima/core.py:get_sampler"]}
{"id": "C112", "title": "plot_chain shows the chain of the parameter it is asked for", "statement": "plot_chain(sampler, p, last_step) draws the trace of every walker of parameter p exactly once (the traces emphasised are those of the last three walkers, or of the last five per cent from 60 walkers on), a histogram (25 to 100 bins) of all samples of that parameter, or with last_step of the last sample of every walker, a line at their median inside the band from the 16th to the 84th percentile, with at most half the samples and one on either side of the line and at least 0.68(n-1)-1 samples in the band, and the number of walkers and steps, the autocorrelation time of that parameter and the mean acceptance fraction; an index counted from the end means the same parameter and label, any other index is refused with IndexError; without p the figure of every parameter is made in order, equal to that of the single call, and nothing is returned; median and uncertainties are those of the results table. Negations: a parameter that never moved makes plot_chain(sampler) raise and the following parameters are not shown; with last_step the results table is made of other samples than the plot.", "quantifier": "all chains (any number of steps, walkers, parameters), labels, acceptance fractions, parameter indices and both values of last_step", "why_tests_cant": "the figures depend on every entry of the chain and on the number of walkers; tests look at one chain and only check that a figure is made", "anchors": ["src/naima/plot.py:plot_chain", "src/naima/plot.py:_plot_chain_func", "src/naima/analysis.py:save_results_table"]}
{"id": "C113", "title": "Fitting the normalisation of a radiative model is well posed and recovers the truth", "statement": "A fit whose model function returns model.flux(data, distance) or model.sed(data, distance) of a radiative model (synchrotron, inverse Compton with any seeds, bremsstrahlung, pion decay with or without lookup table, after any history), with the normalisation of the particle distribution as its parameter, to a table of differential fluxes or SED points without upper limits: if the spectrum is finite, nowhere negative and not zero at every energy, the log-likelihood is a strictly concave function of the (positive) normalisation, the same whether flux or sed is returned and whatever the unit of the energies, and if the measured fluxes are positive exactly one positive normalisation maximises it. If the data are what the model predicts for some distribution, that distribution has log-likelihood 0 and every other multiple of it less. For the amplitude of a power law of electrons radiating synchrotron emission the conditions on the spectrum always hold, whatever the index, field, energy range, grid and distance.", "quantifier": "all radiative models and their parameters, histories, particle distributions, distances, energy units, data tables without upper limits", "why_tests_cant": "existence and uniqueness of a maximum over all positive normalisations, for every model and data table; a test fits one data set and sees where one run ends", "anchors": ["src/naima/core.py:lnprobmodel", "src/naima/radiative.py:BaseRadiative.flux", "src/naima/radiative.py:BaseRadiative.sed", "src/naima/models.py:PowerLaw"]}
{"id": "C114", "title": "Within their limits the parameters of the Sherpa models give finite, non-negative photon counts", "statement": "The four Sherpa models register exactly the parameters their flux unpacks, in the same order, with default values within their limits, and a fit varies only the index and the amplitude. For all parameter values within the limits, with ref, distance, B and the temperatures not 0, and all positive photon energies, as points or as edges of contiguous increasing bins, the inverse Compton, synchrotron and pion-decay models return one finite non-negative photon count per point or bin (pion decay: if the tabulated cross sections are finite and non-negative). guess stores the amplitude times the ratio of the integrals of data and model exactly if this is at most 1e60 and raises otherwise, also when the model vanishes over the data although the amplitude is positive. False at values the limits allow: distance 0 (no counts, all models), B = 0 (all counts NaN), a bremsstrahlung weight 0 (no counts), and guess from amplitude 0 stores NaN without an exception.", "quantifier": "all Sherpa models, parameter values within the limits, photon energies, bins and data", "why_tests_cant": "the parameter space is a continuum with its boundary; a test evaluates the default values", "anchors": ["src/naima/sherpa_models.py:SherpaModelECPL.__init__", "src/naima/sherpa_models.py:SherpaModel.guess", "src/naima/sherpa_models.py:SherpaModel.calc", "src/naima/sherpa_models.py:InverseCompton", "src/naima/sherpa_models.py:Synchrotron", "src/naima/sherpa_models.py:Bremsstrahlung", "src/naima/sherpa_models.py:PionDecay"]}
{"id": "C115", "title": "The corner plot shows every sample with the best one marked and leaves the plot settings alone", "statement": "plot_corner calls the corner package once, with the samples of all steps and walkers in order, the run's labels, quantiles 0.16, 0.5 and 0.84 and a line width of 0.7; the marked point is the parameter vector of a sample whose log-probability no other exceeds (none with show_ML=False); a keyword of the call replaces the default of its name and every other option is left to the package; the line width is afterwards what it was. Without the package the call gives None. Not so for samplers whose first blob is a plain number or object (TypeError, unless show_ML=False), for samplers without labels (AttributeError even if the caller passes labels), and after any call that raised, however it was handled, the line width of everything drawn later is 0.7.", "quantifier": "all chains, blobs, keywords, drawing functions, line widths and sessions of calls", "why_tests_cant": "ranges over all chains and over all sessions with failing and succeeding calls in any order", "anchors": ["src/naima/plot.py:plot_corner", "src/naima/plot.py:find_ML"]}
{"id": "C116", "title": "In the Thomson regime a power law of electrons gives inverse Compton emission of photon index (α+1)/2", "statement": "Electrons with a power law of index α > -1 scattering a thermal photon field of temperature T and energy density u, isotropic or arriving at an angle θ ≠ 0: for photon energies E with kT·E ≤ κ(mc²)² and kT ≤ κE the InverseCompton spectrum is C·u·T^-2·(T/E)^((α+1)/2), times (1-cos θ)^((α+1)/2) for a field with an angle, to a relative accuracy δ, with one constant C for all fields and photon energies and κ depending only on δ (not on T, u, E or θ), once the electron range is wide enough and the grid fine enough.", "quantifier": "all α > -1, normalisations, temperatures, energy densities, angles, photon energies and accuracies; in the limit of electron range and grid", "why_tests_cant": "an asymptotic law over a continuum of temperatures, photon energies and angles, uniform in all of them", "anchors": ["src/naima/radiative.py:InverseCompton._spectrum", "src/naima/radiative.py:InverseCompton._calc_specic", "src/naima/radiative.py:InverseCompton._iso_ic_on_planck", "src/naima/radiative.py:InverseCompton._ani_ic_on_planck"]}
{"id": "C117", "title": "The energy radiated as bremsstrahlung is the energy loss of Bethe and Heitler", "statement": "For every electron of Lorentz factor γ the photon energy integrated over the computed electron-proton bremsstrahlung cross section is exactly 4α r₀² γ (ln 2γ - 1/3) (Bethe-Heitler, unscreened); over the electron-electron cross section it is the same within 2 % for electrons of 1 GeV or more, in spite of the wrong low-energy correction of C72. Hence for every electron spectrum from 1 GeV up, every density and weights, the energy flux of the documented bremsstrahlung spectrum, integrated over all photon energies, is within 2 % of what the electrons lose on w_ee + w_ep charges per ion.", "quantifier": "all electron energies (protons), all from 1 GeV (electrons); all electron spectra, ranges from 1 GeV, densities and weights", "why_tests_cant": "an integral over a continuum of photon energies for a continuum of electron energies and spectra", "anchors": ["src/naima/radiative.py:Bremsstrahlung._sigma_1", "src/naima/radiative.py:Bremsstrahlung._sigma_2", "src/naima/radiative.py:Bremsstrahlung._sigma_ep", "src/naima/radiative.py:Bremsstrahlung._sigma_ee_rel", "src/naima/radiative.py:Bremsstrahlung._spectrum"]}
{"id": "C118", "title": "Kelner's formula gives the photons between 15 % and a fifth of the energy of the protons", "statement": "For every proton of 0.1 TeV or more, the photons of one collision, with the spectrum PionDecayKelner06 uses, carry at most a fifth of the energy of the proton, and at least 15 % of it up to 10^5 TeV, the range of validity of the formula. Hence for every proton distribution and target density, with the transition energy at its default or above and the integral exact, the energy flux of the computed spectrum integrated over all photon energies above the transition energy is at most a fifth of the energy of the colliding protons: density times c times the sum over protons of energy times inelastic cross section.", "quantifier": "all proton energies from 0.1 TeV; all proton distributions, target densities and transition energies from 0.1 TeV", "why_tests_cant": "bounds on an integral for a continuum of proton energies and all distributions", "anchors": ["src/naima/radiative.py:PionDecayKelner06._Fgamma", "src/naima/radiative.py:PionDecayKelner06._sigma_inel", "src/naima/radiative.py:PionDecayKelner06._photon_integrand", "src/naima/radiative.py:PionDecayKelner06._calc_specpp_hiE", "src/naima/radiative.py:PionDecayKelner06._spectrum"]}
{"id": "C119", "title": "When the progress of a run is printed, and what it describes", "statement": "While a chain of n steps runs, a progress report is printed exactly at the steps i for which 20 i is a multiple of n: gcd(n, 20) evenly spaced reports, one every five percent when n is a multiple of 20. Each gives percentage, step and total, the first labels, the median and standard deviation over the walkers of each parameter in order, and the average and maximum log-probability of ensemble number i counted from zero. (In the code a run whose number of steps has no factor in common with 20 prints only the report of step 0, and the report of step i describes the ensemble after i + 1 steps; no report exceeds 95 percent.)", "quantifier": "all numbers of steps, parameters, labels, transitions and ensembles", "why_tests_cant": "a statement about divisibility for every run length and every sequence of ensembles", "anchors": ["src/naima/core.py:_run_mcmc"]}
{"id": "C120", "title": "Nuclear enhancement multiplies the pion-decay spectrum by 1.37 to 1.92", "statement": "For every proton above the pion-production threshold the nuclear enhancement factor of PionDecay lies between 1.37 and 1.9141, never grows with the energy of the proton, and jumps by less than 1e-4 at 1 GeV where its definition changes; the inelastic cross section it is based on grows with energy. Hence for every proton distribution, target density, grid above threshold spanning at most thirty decades, high-energy model and history of earlier evaluations, the spectrum with nuclear_enhancement=True is finite and at every photon energy between 1.3699 and 1.9142 times the spectrum with nuclear_enhancement=False.", "quantifier": "all proton energies above threshold; all proton distributions, densities, grids, photon energies, models and histories", "why_tests_cant": "bounds on a transcendental function on an unbounded range, and for all proton distributions", "anchors": ["src/naima/radiative.py:PionDecay._nuclear_factor", "src/naima/radiative.py:PionDecay._sigma_inel", "src/naima/radiative.py:PionDecay._diffsigma", "src/naima/radiative.py:PionDecay._spectrum"]}
{"id": "C121", "title": "No synchrotron spectrum is harder than photon index 2/3, and a stronger field never gives less emission", "statement": "For every electron distribution, positive magnetic field and electron energy grid, the Synchrotron spectrum falls at least as fast as the -2/3 power of photon energy: for photon energies e <= e' the value at e' is at most (e/e')^(2/3) times the value at e (times the rounding of the logarithmic quadrature, below 1+2e-8 for grids of up to thirty decades). Consequently multiplying the field by k >= 1 multiplies the emission at every photon energy by at least k^(2/3), up to the same factor.", "quantifier": "all electron distributions, fields, field ratios, grids and photon energies", "why_tests_cant": "an inequality for a transcendental kernel over all distributions and energies", "anchors": ["src/naima/radiative.py:Synchrotron._spectrum"]}
{"id": "C122", "title": "Energy contents of neighbouring ranges add up, a part never holds more than the whole, and power laws give the closed form", "statement": "compute_We and compute_Wp lay out a new grid for each range. With 100 or more points per decade (the default), for every particle spectrum that is positive and continuous, never hardens, and steepens by at most ten powers per e-folding: the contents of two neighbouring ranges of at least a decade add up to the content of the whole to within 0.11 %, and the content of a part is at most 1.0011 times that of the whole. For a PowerLaw of any index over any range the result is the textbook closed form to a part in 1e10.", "quantifier": "all particle spectra of bounded curvature, energy ranges, grid densities from 100 per decade, units", "why_tests_cant": "an inequality between quadratures on unrelated grids, for all spectra and ranges", "anchors": ["src/naima/radiative.py:BaseElectron.compute_We", "src/naima/radiative.py:BaseProton.compute_Wp"]}
{"id": "C123", "title": "The total inverse Compton power in a thermal beam at angle θ is σ_T c U γ² (1 − cos θ)²", "statement": "For every electron spectrum above the rest energy and every photon field given as [name, T, U, theta] with an angle whose cosine is not 1, the energy flux of InverseCompton.flux is integrable over all photon energies and, as n_eed grows, its integral converges to a value that is at most 1 % above the sum over the electrons of σ_T c U γ² (1 − cos θ)², and below it by at most 1 % plus 26 γ kT/(m c²) (1 − cos θ) of each electron's rate (the Klein–Nishina suppression). The average of that rate over directions is the isotropic loss rate of C105.", "quantifier": "all electron spectra, temperatures, energy densities, angles, energy ranges", "why_tests_cant": "an integral over all photon energies and electrons in a limit of grids", "anchors": ["src/naima/radiative.py:InverseCompton._ani_ic_on_planck", "src/naima/radiative.py:InverseCompton._spectrum", "src/naima/radiative.py:InverseCompton._calc_specic"]}
{"id": "C124", "title": "Inverse Compton scattering conserves photons: in a thermal field each electron scatters σ_T c n of them, times 1 − cos θ in a beam", "statement": "For every electron spectrum above the rest energy and every thermal photon field, isotropic or with an angle whose cosine is not 1, the spectrum of InverseCompton is integrable over all photon energies and, as n_eed grows, its integral, the number of photons emitted per unit time, converges to a value that is at most 1 % above the number of electrons times σ_T c n (times 1 − cos θ for a beam), and below it by at most 1 % plus 8 γ kT/(m c²) (times 1 − cos θ) of each electron's share. n is the number density of photons of the field, 2ζ(3)/π² (kT/ħc)³ for the full blackbody density.", "quantifier": "all electron spectra, temperatures, energy densities, angles, energy ranges", "why_tests_cant": "an integral over all photon energies and electrons in a limit of grids", "anchors": ["src/naima/radiative.py:InverseCompton._iso_ic_on_planck", "src/naima/radiative.py:InverseCompton._ani_ic_on_planck", "src/naima/radiative.py:InverseCompton._spectrum"]}
{"id": "C125", "title": "The spectrum from a tabulated photon field does not depend on whether the table is listed upwards or downwards", "statement": "Reversing the rows of a photon table describes the same photon field, so InverseCompton should give the same spectrum. It does not: a table with descending energies is accepted and gives minus the spectrum of the ascending table (up to 1 part in 10⁸), so negative fluxes. The same holds of trapz_loglog: reading its samples backwards changes the sign.", "quantifier": "all electron spectra, photon tables with two or more rows, photon energies; all sample lists of trapz_loglog", "why_tests_cant": "a statement about every table and its reversal; the tests use ascending tables only", "anchors": ["src/naima/radiative.py:InverseCompton._iso_ic_on_monochromatic", "src/naima/radiative.py:InverseCompton._process_input_seed", "src/naima/utils.py:trapz_loglog"]}
{"id": "C126", "title": "Sampling a continuous photon field more and more finely gives the inverse Compton spectrum of the continuous field", "statement": "For every electron spectrum and every photon field with a density per unit energy that is non-negative, bounded and continuous except at finitely many energies: to any precision, on every sufficiently fine electron grid every sufficiently fine ascending table of samples of the density gives a finite spectrum equal to the double integral over electron and photon energy of electrons × density × published rate, up to a factor (E_max/E_min)^(2·10⁻¹⁰) that the rounding of local indices can cost.", "quantifier": "all electron spectra, photon densities, photon energies, all tables below a mesh", "why_tests_cant": "a double limit over all tables and grids", "anchors": ["src/naima/radiative.py:InverseCompton._iso_ic_on_monochromatic", "src/naima/radiative.py:InverseCompton._calc_specic", "src/naima/utils.py:trapz_loglog"]}
{"id": "C127", "title": "Exchanging the photons of an InverseCompton object", "statement": "After the photon densities held in seed_photon_fields are exchanged, the next flux request on the same InverseCompton object should be answered for the new photons. It is when the printed form of the field changes; but the printed form of a table of more than 1000 rows shows only its first and last three densities, so exchanging densities in between returns the spectrum of the old photons (off by a factor two in the witness, for every table length from 1002 rows and every positive electron population).", "quantifier": "all pairs of photon tables on the same energies, all other parameters and arguments of the request, all hash functions without a collision on the two tokens, all formats numpy may choose for the numbers, all electron populations above 1000 mc2", "why_tests_cant": "a unit test uses one small table; the failure needs a table longer than numpy's print threshold and a change away from its edges", "anchors": ["src/naima/model_utils.py:memoize", "src/naima/radiative.py:InverseCompton._spectrum", "src/naima/radiative.py:InverseCompton._process_input_seed"]}
{"id": "C128", "title": "Photons of one energy, and tabulated photon fields: Thomson scattering with the first Klein-Nishina correction", "statement": "In an isotropic field of photons of one energy eps0 with density n, the computed inverse Compton spectrum of any electron population contains sigma_T c n photons and 4/3 sigma_T c gamma^2 n eps0 of energy per electron and second: never more (up to 1e-4), and less by at most the Klein-Nishina terms 8/3 gamma eps0 and 63/10 gamma eps0 of Blumenthal and Gould (plus 1/gamma^2, 1/gamma^4). The same holds for the continuous field that fine photon tables approach.", "quantifier": "all electron spectra and ranges from the electron rest energy up, all photon energies and densities, all continuous photon fields, in the limit of fine electron grids", "why_tests_cant": "an integral over all photon energies, for every electron spectrum, in the limit of the grid", "anchors": ["src/naima/radiative.py:InverseCompton._iso_ic_on_monochromatic", "src/naima/radiative.py:InverseCompton._calc_specic", "src/naima/radiative.py:InverseCompton._spectrum"]}
{"id": "C129", "title": "The shape of the requested energies does not depend on earlier requests", "statement": "What flux and sed return (or whether they raise) for photon energies given as a scalar, a row, a column or a matrix does not depend on what was asked before: the result has the shape it has on a new object.", "quantifier": "all histories of requests in all shapes, all spectra, parameters and distances", "why_tests_cant": "depends on the order of earlier calls on the same object and on which of them are still cached", "anchors": ["src/naima/model_utils.py:memoize", "src/naima/radiative.py:BaseRadiative.flux", "src/naima/radiative.py:BaseRadiative.sed", "src/naima/radiative.py:InverseCompton._spectrum"]}
{"id": "C130", "title": "An SED or flux is for the distance asked for", "statement": "In any history of flux(E), flux(E, distance=d) and sed(E, d) on one object, with energies and parameters unchanged, each answer is the flux or SED at the distance of that call.", "quantifier": "all histories of calls, all positive distances and length units, all spectra, all numbers of digits numpy is told to print", "why_tests_cant": "depends on which distances were asked for earlier on the same object, and on their digits beyond the printed ones", "anchors": ["src/naima/model_utils.py:memoize", "src/naima/radiative.py:BaseRadiative.flux", "src/naima/radiative.py:BaseRadiative.sed"]}
{"id": "C131", "title": "Samples respect the prior", "statement": "With a prior that forbids values of a parameter outside an interval, every sample of the chain, every number in the results table for that parameter and the result of find_ML lie in the interval.", "quantifier": "all priors, models, data tables, numbers of walkers, burn-in steps, steps and worker processes, all proposals and random numbers of the sampler", "why_tests_cant": "depends on the whole history of proposals and acceptances of every walker", "anchors": ["src/naima/core.py:lnprob", "src/naima/core.py:uniform_prior", "src/naima/core.py:_run_mcmc", "src/naima/core.py:get_sampler", "src/naima/core.py:run_sampler", "src/naima/analysis.py:save_results_table", "src/naima/plot.py:find_ML"]}
{"id": "C132", "title": "Rounding errors do not spoil the integrals", "statement": "In floating-point arithmetic trapz_loglog gives the integral of the function joining the samples by power laws up to rounding errors amplified by a bounded factor: in double precision, on grids with up to 460 points per decade and indices between -20 and 20 at least 0.01 away from -1, to one part in 10^8.", "quantifier": "all samples, numbers of samples, orders of summation, and all arithmetics whose operations have relative errors at most u", "why_tests_cant": "depends on how rounding errors of every operation combine, for every value of the samples", "anchors": ["src/naima/utils.py:trapz_loglog"]}
{"id": "C133", "title": "Small changes of the parameters change spectra, energy contents and likelihood little", "statement": "If the numbers of particles at every energy change by at most the fraction epsilon, then so do (up to a rounding of at most 1e-8 for ranges up to 12 decades) the synchrotron, inverse Compton and pion-decay spectra at every photon energy and the energy contents; the analytic particle distributions depend on their parameters this way (parameters that tend to a limit change the numbers eventually by less than any fraction, uniformly in energy), and the log-likelihood of a fit changes by a bounded amount that tends to zero with the fraction up to that rounding.", "quantifier": "all particle distributions, parameter values and sequences tending to them, fractions below one, photon energies, data tables, ranges and grids", "why_tests_cant": "a modulus of continuity ranges over all pairs of nearby parameter values", "anchors": ["src/naima/radiative.py:Synchrotron._spectrum", "src/naima/radiative.py:InverseCompton._spectrum", "src/naima/radiative.py:PionDecay._spectrum", "src/naima/radiative.py:BaseElectron.compute_We", "src/naima/radiative.py:BaseProton.compute_Wp", "src/naima/models.py:PowerLaw.eval", "src/naima/models.py:ExponentialCutoffPowerLaw.eval", "src/naima/models.py:BrokenPowerLaw.eval", "src/naima/models.py:ExponentialCutoffBrokenPowerLaw.eval", "src/naima/models.py:LogParabola.eval", "src/naima/core.py:lnprobmodel"]}
{"id": "C134", "title": "The documented absorbed model is transmission times inverse Compton plus synchrotron", "statement": "The model function of the worked example on extragalactic sources is computed for every vector of six or more parameters with positive field and non-negative redshift and all positive photon energies: at each energy it is the inverse Compton flux times the transmission of the background light plus the synchrotron flux, finite and not negative, with the energy in the electrons above 1 TeV as blob. The parameters mean what their labels say; adding x to the first multiplies model and blob by 10^x; where the absorption is known the model lies between the synchrotron flux and the sum of both fluxes, and a redshift with more absorption never gives a brighter source. Fewer than six parameters raise IndexError, negative redshifts ValueError.", "quantifier": "all parameter vectors, photon energies in any unit, optical-depth files of the shipped shape and cubic splines", "why_tests_cant": "the sampler calls the function with any parameters; the claims range over all of them and over all energies", "anchors": ["src/naima/models.py:EblAbsorptionModel.transmission", "src/naima/models.py:BrokenPowerLaw.__call__", "src/naima/radiative.py:InverseCompton.flux", "src/naima/radiative.py:BaseRadiative.flux", "src/naima/radiative.py:BaseElectron.compute_We"]}
{"id": "C135", "title": "The documented joint fit: what the sampler is told at every parameter vector", "statement": "For the worked example that fits X-rays and gamma rays with synchrotron and inverse Compton emission, the log-probability at every parameter vector within its prior with positive field is exactly minus half the sum of the squared normalised deviations of the data from the sum of the two fluxes (in the representation of the data), with that spectrum and the energy in the electrons above 1 TeV as blobs; outside the prior it is minus infinity and the model is computed all the same; fewer than four parameters raise IndexError. The prior admits a field of exactly 0, where the log-probability is NaN.", "quantifier": "all parameter vectors and all validated tables of measured differential fluxes or spectral energies", "why_tests_cant": "the walkers visit arbitrary parameter vectors; the claim composes prior, model function and likelihood for all of them", "anchors": ["src/naima/core.py:uniform_prior", "src/naima/core.py:lnprob", "src/naima/core.py:lnprobmodel", "src/naima/radiative.py:InverseCompton.flux", "src/naima/radiative.py:BaseRadiative.flux", "src/naima/radiative.py:BaseElectron.compute_We"]}
{"id": "C136", "title": "The documented inverse Compton fit: what the sampler is told at every parameter vector", "statement": "For the worked example that fits gamma rays with inverse Compton emission, the log-probability at every parameter vector within its prior (norm at least 0, index between -1 and 5) is exactly minus half the sum of the squared normalised deviations of the data from the computed flux, with that spectrum, the electron distribution at the saved energies (equal to the documented law of the parameters) and the energy in the electrons above 1 TeV as blobs; outside the index range with norm at least 0 it is minus infinity and the model is computed all the same. A data table of spectral energies instead of differential fluxes raises UnitConversionError, whatever the parameters.", "quantifier": "all parameter vectors with norm at least 0 and all validated tables", "why_tests_cant": "the walkers visit arbitrary parameter vectors; the claim composes prior, model function and likelihood for all of them", "anchors": ["src/naima/core.py:uniform_prior", "src/naima/core.py:lnprob", "src/naima/core.py:lnprobmodel", "src/naima/radiative.py:InverseCompton.flux", "src/naima/models.py:ExponentialCutoffPowerLaw.__call__", "src/naima/radiative.py:BaseElectron.compute_We"]}
{"id": "C137", "title": "The documented Crab nebula model: five components, their sum, and how they grow", "statement": "For the worked example of synchrotron self-Compton emission, at every amplitude of the electrons, field, distance and list of photon energies, each of the five components (CMB, FIR, NIR, the electrons' own synchrotron photons, synchrotron emission) has a finite non-negative SED; the total is their sum energy by energy; and with c times as many electrons it is c times four of them plus c squared times the self-Compton component.", "quantifier": "all positive amplitudes, fields, distances and factors c, and all lists of positive photon energies in any energy unit", "why_tests_cant": "one radiative model feeds another here and five results are summed; the claim is about all their inputs at once", "anchors": ["src/naima/radiative.py:BaseRadiative.sed", "src/naima/radiative.py:BaseRadiative.flux", "src/naima/radiative.py:InverseCompton._process_input_seed", "src/naima/radiative.py:Synchrotron._spectrum", "src/naima/models.py:ExponentialCutoffBrokenPowerLaw.__call__"]}
{"id": "C138", "title": "The documented functional fits: what the sampler is told at every parameter vector", "statement": "For the example fits of a power law with exponential cutoff and of a log-parabola in the unit of the data, the log-probability at every parameter vector is minus half the sum of the squared normalised deviations of the data from the documented curve within the prior and minus infinity outside it, with the curve saved in both cases; it is never positive, and it is 0 exactly for the vectors within the prior whose curve goes through every measured flux. Fewer than three parameters raise IndexError.", "quantifier": "all parameter vectors and all validated tables of measured fluxes of any kind and unit", "why_tests_cant": "the walkers visit arbitrary parameter vectors; the claim composes prior, model function and likelihood for all of them and all tables", "anchors": ["src/naima/core.py:uniform_prior", "src/naima/core.py:lnprob", "src/naima/core.py:lnprobmodel", "src/naima/models.py:ExponentialCutoffPowerLaw.__call__", "src/naima/models.py:LogParabola.__call__"]}
