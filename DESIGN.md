# Formal model of zblz/naima — design

Source of truth: `/repo` (read as text; never run).  Model and proofs: `/verif/lean/Verif`.

## 1. Layout

| directory | contents |
|---|---|
| `Verif/Base/*`  | number systems, units, arrays, Python exceptions: the vocabulary shared by model and statements |
| `Verif/Model/*` | the code, function by function; every definition cites `/repo` file and lines and says what it simplifies |
| `Verif/Spec/*`  | small independent specifications (what the English property means) |
| `Verif/Proof/*` | helper lemmas only |
| `Verif/Props/*` | the property theorems, with a non-vacuity `example` beside each |

`Props` files contain the statements; they are the only files a reader has to
trust besides `Base`, `Model` and `Spec`.

## 2. How numbers, units and errors are modelled

* **`XR` (ideal IEEE numbers)**: `nan | -inf | finite real | +inf` with the IEEE rules for
  comparison, `+ - * /`, `log`, `pow`, `abs`, but with *exact* real arithmetic for finite values:
  no rounding (but see C132 for the integration routine), no overflow to infinity, no signed zero.  Used where the code's
  behaviour depends on special values (quadrature masks, priors, validators, likelihoods,
  cross-section masks).
* **`ℝ`**: used where the code path only sees finite numbers; every division / log / power in a
  *theorem* is then under a guard that keeps it meaningful (no theorem relies on Lean's `x / 0 = 0`).
* **Units**: a unit is a positive scale and a vector of integer dimension exponents; `Quantity.to`
  fails (UnitConversionError) when the dimensions differ.  Physical types are dimension vectors, as in astropy.
* **Exceptions** are values: `Except PyErr α`; state-changing code that can raise returns the state
  reached at the raise, too.
* **Opaque externals** (parameters of the model, never axioms): sha256 (injective function where a
  theorem needs it, as an explicit hypothesis), float→string formatting, scipy interpolation
  knots, emcee's sampler, h5py's byte format, the user's model and prior functions.

## 3. Properties: what is modelled and how it is proved

(M = Model module, method.  "negation" = the natural property is false of the code; a concrete
witness is proved, and the part that is true is proved with suffix `_partial`.)

| id | modelled | method |
|---|---|---|
| C01 | `memoize` wrapper as state machine (cache, queue), M `Memo` | invariant by induction over call histories |
| C02 | same, any compute function / key | refinement to the uncached function under separating keys |
| C03 | token construction (`"".join`, defaults) on strings | negation: concrete colliding requests; positive part: same-shape requests with separable fields |
| C04 | cache + heap of mutable results | negation witness; partial: no collisions if caller never writes |
| C05 | `InverseCompton.flux` + `specic` attribute over memo | negation witness history; partial: after a cache miss |
| C06 | `InverseCompton.flux` seed branch | decision logic, sums of lists; negation at `seed = len` |
| C07 | `BaseRadiative.flux`/`sed` with units | algebra over ℝ with units |
| C08 | `_spectrum` of each model over `XR` arrays and `trapz_loglog` | per-bin homogeneity lifted by list induction |
| C09,C10 | `set_We/Wp`, `compute_We/Wp`, Python attribute dictionary | equational, uses C08 homogeneity |
| C11 | `_gam`, `_Ep` = `logspace` with `max(10, ..)` | list lemmas about logspace |
| C12 | vectorised spectra as `map`s over energies | structural; negation for Kelner06 |
| C13 | Kelner06 `_spectrum`, `_calc_specpp_*` | algebra; false (NaN) for protons that end below Etrans |
| C14 | Synchrotron `_spectrum`, `Gtilde` | positivity lemma chain |
| C15 | IC kernels incl. masks | real analysis inequalities, NaN case at theta = 0 as negation |
| C16 | `_process_input_seed` over a seed-spec datatype | case analysis, list induction |
| C17 | `Bremsstrahlung._spectrum` with units | negation (UnitConversionError) + partial |
| C18 | `_sigma_1`, `_sigma_ep` etc. | negation (negative near endpoint) + partial |
| C19 | `_diffsigma` and everything below it, four models | real inequalities |
| C20 | class-level dict writes as state machine | independence by induction over evaluation histories |
| C21 | `_spectrum`/`_loadLUT` attribute machine | invariant by induction over attribute-change histories; then the spectrum with the current table or the full calculation of C73 |
| C22–C24 | `models.py` `eval` functions with units | real analysis |
| C25 | `TableModel` log-log linear interpolation + masks | interpolation lemmas |
| C26 | `EblAbsorptionModel` index/tau selection | decision logic; negation above 100 TeV |
| C27,C28 | validator functions over `XR` | decision logic; negation for NaN and for arrays |
| C29,C30 | `trapz_loglog` over `XR` | exact integral (interval integrals of `rpow`), list induction |
| C31,C32 | energy edges | list induction |
| C33 | `sed_conversion` on dimension vectors | algebra; negation for number density |
| C34–C38 | data-table validation | permutations/sorting, decision logic; negations where found |
| C39 | `estimate_B` | algebra on top of C30 |
| C40–C43 | `lnprobmodel`, priors, `lnprob` | sums over lists; negations for normal/log-uniform priors and mixed cl |
| C44,C45 | guess and labels in `get_sampler` | algebra, string decision logic |
| C46 | `_prefit` | decision logic on optimiser outcome |
| C47 | Nelder–Mead loop | invariants by induction on fuel = actual loop bound |
| C48 | `run_sampler` pool handling | state machine |
| C49–C52 | `find_ML`, `_calc_CI`, percentiles, results table | argmax / order-statistics lemmas |
| C53–C55 | `save_run`/`read_run` on an abstract HDF5 tree, crash points | round-trip, crash state machine |
| C56 | interactive fitter event machine | invariant over event sequences |
| C58 | slider limits and initial values | decision logic; negation for negative values |
| C59 | units check of `get_sampler` | decision logic; negation |
| C60–C62 | IC additivity, pion density, Kelner06 positivity | algebra and sign analysis on the spectra |
| C63–C65 | `get_sampler` as a composition, with the caller's objects; emcee's stretch move as a relation | invariant over all sequences of moves; algebra; negations |
| C66,C67 | `_process_blob`, `_read_or_calc_samples` | list induction; negations |
| C68,C69 | `_calc_CI` index selection and sample count | counting in sorted lists; negations |
| C70–C74 | spectra of the five radiative models against the published formulas, written over ℝ (`Spec/Kafexhiu`, `Spec/Kelner`, head of the C70–C72 files) | evaluation of the extended-real expressions; for C74 differentiation and the fundamental theorem of calculus; the jump of σ_ee at half the rest energy from the one-sided limits of its branches |
| C75 | integral over photon energies of the modelled kernel for one electron on a monochromatic field; spec: σ_T c and 4/3 σ_T c γ²ε₀ | substitution, explicit bounds of the integrand, squeeze; for the whole spectrum `weighted_limit` (dominated convergence over photon energy of the grid sums) |
| C76 | `PionModel`, `KelnerModel` spectra; spec: the mirror energy (m_π/2)²/E | invariance of the kinematic variables |
| C77 | `_plot_residuals_to_ax` with groups, limits, units, `np.allclose`, `interp1d`; spec `residualSpec` in cgs | interpolation is exact at nodes; case analysis on spectral types; counterexamples |
| C78 | `round2`, `_latex_value_error`, the text part of `_plot_chain_func`; printed decimals as `k·10⁻ⁿ`, any rounding to nearest; spec `Summarises` | real arithmetic with `10ⁿ`, string lemmas; counterexamples |
| C79 | option dictionaries of `plot_data` and `plot_fit` as state (the default objects persist), `plot_CI`'s in-place sort; spec `askedOption` | induction over the history of calls; counterexamples |
| C80 | numbers handed to matplotlib by `_plot_data_to_ax` and `_plot_ulims`; spec `pointSpec`, `limitSpec`, `hbarSpec` in cgs | unit algebra over ℝ, logarithm bounds; counterexamples |
| C81 | `generate_lut_pp`, `LookupTable` with the spline a parameter; spec: cross section of C73 | logarithm algebra; interval bound on 10^0.0856 for the default grid |
| C82 | spectra of C15, C72, C73, C74 | kernels vanish above the particle energy; relativistic kinematics of the recoil system for pions |
| C83 | the model of C70, C71, C73 with `nEed`, `nEpd` free; spec: `∫ N(E)·kernel(E) dE` (Mathlib interval integral) | bin of the log-log rule lies between min·Δx and max·Δx, uniform continuity away from the finitely many jumps, logarithmic grid mesh → 0; array fields: a bin is continuous in its samples down to zero (dominated convergence), the inner rounding of indices squeezed by monotonicity of the outer sum |
| C84 | same; spec `Population` (particles per joule) | each bin is within `(x₂/x₁)^(10⁻¹⁰)` of `∫₀¹ y₁^(1-t) y₂^t` which is monotone in y₁, y₂; counterexample without tolerance |
| C85 | same | the same bin is superadditive (Hölder); additive limit from C83; counterexample for finite grids |
| C86 | `saveDiagnosticPlots` (which figure goes to which file or page, rcParams, caller's labels); whether each drawing raises is a parameter | induction over the two loops, injectivity of file names; counterexamples |
| C87 | `saveResultsTable` (metadata dictionary, conversion for ECSV, keywords for IPAC, file); blobs carry their unit | dictionary lemmas, C49, C52; scaling of percentiles; counterexamples |
| C88 | `fitFigure` (layers) and `fitAxis` (limits); spec `SameSpectralKind`, projections of the figure | case analysis over the arguments, unit dimensions of C33, logarithm bounds; counterexamples |
| C89 | Model/Curves.lean: the numbers handed to matplotlib by plot_samples, plot_CI and _plot_MLmodel, random indices as arbitrary functions | unfolding the model on a well-formed run; C33 for the conversion, C49 for the best sample, C50 for the bands; counting rows for the deviation |
| C90 | axes as a state (labels, layers), `plotData` as the update; spec `AxisSays`, `LayerOf` (C80) | induction over the history with the invariant that the label is empty or names the unit; counterexamples for every pair of drawable tables |
| C91 | `plotBlob`, `plotDistribution`, `findMLAll` over the runs of C89; specs `StoredRun`, `HoldsSpectrum`, `HalfWidths`, counts of samples | order statistics of the interpolated percentile, argmax lemmas of C49, gathering lemmas of C75/C89; counterexamples |
| C92 | trapz_loglog, grids, compute_We/compute_Wp and ExponentialCutoffPowerLaw (as C20, C83, C22) | each bin compared with the chord in the log-log plane; concavity of ln f − K s²/2 (convexity of ln f + K s²/2) bounds the ratio by exp(K h²/8); the near-−1 slope branch costs exp(1e-10 h); sum over bins |
| C93 | the model of C72 with `nEed` free | sign of σ_ee from log(1−x) ≤ −x−x²/2−x³/3 and Bernoulli; then as C83; NaN: first bin has ordinate −inf; negative: explicit bounds of all bins against the one that diverges |
| C94 | `EneArg` (any value, list of Quantities, dict/table), `memoEnergy`, `validateEne`, the decorated call and `sed` over the cache of C01 | case analysis; histories by the cache invariant of C02 |
| C95 | `openFitter`, `FitterWindow.step/run`: energies, unit of the dummy fluxes, curve, ln L over the parameter state of C56 | case analysis; histories by induction with the invariant that the conversion kept from the first model stays valid |
| C96 | `gamGrid`, `epGrid`, `PrModel.Ep` with the errors of `int`; `PrModel.EpX` (grids of NaN) | case analysis on the signs; every bin of a decreasing grid is non-positive |
| C97 | Spec/Same: equal sizes in cgs, equal dimensions, proper units; Model/Electron, Synchrotron, Brems, Pion, Kelner, ICSeed, ICModel | conversion lemmas per input; relational induction over the seed list (`RelE`); homogeneity for the numbers carried through sums |
| C98 | `SyncModel.spectrum`, `icModelSpectrum` from the seed argument | kernel invariance (`scale_ratio`), relational induction over the seed list, homogeneity of `trapz_loglog` |
| C99 | `Session`: one `Memo` per cache location (object or class) | projection of the session on one object by induction; invariant that every cached result belongs to a call of the same location |
| C100 | constructors as functions from arguments and keyword dictionary to the attribute dictionary or an exception (Model/Construct) | case analysis on the arguments; lookup lemmas for insertion-ordered dictionaries, induction on the keywords; interval arithmetic for the documented digits |
| C101 | relation SameTable between tables (Spec/SameTable), the existing models of validation, likelihood and get_sampler | relational reasoning through the exception monad (RelE), scale equivariance of the generated edges by induction over groups |
| C102 | `Model/SSC`: the recipe, composing `fluxOf` of `Synchrotron` and `icModelSpectrum` | C08, C98 and C15 composed; unit algebra; parsing of a list with one more entry |
| C103 | the model of C70 | two-sided bound of the fitting function by 1.808 x^(1/3) e^(-x); monotonicity of the log-log sum (C84); C83 limit, integrability on (0,∞) and substitution E → √E for the index |
| C104 | the model of C70; spec `lossRate` in cgs | integral of the fitting function enclosed by a table of 801 points (decide +kernel on integers) and monotonicity; dominated convergence with the bound of C103; exchange of the integrals |
| C105 | the model of C71; spec `thomsonLoss` in cgs | first moment of the fitting function enclosed by a table of 1201 points (decide +kernel on integers) and monotonicity; change of variable to the argument of the fitting function; dominated convergence and exchange of the integrals (`Proof/PowerLimit.lean`) |
| C106 | `estimateB` of C39 on tables of values of the models of C104 and C105; spec `SampleOf` | the log-log sum over a table of samples of a computed spectrum tends to its integral over all energies (`Proof/TableSampling.lean`: the spectrum is within 1.00001 of a piecewise continuous function), which is the total power of C104, C105; their ratio is B^2/(8 pi U) |
| C107 | `validateDataTable`, `lnprobmodel`, `lnprob`; spec `measurements`, `pointLnL` (`Spec/Points.lean`) reads the input tables directly | every validated row is a positive multiple of a canonical differential row of its measurement, the likelihood is invariant under per-row scaling and under permutations of rows with one confidence level |
| C108 | `SyncModel.spectrum` against `syncPhotons` (an integral over electron energy) | the curvature of the AKP10 function in the log-log plane is bounded by explicit derivatives (`Proof/SyncAccuracy.lean`); bins where it is not are bounded by the exponential fall of the function |
| C109 | `lnprobmodel` along the ray A m of model values | strict concavity of the asymmetric chi-square; monotone upper-limit term; a continuous function tending to minus infinity has a maximum |
| C110 | `plotInput` (forms of input_data) on top of `validateDataTable` and `plotData` | the validated rows are a permutation of the measurements (C107), drawn rows those of C80, groups partition the rows; dictionaries: case analysis |
| C111 | `runSamplerArgs`, `requiredArgs`, `interactiveBlock` | case analysis on the arguments, with the run lemmas of C48 |
| C112 | Model/ChainPlot.lean: axisIndex, chainTraces, chainDist, redWalker, plotChainFunc, plotChainLoop, plotChain | the emphasised walkers are the last ones by arithmetic; permutation of the flattened traces by Multiset.bind; counting lemma for percentiles of a sorted list; induction on the number of parameters |
| C113 | no new model: Emitter.luminosity, predict and likelihood compose fluxOf/sedOf, the spectra and lnprobmodel | rowModel: the prediction in the representation of the data, scaled by A (C08); C109_unique; best_pos: a small positive normalisation beats every A ≤ 0; C103_slope_and_cutoff for positivity |
| C114 | ShClass.pars: the registered parameters; ShParam.set; ShClass.guess | shCalc_good: counts from a finite non-negative spectrum (trapzBin_nonneg), instances by C14, C15 with the parsed seeds, and the table integral; guess by C57_guess; amplitude 0: the counts equal twice themselves (C57_amplitude) |
| C115 | plotCornerRun over an arbitrary drawing function, keywords as an insertion-ordered dict; cornerSession: calls in sequence | C49_consistent for the marked point, induction over keywords for the options, over calls for the line width; C115_diagnostics: agrees with the corner plot of C86 |
| C116 | icSpectrum of C71/C83 | C83 for the grid, range_limit (C103) for the range, change of variable γ = s·sqrt(E/w) reduces the kernel to a two-parameter family icShape κ λ, dominated convergence as κ, λ → 0 |
| C117 | baringEp, baringEe of C72, equal to the code's cross sections | explicit antiderivative of A2 with continuity at both ends; |A4|, A3 bounded for the electron-electron correction; Fubini and rescaling for the total |
| C118 | kFgamma, KelnerModel.spectrum with the exact integral (C13, C74) | integration by parts, monotonicity in the three parameters of eqs. 59-61, polynomial bounds of (1+s)^-4, 59 rational intervals of ln E checked by the kernel plus a tail; Tonelli and substitution for the spectrum |
| C119 | progressOf, printsAt, reportOf, progressLoop over the ensembles yielded by the sampler | induction over the ensembles; remainder of 20 i by n; gcd |
| C120 | nuclearFactor, sigmaInel, PionModel.spectrum (C73) | derivative of the cross section in ln T, rational bounds at 1 GeV; the enhanced spectrum is the plain spectrum of weighted protons, then order (C84) and homogeneity (C08) |
| C121 | SyncModel.spectrum (C70) | G(x)/x^(1/3) decreases (polynomial with non-negative coefficients), order (C84), field scaling (C70) |
| C122 | ElModel.computeWe, PrModel.computeWp | accuracy on each range (C92), additivity of the integral, closed form of the integral of a power |
| C123 | the anisotropic kernel of C71; spec beamLoss | first moment of F₂ enclosed by a table of 1201 points checked by decide in the kernel, change of variable, limit of weighted sums as in C105 |
| C124 | the thermal kernels of C71; spec scatterRate, planckNumber | integrals of F₄ and F₂ enclosed by the tables of C105 and C123, change of variable, limit of weighted sums |
| C125 | the array kernel of C71 and trapz_loglog; spec: reversal of the table | bin-wise antisymmetry, induction over the table, comparison of sums over the electron grid |
| C126 | the array kernel of C71; spec fieldRate (integral over the continuous field) and Samples (any table) | convergence of log-log sums (C83) in the photon energy for the finitely many electrons of a grid, dominated convergence for the continuity in the electron energy, squeeze between two electron sums |
| C127 | Model.SeedText (str of the photon dictionary in the cache key) on top of Memo and icSpectrum | equality of keys from equality of texts; positivity of a two-row spike by splitting the log-log integral |
| C128 | the monochromatic kernel of C71, specification in closed form | substitution x = q (as C105), moments of 2x ln x + (1+2x)(1-x), Bernoulli for the recoil factors, weighted_limit for the electron grid, Fubini for the field |
| C129 | Quantities with shape and numbers, tobytes as concatenated 8-byte words, the key of C03, numpy broadcasting of the product in sed | equal bytes for equal numbers; soundness of the cache restricted to the energies of the history |
| C130 | requests with keyword, positional or no distance, numpy's text of one number (digits, exponent outside 1e-4..1e8) as a function of the rounded decimal, the key of C03 | tokens compared piece by piece; soundness of the cache restricted to the history; rounding error of the decimal |
| C131 | lnprob of C43, the acceptance rule of emcee with arbitrary proposals and random numbers, run_sampler of C48, results table and find_ML of C49-C52 | invariant of every walker through steps, burn-in and run; percentiles lie between samples |
| C132 | trapz_loglog operation by operation over an arbitrary arithmetic with relative errors u; order of addition an arbitrary tree | error propagation through logarithms, quotient, power, difference and quotient; integral of the local power law in closed form; the joining function of perturbed samples stays within the same fraction |
| C133 | the analytic models as particle distributions (Model/Populations), spectra and energy contents as in C84 | each spectrum is a sum of log-log sums with nonnegative weights, monotone up to the tolerance; uniform continuity of the distributions on the compact energy range |
| C134 | examples/absorbed_SynIC.py (Model/Recipe) from the models of its components | composition of C26, C15, C14, C84 and C08; the pointwise value by lists of equal length |
| C135 | examples/RXJ1713_SynIC.py (Model/Recipe) with lnprob | composition of C15, C14, C84 with C40 and C42 |
| C136 | examples/RXJ1713_IC.py (Model/Recipe) with lnprob | composition of C15, C22, C84 with C40 and C42 |
| C137 | examples/CrabNebula_SynSSC.py (Model/CrabRecipe) | composition of C102, C15, C14, C07 and C08 |
| C138 | examples/model_examples.py:87-136 (Model/FunctionalFit) with lnprob | composition of C22 with C40 and C42 |
| C57 | Sherpa `_mergex`, `calc`, `guess`, parameter unpacking, seeds, units | telescoping sums; luminosities reduced to C70–C73 |

## 4. Trusted base

* **Lean 4.33.0 kernel.**  Every theorem depends on no axioms other than `propext`,
  `Classical.choice` and `Quot.sound` (Lean's and Mathlib's standard ones); several of the
  state-machine theorems need only `propext` and `Quot.sound`.  No axiom is declared, nothing is
  admitted, no compiled evaluation is used.
* **The reading of the Python code into `Verif/Model`** (each definition cites lines).
* **The simplifications** of section 2 and those written at each definition.
* **Third-party behaviour** built into the model, each at the place named:
  astropy `Quantity` conversion, comparison and in-place arithmetic (`Base/Units`, `Validator`,
  `Electron`); numpy `argsort` (any ordered permutation, `IsEnergySort`, `IsNMSort`), `argmax`,
  `percentile`, `logspace`, `np.array(dtype=object)` (`Results`, `SaveRun`); `Table.add_row`
  (`DataTable`); emcee's chain recording and pool use (`Sampler`) stretch move (`GetSampler`) and acceptance rule (`Acceptance`); h5py attributes and truncation on
  opening (`SaveRun`); matplotlib `Slider` (`Interactive`), `errorbar` refusing negative bars and `set_xlim` refusing NaN and
  ignoring non-positive limits (`PlotData`).
* **Assumptions that appear as hypotheses** (never as axioms): sha256 injective on the strings
  compared (C03); `Spec.CubicSpline` — the interpolating spline passes through its nodes and
  reproduces cubics (C25, C26; shown satisfiable in `C25_spline_exists`); `Spec.EblFile` — shape of
  the data file `tau_dominguez11.npz` (C26; the file itself is binary and not read); the quadrature
  routine of Kelner06 is homogeneous / additive / monotone as stated in each theorem (C08, C13, C62, C82);
  the bivariate spline of scipy passes through its data and is clamped outside (C81; shown satisfiable in
  `C81_spline_exists`);
  the normal cdf is monotone (C50).

## 5. What is modelled, by source file

| file | modelled | not modelled |
|---|---|---|
| `model_utils.py` | `memoize` (C01–C05), the text of the photon fields in its key (C127), over energies in the forms the wrapper accepts (C94) | `memoize` on `_calc` of models beyond the generic wrapper |
| `radiative.py` | `_validate_ene`, `flux`, `sed`, grids, `We`, `Wp`, `compute_*`, `set_*`, Synchrotron, InverseCompton (seed parsing, three kernels, spectrum, per-seed flux and sed), Bremsstrahlung, PionDecay (cross sections, class tables, LUT selection, spectrum), PionDecayKelner06, `generate_lut_pp`, `LookupTable` | the table files shipped with the package, the bicubic spline (a parameter), logging |
| `models.py` | the five analytic models (also as particle distributions of every radiative model, Model/Populations), `TableModel`, `EblAbsorptionModel` | docstrings/repr |
| `utils.py` | `validate_column`, `_validate_single_data_table`, `validate_data_table`, `sed_conversion`, `trapz_loglog`, energy edges, `build_data_table`, `estimate_B` | reading tables from files |
| `extern/validator.py` | all | |
| `extern/minimize.py` | `_minimize_neldermead` | display and callbacks |
| `core.py` | priors, `lnprobmodel`, `lnprob`, labels, normalisation guess, units check, `_prefit`, `_run_mcmc`, `get_sampler` end to end including walker placement, `run_sampler` pool and chain handling, the progress reports (C119) | emcee itself, log messages |
| `model_fitter.py` | parameters, sliders, flags, events, the curve and the ln L shown (C95) | drawing |
| `analysis.py` | `save_run`, `read_run`, `_result`, `save_results_table` (rows, metadata, file), `save_diagnostic_plots` (files, settings) | drawing, table file formats |
| `plot.py` | `find_ML`, `_process_blob`, `_read_or_calc_samples`, `_calc_CI`, percentiles, `_plot_residuals_to_ax` and `_plot_data_to_ax` (numbers plotted), option dictionaries of `plot_data`/`plot_fit`, layers and axis limits of `plot_fit`, `plot_data` on a figure, the curves and bands of `plot_samples`/`plot_CI`, `plot_CI` level order, `plot_blob`, `plot_distribution`, `_latex_value_error` and chain summary, `plot_chain` traces and histogram (C112), `plot_corner` arguments and settings (C115), marker colours | everything else that draws |
| `sherpa_models.py` | `_mergex`, `calc`, `guess`, `_pdist`, the four models, the parameters with their limits (C114) | `modelCacher1d`, the `verbose` printout |

## 6. Wrong programs

`tools/mutate.py` applies one edit at a time to a scratch copy of the model and rebuilds;
`tools/mutlog.py` collects its outputs into `seeded/LOG.jsonl`, one line per attempt.  `failed` are the
declarations whose proof breaks first (lake stops at the first broken file of a chain), `depending` the property
theorems that use one of them, directly or not (at most twelve are listed).  Edits that did not type-check are left out.
1035 attempts so far; 59 of them survived the theorems of the time (`failed` empty): 7 are equivalent
programs (`note` says why), for the others `tightened` names
the theorem added or strengthened, `failed_after_tightening` what breaks since.  Edits of functions whose
only theorems were about *some* aspect (non-negativity, scaling, error cases) were the typical survivors;
they led to the documented-formula theorems C70-C74, the argument theorems (C71_arguments, C57_*) and
C21_spectrum_*, C38_build_faithful, C47, C52, C54_accepted_names, C56, C77_used_unchanged_iff, C87_mixed_blobs.
