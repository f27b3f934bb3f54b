{
 "claims": [
  {
   "property": "C01",
   "status": "proved",
   "theorems": [
    "Naima.Props.C01_cache_bounded_consistent"
   ],
   "note": ""
  },
  {
   "property": "C02",
   "status": "proved",
   "theorems": [
    "Naima.Props.C02_transparent",
    "Naima.Props.C02_exceptions_not_cached"
   ],
   "note": ""
  },
  {
   "property": "C03",
   "status": "partial",
   "theorems": [
    "Naima.Props.C03_energies_separated_partial",
    "Naima.Props.C03_one_model_parameter_partial",
    "Naima.Props.C03_one_distribution_parameter_partial",
    "Naima.Props.C03_distance_partial",
    "Naima.Props.C03_energy_unit_partial",
    "Naima.Props.C03_false_default_distance",
    "Naima.Props.C03_false_no_separator",
    "Naima.Props.C03_false_hidden_distribution"
   ],
   "note": "The full claim is false of the code: three proved counterexamples (default distance vs distance=0; no separators in the joined key; particle distributions without param_names). Proved positively: energies are always separated, and requests differing in a single printed field are separated."
  },
  {
   "property": "C04",
   "status": "partial",
   "theorems": [
    "Naima.Props.C04_only_own_writes_partial",
    "Naima.Props.C04_false_aliasing"
   ],
   "note": "The full claim is false of the code (cached array returned by reference), proved. Proved positively: only writes into the very array object returned matter."
  },
  {
   "property": "C05",
   "status": "partial",
   "theorems": [
    "Naima.Props.C05_seed_flux_on_miss_partial",
    "Naima.Props.C05_seed_flux_after_same_request_partial",
    "Naima.Props.C05_false_stale_seed"
   ],
   "note": "The full claim is false of the code (stale specic after a cache hit), proved with a history. Proved positively: right on every cache miss and right after computing the same request."
  },
  {
   "property": "C06",
   "status": "partial",
   "theorems": [
    "Naima.Props.C06_seeds_sum",
    "Naima.Props.C06_name_is_position",
    "Naima.Props.C06_unknown_name",
    "Naima.Props.C06_too_large_number_partial",
    "Naima.Props.C06_false_boundary",
    "Naima.Props.C06_false_negative"
   ],
   "note": "Sum, names and unknown names proved; the out-of-range check is false of the code at seed = number of seeds and for negative numbers (proved)."
  },
  {
   "property": "C07",
   "status": "proved",
   "theorems": [
    "Naima.Props.C07_flux_zero",
    "Naima.Props.C07_flux_inverse_square",
    "Naima.Props.C07_flux_ratio",
    "Naima.Props.C07_sed",
    "Naima.Props.C07_units",
    "Naima.Props.C07_rejects"
   ],
   "note": ""
  },
  {
   "property": "C08",
   "status": "proved",
   "theorems": [
    "Naima.Props.C08_kelner",
    "Naima.Props.C08_energy_content",
    "Naima.Props.C08_synchrotron",
    "Naima.Props.C08_inverse_compton",
    "Naima.Props.C08_bremsstrahlung",
    "Naima.Props.C08_pion",
    "Naima.Props.C08_pion_table"
   ],
   "note": "Exact over ideal IEEE numbers (no rounding). PionDecay: both with the lookup table and with the full calculation; PionDecayKelner06 for every quadrature routine that is itself homogeneous."
  },
  {
   "property": "C09",
   "status": "partial",
   "theorems": [
    "Naima.Props.C09_set_We_partial",
    "Naima.Props.C09_set_Wp_partial",
    "Naima.Props.C09_set_We_named",
    "Naima.Props.C09_set_Wp_named",
    "Naima.Props.C09_missing_attribute",
    "Naima.Props.C09_false_shared_amplitude",
    "Naima.Props.C09_content_positive"
   ],
   "note": "Full statement proved for set_We/set_Wp with an explicitly named attribute. With the default name the amplitude Quantity is multiplied in place, so 'only the amplitude of this distribution changes' is false when the same Quantity object is shared by two distributions (proved: C09_false_shared_amplitude); the _partial theorems assume it is not shared."
  },
  {
   "property": "C10",
   "status": "proved",
   "theorems": [
    "Naima.Props.C10_compute_We",
    "Naima.Props.C10_compute_Wp",
    "Naima.Props.C10_We_units"
   ],
   "note": ""
  },
  {
   "property": "C11",
   "status": "proved",
   "theorems": [
    "Naima.Props.C11_electron_grid",
    "Naima.Props.C11_electron_grid_size",
    "Naima.Props.C11_proton_grid"
   ],
   "note": ""
  },
  {
   "property": "C12",
   "status": "partial",
   "theorems": [
    "Naima.Props.C12_kelner_partial",
    "Naima.Props.C12_false_kelner",
    "Naima.Props.C12_false_kelner_scalar",
    "Naima.Props.C12_synchrotron",
    "Naima.Props.C12_inverse_compton",
    "Naima.Props.C12_false_ic_scalar",
    "Naima.Props.C12_false_ic_scalar_kind",
    "Naima.Props.C12_bremsstrahlung",
    "Naima.Props.C12_pion",
    "Naima.Props.C12_false_pion_scalar"
   ],
   "note": "Proved for array requests of Synchrotron, InverseCompton, Bremsstrahlung and PionDecay. 'Requested alone' as a bare scalar raises for InverseCompton and PionDecay (proved), and PionDecayKelner06 depends on the other energies of the request (proved) unless all lie on one side of Etrans."
  },
  {
   "property": "C13",
   "status": "partial",
   "theorems": [
    "Naima.Props.C13_matched_partial",
    "Naima.Props.C13_density_linear",
    "Naima.Props.C13_false_no_tail"
   ],
   "note": "The matching holds whenever the two calculations at Etrans are positive numbers. For protons that end below Etrans the factor is 0/0 and the spectrum is NaN at all energies below Etrans (C13_false_no_tail, proved with the exact integral)."
  },
  {
   "property": "C14",
   "status": "partial",
   "theorems": [
    "Naima.Props.C14_nonneg_partial",
    "Naima.Props.C14_false_zero_field"
   ],
   "note": "Proved for B > 0. For B = 0 the code computes 0 * nan (proved counterexample)."
  },
  {
   "property": "C15",
   "status": "partial",
   "theorems": [
    "Naima.Props.C15_isotropic",
    "Naima.Props.C15_anisotropic_partial",
    "Naima.Props.C15_false_zero_angle",
    "Naima.Props.C15_false_zero_temperature",
    "Naima.Props.C15_monochromatic",
    "Naima.Props.C15_spectral",
    "Naima.Props.C15_spectrum"
   ],
   "note": "Isotropic thermal, monochromatic and spectral kernels proved in full; anisotropic for theta > 0. False of the code at theta = 0 and T = 0, where the kernel is NaN (proved)."
  },
  {
   "property": "C16",
   "status": "partial",
   "theorems": [
    "Naima.Props.C16_false_array_angle",
    "Naima.Props.C16_named_fields",
    "Naima.Props.C16_thermal_blackbody",
    "Naima.Props.C16_thermal_density",
    "Naima.Props.C16_anisotropic",
    "Naima.Props.C16_monochromatic",
    "Naima.Props.C16_spectral_partial",
    "Naima.Props.C16_false_negative_density",
    "Naima.Props.C16_rejects",
    "Naima.Props.C16_in_order_partial",
    "Naima.Props.C16_first_error",
    "Naima.Props.C16_false_duplicate_names",
    "Naima.Props.C16_dash"
   ],
   "note": "Proved for every accepted form of specification; false of the code: two fields of the same name are merged silently, the angle given for a non-thermal field is ignored, and a negative photon density array is accepted (all proved)."
  },
  {
   "property": "C17",
   "status": "partial",
   "theorems": [
    "Naima.Props.C17_density_linear",
    "Naima.Props.C17_weighted_sum_partial",
    "Naima.Props.C17_false_weight_zero"
   ],
   "note": "Linear in n0 and the weighted sum for non-zero weights proved. A zero weight raises UnitConversionError instead (proved)."
  },
  {
   "property": "C18",
   "status": "partial",
   "theorems": [
    "Naima.Props.C18_kinematics",
    "Naima.Props.C18_sign_partial",
    "Naima.Props.C18_false_negative",
    "Naima.Props.C18_false_endpoint",
    "Naima.Props.C18_false_half_mass",
    "Naima.Props.C18_false_nonrel_negative",
    "Naima.Props.C18_ee_sign_partial"
   ],
   "note": "Vanishing above the electron energy proved. Non-negativity is false of the code close to the endpoint, at the endpoint (-inf), and for the electron-electron cross sections (NaN at half the electron mass, negative in the non-relativistic form), all proved; the sign is proved where it holds."
  },
  {
   "property": "C19",
   "status": "partial",
   "theorems": [
    "Naima.Props.C19_sign_partial",
    "Naima.Props.C19_limits",
    "Naima.Props.C19_false_below_threshold",
    "Naima.Props.C19_spectrum_nonneg",
    "Naima.Props.C19_false_spectrum"
   ],
   "note": "Sign and kinematic limits proved at and above threshold for all four models. Below threshold the code returns NaN rather than zero, and one such grid point makes the whole spectrum NaN (proved)."
  },
  {
   "property": "C20",
   "status": "partial",
   "theorems": [
    "Naima.Props.C20_history_independent",
    "Naima.Props.C20_spectrum",
    "Naima.Props.C20_false_threads"
   ],
   "note": "Proved for every sequential history over any number of instances. False when two evaluations interleave in threads (proved)."
  },
  {
   "property": "C21",
   "status": "partial",
   "theorems": [
    "Naima.Props.C21_selection",
    "Naima.Props.C21_configured_partial",
    "Naima.Props.C21_never_wrong_table",
    "Naima.Props.C21_table_names",
    "Naima.Props.C21_false_sticky",
    "Naima.Props.C21_spectrum_table",
    "Naima.Props.C21_spectrum_full"
   ],
   "note": "Proved that the table in use is never a wrong one, and the full selection rule until a missing table has been met. After one missing table useLUT has been switched off for good, which contradicts the claim (proved)."
  },
  {
   "property": "C22",
   "status": "proved",
   "theorems": [
    "Naima.Props.C22_power_law",
    "Naima.Props.C22_exponential_cutoff_power_law",
    "Naima.Props.C22_broken_power_law",
    "Naima.Props.C22_exponential_cutoff_broken_power_law",
    "Naima.Props.C22_log_parabola",
    "Naima.Props.C22_unit_independent",
    "Naima.Props.C22_not_an_energy"
   ],
   "note": ""
  },
  {
   "property": "C23",
   "status": "partial",
   "theorems": [
    "Naima.Props.C23_bpl_total",
    "Naima.Props.C23_bpl_continuous",
    "Naima.Props.C23_bpl_slopes",
    "Naima.Props.C23_bpl_at_reference",
    "Naima.Props.C23_false_amplitude_at_break",
    "Naima.Props.C23_ecbpl_continuous"
   ],
   "note": "Continuity and slopes proved; 'value at e_0 is amplitude' is false of the code when e_0 is above the break or, for the cutoff models, always affected by the cutoff (proved counterexample)."
  },
  {
   "property": "C24",
   "status": "proved",
   "theorems": [
    "Naima.Props.C24_no_break",
    "Naima.Props.C24_below_break",
    "Naima.Props.C24_no_curvature",
    "Naima.Props.C24_cutoff_to_infinity",
    "Naima.Props.C24_proportional",
    "Naima.Props.C24_positive"
   ],
   "note": ""
  },
  {
   "property": "C25",
   "status": "partial",
   "theorems": [
    "Naima.C25_nodes",
    "Naima.C25_inside_positive",
    "Naima.C25_power_law",
    "Naima.C25_outside_zero",
    "Naima.C25_units",
    "Naima.C25_row_order",
    "Naima.C25_accepts",
    "Naima.C25_length_mismatch",
    "Naima.C25_false_negative_value",
    "Naima.C25_false_negative_energy",
    "Naima.C25_negative_energy_error",
    "Naima.C25_spline_exists"
   ],
   "note": "Node values, zero outside, units, row order and error cases proved; positive inside for every spline. False for tables with a negative value, which give NaN in the whole range, and with a negative energy, which the constructor lets through and which make the model NaN from the lowest positive energy on (both proved). The cubic spline is a parameter with the assumption that it passes through its nodes (Spec.CubicSpline), shown satisfiable."
  },
  {
   "property": "C26",
   "status": "partial",
   "theorems": [
    "Naima.C26_closest_redshift",
    "Naima.C26_transmission_partial",
    "Naima.C26_decreasing",
    "Naima.C26_low_redshift_partial",
    "Naima.C26_false_low_redshift",
    "Naima.C26_false_above",
    "Naima.C26_false_high_redshift",
    "Naima.C26_errors",
    "Naima.C26_false_scalar",
    "Naima.C26_false_probability"
   ],
   "note": "Proved: closest redshift, transmission 1 below 1 GeV, exp(-tau) at tabulated energies, decreasing in tau, error cases. False of the code, each proved: above 100 TeV tau is log10(6000), so the transmission jumps up for absorbed sources and down for a source at redshift 0; redshifts of 4 and more silently use the last column; scalar energies raise; between nodes spline overshoot can make the transmission exceed 1."
  },
  {
   "property": "C27",
   "status": "partial",
   "theorems": [
    "Naima.Props.C27_number",
    "Naima.Props.C27_quantity",
    "Naima.Props.C27_wrong_kind",
    "Naima.Props.C27_infinities",
    "Naima.Props.C27_false_nan_accepted",
    "Naima.Props.C27_false_array_as_scalar"
   ],
   "note": "Exact acceptance condition proved for numbers and scalar Quantities with every domain. False of the code for NaN (always accepted) and for one-element array Quantities, which pass as scalars (proved)."
  },
  {
   "property": "C28",
   "status": "partial",
   "theorems": [
    "Naima.Props.C28_false_domain_ignored",
    "Naima.Props.C28_false_negative_accepted",
    "Naima.Props.C28_array_partial"
   ],
   "note": "False of the code: the domain argument of validate_array is never used (proved for every input). Dimension, shape and physical type checks are proved."
  },
  {
   "property": "C29",
   "status": "proved",
   "theorems": [
    "Naima.Props.C29_exact_on_power_laws",
    "Naima.Props.C29_bin_is_local_power_law"
   ],
   "note": ""
  },
  {
   "property": "C30",
   "status": "proved",
   "theorems": [
    "Naima.Props.C30_intervals",
    "Naima.Props.C30_splits",
    "Naima.Props.C30_scales_with_y",
    "Naima.Props.C30_scales_with_x",
    "Naima.Props.C30_nonneg",
    "Naima.Props.C30_positive_bin",
    "Naima.Props.C30_zero_safe"
   ],
   "note": ""
  },
  {
   "property": "C31",
   "status": "proved",
   "theorems": [
    "Naima.Props.C31_bins_tile",
    "Naima.Props.C31_short_arrays",
    "Naima.Props.C31_unit_change"
   ],
   "note": ""
  },
  {
   "property": "C32",
   "status": "proved",
   "theorems": [
    "Naima.Props.C32_edges_per_group",
    "Naima.Props.C32_no_groups"
   ],
   "note": ""
  },
  {
   "property": "C33",
   "status": "partial",
   "theorems": [
    "Naima.Props.C33_dimensions",
    "Naima.Props.C33_factor",
    "Naima.Props.C33_units",
    "Naima.Props.C33_converts",
    "Naima.Props.C33_round_trip",
    "Naima.Props.C33_idempotent",
    "Naima.Props.C33_unsupported",
    "Naima.Props.C33_false_number_density"
   ],
   "note": "Proved for all supported types except differential number density, which is in the list of differential types but gets a unit of wrong dimensions (proved). "
  },
  {
   "property": "C34",
   "status": "proved",
   "theorems": [
    "Naima.Props.C34_sorted_permutation",
    "Naima.Props.C34_accepts"
   ],
   "note": ""
  },
  {
   "property": "C35",
   "status": "partial",
   "theorems": [
    "Naima.Props.C35_false_generated_edges",
    "Naima.Props.C35_row_order_partial"
   ],
   "note": "Proved for tables with explicit bin widths (same multiset of rows; identical table if energies are distinct). False when the widths are generated, because that happens before sorting (proved)."
  },
  {
   "property": "C36",
   "status": "partial",
   "theorems": [
    "Naima.Props.C36_revalidate_partial",
    "Naima.Props.C36_idempotent_partial",
    "Naima.Props.C36_false_cl"
   ],
   "note": "Proved up to the confidence level, and in full for cl = 0.9; otherwise validating again resets cl to 0.9 (proved)."
  },
  {
   "property": "C37",
   "status": "proved",
   "theorems": [
    "Naima.Props.C37_never_mixed",
    "Naima.Props.C37_mixed_rejected"
   ],
   "note": ""
  },
  {
   "property": "C38",
   "status": "proved",
   "theorems": [
    "Naima.Props.C38_accepted_iff_valid",
    "Naima.Props.C38_type_errors",
    "Naima.Props.C38_build_data_table",
    "Naima.Props.C38_build_faithful"
   ],
   "note": ""
  },
  {
   "property": "C39",
   "status": "partial",
   "theorems": [
    "Naima.C39_xray_scaling",
    "Naima.C39_both_scaling",
    "Naima.C39_vhe_scaling",
    "Naima.C39_formula",
    "Naima.C39_value",
    "Naima.C39_false_mixed"
   ],
   "note": "Scaling laws, formula and value proved for two tables of the same kind; a luminosity table with a flux table is accepted and gives a meaningless number (proved)."
  },
  {
   "property": "C40",
   "status": "proved",
   "theorems": [
    "Naima.Props.C40_gaussian",
    "Naima.Props.C40_max",
    "Naima.Props.C40_row_order",
    "Naima.Props.C40_model_representation",
    "Naima.Props.C40_data_representation"
   ],
   "note": ""
  },
  {
   "property": "C41",
   "status": "partial",
   "theorems": [
    "Naima.Props.C41_common_cl_partial",
    "Naima.Props.C41_false_mixed_cl",
    "Naima.Props.C41_false_index_error",
    "Naima.Props.C41_false_cl_one"
   ],
   "note": "Proved for tables in which every row has the same confidence level below 1 and not every row is a violated limit. False of the code otherwise, each proved: the level is looked up at the row whose index is the number of violated limits; IndexError if all rows are violated limits; cl = 1 gives NaN."
  },
  {
   "property": "C42",
   "status": "partial",
   "theorems": [
    "Naima.Props.C42_uniform",
    "Naima.Props.C42_false_normal_iff",
    "Naima.Props.C42_normal_partial",
    "Naima.Props.C42_false_log_uniform",
    "Naima.Props.C42_log_uniform_support_partial"
   ],
   "note": "uniform_prior proved. normal_prior is the normal log-density only if sigma is read as the variance (proved iff sigma = 1 otherwise); log_uniform_prior returns 1/v instead of -log v (proved false), its support is right (proved)."
  },
  {
   "property": "C43",
   "status": "proved",
   "theorems": [
    "Naima.Props.C43_forbidden",
    "Naima.Props.C43_sum",
    "Naima.Props.C43_blob",
    "Naima.Props.C43_model_error_propagates"
   ],
   "note": ""
  },
  {
   "property": "C44",
   "status": "partial",
   "theorems": [
    "Naima.Props.C44_count",
    "Naima.Props.C44_index",
    "Naima.Props.C44_unchanged",
    "Naima.Props.C44_matches_data",
    "Naima.Props.C44_false_capital_log",
    "Naima.Props.C44_false_surplus_label"
   ],
   "note": "Proved for labels recognised in lower case; false of the code for capitalised log labels and for surplus labels (proved)."
  },
  {
   "property": "C45",
   "status": "proved",
   "theorems": [
    "Naima.Props.C45_sampler_labels",
    "Naima.Props.C45_fitter_labels",
    "Naima.Props.C45_added_labels"
   ],
   "note": ""
  },
  {
   "property": "C46",
   "status": "proved",
   "theorems": [
    "Naima.Props.C46_allowed_or_unchanged",
    "Naima.Props.C46_never_worse"
   ],
   "note": "Proved for every objective; 'never worse' for float start vectors and likelihoods that are never NaN."
  },
  {
   "property": "C47",
   "status": "partial",
   "theorems": [
    "Naima.Props.C47_never_worse_bounded",
    "Naima.Props.C47_honest_status",
    "Naima.Props.C47_best_of_all_evaluations",
    "Naima.Props.C47_false_nan_fun",
    "Naima.Props.C47_false_integer_x0",
    "Naima.Props.C47_success_accuracy",
    "Naima.Props.C47_stops_at_once",
    "Naima.Props.C47_all_parameters_varied",
    "Naima.Props.C47_moves"
   ],
   "note": "Termination, budget, honest status and best-of-all-evaluations proved; false of the code when the objective returns NaN somewhere (fun is NaN) and for integer start vectors (both proved)."
  },
  {
   "property": "C48",
   "status": "partial",
   "theorems": [
    "Naima.Props.C48_normal_return",
    "Naima.Props.C48_pool_iff_threads",
    "Naima.Props.C48_false_exception_leaks",
    "Naima.Props.C48_false_cannot_continue",
    "Naima.Props.C48_false_zero_steps"
   ],
   "note": "Proved for normal returns; false of the code: exceptions leak the pool, a finished multi-process sampler cannot be run again, zero steps raises UnboundLocalError (all proved)."
  },
  {
   "property": "C49",
   "status": "proved",
   "theorems": [
    "Naima.Props.C49_consistent"
   ],
   "note": ""
  },
  {
   "property": "C50",
   "status": "proved",
   "theorems": [
    "Naima.Props.C50_nested",
    "Naima.Props.C50_all"
   ],
   "note": ""
  },
  {
   "property": "C51",
   "status": "proved",
   "theorems": [
    "Naima.Props.C51_percentiles",
    "Naima.Props.C51_uncertainties_nonneg"
   ],
   "note": ""
  },
  {
   "property": "C52",
   "status": "partial",
   "theorems": [
    "Naima.Props.C52_whole_chain_partial",
    "Naima.Props.C52_false_last_step",
    "Naima.Props.C52_false_stale",
    "Naima.Props.C52_false_unbound",
    "Naima.Props.C52_blobs"
   ],
   "note": "Proved for last_step=False and labels that are plain or start with log( / log10(; false of the code for last_step=True (samples of the last walker are used, not of the last step) and for labels containing log( elsewhere (stale or unbound samples); all proved."
  },
  {
   "property": "C53",
   "status": "partial",
   "theorems": [
    "Naima.Props.C53_roundtrip_partial",
    "Naima.Props.C53_false_unsaveable",
    "Naima.Props.C53_false_triple",
    "Naima.Props.C53_false_single",
    "Naima.Props.C53_false_same_length",
    "Naima.Props.C53_false_mixed_units",
    "Naima.Props.C53_false_hundred",
    "Naima.Props.C53_false_labels"
   ],
   "note": "Round trip proved for all runs whose blobs are of fixed kinds (scalar/vector Quantity, float, pair of vectors), at most 100 of them, not all of the same length. False of the code otherwise, each proved: triples lose a member, one-tuples and unsaveable blobs hide all later blobs, units varying between samples are mislabelled, equal-length blobs lose units, >100 blobs and surplus labels are dropped. h5py bytes and astropy table I/O are trusted."
  },
  {
   "property": "C54",
   "status": "partial",
   "theorems": [
    "Naima.Props.C54_bad_suffix",
    "Naima.Props.C54_no_clobber",
    "Naima.Props.C54_other_files",
    "Naima.Props.C54_false_crash",
    "Naima.Props.C54_crash_detected_partial",
    "Naima.Props.C54_accepted_names"
   ],
   "note": "No-clobber, rejected suffix, other files untouched at every crash point: proved. Crash with clobber=True destroys the old file (proved false); proved instead: an incompletely written file cannot be read back as a run."
  },
  {
   "property": "C55",
   "status": "proved",
   "theorems": [
    "Naima.Props.C55_flat_order",
    "Naima.Props.C55_not_flat",
    "Naima.Props.C55_blob_order"
   ],
   "note": ""
  },
  {
   "property": "C56",
   "status": "partial",
   "theorems": [
    "Naima.Props.C56_flag_truthful_partial",
    "Naima.Props.C56_flag_means_converged",
    "Naima.Props.C56_false_failed_fit",
    "Naima.Props.C56_auto_update",
    "Naima.Props.C56_false_auto_lost"
   ],
   "note": "Proved for all event histories in which no fit raises; false of the code otherwise (proved). With auto-update on, the plot is refreshed after a fit unless the model raises at the fitted parameters, in which case auto-update stays off (both proved)."
  },
  {
   "property": "C57",
   "status": "partial",
   "theorems": [
    "Naima.Props.C57_bins",
    "Naima.Props.C57_points",
    "Naima.Props.C57_false_gaps",
    "Naima.Props.C57_false_distance_zero",
    "Naima.Props.C57_amplitude",
    "Naima.Props.C57_guess",
    "Naima.Props.C57_particles",
    "Naima.Props.C57_inverse_compton",
    "Naima.Props.C57_parameters",
    "Naima.Props.C57_synchrotron",
    "Naima.Props.C57_bremsstrahlung_partial",
    "Naima.Props.C57_pion",
    "Naima.Props.C57_flux"
   ],
   "note": "Bins, points, amplitude, guess, particle distributions, parameter order, units and the luminosities of the four models proved. False of the code: upper edges other than the last are ignored, so bins with gaps are integrated over the gaps; distance 0 raises (proved). Sherpa's own Parameter limits and cache are not modelled. Bremsstrahlung as far as C72."
  },
  {
   "property": "C58",
   "status": "partial",
   "theorems": [
    "Naima.Props.C58_sliders_faithful_partial",
    "Naima.Props.C58_false_negative",
    "Naima.Props.C58_move_partial",
    "Naima.Props.C58_false_move_changes_other"
   ],
   "note": "Proved for positive, log-labelled and in-range index parameters; false of the code for negative parameters (proved)."
  },
  {
   "property": "C59",
   "status": "partial",
   "theorems": [
    "Naima.Props.C59_units_check_partial",
    "Naima.Props.C59_false_flux_vs_luminosity"
   ],
   "note": "The check rejects only units that are not spectral at all; flux data with a luminosity model passes (proved)."
  },
  {
   "property": "C60",
   "status": "proved",
   "theorems": [
    "Naima.Props.C60_sum_over_fields",
    "Naima.Props.C60_density_linear"
   ],
   "note": ""
  },
  {
   "property": "C61",
   "status": "proved",
   "theorems": [
    "Naima.Props.C61_target_density"
   ],
   "note": ""
  },
  {
   "property": "C62",
   "status": "proved",
   "theorems": [
    "Naima.Props.C62_cross_section",
    "Naima.Props.C62_photons_per_collision",
    "Naima.Props.C62_spectrum_nonneg"
   ],
   "note": ""
  },
  {
   "property": "C63",
   "status": "partial",
   "theorems": [
    "Naima.Props.C63_ball",
    "Naima.Props.C63_spread_partial",
    "Naima.Props.C63_ensemble_spread_partial",
    "Naima.Props.C63_scale_free",
    "Naima.Props.C63_false_zero",
    "Naima.Props.C63_false_never_explored"
   ],
   "note": "False of the code for a parameter equal to zero: every walker starts at exactly zero there and no sequence of stretch moves leaves it (proved). Proved positively: number, position, sign and unit-independence of the walkers, spread of non-zero parameters. emcee's stretch move is trusted as described in Model/GetSampler."
  },
  {
   "property": "C64",
   "status": "partial",
   "theorems": [
    "Naima.Props.C64_caller_objects_partial",
    "Naima.Props.C64_false_p0_overwritten",
    "Naima.Props.C64_second_call"
   ],
   "note": "False of the code: the guess overwrites the caller's p0 and short label lists are extended in place (proved). Proved positively: no change without a guess; labels only extended; a second call starts from the same point for a model proportional to its normalisation."
  },
  {
   "property": "C65",
   "status": "partial",
   "theorems": [
    "Naima.Props.C65_start",
    "Naima.Props.C65_end_to_end",
    "Naima.Props.C65_false_tuple",
    "Naima.Props.C65_false_integer_array",
    "Naima.Props.C65_false_integer_nan"
   ],
   "note": "False of the code for a tuple p0 (TypeError) and an integer array p0 (guess truncated, possibly to zero), both proved. Proved positively: the composition of guess, window and prefit, and the end-to-end statement for lists and float arrays."
  },
  {
   "property": "C66",
   "status": "partial",
   "theorems": [
    "Naima.Props.C66_samples",
    "Naima.Props.C66_energies",
    "Naima.Props.C66_pair_energies_partial",
    "Naima.Props.C66_false_energies",
    "Naima.Props.C66_false_unbound",
    "Naima.Props.C66_missing",
    "Naima.Props.C66_wrong_format"
   ],
   "note": "False of the code for (energy, spectrum) pairs whose energies differ between samples, and for arrays of another length (UnboundLocalError), both proved. Proved positively: one row per sample in chain order, same physical values, energies when all pairs agree."
  },
  {
   "property": "C67",
   "status": "proved",
   "theorems": [
    "Naima.Props.C67_grid",
    "Naima.Props.C67_grid_increasing",
    "Naima.Props.C67_samples"
   ],
   "note": ""
  },
  {
   "property": "C68",
   "status": "partial",
   "theorems": [
    "Naima.Props.C68_coverage",
    "Naima.Props.C68_false_symmetric"
   ],
   "note": "Symmetry is false of the code (both indices rounded down), proved. Proved positively: coverage bounds for every sample set."
  },
  {
   "property": "C69",
   "status": "partial",
   "theorems": [
    "Naima.Props.C69_enough_partial",
    "Naima.Props.C69_false_capped",
    "Naima.Props.C69_false_never_warns"
   ],
   "note": "False of the code: capped at 100 samples, never warns (proved). Proved positively for tail probabilities of at least 1/99."
  },
  {
   "property": "C70",
   "status": "proved",
   "theorems": [
    "Naima.Props.C70_documented",
    "Naima.Props.C70_field_scaling",
    "Naima.Props.C70_field_unit",
    "Naima.Props.C70_cutoff",
    "Naima.Props.C70_cube_root"
   ],
   "note": ""
  },
  {
   "property": "C71",
   "status": "partial",
   "theorems": [
    "Naima.Props.C71_arguments_partial",
    "Naima.Props.C71_temperature",
    "Naima.Props.C71_thomson",
    "Naima.Props.C71_thermal_norm",
    "Naima.Props.C71_radiation_constant",
    "Naima.Props.C71_si_constants",
    "Naima.Props.C71_thermal",
    "Naima.Props.C71_monochromatic",
    "Naima.Props.C71_spectral"
   ],
   "note": "Proved for thermal, monochromatic and spectral fields in any units and sums of fields with distinct names. Missing: repeated names (C16_false_duplicate_names) and a thermal field seen under angle 0 (C15_false_zero_angle)."
  },
  {
   "property": "C72",
   "status": "partial",
   "theorems": [
    "Naima.Props.C72_cross_sections_partial",
    "Naima.Props.C72_spectrum_partial",
    "Naima.Props.C72_false_jump"
   ],
   "note": "Proved at all photon energies other than those where the code is -inf or NaN (photon energy equal to an electron energy of the grid; half the electron rest mass for e-e), see C18; and non-zero weights, see C17. False of the code, proved: the electron-electron cross section jumps at half the electron rest energy, for every electron above 2 MeV, because 4 eps is subtracted in A3 where only adding it makes the two branches meet; the formula compared with is the one with that sign."
  },
  {
   "property": "C73",
   "status": "proved",
   "theorems": [
    "Naima.Props.C73_cross_section",
    "Naima.Props.C73_spectrum"
   ],
   "note": ""
  },
  {
   "property": "C74",
   "status": "proved",
   "theorems": [
    "Naima.Props.C74_photons_per_collision",
    "Naima.Props.C74_number",
    "Naima.Props.C74_spectrum"
   ],
   "note": ""
  },
  {
   "property": "C75",
   "status": "proved",
   "theorems": [
    "Naima.Props.C75_total_scatterings",
    "Naima.Props.C75_total_power",
    "Naima.Props.C75_scatterings",
    "Naima.Props.C75_power",
    "Naima.Props.C75_thomson_limit"
   ],
   "note": ""
  },
  {
   "property": "C76",
   "status": "proved",
   "theorems": [
    "Naima.Props.C76_pion",
    "Naima.Props.C76_kelner"
   ],
   "note": ""
  },
  {
   "property": "C77",
   "status": "partial",
   "theorems": [
    "Naima.Props.C77_residuals",
    "Naima.Props.C77_used_unchanged_iff",
    "Naima.Props.C77_small_energies_not_compared",
    "Naima.Props.C77_false_model_at_other_energies",
    "Naima.Props.C77_false_luminosity_model_accepted"
   ],
   "note": "Proved for a model of the same kind evaluated at the energies of the table. False of the code, each proved: energies below 1e-8 in the unit used are never compared (np.allclose with its absolute tolerance), so a model with as many points as the table is subtracted position by position although its energies differ; with interpolation a luminosity is subtracted from a flux without error."
  },
  {
   "property": "C78",
   "status": "partial",
   "theorems": [
    "Naima.Props.C78_printed",
    "Naima.Props.C78_summary",
    "Naima.Props.C78_log_summary",
    "Naima.Props.C78_false_zero_median",
    "Naima.Props.C78_false_stuck",
    "Naima.Props.C78_false_upper",
    "Naima.Props.C78_false_label"
   ],
   "note": "Proved when the median is not zero and strictly between the percentiles, for labels without a logarithm and labels log(name), log10(name). False of the code, each proved: OverflowError if the median is zero or equals the 16th percentile; if it equals the 84th the lower uncertainty is printed as upper one; UnboundLocalError for labels with log( not at the beginning (LaTeX). Number formatting is trusted to round to a nearest decimal; gaussian_kde and drawing are not modelled."
  },
  {
   "property": "C79",
   "status": "partial",
   "theorems": [
    "Naima.Props.C79_used",
    "Naima.Props.C79_independent_partial",
    "Naima.Props.C79_caller_dictionary",
    "Naima.Props.C79_option_value",
    "Naima.Props.C79_false_leak",
    "Naima.Props.C79_false_caller_dictionary",
    "Naima.Props.C79_bands",
    "Naima.Props.C79_confs_partial",
    "Naima.Props.C79_false_confs"
   ],
   "note": "Proved exactly: which options are used after any history, what the caller's dictionary holds afterwards, the order of the bands. False of the code, each proved: errorbar_opts={'elinewidth': w} in a call without ulim_opts changes the default dictionary of the function, so later calls draw upper limits with that width; the caller's ulim_opts is modified in place; plot_CI sorts the caller's list of levels in place. Independence proved for histories without such a call."
  },
  {
   "property": "C80",
   "status": "partial",
   "theorems": [
    "Naima.Props.C80_drawn_partial",
    "Naima.Props.C80_false_negative_flux",
    "Naima.Props.C80_false_all_compatible",
    "Naima.Props.C80_units_refused",
    "Naima.Props.C80_false_empty",
    "Naima.Props.C80_false_hidden_group"
   ],
   "note": "Proved for tables with non-negative fluxes and limits, at least one row, horizontal bars within positive energies and, if some point is compatible with zero, one that is not. False of the code, each proved: a negative flux or limit, or only points compatible with zero, raise ValueError; an empty table raises UnboundLocalError; the x range of plot_data is that of the last group only, so other groups may be outside."
  },
  {
   "property": "C81",
   "status": "partial",
   "theorems": [
    "Naima.Props.C81_file_name",
    "Naima.Props.C81_values_partial",
    "Naima.Props.C81_call",
    "Naima.Props.C81_false_default_grid",
    "Naima.Props.C81_false_above_grid",
    "Naima.Props.C81_false_spectrum_above_grid",
    "Naima.Props.C81_spline_exists"
   ],
   "note": "Proved: the name of the file is the one PionDecay looks for; for all grids of proton energies above threshold the table loads and returns the cross section of C73 at all pairs of grid energies; a request in ascending order is answered element-wise, another one raises ValueError. Missing: energies between those of the grid. False of the code, each proved: the first proton energy of the default grid is below threshold with the constants of CODATA 2018 (astropy >= 4), so that row of the table is NaN; above the largest photon energy (1 PeV) the value is that at 1 PeV instead of zero, so the spectrum of any distribution is constant there (spline clamping is a hypothesis on scipy)."
  },
  {
   "property": "C82",
   "status": "proved",
   "theorems": [
    "Naima.Props.C82_inverse_compton",
    "Naima.Props.C82_bremsstrahlung",
    "Naima.Props.C82_pion_decay",
    "Naima.Props.C82_kelner"
   ],
   "note": ""
  },
  {
   "property": "C83",
   "status": "proved",
   "theorems": [
    "Naima.Props.C83_photon_array",
    "Naima.Props.C83_compute_We",
    "Naima.Props.C83_synchrotron",
    "Naima.Props.C83_inverse_compton",
    "Naima.Props.C83_compute_Wp",
    "Naima.Props.C83_pion",
    "Naima.Props.C83_photon_fields"
   ],
   "note": ""
  },
  {
   "property": "C84",
   "status": "proved",
   "theorems": [
    "Naima.Props.C84_synchrotron",
    "Naima.Props.C84_inverse_compton",
    "Naima.Props.C84_pion",
    "Naima.Props.C84_compute_We",
    "Naima.Props.C84_compute_Wp",
    "Naima.Props.C84_tolerance_needed"
   ],
   "note": "Proved for all five quantities with a relative tolerance (Emax/Emin)^(2e-10) - 1 (below 1e-8 for 20 decades); the tolerance is needed (C84_tolerance_needed: slopes within 1e-10 of -1 are integrated with another formula). Not covered: Bremsstrahlung, whose cross section is negative at some energies (C18), and PionDecayKelner06, whose low-energy part is renormalised."
  },
  {
   "property": "C85",
   "status": "partial",
   "theorems": [
    "Naima.Props.C85_synchrotron_partial",
    "Naima.Props.C85_inverse_compton_partial",
    "Naima.Props.C85_pion_partial",
    "Naima.Props.C85_compute_We_partial",
    "Naima.Props.C85_compute_Wp_partial",
    "Naima.Props.C85_limit_synchrotron",
    "Naima.Props.C85_limit_inverse_compton",
    "Naima.Props.C85_limit_pion",
    "Naima.Props.C85_limit_compute_We",
    "Naima.Props.C85_limit_compute_Wp",
    "Naima.Props.C85_false_exact"
   ],
   "note": "False as stated on every finite grid: log-log interpolation is not linear (C85_false_exact). Proved: the sum of the spectra never exceeds the spectrum of the sum (relative tolerance (Emax/Emin)^(2e-10) - 1), and as the number of points per decade grows the difference tends to zero (C85_limit_*, inverse Compton on thermal fields)."
  },
  {
   "property": "C86",
   "status": "partial",
   "theorems": [
    "Naima.Props.C86_files_partial",
    "Naima.Props.C86_pdf_partial",
    "Naima.Props.C86_false_same_file",
    "Naima.Props.C86_false_corner_raises",
    "Naima.Props.C86_false_fonttype",
    "Naima.Props.C86_false_string",
    "Naima.Props.C86_false_short_sed",
    "Naima.Props.C86_false_labels_extended"
   ],
   "note": "Proved, for every subset of failing chain and model drawings: if parameter names are distinct once the logarithm is taken off, flags and labels fit the models and the corner plot does not raise, each figure is in its own file (page, in order) with its flag and label, everything else is as before. False of the code, each proved: `x` and `log10(x)` are saved to the same file; an exception of plot_corner leaves matplotlib non-interactive, with its line width, and the pdf open; pdf=True leaves pdf.fonttype changed; a label string for several models is cut into letters or raises; a short list of flags drops models silently; the caller's list of labels is extended."
  },
  {
   "property": "C87",
   "status": "partial",
   "theorems": [
    "Naima.Props.C87_metadata",
    "Naima.Props.C87_file",
    "Naima.Props.C87_format",
    "Naima.Props.C87_no_overwrite",
    "Naima.Props.C87_returns",
    "Naima.Props.C87_runInfo_good",
    "Naima.Props.C87_false_last_step_count",
    "Naima.Props.C87_blob_units_partial",
    "Naima.Props.C87_false_mixed_units",
    "Naima.Props.C87_mixed_blobs"
   ],
   "note": "Proved for all formats, options and run_info without matrices or reserved names (which holds for get_sampler and run_sampler, C87_runInfo_good): all entries, success, rows, file effects. False of the code, each proved: with last_step=True the recorded number of samples is the number of steps; a blob whose unit differs between samples is tabulated without conversion. astropy's table writers are trusted."
  },
  {
   "property": "C88",
   "status": "partial",
   "theorems": [
    "Naima.Props.C88_layers_partial",
    "Naima.Props.C88_false_default_data",
    "Naima.Props.C88_false_no_bands",
    "Naima.Props.C88_false_residuals_alone",
    "Naima.Props.C88_axis_data",
    "Naima.Props.C88_axis_model_partial",
    "Naima.Props.C88_false_zero_model"
   ],
   "note": "Proved: the exact rule for every combination of arguments; the axis contains all bars and e_range and is within a decade of them; for a model alone all points above the lower limit. False of the code, each proved: by default data are not shown if model and table differ in the number of points, although the types match; n_samples=None gives no bands (data only, or the best model); plotresiduals=True with plotdata=False shows no residuals and raises nothing; a model that is zero everywhere raises ValueError without data. matplotlib's automatic limits are a parameter."
  },
  {
   "property": "C89",
   "status": "proved",
   "theorems": [
    "Naima.Props.C89_samples",
    "Naima.Props.C89_range",
    "Naima.Props.C89_bands",
    "Naima.Props.C89_bands_range",
    "Naima.Props.C89_false_hundred",
    "Naima.Props.C89_false_sed_none"
   ],
   "note": "C89_samples, C89_range, C89_bands and C89_bands_range prove the positive statement for every run with drawable spectra. C89_false_hundred and C89_false_sed_none prove that the documented meaning of n_samples (with e_range) and of sed=None does not hold. The statement names the cases in which the natural property fails; those are proved as well."
  },
  {
   "property": "C90",
   "status": "partial",
   "theorems": [
    "Naima.Props.C90_one_unit_partial",
    "Naima.Props.C90_readable_label",
    "Naima.Props.C90_false_overlay",
    "Naima.Props.C90_false_kind"
   ],
   "note": "Proved for every history: one energy unit in effect and one kind of plot give one unit per axis; a readable label fixes the unit. False of the code, proved: tables in different energy units without e_unit; an SED followed by a differential spectrum. astropy's reading and printing of unit names is a parameter, of which it is assumed that a unit printed for LaTeX has no square brackets and does not parse."
  },
  {
   "property": "C91",
   "status": "partial",
   "theorems": [
    "Naima.Props.C91_percentile_counts",
    "Naima.Props.C91_distribution_partial",
    "Naima.Props.C91_false_zero_median",
    "Naima.Props.C91_false_equal",
    "Naima.Props.C91_scalar_blob_partial",
    "Naima.Props.C91_spectrum_blob",
    "Naima.Props.C91_false_one_point",
    "Naima.Props.C91_best_stored",
    "Naima.Props.C91_best_recomputed_partial",
    "Naima.Props.C91_false_bare"
   ],
   "note": "Proved for all runs: scalar and spectrum blobs, median and span counts, best sample stored or recomputed. False of the code, proved: a median of zero or equal to a percentile raises OverflowError; a scalar Quantity with one data point is taken for a spectrum; a bare array returned without blobs. Histogram drawing itself (bins) is not modelled beyond the number of bins."
  },
  {
   "property": "C92",
   "status": "proved",
   "theorems": [
    "Naima.Props.C92_slope_of_derivative",
    "Naima.Props.C92_compute_We",
    "Naima.Props.C92_compute_Wp",
    "Naima.Props.C92_power_law",
    "Naima.Props.C92_exponential_cutoff",
    "Naima.Props.C92_log_parabola",
    "Naima.Props.C92_default_We",
    "Naima.Props.C92_default_Wp",
    "Naima.Props.C92_exponential_cutoff_We"
   ],
   "note": ""
  },
  {
   "property": "C93",
   "status": "partial",
   "theorems": [
    "Naima.Props.C93_bremsstrahlung_partial",
    "Naima.Props.C93_false_endpoint",
    "Naima.Props.C93_false_negative"
   ],
   "note": "Proved for photon energies below the electron range, where both cross sections are not negative (also proved, with the sign of the electron-electron cross section above 2 MeV). Not so at the lowest electron energy: NaN, proved of the default grid. Photon energies inside the range are missing because it is false there: just below every energy of the grid but the last the spectrum is negative, whatever the (positive) electron spectrum (C93_false_negative; the bin with the logarithmic singularity outweighs all others)."
  },
  {
   "property": "C94",
   "status": "partial",
   "theorems": [
    "Naima.Props.C94_flux_partial",
    "Naima.Props.C94_sed",
    "Naima.Props.C94_refused",
    "Naima.Props.C94_histories",
    "Naima.Props.C94_false_list",
    "Naima.Props.C94_false_missing",
    "Naima.Props.C94_false_scalar",
    "Naima.Props.C94_seed_sed",
    "Naima.Props.C94_false_seed_table",
    "Naima.Props.C94_sed_value"
   ],
   "note": "Proved of sed for every form; of flux for Quantities, tables and dicts, in every history; refusal of everything else. The rest is false of the code: lists of Quantities, error kind of a missing column, single energies in a dict, and sed(table, seed=...), each proved."
  },
  {
   "property": "C95",
   "status": "partial",
   "theorems": [
    "Naima.Props.C95_open",
    "Naima.Props.C95_units",
    "Naima.Props.C95_energies",
    "Naima.Props.C95_histories_partial",
    "Naima.Props.C95_redraw",
    "Naima.Props.C95_lnL",
    "Naima.Props.C95_false_stale",
    "Naima.Props.C95_false_out_of_evaluations",
    "Naima.Props.C95_out_of_evaluations_happens",
    "Naima.Props.C95_false_luminosity",
    "Naima.Props.C95_stale_shown",
    "Naima.Props.C95_luminosity_shown"
   ],
   "note": "Proved when the window opens, after every redraw in any history, and in every history with automatic updating on and fits that converge, raise or keep their start. The rest is false of the code and each failure is proved: stale curve and ln L after a fit that raises or does not converge with automatic updating off, a fit out of evaluations changes the parameters but not sliders, curve or ln L, luminosity data with e_range."
  },
  {
   "property": "C96",
   "status": "partial",
   "theorems": [
    "Naima.Props.C96_electron_limits",
    "Naima.Props.C96_proton_limits_partial",
    "Naima.Props.C96_false_reversed_We",
    "Naima.Props.C96_false_reversed_Wp",
    "Naima.Props.C96_false_reversed_synchrotron",
    "Naima.Props.C96_false_reversed_set_We",
    "Naima.Props.C96_proton_limits_all"
   ],
   "note": "Limits that are not positive are refused, with the error given in the theorems (protons: except both negative, where nothing is refused and the energy content is NaN, C96_proton_limits_all). Limits in the wrong order are accepted: contents and spectra become negative and set_We changes the sign of the amplitude (C96_false_reversed_*)."
  },
  {
   "property": "C97",
   "status": "proved",
   "theorems": [
    "Naima.Props.C97_compute_We",
    "Naima.Props.C97_compute_Wp",
    "Naima.Props.C97_synchrotron",
    "Naima.Props.C97_bremsstrahlung",
    "Naima.Props.C97_pion",
    "Naima.Props.C97_pion_lut",
    "Naima.Props.C97_kelner",
    "Naima.Props.C97_inverse_compton",
    "Naima.Props.C97_flux",
    "Naima.Props.C97_sed"
   ],
   "note": "Same physical input is defined in Spec/Same, independently of the models. Values are finite; errors are equal too."
  },
  {
   "property": "C98",
   "status": "proved",
   "theorems": [
    "Naima.Props.C98_synchrotron",
    "Naima.Props.C98_inverse_compton"
   ],
   "note": "Density 0 of a thermal field asks for a black body and is excluded (shown beside the theorem)."
  },
  {
   "property": "C99",
   "status": "partial",
   "theorems": [
    "Naima.Props.C99_independent_partial",
    "Naima.Props.C99_shared_separated_partial",
    "Naima.Props.C99_uncached",
    "Naima.Props.C99_default",
    "Naima.Props.C99_false_kelner_shared",
    "Naima.Props.C99_false_kelner_spectrum"
   ],
   "note": "Proved for Synchrotron, InverseCompton, Bremsstrahlung, PionDecay (own caches) and for the spectral models with their default (no caching). False for PionDecayKelner06, whose cache is a class attribute: two objects with distributions that list no parameters return each other's results (C99_false_kelner_*); it holds for shared caches whenever the keys separate the requests (C99_shared_separated_partial). The class tables of PionDecay are the subject of C20."
  },
  {
   "property": "C100",
   "status": "partial",
   "theorems": [
    "Naima.Props.C100_distribution",
    "Naima.Props.C100_synchrotron",
    "Naima.Props.C100_inverse_compton",
    "Naima.Props.C100_pion",
    "Naima.Props.C100_false_bremsstrahlung_density",
    "Naima.Props.C100_false_kelner_distribution",
    "Naima.Props.C100_kelner",
    "Naima.Props.C100_keywords",
    "Naima.Props.C100_false_keywords_unchecked",
    "Naima.Props.C100_defaults_synchrotron",
    "Naima.Props.C100_defaults_inverse_compton_partial",
    "Naima.Props.C100_false_inverse_compton_grid",
    "Naima.Props.C100_defaults_bremsstrahlung",
    "Naima.Props.C100_bremsstrahlung_grid",
    "Naima.Props.C100_defaults_pion",
    "Naima.Props.C100_parameters",
    "Naima.Props.C100_defaults_kelner",
    "Naima.Props.C100_default_field",
    "Naima.Props.C100_usable",
    "Naima.Props.C100_false_amplitude_hides",
    "Naima.Props.C100_example"
   ],
   "note": "Acceptance exactly characterised for all five classes (finite scalar Etrans for PionDecayKelner06); defaults and keyword overriding proved for all. Missing because false of the code, with proofs: Bremsstrahlung n0 and PionDecayKelner06 distribution unchecked, good amplitude hides bad output, keywords unchecked, InverseCompton nEed default differs from the documentation."
  },
  {
   "property": "C101",
   "status": "proved",
   "theorems": [
    "Naima.Props.C101_validation",
    "Naima.Props.C101_lnprob",
    "Naima.Props.C101_get_sampler",
    "Naima.Props.C101_example"
   ],
   "note": "Proved in exact arithmetic; also covers generated bin edges (scale equivariance with groups)."
  },
  {
   "property": "C102",
   "status": "partial",
   "theorems": [
    "Naima.Props.C102_photon_field",
    "Naima.Props.C102_false_one_energy",
    "Naima.Props.C102_quadratic",
    "Naima.Props.C102_radius",
    "Naima.Props.C102_total",
    "Naima.Props.C102_nonneg"
   ],
   "note": "The recipe is that of docs/radiative.rst and examples/CrabNebula_SynSSC.py. Proved: which field the kernel reads, quadratic scaling, scaling with the source size, sum with other fields, non-negativity. With fewer than two photon energies the recipe is refused (C102_false_one_energy)."
  },
  {
   "property": "C103",
   "status": "proved",
   "theorems": [
    "Naima.Props.C103_slope_and_cutoff",
    "Naima.Props.C103_photon_index"
   ],
   "note": "Bounds hold at every finite grid up to the rounding of local indices, a factor (Emax/Emin)^(2e-10)."
  },
  {
   "property": "C104",
   "status": "proved",
   "theorems": [
    "Naima.Props.C104_one_electron",
    "Naima.Props.C104_total_power"
   ],
   "note": "The 1 % is the accuracy of the fitting formula (AKP10) and of the quadrature table checked by the kernel."
  },
  {
   "property": "C105",
   "status": "proved",
   "theorems": [
    "Naima.Props.C105_one_electron",
    "Naima.Props.C105_total_power"
   ],
   "note": "The 1 % is the accuracy of the fitting formula (Khangulyan et al. 2014) and of the quadrature table checked by the kernel. Isotropic thermal fields; monochromatic fields are C75."
  },
  {
   "property": "C106",
   "status": "proved",
   "theorems": [
    "Naima.Props.C106_recovers"
   ],
   "note": "How wide and how fine depends on the source (existence only). The 2 % are the accuracy of the two fitting formulae (C104, C105) and of the table sums."
  },
  {
   "property": "C107",
   "status": "proved",
   "theorems": [
    "Naima.Props.C107_layout",
    "Naima.Props.C107_layout_levels",
    "Naima.Props.C107_value",
    "Naima.Props.C107_joint",
    "Naima.Props.C107_posterior",
    "Naima.Props.C107_false_ties"
   ],
   "note": "False of the code for several upper limits at one energy with different confidence levels (C107_false_ties): the level used is found by position in the table. The statement names the cases in which the natural property fails; those are proved as well."
  },
  {
   "property": "C108",
   "status": "proved",
   "theorems": [
    "Naima.Props.C108_any_grid",
    "Naima.Props.C108_default",
    "Naima.Props.C108_power_law",
    "Naima.Props.C108_exponential_cutoff"
   ],
   "note": "The exact value is the integral of the AKP10 emission formula (C70); the accuracy of that approximation against the Bessel-function kernel is not considered. Beyond five critical energies of the most energetic electrons only the any-grid bound holds."
  },
  {
   "property": "C109",
   "status": "proved",
   "theorems": [
    "Naima.Props.C109_unique",
    "Naima.Props.C109_weighted_mean",
    "Naima.Props.C109_recovers",
    "Naima.Props.C109_upper_limits"
   ],
   "note": "The log-likelihood is that of `lnprobmodel`, in exact arithmetic, without priors."
  },
  {
   "property": "C110",
   "status": "proved",
   "theorems": [
    "Naima.Props.C110_generated_bins",
    "Naima.Props.C110_sampler",
    "Naima.Props.C110_tables",
    "Naima.Props.C110_same",
    "Naima.Props.C110_refused",
    "Naima.Props.C110_false_dict"
   ],
   "note": "Drawable: at least one measurement, positive energies and bins, no negative flux or error in a measured point, and not all measured points compatible with zero (C80 shows these are refused). matplotlib's rendering is not modelled. The statement names the cases in which the natural property fails; those are proved as well."
  },
  {
   "property": "C111",
   "status": "partial",
   "theorems": [
    "Naima.Props.C111_continues_partial",
    "Naima.Props.C111_new",
    "Naima.Props.C111_required",
    "Naima.Props.C111_false_half_given",
    "Naima.Props.C111_settings_partial",
    "Naima.Props.C111_false_settings"
   ],
   "note": "emcee as in C48."
  },
  {
   "property": "C112",
   "status": "proved",
   "theorems": [
    "Naima.Props.C112_traces",
    "Naima.Props.C112_distribution",
    "Naima.Props.C112_quantiles",
    "Naima.Props.C112_all",
    "Naima.Props.C112_negative",
    "Naima.Props.C112_refused",
    "Naima.Props.C112_no_walkers",
    "Naima.Props.C112_agrees_with_table",
    "Naima.Props.C112_false_last_step",
    "Naima.Props.C112_false_stuck",
    "Naima.Props.C112_made"
   ],
   "note": "Figures are modelled by what they show; number formatting and the kernel density are trusted (gaussian_kde is assumed to refuse fewer than two samples and samples that are all equal). Real numbers stand for floats in the choice of the emphasised traces. The statement names the cases in which the natural property fails; those are proved as well."
  },
  {
   "property": "C113",
   "status": "proved",
   "theorems": [
    "Naima.Props.C113_well_posed",
    "Naima.Props.C113_recovers",
    "Naima.Props.C113_power_law_synchrotron"
   ],
   "note": "Composition of C07 (flux and sed), C08 (scaling with the normalisation), C40 (likelihood) and C109 (the normalisation of a fixed spectrum); C103 for the positivity of the synchrotron spectrum. Exact real arithmetic."
  },
  {
   "property": "C114",
   "status": "partial",
   "theorems": [
    "Naima.Props.C114_parameters",
    "Naima.Props.C114_limits",
    "Naima.Props.C114_counts_partial",
    "Naima.Props.C114_false_distance",
    "Naima.Props.C114_false_field",
    "Naima.Props.C114_false_weight",
    "Naima.Props.C114_guess",
    "Naima.Props.C114_guess_zero_model",
    "Naima.Props.C114_false_guess_zero"
   ],
   "note": "Sherpa's Parameter (limits, set raising ParameterErr, default limits) is trusted. Not covered: finite non-negative counts of bremsstrahlung, which is false of the code (C18, C93_false_negative: NaN at and negative just below every energy of the electron grid)."
  },
  {
   "property": "C115",
   "status": "partial",
   "theorems": [
    "Naima.Props.C115_corner_partial",
    "Naima.Props.C115_missing",
    "Naima.Props.C115_false_first_blob",
    "Naima.Props.C115_false_labels",
    "Naima.Props.C115_false_linewidth",
    "Naima.Props.C115_diagnostics",
    "Naima.Props.C115_mark_colour"
   ],
   "note": "_partial: only runs with labels whose first blob is a Quantity or pair (as every run made by naima), or without blobs and model function; outside it fails (C115_false_*). The corner package is a parameter."
  },
  {
   "property": "C116",
   "status": "proved",
   "theorems": [
    "Naima.Props.C116_isotropic",
    "Naima.Props.C116_angle"
   ],
   "note": ""
  },
  {
   "property": "C117",
   "status": "proved",
   "theorems": [
    "Naima.Props.C117_protons",
    "Naima.Props.C117_electrons",
    "Naima.Props.C117_documented"
   ],
   "note": "The documented integral of C117_documented is the limit of the computed spectrum (C93), except at photon energies above the lowest electron energy, where the code interpolates across the kinematic limit (C93_false)."
  },
  {
   "property": "C118",
   "status": "proved",
   "theorems": [
    "Naima.Props.C118_collision",
    "Naima.Props.C118_power"
   ],
   "note": ""
  },
  {
   "property": "C119",
   "status": "partial",
   "theorems": [
    "Naima.Props.C119_reports",
    "Naima.Props.C119_spacing",
    "Naima.Props.C119_every_five_percent_partial",
    "Naima.Props.C119_false_coprime",
    "Naima.Props.C119_at_most_95",
    "Naima.Props.C119_lag",
    "Naima.Props.C119_few_labels",
    "Naima.Props.C119_false_lag"
   ],
   "note": "Falsities: runs with gcd(n, 20) = 1 print once; the report lags the chain by one step. Exact arithmetic: where 20 i mod n is exactly 1 the two sides of the comparison are equal reals, and in floating point it may go either way."
  },
  {
   "property": "C120",
   "status": "proved",
   "theorems": [
    "Naima.Props.C120_sigma_inel_mono",
    "Naima.Props.C120_factor",
    "Naima.Props.C120_spectrum",
    "Naima.Props.C120_ratio"
   ],
   "note": ""
  },
  {
   "property": "C121",
   "status": "proved",
   "theorems": [
    "Naima.Props.C121_hardest",
    "Naima.Props.C121_field",
    "Naima.Props.C121_field_practical"
   ],
   "note": ""
  },
  {
   "property": "C122",
   "status": "proved",
   "theorems": [
    "Naima.Props.C122_adjacent_We",
    "Naima.Props.C122_adjacent_Wp",
    "Naima.Props.C122_part_We",
    "Naima.Props.C122_part_Wp",
    "Naima.Props.C122_power_law_We",
    "Naima.Props.C122_power_law_Wp"
   ],
   "note": ""
  },
  {
   "property": "C123",
   "status": "proved",
   "theorems": [
    "Naima.Props.C123_average",
    "Naima.Props.C123_one_electron",
    "Naima.Props.C123_total_power"
   ],
   "note": "C123_one_electron bounds the kernel of one electron; C123_average ties the spec to C105; C123_total_power is the claim"
  },
  {
   "property": "C124",
   "status": "proved",
   "theorems": [
    "Naima.Props.C124_average",
    "Naima.Props.C124_one_electron",
    "Naima.Props.C124_total_number",
    "Naima.Props.C124_cmb"
   ],
   "note": "C124_one_electron bounds the kernel of one electron; C124_average and C124_cmb tie the spec to known results; C124_total_number is the claim"
  },
  {
   "property": "C125",
   "status": "partial",
   "theorems": [
    "Naima.Props.C125_reverse",
    "Naima.Props.C125_descending_partial",
    "Naima.Props.C125_false_order"
   ],
   "note": "the claim as stated is false (C125_false_order); what is proved is the exact effect of the reversal, C125_descending_partial and C125_reverse"
  },
  {
   "property": "C126",
   "status": "proved",
   "theorems": [
    "Naima.Props.C126_table_limit",
    "Naima.Props.C126_tables_exist"
   ],
   "note": "the table is refined after the electron grid; the rule's fixed threshold 1e-10 on local indices leaves the stated factor; C126_tables_exist shows that such tables exist for every field and mesh"
  },
  {
   "property": "C127",
   "status": "partial",
   "theorems": [
    "Naima.Props.C127_false_long_table",
    "Naima.Props.C127_shown_difference_partial",
    "Naima.Props.C127_short_tables",
    "Naima.Props.C127_false_stale_spectrum"
   ],
   "note": "numpy's default print options (threshold 1000, edgeitems 3) are modelled, the format of one number is a parameter. C127_false_*: stale answers for long tables. _partial: the request after the exchange is answered afresh when the text differs; C127_short_tables: up to 1000 rows every density is in the text (up to the printed precision)."
  },
  {
   "property": "C128",
   "status": "proved",
   "theorems": [
    "Naima.Props.C128_field_scattered",
    "Naima.Props.C128_field_radiated",
    "Naima.Props.C128_scattered",
    "Naima.Props.C128_radiated",
    "Naima.Props.C128_total_number",
    "Naima.Props.C128_total_power"
   ],
   "note": "C128_scattered/_radiated: one electron; C128_total_*: all electrons, limit of the grid; C128_field_*: one electron in a continuous field (limit of tables by C126)."
  },
  {
   "property": "C129",
   "status": "partial",
   "theorems": [
    "Naima.Props.C129_same_key",
    "Naima.Props.C129_false_other_shape",
    "Naima.Props.C129_false_scalar",
    "Naima.Props.C129_false_column",
    "Naima.Props.C129_key_partial",
    "Naima.Props.C129_one_shape_partial",
    "Naima.Props.C129_one_dimensional"
   ],
   "note": "False of the code: the key holds tobytes() of the energies, not their shape. C129_false_other_shape: the result of the first shape is returned; C129_false_scalar: a bare energy, which raises in InverseCompton, returns the array of an earlier request; C129_false_column: sed of a column is silently an n x n matrix. C129_one_shape_partial: histories that ask for the same energies in one shape only (all one-dimensional arrays, C129_one_dimensional) are right, with the key of the code in place of the assumption of C94."
  },
  {
   "property": "C130",
   "status": "partial",
   "theorems": [
    "Naima.Props.C130_flux",
    "Naima.Props.C130_sed_partial",
    "Naima.Props.C130_sed_value_partial",
    "Naima.Props.C130_false_sed",
    "Naima.Props.C130_writes_exists"
   ],
   "note": "True of flux (C130_flux). False of sed (C130_false_sed), which hands the distance to flux by position: the key then holds its repr, with as many digits as numpy prints (8, or numpy.set_printoptions(precision=...)), so that distances printed alike share one result. C130_sed_partial: each SED is that for a distance asked for in the history, in the same unit, within 10^-p of the unit or two parts in 10^p; C130_sed_value_partial: with the default digits all numbers are wrong by one factor within 3e-4 of 1, and within 5e-8 from one unit of distance on. InverseCompton is not affected: its flux passes the distance on by keyword."
  },
  {
   "property": "C131",
   "status": "partial",
   "theorems": [
    "Naima.Props.C131_sample",
    "Naima.Props.C131_no_return",
    "Naima.Props.C131_prior_partial",
    "Naima.Props.C131_box",
    "Naima.Props.C131_table_partial",
    "Naima.Props.C131_ml",
    "Naima.Props.C131_false_start"
   ],
   "note": "C131_sample: each recorded sample of a walker has non-zero probability or is the position the walker started from, and the recorded log-probability is that of the position; C131_no_return: a walker once allowed stays allowed; C131_ml: find_ML returns an allowed position if any walker ever reached one, whatever the start. C131_box: the sum of uniform_prior terms of the documentation is such a prior. C131_prior_partial and C131_table_partial need the walkers to start inside; the walkers get_sampler makes are scattered by 10 % around p0 without regard to the prior, and C131_false_start shows a run of any length all of whose samples, and results, are forbidden although p0 is allowed. The acceptance rule of emcee (accept iff factor + new - old > log u, NaN log-probability raises) is trusted."
  },
  {
   "property": "C132",
   "status": "proved",
   "theorems": [
    "Naima.Props.C132_bin_log",
    "Naima.Props.C132_power_law",
    "Naima.Props.C132_energy_content",
    "Naima.Props.C132_exact_accurate",
    "Naima.Props.C132_same_program",
    "Naima.Props.C132_bin",
    "Naima.Props.C132_bin_any_index",
    "Naima.Props.C132_integral",
    "Naima.Props.C132_double",
    "Naima.Props.C132_sharp"
   ],
   "note": "C132_same_program: with exact operations this is the model of trapz_loglog used elsewhere. C132_bin: relative error of a bin at most 27 u (1+|b|)(1+L)(1+1/L)(1+1/|b+1|), b the index and L the logarithmic width; C132_bin_any_index: for every index, also within 1e-10 of -1 where the code changes formula; C132_integral: the whole integral, added in any order (numpy adds pairwise); C132_double: the numbers for double precision. C132_bin_log: within 5e-11 of index -1 the other formula is taken and is right to 1e-10; C132_power_law, C132_energy_content: the integral of a power law and the energy content of power-law particles from samples with errors of 5e-14, on any grid, to 1.1e-8, index -1 (alpha = 2) included. C132_sharp: near index -1 the loss is real: at -1 + 2e-10 and samples one per cent apart a single rounding error of 2^-53 makes 5e-5. Overflow, underflow and the rounding of the samples themselves are not covered."
  },
  {
   "property": "C133",
   "status": "proved",
   "theorems": [
    "Naima.Props.C133_synchrotron",
    "Naima.Props.C133_inverse_compton",
    "Naima.Props.C133_pion",
    "Naima.Props.C133_compute_We",
    "Naima.Props.C133_compute_Wp",
    "Naima.Props.C133_power_law",
    "Naima.Props.C133_exponential_cutoff_power_law",
    "Naima.Props.C133_broken_power_law",
    "Naima.Props.C133_exponential_cutoff_broken_power_law",
    "Naima.Props.C133_log_parabola",
    "Naima.Props.C133_synchrotron_parameters",
    "Naima.Props.C133_likelihood",
    "Naima.Props.C133_allowed",
    "Naima.Props.C133_fit"
   ],
   "note": "C133_synchrotron, C133_inverse_compton, C133_pion, C133_compute_We, C133_compute_Wp: relative change at most (1+eps)(hi/lo)^(2e-10)-1, C133_allowed: which is at most eps + 1e-8; C84_tolerance_needed: the second term cannot be dropped. C133_power_law, C133_exponential_cutoff_power_law, C133_broken_power_law, C133_exponential_cutoff_broken_power_law, C133_log_parabola: the distributions. C133_synchrotron_parameters: magnetic field and distribution changed together. C133_likelihood: the log-likelihood; C133_fit: synchrotron with a power law, all parameters at once."
  },
  {
   "property": "C134",
   "status": "proved",
   "theorems": [
    "Naima.Props.C134_model",
    "Naima.Props.C134_electrons",
    "Naima.Props.C134_normalisation",
    "Naima.Props.C134_absorption",
    "Naima.Props.C134_errors"
   ],
   "note": "C134_model: the value at every energy and the blob, from the fluxes the components return; Leaves: what is known of the transmission (above 100 TeV it is the constant of C26_false_above). C134_electrons: the electron distribution. C134_normalisation, C134_absorption, C134_errors."
  },
  {
   "property": "C135",
   "status": "proved",
   "theorems": [
    "Naima.Props.C135_prior",
    "Naima.Props.C135_electrons",
    "Naima.Props.C135_within",
    "Naima.Props.C135_upper_limits",
    "Naima.Props.C135_outside",
    "Naima.Props.C135_errors",
    "Naima.Props.C135_zero_field"
   ],
   "note": "C135_prior: the prior of the example. C135_within: log-probability and blobs from the fluxes the components return and gaussLnL. C135_electrons: the electron distribution. C135_upper_limits: tables with upper limits of one confidence level. C135_outside, C135_errors. C135_zero_field: NaN at the boundary the prior admits (consequence of C14_false_zero_field)."
  },
  {
   "property": "C136",
   "status": "proved",
   "theorems": [
    "Naima.Props.C136_prior",
    "Naima.Props.C136_within",
    "Naima.Props.C136_electrons",
    "Naima.Props.C136_outside",
    "Naima.Props.C136_sed_table"
   ],
   "note": "C136_prior: the prior of the example. C136_within: log-probability and blobs. C136_outside, C136_electrons, C136_sed_table."
  },
  {
   "property": "C137",
   "status": "proved",
   "theorems": [
    "Naima.Props.C137_components"
   ],
   "note": "C137_components. The total is that of examples/CrabNebula_SynSSC.py with amplitude and field as parameters; the spectra of the single fields are those of a model given that field alone."
  },
  {
   "property": "C138",
   "status": "proved",
   "theorems": [
    "Naima.Props.C138_ecpl",
    "Naima.Props.C138_lp",
    "Naima.Props.C138_best",
    "Naima.Props.C138_errors"
   ],
   "note": "C138_ecpl, C138_lp: the value and blobs, `Told` being the small specification. C138_best: maximum. C138_errors."
  }
 ]
}