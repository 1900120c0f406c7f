{"claims": [
{"property": "C01", "status": "partial", "theorems": ["Exo.C01_third_law_and_density", "Exo.C01_supplied_values_partial", "Exo.C01_a_overwritten", "Exo.C01_physical_from_arguments"], "note": "Third law and density relation for every successful construction with physical outcome; supplied values come back except `a` on a circular orbit with `duration`, where it is overwritten (C01_a_overwritten). C01_physical_from_arguments derives the physical outcome from conditions on the arguments."},
{"property": "C02", "status": "partial", "theorems": ["Exo.C02_accepts_iff_admissible", "Exo.C02_rejected_with_valueError_partial", "Exo.C02_missing_period_typeError"], "note": "Acceptance iff the documented combination is proved for all inputs; rejection is with ValueError except a circular orbit with duration but no period, which is a TypeError (C02_missing_period_typeError)."},
{"property": "C03", "status": "proved", "theorems": ["Exo.C03_rebuild"], "note": "Rebuilding from any admissible subset reproduces all six values."},
{"property": "C04", "status": "partial", "theorems": ["Exo.C04_units_equivalent_partial", "Exo.C04_unit_keywords", "Exo.C04_incompatible_unit_fails", "Exo.C04_duration_units_ignored"], "note": "Unit labels are equivalent to manual conversion for all arguments except on circular orbits with duration, where the labels of period, duration, r_star are ignored (C04_duration_units_ignored)."},
{"property": "C05", "status": "partial", "theorems": ["Exo.C05_b_to_incl", "Exo.C05_incl_to_b", "Exo.C05_separation_at_t0_partial", "Exo.C05_singular_counterexample"], "note": "b and incl round trip proved in full; separation at t0 is |b| r_star unless sin(omega) = -1 exactly, where it is false (C05_singular_counterexample)."},
{"property": "C06", "status": "partial", "theorems": ["Exo.C06_t0_is_transit_partial", "Exo.C06_singular_counterexample"], "note": "t0 + k P is inferior conjunction unless sin(omega) = -1 exactly, where the code places t0 wrongly (C06_singular_counterexample)."},
{"property": "C07", "status": "proved", "theorems": ["Exo.C07_interchangeable", "Exo.C07_periastron"], "note": "Same orbit from t0 or t_periastron; t_periastron is the minimum-distance passage."},
{"property": "C08", "status": "proved", "theorems": ["Exo.C08_velocity_is_derivative"], "note": "All three velocities, eccentric and circular."},
{"property": "C09", "status": "proved", "theorems": ["Exo.C09_acceleration_is_derivative"], "note": "All three accelerations; for the star a positive planet mass is needed (the code computes 0/0 otherwise)."},
{"property": "C10", "status": "proved", "theorems": ["Exo.C10_newton"], "note": "Second derivative of the relative position (HasVelocityAt twice) is the Newtonian acceleration."},
{"property": "C11", "status": "proved", "theorems": ["Exo.C11_barycentre"], "note": ""},
{"property": "C12", "status": "proved", "theorems": ["Exo.C12_in_transit_periodic", "Exo.C12_periodic"], "note": "Including in_transit membership (one planet per call)."},
{"property": "C13", "status": "proved", "theorems": ["Exo.C13_distance_bounds"], "note": ""},
{"property": "C14", "status": "proved", "theorems": ["Exo.C14_angular_momentum", "Exo.C14_vis_viva"], "note": ""},
{"property": "C15", "status": "proved", "theorems": ["Exo.C15_forms_agree", "Exo.C15_range"], "note": "Range stated for K >= 0."},
{"property": "C16", "status": "partial", "theorems": ["Exo.C16_zero_ecc_partial", "Exo.C16_t_periastron_counterexample"], "note": "Proved when the timing is given by t0 (or default); with t_periastron it is false (C16_t_periastron_counterexample). sin(omega) = -1 excluded (see C06)."},
{"property": "C17", "status": "proved", "theorems": ["Exo.C17_kepler_unique", "Exo.C17_true_anomaly", "Exo.C17_special_cases"], "note": "Oddness is exact except at the branch point, where both values are pi."},
{"property": "C18", "status": "partial", "theorems": ["Exo.C18_polar", "Exo.C18_parallax_partial", "Exo.C18_parallax_ignored_with_light_delay"], "note": "Polar form for all options; parallax scaling without light delay. With light_delay=True the parallax is dropped (C18_parallax_ignored_with_light_delay)."},
{"property": "C19", "status": "partial", "theorems": ["Exo.C19_position_at_emission", "Exo.C19_delay_relative_partial", "Exo.C19_delay_planet_partial", "Exo.C19_delay_star_partial", "Exo.C19_wrong_sign", "Exo.C19_counterexample"], "note": "The code's delay satisfies the light-time equation up to the exact residual Z'' d^2: the second-order term has the wrong sign (C19_wrong_sign, C19_counterexample)."},
{"property": "C20", "status": "proved", "theorems": ["Exo.C20_flip"], "note": "Including light-delayed positions and velocities."},
{"property": "C21", "status": "proved", "theorems": ["Exo.C21_exact_circular", "Exo.C21_strictly_in_front", "Exo.C21_never_beyond_limb"], "note": "With z >= 0 as 'in front' (and strictly in front when the planet stays strictly outside the star); exposure version in C22_exposure."},
{"property": "C22", "status": "proved", "theorems": ["Exo.C22_exact_eccentric", "Exo.C22_flag_returns_everything", "Exo.C22_exposure"], "note": "The compiled contact-point solver is a parameter; its correctness is the hypothesis ContactsCorrect, with a concrete e = 1/2 instance."},
{"property": "C23", "status": "partial", "theorems": ["Exo.C23_sorted_valid", "Exo.C23_mono_texp", "Exo.C23_mono_radius_partial", "Exo.C23_radius_counterexample", "Exo.C23_simple_sorted_valid", "Exo.C23_simple_mono_texp", "Exo.C23_simple_mono_radius"], "note": "Sorted and valid for all inputs, monotone in texp for all inputs; monotone in r while the planet stays outside the star, false beyond that (C23_radius_counterexample)."},
{"property": "C24", "status": "proved", "theorems": ["Exo.C24_contacts", "Exo.C24_in_transit"], "note": "For duration <= period/2 and |b| < 1 + ror."},
{"property": "C25", "status": "partial", "theorems": ["Exo.C25_aor_derivative", "Exo.C25_jacobians_duration_partial", "Exo.C25_a_star_counterexample", "Exo.C25_dcosidb_partial", "Exo.C25_dcosidb_counterexample"], "note": "get_aor_from_transit_duration, a and rho_star in full; a_star and a_planet only for massless planets (C25_a_star_counterexample); dcos(i)/db except on circular orbits with a duration (C25_dcosidb_counterexample)."},
{"property": "C26", "status": "partial", "theorems": ["Exo.C26_b_from_duration_partial", "Exo.C26_ror_counterexample", "Exo.C26_mass_counterexample"], "note": "Holds for ror = 0 and a massless planet; false otherwise (C26_ror_counterexample, C26_mass_counterexample)."},
{"property": "C27", "status": "proved", "theorems": ["Exo.C27_chord", "Exo.C27_contacts", "Exo.C27_periodic", "Exo.C27_in_transit", "Exo.C27_in_transit_default"], "note": ""},
{"property": "C28", "status": "partial", "theorems": ["Exo.C28_refused_partial", "Exo.C28_supported", "Exo.C28_light_delay_ignored"], "note": "All methods except SimpleTransitOrbit.get_planet_position / get_star_position, which ignore light_delay (C28_light_delay_ignored)."},
{"property": "C29", "status": "partial", "theorems": ["Exo.C29_least_squares_partial", "Exo.C29_exact", "Exo.C29_exists", "Exo.C29_single_transit_counterexample"], "note": "Minimality, uniqueness, residuals, zero sum, orthogonality and exact recovery for all inputs with two different transit numbers; a single transit gives NaN (C29_single_transit_counterexample)."},
{"property": "C30", "status": "proved", "theorems": ["Exo.C30_nearest"], "note": "All increasing lists of transit times of any length, every real t; searchsorted is modelled as the number of smaller edges."},
{"property": "C31", "status": "partial", "theorems": ["Exo.C31_labelled", "Exo.C31_mid_transit", "Exo.C31_missing_partial", "Exo.C31_missing_counterexample"], "note": "Labelled transits proved (position equals that at t0; in front of the star at |b| r_star). Missing transits are placed with `period`, not `ttv_period`: false when a separate period is given (C31_missing_counterexample)."},
{"property": "C32", "status": "partial", "theorems": ["Exo.C32_zero_ttvs_partial", "Exo.C32_periodic_times_partial"], "note": "All observables except light-delayed positions, which TTVOrbit does not support (C35)."},
{"property": "C33", "status": "partial", "theorems": ["Exo.C33_relation", "Exo.C33_round_trip_partial", "Exo.C33_period_counterexample", "Exo.C33_neither"], "note": "Relation with ttv_period, exact round trip and ValueError proved; with a separately given `period` the relation with `period` is false (C33_period_counterexample)."},
{"property": "C34", "status": "partial", "theorems": ["Exo.C34_expected_times_partial", "Exo.C34_endpoint_counterexample"], "note": "Exactly the transits with min_time <= t < max_time; a transit exactly at max_time is missing (C34_endpoint_counterexample)."},
{"property": "C35", "status": "partial", "theorems": ["Exo.C35_light_delay_partial", "Exo.C35_shape_counterexample", "Exo.C35_flip_counterexample"], "note": "Holds only for one planet and a single time; otherwise wrong shape or shape error (C35_shape_counterexample), and _flip always raises (C35_flip_counterexample)."},
{"property": "C36", "status": "proved", "theorems": ["Exo.C36_coefficients", "Exo.C36_disc_integral", "Exo.C36_relative_flux", "Exo.C36_unocculted"], "note": "The compiled quad_solution_vector is idealised as the integrals it approximates (Model/LimbDark.lean)."},
{"property": "C37", "status": "proved", "theorems": ["Exo.C37_range", "Exo.C37_apart", "Exo.C37_behind", "Exo.C37_covered", "Exo.C37_mono", "Exo.C37_uniform"], "note": "For the idealised integrals, physical limb-darkening laws (nonnegative intensity, positive disc integral)."},
{"property": "C38", "status": "partial", "theorems": ["Exo.C38_midpoint", "Exo.C38_trapezoid_partial", "Exo.C38_simpson_partial", "Exo.C38_weights", "Exo.C38_symmetric_partial", "Exo.C38_exact_linear_partial", "Exo.C38_exact_cubic_partial", "Exo.C38_bad_order", "Exo.C38_single_point_counterexample"], "note": "False for order 1 and 2 when oversample is 0 or 1 (one point at the left end): C38_single_point_counterexample; everything else proved."},
{"property": "C39", "status": "partial", "theorems": ["Exo.C39_values", "Exo.C39_values_exposure", "Exo.C39_kepler", "Exo.C39_simple", "Exo.C39_shape_in_transit", "Exo.C39_radius_count", "Exo.C39_scalar_time_counterexample"], "note": "Values and shapes proved for use_in_transit=False and all shapes of t; False for a scalar t with the default use_in_transit (C39_scalar_time_counterexample)."},
{"property": "C40", "status": "partial", "theorems": ["Exo.C40_default", "Exo.C40_kepler_partial", "Exo.C40_kepler_single_partial", "Exo.C40_simple_partial", "Exo.C40_vector_texp_counterexample", "Exo.C40_silent_counterexample"], "note": "Proved without exposure time or with one common exposure time (Keplerian, tractable planets; SimpleTransitOrbit) and for one Keplerian planet with one exposure time per datum. False for several planets with one exposure time per datum: shape error (C40_vector_texp_counterexample) or, when the numbers agree, a silently wrong result (C40_silent_counterexample)."},
{"property": "C41", "status": "proved", "theorems": ["Exo.C41_inverse", "Exo.C41_jacobian", "Exo.C41_depth"], "note": ""},
{"property": "C44", "status": "proved", "theorems": ["Exo.C44_missing", "Exo.C44_present"], "note": ""},
{"property": "C42", "status": "partial", "theorems": ["Exo.C42_value_partial", "Exo.C42_value_exposure_partial", "Exo.C42_dark_partial", "Exo.C42_range_partial", "Exo.C42_range_exposure_partial", "Exo.C42_exclusive", "Exo.C42_eclipse_geometry", "Exo.C42_system_counterexample", "Exo.C42_use_in_transit_partial"], "note": "Proved for a single companion; for two or more planets get_light_curve raises (C42_system_counterexample)."},
{"property": "C43", "status": "proved", "theorems": ["Exo.C43_interpolant", "Exo.C43_base", "Exo.C43_base_exposure", "Exo.C43_unknown_planets", "Exo.C43_kepler"], "note": "For every base light curve evaluated point by point (C43_base, C43_base_exposure: LimbDarkLightCurve with use_in_transit=False). Real arithmetic: rounding of the grid is not modelled; scalar t0 and period when there is one planet."},
{"property": "C45", "status": "proved", "theorems": ["Exo.C45_cell", "Exo.C45_nodes", "Exo.C45_multiaffine", "Exo.C45_class"], "note": "Tables with one value per node, strictly increasing grids of at least two points per axis, any number of axes and any shape of the query array. searchsorted is modelled on sorted arrays."},
{"property": "C46", "status": "partial", "theorems": ["Exo.C46_rule_partial", "Exo.C46_fill_partial", "Exo.C46_nan_partial", "Exo.C46_nan_outside", "Exo.C46_lower_edge_counterexample"], "note": "A coordinate equal to the first grid point is treated as outside (C46_lower_edge_counterexample); proved for all other points, for numbers and for NaN as fill value (C46_nan_partial)."},
{"property": "C47", "status": "partial", "theorems": ["Exo.C47_single_partial", "Exo.C47_shape_counterexample", "Exo.C47_silent_counterexample"], "note": "Only for a single query point; otherwise the call raises (C47_shape_counterexample) or, with as many points as outputs, silently mixes the weights (C47_silent_counterexample)."},
{"property": "C48", "status": "partial", "theorems": ["Exo.C48_support", "Exo.C48_density_support", "Exo.C48_uniform", "Exo.C48_start_partial", "Exo.C48_start_counterexample"], "note": "support and uniformity proved; the start value of y is initval[1]*(1-initval[0]^2), wrong unless one of the two is 0 (counterexample)"},
{"property": "C49", "status": "proved", "theorems": ["Exo.C49_support", "Exo.C49_physical", "Exo.C49_uniform", "Exo.C49_start", "Exo.C49_start_corner"], "note": "start proved for every initval in the open triangle; at the corner (0,0) there is no start state (C49_start_corner)"},
{"property": "C50", "status": "proved", "theorems": ["Exo.C50_support", "Exo.C50_uniform", "Exo.C50_start", "Exo.C50_default_start"], "note": "conditional law given ror, which must not depend on the variable itself"},
{"property": "C51", "status": "proved", "theorems": ["Exo.C51_range", "Exo.C51_uniform", "Exo.C51_isotropic", "Exo.C51_start"], "note": "uniform for every regularization > -1 and None; below that the density is not normalisable, but still isotropic (C51_isotropic)"},
{"property": "C52", "status": "partial", "theorems": ["Exo.C52_registration", "Exo.C52_hyper_positive", "Exo.C52_density", "Exo.C52_support", "Exo.C52_observed_partial", "Exo.C52_observed_pymc3_raises", "Exo.C52_long_none_same", "Exo.C52_succeeds"], "note": "all but observed values with limits on PyMC3, which raise NotImplementedError; long=None is the same as long=True"},
{"property": "C53", "status": "partial", "theorems": ["Exo.C53_mixture_partial", "Exo.C53_hyper_range", "Exo.C53_pymc3_ignores_observed", "Exo.C53_succeeds", "Exo.C53_observed_counterexample"], "note": "violated on PyMC3: an observed eccentricity is ignored (counterexample)"},
{"property": "C54", "status": "partial", "theorems": ["Exo.C54_interchangeable", "Exo.C54_interchangeable_kipping13", "Exo.C54_clean", "Exo.C54_clean_kipping13", "Exo.C54_forwarded_partial", "Exo.C54_leak_counterexample"], "note": "violated by kipping13 without limits and by vaneylen19, which forward the keyword as given (counterexample)"},
{"property": "C55", "status": "proved", "theorems": ["Exo.C55_lists_exactly_the_components_used", "Exo.C55_order_and_repetition_do_not_matter", "Exo.C55_bibtex_order_counterexample", "Exo.C55_keys_exist", "Exo.C55_constructions_never_fail_on_keys"], "note": "For every history of constructions inside one model, the citation list is exactly the set of citations of the components used, independent of order and repetition; every key exists."},
{"property": "C56", "status": "partial", "theorems": ["Exo.C56_registering_outside_is_silent", "Exo.C56_unknown_keys_are_reported", "Exo.C56_construct_outside_partial", "Exo.C56_distribution_outside", "Exo.C56_distribution_outside_counterexample", "Exo.C56_models_do_not_share", "Exo.C56_unused_model_is_empty", "Exo.C56_get_outside_raises"], "note": "Construction outside a model context succeeds for orbits and light curves, but the distribution helpers raise TypeError there (C56_distribution_outside_counterexample); isolation between models and errors of get_citations proved."},
{"property": "C57", "status": "proved", "theorems": ["Exo.C57_highest_local_maxima", "Exo.C57_value_error_iff"], "note": "For every argsort, grid with distinct frequencies and power array; ties are left open as in numpy."},
{"property": "C58", "status": "proved", "theorems": ["Exo.C58_fit_is_well_posed"], "note": "Fit exists, opens downwards, vertex strictly between neighbours, positive uncertainty, log-power at least the sample's."},
{"property": "C59", "status": "partial", "theorems": ["Exo.C59_bls_peak_info_is_not_the_peak", "Exo.C59_index_minus_one_is_the_peak_partial", "Exo.C59_reported_index_is_never_the_peak", "Exo.C59_counterexample"], "note": "The reported index is always one too large (C59_reported_index_is_never_the_peak, C59_counterexample); index - 1 is the peak and index is never out of range."},
{"property": "C65", "status": "partial", "theorems": ["Exo.C65_label_then_convert", "Exo.C65_conversion_value", "Exo.C65_conversions_compose", "Exo.C65_unlabelled_passes_through", "Exo.C65_labelling_twice_is_a_type_error", "Exo.C65_labelling_is_invisible_to_others_partial", "Exo.C65_labelling_keeps_values", "Exo.C65_labelling_a_shared_tensor_counterexample"], "note": "Conversion laws proved; labelling a tensor that as_tensor_variable returns unchanged mutates the caller's object (C65_labelling_a_shared_tensor_counterexample)."},
{"property": "C66", "status": "proved", "theorems": ["Exo.C66_selection", "Exo.C66_names_match_backend", "Exo.C66_failure_is_import_error"], "note": "All branches of the back-end selection."},
{"property": "C67", "status": "proved", "theorems": ["Exo.C67_aliases", "Exo.C67_one_warning_per_call", "Exo.C67_vector_of_coefficients", "Exo.C67_vector_warns_once"], "note": "Deprecated aliases."},
{"property": "C68", "status": "partial", "theorems": ["Exo.C68_candidates_are_the_solutions_partial", "Exo.C68_candidates_have_the_duration_partial", "Exo.C68_solvable_iff", "Exo.C68_jacobian", "Exo.C68_call_always_fails", "Exo.C68_counterexample"], "note": "The algebra inside duration_to_eccentricity is right (candidates are exactly the solutions, Jacobian correct), but every call fails with TypeError (C68_call_always_fails, C68_counterexample)."},
{"property": "C69", "status": "partial", "theorems": ["Exo.C69_momentum_and_centre_of_mass_partial", "Exo.C69_rows_agree_with_single_body_queries", "Exo.C69_vector_of_times_shape", "Exo.C69_vector_of_times_counterexample"], "note": "Momentum and centre of mass at a single time; a vector of times fails (C69_vector_of_times_counterexample)."},
{"property": "C60", "status": "proved", "theorems": ["Exo.C60_free_minimises", "Exo.C60_fixed_minimises", "Exo.C60_free_singular_iff", "Exo.C60_fixed_singular_iff", "Exo.C60_short_t0s", "Exo.C60_free_recovers", "Exo.C60_fixed_recovers", "Exo.C60_recovers_keplerian_signals"], "note": "estimate_semi_amplitude minimises the weighted squared residual over both the free-phase and the fixed-phase model, fails exactly when the normal equations are singular, and recovers sinusoidal signals; plain numbers, strictly positive errors and periods."},
{"property": "C61", "status": "proved", "theorems": ["Exo.C61_next_pow_two", "Exo.C61_is_the_autocorrelation", "Exo.C61_constant_or_empty"], "note": "The FFT route is shown to equal the normalised linear autocorrelation for every series; constant or empty series give undefined values. FFT is the exact DFT, reals for floats."},
{"property": "C62", "status": "proved", "theorems": ["Exo.C62_only_admissible_peaks", "Exo.C62_which_peak", "Exo.C62_succeeds", "Exo.C62_failures"], "note": "gaussian_filter and np.interp are parameters. Also shown: which peak is reported, when a period is found, and all failures. max_peaks and yerr are ignored by the code."},
{"property": "C63", "status": "partial", "theorems": ["Exo.C63_terminates", "Exo.C63_period_limits_partial", "Exo.C63_minimum_period_keyword_ignored", "Exo.C63_frequency_factor", "Exo.C63_misspelt_keyword_fails", "Exo.C63_times_in_the_user_frame", "Exo.C63_shift_equivariant", "Exo.C63_peak_info_iff", "Exo.C63_np_round", "Exo.C63_longest_period"], "note": "Termination, frequency factor, user-frame transit times and shift equivariance are proved; the period limits are honoured except that an extra keyword minimum_period is ignored (the code looks up the misspelt 'minimim_period'): C63_minimum_period_keyword_ignored. BoxLeastSquares is a parameter; the assumptions are met by astropy's autoperiod (demoBls_ok)."},
{"property": "C64", "status": "proved", "theorems": ["Exo.C64_linear_in_the_data", "Exo.C64_scales_with_stellar_mass", "Exo.C64_scales_with_period", "Exo.C64_mass_from_amplitude"], "note": "Minimum mass is linear in the data, and scales as m_star^(2/3) and period^(1/3); the mass formula inverts the amplitude formula in the test-mass limit."},
{"property": "C70", "status": "partial", "theorems": ["Exo.C70_filter", "Exo.C70_limits_and_periodogram", "Exo.C70_filter_does_not_touch_the_periodogram", "Exo.C70_peaks_of_the_filtered_power_partial", "Exo.C70_filter_changes_the_reported_power", "Exo.C70_failures"], "note": "Period limits, unfiltered periodogram and filter shape proved; the peaks are those of the filtered power, and their reported log-power is changed by the filter even when the same sample is selected (C70_filter_changes_the_reported_power)."},
{"property": "C71", "status": "proved", "theorems": ["Exo.C71_same_errors", "Exo.C71_attributes", "Exo.C71_positions", "Exo.C71_velocities", "Exo.C71_relative_angles", "Exo.C71_radial_velocity", "Exo.C71_rows_and_columns", "Exo.C71_default_shapes"], "note": "Proved for the whole constructor (all argument patterns) and all queries, for arguments of shape (), (1,) or (np,). Tensor expressions are modelled as graphs evaluated with NumPy broadcasting, so the statement includes that no evaluation fails; the scalar model of C01-C20 is what the system is compared with."},
{"property": "C72", "status": "partial", "theorems": ["Exo.C72_construction_partial", "Exo.C72_attributes_partial", "Exo.C72_observables_partial", "Exo.C72_radial_velocity_partial", "Exo.C72_missing_inds", "Exo.C72_scalar_period_counterexample"], "note": "Proved for every number of planets when period (and t0, with ttvs) has one entry per planet; a scalar period or t0, which KeplerianOrbit accepts, raises IndexError (C72_scalar_period_counterexample). Without light delay, which has the wrong shape (C35)."},
{"property": "C73", "status": "proved", "theorems": ["Exo.C73_shape_period", "Exo.C73_period_given", "Exo.C73_ttvs_given"], "note": "All three ways of giving the periods."},
{"property": "C74", "status": "proved", "theorems": ["Exo.C74_constants", "Exo.C74_units", "Exo.C74_relation", "Exo.C74_exists", "Exo.C74_third_law_SI", "Exo.C74_any_units", "Exo.C74_year", "Exo.C74_fallback"], "note": "The SI values of astropy are parameters; the numerical comparison with the fall-back uses the values of astropy 5."},
{"property": "C75", "status": "partial", "theorems": ["Exo.C75_light_curve_partial", "Exo.C75_exposure_partial", "Exo.C75_in_transit_partial", "Exo.C75_use_in_transit_partial", "Exo.C75_ttv_light_curve_partial", "Exo.C75_ttv_exposure_partial", "Exo.C75_ttv_in_transit_partial", "Exo.C75_shared_omega_counterexample", "Exo.C75_shared_cos_counterexample", "Exo.C75_shared_period_counterexample"], "note": "Proved for every number of planets when the period (or the semi-major axis) has one entry per planet, and for in_transit of eccentric orbits when ecc, omega and a have too. Counterexamples: a shared omega makes get_light_curve with the default arguments raise; a shared period with several b raises or mixes the axes of times and planets. The requirement of the compiled contact_points on sizes is part of the model."},
{"property": "C76", "status": "proved", "theorems": ["Exo.C76_exact", "Exo.C76_labelled", "Exo.C76_exposure", "Exo.C76_exposure_tight", "Exo.C76_use_in_transit"], "note": "Circular orbits: any increasing transit times and any exposure time. Eccentric orbits: the compiled contact-point solver is assumed right (as in C22), with the stated condition at the midpoints between transits."},
{"property": "C77", "status": "partial", "theorems": ["Exo.C77_order", "Exo.C77_order_lists", "Exo.C77_duplicate_counterexample", "Exo.C77_numbering_partial", "Exo.C77_numbering_counterexample", "Exo.C77_order_system"], "note": "Order: proved for one and for several planets (numbers all different; C77_duplicate_counterexample shows that this is needed). Numbering: proved when the period is the fitted one; with a separate period the predicted times of unobserved transits depend on where the numbering starts (C77_numbering_counterexample)."},
{"property": "C78", "status": "proved", "theorems": ["Exo.C78_orbit", "Exo.C78_ttv", "Exo.C78_lightcurve", "Exo.C78_lightcurve_ttv", "Exo.C78_secondary", "Exo.C78_in_transit", "Exo.C78_simple", "Exo.C78_simple_in_transit", "Exo.C78_simple_lightcurve", "Exo.C78_interpolated", "Exo.C78_expected"], "note": "Exact equality in real arithmetic, including which exception is raised. The light curves are those of lists of planets; C71, C72 and C75 relate them to arrays."},
{"property": "C79", "status": "partial", "theorems": ["Exo.C79_too_many", "Exo.C79_accepted", "Exo.C79_too_few", "Exo.C79_one_list", "Exo.C79_one_list_counterexample"], "note": "False for exactly one list and several planets: accepted, the axis of length one is broadcast, and every planet moves on its own orbit by the clock of the first (C79_one_list, C79_one_list_counterexample: the second planet is shown in transit while it is behind the star). With ttvs and without transit_inds; with one list per planet see C72."},
{"property": "C80", "status": "partial", "theorems": ["Exo.C80_flux", "Exo.C80_kepler_time_radius", "Exo.C80_kepler", "Exo.C80_ttv", "Exo.C80_ttv_circular", "Exo.C80_simple_partial", "Exo.C80_simple_counterexample", "Exo.C80_inside_counterexample"], "note": "Proved for Keplerian orbits that do not touch the star (C80_kepler, R + r < a(1 - e)) and, as an equivalence, for orbits with timing variations (C80_ttv). False for a SimpleTransitOrbit whose ror is omitted (C80_simple_counterexample) and for an orbit inside the star (C80_inside_counterexample). Positions without light delay: the switch of the delay formula at |az| = 1e-10 is not covered."},
{"property": "C81", "status": "partial", "theorems": ["Exo.C81_exposure_error", "Exo.C81_exposure_converges", "Exo.C81_exposure_kepler", "Exo.C81_interpolation_error", "Exo.C81_interpolation_converges", "Exo.C81_interpolation_kepler", "Exo.C81_not_periodic", "Exo.C81_ttv_counterexample"], "note": "Proved for Keplerian orbits with R + r < a(1 - e) (C81_exposure_kepler, C81_interpolation_kepler), with error bounds for any continuous light curve (C81_exposure_error, C81_interpolation_error). False for interpolation of orbits with timing variations: the interpolated light curve repeats with the period, so no num_phase suffices (C81_not_periodic, C81_ttv_counterexample). Exact real arithmetic; scalar exposure times; no light delay."},
{"property": "C82", "status": "partial", "theorems": ["Exo.C82_system_partial", "Exo.C82_single", "Exo.C82_one_planet_vector", "Exo.C82_ttv_one_planet", "Exo.C82_shared_scalar", "Exo.C82_one_planet_counterexample", "Exo.C82_shared_counterexample"], "note": "Proved for at least two planets with vectors t0 and period (C82_system_partial) and for one planet with scalars (C82_single). False otherwise: one planet with vectors of length one, hence every TTVOrbit of one planet, fails (C82_one_planet_vector, C82_ttv_one_planet); several planets with a shared scalar t0 or period fail, as does num_planets larger than the number of planets (C82_shared_scalar). With a smaller num_planets of at least 2 the remaining planets are silently missing (C82_system_partial). use_in_transit=False and no exposure time for the values."},
{"property": "C83", "status": "proved", "theorems": ["Exo.C83_light_curve", "Exo.C83_node", "Exo.C83_node_disc", "Exo.C83_mirror", "Exo.C83_mirror_incl", "Exo.C83_reverse", "Exo.C83_reverse_light_curve"], "note": "Reversal of time is stated without light delay, with exposures that are centred (oversample = 1 with order 1 or 2 is not, C38_single_point_counterexample), and for one eccentric planet."},
{"property": "C84", "status": "proved", "theorems": ["Exo.C84_constructor", "Exo.C84_motion", "Exo.C84_light_delay", "Exo.C84_light_curve"], "note": "The default radius and mass of the star do not scale, so one asks that r_star is given, or m_star and rho_star without a duration on a circular orbit. Light delay scales when the speed of light does and the fixed threshold 1e-10 on the acceleration decides alike (C84_light_delay)."},
{"property": "C85", "status": "partial", "theorems": ["Exo.C85_flip", "Exo.C85_value_partial", "Exo.C85_exposure_partial", "Exo.C85_use_in_transit_partial", "Exo.C85_shared_radius_counterexample"], "note": "False when the stellar radius is one number and there are several planets: the light curve of the companions is requested with a single radius and the positions cannot be reshaped (C85_shared_radius_counterexample). True when the attribute r_star has one entry per planet. Without light delay, as C20."},
{"property": "C86", "status": "partial", "theorems": ["Exo.C86_attributes", "Exo.C86_positions", "Exo.C86_star_position", "Exo.C86_light_curve_partial", "Exo.C86_exposure_partial", "Exo.C86_in_transit", "Exo.C86_use_in_transit_partial", "Exo.C86_light_delay", "Exo.C86_shared_times_counterexample", "Exo.C86_duration_only_counterexample", "Exo.C86_list_counterexample"], "note": "Attributes, positions and in_transit: always. Light curves: false when period, t0 and duration are shared and b or r_star is not (z loses its planet axis, C86_shared_times_counterexample) and when only duration differs (y loses its planet axis, C86_duration_only_counterexample). Python lists are accepted for period, t0 and duration but not for b, r_star and ror (C86_list_counterexample)."},
{"property": "C87", "status": "proved", "theorems": ["Exo.C87_nearer", "Exo.C87_prior", "Exo.C87_light_curve", "Exo.C87_circular", "Exo.C87_impact", "Exo.C87_limb_brightened_counterexample"], "note": "For coefficients accepted by the constructor that describe a star brighter at the limb the property does not hold (C87_limb_brightened_counterexample); the claim excludes them."},
{"property": "C88", "status": "proved", "theorems": ["Exo.C88_positions", "Exo.C88_in_transit", "Exo.C88_light_curve", "Exo.C88_light_curve_exposure", "Exo.C88_long_period"], "note": "The exact contacts are reported by KeplerianOrbit.in_transit and not by SimpleTransitOrbit.in_transit (part of C88_in_transit)."},
{"property": "C89", "status": "partial", "theorems": ["Exo.C89_semi_amplitude", "Exo.C89_semi_amplitude_partial", "Exo.C89_velocities_without_errors_counterexample", "Exo.C89_wrong_dimension", "Exo.C89_list_of_errors", "Exo.C89_bare", "Exo.C89_single_error", "Exo.C89_minimum_mass"], "note": "With yerr: always. Without yerr: for the periods and times; velocities with a unit are always refused, because the weights are made by np.ones_like(y), which has the unit of y (C89_velocities_without_errors_counterexample). Uncertainties in a Python list raise TypeError (C89_list_of_errors)."},
{"property": "C90", "status": "proved", "theorems": ["Exo.C90_order_of_the_data", "Exo.C90_origin_of_time", "Exo.C90_zero_point", "Exo.C90_scale_of_the_uncertainties", "Exo.C90_equal_uncertainties", "Exo.C90_order_of_the_planets", "Exo.C90_which_transit", "Exo.C90_same_phase"], "note": "For data of equal lengths with non-zero uncertainties, non-zero periods and one t0 per period."},
{"property": "C91", "status": "proved", "theorems": ["Exo.C91_unit_of_frequency", "Exo.C91_unit_of_power", "Exo.C91_reversed_spectrum", "Exo.C91_autocorrelation_of_affine", "Exo.C91_autocorrelation_of_reversed", "Exo.C91_estimator_unit_of_time", "Exo.C91_estimator_unit_of_data"], "note": "For the power and for reversed spectra no two peaks may have exactly the same height (NumPy's argsort leaves the order of ties open). np.interp is assumed not to depend on the origin and unit of the abscissae and to commute with affine changes of the ordinates (linear interpolation is proved to); of gaussian_filter nothing is assumed."},
{"property": "C92", "status": "proved", "theorems": ["Exo.C92_depth", "Exo.C92_recovery", "Exo.C92_central", "Exo.C92_uniform", "Exo.C92_mid_transit"], "note": "I(x) is the brightness at x stellar radii from the centre of the disc, Imean the mean brightness of the disc. quad_solution_vector is the definition by integrals of C37."},
{"property": "C93", "status": "proved", "theorems": ["Exo.C93_velocities", "Exo.C93_accelerations", "Exo.C93_radial_velocity", "Exo.C93_distance", "Exo.C93_virial", "Exo.C93_position"], "note": "The acceleration of the star for a planet with mass (C09)."},
{"property": "C94", "status": "partial", "theorems": ["Exo.C94_inferior_partial", "Exo.C94_superior_partial", "Exo.C94_circular", "Exo.C94_flip_partial", "Exo.C94_singular_counterexample"], "note": "False for sin omega = -1, where the phase formula of the constructor returns 0/0-like arctan2(0,0) and t0 is a superior conjunction (C94_singular_counterexample); proved for all other orbits."},
{"property": "C95", "status": "partial", "theorems": ["Exo.C95_positions_partial", "Exo.C95_velocities_partial", "Exo.C95_light_curve_partial", "Exo.C95_arguments", "Exo.C95_singular_counterexample"], "note": "False at sin omega = -1 when sin_omega and cos_omega are given: arctan2(0, 0) makes the planet jump by half a period at that single direction (C95_singular_counterexample); proved everywhere else."},
{"property": "C96", "status": "partial", "theorems": ["Exo.C96_independent", "Exo.C96_angles", "Exo.C96_together_partial", "Exo.C96_distinct", "Exo.C96_twice", "Exo.C96_collision_counterexample", "Exo.C96_backends_differ"], "note": "Different names are not enough: angle('a') registers a potential a_regularization, so that angle('a_regularization') in the same model raises (C96_collision_counterexample); unit_disk and, on PyMC3, the eccentricity priors do the like (C96_backends_differ). Proved for names that do not look like auxiliary ones (C96_together_partial); independence is proved for every script that runs."},
{"property": "C97", "status": "partial", "theorems": ["Exo.C97_angle", "Exo.C97_angle_uniform", "Exo.C97_angle_start", "Exo.C97_unit_disk", "Exo.C97_unit_disk_uniform", "Exo.C97_unit_disk_start", "Exo.C97_quad_limb_dark", "Exo.C97_quad_limb_dark_uniform", "Exo.C97_quad_limb_dark_start", "Exo.C97_impact_parameter", "Exo.C97_impact_parameter_uniform", "Exo.C97_impact_parameter_start", "Exo.C97_calls_succeed", "Exo.C97_angle_starts_fit", "Exo.C97_unit_disk_starts_fit", "Exo.C97_quad_limb_dark_starts_fit", "Exo.C97_impact_parameter_starts_fit", "Exo.C97_list_shape_counterexample", "Exo.C97_nested_list_counterexample", "Exo.C97_pymc3_vector_ror_counterexample", "Exo.C97_pymc_vector_ror"], "note": "unit_disk raises TypeError for a list as shape, which the other helpers accept (C97_list_shape_counterexample); lists of lists as start values are accepted by angle and not by unit_disk and quad_limb_dark (C97_nested_list_counterexample); on PyMC3 impact_parameter with a vector ror and no shape registers one number for all entries (C97_pymc3_vector_ror_counterexample). Everything else is proved."},
{"property": "C98", "status": "partial", "theorems": ["Exo.C98_components", "Exo.C98_range", "Exo.C98_uniform", "Exo.C98_kipping13_partial", "Exo.C98_vaneylen19_partial", "Exo.C98_kipping13_fixed", "Exo.C98_kipping13_pymc3_raises", "Exo.C98_vaneylen19_pymc3", "Exo.C98_shape", "Exo.C98_start_counterexample", "Exo.C98_succeeds"], "note": "Proved except on PyMC3 with a prior: kipping13 with limits raises NotImplementedError (C98_kipping13_pymc3_raises), vaneylen19 ignores the observed eccentricity, which stays uniform (C98_vaneylen19_pymc3); and except for the start value: with the seed of the tests for limits [0.45, 0.55] the eccentricity starts at 25/64, where the density is zero (C98_start_counterexample)."},
{"property": "C99", "status": "partial", "theorems": ["Exo.C99_kipping13_partial", "Exo.C99_vaneylen19_partial", "Exo.C99_kipping13_pymc3", "Exo.C99_kipping13_pymc3_counterexample", "Exo.C99_vaneylen19_counterexample", "Exo.C99_kipping13_proper", "Exo.C99_disk_kipping13_partial"], "note": "Proved for kipping13 on PyMC with any limits and on PyMC3 without limits. False on PyMC3 with limits (C99_kipping13_pymc3_counterexample: Bound is not normalised) and for vaneylen19 on both back-ends even without limits (C99_vaneylen19_counterexample: the mixture is not normalised on [0, 1]); in both cases the remaining factor is proved exactly."},
{"property": "C100", "status": "partial", "theorems": ["Exo.C100_visible", "Exo.C100_transit_partial", "Exo.C100_no_inclination_counterexample", "Exo.C100_rv", "Exo.C100_components", "Exo.C100_comment_counterexample"], "note": "The radial-velocity model is proved without conditions. The transit model is proved for orbits that clear the star by the size of the planet; the tutorial's wide prior of log_r also allows planets larger than their orbit, for which the impact parameter exceeds the semimajor axis and the inclination does not exist (C100_no_inclination_counterexample). The comment that h = sqrt(e) sin(w) is wrong, it is sqrt(e) cos(w) (C100_comment_counterexample, C100_components)."},
{"property": "C101", "status": "partial", "theorems": ["Exo.C101_rotation_partial", "Exo.C101_formulas_partial", "Exo.C101_planet_counterexample", "Exo.C101_nodes", "Exo.C101_inclination", "Exo.C101_counterclockwise"], "note": "Nodes, inclination and sense of rotation are proved for all bodies. The documented rotation holds for the star; for the orbiting body it needs omega + pi, and with omega as given it is false on every orbit at every time (C101_planet_counterexample): omega is the argument of periastron of the star's orbit, which the documentation does not say."},
{"property": "C102", "status": "proved", "theorems": ["Exo.C102_early_or_late", "Exo.C102_transits_early_eclipses_late", "Exo.C102_planet_transits_early_eclipses_late"], "note": "The delay is the code's, including the sign of its acceleration term that C19 shows to be wrong: the theorem measures what that costs (third order in v / c). Eccentric orbits: sign and size only."},
{"property": "C103", "status": "proved", "theorems": ["Exo.C103_determined_size", "Exo.C103_determined_angles", "Exo.C103_half_turn", "Exo.C103_astrometry_iff", "Exo.C103_tutorial", "Exo.C103_wrapped", "Exo.C103_face_on"], "note": "No parallax: angles are in the units of the semi-major axis, so the size is determined only as an angle. Circular orbits: size and period are covered, the split between argument of periastron and phase is not unique and not claimed."},
{"property": "C104", "status": "proved", "theorems": ["Exo.C104_determined", "Exo.C104_velocities_iff", "Exo.C104_negative_amplitude", "Exo.C104_tutorial", "Exo.C104_circular", "Exo.C104_jitter_counterexample"], "note": "The semi-amplitude is the argument K of get_radial_velocity, as in the tutorial. C104_jitter_counterexample is about the model that the documentation shows, not about the package."},
{"property": "C105", "status": "proved", "theorems": ["Exo.C105_determined", "Exo.C105_light_curve_iff", "Exo.C105_density", "Exo.C105_uniform", "Exo.C105_simple"], "note": "The second orbit is not assumed to transit; C105_determined shows that it does. Exposure times are zero. The sign of the impact parameter and the stellar radius alone are not determined, which the converse direction states."},
{"property": "C106", "status": "partial", "theorems": ["Exo.C106_gradient", "Exo.C106_contact", "Exo.C106_centre", "Exo.C106_uniform", "Exo.C106_rate", "Exo.C106_kepler_partial", "Exo.C106_simple_partial", "Exo.C106_eclipse_counterexample"], "note": "A body of exactly the size of the star is left out: C106_eclipse_counterexample proves that the light curve has a corner at the centre of such an eclipse. SimpleTransitOrbit needs a body not larger than its ror and a duration below the period, since otherwise the light curve jumps (C80). The gradient is that of the flux as the model defines it; what the compiled operator returns from its own backward pass is outside the repository."},
{"property": "C107", "status": "partial", "theorems": ["Exo.C107_kepler_equation", "Exo.C107_positions_partial", "Exo.C107_velocities_partial", "Exo.C107_radial_velocity_partial", "Exo.C107_light_curve_partial", "Exo.C107_likelihood", "Exo.C107_arguments", "Exo.C107_singular_counterexample"], "note": "At sin(omega) = -1 the property is false: C107_singular_counterexample gives a family with smooth elements whose position jumps. Bodies of the size of the star are left out because of C106_eclipse_counterexample. Eccentricity and planet mass must not be negative in a neighbourhood, as the constructor gives no physical orbit there. Derivatives are those of the functions computed; the graph rewriting of the autodiff framework is outside the repository."},
{"property": "C108", "status": "partial", "theorems": ["Exo.C108_marginal_partial", "Exo.C108_branches_partial", "Exo.C108_jacobian_partial", "Exo.C108_weights_partial", "Exo.C108_counterexample_planets", "Exo.C108_counterexample_power", "Exo.C108_counterexample_pymc", "Exo.C108_counterexample_average"], "note": "The code after the call that always fails (C68_call_always_fails), from its inputs on. True for one planet on PyMC3. False otherwise: with two or more planets the weights cannot be broadcast (C108_counterexample_planets) and the potential is counted once per planet (C108_counterexample_power); on PyMC the lookup of the variables fails (C108_counterexample_pymc); the average ignores the likelihood (C108_counterexample_average)."},
{"property": "C109", "status": "proved", "theorems": ["Exo.C109_duration", "Exo.C109_impact", "Exo.C109_depth", "Exo.C109_astrometry", "Exo.C109_velocities"], "note": "The Jacobians of a and rho_star with respect to the duration are negative (part of C109_duration), so that the log needs the absolute value. The other entries of the dictionary are not derivatives (C25_a_star_counterexample, C25_dcosidb_counterexample) and are not part of this claim."},
{"property": "C110", "status": "partial", "theorems": ["Exo.C110_rate", "Exo.C110_closest_partial", "Exo.C110_off_centre", "Exo.C110_symmetric_iff", "Exo.C110_light_curve_partial", "Exo.C110_grazing", "Exo.C110_closest_counterexample", "Exo.C110_light_curve_counterexample"], "note": "t0 is the conjunction (C06, C94). Proved: the rate of change of the separation at t0 in closed form, and that separations are symmetric about t0 exactly if ecc cos(omega) = 0 (C110_symmetric_iff). True on circular orbits and transits at periastron; false otherwise: closest before t0 (C110_closest_counterexample), grazing light curves deepest before t0 and not symmetric (C110_light_curve_counterexample). SimpleTransitOrbit and the estimators call t0 the midpoint or time of transit; KeplerianOrbit only promises 'a reference transit'."},
{"property": "C111", "status": "partial", "theorems": ["Exo.C111_bounds", "Exo.C111_emission_time", "Exo.C111_accuracy_partial", "Exo.C111_accuracy_planet_partial", "Exo.C111_accuracy_star_partial", "Exo.C111_worse_than_without_acceleration"], "note": "Proved: existence and uniqueness of the emission time, and the error bound, which is of second order in the delay. Missing: the third-order error that a second-order expansion should have; because of the wrong sign found in C19 the acceleration term doubles the error of the first-order formula instead of removing it (C111_worse_than_without_acceleration, at the transit of every circular orbit slower than c/10)."},
{"property": "C112", "status": "partial", "theorems": ["Exo.C112_continuous_partial", "Exo.C112_jump", "Exo.C112_continuous_iff", "Exo.C112_jump_size", "Exo.C112_counterexample"], "note": "Proved at all times at which the acceleration along the line of sight is not 1e-10, where the code switches between the solution of the linear and of the quadratic equation. False at the switch: the position is continuous at all times exactly if the acceleration never reaches 1e-10 (C112_continuous_iff), so for no ordinary planet. The jump in time is at most 3/4 1e-10 d^2 / c (C112_jump_size)."},
{"property": "C113", "status": "partial", "theorems": ["Exo.C113_possible_partial", "Exo.C113_never_rejected", "Exo.C113_impossible_impact", "Exo.C113_impossible_duration", "Exo.C113_impossible_circular_duration", "Exo.C113_unbound", "Exo.C113_zero_period", "Exo.C113_negative_mass", "Exo.C113_counterexample"], "note": "The first half is proved with a model that computes with NaN and infinities, which also shows that the totalised operations of the real-number model are never used on physical orbits. The second half is false of the light curve: gt(nan, 0) is false, so the switch of _compute_light_curve replaces the NaN of every impossible orbit by zero flux (C113_impossible_impact, C113_impossible_duration, C113_impossible_circular_duration, C113_unbound, C113_zero_period, C113_negative_mass)."},
{"property": "C114", "status": "partial", "theorems": ["Exo.C114_one_body", "Exo.C114_sum_partial", "Exo.C114_separate", "Exo.C114_sum_le", "Exo.C114_sum_iff", "Exo.C114_system_partial", "Exo.C114_counterexample"], "note": "Holds when no two planets overlap in front of the star, e.g. when they are further apart than the sum of their radii (C114_sum_partial, C114_separate, C114_system_partial). For stars that are nowhere dark that condition is also necessary (C114_sum_iff); the sum is always the lower one (C114_sum_le) and can fall below -1 (C114_counterexample)."},
{"property": "C115", "status": "proved", "theorems": ["Exo.C115_distance", "Exo.C115_radius", "Exo.C115_time", "Exo.C115_exposure_error", "Exo.C115_exposure_kepler", "Exo.C115_interpolation_kepler", "Exo.C115_centre_brightest"], "note": "Quantitative form of C81: explicit constants. For n = oversample each rule is within half a cell times the rate, whatever the contact points, at which light curves are not twice differentiable."},
{"property": "C116", "status": "partial", "theorems": ["Exo.C116_in_transit", "Exo.C116_possible_partial", "Exo.C116_flat", "Exo.C116_silent", "Exo.C116_nan", "Exo.C116_counterexample"], "note": "For |b| < 1 + ror no operation leaves its domain and positions, selection and fluxes are those of the real-number model (C116_possible_partial, C116_in_transit). False otherwise: beyond 1 + ror the speed is NaN, in_transit selects nothing and the default light curve is exactly zero for planets of every size (C116_silent), also for the grazing transits that exist when ror is left at its default zero (C116_counterexample), whereas use_in_transit=False gives NaN (C116_nan). Durations that are not positive give zero flux (C116_flat)."},
{"property": "C117", "status": "proved", "theorems": ["Exo.C117_position", "Exo.C117_flux", "Exo.C117_light_curve"], "note": "The attributes a, cos_incl, sin_incl, r_star, t0, period are the stored numbers; n, M0, t_periastron, tref and everything computed from the times are rounded. Overflow, underflow and the rewriting of the graph by the compiler are not modelled; the compiled flux operation is a parameter of known error. Eccentric orbits are the subject of C120."},
{"property": "C118", "status": "partial", "theorems": ["Exo.C118_backprop", "Exo.C118_simple_partial", "Exo.C118_graph", "Exo.C118_centre", "Exo.C118_differentiable", "Exo.C118_counterexample"], "note": "Proved away from the centre of the star (C118_simple_partial, from the general C118_backprop: reverse accumulation through a graph without singular operations gives the partial derivatives). False at the middle of a central transit: b = sqrt(x**2 + y**2) has the derivative 0/0 there, so that the computed derivatives with respect to all parameters of the orbit are NaN (C118_centre) although the flux is continuously differentiable (C118_differentiable). The derivative rules of PyTensor's operations are trusted; the compiled operation and its derivatives are parameters."},
{"property": "C119", "status": "partial", "theorems": ["Exo.C119_delayed_partial", "Exo.C119_crossing", "Exo.C119_crossing_value", "Exo.C119_crossing_differentiable", "Exo.C119_face_on", "Exo.C119_face_on_value", "Exo.C119_differentiable", "Exo.C119_counterexample"], "note": "Proved where the acceleration along the line of sight is neither zero nor exactly at the threshold 1e-10 of the code (C119_delayed_partial). False wherever the body crosses the plane of the sky (C119_crossing), on face-on orbits (incl = 0) at all times (C119_face_on): pt.switch guards the value against the division by az = 0 but not the gradient, where 0 * (c_light / az) = NaN comes back from the branch that is not selected, so that the derivatives with respect to all parameters are NaN although the values are right (C119_crossing_value, C119_face_on_value) and the true derivatives exist (C119_crossing_differentiable, C119_differentiable)."},
{"property": "C120", "status": "proved", "theorems": ["Exo.C120_position", "Exo.C120_flux", "Exo.C120_light_curve", "Exo.C120_drift", "Exo.C120_amplified"], "note": "The attributes a, ecc, sin_omega, cos_omega, cos_incl, sin_incl, r_star, period and the given one of t0, t_periastron are the stored numbers; n, M0 (with its arctan2), the other epoch, tref and everything computed from the times are rounded. The compiled solver is a parameter whose error is assumed only at the mean anomaly that it is given. Overflow, underflow and the rewriting of the graph by the compiler are not modelled."},
{"property": "C121", "status": "partial", "theorems": ["Exo.C121_kepler", "Exo.C121_graph", "Exo.C121_light_curve_partial", "Exo.C121_from_the_right", "Exo.C121_circular", "Exo.C121_impossible", "Exo.C121_downwards", "Exo.C121_centre", "Exo.C121_differentiable", "Exo.C121_counterexample"], "note": "Proved unless the planet is exactly in front of or behind the centre of the star or grazes the star in the plane of the sky, or sin(omega) = -1, or the orbit is face-on (C121_light_curve_partial); also at ecc = 0, where they are those of the circular orbit (C121_circular) and that with respect to ecc is the derivative from the right (C121_from_the_right); the formulas for the derivatives of sin f and cos f with respect to M and e are proved (C121_kepler). False at sin_omega = -1, cos_omega = 0, where the derivatives with respect to ecc, sin_omega and cos_omega are NaN at all times (C121_downwards: pt.arctan2 is differentiated at (0, 0); with omega = -pi/2 the rounding of cos(omega) avoids it), and at the centre of the star (C121_centre, C121_counterexample: true derivatives exist by C121_differentiable; in doubles cos(pi/2) is not exactly zero, so that rounding usually avoids this point). A b beyond the largest possible one gives a flux of zero with derivatives of exactly zero instead of NaN (C121_impossible)."},
{"property": "C122", "status": "partial", "theorems": ["Exo.C122_light_curve_partial", "Exo.C122_centre", "Exo.C122_equal_labels", "Exo.C122_counterexample"], "note": "Proved if the labels are distinct, the time is not an edge between two transits, and the planet is not exactly in front of or behind the centre of the star or grazes the star in the plane of the sky and the orbit not face-on (C122_light_curve_partial). False for repeated labels, which the code accepts: only the last entry counts, but the computed derivatives with respect to all of them are the same (C122_equal_labels; C122_counterexample: x does not depend on ttvs[0], its computed derivative is -2 pi). NaN at the centre of the star, for transit_times even with respect to the times of all other transits (C122_centre)."},
{"property": "C123", "status": "partial", "theorems": ["Exo.C123_value", "Exo.C123_exposure_partial", "Exo.C123_use_in_transit_partial", "Exo.C123_centre", "Exo.C123_counterexample"], "note": "Proved unless at one of the samples the planet is exactly in front of or behind the centre of the star or grazes the star in the plane of the sky, or the orbit is face-on (C123_exposure_partial, with use_in_transit C123_use_in_transit_partial under the hypotheses of C40; the graph is that of get_light_curve by C123_value). NaN if one of the samples is at the centre of the star (C123_centre; C123_counterexample: the middle of a central transit, where the true derivatives exist; in doubles cos(pi/2) is not exactly zero, so that rounding usually avoids this point on Keplerian orbits)."},
{"property": "C124", "status": "partial", "theorems": ["Exo.C124_graph", "Exo.C124_light_curve_partial", "Exo.C124_centre", "Exo.C124_differentiable", "Exo.C124_counterexample"], "note": "Proved unless the planet is exactly in front of or behind the centre of the star or grazes the star in the plane of the sky, or the orbit is face-on (C124_light_curve_partial; the graph is that of the model with NaN by C124_graph). At the centre of the star the true derivatives exist (C124_differentiable) and the computed ones with respect to b and to every argument from which the axis or the radius is computed are NaN, also those with respect to masses and density (C124_centre, C124_counterexample). In doubles cos(pi/2) is not exactly zero, so that rounding usually avoids this point."},
{"property": "C125", "status": "partial", "theorems": ["Exo.C125_masses_partial", "Exo.C125_amplitude_partial", "Exo.C125_differentiable", "Exo.C125_downwards", "Exo.C125_counterexample"], "note": "Proved with K if sin(omega) > -1 (C125_amplitude_partial) and from the masses if also the orbit is not face-on (C125_masses_partial). With sin_omega=-1 and cos_omega=0 the computed derivatives with respect to ecc, sin_omega and cos_omega are NaN (C125_downwards), also when t_periastron is given, where the radial velocity does not depend on the time of transit at all and is differentiable everywhere (C125_differentiable, C125_counterexample): the constructor computes the time of transit anyway, adds it and subtracts it again."},
{"property": "C126", "status": "partial", "theorems": ["Exo.C126_graph", "Exo.C126_light_curve_partial", "Exo.C126_jacobian", "Exo.C126_impossible", "Exo.C126_centre", "Exo.C126_counterexample"], "note": "Proved unless the planet is exactly in front of or behind the centre of the star or grazes the star in the plane of the sky, the orbit is face-on, or the impact parameter computed from the duration is zero (C126_light_curve_partial, C126_jacobian; the graph is that of the model with NaN by C126_graph). At the centre of the star the computed derivatives are NaN (C126_centre, C126_counterexample). If the planet passes the star at too large a distance for any axis to give the duration, the light curve is zero but the computed derivatives with respect to duration, ror, b, r_star and period are NaN (C126_impossible), unlike those of C121_impossible."},
{"property": "C127", "status": "partial", "theorems": ["Exo.C127_model", "Exo.C127_light_curve_partial", "Exo.C127_differentiable", "Exo.C127_upwards", "Exo.C127_centre", "Exo.C127_counterexample"], "note": "Proved unless the planet is exactly in front of or behind the centre of the star or grazes the star in the plane of the sky, the orbit is face-on, or is eccentric with sin(omega) = 1 or -1, or with an omega computed as exactly pi (C127_light_curve_partial); C127_model: the function is that of the rest of the model. The derivatives exist at the centre and at sin(omega) = 1 too (C127_differentiable), but those computed with exact arithmetic are NaN (C127_centre, C127_upwards, C127_counterexample)."},
{"property": "C128", "status": "partial", "theorems": ["Exo.C128_interpolated_partial", "Exo.C128_circular_partial", "Exo.C128_centre", "Exo.C128_central", "Exo.C128_differentiable", "Exo.C128_counterexample", "Exo.C128_exists"], "note": "Proved unless the time is one of the grid, or at one of the times of the grid the planet is exactly in front of or behind the centre of the star or grazes it in the plane of the sky, or the orbit is face-on (C128_interpolated_partial); for circular orbits outside of the star all that is needed is b != 0 (C128_circular_partial). The light curves exist (C128_exists). False for central transits: t0 is always one of the times of the grid, and the zero derivative of an unused entry turns into 0 / 0 there, so that the computed derivatives are NaN at all times (C128_centre, C128_central), where the true ones exist (C128_differentiable, C128_counterexample)."},
{"property": "C129", "status": "partial", "theorems": ["Exo.C129_unit_disk", "Exo.C129_quad_limb_dark", "Exo.C129_impact_parameter", "Exo.C129_angle", "Exo.C129_light_curve_partial", "Exo.C129_rv_partial", "Exo.C129_origin", "Exo.C129_start", "Exo.C129_truth", "Exo.C129_rv_jump", "Exo.C129_gradient_counterexample"], "note": "Proved for values and potentials of the helpers wherever the sampled variables are within the support and, for angle, away from the cut at +-pi and from the origin (C129_unit_disk, C129_quad_limb_dark, C129_impact_parameter, C129_angle); for light curves, also where omega jumps from pi to -pi, unless omega is -pi/2, the eccentricity is zero, the planet is exactly in front of or behind the centre of the star or grazes it in the plane of the sky, or the orbit is face-on (C129_light_curve_partial); and for radial velocities unless omega is -pi/2 or the eccentricity is zero (C129_rv_partial). False at the centre of the disc: there the computed derivatives with respect to both variables are NaN at all times (C129_origin), although the light curve is differentiable along one of them with derivative zero (C129_truth), whereas the radial velocity with a given time of periastron is not even continuous (C129_rv_jump); and this is where unit_disk starts without a start value, as in one of the tutorials (C129_start, C129_gradient_counterexample)."},
{"property": "C130", "status": "partial", "theorems": ["Exo.C130_position_partial", "Exo.C130_separation_partial", "Exo.C130_angle_partial", "Exo.C130_residual_partial", "Exo.C130_light_curve_partial", "Exo.C130_conjunction", "Exo.C130_cut", "Exo.C130_counterexample"], "note": "Proved for 0 <= e < 1 (or circular orbits) and sin omega > -1: positions without further conditions, also face-on and edge-on (C130_position_partial); separations unless zero (C130_separation_partial); position angles unless pi (C130_angle_partial); wrapped residuals also where the position angle jumps, unless the residual itself is pi (C130_residual_partial); light curves unless the planet is exactly in front of or behind the centre of the star or grazes it in the plane of the sky (C130_light_curve_partial). False where planet and star coincide: the derivative of the separation with respect to the semi-major axis exists and is zero, the computed one is NaN (C130_conjunction, C130_counterexample). Where the position angle is pi it is not continuous in Omega, and the computed derivatives are numbers nevertheless (C130_cut)."},
{"property": "C131", "status": "partial", "theorems": ["Exo.C131_solution", "Exo.C131_graph", "Exo.C131_light_curve_partial", "Exo.C131_coefficients", "Exo.C131_exact", "Exo.C131_centre", "Exo.C131_dark", "Exo.C131_tutorial_partial", "Exo.C131_counterexample"], "note": "The entries of the solution vector are differentiable apart from the centre of the star, with the integral along the limb of the planet as derivative (C131_solution). With exact compiled operations all computed derivatives are right unless the planet is exactly in front of or behind the centre or grazes the star in the plane of the sky, or the orbit is face-on; the coefficients need not be physical, only a total brightness of zero is excluded (C131_light_curve_partial), and the same for the model of the tutorial (C131_tutorial_partial). Those with respect to the coefficients are right at these exceptions too (C131_coefficients). The assumption of C118-C130 about the light curve as one operation follows from that about the solution vector (C131_exact). False at the centre, as in C121: the derivatives with respect to the orbit are NaN (C131_centre, C131_counterexample). With u1/3 + u2/6 = 1 the flux is NaN or infinite (C131_dark)."},
{"property": "C132", "status": "partial", "theorems": ["Exo.C132_likelihood", "Exo.C132_residuals", "Exo.C132_one_datum", "Exo.C132_transit", "Exo.C132_velocity_partial", "Exo.C132_jitter", "Exo.C132_astrometry_partial", "Exo.C132_system_partial", "Exo.C132_own", "Exo.C132_circular_partial", "Exo.C132_shared", "Exo.C132_counterexample"], "note": "Right for all data whenever the model of each datum is right (C132_likelihood), and equal to the sum of residuals over variances times derivatives (C132_residuals); NaN if the derivative for a single datum is (C132_one_datum). For the transit tutorial right at all states within the support for which the orbit lies outside of the star, whatever the data and the times: the exceptions of C131 cannot occur since the unit impact parameter is positive (C132_transit). For radial velocities right for 0 <= ecc < 1 unless plus - minus is -pi/2 modulo 2 pi (C132_velocity_partial), and zero for the jitter, which the likelihood does not contain (C132_jitter, C104). For astrometry right within the support unless the orbit is exactly edge-on, omega is -pi/2 or a position angle or its residual is exactly pi (C132_astrometry_partial). For several planets right unless one of them is at one of the points excluded in C131 (C132_system_partial), for circular orbits with b != 0 for all data (C132_circular_partial); the parameters of one planet are right wherever the others are (C132_own). False with b = 0 and a datum exactly at mid-transit: the derivatives of the log-likelihood with respect to the radius of the star and to that planet are NaN (C132_shared, C132_counterexample). Priors other than that of the tutorial's log-density as modelled and the transforms of bounded variables are PyMC's and not modelled."},
{"property": "C133", "status": "partial", "theorems": ["Exo.C133_parameter_partial", "Exo.C133_partial", "Exo.C133_value", "Exo.C133_table", "Exo.C133_left", "Exo.C133_edge", "Exo.C133_counterexample"], "note": "For grids in increasing order: the value of the graph is that of the function (C133_value); all derivatives are right unless a coordinate equals a grid point, and without fill_value also at the ends of an axis and outside of the grid (C133_partial). One by one, a derivative is right unless its parameter is itself a coordinate at a grid point or that grid point (C133_parameter_partial); those with respect to the table are right everywhere (C133_table), and those with respect to the coordinates are derivatives from the left everywhere (C133_left). False at inner grid points, where the function has a kink (C133_counterexample). With fill_value everything is constant at and below the first grid point of an axis, although this point belongs to the grid (C133_edge, cf. C46). Tables of vectors are not covered."},
{"property": "C134", "status": "partial", "theorems": ["Exo.C134_partial", "Exo.C134_rest", "Exo.C134_default", "Exo.C134_massless", "Exo.C134_counterexample"], "note": "Right for everything (C134_partial) except the component along the line of sight of an orbit seen face-on, where the derivative of arccos is infinite, and the accelerations of a body that does not move because the other one has no mass. With m_planet = 0 the star is at rest (C134_rest), and this is the default (C134_default), but get_star_acceleration divides zero by zero: value and derivative with respect to m_planet are NaN (C134_massless, C134_counterexample). Rewriting of the graph by PyTensor is not modelled; where m_planet is a constant and not a parameter, constant folding may replace zero divided by zero by zero. Parallax, light delay and Omega are not covered (C119, C130)."},
{"property": "C135", "status": "partial", "theorems": ["Exo.C135_estimate", "Exo.C135_partial", "Exo.C135_light_planets", "Exo.C135_counterexample"], "note": "The estimate is m sin i times a constant and (m_star/m_total)^(2/3) (C135_estimate); with the constants of astropy 5 the constant is 1 to two parts in 100000, so that the relative error is at most 2e-5 plus two thirds of the mass ratio and the estimate is always too low (C135_partial), to one per cent for planets up to one per cent of the star (C135_light_planets, the tolerance of the test). Exact recovery is false because the mass of the planet is neglected: for two equal masses the estimate is less than 0.64 of the mass (C135_counterexample). Eccentric orbits are not covered."},
{"property": "C136", "status": "partial", "theorems": ["Exo.C136_same_orbit", "Exo.C136_warnings", "Exo.C136_strict", "Exo.C136_strict_keywords", "Exo.C136_user_warning", "Exo.C136_quiet", "Exo.C136_counterexample"], "note": "Which warnings are printed, and in which order (C136_warnings), what strict callers see (C136_strict, C136_user_warning), that the orbit does not depend on warnings (C136_same_orbit), and an equivalent call without warnings (C136_quiet, a missing ror means zero). False for eccentric orbits: a duration without ror gives no warning there, because ror is ignored (C136_counterexample). That the default filter prints a warning once per line of code is not modelled."},
{"property": "C137", "status": "partial", "theorems": ["Exo.C137_limb_dark", "Exo.C137_secondary_present", "Exo.C137_secondary_partial", "Exo.C137_secondary_raises", "Exo.C137_secondary_counterexample", "Exo.C137_interpolated_present", "Exo.C137_interpolated_partial", "Exo.C137_interpolated_counterexample", "Exo.C137_interpolated_unreported", "Exo.C137_interpolated_raises"], "note": "True for LimbDarkLightCurve (C137_limb_dark), for missing times in SecondaryEclipseLightCurve if the orbit can be turned round (C137_secondary_partial) and for a missing radius in InterpolatedLightCurve (C137_interpolated_partial). False otherwise: a missing orbit is an AttributeError, or a message about num_planets, and a missing radius or missing times fail in the conversion to a tensor (C137_secondary_counterexample, C137_interpolated_counterexample, C137_interpolated_unreported). An exception is raised in every case (C137_secondary_raises, C137_interpolated_raises); with all arguments the calls are those of C42 and C43 (the _present theorems). The class of the exception for None as a tensor is left open."},
{"property": "C138", "status": "proved", "theorems": ["Exo.C138_exact", "Exo.C138_position", "Exo.C138_flux", "Exo.C138_time", "Exo.C138_light_curve", "Exo.C138_in_transit"], "note": "Positions (C138_position: backward error in the time, forward error in the coordinates, the side of the star away from the contacts), flux (C138_flux, C138_light_curve), the decision of in_transit without r away from the contacts (C138_in_transit) and how fast the exact flux changes (C138_time); without rounding the code draws the chord of the specification (C138_exact). The speed is the stored one. For a planet of another radius the exact light curve jumps at the contacts (C80_simple_counterexample)."},
{"property": "C139", "status": "proved", "theorems": ["Exo.C139_rv", "Exo.C139_rate", "Exo.C139_rv_forward", "Exo.C139_rate_attained"], "note": "C139_rv; C139_rate bounds how fast the exact radial velocity changes (attained: C139_rate_attained), and C139_rv_forward combines both into the error at the requested time, where the eccentricity does enter. The backward error in the time is that of C120. Only the branch with K; without K the radial velocity is the velocity of the star. The accuracy of the compiled solver is a hypothesis on its value at the computed mean anomaly."},
{"property": "C140", "status": "proved", "theorems": ["Exo.C140_velocity", "Exo.C140_radial_velocity", "Exo.C140_amplified"], "note": "C140_velocity, C140_radial_velocity; the factor 1/(1 - e) cannot be avoided (C140_amplified). The stored attributes (K0, masses, inclination) are taken as they are; their own rounding is not part of the claim. The factor 1/(1 - e) appears because the error is measured against the speed, which is smallest at apastron."},
{"property": "C141", "status": "proved", "theorems": ["Exo.C141_acceleration"], "note": "C141_acceleration. The stored attributes (K0, a, a_star, a_planet, masses, inclination) are taken as they are. For a planet without mass the code divides zero by zero for the star, which is left out."},
{"property": "C142", "status": "proved", "theorems": ["Exo.C142_angles"], "note": "C142_angles, without parallax and light delay. The direction of the angle is compared instead of the angle itself, so that the jump of arctan2 from pi to -pi does not matter. u is the rounding error, eta the error of the compiled Kepler solver."},
{"property": "C143", "status": "proved", "theorems": ["Exo.C143_attributes"], "note": "C143_attributes, from the stored masses, semi-major axis, period and eccentricity; together with C139 to C141 this covers velocities and accelerations from those. The consistency step that computes the semi-major axis, mass or density from the others, and the inclination, are not rounded."},
{"property": "C144", "status": "proved", "theorems": ["Exo.C144_inclination", "Exo.C144_attained"], "note": "C144_inclination bounds the errors from the stored eccentricity, sin_omega, radius, semi-major axis and b or incl; C144_attained shows that the term 2 u/dcosidb cannot be avoided. The impact parameter from a duration (keplerian.py:237-258) and the arccos are not rounded."}
]}
