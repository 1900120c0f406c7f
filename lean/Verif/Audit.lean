import Verif.Props.Accuracy
import Verif.Props.Anomaly
import Verif.Props.ApparentTimes
import Verif.Props.Astrometry
import Verif.Props.Autocorr
import Verif.Props.AutocorrEstimator
import Verif.Props.Averages
import Verif.Props.Backprop
import Verif.Props.BackpropAstro
import Verif.Props.BackpropDelay
import Verif.Props.BackpropDist
import Verif.Props.BackpropDuration
import Verif.Props.BackpropExposure
import Verif.Props.BackpropFit
import Verif.Props.BackpropGrid
import Verif.Props.BackpropInterp
import Verif.Props.BackpropKepler
import Verif.Props.BackpropLaw
import Verif.Props.BackpropMotion
import Verif.Props.BackpropRv
import Verif.Props.BackpropSecondary
import Verif.Props.BackpropStar
import Verif.Props.BackpropTtv
import Verif.Props.Bls
import Verif.Props.Citations
import Verif.Props.Compat
import Verif.Props.Conjunction
import Verif.Props.Constants
import Verif.Props.Continuity
import Verif.Props.Conventions
import Verif.Props.DelayContinuity
import Verif.Props.Depth
import Verif.Props.DepthBounds
import Verif.Props.DistributionShapes
import Verif.Props.DistributionShapes2
import Verif.Props.Distributions
import Verif.Props.DurToEcc
import Verif.Props.DurToEccMarginal
import Verif.Props.Duration
import Verif.Props.Eccentricity
import Verif.Props.EccentricityVector
import Verif.Props.Emission
import Verif.Props.EstimatorUnits
import Verif.Props.FitSymmetry
import Verif.Props.Geometry
import Verif.Props.Gradients
import Verif.Props.Hyperpriors
import Verif.Props.Impossible
import Verif.Props.InTransit
import Verif.Props.InTransit2
import Verif.Props.Independence
import Verif.Props.Inputs
import Verif.Props.Interp
import Verif.Props.Interpolated
import Verif.Props.Kinematics
import Verif.Props.LightCurve
import Verif.Props.LightCurve2
import Verif.Props.LightDelay
import Verif.Props.LimbDark
import Verif.Props.LombScargle
import Verif.Props.MassRecovery
import Verif.Props.MidTransit
import Verif.Props.MinimumMass
import Verif.Props.MissingArgs
import Verif.Props.Names
import Verif.Props.Parameters
import Verif.Props.PeakUnits
import Verif.Props.Peaks
import Verif.Props.Physical
import Verif.Props.Priors
import Verif.Props.Rates
import Verif.Props.RoundedAcceleration
import Verif.Props.RoundedAngles
import Verif.Props.RoundedAttributes
import Verif.Props.RoundedInclination
import Verif.Props.RoundedRv
import Verif.Props.RoundedSimple
import Verif.Props.RoundedVelocity
import Verif.Props.Rounding
import Verif.Props.RoundingEcc
import Verif.Props.Scaling
import Verif.Props.Secondary
import Verif.Props.SemiAmplitude
import Verif.Props.SeveralBodies
import Verif.Props.Simple
import Verif.Props.SimpleImpossible
import Verif.Props.SimpleKepler
import Verif.Props.Slopes
import Verif.Props.StateVector
import Verif.Props.Stencil
import Verif.Props.Symmetry
import Verif.Props.System
import Verif.Props.SystemInterpolated
import Verif.Props.SystemLightCurve
import Verif.Props.SystemSecondary
import Verif.Props.SystemSimple
import Verif.Props.TransitFit
import Verif.Props.Translate
import Verif.Props.Ttv
import Verif.Props.TtvInTransit
import Verif.Props.TtvLists
import Verif.Props.TtvRelabel
import Verif.Props.TtvSystem
import Verif.Props.Tutorials
import Verif.Props.UnitsHeap
import Verif.Props.VelocityFit
import Verif.Props.Warnings

/-!
# Axioms of every property theorem (generated by tools/gen_manifest.py)
-/

#print axioms Exo.C01_third_law_and_density
#print axioms Exo.C01_supplied_values_partial
#print axioms Exo.C01_a_overwritten
#print axioms Exo.C01_physical_from_arguments
#print axioms Exo.C02_accepts_iff_admissible
#print axioms Exo.C02_rejected_with_valueError_partial
#print axioms Exo.C02_missing_period_typeError
#print axioms Exo.C03_rebuild
#print axioms Exo.C04_units_equivalent_partial
#print axioms Exo.C04_unit_keywords
#print axioms Exo.C04_incompatible_unit_fails
#print axioms Exo.C04_duration_units_ignored
#print axioms Exo.C05_b_to_incl
#print axioms Exo.C05_incl_to_b
#print axioms Exo.C05_separation_at_t0_partial
#print axioms Exo.C05_singular_counterexample
#print axioms Exo.C06_t0_is_transit_partial
#print axioms Exo.C06_singular_counterexample
#print axioms Exo.C07_interchangeable
#print axioms Exo.C07_periastron
#print axioms Exo.C08_velocity_is_derivative
#print axioms Exo.C09_acceleration_is_derivative
#print axioms Exo.C10_newton
#print axioms Exo.C11_barycentre
#print axioms Exo.C12_in_transit_periodic
#print axioms Exo.C12_periodic
#print axioms Exo.C13_distance_bounds
#print axioms Exo.C14_angular_momentum
#print axioms Exo.C14_vis_viva
#print axioms Exo.C15_forms_agree
#print axioms Exo.C15_range
#print axioms Exo.C16_zero_ecc_partial
#print axioms Exo.C16_t_periastron_counterexample
#print axioms Exo.C17_kepler_unique
#print axioms Exo.C17_true_anomaly
#print axioms Exo.C17_special_cases
#print axioms Exo.C18_polar
#print axioms Exo.C18_parallax_partial
#print axioms Exo.C18_parallax_ignored_with_light_delay
#print axioms Exo.C19_position_at_emission
#print axioms Exo.C19_delay_relative_partial
#print axioms Exo.C19_delay_planet_partial
#print axioms Exo.C19_delay_star_partial
#print axioms Exo.C19_wrong_sign
#print axioms Exo.C19_counterexample
#print axioms Exo.C20_flip
#print axioms Exo.C21_exact_circular
#print axioms Exo.C21_strictly_in_front
#print axioms Exo.C21_never_beyond_limb
#print axioms Exo.C22_exact_eccentric
#print axioms Exo.C22_flag_returns_everything
#print axioms Exo.C22_exposure
#print axioms Exo.C23_sorted_valid
#print axioms Exo.C23_mono_texp
#print axioms Exo.C23_mono_radius_partial
#print axioms Exo.C23_radius_counterexample
#print axioms Exo.C23_simple_sorted_valid
#print axioms Exo.C23_simple_mono_texp
#print axioms Exo.C23_simple_mono_radius
#print axioms Exo.C24_contacts
#print axioms Exo.C24_in_transit
#print axioms Exo.C25_aor_derivative
#print axioms Exo.C25_jacobians_duration_partial
#print axioms Exo.C25_a_star_counterexample
#print axioms Exo.C25_dcosidb_partial
#print axioms Exo.C25_dcosidb_counterexample
#print axioms Exo.C26_b_from_duration_partial
#print axioms Exo.C26_ror_counterexample
#print axioms Exo.C26_mass_counterexample
#print axioms Exo.C27_chord
#print axioms Exo.C27_contacts
#print axioms Exo.C27_periodic
#print axioms Exo.C27_in_transit
#print axioms Exo.C27_in_transit_default
#print axioms Exo.C28_refused_partial
#print axioms Exo.C28_supported
#print axioms Exo.C28_light_delay_ignored
#print axioms Exo.C29_least_squares_partial
#print axioms Exo.C29_exact
#print axioms Exo.C29_exists
#print axioms Exo.C29_single_transit_counterexample
#print axioms Exo.C30_nearest
#print axioms Exo.C31_labelled
#print axioms Exo.C31_mid_transit
#print axioms Exo.C31_missing_partial
#print axioms Exo.C31_missing_counterexample
#print axioms Exo.C32_zero_ttvs_partial
#print axioms Exo.C32_periodic_times_partial
#print axioms Exo.C33_relation
#print axioms Exo.C33_round_trip_partial
#print axioms Exo.C33_period_counterexample
#print axioms Exo.C33_neither
#print axioms Exo.C34_expected_times_partial
#print axioms Exo.C34_endpoint_counterexample
#print axioms Exo.C35_light_delay_partial
#print axioms Exo.C35_shape_counterexample
#print axioms Exo.C35_flip_counterexample
#print axioms Exo.C36_coefficients
#print axioms Exo.C36_disc_integral
#print axioms Exo.C36_relative_flux
#print axioms Exo.C36_unocculted
#print axioms Exo.C37_range
#print axioms Exo.C37_apart
#print axioms Exo.C37_behind
#print axioms Exo.C37_covered
#print axioms Exo.C37_mono
#print axioms Exo.C37_uniform
#print axioms Exo.C38_midpoint
#print axioms Exo.C38_trapezoid_partial
#print axioms Exo.C38_simpson_partial
#print axioms Exo.C38_weights
#print axioms Exo.C38_symmetric_partial
#print axioms Exo.C38_exact_linear_partial
#print axioms Exo.C38_exact_cubic_partial
#print axioms Exo.C38_bad_order
#print axioms Exo.C38_single_point_counterexample
#print axioms Exo.C39_values
#print axioms Exo.C39_values_exposure
#print axioms Exo.C39_kepler
#print axioms Exo.C39_simple
#print axioms Exo.C39_shape_in_transit
#print axioms Exo.C39_radius_count
#print axioms Exo.C39_scalar_time_counterexample
#print axioms Exo.C40_default
#print axioms Exo.C40_kepler_partial
#print axioms Exo.C40_kepler_single_partial
#print axioms Exo.C40_simple_partial
#print axioms Exo.C40_vector_texp_counterexample
#print axioms Exo.C40_silent_counterexample
#print axioms Exo.C41_inverse
#print axioms Exo.C41_jacobian
#print axioms Exo.C41_depth
#print axioms Exo.C42_value_partial
#print axioms Exo.C42_value_exposure_partial
#print axioms Exo.C42_dark_partial
#print axioms Exo.C42_range_partial
#print axioms Exo.C42_range_exposure_partial
#print axioms Exo.C42_exclusive
#print axioms Exo.C42_eclipse_geometry
#print axioms Exo.C42_system_counterexample
#print axioms Exo.C42_use_in_transit_partial
#print axioms Exo.C43_interpolant
#print axioms Exo.C43_base
#print axioms Exo.C43_base_exposure
#print axioms Exo.C43_unknown_planets
#print axioms Exo.C43_kepler
#print axioms Exo.C44_missing
#print axioms Exo.C44_present
#print axioms Exo.C45_cell
#print axioms Exo.C45_nodes
#print axioms Exo.C45_multiaffine
#print axioms Exo.C45_class
#print axioms Exo.C46_rule_partial
#print axioms Exo.C46_fill_partial
#print axioms Exo.C46_nan_partial
#print axioms Exo.C46_nan_outside
#print axioms Exo.C46_lower_edge_counterexample
#print axioms Exo.C47_single_partial
#print axioms Exo.C47_shape_counterexample
#print axioms Exo.C47_silent_counterexample
#print axioms Exo.C48_support
#print axioms Exo.C48_density_support
#print axioms Exo.C48_uniform
#print axioms Exo.C48_start_partial
#print axioms Exo.C48_start_counterexample
#print axioms Exo.C49_support
#print axioms Exo.C49_physical
#print axioms Exo.C49_uniform
#print axioms Exo.C49_start
#print axioms Exo.C49_start_corner
#print axioms Exo.C50_support
#print axioms Exo.C50_uniform
#print axioms Exo.C50_start
#print axioms Exo.C50_default_start
#print axioms Exo.C51_range
#print axioms Exo.C51_uniform
#print axioms Exo.C51_isotropic
#print axioms Exo.C51_start
#print axioms Exo.C52_registration
#print axioms Exo.C52_hyper_positive
#print axioms Exo.C52_density
#print axioms Exo.C52_support
#print axioms Exo.C52_observed_partial
#print axioms Exo.C52_observed_pymc3_raises
#print axioms Exo.C52_long_none_same
#print axioms Exo.C52_succeeds
#print axioms Exo.C53_mixture_partial
#print axioms Exo.C53_hyper_range
#print axioms Exo.C53_pymc3_ignores_observed
#print axioms Exo.C53_succeeds
#print axioms Exo.C53_observed_counterexample
#print axioms Exo.C54_interchangeable
#print axioms Exo.C54_interchangeable_kipping13
#print axioms Exo.C54_clean
#print axioms Exo.C54_clean_kipping13
#print axioms Exo.C54_forwarded_partial
#print axioms Exo.C54_leak_counterexample
#print axioms Exo.C55_lists_exactly_the_components_used
#print axioms Exo.C55_order_and_repetition_do_not_matter
#print axioms Exo.C55_bibtex_order_counterexample
#print axioms Exo.C55_keys_exist
#print axioms Exo.C55_constructions_never_fail_on_keys
#print axioms Exo.C56_registering_outside_is_silent
#print axioms Exo.C56_unknown_keys_are_reported
#print axioms Exo.C56_construct_outside_partial
#print axioms Exo.C56_distribution_outside
#print axioms Exo.C56_distribution_outside_counterexample
#print axioms Exo.C56_models_do_not_share
#print axioms Exo.C56_unused_model_is_empty
#print axioms Exo.C56_get_outside_raises
#print axioms Exo.C57_highest_local_maxima
#print axioms Exo.C57_value_error_iff
#print axioms Exo.C58_fit_is_well_posed
#print axioms Exo.C59_bls_peak_info_is_not_the_peak
#print axioms Exo.C59_index_minus_one_is_the_peak_partial
#print axioms Exo.C59_reported_index_is_never_the_peak
#print axioms Exo.C59_counterexample
#print axioms Exo.C60_free_minimises
#print axioms Exo.C60_fixed_minimises
#print axioms Exo.C60_free_singular_iff
#print axioms Exo.C60_fixed_singular_iff
#print axioms Exo.C60_short_t0s
#print axioms Exo.C60_free_recovers
#print axioms Exo.C60_fixed_recovers
#print axioms Exo.C60_recovers_keplerian_signals
#print axioms Exo.C61_next_pow_two
#print axioms Exo.C61_is_the_autocorrelation
#print axioms Exo.C61_constant_or_empty
#print axioms Exo.C62_only_admissible_peaks
#print axioms Exo.C62_which_peak
#print axioms Exo.C62_succeeds
#print axioms Exo.C62_failures
#print axioms Exo.C63_terminates
#print axioms Exo.C63_period_limits_partial
#print axioms Exo.C63_minimum_period_keyword_ignored
#print axioms Exo.C63_frequency_factor
#print axioms Exo.C63_misspelt_keyword_fails
#print axioms Exo.C63_times_in_the_user_frame
#print axioms Exo.C63_shift_equivariant
#print axioms Exo.C63_peak_info_iff
#print axioms Exo.C63_np_round
#print axioms Exo.C63_longest_period
#print axioms Exo.C64_linear_in_the_data
#print axioms Exo.C64_scales_with_stellar_mass
#print axioms Exo.C64_scales_with_period
#print axioms Exo.C64_mass_from_amplitude
#print axioms Exo.C65_label_then_convert
#print axioms Exo.C65_conversion_value
#print axioms Exo.C65_conversions_compose
#print axioms Exo.C65_unlabelled_passes_through
#print axioms Exo.C65_labelling_twice_is_a_type_error
#print axioms Exo.C65_labelling_is_invisible_to_others_partial
#print axioms Exo.C65_labelling_keeps_values
#print axioms Exo.C65_labelling_a_shared_tensor_counterexample
#print axioms Exo.C66_selection
#print axioms Exo.C66_names_match_backend
#print axioms Exo.C66_failure_is_import_error
#print axioms Exo.C67_aliases
#print axioms Exo.C67_one_warning_per_call
#print axioms Exo.C67_vector_of_coefficients
#print axioms Exo.C67_vector_warns_once
#print axioms Exo.C68_candidates_are_the_solutions_partial
#print axioms Exo.C68_candidates_have_the_duration_partial
#print axioms Exo.C68_solvable_iff
#print axioms Exo.C68_jacobian
#print axioms Exo.C68_call_always_fails
#print axioms Exo.C68_counterexample
#print axioms Exo.C69_momentum_and_centre_of_mass_partial
#print axioms Exo.C69_rows_agree_with_single_body_queries
#print axioms Exo.C69_vector_of_times_shape
#print axioms Exo.C69_vector_of_times_counterexample
#print axioms Exo.C70_filter
#print axioms Exo.C70_limits_and_periodogram
#print axioms Exo.C70_filter_does_not_touch_the_periodogram
#print axioms Exo.C70_peaks_of_the_filtered_power_partial
#print axioms Exo.C70_filter_changes_the_reported_power
#print axioms Exo.C70_failures
#print axioms Exo.C71_same_errors
#print axioms Exo.C71_attributes
#print axioms Exo.C71_positions
#print axioms Exo.C71_velocities
#print axioms Exo.C71_relative_angles
#print axioms Exo.C71_radial_velocity
#print axioms Exo.C71_rows_and_columns
#print axioms Exo.C71_default_shapes
#print axioms Exo.C72_construction_partial
#print axioms Exo.C72_attributes_partial
#print axioms Exo.C72_observables_partial
#print axioms Exo.C72_radial_velocity_partial
#print axioms Exo.C72_missing_inds
#print axioms Exo.C72_scalar_period_counterexample
#print axioms Exo.C73_shape_period
#print axioms Exo.C73_period_given
#print axioms Exo.C73_ttvs_given
#print axioms Exo.C74_constants
#print axioms Exo.C74_units
#print axioms Exo.C74_relation
#print axioms Exo.C74_exists
#print axioms Exo.C74_third_law_SI
#print axioms Exo.C74_any_units
#print axioms Exo.C74_year
#print axioms Exo.C74_fallback
#print axioms Exo.C75_light_curve_partial
#print axioms Exo.C75_exposure_partial
#print axioms Exo.C75_in_transit_partial
#print axioms Exo.C75_use_in_transit_partial
#print axioms Exo.C75_ttv_light_curve_partial
#print axioms Exo.C75_ttv_exposure_partial
#print axioms Exo.C75_ttv_in_transit_partial
#print axioms Exo.C75_shared_omega_counterexample
#print axioms Exo.C75_shared_cos_counterexample
#print axioms Exo.C75_shared_period_counterexample
#print axioms Exo.C76_exact
#print axioms Exo.C76_labelled
#print axioms Exo.C76_exposure
#print axioms Exo.C76_exposure_tight
#print axioms Exo.C76_use_in_transit
#print axioms Exo.C77_order
#print axioms Exo.C77_order_lists
#print axioms Exo.C77_duplicate_counterexample
#print axioms Exo.C77_numbering_partial
#print axioms Exo.C77_numbering_counterexample
#print axioms Exo.C77_order_system
#print axioms Exo.C78_orbit
#print axioms Exo.C78_ttv
#print axioms Exo.C78_lightcurve
#print axioms Exo.C78_lightcurve_ttv
#print axioms Exo.C78_secondary
#print axioms Exo.C78_in_transit
#print axioms Exo.C78_simple
#print axioms Exo.C78_simple_in_transit
#print axioms Exo.C78_simple_lightcurve
#print axioms Exo.C78_interpolated
#print axioms Exo.C78_expected
#print axioms Exo.C79_too_many
#print axioms Exo.C79_accepted
#print axioms Exo.C79_too_few
#print axioms Exo.C79_one_list
#print axioms Exo.C79_one_list_counterexample
#print axioms Exo.C80_flux
#print axioms Exo.C80_kepler_time_radius
#print axioms Exo.C80_kepler
#print axioms Exo.C80_ttv
#print axioms Exo.C80_ttv_circular
#print axioms Exo.C80_simple_partial
#print axioms Exo.C80_simple_counterexample
#print axioms Exo.C80_inside_counterexample
#print axioms Exo.C81_exposure_error
#print axioms Exo.C81_exposure_converges
#print axioms Exo.C81_exposure_kepler
#print axioms Exo.C81_interpolation_error
#print axioms Exo.C81_interpolation_converges
#print axioms Exo.C81_interpolation_kepler
#print axioms Exo.C81_not_periodic
#print axioms Exo.C81_ttv_counterexample
#print axioms Exo.C82_system_partial
#print axioms Exo.C82_single
#print axioms Exo.C82_one_planet_vector
#print axioms Exo.C82_ttv_one_planet
#print axioms Exo.C82_shared_scalar
#print axioms Exo.C82_one_planet_counterexample
#print axioms Exo.C82_shared_counterexample
#print axioms Exo.C83_light_curve
#print axioms Exo.C83_node
#print axioms Exo.C83_node_disc
#print axioms Exo.C83_mirror
#print axioms Exo.C83_mirror_incl
#print axioms Exo.C83_reverse
#print axioms Exo.C83_reverse_light_curve
#print axioms Exo.C84_constructor
#print axioms Exo.C84_motion
#print axioms Exo.C84_light_delay
#print axioms Exo.C84_light_curve
#print axioms Exo.C85_flip
#print axioms Exo.C85_value_partial
#print axioms Exo.C85_exposure_partial
#print axioms Exo.C85_use_in_transit_partial
#print axioms Exo.C85_shared_radius_counterexample
#print axioms Exo.C86_attributes
#print axioms Exo.C86_positions
#print axioms Exo.C86_star_position
#print axioms Exo.C86_light_curve_partial
#print axioms Exo.C86_exposure_partial
#print axioms Exo.C86_in_transit
#print axioms Exo.C86_use_in_transit_partial
#print axioms Exo.C86_light_delay
#print axioms Exo.C86_shared_times_counterexample
#print axioms Exo.C86_duration_only_counterexample
#print axioms Exo.C86_list_counterexample
#print axioms Exo.C87_nearer
#print axioms Exo.C87_prior
#print axioms Exo.C87_light_curve
#print axioms Exo.C87_circular
#print axioms Exo.C87_impact
#print axioms Exo.C87_limb_brightened_counterexample
#print axioms Exo.C88_positions
#print axioms Exo.C88_in_transit
#print axioms Exo.C88_light_curve
#print axioms Exo.C88_light_curve_exposure
#print axioms Exo.C88_long_period
#print axioms Exo.C89_semi_amplitude
#print axioms Exo.C89_semi_amplitude_partial
#print axioms Exo.C89_velocities_without_errors_counterexample
#print axioms Exo.C89_wrong_dimension
#print axioms Exo.C89_list_of_errors
#print axioms Exo.C89_bare
#print axioms Exo.C89_single_error
#print axioms Exo.C89_minimum_mass
#print axioms Exo.C90_order_of_the_data
#print axioms Exo.C90_origin_of_time
#print axioms Exo.C90_zero_point
#print axioms Exo.C90_scale_of_the_uncertainties
#print axioms Exo.C90_equal_uncertainties
#print axioms Exo.C90_order_of_the_planets
#print axioms Exo.C90_which_transit
#print axioms Exo.C90_same_phase
#print axioms Exo.C91_unit_of_frequency
#print axioms Exo.C91_unit_of_power
#print axioms Exo.C91_reversed_spectrum
#print axioms Exo.C91_autocorrelation_of_affine
#print axioms Exo.C91_autocorrelation_of_reversed
#print axioms Exo.C91_estimator_unit_of_time
#print axioms Exo.C91_estimator_unit_of_data
#print axioms Exo.C92_depth
#print axioms Exo.C92_recovery
#print axioms Exo.C92_central
#print axioms Exo.C92_uniform
#print axioms Exo.C92_mid_transit
#print axioms Exo.C93_velocities
#print axioms Exo.C93_accelerations
#print axioms Exo.C93_radial_velocity
#print axioms Exo.C93_distance
#print axioms Exo.C93_virial
#print axioms Exo.C93_position
#print axioms Exo.C94_inferior_partial
#print axioms Exo.C94_superior_partial
#print axioms Exo.C94_circular
#print axioms Exo.C94_flip_partial
#print axioms Exo.C94_singular_counterexample
#print axioms Exo.C95_positions_partial
#print axioms Exo.C95_velocities_partial
#print axioms Exo.C95_light_curve_partial
#print axioms Exo.C95_arguments
#print axioms Exo.C95_singular_counterexample
#print axioms Exo.C96_independent
#print axioms Exo.C96_angles
#print axioms Exo.C96_together_partial
#print axioms Exo.C96_distinct
#print axioms Exo.C96_twice
#print axioms Exo.C96_collision_counterexample
#print axioms Exo.C96_backends_differ
#print axioms Exo.C97_angle
#print axioms Exo.C97_angle_uniform
#print axioms Exo.C97_angle_start
#print axioms Exo.C97_unit_disk
#print axioms Exo.C97_unit_disk_uniform
#print axioms Exo.C97_unit_disk_start
#print axioms Exo.C97_quad_limb_dark
#print axioms Exo.C97_quad_limb_dark_uniform
#print axioms Exo.C97_quad_limb_dark_start
#print axioms Exo.C97_impact_parameter
#print axioms Exo.C97_impact_parameter_uniform
#print axioms Exo.C97_impact_parameter_start
#print axioms Exo.C97_calls_succeed
#print axioms Exo.C97_angle_starts_fit
#print axioms Exo.C97_unit_disk_starts_fit
#print axioms Exo.C97_quad_limb_dark_starts_fit
#print axioms Exo.C97_impact_parameter_starts_fit
#print axioms Exo.C97_list_shape_counterexample
#print axioms Exo.C97_nested_list_counterexample
#print axioms Exo.C97_pymc3_vector_ror_counterexample
#print axioms Exo.C97_pymc_vector_ror
#print axioms Exo.C98_components
#print axioms Exo.C98_range
#print axioms Exo.C98_uniform
#print axioms Exo.C98_kipping13_partial
#print axioms Exo.C98_vaneylen19_partial
#print axioms Exo.C98_kipping13_fixed
#print axioms Exo.C98_kipping13_pymc3_raises
#print axioms Exo.C98_vaneylen19_pymc3
#print axioms Exo.C98_shape
#print axioms Exo.C98_start_counterexample
#print axioms Exo.C98_succeeds
#print axioms Exo.C99_kipping13_partial
#print axioms Exo.C99_vaneylen19_partial
#print axioms Exo.C99_kipping13_pymc3
#print axioms Exo.C99_kipping13_pymc3_counterexample
#print axioms Exo.C99_vaneylen19_counterexample
#print axioms Exo.C99_kipping13_proper
#print axioms Exo.C99_disk_kipping13_partial
#print axioms Exo.C100_visible
#print axioms Exo.C100_transit_partial
#print axioms Exo.C100_no_inclination_counterexample
#print axioms Exo.C100_rv
#print axioms Exo.C100_components
#print axioms Exo.C100_comment_counterexample
#print axioms Exo.C101_rotation_partial
#print axioms Exo.C101_formulas_partial
#print axioms Exo.C101_planet_counterexample
#print axioms Exo.C101_nodes
#print axioms Exo.C101_inclination
#print axioms Exo.C101_counterclockwise
#print axioms Exo.C102_early_or_late
#print axioms Exo.C102_transits_early_eclipses_late
#print axioms Exo.C102_planet_transits_early_eclipses_late
#print axioms Exo.C103_determined_size
#print axioms Exo.C103_determined_angles
#print axioms Exo.C103_half_turn
#print axioms Exo.C103_astrometry_iff
#print axioms Exo.C103_tutorial
#print axioms Exo.C103_wrapped
#print axioms Exo.C103_face_on
#print axioms Exo.C104_determined
#print axioms Exo.C104_velocities_iff
#print axioms Exo.C104_negative_amplitude
#print axioms Exo.C104_tutorial
#print axioms Exo.C104_circular
#print axioms Exo.C104_jitter_counterexample
#print axioms Exo.C105_determined
#print axioms Exo.C105_light_curve_iff
#print axioms Exo.C105_density
#print axioms Exo.C105_uniform
#print axioms Exo.C105_simple
#print axioms Exo.C106_gradient
#print axioms Exo.C106_contact
#print axioms Exo.C106_centre
#print axioms Exo.C106_uniform
#print axioms Exo.C106_rate
#print axioms Exo.C106_kepler_partial
#print axioms Exo.C106_simple_partial
#print axioms Exo.C106_eclipse_counterexample
#print axioms Exo.C107_kepler_equation
#print axioms Exo.C107_positions_partial
#print axioms Exo.C107_velocities_partial
#print axioms Exo.C107_radial_velocity_partial
#print axioms Exo.C107_light_curve_partial
#print axioms Exo.C107_likelihood
#print axioms Exo.C107_arguments
#print axioms Exo.C107_singular_counterexample
#print axioms Exo.C108_marginal_partial
#print axioms Exo.C108_branches_partial
#print axioms Exo.C108_jacobian_partial
#print axioms Exo.C108_weights_partial
#print axioms Exo.C108_counterexample_planets
#print axioms Exo.C108_counterexample_power
#print axioms Exo.C108_counterexample_pymc
#print axioms Exo.C108_counterexample_average
#print axioms Exo.C109_duration
#print axioms Exo.C109_impact
#print axioms Exo.C109_depth
#print axioms Exo.C109_astrometry
#print axioms Exo.C109_velocities
#print axioms Exo.C110_rate
#print axioms Exo.C110_closest_partial
#print axioms Exo.C110_off_centre
#print axioms Exo.C110_symmetric_iff
#print axioms Exo.C110_light_curve_partial
#print axioms Exo.C110_grazing
#print axioms Exo.C110_closest_counterexample
#print axioms Exo.C110_light_curve_counterexample
#print axioms Exo.C111_bounds
#print axioms Exo.C111_emission_time
#print axioms Exo.C111_accuracy_partial
#print axioms Exo.C111_accuracy_planet_partial
#print axioms Exo.C111_accuracy_star_partial
#print axioms Exo.C111_worse_than_without_acceleration
#print axioms Exo.C112_continuous_partial
#print axioms Exo.C112_jump
#print axioms Exo.C112_continuous_iff
#print axioms Exo.C112_jump_size
#print axioms Exo.C112_counterexample
#print axioms Exo.C113_possible_partial
#print axioms Exo.C113_never_rejected
#print axioms Exo.C113_impossible_impact
#print axioms Exo.C113_impossible_duration
#print axioms Exo.C113_impossible_circular_duration
#print axioms Exo.C113_unbound
#print axioms Exo.C113_zero_period
#print axioms Exo.C113_negative_mass
#print axioms Exo.C113_counterexample
#print axioms Exo.C114_one_body
#print axioms Exo.C114_sum_partial
#print axioms Exo.C114_separate
#print axioms Exo.C114_sum_le
#print axioms Exo.C114_sum_iff
#print axioms Exo.C114_system_partial
#print axioms Exo.C114_counterexample
#print axioms Exo.C115_distance
#print axioms Exo.C115_radius
#print axioms Exo.C115_time
#print axioms Exo.C115_exposure_error
#print axioms Exo.C115_exposure_kepler
#print axioms Exo.C115_interpolation_kepler
#print axioms Exo.C115_centre_brightest
#print axioms Exo.C116_in_transit
#print axioms Exo.C116_possible_partial
#print axioms Exo.C116_flat
#print axioms Exo.C116_silent
#print axioms Exo.C116_nan
#print axioms Exo.C116_counterexample
#print axioms Exo.C117_position
#print axioms Exo.C117_flux
#print axioms Exo.C117_light_curve
#print axioms Exo.C118_backprop
#print axioms Exo.C118_simple_partial
#print axioms Exo.C118_graph
#print axioms Exo.C118_centre
#print axioms Exo.C118_differentiable
#print axioms Exo.C118_counterexample
#print axioms Exo.C119_delayed_partial
#print axioms Exo.C119_crossing
#print axioms Exo.C119_crossing_value
#print axioms Exo.C119_crossing_differentiable
#print axioms Exo.C119_face_on
#print axioms Exo.C119_face_on_value
#print axioms Exo.C119_differentiable
#print axioms Exo.C119_counterexample
#print axioms Exo.C120_position
#print axioms Exo.C120_flux
#print axioms Exo.C120_light_curve
#print axioms Exo.C120_drift
#print axioms Exo.C120_amplified
#print axioms Exo.C121_kepler
#print axioms Exo.C121_graph
#print axioms Exo.C121_light_curve_partial
#print axioms Exo.C121_from_the_right
#print axioms Exo.C121_circular
#print axioms Exo.C121_impossible
#print axioms Exo.C121_downwards
#print axioms Exo.C121_centre
#print axioms Exo.C121_differentiable
#print axioms Exo.C121_counterexample
#print axioms Exo.C122_light_curve_partial
#print axioms Exo.C122_centre
#print axioms Exo.C122_equal_labels
#print axioms Exo.C122_counterexample
#print axioms Exo.C123_value
#print axioms Exo.C123_exposure_partial
#print axioms Exo.C123_use_in_transit_partial
#print axioms Exo.C123_centre
#print axioms Exo.C123_counterexample
#print axioms Exo.C124_graph
#print axioms Exo.C124_light_curve_partial
#print axioms Exo.C124_centre
#print axioms Exo.C124_differentiable
#print axioms Exo.C124_counterexample
#print axioms Exo.C125_masses_partial
#print axioms Exo.C125_amplitude_partial
#print axioms Exo.C125_differentiable
#print axioms Exo.C125_downwards
#print axioms Exo.C125_counterexample
#print axioms Exo.C126_graph
#print axioms Exo.C126_light_curve_partial
#print axioms Exo.C126_jacobian
#print axioms Exo.C126_impossible
#print axioms Exo.C126_centre
#print axioms Exo.C126_counterexample
#print axioms Exo.C127_model
#print axioms Exo.C127_light_curve_partial
#print axioms Exo.C127_differentiable
#print axioms Exo.C127_upwards
#print axioms Exo.C127_centre
#print axioms Exo.C127_counterexample
#print axioms Exo.C128_interpolated_partial
#print axioms Exo.C128_circular_partial
#print axioms Exo.C128_centre
#print axioms Exo.C128_central
#print axioms Exo.C128_differentiable
#print axioms Exo.C128_counterexample
#print axioms Exo.C128_exists
#print axioms Exo.C129_unit_disk
#print axioms Exo.C129_quad_limb_dark
#print axioms Exo.C129_impact_parameter
#print axioms Exo.C129_angle
#print axioms Exo.C129_light_curve_partial
#print axioms Exo.C129_rv_partial
#print axioms Exo.C129_origin
#print axioms Exo.C129_start
#print axioms Exo.C129_truth
#print axioms Exo.C129_rv_jump
#print axioms Exo.C129_gradient_counterexample
#print axioms Exo.C130_position_partial
#print axioms Exo.C130_separation_partial
#print axioms Exo.C130_angle_partial
#print axioms Exo.C130_residual_partial
#print axioms Exo.C130_light_curve_partial
#print axioms Exo.C130_conjunction
#print axioms Exo.C130_cut
#print axioms Exo.C130_counterexample
#print axioms Exo.C131_solution
#print axioms Exo.C131_graph
#print axioms Exo.C131_light_curve_partial
#print axioms Exo.C131_coefficients
#print axioms Exo.C131_exact
#print axioms Exo.C131_centre
#print axioms Exo.C131_dark
#print axioms Exo.C131_tutorial_partial
#print axioms Exo.C131_counterexample
#print axioms Exo.C132_likelihood
#print axioms Exo.C132_residuals
#print axioms Exo.C132_one_datum
#print axioms Exo.C132_transit
#print axioms Exo.C132_velocity_partial
#print axioms Exo.C132_jitter
#print axioms Exo.C132_astrometry_partial
#print axioms Exo.C132_system_partial
#print axioms Exo.C132_own
#print axioms Exo.C132_circular_partial
#print axioms Exo.C132_shared
#print axioms Exo.C132_counterexample
#print axioms Exo.C133_parameter_partial
#print axioms Exo.C133_partial
#print axioms Exo.C133_value
#print axioms Exo.C133_table
#print axioms Exo.C133_left
#print axioms Exo.C133_edge
#print axioms Exo.C133_counterexample
#print axioms Exo.C134_partial
#print axioms Exo.C134_rest
#print axioms Exo.C134_default
#print axioms Exo.C134_massless
#print axioms Exo.C134_counterexample
#print axioms Exo.C135_estimate
#print axioms Exo.C135_partial
#print axioms Exo.C135_light_planets
#print axioms Exo.C135_counterexample
#print axioms Exo.C136_same_orbit
#print axioms Exo.C136_warnings
#print axioms Exo.C136_strict
#print axioms Exo.C136_strict_keywords
#print axioms Exo.C136_user_warning
#print axioms Exo.C136_quiet
#print axioms Exo.C136_counterexample
#print axioms Exo.C137_limb_dark
#print axioms Exo.C137_secondary_present
#print axioms Exo.C137_secondary_partial
#print axioms Exo.C137_secondary_raises
#print axioms Exo.C137_secondary_counterexample
#print axioms Exo.C137_interpolated_present
#print axioms Exo.C137_interpolated_partial
#print axioms Exo.C137_interpolated_counterexample
#print axioms Exo.C137_interpolated_unreported
#print axioms Exo.C137_interpolated_raises
#print axioms Exo.C138_exact
#print axioms Exo.C138_position
#print axioms Exo.C138_flux
#print axioms Exo.C138_time
#print axioms Exo.C138_light_curve
#print axioms Exo.C138_in_transit
#print axioms Exo.C139_rv
#print axioms Exo.C139_rate
#print axioms Exo.C139_rv_forward
#print axioms Exo.C139_rate_attained
#print axioms Exo.C140_velocity
#print axioms Exo.C140_radial_velocity
#print axioms Exo.C140_amplified
#print axioms Exo.C141_acceleration
#print axioms Exo.C142_angles
#print axioms Exo.C143_attributes
#print axioms Exo.C144_inclination
#print axioms Exo.C144_attained
