{
 "C01": {
  "status": "partial",
  "note": "Third law and density relation for every successful construction with physical outcome; supplied values come back except `a` on a circular orbit with `duration`, where it is overwritten (C01_a_overwritten). C01_physical_from_arguments derives the physical outcome from conditions on the arguments."
 },
 "C02": {
  "status": "partial",
  "note": "Acceptance iff the documented combination is proved for all inputs; rejection is with ValueError except a circular orbit with duration but no period, which is a TypeError (C02_missing_period_typeError)."
 },
 "C03": {
  "status": "proved",
  "note": "Rebuilding from any admissible subset reproduces all six values."
 },
 "C04": {
  "status": "partial",
  "note": "Unit labels are equivalent to manual conversion for all arguments except on circular orbits with duration, where the labels of period, duration, r_star are ignored (C04_duration_units_ignored)."
 },
 "C05": {
  "status": "partial",
  "note": "b and incl round trip proved in full; separation at t0 is |b| r_star unless sin(omega) = -1 exactly, where it is false (C05_singular_counterexample)."
 },
 "C06": {
  "status": "partial",
  "note": "t0 + k P is inferior conjunction unless sin(omega) = -1 exactly, where the code places t0 wrongly (C06_singular_counterexample)."
 },
 "C07": {
  "status": "proved",
  "note": "Same orbit from t0 or t_periastron; t_periastron is the minimum-distance passage."
 },
 "C08": {
  "status": "proved",
  "note": "All three velocities, eccentric and circular."
 },
 "C09": {
  "status": "proved",
  "note": "All three accelerations; for the star a positive planet mass is needed (the code computes 0/0 otherwise)."
 },
 "C10": {
  "status": "proved",
  "note": "Second derivative of the relative position (HasVelocityAt twice) is the Newtonian acceleration."
 },
 "C11": {
  "status": "proved",
  "note": ""
 },
 "C12": {
  "status": "proved",
  "note": "Including in_transit membership (one planet per call)."
 },
 "C13": {
  "status": "proved",
  "note": ""
 },
 "C14": {
  "status": "proved",
  "note": ""
 },
 "C15": {
  "status": "proved",
  "note": "Range stated for K >= 0."
 },
 "C16": {
  "status": "partial",
  "note": "Proved when the timing is given by t0 (or default); with t_periastron it is false (C16_t_periastron_counterexample). sin(omega) = -1 excluded (see C06)."
 },
 "C17": {
  "status": "proved",
  "note": "Oddness is exact except at the branch point, where both values are pi."
 },
 "C18": {
  "status": "partial",
  "note": "Polar form for all options; parallax scaling without light delay. With light_delay=True the parallax is dropped (C18_parallax_ignored_with_light_delay)."
 },
 "C19": {
  "status": "partial",
  "note": "The code's delay satisfies the light-time equation up to the exact residual Z'' d^2: the second-order term has the wrong sign (C19_wrong_sign, C19_counterexample)."
 },
 "C20": {
  "status": "proved",
  "note": "Including light-delayed positions and velocities."
 },
 "C21": {
  "status": "proved",
  "note": "With z >= 0 as 'in front' (and strictly in front when the planet stays strictly outside the star); exposure version in C22_exposure."
 },
 "C22": {
  "status": "proved",
  "note": "The compiled contact-point solver is a parameter; its correctness is the hypothesis ContactsCorrect, with a concrete e = 1/2 instance."
 },
 "C23": {
  "status": "partial",
  "note": "Sorted and valid for all inputs, monotone in texp for all inputs; monotone in r while the planet stays outside the star, false beyond that (C23_radius_counterexample)."
 },
 "C24": {
  "status": "proved",
  "note": "For duration <= period/2 and |b| < 1 + ror."
 },
 "C25": {
  "status": "partial",
  "note": "get_aor_from_transit_duration, a and rho_star in full; a_star and a_planet only for massless planets (C25_a_star_counterexample); dcos(i)/db except on circular orbits with a duration (C25_dcosidb_counterexample)."
 },
 "C26": {
  "status": "partial",
  "note": "Holds for ror = 0 and a massless planet; false otherwise (C26_ror_counterexample, C26_mass_counterexample)."
 },
 "C27": {
  "status": "proved",
  "note": ""
 },
 "C28": {
  "status": "partial",
  "note": "All methods except SimpleTransitOrbit.get_planet_position / get_star_position, which ignore light_delay (C28_light_delay_ignored)."
 },
 "C29": {
  "status": "partial",
  "note": "Minimality, uniqueness, residuals, zero sum, orthogonality and exact recovery for all inputs with two different transit numbers; a single transit gives NaN (C29_single_transit_counterexample)."
 },
 "C30": {
  "status": "proved",
  "note": "All increasing lists of transit times of any length, every real t; searchsorted is modelled as the number of smaller edges."
 },
 "C31": {
  "status": "partial",
  "note": "Labelled transits proved (position equals that at t0; in front of the star at |b| r_star). Missing transits are placed with `period`, not `ttv_period`: false when a separate period is given (C31_missing_counterexample)."
 },
 "C32": {
  "status": "partial",
  "note": "All observables except light-delayed positions, which TTVOrbit does not support (C35)."
 },
 "C33": {
  "status": "partial",
  "note": "Relation with ttv_period, exact round trip and ValueError proved; with a separately given `period` the relation with `period` is false (C33_period_counterexample)."
 },
 "C34": {
  "status": "partial",
  "note": "Exactly the transits with min_time <= t < max_time; a transit exactly at max_time is missing (C34_endpoint_counterexample)."
 },
 "C35": {
  "status": "partial",
  "note": "Holds only for one planet and a single time; otherwise wrong shape or shape error (C35_shape_counterexample), and _flip always raises (C35_flip_counterexample)."
 },
 "C36": {
  "status": "proved",
  "note": "The compiled quad_solution_vector is idealised as the integrals it approximates (Model/LimbDark.lean)."
 },
 "C37": {
  "status": "proved",
  "note": "For the idealised integrals, physical limb-darkening laws (nonnegative intensity, positive disc integral)."
 },
 "C38": {
  "status": "partial",
  "note": "False for order 1 and 2 when oversample is 0 or 1 (one point at the left end): C38_single_point_counterexample; everything else proved."
 },
 "C39": {
  "status": "partial",
  "note": "Values and shapes proved for use_in_transit=False and all shapes of t; False for a scalar t with the default use_in_transit (C39_scalar_time_counterexample)."
 },
 "C40": {
  "status": "partial",
  "note": "Proved without exposure time or with one common exposure time (Keplerian, tractable planets; SimpleTransitOrbit) and for one Keplerian planet with one exposure time per datum. False for several planets with one exposure time per datum: shape error (C40_vector_texp_counterexample) or, when the numbers agree, a silently wrong result (C40_silent_counterexample)."
 },
 "C41": {
  "status": "proved",
  "note": ""
 },
 "C44": {
  "status": "proved",
  "note": ""
 },
 "C42": {
  "status": "partial",
  "note": "Proved for a single companion; for two or more planets get_light_curve raises (C42_system_counterexample)."
 },
 "C43": {
  "status": "proved",
  "note": "For every base light curve evaluated point by point (C43_base, C43_base_exposure: LimbDarkLightCurve with use_in_transit=False). Real arithmetic: rounding of the grid is not modelled; scalar t0 and period when there is one planet."
 },
 "C45": {
  "status": "proved",
  "note": "Tables with one value per node, strictly increasing grids of at least two points per axis, any number of axes and any shape of the query array. searchsorted is modelled on sorted arrays."
 },
 "C46": {
  "status": "partial",
  "note": "A coordinate equal to the first grid point is treated as outside (C46_lower_edge_counterexample); proved for all other points, for numbers and for NaN as fill value (C46_nan_partial)."
 },
 "C47": {
  "status": "partial",
  "note": "Only for a single query point; otherwise the call raises (C47_shape_counterexample) or, with as many points as outputs, silently mixes the weights (C47_silent_counterexample)."
 },
 "C48": {
  "status": "partial",
  "note": "support and uniformity proved; the start value of y is initval[1]*(1-initval[0]^2), wrong unless one of the two is 0 (counterexample)"
 },
 "C49": {
  "status": "proved",
  "note": "start proved for every initval in the open triangle; at the corner (0,0) there is no start state (C49_start_corner)"
 },
 "C50": {
  "status": "proved",
  "note": "conditional law given ror, which must not depend on the variable itself"
 },
 "C51": {
  "status": "proved",
  "note": "uniform for every regularization > -1 and None; below that the density is not normalisable, but still isotropic (C51_isotropic)"
 },
 "C52": {
  "status": "partial",
  "note": "all but observed values with limits on PyMC3, which raise NotImplementedError; long=None is the same as long=True"
 },
 "C53": {
  "status": "partial",
  "note": "violated on PyMC3: an observed eccentricity is ignored (counterexample)"
 },
 "C54": {
  "status": "partial",
  "note": "violated by kipping13 without limits and by vaneylen19, which forward the keyword as given (counterexample)"
 },
 "C55": {
  "status": "proved",
  "note": "For every history of constructions inside one model, the citation list is exactly the set of citations of the components used, independent of order and repetition; every key exists."
 },
 "C56": {
  "status": "partial",
  "note": "Construction outside a model context succeeds for orbits and light curves, but the distribution helpers raise TypeError there (C56_distribution_outside_counterexample); isolation between models and errors of get_citations proved."
 },
 "C57": {
  "status": "proved",
  "note": "For every argsort, grid with distinct frequencies and power array; ties are left open as in numpy."
 },
 "C58": {
  "status": "proved",
  "note": "Fit exists, opens downwards, vertex strictly between neighbours, positive uncertainty, log-power at least the sample's."
 },
 "C59": {
  "status": "partial",
  "note": "The reported index is always one too large (C59_reported_index_is_never_the_peak, C59_counterexample); index - 1 is the peak and index is never out of range."
 },
 "C65": {
  "status": "partial",
  "note": "Conversion laws proved; labelling a tensor that as_tensor_variable returns unchanged mutates the caller's object (C65_labelling_a_shared_tensor_counterexample)."
 },
 "C66": {
  "status": "proved",
  "note": "All branches of the back-end selection."
 },
 "C67": {
  "status": "proved",
  "note": "Deprecated aliases."
 },
 "C68": {
  "status": "partial",
  "note": "The algebra inside duration_to_eccentricity is right (candidates are exactly the solutions, Jacobian correct), but every call fails with TypeError (C68_call_always_fails, C68_counterexample)."
 },
 "C69": {
  "status": "partial",
  "note": "Momentum and centre of mass at a single time; a vector of times fails (C69_vector_of_times_counterexample)."
 },
 "C60": {
  "status": "proved",
  "note": "estimate_semi_amplitude minimises the weighted squared residual over both the free-phase and the fixed-phase model, fails exactly when the normal equations are singular, and recovers sinusoidal signals; plain numbers, strictly positive errors and periods."
 },
 "C61": {
  "status": "proved",
  "note": "The FFT route is shown to equal the normalised linear autocorrelation for every series; constant or empty series give undefined values. FFT is the exact DFT, reals for floats."
 },
 "C62": {
  "status": "proved",
  "note": "gaussian_filter and np.interp are parameters. Also shown: which peak is reported, when a period is found, and all failures. max_peaks and yerr are ignored by the code."
 },
 "C63": {
  "status": "partial",
  "note": "Termination, frequency factor, user-frame transit times and shift equivariance are proved; the period limits are honoured except that an extra keyword minimum_period is ignored (the code looks up the misspelt 'minimim_period'): C63_minimum_period_keyword_ignored. BoxLeastSquares is a parameter; the assumptions are met by astropy's autoperiod (demoBls_ok)."
 },
 "C64": {
  "status": "proved",
  "note": "Minimum mass is linear in the data, and scales as m_star^(2/3) and period^(1/3); the mass formula inverts the amplitude formula in the test-mass limit."
 },
 "C70": {
  "status": "partial",
  "note": "Period limits, unfiltered periodogram and filter shape proved; the peaks are those of the filtered power, and their reported log-power is changed by the filter even when the same sample is selected (C70_filter_changes_the_reported_power)."
 },
 "C71": {
  "status": "proved",
  "note": "Proved for the whole constructor (all argument patterns) and all queries, for arguments of shape (), (1,) or (np,). Tensor expressions are modelled as graphs evaluated with NumPy broadcasting, so the statement includes that no evaluation fails; the scalar model of C01-C20 is what the system is compared with."
 },
 "C72": {
  "status": "partial",
  "note": "Proved for every number of planets when period (and t0, with ttvs) has one entry per planet; a scalar period or t0, which KeplerianOrbit accepts, raises IndexError (C72_scalar_period_counterexample). Without light delay, which has the wrong shape (C35)."
 },
 "C73": {
  "status": "proved",
  "note": "All three ways of giving the periods."
 },
 "C74": {
  "status": "proved",
  "note": "The SI values of astropy are parameters; the numerical comparison with the fall-back uses the values of astropy 5."
 },
 "C75": {
  "status": "partial",
  "note": "Proved for every number of planets when the period (or the semi-major axis) has one entry per planet, and for in_transit of eccentric orbits when ecc, omega and a have too. Counterexamples: a shared omega makes get_light_curve with the default arguments raise; a shared period with several b raises or mixes the axes of times and planets. The requirement of the compiled contact_points on sizes is part of the model."
 },
 "C76": {
  "status": "proved",
  "note": "Circular orbits: any increasing transit times and any exposure time. Eccentric orbits: the compiled contact-point solver is assumed right (as in C22), with the stated condition at the midpoints between transits."
 },
 "C77": {
  "status": "partial",
  "note": "Order: proved for one and for several planets (numbers all different; C77_duplicate_counterexample shows that this is needed). Numbering: proved when the period is the fitted one; with a separate period the predicted times of unobserved transits depend on where the numbering starts (C77_numbering_counterexample)."
 },
 "C78": {
  "status": "proved",
  "note": "Exact equality in real arithmetic, including which exception is raised. The light curves are those of lists of planets; C71, C72 and C75 relate them to arrays."
 },
 "C79": {
  "status": "partial",
  "note": "False for exactly one list and several planets: accepted, the axis of length one is broadcast, and every planet moves on its own orbit by the clock of the first (C79_one_list, C79_one_list_counterexample: the second planet is shown in transit while it is behind the star). With ttvs and without transit_inds; with one list per planet see C72."
 },
 "C80": {
  "status": "partial",
  "note": "Proved for Keplerian orbits that do not touch the star (C80_kepler, R + r < a(1 - e)) and, as an equivalence, for orbits with timing variations (C80_ttv). False for a SimpleTransitOrbit whose ror is omitted (C80_simple_counterexample) and for an orbit inside the star (C80_inside_counterexample). Positions without light delay: the switch of the delay formula at |az| = 1e-10 is not covered."
 },
 "C81": {
  "status": "partial",
  "note": "Proved for Keplerian orbits with R + r < a(1 - e) (C81_exposure_kepler, C81_interpolation_kepler), with error bounds for any continuous light curve (C81_exposure_error, C81_interpolation_error). False for interpolation of orbits with timing variations: the interpolated light curve repeats with the period, so no num_phase suffices (C81_not_periodic, C81_ttv_counterexample). Exact real arithmetic; scalar exposure times; no light delay."
 },
 "C82": {
  "status": "partial",
  "note": "Proved for at least two planets with vectors t0 and period (C82_system_partial) and for one planet with scalars (C82_single). False otherwise: one planet with vectors of length one, hence every TTVOrbit of one planet, fails (C82_one_planet_vector, C82_ttv_one_planet); several planets with a shared scalar t0 or period fail, as does num_planets larger than the number of planets (C82_shared_scalar). With a smaller num_planets of at least 2 the remaining planets are silently missing (C82_system_partial). use_in_transit=False and no exposure time for the values."
 },
 "C83": {
  "status": "proved",
  "note": "Reversal of time is stated without light delay, with exposures that are centred (oversample = 1 with order 1 or 2 is not, C38_single_point_counterexample), and for one eccentric planet."
 },
 "C84": {
  "status": "proved",
  "note": "The default radius and mass of the star do not scale, so one asks that r_star is given, or m_star and rho_star without a duration on a circular orbit. Light delay scales when the speed of light does and the fixed threshold 1e-10 on the acceleration decides alike (C84_light_delay)."
 },
 "C85": {
  "status": "partial",
  "note": "False when the stellar radius is one number and there are several planets: the light curve of the companions is requested with a single radius and the positions cannot be reshaped (C85_shared_radius_counterexample). True when the attribute r_star has one entry per planet. Without light delay, as C20."
 },
 "C86": {
  "status": "partial",
  "note": "Attributes, positions and in_transit: always. Light curves: false when period, t0 and duration are shared and b or r_star is not (z loses its planet axis, C86_shared_times_counterexample) and when only duration differs (y loses its planet axis, C86_duration_only_counterexample). Python lists are accepted for period, t0 and duration but not for b, r_star and ror (C86_list_counterexample)."
 },
 "C87": {
  "status": "proved",
  "note": "For coefficients accepted by the constructor that describe a star brighter at the limb the property does not hold (C87_limb_brightened_counterexample); the claim excludes them."
 },
 "C88": {
  "status": "proved",
  "note": "The exact contacts are reported by KeplerianOrbit.in_transit and not by SimpleTransitOrbit.in_transit (part of C88_in_transit)."
 },
 "C89": {
  "status": "partial",
  "note": "With yerr: always. Without yerr: for the periods and times; velocities with a unit are always refused, because the weights are made by np.ones_like(y), which has the unit of y (C89_velocities_without_errors_counterexample). Uncertainties in a Python list raise TypeError (C89_list_of_errors)."
 },
 "C90": {
  "status": "proved",
  "note": "For data of equal lengths with non-zero uncertainties, non-zero periods and one t0 per period."
 },
 "C91": {
  "status": "proved",
  "note": "For the power and for reversed spectra no two peaks may have exactly the same height (NumPy's argsort leaves the order of ties open). np.interp is assumed not to depend on the origin and unit of the abscissae and to commute with affine changes of the ordinates (linear interpolation is proved to); of gaussian_filter nothing is assumed."
 },
 "C92": {
  "status": "proved",
  "note": "I(x) is the brightness at x stellar radii from the centre of the disc, Imean the mean brightness of the disc. quad_solution_vector is the definition by integrals of C37."
 },
 "C93": {
  "status": "proved",
  "note": "The acceleration of the star for a planet with mass (C09)."
 },
 "C94": {
  "status": "partial",
  "note": "False for sin omega = -1, where the phase formula of the constructor returns 0/0-like arctan2(0,0) and t0 is a superior conjunction (C94_singular_counterexample); proved for all other orbits."
 },
 "C95": {
  "status": "partial",
  "note": "False at sin omega = -1 when sin_omega and cos_omega are given: arctan2(0, 0) makes the planet jump by half a period at that single direction (C95_singular_counterexample); proved everywhere else."
 },
 "C96": {
  "status": "partial",
  "note": "Different names are not enough: angle('a') registers a potential a_regularization, so that angle('a_regularization') in the same model raises (C96_collision_counterexample); unit_disk and, on PyMC3, the eccentricity priors do the like (C96_backends_differ). Proved for names that do not look like auxiliary ones (C96_together_partial); independence is proved for every script that runs."
 },
 "C97": {
  "status": "partial",
  "note": "unit_disk raises TypeError for a list as shape, which the other helpers accept (C97_list_shape_counterexample); lists of lists as start values are accepted by angle and not by unit_disk and quad_limb_dark (C97_nested_list_counterexample); on PyMC3 impact_parameter with a vector ror and no shape registers one number for all entries (C97_pymc3_vector_ror_counterexample). Everything else is proved."
 },
 "C98": {
  "status": "partial",
  "note": "Proved except on PyMC3 with a prior: kipping13 with limits raises NotImplementedError (C98_kipping13_pymc3_raises), vaneylen19 ignores the observed eccentricity, which stays uniform (C98_vaneylen19_pymc3); and except for the start value: with the seed of the tests for limits [0.45, 0.55] the eccentricity starts at 25/64, where the density is zero (C98_start_counterexample)."
 },
 "C99": {
  "status": "partial",
  "note": "Proved for kipping13 on PyMC with any limits and on PyMC3 without limits. False on PyMC3 with limits (C99_kipping13_pymc3_counterexample: Bound is not normalised) and for vaneylen19 on both back-ends even without limits (C99_vaneylen19_counterexample: the mixture is not normalised on [0, 1]); in both cases the remaining factor is proved exactly."
 },
 "C100": {
  "status": "partial",
  "note": "The radial-velocity model is proved without conditions. The transit model is proved for orbits that clear the star by the size of the planet; the tutorial's wide prior of log_r also allows planets larger than their orbit, for which the impact parameter exceeds the semimajor axis and the inclination does not exist (C100_no_inclination_counterexample). The comment that h = sqrt(e) sin(w) is wrong, it is sqrt(e) cos(w) (C100_comment_counterexample, C100_components)."
 },
 "C101": {
  "status": "partial",
  "note": "Nodes, inclination and sense of rotation are proved for all bodies. The documented rotation holds for the star; for the orbiting body it needs omega + pi, and with omega as given it is false on every orbit at every time (C101_planet_counterexample): omega is the argument of periastron of the star's orbit, which the documentation does not say."
 },
 "C102": {
  "status": "proved",
  "note": "The delay is the code's, including the sign of its acceleration term that C19 shows to be wrong: the theorem measures what that costs (third order in v / c). Eccentric orbits: sign and size only."
 },
 "C103": {
  "status": "proved",
  "note": "No parallax: angles are in the units of the semi-major axis, so the size is determined only as an angle. Circular orbits: size and period are covered, the split between argument of periastron and phase is not unique and not claimed."
 },
 "C104": {
  "status": "proved",
  "note": "The semi-amplitude is the argument K of get_radial_velocity, as in the tutorial. C104_jitter_counterexample is about the model that the documentation shows, not about the package."
 },
 "C105": {
  "status": "proved",
  "note": "The second orbit is not assumed to transit; C105_determined shows that it does. Exposure times are zero. The sign of the impact parameter and the stellar radius alone are not determined, which the converse direction states."
 },
 "C106": {
  "status": "partial",
  "note": "A body of exactly the size of the star is left out: C106_eclipse_counterexample proves that the light curve has a corner at the centre of such an eclipse. SimpleTransitOrbit needs a body not larger than its ror and a duration below the period, since otherwise the light curve jumps (C80). The gradient is that of the flux as the model defines it; what the compiled operator returns from its own backward pass is outside the repository."
 },
 "C107": {
  "status": "partial",
  "note": "At sin(omega) = -1 the property is false: C107_singular_counterexample gives a family with smooth elements whose position jumps. Bodies of the size of the star are left out because of C106_eclipse_counterexample. Eccentricity and planet mass must not be negative in a neighbourhood, as the constructor gives no physical orbit there. Derivatives are those of the functions computed; the graph rewriting of the autodiff framework is outside the repository."
 },
 "C108": {
  "status": "partial",
  "note": "The code after the call that always fails (C68_call_always_fails), from its inputs on. True for one planet on PyMC3. False otherwise: with two or more planets the weights cannot be broadcast (C108_counterexample_planets) and the potential is counted once per planet (C108_counterexample_power); on PyMC the lookup of the variables fails (C108_counterexample_pymc); the average ignores the likelihood (C108_counterexample_average)."
 },
 "C109": {
  "status": "proved",
  "note": "The Jacobians of a and rho_star with respect to the duration are negative (part of C109_duration), so that the log needs the absolute value. The other entries of the dictionary are not derivatives (C25_a_star_counterexample, C25_dcosidb_counterexample) and are not part of this claim."
 },
 "C110": {
  "status": "partial",
  "note": "t0 is the conjunction (C06, C94). Proved: the rate of change of the separation at t0 in closed form, and that separations are symmetric about t0 exactly if ecc cos(omega) = 0 (C110_symmetric_iff). True on circular orbits and transits at periastron; false otherwise: closest before t0 (C110_closest_counterexample), grazing light curves deepest before t0 and not symmetric (C110_light_curve_counterexample). SimpleTransitOrbit and the estimators call t0 the midpoint or time of transit; KeplerianOrbit only promises 'a reference transit'."
 },
 "C111": {
  "status": "partial",
  "note": "Proved: existence and uniqueness of the emission time, and the error bound, which is of second order in the delay. Missing: the third-order error that a second-order expansion should have; because of the wrong sign found in C19 the acceleration term doubles the error of the first-order formula instead of removing it (C111_worse_than_without_acceleration, at the transit of every circular orbit slower than c/10)."
 },
 "C112": {
  "status": "partial",
  "note": "Proved at all times at which the acceleration along the line of sight is not 1e-10, where the code switches between the solution of the linear and of the quadratic equation. False at the switch: the position is continuous at all times exactly if the acceleration never reaches 1e-10 (C112_continuous_iff), so for no ordinary planet. The jump in time is at most 3/4 1e-10 d^2 / c (C112_jump_size)."
 },
 "C113": {
  "status": "partial",
  "note": "The first half is proved with a model that computes with NaN and infinities, which also shows that the totalised operations of the real-number model are never used on physical orbits. The second half is false of the light curve: gt(nan, 0) is false, so the switch of _compute_light_curve replaces the NaN of every impossible orbit by zero flux (C113_impossible_impact, C113_impossible_duration, C113_impossible_circular_duration, C113_unbound, C113_zero_period, C113_negative_mass)."
 },
 "C114": {
  "status": "partial",
  "note": "Holds when no two planets overlap in front of the star, e.g. when they are further apart than the sum of their radii (C114_sum_partial, C114_separate, C114_system_partial). For stars that are nowhere dark that condition is also necessary (C114_sum_iff); the sum is always the lower one (C114_sum_le) and can fall below -1 (C114_counterexample)."
 },
 "C115": {
  "status": "proved",
  "note": "Quantitative form of C81: explicit constants. For n = oversample each rule is within half a cell times the rate, whatever the contact points, at which light curves are not twice differentiable."
 },
 "C116": {
  "status": "partial",
  "note": "For |b| < 1 + ror no operation leaves its domain and positions, selection and fluxes are those of the real-number model (C116_possible_partial, C116_in_transit). False otherwise: beyond 1 + ror the speed is NaN, in_transit selects nothing and the default light curve is exactly zero for planets of every size (C116_silent), also for the grazing transits that exist when ror is left at its default zero (C116_counterexample), whereas use_in_transit=False gives NaN (C116_nan). Durations that are not positive give zero flux (C116_flat)."
 },
 "C117": {
  "status": "proved",
  "note": "The attributes a, cos_incl, sin_incl, r_star, t0, period are the stored numbers; n, M0, t_periastron, tref and everything computed from the times are rounded. Overflow, underflow and the rewriting of the graph by the compiler are not modelled; the compiled flux operation is a parameter of known error. Eccentric orbits are the subject of C120."
 },
 "C118": {
  "status": "partial",
  "note": "Proved away from the centre of the star (C118_simple_partial, from the general C118_backprop: reverse accumulation through a graph without singular operations gives the partial derivatives). False at the middle of a central transit: b = sqrt(x**2 + y**2) has the derivative 0/0 there, so that the computed derivatives with respect to all parameters of the orbit are NaN (C118_centre) although the flux is continuously differentiable (C118_differentiable). The derivative rules of PyTensor's operations are trusted; the compiled operation and its derivatives are parameters."
 },
 "C119": {
  "status": "partial",
  "note": "Proved where the acceleration along the line of sight is neither zero nor exactly at the threshold 1e-10 of the code (C119_delayed_partial). False wherever the body crosses the plane of the sky (C119_crossing), on face-on orbits (incl = 0) at all times (C119_face_on): pt.switch guards the value against the division by az = 0 but not the gradient, where 0 * (c_light / az) = NaN comes back from the branch that is not selected, so that the derivatives with respect to all parameters are NaN although the values are right (C119_crossing_value, C119_face_on_value) and the true derivatives exist (C119_crossing_differentiable, C119_differentiable)."
 },
 "C120": {
  "status": "proved",
  "note": "The attributes a, ecc, sin_omega, cos_omega, cos_incl, sin_incl, r_star, period and the given one of t0, t_periastron are the stored numbers; n, M0 (with its arctan2), the other epoch, tref and everything computed from the times are rounded. The compiled solver is a parameter whose error is assumed only at the mean anomaly that it is given. Overflow, underflow and the rewriting of the graph by the compiler are not modelled."
 },
 "C121": {
  "status": "partial",
  "note": "Proved unless the planet is exactly in front of or behind the centre of the star or grazes the star in the plane of the sky, or sin(omega) = -1, or the orbit is face-on (C121_light_curve_partial); also at ecc = 0, where they are those of the circular orbit (C121_circular) and that with respect to ecc is the derivative from the right (C121_from_the_right); the formulas for the derivatives of sin f and cos f with respect to M and e are proved (C121_kepler). False at sin_omega = -1, cos_omega = 0, where the derivatives with respect to ecc, sin_omega and cos_omega are NaN at all times (C121_downwards: pt.arctan2 is differentiated at (0, 0); with omega = -pi/2 the rounding of cos(omega) avoids it), and at the centre of the star (C121_centre, C121_counterexample: true derivatives exist by C121_differentiable; in doubles cos(pi/2) is not exactly zero, so that rounding usually avoids this point). A b beyond the largest possible one gives a flux of zero with derivatives of exactly zero instead of NaN (C121_impossible)."
 },
 "C122": {
  "status": "partial",
  "note": "Proved if the labels are distinct, the time is not an edge between two transits, and the planet is not exactly in front of or behind the centre of the star or grazes the star in the plane of the sky and the orbit not face-on (C122_light_curve_partial). False for repeated labels, which the code accepts: only the last entry counts, but the computed derivatives with respect to all of them are the same (C122_equal_labels; C122_counterexample: x does not depend on ttvs[0], its computed derivative is -2 pi). NaN at the centre of the star, for transit_times even with respect to the times of all other transits (C122_centre)."
 },
 "C123": {
  "status": "partial",
  "note": "Proved unless at one of the samples the planet is exactly in front of or behind the centre of the star or grazes the star in the plane of the sky, or the orbit is face-on (C123_exposure_partial, with use_in_transit C123_use_in_transit_partial under the hypotheses of C40; the graph is that of get_light_curve by C123_value). NaN if one of the samples is at the centre of the star (C123_centre; C123_counterexample: the middle of a central transit, where the true derivatives exist; in doubles cos(pi/2) is not exactly zero, so that rounding usually avoids this point on Keplerian orbits)."
 },
 "C124": {
  "status": "partial",
  "note": "Proved unless the planet is exactly in front of or behind the centre of the star or grazes the star in the plane of the sky, or the orbit is face-on (C124_light_curve_partial; the graph is that of the model with NaN by C124_graph). At the centre of the star the true derivatives exist (C124_differentiable) and the computed ones with respect to b and to every argument from which the axis or the radius is computed are NaN, also those with respect to masses and density (C124_centre, C124_counterexample). In doubles cos(pi/2) is not exactly zero, so that rounding usually avoids this point."
 },
 "C125": {
  "status": "partial",
  "note": "Proved with K if sin(omega) > -1 (C125_amplitude_partial) and from the masses if also the orbit is not face-on (C125_masses_partial). With sin_omega=-1 and cos_omega=0 the computed derivatives with respect to ecc, sin_omega and cos_omega are NaN (C125_downwards), also when t_periastron is given, where the radial velocity does not depend on the time of transit at all and is differentiable everywhere (C125_differentiable, C125_counterexample): the constructor computes the time of transit anyway, adds it and subtracts it again."
 },
 "C126": {
  "status": "partial",
  "note": "Proved unless the planet is exactly in front of or behind the centre of the star or grazes the star in the plane of the sky, the orbit is face-on, or the impact parameter computed from the duration is zero (C126_light_curve_partial, C126_jacobian; the graph is that of the model with NaN by C126_graph). At the centre of the star the computed derivatives are NaN (C126_centre, C126_counterexample). If the planet passes the star at too large a distance for any axis to give the duration, the light curve is zero but the computed derivatives with respect to duration, ror, b, r_star and period are NaN (C126_impossible), unlike those of C121_impossible."
 },
 "C127": {
  "status": "partial",
  "note": "Proved unless the planet is exactly in front of or behind the centre of the star or grazes the star in the plane of the sky, the orbit is face-on, or is eccentric with sin(omega) = 1 or -1, or with an omega computed as exactly pi (C127_light_curve_partial); C127_model: the function is that of the rest of the model. The derivatives exist at the centre and at sin(omega) = 1 too (C127_differentiable), but those computed with exact arithmetic are NaN (C127_centre, C127_upwards, C127_counterexample)."
 },
 "C128": {
  "status": "partial",
  "note": "Proved unless the time is one of the grid, or at one of the times of the grid the planet is exactly in front of or behind the centre of the star or grazes it in the plane of the sky, or the orbit is face-on (C128_interpolated_partial); for circular orbits outside of the star all that is needed is b != 0 (C128_circular_partial). The light curves exist (C128_exists). False for central transits: t0 is always one of the times of the grid, and the zero derivative of an unused entry turns into 0 / 0 there, so that the computed derivatives are NaN at all times (C128_centre, C128_central), where the true ones exist (C128_differentiable, C128_counterexample)."
 },
 "C129": {
  "status": "partial",
  "note": "Proved for values and potentials of the helpers wherever the sampled variables are within the support and, for angle, away from the cut at +-pi and from the origin (C129_unit_disk, C129_quad_limb_dark, C129_impact_parameter, C129_angle); for light curves, also where omega jumps from pi to -pi, unless omega is -pi/2, the eccentricity is zero, the planet is exactly in front of or behind the centre of the star or grazes it in the plane of the sky, or the orbit is face-on (C129_light_curve_partial); and for radial velocities unless omega is -pi/2 or the eccentricity is zero (C129_rv_partial). False at the centre of the disc: there the computed derivatives with respect to both variables are NaN at all times (C129_origin), although the light curve is differentiable along one of them with derivative zero (C129_truth), whereas the radial velocity with a given time of periastron is not even continuous (C129_rv_jump); and this is where unit_disk starts without a start value, as in one of the tutorials (C129_start, C129_gradient_counterexample)."
 },
 "C130": {
  "status": "partial",
  "note": "Proved for 0 <= e < 1 (or circular orbits) and sin omega > -1: positions without further conditions, also face-on and edge-on (C130_position_partial); separations unless zero (C130_separation_partial); position angles unless pi (C130_angle_partial); wrapped residuals also where the position angle jumps, unless the residual itself is pi (C130_residual_partial); light curves unless the planet is exactly in front of or behind the centre of the star or grazes it in the plane of the sky (C130_light_curve_partial). False where planet and star coincide: the derivative of the separation with respect to the semi-major axis exists and is zero, the computed one is NaN (C130_conjunction, C130_counterexample). Where the position angle is pi it is not continuous in Omega, and the computed derivatives are numbers nevertheless (C130_cut)."
 },
 "C131": {
  "status": "partial",
  "note": "The entries of the solution vector are differentiable apart from the centre of the star, with the integral along the limb of the planet as derivative (C131_solution). With exact compiled operations all computed derivatives are right unless the planet is exactly in front of or behind the centre or grazes the star in the plane of the sky, or the orbit is face-on; the coefficients need not be physical, only a total brightness of zero is excluded (C131_light_curve_partial), and the same for the model of the tutorial (C131_tutorial_partial). Those with respect to the coefficients are right at these exceptions too (C131_coefficients). The assumption of C118-C130 about the light curve as one operation follows from that about the solution vector (C131_exact). False at the centre, as in C121: the derivatives with respect to the orbit are NaN (C131_centre, C131_counterexample). With u1/3 + u2/6 = 1 the flux is NaN or infinite (C131_dark)."
 },
 "C132": {
  "status": "partial",
  "note": "Right for all data whenever the model of each datum is right (C132_likelihood), and equal to the sum of residuals over variances times derivatives (C132_residuals); NaN if the derivative for a single datum is (C132_one_datum). For the transit tutorial right at all states within the support for which the orbit lies outside of the star, whatever the data and the times: the exceptions of C131 cannot occur since the unit impact parameter is positive (C132_transit). For radial velocities right for 0 <= ecc < 1 unless plus - minus is -pi/2 modulo 2 pi (C132_velocity_partial), and zero for the jitter, which the likelihood does not contain (C132_jitter, C104). For astrometry right within the support unless the orbit is exactly edge-on, omega is -pi/2 or a position angle or its residual is exactly pi (C132_astrometry_partial). For several planets right unless one of them is at one of the points excluded in C131 (C132_system_partial), for circular orbits with b != 0 for all data (C132_circular_partial); the parameters of one planet are right wherever the others are (C132_own). False with b = 0 and a datum exactly at mid-transit: the derivatives of the log-likelihood with respect to the radius of the star and to that planet are NaN (C132_shared, C132_counterexample). Priors other than that of the tutorial's log-density as modelled and the transforms of bounded variables are PyMC's and not modelled."
 },
 "C133": {
  "status": "partial",
  "note": "For grids in increasing order: the value of the graph is that of the function (C133_value); all derivatives are right unless a coordinate equals a grid point, and without fill_value also at the ends of an axis and outside of the grid (C133_partial). One by one, a derivative is right unless its parameter is itself a coordinate at a grid point or that grid point (C133_parameter_partial); those with respect to the table are right everywhere (C133_table), and those with respect to the coordinates are derivatives from the left everywhere (C133_left). False at inner grid points, where the function has a kink (C133_counterexample). With fill_value everything is constant at and below the first grid point of an axis, although this point belongs to the grid (C133_edge, cf. C46). Tables of vectors are not covered."
 },
 "C134": {
  "status": "partial",
  "note": "Right for everything (C134_partial) except the component along the line of sight of an orbit seen face-on, where the derivative of arccos is infinite, and the accelerations of a body that does not move because the other one has no mass. With m_planet = 0 the star is at rest (C134_rest), and this is the default (C134_default), but get_star_acceleration divides zero by zero: value and derivative with respect to m_planet are NaN (C134_massless, C134_counterexample). Rewriting of the graph by PyTensor is not modelled; where m_planet is a constant and not a parameter, constant folding may replace zero divided by zero by zero. Parallax, light delay and Omega are not covered (C119, C130)."
 },
 "C135": {
  "status": "partial",
  "note": "The estimate is m sin i times a constant and (m_star/m_total)^(2/3) (C135_estimate); with the constants of astropy 5 the constant is 1 to two parts in 100000, so that the relative error is at most 2e-5 plus two thirds of the mass ratio and the estimate is always too low (C135_partial), to one per cent for planets up to one per cent of the star (C135_light_planets, the tolerance of the test). Exact recovery is false because the mass of the planet is neglected: for two equal masses the estimate is less than 0.64 of the mass (C135_counterexample). Eccentric orbits are not covered."
 },
 "C136": {
  "status": "partial",
  "note": "Which warnings are printed, and in which order (C136_warnings), what strict callers see (C136_strict, C136_user_warning), that the orbit does not depend on warnings (C136_same_orbit), and an equivalent call without warnings (C136_quiet, a missing ror means zero). False for eccentric orbits: a duration without ror gives no warning there, because ror is ignored (C136_counterexample). That the default filter prints a warning once per line of code is not modelled."
 },
 "C137": {
  "status": "partial",
  "note": "True for LimbDarkLightCurve (C137_limb_dark), for missing times in SecondaryEclipseLightCurve if the orbit can be turned round (C137_secondary_partial) and for a missing radius in InterpolatedLightCurve (C137_interpolated_partial). False otherwise: a missing orbit is an AttributeError, or a message about num_planets, and a missing radius or missing times fail in the conversion to a tensor (C137_secondary_counterexample, C137_interpolated_counterexample, C137_interpolated_unreported). An exception is raised in every case (C137_secondary_raises, C137_interpolated_raises); with all arguments the calls are those of C42 and C43 (the _present theorems). The class of the exception for None as a tensor is left open."
 },
 "C138": {
  "status": "proved",
  "note": "Positions (C138_position: backward error in the time, forward error in the coordinates, the side of the star away from the contacts), flux (C138_flux, C138_light_curve), the decision of in_transit without r away from the contacts (C138_in_transit) and how fast the exact flux changes (C138_time); without rounding the code draws the chord of the specification (C138_exact). The speed is the stored one. For a planet of another radius the exact light curve jumps at the contacts (C80_simple_counterexample)."
 },
 "C139": {
  "status": "proved",
  "note": "C139_rv; C139_rate bounds how fast the exact radial velocity changes (attained: C139_rate_attained), and C139_rv_forward combines both into the error at the requested time, where the eccentricity does enter. The backward error in the time is that of C120. Only the branch with K; without K the radial velocity is the velocity of the star. The accuracy of the compiled solver is a hypothesis on its value at the computed mean anomaly."
 },
 "C140": {
  "status": "proved",
  "note": "C140_velocity, C140_radial_velocity; the factor 1/(1 - e) cannot be avoided (C140_amplified). The stored attributes (K0, masses, inclination) are taken as they are; their own rounding is not part of the claim. The factor 1/(1 - e) appears because the error is measured against the speed, which is smallest at apastron."
 },
 "C141": {
  "status": "proved",
  "note": "C141_acceleration. The stored attributes (K0, a, a_star, a_planet, masses, inclination) are taken as they are. For a planet without mass the code divides zero by zero for the star, which is left out."
 },
 "C142": {
  "status": "proved",
  "note": "C142_angles, without parallax and light delay. The direction of the angle is compared instead of the angle itself, so that the jump of arctan2 from pi to -pi does not matter. u is the rounding error, eta the error of the compiled Kepler solver."
 },
 "C143": {
  "status": "proved",
  "note": "C143_attributes, from the stored masses, semi-major axis, period and eccentricity; together with C139 to C141 this covers velocities and accelerations from those. The consistency step that computes the semi-major axis, mass or density from the others, and the inclination, are not rounded."
 },
 "C144": {
  "status": "proved",
  "note": "C144_inclination bounds the errors from the stored eccentricity, sin_omega, radius, semi-major axis and b or incl; C144_attained shows that the term 2 u/dcosidb cannot be avoided. The impact parameter from a duration (keplerian.py:237-258) and the arccos are not rounded."
 }
}