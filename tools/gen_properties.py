#!/usr/bin/env python3
"""Generates properties.jsonl (kept as a script so that the JSON stays well formed)."""
import json, os
P = []
def p(title, statement, quantifier, why, *anchors):
    P.append(dict(id="C%02d" % (len(P) + 1), title=title, statement=statement,
                  quantifier=quantifier, why_tests_cant=why, anchors=list(anchors)))
K = "src/exoplanet/orbits/keplerian.py"
S = "src/exoplanet/orbits/simple.py"
T = "src/exoplanet/orbits/ttv.py"
L = "src/exoplanet/light_curves/limb_dark.py"
E = "src/exoplanet/estimators.py"
D = "src/exoplanet/distributions/distributions.py"
EC = "src/exoplanet/distributions/eccentricity.py"
I = "src/exoplanet/interp.py"
CI = "src/exoplanet/citations.py"
U = "src/exoplanet/units.py"

# ---- orbit construction -------------------------------------------------------------------
p("Every constructed orbit obeys Kepler's third law and the density relation",
  "Whenever KeplerianOrbit(...) succeeds for physical inputs, its attributes satisfy 4 pi^2 a^3 = G (m_star + m_planet) period^2 and rho_star = 3 m_star / (4 pi r_star^3) expressed in g/cm^3, and every one of a, period, r_star, m_star, rho_star, m_planet that the user supplied comes back unchanged (in the standard unit).",
  "all admissible combinations of a, period, rho_star, r_star, m_star, m_planet and all positive real values",
  "The relation must hold on a continuum of values and for all parameter combinations; tests pick a handful of numbers.",
  K + ":_get_consistent_inputs", K + ":KeplerianOrbit.__init__")
p("The constructor accepts exactly the documented parameter combinations",
  "KeplerianOrbit raises ValueError for the parameter combinations the documentation rules out (neither a nor period; a and period together with m_star or rho_star; too many or too few stellar parameters; b with incl; duration with incl or b on an eccentric orbit; ecc without omega; t0 with t_periastron; duration without b on a circular orbit) and succeeds on all others, whatever the numbers are.",
  "every subset of optional arguments being present, every value",
  "There are thousands of presence patterns; tests check a few.",
  K + ":KeplerianOrbit.__init__", K + ":_get_consistent_inputs")
p("Re-building an orbit from its own derived attributes gives the same orbit",
  "Taking a, period, rho_star, r_star, m_star, m_planet from a constructed orbit and constructing again from any other admissible subset of them (a+period, period+m_star+r_star, a+rho_star+r_star, a+rho_star+m_star, ...) reproduces all six values.",
  "all physical inputs, all admissible re-parameterizations",
  "A round-trip law over real inputs and all combinations.",
  K + ":_get_consistent_inputs")
p("Attaching units to an argument is equivalent to converting it by hand",
  "An orbit built with period, a, r_star, m_star, m_planet or rho_star carrying any compatible unit equals the orbit built from the value converted to the standard unit; an incompatible unit is an error; the deprecated m_planet_units / rho_star_units keywords are equivalent to with_unit.",
  "all values, all units of the right dimension, all presence patterns",
  "Units form an infinite family and they interact with every construction path.",
  U + ":to_unit", U + ":with_unit", K + ":_get_consistent_inputs", K + ":KeplerianOrbit.__init__")
p("Impact parameter and inclination are two views of the same orbit",
  "An orbit built from b and one built from the resulting incl agree on b, incl and cos(incl); and at the reference transit time the sky-projected distance between planet and star is exactly |b| r_star.",
  "all eccentric and circular orbits with |cos(incl)| <= 1",
  "Identity between real-valued functions of six continuous parameters.",
  K + ":KeplerianOrbit.__init__", K + ":KeplerianOrbit.get_relative_position")
p("The reference time t0 is a transit",
  "At t = t0 (and at every t0 + k period) the planet is at inferior conjunction: its along-node sky coordinate is zero and it lies between the observer and the star (z > 0), for any eccentricity and argument of periastron however they were given.",
  "all orbits with 0 <= ecc < 1, inclined less than edge-away, all omega (including given as sin/cos), all integers k",
  "Includes singular angles and all eccentricities; a test at a few angles misses the singular one.",
  K + ":KeplerianOrbit.__init__", K + ":KeplerianOrbit.get_relative_position")
p("t0 and t_periastron are interchangeable and t_periastron is the periastron passage",
  "Building an orbit from t0 and building it from the t_periastron it reports give the same positions at all times; at t_periastron the star-planet distance is a(1-ecc), the minimum over all times.",
  "all orbits, all times",
  "Universally quantified over time; minimum over an infinite set.",
  K + ":KeplerianOrbit.__init__", K + ":KeplerianOrbit.get_relative_position")
# ---- kinematics ---------------------------------------------------------------------------
p("Velocities are the time derivatives of positions",
  "get_{planet,star,relative}_velocity(t) is the exact time derivative of get_{planet,star,relative}_position(t), component by component.",
  "all physical orbits (circular or 0 <= ecc < 1, any orientation), all real t",
  "A derivative identity at every time of every orbit, through an implicit (Kepler) equation.",
  K + ":KeplerianOrbit._get_velocity", K + ":KeplerianOrbit._get_position")
p("Accelerations are the time derivatives of velocities",
  "get_{planet,star,relative}_acceleration(t) is the exact time derivative of the corresponding velocity.",
  "all physical orbits with non-zero semimajor axis for the body, all real t",
  "A derivative identity at every time of every orbit.",
  K + ":KeplerianOrbit._get_acceleration", K + ":KeplerianOrbit._get_velocity")
p("The relative motion obeys Newton's law of gravitation",
  "For every constructed orbit the second time derivative of get_relative_position(t) equals -G (m_star + m_planet) x / |x|^3 where x is the relative position.",
  "all physical orbits, all times",
  "A differential equation satisfied identically.",
  K + ":KeplerianOrbit.get_relative_position", K + ":KeplerianOrbit.get_relative_acceleration")
p("The barycentre stays at rest and relative = planet - star",
  "For every planet m_star * star_position + m_planet * planet_position = 0 and the same for velocities and accelerations, and the relative position/velocity is planet minus star.",
  "all physical orbits, all times",
  "Vector identity on continuous inputs.",
  K + ":KeplerianOrbit.get_star_position", K + ":KeplerianOrbit.get_planet_position", K + ":KeplerianOrbit.get_relative_position")
p("All observables are periodic with the orbital period",
  "Positions, velocities, accelerations, relative angles, radial velocity and in-transit membership at t + k*period equal those at t.",
  "all physical orbits, all times, all integers k",
  "Quantifies over all integers and all times.",
  K + ":KeplerianOrbit")
p("The star-planet distance stays between a(1-ecc) and a(1+ecc)",
  "|get_relative_position(t)| lies in [a(1-ecc), a(1+ecc)]; both bounds are attained (at periastron and half a period later); on circular orbits it equals a.",
  "all physical orbits, all times",
  "Bound on a supremum/infimum over all times.",
  K + ":KeplerianOrbit._get_position")
p("Energy and angular momentum are conserved",
  "Along get_relative_position/get_relative_velocity the specific angular momentum vector is constant, and |v|^2/2 - G M/|x| = -G M/(2a) at all times (vis-viva).",
  "all physical orbits, all times",
  "A conserved quantity must be checked at all times.",
  K + ":KeplerianOrbit.get_relative_velocity", K + ":KeplerianOrbit.get_relative_position")
p("Radial velocity: the K form and the full orbit agree, with the documented sign and amplitude",
  "get_radial_velocity(t) equals get_radial_velocity(t, K) with K the orbit's semi-amplitude in the output unit; it is minus the z velocity of the star (positive = redshift), it stays in [K(e cos w - 1), K(e cos w + 1)] and both extremes are attained.",
  "all physical orbits, all times, all output units",
  "Extremal values over all times.",
  K + ":KeplerianOrbit.get_radial_velocity")
p("ecc = 0 and ecc omitted describe the same orbit",
  "An orbit with ecc=0 and any omega has the same positions, velocities and accelerations at all times as the orbit with ecc omitted and the same other arguments.",
  "all omega (away from the singular sin(omega) = -1), all times, all other arguments",
  "Two code paths must coincide on a continuum.",
  K + ":KeplerianOrbit.__init__", K + ":KeplerianOrbit._get_position")
p("True anomaly solves Kepler's equation",
  "For every M and 0 <= e < 1 the eccentric anomaly exists and is unique, get_true_anomaly(M, e) is in (-pi, pi], satisfies the true/eccentric anomaly relation, equals M (mod 2 pi) for e = 0, and is 2 pi periodic and odd in M.",
  "all real M, all 0 <= e < 1",
  "Existence and uniqueness of an implicit solution for all inputs.",
  K + ":get_true_anomaly", K + ":KeplerianOrbit._get_true_anomaly")
p("Relative angles are the polar form of the sky position, in the parallax unit",
  "get_relative_angles returns rho >= 0 and theta in (-pi, pi] with X = rho cos(theta), Y = rho sin(theta); a parallax multiplies all coordinates by parallax * au_per_R_sun, also when light_delay=True.",
  "all orbits, times, parallaxes, with and without light_delay",
  "Option interaction (parallax x light_delay) over all values.",
  K + ":KeplerianOrbit.get_relative_angles", K + ":KeplerianOrbit._get_position", K + ":KeplerianOrbit._get_retarded_position")
p("Light-delayed positions solve the light-time equation to second order",
  "With light_delay=True the returned position is the un-delayed position at t - d, where c d equals the distance along the line of sight, at t - d, of a body with the instantaneous velocity and acceleration at t.",
  "all physical orbits, all times",
  "A sign or factor error in a second-order term is below test tolerances.",
  K + ":KeplerianOrbit._get_retarded_position")
p("Exchanging the roles of the bodies negates the relative motion",
  "The companion orbit used for secondary eclipses (masses exchanged) has the same a, period and total mass; its planet moves exactly as the original star and its star as the original planet; the relative position is negated.",
  "all physical orbits (circular and eccentric), all times",
  "Identity on all times and orbits.",
  K + ":KeplerianOrbit._flip")
# ---- transits -----------------------------------------------------------------------------
p("in_transit is exact on circular orbits",
  "For a circular orbit whose planet stays outside the star (r_star + r <= a) the timestamp i is returned iff at time t[i] some planet is in front of the star with sky separation at most r_star + r; a planet whose impact parameter exceeds 1 + r/r_star is never in transit.",
  "all circular systems, any number of planets, all timestamps",
  "An iff between an arcsin formula with modular wrapping and geometry at all times; NaN cases included.",
  K + ":KeplerianOrbit.in_transit")
p("in_transit is exact on eccentric orbits, given correct contact points",
  "If the compiled contact-point solver returns the mean anomalies of the two contacts, in_transit returns exactly the timestamps lying between first and last contact of some transit, whatever the wrapping of those anomalies; if the solver flags a failure every timestamp is returned.",
  "all eccentric systems, all timestamps, all representations modulo 2 pi of the contact anomalies",
  "Modular wrapping cases are a measure-zero set for random tests.",
  K + ":KeplerianOrbit.in_transit")
p("in_transit returns a strictly increasing list of valid indices, growing with r and texp",
  "The result is strictly increasing, every entry is a valid index into t, and increasing the planet radius or the exposure time never removes an index.",
  "all orbits, all timestamp vectors, all r and texp",
  "Monotonicity over all pairs of inputs.",
  K + ":KeplerianOrbit.in_transit", S + ":SimpleTransitOrbit.in_transit")
p("A circular orbit built from a duration transits for exactly that duration",
  "KeplerianOrbit(period, b, duration, ror, r_star) has, at t0 +- duration/2, sky separation exactly r_star (1 + ror), and in_transit with r = ror r_star selects exactly the times within duration/2 of a transit centre.",
  "all 0 < duration < period/2, 0 <= b < 1 + ror",
  "Inverse trigonometric identity on a continuum.",
  K + ":get_aor_from_transit_duration", K + ":KeplerianOrbit.__init__", K + ":KeplerianOrbit.in_transit")
p("Reported Jacobians are the true derivatives",
  "The jacobian returned by get_aor_from_transit_duration and the entries orbit.jacobians['duration'][a, a_star, a_planet, rho_star] and orbit.jacobians['b']['cos_incl'] are the derivatives of the corresponding attributes with respect to duration and b.",
  "all parameters in the domain",
  "Derivative identities; users add log|J| to their posterior.",
  K + ":get_aor_from_transit_duration", K + ":KeplerianOrbit.__init__")
p("An eccentric orbit built from a duration has an impact parameter consistent with that duration",
  "With ecc given, the b deduced from duration satisfies sin(pi duration F / period) = r_star sqrt((1+ror)^2 - b^2) / (a sin(incl)) with F = (1 + e sin w)/(1 - e^2).",
  "all eccentric parameters for which a solution exists, all ror, all m_planet",
  "Closed-form algebra that tests do not exercise.",
  K + ":KeplerianOrbit.__init__")
p("SimpleTransitOrbit draws the documented chord",
  "The planet crosses the stellar disc at constant speed on the chord at height b r_star, centred at t0 + k period; sky separation equals r_star(1+ror) exactly at +-duration/2; z > 0 iff strictly within duration/2 of a transit; in_transit(r) returns exactly the timestamps with separation below r_star + r; everything is periodic.",
  "all parameters in the domain, all timestamps, all integers k",
  "Iff statements over all times.",
  S + ":SimpleTransitOrbit")
p("Unsupported requests are refused, not silently ignored",
  "Asking for light travel delay where it is not implemented (in_transit, SimpleTransitOrbit positions) or for velocities of a SimpleTransitOrbit raises NotImplementedError for every argument.",
  "all methods with a light_delay option, all arguments",
  "Each method/option combination has to be covered.",
  S + ":SimpleTransitOrbit", K + ":KeplerianOrbit.in_transit")
# ---- TTV ----------------------------------------------------------------------------------
p("TTVOrbit fits the least-squares linear ephemeris",
  "Given transit_times (and indices), t0 and ttv_period minimise the sum of squared residuals over all linear ephemerides, the minimiser is unique when two indices differ, the reported ttvs are the residuals, sum to zero and are orthogonal to the indices; exactly periodic times give zero ttvs and the exact period.",
  "all transit-time vectors of any length, all index vectors",
  "A minimum over all linear ephemerides.",
  T + ":TTVOrbit.__init__")
p("Each timestamp is referred to the nearest labelled transit",
  "The time axis is shifted by the transit time closest to t (ties to the earlier one), also before the first and after the last transit.",
  "all increasing transit-time lists of any length, all t",
  "Binary search over bins at all real t, including boundaries.",
  T + ":TTVOrbit._get_model_dt", T + ":TTVOrbit._warp_times")
p("Transits happen at the labelled times",
  "At every labelled transit time the position of the planet equals that of the underlying Keplerian orbit at its t0 (mid transit), and missing transits are placed on the linear ephemeris.",
  "all TTV orbits, all labelled transits",
  "All lists of transit times and all index patterns.",
  T + ":TTVOrbit")
p("Zero TTVs reduce to the Keplerian orbit",
  "With all ttvs equal to zero (or exactly periodic transit_times) every observable at every time equals that of KeplerianOrbit with the same period and t0.",
  "all times (also outside the labelled range), all numbers of transits",
  "All real times.",
  T + ":TTVOrbit")
p("ttvs and transit_times are inverse parameterizations",
  "transit_times = t0 + period * transit_inds + ttvs whichever was given, and rebuilding from the reported t0, period, ttvs and indices reproduces transit_times; omitting both is a ValueError.",
  "all inputs",
  "Round trip on arbitrary vectors.",
  T + ":TTVOrbit.__init__")
p("compute_expected_transit_times returns exactly the transits inside the data span",
  "For each planet the result is the increasing list of all t0 + k period (k integer) with min_time <= t <= max_time - none missing, none outside, no duplicates.",
  "all spans, all positive periods, all t0, any number of planets",
  "Completeness over all integers, including exact endpoints.",
  T + ":compute_expected_transit_times")
p("TTV orbits support light delay and secondary eclipses like Keplerian ones",
  "For a TTVOrbit, requesting light-delayed positions returns one value per time and planet like the un-delayed call, and the companion orbit used by the secondary-eclipse light curve exists.",
  "all TTV orbits with any number of planets and timestamps",
  "Shape/option interaction for all sizes.",
  T + ":TTVOrbit._warp_times", K + ":KeplerianOrbit._get_retarded_position", K + ":KeplerianOrbit._flip")
# ---- light curves -------------------------------------------------------------------------
p("Limb-darkening coefficients are normalised",
  "The coefficients used for the flux reproduce the quadratic law 1 - u1(1-mu) - u2(1-mu)^2 divided by its disc integral, so that the model flux of an un-occulted star is exactly 0 (relative flux 1).",
  "all u1, u2 with non-vanishing disc integral, all mu",
  "Integral identity for all coefficients.",
  L + ":get_cl", L + ":quad_limbdark_light_curve")
p("The transit model flux is in [-1, 0], zero out of transit, monotone in planet size",
  "For every non-negative limb-darkening profile the light curve is between -1 and 0, is 0 when the discs do not overlap or the planet is behind the star, is -1 when the star is completely covered and decreases when the planet radius grows.",
  "all b, r, u1, u2 with non-negative profile, all z",
  "Inequalities over all geometries.",
  L + ":LimbDarkLightCurve._compute_light_curve", L + ":quad_limbdark_light_curve")
p("Exposure-time integration is a consistent quadrature",
  "For every oversample and order the sub-exposure offsets lie within the exposure, are symmetric about its middle, the weights are positive and sum to one; order 0 and 1 integrate linear and order 2 cubic light curves exactly; other orders raise ValueError.",
  "all oversample >= 1, all orders, all exposure times",
  "All sizes of the stencil.",
  L + ":LimbDarkLightCurve.get_light_curve")
p("get_light_curve returns one value per time and planet, evaluated independently",
  "The output has shape t.shape + (number of planets,) and its entry for time i, planet p depends only on that time and planet: it is the exposure average of the flux at the planet's position; this includes single-time and single-planet inputs.",
  "all time-array shapes, numbers of planets, exposure options",
  "All shapes incl. ones collapsed by squeeze.",
  L + ":LimbDarkLightCurve.get_light_curve")
p("use_in_transit is only an optimisation",
  "get_light_curve gives the same result with use_in_transit True and False, for every texp (scalar or one per time), oversample and order.",
  "all systems, time vectors, exposure options",
  "Equality of two evaluation strategies on all inputs.",
  L + ":LimbDarkLightCurve.get_light_curve", K + ":KeplerianOrbit.in_transit", S + ":SimpleTransitOrbit.in_transit")
p("Approximate depth inversion is an inverse and its Jacobian a derivative",
  "get_ror_from_approx_transit_depth(delta, b) is the unique non-negative ror with ror^2 f(b)/f0 = delta in the small-planet approximation and the returned Jacobian is d ror/d delta.",
  "all |b| < 1, delta > 0, physical u1, u2",
  "Inverse-function and derivative identities.",
  L + ":LimbDarkLightCurve.get_ror_from_approx_transit_depth")
p("Secondary-eclipse light curves combine the two bodies' fluxes correctly",
  "The model equals the relative change of the total flux F1 + F2 with F2/F1 = surface brightness ratio * k^2; it reduces to the primary model for zero surface brightness ratio, stays within [-1, 0], and at any time at most one of the two bodies is eclipsed by the other.",
  "all orbits, radii, brightness ratios >= 0, times",
  "Algebra and exclusivity at all times.",
  "src/exoplanet/light_curves/secondary_eclipse.py:SecondaryEclipseLightCurve.get_light_curve")
p("Interpolated light curves: never out of grid, exact at nodes and on cubics",
  "For every time the phase-folded lookup stays inside the pre-computed grid, returns the base light curve exactly at the grid nodes, reproduces any base light curve that is cubic over the stencil exactly, is continuous across cells and periodic.",
  "all times, periods, num_phase >= 1",
  "All real times incl. the wrap-around cell.",
  "src/exoplanet/light_curves/interpolated.py:interp", "src/exoplanet/light_curves/interpolated.py:InterpolatedLightCurve.get_light_curve")
p("Missing required light-curve arguments are reported",
  "get_light_curve raises ValueError when orbit, r or t is missing, before anything else is evaluated.",
  "all presence patterns and all other arguments",
  "All option combinations.",
  L + ":LimbDarkLightCurve.get_light_curve")
# ---- interp -------------------------------------------------------------------------------
p("Grid interpolation is exact at nodes, exact on multilinear functions and bounded by the cell",
  "In any number of dimensions regular_grid_interp returns the tabulated value at every grid node, reproduces every multi-affine function everywhere, and inside the grid is a convex combination of the surrounding cell's corner values.",
  "all dimensions, all strictly increasing grids, all tables, all query points",
  "All dimensions (2^n corners) and all points.",
  I + ":regular_grid_interp")
p("fill_value replaces exactly the points outside the grid",
  "With fill_value set, a point gets fill_value iff some coordinate lies outside [grid[0], grid[-1]]; otherwise it gets the interpolated value.",
  "all grids, points, including points on the boundary",
  "Boundary points have measure zero under random testing.",
  I + ":regular_grid_interp")
p("Vector-valued tables are interpolated componentwise",
  "A table of shape (m1,...,mn,nout) evaluated at ntest points gives an (ntest, nout) result whose column j interpolates column j of the table.",
  "all ntest, nout",
  "All sizes, including ntest = nout.",
  I + ":regular_grid_interp")
# ---- distributions ------------------------------------------------------------------------
p("unit_disk: support, uniformity and initial value",
  "The two returned parameters satisfy x^2 + y^2 < 1; under the registered uniforms and potential the pair is uniform on the disc; the starting value of the pair is the requested initval.",
  "all sampler states, all initvals in the disc",
  "Distributional law and all initial values.",
  D + ":unit_disk")
p("quad_limb_dark: physical support, uniformity and initial value",
  "Every sampled (u1,u2) gives an everywhere non-negative profile that is monotone towards the limb; the pair is uniform on that triangle; the starting value equals the requested initval.",
  "all sampler states, all physical initvals",
  "Distributional law; support claim for all states.",
  D + ":quad_limb_dark")
p("impact_parameter: uniform on [0, 1+ror] with the requested start",
  "The value lies in [0, 1 + ror], is uniform there, and starts at the requested value.",
  "all ror > -1, all sampler states",
  "Support claim for all states.",
  D + ":impact_parameter")
p("angle: range, uniformity and initial value",
  "The value lies in (-pi, pi], the law is uniform for every regularization, and the starting value equals the requested one modulo 2 pi.",
  "all sampler states, all initvals, all regularization values",
  "Distributional law with arbitrary regularization.",
  D + ":angle")
p("kipping13: bounds, hyperparameters and registration",
  "kipping13 registers exactly one variable or potential under the given name; with bounds its support is the requested interval intersected with [0,1]; with fixed=False exactly two extra positive hyperparameters are registered; observed values are scored by the same (truncated) Beta density.",
  "all combinations of fixed, long, lower, upper, observed",
  "Combinatorial options.",
  EC + ":kipping13")
p("vaneylen19: the prior density is the half-normal/Rayleigh mixture",
  "The log-density added to the model is the logarithm of (1-f) HalfNormal(sigma_g) + f Rayleigh(sigma_r) evaluated at the eccentricity, restricted to [lower, upper], for sampled and for observed eccentricities.",
  "all eccentricities, all options",
  "Density identity on a continuum.",
  EC + ":vaneylen19")
p("initval and testval are interchangeable and never leak",
  "Passing the start value as initval or as testval has the same effect for every distribution helper; initval wins if both are given; neither key is forwarded twice; the keyword handed to the back-end is the one it understands.",
  "all keyword dictionaries, both back-ends",
  "All keyword combinations.",
  D + ":_with_initval", EC + ":_with_initval", D + ":angle", EC + ":_truncate")
# ---- citations ----------------------------------------------------------------------------
p("Citations are a faithful, idempotent, order-independent record of the components used",
  "After any sequence of component constructions inside a model, get_citations_for_model lists exactly the components used plus the fixed ones; repeating or reordering constructions does not change the acknowledgement text; each BibTeX entry occurs once per component; every citation key used by the package exists.",
  "all sequences of component constructions, both back-ends",
  "All histories.",
  CI + ":add_citations_to_model", CI + ":get_citations_for_model")
p("Registering citations never disturbs the model or the caller",
  "Constructing components outside a model context has no effect on citations and raises nothing; models do not share citation records; a model with no components yields empty strings.",
  "all interleavings of constructions over several models",
  "All histories with nested models.",
  CI + ":add_citations_to_model", CI + ":get_citations_for_model")
# ---- estimators ---------------------------------------------------------------------------
p("find_peaks returns the highest strict local maxima in decreasing order",
  "Every reported peak is a strict interior local maximum, they come in non-increasing order of power, no unreported local maximum is higher than a reported one, at most max(1, max_peaks) are returned, all of them if there are fewer, and ValueError is raised iff max_peaks = 0 and there is none.",
  "all power arrays of any length, all max_peaks",
  "All arrays, including ties and degenerate lengths.",
  E + ":find_peaks")
p("The parabola fit of a peak is well posed and stays next to the peak",
  "For positive power on a strictly monotone frequency grid the fit never divides by zero, the fitted frequency lies strictly between the two neighbours, the variance is positive and the fitted log-power is at least the sampled one.",
  "all monotone frequency grids, all positive power arrays",
  "Well-definedness on all inputs.",
  E + ":find_peaks")
p("The reported index of a peak is the index of the peak",
  "power[peak['index']] is the local maximum that was fitted, hence the peak_info reported by bls_estimator describes the best period.",
  "all power arrays",
  "Off-by-one errors are invisible to tolerance tests on the period.",
  E + ":find_peaks", E + ":bls_estimator")
p("estimate_semi_amplitude is weighted least squares and recovers noiseless signals",
  "The coefficients minimise the weighted chi^2 over all linear combinations of the design functions; if the data are exactly a sum of circular radial-velocity signals (as produced by KeplerianOrbit.get_radial_velocity) plus a constant then the returned amplitudes are exactly the K's, with and without t0s; a singular design is an error.",
  "all time samples, periods, amplitudes, phases, weights with a non-singular design",
  "Exact recovery for all designs.",
  E + ":estimate_semi_amplitude", E + ":_get_design_matrix")
p("autocorr_function is the normalised non-circular autocorrelation",
  "For a non-constant series the result at lag k is sum_i (x_i - m)(x_{i+k} - m) / sum_i (x_i - m)^2 (no wrap-around), hence 1 at lag 0 and in [-1, 1]; the padding length is a power of two at least the series length.",
  "all series of all lengths, all lags",
  "FFT identity for all lengths.",
  E + ":autocorr_function", E + ":next_pow_two")
p("autocorr_estimator only reports admissible peaks",
  "At most one peak is returned, its period is a local maximum of the smoothed autocorrelation and lies in [min_period, max_period].",
  "all series and options",
  "All branch combinations.",
  E + ":autocorr_estimator")
p("bls_estimator terminates, honours its period limits and reports times in the user's frame",
  "The grid-coarsening loop terminates for every data set; minimum/maximum periods passed either way are the ones used; reported transit times are shifted back by exactly the reference offset.",
  "all data sets and options",
  "Termination and keyword handling on all inputs.",
  E + ":bls_estimator")
p("estimate_minimum_mass scales correctly",
  "The estimate is linear in the data amplitude, scales as m_star^(2/3) and period^(1/3), is non-negative without t0s and is zero iff the amplitude is zero.",
  "all inputs",
  "Scaling laws on a continuum.",
  E + ":estimate_minimum_mass")
# ---- units, compat, misc ------------------------------------------------------------------
p("Unit labels behave like physical units",
  "to_unit(with_unit(x,u),v) scales by the ratio of the units, conversions compose, converting to the own unit is the identity, unlabelled objects pass through, labelling twice is a TypeError, and labelling a value never changes how other holders of the same tensor see it.",
  "all values, units, sequences of operations on shared tensors",
  "All sequences of operations with aliasing.",
  U + ":with_unit", U + ":to_unit", U + ":has_unit")
p("Back-end selection is deterministic and as documented",
  "PyMC3 is used iff it is forced by EXOPLANET_FORCE_PYMC3=1 or pymc is not importable; if the selected package is missing an ImportError is raised; all imported names come from the matching back-end.",
  "all environments",
  "All combinations of environment and installed packages.",
  "src/exoplanet/compat.py")
p("Deprecated aliases behave like their replacements",
  "ImpactParameter and QuadLimbDark return what impact_parameter and quad_limb_dark return for all arguments and additionally emit one DeprecationWarning per call; a vector of limb-darkening coefficients equals two scalars, and is rejected unless it has length 2.",
  "all arguments",
  "All arguments.",
  "src/exoplanet/utils.py:deprecated", "src/exoplanet/distributions/__init__.py", L + ":LimbDarkLightCurve.__init__")
p("Duration-to-eccentricity branches solve the duration equation",
  "The two candidate eccentricities are exactly the solutions of duration ratio = sqrt(1-e^2)/(1+e sin w), and duration_to_eccentricity can be called successfully.",
  "all durations, omegas",
  "Quadratic branches for all inputs.",
  "src/exoplanet/orbits/dur_to_ecc.py:duration_to_eccentricity")
p("The multi-body state vector conserves momentum and the centre of mass",
  "For several planets the combined state (star first, then planets) has total momentum zero and centre of mass at the origin, and each planet row agrees with the single-body queries.",
  "all numbers of planets, all times",
  "All system sizes.",
  K + ":KeplerianOrbit._get_position_and_velocity")
p("lomb_scargle_estimator filters without distorting the returned periodogram",
  "The returned periodogram is the unfiltered power (per data point); the high-pass filter multiplies the power by a factor in (0,1), increasing with frequency and equal to 1/sqrt(2) at the filter period, and only affects peak selection; period limits map to the reciprocal frequency limits.",
  "all data sets and options",
  "All options.",
  E + ":lomb_scargle_estimator")
p("A system of planets is the collection of its planets",
  "For every mixture of shared arguments and arguments with one entry per planet, KeplerianOrbit raises the exception it raises for each planet alone, or else every attribute, position, velocity, acceleration, angle and radial velocity at every entry of an array of times equals, for planet p, the value for the orbit built from planet p's arguments alone; with N times and n planets the result has shape (N, n) up to squeezed axes.",
  "all numbers of planets, argument mixtures, time arrays, masses, parallaxes, units",
  "All numbers of planets and all mixtures of shapes.",
  K + ":KeplerianOrbit.__init__", K + ":KeplerianOrbit._get_position", K + ":KeplerianOrbit._get_velocity", K + ":KeplerianOrbit.get_radial_velocity")
p("A TTVOrbit of several planets is the collection of its planets",
  "TTVOrbit with several planets can be built exactly when that of each planet can, and every timing attribute (ttvs, numbers, transit times, bin edges and values, t0, ttv_period) and every position, velocity, acceleration, angle and radial velocity at every entry of an array of times equals, for planet p, that of the orbit built from planet p's arguments alone.",
  "all numbers of planets, transit lists of different lengths, argument mixtures, time arrays",
  "All numbers of planets and all ragged transit lists.",
  T + ":TTVOrbit.__init__", T + ":TTVOrbit._get_model_dt", T + ":TTVOrbit._warp_times")
p("delta_log_period is the difference of the logarithms of the two periods of a TTVOrbit",
  "With transit_times and no period the logarithm of the period used for the orbit exceeds that of the fitted mean period by delta_log_period (zero if absent); a given period is used as is and delta_log_period is ignored; with ttvs both periods are the same and transit_times and delta_log_period are ignored.",
  "all transit times, periods, delta_log_period",
  "All inputs.",
  T + ":TTVOrbit.__init__")
p("The constants are consistent and the orbit obeys the laws of motion in SI",
  "Each exported constant is the SI value supplied by astropy expressed in the unit its name says; G_grav, au_per_R_sun and day_per_yr_over_2pi satisfy the relation that defines the Gaussian year; the built orbit obeys Kepler's third law and the definition of density in metres, kilograms and seconds, whatever units the arguments had; a massless planet at one astronomical unit has the period 2 pi day_per_yr_over_2pi; the numbers of the fall-back are those of astropy to twelve digits.",
  "all values of the astropy constants, all orbits, all units",
  "All values of the constants and all units.",
  "src/exoplanet/orbits/constants.py", K + ":_get_consistent_inputs")
p("The light curve of a system is that of its planets",
  "For every mixture of shared arguments and arguments with one entry per planet, get_light_curve (with and without exposure times, with and without use_in_transit, light delay, for KeplerianOrbit and TTVOrbit) returns for N times and n planets an array of shape (N, n) whose column p is the light curve of planet p alone, and in_transit returns the indices it returns for the list of the planets.",
  "all numbers of planets, argument mixtures, time arrays, radii, exposure times, oversample, order",
  "All numbers of planets and all mixtures of shapes.",
  L + ":LimbDarkLightCurve.get_light_curve", K + ":KeplerianOrbit.in_transit", K + ":KeplerianOrbit.get_relative_position")
p("in_transit of a TTVOrbit finds the moved transits",
  "Without exposure times in_transit returns exactly the times at which some planet with transit-timing variations overlaps the star from the front, in particular the labelled transit times. With an exposure time and increasing transit times it returns every exposure during which some planet overlaps the star (on eccentric orbits provided no overlap happens within half an exposure of the middle between successive transits), and nothing else when the nearest transits are less than half a period away. Hence use_in_transit does not change the light curve.",
  "all numbers of planets, transit times, time arrays, radii, exposure times",
  "All transit-timing variations, times and exposure times.",
  K + ":KeplerianOrbit.in_transit", T + ":TTVOrbit._warp_times", L + ":LimbDarkLightCurve.get_light_curve")
p("Only which transit happened when matters to a TTVOrbit",
  "Listing the transits (times or timing variations, with their numbers) of every planet in another order gives the same exception or an orbit with the same attributes, time axis and full list of transit times, and the transit-by-transit lists in the new order. Numbering all transit times k higher leaves the fitted period, residuals and shape unchanged, moves t0 back by k periods and prepends k predicted transits; at all times nearer to the transits than to those, every observable is the same.",
  "all numbers of planets, transit lists, permutations, offsets of the numbering, times",
  "All permutations and all offsets.",
  T + ":TTVOrbit.__init__", T + ":TTVOrbit._warp_times")
p("Only differences of times matter",
  "If every time given to a constructor (t0, t_periastron, transit times) and every time given to a method is d days later, nothing changes: the constructor raises the same exception or the orbit has reference times d later and otherwise the same attributes; positions, angles, velocities, accelerations, radial velocities (with and without light delay and parallax), in_transit, limb-darkened, secondary-eclipse and interpolated light curves are the same, for KeplerianOrbit, TTVOrbit and SimpleTransitOrbit; expected transit times are d later.",
  "all orbits, all d, all times, all other arguments",
  "All translations of time; a test tries a few reference epochs.",
  K + ":KeplerianOrbit.__init__", K + ":KeplerianOrbit._warp_times", T + ":TTVOrbit.__init__", L + ":LimbDarkLightCurve.get_light_curve")
p("No planet of a TTVOrbit runs on the clock of another",
  "A TTVOrbit whose number of lists of timing variations differs from its number of planets is rejected: with more lists the constructor raises IndexError, with fewer (at least two) no position can be evaluated.",
  "all numbers of planets, all lists of timing variations, all orbital elements, all arrays of times",
  "All numbers of lists and planets; the tests always pass one list per planet.",
  T + ":TTVOrbit.__init__", T + ":TTVOrbit._get_model_dt", T + ":TTVOrbit._warp_times")
p("Light curves are continuous in time",
  "The flux returned by get_light_curve is a continuous function of time (and of the radius of the planet): a light curve has no jumps, with or without an exposure time.",
  "all orbital elements, all limb-darkening coefficients with non-zero total flux, all radii, all times, all scalar exposure times and stencils",
  "Continuity is a statement about all times; tests sample finitely many.",
  L + ":LimbDarkLightCurve.get_light_curve", K + ":KeplerianOrbit.get_relative_position", T + ":TTVOrbit._warp_times")
p("Exposure integration and interpolation converge",
  "The value integrated over an exposure time tends to the average of the light curve over the exposure as oversample grows, and an interpolated light curve tends to the light curve as num_phase grows, with explicit error bounds.",
  "all orders, all oversample at least 2, all exposure times, all num_phase, all Keplerian systems that do not touch the star, all times",
  "Convergence quantifies over all tolerances and all times; tests use fixed oversample and num_phase.",
  L + ":LimbDarkLightCurve.get_light_curve", "src/exoplanet/light_curves/interpolated.py:interp", "src/exoplanet/light_curves/interpolated.py:InterpolatedLightCurve.get_light_curve")
p("Interpolated light curves of systems are those of the planets",
  "InterpolatedLightCurve.get_light_curve accepts every orbit its base light curve accepts, and column p is the cubic interpolant of the light curve of planet p, folded with t0 and period of planet p.",
  "all numbers of planets, all orbital elements, all num_phase and num_planets, all vectors of times",
  "All systems, all shapes of t0 and period; the tests use one orbit with scalar and one with vector elements.",
  "src/exoplanet/light_curves/interpolated.py:InterpolatedLightCurve.get_light_curve", "src/exoplanet/light_curves/interpolated.py:interp")
p("The orientation of an orbit on the sky cannot be seen in a light curve",
  "Omega turns positions and velocities on the sky and changes neither light curve, radial velocity nor transit windows; changing the sign of b, or replacing incl by pi - incl, reflects the sky and leaves light curves alone (also with light delay); replacing omega by pi - omega reverses the light curve in time about t0 (without light delay).",
  "all orbital elements, all times, all exposure times, all numbers of planets (reversal: one eccentric planet with t0 given)",
  "Statements about pairs of arbitrary orbits at all times; the tests compare single orbits with references.",
  K + ":KeplerianOrbit._rotate_vector", K + ":KeplerianOrbit.__init__", K + ":KeplerianOrbit._get_position", L + ":LimbDarkLightCurve.get_light_curve")
p("Only ratios of lengths, times and masses matter",
  "When all lengths are multiplied by l, all times by tau, and all masses by l^3/tau^2 (densities by 1/tau^2), the constructor succeeds or fails as before, all attributes, positions, velocities, accelerations and radial velocities are multiplied by the factors of their dimension, and light curves at the scaled times are the same.",
  "all positive l and tau, all argument patterns in which the size of the star is not defaulted, all times, exposure times and numbers of planets",
  "Pairs of arbitrary systems and continuous families of scale factors; the tests use single systems.",
  K + ":_get_consistent_inputs", K + ":KeplerianOrbit.__init__", K + ":KeplerianOrbit._get_retarded_position", L + ":LimbDarkLightCurve.get_light_curve")
p("Each planet of a system has its own secondary eclipse",
  "SecondaryEclipseLightCurve.get_light_curve of an orbit with array arguments returns one column per planet, and column p is the relative change of the total flux of the star and planet p on the orbit given by the arguments of planet p alone: the flipped system is the system of the flipped orbits.",
  "all numbers of planets, all orbital elements, radii, surface brightness ratios, limb darkening coefficients, arrays of times, exposure times, orders and numbers of sub-exposures",
  "All numbers of planets and broadcasting patterns; the tests use one planet.",
  K + ":KeplerianOrbit._flip", "src/exoplanet/light_curves/secondary_eclipse.py:SecondaryEclipseLightCurve.get_light_curve", L + ":LimbDarkLightCurve.get_light_curve")
p("A SimpleTransitOrbit with array arguments is the collection of its planets",
  "For every number of planets and every way of sharing arguments between them, the attributes, positions, in_transit indices and light curves of a SimpleTransitOrbit with array arguments are, planet by planet, those of the orbit built from the arguments of that planet alone; restricting the light curve to the times in transit changes nothing.",
  "all numbers of planets, all patterns of shared and per-planet arguments, all values of the arguments, arrays of times, radii, exposure times, orders and numbers of sub-exposures",
  "All numbers of planets and all broadcasting patterns of six arguments; the tests use a few fixed systems.",
  "src/exoplanet/orbits/simple.py:SimpleTransitOrbit.__init__", "src/exoplanet/orbits/simple.py:SimpleTransitOrbit.get_relative_position", "src/exoplanet/orbits/simple.py:SimpleTransitOrbit.in_transit", L + ":LimbDarkLightCurve.get_light_curve")
p("A planet nearer to the centre of the star covers more light",
  "For every star whose intensity is positive and does not increase towards the limb, a planet that is nearer to the centre of the star on the sky covers at least as much light: the flux is a monotone function of the separation for every radius ratio, a light curve is lower at the times at which the planet is nearer, the light curve of a circular orbit does not increase before a transit and does not decrease after it over the whole period and is lowest at the transit, and the transit is the deeper, the smaller the impact parameter. The coefficients drawn by quad_limb_dark always describe such a star.",
  "all limb-darkening coefficients of a positive law that darkens towards the limb, all separations, radius ratios (also planets larger than the star), kinds of orbit, times, all circular orbits",
  "A comparison of the fluxes of all pairs of separations for all radius ratios and all coefficients; tests compare a few values with a reference.",
  L + ":LimbDarkLightCurve.get_light_curve", L + ":LimbDarkLightCurve._compute_light_curve", L + ":get_cl", D + ":quad_limb_dark")
p("A SimpleTransitOrbit and a circular KeplerianOrbit with the same duration agree",
  "For every period, duration up to half the period, impact parameter below 1 + ror, radius ratio, stellar radius and transit time, a SimpleTransitOrbit and a circular KeplerianOrbit built from the same values have the same separation at the transits and at the contacts; in between the planet of the SimpleTransitOrbit is nowhere further from the centre of the star, by at most (pi duration / period)^2 of the squared half chord. Their in_transit indices agree except exactly at the contacts, both light curves are zero outside the transits and equal at mid-transit, the light curve of the SimpleTransitOrbit is nowhere above the other, with and without exposure times, and as the period grows the two converge uniformly in time.",
  "all periods, durations up to half the period, impact parameters, radii, transit times, arrays of times, exposure times, limb-darkening coefficients of a star that darkens towards the limb (long periods: of any positive law)",
  "An inequality between two implementations at all times and for all parameters, and a limit; tests compare at a few times with a tolerance.",
  S + ":SimpleTransitOrbit", K + ":get_aor_from_transit_duration", K + ":KeplerianOrbit.__init__", L + ":LimbDarkLightCurve.get_light_curve")
p("The radial-velocity estimators understand units",
  "For every choice of units, calling estimate_semi_amplitude or estimate_minimum_mass with astropy quantities for any of the arguments is the same as converting them by hand to days, metres per second and solar masses; a single uncertainty is the same as an array of it; a quantity of the wrong dimension is refused with UnitConversionError, whichever argument it is.",
  "all units, all subsets of the arguments given as quantities, all lengths of the data and numbers of planets, all values",
  "All combinations of units and of arguments with and without units; the tests pass bare numbers only.",
  E + ":estimate_semi_amplitude", E + ":estimate_minimum_mass")
p("The radial-velocity estimates do not depend on arbitrary choices",
  "estimate_semi_amplitude and estimate_minimum_mass give the same answer (or the same failure) when the measurements are listed in another order, when the origin of time is moved (together with t0s), when a constant is added to all velocities and when all uncertainties are multiplied by the same factor; equal uncertainties are the same as none. Listing the planets in another order reorders the amplitudes; any other transit of a planet may serve as its t0, and a t0 half a period off changes the sign of its amplitude.",
  "all numbers of measurements and planets, all values, all permutations, shifts and factors, singular designs included",
  "Permutations, shifts and factors are unbounded families, and the statement has to hold for singular designs as well; a test fixes one order and one origin.",
  E + ":estimate_semi_amplitude", E + ":estimate_minimum_mass", E + ":_get_design_matrix")
p("Peaks and autocorrelations do not depend on units and origins",
  "find_peaks finds the same peaks in the same order when the frequencies are in another unit (periods and uncertainties follow), when the power is in another unit (log_power moves by a constant) and when the spectrum is listed backwards. autocorr_function gives the same result for a series with another zero point, scale or sign and for the series reversed. autocorr_estimator finds the same correlations, with lags and periods in the new unit, when the times have another origin and unit, and the same result when the data have another zero point and unit.",
  "all spectra and series of all lengths, all factors and shifts, all values of max_peaks, oversample and smooth, failures included",
  "All factors and shifts, all spectra, all numbers of peaks and all ways to fail; a test picks one unit.",
  E + ":find_peaks", E + ":autocorr_function", E + ":autocorr_estimator")
p("How accurate the radius ratio from the approximate transit depth is",
  "For a physical law that does not brighten outwards and a planet inside the disc, the depth of the light curve lies between k^2 I(b+k)/Imean and k^2 I(max(b-k,0))/Imean (the upper bound also for grazing transits). get_ror_from_approx_transit_depth, given the true depth and impact parameter, therefore returns the true ratio k times a factor between sqrt(I(b+k)/I(b)) and sqrt(I(max(b-k,0))/I(b)); for a central transit it is never above k and never below k sqrt(1-(u1+max(u2,0))k^2); for a uniform star it is exact. The same holds for the depth read off get_light_curve in the middle of any transit of a KeplerianOrbit, with the orbit's own b.",
  "all limb-darkening coefficients that are physical and darken outwards, all impact parameters, all radius ratios, all orbits, all transits",
  "Two functions of the library that share no code are compared for all coefficients, impact parameters and radii, with explicit error bounds; tests compare the estimate with a stored number.",
  L + ":LimbDarkLightCurve.get_ror_from_approx_transit_depth", L + ":LimbDarkLightCurve.get_light_curve", L + ":LimbDarkLightCurve._compute_light_curve")
p("Averages over a period",
  "Averaged over any whole period the velocities and accelerations of planet, star and relative motion vanish; so does get_radial_velocity, in every unit and for every K. The average distance is a(1+e^2/2), its mean square a^2(1+3e^2/2), its mean inverse 1/a; the mean square relative velocity equals the mean of G M/r (virial theorem) and both are G M/a; the average relative position is 3e/2 semimajor axes from the star towards apastron.",
  "all constructible physical orbits, all starting times, all output units and values of K",
  "Integrals over a continuum of times for all orbits; a test can only sum over a grid.",
  K + ":KeplerianOrbit.get_radial_velocity", K + ":KeplerianOrbit._get_velocity", K + ":KeplerianOrbit._get_position", K + ":KeplerianOrbit._get_acceleration")
p("One inferior and one superior conjunction per period",
  "The planet is on the meridian in front of the star exactly at t0 + k period. It is on the meridian behind the star exactly at t0 + (k + (theta - sin theta)/(2 pi)) period with cos theta = -(1-e^2-e^2 cos^2 w)/(1-e^2 sin^2 w), sin theta = -2 e sqrt(1-e^2) cos w/(1-e^2 sin^2 w): once per period, more than half a period after the transit iff e cos w > 0, exactly half a period iff e cos w = 0. The transits of the flipped orbit used for secondary eclipses are the superior conjunctions.",
  "all constructible physical orbits, all times, all companion radii",
  "That a transit happens at no other time is a statement about all times; the offset of the secondary eclipse is checked for all eccentricities and orientations.",
  K + ":KeplerianOrbit.__init__", K + ":KeplerianOrbit._get_position", K + ":KeplerianOrbit._flip")
p("Positions and light curves depend continuously on the parameters",
  "If the arguments period, m_star, r_star, m_planet, t0, b, ecc, omega, Omega vary continuously (through ecc = 0 too), so do the elements of the orbit. If the elements of an orbit vary continuously, together with the time, then so do all positions and velocities, and the flux of LimbDarkLightCurve as a function of these, the radii and the limb-darkening coefficients, for a planet that does not touch the star.",
  "all families of constructible physical orbits over any topological space, all times, radii and coefficients",
  "Samplers and optimisers move through parameter space; continuity is a statement about all neighbourhoods of all points. A test compares two nearby points.",
  K + ":KeplerianOrbit.__init__", K + ":KeplerianOrbit._get_position", K + ":KeplerianOrbit._get_velocity", L + ":LimbDarkLightCurve._compute_light_curve")
p("Helpers of exoplanet.distributions can be used together in one model",
  "Calls of angle, unit_disk, quad_limb_dark, impact_parameter, kipping13 and vaneylen19 with pairwise different names can be made in one model: no auxiliary variable takes the name of another variable. Whenever a script of such calls runs, every name the caller gave is registered once, the variables of different calls are independent, and each call has the law it has in a model of its own; several angles are jointly uniform. A name given twice raises ValueError.",
  "all lists of calls, all names, both back-ends, all events about the variables of two groups of calls",
  "A collision of names needs a pair of names; independence is a statement about all events. The tests of the repository call one helper per model.",
  D + ":angle", D + ":unit_disk", D + ":quad_limb_dark", D + ":impact_parameter", EC + ":kipping13", EC + ":vaneylen19")
p("shape= makes independent copies",
  "With shape=s (an integer or a tuple), angle, unit_disk, quad_limb_dark and impact_parameter register variables of shape s and return values of shape s (quad_limb_dark: 2 followed by s). Entry by entry the call is the scalar call: the joint density is the product over the entries, every entry starts where the scalar call with that entry of the start value starts, and the entries are independent, jointly uniform on the product of the sets. Start values that can be broadcast to s, and the defaults, fit. On PyMC the shape of an impact parameter defaults to that of ror.",
  "all shapes of all dimensions, all start values, both back-ends, all arrays or tensors ror that fit the shape",
  "Tests sample shape=2 at most and look at marginals; that the potential is summed over the right entries, and that entries are independent, are statements about the joint density for every shape.",
  D + ":angle", D + ":unit_disk", D + ":quad_limb_dark", D + ":impact_parameter")
p("eccentricity and argument of periastron from unit_disk",
  "With x, y = unit_disk(...), e = x**2 + y**2 and omega = arctan2(y, x) (or arctan2(x, y), as the other tutorial has it): x and y are sqrt(e) cos(omega) and sqrt(e) sin(omega), 0 <= e < 1 in every visited state, e is uniform on [0, 1), omega is uniform on the circle, and they are independent; with shape=s all entries are independent as well. If an eccentricity prior is added with observed=e, the pair (e, omega) has exactly the density that a free eccentricity has under that prior, times a uniform omega, for all values of the hyperparameters. Seeded with sqrt(e0) (cos w0, sin w0), the eccentricity starts at e0.",
  "both back-ends, all names, keyword arguments, limits and options of kipping13 and vaneylen19, all values of the hyperparameters, all shapes",
  "The tests only check that the potential exists; the law of the derived quantities is a change of variables that needs the Jacobians of two maps, and sampled histograms cannot separate the exact law from a close one.",
  D + ":unit_disk", EC + ":kipping13", EC + ":vaneylen19")
p("the hyperparameters of the eccentricity priors keep their priors",
  "With fixed=False the hyperparameters have the published priors: integrating the eccentricity out of the joint density leaves the product of the truncated normal densities of alpha and beta (kipping13) or of sigma_gauss, sigma_rayleigh and frac (vaneylen19), also when limits for the eccentricity are given, and also when the eccentricity is computed from unit_disk variables. On PyMC the whole law is normalised.",
  "both back-ends, all names, options, limits and keyword arguments, all values of the hyperparameters",
  "The tests sample the prior at one setting and compare with a histogram of the eccentricity only; a normalising constant that depends on the hyperparameters shifts the posterior of the hyperparameters and is invisible there.",
  EC + ":kipping13", EC + ":vaneylen19", EC + ":_truncate", EC + ":_truncate_dist")
p("the models of the tutorials mean what the text says",
  "Transit tutorial: in every state that the priors allow, the orbit can be built and is physical, the light curve lies in [-1, 0], both reference times t0 and t1 and the times between them by whole periods are transits that can be seen (the star gets darker) and are the deepest points of the light curve, and around half a period later there is no transit. A body in front of the star is visible exactly if the impact parameter is below one plus the radius ratio, the limit that impact_parameter uses. Radial-velocity tutorial: the velocity written out with get_true_anomaly is the one of a KeplerianOrbit with the same eccentricity, argument of periastron and semi-amplitude, with the periastron at the time (phi + w) / n, and the phase plot shows one period of it.",
  "both back-ends, all states with non-zero prior density, all times",
  "The tutorials are run, but their results are looked at, not checked; which transits exist and how the phases of the two formulas are related is a statement about all parameters.",
  K + ":KeplerianOrbit", K + ":get_true_anomaly", D + ":quad_limb_dark", D + ":impact_parameter", D + ":unit_disk", L + ":LimbDarkLightCurve.get_light_curve")
p("the orbital conventions of the documentation",
  "Positions follow the documented chain of rotations P_z(Omega) P_x(-i) P_z(omega) and its expanded formulas, with x to the north, y to the east and z towards the observer; a body that crosses the plane of the sky moving away from the observer is at position angle Omega (the ascending node) and on the opposite side when it comes towards the observer; the component of the orbital angular momentum towards the observer is cos(i) times its length and the angular momentum is perpendicular to the line of nodes, so that orbits with i = 0 run counter-clockwise.",
  "all accepted arguments that describe a physical orbit, all times, planet, star and relative motion",
  "The sign conventions of the rotation, the nodes and the inclination are independent of each other; a test at one orientation does not tell two conventions apart that agree there, and the tests compare with another code that was written with the same formulas.",
  K + ":KeplerianOrbit._rotate_vector", K + ":KeplerianOrbit.get_relative_position", K + ":KeplerianOrbit.get_star_position", K + ":KeplerianOrbit.get_planet_position", K + ":KeplerianOrbit.get_relative_velocity")
p("with light travel time transits are seen early and eclipses late",
  "With light_delay=True a body in front of the star is seen ahead of time and a body behind the star is seen late, by between one and two times |z| / (c - dz/dt). On a circular orbit the planet is seen in front of the star exactly once per period, before the reference transit t0, and behind the star exactly once per period, later than t0 + period / 2; the displacement is the light travel time L = a sin(i) / c across the radius of the orbit with a relative error of at most 5 (2 pi L / period)^2.",
  "all accepted arguments that describe a physical orbit; sign and size at all times at which the body is slower than light and the code's square root exists; times of transits and eclipses for circular orbits with speed at most c / 10 and line-of-sight acceleration at least 2e-10 at transit, for the relative position and for the position of the planet",
  "The tutorial on light travel time looks for the smallest |x| on a grid near one transit and one eclipse of one orbit; it cannot show that nothing else is seen on the meridian, that the sign is right for every orbit, or how far the truncated solution of the code is from the light travel time.",
  K + ":KeplerianOrbit._get_retarded_position", K + ":KeplerianOrbit._get_position", K + ":KeplerianOrbit.get_relative_position", K + ":KeplerianOrbit.get_planet_position")
p("what astrometry determines",
  "Separation and position angle as functions of time determine the period, the semi-major axis, the eccentricity, the inclination including its sense, the periastron passages of an eccentric orbit, and the arguments of periastron and node up to a common half turn; nothing else can be read off, because two orbits that agree in these give the same astrometry at all times. In the parameters of the astrometry tutorial, plus and minus are determined up to half turns each, so that each mode of the posterior appears four times. On face-on orbits minus is free. The wrapped difference of angles in the tutorial's likelihood is the difference to the nearest copy of the observed angle.",
  "all pairs of accepted arguments that describe physical orbits, all times; for the converse all eccentric orbits that are not face-on; all parameters of the tutorial's model with eccentricity below one",
  "A fit finds one mode and a grid of trial orbits can only fail to find a second one; that no two different orbits predict the same data is a statement about all pairs of orbits at all times.",
  K + ":KeplerianOrbit.get_relative_angles", K + ":KeplerianOrbit.get_relative_position", K + ":KeplerianOrbit._rotate_vector", K + ":KeplerianOrbit.__init__")
p("what radial velocities determine",
  "The radial velocities as a function of time determine the semi-amplitude, the period and the eccentricity, and on eccentric orbits the periastron passages and the argument of periastron; nothing else, because two orbits that agree in these give the same velocities. A negative semi-amplitude is a half turn of the argument of periastron. In the parameters of the radial-velocity tutorial, plus and minus are determined up to half turns of both, and on circular orbits only minus is determined, which is what the tutorial means by omega and the phase of periastron being correlated at low eccentricity. The tutorial's likelihood does not depend on the jitter: the error bars with jitter are computed and not used.",
  "all pairs of accepted arguments that describe physical orbits, all positive semi-amplitudes, all times; all parameters of the tutorial's model with eccentricity below one; for the jitter all data sets",
  "That no two different orbits predict the same velocities is a statement about all pairs of orbits at all times; a fit to one simulated data set cannot show it, and the tutorial's run did not reveal that its jitter is never used.",
  K + ":KeplerianOrbit.get_radial_velocity", K + ":KeplerianOrbit._get_true_anomaly", K + ":KeplerianOrbit.__init__")
p("what light curves determine",
  "On circular orbits that transit, with known radius ratio and limb darkening, the light curve as a function of time determines the period, the times of transit, the semi-major axis in stellar radii and the size of the impact parameter, and nothing else: two orbits that agree in these give the same light curve at every time, whatever the mass and radius of the star. It therefore determines the density of the star times one plus the mass ratio, which is the stellar density for planets without mass. For a uniform star with transits that are not grazing the radius ratio is determined too. For SimpleTransitOrbit the light curve determines period, times of transit, duration and the size of the impact parameter, and nothing else.",
  "all pairs of accepted arguments that describe physical circular orbits outside the star with sin(incl) > 0 and a transiting first orbit, all limb darkening coefficients of a law that is positive and darkens outwards, all radius ratios, all times; for SimpleTransitOrbit all positive periods and shorter durations",
  "That no two different orbits have the same light curve quantifies over all pairs of orbits and all times; a fit to simulated data reports a narrow posterior but cannot exclude another solution.",
  L + ":LimbDarkLightCurve.get_light_curve", K + ":KeplerianOrbit.get_relative_position", K + ":KeplerianOrbit.__init__", S + ":SimpleTransitOrbit.get_relative_position")
p("light curves have slopes",
  "Light curves are continuously differentiable functions of time, with and without exposure time, also where the body touches the limb of the star; the flux is strictly differentiable in distance and radius of the body, and its gradient is the surface brightness of the star integrated along the limb of the body: weighted with the direction of motion for the distance, unweighted for the radius. The rate at which the light changes is this gradient times the velocity that the orbit reports.",
  "all limb darkening coefficients whose law emits light, all radii above zero other than that of the star, all Keplerian orbits outside the star, all times, exposure times, orders and numbers of sub-exposures; for SimpleTransitOrbit all radii up to that given by ror",
  "Differentiability is a statement about limits at every point, including the contacts, where a finite difference of a kinked function looks like any other number.",
  L + ":LimbDarkLightCurve.get_light_curve", L + ":LimbDarkLightCurve._compute_light_curve", K + ":KeplerianOrbit.get_relative_position", K + ":KeplerianOrbit.get_relative_velocity", S + ":SimpleTransitOrbit.get_relative_position")
p("orbits, velocities and light curves have gradients in the parameters",
  "The eccentric anomaly has the derivatives sin E / (1 - e cos E) in the eccentricity and 1 / (1 - e cos E) in the mean anomaly. If the arguments of KeplerianOrbit are n times continuously differentiable functions of some parameters, so are the elements of the orbit, the positions, velocities and radial velocities of planet and star; what get_light_curve returns is continuously differentiable in limb darkening, radii and the elements of all orbits at once, and with it the log-likelihood of data with Gaussian noise.",
  "all normed spaces of parameters, all orders n including analytic dependence, all physical orbits with sin(omega) not -1, all times, all radii other than that of the star, any number of planets, with and without exposure time",
  "The tutorials sample with gradients, which requires that they exist; autodiff returns a number also where the function has no derivative.",
  K + ":KeplerianOrbit.__init__", K + ":KeplerianOrbit.get_relative_position", K + ":KeplerianOrbit.get_radial_velocity", L + ":LimbDarkLightCurve.get_light_curve")
p("duration_to_eccentricity marginalises over the eccentricity",
  "With a flat prior for the transit duration, the potential that duration_to_eccentricity registers gives the duration the distribution it has if the eccentricity is uniform in [0, 1) and weighted with the likelihood: integrating any function of the duration against the factor is integrating that function of the chord time against the likelihood over the eccentricity. The branches that count are exactly the combinations of eccentricities with the given durations, each with the product of the rates |de/dT|; the weights add up to one and the reported eccentricity is the mean of the possible eccentricities weighted with these rates.",
  "all measurable likelihoods, all measurable test functions, all arguments of periastron, all positive periods, axes and radii, all impact parameters that transit; any number of planets for the branches",
  "The map from eccentricity to duration is two-to-one on part of its range; that branches, validity masks and Jacobians add up to the right integral is a statement about all durations at once.",
  "src/exoplanet/orbits/dur_to_ecc.py:duration_to_eccentricity")
p("Jacobians and reparametrisations give the priors that are meant",
  "Sampling the transit duration and adding the log of the absolute value of jacobians['duration']['a'] or ['rho_star'] gives a flat prior for the axis or the density on all values that a transit of that geometry can have; sampling the impact parameter and adding the log of jacobians['b']['cos_incl'] gives a flat prior for cos(incl); sampling the depth and adding the log of the returned Jacobian of get_ror_from_approx_transit_depth gives a flat prior for the radius ratio on the positive reals. Sampling plus and minus uniformly, as the tutorials do, is sampling omega and Omega (or omega and the time of periastron) independently and uniformly.",
  "all measurable functions and likelihoods, all numbers and times of observations, all physical orbits, all limb-darkening coefficients with positive intensities, all eccentricities in [0, 1) and inclinations",
  "A prior is a measure: that a Jacobian or a change of angles gives the wanted one is an equality of integrals of all functions over all parameters.",
  K+':KeplerianOrbit.__init__', K+':get_aor_from_transit_duration', L+':LimbDarkLightCurve.get_ror_from_approx_transit_depth', "docs/tutorials/data-and-models.md:245-280")
p("t0 is the middle of the transit",
  "At t0 the planet is nearest to the centre of the star on the sky, and the transit is symmetric about t0: separations and light curves before t0 mirror those after t0, with or without exposure time.",
  "all physical orbits with sin(omega) != -1, all times, planet sizes, limb-darkening laws and exposure times",
  "The time of conjunction and the time of closest approach differ by an amount that vanishes on the circular and edge-on orbits tests are usually written for.",
  K+':KeplerianOrbit.__init__', K+':KeplerianOrbit.get_relative_position', L+':LimbDarkLightCurve.get_light_curve')
p("light-delayed positions are those at the time the light left the body",
  "With light_delay=True the position at time t is the position at the one time s from which light reaches the plane of the origin at t. The code expands the light-time equation to second order: its emission time is off by at most 3 A d^2 / (2 c), and its position by the largest speed times that, where d is its delay and A the largest acceleration.",
  "all physical orbits slower than a third of the speed of light, all times, positions relative to the star, of the planet, and of the star of a massive planet",
  "The exact emission time is the solution of a transcendental equation that the code never evaluates; a test can only compare with another truncated expansion.",
  K+':KeplerianOrbit._get_retarded_position', K+':KeplerianOrbit._get_position', K+':KeplerianOrbit.get_relative_position', K+':KeplerianOrbit.get_planet_position', K+':KeplerianOrbit.get_star_position')
p("light-delayed positions are continuous in time",
  "With light_delay=True the position is a continuous function of the time.",
  "all physical orbits slower than a third of the speed of light, all times",
  "The jumps are at isolated times and many orders of magnitude below any tolerance.",
  K+':KeplerianOrbit._get_retarded_position', K+':KeplerianOrbit.get_relative_position')

# functions the theorems are also about
IL = "src/exoplanet/light_curves/interpolated.py"
SE = "src/exoplanet/light_curves/secondary_eclipse.py"
for cid, more in {
    "C08": [K + ":KeplerianOrbit.get_planet_velocity", K + ":KeplerianOrbit.get_star_velocity"],
    "C09": [K + ":KeplerianOrbit.get_planet_acceleration", K + ":KeplerianOrbit.get_star_acceleration"],
    "C28": [S + ":SimpleTransitOrbit.get_planet_velocity", S + ":SimpleTransitOrbit.get_star_velocity",
            S + ":SimpleTransitOrbit.get_radial_velocity"],
    "C27": [S + ":SimpleTransitOrbit.get_planet_position", S + ":SimpleTransitOrbit.get_star_position"],
    "C42": [SE + ":SecondaryEclipseLightCurve.__init__"],
    "C43": [IL + ":InterpolatedLightCurve.__init__"],
    "C45": [I + ":RegularGridInterpolator.__init__", I + ":RegularGridInterpolator.evaluate"],
    "C53": [EC + ":_logp"],
    "C82": [IL + ":_wrapper.__init__", IL + ":_wrapper.__call__"],
}.items():
    for q in P:
        if q["id"] == cid:
            q["anchors"] += [a for a in more if a not in q["anchors"]]
p("parameters that describe no orbit have no light curve",
  "Where an orbit exists no step of the constructor, the positions, the velocities and the light curve produces NaN or infinity; where none exists (an impact parameter beyond the distance of the planet, a duration no orbit has, an eccentricity above one) the result is an error or NaN.",
  "all arguments of KeplerianOrbit, all times, radii, exposure times, limb darkening laws and selections of times in transit; doubles without rounding and overflow",
  "The flat light curve is a legitimate result for orbits without transits, and no error or NaN is raised.",
  K+':KeplerianOrbit.__init__', L+':LimbDarkLightCurve._compute_light_curve', L+':LimbDarkLightCurve.get_light_curve', K+':KeplerianOrbit._rotate_vector')
p("the light curves of several planets add up to the light the star loses",
  "The sum over the last axis of get_light_curve is the light of the part of the star that the union of the discs of the planets covers.",
  "all numbers of planets, radii, positions on the sky, quadratic laws with non-negative intensity; for orbits: all systems and times",
  "Planets that cross the star at the same time and overlap are rare, so sampled systems do not contain them.",
  L+':LimbDarkLightCurve.get_light_curve', L+':LimbDarkLightCurve._compute_light_curve', K+':KeplerianOrbit.get_relative_position')
p("how fast light curves change and how accurate exposure integration and interpolation are",
  "The flux changes per unit of motion by at most the light of a strip as wide as the body, per unit of radius by at most that of a ring; the light curve of a Keplerian orbit changes per day by at most the strip swept at the speed of periastron; with an exposure time the result is within rate * texp / (oversample - 1) of the average over the exposure for each order, and an interpolated light curve within 5/2 * rate * period / (num_phase + 1).",
  "all quadratic laws with non-negative intensity, radii, distances, orbits that do not touch the star, times, exposure times, orders, oversample >= 2, num_phase",
  "Error bounds quantify over all parameters; tests compare with one reference at fixed parameters.",
  L+':LimbDarkLightCurve.get_light_curve', L+':LimbDarkLightCurve._compute_light_curve', L+':quad_limbdark_light_curve', K+':KeplerianOrbit.get_relative_position', 'src/exoplanet/light_curves/interpolated.py:InterpolatedLightCurve.get_light_curve')
p("a simple transit that exists is in the light curve, one that does not is reported",
  "For a SimpleTransitOrbit and a planet of any radius, the light curve shows the transit whenever the planet passes in front of the star (|b| < 1 + r / r_star) and its value does not depend on use_in_transit; impossible arguments (an impact parameter beyond contact, a duration or period that is not positive) give an error or NaN.",
  "all periods, durations, reference times, impact parameters, stellar radii, radius ratios, planet radii, times, exposure times and limb darkening laws; doubles without rounding and overflow",
  "A flat light curve is a legitimate result; grazing transits with the default ror, negative durations and NaN comparisons appear in no test.",
  S+':SimpleTransitOrbit.__init__', S+':SimpleTransitOrbit.get_relative_position', S+':SimpleTransitOrbit.in_transit', L+':LimbDarkLightCurve.get_light_curve')
p("positions and light curves of circular orbits are insensitive to rounding",
  "Computed in rounded arithmetic, operation by operation as the code writes it, the position on a circular orbit is the exact position at a time that differs from the requested one by at most u (2 |t0| + 8 |t - t0| + 5 P), within 6 u a; the light curve is off by at most the error of the compiled operation plus u times an explicit number (in double precision, u = 2^-53, less than 1e-10 for a typical hot Jupiter over ten thousand days).",
  "all circular orbits without Omega that the constructor accepts with a given or default t0, all times (also far from t0, also t0 far from zero), radii, physical limb darkening laws and all roundings of relative error at most u <= 1/1000",
  "Tests compare with another computation in the same arithmetic at a few times; they cannot bound the growth of the error with the time since t0 and the size of t0.",
  K+':KeplerianOrbit.__init__', K+':KeplerianOrbit._get_true_anomaly', K+':KeplerianOrbit.get_relative_position', L+':LimbDarkLightCurve.get_light_curve', L+':LimbDarkLightCurve._compute_light_curve')
p("computed gradients of light curves are right",
  "Going backwards through the graph of the light curve of a SimpleTransitOrbit, operation by operation with the rules of PyTensor, gives the derivatives of the flux with respect to period, duration, t0, b, r_star, ror and the radius of the planet wherever the flux is differentiable.",
  "all parameters of transits that exist, all times (apart from the ends of the transit and the middle between transits), all physical limb darkening laws, all weights of the flux in the quantity that is differentiated; doubles without rounding and overflow",
  "The tests compare gradients with finite differences at a few points away from the centre; NaN appears only where x and y are exactly zero.",
  S+':SimpleTransitOrbit.__init__', S+':SimpleTransitOrbit.get_relative_position', L+':LimbDarkLightCurve.get_light_curve', L+':LimbDarkLightCurve._compute_light_curve')
p("computed gradients of light-delayed positions are right",
  "Going backwards through the graph of the relative position with light_delay=True of a KeplerianOrbit built from a, period, t0 and incl, operation by operation with the rules of PyTensor, gives the derivatives of the coordinates with respect to all four parameters.",
  "all orbits slower than a third of the speed of light, all times, all weights of the coordinates in the quantity that is differentiated; doubles without rounding and overflow",
  "The value is right everywhere, so that tests of the light delay pass; the gradient is wrong only where the line-of-sight acceleration is exactly zero.",
  K+':KeplerianOrbit._get_retarded_position', K+':KeplerianOrbit._get_position', K+':KeplerianOrbit.__init__')
p("rounding on eccentric orbits",
  "Computed in rounded arithmetic, operation by operation as the code writes it, with a solver of Kepler's equation that is off by at most eta, the position on any orbit is the exact position at a time that differs from the requested one by at most u (2 |t0| + 8 |t - t0| + 29 P), within 22 (with Omega: 49) times (u + eta) / (1 - e) times the distance; the light curve is off by a corresponding explicit number. The growth with the time and the factor 1 / (1 - e) are real: there are roundings that attain them up to a constant.",
  "all orbits that the constructor accepts, circular or eccentric, with t0 or t_periastron or neither, with or without Omega, all times, all roundings of relative error at most u and solvers of error at most eta with (u + eta) / (1 - e) <= 1/1000, all radii and physical limb darkening laws with 2 (R + r) <= a (1 - e)",
  "Tests compare with another computation in the same arithmetic at a few times and moderate eccentricities; they cannot bound the growth of the error with the time since t0 or with the eccentricity.",
  K+':KeplerianOrbit.__init__', K+':KeplerianOrbit._rotate_vector', K+':KeplerianOrbit._get_true_anomaly', K+':KeplerianOrbit._get_position', K+':KeplerianOrbit.get_relative_position', L+':LimbDarkLightCurve.get_light_curve')
p("computed gradients of Keplerian light curves are right",
  "Going backwards through the graph of the light curve of a KeplerianOrbit built from a, period, t0, b, r_star and, if eccentric, ecc and omega (or sin_omega and cos_omega), operation by operation with the rules of PyTensor and with the derivatives of the compiled operations, gives the derivatives of the flux with respect to all parameters; orbits for which no inclination exists are noticed.",
  "all circular orbits and all eccentric orbits with 0 < e < 1, all times, all radii of the planet, all physical limb darkening laws, all weights of the flux in the quantity that is differentiated; doubles without rounding and overflow",
  "The tests of the repository compare values; gradients are tested nowhere for orbits, and finite differences at sample points miss the exceptional ones.",
  K+':KeplerianOrbit.__init__', K+':KeplerianOrbit._get_true_anomaly', K+':KeplerianOrbit._rotate_vector', K+':KeplerianOrbit._get_position', L+':LimbDarkLightCurve._compute_light_curve')
p("computed gradients of light curves with transit timing variations are right",
  "Going backwards through the graph of the light curve of a TTVOrbit built from ttvs, t0 and period, from transit_times, or from transit_times and period, gives the derivatives of the flux with respect to all timing variations or transit times and all other parameters, including those that act through the least-squares ephemeris.",
  "all numbers of transits, all labels, all transit times, circular orbits and eccentric orbits with 0 < e < 1, all times, all radii of the planet, all physical limb darkening laws; doubles without rounding and overflow",
  "Gradients of TTVOrbit are tested nowhere; the derivative through the sorted table of transit times, the set_subtensor and the regression only shows as a slowly mixing chain.",
  T+':TTVOrbit.__init__', T+':TTVOrbit._get_model_dt', T+':TTVOrbit._warp_times', K+':KeplerianOrbit._get_true_anomaly', L+':LimbDarkLightCurve._compute_light_curve')
p("computed gradients of light curves with an exposure time are right",
  "Going backwards through the graph of get_light_curve with texp gives, for every order and oversample, the derivatives of the averaged flux with respect to all parameters of the orbit, the radius of the planet and the exposure time; the entries that use_in_transit leaves out have derivatives zero, and these are the true ones.",
  "all orders and numbers of samples, all circular orbits and all eccentric orbits with 0 < e < 1, all times, exposure times and radii of the planet, all physical limb darkening laws; doubles without rounding and overflow",
  "The tests of the repository compare values; that the pruning of the times by in_transit does not lose derivatives, and that the derivative with respect to texp is right, is tested nowhere.",
  L+':LimbDarkLightCurve.get_light_curve', L+':LimbDarkLightCurve._compute_light_curve', K+':KeplerianOrbit.in_transit', K+':KeplerianOrbit._get_true_anomaly')
p("computed gradients of light curves with respect to the masses and the density of the star are right",
  "When the orbit is given by two of m_star, r_star and rho_star and one of period and a, or by a, period and r_star, and a mass of the planet, going backwards through _get_consistent_inputs, the constructor and get_light_curve gives the derivatives of the flux with respect to all these arguments.",
  "the five combinations of arguments, circular orbits and all eccentric orbits with 0 < e < 1 given by omega or by sin_omega and cos_omega, all positive parameters, all times, all physical limb darkening laws; doubles without rounding and overflow",
  "No test of the repository differentiates with respect to a property of the star, although every physical transit fit samples them; the derivatives go through two fractional powers.",
  K+':_get_consistent_inputs', K+':KeplerianOrbit.__init__', K+':KeplerianOrbit._get_true_anomaly', L+':LimbDarkLightCurve.get_light_curve')
p("computed gradients of radial velocities are right",
  "Going backwards through the graph of get_radial_velocity gives the derivatives of the radial velocity with respect to all parameters: with K, for a given t0 or t_periastron, those with respect to K, the period, the reference time, the eccentricity and the argument of periastron; without K, in any unit, those with respect to the masses, the density, the radius and b as well.",
  "circular orbits and all eccentric orbits with 0 < e < 1, given by omega or by sin_omega and cos_omega, both reference times, the five combinations of stellar arguments, all times and output units; doubles without rounding and overflow",
  "The tests of the repository compare values of radial velocities; no derivative is tested.",
  K+':KeplerianOrbit.get_radial_velocity', K+':KeplerianOrbit._get_velocity', K+':KeplerianOrbit.__init__', K+':_get_consistent_inputs')
p("computed gradients of light curves with respect to the duration of the transit are right",
  "When a circular orbit is given by period, b, duration, ror and r_star, or an eccentric one by a, period, duration and r_star, going backwards through the constructor and get_light_curve gives the derivatives of the flux with respect to all these arguments; the derivative of a with respect to the duration is the one in orbit.jacobians; where no orbit has the duration, the light curve is zero with derivatives zero, as it is for impossible values of b (C121).",
  "circular orbits and all eccentric orbits with 0 < e < 1 given by omega or by sin_omega and cos_omega, all parameters and times, all physical limb darkening laws; doubles without rounding and overflow",
  "The tests of the repository differentiate a and b with respect to the duration at single points; the gradient of a light curve is not tested, and impossible durations are met by samplers only.",
  K+':get_aor_from_transit_duration', K+':KeplerianOrbit.__init__', K+':_get_consistent_inputs', L+':LimbDarkLightCurve.get_light_curve')
p("computed gradients of light curves with secondary eclipses are right",
  "For a KeplerianOrbit given by a, period, t0, b and r_star, circular or with ecc and omega or ecc, sin_omega and cos_omega, going backwards through SecondaryEclipseLightCurve.get_light_curve, including the flipped orbit that it builds, gives the derivatives of the flux of star and planet together with respect to all parameters of the orbit, the radius of the planet and the surface brightness ratio.",
  "circular orbits and all eccentric orbits with 0 < e < 1, all parameters and times, all pairs of physical limb darkening laws, all surface brightness ratios that are not negative; doubles without rounding and overflow",
  "The tests of the repository compare values of the eclipse light curve with starry at a few times and do not differentiate it; the second orbit is built from computed attributes of the first one, so that its gradient passes through two constructors.",
  'src/exoplanet/light_curves/secondary_eclipse.py:SecondaryEclipseLightCurve.get_light_curve', K+':KeplerianOrbit._flip', K+':KeplerianOrbit.__init__', K+':_get_consistent_inputs')
p("computed gradients of interpolated light curves are right",
  "For a KeplerianOrbit given by a, period, t0, b and r_star, circular or with ecc and omega or ecc, sin_omega and cos_omega, going backwards through InterpolatedLightCurve.get_light_curve, including the times of the grid, the base light curves at all of them and the indices, gives the derivatives of the interpolated light curve with respect to all parameters of the orbit and the radius of the planet.",
  "circular orbits and all eccentric orbits with 0 < e < 1, all parameters and times, all numbers of phases, all physical limb darkening laws; one planet, no exposure time; doubles without rounding and overflow",
  "The tests of the repository compare values of interpolated light curves at some times and do not differentiate them; the derivative passes through the base light curve at every time of the grid, also those that are not used.",
  'src/exoplanet/light_curves/interpolated.py:interp', 'src/exoplanet/light_curves/interpolated.py:InterpolatedLightCurve.get_light_curve')
p("computed gradients of the distribution helpers are right",
  "Going backwards through the values and potentials of unit_disk, angle, quad_limb_dark and impact_parameter gives their derivatives with respect to the sampled variables, and so it does for the light curve and the radial velocity of an orbit whose eccentricity and argument of periastron are computed from the two values of unit_disk as in the tutorials; in particular the derivatives are numbers where the sampler starts.",
  "both back-ends, all names and keyword arguments with which the helpers succeed, all states of the sampler, both orders of the two values in the tutorials, all other parameters of the orbit, times and physical limb darkening laws; one entry of each variable, one planet; doubles without rounding and overflow",
  "The tests of the repository check the distributions of samples and never compute a gradient of a light curve with respect to these variables; the tutorials that do either pass a start value or are not run by the tests.",
  'src/exoplanet/distributions/distributions.py:unit_disk', 'src/exoplanet/distributions/distributions.py:angle', 'src/exoplanet/distributions/distributions.py:quad_limb_dark', 'src/exoplanet/distributions/distributions.py:impact_parameter', 'docs/tutorials/data-and-models.md:260-262', 'docs/tutorials/intro-to-pymc.md:262-264')
p("computed gradients of astrometric positions, and of light curves with a given inclination, are right",
  "Going backwards through get_relative_position, get_relative_angles, the wrapped residual of the position angle of the tutorial, and get_light_curve, for an orbit given by its inclination, gives their derivatives with respect to all parameters, also the inclination, Omega and the parallax.",
  "circular and eccentric orbits, with omega or its sine and cosine, t0 or t_periastron, with or without Omega and parallax; all parameters, times, observed angles and physical limb darkening laws; one planet; doubles without rounding and overflow",
  "The tests compare positions with another code at some points and never compute a gradient of a separation or position angle; the branch cut of arctan2 and coincidence of planet and star are single points that no random test meets.",
  'src/exoplanet/orbits/keplerian.py:KeplerianOrbit.get_relative_position', 'src/exoplanet/orbits/keplerian.py:KeplerianOrbit.get_relative_angles', 'src/exoplanet/orbits/keplerian.py:KeplerianOrbit._rotate_vector', 'docs/tutorials/data-and-models.md:367-395')
p("computed gradients with respect to limb darkening coefficients are right",
  "Going backwards through get_cl, the product with the solution vector and get_light_curve gives the derivatives of the flux with respect to the limb darkening coefficients as well as the orbit; so it does for the transit model of the tutorial with respect to all variables of the sampler, from the two reference transits and the variables of Kipping (2013) to the logarithm of the radius ratio.",
  "circular and eccentric orbits given by a, period, t0, b and r_star, with omega or its sine and cosine; all parameters, times and coefficients; one planet; doubles without rounding and overflow",
  "The tests of the light curve compare values at some points; gradients with respect to the coefficients are never computed, nor is a gradient of the whole chain from the sampled variables to the flux, in which a mistake makes a sampler explore a wrong posterior without an error.",
  'src/exoplanet/light_curves/limb_dark.py:get_cl', 'src/exoplanet/light_curves/limb_dark.py:quad_limbdark_light_curve', 'src/exoplanet/light_curves/limb_dark.py:LimbDarkLightCurve._compute_light_curve', 'src/exoplanet/distributions/distributions.py:quad_limb_dark', 'docs/tutorials/data-and-models.md:452-491')
p("computed gradients of the log-likelihoods of the tutorials are right",
  "The log-likelihoods that the tutorials pass to the sampler (a Gaussian for every datum, around the light curve, the radial velocity or the separation and position angle on the sky) and the values that reverse-mode differentiation computes for their derivatives are right: with respect to the variables of the sampler for the transit, radial-velocity and astrometry tutorials, and with respect to the parameters of each planet, the star, the limb darkening and the mean for a system with several planets.",
  "all lists of data with positive errors, at all times; all states of the sampler, all numbers of planets; doubles without rounding and overflow",
  "The tests compute no log-likelihood; the tutorials are run with one data set each. A single datum at which the derivative of the model is NaN makes the whole gradient NaN and the sampler reject every step, which depends on the times of the data and the state in a way that no finite set of runs shows.",
  'docs/tutorials/data-and-models.md:452-491', 'docs/tutorials/data-and-models.md:243-280', 'docs/tutorials/data-and-models.md:330-395', 'src/exoplanet/orbits/keplerian.py:KeplerianOrbit.get_radial_velocity', 'src/exoplanet/orbits/keplerian.py:KeplerianOrbit.get_relative_angles', 'src/exoplanet/light_curves/limb_dark.py:LimbDarkLightCurve.get_light_curve')
p("computed gradients of interpolated tables are right",
  "The derivatives that reverse-mode differentiation computes for regular_grid_interp (RegularGridInterpolator.evaluate), with respect to the coordinates of the query point, the grid points and the entries of the table, are those of the interpolated function.",
  "all numbers of axes and grid points, all tables of numbers, all query points inside and outside of the grid, with and without fill_value; doubles without rounding and overflow",
  "The tests compare values with scipy at random points; the derivatives are never compared, nor is the behaviour at grid points, on the edges of the grid and with fill_value, where searchsorted decides which cell is used.",
  'src/exoplanet/interp.py:regular_grid_interp', 'src/exoplanet/interp.py:RegularGridInterpolator')
p("computed gradients of positions, velocities and accelerations are right",
  "get_planet_position, get_star_position, get_relative_position and the corresponding velocities and accelerations, and the derivatives that reverse-mode differentiation computes for them with respect to all parameters including the masses, are the true ones.",
  "all orbits given by b and two of the properties of the star (or the axis and the period), circular or eccentric, all bodies, all components, all times; doubles without rounding and overflow",
  "The tests compare positions and velocities at fixed parameters with numerical derivatives in time; derivatives with respect to parameters are not compared, and accelerations are only tested for planets with a mass.",
  'src/exoplanet/orbits/keplerian.py:KeplerianOrbit._get_position', 'src/exoplanet/orbits/keplerian.py:KeplerianOrbit._get_velocity', 'src/exoplanet/orbits/keplerian.py:KeplerianOrbit._get_acceleration')
p("estimate_minimum_mass recovers the minimum mass of the planets",
  "From the noiseless radial velocities that get_radial_velocity computes for planets on circular orbits, estimate_minimum_mass with the mass of the star returns m sin i of each planet.",
  "all systems of planets on circular orbits around a star, all times that determine the fit, with and without uncertainties and times of transit, any constant offset",
  "The test looks at one planet of one per cent of the mass of the star and accepts an error of one per cent; the error grows with the mass of the planet.",
  'src/exoplanet/estimators.py:estimate_minimum_mass', 'src/exoplanet/orbits/keplerian.py:KeplerianOrbit.get_radial_velocity')
p("KeplerianOrbit warns when, and only when, it should",
  "KeplerianOrbit issues a DeprecationWarning for each deprecated keyword and a UserWarning when a duration is given without ror, and no other warning; warnings do not change the orbit, and every call has an equivalent one without warnings.",
  "all arguments of the constructor, all filters of the warnings machinery (ignore, print, raise, per category)",
  "The test makes two calls under one filter.",
  'src/exoplanet/orbits/keplerian.py:KeplerianOrbit.__init__', 'src/exoplanet/utils.py:deprecation_warning')
p("Missing arguments are reported by every light-curve class",
  "get_light_curve of LimbDarkLightCurve, SecondaryEclipseLightCurve and InterpolatedLightCurve raises ValueError naming the first missing argument when orbit, r or t is left out.",
  "all presence patterns of orbit, r and t, all other arguments, all numbers of planets",
  "No test leaves an argument out; there are eight patterns for each of the three classes and two ways to give num_planets.",
  'src/exoplanet/light_curves/limb_dark.py:LimbDarkLightCurve.get_light_curve', 'src/exoplanet/light_curves/secondary_eclipse.py:SecondaryEclipseLightCurve.get_light_curve', 'src/exoplanet/light_curves/interpolated.py:InterpolatedLightCurve.get_light_curve')
p("light curves of simple transits are insensitive to rounding",
  "With every operation of SimpleTransitOrbit and of the light curve rounded, the flux differs from the exact one by a few roundings times the scale of the orbit and the number of elapsed periods, also at first and last contact, where rounding can move the planet from one side of the star to the other.",
  "all periods, durations, epochs, impact parameters and radii with a transit, a planet of the radius for which the duration was given, all times, all roundings with a relative error of at most 1/1000 per operation",
  "Tests compare with a tolerance at a few times, none of them at a contact.",
  'src/exoplanet/orbits/simple.py:SimpleTransitOrbit.get_relative_position', 'src/exoplanet/light_curves/limb_dark.py:LimbDarkLightCurve.get_light_curve')
p("radial velocities for a given semi-amplitude are backward stable",
  "With every operation rounded, get_radial_velocity with K returns, within eleven roundings (plus eleven times the error of the compiled Kepler solver) of K, the exact radial velocity at a time that differs from the requested one by a few roundings of t0, of the elapsed time and of the period. Unlike positions and times, the amplitude error does not grow with the eccentricity.",
  "all orbits that the constructor accepts with a physical shape, circular or eccentric, all semi-amplitudes, all times, all roundings and solver errors that add up to at most 1/1000",
  "Tests compare radial velocities with a reference code at a fixed tolerance for a few orbits.",
  'src/exoplanet/orbits/keplerian.py:KeplerianOrbit.get_radial_velocity', 'src/exoplanet/orbits/keplerian.py:KeplerianOrbit._get_true_anomaly')
p("velocities and radial velocities from the orbit are backward stable",
  "With every operation rounded, the velocity of the planet, of the star and their difference is, up to a small multiple of (u + eta)/(1 - e) of the speed (u the rounding error, eta the error of the compiled Kepler solver), the exact one at a time that differs from the requested one by a few roundings; the radial velocity without K inherits this in every unit of velocity.",
  "all orbits that the constructor accepts with a physical shape, circular or eccentric, with or without Omega, all times, all velocity units, all roundings and solver errors with (u + eta)/(1 - e) at most 1/1000",
  "Tests compare velocities with numerical derivatives at a few times and a loose tolerance.",
  'src/exoplanet/orbits/keplerian.py:KeplerianOrbit._get_velocity', 'src/exoplanet/orbits/keplerian.py:KeplerianOrbit._rotate_vector', 'src/exoplanet/orbits/keplerian.py:KeplerianOrbit.get_radial_velocity')
p("accelerations are backward stable",
  "With every operation rounded, the acceleration of the planet, of the star and their difference is, up to a small multiple of (u + eta)/(1 - e) of its length (u the rounding error, eta the error of the compiled Kepler solver), the exact one at a time that differs from the requested one by a few roundings.",
  "all orbits that the constructor accepts with a physical shape, circular or eccentric, with or without Omega, all times, all roundings and solver errors with (u + eta)/(1 - e) at most 1/2000; for the star only if the planet has a mass",
  "Tests compare accelerations with numerical derivatives at a few times and a loose tolerance.",
  'src/exoplanet/orbits/keplerian.py:KeplerianOrbit._get_acceleration', 'src/exoplanet/orbits/keplerian.py:KeplerianOrbit._rotate_vector')
p("separations and position angles are backward stable",
  "With every operation rounded, get_relative_angles returns, at a time that differs from the requested one by a few roundings, the separation up to a small multiple of (u + eta)/(1 - e) of the distance in space, and a position angle whose direction passes as close to the planet. Near a conjunction, where the separation is that small, the angle is not determined.",
  "all orbits that the constructor accepts with a physical shape, circular or eccentric, with or without Omega, all times, all roundings and solver errors with (u + eta)/(1 - e) at most 1/1000",
  "Tests compare angles with a reference code at a few times away from conjunctions and from the jump of arctan2.",
  'src/exoplanet/orbits/keplerian.py:KeplerianOrbit.get_relative_angles')
p("the attributes derived from masses, semi-major axis and period are accurate",
  "With every operation rounded, the constructor stores the total mass and the mean motion up to one and four roundings, the semi-major axes of star and planet up to 3.2 roundings, and the velocity scale K0 up to 10.5/(1 - e) roundings.",
  "all orbits that the constructor accepts with a physical shape, circular or eccentric, all roundings u with u/(1 - e) at most 1/2000",
  "Tests see these attributes only through positions and velocities of a few orbits with small eccentricity.",
  'src/exoplanet/orbits/keplerian.py:KeplerianOrbit.__init__')
p("impact parameter and inclination are converted accurately",
  "With every operation rounded, the factor dcosidb is right up to 6.4/(1 - e) roundings and the cosine of the inclination computed from an impact parameter up to 7.5/(1 - e). The impact parameter computed from an inclination is off by at most 7.6/(1 - e) roundings of itself and 2.1 u/dcosidb, and an error of 2 u/dcosidb does occur.",
  "all orbits that the constructor accepts with a physical shape, circular or eccentric, all roundings u with u/(1 - e) at most 1/2000",
  "Tests convert back and forth for a few orbits and compare with a fixed tolerance, which hides that the error of b grows with a/R.",
  'src/exoplanet/orbits/keplerian.py:KeplerianOrbit.__init__')

out = os.path.join(os.path.dirname(os.path.abspath(__file__)), "..", "properties.jsonl")
with open(out, "w") as f:
    for q in P:
        f.write(json.dumps(q) + "\n")
print(len(P))
