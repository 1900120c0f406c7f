# A Lean 4 model of exoplanet, and what is proved about it

## 1. Approach

The code under study (`/repo/src/exoplanet`) is a thin layer of *formulas and decisions* on top of
PyTensor/PyMC/astropy/numpy and three compiled ops of `exoplanet_core`. The model is a shallow embedding:
each Python function becomes a Lean function with the same branches; exceptions are values
(`Except PyErr _`); `None` is `Option.none`; float64 numbers are exact real numbers (`ℝ`), with an explicit
NaN (`Option ℝ`, `none` = NaN) in those places where a NaN decides control flow (comparisons in
`in_transit`). Everything is stated for all inputs; nothing is bounded.

Layout of `/verif/lean/Verif`:

* `Model/*.lean`  - the model, one file per Python module; every definition cites file and lines.
* `Spec/*.lean`   - small definitions used only to *state* properties (what a Keplerian motion is, what the
  nearest transit is, ...), independent of the model.
* `Lemmas/*.lean` - helper lemmas.
* `Props/*.lean`  - the property theorems `Cxx_...`, with non-vacuity `example`s beside them.

## 2. Trusted base

* Lean 4.33.0's kernel, and Mathlib's definitions (ℝ, `Real.sin`, `HasDerivAt`, Lebesgue measure, ...).
* Axioms: at most `propext`, `Classical.choice`, `Quot.sound` (checked with `#print axioms`, see
  `Verif/Audit.lean`). No own axioms, no `sorry`, no `native_decide`/`bv_decide`.
* The reading of the Python source: the code is not executed here.
* Idealisations, each repeated in the comment of the definition concerned:
  1. float64 arithmetic is exact real arithmetic (no rounding, overflow, signed zero, infinities). Python results
     that would be NaN are either excluded by explicit hypotheses or modelled by `Option`.
  2. `exoplanet_core.ops.kepler` (compiled) is the exact solution of Kepler's equation; existence and uniqueness
     of that solution are proved, not assumed.
  3. `exoplanet_core.ops.contact_points` and `ops.quad_solution_vector` (compiled) are parameters; what is
     assumed about them is a hypothesis of the theorem that uses it.
  4. astropy constants are arbitrary positive reals; astropy units are a positive scale and a dimension vector.
  5. PyTensor broadcasting is NumPy broadcasting (static broadcastability is not modelled); symbolic graphs are
     identified with the values they compute (for C71 with a tree of tensor operations that is then evaluated).
  6. PyMC's samplers are not modelled. A distribution helper is modelled by what it registers (name, distribution,
     support, potential) and by the map from the sampled variables to the returned quantity.
  7. astropy's LombScargle / BoxLeastSquares, scipy's gaussian_filter and numpy's FFT/argsort/solve are parameters or
     are given by their mathematical definition.
  8. For C118, C119 and C121-C134 the derivative rules (`L_op`) of PyTensor's `Add`, `Sub`, `Neg`, `Mul`, `TrueDiv`, `Pow`, `Sqrt`, `Exp`, `Log`, `Sin`, `Cos`, `ArcCos`, `ArcTan2`, `Mod`, `AdvancedSubtensor1`,
     `AdvancedIncSubtensor1` (`set_instead_of_inc=True`: the derivative at the written indices goes to the written values), `SearchsortedOp`, `Floor` and `Cast` to integers (none), `ARange`
     (the sum of the derivatives with respect to the entries for the start, and of these times their numbers for the step) and `Switch` are those written in `Model/Backprop.lean`; rewriting of the graph by the compiler is not modelled.

Not modelled at all: `docs_setup`, logging set-up, BibTeX texts (opaque strings), text wrapping of the
acknowledgement (an opaque function of the text), pickling/multiprocessing, performance.

## 3. Plan per property

| id | model | proof |
|----|-------|-------|
| C01 | `_get_consistent_inputs` on `Option` of unit-labelled reals | case split on presence; `rpow` algebra |
| C02 | constructor as `Except`; presence pattern predicate written from the docstring | case analysis |
| C03 | same | algebra with C01 |
| C04 | units as scale and dimension | equality of constructor results |
| C05 | constructor `b`/`incl` branches, position at `t0` | `arccos`, conjunction lemma |
| C06 | `M0` formula with `arctan2` as `Complex.arg`, ideal Kepler | half-angle identity; counterexample at `sin ω = -1` |
| C07 | both branches of the time block | algebra; distance bound |
| C08-C09 | position, velocity, acceleration functions; ideal Kepler inverse | inverse function derivative, chain rule |
| C10-C11, C13-C14 | same plus C01 | algebra from the anomaly identities |
| C12 | same | `E(M+2πk)=E(M)+2πk` |
| C15 | `get_radial_velocity` | algebra, intermediate value for attained extremes |
| C16 | both branches | trig |
| C17 | `eccAnomaly` as inverse of `E - e sin E` | strict monotone + IVT |
| C18, C19 | `_get_retarded_position` | algebra; violated parts get a counterexample theorem |
| C20 | `_flip` via the constructor | trig |
| C21-C23 | `in_transit` on lists of planets and times, NaN explicit, contact points a parameter | geometry, floor-mod lemmas |
| C24-C26 | constructor duration branches | trig, `HasDerivAt` |
| C27, C28 | `SimpleTransitOrbit` | floor-mod lemmas |
| C29-C35 | `TTVOrbit` on lists, `searchsorted` as a count | least squares algebra, sorted-list induction, shape calculus |
| C36, C37 | `get_cl`; solution vector as disc integrals | polynomial identity, integrals, measure monotonicity |
| C38-C40, C44 | `get_light_curve` on shaped tensors with NumPy broadcasting | index calculus, stencil sums by induction |
| C41 | formula | algebra, `HasDerivAt` |
| C42 | `SecondaryEclipseLightCurve` | algebra, C20 |
| C43 | `interp` on lists | Lagrange algebra, floor bounds |
| C45-C47 | `regular_grid_interp` in n dimensions by recursion on the axes | induction on dimension |
| C48-C51 | maps from sampled to returned parameters, registered densities | change of variables (Lebesgue), polar coordinates |
| C52-C54 | registrations as a log of calls | case analysis, density algebra |
| C55, C56 | model contexts with ordered citation dictionaries | induction over histories |
| C57-C59 | `find_peaks` with lists | sorting lemmas, 3x3 Vandermonde algebra |
| C60 | design matrix, normal equations (Mathlib matrices) | projection argument |
| C61 | FFT by definition (DFT sums) | orthogonality of characters |
| C62-C64, C70 | branch-by-branch | case analysis; termination measure |
| C65 | heap of tensor objects with unit attribute | induction over operations |
| C66-C68 | decision tables | case analysis |
| C69 | state vector over a list of planets | sums |
| C71 | constructor and queries once more, on tensor graphs (`Gr`) with NumPy broadcasting | projection of graphs to one planet commutes with the code; broadcasting order on shapes |
| C72 | `TTVOrbit` constructor on lists per planet, producing tensor graphs with one time shift per planet (`Gr.stack`) | constructor succeeds iff it does for each planet; projection to one planet as in C71 |
| C73 | as C29 | case analysis of the constructor, logarithm of a product |
| C74 | arithmetic of units with SI scales; astropy's values are parameters | algebra; the third law of C01 rescaled to SI |
| C75 | tensor graphs of C71, the light-curve code on arrays; `contact_points` needs arrays of equal size | shape lemmas, then column by column to C39/C40 |
| C76 | none beyond C22, C30, C75 | the distance to the nearest transit is 1-Lipschitz, so a symmetric window survives the jumps of the clock |
| C77 | none beyond C29, C72 | a regression and a list of assignments to different entries do not see permutations; translation of time for the numbering |
| C78 | none beyond C29, C39, C49 | the moved orbit object is computed by the constructor from the moved arguments; every method commutes with it |
| C79 | C72 | shape of the stack of looked-up times against the planet axis of n; with one list, the graphs of positions have the same value as those of a KeplerianOrbit whose t0 is the array of looked-up times |
| C80 | C37, C39 | the uncovered part of the disc depends continuously on position and radius because circles have measure zero; positions are continuous; the switch to zero behind the star happens where the discs are disjoint |
| C81 | C38, C43, C80 | composite rules with weights per cell are within the oscillation of the integrand; the cubic through four nodes is within 5/4 of the oscillation; uniform continuity of periodic light curves |
| C82 | C43, C71, C75 | the arrays t0 and period hold the values of the planets; indexing them picks those of planet n; the base light curve is evaluated point by point |
| C83 | C39 | the rotation of the sky commutes with the delay, which uses only distances along the line of sight; arccos(-x) = pi - arccos x; E(-M) = -E(M), and arctan2 is odd to the right of the axis |
| C84 | C01, C39 | every formula of _get_consistent_inputs and of the constructor is homogeneous; powers of products with a positive factor; the converted values are linear in the given ones |
| C85 | C20, C42, C71, C75 | the attributes handed to the constructor by _flip are arrays that fit the system, with the flipped arguments of planet p as entries; then the values of both light curves by C75 |
| C86 | C27, C71, C75 | `simple.py` once more with graphs; shapes below (times, planets), the planet axis of each coordinate from the arguments that enter it; `in_transit` by a case split on the planet axis of the mask; light curves by the generic lemma of C75 |
| C87 | C37, C39, C49 | the covered light as an integral of the intensity over the disc of the planet (C37); reflect the star in the line half way between the two discs: the part of the near disc that the far one does not cover is mirrored to points that are further from the centre, where the star is not brighter; then positions and light curves by C39, circular orbits by their separation |
| C88 | C24, C27, C37, C87 | both separations as functions of the time since the nearest transit; the sine lies above its chord and below its argument; then C87 for the fluxes, uniform continuity of the flux for long periods |
| C89 | C60, C64, C65 | the same functions once more with astropy's rules for units (`u.Quantity(value, unit)`, `np.ones_like`, `1 / q**2`) and NumPy's broadcasting of arrays of length one; every conversion is a product with a ratio of scales |
| C90 | C60, C64 | by C60 the answer is the unique minimiser of chi-square and a failure means there is none, so a bijection between models that multiplies chi-square by a positive constant carries one answer to the other |
| C91 | C57, C58, C61, C62 | corresponding Vandermonde systems have corresponding solutions; a permutation sorted by distinct keys is unique; autocovariances scale by the square of the factor; the estimator is followed statement by statement |
| C92 | C37, C39, C41, C05, C06 | every point of the planet is between max(b-k,0) and b+k from the centre, so the integral over the silhouette is between constants times its area |
| C93 | C08, C09, C12, C14 | fundamental theorem of calculus; averages over time are averages over the eccentric anomaly with weight 1 - e cos E, which have closed antiderivatives |
| C94 | C06, C20 | on the meridian the eccentric anomaly has a known sine and cosine; Kepler's equation turns the difference theta of the anomalies into theta - sin theta |
| C95 | C05-C10, C37, C80 | the root of Kepler's equation is squeezed between roots of nearby equations; arctan2 is continuous off the negative axis; dominated convergence for the flux |
| C96 | C48-C53 | the last two characters of an auxiliary name determine which helper made it, the rest determines for which name; Tonelli over two disjoint groups of variables |
| C97 | C48-C51 | registrations of arrays are matched with those of scalar calls entry by entry; products of densities; the law of a product density is a product law |
| C98 | C48, C52, C53, C97 | polar coordinates on the disc and the substitution u = r^2; the image of a law whose extra density is a function of the image |
| C99 | C52, C53, C98 | the joint density as hyperprior times a density of the eccentricity; the mass of a truncated Beta law and of the Rayleigh law on an interval; counterexamples by two values of a hyperparameter |
| C100 | C37, C39, C48-C50, C87, C98 | transcription of the two programs; positivity of the light behind a disc that overlaps the star; the mean anomaly of an orbit given by its periastron time |
| C101 | C08, C14, C17 | matrices of the documentation multiplied out; angular momentum at a node |
| C102 | C08, C19, C94 | the retarded phase solves a fixed-point equation with a contraction, whose only solution is within 5 beta^3 of -beta |
| C103 | C08, C14, C101 | areal velocity and size of the sky ellipse give the clock 1/(1 - e cos E); its extremes give e, its phase the periastron, and the ellipse the angles |
| C104 | C15 | extremes give K and e cos(omega); the derivative of the angle from the node is the clock 1/(1 - e cos E)^2, of which the extremes give e and the phase gives the periastron |
| C105 | C37, C39, C87, C27 | the flux is negative on a comb of intervals that gives period, phase and width; during ingress the flux is strictly monotone in the separation, which gives the separation at two phases and with it impact parameter and scaled semi-major axis |
| C106 | C08, C37, C39, C80 | polar coordinates about the centre of the body give the derivative in the radius, rings about the centre of the star that in the distance; both are continuous because the limb of the body meets that of the star in a null set, so the flux is strictly differentiable; near the centre, where the distance itself has a kink, the gradient vanishes |
| C107 | C95, C106 | inverse function theorem for (e, E) -> (e, E - e sin E), whose local inverse is the global solution by continuity (C95); the mean anomaly at transit through the complex logarithm on the right half plane; the rest is composition; light curves by C106 |
| C108 | C68 | change of variables on the two sides of the turning point e = -sin(omega), on which the duration is injective with derivative -c (s + e) / (sqrt(1 - e^2) (1 + e s)^2); the valid branches are the inverse images up to a null set |
| C109 | C25, C41, C103, C104 | one-dimensional change of variables with explicit images; for the angles the group homomorphism (x, y) -> (x - y, x + y) of the torus preserves the Haar measure because it is onto |
| C110 | C06, C83, C94 | separation as a function of the eccentric anomaly, derivative at the known anomaly of transit; for edge-on orbits the spacing of the conjunctions (C94) excludes symmetry |
| C111 | C19, C102, C08, C09 | mean value theorem for the exact equation (the residual controls the error of the emission time), Taylor with bounded acceleration for the residual, vis-viva bounds for speed and acceleration |
| C112 | C19, C102, C111 | the delay is a quotient of continuous functions on either side; at the boundary both formulas solve different equations, and within a period the planet is never twice in the same place |
| C113 | C01, C04, C37 | the same functions over `Fl` (real numbers, infinities, NaN); operation by operation the argument is in the domain; otherwise NaN propagates to the height |
| C114 | C37, C39 | the covered light as an integral over the shadow on the stellar disc (rotation invariance); inclusion and exclusion as an integral of a non-negative multiplicity |
| C115 | C81, C106 | the derivative in the distance is an integral over the leading minus the trailing limb; mean value theorem; the speed is largest at periastron; front to back only beyond contact |
| C116 | C27, C39, C113 | `simple.py` over `Fl`; thresholds as doubles; NaN speed propagates to the threshold, and comparisons with NaN are false |
| C117 | C06, C115 | backward error in the time, forward error in the coordinates; Lipschitz bounds of C115; where rounding changes the sign of the height the planet is beyond contact |
| C118 | C106, C116 | the light curve as a tree of operations over `Fl` with value and reverse accumulation; induction over the tree; `0 / 0` at the centre |
| C119 | C118 | the tree of the retarded position; regular away from az = 0; 0 * inf in the unselected branch |
| C120 | C13, C115, C117 | backward error in the time for both ways to give the epoch, relative errors of the distance and the rotations; the flux of a slightly displaced planet; lower bounds with the arithmetic that always rounds up |
| C121 | C106, C107, C116, C118 | the tree of the whole light curve including the constructor; the derivative of the solution of Kepler's equation; regular except at the listed points |
| C122 | C29, C118, C121 | the tree of C121 with the clock replaced by the table of transit times; the regression and the table are regular because the labels are distinct and the time is not an edge |
| C123 | C22, C38, C39, C118, C121 | a weighted sum of trees of C121 with a clock that depends on texp; a left-out entry is a maximum of a function that is nowhere positive, so its derivatives vanish |
| C124 | C03, C04, C118, C121 | the trees of C121 with the axis, the period and the radius of the star as trees of their own; a node for powers with a real exponent is added to the graphs of C118 |
| C125 | C118, C121, C124 | the anomaly for a given t_periastron contains the delay M0/n twice with opposite signs, so that its NaN derivatives do not cancel; the true derivatives come from the graph without it |
| C126 | C25, C118, C121 | the trees of C121 with the axis (circular) or the impact parameter (eccentric) as trees of their own; a NaN in the axis reaches the square root of the separation, whose derivative is 0 times NaN |
| C127 | C20, C42, C118, C121 | the tree of the flipped orbit is built from the trees of the attributes of the orbit; two compiled operations, one for each limb darkening law, joined by the chain rule for the last lines |
| C128 | C43, C118, C121 | the operation `index` is added to the trees, the tree of `interp` contains the trees of the base light curve at all times of the grid; the value of the tree is the interpolant of C43; the times of the grid, where the interpolant has kinks, are left out |
| C129 | C48, C49, C118, C121 | the operation `log` is added to the trees, whose parameters are now the names of the registered variables; the values and potentials are those of the model of the helpers, C48-C51. At the cut of `arctan2` the tree is compared with one in which the angle is computed from the opposite point. At the centre, abs(E - M) <= e = s²; derivatives along the other variable at the centre, where exact arithmetic computes `E0` as `arctan2(0, 0)` on one side, are left out |
| C130 | C18, C118, C121, C125 | the tree of `get_relative_angles` with the rules of C118; the orbit attributes are those of C121 and C125. At the cut of `arctan2` the wrapped residual is compared with the tree that computes the angle from the opposite point, as in C129; parameters from which `incl` is computed with `arccos` (as in the tutorial) and light travel time are left out |
| C131 | C36, C106, C118, C121, C129 | the tree of C121 with `get_cl` and the three products in it; a parameter that does not occur in a part of the tree gets the derivative zero from it, whatever NaN is passed through it, hence the coefficients are right at the centre |
| C132 | C104, C118, C130, C131 | closure of `GradientRight` under sums and the Gaussian log-density; the parts of the trees of C119, C130 and C131 with the variables of the sampler substituted; for circular orbits outside of the star the planet is never in front of the centre unless `b = 0` |
| C133 | C45, C46, C118 | indexing and `pt.switch` are one node, which selects an entry; at each point the graph has the value and derivatives of the same graph with the selection made, which is smooth, and the cells are kept nearby |
| C134 | C09, C118, C124, C125 | the graph of each component has the value of the model function; each operation is smooth where the divisors are not zero |
| C135 | C15, C60, C64, C74 | the velocities are sinusoids with the semi-amplitude of C15, which C60 recovers; Kepler's third law in SI (C74) turns it into the formula of the code; Bernoulli's inequality bounds the power |
| C136 | C02, C26, C67 | the statements before the first computation with their warnings, followed by the constructor of C02; a warning is an exception, a line of output or nothing |
| C137 | C42, C43, C44 | the two classes with optional arguments, in the order of the statements; the exception for `None` as a tensor is a separate constructor |
| C138 | C27, C37, C115, C117 | the remainder is exact up to one rounding; near contact both fluxes are small because the chord ends there; the time to the nearest transit is Lipschitz |
| C139 | C120 | the bracket is bounded by 2, so each of its roundings is relative to K; the mean anomaly error is moved into the time |
| C140 | C120, C139 | the velocity in the orbital plane is at least K0 m (1 - e) long; then the rotations of C120 |
| C141 | C120, C140 | relative errors of products and quotients; the orbit equation keeps e cos f + 1 above 1 - e; then the rotations of C120 |
| C142 | C120 | triangle inequality in the plane of the sky; sine and cosine of arctan2 |
| C143 | C141 | relative errors of products, quotients and square roots |
| C144 | C141, C143 | relative errors of products and quotients; a cosine that is off by its tolerance |

## 4. Findings: properties that are false of the code

Each line names the theorem that proves the negation (for a concrete witness, or for all inputs of a class). The
true part of the same property is proved by the other theorems of that id (`_partial` where the statement had to be
narrowed).

| id | finding | theorem |
|----|---------|---------|
| C01 | circular orbit with `duration`: a supplied `a` is silently overwritten | `C01_a_overwritten` |
| C02 | circular orbit with `duration` but no `period`: `TypeError`, not the documented `ValueError` | `C02_missing_period_typeError` |
| C04 | circular orbit with `duration`: unit labels of `duration`, `period`, `r_star` are ignored | `C04_duration_units_ignored` |
| C05, C06 | `sin ω = -1` exactly: `arctan2(0, 0)`, `t0` is not a transit and the separation at `t0` is wrong | `C05_singular_counterexample`, `C06_singular_counterexample` |
| C16 | `ecc=0` vs omitted with `t_periastron`: different orbits | `C16_t_periastron_counterexample` |
| C18 | `light_delay=True` drops the parallax | `C18_parallax_ignored_with_light_delay` |
| C19 | the second-order light-delay term has the wrong sign | `C19_wrong_sign`, `C19_counterexample` |
| C23 | `in_transit` is not monotone in `r` once the planet can contain the orbit | `C23_radius_counterexample` |
| C25 | Jacobians of `a_star`, `a_planet`, `cos i` are wrong with a massive planet / a duration | `C25_a_star_counterexample`, `C25_dcosidb_counterexample` |
| C26 | eccentric `duration`: ignores `ror`, uses `a_planet` | `C26_ror_counterexample`, `C26_mass_counterexample` |
| C28 | `SimpleTransitOrbit` positions ignore `light_delay` silently | `C28_light_delay_ignored` |
| C29 | a single transit time gives NaN | `C29_single_transit_counterexample` |
| C31, C33 | with `period` given separately, expected times use `period` instead of `ttv_period` | `C31_missing_counterexample`, `C33_period_counterexample` |
| C77 | with `period` given separately, the predicted time of an unobserved transit depends on the number the list starts with | `C77_numbering_counterexample` |
| C34 | a transit exactly at `max_time` is missing | `C34_endpoint_counterexample` |
| C35 | light delay on `TTVOrbit` has the wrong shape; `_flip` raises | `C35_shape_counterexample`, `C35_flip_counterexample` |
| C38 | order 1 or 2 with `oversample` 0/1 evaluates at the left end | `C38_single_point_counterexample` |
| C39 | a scalar time with the default `use_in_transit` raises | `C39_scalar_time_counterexample` |
| C40 | several planets and one exposure time per datum: error, or silently wrong | `C40_vector_texp_counterexample`, `C40_silent_counterexample` |
| C42 | secondary eclipses of two or more planets raise | `C42_system_counterexample` |
| C46 | the first grid point of an axis counts as outside | `C46_lower_edge_counterexample` |
| C47 | vector-valued tables: shape error or silently mixed weights | `C47_shape_counterexample`, `C47_silent_counterexample` |
| C48 | `unit_disk` start value of `y` is multiplied by `√(1-x²)` instead of divided, so the sampler starts at `y (1-x²)` | `C48_start_counterexample` |
| C49 | no start state exists for the corner (0,0) | `C49_start_corner` |
| C52-C54 | PyMC3: observed values ignored or refused; `testval` leaks | `C53_observed_counterexample`, `C54_leak_counterexample` |
| C55 | the order of the BibTeX entries depends on the order of construction (the set of entries does not) | `C55_bibtex_order_counterexample` |
| C56 | distributions outside a model raise | `C56_distribution_outside_counterexample` |
| C59 | the index of a peak is one too large; `bls_estimator` then reports the neighbour of the peak | `C59_reported_index_is_never_the_peak`, `C59_bls_peak_info_is_not_the_peak` |
| C63 | extra keyword `minimum_period` is ignored (`"minimim_period"`) | `C63_minimum_period_keyword_ignored` |
| C65 | labelling mutates a tensor shared with the caller | `C65_labelling_a_shared_tensor_counterexample` |
| C68 | `duration_to_eccentricity` always raises `TypeError` | `C68_call_always_fails` |
| C69 | a vector of times is not supported | `C69_vector_of_times_counterexample` |
| C70 | the filter changes the reported log-power, not only the selection | `C70_filter_changes_the_reported_power` |
| C72 | `TTVOrbit` raises `IndexError` for a scalar `period` (or, with `ttvs`, a scalar `t0`), which `KeplerianOrbit` accepts | `C72_scalar_period_counterexample` |
| C75 | several `ecc` with one `omega`: `get_light_curve` with the default arguments raises | `C75_shared_omega_counterexample` |
| C75 | one `period` with several `b` or `incl`: `get_light_curve` raises, or silently takes times for planets when their numbers agree | `C75_shared_period_counterexample` |
| C79 | `TTVOrbit(period=[P1, P2], ttvs=[[...]])` (one list, several planets) is silently accepted; all planets run on the clock of the first | `C79_one_list_counterexample` |
| C79 | with fewer lists than planets (at least two) the constructor succeeds and every evaluation fails with a shape error | `C79_accepted`, `C79_too_few` |
| C80 | `SimpleTransitOrbit` without `ror` makes the light curve jump at the ends of `duration` for a planet of positive radius | `C80_simple_counterexample` |
| C80 | a planet whose orbit lies inside the star gives a light curve that jumps where the planet passes behind the plane of the sky | `C80_inside_counterexample` |
| C81 | `InterpolatedLightCurve` silently gives wrong transits for a `TTVOrbit` with several planets: it folds the times with the constant period | `C81_ttv_counterexample` |
| C82 | `InterpolatedLightCurve` fails for one-planet orbits with elements of length one, in particular for every one-planet `TTVOrbit` | `C82_one_planet_counterexample`, `C82_ttv_one_planet` |
| C82 | `InterpolatedLightCurve` fails for several planets with a scalar `t0` | `C82_shared_counterexample` |
| C82 | with `num_planets` smaller than the number of planets the later planets are dropped silently | `C82_system_partial` |
| C85 | `SecondaryEclipseLightCurve.get_light_curve` raises for every system of several planets around a star whose radius is given as a scalar (or not at all), array-level proof | `C85_shared_radius_counterexample` |
| C86 | `get_light_curve` raises for a `SimpleTransitOrbit` of several planets that share `period`, `t0` and `duration` and have their own `b` or `r_star` | `C86_shared_times_counterexample` |
| C86 | `get_light_curve` raises for a `SimpleTransitOrbit` of several planets that differ in `duration` (or `ror`) only | `C86_duration_only_counterexample` |
| C86 | `SimpleTransitOrbit(b=[...])`, `r_star=[...]`, `ror=[...]` raise `TypeError` for Python lists, `period`, `t0` and `duration` accept them | `C86_list_counterexample` |
| C89 | `estimate_semi_amplitude` and `estimate_minimum_mass` refuse velocities that are a `Quantity` unless `yerr` is given, although the documentation allows them | `C89_velocities_without_errors_counterexample` |
| C96 | `angle("a")` and `angle("a_regularization")` (and e.g. `unit_disk("x", "y")` with `angle("y_jacobian")`) cannot be used in one model | `C96_collision_counterexample` |
| C96 | `kipping13("ecc", fixed=False)` and `angle("ecc_alpha")` can be used together on PyMC and not on PyMC3; the auxiliary names are undocumented | `C96_backends_differ` |
| C97 | `unit_disk(..., shape=[3])` raises `TypeError` (a tuple is concatenated with a list); `angle` and `quad_limb_dark` accept it | `C97_list_shape_counterexample` |
| C97 | `initval=[[0.1, 0.2], [0.3, 0.4]]` raises `TypeError` in `unit_disk` and `quad_limb_dark`; `angle` accepts it | `C97_nested_list_counterexample` |
| C97 | on PyMC3 `impact_parameter("b", ror)` with a vector `ror` and without `shape` has a single degree of freedom | `C97_pymc3_vector_ror_counterexample` |
| C98 | the seed that the tests use for an observed eccentricity does not start at the requested eccentricity; for narrow limits the model starts where the density is zero | `C98_start_counterexample` |
| C99 | `vaneylen19(fixed=False)`: the mixture density is added as a potential that is not normalised on the limits of the eccentricity, so the hyperparameters do not have the published priors (already without limits, on both back-ends; with narrow limits strongly) | `C99_vaneylen19_counterexample` |
| C99 | `kipping13(fixed=False)` with limits on PyMC3: `pm.Bound` does not normalise, so `alpha` and `beta` do not have the published priors | `C99_kipping13_pymc3_counterexample` |
| C100 | The transit tutorial's prior (`log_r` normal with standard deviation 2) allows planets larger than their orbit, with `b > a / R_star` and NaN as inclination | `C100_no_inclination_counterexample` |
| C100 | The comment in the radial-velocity tutorial exchanges sine and cosine: `h` is `sqrt(e) cos(w)` | `C100_comment_counterexample` |
| C101 | The documented rotation (`data-and-models.md`) with the given `omega` puts the orbiting body on the opposite side of the barycentre; it describes the star. For the planet `omega + pi` is needed | `C101_planet_counterexample` |
| C103 | the parameters plus and minus of the astrometry tutorial are only determined up to half turns while pmx.angle covers the full circle, so the posterior has four copies of each mode (documentation) | `C103_tutorial` |
| C104 | the radial-velocity tutorial computes err = sqrt(rv_err**2 + exp(2 log_jitter)) and then passes sigma=rv_err: the likelihood is independent of log_jitter, whose posterior is its prior (documentation) | `C104_jitter_counterexample` |
| C106 | A body of exactly the size of its star has a light curve with a corner at the centre of the eclipse, so gradient-based samplers meet a kink on the line r = r_star | `C106_eclipse_counterexample` |
| C108 | the weights of `duration_to_eccentricity` (2^n branches) are selected with a condition of n planets: shape mismatch for n >= 2 | `C108_counterexample_planets` |
| C108 | the potential of `duration_to_eccentricity` is added once per planet | `C108_counterexample_power` |
| C108 | `duration_to_eccentricity` looks up names with `_` where PyMC uses `::` | `C108_counterexample_pymc` |
| C108 | the averages of `duration_to_eccentricity` are weighted with the Jacobians only, not with the likelihoods | `C108_counterexample_average` |
| C110 | `t0` is the conjunction, not the middle of the transit: unless `ecc cos(omega) = 0` the planet is nearest to the star earlier or later, and grazing transits are asymmetric | `C110_closest_counterexample`, `C110_light_curve_counterexample` |
| C111 | the acceleration term of the light delay makes it worse: at the transit of a circular orbit the emission time is further from the truth than without the term, by at least as much as the whole error without it | `C111_worse_than_without_acceleration` |
| C112 | light-delayed positions jump where the code switches formulas, at `abs(az) == 1e-10` | `C112_jump`, `C112_counterexample` |
| C113 | impossible parameters (`b` beyond `a`, durations no orbit has, `ecc > 1`, a period of zero, a negative total mass) give a light curve that is exactly zero instead of NaN, because `gt(nan, 0)` is false in `_compute_light_curve` | `C113_impossible_impact`, `C113_impossible_duration`, `C113_impossible_circular_duration`, `C113_unbound`, `C113_zero_period`, `C113_negative_mass`, `C113_counterexample` |
| C114 | the documented sum of the columns of `get_light_curve` subtracts the light behind overlapping planets twice; the flux can fall below -1 | `C114_sum_iff`, `C114_counterexample` |
| C116 | `SimpleTransitOrbit` without `ror`: grazing transits (`1 < b < 1 + r / r_star`) are silently missing from the default light curve and NaN with `use_in_transit=False` | `C116_silent`, `C116_nan`, `C116_counterexample` |
| C116 | `SimpleTransitOrbit` accepts a duration that is not positive or a period of zero: the light curve is exactly zero | `C116_flat` |
| C118 | the gradient of the light curve is NaN at the middle of a central transit (`SimpleTransitOrbit` with the default `b = 0` and `t = t0`), because `sqrt(x**2 + y**2)` is differentiated at zero; the true derivatives exist | `C118_centre`, `C118_differentiable`, `C118_counterexample` |
| C119 | with light_delay=True and incl = 0 the computed gradients of the positions are NaN at all times (the unselected branch of `pt.switch` divides by zero); the positions are right and differentiable | `C119_face_on`, `C119_face_on_value`, `C119_differentiable`, `C119_counterexample` |
| C121 | with `sin_omega=-1, cos_omega=0` the computed gradient of the light curve with respect to `ecc`, `sin_omega` and `cos_omega` is NaN at all times | `C121_downwards` |
| C121 | a `b` for which no inclination exists gives a flux of zero whose computed gradient is exactly zero, so that a sampler has neither an error nor a direction back | `C121_impossible` |
| C122 | with a repeated entry in `transit_inds` only the last value counts, but the computed gradient with respect to the overwritten values is as large as that with respect to the one that counts | `C122_equal_labels`, `C122_counterexample` |
| C125 | With `t_periastron`, `sin_omega=-1` and `cos_omega=0` the gradient of a radial velocity with respect to `ecc`, `sin_omega` and `cos_omega` is NaN although the velocity is smooth there: `tref = t_periastron - t0` and `_warp_times` both carry `M0 / n`, whose gradient is 0/0 | `C125_counterexample` |
| C126 | For a circular orbit given by `duration` with `b * cos(pi * duration / period) > 1 + ror` the axis is NaN, the light curve is silently zero and its gradient with respect to `duration`, `ror`, `b`, `r_star` and `period` is NaN; with `a` instead of `duration` the gradient would be zero | `C126_impossible` |
| C127 | With `sin_omega=1`, `cos_omega=0`, where the gradient of a transit light curve is right, the gradient of a secondary eclipse light curve with respect to `ecc` and the argument of periastron is NaN in exact arithmetic: `_flip` subtracts pi from `omega`, and the mean anomaly of the transit of the flipped orbit, which is not needed, is computed from `arctan2(0, 0)`. In doubles `cos(-pi/2)` is `6e-17`, not zero, and the NaN does not occur | `C127_upwards` |
| C128 | For a circular orbit with `b=0` the computed gradient of an interpolated light curve is NaN at *all* times, in and out of transit: `t0` is one of the times of the grid, and going backwards through `sqrt(x**2 + y**2)` at that time gives `0 / 0` also if the entry is not used. Without interpolation this happens at the centre of the transit only | `C128_central`, `C128_counterexample` |
| C129 | `docs/tutorials/data-and-models.md:260-262` recommends (in a comment) `unit_disk` without `initval` and `omega` from `arctan2`: the sampler and `pmx.optimize` start at the centre of the disc, where the gradients of the light curve and of the radial velocity are NaN at all times, because the derivative of `arctan2(0, 0)` is `0 / 0` (`intro-to-pymc.md` passes `initval=[0.01, 0.01]`). With the time of periastron as a parameter, as in that tutorial, the radial velocity is not continuous there | `C129_start`, `C129_gradient_counterexample`, `C129_rv_jump` |
| C130 | `get_relative_angles` has a NaN gradient of the separation where planet and star coincide, also with respect to parameters of which the separation is a constant function there | `C130_conjunction`, `C130_counterexample` |
| C131 | With coefficients for which `u1/3 + u2/6 = 1` the flux is NaN or infinite also where nothing is covered; nothing rejects such coefficients | `C131_dark` |
| C132 | With `b = 0` for one planet of a system and a datum exactly at its mid-transit the gradient of the log-likelihood with respect to the shared stellar radius is NaN, although the derivatives for the other planets' own parameters are right | `C132_shared` |
| C133 | At an inner grid point, where the interpolated function has a kink, the gradient of `regular_grid_interp` is that of the cell on the left; with `fill_value` it is zero at the first grid point of an axis, where the value jumps | `C133_counterexample`, `C133_edge` |
| C134 | With `m_planet = 0` `get_star_acceleration` is 0/0 = NaN although the star is at rest | `C134_counterexample` |
| C135 | `estimate_minimum_mass` neglects the mass of the planet in the total mass: for equal masses it returns less than 0.64 of the mass | `C135_counterexample` |
| C136 | A `duration` without `ror` gives no warning for eccentric orbits, where `ror` is ignored even if given | `C136_counterexample` |
| C137 | `SecondaryEclipseLightCurve` and `InterpolatedLightCurve` do not report a missing `orbit`; the former raises `AttributeError`, the latter asks for `num_planets` | `C137_secondary_counterexample`, `C137_interpolated_counterexample` |

## 5. Simplifications of the model, part by part

* NaN and infinities: `Model/Fl.lean` and `Model/FlOrbit.lean` repeat the constructor, the positions and the light curve of one planet with
  IEEE values (no rounding, overflow or signed zeros; of the compiled Kepler solver only that it is exact for `0 <= e < 1` and maps NaN to
  NaN). `C113_possible_partial` proves that on physical orbits nothing differs from the real-number model.
* Rounding: `Model/Rounded.lean` repeats the times, the positions on circular orbits and the flux with a rounding after every operation;
  `Model/RoundedEcc.lean` does so for all orbits (eccentric, with `t_periastron`, with `Omega`). `Model/RoundedSimple.lean` does
  so for `SimpleTransitOrbit`, `Model/RoundedRv.lean` and `Model/RoundedVelocity.lean` for velocities and accelerations, `Model/RoundedAngles.lean` for
  separations and position angles, `Model/RoundedAttributes.lean` for the attributes derived from
  masses, semi-major axis and period, `Model/RoundedInclination.lean` for impact parameter and inclination. C117, C120 and C138 to C144 bound the
  distance from the real-number model. Everything else is exact.
* Orbits: `Model/Keplerian.lean` treats one planet at a time; `Model/System.lean` repeats the constructor and the queries on
  arrays, and C71 proves that a system is the collection of its planets. Arguments with two or more axes are not covered. Conditions for the values to be physical are
  hypotheses (`Orbit.Physical`); `C01_physical_from_arguments` derives them from the arguments.
* `TTVOrbit`: keyword arguments only, no length-1 broadcasting of the lists, transit numbers are natural numbers,
  `searchsorted` on a sorted array is the number of smaller entries. `Model/Ttv.lean` treats one planet, `Model/TtvSystem.lean`
  a list of planets (as many lists as planets), and C72 compares them; other numbers of lists are C79.
* Light curves: the compiled solution vector is idealised as the integrals it approximates; the order in which errors are
  detected is not modelled; exposure times with more than one axis and integer dtypes are excluded.
* `SimpleTransitOrbit`: `Model/Simple.lean` takes one planet at a time, `Model/SystemSimple.lean` array arguments (C86). The speed is NaN where
  the planet does not transit; a zero `duration` is totalised and excluded by the hypotheses. `Model/FlSimple.lean` repeats it with NaN and
  infinities (C116).
* Secondary eclipse: in `Model/Secondary.lean` the flipped orbit uses the first entry of a vector `r_star`; `Model/SystemSecondary.lean` takes
  the arrays, evaluated before they are handed to the constructor (C85). `orbit=None` is not modelled.
* Interpolated light curves: rounding in `arange` is ignored. `Model/Interpolated.lean` takes the pairs `(t0, period)`,
  `Model/SystemInterpolated.lean` the arrays of the orbit (C82). The class of the exception of `pt.arange` on vectors is not modelled, and
  the base light curve is not evaluated for an empty vector of times.
* `interp`: grids of one point are excluded, NaN fill values are `regularGridInterpNaN`; static broadcast patterns are not modelled.
* Distributions: `Model/Distributions.lean` takes one entry of a vector at a time, `Model/DistributionShapes.lean` arrays with `shape=` (C97).
  Transforms are not modelled; duplicate names in `Model/Names.lean` (C96) only.
* Citations: BibTeX texts and text wrapping are opaque.
* Units on the heap: the Theano/PyTensor constant cache is not modelled.
* Back-end selection: only `ImportError` can happen on import.
* `duration_to_eccentricity`: the mixture and its registration (never reached) are not modelled.
* `find_peaks`: any `argsort` with the documented contract; NaN and infinities are `none`.
* Semi-amplitudes: plain numbers in the default units; zero errors and zero periods are excluded.
* Autocorrelation: the FFT is the exact DFT; `gaussian_filter` and `np.interp` are parameters.
* Box least squares, Lomb-Scargle: astropy's classes are parameters; the `while` loop has fuel and is proved to terminate.

## 6. The tests of the project and the theorems that generalise them

What each test checks at a few points or on samples, and where the statement for all inputs is proved (or refuted). Comparisons with other
programs (`batman`, `starry`, `rebound`, `ellc`) have no counterpart: the other program is not modelled, the theorems compare with the definition.

| test | claims |
|---|---|
| `citations_test.py` `test_basic` | C55, C56 |
| `units_test.py` `test_mass_units` | C04, C15, C74 |
| `interp_test.py` `test_basic`, `test_fill_value` | C45; C46 (`C46_nan_partial`), C47 |
| `estimators_test.py` `test_estimate_semi_amplitude` | C60, C89, C90 |
| `test_estimate_minimum_mass` | C64, C135 (`C135_light_planets` has the tolerance of the test) |
| `test_lomb_scargle_estimator`, `test_autocorr_estimator`, `test_bls_estimator` | C57-C59, C61-C63, C70, C91: the peaks are those of the periodogram; that the highest one is at the period of the signal is a statement about astropy's periodograms and not proved |
| `distributions_test.py` `test_kipping13*` | C52, C99 |
| `test_vaneylen19*` | C53, C99 |
| `test_unit_disk*` | C48, C97 |
| `test_angle*` | C51, C97 |
| `test_quad_limb_dark` | C49 |
| `test_impact`, `test_impact_shape_inference` | C50, C97 (`C97_pymc_vector_ror`) |
| `ttv_test.py` `test_compute_expected_transit_times` | C34 |
| `test_consistency` | C29, C31, C33 |
| `test_no_ttvs` | C32 |
| `keplerian_test.py` `test_sky_coords` | C05, C07, C17, C101 |
| `test_center_of_mass` | C11 |
| `test_velocity`, `test_radial_velocity`, `test_acceleration` | C08, C09, C15 |
| `test_flip`, `test_flip_circular` | C20 |
| `test_in_transit`, `test_in_transit_circ`, `test_small_star` | C21, C22, C23 |
| `test_impact` | C05, C06, C110 |
| `test_consistent_coords` | C01, C74 |
| `test_get_consistent_inputs` | C01, C02, C03 |
| `test_light_delay` | C19, C111, C112 |
| `test_light_delay_shape_*` | C35, C71 |
| `test_get_aor_from_transit_duration` | C24 |
| `test_duration_without_ror_warning` | C136 |
| `test_jacobians` | C25, C109 |
| `simple_test.py` `test_simple`, `test_simple_light_curve_compare_kepler` | C27, C28, C88 |
| `light_curves_test.py` `test_light_curve`, `test_light_curve_grad` | C36, C37, C87; C118, C131 |
| `test_vector_params` | C67 |
| `test_in_transit`, `test_contact_bug`, `test_small_star` | C40, C75 |
| `test_variable_texp` | C38, C40 |
| `test_singular_points` | C80, C95 |
| `test_approx_transit_depth` | C41, C92 |
| `test_secondary_eclipse` | C42, C85 |
