import Verif.Model.Py
import Mathlib.MeasureTheory.Integral.Bochner.Set
import Mathlib.MeasureTheory.Measure.Lebesgue.Basic
import Mathlib.MeasureTheory.Constructions.BorelSpace.Basic

/-!
# Model of the limb-darkening part of `src/exoplanet/light_curves/limb_dark.py`
-/

namespace Exo
open Real MeasureTheory

/-- `get_cl(u1, u2)` — `limb_dark.py:11-18`. Real division by a zero `norm` is excluded in the theorems (Python: inf/nan). -/
noncomputable def getCl (u1 u2 : ℝ) : ℝ × ℝ × ℝ :=
  let c0 := 1 - u1 - 1.5 * u2
  let c1 := u1 + 2 * u2
  let c2 := -0.25 * u2
  let norm := π * (c0 + c1 / 1.5)
  (c0 / norm, c1 / norm, c2 / norm)

/-- The apparent disc of a star of unit radius. -/
def starDisc : Set (ℝ × ℝ) := {p | p.1 ^ 2 + p.2 ^ 2 ≤ 1}

/-- The disc of radius `r` centred at distance `b` from the centre of the star. -/
noncomputable def bodyDisc (b r : ℝ) : Set (ℝ × ℝ) := {p | √((p.1 - b) ^ 2 + p.2 ^ 2) ≤ r}

/-- The foreshortening `μ = √(1 - x² - y²)` on the stellar disc. -/
noncomputable def muAt (p : ℝ × ℝ) : ℝ := √(1 - p.1 ^ 2 - p.2 ^ 2)

/-- `exoplanet_core.ops.quad_solution_vector(b, r)` (compiled; called at `limb_dark.py:24`), idealised as what it is
documented to compute (Agol, Luger & Foreman-Mackey 2020): the integrals of `1`, `μ` and `4μ² - 2` over the part of the
stellar disc that the body does not cover. -/
noncomputable def quadSolutionVector (b r : ℝ) : ℝ × ℝ × ℝ :=
  (∫ _ in starDisc \ bodyDisc b r, (1 : ℝ), ∫ p in starDisc \ bodyDisc b r, muAt p,
    ∫ p in starDisc \ bodyDisc b r, (4 * muAt p ^ 2 - 2))

/-- `quad_limbdark_light_curve(c, b, r)` — `limb_dark.py:21-24`, one element. -/
noncomputable def quadLimbdarkLightCurve (c : ℝ × ℝ × ℝ) (b r : ℝ) : ℝ :=
  let s := quadSolutionVector b r
  s.1 * c.1 + s.2.1 * c.2.1 + s.2.2 * c.2.2 - 1

/-- `_compute_light_curve(b, r, los)` — `limb_dark.py:234-252`, one element; `los = none` is `los=None`. -/
noncomputable def computeLightCurve (c : ℝ × ℝ × ℝ) (b r : ℝ) (los : Option ℝ) : ℝ :=
  let los := los.getD 1
  let lc := quadLimbdarkLightCurve c b r
  if los > 0 then lc else 0

/-- The coefficients of a `LimbDarkLightCurve`. -/
structure LimbDark where
  u1 : ℝ
  u2 : ℝ
  c : ℝ × ℝ × ℝ

/-- `LimbDarkLightCurve.__init__` — `limb_dark.py:41-68` — called with two coefficients. -/
noncomputable def LimbDark.new (u1 u2 : ℝ) : LimbDark := ⟨u1, u2, getCl u1 u2⟩

/-- `LimbDarkLightCurve.__init__` — `limb_dark.py:43-64` — called with a single (deprecated) argument: either a scalar or
a vector. The runtime `Assert` requires one axis of length two. (A scalar is already rejected by `u1.shape[0]`.) The
deprecation warning is not modelled. -/
noncomputable def LimbDark.newVector (u : ℝ ⊕ List ℝ) : Except PyErr LimbDark :=
  match u with
  | .inl _ => .error .indexError
  | .inr [a, b] => .ok (LimbDark.new a b)
  | .inr _ => .error (.assertion "only quadratic limb darkening is supported")

/-- `get_ror_from_approx_transit_depth(delta, b, jac=True)` — `limb_dark.py:70-97`, one element: the radius ratio and the
Jacobian. -/
noncomputable def LimbDark.rorFromDepth (l : LimbDark) (delta b : ℝ) : ℝ × ℝ :=
  let f0 := 1 - 2 * l.u1 / 6 - 2 * l.u2 / 12
  let arg := 1 - √(1 - b ^ 2)
  let f := 1 - l.u1 * arg - l.u2 * arg ^ 2
  let factor := f0 / f
  let ror := √(delta * factor)
  let drorddelta := 0.5 * factor / ror
  (ror, drorddelta)

end Exo
