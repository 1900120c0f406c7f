import Verif.Model.Eccentricity
import Verif.Model.Py

/-!
# Eccentricity and argument of periastron from `unit_disk`

The parametrisation of the tutorials and the tests: two numbers in the unit disc, whose squared distance from the centre is the
eccentricity and whose direction is the argument of periastron.
-/

namespace Exo
open MeasureTheory

/-- `ecc = x**2 + y**2` (tests/distributions_test.py:123; docs/tutorials/intro-to-pymc.md:263; docs/tutorials/data-and-models.md:261). -/
def eccOf (x y : State → ℝ) (σ : State) : ℝ := x σ ^ 2 + y σ ^ 2

/-- `ecc`, and `omega = arctan2(y, x)` with `x, y = h, k` in docs/tutorials/intro-to-pymc.md:262-264 and `x, y = k, h` in
docs/tutorials/data-and-models.md:260-262. -/
noncomputable def eccVector (x y : State → ℝ) (σ : State) : ℝ × ℝ := (eccOf x y σ, arctan2 (y σ) (x σ))

/-- `x, y = unit_disk(nx, ny, **K)`, then a prior with `observed=x**2 + y**2` (tests/distributions_test.py:119-137, 234-256): everything
that is registered, and `x, y`. (The `pm.Deterministic` for the eccentricity contributes no density and is left out.) -/
noncomputable def eccFromDisk (b : Backend) (nx ny : String) (K : Kwargs) (prior : Kwargs → Except PyErr (List Reg)) (K' : Kwargs) :
    Except PyErr (List Reg × (State → ℝ) × (State → ℝ)) :=
  match unitDisk b nx ny K with
  | .error e => .error e
  | .ok (rs, x, y) =>
    match prior (("observed", .num (eccOf x y)) :: K') with
    | .error e => .error e
    | .ok rs' => .ok (rs ++ rs', x, y)

end Exo
