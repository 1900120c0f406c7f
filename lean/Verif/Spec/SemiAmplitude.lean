import Mathlib.Analysis.SpecialFunctions.Trigonometric.Basic
import Mathlib.Algebra.BigOperators.Group.List.Basic

/-!
# What a least-squares radial-velocity fit is
-/

namespace Exo
open Real

/-- The free-phase model: a sine and a cosine for every period, plus a constant. -/
noncomputable def rvFree (periods : List ℝ) (ab : List (ℝ × ℝ)) (c t : ℝ) : ℝ :=
  ((periods.zip ab).map fun q => q.2.1 * sin (2 * π * t / q.1) + q.2.2 * cos (2 * π * t / q.1)).sum + c

/-- The fixed-phase model: circular orbits with a transit at `t0`, so that the radial velocity falls through zero there. -/
noncomputable def rvFixed (periods t0s K : List ℝ) (c t : ℝ) : ℝ :=
  (((periods.zip t0s).zip K).map fun q => -q.2 * sin (2 * π * (t - q.1.2) / q.1.1)).sum + c

/-- Sum of squared residuals in units of the uncertainties, over the data `(x, y, σ)`. -/
noncomputable def chiSquare (data : List (ℝ × ℝ × ℝ)) (m : ℝ → ℝ) : ℝ := (data.map fun d => ((d.2.1 - m d.1) / d.2.2) ^ 2).sum

/-- The uncertainties used: those given, or one. -/
def errs (y : List ℝ) (yerr : Option (List ℝ)) : List ℝ := yerr.getD (y.map fun _ => 1)

end Exo
