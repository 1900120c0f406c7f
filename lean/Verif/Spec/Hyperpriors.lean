import Verif.Spec.Distributions
import Verif.Model.Eccentricity

/-!
# What the hyperparameters of the eccentricity priors should be (C99)
-/

namespace Exo
open MeasureTheory
open scoped ENNReal

/-- The (not normalised) density of everything but `name`: `name` is integrated out. -/
noncomputable def marginal (rs : List Reg) (name : String) (σ : State) : ℝ≥0∞ :=
  ∫⁻ x, jointDensity rs (Function.update σ name x)

open Classical in
/-- The prior of a hyperparameter: a normal law cut off below zero (and above `hi`), on PyMC normalised. -/
noncomputable def hyperPdf (b : Backend) (mu sd : ℝ) (hi : Option ℝ) (x : ℝ) : ℝ≥0∞ :=
  if 0 ≤ x ∧ ∀ u, hi = some u → x ≤ u then
    ENNReal.ofReal (normalPdf mu sd x) /
      (if b = .pymc then ∫⁻ y in {y | 0 ≤ y ∧ ∀ u, hi = some u → y ≤ u}, ENNReal.ofReal (normalPdf mu sd y) else 1)
  else 0

/-- The priors of `alpha` and `beta` (Kipping 2013; `long=None` and `long=True`: long periods, `long=False`: short periods). -/
noncomputable def kippingHyperPdf (b : Backend) (long : Option Bool) (alpha beta : ℝ) : ℝ≥0∞ :=
  if long = some false then hyperPdf b 0.697 0.4 none alpha * hyperPdf b 3.27 0.3 none beta
  else hyperPdf b 1.12 0.1 none alpha * hyperPdf b 3.09 0.3 none beta

/-- The priors of `sigma_gauss`, `sigma_rayleigh` and `frac` (Van Eylen et al. 2019; systems of several planets, or of one). -/
noncomputable def vaneylenHyperPdf (b : Backend) (multi : Bool) (sg sr f : ℝ) : ℝ≥0∞ :=
  hyperPdf b 0.049 0.02 none sg * (hyperPdf b 0.26 0.05 none sr *
    (if multi then hyperPdf b 0.08 0.08 (some 1) f else hyperPdf b 0.76 0.2 (some 1) f))

end Exo
