import Verif.Spec.Distributions
import Verif.Spec.DistributionShapes

/-!
# What the eccentricity vector should do (C98)
-/

namespace Exo
open MeasureTheory
open scoped ENNReal

/-- All eccentricities below one, all directions. -/
def eccBox : Set (ℝ × ℝ) := Set.Ico 0 1 ×ˢ Set.Ioc (-Real.pi) Real.pi

/-- The state `σ` with other values of two variables. -/
noncomputable def setTwo (σ : State) (n1 n2 : String) (p : ℝ × ℝ) : State := Function.update (Function.update σ n1 p.1) n2 p.2

/-- The (not normalised) law of two variables, given the values that all other variables have in `σ`. -/
noncomputable def law2At (rs : List Reg) (n1 n2 : String) (σ : State) : Measure (ℝ × ℝ) :=
  volume.withDensity fun p => jointDensity rs (setTwo σ n1 n2 p)

end Exo
