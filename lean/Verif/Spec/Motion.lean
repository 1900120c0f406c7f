import Verif.Spec.Orbit
import Mathlib.Analysis.Calculus.Deriv.Basic

/-!
# Vocabulary for motions
-/

namespace Exo

/-- `v` is the time derivative of the motion `x` at time `t`, component by component. -/
def HasVelocityAt (x : ℝ → V3) (v : V3) (t : ℝ) : Prop :=
  HasDerivAt (fun s => (x s).x) v.x t ∧ HasDerivAt (fun s => (x s).y) v.y t ∧ HasDerivAt (fun s => (x s).z) v.z t

end Exo
