import Verif.Spec.LimbDark
import Verif.Spec.Emission

/-!
# How fast light curves can change
-/

namespace Exo
open Real

/-- The intensity of the star is nowhere above `B`. -/
def NotBrighterThan (u1 u2 B : ℝ) : Prop := ∀ μ, 0 ≤ μ → μ ≤ 1 → quadLaw u1 u2 μ ≤ B

/-- The largest fraction of the light of the star that a body of radius `k` newly covers per unit of motion (in stellar radii): a strip as wide as
the body, `2 k`, at the largest brightness. -/
noncomputable def stripLight (u1 u2 B k : ℝ) : ℝ := 2 * k * B / (π * (1 - u1 / 3 - u2 / 6))

/-- The most that the light curve of an orbit changes per day. -/
noncomputable def Orbit.fluxRate (o : Orbit) (u1 u2 B r : ℝ) : ℝ := stripLight u1 u2 B (r / o.r_star) * (o.topSpeed o.a / o.r_star)

end Exo
