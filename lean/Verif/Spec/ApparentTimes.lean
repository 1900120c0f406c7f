import Verif.Spec.Conjunction

/-!
# Apparent conjunctions: what is seen with light travel time (C102)
-/

namespace Exo
open Real

/-- The planet is seen in front of the star, on the meridian (`light_delay=True`, position relative to the star). -/
def SeenInFront (C : Consts) (o : Orbit) (t : ℝ) : Prop :=
  OnMeridian (o.Omega.getD 0) (o.relativePosition C t none true) ∧ 0 < (o.relativePosition C t none true).z

/-- The planet is seen behind the star, on the meridian. -/
def SeenBehind (C : Consts) (o : Orbit) (t : ℝ) : Prop :=
  OnMeridian (o.Omega.getD 0) (o.relativePosition C t none true) ∧ (o.relativePosition C t none true).z < 0

/-- The same for the position of the planet relative to the barycentre (`get_planet_position`). -/
def PlanetSeenInFront (C : Consts) (o : Orbit) (t : ℝ) : Prop :=
  OnMeridian (o.Omega.getD 0) (o.planetPosition C t none true) ∧ 0 < (o.planetPosition C t none true).z

def PlanetSeenBehind (C : Consts) (o : Orbit) (t : ℝ) : Prop :=
  OnMeridian (o.Omega.getD 0) (o.planetPosition C t none true) ∧ (o.planetPosition C t none true).z < 0

end Exo
