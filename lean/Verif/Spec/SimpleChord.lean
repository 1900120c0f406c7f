import Verif.Spec.Orbit
import Verif.Lemmas.InTransit

/-!
# Vocabulary of the properties of `SimpleTransitOrbit` with NaN
-/

namespace Exo
open Real

/-- The point reached at time `t` by a planet that crosses the disc of a star of radius `R` at constant speed `v`, at distance `b R` from the
centre, every period `P`, nearest to the centre at `t0` (`wrap` is the time since the nearest transit); in front of the star within half the duration `d`. -/
noncomputable def simpleChord (v P d t0 b R t : ℝ) : V3 :=
  ⟨v * wrap (t - t0) P, b * R, if |wrap (t - t0) P| < d / 2 then 1 else -1⟩

end Exo
