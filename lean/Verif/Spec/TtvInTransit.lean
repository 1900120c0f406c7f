import Verif.Spec.Ttv
import Verif.Spec.Transit

/-!
# Vocabulary for the transits of a `TTVOrbit`
-/

namespace Exo

/-- Nowhere within `x / 2` of the middle between two successive transit times does the planet overlap the star from the front. -/
def Ttv.MidpointsClear (C : Consts) (T : Ttv) (r x : ℝ) : Prop :=
  ∀ (k : ℕ) (a b : ℝ), T.all_transit_times[k]? = some a → T.all_transit_times[k + 1]? = some b →
    ∀ v, |v| ≤ x / 2 → ¬ Overlaps C T.orbit r ((a + b) / 2 + v)

end Exo
