import Verif.Model.BackpropSecondary
import Verif.Spec.BackpropKepler
import Verif.Model.Secondary
import Verif.Spec.Secondary

/-!
# Vocabulary of the properties of computed gradients of light curves with secondary eclipses
-/

namespace Exo
open Real

/-- The parameters of the orbit and the planet. -/
def SecPar.orbit (q : SecPar → ℝ) (p : KepPar) : ℝ := q (.kep p)

/-- The relative change of the flux of star and planet together, when the planet has the flux `s (r / R)²` of the star, from the positions `v1` of the planet with respect to the
star and `v2` of the star with respect to the planet. -/
noncomputable def togetherFlux (c1 c2 : ℝ × ℝ × ℝ) (s r R : ℝ) (v1 v2 : V3) : ℝ := totalChange 1 (s * (r / R) ^ 2) (fluxAt c1 R r v1) (fluxAt c2 r R v2)

/-- What is asked of the parameters beyond those of the orbit: a surface brightness that is not negative and, for an eccentric orbit, `sin ω < 1`; if `omega` is
computed from its sine and cosine, it must not be `π` either. -/
structure KepMode.Visible (m : KepMode) (q : SecPar → ℝ) : Prop where
  possible : m.Possible (SecPar.orbit q)
  surface : 0 ≤ q .surface_brightness_ratio
  omega : m = .angle → sin (q (.kep .omega)) < 1
  omega' : m = .sincos → sin (arctan2 (q (.kep .sin_omega)) (q (.kep .cos_omega))) < 1 ∧ (0 < q (.kep .cos_omega) ∨ q (.kep .sin_omega) ≠ 0)

end Exo
