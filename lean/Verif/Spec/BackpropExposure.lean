import Verif.Model.BackpropExposure
import Verif.Spec.BackpropKepler
import Verif.Spec.LightCurve

/-!
# Vocabulary of the properties of computed gradients of light curves with an exposure time
-/

namespace Exo

/-- The parameters of the orbit. -/
def ExpPar.orbit (q : ExpPar → ℝ) (p : KepPar) : ℝ := q (.kep p)

/-- The flux averaged over the exposure with the offsets and weights `S`. -/
noncomputable def averageFlux (u1 u2 : ℝ) (C : Consts) (o : (KepPar → ℝ) → Orbit) (S : List ℝ × List ℝ) (t : ℝ) (q : ExpPar → ℝ) : ℝ :=
  exposureAverage (fun s => fluxAt (getCl u1 u2) (q (.kep .r_star)) (q (.kep .r)) ((o (ExpPar.orbit q)).relativePosition C s)) t (some (q .texp, S))

/-- The graph of the light curve of a planet of radius `r` is differentiable at `t`: the planet is not exactly in front of (or behind) the centre of the star, and does not graze it in the plane of the sky. -/
def OffCentre (C : Consts) (o : Orbit) (r t : ℝ) : Prop :=
  ((o.relativePosition C t).x ≠ 0 ∨ (o.relativePosition C t).y ≠ 0) ∧ Clear o.r_star r (o.relativePosition C t)

end Exo
