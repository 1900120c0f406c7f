import Verif.Spec.Orbit
import Verif.Spec.Conjunction

/-!
# What observations determine (C103, C104)
-/

namespace Exo
open Real

/-- The two orbits predict the same astrometry: separation and position angle at all times. -/
def SameAstrometry (C : Consts) (o o' : Orbit) : Prop := ∀ t, o.relativeAngles C t = o'.relativeAngles C t

/-- The same direction of periastron and of the node, or both turned by half a turn. -/
def SameAnglesUpToHalfTurn (o o' : Orbit) : Prop :=
  ∃ s : ℝ, (s = 1 ∨ s = -1) ∧ o'.cosOmega = s * o.cosOmega ∧ o'.sinOmega = s * o.sinOmega ∧
    cos (o'.Omega.getD 0) = s * cos (o.Omega.getD 0) ∧ sin (o'.Omega.getD 0) = s * sin (o.Omega.getD 0)

/-- Periastron passages at the same times. -/
def SamePeriastra (o o' : Orbit) : Prop := ∃ k : ℤ, o'.t_periastron = o.t_periastron + k * o.period

/-- The two orbits predict the same radial velocities with the semi-amplitudes `K` and `K'`. -/
def SameVelocities (C : Consts) (o o' : Orbit) (K K' : ℝ) : Prop :=
  ∀ t, o.radialVelocity C t (some K) = o'.radialVelocity C t (some K')

end Exo
