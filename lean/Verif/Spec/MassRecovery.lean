import Verif.Spec.Constants
import Verif.Spec.Orbit

/-!
# Specification for C135: the minimum mass of a planet
-/

namespace Exo

/-- The minimum mass `m sin i` of the planet, in solar masses. -/
noncomputable def Orbit.minimumMass (o : Orbit) : ℝ := o.m_planet * o.sin_incl

/-- The radial velocities (m/s) of the star due to all planets, plus a constant, at the times `x`: `y` are the noiseless data. -/
def NoiselessVelocities (C : Consts) (os : List Orbit) (c : ℝ) (x y : List ℝ) : Prop :=
  ∃ rv : Orbit → ℝ → ℝ, (∀ o ∈ os, ∀ t ∈ x, o.radialVelocity C t none = .ok (rv o t)) ∧
    y = x.map fun t => (os.map fun o => rv o t).sum + c

/-- The semi-amplitude (m/s) that belongs to a minimum mass of one solar mass, a total mass of one solar mass and a period of one year:
`(2π G M_sun / yr)^(1/3)`, for a year of 365.25 days. -/
noncomputable def Astropy.unitSpeed (S : Astropy) : ℝ := (2 * Real.pi * S.G * S.M_sun / (365.25 * S.day)) ^ (1 / 3 : ℝ)

/-- The mass of Jupiter of astropy 5 in solar masses (1.8981245973360505e27 kg over 1.988409870698051e30 kg). -/
noncomputable def jupiterMass : ℝ := 1.8981245973360505e27 / 1.988409870698051e30

end Exo
