import Verif.Model.RoundedEcc

/-!
# Velocities in rounded arithmetic — `src/exoplanet/orbits/keplerian.py:572-631`, 672-677
-/

namespace Exo
open Real

namespace Rounding
variable (ρ : Rounding)

/-- `_get_velocity(m, t)` — `keplerian.py:572-578`, for the mean anomaly `M`. The attribute `K0` is the one stored. -/
noncomputable def velocityFrom (kep : ℝ → ℝ → ℝ × ℝ) (o : Orbit) (m M : ℝ) : V3 :=
  let f := ρ.anomalyAny kep o M
  let K := ρ.rnd (o.K0 * m)
  match o.ecc with
  | none => ρ.rotateAny o (ρ.rnd (-K * f.1)) (ρ.rnd (K * f.2))
  | some p => ρ.rotateAny o (ρ.rnd (-K * f.1)) (ρ.rnd (K * ρ.rnd (f.2 + p.ecc)))

/-- `_get_velocity(m, t)` of the orbit that was built from the arguments `A`; `m` is `-m_star` for the planet, `m_planet` for the star, `-m_total`
for the relative velocity — `keplerian.py:580-631`. -/
noncomputable def computedVelocity (kep : ℝ → ℝ → ℝ × ℝ) (atan2F : ℝ → ℝ → ℝ) (A : Args) (o : Orbit) (m t : ℝ) : V3 :=
  ρ.velocityFrom kep o m (ρ.computedMeanAnomaly atan2F A o t)

/-- `get_radial_velocity(t, output_units=…)` — `keplerian.py:672-677`; `conv` is the factor between the units. -/
noncomputable def computedRvFull (kep : ℝ → ℝ → ℝ × ℝ) (atan2F : ℝ → ℝ → ℝ) (A : Args) (o : Orbit) (conv t : ℝ) : ℝ :=
  ρ.rnd (-conv * (ρ.computedVelocity kep atan2F A o o.m_planet t).z)

/-- The factor of `_get_acceleration` — `keplerian.py:681-687`. -/
noncomputable def accFactor (o : Orbit) (a m cosf : ℝ) : ℝ :=
  let K := ρ.rnd (o.K0 * m)
  match o.ecc with
  | none => ρ.rnd (-ρ.rnd (K ^ 2) / a)
  | some p =>
    ρ.rnd (ρ.rnd (ρ.rnd (K ^ 2) * ρ.rnd (ρ.rnd (ρ.rnd (p.ecc * cosf) + 1) ^ 2)) / ρ.rnd (a * ρ.rnd (ρ.rnd (p.ecc ^ 2) - 1)))

/-- `_get_acceleration(a, m, t)` — `keplerian.py:679-688`, for the mean anomaly `M`. -/
noncomputable def accelerationFrom (kep : ℝ → ℝ → ℝ × ℝ) (o : Orbit) (a m M : ℝ) : V3 :=
  let f := ρ.anomalyAny kep o M
  let factor := ρ.accFactor o a m f.2
  ρ.rotateAny o (ρ.rnd (factor * f.2)) (ρ.rnd (factor * f.1))

/-- `_get_acceleration(a, m, t)` of the orbit that was built from the arguments `A` — `keplerian.py:679-706`. -/
noncomputable def computedAcceleration (kep : ℝ → ℝ → ℝ × ℝ) (atan2F : ℝ → ℝ → ℝ) (A : Args) (o : Orbit) (a m t : ℝ) : V3 :=
  ρ.accelerationFrom kep o a m (ρ.computedMeanAnomaly atan2F A o t)

end Rounding
end Exo
