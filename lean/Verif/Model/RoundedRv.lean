import Verif.Model.RoundedEcc

/-!
# Radial velocities in rounded arithmetic — `src/exoplanet/orbits/keplerian.py:657-670`
-/

namespace Exo
open Real

namespace Rounding
variable (ρ : Rounding)

/-- `get_radial_velocity(t, K=K)` — `keplerian.py:659-670`, for the mean anomaly `M`. -/
noncomputable def rvFrom (kep : ℝ → ℝ → ℝ × ℝ) (o : Orbit) (K M : ℝ) : ℝ :=
  let f := ρ.anomalyAny kep o M
  match o.ecc with
  | none => ρ.rnd (K * f.2)
  | some p =>
    ρ.rnd (K * ρ.rnd (ρ.rnd (ρ.rnd (p.cos_omega * f.2) - ρ.rnd (p.sin_omega * f.1)) + ρ.rnd (p.ecc * p.cos_omega)))

/-- `get_radial_velocity(t, K=K)` of the orbit that was built from the arguments `A` — `keplerian.py:657-670`. -/
noncomputable def computedRv (kep : ℝ → ℝ → ℝ × ℝ) (atan2F : ℝ → ℝ → ℝ) (A : Args) (o : Orbit) (K t : ℝ) : ℝ :=
  ρ.rvFrom kep o K (ρ.computedMeanAnomaly atan2F A o t)

end Rounding
end Exo
