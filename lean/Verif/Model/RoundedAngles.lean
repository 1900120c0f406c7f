import Verif.Model.RoundedEcc

/-!
# Separation and position angle in rounded arithmetic — `src/exoplanet/orbits/keplerian.py:545-570`
-/

namespace Exo
open Real

namespace Rounding
variable (ρ : Rounding)

/-- `rho` and `theta` of the position `p` — `keplerian.py:567-568`. -/
noncomputable def anglesOf (atan2F : ℝ → ℝ → ℝ) (p : V3) : ℝ × ℝ :=
  (ρ.rnd √(ρ.rnd (ρ.rnd (p.x ^ 2) + ρ.rnd (p.y ^ 2))), atan2F p.y p.x)

/-- `get_relative_angles(t)` of the orbit that was built from the arguments `A`, without `parallax` and `light_delay` — `keplerian.py:545-570`. -/
noncomputable def computedAngles (kep : ℝ → ℝ → ℝ × ℝ) (atan2F : ℝ → ℝ → ℝ) (A : Args) (o : Orbit) (t : ℝ) : ℝ × ℝ :=
  ρ.anglesOf atan2F (ρ.computedPosition kep atan2F A o t)

end Rounding
end Exo
