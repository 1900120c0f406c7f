import Verif.Model.Rounded

/-!
# Impact parameter and inclination in rounded arithmetic — `src/exoplanet/orbits/keplerian.py:185`, 212-235
-/

namespace Exo
open Real

namespace Rounding
variable (ρ : Rounding)

/-- `incl_factor` — `keplerian.py:185`, 212-214. -/
noncomputable def inclFactor (o : Orbit) : ℝ :=
  match o.ecc with
  | none => 1
  | some p => ρ.rnd (ρ.rnd (1 + ρ.rnd (p.ecc * p.sin_omega)) / ρ.rnd (1 - ρ.rnd (p.ecc ^ 2)))

/-- `self.dcosidb` — `keplerian.py:217-219`. -/
noncomputable def dcosidb (o : Orbit) : ℝ := ρ.rnd (ρ.rnd (ρ.inclFactor o * o.r_star) / o.a)

/-- `self.cos_incl` from the stored `self.b` — `keplerian.py:227`, 259. -/
noncomputable def cosIncl (o : Orbit) : ℝ := ρ.rnd (ρ.dcosidb o * o.b)

/-- `self.b` from the stored `self.incl` — `keplerian.py:235-236`. -/
noncomputable def impact (o : Orbit) : ℝ := ρ.rnd (ρ.cosF o.incl / ρ.dcosidb o)

end Rounding
end Exo
