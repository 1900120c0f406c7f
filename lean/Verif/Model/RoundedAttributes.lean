import Verif.Model.Rounded

/-!
# The derived attributes in rounded arithmetic — `src/exoplanet/orbits/keplerian.py:144-148`, 172, 212-213
-/

namespace Exo
open Real

namespace Rounding
variable (ρ : Rounding)

/-- `self.m_total` — `keplerian.py:144`. -/
noncomputable def mTotal (o : Orbit) : ℝ := ρ.rnd (o.m_star + o.m_planet)

/-- `self.a_star` — `keplerian.py:147`. -/
noncomputable def aStar (o : Orbit) : ℝ := ρ.rnd (ρ.rnd (o.a * o.m_planet) / ρ.mTotal o)

/-- `self.a_planet` — `keplerian.py:148`. -/
noncomputable def aPlanet (o : Orbit) : ℝ := ρ.rnd (ρ.rnd (-o.a * o.m_star) / ρ.mTotal o)

/-- `self.K0` — `keplerian.py:172`, 212-213. -/
noncomputable def scaleK0 (o : Orbit) : ℝ :=
  let K0 := ρ.rnd (ρ.rnd (ρ.n o.period * o.a) / ρ.mTotal o)
  match o.ecc with
  | none => K0
  | some p => ρ.rnd (K0 / ρ.rnd √(ρ.rnd (1 - ρ.rnd (p.ecc ^ 2))))

end Rounding
end Exo
