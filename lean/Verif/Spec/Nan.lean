import Verif.Model.FlOrbit
import Verif.Spec.Orbit

/-!
# Vocabulary of the properties of impossible parameters
-/

namespace Exo
open Real

/-- A bound orbit whose sizes, masses and period are meaningful; whether it can have the requested inclination is left open. -/
structure Orbit.Bound (o : Orbit) : Prop where
  period_pos : 0 < o.period
  a_pos : 0 < o.a
  m_star_pos : 0 < o.m_star
  m_planet_nonneg : 0 ≤ o.m_planet
  r_star_pos : 0 < o.r_star
  rho_star_pos : 0 < o.rho_star
  ecc_nonneg : ∀ p, o.ecc = some p → 0 ≤ p.ecc
  ecc_lt_one : ∀ p, o.ecc = some p → p.ecc < 1
  omega_unit : ∀ p, o.ecc = some p → p.sin_omega ^ 2 + p.cos_omega ^ 2 = 1

theorem Orbit.Physical.bound {o : Orbit} (h : o.Physical) : o.Bound :=
  ⟨h.period_pos, h.a_pos, h.m_star_pos, h.m_planet_nonneg, h.r_star_pos, h.rho_star_pos, h.ecc_nonneg, h.ecc_lt_one,
    h.omega_unit⟩

/-- The square of the impact parameter, over `(1 - e²)²`, for which the duration formula of `keplerian.py:237-258` holds, as a fraction:
numerator and denominator. -/
noncomputable def durationFraction (o : Orbit) (e s d : ℝ) : ℝ × ℝ :=
  let c := sin (π * d * ((1 + e * s) / (1 - e ^ 2)) / o.period)
  ((o.a_planet / o.r_star * c) ^ 2 - 1, (c * (1 + e * s)) ^ 2 - (1 - e ^ 2) ^ 2)

/-- The `duration` of an eccentric orbit is one that the orbit can have at some impact parameter (no condition otherwise). -/
def DurationPossible (C : Consts) (A : Args) (o : Orbit) : Prop :=
  ∀ d p dv, A.duration = some d → o.ecc = some p → toUnitVal d C.day = .ok dv →
    (durationFraction o p.ecc p.sin_omega dv).2 ≠ 0 ∧
      0 ≤ (durationFraction o p.ecc p.sin_omega dv).1 / (durationFraction o p.ecc p.sin_omega dv).2

/-- The orbit as doubles. -/
noncomputable def Orbit.toFl (o : Orbit) : FlOrbit where
  a := o.a
  period := o.period
  rho_star := o.rho_star
  r_star := o.r_star
  m_star := o.m_star
  m_planet := o.m_planet
  m_total := o.m_total
  n := o.n
  a_star := o.a_star
  a_planet := o.a_planet
  K0 := o.K0
  Omega := o.Omega.map Fl.fin
  ecc := o.ecc.map fun p => ⟨p.ecc, p.cos_omega, p.sin_omega⟩
  M0 := o.M0
  dcosidb := o.dcosidb
  b := o.b
  cos_incl := o.cos_incl
  incl := o.incl
  sin_incl := o.sin_incl
  t0 := o.t0
  t_periastron := o.t_periastron
  tref := o.tref

/-- The vector as doubles. -/
def V3.toFl (v : V3) : FlV3 := ⟨v.x, v.y, v.z⟩

/-- The compiled flux is the exact one where its arguments are numbers. -/
def FlLimbDark.Ok (ld : FlLimbDark) (c : ℝ × ℝ × ℝ) : Prop :=
  ∀ b k : ℝ, ld (.fin b) (.fin k) = .fin (quadLimbdarkLightCurve c b k)

/-- The light curve is exactly zero: whatever the limb darkening, the radius of the planet, the times, the exposure times and the selection
of the times in transit. -/
def Flat (r_star : Fl) (pos : ℝ → FlV3) : Prop :=
  ∀ (ld : FlLimbDark) (r : ℝ) (t : List ℝ) (texp : Option (ℝ × List ℝ × List ℝ)) (inds : Option (List ℕ)),
    lightCurveF ld r_star pos r t texp inds = t.map fun _ => Fl.fin 0

end Exo
