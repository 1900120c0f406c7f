import Verif.Model.Keplerian
import Verif.Spec.Units

/-!
# Which keyword combinations `KeplerianOrbit` is documented to accept

Written from the docstring of `KeplerianOrbit` (`keplerian.py:20-71`), the error messages and the tutorial, in terms of
*which* keywords are present only.
-/

namespace Exo

/-- A circular orbit parameterised by its transit duration. -/
def Args.CircDuration (A : Args) : Prop := A.ecc.isNone ∧ A.duration.isSome

/-- The documented keyword combinations (presence only). -/
structure Args.Admissible (A : Args) : Prop where
  /-- a circular orbit with a duration needs `b` and `period` -/
  circ_dur : A.CircDuration → A.b.isSome ∧ A.period.isSome
  /-- at least one of `a` and `period` -/
  size : A.a.isSome ∨ A.period.isSome
  /-- with both the size (`a`, or a circular duration) and the period, the density is implied -/
  implied : (A.a.isSome ∨ A.CircDuration) → A.period.isSome → A.rho_star.isNone ∧ A.m_star.isNone
  /-- otherwise two of `rho_star`, `r_star`, `m_star`, or neither `r_star` nor `m_star` -/
  stellar : ¬ ((A.a.isSome ∨ A.CircDuration) ∧ A.period.isSome) →
    (A.r_star.isNone ∧ A.m_star.isNone) ∨ (A.rho_star.isNone ∧ A.r_star.isSome ∧ A.m_star.isSome) ∨
    (A.rho_star.isSome ∧ A.r_star.isNone ∧ A.m_star.isSome) ∨
    (A.rho_star.isSome ∧ A.r_star.isSome ∧ A.m_star.isNone)
  /-- an eccentric orbit needs `omega`, or both `sin_omega` and `cos_omega`, but not all three -/
  ecc_omega : A.ecc.isSome → (A.omega.isSome ∧ ¬ (A.sin_omega.isSome ∧ A.cos_omega.isSome)) ∨
    (A.omega.isNone ∧ A.sin_omega.isSome ∧ A.cos_omega.isSome)
  /-- at most one of `incl`, `b`, and (on eccentric orbits) `duration` -/
  b_incl : ¬ (A.b.isSome ∧ A.incl.isSome)
  b_dur : ¬ (A.b.isSome ∧ A.duration.isSome ∧ A.ecc.isSome)
  incl_dur : ¬ (A.incl.isSome ∧ A.duration.isSome)
  /-- not both `t0` and `t_periastron` -/
  time : ¬ (A.t0.isSome ∧ A.t_periastron.isSome)

/-- All unit labels make sense: they have the right dimension, and the deprecated `..._units` keywords are only used
with an unlabelled value. -/
structure Args.UnitsOk (C : Consts) (A : Args) : Prop where
  a : ∀ q, A.a = some q → q.compat C.rSun
  period : ∀ q, A.period = some q → q.compat C.day
  r_star : ∀ q, A.r_star = some q → q.compat C.rSun
  m_star : ∀ q, A.m_star = some q → q.compat C.mSun
  m_planet : ∀ q, A.m_planet = some q → q.compat C.mSun
  rho_star : ∀ q, A.rho_star = some q → q.compat C.gcc
  duration : ∀ q, A.duration = some q → q.compat C.day
  m_planet_kw : ∀ u, A.m_planet_units = some u → u.dim = C.mSun.dim ∧ ∃ x : ℝ, A.m_planet = some (x : Q)
  rho_star_kw : ∀ u, A.rho_star_units = some u → u.dim = C.gcc.dim ∧ ∃ x : ℝ, A.rho_star = some (x : Q)

end Exo
