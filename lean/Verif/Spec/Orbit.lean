import Verif.Model.Keplerian

/-!
# Vocabulary of the orbit properties: physically meaningful orbits, vector algebra
-/

namespace Exo

/-- A physically meaningful (bound, non-degenerate) orbit, in terms of the public attributes of the constructed
object. Used as a hypothesis; `Verif/Props/Physical.lean` proves that physically meaningful arguments give such
orbits. -/
structure Orbit.Physical (o : Orbit) : Prop where
  period_pos : 0 < o.period
  a_pos : 0 < o.a
  m_star_pos : 0 < o.m_star
  m_planet_nonneg : 0 ≤ o.m_planet
  r_star_pos : 0 < o.r_star
  rho_star_pos : 0 < o.rho_star
  ecc_nonneg : ∀ p, o.ecc = some p → 0 ≤ p.ecc
  ecc_lt_one : ∀ p, o.ecc = some p → p.ecc < 1
  /-- `(sin_omega, cos_omega)` is a point of the unit circle (automatic when `omega` is given). -/
  omega_unit : ∀ p, o.ecc = some p → p.sin_omega ^ 2 + p.cos_omega ^ 2 = 1
  /-- The inclination exists: `-1 ≤ cos i ≤ 1` (automatic when `incl` is given). -/
  cos_incl_abs : |o.cos_incl| ≤ 1

/-- The eccentricity of the orbit as a number: `0` when no `ecc` was given. -/
def Orbit.eccVal (o : Orbit) : ℝ := match o.ecc with | none => 0 | some p => p.ecc

namespace V3

/-- Componentwise sum. -/
def add (u v : V3) : V3 := ⟨u.x + v.x, u.y + v.y, u.z + v.z⟩
/-- Componentwise difference. -/
def sub (u v : V3) : V3 := ⟨u.x - v.x, u.y - v.y, u.z - v.z⟩
/-- Scalar multiple. -/
def smul (c : ℝ) (v : V3) : V3 := ⟨c * v.x, c * v.y, c * v.z⟩
/-- Squared Euclidean length. -/
def normSq (v : V3) : ℝ := v.x ^ 2 + v.y ^ 2 + v.z ^ 2
/-- Euclidean length. -/
noncomputable def norm (v : V3) : ℝ := Real.sqrt v.normSq
/-- Cross product. -/
def cross (u v : V3) : V3 := ⟨u.y * v.z - u.z * v.y, u.z * v.x - u.x * v.z, u.x * v.y - u.y * v.x⟩
/-- Zero vector. -/
def zero : V3 := ⟨0, 0, 0⟩

end V3
end Exo
