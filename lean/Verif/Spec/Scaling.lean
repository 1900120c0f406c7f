import Verif.Model.Keplerian
import Verif.Spec.Orbit

/-!
# Changes of scale

A system in which all lengths are `l` times as long, all times `τ` times as long, and all masses are what Kepler's third law then asks for:
`l³ / τ²` times as large; densities are `1 / τ²` times as large, velocities `l / τ` times, accelerations `l / τ²` times.
-/

namespace Exo
open Real

/-- The value times `c`, in the same unit. -/
noncomputable def Q.times (c : ℝ) (q : Q) : Q := ⟨c * q.val, q.unit⟩

/-- The arguments of the scaled system; angles and ratios stay what they are. -/
noncomputable def Args.scaled (l τ : ℝ) (A : Args) : Args :=
  { A with
    period := A.period.map (Q.times τ)
    t0 := A.t0.map (Q.times τ)
    t_periastron := A.t_periastron.map (Q.times τ)
    duration := A.duration.map (Q.times τ)
    a := A.a.map (Q.times l)
    r_star := A.r_star.map (Q.times l)
    m_star := A.m_star.map (Q.times (l ^ 3 / τ ^ 2))
    m_planet := A.m_planet.map (Q.times (l ^ 3 / τ ^ 2))
    rho_star := A.rho_star.map (Q.times (1 / τ ^ 2)) }

/-- The attributes of the scaled system. -/
noncomputable def Orbit.scaled (l τ : ℝ) (o : Orbit) : Orbit :=
  { o with
    a := l * o.a
    a_star := l * o.a_star
    a_planet := l * o.a_planet
    r_star := l * o.r_star
    period := τ * o.period
    t0 := τ * o.t0
    t_periastron := τ * o.t_periastron
    tref := τ * o.tref
    n := 1 / τ * o.n
    m_star := l ^ 3 / τ ^ 2 * o.m_star
    m_planet := l ^ 3 / τ ^ 2 * o.m_planet
    m_total := l ^ 3 / τ ^ 2 * o.m_total
    rho_star := 1 / τ ^ 2 * o.rho_star
    K0 := l / τ / (l ^ 3 / τ ^ 2) * o.K0
    durJac := o.durJac.map fun j => ⟨l / τ * j.a, l / τ * j.a_star, l / τ * j.a_planet, 1 / τ ^ 3 * j.rho_star⟩
    warp := fun t => τ * o.warp (t / τ) }

end Exo
