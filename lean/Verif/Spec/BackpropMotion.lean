import Verif.Model.BackpropMotion
import Verif.Spec.BackpropRv

/-!
# Vocabulary of the properties of computed gradients of positions, velocities and accelerations
-/

namespace Exo

/-- A component of a vector. -/
def Coord.of : Coord → V3 → ℝ
  | x, v => v.x
  | y, v => v.y
  | z, v => v.z

/-- The position, velocity or acceleration of a body at a time. -/
noncomputable def Orbit.motion (C : Consts) (o : Orbit) (t : ℝ) : Body → Motion → V3
  | .planet, .position => o.planetPosition C t
  | .planet, .velocity => o.planetVelocity t
  | .planet, .acceleration => o.planetAcceleration t
  | .star, .position => o.starPosition C t
  | .star, .velocity => o.starVelocity t
  | .star, .acceleration => o.starAcceleration t
  | .relative, .position => o.relativePosition C t
  | .relative, .velocity => o.relativeVelocity t
  | .relative, .acceleration => o.relativeAcceleration t

/-- The body whose acceleration is asked for moves: the star does if the planet has a mass, and the planet if the star has one. -/
def Orbit.Moves (o : Orbit) : Body → Prop
  | .planet => o.m_star ≠ 0
  | .star => o.m_planet ≠ 0
  | .relative => True

end Exo
