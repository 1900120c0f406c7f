import Verif.Spec.Orbit

/-!
# Light travel time, without expansions (C111)
-/

namespace Exo
open Real

/-- Light that leaves a body at the time `s`, when the body is at the height `z s` above the plane of the sky through the origin (the `z`
axis points towards the observer), is seen at the time `t`, when times are counted as seen from the origin. -/
def SeenAt (c : ℝ) (z : ℝ → ℝ) (s t : ℝ) : Prop := c * (t - s) = -z s

/-- The speed at periastron on an orbit with semi-major axis `a`. -/
noncomputable def Orbit.topSpeed (o : Orbit) (a : ℝ) : ℝ := 2 * π / o.period * a * √((1 + o.eccVal) / (1 - o.eccVal))

/-- The acceleration at periastron on an orbit with semi-major axis `a`. -/
noncomputable def Orbit.topAcceleration (o : Orbit) (a : ℝ) : ℝ := (2 * π / o.period) ^ 2 * a / (1 - o.eccVal) ^ 2

end Exo
