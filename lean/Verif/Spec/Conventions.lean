import Verif.Spec.Motion
import Verif.Spec.Conjunction
import Mathlib.LinearAlgebra.Matrix.Notation

/-!
# The orbital conventions of the documentation (docs/tutorials/data-and-models.md:103-202)
-/

namespace Exo
open Real Matrix

/-- The rotation about the first axis, `P_x(φ)` of the documentation. -/
noncomputable def rotX (φ : ℝ) : Matrix (Fin 3) (Fin 3) ℝ := !![1, 0, 0; 0, cos φ, -sin φ; 0, sin φ, cos φ]
/-- The rotation about the third axis, `P_z(φ)` of the documentation. -/
noncomputable def rotZ (φ : ℝ) : Matrix (Fin 3) (Fin 3) ℝ := !![cos φ, -sin φ, 0; sin φ, cos φ, 0; 0, 0, 1]

/-- From the perifocal frame to the frame of the observer: `P_z(Ω) P_x(-i) P_z(ω)`. -/
noncomputable def documentedRotation (W i w : ℝ) : Matrix (Fin 3) (Fin 3) ℝ := rotZ W * rotX (-i) * rotZ w

/-- The position at true anomaly `f` on an ellipse with semimajor axis `a` and eccentricity `e`, in the perifocal frame. -/
noncomputable def perifocal (a e f : ℝ) : Fin 3 → ℝ :=
  ![a * (1 - e ^ 2) / (1 + e * cos f) * cos f, a * (1 - e ^ 2) / (1 + e * cos f) * sin f, 0]

/-- As a column. -/
def V3.vec (v : V3) : Fin 3 → ℝ := ![v.x, v.y, v.z]

/-- `f` is the true anomaly at time `t`: it belongs to a solution of Kepler's equation. -/
def IsTrueAnomaly (o : Orbit) (t f : ℝ) : Prop :=
  ∃ E, E - o.eccVal * sin E = 2 * π * (t - o.t_periastron) / o.period ∧
    cos f = (cos E - o.eccVal) / (1 - o.eccVal * cos E) ∧ sin f = √(1 - o.eccVal ^ 2) * sin E / (1 - o.eccVal * cos E)

/-- `w` is the argument of periastron that the orbit was given. -/
def IsOmega (o : Orbit) (w : ℝ) : Prop := cos w = o.cosOmega ∧ sin w = o.sinOmega

/-- The ascending node: the body at `x` with velocity `v` is in the plane of the sky and moves away from the observer. -/
def AtAscendingNode (x v : V3) : Prop := x.z = 0 ∧ v.z < 0
/-- The descending node. -/
def AtDescendingNode (x v : V3) : Prop := x.z = 0 ∧ 0 < v.z

/-- On the half-line with position angle `φ` (from north, `x`, to east, `y`). -/
def AtPositionAngle (φ : ℝ) (x : V3) : Prop := ∃ ρ, 0 < ρ ∧ x.x = ρ * cos φ ∧ x.y = ρ * sin φ

end Exo
