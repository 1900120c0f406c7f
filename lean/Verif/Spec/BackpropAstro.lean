import Verif.Model.BackpropAstro
import Verif.Spec.BackpropKepler

/-!
# Vocabulary of the properties of computed gradients of astrometric positions
-/

namespace Exo
open Real

namespace AstroMode
variable (m : AstroMode) (q : AstroPar → ℝ)

/-- The arguments of the constructor. -/
noncomputable def args : Args :=
  let A : Args := { m.shape.args (fun p => q (.kep p)) with b := none, r_star := none, incl := some (q .incl), Omega := if m.node then some (q .Omega) else none }
  match m.ref with
  | .t0 => A
  | .t_periastron => { A with t0 := none, t_periastron := some (q .t_periastron) }

/-- The arguments of the constructor, with the radius of the star. -/
noncomputable def argsWithStar : Args := { m.args q with r_star := some (q (.kep .r_star)) }

/-- The parallax, if it is given. -/
noncomputable def px : Option ℝ := if m.scaled then some (q .parallax) else none

/-- A positive period and, for an eccentric orbit, `0 ≤ e < 1` and `sin ω > -1`. -/
structure Possible : Prop where
  period : 0 < q (.kep .period)
  ecc : m.shape ≠ .circular → 0 ≤ q (.kep .ecc) ∧ q (.kep .ecc) < 1
  omega : m.shape ≠ .circular → -1 < m.shape.sinOmega fun p => q (.kep p)

/-- The separation and the position angle of the planet as functions of the parameters. -/
noncomputable def separation (C : Consts) (o : (AstroPar → ℝ) → Orbit) (t : ℝ) (q : AstroPar → ℝ) : ℝ := ((o q).relativeAngles C t (m.px q)).1
/-- See `separation`. -/
noncomputable def positionAngle (C : Consts) (o : (AstroPar → ℝ) → Orbit) (t : ℝ) (q : AstroPar → ℝ) : ℝ := ((o q).relativeAngles C t (m.px q)).2

end AstroMode

/-- The angle between `-π` (excluded) and `π` that differs from `x` by whole turns. -/
noncomputable def wrapped (x : ℝ) : ℝ := toIocMod two_pi_pos (-π) x

end Exo
