import Verif.Model.BackpropRv
import Verif.Spec.BackpropStar

/-!
# Vocabulary of the properties of computed gradients of radial velocities
-/

namespace Exo
open Real

/-- The arguments of the constructor. -/
noncomputable def RvMode.args (s : RvMode) (m : KepMode) (q : RvPar → ℝ) : Args :=
  let A : Args := { m.args (fun p => q (.kep p)) with a := none, b := none, r_star := none }
  match s with
  | t0 => A
  | t_periastron => { A with t0 := none, t_periastron := some (q .t_periastron) }

/-- A positive period and, for an eccentric orbit, `0 ≤ e < 1` and `sin ω > -1`. -/
structure RvMode.Possible (m : KepMode) (q : RvPar → ℝ) : Prop where
  period : 0 < q (.kep .period)
  ecc : m ≠ .circular → 0 ≤ q (.kep .ecc) ∧ q (.kep .ecc) < 1
  omega : m ≠ .circular → -1 < m.sinOmega fun p => q (.kep p)

end Exo
