import Verif.Model.BackpropDuration
import Verif.Spec.BackpropKepler

/-!
# Vocabulary of the properties of computed gradients with respect to the duration of the transit
-/

namespace Exo
open Real

/-- The arguments of the constructor. -/
noncomputable def Duration.args (m : KepMode) (q : DurPar → ℝ) : Args :=
  let A : Args := { m.args (fun p => q (.kep p)) with duration := some (q .duration) }
  match m with
  | .circular => { A with a := none, ror := some (q .ror) }
  | _ => { A with b := none }

/-- Parameters of a transit: positive sizes; for a circular orbit a duration of less than a period and an impact parameter with which the planet
touches the star; for an eccentric orbit `0 ≤ e < 1` and `sin ω > -1`. -/
structure Duration.Possible (m : KepMode) (q : DurPar → ℝ) : Prop where
  period : 0 < q (.kep .period)
  r_star : 0 < q (.kep .r_star)
  r : 0 < q (.kep .r)
  circular : m = .circular → 0 < q .duration ∧ q .duration < q (.kep .period) ∧ 0 < 1 + q .ror ∧ |q (.kep .b)| < 1 + q .ror
  a : m ≠ .circular → 0 < q (.kep .a)
  ecc : m ≠ .circular → 0 ≤ q (.kep .ecc) ∧ q (.kep .ecc) < 1
  omega : m ≠ .circular → -1 < m.sinOmega fun p => q (.kep p)

end Exo
