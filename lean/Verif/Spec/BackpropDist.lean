import Verif.Model.BackpropDist
import Verif.Model.Distributions
import Verif.Model.EccentricityVector
import Verif.Spec.BackpropRv

/-!
# Vocabulary of the properties of computed gradients of the distribution helpers
-/

namespace Exo

/-- The parameters of the orbit in a state of the sampler: eccentricity and argument of periastron from two values in the unit disc, taken in one order or the other. -/
noncomputable def diskOrbit (flip : Bool) (x y : State → ℝ) (σ : State) : KepPar → ℝ
  | .a => σ "a"
  | .period => σ "period"
  | .t0 => σ "t0"
  | .b => σ "b"
  | .r_star => σ "r_star"
  | .ecc => eccOf x y σ
  | .omega => (if flip then eccVector y x σ else eccVector x y σ).2
  | .sin_omega => 0
  | .cos_omega => 0
  | .r => σ "r"

/-- The parameters of the orbit with a time of periastron and of the radial velocity with a semi-amplitude in a state of the sampler. -/
noncomputable def diskRv (flip : Bool) (x y : State → ℝ) (σ : State) : RvPar → ℝ
  | .kep p => diskOrbit flip x y σ p
  | .t_periastron => σ "tperi"
  | .K => σ "semiamp"

/-- The potential is a number and its computed value and derivatives are right. -/
def PotentialRight (op : FlOp) (G : Graph String) (f : State → EReal) (σ : State) : Prop :=
  f σ ≠ ⊥ ∧ f σ ≠ ⊤ ∧ GradientRight op G (fun σ => (f σ).toReal) σ

end Exo
