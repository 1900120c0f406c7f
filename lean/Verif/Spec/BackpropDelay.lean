import Verif.Model.BackpropDelay
import Verif.Spec.Backprop

/-!
# Vocabulary of the properties of computed gradients of light-delayed positions
-/

namespace Exo
open Real

/-- `KeplerianOrbit(a=..., period=..., t0=..., incl=...)` -/
noncomputable def inclArgs (q : DelayPar → ℝ) : Args :=
  { a := some (q .a), period := some (q .period), t0 := some (q .t0), incl := some (q .incl) }

/-- The graph has the value of the function `f` and its derivatives with respect to all parameters at `q`. -/
def GradientRight {ι : Type} [DecidableEq ι] (op : FlOp) (G : Graph ι) (f : (ι → ℝ) → ℝ) (q : ι → ℝ) : Prop :=
  G.value op (fun i => .fin (q i)) = .fin (f q) ∧
    ∀ j, ∃ D, HasDerivAt (fun s => f (Function.update q j s)) D (q j) ∧ ∀ g : ℝ, G.back op (fun i => .fin (q i)) (.fin g) j = .fin (g * D)

end Exo
