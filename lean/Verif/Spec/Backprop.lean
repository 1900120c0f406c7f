import Verif.Model.Backprop
import Verif.Spec.Slopes
import Verif.Spec.SimpleChord
import Verif.Spec.LightCurve
import Verif.Spec.Nan
import Mathlib.Analysis.Calculus.Deriv.Basic
import Mathlib.Data.Fintype.Basic

/-!
# Vocabulary of the properties of computed gradients
-/

namespace Exo
open Real

instance : Fintype SimplePar := ⟨{.period, .duration, .t0, .b, .r_star, .ror, .r}, fun x => by cases x <;> simp⟩

/-- The flux of a planet that crosses the star on a chord, as a function of the parameters `q` of a `SimpleTransitOrbit`: the planet covers the
length `2 R √((1 + ror)² - b²)` within the duration. -/
noncomputable def simpleFlux (u1 u2 : ℝ) (q : SimplePar → ℝ) (t : ℝ) : ℝ :=
  fluxAt (getCl u1 u2) (q .r_star) (q .r)
    (simpleChord (2 * (q .r_star * √((1 + q .ror) ^ 2 - q .b ^ 2)) / q .duration) (q .period) (q .duration) (q .t0) (q .b) (q .r_star) t)

/-- The compiled operation has the value `L` and its derivatives at `(b, k)`. -/
structure FlOp.ExactAt (op : FlOp) (L : ℝ → ℝ → ℝ) (b k : ℝ) : Prop where
  value : op.value (.fin b) (.fin k) = .fin (L b k)
  back : ∃ db dk : ℝ, HasFDerivAt (fun q : ℝ × ℝ => L q.1 q.2) (db • ContinuousLinearMap.fst ℝ ℝ ℝ + dk • ContinuousLinearMap.snd ℝ ℝ ℝ) (b, k) ∧
    ∀ g : ℝ, op.backB (.fin g) (.fin b) (.fin k) = .fin (g * db) ∧ op.backR (.fin g) (.fin b) (.fin k) = .fin (g * dk)

/-- A result of a compiled operation has the value `F` and its derivatives at `(x, y)`. -/
structure ExactPair (value : Fl → Fl → Fl) (back : Fl → Fl → Fl → Fl × Fl) (F : ℝ → ℝ → ℝ) (x y : ℝ) : Prop where
  value : value (.fin x) (.fin y) = .fin (F x y)
  back : ∃ dx dy : ℝ, HasFDerivAt (fun q : ℝ × ℝ => F q.1 q.2) (dx • ContinuousLinearMap.fst ℝ ℝ ℝ + dy • ContinuousLinearMap.snd ℝ ℝ ℝ) (x, y) ∧
    ∀ g : ℝ, back (.fin g) (.fin x) (.fin y) = (.fin (g * dx), .fin (g * dy))

/-- The compiled operation has the value of the model and, apart from the centre of the star, its derivatives: the brightness along the limb of
the planet (C106). -/
structure FlOp.Exact (op : FlOp) (u1 u2 : ℝ) : Prop where
  value : op.value.Ok (getCl u1 u2)
  back : ∀ g b k : ℝ, 0 < b → 0 < k →
    op.backB (.fin g) (.fin b) (.fin k) = .fin (g * -motionLoss u1 u2 b k) ∧ op.backR (.fin g) (.fin b) (.fin k) = .fin (g * -growthLoss u1 u2 b k)

/-- Parameters of a transit that exists. -/
structure SimplePossible (q : SimplePar → ℝ) : Prop where
  period : 0 < q .period
  duration : 0 < q .duration
  r_star : 0 < q .r_star
  ror : 0 < 1 + q .ror
  b : |q .b| < 1 + q .ror
  r : 0 < q .r

/-- The `i`-th entry of the solution vector: the integral of `1`, `μ` or `4μ² - 2` over the visible part of the stellar disc. -/
noncomputable def solutionEntry (i : Fin 3) (b k : ℝ) : ℝ := match i with
  | 0 => (quadSolutionVector b k).1
  | 1 => (quadSolutionVector b k).2.1
  | 2 => (quadSolutionVector b k).2.2

namespace Graph
variable {ι : Type} (L : ℝ → ℝ → ℝ)

/-- The real function that a graph stands for. -/
noncomputable def real (x : ι → ℝ) : Graph ι → ℝ
  | input i => x i
  | const c => c
  | add a b => a.real x + b.real x
  | sub a b => a.real x - b.real x
  | mul a b => a.real x * b.real x
  | div a b => a.real x / b.real x
  | neg a => -a.real x
  | pow a k => a.real x ^ k
  | powr a c => a.real x ^ c
  | sqrt a => √(a.real x)
  | sin a => Real.sin (a.real x)
  | cos a => Real.cos (a.real x)
  | arccos a => Real.arccos (a.real x)
  | arctan2 a b => Exo.arctan2 (a.real x) (b.real x)
  | keplerSin a b => (keplerOp (a.real x) (b.real x)).1
  | keplerCos a b => (keplerOp (a.real x) (b.real x)).2
  | mod a b => pymod (a.real x) (b.real x)
  | side a b => if |a.real x| < b.real x then 1 else -1
  | switch a b => if 0 < a.real x then b.real x else 0
  | ifSmall a c b d => if |a.real x| < c then b.real x else d.real x
  | limbDark a b => L (a.real x) (b.real x)
  | @pick _ k l edges values a =>
    let n := ((List.finRange k).filter fun i => decide ((edges i).real x < a.real x)).length
    if h : n < l then (values ⟨n, h⟩).real x else 0
  | overwritten _ b => b.real x
  | @index _ l values a => if h : 0 ≤ a.real x ∧ ⌊a.real x⌋.toNat < l then (values ⟨⌊a.real x⌋.toNat, h.2⟩).real x else 0
  | log a => Real.log (a.real x)
  | solution i a b => solutionEntry i (a.real x) (b.real x)
  | exp a => Real.exp (a.real x)

/-- The graph is zero, also after a small change of one parameter. -/
def VanishesAround (x : ι → ℝ) (G : Graph ι) : Prop :=
  ∀ (j : ι) (y : ℝ → ι → ℝ), (∀ s i, i ≠ j → y s i = x i) → (∀ s, y s j = s) → ∀ᶠ s in nhds (x j), G.real L (y s) = 0

/-- No operation of the graph is at a point where it has no value or no derivative. -/
def Regular (op : FlOp) (x : ι → ℝ) : Graph ι → Prop
  | input _ => True
  | const _ => True
  | add a b => a.Regular op x ∧ b.Regular op x
  | sub a b => a.Regular op x ∧ b.Regular op x
  | mul a b => a.Regular op x ∧ b.Regular op x
  | div a b => a.Regular op x ∧ b.Regular op x ∧ b.real L x ≠ 0
  | neg a => a.Regular op x
  | pow a _ => a.Regular op x
  | powr a _ => a.Regular op x ∧ 0 < a.real L x
  | sqrt a => a.Regular op x ∧ 0 < a.real L x
  | sin a => a.Regular op x
  | cos a => a.Regular op x
  | arccos a => a.Regular op x ∧ |a.real L x| < 1
  | arctan2 a b => a.Regular op x ∧ b.Regular op x ∧ (0 < b.real L x ∨ a.real L x ≠ 0)
  | keplerSin a b => a.Regular op x ∧ b.Regular op x ∧ ExactPair (fun M e => (op.kepler M e).1) op.backSin (fun M e => (keplerOp M e).1) (a.real L x) (b.real L x)
  | keplerCos a b => a.Regular op x ∧ b.Regular op x ∧ ExactPair (fun M e => (op.kepler M e).2) op.backCos (fun M e => (keplerOp M e).2) (a.real L x) (b.real L x)
  | mod a b => a.Regular op x ∧ b.Regular op x ∧ b.real L x ≠ 0 ∧ ∀ m : ℤ, a.real L x ≠ b.real L x * m
  | side a b => a.Regular op x ∧ b.Regular op x ∧ |a.real L x| ≠ b.real L x
  | switch a b => a.Regular op x ∧ b.Regular op x ∧ (a.real L x ≠ 0 ∨ b.VanishesAround L x)
  | ifSmall a c b d => a.Regular op x ∧ b.Regular op x ∧ d.Regular op x ∧ |a.real L x| ≠ c
  | limbDark a b => a.Regular op x ∧ b.Regular op x ∧ op.ExactAt L (a.real L x) (b.real L x)
  | @pick _ k l edges values a => (∀ i, (edges i).Regular op x) ∧ (∀ i, (values i).Regular op x) ∧ a.Regular op x ∧ k < l ∧
    ∀ i, (edges i).real L x ≠ a.real L x
  | overwritten _ _ => False
  | @index _ l values a => (∀ i, (values i).Regular op x) ∧ a.Regular op x ∧ 0 < a.real L x ∧ a.real L x < l ∧ ∀ k : ℤ, a.real L x ≠ k
  | log a => a.Regular op x ∧ 0 < a.real L x
  | solution i a b => a.Regular op x ∧ b.Regular op x ∧ ExactPair (op.solution i) (op.backSolution i) (solutionEntry i) (a.real L x) (b.real L x)
  | exp a => a.Regular op x

end Graph
end Exo
