import Verif.Model.BackpropLaw
import Verif.Model.Distributions
import Verif.Spec.BackpropKepler

/-!
# Vocabulary of the properties of computed gradients with respect to the limb darkening coefficients
-/

namespace Exo
open Real

/-- What the entries of the solution vector integrate over the visible part of the stellar disc. -/
noncomputable def solutionIntegrand (i : Fin 3) (p : ℝ × ℝ) : ℝ := match i with
  | 0 => 1
  | 1 => muAt p
  | 2 => 4 * muAt p ^ 2 - 2

/-- The compiled solution vector has the values of the model and, apart from the centre of the star, its derivatives. -/
structure FlOp.ExactSolution (op : FlOp) : Prop where
  value : ∀ (i : Fin 3) (b k : ℝ), op.solution i (.fin b) (.fin k) = .fin (solutionEntry i b k)
  back : ∀ (i : Fin 3) (b k : ℝ), 0 < b → 0 < k → ExactPair (op.solution i) (op.backSolution i) (solutionEntry i) b k

/-- The parameters of the orbit among all parameters. -/
def LawPar.orbit (q : LawPar → ℝ) (p : KepPar) : ℝ := q (.kep p)

/-- The flux as a function of all parameters, also the limb darkening coefficients. -/
noncomputable def lawFlux (C : Consts) (o : (KepPar → ℝ) → Orbit) (t : ℝ) (q : LawPar → ℝ) : ℝ :=
  fluxAt (getCl (q .u1) (q .u2)) (q (.kep .r_star)) (q (.kep .r)) ((o (LawPar.orbit q)).relativePosition C t)

/-- `KeplerianOrbit(period=(t1 - t0) / n, t0=t0, b=b)` — `docs/tutorials/data-and-models.md:466`, 480. -/
noncomputable def Tutorial.args (n : ℝ) (b : State → ℝ) (σ : State) : Args :=
  { period := some ((σ "t1" - σ "t0") / n), t0 := some (σ "t0"), b := some (b σ) }

/-- A state of the sampler: transits in order, and the two variables of Kipping (2013) between zero and one. -/
structure Tutorial.Possible (n : ℝ) (σ : State) : Prop where
  n : 0 < n
  order : σ "t0" < σ "t1"
  q1 : 0 < σ "__u_q1" ∧ σ "__u_q1" ≤ 1
  q2 : 0 ≤ σ "__u_q2" ∧ σ "__u_q2" ≤ 1

end Exo
