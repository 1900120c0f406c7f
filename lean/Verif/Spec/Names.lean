import Verif.Model.Names
import Verif.Spec.Distributions
import Mathlib.MeasureTheory.Integral.Marginal
import Mathlib.Logic.Function.DependsOn

/-!
# Several distribution helpers in one model (C96)
-/

namespace Exo
open MeasureTheory
open scoped ENNReal

/-- The names the caller gives to a helper: the ones under which the results are found in a trace. -/
def Helper.publicNames : Helper → List String
  | .angle n _ _ => [n]
  | .unitDisk nx ny _ => [nx, ny]
  | .quadLimbDark n _ => [n]
  | .impactParameter n _ _ => [n]
  | .kipping13 n _ _ _ _ _ => [n]
  | .vaneylen19 n _ _ _ _ _ => [n]

/-- The endings that the helpers append to the names of their auxiliary variables. -/
def reservedEndings : List String :=
  ["_regularization", "_jacobian", "_alpha", "_beta", "_sigma_gauss", "_sigma_rayleigh", "_frac", "_prior",
    "::alpha", "::beta", "::sigma_gauss", "::sigma_rayleigh", "::frac", "::prior"]

/-- A name that cannot be confused with the name of an auxiliary variable: it does not begin with two underscores, and does not end
like one. -/
def OrdinaryName (n : String) : Prop := (∀ s, n ≠ "__" ++ s) ∧ ∀ e ∈ reservedEndings, ∀ s, n ≠ s ++ e

/-- The (not normalised) probability that the model gives to the states in `A`: the joint density integrated over all free
variables. (Nothing depends on variables that are not registered; they are put at zero.) -/
noncomputable def mass (rs : List Reg) (A : Set State) : ℝ≥0∞ :=
  lmarginal (fun _ => volume) (freeNames rs).toFinset (fun σ => jointDensity rs σ * A.indicator 1 σ) (fun _ => 0)

/-- An event about the free variables of a model: measurable, and decided by the values of these variables. -/
def EventOf (rs : List Reg) (A : Set State) : Prop :=
  MeasurableSet A ∧ DependsOn (fun σ => σ ∈ A) {n | n ∈ freeNames rs}

/-- Keyword arguments that do not refer to other variables of the model. (`unit_disk`, `quad_limb_dark` and `impact_parameter` replace
the limits; a radius ratio that is a variable of the model changes the impact parameter, and not the variable that is sampled.) -/
def Helper.SelfContained : Helper → Prop
  | .angle _ _ kw => PlainKwargs kw
  | .unitDisk _ _ _ => True
  | .quadLimbDark _ _ => True
  | .impactParameter _ _ _ => True
  | .kipping13 _ _ _ _ _ kw => PlainKwargs kw
  | .vaneylen19 _ _ _ _ _ kw => PlainKwargs kw

/-- The value that the trace reports under the name of a deterministic. -/
def Reported (rs : List Reg) (n : String) (σ : State) (l : List ℝ) : Prop := ∃ f, Reg.deterministic n f ∈ rs ∧ f σ = l

end Exo
