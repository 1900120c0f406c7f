import Verif.Model.Py
import Mathlib.Analysis.SpecialFunctions.Log.ENNRealLogExp
import Mathlib.Analysis.SpecialFunctions.Pow.Real
import Mathlib.Analysis.SpecialFunctions.Sqrt
import Mathlib.Analysis.SpecialFunctions.Gamma.Basic

/-!
# The back-end (PyMC / PyMC3) as seen from exoplanet

exoplanet does not sample: its distribution helpers register random variables, potentials and deterministics with the back-end.
They are modelled as the list of these registrations. A sampler state assigns a real number to each registered free variable
(one entry of the variable when `shape` is used; `Model/DistributionShapes` has the arrays).

Modelled of the back-ends: the densities of the families used here, truncation (`pm.Truncated`, normalised; PyMC3 `pm.Bound`, not
normalised), the keyword under which a start value is understood (`initval`; PyMC3: `testval`), and that a nested
`pm.Model(name=...)` prefixes names and registers with the parent. Not modelled: transforms, tuning, sampling (names that are taken: `Model/Names`).
-/

namespace Exo
open scoped ENNReal

/-- Which back-end is in use: `USING_PYMC3` (src/exoplanet/compat.py). -/
inductive Backend where
  | pymc3
  | pymc
  deriving DecidableEq, Repr

/-- A sampler state: the value of each free variable. -/
abbrev State := String → ℝ

/-- Values of keyword arguments: a number or tensor (a function of the sampler state), a number that may be NaN (`none`), a sequence
of numbers, Python's `None`, or anything else. -/
inductive Val where
  | num (f : State → ℝ)
  | nanable (f : State → Option ℝ)
  | seq (l : List (State → ℝ))
  | none
  | obj (tag : String)

/-- A Python `dict` of keyword arguments. -/
abbrev Kwargs := List (String × Val)

namespace Kwargs

/-- `k in d`. -/
def mem (d : Kwargs) (k : String) : Bool := d.any (fun p => p.1 == k)

/-- `d.get(k, dflt)`. -/
def get (d : Kwargs) (k : String) (dflt : Val) : Val :=
  match d.find? (fun p => p.1 == k) with
  | some p => p.2
  | Option.none => dflt

/-- `d` after `d.pop(k, …)`. -/
def del (d : Kwargs) (k : String) : Kwargs := d.filter (fun p => !(p.1 == k))

/-- `d.pop(k, dflt)`. -/
def pop (d : Kwargs) (k : String) (dflt : Val) : Val × Kwargs := (d.get k dflt, d.del k)

/-- `d[k] = v`, `dict(d, k=v)`. -/
def set (d : Kwargs) (k : String) (v : Val) : Kwargs := d.del k ++ [(k, v)]

/-- `d.setdefault(k, v)`. -/
def setdefault (d : Kwargs) (k : String) (v : Val) : Kwargs := if d.mem k then d else d ++ [(k, v)]

/-- `f(k1=v1, ..., **d)`: a `TypeError` if a key is given twice. -/
def merge (explicit d : Kwargs) : Except PyErr Kwargs :=
  if explicit.any (fun p => d.mem p.1) then .error (.typeError "multiple values for keyword argument") else .ok (explicit ++ d)

end Kwargs

/-- `kwargs.pop("initval", kwargs.pop("testval", dflt))`: the default argument is evaluated first, so both keys are removed. -/
def popInitval (d : Kwargs) (dflt : Val) : Val × Kwargs :=
  let (t, d) := d.pop "testval" dflt
  d.pop "initval" t

/-- The families of distributions used by exoplanet. -/
inductive Family where
  | normal
  | uniform
  | beta
  | halfNormal
  | weibull
  deriving DecidableEq, Repr

/-- A distribution object, `pm.Family.dist(**params)`, possibly truncated: `pm.Truncated` is normalised, PyMC3's `pm.Bound` is not. -/
inductive Dist where
  | plain (f : Family) (params : Kwargs)
  | truncated (f : Family) (params : Kwargs) (lower upper : Option ℝ)
  | bound (f : Family) (params : Kwargs) (lower upper : Option ℝ)

/-- What is registered with the model. `kwargs` are the keyword arguments handed to the back-end's constructor. -/
inductive Reg where
  | free (name : String) (d : Dist) (kwargs : Kwargs)
  | potential (name : String) (f : State → EReal)
  | deterministic (name : String) (f : State → List ℝ)

/-- A numeric parameter. -/
def Val.toNum (v : Val) (dflt : ℝ) (σ : State) : ℝ :=
  match v with
  | .num f => f σ
  | .nanable f => (f σ).getD dflt
  | _ => dflt

/-- Division, NaN (`none`) by zero. (`x / 0` is `±inf` for `x ≠ 0`; neither is a usable start value.) -/
noncomputable def npDiv (a b : ℝ) : Option ℝ := if b = 0 then Option.none else some (a / b)

/-- `pt.log(x)` for `x ≥ 0`, with `log 0 = -∞`. (NaN for `x < 0` is represented by `-∞`, which also rejects the state.) -/
noncomputable def ptLog (x : ℝ) : EReal := ENNReal.log (ENNReal.ofReal x)

/-- Normal density. -/
noncomputable def normalPdf (mu sigma x : ℝ) : ℝ := Real.exp (-(x - mu) ^ 2 / (2 * sigma ^ 2)) / (sigma * Real.sqrt (2 * Real.pi))

/-- Uniform density. -/
noncomputable def uniformPdf (lower upper x : ℝ) : ℝ := if lower ≤ x ∧ x ≤ upper then 1 / (upper - lower) else 0

/-- Beta density. -/
noncomputable def betaPdf (alpha beta x : ℝ) : ℝ :=
  if 0 < x ∧ x < 1 then
    Real.Gamma (alpha + beta) / (Real.Gamma alpha * Real.Gamma beta) * x ^ (alpha - 1) * (1 - x) ^ (beta - 1)
  else 0

/-- Half-normal density. -/
noncomputable def halfNormalPdf (sigma x : ℝ) : ℝ :=
  if 0 ≤ x then Real.sqrt (2 / Real.pi) / sigma * Real.exp (-x ^ 2 / (2 * sigma ^ 2)) else 0

/-- Weibull density, shape `alpha`, scale `beta`. -/
noncomputable def weibullPdf (alpha beta x : ℝ) : ℝ :=
  if 0 ≤ x then alpha / beta * (x / beta) ^ (alpha - 1) * Real.exp (-(x / beta) ^ alpha) else 0

/-- The density of a family, with the back-ends' default parameters. -/
noncomputable def Family.pdf (f : Family) (params : Kwargs) (σ : State) (x : ℝ) : ℝ :=
  match f with
  | .normal => normalPdf ((params.get "mu" .none).toNum 0 σ) ((params.get "sigma" .none).toNum 1 σ) x
  | .uniform => uniformPdf ((params.get "lower" .none).toNum 0 σ) ((params.get "upper" .none).toNum 1 σ) x
  | .beta => betaPdf ((params.get "alpha" .none).toNum 1 σ) ((params.get "beta" .none).toNum 1 σ) x
  | .halfNormal => halfNormalPdf ((params.get "sigma" .none).toNum 1 σ) x
  | .weibull => weibullPdf ((params.get "alpha" .none).toNum 1 σ) ((params.get "beta" .none).toNum 1 σ) x

end Exo
