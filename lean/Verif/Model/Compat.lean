import Verif.Model.PyMC
import Verif.Model.LimbDark
import Verif.Model.Distributions

/-!
# Back-end selection (src/exoplanet/compat.py) and deprecation wrappers (src/exoplanet/utils.py)
-/

namespace Exo

/-- What the interpreter offers: the environment variable `EXOPLANET_FORCE_PYMC3` and which dotted names can be imported (modules, and
names inside modules for `from m import n`). Importing fails with `ImportError` only (a package that raises something else while
loading is not modelled). -/
structure PyEnv where
  force : Option String
  has : String → Bool

/-- `import m` / `from m import n` for the dotted name `m.n`. -/
def PyEnv.import (E : PyEnv) (name : String) : Except PyErr String :=
  if E.has name then .ok name else .error (.importError name)

/-- compat.py:3-24: `pm` (the imported module) and `USING_PYMC3`. -/
def selectBackend (E : PyEnv) : Except PyErr (String × Backend) :=
  if E.force.getD "0" = "1" then
    match E.import "pymc3" with
    | .ok pm => .ok (pm, .pymc3)
    | .error e => .error e
  else
    match E.import "pymc" with
    | .ok pm => .ok (pm, .pymc)
    | .error _ =>
      match E.import "pymc3" with
      | .ok pm => .ok (pm, .pymc3)
      | .error _ => .error (.importError "No compatible version of PyMC found.")

/-- `try: from a import n; except ImportError: from b import n`. -/
def importOr (E : PyEnv) (a b : String) : Except PyErr String :=
  match E.import a with
  | .ok x => .ok x
  | .error _ => E.import b

/-- The names that compat.py binds for the rest of the package, each with the dotted name of the object bound. -/
structure CompatNames where
  pm : String
  backend : Backend
  ops : String
  function : String
  grad : String
  tensor : String
  ifelse : String
  assertOp : String
  verifyGrad : String
  changeFlags : String

/-- compat.py, the whole module. The line `tensor.abs = tensor.abs_` (33) has no counterpart here. `theano.config.change_flags` and
`pytensor.config.change_flags` are attribute accesses; the former falls back when the attribute is missing (41-46), the latter is
taken to exist whenever `pytensor` does. -/
def compatModule (E : PyEnv) : Except PyErr CompatNames := do
  let (pm, b) ← selectBackend E
  match b with
  | .pymc3 =>
    let ops ← E.import "exoplanet_core.pymc3.ops"
    let function ← E.import "theano.function"
    let grad ← E.import "theano.grad"
    let tensor ← E.import "theano.tensor"
    let ifelse ← E.import "theano.ifelse.ifelse"
    let assertOp ← importOr E "theano.assert_op.Assert" "theano.tensor.opt.Assert"
    let verifyGrad ← E.import "theano.gradient.verify_grad"
    let changeFlags ← importOr E "theano.config.change_flags" "theano.configparser.change_flags"
    .ok ⟨pm, b, ops, function, grad, tensor, ifelse, assertOp, verifyGrad, changeFlags⟩
  | .pymc =>
    let _ ← E.import "pytensor"
    let function ← E.import "pytensor.function"
    let grad ← E.import "pytensor.grad"
    let tensor ← E.import "pytensor.tensor"
    let changeFlags := "pytensor.config.change_flags"
    let ops ← E.import "exoplanet_core.pymc.ops"
    let verifyGrad ← E.import "pytensor.gradient.verify_grad"
    let ifelse ← E.import "pytensor.ifelse.ifelse"
    let assertOp ← E.import "pytensor.raise_op.Assert"
    .ok ⟨pm, b, ops, function, grad, tensor, ifelse, assertOp, verifyGrad, changeFlags⟩

/-! ## Deprecation -/

/-- A call with its visible effects on the `warnings` machinery: the outcome and the `DeprecationWarning`s issued, in order. (Filters
that turn warnings into exceptions are not modelled.) -/
structure Warned (α : Type) where
  result : Except PyErr α
  warnings : List String

/-- `deprecated(alternate)(func)` — `utils.py:29-41`, applied to a function whose own calls may warn as well. -/
def deprecated {A B : Type} (alternate : Option String) (funcName : String) (func : A → Warned B) : A → Warned B := fun args =>
  let msg := "'" ++ funcName ++ "' is deprecated."
  let msg := match alternate with
    | none => msg
    | some alt => msg ++ " Use '" ++ alt ++ "' instead."
  let r := func args
  ⟨r.result, msg :: r.warnings⟩

/-- A function that issues no warnings of its own. -/
def quiet {A B : Type} (f : A → Except PyErr B) : A → Warned B := fun a => ⟨f a, []⟩

/-- `ImpactParameter` — `distributions/__init__.py:22-24`; arguments `(name, ror, **kwargs)`. -/
noncomputable def ImpactParameter (b : Backend) : (String × (State → ℝ) × Kwargs) → Warned (List Reg × (State → ℝ)) :=
  deprecated (some "exoplanet.distributions.impact_parameter") "impact_parameter"
    (quiet fun a => impactParameter b a.1 a.2.1 a.2.2)

/-- `QuadLimbDark` — `distributions/__init__.py:25-27`; arguments `(name, **kwargs)`. -/
noncomputable def QuadLimbDark (b : Backend) : (String × Kwargs) → Warned (List Reg × (State → ℝ) × (State → ℝ)) :=
  deprecated (some "exoplanet.distributions.quad_limb_dark") "quad_limb_dark" (quiet fun a => quadLimbDark b a.1 a.2)

/-- `LimbDarkLightCurve.__init__` — `limb_dark.py:41-68`: `u1` is a scalar or a vector, `u2` may be missing. Only scalars are modelled
when both are given. -/
noncomputable def limbDarkInit (u1 : ℝ ⊕ List ℝ) (u2 : Option ℝ) : Warned LimbDark :=
  match u2 with
  | none => ⟨LimbDark.newVector u1,
      ["using a vector of limb darkening coefficients is deprecated; use u1 and u2 directly"]⟩
  | some b => match u1 with
    | .inl a => ⟨.ok (LimbDark.new a b), []⟩
    | .inr _ => ⟨.error (.notImplemented "not modelled: vector u1 together with u2"), []⟩

end Exo
