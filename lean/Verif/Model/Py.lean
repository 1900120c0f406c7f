import Mathlib.Data.Real.Basic
import Mathlib.Analysis.SpecialFunctions.Complex.Arg
import Mathlib.Algebra.Order.Floor.Ring

/-!
# Python run-time vocabulary shared by the model files

Numbers are exact reals (DESIGN.md §2, idealisation 1).
-/

namespace Exo

/-- Python exceptions, as values. The payload is a short tag identifying the `raise` statement. -/
inductive PyErr where
  | valueError (tag : String)
  | typeError (tag : String)
  | notImplemented (tag : String)
  | keyError (key : String)
  | indexError
  | unitConversion
  | assertion (tag : String)
  | linAlg
  | importError (tag : String)
  | shapeMismatch
  | zeroDivision
  deriving DecidableEq, Repr

/-- `pt.arctan2(y, x)` / `np.arctan2(y, x)`: the argument of `x + i y`, in `(-π, π]`, `arctan2 0 0 = 0`.
(IEEE signed zeros are not modelled.) -/
noncomputable def arctan2 (y x : ℝ) : ℝ := Complex.arg ⟨x, y⟩

/-- `pt.mod(x, p)` / `np.mod(x, p)`: the Python floor-modulo. -/
noncomputable def pymod (x p : ℝ) : ℝ := x - p * ⌊x / p⌋

end Exo
