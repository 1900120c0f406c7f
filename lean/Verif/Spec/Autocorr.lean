import Mathlib.Data.Real.Basic
import Mathlib.Algebra.BigOperators.Group.Finset.Basic

/-!
# The autocovariance of a finite series
-/

namespace Exo

/-- The average. -/
noncomputable def avg (x : List ℝ) : ℝ := x.sum / x.length

/-- `Σ_{i, i+k < len x} (x_i - m)(x_{i+k} - m)`: no wrap-around. -/
noncomputable def autocov (x : List ℝ) (k : ℕ) : ℝ :=
  ∑ i ∈ Finset.range (x.length - k), (x.getD i 0 - avg x) * (x.getD (i + k) 0 - avg x)

end Exo
