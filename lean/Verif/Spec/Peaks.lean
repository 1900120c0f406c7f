import Mathlib.Data.Real.Basic
import Mathlib.Analysis.SpecialFunctions.Log.Basic

/-!
# Peaks of a sampled function (independent of the code)
-/

namespace Exo

/-- The sample at `i` exists, has neighbours on both sides and is strictly higher than both. -/
def LocalMax (power : List ℝ) (i : ℕ) : Prop :=
  ∃ a b c, 1 ≤ i ∧ power[i - 1]? = some a ∧ power[i]? = some b ∧ power[i + 1]? = some c ∧ a < b ∧ c < b

/-- Sample `i` is at most as high as sample `j`. -/
def AtMost (power : List ℝ) (i j : ℕ) : Prop := ∃ a b, power[i]? = some a ∧ power[j]? = some b ∧ a ≤ b

/-- `js` lists the `n` highest local maxima in non-increasing order (all of them if there are fewer). -/
structure HighestMaxima (power : List ℝ) (n : ℕ) (js : List ℕ) : Prop where
  nodup : js.Nodup
  isMax : ∀ j ∈ js, LocalMax power j
  ordered : js.Pairwise fun i j => AtMost power j i
  highest : ∀ j, LocalMax power j → j ∉ js → ∀ i ∈ js, AtMost power j i
  atMost : js.length ≤ n
  all : js.length < n → ∀ j, LocalMax power j → j ∈ js

end Exo
