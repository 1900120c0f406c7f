import Mathlib.Data.Real.Basic

/-!
# Vocabulary for peaks of a sampled function that may contain NaN
-/

namespace Exo

/-- `j` is an interior sample strictly above both neighbours (all three are numbers). -/
def NanLocalMax (l : List (Option ℝ)) (j : ℕ) : Prop :=
  ∃ a b c : ℝ, 1 ≤ j ∧ l[j - 1]? = some (some a) ∧ l[j]? = some (some b) ∧ l[j + 1]? = some (some c) ∧ a < b ∧ c < b

/-- A period not shorter than the limit given, or than the smallest gap between consecutive times. -/
def AboveMin (x : List ℝ) (min_period : Option ℝ) (p : ℝ) : Prop :=
  match min_period with
  | some m => m ≤ p
  | none => ∃ i : ℕ, ∃ a b, x[i]? = some a ∧ x[i + 1]? = some b ∧ b - a ≤ p

/-- A period not longer than the limit given, or than the time span. -/
def BelowMax (x : List ℝ) (max_period : Option ℝ) (p : ℝ) : Prop :=
  match max_period with
  | some m => p ≤ m
  | none => ∃ a ∈ x, ∃ b ∈ x, p ≤ b - a

end Exo
