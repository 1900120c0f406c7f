import Mathlib.Topology.Instances.Real.Lemmas

/-!
# Cubic interpolation
-/

namespace Exo

/-- A cubic polynomial. -/
def cubic (c0 c1 c2 c3 x : ℝ) : ℝ := c0 + c1 * x + c2 * x ^ 2 + c3 * x ^ 3

/-- The cubic agrees with `g` at the nodes `x0 - h, x0, x0 + h, x0 + 2h`. -/
def Through (g : ℝ → ℝ) (x0 h c0 c1 c2 c3 : ℝ) : Prop :=
  cubic c0 c1 c2 c3 (x0 - h) = g (x0 - h) ∧ cubic c0 c1 c2 c3 x0 = g x0 ∧
  cubic c0 c1 c2 c3 (x0 + h) = g (x0 + h) ∧ cubic c0 c1 c2 c3 (x0 + 2 * h) = g (x0 + 2 * h)

/-- `F` is the piecewise cubic interpolant of the base light curve `g`, folded with period `P` from `t0`, with `N` cells per
period. -/
structure FoldedInterpolant (F g : ℝ → ℝ) (t0 P : ℝ) (N : ℕ) : Prop where
  /-- exact at the nodes of the grid, in every period -/
  nodes : ∀ (j : ℤ) (m : ℕ), m < N → F (t0 + m * (P / N) + j * P) = g (t0 + m * (P / N))
  /-- every time folds into a cell `[x0, x0 + P/N)` of the period from `t0`; there `F` is the cubic through the four nearest nodes -/
  cubic : ∀ t, ∃ (j : ℤ) (m : ℕ), m < N ∧ t0 + m * (P / N) ≤ t - j * P ∧ t - j * P < t0 + (m + 1) * (P / N) ∧
    ∀ c0 c1 c2 c3, Through g (t0 + m * (P / N)) (P / N) c0 c1 c2 c3 → F t = Exo.cubic c0 c1 c2 c3 (t - j * P)
  periodic : ∀ t (j : ℤ), F (t + j * P) = F t
  continuous : g (t0 + P) = g t0 → Continuous F

end Exo
