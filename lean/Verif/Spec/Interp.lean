import Verif.Model.Tensor

/-!
# What multilinear interpolation on a grid means (C45-C47)
-/

namespace Exo

/-- A grid axis: at least two points, strictly increasing. -/
def IsGrid (g : List ℝ) : Prop := 2 ≤ g.length ∧ g.Pairwise (· < ·)

/-- The coordinates of the query point `idx`. -/
def queryPoint (coords : Tensor ℝ) (idx : List ℕ) (n : ℕ) : List ℝ := (List.range n).map (fun d => coords.get (idx ++ [d]))

/-- The grid node with indices `c`. -/
def node (points : List (List ℝ)) (c : List ℕ) : List ℝ := List.zipWith (fun g k => g.getD k 0) points c

/-- `f` is affine in each of its `n` coordinates separately. -/
def MultiAffine (n : ℕ) (f : List ℝ → ℝ) : Prop :=
  ∀ x : List ℝ, x.length = n → ∀ d < n, ∃ a b, ∀ t, f (x.set d t) = a + b * t

/-- `k` is the cell of the axis `g` containing `x`, or the first (last) cell if `x` is left (right) of the grid. -/
def CellOf (g : List ℝ) (x : ℝ) (k : ℕ) : Prop :=
  k + 1 < g.length ∧ (g.getD k 0 ≤ x ∨ k = 0) ∧ (x ≤ g.getD (k + 1) 0 ∨ k + 2 = g.length)

/-- `k` is the cell of the point `x`, axis by axis. -/
def Cell (points : List (List ℝ)) (x : List ℝ) (k : List ℕ) : Prop :=
  k.length = points.length ∧ ∀ d < points.length, CellOf (points.getD d []) (x.getD d 0) (k.getD d 0)

/-- `c` is one of the `2^n` corners of the cell `k`. -/
def Corner (k c : List ℕ) : Prop := List.Forall₂ (fun k c => c = k ∨ c = k + 1) k c

/-- `x` lies in the box spanned by the grid. -/
def InsideGrid (points : List (List ℝ)) (x : List ℝ) : Prop :=
  ∀ d < points.length, (points.getD d []).headD 0 ≤ x.getD d 0 ∧ x.getD d 0 ≤ (points.getD d []).getLastD 0

end Exo
