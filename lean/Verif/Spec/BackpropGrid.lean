import Verif.Model.BackpropGrid
import Verif.Spec.BackpropDelay
import Verif.Spec.Interp

/-!
# Vocabulary of the properties of computed gradients of interpolated tables
-/

namespace Exo
namespace GridPar

/-- The grid with `N` axes. -/
def points (len : ℕ → ℕ) (N : ℕ) (q : GridPar → ℝ) : List (List ℝ) := (List.range N).map fun d => (List.range (len d)).map fun k => q (.point d k)

/-- The table. -/
def table (len : ℕ → ℕ) (N : ℕ) (q : GridPar → ℝ) : Tensor ℝ := ⟨(List.range N).map len, fun c => q (.value c)⟩

/-- The query point, as the matrix of the documentation. -/
def query (N : ℕ) (q : GridPar → ℝ) : Tensor ℝ := ⟨[1, N], fun idx => q (.coord (idx.getD 1 0))⟩

/-- `f` is what `regular_grid_interp` returns. -/
def Returns (len : ℕ → ℕ) (N : ℕ) (fill : Option ℝ) (f : (GridPar → ℝ) → ℝ) : Prop :=
  ∀ q, ∃ T, regularGridInterp (points len N q) (table len N q) (query N q) fill = .ok T ∧ T.get [0] = f q

/-- At least two points on each axis, in increasing order. -/
def Increasing (len : ℕ → ℕ) (N : ℕ) (q : GridPar → ℝ) : Prop := ∀ d < N, 2 ≤ len d ∧ ∀ i k, i < k → k < len d → q (.point d i) < q (.point d k)

end GridPar
end Exo
