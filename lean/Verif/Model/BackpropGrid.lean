import Verif.Model.BackpropFit
import Verif.Model.Interp

/-!
# The graph of `regular_grid_interp` — src/exoplanet/interp.py

One query point, `N` axes with `len d` grid points each, a table of numbers, as a function of the coordinates, the grid points and the table. Indexing by an array of integers (`AdvancedSubtensor`) and
`pt.switch` are `Graph.pick`, which hands the derivative to the selected entry and zero to the others; `values[edge_indices]` selects along one axis after the other.
`pt.where(pt.eq(ei, i), 1 - yi, yi)` is decided when the graph is built, since `ei` is `i` or `i + 1`.
-/

namespace Exo

/-- The arguments of `regular_grid_interp` that a model may depend on: `coords[0, d]`, `points[d][k]`, `values[c]`. -/
inductive GridPar where
  | coord (d : ℕ)
  | point (d k : ℕ)
  | value (c : List ℕ)
  deriving DecidableEq

namespace GridInterp
open Graph
variable (len : ℕ → ℕ)

/-- `i` — `interp.py:41`, 43: `pt.clip(n - 1, 0, l - 2)` for `n = searchsorted(grid, x)`. -/
def cell (l n : ℕ) : ℕ := min (n - 1) (l - 2)

/-- The entry of `v` selected by `searchsorted(grid, x)` — `interp.py:41`. -/
def pickG (d : ℕ) (v : ℕ → Graph GridPar) : Graph GridPar :=
  pick (fun k : Fin (len d) => input (.point d k)) (fun n : Fin (len d + 1) => v n) (input (.coord d))

/-- `grid[i + e]` — `interp.py:45`. -/
def gridG (d e : ℕ) : Graph GridPar := pickG len d fun n => input (.point d (cell (len d) n + e))

/-- `norm_distances[d]` — `interp.py:45`. -/
def distG (d : ℕ) : Graph GridPar := div (sub (input (.coord d)) (gridG len d 0)) (sub (gridG len d 1) (gridG len d 0))

/-- `values[edge_indices]` — `interp.py:52`; the corner of the cell is given by `0` or `1` for each axis. -/
def tableG : List ℕ → List ℕ → (List ℕ → Graph GridPar) → Graph GridPar
  | d :: ds, e :: es, v => pickG len d fun n => tableG ds es fun c => v ((cell (len d) n + e) :: c)
  | _, _, v => v []

/-- `pt.where(pt.eq(ei, i), 1 - yi, yi)` — `interp.py:51`. -/
def factorG (d e : ℕ) : Graph GridPar := if e = 0 then sub (const 1) (distG len d) else distG len d

/-- `weight` — `interp.py:49-51`. -/
def weightG (ds es : List ℕ) : Graph GridPar := (List.zipWith (factorG len) ds es).foldl mul (const 1)

/-- `result` — `interp.py:47-52`. -/
noncomputable def resultG (ds : List ℕ) : Graph GridPar :=
  Fit.sumG ((product (ds.map fun _ => (0, 1))).map fun es => mul (tableG len ds es fun c => input (.value c)) (weightG len ds es))

/-- `pt.switch(out_of_bounds, fill_value, result)` — `interp.py:42`, 55. -/
def fillG (f : ℝ) : List ℕ → Graph GridPar → Graph GridPar
  | [], R => R
  | d :: ds, R => pickG len d fun n => if n = 0 ∨ n = len d then const f else fillG f ds R

/-- `regular_grid_interp(points, values, coords, fill_value=fill)[0]` — `interp.py:9-57`. -/
noncomputable def interpG (N : ℕ) (fill : Option ℝ) : Graph GridPar := match fill with
  | none => resultG len (List.range N)
  | some f => fillG len f (List.range N) (resultG len (List.range N))

end GridInterp
end Exo
