import Verif.Model.Tensor
import Verif.Model.Ttv
import Verif.Model.Interpolated

/-!
# Linear interpolation on a regular grid — src/exoplanet/interp.py
-/

namespace Exo

/-- `coords[..., n]` (interp.py:40). -/
def lastColumn (coords : Tensor ℝ) (n : ℕ) : Except PyErr (Tensor ℝ) :=
  if coords.shape = [] then .error .indexError
  else if n < coords.shape.getLastD 0 then .ok ⟨coords.shape.dropLast, fun idx => coords.get (idx ++ [n])⟩
  else .error .indexError

/-- `searchsorted(grid, x) - 1` (interp.py:41), side `left`; see `searchsortedLeft` for unsorted grids. -/
noncomputable def gridInsert (grid : List ℝ) (x : ℝ) : ℤ := (searchsortedLeft grid x : ℤ) - 1

/-- `(i < 0) | (i >= grid.shape[0] - 1)` (interp.py:42). -/
def gridOutside (grid : List ℝ) (i : ℤ) : Bool := decide (i < 0) || decide (i ≥ (grid.length : ℤ) - 1)

/-- `pt.clip(i, lo, hi)` (interp.py:43); PyTensor tests the lower bound first. -/
def clipInt (i lo hi : ℤ) : ℤ := if i < lo then lo else if i > hi then hi else i

/-- `pt.clip(i, 0, grid.shape[0] - 2)` (interp.py:43). -/
def gridClip (grid : List ℝ) (i : ℤ) : ℤ := clipInt i 0 ((grid.length : ℤ) - 2)

/-- `(x - grid[i]) / (grid[i + 1] - grid[i])` (interp.py:45). Division by zero is totalised; a grid of one point, for which
NumPy would give NaN, is excluded by hypothesis everywhere. -/
noncomputable def gridDistance (grid : List ℝ) (x : ℝ) (i : ℤ) : Except PyErr ℝ := do
  let a ← pyIndex grid i
  let b ← pyIndex grid (i + 1)
  .ok ((x - a) / (b - a))

/-- An elementwise operation that may raise, in C order. -/
def Tensor.mapE {α β : Type} (d : β) (f : α → Except PyErr β) (x : Tensor α) : Except PyErr (Tensor β) :=
  match x.toList.mapM f with
  | .error e => .error e
  | .ok ys => .ok ⟨x.shape, fun idx => ys.getD (Tensor.ravel x.shape idx) d⟩

/-- What the first loop stores for one axis: the clipped indices and the normalised distances, and its out-of-bounds mask. -/
structure GridAxis where
  index : Tensor ℤ
  dist : Tensor ℝ
  outside : Tensor Bool

/-- Body of the first loop (interp.py:39-45). -/
noncomputable def gridAxis (coords : Tensor ℝ) (n : ℕ) (grid : List ℝ) : Except PyErr GridAxis := do
  let x ← lastColumn coords n
  let i := x.map (gridInsert grid)
  let ic := i.map (gridClip grid)
  let y ← x.mapE 0 (fun x => gridDistance grid x (gridClip grid (gridInsert grid x)))
  .ok ⟨ic, y, i.map (gridOutside grid)⟩

/-- The first loop (interp.py:39-45). -/
noncomputable def gridAxes (coords : Tensor ℝ) : ℕ → List (List ℝ) → Except PyErr (List GridAxis)
  | _, [] => .ok []
  | n, grid :: points => do
    let a ← gridAxis coords n grid
    let as ← gridAxes coords (n + 1) points
    .ok (a :: as)

/-- `itertools.product(*pairs)` (interp.py:48). -/
def product {α : Type} : List (α × α) → List (List α)
  | [] => [[]]
  | p :: ps => (product ps).map (p.1 :: ·) ++ (product ps).map (p.2 :: ·)

/-- `values[edge_indices]` (interp.py:52): advanced indexing by one integer array per leading axis, all of shape `s`. An index
out of range raises; negative indices count from the end. -/
def gatherIndex (n : ℕ) (i : ℤ) : Except PyErr ℕ :=
  let j := if i < 0 then i + n else i
  if j < 0 then .error .indexError else if j.toNat < n then .ok j.toNat else .error .indexError

/-- All the leading indices of one entry. -/
def gatherIndices : List ℕ → List ℤ → Except PyErr (List ℕ)
  | _, [] => .ok []
  | [], _ :: _ => .error .indexError
  | n :: shape, i :: is => do
    let j ← gatherIndex n i
    let js ← gatherIndices shape is
    .ok (j :: js)

/-- `values[edge_indices]` (interp.py:52). -/
def gather (values : Tensor ℝ) (s : List ℕ) (edge : List (Tensor ℤ)) : Except PyErr (Tensor ℝ) :=
  match (Tensor.mk s (fun idx => edge.map (fun e => e.get idx))).mapE [] (gatherIndices values.shape) with
  | .error e => .error e
  | .ok js => .ok ⟨s ++ values.shape.drop edge.length,
      fun idx => values.get (js.get (idx.take s.length) ++ idx.drop s.length)⟩

/-- `pt.where(pt.eq(ei, i), 1 - yi, yi)` (interp.py:51), one entry. -/
def cornerFactor (ei i : ℤ) (yi : ℝ) : ℝ := if ei = i then 1 - yi else yi

/-- `weight` (interp.py:49-51), of shape `coords.shape[:-1]`. -/
def cornerWeight (s : List ℕ) (edge : List (Tensor ℤ)) (axes : List GridAxis) : Tensor ℝ :=
  ⟨s, fun idx => ((edge.zip axes).map (fun p => cornerFactor (p.1.get idx) (p.2.index.get idx) (p.2.dist.get idx))).foldl
    (· * ·) 1⟩

/-- The second loop (interp.py:48-52). -/
noncomputable def gridSum (values : Tensor ℝ) (s : List ℕ) (axes : List GridAxis) :
    List (List (Tensor ℤ)) → Tensor ℝ → Except PyErr (Tensor ℝ)
  | [], result => .ok result
  | edge :: edges, result => do
    let v ← gather values s edge
    let vw ← Tensor.zipB (· * ·) v (cornerWeight s edge axes)
    let result ← Tensor.zipB (· + ·) result vw
    gridSum values s axes edges result

/-- `out_of_bounds` (interp.py:38, 42). -/
def gridMask (s : List ℕ) (axes : List GridAxis) : Tensor Bool :=
  ⟨s, fun idx => axes.foldl (fun b a => b || a.outside.get idx) false⟩

/-- `pt.switch(out_of_bounds, fill_value, result)` (interp.py:54-55). -/
def gridFill (mask : Tensor Bool) (fill : Option ℝ) (result : Tensor ℝ) : Except PyErr (Tensor ℝ) :=
  match fill with
  | none => .ok result
  | some f => Tensor.zipB (fun b v => if b then f else v) mask result

/-- `regular_grid_interp(points, values, coords, fill_value=fill)` (interp.py:9-57); `fill` is a number (for NaN see `regularGridInterpNaN`).
Static (compile-time) broadcast patterns of PyTensor are not modelled: shapes broadcast as in NumPy. -/
noncomputable def regularGridInterp (points : List (List ℝ)) (values coords : Tensor ℝ) (fill : Option ℝ) :
    Except PyErr (Tensor ℝ) := do
  let s := coords.shape.dropLast
  let axes ← gridAxes coords 0 points
  let zeros : Tensor ℝ := ⟨s ++ values.shape.drop points.length, fun _ => 0⟩
  let result ← gridSum values s axes (product (axes.map (fun a => (a.index, a.index.map (· + 1))))) zeros
  gridFill (gridMask s axes) fill result

/-- `regular_grid_interp(points, values, coords, fill_value=np.nan)` (interp.py:9-57), NaN is `none`. -/
noncomputable def regularGridInterpNaN (points : List (List ℝ)) (values coords : Tensor ℝ) : Except PyErr (Tensor (Option ℝ)) := do
  let s := coords.shape.dropLast
  let axes ← gridAxes coords 0 points
  let zeros : Tensor ℝ := ⟨s ++ values.shape.drop points.length, fun _ => 0⟩
  let result ← gridSum values s axes (product (axes.map (fun a => (a.index, a.index.map (· + 1))))) zeros
  Tensor.zipB (fun b v => if b then none else some v) (gridMask s axes) result

/-- `RegularGridInterpolator(points, values, fill_value)` (interp.py:74-78). -/
structure GridInterpolator where
  ndim : ℕ
  points : List (List ℝ)
  values : Tensor ℝ
  fill_value : Option ℝ

/-- The constructor (interp.py:74-78). -/
def GridInterpolator.new (points : List (List ℝ)) (values : Tensor ℝ) (fill : Option ℝ) : GridInterpolator :=
  ⟨points.length, points, values, fill⟩

/-- `evaluate(t)` (interp.py:80-90). -/
noncomputable def GridInterpolator.evaluate (g : GridInterpolator) (t : Tensor ℝ) : Except PyErr (Tensor ℝ) :=
  regularGridInterp g.points g.values t g.fill_value

end Exo
