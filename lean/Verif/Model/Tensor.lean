import Verif.Model.Shape
import Mathlib.Algebra.BigOperators.Group.Finset.Basic
import Mathlib.Algebra.BigOperators.Group.List.Basic

/-!
# Arrays (NumPy / PyTensor)

A tensor is a shape together with its entries, addressed by multi-indices. Entries at indices outside the shape are
irrelevant. Only the operations that the modelled code uses are defined here.
-/

namespace Exo

/-- An array: `shape` and the entry at each multi-index. -/
structure Tensor (α : Type) where
  shape : List ℕ
  get : List ℕ → α

/-- `idx` addresses an entry of an array of shape `s`. -/
def InShape (idx s : List ℕ) : Prop := List.Forall₂ (· < ·) idx s

namespace Tensor
variable {α β γ : Type}

/-- `x.ndim`. -/
def ndim (x : Tensor α) : ℕ := x.shape.length

/-- `x.size`. -/
def size (x : Tensor α) : ℕ := x.shape.prod

/-- A 0-d array. -/
def scalar (x : α) : Tensor α := ⟨[], fun _ => x⟩

/-- A 1-d array. -/
def ofList (l : List α) (d : α) : Tensor α := ⟨[l.length], fun idx => l.getD (idx.headD 0) d⟩

/-- An elementwise function. -/
def map (f : α → β) (x : Tensor α) : Tensor β := ⟨x.shape, fun idx => f (x.get idx)⟩

/-- `pt.shape_padleft(x, n)`. -/
def padleft (x : Tensor α) (n : ℕ) : Tensor α := ⟨List.replicate n 1 ++ x.shape, fun idx => x.get (idx.drop n)⟩

/-- `pt.shape_padright(x, n)`. -/
def padright (x : Tensor α) (n : ℕ) : Tensor α :=
  ⟨x.shape ++ List.replicate n 1, fun idx => x.get (idx.take x.shape.length)⟩

/-- The entry of `x`, broadcast to a larger shape, at index `idx` of that shape: leading axes are dropped, axes of length
one are constant. -/
def bget (x : Tensor α) (idx : List ℕ) : α :=
  x.get (List.zipWith (fun n i => if n = 1 then 0 else i) x.shape (idx.drop (idx.length - x.shape.length)))

/-- An elementwise binary operation with NumPy broadcasting. -/
def zipB (f : α → β → γ) (x : Tensor α) (y : Tensor β) : Except PyErr (Tensor γ) :=
  match bcastShape x.shape y.shape with
  | .error e => .error e
  | .ok s => .ok ⟨s, fun idx => f (x.bget idx) (y.bget idx)⟩

/-- Insert index `0` for the axes of length one of `s` (inverse of dropping them). -/
def unsqueeze : List ℕ → List ℕ → List ℕ
  | [], _ => []
  | n :: s, idx => if n = 1 then 0 :: unsqueeze s idx else idx.headD 0 :: unsqueeze s idx.tail

/-- `pt.squeeze(x)`. -/
def squeeze (x : Tensor α) : Tensor α := ⟨squeezeShape x.shape, fun idx => x.get (unsqueeze x.shape idx)⟩

/-- Position of an entry in C (row-major) order. -/
def ravel : List ℕ → List ℕ → ℕ
  | _ :: s, i :: idx => i * s.prod + ravel s idx
  | _, _ => 0

/-- Inverse of `ravel`. -/
def unravel : List ℕ → ℕ → List ℕ
  | [], _ => []
  | _ :: s, k => (k / s.prod) :: unravel s (k % s.prod)

/-- `pt.reshape(x, s)`: C order, same number of entries. -/
def reshape (x : Tensor α) (s : List ℕ) : Except PyErr (Tensor α) :=
  if x.shape.prod = s.prod then .ok ⟨s, fun idx => x.get (unravel x.shape (ravel s idx))⟩
  else .error (.valueError "cannot reshape")

/-- `pt.sum(x, axis=ax)`. -/
noncomputable def sumAxis (x : Tensor ℝ) (ax : ℕ) : Tensor ℝ :=
  ⟨x.shape.eraseIdx ax, fun idx => ((List.range (x.shape.getD ax 0)).map (fun k => x.get (idx.insertIdx ax k))).sum⟩

/-- `x[inds]` with an integer vector: rows along the first axis. -/
def takeRows (x : Tensor α) (inds : List ℕ) : Except PyErr (Tensor α) :=
  match x.shape with
  | [] => .error .indexError
  | n :: s =>
    if inds.all (· < n) then .ok ⟨inds.length :: s, fun idx => x.get (inds.getD (idx.headD 0) 0 :: idx.tail)⟩
    else .error .indexError

/-- `pt.set_subtensor(x[inds], v)` for distinct `inds`. -/
def setRows (x : Tensor α) (inds : List ℕ) (v : Tensor α) : Except PyErr (Tensor α) :=
  match x.shape with
  | [] => .error .indexError
  | n :: s =>
    if inds.all (· < n) then
      if bcastShape v.shape (inds.length :: s) = .ok (inds.length :: s) then
        .ok ⟨x.shape, fun idx =>
          if idx.headD 0 ∈ inds then v.bget (inds.idxOf (idx.headD 0) :: idx.tail) else x.get idx⟩
      else .error .shapeMismatch
    else .error .indexError

/-- The entries in C order. -/
def toList (x : Tensor α) : List α := (List.range x.size).map (fun k => x.get (unravel x.shape k))

end Tensor
end Exo
