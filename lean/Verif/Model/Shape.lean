import Verif.Model.Py

/-!
# Array shapes (NumPy / PyTensor)
-/

namespace Exo

/-- One axis of NumPy broadcasting. -/
def bcastDim (m n : ℕ) : Except PyErr ℕ :=
  if m = n then .ok m else if m = 1 then .ok n else if n = 1 then .ok m else .error .shapeMismatch

/-- NumPy broadcasting of two shapes written from the *last* axis to the first. -/
def bcastRev : List ℕ → List ℕ → Except PyErr (List ℕ)
  | [], v => .ok v
  | u, [] => .ok u
  | m :: u, n :: v =>
    match bcastDim m n with
    | .error e => .error e
    | .ok d =>
      match bcastRev u v with
      | .error e => .error e
      | .ok w => .ok (d :: w)

/-- NumPy broadcasting of two shapes. -/
def bcastShape (u v : List ℕ) : Except PyErr (List ℕ) :=
  match bcastRev u.reverse v.reverse with
  | .error e => .error e
  | .ok w => .ok w.reverse

/-- `pt.squeeze`: drop the axes of length one. -/
def squeezeShape (s : List ℕ) : List ℕ := s.filter (· ≠ 1)

end Exo
