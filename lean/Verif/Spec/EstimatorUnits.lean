import Verif.Model.EstimatorUnits

/-!
# What it means to convert an argument by hand
-/

namespace Exo

/-- The numbers `v` in the unit `target` are the argument `q`, converted by hand: a bare array is `v` itself; a quantity has the dimension
of the target, and the same physical values. -/
def ByHand (target : AUnit) (q : Qty) (v : List ℝ) : Prop :=
  match q.unit with
  | none => v = q.vals
  | some u => u.dim = target.dim ∧ v.map (· * target.scale) = q.vals.map (· * u.scale)

/-- The same for an optional argument. -/
def ByHandOpt (target : AUnit) : Option Qty → Option (List ℝ) → Prop
  | none, none => True
  | some q, some v => ByHand target q v
  | _, _ => False

/-- The same for a single number. -/
def ByHandNum (target : AUnit) (q : Q) (v : ℝ) : Prop :=
  match q.unit with
  | none => v = q.val
  | some u => u.dim = target.dim ∧ v * target.scale = q.val * u.scale

/-- A bare array. -/
def bare (l : List ℝ) : Qty := { vals := l }

/-- The argument is a quantity that cannot be expressed in the unit `target`. -/
def Foreign (target : AUnit) (q : Qty) : Prop := ∃ u, q.unit = some u ∧ u.dim ≠ target.dim

end Exo
