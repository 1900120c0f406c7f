import Verif.Model.Units

/-!
# The physical meaning of a labelled value (independent of the code)
-/

namespace Exo

/-- The number expressing the labelled quantity `q` in the unit `u`: a bare number is taken to be in `u` already. -/
noncomputable def Q.inUnit (q : Q) (u : AUnit) : ℝ :=
  match q.unit with
  | none => q.val
  | some b => q.val * b.scale / u.scale

/-- `q` can be expressed in `u`: it has no label or a label of the same dimension. -/
def Q.compat (q : Q) (u : AUnit) : Prop := ∀ b, q.unit = some b → b.dim = u.dim

end Exo
