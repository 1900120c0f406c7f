import Verif.Model.MissingArgs

/-!
# C137: what it means that a missing argument is reported
-/

namespace Exo

/-- The arguments without which there is no light curve. -/
inductive Required where
  | orbit
  | r
  | t

/-- The message naming the argument. -/
def Required.message : Required → String
  | .orbit => "missing required argument 'orbit'"
  | .r => "missing required argument 'r'"
  | .t => "missing required argument 't'"

/-- The first of the three arguments that is missing. -/
def firstMissing {α β γ : Type} (orbit : Option α) (r : Option β) (t : Option γ) : Option Required :=
  if orbit.isNone then some .orbit else if r.isNone then some .r else if t.isNone then some .t else none

/-- The call raised `ValueError` with the message naming the argument. -/
def ReportsMissing {α : Type} (res : Except CallErr α) (a : Required) : Prop := res = .error (.py (.valueError a.message))

/-- The call raised something. -/
def Raised {α : Type} (res : Except CallErr α) : Prop := ∃ e, res = .error e

end Exo
