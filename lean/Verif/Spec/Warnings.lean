import Verif.Model.Warnings

/-!
# Specification for C136: when `KeplerianOrbit` warns
-/

namespace Exo

/-- A duration is given for a circular orbit, and no radius ratio: it is not known whether the duration is that of the centre of the planet. -/
def Args.DurationWithoutRor (A : Args) : Prop := A.ecc = none ∧ A.duration ≠ none ∧ A.ror = none

/-- `warnings.simplefilter("always")`. -/
def showAll : WarnCategory → WarnAction := fun _ => .print

/-- `warnings.simplefilter("error")`. -/
def raiseAll : WarnCategory → WarnAction := fun _ => .raise

/-- `filterwarnings("error::UserWarning")`, other warnings are printed. -/
def raiseUser : WarnCategory → WarnAction
  | .user => .raise
  | .deprecation => .print

/-- The result of a call in which no warning becomes an exception. -/
def plainResult {α : Type} : Except PyErr α → Except (PyWarning ⊕ PyErr) α
  | .ok a => .ok a
  | .error e => .error (.inr e)

open Classical in
/-- The warnings that a successful call has to issue, in order. -/
noncomputable def Args.expectedWarnings (A : Args) : List PyWarning :=
  (if A.m_planet_units = none then [] else [massUnitsWarning]) ++ (if A.rho_star_units = none then [] else [densityUnitsWarning]) ++
    if A.DurationWithoutRor then [rorWarning] else []

end Exo
