import Verif.Model.Keplerian

/-!
# The warnings of `KeplerianOrbit`

`KeplerianOrbit.__init__` under a filter of Python's `warnings` machinery: each category of warnings is skipped, shown or raised as an
exception. (That the default filter shows a warning only once per line of code is not modelled.)
-/

namespace Exo

/-- `DeprecationWarning` (utils.py:25-26) and `UserWarning` (keplerian.py:125). -/
inductive WarnCategory where
  | deprecation
  | user
  deriving DecidableEq

/-- A warning: category and message. -/
structure PyWarning where
  category : WarnCategory
  message : String
  deriving DecidableEq

/-- What the filter of the caller does with a category of warnings. -/
inductive WarnAction where
  | skip
  | print
  | raise
  deriving DecidableEq

/-- The warnings printed by a call, in order, and its result or exception (a warning or another one). -/
structure Run (α : Type) where
  shown : List PyWarning
  result : Except (PyWarning ⊕ PyErr) α

namespace Run
variable {α β : Type}

/-- One statement after the other; after an exception nothing is executed. -/
def bind (x : Run α) (f : α → Run β) : Run β :=
  match x.result with
  | .error e => ⟨x.shown, .error e⟩
  | .ok a => ⟨x.shown ++ (f a).shown, (f a).result⟩

instance : Monad Run where
  pure a := ⟨[], .ok a⟩
  bind := bind

/-- A computation without warnings. -/
def lift (x : Except PyErr α) : Run α :=
  ⟨[], match x with | .error e => .error (.inr e) | .ok a => .ok a⟩

/-- `warnings.warn(message, category)`. -/
def warn (F : WarnCategory → WarnAction) (w : PyWarning) : Run Unit :=
  match F w.category with
  | .skip => ⟨[], .ok ()⟩
  | .print => ⟨[w], .ok ()⟩
  | .raise => ⟨[], .error (.inl w)⟩

end Run

/-- keplerian.py:100-102. -/
def massUnitsWarning : PyWarning := ⟨.deprecation, "'m_planet_units' is deprecated; Use `with_unit` instead"⟩
/-- keplerian.py:105-107. -/
def densityUnitsWarning : PyWarning := ⟨.deprecation, "'rho_star_units' is deprecated; Use `with_unit` instead"⟩
/-- keplerian.py:122-126. -/
def rorWarning : PyWarning :=
  ⟨.user, "When using the 'duration' parameter in KeplerianOrbit, the 'ror' parameter should also be provided."⟩

/-- keplerian.py:99-108, one keyword: warn, then attach the unit. -/
def unitKwRun (F : WarnCategory → WarnAction) (w : PyWarning) (x : Option Q) (u : Option AUnit) : Run (Option Q) := do
  if u.isSome then Run.warn F w
  Run.lift (applyUnitKw x u)

/-- keplerian.py:112-126: the checks of a circular orbit with a `duration`. -/
def durationChecks (F : WarnCategory → WarnAction) (A : Args) : Run Unit :=
  match A.ecc, A.duration with
  | none, some _ =>
    match A.b with
    | none => Run.lift (.error (.valueError "'b' must be provided for a circular orbit with a 'duration'"))
    | some _ => if A.ror.isNone then Run.warn F rorWarning else pure ()
  | _, _ => pure ()

/-- `KeplerianOrbit.__init__` (keplerian.py:75-281) with its warnings. All warnings are issued in the lines 99-126; what follows is
`keplerianInit`, which repeats the attachment of the units without a warning. -/
noncomputable def keplerianRun (F : WarnCategory → WarnAction) (C : Consts) (A : Args) : Run Orbit := do
  let _ ← unitKwRun F massUnitsWarning A.m_planet A.m_planet_units
  let _ ← unitKwRun F densityUnitsWarning A.rho_star A.rho_star_units
  durationChecks F A
  Run.lift (keplerianInit C A)

end Exo
