import Verif.Model.SystemLightCurve
import Verif.Spec.System

/-!
# Vocabulary for the light curves of systems
-/

namespace Exo

/-- The graph evaluates to an array with `np` entries. -/
def Gr.Full (np : ℕ) (g : Gr) : Prop := ∃ T, g.eval = .ok T ∧ T.size = np

/-- The attributes that an eccentric orbit hands to `contact_points` without broadcasting (`keplerian.py:745-749`) have one entry per
planet. (Nothing is required of a circular orbit.) -/
def ContactSizes (O : VOrbit) (np : ℕ) : Prop :=
  ∀ E, O.ecc = some E → O.a.Full np ∧ E.ecc.Full np ∧ E.cos_omega.Full np ∧ E.sin_omega.Full np

/-- The exposure time, as the single-planet model of `in_transit` takes it. -/
def texpOf (texp : Option (Tensor ℝ)) : Texp :=
  match texp with
  | none => .none
  | some x => match x.shape with
    | [] => .scalar (x.get [])
    | _ => .vector x.toList

/-- The arguments of an eccentric system give `a`, `ecc` and the angle of periastron planet by planet: `ecc` has one entry per planet,
so has `omega` (or `sin_omega` and `cos_omega`), and so has `a`, or `period` when `a` is not given. -/
structure VArgs.ContactPerPlanet (np : ℕ) (A : VArgs) : Prop where
  ecc : ∀ q, A.ecc = some q → q.val.shape = [np]
  omega : ∀ q, A.omega = some q → q.val.shape = [np]
  sin_omega : ∀ q, A.sin_omega = some q → q.val.shape = [np]
  cos_omega : ∀ q, A.cos_omega = some q → q.val.shape = [np]
  a : (∃ q, A.a = some q ∧ q.val.shape = [np]) ∨ A.a = none ∧ ∃ q, A.period = some q ∧ q.val.shape = [np]

end Exo
