import Verif.Spec.Conjunction
import Mathlib.Topology.Order.Basic
import Mathlib.Topology.MetricSpace.Pseudo.Defs

/-!
# Families of orbits
-/

namespace Exo
open Filter Topology

/-- All three components of a vector vary continuously at `x`. -/
def ContinuousVAt {X : Type} [TopologicalSpace X] (f : X → V3) (x : X) : Prop :=
  ContinuousAt (fun y => (f y).x) x ∧ ContinuousAt (fun y => (f y).y) x ∧ ContinuousAt (fun y => (f y).z) x

/-- The elements of a family of orbits vary continuously at `x`. -/
structure ElementsContinuousAt {X : Type} [TopologicalSpace X] (o : X → Orbit) (x : X) : Prop where
  a : ContinuousAt (fun y => (o y).a) x
  period : ContinuousAt (fun y => (o y).period) x
  t0 : ContinuousAt (fun y => (o y).t0) x
  ecc : ContinuousAt (fun y => (o y).eccVal) x
  sinOmega : ContinuousAt (fun y => (o y).sinOmega) x
  cosOmega : ContinuousAt (fun y => (o y).cosOmega) x
  incl : ContinuousAt (fun y => (o y).incl) x
  Omega : ContinuousAt (fun y => (o y).Omega.getD 0) x
  m_star : ContinuousAt (fun y => (o y).m_star) x
  m_planet : ContinuousAt (fun y => (o y).m_planet) x

end Exo
