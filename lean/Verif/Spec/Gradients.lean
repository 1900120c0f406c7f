import Verif.Spec.Parameters
import Mathlib.Analysis.Calculus.ContDiff.Defs
import Mathlib.Analysis.Calculus.ContDiff.Basic

/-!
# Smooth families of orbits
-/

namespace Exo

/-- All three components of a vector are `n` times continuously differentiable at `x`. -/
def SmoothVAt {X : Type} [NormedAddCommGroup X] [NormedSpace ℝ X] (n : WithTop ℕ∞) (f : X → V3) (x : X) : Prop :=
  ContDiffAt ℝ n (fun y => (f y).x) x ∧ ContDiffAt ℝ n (fun y => (f y).y) x ∧ ContDiffAt ℝ n (fun y => (f y).z) x

/-- The elements of a family of orbits are `n` times continuously differentiable at `x`. -/
structure ElementsSmoothAt {X : Type} [NormedAddCommGroup X] [NormedSpace ℝ X] (n : WithTop ℕ∞) (o : X → Orbit) (x : X) : Prop where
  a : ContDiffAt ℝ n (fun y => (o y).a) x
  period : ContDiffAt ℝ n (fun y => (o y).period) x
  t0 : ContDiffAt ℝ n (fun y => (o y).t0) x
  ecc : ContDiffAt ℝ n (fun y => (o y).eccVal) x
  sinOmega : ContDiffAt ℝ n (fun y => (o y).sinOmega) x
  cosOmega : ContDiffAt ℝ n (fun y => (o y).cosOmega) x
  incl : ContDiffAt ℝ n (fun y => (o y).incl) x
  Omega : ContDiffAt ℝ n (fun y => (o y).Omega.getD 0) x
  m_star : ContDiffAt ℝ n (fun y => (o y).m_star) x
  m_planet : ContDiffAt ℝ n (fun y => (o y).m_planet) x

end Exo
