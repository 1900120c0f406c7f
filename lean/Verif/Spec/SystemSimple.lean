import Verif.Model.SystemSimple
import Verif.Spec.System

/-!
# Vocabulary for `SimpleTransitOrbit` with several planets
-/

namespace Exo

/-- Every argument is shared or has one entry per planet. -/
structure VSimpleArgs.FitsPlanets (np : ℕ) (A : VSimpleArgs) : Prop where
  period : A.period.val.FitsPlanets np
  duration : A.duration.val.FitsPlanets np
  t0 : A.t0.val.FitsPlanets np
  b : A.b.val.FitsPlanets np
  r_star : A.r_star.val.FitsPlanets np
  ror : A.ror.val.FitsPlanets np

/-- The orbit of planet `p` alone. -/
noncomputable def VSimpleArgs.ofPlanet (A : VSimpleArgs) (p : ℕ) : SimpleOrbit :=
  simpleInit (A.period.val.ofPlanet p) (A.duration.val.ofPlanet p) (A.t0.val.ofPlanet p) (A.b.val.ofPlanet p) (A.r_star.val.ofPlanet p)
    (A.ror.val.ofPlanet p)

/-- Some argument that enters `x` has one entry per planet. -/
def VSimpleArgs.XPerPlanet (np : ℕ) (A : VSimpleArgs) : Prop :=
  A.period.val.shape = [np] ∨ A.t0.val.shape = [np] ∨ A.duration.val.shape = [np] ∨ A.b.val.shape = [np] ∨ A.r_star.val.shape = [np] ∨
    A.ror.val.shape = [np]

/-- Some argument that enters `y` has one entry per planet. -/
def VSimpleArgs.YPerPlanet (np : ℕ) (A : VSimpleArgs) : Prop :=
  A.period.val.shape = [np] ∨ A.t0.val.shape = [np] ∨ A.b.val.shape = [np] ∨ A.r_star.val.shape = [np]

/-- Some argument that enters `z` has one entry per planet. -/
def VSimpleArgs.ZPerPlanet (np : ℕ) (A : VSimpleArgs) : Prop :=
  A.period.val.shape = [np] ∨ A.t0.val.shape = [np] ∨ A.duration.val.shape = [np]

/-- All three coordinates have a planet axis: `period` or `t0` has one entry per planet, or `duration` has and so has `b` or `r_star`. -/
def VSimpleArgs.PerPlanet (np : ℕ) (A : VSimpleArgs) : Prop :=
  A.period.val.shape = [np] ∨ A.t0.val.shape = [np] ∨ A.duration.val.shape = [np] ∧ (A.b.val.shape = [np] ∨ A.r_star.val.shape = [np])

/-- The position of one planet at one time as a vector. (`x = 0` where Python has NaN.) -/
noncomputable def SimpleOrbit.posAt (o : SimpleOrbit) (t : ℝ) : V3 :=
  match o.relativePosition t with
  | .ok (x, y, z) => ⟨x.getD 0, y, z⟩
  | .error _ => ⟨0, 0, 0⟩

/-- The attributes of `O` are those of the orbits `os p`. -/
structure VSimple.IsSystemOf (O : VSimple) (np : ℕ) (os : ℕ → SimpleOrbit) : Prop where
  period : O.period.Holds np fun p => (os p).period
  t0 : O.t0.Holds np fun p => (os p).t0
  b : O.b.Holds np fun p => (os p).b
  duration : O.duration.Holds np fun p => (os p).duration
  r_star : O.r_star.Holds np fun p => (os p).r_star
  b_norm : O.b_norm.Holds np fun p => (os p).b_norm
  half_period : O.half_period.Holds np fun p => (os p).half_period
  ref_time : O.ref_time.Holds np fun p => (os p).ref_time
  /-- the NaNs of the speed -/
  nan : O.nan.Holds np fun p => if (os p).speed = none then 1 else 0
  /-- the speed elsewhere -/
  speed : ∃ v : ℕ → ℝ, O.speed.Holds np v ∧ ∀ p < np, ∀ w, (os p).speed = some w → v p = w

end Exo
