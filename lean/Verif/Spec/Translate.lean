import Verif.Model.LightCurve
import Verif.Model.StateVector
import Verif.Model.Ttv

/-!
# Vocabulary for translations of time
-/

namespace Exo

/-- A labelled number plus a number. -/
noncomputable def Q.plus (q : Q) (d : ℝ) : Q := ⟨q.val + d, q.unit⟩

/-- All times `d` later. -/
noncomputable def later (d : ℝ) (ts : List ℝ) : List ℝ := ts.map (· + d)

/-- The same orbit `d` days later: `t0` and `t_periastron` are `d` larger. The default of `t0` is zero. -/
noncomputable def Args.moved (A : Args) (d : ℝ) : Args :=
  match A.t0, A.t_periastron with
  | none, none => { A with t0 := some (d : ℝ) }
  | x, y => { A with t0 := x.map (Q.plus · d), t_periastron := y.map (Q.plus · d) }

/-- The same for a `TTVOrbit`: the transit times, or `t0` and `t_periastron` if timing variations are given. -/
noncomputable def TtvArgs.moved (K : TtvArgs) (d : ℝ) : TtvArgs :=
  { K with base := if K.ttvs.isSome then K.base.moved d else K.base, transit_times := K.transit_times.map (later d) }

/-- The orbit object that behaves at time `t` as `o` does at time `t - d`. -/
noncomputable def Orbit.moved (o : Orbit) (d : ℝ) : Orbit :=
  { o with t0 := o.t0 + d, t_periastron := o.t_periastron + d, warp := fun t => o.warp (t - d) }

/-- Everything that `o` says about time `t`, `o'` says about time `t + d`; the reference times are `d` later and the other
attributes are the same. -/
structure Orbit.Later (C : Consts) (d : ℝ) (o o' : Orbit) : Prop where
  t0 : o'.t0 = o.t0 + d
  t_periastron : o'.t_periastron = o.t_periastron + d
  others : ∀ w, { o' with t0 := o.t0, t_periastron := o.t_periastron, warp := w } = { o with warp := w }
  planet : ∀ t px ld, o'.planetPosition C (t + d) px ld = o.planetPosition C t px ld
  star : ∀ t px ld, o'.starPosition C (t + d) px ld = o.starPosition C t px ld
  relative : ∀ t px ld, o'.relativePosition C (t + d) px ld = o.relativePosition C t px ld
  angles : ∀ t px ld, o'.relativeAngles C (t + d) px ld = o.relativeAngles C t px ld
  planet_v : ∀ t, o'.planetVelocity (t + d) = o.planetVelocity t
  star_v : ∀ t, o'.starVelocity (t + d) = o.starVelocity t
  relative_v : ∀ t, o'.relativeVelocity (t + d) = o.relativeVelocity t
  planet_a : ∀ t, o'.planetAcceleration (t + d) = o.planetAcceleration t
  star_a : ∀ t, o'.starAcceleration (t + d) = o.starAcceleration t
  relative_a : ∀ t, o'.relativeAcceleration (t + d) = o.relativeAcceleration t
  rv : ∀ t K u, o'.radialVelocity C (t + d) K u = o.radialVelocity C t K u
  transits : ∀ cp r ts texp ld, inTransit cp [(o', r)] (later d ts) texp ld = inTransit cp [(o, r)] ts texp ld
  unit_x : ∀ t, o'.unitPosition (t + d) = o.unitPosition t
  unit_v : ∀ t, o'.unitVelocity (t + d) = o.unitVelocity t

/-- Two outcomes of a constructor: the same exception, or objects in the given relation. -/
def SameOutcome {α : Type} (R : α → α → Prop) (x y : Except PyErr α) : Prop :=
  match x, y with
  | .error e, .error e' => e = e'
  | .ok a, .ok b => R a b
  | _, _ => False

/-- The same for constructors whose attributes may be NaN (`none`). -/
def OptRel {α : Type} (R : α → α → Prop) (x y : Option α) : Prop :=
  match x, y with
  | none, none => True
  | some a, some b => R a b
  | _, _ => False

/-- `T'` is the `TTVOrbit` `T`, `d` days later. -/
structure Ttv.Later (C : Consts) (d : ℝ) (T T' : Ttv) : Prop where
  orbit : Orbit.Later C d T.orbit T'.orbit
  ttv_period : T'.ttv_period = T.ttv_period
  ttvs : T'.ttvs = T.ttvs
  transit_inds : T'.transit_inds = T.transit_inds
  transit_times : T'.transit_times = later d T.transit_times
  all_transit_times : T'.all_transit_times = later d T.all_transit_times

/-- An array of times `d` later. -/
noncomputable def Tensor.later (d : ℝ) (t : Tensor ℝ) : Tensor ℝ := t.map (· + d)

end Exo
