import Verif.Model.Interpolated
import Verif.Model.SystemLightCurve
import Verif.Model.TtvSystem

/-!
# `InterpolatedLightCurve` for orbits with array attributes — `src/exoplanet/light_curves/interpolated.py:40-125`
-/

namespace Exo
open Real

/-- The loop body over the planets with `orbit.t0[n]`, `orbit.period[n]` — `interpolated.py:101-123`. -/
noncomputable def planetColumnT (num_phase : ℤ) (t0 period : Tensor ℝ) (func : List ℝ → Except PyErr (Tensor ℝ)) (t : List ℝ)
    (n : ℕ) : Except PyErr (List ℝ) :=
  match t0.entry n with
  | .error e => .error e
  | .ok t0n =>
  match period.entry n with
  | .error e => .error e
  | .ok pn => interpColumn num_phase func n t0n pn t

/-- `InterpolatedLightCurve.get_light_curve` — `interpolated.py:56-125`, for a vector of times, with the arrays `orbit.t0` and
`orbit.period`. With at most one planet both go into `pt.arange`, which needs scalars (22, 87-98); the class of the exception for vectors
is not modelled faithfully. With more planets they are indexed (112-113). -/
noncomputable def interpolatedLightCurveT (num_phase : ℤ) (num_planets : Option ℤ) (test_value : Option ℕ) (t0 period : Tensor ℝ)
    (func : List ℝ → Except PyErr (Tensor ℝ)) (t : List ℝ) : Except PyErr (Tensor ℝ) :=
  match numPlanets num_planets test_value with
  | .error e => .error e
  | .ok np =>
  if np ≤ 1 then
    if t0.shape = [] ∧ period.shape = [] then
      match interpColumn num_phase func 0 (t0.get []) (period.get []) t with
      | .error e => .error e
      | .ok y => .ok ⟨[t.length, 1], fun idx => y.getD (idx.headD 0) 0⟩
    else .error (.valueError "arange: scalar arguments expected")
  else
    match (List.range np.toNat).mapM (planetColumnT num_phase t0 period func t) with
    | .error e => .error e
    | .ok ys => .ok ⟨[t.length, np.toNat], fun idx => (ys.getD (idx.getLastD 0) []).getD (idx.headD 0) 0⟩

/-- `InterpolatedLightCurve(LimbDarkLightCurve(u1, u2), num_phase, num_planets).get_light_curve(orbit=o, r=r, t=t, …)` for an orbit whose
attributes are graphs (`_wrapper`, `interpolated.py:128-137`, passes the arguments on). -/
noncomputable def interpolatedV (l : LimbDark) (C : Consts) (cp : ContactOp) (num_phase : ℤ) (num_planets : Option ℤ)
    (test_value : Option ℕ) (o : VOrbit) (r : Tensor ℝ) (t : List ℝ) (texp : Option (Tensor ℝ) := none) (oversample : ℤ := 7)
    (order : ℤ := 0) (use_in_transit : Option Bool := none) (light_delay : Bool := false) : Except PyErr (Tensor ℝ) :=
  match evalTimes o with
  | .error e => .error e
  | .ok (t0, period) => interpolatedLightCurveT num_phase num_planets test_value t0 period
      (fun xs => l.getLightCurveV C cp o r (Tensor.ofList xs 0) texp oversample order use_in_transit light_delay) t

end Exo
