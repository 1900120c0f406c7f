import Verif.Model.Secondary
import Verif.Model.Interpolated

/-!
# Calls of `get_light_curve` with arguments left out — `secondary_eclipse.py:33-70`, `interpolated.py:56-125`

`orbit`, `r` and `t` have the default `None` in all three classes; only `LimbDarkLightCurve` looks whether they are `None`
(`limb_dark.py:148-153`, `LimbDark.getLightCurve`).
-/

namespace Exo

/-- What a call can raise: the exceptions of `PyErr`, the access to an attribute of `None`, and whatever the tensor library raises when
`None` is converted to a tensor (its class differs between the libraries behind `exoplanet.compat`, and is left open). -/
inductive CallErr where
  | py (e : PyErr)
  | attributeError (attr : String)
  | noneTensor
  deriving DecidableEq

/-- A call that raises only exceptions of `PyErr` (`limb_dark.py:99-232` and what it calls). -/
def liftErr {α : Type} : Except PyErr α → Except CallErr α
  | .error e => .error (.py e)
  | .ok a => .ok a

/-- `as_tensor_variable(x)` for a tensor or `None` — `secondary_eclipse.py:44`; also the conversion of the operand `t` of
`t - orbit.t0` — `interpolated.py:93` and 117. -/
def asTensorOpt {α : Type} : Option α → Except CallErr α
  | none => .error .noneTensor
  | some x => .ok x

/-- `SecondaryEclipseLightCurve.get_light_curve` with possibly missing arguments — `secondary_eclipse.py:33-70`; the orbit is a
`KeplerianOrbit` as in `SecondaryEclipse.getLightCurve`, given by its planets and `r_star`. -/
noncomputable def SecondaryEclipse.call (C : Consts) (cp : ContactOp) (l : SecondaryEclipse) (orbit : Option (List Orbit × ℝ))
    (r t : Option (Tensor ℝ)) (texp : Option (Tensor ℝ) := none) (oversample : ℤ := 7) (order : ℤ := 0)
    (use_in_transit : Option Bool := none) (light_delay : Bool := false) : Except CallErr (Tensor ℝ) := do
  -- 44
  let r ← asTensorOpt r
  -- 45
  let (orbits, r_star) ← match orbit with
    | none => .error (.attributeError "_flip")
    | some o => .ok o
  let orbits2 ← liftErr (flipAll C orbits r.toList)
  -- 46-55
  let lc1 ← liftErr (l.primary.getLightCurve (some (keplerApi C cp orbits r_star)) (some r) t texp oversample order
    use_in_transit light_delay)
  -- 56-65
  let lc2 ← liftErr (l.secondary.getLightCurve (some (keplerApi C cp orbits2 (r.toList.headD 0))) (some (Tensor.scalar r_star)) t
    texp oversample order use_in_transit light_delay)
  -- 67-70
  let flux_ratio := r.map (fun r => l.surface_brightness_ratio * (r / r_star) ^ 2)
  let s ← liftErr (flux_ratio.zipB (· * ·) lc2)
  let s ← liftErr (lc1.zipB (· + ·) s)
  liftErr (s.zipB (· / ·) (flux_ratio.map (1 + ·)))

/-- What `InterpolatedLightCurve` uses of an orbit (`interpolated.py:69`, 89-90, 112-113): the pairs `(t0, period)`, the length of
`orbit.period.tag.test_value` if there is one, and what the base light curve uses. -/
structure InterpOrbit where
  times : List (ℝ × ℝ)
  test_value : Option ℕ
  api : OrbitApi

/-- `InterpolatedLightCurve(base, num_phase, num_planets).get_light_curve` with possibly missing arguments — `interpolated.py:56-125`,
for a base `LimbDarkLightCurve` and a vector of times. `None` has no attribute `period`, which is caught (68-73), and no attribute `t0`,
which is not (89, 112). The difference `t - orbit.t0` is formed before the table is computed (93, 117). For an empty vector of times
the code still computes the table, the model does not. -/
noncomputable def interpolatedCall (l : LimbDark) (num_phase : ℤ) (num_planets : Option ℤ) (orbit : Option InterpOrbit)
    (r : Option (Tensor ℝ)) (t : Option (List ℝ)) (texp : Option (Tensor ℝ) := none) (oversample : ℤ := 7) (order : ℤ := 0)
    (use_in_transit : Option Bool := none) (light_delay : Bool := false) : Except CallErr (Tensor ℝ) := do
  -- 67-76
  let np ← liftErr (numPlanets num_planets (orbit.bind (·.test_value)))
  -- 89, 112
  let orbit ← match orbit with
    | none => .error (.attributeError "t0")
    | some o => .ok o
  -- 112
  if 1 < np ∧ orbit.times = [] then .error (.py .indexError)
  -- 93, 117
  let t ← asTensorOpt t
  liftErr (interpolatedLightCurve num_phase num_planets orbit.test_value orbit.times
    (fun xs => l.getLightCurve (some orbit.api) r (some (Tensor.ofList xs 0)) texp oversample order use_in_transit light_delay) t)

end Exo
