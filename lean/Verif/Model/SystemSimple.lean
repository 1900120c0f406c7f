import Verif.Model.Simple
import Verif.Model.SystemLightCurve

/-!
# Model of `src/exoplanet/orbits/simple.py` with array arguments

The code of `Verif/Model/Simple.lean` once more, with an orbit whose attributes are graphs over arrays. NaN is kept apart: an array that
may contain NaN comes with an array that is `1` at the NaNs. (As in `Verif/Model/Simple.lean` a division by zero is totalised in the
speed; the theorems assume positive durations.)
-/

namespace Exo
open Real Classical

/-- An argument of `SimpleTransitOrbit`: an array (or number, or tensor), or a Python list. -/
structure SArg where
  val : Tensor ℝ
  isList : Bool := false

/-- The arguments of `SimpleTransitOrbit.__init__`, with the defaults of `simple.py:24`. -/
structure VSimpleArgs where
  period : SArg
  duration : SArg
  t0 : SArg := ⟨.scalar 0, false⟩
  b : SArg := ⟨.scalar 0, false⟩
  r_star : SArg := ⟨.scalar 1, false⟩
  ror : SArg := ⟨.scalar 0, false⟩

/-- The attributes of a `SimpleTransitOrbit`. `nan` is `1` where `speed` is NaN. -/
structure VSimple where
  period : Gr
  t0 : Gr
  b : Gr
  duration : Gr
  r_star : Gr
  b_norm : Gr
  speed : Gr
  nan : Gr
  half_period : Gr
  ref_time : Gr

/-- `SimpleTransitOrbit.__init__` — `simple.py:24-36`. `x2` is computed from the arguments themselves, not from the tensors made of
them, so that `r_star ** 2`, `1 + ror` and `b ** 2` raise for Python lists (`simple.py:32`). The list `duration` is converted by
the division (`simple.py:33`). -/
noncomputable def simpleInitV (A : VSimpleArgs) : Except PyErr VSimple :=
  if A.r_star.isList ∨ A.ror.isList ∨ A.b.isList then .error (.typeError "unsupported operand type(s)") else
  let period := Gr.leaf A.period.val
  let t0 := Gr.leaf A.t0.val
  let b := Gr.leaf A.b.val
  let duration := Gr.leaf A.duration.val
  let r_star := Gr.leaf A.r_star.val
  let x2 := r_star ^ 2 * ((1 + .leaf A.ror.val) ^ 2 - b ^ 2)
  let half := ((0.5 : ℝ) : Gr) * period
  .ok { period := period, t0 := t0, b := b, duration := duration, r_star := r_star, b_norm := b * r_star,
        speed := 2 * x2.sqrt / duration, nan := x2.map (fun x => if x < 0 then 1 else 0), half_period := half, ref_time := t0 - half }

namespace VSimple
variable (o : VSimple)

/-- `dt` of `simple.py:60-61` and 93-94. -/
noncomputable def dt (t : Gr) : Gr := Gr.zip pymod (t.padright - o.ref_time) o.period - o.half_period

/-- `get_relative_position(t, light_delay)` — `simple.py:45-66`. Where `o.nan` is `1` the coordinate `x` is NaN. -/
noncomputable def relativePosition (t : Gr) (light_delay : Bool := false) : Except PyErr V3G :=
  if light_delay then .error (.notImplemented "light travel time delay for simple orbits") else
  let dt := o.dt t
  let m := Gr.zip (fun d h => if |d| < h then 1 else 0) dt (((0.5 : ℝ) : Gr) * o.duration)
  .ok ⟨(o.speed * dt).squeeze, (o.b_norm + dt.zerosLike).squeeze,
    (m * ((1.0 : ℝ) : Gr) - m.map (fun x => 1 - x) * ((1.0 : ℝ) : Gr)).squeeze⟩

/-- `get_planet_position(t, light_delay)` — `simple.py:42-43`: note the hard-coded `light_delay=False`. -/
noncomputable def planetPosition (t : Gr) (_light_delay : Bool := false) : Except PyErr V3G := o.relativePosition t false

/-- `get_star_position(t, light_delay)` — `simple.py:38-40`. -/
noncomputable def starPosition (_o : VSimple) (t : Gr) (_light_delay : Bool := false) : V3G := ⟨t.zerosLike, t.zerosLike, t.zerosLike⟩

/-- The graphs of `simple.py:98-99`: what kind of number the threshold is (`0` NaN, `1` finite, `2` infinite), and its value. -/
noncomputable def tolGraphs (r : Gr) : Gr × Gr :=
  let x := (r + o.r_star) ^ 2 - o.b_norm ^ 2
  (Gr.zip3 (fun x n v => if x < 0 ∨ n ≠ 0 then 0 else if v = 0 then (if x = 0 then 0 else 2) else 1) x o.nan o.speed, x.sqrt / o.speed)

/-- The threshold, from its kind and its value. -/
noncomputable def _root_.Exo.Tol.ofKind (kind value : ℝ) : Tol := if kind = 0 then .nan else if kind = 1 then .fin value else .inf

/-- `tol` before the exposure time — `simple.py:95-99`. -/
noncomputable def tolBase (r : Option (Tensor ℝ)) : Except PyErr (Tensor Tol) :=
  match r with
  | none => do
    let d ← (((0.5 : ℝ) : Gr) * o.duration).eval
    .ok (d.map Tol.fin)
  | some r => do
    let k ← (o.tolGraphs (.leaf r)).1.eval
    let v ← (o.tolGraphs (.leaf r)).2.eval
    k.zipB Tol.ofKind v

/-- `tol` — `simple.py:95-101`. -/
noncomputable def tol (r texp : Option (Tensor ℝ)) : Except PyErr (Tensor Tol) :=
  match texp with
  | none => o.tolBase r
  | some x => do
    let w ← o.tolBase r
    w.zipB (fun w x => w.add (0.5 * x)) x

/-- `in_transit(t, r, texp, light_delay)` — `simple.py:77-103`. -/
noncomputable def inTransit (t : Tensor ℝ) (r : Option (Tensor ℝ) := none) (texp : Option (Tensor ℝ) := none) (light_delay : Bool := false) :
    Except PyErr (List ℕ) :=
  if light_delay then .error (.notImplemented "light travel time delay for simple orbits") else do
  let dt ← (o.dt (.leaf t)).eval
  let tol ← o.tol r texp
  let m ← dt.zipB (fun d w => w.gt |d|) tol
  maskIndices t.size m.anyLast

end VSimple

/-- `limb_dark.py:213-222` with a `SimpleTransitOrbit`. -/
noncomputable def LimbDark.lightCurveAtS (l : LimbDark) (o : VSimple) (tgrid rgrid : Tensor ℝ) (light_delay : Bool) :
    Except PyErr (Tensor ℝ) := do
  let pos ← o.relativePosition (.leaf tgrid) light_delay
  l.lightCurveAtG pos o.r_star rgrid

/-- `get_light_curve` — `limb_dark.py:99-232`, for a `SimpleTransitOrbit` and arrays `r` and `t`. -/
noncomputable def LimbDark.getLightCurveS (l : LimbDark) (o : VSimple) (r t : Tensor ℝ)
    (texp : Option (Tensor ℝ) := none) (oversample : ℤ := 7) (order : ℤ := 0) (use_in_transit : Option Bool := none)
    (light_delay : Bool := false) : Except PyErr (Tensor ℝ) :=
  lightCurveWith (integratedWith (l.lightCurveAtS o)) (fun t r texp ld => o.inTransit t (some r) texp ld) r t texp oversample order
    use_in_transit light_delay

end Exo
