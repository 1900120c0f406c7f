import Verif.Model.InTransit

/-!
# Model of `src/exoplanet/orbits/simple.py`

One planet at a time (`SimpleOrbit`); `in_transit` reduces over the planets.
-/

namespace Exo
open Real Classical

/-- The attributes of a `SimpleTransitOrbit` for one planet. `speed` is `none` where Python has NaN. -/
structure SimpleOrbit where
  period : ℝ
  t0 : ℝ
  b : ℝ
  duration : ℝ
  r_star : ℝ
  b_norm : ℝ
  speed : Option ℝ
  half_period : ℝ
  ref_time : ℝ

/-- `SimpleTransitOrbit.__init__` — `simple.py:24-36`. (`duration = 0`, where Python divides by zero, is totalised to speed
`0`; every theorem assumes a positive duration.) -/
noncomputable def simpleInit (period duration : ℝ) (t0 b : ℝ := 0) (r_star : ℝ := 1) (ror : ℝ := 0) : SimpleOrbit :=
  let x2 := r_star ^ 2 * ((1 + ror) ^ 2 - b ^ 2)
  let half := 0.5 * period
  { period := period, t0 := t0, b := b, duration := duration, r_star := r_star, b_norm := b * r_star,
    speed := if x2 < 0 then none else some (2 * √x2 / duration), half_period := half, ref_time := t0 - half }

/-- A comparison threshold that may be NaN or `+inf`. -/
inductive Tol where
  | nan
  | fin (x : ℝ)
  | inf

/-- `x < tol`. -/
noncomputable def Tol.gt (tol : Tol) (x : ℝ) : Bool :=
  match tol with
  | .nan => false
  | .fin y => decide (x < y)
  | .inf => true

/-- `tol + y`. -/
noncomputable def Tol.add (tol : Tol) (y : ℝ) : Tol :=
  match tol with
  | .nan => .nan
  | .fin x => .fin (x + y)
  | .inf => .inf

namespace SimpleOrbit
variable (o : SimpleOrbit)

/-- `dt` of `simple.py:60-61` and 93-94. -/
noncomputable def dt (t : ℝ) : ℝ := pymod (t - o.ref_time) o.period - o.half_period

/-- `get_relative_position(t, light_delay)` — `simple.py:45-66`: `(x, y, z)`, `x` possibly NaN. -/
noncomputable def relativePosition (t : ℝ) (light_delay : Bool := false) : Except PyErr (Option ℝ × ℝ × ℝ) :=
  if light_delay then .error (.notImplemented "light travel time delay for simple orbits") else
  let dt := o.dt t
  let x := o.speed.map (· * dt)
  let y := o.b_norm + 0
  let m := decide (|dt| < 0.5 * o.duration)
  let z := (if m then 1 else 0) * 1.0 - (if !m then 1 else 0) * 1.0
  .ok (x, y, z)

/-- `get_planet_position(t, light_delay)` — `simple.py:42-43`: note the hard-coded `light_delay=False`. -/
noncomputable def planetPosition (t : ℝ) (_light_delay : Bool := false) : Except PyErr (Option ℝ × ℝ × ℝ) :=
  o.relativePosition t false

/-- `get_star_position(t, light_delay)` — `simple.py:38-40`. -/
noncomputable def starPosition (_o : SimpleOrbit) (_t : ℝ) (_light_delay : Bool := false) : Except PyErr (Option ℝ × ℝ × ℝ) :=
  .ok (some 0, 0, 0)

/-- `get_planet_velocity` — `simple.py:68-69`. -/
def planetVelocity (_o : SimpleOrbit) (_t : ℝ) : Except PyErr V3 := .error (.notImplemented "a SimpleTransitOrbit has no velocity")
/-- `get_star_velocity` — `simple.py:71-72`. -/
def starVelocity (_o : SimpleOrbit) (_t : ℝ) : Except PyErr V3 := .error (.notImplemented "a SimpleTransitOrbit has no velocity")
/-- `get_radial_velocity` — `simple.py:74-75`. -/
def radialVelocity (_o : SimpleOrbit) (_t : ℝ) (_output_units : Option AUnit := none) : Except PyErr ℝ :=
  .error (.notImplemented "a SimpleTransitOrbit has no velocity")

/-- `simple.py:98-99`: `sqrt((r + r_star)**2 - b_norm**2) / speed`. -/
noncomputable def tolOf (r : ℝ) : Tol :=
  let x := (r + o.r_star) ^ 2 - o.b_norm ^ 2
  if x < 0 then .nan else
  match o.speed with
  | none => .nan
  | some v => if v = 0 then (if x = 0 then .nan else .inf) else .fin (√x / v)

end SimpleOrbit

/-- `simple.py:100-101` with the shapes: `tol` has shape `(n_planets,)`. -/
noncomputable def addTexp (tols : List Tol) (texp : Texp) : Except PyErr (List Tol) :=
  match texp with
  | .none => .ok tols
  | .scalar x => .ok (tols.map (fun w => w.add (0.5 * x)))
  | .vector v => bcast (fun w x => w.add (0.5 * x)) tols v

/-- `in_transit(t, r, texp, light_delay)` — `simple.py:77-103`, for a vector `t`; `r` is broadcast against the planets. -/
noncomputable def simpleInTransit (planets : List SimpleOrbit) (t : List ℝ) (r : Option (List ℝ) := none)
    (texp : Texp := .none) (light_delay : Bool := false) : Except PyErr (List ℕ) :=
  if light_delay then .error (.notImplemented "light travel time delay for simple orbits") else
  let tols : Except PyErr (List Tol) := match r with
    | none => .ok (planets.map (fun o => .fin (0.5 * o.duration)))
    | some r => bcast (fun o r => o.tolOf r) planets r
  match tols with
  | .error e => .error e
  | .ok tols =>
  match addTexp tols texp with
  | .error e => .error e
  | .ok tols =>
  match bcast (fun _ _ => ()) planets tols with
  | .error e => .error e
  | .ok _ =>
  let row : ℝ → List Bool := fun t =>
    match bcast (fun dt tol => tol.gt |dt|) (planets.map (fun o => o.dt t)) tols with
    | .error _ => []
    | .ok m => m
  .ok ((List.range t.length).filter (fun i => ((row (t.getD i 0)).any id)))

end Exo
