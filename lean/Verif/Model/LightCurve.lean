import Verif.Model.Tensor
import Verif.Model.LimbDark
import Verif.Model.Simple

/-!
# Model of `LimbDarkLightCurve.get_light_curve` — `src/exoplanet/light_curves/limb_dark.py:99-232`
-/

namespace Exo
open Real

/-- What `get_light_curve` uses of an orbit: the number of planets, the position of planet `p` at a time (or the exception
raised for this value of `light_delay`), `in_transit(t, r, texp, light_delay)` for vectors, and `r_star`. -/
structure OrbitApi where
  np : ℕ
  pos : Bool → Except PyErr (ℕ → ℝ → V3)
  inTransit : List ℝ → List ℝ → Texp → Bool → Except PyErr (List ℕ)
  r_star : ℝ

/-- A `KeplerianOrbit` (or a `TTVOrbit`, whose `warp` differs) with the given planets; `keplerian.py:517-543`, `708-777`.
The radii are broadcast against the planets (`keplerian.py:726`). The star's radius is that of the first planet's
orbit (one star). -/
noncomputable def keplerApi (C : Consts) (cp : ContactOp) (orbits : List Orbit) (r_star : ℝ) : OrbitApi where
  np := orbits.length
  pos := fun ld => .ok fun p t => match orbits[p]? with
    | some o => o.relativePosition C t none ld
    | none => ⟨0, 0, 0⟩
  inTransit := fun t r texp ld =>
    match bcast (fun o r => (o, r)) orbits r with
    | .error e => .error e
    | .ok planets => Exo.inTransit cp planets t texp ld
  r_star := r_star

/-- A `SimpleTransitOrbit` with the given planets — `simple.py:45-66`, `77-103`. A NaN speed is totalised to zero; the
theorems exclude it. -/
noncomputable def simpleApi (orbits : List SimpleOrbit) (r_star : ℝ) : OrbitApi where
  np := orbits.length
  pos := fun ld =>
    if ld then .error (.notImplemented "light travel time delay for simple orbits") else
    .ok fun p t => match orbits[p]? with
      | some o => match o.relativePosition t with
        | .ok (x, y, z) => ⟨x.getD 0, y, z⟩
        | .error _ => ⟨0, 0, 0⟩
      | none => ⟨0, 0, 0⟩
  inTransit := fun t r texp ld => simpleInTransit orbits t (some r) texp ld
  r_star := r_star

/-- `orbit.get_relative_position(t, light_delay=...)`: entry `(i, p)` is the position of planet `p` at time `t[i]`, then all
axes of length one are squeezed (`keplerian.py:536-543`, `simple.py:62-65`). The three coordinates have the same shape. -/
def OrbitApi.relPos (o : OrbitApi) (t : Tensor ℝ) (light_delay : Bool) : Except PyErr (Tensor V3) :=
  match o.pos light_delay with
  | .error e => .error e
  | .ok f => .ok (Tensor.squeeze ⟨t.shape ++ [o.np], fun idx => f (idx.getLastD 0) (t.get idx.dropLast)⟩)

/-- `orbit.in_transit(t, r=r, texp=texp, light_delay=light_delay)` for arrays: the mask is computed along the last axis and
applied to `arange(t.shape[0])` (`keplerian.py:769-775`, `simple.py:102-103`), which fails unless `t` has one axis. Arrays
`texp` with more than one axis are not modelled (error). -/
def OrbitApi.inTransitT (o : OrbitApi) (t r : Tensor ℝ) (texp : Option (Tensor ℝ)) (light_delay : Bool) :
    Except PyErr (List ℕ) :=
  if t.shape.length ≠ 1 then .error .indexError else
  match texp with
  | none => o.inTransit t.toList r.toList .none light_delay
  | some x => match x.shape with
    | [] => o.inTransit t.toList r.toList (.scalar (x.get [])) light_delay
    | [_] => o.inTransit t.toList r.toList (.vector x.toList) light_delay
    | _ => .error .shapeMismatch

/-- `np.linspace(-0.5, 0.5, n)` (`n = 1` gives the left end). -/
noncomputable def linspaceHalf (n : ℕ) : List ℝ :=
  (List.range n).map (fun k : ℕ => if n = 1 then -0.5 else -0.5 + k * (1 / ((n : ℝ) - 1)))

/-- `limb_dark.py:181-183`: `oversample = int(oversample); oversample += 1 - oversample % 2; stencil = np.ones(oversample)`, which
raises for a negative length. -/
def oddOversample (oversample : ℤ) : Except PyErr ℕ :=
  let n := oversample + (1 - oversample % 2)
  if n < 0 then .error (.valueError "negative dimensions are not allowed") else .ok n.toNat

/-- `x[1:-1:2]`: every second entry starting with the second, without the last. -/
def slice1m1s2 {α : Type} (d : α) (l : List α) : List α :=
  ((List.range l.length).filter (fun i => i % 2 = 1 ∧ i + 1 < l.length)).map (fun i => l.getD i d)

/-- `limb_dark.py:186-196`: the offsets (in units of the exposure time) and the unnormalised weights. Weight `k` is `1` at the ends
and is set by the slices `[1:-1]`, `[1:-1:2]`, `[2:-1:2]` in between. -/
noncomputable def rawStencil (order : ℤ) (n : ℕ) : Except PyErr (List ℝ × List ℝ) :=
  if order = 0 then .ok (slice1m1s2 0 (linspaceHalf (2 * n + 1)), (List.range n).map (fun _ => 1))
  else if order = 1 then .ok (linspaceHalf n, (List.range n).map (fun k => if 1 ≤ k ∧ k + 1 < n then 2 else 1))
  else if order = 2 then .ok (linspaceHalf n, (List.range n).map (fun k =>
    if 1 ≤ k ∧ k + 1 < n ∧ k % 2 = 1 then 4 else if 2 ≤ k ∧ k + 1 < n ∧ k % 2 = 0 then 2 else 1))
  else .error (.valueError "order must be <= 2")

/-- `limb_dark.py:181-197`: offsets and normalised weights. -/
noncomputable def stencil (order oversample : ℤ) : Except PyErr (List ℝ × List ℝ) :=
  match oddOversample oversample with
  | .error e => .error e
  | .ok n =>
  match rawStencil order n with
  | .error e => .error e
  | .ok (dt, w) => .ok (dt, w.map (· / w.sum))

/-- `limb_dark.py:213-222`: positions to light curve, `b / r_star`, `rgrid / r_star`, `los / r_star`. -/
noncomputable def LimbDark.lightCurveAt (l : LimbDark) (o : OrbitApi) (tgrid rgrid : Tensor ℝ) (light_delay : Bool) :
    Except PyErr (Tensor ℝ) := do
  let coords ← o.relPos tgrid light_delay
  let b ← (coords.map (fun v => √(v.x ^ 2 + v.y ^ 2))).reshape rgrid.shape
  let los ← (coords.map V3.z).reshape rgrid.shape
  .ok ⟨rgrid.shape, fun idx =>
    computeLightCurve l.c (b.get idx / o.r_star) (rgrid.get idx / o.r_star) (some (los.get idx / o.r_star))⟩

/-- `shape_padleft(r, x.ndim) + shape_padright(zeros_like(x), 1)`: `limb_dark.py:175-177` and 209-211, and with
`zeros_like(r)` `limb_dark.py:166-168` (`r.ndim = 1`). -/
noncomputable def padAdd (r x : Tensor ℝ) : Except PyErr (Tensor ℝ) :=
  (r.padleft x.ndim).zipB (· + ·) ((x.map (fun _ => 0)).padright 1)

/-- `limb_dark.py:199-205`: `texp * dt` for a scalar, `shape_padright(texp) * dt` for an array. -/
noncomputable def exposureOffsets (texp dt : Tensor ℝ) : Except PyErr (Tensor ℝ) :=
  if texp.ndim = 0 then texp.zipB (· * ·) dt else (texp.padright 1).zipB (· * ·) dt

/-- `limb_dark.py:172-226`: the exposure-integrated light curve at the times `t`; `texp` is already restricted to these times.
`lcAt tgrid rgrid light_delay` stands for `limb_dark.py:213-222`. -/
noncomputable def integratedWith (lcAt : Tensor ℝ → Tensor ℝ → Bool → Except PyErr (Tensor ℝ)) (r t : Tensor ℝ)
    (texp : Option (Tensor ℝ)) (oversample order : ℤ) (light_delay : Bool) : Except PyErr (Tensor ℝ) :=
  match texp with
  | none => do
    -- 173-177
    let rgrid ← padAdd r t
    lcAt t rgrid light_delay
  | some texp => do
    -- 181-197
    let (dt, w) ← stencil order oversample
    let dt := Tensor.ofList dt 0
    let dt ← exposureOffsets texp dt
    let tgrid ← (t.padright 1).zipB (· + ·) dt
    -- 209-211
    let rgrid ← padAdd r tgrid
    let lc ← lcAt tgrid rgrid light_delay
    -- 225-226
    let st := ((Tensor.ofList w 0).padleft t.ndim).padright 1
    let prod ← st.zipB (· * ·) lc
    .ok (prod.sumAxis t.ndim)

/-- `limb_dark.py:172-226` for an orbit. -/
noncomputable def LimbDark.integrated (l : LimbDark) (o : OrbitApi) (r t : Tensor ℝ) (texp : Option (Tensor ℝ))
    (oversample order : ℤ) (light_delay : Bool) : Except PyErr (Tensor ℝ) :=
  integratedWith (l.lightCurveAt o) r t texp oversample order light_delay

/-- `limb_dark.py:199-203`: with `use_in_transit`, an array `texp` is indexed like the times. -/
def texpRows (texp : Option (Tensor ℝ)) (inds : List ℕ) : Except PyErr (Option (Tensor ℝ)) :=
  match texp with
  | none => .ok none
  | some x =>
    if x.ndim = 0 then .ok (some x) else
    match x.takeRows inds with
    | .error e => .error e
    | .ok x => .ok (some x)

/-- `limb_dark.py:155-232`; `integ r t texp oversample order light_delay` stands for `limb_dark.py:172-226`, `inTr` for `orbit.in_transit`. -/
noncomputable def lightCurveWith
    (integ : Tensor ℝ → Tensor ℝ → Option (Tensor ℝ) → ℤ → ℤ → Bool → Except PyErr (Tensor ℝ))
    (inTr : Tensor ℝ → Tensor ℝ → Option (Tensor ℝ) → Bool → Except PyErr (List ℕ)) (r t : Tensor ℝ) (texp : Option (Tensor ℝ))
    (oversample order : ℤ) (use_in_transit : Option Bool) (light_delay : Bool) : Except PyErr (Tensor ℝ) :=
  let use_in_transit := use_in_transit.getD (!light_delay)
  if use_in_transit then do
    -- 159-160
    let r ← r.reshape [r.size]
    -- 166-170
    let transit_model ← padAdd (r.map (fun _ => 0)) t
    let inds ← inTr t r texp light_delay
    let t ← t.takeRows inds
    let texp ← texpRows texp inds
    let lc ← integ r t texp oversample order light_delay
    -- 229-230
    transit_model.setRows inds lc
  else do
    let r ← r.reshape [r.size]
    integ r t texp oversample order light_delay

/-- `get_light_curve(orbit, r, t, texp, oversample, order, use_in_transit, light_delay)` — `limb_dark.py:99-232`. -/
noncomputable def LimbDark.getLightCurve (l : LimbDark) (orbit : Option OrbitApi) (r t : Option (Tensor ℝ))
    (texp : Option (Tensor ℝ) := none) (oversample : ℤ := 7) (order : ℤ := 0) (use_in_transit : Option Bool := none)
    (light_delay : Bool := false) : Except PyErr (Tensor ℝ) :=
  match orbit with
  | none => .error (.valueError "missing required argument 'orbit'")
  | some orbit =>
  match r with
  | none => .error (.valueError "missing required argument 'r'")
  | some r =>
  match t with
  | none => .error (.valueError "missing required argument 't'")
  | some t => lightCurveWith (l.integrated orbit) orbit.inTransitT r t texp oversample order use_in_transit light_delay

end Exo
