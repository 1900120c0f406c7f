import Verif.Model.Keplerian

/-!
# Model of `KeplerianOrbit.in_transit` — `src/exoplanet/orbits/keplerian.py:708-777`

Here NaN decides the result (`dt >= nan` is `False`), so a window that Python computes as NaN is `none`.
-/

namespace Exo
open Real Classical

/-- The result of `ops.contact_points` for one planet: two mean anomalies and a failure flag (`keplerian.py:744-753`). -/
structure Contact where
  left : ℝ
  right : ℝ
  flag : ℤ

/-- `exoplanet_core.ops.contact_points(a, ecc, cos_omega, sin_omega, cos_incl, sin_incl, L)`: compiled, not in the
repository, hence a parameter. -/
abbrev ContactOp := ℝ → ℝ → ℝ → ℝ → ℝ → ℝ → ℝ → Contact

/-- One-dimensional NumPy broadcasting of a binary operation. -/
def bcast {α β γ : Type} (f : α → β → γ) (u : List α) (v : List β) : Except PyErr (List γ) :=
  if u.length = v.length then .ok (List.zipWith f u v)
  else match u, v with
    | [x], v => .ok (v.map (f x))
    | u, [y] => .ok (u.map (fun x => f x y))
    | _, _ => .error .shapeMismatch

/-- The exposure time argument: absent, a scalar or a vector. -/
inductive Texp where
  | none
  | scalar (x : ℝ)
  | vector (v : List ℝ)

namespace Orbit
variable (o : Orbit)

/-- `dt` of `keplerian.py:730-731`: time since the nearest transit, `mod(warp(t) + P/2, P) - P/2`. -/
noncomputable def sinceTransit (t : ℝ) : ℝ :=
  let hp := 0.5 * o.period
  pymod (o.warp t + hp) o.period - hp

/-- The half duration of `keplerian.py:734-738` (circular orbit, planet radius `r`), `none` for NaN: `sqrt` of a negative number,
`arcsin` of a number outside `[-1, 1]`, and the division by `a * sin_incl = 0` (which gives `±inf` or `nan`, hence NaN
after `arcsin`). -/
noncomputable def halfDuration (r : ℝ) : Option ℝ :=
  let hp := 0.5 * o.period
  let R := o.r_star
  let k := r / R
  let arg := (1 + k) ^ 2 - o.b ^ 2
  let factor := R / (o.a * o.sin_incl)
  if arg < 0 ∨ o.a * o.sin_incl = 0 ∨ 1 < |factor * √arg| then none
  else some (hp * arcsin (factor * √arg) / π)

/-- `keplerian.py:733-763`: the window `(t_start, t_end)` around the transit and the solver's flag. -/
noncomputable def transitWindow (cp : ContactOp) (r : ℝ) : Option (ℝ × ℝ) × ℤ :=
  let hp := 0.5 * o.period
  match o.ecc with
  | none =>
    match o.halfDuration r with
    | none => (none, 0)
    | some hdur => (some (-hdur, hdur), 0)
  | some p =>
    let c := cp o.a p.ecc p.cos_omega p.sin_omega o.cos_incl o.sin_incl (o.r_star + r)
    let t_start := (c.left - o.M0) / o.n
    let t_start := pymod (t_start + hp) o.period - hp
    let t_end := (c.right - o.M0) / o.n
    let t_end := pymod (t_end + hp) o.period - hp
    let t_start := if t_start > 0 then t_start - o.period else t_start
    let t_end := if t_end < 0 then t_end + o.period else t_end
    (some (t_start, t_end), c.flag)

end Orbit

/-- `keplerian.py:765-767`: `t_start -= 0.5 * texp; t_end += 0.5 * texp` for one window. -/
noncomputable def widen (w : Option (ℝ × ℝ)) (texp : ℝ) : Option (ℝ × ℝ) :=
  w.map (fun w => (w.1 - 0.5 * texp, w.2 + 0.5 * texp))

/-- `keplerian.py:765-767` with the shapes: windows have shape `(n_planets,)`, a vector `texp` is broadcast against *that*. -/
noncomputable def widenAll (ws : List (Option (ℝ × ℝ))) (texp : Texp) : Except PyErr (List (Option (ℝ × ℝ))) :=
  match texp with
  | .none => .ok ws
  | .scalar x => .ok (ws.map (fun w => widen w x))
  | .vector v => bcast widen ws v

/-- `keplerian.py:769`: `dt >= t_start` and `dt <= t_end`; comparisons with NaN are false. -/
noncomputable def inWindow (dt : ℝ) (w : Option (ℝ × ℝ)) : Bool :=
  match w with
  | none => false
  | some (s, e) => decide (dt ≥ s ∧ dt ≤ e)

/-- `in_transit(t, r, texp, light_delay)` — `keplerian.py:708-777`, for a vector `t`; `planets` are the orbits with their radii
(`r + z` is `r` broadcast to the planets, `keplerian.py:725-727`). The shape check of the comparison in `keplerian.py:769` is
`bcast` of a row of `dt` (shape `(n_planets,)`) with the windows. -/
noncomputable def inTransit (cp : ContactOp) (planets : List (Orbit × ℝ)) (t : List ℝ) (texp : Texp := .none)
    (light_delay : Bool := false) : Except PyErr (List ℕ) :=
  -- 720-723
  if light_delay then .error (.notImplemented "light travel time delay in in_transit") else
  -- 733-763
  let wf := planets.map (fun p => p.1.transitWindow cp p.2)
  -- 765-767
  match widenAll (wf.map Prod.fst) texp with
  | .error e => .error e
  | .ok ws =>
  -- 769 (shape check; then the mask, one row per time)
  match bcast (fun _ _ => ()) planets ws with
  | .error e => .error e
  | .ok _ =>
  let row : ℝ → List Bool := fun t =>
    match bcast inWindow (planets.map (fun p => p.1.sinceTransit t)) ws with
    | .error _ => []
    | .ok m => m
  let mask : List Bool := t.map (fun t => (row t).any id)
  -- 771-775
  if wf.all (fun x => x.2 = 0) then .ok ((List.range t.length).filter (fun i => mask.getD i false))
  else .ok (List.range t.length)

end Exo
