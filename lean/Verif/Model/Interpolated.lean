import Verif.Model.LightCurve

/-!
# Model of `src/exoplanet/light_curves/interpolated.py`
-/

namespace Exo
open Real

/-- `pt.arange(start, stop, step)`: `ceil((stop - start)/step)` entries, none if that is negative. -/
noncomputable def arange (start stop step : ℝ) : List ℝ :=
  (List.range ⌈(stop - start) / step⌉.toNat).map (fun k : ℕ => start + k * step)

/-- `v[i]` for a Python integer: negative indices count from the end, others out of range raise. -/
def pyIndex {α : Type} (v : List α) (i : ℤ) : Except PyErr α :=
  let j := if i < 0 then i + v.length else i
  if j < 0 then .error .indexError else
  match v[j.toNat]? with
  | none => .error .indexError
  | some x => .ok x

/-- `y[a:-b]` for `b > 0` and `y[a:]` for `b = 0`. -/
def pySlice {α : Type} (v : List α) (a b : ℕ) : List α := (v.take (v.length - b)).drop a

/-- `yp[:, n]` for a matrix. -/
def column (y : Tensor ℝ) (n : ℕ) : Except PyErr (List ℝ) :=
  match y.shape with
  | [m, k] => if n < k then .ok ((List.range m).map (fun i => y.get [i, n])) else .error .indexError
  | _ => .error .indexError

/-- `interp(n, x, xmin, xmax, dx, func)` at one coordinate `x` — `interpolated.py:8-37`. `func` is evaluated on the grid only. -/
noncomputable def interpAt (n : ℕ) (x xmin xmax dx : ℝ) (func : List ℝ → Except PyErr (Tensor ℝ)) : Except PyErr ℝ := do
  -- 22-23
  let xp := arange (xmin - dx) (xmax + 2.5 * dx) dx
  let yp ← func xp
  -- 25-28
  let col ← column yp n
  let y0 := pySlice col 0 3
  let y1 := pySlice col 1 2
  let y2 := pySlice col 2 1
  let y3 := pySlice col 3 0
  -- 30-33
  let quad := List.zip (List.zip y0 y1) (List.zip y2 y3)
  let a0 := y1
  let a1 := quad.map (fun q => -q.1.1 / 3 - 0.5 * q.1.2 + q.2.1 - q.2.2 / 6)
  let a2 := quad.map (fun q => 0.5 * (q.1.1 + q.2.1) - q.1.2)
  let a3 := quad.map (fun q => 0.5 * ((q.1.2 - q.2.1) + (q.2.2 - q.1.1) / 3))
  -- 35-37
  let ind := ⌊(x - xmin) / dx⌋
  let xg ← pyIndex xp (ind + 1)
  let x0 := (x - xg) / dx
  let c0 ← pyIndex a0 ind
  let c1 ← pyIndex a1 ind
  let c2 ← pyIndex a2 ind
  let c3 ← pyIndex a3 ind
  .ok (c0 + c1 * x0 + c2 * x0 ^ 2 + c3 * x0 ^ 3)

/-- `interpolated.py:67-76`: the number of planets, from the constructor argument or from the length of the test value of the period. -/
def numPlanets (num_planets : Option ℤ) (test_value : Option ℕ) : Except PyErr ℤ :=
  match num_planets with
  | none => match test_value with
    | none => .error (.valueError "Can't compute num_planets, please provide a value")
    | some n => .ok n
  | some n => .ok n

/-- `interpolated.py:89-98` and 112-123: the column of planet `n`, with `t0` and `period` of that planet. -/
noncomputable def interpColumn (num_phase : ℤ) (func : List ℝ → Except PyErr (Tensor ℝ)) (n : ℕ) (t0 period : ℝ)
    (t : List ℝ) : Except PyErr (List ℝ) :=
  let mn := t0
  let mx := t0 + period
  t.mapM (fun t => interpAt n (pymod (t - t0) period + t0) mn mx ((mx - mn) / (num_phase + 1)) func)

/-- The loop body over the planets, `orbit.t0[n]`, `orbit.period[n]` (src/exoplanet/light_curves/interpolated.py:100-124). -/
noncomputable def planetColumn (num_phase : ℤ) (orbits : List (ℝ × ℝ)) (func : List ℝ → Except PyErr (Tensor ℝ)) (t : List ℝ)
    (n : ℕ) : Except PyErr (List ℝ) :=
  match orbits[n]? with
  | none => .error .indexError
  | some (t0, period) => interpColumn num_phase func n t0 period t

/-- `InterpolatedLightCurve.get_light_curve` — `interpolated.py:56-125`, for a vector of times. `orbits` are the pairs `(t0, period)` of the
orbit's planets; `test_value` is the length of `orbit.period.tag.test_value`, if there is one; `func` is
`base_light_curve.get_light_curve(orbit=…, r=…, t=…, …)` as a function of the times. With at most one planet, `orbit.t0` and
`orbit.period` have to be scalars. -/
noncomputable def interpolatedLightCurve (num_phase : ℤ) (num_planets : Option ℤ) (test_value : Option ℕ)
    (orbits : List (ℝ × ℝ)) (func : List ℝ → Except PyErr (Tensor ℝ)) (t : List ℝ) : Except PyErr (Tensor ℝ) :=
  match numPlanets num_planets test_value with
  | .error e => .error e
  | .ok np =>
  if np ≤ 1 then
    match orbits with
    | [(t0, period)] =>
      match interpColumn num_phase func 0 t0 period t with
      | .error e => .error e
      | .ok y => .ok ⟨[t.length, 1], fun idx => y.getD (idx.headD 0) 0⟩
    | _ => .error (.valueError "arange: scalar arguments expected")
  else
    match (List.range np.toNat).mapM (planetColumn num_phase orbits func t) with
    | .error e => .error e
    | .ok ys => .ok ⟨[t.length, np.toNat], fun idx => (ys.getD (idx.getLastD 0) []).getD (idx.headD 0) 0⟩

end Exo
