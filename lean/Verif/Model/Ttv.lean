import Verif.Model.InTransit
import Verif.Model.Shape

/-!
# Model of `src/exoplanet/orbits/ttv.py`

One planet at a time: every list in the Python class has one entry per planet and the entries do not interact. Keyword
arguments only (the positional `*args` of `TTVOrbit.__init__` are not modelled). Transit numbers are natural numbers (the
docstring requires zero-indexed numbers).
-/

namespace Exo
open Real Classical

/-! ## `compute_expected_transit_times` (`ttv.py:10-32`) -/

/-- `np.arange(lo, hi, 1)` for integers `lo`, `hi` (`ttv.py:29`). -/
def arangeInt (lo hi : ℤ) : List ℤ := (List.range (hi - lo).toNat).map (fun i : ℕ => lo + (i : ℤ))

/-- `ttv.py:27-30`: the body of the loop, for one planet. -/
noncomputable def expectedTimes1 (min_time max_time period t0 : ℝ) : List ℝ :=
  let min_ind := ⌊(min_time - t0) / period⌋
  let max_ind := ⌈(max_time - t0) / period⌉
  let times := (arangeInt min_ind max_ind).map (fun k : ℤ => t0 + period * (k : ℝ))
  times.filter (fun t => decide (min_time ≤ t ∧ t ≤ max_time))

/-- `compute_expected_transit_times` — `ttv.py:10-32`, after `np.atleast_1d` (`ttv.py:23-24`). `zip` stops at the shorter list. -/
noncomputable def expectedTransitTimes (min_time max_time : ℝ) (periods t0s : List ℝ) : List (List ℝ) :=
  List.zipWith (fun p t0 => expectedTimes1 min_time max_time p t0) periods t0s

/-! ## `TTVOrbit.__init__` (`ttv.py:71-173`) -/

/-- The keyword arguments of `TTVOrbit`, for one planet: those popped in `ttv.py:72-74` and 137, the others in `base`. -/
structure TtvArgs where
  base : Args := {}
  ttvs : Option (List ℝ) := none
  transit_times : Option (List ℝ) := none
  transit_inds : Option (List ℕ) := none
  delta_log_period : Option ℝ := none

/-- The attributes of a `TTVOrbit`. `orbit` holds the `KeplerianOrbit` attributes, with `_warp_times` overridden. -/
structure Ttv where
  orbit : Orbit
  ttv_period : ℝ
  transit_times : List ℝ
  ttvs : List ℝ
  transit_inds : List ℕ
  all_transit_times : List ℝ
  bin_edges : List ℝ
  bin_values : List ℝ

/-- `ttv.py:110-117`: linear regression, returns `(slope, intercept)`; `none` when `denom = 0`, where Python computes
`0 / 0 = nan`. -/
noncomputable def linFit (inds : List ℕ) (times : List ℝ) : Option (ℝ × ℝ) :=
  let N : ℝ := times.length
  let sumx : ℝ := (inds.map (fun i : ℕ => (i : ℝ))).sum
  let sumx2 : ℝ := (inds.map (fun i : ℕ => (i : ℝ) ^ 2)).sum
  let sumy := times.sum
  let sumxy := (List.zipWith (fun (i : ℕ) y => (i : ℝ) * y) inds times).sum
  let denom := N * sumx2 - sumx ^ 2
  if denom = 0 then none
  else some ((N * sumxy - sumx * sumy) / denom, (sumx2 * sumy - sumx * sumxy) / denom)

/-- `pt.set_subtensor(expect[inds], values)` (`ttv.py:156`): entry by entry, later assignments win. -/
def setSubtensor (expect : List ℝ) (inds : List ℕ) (values : List ℝ) : List ℝ :=
  (List.zip inds values).foldl (fun l p => l.set p.1 p.2) expect

/-- `ttv.py:153-157`: the full set of transit times of one planet. `inds.max()` of an empty tensor is a `ValueError`. -/
noncomputable def allTransitTimes (t0 period : ℝ) (inds : List ℕ) (times : List ℝ) : Except PyErr (List ℝ) :=
  match inds.max? with
  | none => .error (.valueError "zero-size array to reduction operation maximum")
  | some m =>
    let expect := (List.range (m + 1)).map (fun i : ℕ => t0 + period * (i : ℝ))
    .ok (setSubtensor expect inds times)

/-- `ttv.py:160-169`: the bin edges. -/
noncomputable def binEdges (tts : List ℝ) (ttv_period : ℝ) : List ℝ :=
  [tts.headD 0 - 0.5 * ttv_period] ++ List.zipWith (fun a b => 0.5 * (a + b)) tts.tail tts.dropLast
    ++ [tts.getLastD 0 + 0.5 * ttv_period]

/-- `ttv.py:170-173`: the bin values. -/
def binValues (tts : List ℝ) : List ℝ := [tts.headD 0] ++ tts ++ [tts.getLastD 0]

/-- `searchsorted(edges, t)` (side `left`, `ttv.py:178`): the number of entries smaller than `t`. (For an unsorted array NumPy's
bisection would return something else; see DESIGN.md.) -/
noncomputable def searchsortedLeft (edges : List ℝ) (t : ℝ) : ℕ := (edges.filter (fun e => decide (e < t))).length

/-- `_get_model_dt(t)` — `ttv.py:175-180`, one planet, one time. -/
noncomputable def modelDt (edges values : List ℝ) (t : ℝ) : ℝ := values.getD (searchsortedLeft edges t) 0

/-- `ttv.py:144-173` of the constructor: everything after the call of `super().__init__` (`o`), with the final `ttv_period`,
`transit_times`, `ttvs`; `_warp_times` is `ttv.py:182-187`. -/
noncomputable def ttvFinish (o : Orbit) (ttv_period : ℝ) (inds : List ℕ) (times ttvs : List ℝ) :
    Except PyErr (Option Ttv) :=
  match allTransitTimes o.t0 o.period inds times with
  | .error e => .error e
  | .ok tts =>
    let edges := binEdges tts ttv_period
    let values := binValues tts
    .ok (some { orbit := { o with warp := fun t => t - modelDt edges values t }
                ttv_period := ttv_period, transit_times := times, ttvs := ttvs, transit_inds := inds
                all_transit_times := tts, bin_edges := edges, bin_values := values })

/-- `ttv.py:127-140`: the period that sets the transit shape; `delta_log_period` is ignored when `period` is given. -/
noncomputable def TtvArgs.shapePeriod (K : TtvArgs) (slope : ℝ) : Q :=
  match K.base.period with
  | some p => p
  | none =>
    match K.delta_log_period with
    | some d => ((exp (log slope + d) : ℝ) : Q)
    | none => (slope : Q)

/-- `TTVOrbit.__init__` — `ttv.py:71-173`. The result `.ok none` is an orbit whose timing attributes are all NaN (regression
through transits with one and the same number). Vectors of different lengths are a shape error (NumPy would also broadcast
length-one vectors here; not modelled). -/
noncomputable def ttvInit (C : Consts) (K : TtvArgs) : Except PyErr (Option Ttv) :=
  match K.ttvs, K.transit_times with
  -- 75-78
  | none, none => .error (.valueError "one of 'ttvs' or 'transit_times' must be defined")
  -- 79-89, 142-149 (a given `transit_times` is ignored)
  | some ttvs, _ =>
    let inds := K.transit_inds.getD (List.range ttvs.length)
    match keplerianInit C K.base with
    | .error e => .error e
    | .ok o =>
      if inds.length ≠ ttvs.length then .error .shapeMismatch else
      let times := List.zipWith (fun (i : ℕ) ttv => o.t0 + o.period * (i : ℝ) + ttv) inds ttvs
      ttvFinish o o.period inds times ttvs
  -- 91-142
  | none, some times =>
    let inds := K.transit_inds.getD (List.range times.length)
    if inds.length ≠ times.length then .error .shapeMismatch else
    match linFit inds times with
    | none =>
      -- `t0` and perhaps `period` are NaN: only the argument checks of `super().__init__` matter
      match keplerianInit C { K.base with t0 := some (0 : ℝ), period := some (K.base.period.getD (1 : ℝ)) } with
      | .error e => .error e
      | .ok _ => if inds = [] then .error (.valueError "zero-size array to reduction operation maximum") else .ok none
    | some (slope, intercept) =>
      let ttvs := List.zipWith (fun (i : ℕ) y => y - (intercept + (i : ℝ) * slope)) inds times
      match keplerianInit C { K.base with t0 := some intercept, period := some (K.shapePeriod slope) } with
      | .error e => .error e
      | .ok o => ttvFinish o slope inds times ttvs

/-- `_flip(r_planet)` on a `TTVOrbit` — `keplerian.py:779-804`: `type(self)(...)` is `TTVOrbit(...)`. -/
noncomputable def Ttv.flip (C : Consts) (o : Ttv) (r_planet : ℝ) : Except PyErr (Option Ttv) :=
  ttvInit C { base := o.orbit.flipArgs r_planet }

/-! ## Shapes of light-delayed positions -/

/-- Shape of `_warp_times(t, _pad)` for `t` of shape `s` and `np` planets: `keplerian.py:324-327` (`ttv = false`) and
`ttv.py:175-187` (`ttv = true`; `_get_model_dt` stacks `np` arrays of shape `s` along a new last axis). -/
def warpShape (ttv : Bool) (np : ℕ) (s : List ℕ) (pad : Bool) : Except PyErr (List ℕ) :=
  bcastShape (if pad then s ++ [1] else s) (if ttv then s ++ [np] else [np])

/-- Shape of the arrays computed by `_get_position(a, t, _pad)` without light delay (`keplerian.py:399-409`): the warped
times are combined with the per-planet attributes. -/
def positionShape (ttv : Bool) (np : ℕ) (s : List ℕ) (pad : Bool) : Except PyErr (List ℕ) :=
  match warpShape ttv np s pad with
  | .error e => .error e
  | .ok w => bcastShape w [np]

/-- Shape of the arrays computed by `_get_retarded_position` (`keplerian.py:411-470`): `delay` has the shape of the
un-delayed position, `new_t = shape_padright(t) - delay`, and the position is then evaluated with `_pad=False`. -/
def retardedShape (ttv : Bool) (np : ℕ) (s : List ℕ) : Except PyErr (List ℕ) :=
  match positionShape ttv np s true with
  | .error e => .error e
  | .ok d =>
    match bcastShape (s ++ [1]) d with
    | .error e => .error e
    | .ok nt => positionShape ttv np nt false

/-- Shape returned by `get_planet_position(t, light_delay)` and friends (`keplerian.py:485-490`), after `squeeze`. -/
def publicShape (ttv : Bool) (np : ℕ) (s : List ℕ) (light_delay : Bool) : Except PyErr (List ℕ) :=
  match (if light_delay then retardedShape ttv np s else positionShape ttv np s true) with
  | .error e => .error e
  | .ok r => .ok (squeezeShape r)

end Exo
