import Verif.Model.AutocorrEstimator

/-!
# Model of `bls_estimator` — src/exoplanet/estimators.py:329-397

`astropy.timeseries.BoxLeastSquares` is a parameter (`Bls`). What its `autoperiod` computes is written down in `astropyAutoperiod` (from
astropy's documentation and source; astropy is not part of `/repo`), and only used to show that the assumptions made can be met.
-/

namespace Exo

/-- Keyword arguments: `none` = absent, `some none` = the value `None`, `some (some v)` = a number. -/
abbrev Kw := String → Option (Option ℝ)

/-- `kwargs.get(key, default)`. -/
def Kw.get (kw : Kw) (key : String) (default : Option ℝ) : Option ℝ := (kw key).getD default

/-- `kwargs[key] = v`. -/
def Kw.set (kw : Kw) (key : String) (v : Option ℝ) : Kw := fun k => if k = key then some v else kw k

/-- The sampled quantities in a `BoxLeastSquaresResults`; `rest` holds depth, duration, … by name. -/
structure BlsPg where
  period : List ℝ
  power : List ℝ
  transit_time : List ℝ
  rest : List (String × List ℝ)

/-- `BoxLeastSquares(t, y, dy)`: its two methods, given the data. `autopower` also gets `objective`, `method` and `oversample`, which are
passed through untouched and therefore part of the parameter. -/
structure Bls where
  autoperiod : List ℝ → List ℝ → Option (List ℝ) → List ℝ → Kw → Except PyErr (List ℝ)
  autopower : List ℝ → List ℝ → Option (List ℝ) → List ℝ → Kw → Except PyErr BlsPg

/-- The keywords that `autoperiod` and `autopower` accept from `kwargs`. -/
def blsKeywords : List String := ["minimum_period", "maximum_period", "minimum_n_transit", "frequency_factor"]

/-- The `while` loop of estimators.py:369-372, with at most `fuel` iterations (`none` = not finished): doubles `frequency_factor` until the
grid is not longer than `n`. Returns the keyword arguments after the loop. -/
noncomputable def coarsen (autoperiod : Kw → Except PyErr (List ℝ)) (n : ℕ) : ℕ → Kw → ℝ → Option (Except PyErr Kw)
  | 0, _, _ => none
  | fuel + 1, kw, ff =>
    match autoperiod (kw.set "frequency_factor" (some ff)) with
    | .error e => some (.error e)
    | .ok periods =>
      if n < periods.length then coarsen autoperiod n fuel kw (ff * 2)
      else some (.ok (kw.set "frequency_factor" (some ff)))

/-- estimators.py:360-361. Note the misspelt key in the first line. -/
def blsKw0 (kw : Kw) (min_period max_period : Option ℝ) : Kw :=
  let kw := kw.set "minimum_period" (kw.get "minimim_period" min_period)
  kw.set "maximum_period" (kw.get "maximum_period" max_period)

/-- estimators.py:367-372. -/
noncomputable def blsKw (autoperiod : Kw → Except PyErr (List ℝ)) (n fuel : ℕ) (kw : Kw) (min_period max_period : Option ℝ) :
    Option (Except PyErr Kw) :=
  let kw := blsKw0 kw min_period max_period
  match kw "frequency_factor" with
  | some _ => some (.ok kw)
  | none => coarsen autoperiod n fuel kw 1

/-- estimators.py:363. -/
noncomputable def blsRef (x : List ℝ) : Except PyErr ℝ := do
  let lo ← npMin x
  let hi ← npMax x
  .ok (0.5 * (lo + hi))

/-- `v[ind]`. -/
def atIndex (v : List ℝ) (ind : ℕ) : Except PyErr ℝ :=
  match v[ind]? with
  | none => .error .indexError
  | some a => .ok a

/-- `results["peak_info"]`. -/
structure BlsInfo where
  period : ℝ
  power : ℝ
  transit_time : ℝ
  rest : List (String × ℝ)

/-- estimators.py:394-396: every sampled quantity at `ind`. -/
def peakInfo (pg : BlsPg) (ind : ℕ) : Except PyErr BlsInfo := do
  let period ← atIndex pg.period ind
  let power ← atIndex pg.power ind
  let transit_time ← atIndex pg.transit_time ind
  let rest ← pg.rest.mapM fun kv => (atIndex kv.2 ind).map fun a => (kv.1, a)
  .ok ⟨period, power, transit_time, rest⟩

/-- The result dictionary. -/
structure BlsResult where
  bls : BlsPg
  peaks : List Peak
  peak_info : Option BlsInfo

/-- estimators.py:384-397, from the periodogram. -/
noncomputable def blsFinish (argsort : List ℝ → List ℕ) (x_ref : ℝ) (pg : BlsPg) : Except PyErr BlsResult :=
  let pg := { pg with transit_time := pg.transit_time.map fun t => t + x_ref }
  match findPeaks argsort (pg.period.map fun p => 1 / p) pg.power 1 with
  | .error e => .error e
  | .ok (.one p) => .ok ⟨pg, [p], none⟩  -- not reached: `max_peaks = 1` returns a list
  | .ok (.many []) => .ok ⟨pg, [], none⟩
  | .ok (.many (p :: l)) =>
    match peakInfo pg p.index with
    | .error e => .error e
    | .ok info => .ok ⟨pg, p :: l, some info⟩

/-- `bls_estimator(x, y, yerr, duration, min_period, max_period, objective, method, oversample, **kwargs)` — estimators.py:329-397, with
`fuel` for the loop (`none` = still running). -/
noncomputable def blsEstimator (B : Bls) (argsort : List ℝ → List ℕ) (fuel : ℕ) (x y : List ℝ) (yerr : Option (List ℝ)) (duration : List ℝ)
    (min_period max_period : Option ℝ) (kw : Kw) : Option (Except PyErr BlsResult) :=
  match blsRef x with
  | .error e => some (.error e)
  | .ok x_ref =>
    let xs := x.map fun t => t - x_ref
    match blsKw (B.autoperiod xs y yerr duration) x.length fuel kw min_period max_period with
    | none => none
    | some (.error e) => some (.error e)
    | some (.ok kw) =>
      some (match B.autopower xs y yerr duration kw with
        | .error e => .error e
        | .ok pg => blsFinish argsort x_ref pg)

/-- Rounding half to even, as `np.round`. -/
noncomputable def npRound (v : ℝ) : ℤ :=
  let f := ⌊v⌋
  if v - f < 1 / 2 then f else if 1 / 2 < v - f then f + 1 else if f % 2 = 0 then f else f + 1

/-- The longest period of astropy's `autoperiod`, from the time span. -/
noncomputable def autoperiodMax (kw : Kw) (span : ℝ) : Except PyErr ℝ :=
  match kw.get "maximum_period" none with
  | some p => .ok p
  | none =>
    let nt := (kw.get "minimum_n_transit" (some 3)).getD 3
    if nt ≤ 1 then .error (.valueError "minimum_n_transit") else .ok (span / (nt - 1))

/-- The grid of astropy's `autoperiod`, equally spaced in frequency. A spacing of zero (infinities in NumPy) is an error. -/
noncomputable def autoperiodGrid (minp maxp df : ℝ) : Except PyErr (List ℝ) :=
  if min minp maxp ≤ 0 then .error (.valueError "minimum_period must be positive")
  else if df = 0 then .error (.valueError "zero spacing")
  else .ok ((List.range (1 + npRound ((1 / min minp maxp - 1 / max minp maxp) / df)).toNat).map fun i : ℕ => 1 / (1 / min minp maxp - df * i))

/-- `BoxLeastSquares.autoperiod` of astropy, for plain numbers. -/
noncomputable def astropyAutoperiod (t : List ℝ) (duration : List ℝ) (kw : Kw) : Except PyErr (List ℝ) := do
  let hi ← npMax t
  let lo ← npMin t
  let dmin ← npMin duration
  let dmax ← npMax duration
  let maxp ← autoperiodMax kw (hi - lo)
  autoperiodGrid ((kw.get "minimum_period" none).getD (2 * dmax)) maxp ((kw.get "frequency_factor" (some 1)).getD 1 * dmin / (hi - lo) ^ 2)

end Exo
