import Verif.Model.Bls

/-!
# Model of `lomb_scargle_estimator` — src/exoplanet/estimators.py:162-210

`astropy.timeseries.LombScargle(x, y, yerr).autopower` is a parameter. Periods are Python floats, so that dividing by zero raises. The
dictionary entry `ls` (the astropy object itself) is left out of the result.
-/

namespace Exo
open Real

/-- `LombScargle(x, y, yerr).autopower(method="fast", normalization="psd", **kwargs)`: frequencies and power. -/
abbrev LombScargle := List ℝ → List ℝ → Option (List ℝ) → Kw → Except PyErr (List ℝ × List ℝ)

/-- `1.0 / p` for a Python float. -/
noncomputable def pyRecip (p : ℝ) : Except PyErr ℝ := if p = 0 then .error .zeroDivision else .ok (1.0 / p)

/-- `if p is not None: kwargs[key] = 1.0 / p` — estimators.py:190-193. -/
noncomputable def setRecip (kw : Kw) (key : String) : Option ℝ → Except PyErr Kw
  | none => .ok kw
  | some p => (pyRecip p).map fun v => kw.set key (some v)

/-- estimators.py:197: `method` and `normalization` are passed explicitly, so passing them again is a `TypeError`. -/
def checkKeywords (kw : Kw) : Except PyErr Unit :=
  if kw "method" = none ∧ kw "normalization" = none then .ok () else .error (.typeError "multiple values for keyword argument")

/-- estimators.py:203-204: the filter at one frequency; at zero frequency `freq0 / freq` is infinite and the quotient is zero. -/
noncomputable def lsFilter (freq0 f : ℝ) : ℝ := if f = 0 then 0 else 1.0 / √(1 + (freq0 / f) ^ (2 * 3))

/-- estimators.py:202-205. -/
noncomputable def lsFiltered (filter_period : Option ℝ) (freq power : List ℝ) : Except PyErr (List ℝ) :=
  match filter_period with
  | none => .ok power
  | some p => (pyRecip p).map fun freq0 => List.zipWith (fun P f => P * lsFilter freq0 f) power freq

/-- The result dictionary. -/
structure LsResult where
  periodogram : List ℝ × List ℝ
  peaks : Peaks

/-- `lomb_scargle_estimator(x, y, yerr, min_period, max_period, filter_period, max_peaks, **kwargs)` — estimators.py:162-210. -/
noncomputable def lombScargleEstimator (L : LombScargle) (argsort : List ℝ → List ℕ) (x y : List ℝ) (yerr : Option (List ℝ))
    (min_period max_period filter_period : Option ℝ) (max_peaks : ℤ) (kw : Kw) : Except PyErr LsResult := do
  let kw ← setRecip kw "maximum_frequency" min_period
  let kw ← setRecip kw "minimum_frequency" max_period
  let _ ← checkKeywords kw
  let fp ← L x y yerr kw
  let power := fp.2.map fun P => P / (x.length : ℝ)
  let filtered ← lsFiltered filter_period fp.1 power
  let peaks ← findPeaks argsort fp.1 filtered max_peaks
  .ok ⟨(fp.1, power), peaks⟩

end Exo
