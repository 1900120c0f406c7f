import Verif.Model.Autocorr

/-!
# Model of `autocorr_estimator` — src/exoplanet/estimators.py:245-326
-/

namespace Exo

/-- The two library routines used: `scipy.ndimage.gaussian_filter(acor, sigma)` on an array that may contain NaN, and
`np.interp(xx, x, y)`. -/
structure Filters where
  gaussian : List (Option ℝ) → ℝ → List (Option ℝ)
  interp : List ℝ → List ℝ → List ℝ → Except PyErr (List ℝ)

/-- What is assumed of them: shapes. `np.interp` only fails when `x` and `y` have different lengths (or are empty). -/
structure Filters.Ok (F : Filters) : Prop where
  gaussian_length : ∀ a s, (F.gaussian a s).length = a.length
  interp_ok : ∀ xx x y, x.length = y.length → x ≠ [] → ∃ r, F.interp xx x y = .ok r
  interp_length : ∀ xx x y r, F.interp xx x y = .ok r → r.length = xx.length

/-- `np.diff(x)`. -/
noncomputable def npDiff (x : List ℝ) : List ℝ := List.zipWith (fun a b => b - a) x x.tail

/-- `np.min(a)`, `a.min()`: `ValueError` on an empty array. -/
noncomputable def npMin (a : List ℝ) : Except PyErr ℝ :=
  match a.min? with
  | none => .error (.valueError "zero-size array to reduction operation minimum")
  | some m => .ok m

/-- `a.max()`. -/
noncomputable def npMax (a : List ℝ) : Except PyErr ℝ :=
  match a.max? with
  | none => .error (.valueError "zero-size array to reduction operation maximum")
  | some m => .ok m

/-- `np.arange(lo, hi, dx)` for floats: `⌈(hi - lo)/dx⌉` points. A zero step raises (`ZeroDivisionError` or `ValueError` depending on the
NumPy version). -/
noncomputable def npArange (lo hi dx : ℝ) : Except PyErr (List ℝ) :=
  if dx = 0 then .error (.valueError "arange: zero step")
  else .ok ((List.range ⌈(hi - lo) / dx⌉.toNat).map fun i : ℕ => lo + i * dx)

/-- `a > b` for floats that may be NaN. -/
noncomputable def nanGt (a b : Option ℝ) : Bool :=
  match a, b with
  | some a, some b => decide (b < a)
  | _, _ => false

/-- estimators.py:300-302: the local maxima with `tau >= min_period`. -/
noncomputable def acorPeaks (tau : List ℝ) (acor : List (Option ℝ)) (min_period : ℝ) : List ℕ :=
  ((List.range' 1 (acor.length - 2)).filter fun i =>
    nanGt (acor.getD i none) (acor.getD (i - 1) none) && nanGt (acor.getD i none) (acor.getD (i + 1) none)).filter
      fun i => decide (min_period ≤ tau.getD i 0)

/-- The result dictionary; the uncertainty of the period is always NaN and is not stored. -/
structure AcorResult where
  tau : List ℝ
  acor : List (Option ℝ)
  peaks : List ℝ

/-- estimators.py:304-326: the choice of the peak. -/
noncomputable def acorChoose (tau : List ℝ) (acor : List (Option ℝ)) (max_period : ℝ) (inds : List ℕ) : List ℝ :=
  match inds with
  | [] => []
  | i :: rest =>
    if tau.getD i 0 > max_period then []
    else match rest with
      | [] => [tau.getD i 0]
      | k :: _ =>
        let i := if nanGt (acor.getD k none) (acor.getD i none) then k else i
        if tau.getD i 0 > max_period then [] else [tau.getD i 0]

/-- estimators.py:283-284. -/
noncomputable def acorMinPeriod (x : List ℝ) (min_period : Option ℝ) : Except PyErr ℝ :=
  match min_period with
  | some m => .ok m
  | none => npMin (npDiff x)

/-- estimators.py:285-286. -/
noncomputable def acorMaxPeriod (x : List ℝ) (max_period : Option ℝ) : Except PyErr ℝ :=
  match max_period with
  | some m => .ok m
  | none => do
    let hi ← npMax x
    let lo ← npMin x
    .ok (hi - lo)

/-- `x[0]`. -/
def firstOf (x : List ℝ) : Except PyErr ℝ :=
  match x with
  | [] => .error .indexError
  | a :: _ => .ok a

/-- estimators.py:280-281. -/
def requireScipy (scipy : Bool) : Except PyErr Unit := if scipy then .ok () else .error (.importError "scipy")

/-- `autocorr_estimator(x, y, yerr, min_period, max_period, oversample, smooth, max_peaks)` — estimators.py:245-326. `yerr` and `max_peaks`
are never used. `scipy` tells whether SciPy could be imported (`estimators.py:13-16`). `oversample = 0` (an infinite step in NumPy) is excluded in the
theorems. -/
noncomputable def autocorrEstimator (F : Filters) (scipy : Bool) (x y : List ℝ) (min_period max_period : Option ℝ)
    (oversample smooth : ℝ) (_max_peaks : ℤ) : Except PyErr AcorResult := do
  let _ ← requireScipy scipy
  let min_period ← acorMinPeriod x min_period
  let max_period ← acorMaxPeriod x max_period
  let gap ← npMin (npDiff x)
  let dx := gap / oversample
  let lo ← npMin x
  let hi ← npMax x
  let xx ← npArange lo hi dx
  let yy ← F.interp xx x y
  let x0 ← firstOf x
  let tau := xx.map fun v => v - x0
  let acor ← autocorrFunction yy
  let acor := F.gaussian acor (smooth * min_period / dx)
  .ok ⟨tau, acor, acorChoose tau acor max_period (acorPeaks tau acor min_period)⟩

end Exo
