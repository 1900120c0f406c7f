import Verif.Model.Peaks
import Mathlib.Analysis.SpecialFunctions.Trigonometric.Basic
import Mathlib.Analysis.SpecialFunctions.Pow.Real

/-!
# Model of `estimate_semi_amplitude` and `estimate_minimum_mass` — src/exoplanet/estimators.py:24-116

The arguments are plain numbers in the documented default units (`u.Quantity(v, unit=...)` leaves them unchanged). `x`, `y` and `yerr`
are vectors; broadcasting of vectors of length one is not modelled (it is reported as a shape mismatch). Division by a zero period or a
zero `yerr` (infinities in NumPy) is excluded by the hypotheses of the theorems.
-/

namespace Exo
open Real

/-- `_get_design_matrix` — estimators.py:24-45: the columns, in order, as functions of the time `x`. `t0s[i]` is looked up for every
period, so a short `t0s` is an `IndexError`. -/
noncomputable def designFuns (periods : List ℝ) (t0s : Option (List ℝ)) : Except PyErr (List (ℝ → ℝ)) :=
  match t0s with
  | some t0s =>
    if t0s.length < periods.length then .error .indexError
    else .ok (((periods.zip t0s).map fun p => fun x : ℝ => cos (2 * π * (x - (p.2 - 0.25 * p.1)) / p.1)) ++ [fun _ : ℝ => (1 : ℝ)])
  | none => .ok ((periods.flatMap fun P => [fun x : ℝ => sin (2 * π * x / P), fun x : ℝ => cos (2 * π * x / P)]) ++ [fun _ : ℝ => (1 : ℝ)])

/-- The matrix of the columns evaluated at the times. -/
def designMatrix (fs : List (ℝ → ℝ)) (x : List ℝ) : Matrix (Fin x.length) (Fin fs.length) ℝ := Matrix.of fun i j => fs.get j (x.get i)

/-- `l[::2]`. -/
def every2 {α : Type} : List α → List α
  | [] => []
  | [a] => [a]
  | a :: _ :: l => a :: every2 l

/-- estimators.py:66-69: `ivar`. -/
noncomputable def ivarOf (y : List ℝ) (yerr : Option (List ℝ)) : List ℝ :=
  match yerr with
  | none => y.map fun _ => 1
  | some e => e.map fun s => 1 / s ^ 2

/-- estimators.py:79-81: the normal equations. -/
noncomputable def solveNormal (fs : List (ℝ → ℝ)) (x y ivar : List ℝ) : Except PyErr (List ℝ) :=
  let D := designMatrix fs x
  let iv : Fin x.length → ℝ := fun i => ivar.getD i 0
  let yv : Fin x.length → ℝ := fun i => y.getD i 0
  (npSolve (D.transpose * Matrix.of fun i j => D i j * iv i) (D.transpose.mulVec fun i => yv i * iv i)).map List.ofFn

/-- estimators.py:82-87: the amplitudes from the coefficients. -/
noncomputable def amplitudes (w : List ℝ) (t0s : Option (List ℝ)) : List ℝ :=
  match t0s with
  | some _ => w.dropLast
  | none =>
    let w := w.dropLast
    List.zipWith (fun a b => √(a ^ 2 + b ^ 2)) (every2 w) (every2 (w.drop 1))

/-- `estimate_semi_amplitude(periods, x, y, yerr, t0s)` — estimators.py:48-87. -/
noncomputable def estimateSemiAmplitude (periods x y : List ℝ) (yerr t0s : Option (List ℝ)) : Except PyErr (List ℝ) :=
  match designFuns periods t0s with
  | .error e => .error e
  | .ok fs =>
    if y.length ≠ x.length ∨ (ivarOf y yerr).length ≠ x.length then .error .shapeMismatch
    else (solveNormal fs x y (ivarOf y yerr)).map fun w => amplitudes w t0s

/-- `estimate_minimum_mass(periods, x, y, yerr, t0s, m_star)` — estimators.py:90-116, in Jupiter masses; a year is 365.25 days. -/
noncomputable def estimateMinimumMass (periods x y : List ℝ) (yerr t0s : Option (List ℝ)) (m_star : ℝ) : Except PyErr (List ℝ) :=
  (estimateSemiAmplitude periods x y yerr t0s).map fun K =>
    let m_J := K.map fun k => k / 28.4329 * m_star ^ (2 / 3 : ℝ)
    List.zipWith (fun m P => m * (P / 365.25) ^ (1 / 3 : ℝ)) m_J periods

end Exo
