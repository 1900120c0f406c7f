import Verif.Model.Py
import Mathlib.LinearAlgebra.Matrix.NonsingularInverse
import Mathlib.LinearAlgebra.Matrix.Notation
import Mathlib.Analysis.SpecialFunctions.Log.Basic
import Mathlib.Analysis.Real.Sqrt
import Mathlib.Data.List.GetD
import Mathlib.Order.Monotone.Basic

/-!
# Model of `find_peaks` — src/exoplanet/estimators.py:119-159

Results of NumPy that are NaN or infinite are `none`.
-/

namespace Exo

/-- `np.linalg.solve(A, b)`: a `LinAlgError` if `A` is singular. -/
noncomputable def npSolve {n : Type} [Fintype n] [DecidableEq n] (A : Matrix n n ℝ) (b : n → ℝ) : Except PyErr (n → ℝ) :=
  if A.det = 0 then .error .linAlg else .ok (A⁻¹.mulVec b)

/-- Division of NumPy floats. -/
noncomputable def fdiv (x y : ℝ) : Option ℝ := if y = 0 then none else some (x / y)

/-- `np.sqrt`. -/
noncomputable def fsqrt (x : ℝ) : Option ℝ := if x < 0 then none else some √x

/-- `np.log`. -/
noncomputable def flog (x : ℝ) : Option ℝ := if x ≤ 0 then none else some (Real.log x)

/-- `np.vander(f, 3)` for three frequencies: rows `f², f, 1`. -/
def vander3 (f : Fin 3 → ℝ) : Matrix (Fin 3) (Fin 3) ℝ := Matrix.of fun i j => f i ^ (2 - (j : ℕ))

/-- The dictionary describing one peak. -/
structure Peak where
  index : ℕ
  logPower : Option ℝ
  period : Option ℝ
  periodUncert : Option ℝ

/-- estimators.py:145-154, from the coefficients `w` of the parabola. -/
noncomputable def peakOfFit (i : ℕ) (w : Fin 3 → ℝ) : Peak :=
  let sigma2 := fdiv (-0.5) (w 0)
  let freq0 := sigma2.map fun s => w 1 * s
  { index := i + 1
    logPower := do
      let s ← sigma2
      let f ← freq0
      let q ← fdiv (0.5 * f ^ 2) s
      some (w 2 + q)
    period := do
      let f ← freq0
      fdiv 1 f
    periodUncert := do
      let s ← sigma2
      let f ← freq0
      let q ← fdiv s (f ^ 4)
      fsqrt q }

/-- estimators.py:142-154, the body of the loop for the local maximum at `i`. If a power is not positive its logarithm is not finite,
and neither is the fit. A slice running over the end of `freq` is not a square system. -/
noncomputable def peakAt (freq power : List ℝ) (i : ℕ) : Except PyErr Peak :=
  let f : Fin 3 → ℝ := fun k => freq.getD (i - 1 + k) 0
  if freq.length < i + 2 then .error .linAlg
  else match flog (power.getD (i - 1) 0), flog (power.getD i 0), flog (power.getD (i + 1) 0) with
    | some l0, some l1, some l2 => (npSolve (vander3 f) ![l0, l1, l2]).map (peakOfFit i)
    | _, _, _ => if (vander3 f).det = 0 then .error .linAlg else .ok ⟨i + 1, none, none, none⟩

/-- estimators.py:138-139: the positions `1 ≤ i < len(power) - 1` with `power[i] > power[i-1]` and `power[i] > power[i+1]`, ascending. -/
noncomputable def peakInds (power : List ℝ) : List ℕ :=
  (List.range' 1 (power.length - 2)).filter fun i =>
    decide (power.getD (i - 1) 0 < power.getD i 0) && decide (power.getD (i + 1) 0 < power.getD i 0)

/-- What `np.argsort` promises: a permutation of the positions that puts the values in ascending order (the order of ties is left open:
NumPy's default sort is not stable). -/
structure IsArgsort (argsort : List ℝ → List ℕ) : Prop where
  perm : ∀ l, (argsort l).Perm (List.range l.length)
  sorted : ∀ l, ((argsort l).map fun i => l.getD i 0).Pairwise (· ≤ ·)

/-- estimators.py:140: `inds[np.argsort(power[inds])][::-1]`. -/
noncomputable def orderedInds (argsort : List ℝ → List ℕ) (power : List ℝ) : List ℕ :=
  let inds := peakInds power
  ((argsort (inds.map fun i => power.getD i 0)).map fun k => inds.getD k 0).reverse

/-- `find_peaks` returns a list, or one peak when `max_peaks` is zero. -/
inductive Peaks where
  | many (l : List Peak)
  | one (p : Peak)

/-- `find_peaks(freq, power, max_peaks)` — estimators.py:119-159. -/
noncomputable def findPeaks (argsort : List ℝ → List ℕ) (freq power : List ℝ) (max_peaks : ℤ) : Except PyErr Peaks :=
  match ((orderedInds argsort power).take (max 1 max_peaks).toNat).mapM (peakAt freq power) with
  | .error e => .error e
  | .ok peaks =>
    if max_peaks ≠ 0 then .ok (.many peaks)
    else match peaks with
      | [] => .error (.valueError "no peaks were found")
      | p :: _ => .ok (.one p)

end Exo
