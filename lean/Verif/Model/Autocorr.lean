import Verif.Model.Peaks
import Mathlib.Analysis.SpecialFunctions.Complex.Circle
import Mathlib.Algebra.BigOperators.Group.Finset.Basic

/-!
# Model of `next_pow_two`, `autocorr_function`, `autocorr_estimator` — src/exoplanet/estimators.py:213-326
-/

namespace Exo
open Real

/-- The loop of `next_pow_two` — estimators.py:215-218. `i << 1` is `2 * i`. Lean accepts the definition only because the loop
terminates (`i > 0`). -/
def nextPowTwoLoop (n i : ℕ) (hi : 0 < i) : ℕ :=
  if i < n then nextPowTwoLoop n (2 * i) (by omega) else i
termination_by n - i

/-- `next_pow_two(n)` — estimators.py:213-218. -/
def nextPowTwo (n : ℕ) : ℕ := nextPowTwoLoop n 1 one_pos

/-- `np.fft.fft(a, n=N)`: the discrete Fourier transform of `a`, cut or zero-padded to length `N`. -/
noncomputable def npFft (a : List ℂ) (N : ℕ) : List ℂ :=
  (List.range N).map fun k : ℕ => ∑ j ∈ Finset.range N, a.getD j 0 * Complex.exp (-2 * π * Complex.I * j * k / N)

/-- `np.fft.ifft(F)`: the inverse transform. -/
noncomputable def npIfft (F : List ℂ) : List ℂ :=
  (List.range F.length).map fun j : ℕ =>
    (∑ k ∈ Finset.range F.length, F.getD k 0 * Complex.exp (2 * π * Complex.I * j * k / F.length)) / F.length

/-- `np.mean` of a non-empty array (the value for an empty one, NaN in NumPy, is not used). -/
noncomputable def npMean (x : List ℝ) : ℝ := x.sum / x.length

/-- The circular products of estimators.py:239-240 before the division: `ifft(f * conj(f))[: len(x)].real`. -/
noncomputable def rawAcf (x : List ℝ) : List ℝ :=
  let n := nextPowTwo x.length
  let f := npFft (x.map fun v => ((v - npMean x : ℝ) : ℂ)) (2 * n)
  ((npIfft (f.map fun z => z * (starRingEnd ℂ) z)).take x.length).map Complex.re

/-- `autocorr_function(x)` — estimators.py:221-242 for a one-dimensional array. `acf[0]` of an empty array is an `IndexError`; division by
zero gives NaN (`none`). (Arrays of more than one dimension raise `ValueError`, `estimators.py:234-235`: not in the domain of this function.) -/
noncomputable def autocorrFunction (x : List ℝ) : Except PyErr (List (Option ℝ)) :=
  match rawAcf x with
  | [] => .error .indexError
  | a0 :: l => .ok ((a0 :: l).map fun a => fdiv a a0)

end Exo
