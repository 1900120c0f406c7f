import Verif.Model.AutocorrEstimator
import Verif.Spec.Peaks

/-!
# What a change of units does to a list of peaks
-/

namespace Exo

/-- Frequencies in a unit `1/s` as large: periods and their uncertainties shrink, nothing else changes. -/
noncomputable def Peak.inUnits (s : ℝ) (p : Peak) : Peak :=
  { index := p.index, logPower := p.logPower, period := p.period.map (· / s), periodUncert := p.periodUncert.map (· / |s|) }

/-- All powers `exp a` times larger. -/
noncomputable def Peak.louder (a : ℝ) (p : Peak) : Peak :=
  { index := p.index, logPower := p.logPower.map (· + a), period := p.period, periodUncert := p.periodUncert }

/-- The same peak of the spectrum of `n` samples read backwards. The reported index is one too large. -/
def Peak.mirrored (n : ℕ) (p : Peak) : Peak :=
  { index := n - 1 - (p.index - 1) + 1, logPower := p.logPower, period := p.period, periodUncert := p.periodUncert }

/-- Applied to what `find_peaks` returns. -/
def Peaks.map (f : Peak → Peak) : Peaks → Peaks
  | .many l => .many (l.map f)
  | .one p => .one (f p)

/-- No two local maxima of the power have the same height. -/
def DistinctPeaks (power : List ℝ) : Prop := ∀ i j, LocalMax power i → LocalMax power j → power[i]? = power[j]? → i = j

/-- The time lags and periods of a result in a unit `1/s` as large. -/
noncomputable def AcorResult.inUnits (s : ℝ) (r : AcorResult) : AcorResult :=
  { tau := r.tau.map (s * ·), acor := r.acor, peaks := r.peaks.map (s * ·) }

/-- Linear interpolation does not depend on the origin and the unit of its abscissae, and an affine change of the ordinates changes the
result in the same way. -/
structure InterpNatural (interp : List ℝ → List ℝ → List ℝ → Except PyErr (List ℝ)) : Prop where
  abscissae : ∀ (s d : ℝ) (xx x y : List ℝ), 0 < s → interp (xx.map fun t => s * t + d) (x.map fun t => s * t + d) y = interp xx x y
  ordinates : ∀ (a b : ℝ) (xx x y : List ℝ), interp xx x (y.map fun v => a * v + b) = (interp xx x y).map (List.map fun v => a * v + b)

end Exo
