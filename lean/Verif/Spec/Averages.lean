import Verif.Spec.Orbit
import Mathlib.MeasureTheory.Integral.IntervalIntegral.Basic

/-!
# Averages over time
-/

namespace Exo
open MeasureTheory

/-- The average of `f` over the time `P` from `t` on. -/
noncomputable def timeMean (f : ℝ → ℝ) (t P : ℝ) : ℝ := (∫ s in t..t + P, f s) / P

/-- The average of a vector, component by component. -/
noncomputable def timeMeanV (f : ℝ → V3) (t P : ℝ) : V3 :=
  ⟨timeMean (fun s => (f s).x) t P, timeMean (fun s => (f s).y) t P, timeMean (fun s => (f s).z) t P⟩

end Exo
