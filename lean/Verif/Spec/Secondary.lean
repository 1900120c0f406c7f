import Verif.Spec.LightCurve

/-!
# What the light curve of two luminous bodies is
-/

namespace Exo
open Real

/-- The relative change of the total flux of two bodies when the first has flux `F1` and is dimmed by the relative amount `d1`
(`-1 ≤ d1 ≤ 0`), the second has flux `F2` and is dimmed by `d2`. -/
noncomputable def totalChange (F1 F2 d1 d2 : ℝ) : ℝ := (F1 * (1 + d1) + F2 * (1 + d2)) / (F1 + F2) - 1

end Exo
