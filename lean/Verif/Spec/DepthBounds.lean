import Verif.Spec.LimbDark

/-!
# Brightness across the stellar disc
-/

namespace Exo
open Real

/-- The brightness at the distance `x` (in stellar radii) from the centre of the disc, in units of that at the centre. -/
noncomputable def intensityAt (u1 u2 x : ℝ) : ℝ := quadLaw u1 u2 √(1 - x ^ 2)

/-- The mean brightness of the disc. -/
noncomputable def meanBrightness (u1 u2 : ℝ) : ℝ := fluxFrom u1 u2 starDisc / π

end Exo
