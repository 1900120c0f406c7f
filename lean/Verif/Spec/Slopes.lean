import Verif.Spec.LimbDark
import Mathlib.MeasureTheory.Integral.IntervalIntegral.Basic
import Mathlib.Analysis.SpecialFunctions.Trigonometric.Basic

/-!
# How fast a body covers light
-/

namespace Exo
open Real

/-- Surface brightness at a point of the sky plane for a star of unit radius that emits light one. -/
noncomputable def surface (u1 u2 : ℝ) (p : ℝ × ℝ) : ℝ :=
  starDisc.indicator (fun p => quadLaw u1 u2 (muAt p) / fluxFrom u1 u2 starDisc) p

/-- Light that a body of radius `k` at distance `b` newly covers per unit of growth: the brightness along its limb. -/
noncomputable def growthLoss (u1 u2 b k : ℝ) : ℝ := ∫ θ in -π..π, surface u1 u2 (b + k * cos θ, k * sin θ) * k

/-- Light that it newly covers per unit of outward motion: the limb moves outwards with the velocity `cos θ`. -/
noncomputable def motionLoss (u1 u2 b k : ℝ) : ℝ := ∫ θ in -π..π, surface u1 u2 (b + k * cos θ, k * sin θ) * (k * cos θ)

end Exo
