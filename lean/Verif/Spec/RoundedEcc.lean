import Verif.Spec.Orbit
import Verif.Model.RoundedEcc

/-!
# The error of the compiled solver of Kepler's equation, and the worst arithmetic
-/

namespace Exo
open Real

/-- The factor of the error of a rounded position: one more rotation if there is an `Omega`. -/
def Orbit.roundingFactor (o : Orbit) : ℝ := match o.Omega with | none => 22 | some _ => 49

/-- The compiled operation gives the sine and the cosine of the true anomaly at the mean anomaly `M` up to `η`. -/
def KeplerWithin (kep : ℝ → ℝ → ℝ × ℝ) (η e M : ℝ) : Prop :=
  ∃ E, E - e * sin E = M ∧ |(kep M e).1 - √(1 - e ^ 2) * sin E / (1 - e * cos E)| ≤ η ∧ |(kep M e).2 - (cos E - e) / (1 - e * cos E)| ≤ η

/-- Arithmetic that rounds every result away from zero by the fraction `u`, with exact sines and cosines. -/
noncomputable def upwards (u : ℝ) (hu : 0 ≤ u) (hu1 : u ≤ 1 / 1000) : Rounding where
  u := u
  rnd x := (1 + u) * x
  piF := (1 + u) * π
  sinF := sin
  cosF := cos
  u_nonneg := hu
  u_le := hu1
  rnd_err x := by rw [show (1 + u) * x - x = u * x by ring, abs_mul, abs_of_nonneg hu]
  pi_err := by rw [show (1 + u) * π - π = u * π by ring, abs_mul, abs_of_nonneg hu, abs_of_pos pi_pos]
  sin_err x := by simpa using hu
  cos_err x := by simpa using hu

end Exo
