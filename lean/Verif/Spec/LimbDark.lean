import Verif.Model.LimbDark

/-!
# What limb darkening is
-/

namespace Exo
open Real MeasureTheory

/-- The quadratic limb-darkening law. -/
def quadLaw (u1 u2 μ : ℝ) : ℝ := 1 - u1 * (1 - μ) - u2 * (1 - μ) ^ 2

/-- The flux from a region of the stellar disc. -/
noncomputable def fluxFrom (u1 u2 : ℝ) (S : Set (ℝ × ℝ)) : ℝ := ∫ p in S, quadLaw u1 u2 (muAt p)

/-- The star's intensity is nowhere negative and not identically zero. -/
def PhysicalLaw (u1 u2 : ℝ) : Prop := (∀ μ, 0 ≤ μ → μ ≤ 1 → 0 ≤ quadLaw u1 u2 μ) ∧ 0 < 1 - u1 / 3 - u2 / 6

end Exo
