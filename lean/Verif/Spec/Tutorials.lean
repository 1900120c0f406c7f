import Verif.Spec.LimbDark
import Verif.Model.Keplerian

/-!
# When a transit can be seen (C100)
-/

namespace Exo

/-- The star shines everywhere, up to and including the limb. -/
def BrightLaw (u1 u2 : ℝ) : Prop := ∀ μ, 0 ≤ μ → μ ≤ 1 → 0 < quadLaw u1 u2 μ

/-- The arguments of the `KeplerianOrbit` of period `exp logP` and eccentricity `e`, argument of periastron `w`, whose mean anomaly
vanishes at the time `(phi + w) / n`, where `n` is the mean motion. -/
noncomputable def rvArgs (logP phi e w : ℝ) : Args :=
  { period := some ⟨Real.exp logP, none⟩
    t_periastron := some ⟨(phi + w) / (2 * Real.pi * Real.exp (-logP)), none⟩
    ecc := some ⟨e, none⟩
    omega := some ⟨w, none⟩ }

end Exo
