import Verif.Model.Simple

/-!
# C138: the chord that a simple transit is meant to draw
-/

namespace Exo
open Real Classical

/-- The phase of a time: the time since the nearest middle of a transit, in `[-P/2, P/2)`. -/
noncomputable def chordPhase (P t0 t : ℝ) : ℝ := t - t0 - P * ⌊(t - t0) / P + 1 / 2⌋

/-- A planet crossing the star of radius `R` at the height `b R` in the time `D` from first to last contact, `k` times as large as the star. -/
noncomputable def chordPosition (P D t0 b R k t : ℝ) : V3 :=
  ⟨2 * (R * √((1 + k) ^ 2 - b ^ 2)) / D * chordPhase P t0 t, b * R, if |chordPhase P t0 t| < D / 2 then 1 else -1⟩

end Exo
