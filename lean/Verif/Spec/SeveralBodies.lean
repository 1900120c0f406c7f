import Verif.Spec.LimbDark
import Verif.Spec.LightCurve
import Mathlib.MeasureTheory.Measure.Lebesgue.Basic

/-!
# Vocabulary: several bodies in front of a star
-/

namespace Exo
open MeasureTheory

/-- The part of the sky, in units of the stellar radius `R`, that a sphere of radius `r` at the position `v` covers; nothing when it is not in
front of the star. -/
def shadow (R r : ℝ) (v : V3) : Set (ℝ × ℝ) := {p | 0 < v.z ∧ (p.1 - v.x / R) ^ 2 + (p.2 - v.y / R) ^ 2 ≤ (r / R) ^ 2}

/-- The relative change of the light of the star when all bodies are in front of it at once: each point of the star is either visible or not. -/
noncomputable def jointFlux (u1 u2 R : ℝ) {n : ℕ} (r : Fin n → ℝ) (v : Fin n → V3) : ℝ :=
  fluxFrom u1 u2 (starDisc \ ⋃ p, shadow R (r p) (v p)) / fluxFrom u1 u2 starDisc - 1

/-- Two bodies cover a common part of the star. -/
def Overlap (R r r' : ℝ) (v v' : V3) : Prop := volume (starDisc ∩ (shadow R r v ∩ shadow R r' v')) ≠ 0

end Exo
