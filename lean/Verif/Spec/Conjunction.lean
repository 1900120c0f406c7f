import Verif.Spec.Orbit
import Mathlib.Analysis.SpecialFunctions.Trigonometric.Basic

/-!
# Conjunctions
-/

namespace Exo
open Real

/-- `cos ω`; on circular orbits, which have no periastron, `1`. -/
noncomputable def Orbit.cosOmega (o : Orbit) : ℝ := match o.ecc with | none => 1 | some p => p.cos_omega
/-- `sin ω`; on circular orbits `0`. -/
noncomputable def Orbit.sinOmega (o : Orbit) : ℝ := match o.ecc with | none => 0 | some p => p.sin_omega

/-- The planet, at `v` from the star, is on the meridian: its projection on the line of nodes, which has the position angle `node`, is the star. -/
def OnMeridian (node : ℝ) (v : V3) : Prop := v.x * cos node + v.y * sin node = 0

/-- Inferior conjunction: on the meridian, nearer to the observer than the star. -/
def InferiorConjunction (C : Consts) (o : Orbit) (t : ℝ) : Prop :=
  OnMeridian (o.Omega.getD 0) (o.relativePosition C t) ∧ 0 < (o.relativePosition C t).z

/-- Superior conjunction: on the meridian, behind the star. -/
def SuperiorConjunction (C : Consts) (o : Orbit) (t : ℝ) : Prop :=
  OnMeridian (o.Omega.getD 0) (o.relativePosition C t) ∧ (o.relativePosition C t).z < 0

end Exo
