import Verif.Model.Keplerian

/-!
# Symmetries of the sky plane
-/

namespace Exo
open Real

/-- The rotation of the sky by the angle `w` about the line of sight. -/
noncomputable def V3.turn (w : ℝ) (v : V3) : V3 := ⟨cos w * v.x - sin w * v.y, sin w * v.x + cos w * v.y, v.z⟩

/-- The reflection of the sky that exchanges north and south (`y`). -/
noncomputable def V3.flipY (v : V3) : V3 := ⟨v.x, -v.y, v.z⟩

/-- The reflection of the sky that exchanges `x` and `-x`. -/
noncomputable def V3.flipX (v : V3) : V3 := ⟨-v.x, v.y, v.z⟩

/-- Equal distance from the centre of the star on the sky, equal distance along the line of sight. -/
def V3.SameDisc (v v' : V3) : Prop := v.x ^ 2 + v.y ^ 2 = v'.x ^ 2 + v'.y ^ 2 ∧ v.z = v'.z

end Exo
