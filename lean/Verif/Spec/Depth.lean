import Verif.Spec.LimbDark

/-!
# Vocabulary for the depth of a transit
-/

namespace Exo

/-- The star does not get brighter towards the limb: the law does not decrease with `μ`, which is `1` at the centre and `0` at the limb. -/
def DarkensOutwards (u1 u2 : ℝ) : Prop := MonotoneOn (quadLaw u1 u2) (Set.Icc 0 1)

end Exo
