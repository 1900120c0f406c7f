import Verif.Spec.LightCurve
import Verif.Model.LightCurve

/-!
# What light curves determine (C105)
-/

namespace Exo
open Real

/-- The light curves of a planet of radius `r` on `O` and a planet of radius `r'` on `O'`, in front of stars with the limb-darkening
coefficients `u1`, `u2` and `u1'`, `u2'`, agree at all times: `get_light_curve` gives the same values for every array of times. -/
def SameLightCurves (O O' : OrbitApi) (r r' u1 u2 u1' u2' : ℝ) : Prop :=
  ∀ (t : Tensor ℝ) (oversample order : ℤ), ∃ L L',
    (LimbDark.new u1 u2).getLightCurve (some O) (some (Tensor.scalar r)) (some t) none oversample order (some false) = .ok L ∧
    (LimbDark.new u1' u2').getLightCurve (some O') (some (Tensor.scalar r')) (some t) none oversample order (some false) = .ok L' ∧
    L.shape = L'.shape ∧ ∀ i, InShape i t.shape → L.get (i ++ [0]) = L'.get (i ++ [0])

end Exo
