import Verif.Model.BackpropInterp
import Verif.Model.Interpolated
import Verif.Spec.BackpropExposure
import Verif.Spec.Nan

/-!
# Vocabulary of the properties of computed gradients of interpolated light curves
-/

namespace Exo

/-- For all parameters with a positive period, `F q` is the entry for the time `t` of the result of `InterpolatedLightCurve(LimbDarkLightCurve(u1, u2), n, num_planets=1).get_light_curve(orbit=o q, r=r, t=[t])`. -/
def InterpolatedFlux (C : Consts) (cp : ContactOp) (u1 u2 : ℝ) (n : ℕ) (o : (KepPar → ℝ) → Orbit) (t : ℝ) (F : (KepPar → ℝ) → ℝ) : Prop :=
  ∀ q, 0 < q .period → ∃ L, interpolatedLightCurve n (some 1) none [((o q).t0, (o q).period)]
    (fun xs => (LimbDark.new u1 u2).getLightCurve (some (keplerApi C cp [o q] (o q).r_star)) (some (Tensor.scalar (q .r))) (some (Tensor.ofList xs 0)) none 7 0 (some false)) [t] = .ok L ∧
    L.get [0, 0] = F q

/-- The time at which the base light curve is computed with number `k` of the grid. -/
noncomputable def nodeTime (q : KepPar → ℝ) (n : ℕ) (k : ℤ) : ℝ := q .t0 + k * (q .period / (n + 1))

end Exo
