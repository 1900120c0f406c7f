import Verif.Model.Keplerian
import Mathlib.Analysis.SpecialFunctions.Trigonometric.Deriv
import Mathlib.Analysis.Calculus.Deriv.MeanValue
import Mathlib.Analysis.Calculus.Deriv.Inverse
import Mathlib.Topology.Order.MonotoneContinuity

/-!
# Kepler's equation: existence, uniqueness, smoothness of the solution
-/

namespace Exo
open Real Filter Topology

section
variable {e : ℝ}

theorem one_sub_mul_cos_pos (he0 : 0 ≤ e) (he : e < 1) (E : ℝ) : 0 < 1 - e * cos E := by
  have := mul_le_mul_of_nonneg_left (cos_le_one E) he0
  linarith

theorem hasDerivAt_keplerMap (e E : ℝ) : HasDerivAt (keplerMap e) (1 - e * cos E) E := by
  unfold keplerMap
  exact (hasDerivAt_id E).sub ((hasDerivAt_sin E).const_mul e)

theorem keplerMap_continuous (e : ℝ) : Continuous (keplerMap e) := by
  unfold keplerMap; fun_prop

theorem keplerMap_strictMono (he0 : 0 ≤ e) (he : e < 1) : StrictMono (keplerMap e) := by
  refine strictMono_of_deriv_pos fun E => ?_
  rw [(hasDerivAt_keplerMap e E).deriv]
  exact one_sub_mul_cos_pos he0 he E

theorem keplerMap_surjective (he0 : 0 ≤ e) : Function.Surjective (keplerMap e) := by
  have h1 : ∀ E, E - e ≤ keplerMap e E := fun E => by
    have := mul_le_mul_of_nonneg_left (sin_le_one E) he0
    unfold keplerMap; linarith
  have h2 : ∀ E, keplerMap e E ≤ E + e := fun E => by
    have := mul_le_mul_of_nonneg_left (neg_one_le_sin E) he0
    unfold keplerMap; linarith
  refine (keplerMap_continuous e).surjective ?_ ?_
  · exact tendsto_atTop_mono h1 (tendsto_atTop_add_const_right _ _ tendsto_id)
  · exact tendsto_atBot_mono h2 (tendsto_atBot_add_const_right _ _ tendsto_id)

theorem keplerMap_eccAnomaly (he0 : 0 ≤ e) (M : ℝ) : keplerMap e (eccAnomaly e M) = M :=
  Function.rightInverse_invFun (keplerMap_surjective he0) M

theorem eccAnomaly_keplerMap (he0 : 0 ≤ e) (he : e < 1) (E : ℝ) : eccAnomaly e (keplerMap e E) = E :=
  Function.leftInverse_invFun (keplerMap_strictMono he0 he).injective E

theorem eccAnomaly_unique (he0 : 0 ≤ e) (he : e < 1) {E M : ℝ} (h : keplerMap e E = M) :
    eccAnomaly e M = E := by rw [← h, eccAnomaly_keplerMap he0 he]

theorem eccAnomaly_strictMono (he0 : 0 ≤ e) (he : e < 1) : StrictMono (eccAnomaly e) := by
  intro a b hab
  rw [← (keplerMap_strictMono he0 he).lt_iff_lt, keplerMap_eccAnomaly he0, keplerMap_eccAnomaly he0]
  exact hab

theorem eccAnomaly_continuous (he0 : 0 ≤ e) (he : e < 1) : Continuous (eccAnomaly e) :=
  (eccAnomaly_strictMono he0 he).monotone.continuous_of_surjective
    (fun E => ⟨keplerMap e E, eccAnomaly_keplerMap he0 he E⟩)

theorem hasDerivAt_eccAnomaly (he0 : 0 ≤ e) (he : e < 1) (M : ℝ) :
    HasDerivAt (eccAnomaly e) (1 - e * cos (eccAnomaly e M))⁻¹ M :=
  HasDerivAt.of_local_left_inverse (eccAnomaly_continuous he0 he).continuousAt
    (hasDerivAt_keplerMap e _) (one_sub_mul_cos_pos he0 he _).ne'
    (Eventually.of_forall fun y => keplerMap_eccAnomaly he0 y)

theorem eccAnomaly_add_two_pi_mul (he0 : 0 ≤ e) (he : e < 1) (M : ℝ) (k : ℤ) :
    eccAnomaly e (M + k * (2 * π)) = eccAnomaly e M + k * (2 * π) := by
  apply eccAnomaly_unique he0 he
  have h := keplerMap_eccAnomaly he0 (e := e) M
  unfold keplerMap at *
  rw [sin_add_int_mul_two_pi]
  linarith

theorem eccAnomaly_neg (he0 : 0 ≤ e) (he : e < 1) (M : ℝ) : eccAnomaly e (-M) = -eccAnomaly e M := by
  apply eccAnomaly_unique he0 he
  have h := keplerMap_eccAnomaly he0 (e := e) M
  unfold keplerMap at *
  rw [sin_neg]
  linarith

theorem eccAnomaly_zero_ecc (M : ℝ) : eccAnomaly 0 M = M :=
  eccAnomaly_unique le_rfl zero_lt_one (by simp [keplerMap])

theorem keplerOp_zero_ecc (M : ℝ) : keplerOp M 0 = (sin M, cos M) := by
  simp [keplerOp, eccAnomaly_zero_ecc]

theorem keplerOp_add_two_pi_mul (he0 : 0 ≤ e) (he : e < 1) (M : ℝ) (k : ℤ) :
    keplerOp (M + k * (2 * π)) e = keplerOp M e := by
  simp only [keplerOp, eccAnomaly_add_two_pi_mul he0 he, cos_add_int_mul_two_pi, sin_add_int_mul_two_pi]

theorem one_sub_sq_pos (he0 : 0 ≤ e) (he : e < 1) : 0 < 1 - e ^ 2 := by nlinarith

/-- `sin² f + cos² f = 1`. -/
theorem keplerOp_sq (he0 : 0 ≤ e) (he : e < 1) (M : ℝ) :
    (keplerOp M e).1 ^ 2 + (keplerOp M e).2 ^ 2 = 1 := by
  have hd := (one_sub_mul_cos_pos he0 he (eccAnomaly e M)).ne'
  have h2 : √(1 - e ^ 2) ^ 2 = 1 - e ^ 2 := sq_sqrt (one_sub_sq_pos he0 he).le
  have hs := sin_sq_add_cos_sq (eccAnomaly e M)
  simp only [keplerOp]
  rw [div_pow, div_pow, ← add_div, div_eq_one_iff_eq (pow_ne_zero 2 hd), mul_pow, h2]
  linear_combination (1 - e ^ 2) * hs

/-- `1 + e cos f = (1 - e²) / (1 - e cos E)`. -/
theorem one_add_mul_cosf (he0 : 0 ≤ e) (he : e < 1) (M : ℝ) :
    1 + e * (keplerOp M e).2 = (1 - e ^ 2) / (1 - e * cos (eccAnomaly e M)) := by
  have hd := (one_sub_mul_cos_pos he0 he (eccAnomaly e M)).ne'
  simp only [keplerOp]
  field_simp
  ring

theorem one_add_mul_cosf_pos (he0 : 0 ≤ e) (he : e < 1) (M : ℝ) : 0 < 1 + e * (keplerOp M e).2 := by
  rw [one_add_mul_cosf he0 he]
  exact div_pos (one_sub_sq_pos he0 he) (one_sub_mul_cos_pos he0 he _)

end
end Exo
