import Verif.Model.Rounded
import Mathlib.Data.Int.Log
import Mathlib.Algebra.Order.Round

/-!
# Doubles: rounding to 53 binary digits

The rounding of IEEE 754 double precision to the nearest number, without limits to the exponent (ties away from zero or to the even digit make no
difference to the error).
-/

namespace Exo
open Real

/-- The number with 53 significant binary digits that is nearest to `x`. -/
noncomputable def roundDouble (x : ℝ) : ℝ :=
  round (x * (2 : ℝ) ^ (52 - Int.log 2 |x|)) * (2 : ℝ) ^ (Int.log 2 |x| - 52)

theorem roundDouble_err (x : ℝ) : |roundDouble x - x| ≤ 2⁻¹ ^ 53 * |x| := by
  by_cases hx : x = 0
  · simp [roundDouble, hx]
  have h1 : (2 : ℝ) ^ Int.log 2 |x| ≤ |x| := by
    have := Int.zpow_log_le_self (b := 2) (r := |x|) (by norm_num) (abs_pos.2 hx)
    exact_mod_cast this
  generalize hm : Int.log 2 |x| = m at h1
  have h2 : x = x * (2 : ℝ) ^ (52 - m) * (2 : ℝ) ^ (m - 52) := by
    rw [mul_assoc, ← zpow_add₀ two_ne_zero]
    simp
  have h3 := abs_sub_round (x * (2 : ℝ) ^ (52 - m))
  unfold roundDouble
  rw [hm]
  conv_lhs => rw [show (round (x * (2 : ℝ) ^ (52 - m)) : ℝ) * (2 : ℝ) ^ (m - 52) - x =
    -((x * (2 : ℝ) ^ (52 - m) - round (x * (2 : ℝ) ^ (52 - m))) * (2 : ℝ) ^ (m - 52)) by linear_combination -h2]
  have h4 : (0 : ℝ) < (2 : ℝ) ^ (m - 52) := by positivity
  rw [abs_neg, abs_mul, abs_of_pos h4]
  calc _ ≤ 1 / 2 * (2 : ℝ) ^ (m - 52) := mul_le_mul_of_nonneg_right h3 h4.le
    _ = 2⁻¹ ^ 53 * (2 : ℝ) ^ m := by
      rw [zpow_sub₀ two_ne_zero]
      norm_num
      ring
    _ ≤ _ := mul_le_mul_of_nonneg_left h1 (by positivity)

/-- Double precision. -/
noncomputable def doubles : Rounding where
  u := 2⁻¹ ^ 53
  rnd := roundDouble
  piF := roundDouble π
  sinF x := roundDouble (sin x)
  cosF x := roundDouble (cos x)
  u_nonneg := by positivity
  u_le := by norm_num
  rnd_err := roundDouble_err
  pi_err := by simpa [abs_of_pos pi_pos] using roundDouble_err π
  sin_err x := (roundDouble_err _).trans (by linarith [mul_le_mul_of_nonneg_left (abs_sin_le_one x) (by positivity : (0 : ℝ) ≤ 2⁻¹ ^ 53)])
  cos_err x := (roundDouble_err _).trans (by linarith [mul_le_mul_of_nonneg_left (abs_cos_le_one x) (by positivity : (0 : ℝ) ≤ 2⁻¹ ^ 53)])

end Exo
