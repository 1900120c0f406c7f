import Mathlib.Analysis.SpecialFunctions.Trigonometric.Bounds
import Mathlib.Analysis.SpecialFunctions.Trigonometric.Deriv
import Mathlib.Analysis.Real.Pi.Bounds
import Mathlib.Topology.MetricSpace.Contracting
import Mathlib.Tactic.Linarith
import Mathlib.Tactic.LinearCombination

/-!
# The phase at which something is seen
-/

namespace Exo
open Real

/-- The phase shift by light travel time on a circular orbit with the code's formula; `β` is the largest line-of-sight speed in units of
the speed of light. -/
noncomputable def phaseShift (β φ : ℝ) : ℝ :=
  2 * (β * cos φ) / (1 + β * sin φ + √((1 + β * sin φ) ^ 2 - 2 * (β * cos φ) ^ 2))

section
variable {β : ℝ} (hβ : |β| ≤ 1 / 10)
include hβ

theorem ps_p (φ : ℝ) : 9 / 10 ≤ 1 + β * sin φ ∧ 1 + β * sin φ ≤ 11 / 10 := by
  have h : |β * sin φ| ≤ 1 / 10 := by
    rw [abs_mul]
    exact (mul_le_mul hβ (abs_sin_le_one φ) (abs_nonneg _) (by norm_num)).trans (by norm_num)
  rw [abs_le] at h
  constructor <;> linarith

theorem ps_q (φ : ℝ) : |β * cos φ| ≤ 1 / 10 := by
  rw [abs_mul]
  exact (mul_le_mul hβ (abs_cos_le_one φ) (abs_nonneg _) (by norm_num)).trans (by norm_num)

theorem ps_disc (φ : ℝ) : 79 / 100 ≤ (1 + β * sin φ) ^ 2 - 2 * (β * cos φ) ^ 2 := by
  have h1 := (ps_p hβ φ).1
  have h2 := sq_le_sq' (abs_le.1 (ps_q hβ φ)).1 (abs_le.1 (ps_q hβ φ)).2
  nlinarith

theorem ps_r (φ : ℝ) : 88 / 100 ≤ √((1 + β * sin φ) ^ 2 - 2 * (β * cos φ) ^ 2) ∧
    √((1 + β * sin φ) ^ 2 - 2 * (β * cos φ) ^ 2) ≤ 1 + β * sin φ := by
  constructor
  · apply le_sqrt_of_sq_le
    have := ps_disc hβ φ
    norm_num at this ⊢
    linarith
  · apply sqrt_le_iff.2
    exact ⟨by linarith [(ps_p hβ φ).1], by nlinarith [sq_nonneg (β * cos φ)]⟩

theorem phaseShift_abs (φ : ℝ) : |phaseShift β φ| ≤ 2 * |β| := by
  have h1 := (ps_p hβ φ).1
  have h2 := (ps_r hβ φ).1
  unfold phaseShift
  rw [abs_div, abs_mul, abs_two, abs_mul, abs_of_pos (by linarith : 0 < 1 + β * sin φ + √((1 + β * sin φ) ^ 2 - 2 * (β * cos φ) ^ 2)),
    div_le_iff₀ (by linarith)]
  have := abs_cos_le_one φ
  have := abs_nonneg β
  nlinarith

omit hβ in
/-- The quotient is Lipschitz. -/
theorem ps_quotient {p₁ p₂ q₁ q₂ r₁ r₂ d : ℝ} (hp₁ : 9 / 10 ≤ p₁) (hp₁' : p₁ ≤ 11 / 10) (hp₂ : 9 / 10 ≤ p₂) (hp₂' : p₂ ≤ 11 / 10)
    (hq₁ : |q₁| ≤ 1 / 10) (hq₂ : |q₂| ≤ 1 / 10) (hr₁ : 88 / 100 ≤ r₁) (hr₂ : 88 / 100 ≤ r₂) (hr₂' : r₂ ≤ p₂)
    (e₁ : r₁ ^ 2 = p₁ ^ 2 - 2 * q₁ ^ 2) (e₂ : r₂ ^ 2 = p₂ ^ 2 - 2 * q₂ ^ 2) (hp : |p₁ - p₂| ≤ d) (hq : |q₁ - q₂| ≤ d) :
    |2 * q₁ / (p₁ + r₁) - 2 * q₂ / (p₂ + r₂)| ≤ 5 * d := by
  have hd : 0 ≤ d := (abs_nonneg _).trans hp
  have h1 : |(r₁ - r₂) * (r₁ + r₂)| ≤ 26 / 10 * d := by
    have : (r₁ - r₂) * (r₁ + r₂) = (p₁ - p₂) * (p₁ + p₂) - 2 * ((q₁ - q₂) * (q₁ + q₂)) := by linear_combination e₁ - e₂
    rw [this]
    refine (abs_sub _ _).trans ?_
    rw [abs_mul, abs_mul, abs_mul, abs_two]
    have a1 : |p₁ + p₂| ≤ 22 / 10 := by rw [abs_of_nonneg (by linarith)]; linarith
    have a2 : |q₁ + q₂| ≤ 2 / 10 := (abs_add_le _ _).trans (by linarith)
    have b1 := mul_le_mul hp a1 (abs_nonneg _) hd
    have b2 := mul_le_mul hq a2 (abs_nonneg _) hd
    linarith
  have h2 : |r₁ - r₂| ≤ 2 * d := by
    rw [abs_mul, abs_of_pos (show 0 < r₁ + r₂ by linarith)] at h1
    nlinarith [abs_nonneg (r₁ - r₂)]
  have h3 : |(p₂ + r₂) - (p₁ + r₁)| ≤ 3 * d := by
    have : (p₂ + r₂) - (p₁ + r₁) = -((p₁ - p₂) + (r₁ - r₂)) := by ring
    rw [this, abs_neg]
    exact (abs_add_le _ _).trans (by linarith)
  have s1 : 0 < p₁ + r₁ := by linarith
  have s2 : 0 < p₂ + r₂ := by linarith
  have h4 : 2 * q₁ / (p₁ + r₁) - 2 * q₂ / (p₂ + r₂) =
      2 * ((q₁ - q₂) * (p₂ + r₂) + q₂ * ((p₂ + r₂) - (p₁ + r₁))) / ((p₁ + r₁) * (p₂ + r₂)) := by
    field_simp
    ring
  rw [h4, abs_div, abs_of_pos (mul_pos s1 s2), div_le_iff₀ (mul_pos s1 s2), abs_mul, abs_two]
  have h5 : |(q₁ - q₂) * (p₂ + r₂) + q₂ * ((p₂ + r₂) - (p₁ + r₁))| ≤ 25 / 10 * d := by
    refine (abs_add_le _ _).trans ?_
    rw [abs_mul, abs_mul, abs_of_pos s2]
    have b1 := mul_le_mul hq (show p₂ + r₂ ≤ 22 / 10 by linarith) s2.le hd
    have b2 := mul_le_mul hq₂ h3 (abs_nonneg _) (by norm_num)
    linarith
  have h6 : 3 ≤ (p₁ + r₁) * (p₂ + r₂) := by nlinarith
  nlinarith

omit hβ in
theorem ps_ratio {b c S : ℝ} (h0 : 0 ≤ b) (hb : b ≤ 1 / 100) (hc : 1 - 2 * b ≤ c) (hc1 : c ≤ 1) (hS : 2 - 8 * b ≤ S) (hS2 : S ≤ 2) :
    |1 - 2 * c / S| ≤ 5 * b := by
  have hSpos : 0 < S := by linarith
  have hA : 1 - 2 * b ≤ 2 * c / S := by
    rw [le_div_iff₀ hSpos]
    nlinarith
  have hB : 2 * c / S ≤ 1 + 5 * b := by
    rw [div_le_iff₀ hSpos]
    nlinarith
  rw [abs_le]
  constructor <;> linarith

theorem phaseShift_lipschitz (x y : ℝ) : |phaseShift β x - phaseShift β y| ≤ 1 / 2 * |x - y| := by
  have hp : |(1 + β * sin x) - (1 + β * sin y)| ≤ 1 / 10 * |x - y| := by
    rw [show (1 + β * sin x) - (1 + β * sin y) = β * (sin x - sin y) by ring, abs_mul]
    exact mul_le_mul hβ (abs_sin_sub_sin_le x y) (abs_nonneg _) (by norm_num)
  have hq : |β * cos x - β * cos y| ≤ 1 / 10 * |x - y| := by
    rw [show β * cos x - β * cos y = β * (cos x - cos y) by ring, abs_mul]
    exact mul_le_mul hβ (abs_cos_sub_cos_le x y) (abs_nonneg _) (by norm_num)
  have := ps_quotient (ps_p hβ x).1 (ps_p hβ x).2 (ps_p hβ y).1 (ps_p hβ y).2 (ps_q hβ x) (ps_q hβ y) (ps_r hβ x).1 (ps_r hβ y).1
    (ps_r hβ y).2 (sq_sqrt (by linarith [ps_disc hβ x])) (sq_sqrt (by linarith [ps_disc hβ y])) hp hq
  unfold phaseShift
  linarith

/-- There is exactly one phase that is seen at phase zero. -/
theorem phase_unique : ∃ φ, φ + phaseShift β φ = 0 ∧ (∀ ψ, ψ + phaseShift β ψ = 0 → ψ = φ) ∧ |φ + β| ≤ 5 * β ^ 2 * |β| ∧
    (0 < β → φ < 0) ∧ (β < 0 → 0 < φ) := by
  have hc : ContractingWith (1 / 2) (fun φ => -phaseShift β φ) := by
    refine ⟨by norm_num [← NNReal.coe_lt_coe], LipschitzWith.of_dist_le_mul fun x y => ?_⟩
    rw [Real.dist_eq, Real.dist_eq, show -phaseShift β x - -phaseShift β y = -(phaseShift β x - phaseShift β y) by ring, abs_neg]
    have := phaseShift_lipschitz hβ x y
    simpa using this
  have hfix : ContractingWith.fixedPoint (fun φ => -phaseShift β φ) hc = -phaseShift β (ContractingWith.fixedPoint _ hc) :=
    (hc.fixedPoint_isFixedPt).symm
  generalize hφ : ContractingWith.fixedPoint (fun φ => -phaseShift β φ) hc = φ at hfix
  have key : |φ| ≤ 2 * |β| := by
    have := phaseShift_abs hβ φ
    rwa [hfix, abs_neg]
  have hS1 := (ps_p hβ φ).1
  have hS2 := (ps_r hβ φ).1
  have hS3 := (ps_r hβ φ).2
  have hdisc := ps_disc hβ φ
  have hb2 : β ^ 2 ≤ 1 / 100 := by nlinarith [abs_nonneg β, sq_abs β]
  have hφ2 : φ ^ 2 ≤ 4 * β ^ 2 := by nlinarith [abs_nonneg φ, sq_abs φ, sq_abs β, abs_nonneg β]
  have hcos : 1 - 2 * β ^ 2 ≤ cos φ := by
    have := one_sub_sq_div_two_le_cos (x := φ)
    linarith
  have hcos1 := cos_le_one φ
  have hcpos : 0 < cos φ := by nlinarith
  set S := 1 + β * sin φ + √((1 + β * sin φ) ^ 2 - 2 * (β * cos φ) ^ 2) with hS
  have hSpos : 0 < S := by linarith
  have hφS : φ = -(β * (2 * cos φ / S)) := by
    refine hfix.trans ?_
    unfold phaseShift
    rw [← hS]
    ring
  have hratio : 0 < 2 * cos φ / S := by positivity
  refine ⟨φ, by linarith, fun ψ hψ => ?_, ?_, fun h => ?_, fun h => ?_⟩
  · rw [← hφ]
    exact hc.fixedPoint_unique (show -phaseShift β ψ = ψ by linarith)
  · -- `β sin φ` lies between `-2 β²` and `0`
    have hsin : -(2 * β ^ 2) ≤ β * sin φ := by
      have h1 : |β * sin φ| ≤ |β| * (2 * |β|) := by
        rw [abs_mul]
        exact mul_le_mul_of_nonneg_left ((abs_sin_le_abs).trans key) (abs_nonneg _)
      have h2 := (abs_le.1 h1).1
      nlinarith [sq_abs β]
    have hsin0 : β * sin φ ≤ 0 := by
      have h1 : β * φ ≤ 0 := by
        rw [hφS]
        nlinarith [sq_nonneg β, mul_nonneg (sq_nonneg β) hratio.le]
      rcases lt_trichotomy φ 0 with h | h | h
      · have hb : 0 ≤ β := by
          by_contra hc
          push Not at hc
          nlinarith [mul_pos_of_neg_of_neg hc h]
        have : sin φ ≤ 0 := (sin_neg_of_neg_of_neg_pi_lt h (by
          have := abs_le.1 key
          have := pi_gt_three
          have := abs_le.1 hβ
          nlinarith [abs_nonneg β])).le
        exact mul_nonpos_of_nonneg_of_nonpos hb this
      · rw [h]; simp
      · have hb : β ≤ 0 := by
          by_contra hc
          push Not at hc
          nlinarith [mul_pos hc h]
        have : 0 ≤ sin φ := (sin_pos_of_pos_of_lt_pi h (by
          have := abs_le.1 key
          have := pi_gt_three
          nlinarith [abs_nonneg β])).le
        exact mul_nonpos_of_nonpos_of_nonneg hb this
    have hr : 1 - 6 * β ^ 2 ≤ √((1 + β * sin φ) ^ 2 - 2 * (β * cos φ) ^ 2) := by
      have h1 : (1 + β * sin φ) ^ 2 - 2 * (β * cos φ) ^ 2 ≤ 1 := by nlinarith [sq_nonneg (β * cos φ)]
      have h2 : 1 - 6 * β ^ 2 ≤ (1 + β * sin φ) ^ 2 - 2 * (β * cos φ) ^ 2 := by
        have : (β * cos φ) ^ 2 ≤ β ^ 2 := by
          rw [mul_pow]
          exact mul_le_of_le_one_right (sq_nonneg β) (cos_sq_le_one φ)
        nlinarith
      refine h2.trans (le_sqrt_of_sq_le ?_)
      nlinarith
    have hSlo : 2 - 8 * β ^ 2 ≤ S := by linarith
    have hShi : S ≤ 2 := by linarith
    have := ps_ratio (sq_nonneg β) hb2 hcos hcos1 hSlo hShi
    rw [show φ + β = β * (1 - 2 * cos φ / S) by linear_combination hφS, abs_mul, mul_comm]
    exact mul_le_mul_of_nonneg_right this (abs_nonneg β)
  · rw [hφS]
    nlinarith [mul_pos h hratio]
  · rw [hφS]
    nlinarith [mul_neg_of_neg_of_pos h hratio]

end

end Exo
