import Verif.Spec.Interpolated
import Verif.Lemmas.Interpolated
import Mathlib.MeasureTheory.Integral.IntervalIntegral.Basic
import Mathlib.Topology.UniformSpace.HeineCantor
import Mathlib.Tactic.Linarith
import Mathlib.Tactic.Ring
import Mathlib.Tactic.FieldSimp
import Mathlib.Tactic.Positivity

/-!
# Errors of composite quadrature rules and of cubic interpolation
-/

namespace Exo
open Real MeasureTheory Finset

/-! ## Quadrature -/

/-- A composite rule on `K` equal cells of `[-1/2, 1/2]` that uses a value within `ε` of the function in each cell is within `ε` of the
integral. -/
theorem composite_rule {g : ℝ → ℝ} (hg : Continuous g) {K : ℕ} (hK : 0 < K) (V : ℕ → ℝ) {ε : ℝ}
    (hV : ∀ j < K, ∀ u, -(1 / 2) + j / (K : ℝ) ≤ u → u ≤ -(1 / 2) + (j + 1) / (K : ℝ) → |g u - V j| ≤ ε) :
    |(∑ j ∈ range K, V j) / K - ∫ u in (-(1 / 2) : ℝ)..(1 / 2), g u| ≤ ε := by
  have hK' : (0 : ℝ) < K := by exact_mod_cast hK
  let e : ℕ → ℝ := fun j => -(1 / 2) + j / (K : ℝ)
  have hI : ∫ u in (-(1 / 2) : ℝ)..(1 / 2), g u = ∑ j ∈ range K, ∫ u in (e j)..(e (j + 1)), g u := by
    rw [intervalIntegral.sum_integral_adjacent_intervals fun j _ => hg.intervalIntegrable _ _]
    have h0 : e 0 = -(1 / 2) := by simp [e]
    have h1 : e K = 1 / 2 := by simp only [e]; rw [div_self hK'.ne']; norm_num
    rw [h0, h1]
  have hle : ∀ j : ℕ, e (j + 1) - e j = 1 / K := by
    intro j
    simp only [e]
    push_cast
    field_simp
    ring
  have hc : ∀ j ∈ range K, |V j / K - ∫ u in (e j)..(e (j + 1)), g u| ≤ ε / K := by
    intro j hj
    have hj' := mem_range.1 hj
    have hpos : (0 : ℝ) < 1 / K := by positivity
    have e1 : V j / K = ∫ _ in (e j)..(e (j + 1)), V j := by
      rw [intervalIntegral.integral_const, hle, smul_eq_mul]; ring
    rw [e1, ← intervalIntegral.integral_sub (by simp) (hg.intervalIntegrable _ _), ← Real.norm_eq_abs]
    refine (intervalIntegral.norm_integral_le_of_norm_le_const (C := ε) fun u hu => ?_).trans ?_
    · rw [Set.uIoc_of_le (by linarith [hle j])] at hu
      rw [Real.norm_eq_abs, abs_sub_comm]
      refine hV j hj' u hu.1.le ?_
      have := hu.2
      simp only [e] at this
      push_cast at this
      exact this
    · rw [hle, abs_of_pos hpos]
      exact le_of_eq (by ring)
  rw [hI, sum_div, ← sum_sub_distrib]
  calc |∑ j ∈ range K, (V j / K - ∫ u in (e j)..(e (j + 1)), g u)|
      ≤ ∑ j ∈ range K, |V j / K - ∫ u in (e j)..(e (j + 1)), g u| := abs_sum_le_sum_abs _ _
    _ ≤ ∑ j ∈ range K, ε / K := sum_le_sum hc
    _ = ε := by rw [sum_const, card_range, nsmul_eq_mul]; field_simp

/-! ## Interpolation -/

/-- There is a cubic through four equidistant nodes. -/
theorem exists_through (g : ℝ → ℝ) (x0 : ℝ) {h : ℝ} (hh : 0 < h) : ∃ c0 c1 c2 c3, Through g x0 h c0 c1 c2 c3 := by
  have hp : ∃ a0 a1 a2 a3 : ℝ, a0 - a1 + a2 - a3 = g (x0 - h) ∧ a0 = g x0 ∧ a0 + a1 + a2 + a3 = g (x0 + h) ∧
      a0 + 2 * a1 + 4 * a2 + 8 * a3 = g (x0 + 2 * h) := by
    refine ⟨g x0, -g (x0 - h) / 3 - g x0 / 2 + g (x0 + h) - g (x0 + 2 * h) / 6, (g (x0 - h) + g (x0 + h)) / 2 - g x0,
      ((g x0 - g (x0 + h)) + (g (x0 + 2 * h) - g (x0 - h)) / 3) / 2, ?_, rfl, ?_, ?_⟩ <;> ring
  obtain ⟨a0, a1, a2, a3, e0, e1, e2, e3⟩ := hp
  obtain ⟨c0, c1, c2, c3, hc⟩ : ∃ c0 c1 c2 c3, ∀ s, cubic c0 c1 c2 c3 (x0 + s * h) = a0 + a1 * s + a2 * s ^ 2 + a3 * s ^ 3 := by
    refine ⟨a0 - a1 * x0 / h + a2 * x0 ^ 2 / h ^ 2 - a3 * x0 ^ 3 / h ^ 3, a1 / h - 2 * a2 * x0 / h ^ 2 + 3 * a3 * x0 ^ 2 / h ^ 3,
      a2 / h ^ 2 - 3 * a3 * x0 / h ^ 3, a3 / h ^ 3, fun s => ?_⟩
    unfold cubic
    field_simp
    ring
  refine ⟨c0, c1, c2, c3, ?_, ?_, ?_, ?_⟩
  · rw [← e0, show x0 - h = x0 + (-1) * h by ring, hc]; ring
  · rw [← e1]
    have := hc 0
    rw [zero_mul, add_zero] at this
    rw [this]; ring
  · rw [← e2]
    have := hc 1
    rw [one_mul] at this
    rw [this]; ring
  · rw [← e3, hc]; ring

/-- In the middle cell, the cubic stays within `5/4 ε` of a value that the nodes are within `ε` of. -/
theorem through_bound {g : ℝ → ℝ} {x0 h c0 c1 c2 c3 : ℝ} (hT : Through g x0 h c0 c1 c2 c3) (hh : 0 < h) {x y ε : ℝ}
    (hx0 : x0 ≤ x) (hx1 : x ≤ x0 + h) (h0 : |g (x0 - h) - y| ≤ ε) (h1 : |g x0 - y| ≤ ε) (h2 : |g (x0 + h) - y| ≤ ε)
    (h3 : |g (x0 + 2 * h) - y| ≤ ε) : |cubic c0 c1 c2 c3 x - y| ≤ 5 / 4 * ε := by
  obtain ⟨e0, e1, e2, e3⟩ := hT
  rw [← e0] at h0
  rw [← e1] at h1
  rw [← e2] at h2
  rw [← e3] at h3
  set s := (x - x0) / h with hs
  have hs0 : 0 ≤ s := div_nonneg (by linarith) hh.le
  have hs1 : s ≤ 1 := by rw [hs, div_le_one hh]; linarith
  have hx : x = x0 + s * h := by rw [hs, div_mul_cancel₀ _ hh.ne']; ring
  set A0 := cubic c0 c1 c2 c3 (x0 - h) - y with hA0
  set A1 := cubic c0 c1 c2 c3 x0 - y with hA1
  set A2 := cubic c0 c1 c2 c3 (x0 + h) - y with hA2
  set A3 := cubic c0 c1 c2 c3 (x0 + 2 * h) - y with hA3
  have hε : 0 ≤ ε := (abs_nonneg _).trans h1
  have key : cubic c0 c1 c2 c3 x - y = -(s * (1 - s) * (2 - s) / 6) * A0 + ((s + 1) * (1 - s) * (2 - s) / 2) * A1 +
      ((s + 1) * s * (2 - s) / 2) * A2 + -((s + 1) * s * (1 - s) / 6) * A3 := by
    rw [hA0, hA1, hA2, hA3, hx]
    unfold cubic
    ring
  have b0 := abs_mul (-(s * (1 - s) * (2 - s) / 6)) A0
  have p1 : 0 ≤ 1 - s := by linarith
  have p2 : 0 ≤ 2 - s := by linarith
  have p3 : 0 ≤ s + 1 := by linarith
  have w0 : 0 ≤ s * (1 - s) * (2 - s) / 6 := by positivity
  have w1 : 0 ≤ (s + 1) * (1 - s) * (2 - s) / 2 := by positivity
  have w2 : 0 ≤ (s + 1) * s * (2 - s) / 2 := by positivity
  have w3 : 0 ≤ (s + 1) * s * (1 - s) / 6 := by positivity
  have m0 := mul_le_mul_of_nonneg_left h0 w0
  have m1 := mul_le_mul_of_nonneg_left h1 w1
  have m2 := mul_le_mul_of_nonneg_left h2 w2
  have m3 := mul_le_mul_of_nonneg_left h3 w3
  have a0 := abs_le.1 h0
  rw [key]
  calc |-(s * (1 - s) * (2 - s) / 6) * A0 + ((s + 1) * (1 - s) * (2 - s) / 2) * A1 +
      ((s + 1) * s * (2 - s) / 2) * A2 + -((s + 1) * s * (1 - s) / 6) * A3|
      ≤ |-(s * (1 - s) * (2 - s) / 6) * A0| + |((s + 1) * (1 - s) * (2 - s) / 2) * A1| +
        |((s + 1) * s * (2 - s) / 2) * A2| + |-((s + 1) * s * (1 - s) / 6) * A3| :=
        (abs_add_le _ _).trans (add_le_add_left ((abs_add_le _ _).trans (add_le_add_left (abs_add_le _ _) _)) _)
    _ = (s * (1 - s) * (2 - s) / 6) * |A0| + ((s + 1) * (1 - s) * (2 - s) / 2) * |A1| +
        ((s + 1) * s * (2 - s) / 2) * |A2| + ((s + 1) * s * (1 - s) / 6) * |A3| := by
        rw [abs_mul, abs_mul, abs_mul, abs_mul, abs_neg, abs_neg, abs_of_nonneg w0, abs_of_nonneg w1, abs_of_nonneg w2,
          abs_of_nonneg w3]
    _ ≤ (s * (1 - s) * (2 - s) / 6 + (s + 1) * (1 - s) * (2 - s) / 2 + (s + 1) * s * (2 - s) / 2 +
        (s + 1) * s * (1 - s) / 6) * ε := by linarith
    _ = (1 + s * (1 - s)) * ε := by ring
    _ ≤ 5 / 4 * ε := mul_le_mul_of_nonneg_right (by nlinarith [sq_nonneg (s - 1 / 2)]) hε

/-- A continuous periodic function is uniformly continuous. -/
theorem uniform_of_periodic {g : ℝ → ℝ} {P : ℝ} (hP : 0 < P) (hg : Continuous g) (hper : ∀ t, g (t + P) = g t) {ε : ℝ}
    (hε : 0 < ε) : ∃ δ > 0, ∀ s s', |s - s'| ≤ δ → |g s - g s'| ≤ ε := by
  have hc : UniformContinuousOn g (Set.Icc (-P) (2 * P)) := isCompact_Icc.uniformContinuousOn_of_continuous hg.continuousOn
  obtain ⟨δ, hδ, h⟩ := Metric.uniformContinuousOn_iff_le.1 hc ε hε
  have hz : ∀ (k : ℤ) t, g (t + k * P) = g t := by
    intro k t
    have hp : Function.Periodic g P := hper
    have := hp.int_mul k t
    simpa [mul_comm] using this
  refine ⟨min δ P, lt_min hδ hP, fun s s' hs => ?_⟩
  obtain ⟨k, hk⟩ := pymod_spec s P
  have h0 := pymod_nonneg (x := s) hP
  have h1 := pymod_lt (x := s) hP
  have e1 : g s = g (s - k * P) := by rw [← hz k (s - k * P)]; congr 1; ring
  have e2 : g s' = g (s' - k * P) := by rw [← hz k (s' - k * P)]; congr 1; ring
  obtain ⟨a, b⟩ := abs_le.1 (hs.trans (min_le_right _ _))
  rw [e1, e2, ← Real.dist_eq]
  refine h _ ⟨by linarith, by linarith⟩ _ ⟨by linarith, by linarith⟩ ?_
  rw [Real.dist_eq, show s - k * P - (s' - k * P) = s - s' by ring]
  exact hs.trans (min_le_left _ _)

end Exo
