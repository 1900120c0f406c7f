import Verif.Lemmas.LimbDark
import Mathlib.Analysis.Calculus.ParametricIntegral
import Mathlib.Analysis.Calculus.FDeriv.Partial
import Mathlib.MeasureTheory.Integral.IntervalIntegral.Periodic
import Mathlib.MeasureTheory.Function.Jacobian
import Mathlib.MeasureTheory.Group.Integral

/-!
# Derivatives of the covered flux
-/

namespace Exo
open Real MeasureTheory Set Filter Topology

/-- The brightness along the limb of the body, weighted with `w`. -/
noncomputable def alongLimb (g : ℝ × ℝ → ℝ) (w : ℝ → ℝ) (b k : ℝ) : ℝ :=
  ∫ θ in -π..π, starDisc.indicator g (b + k * cos θ, k * sin θ) * w θ

/-- Brightness that ends at the limb of the star. -/
theorem stellar_measurable {g : ℝ × ℝ → ℝ} (hg : Continuous g) : Measurable (starDisc.indicator g) :=
  hg.measurable.indicator measurableSet_starDisc

theorem stellar_bound {g : ℝ × ℝ → ℝ} (hg : Continuous g) : ∃ B, 0 ≤ B ∧ ∀ p, |starDisc.indicator g p| ≤ B := by
  obtain ⟨B, hB⟩ := isCompact_starDisc.exists_bound_of_continuousOn hg.continuousOn
  have h0 : 0 ≤ B := (norm_nonneg _).trans (hB (0, 0) (by simp [starDisc]))
  refine ⟨B, h0, fun p => ?_⟩
  by_cases hp : p ∈ starDisc
  · rw [indicator_of_mem hp]; exact hB p hp
  · rw [indicator_of_notMem hp, abs_zero]; exact h0

theorem stellar_integrable {g : ℝ × ℝ → ℝ} (hg : Continuous g) : Integrable (starDisc.indicator g) :=
  (integrable_indicator_iff measurableSet_starDisc).2 (integrableOn_disc hg subset_rfl)

/-- The brightness is continuous away from the limb. -/
theorem stellar_continuousAt {g : ℝ × ℝ → ℝ} (hg : Continuous g) {p : ℝ × ℝ} (hp : p.1 ^ 2 + p.2 ^ 2 ≠ 1) :
    ContinuousAt (starDisc.indicator g) p := by
  have hc : Continuous fun p : ℝ × ℝ => p.1 ^ 2 + p.2 ^ 2 := by fun_prop
  rcases hp.lt_or_gt with h | h
  · refine hg.continuousAt.congr ?_
    filter_upwards [hc.continuousAt.eventually (gt_mem_nhds h)] with q hq
    exact (indicator_of_mem (show q ∈ starDisc from hq.le) g).symm
  · refine (continuousAt_const (y := (0 : ℝ))).congr ?_
    filter_upwards [hc.continuousAt.eventually (lt_mem_nhds h)] with q hq
    exact (indicator_of_notMem (show q ∉ starDisc from not_le.2 hq) g).symm

theorem countable_cos (c : ℝ) : {θ : ℝ | cos θ = c}.Countable := by
  by_cases h : ∃ α, cos α = c
  · obtain ⟨α, rfl⟩ := h
    refine Countable.mono ?_ ((countable_range fun n : ℤ => 2 * n * π + α).union (countable_range fun n : ℤ => 2 * n * π - α))
    intro θ hθ
    obtain ⟨n, hn⟩ := cos_eq_cos_iff.1 (show cos α = cos θ from hθ.symm)
    rcases hn with hn | hn
    · exact Or.inl ⟨n, hn.symm⟩
    · exact Or.inr ⟨n, hn.symm⟩
  · push Not at h
    convert countable_empty
    ext θ
    simpa using h θ

/-- Unless the two limbs coincide they meet in at most two points. -/
theorem limb_ae {b k : ℝ} (hk : 0 < k) (hne : ¬(b = 0 ∧ k = 1)) (μ : Measure ℝ) [NullSingletonClass μ] :
    ∀ᵐ θ ∂μ, (b + k * cos θ) ^ 2 + (k * sin θ) ^ 2 ≠ 1 := by
  have e : ∀ θ, (b + k * cos θ) ^ 2 + (k * sin θ) ^ 2 = b ^ 2 + k ^ 2 + 2 * b * k * cos θ := fun θ => by
    linear_combination k ^ 2 * sin_sq_add_cos_sq θ
  by_cases hb : b = 0
  · refine Eventually.of_forall fun θ h => hne ⟨hb, ?_⟩
    rw [e, hb] at h
    have : k ^ 2 = 1 := by linarith
    nlinarith
  · rw [ae_iff]
    refine Countable.measure_zero (Countable.mono ?_ (countable_cos ((1 - b ^ 2 - k ^ 2) / (2 * b * k)))) _
    intro θ hθ
    simp only [ne_eq, not_not, mem_ofPred_eq] at hθ
    rw [e] at hθ
    show cos θ = _
    rw [eq_div_iff (by positivity)]
    linarith

section
variable {g : ℝ × ℝ → ℝ} (hg : Continuous g)
include hg

theorem limb_measurable (w : ℝ → ℝ) (hw : Continuous w) (b k : ℝ) :
    Measurable fun θ => starDisc.indicator g (b + k * cos θ, k * sin θ) * w θ := by
  have := stellar_measurable hg
  refine (this.comp ?_).mul hw.measurable
  fun_prop

/-- The brightness along the limb of the body depends continuously on distance and radius. -/
theorem alongLimb_continuousAt (w : ℝ → ℝ) (hw : Continuous w) (hw1 : ∀ θ, |w θ| ≤ 1) {b k : ℝ} (hk : 0 < k) (hne : ¬(b = 0 ∧ k = 1)) :
    ContinuousAt (fun q : ℝ × ℝ => alongLimb g w q.1 q.2) (b, k) := by
  obtain ⟨B, hB0, hB⟩ := stellar_bound hg
  unfold alongLimb
  refine intervalIntegral.continuousAt_of_dominated_interval (bound := fun _ => B) ?_ ?_ ?_ ?_
  · exact Eventually.of_forall fun q => (limb_measurable hg w hw q.1 q.2).aestronglyMeasurable
  · refine Eventually.of_forall fun q => Eventually.of_forall fun θ _ => ?_
    rw [norm_mul]
    calc _ ≤ B * 1 := mul_le_mul (hB _) (hw1 θ) (abs_nonneg _) hB0
      _ = B := mul_one B
  · exact intervalIntegrable_const
  · filter_upwards [limb_ae hk hne volume] with θ hθ _
    refine ContinuousAt.mul ?_ continuousAt_const
    exact ContinuousAt.comp (f := fun q : ℝ × ℝ => (q.1 + q.2 * cos θ, q.2 * sin θ)) (x := (b, k)) (stellar_continuousAt hg hθ)
      (by fun_prop)

/-! ## Rings: the derivative in the radius -/

/-- The covered flux as an integral over rings. -/
theorem covered_rings (b : ℝ) {k : ℝ} (hk : 0 ≤ k) :
    ∫ p in starDisc ∩ bodyDisc b k, g p = ∫ s in (0 : ℝ)..k, s * alongLimb g (fun _ => 1) b s := by
  have e1 : ∫ p in starDisc ∩ bodyDisc b k, g p = ∫ p, (bodyDisc b k).indicator (starDisc.indicator g) p := by
    rw [integral_indicator (measurableSet_bodyDisc b k), setIntegral_indicator measurableSet_starDisc, inter_comm]
  have e2 : ∫ p, (bodyDisc b k).indicator (starDisc.indicator g) p =
      ∫ p : ℝ × ℝ, (bodyDisc b k).indicator (starDisc.indicator g) (p + (b, 0)) :=
    (integral_add_right_eq_self _ _).symm
  rw [e1, e2, ← integral_comp_polarCoord_symm]
  have e3 : ∀ p ∈ polarCoord.target, p.1 • (bodyDisc b k).indicator (starDisc.indicator g) (polarCoord.symm p + (b, 0)) =
      (Ioc 0 k ×ˢ (univ : Set ℝ)).indicator (fun p : ℝ × ℝ => p.1 * starDisc.indicator g (b + p.1 * cos p.2, p.1 * sin p.2)) p := by
    rintro ⟨s, θ⟩ h
    simp only [polarCoord_target, mem_prod, mem_Ioi] at h
    have e : (polarCoord.symm (s, θ) + (b, 0) : ℝ × ℝ) = (b + s * cos θ, s * sin θ) := by
      simp only [polarCoord_symm_apply, Prod.mk_add_mk, add_zero]
      rw [add_comm]
    rw [e, smul_eq_mul]
    have hm : ((b + s * cos θ, s * sin θ) : ℝ × ℝ) ∈ bodyDisc b k ↔ s ≤ k := by
      rw [mem_bodyDisc hk]
      simp only [add_sub_cancel_left]
      rw [show (s * cos θ) ^ 2 + (s * sin θ) ^ 2 = s ^ 2 by linear_combination s ^ 2 * sin_sq_add_cos_sq θ]
      exact pow_le_pow_iff_left₀ h.1.le hk two_ne_zero
    by_cases hs : s ≤ k
    · rw [indicator_of_mem (hm.2 hs), indicator_of_mem (show ((s, θ) : ℝ × ℝ) ∈ Ioc 0 k ×ˢ (univ : Set ℝ) from ⟨⟨h.1, hs⟩, mem_univ _⟩)]
    · rw [indicator_of_notMem (fun h => hs (hm.1 h)), indicator_of_notMem (fun h => hs h.1.2), mul_zero]
  rw [setIntegral_congr_fun polarCoord.open_target.measurableSet e3, setIntegral_indicator (measurableSet_Ioc.prod .univ), polarCoord_target,
    show Ioi (0 : ℝ) ×ˢ Ioo (-π) π ∩ Ioc 0 k ×ˢ univ = Ioc 0 k ×ˢ Ioo (-π) π by
      rw [prod_inter_prod, inter_univ, inter_eq_self_of_subset_right Ioc_subset_Ioi_self], Measure.volume_eq_prod, setIntegral_prod]
  · rw [intervalIntegral.integral_of_le hk]
    refine setIntegral_congr_fun measurableSet_Ioc fun s _ => ?_
    simp only [alongLimb, mul_one]
    rw [intervalIntegral.integral_of_le (by linarith [pi_pos]), integral_const_mul, integral_Ioc_eq_integral_Ioo]
  · obtain ⟨B, hB0, hB⟩ := stellar_bound hg
    refine Measure.integrableOn_of_bounded (M := k * B) ?_ ?_ ?_
    · rw [Measure.prod_prod]
      exact ENNReal.mul_ne_top (by simp) (by simp)
    · have := stellar_measurable hg
      refine Measurable.aestronglyMeasurable ?_
      exact measurable_fst.mul (this.comp (by fun_prop))
    · refine (ae_restrict_iff' (measurableSet_Ioc.prod measurableSet_Ioo)).2 (Eventually.of_forall ?_)
      rintro ⟨s, θ⟩ ⟨⟨h1, h2⟩, -⟩
      rw [norm_mul, Real.norm_eq_abs, Real.norm_eq_abs, abs_of_pos h1]
      exact mul_le_mul h2 (hB _) (abs_nonneg _) hk

theorem alongLimb_measurable (b : ℝ) : StronglyMeasurable fun s => s * alongLimb g (fun _ => 1) b s := by
  refine stronglyMeasurable_id.mul ?_
  unfold alongLimb
  simp only [intervalIntegral.integral_of_le (show -π ≤ π by linarith [pi_pos]), mul_one]
  have := stellar_measurable hg
  refine StronglyMeasurable.integral_prod_right (f := fun s θ => starDisc.indicator g (b + s * cos θ, s * sin θ)) ?_
  exact (this.comp (by fun_prop)).stronglyMeasurable

theorem alongLimb_le {B : ℝ} (hB : ∀ p, |starDisc.indicator g p| ≤ B) (hB0 : 0 ≤ B) (w : ℝ → ℝ) (hw1 : ∀ θ, |w θ| ≤ 1) (b k : ℝ) :
    |alongLimb g w b k| ≤ B * (2 * π) := by
  have := intervalIntegral.norm_integral_le_of_norm_le_const (a := -π) (b := π) (C := B)
    (f := fun θ => starDisc.indicator g (b + k * cos θ, k * sin θ) * w θ) fun θ _ => by
      rw [norm_mul]
      calc _ ≤ B * 1 := mul_le_mul (hB _) (hw1 θ) (abs_nonneg _) hB0
        _ = B := mul_one B
  rwa [show |π - -π| = 2 * π by rw [abs_of_pos (by linarith [pi_pos])]; ring] at this

/-- The derivative of the covered flux in the radius of the body. -/
theorem covered_radius {b k : ℝ} (hk : 0 < k) (hne : ¬(b = 0 ∧ k = 1)) :
    HasDerivAt (fun k => ∫ p in starDisc ∩ bodyDisc b k, g p) (k * alongLimb g (fun _ => 1) b k) k := by
  obtain ⟨B, hB0, hB⟩ := stellar_bound hg
  have hm := alongLimb_measurable hg b
  have hi : IntervalIntegrable (fun s => s * alongLimb g (fun _ => 1) b s) volume 0 k := by
    rw [intervalIntegrable_iff_integrableOn_Ioc_of_le hk.le]
    refine Measure.integrableOn_of_bounded (M := k * (B * (2 * π))) (by simp) hm.aestronglyMeasurable ?_
    refine (ae_restrict_iff' measurableSet_Ioc).2 (Eventually.of_forall fun s hs => ?_)
    rw [norm_mul, Real.norm_eq_abs, Real.norm_eq_abs, abs_of_pos hs.1]
    exact mul_le_mul hs.2 (alongLimb_le hg hB hB0 _ (fun _ => by simp) b s) (abs_nonneg _) hk.le
  have hc : ContinuousAt (fun s => s * alongLimb g (fun _ => 1) b s) k := by
    refine continuousAt_id.mul ?_
    exact ContinuousAt.comp (f := fun s : ℝ => (b, s)) (x := k)
      (alongLimb_continuousAt hg (fun _ => 1) continuous_const (fun _ => by simp) hk hne) (by fun_prop)
  refine (intervalIntegral.integral_hasDerivAt_right hi (hm.stronglyMeasurableAtFilter) hc).congr_of_eventuallyEq ?_
  filter_upwards [lt_mem_nhds hk] with s hs
  exact covered_rings hg b hs.le

/-! ## Chords: the derivative in the distance -/

/-- The covered flux as an integral over chords. -/
theorem covered_chords (b : ℝ) {k : ℝ} (hk : 0 < k) :
    ∫ p in starDisc ∩ bodyDisc b k, g p =
      ∫ y in Ioo (-k) k, ∫ x in (b - √(k ^ 2 - y ^ 2))..(b + √(k ^ 2 - y ^ 2)), starDisc.indicator g (x, y) := by
  have e1 : ∫ p in starDisc ∩ bodyDisc b k, g p = ∫ p, (bodyDisc b k).indicator (starDisc.indicator g) p := by
    rw [integral_indicator (measurableSet_bodyDisc b k), setIntegral_indicator measurableSet_starDisc, inter_comm]
  rw [e1, Measure.volume_eq_prod, integral_prod_symm _ (by
    rw [← Measure.volume_eq_prod]; exact (stellar_integrable hg).indicator (measurableSet_bodyDisc b k)), ← integral_indicator measurableSet_Ioo]
  refine integral_congr_ae (Eventually.of_forall fun y => ?_)
  simp only
  by_cases hy : y ∈ Ioo (-k) k
  · rw [indicator_of_mem hy]
    have h2 : y ^ 2 ≤ k ^ 2 := by nlinarith [hy.1, hy.2]
    rw [intervalIntegral.integral_of_le (by linarith [sqrt_nonneg (k ^ 2 - y ^ 2)]), ← integral_Icc_eq_integral_Ioc,
      ← integral_indicator measurableSet_Icc]
    refine integral_congr_ae (Eventually.of_forall fun x => ?_)
    have hm : ((x, y) : ℝ × ℝ) ∈ bodyDisc b k ↔ x ∈ Icc (b - √(k ^ 2 - y ^ 2)) (b + √(k ^ 2 - y ^ 2)) := by
      rw [mem_bodyDisc hk.le, mem_Icc]
      simp only
      rw [show (x - b) ^ 2 + y ^ 2 ≤ k ^ 2 ↔ (x - b) ^ 2 ≤ k ^ 2 - y ^ 2 by constructor <;> intro h <;> linarith, ← sqrt_le_sqrt_iff (by linarith),
        sqrt_sq_eq_abs, abs_le]
      constructor
      · rintro ⟨h1, h2⟩; constructor <;> linarith
      · rintro ⟨h1, h2⟩; constructor <;> linarith
    by_cases hx : ((x, y) : ℝ × ℝ) ∈ bodyDisc b k
    · simp only [indicator_of_mem hx, indicator_of_mem (hm.1 hx)]
    · simp only [indicator_of_notMem hx, indicator_of_notMem (fun h => hx (hm.2 h))]
  · rw [indicator_of_notMem hy]
    refine integral_eq_zero_of_ae ?_
    have : ∀ᵐ x : ℝ, x ≠ b := by simp [ae_iff]
    filter_upwards [this] with x hx
    refine indicator_of_notMem (fun h => ?_) _
    rw [mem_bodyDisc hk.le] at h
    simp only at h
    have h1 : 0 < (x - b) ^ 2 := by have := sub_ne_zero.2 hx; positivity
    have h2 : k ^ 2 ≤ y ^ 2 := by
      rw [mem_Ioo, not_and_or, not_lt, not_lt] at hy
      rcases hy with hy | hy <;> nlinarith
    linarith

/-- The chords counted by the angle at which they end. -/
theorem covered_angles (b : ℝ) {k : ℝ} (hk : 0 < k) :
    ∫ p in starDisc ∩ bodyDisc b k, g p =
      ∫ φ in Ioo (-(π / 2)) (π / 2), k * cos φ * ∫ x in (b - k * cos φ)..(b + k * cos φ), starDisc.indicator g (x, k * sin φ) := by
  rw [covered_chords hg b hk]
  have himg : (fun φ => k * sin φ) '' Ioo (-(π / 2)) (π / 2) = Ioo (-k) k := by
    ext y
    constructor
    · rintro ⟨φ, ⟨h1, h2⟩, rfl⟩
      have a1 : -1 < sin φ := by
        have := sin_lt_sin_of_lt_of_le_pi_div_two le_rfl h2.le h1
        rwa [sin_neg, sin_pi_div_two] at this
      have a2 : sin φ < 1 := by
        have := sin_lt_sin_of_lt_of_le_pi_div_two h1.le le_rfl h2
        rwa [sin_pi_div_two] at this
      constructor <;> simp only <;> nlinarith
    · rintro ⟨h1, h2⟩
      have b1 : -1 < y / k := by rw [lt_div_iff₀ hk]; linarith
      have b2 : y / k < 1 := by rw [div_lt_iff₀ hk]; linarith
      refine ⟨arcsin (y / k), ⟨neg_pi_div_two_lt_arcsin.2 b1, arcsin_lt_pi_div_two.2 b2⟩, ?_⟩
      simp only
      rw [sin_arcsin b1.le b2.le]
      field_simp
  rw [← himg, integral_image_eq_integral_abs_deriv_smul (f' := fun φ => k * cos φ) measurableSet_Ioo
    (fun φ _ => ((hasDerivAt_sin φ).const_mul k).hasDerivWithinAt)]
  · refine setIntegral_congr_fun measurableSet_Ioo fun φ hφ => ?_
    have hc : 0 < cos φ := cos_pos_of_mem_Ioo hφ
    have hs : √(k ^ 2 - (k * sin φ) ^ 2) = k * cos φ := by
      rw [show k ^ 2 - (k * sin φ) ^ 2 = (k * cos φ) ^ 2 by linear_combination -k ^ 2 * sin_sq_add_cos_sq φ, sqrt_sq (by positivity)]
    simp only [hs, smul_eq_mul]
    rw [abs_of_pos (by positivity)]
  · intro φ hφ ψ hψ h
    simp only at h
    exact strictMonoOn_sin.injOn ⟨hφ.1.le, hφ.2.le⟩ ⟨hψ.1.le, hψ.2.le⟩ (mul_left_cancel₀ hk.ne' h)

/-- Two half circles make the limb. -/
theorem limb_halves (b k : ℝ) :
    ∫ φ in Ioo (-(π / 2)) (π / 2), k * cos φ * (starDisc.indicator g (b + k * cos φ, k * sin φ) - starDisc.indicator g (b - k * cos φ, k * sin φ)) =
      k * alongLimb g cos b k := by
  obtain ⟨B, hB0, hB⟩ := stellar_bound hg
  have hm := limb_measurable hg cos continuous_cos b k
  have hI : ∀ x y : ℝ, IntervalIntegrable (fun θ => starDisc.indicator g (b + k * cos θ, k * sin θ) * cos θ) volume x y := by
    intro x y
    refine (intervalIntegrable_const (c := B)).mono_fun hm.aestronglyMeasurable (Eventually.of_forall fun θ => ?_)
    simp only
    rw [norm_mul, Real.norm_eq_abs, Real.norm_eq_abs, Real.norm_eq_abs, abs_of_nonneg hB0]
    calc _ ≤ B * 1 := mul_le_mul (hB _) (abs_cos_le_one θ) (abs_nonneg _) hB0
      _ = B := mul_one B
  have hper : Function.Periodic (fun θ => starDisc.indicator g (b + k * cos θ, k * sin θ) * cos θ) (2 * π) := fun θ => by
    simp only [cos_add_two_pi, sin_add_two_pi]
  have e1 : alongLimb g cos b k = ∫ θ in -(π / 2)..(-(π / 2) + 2 * π), starDisc.indicator g (b + k * cos θ, k * sin θ) * cos θ := by
    unfold alongLimb
    rw [← hper.intervalIntegral_add_eq (-π) (-(π / 2))]
    congr 1
    ring
  have e2 := intervalIntegral.integral_add_adjacent_intervals (hI (-(π / 2)) (π / 2)) (hI (π / 2) (-(π / 2) + 2 * π))
  have e3 : ∫ θ in (π / 2)..(-(π / 2) + 2 * π), starDisc.indicator g (b + k * cos θ, k * sin θ) * cos θ =
      ∫ θ in -(π / 2)..(π / 2), -(starDisc.indicator g (b - k * cos θ, k * sin θ) * cos θ) := by
    have := intervalIntegral.integral_comp_sub_left (a := -(π / 2)) (b := π / 2)
      (fun θ => starDisc.indicator g (b + k * cos θ, k * sin θ) * cos θ) π
    rw [show π - π / 2 = π / 2 by ring, show π - -(π / 2) = -(π / 2) + 2 * π by ring] at this
    rw [← this]
    refine intervalIntegral.integral_congr fun θ _ => ?_
    simp only [cos_pi_sub, sin_pi_sub]
    rw [mul_neg, mul_neg, sub_eq_add_neg]
  have hI' : IntervalIntegrable (fun θ => -(starDisc.indicator g (b - k * cos θ, k * sin θ) * cos θ)) volume (-(π / 2)) (π / 2) := by
    have h := (hI (π / 2) (π - -(π / 2))).comp_sub_left π
    rw [show π - π / 2 = π / 2 by ring, show π - (π - -(π / 2)) = -(π / 2) by ring] at h
    refine h.symm.congr fun θ _ => ?_
    simp only [cos_pi_sub, sin_pi_sub]
    rw [mul_neg, mul_neg, sub_eq_add_neg]
  rw [e1, ← e2, e3, ← intervalIntegral.integral_add (hI _ _) hI', ← integral_Ioc_eq_integral_Ioo,
    ← intervalIntegral.integral_of_le (by linarith [pi_pos]), ← intervalIntegral.integral_const_mul]
  refine intervalIntegral.integral_congr fun θ _ => ?_
  ring

/-- The derivative of the covered flux in the distance of the body. -/
theorem covered_distance {b k : ℝ} (hk : 0 < k) (hne : ¬(b = 0 ∧ k = 1)) :
    HasDerivAt (fun b => ∫ p in starDisc ∩ bodyDisc b k, g p) (k * alongLimb g cos b k) b := by
  obtain ⟨B, hB0, hB⟩ := stellar_bound hg
  have hgm := stellar_measurable hg
  have hsl : ∀ y x x' : ℝ, IntervalIntegrable (fun x => starDisc.indicator g (x, y)) volume x x' := by
    intro y x x'
    refine (intervalIntegrable_const (c := B)).mono_fun (hgm.comp (by fun_prop)).aestronglyMeasurable (Eventually.of_forall fun θ => ?_)
    simp only
    rw [Real.norm_eq_abs, Real.norm_eq_abs, abs_of_nonneg hB0]
    exact hB _
  have hsplit : ∀ y u v : ℝ, ∫ x in u..v, starDisc.indicator g (x, y) =
      (∫ x in (0 : ℝ)..v, starDisc.indicator g (x, y)) - ∫ x in (0 : ℝ)..u, starDisc.indicator g (x, y) := fun y u v =>
    (intervalIntegral.integral_interval_sub_left (hsl y 0 v) (hsl y 0 u)).symm
  have hint : Measurable fun q : ℝ × ℝ => ∫ x in (0 : ℝ)..q.1, starDisc.indicator g (x, q.2) := by
    have e : (fun q : ℝ × ℝ => ∫ x in (0 : ℝ)..q.1, starDisc.indicator g (x, q.2)) =
        fun q => q.1 * ∫ s in Ioc (0 : ℝ) 1, starDisc.indicator g (q.1 * s, q.2) := by
      funext q
      rw [← intervalIntegral.integral_of_le zero_le_one, intervalIntegral.mul_integral_comp_mul_left (f := fun x => starDisc.indicator g (x, q.2)),
        mul_zero, mul_one]
    rw [e]
    refine measurable_fst.mul (StronglyMeasurable.measurable ?_)
    refine StronglyMeasurable.integral_prod_right (f := fun (q : ℝ × ℝ) s => starDisc.indicator g (q.1 * s, q.2)) ?_
    exact (hgm.comp (by fun_prop)).stronglyMeasurable
  have hmeas : ∀ b : ℝ, Measurable fun φ => k * cos φ * ∫ x in (b - k * cos φ)..(b + k * cos φ), starDisc.indicator g (x, k * sin φ) := by
    intro b
    have e : (fun φ => k * cos φ * ∫ x in (b - k * cos φ)..(b + k * cos φ), starDisc.indicator g (x, k * sin φ)) = fun φ => k * cos φ *
        ((∫ x in (0 : ℝ)..(b + k * cos φ), starDisc.indicator g (x, k * sin φ)) -
          ∫ x in (0 : ℝ)..(b - k * cos φ), starDisc.indicator g (x, k * sin φ)) := by
      funext φ
      rw [hsplit]
    rw [e]
    exact (by fun_prop : Measurable fun φ => k * cos φ).mul
      ((hint.comp (by fun_prop : Measurable fun φ => (b + k * cos φ, k * sin φ))).sub
        (hint.comp (by fun_prop : Measurable fun φ => (b - k * cos φ, k * sin φ))))
  have hlip : ∀ y u v : ℝ, |∫ x in u..v, starDisc.indicator g (x, y)| ≤ B * |v - u| := by
    intro y u v
    rw [← Real.norm_eq_abs]
    exact intervalIntegral.norm_integral_le_of_norm_le_const fun x _ => by rw [Real.norm_eq_abs]; exact hB _
  have hkc : ∀ φ, |k * cos φ| ≤ k := fun φ => by
    rw [abs_mul, abs_of_pos hk]
    exact mul_le_of_le_one_right hk.le (abs_cos_le_one φ)
  have key := hasDerivAt_integral_of_dominated_loc_of_lip (μ := volume.restrict (Ioo (-(π / 2)) (π / 2))) (s := univ) (x₀ := b) (𝕜 := ℝ)
    (F := fun b φ => k * cos φ * ∫ x in (b - k * cos φ)..(b + k * cos φ), starDisc.indicator g (x, k * sin φ))
    (F' := fun φ => k * cos φ * (starDisc.indicator g (b + k * cos φ, k * sin φ) - starDisc.indicator g (b - k * cos φ, k * sin φ)))
    (bound := fun _ => k * (2 * B)) univ_mem ?_ ?_ ?_ ?_ ?_ ?_
  · rw [limb_halves hg] at key
    refine key.2.congr_of_eventuallyEq (Eventually.of_forall fun b => covered_angles hg b hk)
  · exact Eventually.of_forall fun b => (hmeas b).aestronglyMeasurable
  · refine Measure.integrableOn_of_bounded (M := k * (B * (2 * k))) (by simp) (hmeas b).aestronglyMeasurable
      (Eventually.of_forall fun φ => ?_)
    rw [norm_mul]
    refine mul_le_mul (hkc φ) ((hlip _ _ _).trans (mul_le_mul_of_nonneg_left ?_ hB0)) (abs_nonneg _) hk.le
    rw [show b + k * cos φ - (b - k * cos φ) = 2 * (k * cos φ) by ring, abs_mul, abs_of_pos two_pos]
    linarith [hkc φ]
  · refine Measurable.aestronglyMeasurable ?_
    exact (by fun_prop : Measurable fun φ => k * cos φ).mul
      ((hgm.comp (by fun_prop : Measurable fun φ => (b + k * cos φ, k * sin φ))).sub
        (hgm.comp (by fun_prop : Measurable fun φ => (b - k * cos φ, k * sin φ))))
  · refine Eventually.of_forall fun φ => LipschitzOnWith.of_dist_le_mul fun x _ y _ => ?_
    rw [Real.dist_eq, Real.dist_eq, Real.coe_nnabs, abs_of_nonneg (by positivity : 0 ≤ k * (2 * B)), ← mul_sub, abs_mul, mul_assoc]
    refine mul_le_mul (hkc φ) ?_ (abs_nonneg _) hk.le
    rw [hsplit, hsplit _ (y - _)]
    have e : ∀ p q r s : ℝ, p - q - (r - s) = (p - r) - (q - s) := fun p q r s => by ring
    rw [e, ← hsplit, ← hsplit]
    refine (abs_sub _ _).trans ?_
    have h1 := hlip (k * sin φ) (y + k * cos φ) (x + k * cos φ)
    have h2 := hlip (k * sin φ) (y - k * cos φ) (x - k * cos φ)
    rw [add_sub_add_right_eq_sub] at h1
    rw [sub_sub_sub_cancel_right] at h2
    linarith
  · exact integrable_const _
  · have a1 := limb_ae hk hne (volume.restrict (Ioo (-(π / 2)) (π / 2)))
    have a2 : ∀ᵐ φ ∂(volume.restrict (Ioo (-(π / 2)) (π / 2))), (b - k * cos φ) ^ 2 + (k * sin φ) ^ 2 ≠ 1 := by
      filter_upwards [limb_ae (b := -b) hk (fun h => hne ⟨neg_eq_zero.1 h.1, h.2⟩) (volume.restrict (Ioo (-(π / 2)) (π / 2)))] with φ h h'
      exact h (by rw [← h']; ring)
    filter_upwards [a1, a2] with φ h1 h2
    refine HasDerivAt.const_mul (k * cos φ) ?_
    have hFTC : ∀ u : ℝ, u ^ 2 + (k * sin φ) ^ 2 ≠ 1 →
        HasDerivAt (fun v => ∫ x in (0 : ℝ)..v, starDisc.indicator g (x, k * sin φ)) (starDisc.indicator g (u, k * sin φ)) u := by
      intro u hu
      refine intervalIntegral.integral_hasDerivAt_right (hsl _ _ _)
        ((hgm.comp (by fun_prop : Measurable fun x : ℝ => (x, k * sin φ))).stronglyMeasurable.stronglyMeasurableAtFilter) ?_
      exact ContinuousAt.comp (f := fun x : ℝ => (x, k * sin φ)) (x := u) (stellar_continuousAt hg hu) (by fun_prop)
    have d1 := (hFTC _ h1).comp_add_const b (k * cos φ)
    have d2 := (hFTC _ h2).comp_sub_const b (k * cos φ)
    refine (d1.sub d2).congr_of_eventuallyEq (Eventually.of_forall fun v => ?_)
    exact hsplit _ _ _

/-- Distance and radius together: the covered flux is strictly differentiable. -/
theorem covered_gradient {b k : ℝ} (hk : 0 < k) (hne : ¬(b = 0 ∧ k = 1)) :
    HasStrictFDerivAt (fun q : ℝ × ℝ => ∫ p in starDisc ∩ bodyDisc q.1 q.2, g p)
      ((k * alongLimb g cos b k) • ContinuousLinearMap.fst ℝ ℝ ℝ + (k * alongLimb g (fun _ => 1) b k) • ContinuousLinearMap.snd ℝ ℝ ℝ) (b, k) := by
  have hopen : ∀ᶠ v : ℝ × ℝ in 𝓝 (b, k), 0 < v.2 ∧ ¬(v.1 = 0 ∧ v.2 = 1) := by
    refine (continuousAt_snd.eventually (lt_mem_nhds hk)).and ?_
    have : (b, k) ≠ ((0, 1) : ℝ × ℝ) := fun h => hne ⟨congrArg Prod.fst h, congrArg Prod.snd h⟩
    filter_upwards [isOpen_ne.mem_nhds this] with v hv h
    exact hv (Prod.ext h.1 h.2)
  have hcont : ∀ w : ℝ → ℝ, Continuous w → (∀ θ, |w θ| ≤ 1) →
      ContinuousAt (fun v : ℝ × ℝ => ContinuousLinearMap.toSpanSingleton ℝ (v.2 * alongLimb g w v.1 v.2)) (b, k) := by
    intro w hw hw1
    have h1 : ContinuousAt (fun v : ℝ × ℝ => v.2 * alongLimb g w v.1 v.2) (b, k) :=
      continuousAt_snd.mul (alongLimb_continuousAt hg w hw hw1 hk hne)
    exact ((ContinuousLinearMap.toSpanSingletonCLE (𝕜 := ℝ) (E := ℝ)).continuous.continuousAt).comp h1
  have := hasStrictFDerivAt_uncurry_coprod (𝕜 := ℝ) (u := (b, k)) (f := fun b k => ∫ p in starDisc ∩ bodyDisc b k, g p)
    (f₁ := fun b k => ContinuousLinearMap.toSpanSingleton ℝ (k * alongLimb g cos b k))
    (f₂ := fun b k => ContinuousLinearMap.toSpanSingleton ℝ (k * alongLimb g (fun _ => 1) b k))
    (hopen.mono fun v hv => (covered_distance hg hv.1 hv.2).hasFDerivAt)
    (hopen.mono fun v hv => (covered_radius hg hv.1 hv.2).hasFDerivAt)
    (hcont cos continuous_cos abs_cos_le_one) (hcont (fun _ => 1) continuous_const (fun _ => by simp))
  refine this.congr_fderiv ?_
  ext
  · change (1 : ℝ) • (k * alongLimb g cos b k) + (0 : ℝ) • _ = _
    simp
  · change (0 : ℝ) • _ + (1 : ℝ) • (k * alongLimb g (fun _ => 1) b k) = _
    simp

end

end Exo
