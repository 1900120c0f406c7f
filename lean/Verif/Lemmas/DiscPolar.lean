import Verif.Lemmas.Measure
import Verif.Lemmas.ProductLaw
import Mathlib.MeasureTheory.Function.JacobianOneDim

/-!
# The unit disc in polar coordinates
-/

namespace Exo
open MeasureTheory Set
open scoped ENNReal

theorem measurable_arg_pair : Measurable fun p : ℝ × ℝ => Complex.arg ⟨p.1, p.2⟩ :=
  Complex.measurable_arg.comp Complex.measurableEquivRealProd.symm.measurable

theorem measurable_eccOmega : Measurable fun p : ℝ × ℝ => (p.1 ^ 2 + p.2 ^ 2, Complex.arg ⟨p.1, p.2⟩) := by
  have := measurable_arg_pair
  fun_prop

/-- `∫ r h(r²) dr = (1/2) ∫ h`. -/
theorem lintegral_mul_comp_sq (h : ℝ → ℝ≥0∞) :
    ∫⁻ r in Ioi (0 : ℝ), ENNReal.ofReal r * h (r ^ 2) = 2⁻¹ * ∫⁻ u in Ioi (0 : ℝ), h u := by
  have hd : ∀ x ∈ Ioi (0 : ℝ), HasDerivWithinAt (fun r : ℝ => r ^ 2) (2 * x) (Ioi 0) x := by
    intro x _
    have := (hasDerivAt_pow 2 x).hasDerivWithinAt (s := Ioi 0)
    simpa using this
  have hinj : InjOn (fun r : ℝ => r ^ 2) (Ioi 0) := by
    intro x hx y hy hxy
    exact (pow_left_inj₀ (le_of_lt hx) (le_of_lt hy) two_ne_zero).1 hxy
  have himg : (fun r : ℝ => r ^ 2) '' Ioi 0 = Ioi 0 := by
    ext u
    constructor
    · rintro ⟨x, hx, rfl⟩
      exact pow_pos (mem_Ioi.1 hx) 2
    · intro hu
      exact ⟨Real.sqrt u, Real.sqrt_pos.2 hu, Real.sq_sqrt (le_of_lt hu)⟩
  have := lintegral_image_eq_lintegral_abs_deriv_mul measurableSet_Ioi hd hinj h
  rw [himg] at this
  rw [this, ← lintegral_const_mul' _ _ (by simp)]
  refine setLIntegral_congr_fun measurableSet_Ioi fun r hr => ?_
  have hr : 0 < r := hr
  rw [abs_of_pos (by linarith), ENNReal.ofReal_mul (by norm_num), ← mul_assoc, ← mul_assoc]
  congr 1
  rw [show ENNReal.ofReal 2 = 2 by norm_num, ENNReal.inv_mul_cancel (by norm_num) (by norm_num), one_mul]

/-- A point uniform in the unit disc has its squared radius uniform on `[0, 1)` and its angle uniform on `(-π, π]`, independent of each
other. -/
theorem disc_polar : Measure.map (fun p : ℝ × ℝ => (p.1 ^ 2 + p.2 ^ 2, Complex.arg ⟨p.1, p.2⟩)) (volume.restrict unitDisc) =
    (2⁻¹ : ℝ≥0∞) • (volume : Measure (ℝ × ℝ)).restrict (Ico 0 1 ×ˢ Ioc (-Real.pi) Real.pi) := by
  have hD : MeasurableSet unitDisc := by
    have : Measurable fun q : ℝ × ℝ => q.1 ^ 2 + q.2 ^ 2 := by fun_prop
    exact measurableSet_lt this measurable_const
  have e1 : (2⁻¹ : ℝ≥0∞) • (volume : Measure (ℝ × ℝ)).restrict (Ico 0 1 ×ˢ Ioc (-Real.pi) Real.pi) =
      ((2⁻¹ : ℝ≥0∞) • (volume : Measure ℝ).restrict (Ico 0 1)).prod ((volume : Measure ℝ).restrict (Ioc (-Real.pi) Real.pi)) := by
    rw [Measure.prod_smul_left, Measure.prod_restrict, Measure.volume_eq_prod]
  rw [e1]
  have : SigmaFinite ((2⁻¹ : ℝ≥0∞) • (volume : Measure ℝ).restrict (Ico 0 1)) := by
    have : (2⁻¹ : ℝ≥0∞) = ((2⁻¹ : NNReal) : ℝ≥0∞) := by simp
    rw [this]
    exact inferInstanceAs (SigmaFinite ((2⁻¹ : NNReal) • (volume : Measure ℝ).restrict (Ico 0 1)))
  refine (Measure.prod_eq fun s t hs ht => ?_).symm
  rw [Measure.map_apply measurable_eccOmega (hs.prod ht), Measure.restrict_apply (measurable_eccOmega (hs.prod ht)),
    ← lintegral_indicator_one ((measurable_eccOmega (hs.prod ht)).inter hD), ← lintegral_comp_polarCoord_symm]
  have e : ∀ p ∈ polarCoord.target, ENNReal.ofReal p.1 •
      ((fun p : ℝ × ℝ => (p.1 ^ 2 + p.2 ^ 2, Complex.arg ⟨p.1, p.2⟩)) ⁻¹' s ×ˢ t ∩ unitDisc).indicator (1 : ℝ × ℝ → ℝ≥0∞)
        (polarCoord.symm p) =
      (ENNReal.ofReal p.1 * (s ∩ Iio 1).indicator (1 : ℝ → ℝ≥0∞) (p.1 ^ 2)) * t.indicator (1 : ℝ → ℝ≥0∞) p.2 := by
    intro p hp
    have ha := arg_symm hp
    have hr : (polarCoord.symm p).1 ^ 2 + (polarCoord.symm p).2 ^ 2 = p.1 ^ 2 := by
      rw [polarCoord_symm_apply]
      simp only
      nlinarith [Real.sin_sq_add_cos_sq p.2]
    have hmem : polarCoord.symm p ∈ ((fun p : ℝ × ℝ => (p.1 ^ 2 + p.2 ^ 2, Complex.arg ⟨p.1, p.2⟩)) ⁻¹' s ×ˢ t ∩ unitDisc) ↔
        p.1 ^ 2 ∈ s ∩ Iio 1 ∧ p.2 ∈ t := by
      rw [mem_inter_iff, mem_preimage, mem_prod]
      simp only
      rw [hr, ha]
      show _ ∧ (polarCoord.symm p).1 ^ 2 + (polarCoord.symm p).2 ^ 2 < 1 ↔ _
      rw [hr, mem_inter_iff, mem_Iio]
      tauto
    by_cases h1 : p.1 ^ 2 ∈ s ∩ Iio 1 <;> by_cases h2 : p.2 ∈ t
    · rw [indicator_of_mem (hmem.2 ⟨h1, h2⟩), indicator_of_mem h1, indicator_of_mem h2]; simp
    · rw [indicator_of_notMem fun hc => h2 (hmem.1 hc).2, indicator_of_notMem h2]; simp
    · rw [indicator_of_notMem fun hc => h1 (hmem.1 hc).1, indicator_of_notMem h1]; simp
    · rw [indicator_of_notMem fun hc => h1 (hmem.1 hc).1, indicator_of_notMem h1]; simp
  rw [setLIntegral_congr_fun polarCoord.open_target.measurableSet e, polarCoord_target, Measure.volume_eq_prod,
    ← Measure.prod_restrict]
  have hm1 : Measurable ((s ∩ Iio 1).indicator (1 : ℝ → ℝ≥0∞)) := measurable_one.indicator (hs.inter measurableSet_Iio)
  rw [lintegral_prod_mul (f := fun r : ℝ => ENNReal.ofReal r * (s ∩ Iio 1).indicator (1 : ℝ → ℝ≥0∞) (r ^ 2))
    (g := fun u => t.indicator (1 : ℝ → ℝ≥0∞) u) (by fun_prop) (measurable_one.indicator ht).aemeasurable,
    lintegral_mul_comp_sq, Measure.smul_apply, smul_eq_mul]
  congr 1
  · congr 1
    rw [lintegral_indicator_one (hs.inter measurableSet_Iio), Measure.restrict_apply (hs.inter measurableSet_Iio),
      Measure.restrict_apply hs, inter_assoc]
    have : Iio (1 : ℝ) ∩ Ioi 0 = Ioo 0 1 := by ext; simp [and_comm]
    rw [this]
    exact measure_congr ((ae_eq_refl s).inter Ioo_ae_eq_Ico)
  · rw [lintegral_indicator_one ht]
    rw [Measure.restrict_congr_set Ioo_ae_eq_Ioc]

/-- The image of a law with a density that only depends on the image. -/
theorem map_withDensity_comp {α β : Type} [MeasurableSpace α] [MeasurableSpace β] {μ : Measure α} {F : α → β} (hF : Measurable F)
    {g : β → ℝ≥0∞} (hg : Measurable g) : (μ.withDensity fun x => g (F x)).map F = (μ.map F).withDensity g := by
  ext s hs
  rw [Measure.map_apply hF hs, withDensity_apply _ (hF hs), withDensity_apply _ hs, setLIntegral_map hs hg hF]

end Exo
