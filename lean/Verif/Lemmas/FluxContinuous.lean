import Verif.Lemmas.LimbDark
import Mathlib.MeasureTheory.Measure.Lebesgue.Complex
import Mathlib.MeasureTheory.Measure.Lebesgue.EqHaar
import Mathlib.MeasureTheory.Integral.DominatedConvergence

/-!
# The flux is a continuous function of the position and the radius of the body
-/

namespace Exo
open Real MeasureTheory Set Filter Topology

/-- A circle has no area. -/
theorem volume_circle (b r : ℝ) : volume {p : ℝ × ℝ | √((p.1 - b) ^ 2 + p.2 ^ 2) = r} = 0 := by
  have h := Complex.volume_preserving_equiv_real_prod.symm
  have e : {p : ℝ × ℝ | √((p.1 - b) ^ 2 + p.2 ^ 2) = r} =
      Complex.measurableEquivRealProd.symm ⁻¹' {z : ℂ | ‖z - (b : ℂ)‖ = r} := by
    ext ⟨x, y⟩
    simp only [mem_ofPred_eq, mem_preimage]
    have : Complex.measurableEquivRealProd.symm (x, y) = ⟨x, y⟩ := rfl
    rw [this, Complex.norm_def, Complex.normSq_apply]
    simp only [Complex.sub_re, Complex.sub_im, Complex.ofReal_re, Complex.ofReal_im, sub_zero]
    rw [← sq, ← sq]
  rw [e, h.measure_preimage_equiv]
  by_cases hr : r = 0
  · have : {z : ℂ | ‖z - (b : ℂ)‖ = r} = {(b : ℂ)} := by
      ext z; simp [hr, sub_eq_zero]
    rw [this]; exact measure_singleton _
  · have : {z : ℂ | ‖z - (b : ℂ)‖ = r} = Metric.sphere (b : ℂ) r := by
      ext z; simp [dist_eq_norm]
    rw [this]
    exact Measure.addHaar_sphere_of_ne_zero volume _ hr

/-- The light from the uncovered part of the disc is a continuous function of the position and the radius of the body. -/
theorem continuous_uncovered {g : ℝ × ℝ → ℝ} (hg : Continuous g) :
    Continuous fun q : ℝ × ℝ => ∫ p in starDisc \ bodyDisc q.1 q.2, g p := by
  have e : ∀ q : ℝ × ℝ, ∫ p in starDisc \ bodyDisc q.1 q.2, g p =
      ∫ p in starDisc, (bodyDisc q.1 q.2)ᶜ.indicator g p := by
    intro q
    rw [setIntegral_indicator (measurableSet_bodyDisc _ _).compl, diff_eq]
  simp only [e]
  rw [continuous_iff_continuousAt]
  intro q
  refine tendsto_integral_filter_of_dominated_convergence (fun p => ‖g p‖) ?_ ?_ ?_ ?_
  · exact Eventually.of_forall fun q' =>
      (hg.aestronglyMeasurable.indicator (measurableSet_bodyDisc _ _).compl)
  · exact Eventually.of_forall fun q' => Eventually.of_forall fun p => norm_indicator_le_norm_self _ _
  · exact (integrableOn_disc hg subset_rfl).norm
  · have h0 : ∀ᵐ p : ℝ × ℝ, √((p.1 - q.1) ^ 2 + p.2 ^ 2) ≠ q.2 := by
      rw [ae_iff]
      simpa using volume_circle q.1 q.2
    refine ae_restrict_of_ae (h0.mono fun p hp => ?_)
    have hc : Continuous fun q' : ℝ × ℝ => √((p.1 - q'.1) ^ 2 + p.2 ^ 2) := by fun_prop
    have hc2 : Continuous fun q' : ℝ × ℝ => q'.2 := continuous_snd
    rcases lt_or_gt_of_ne hp with h | h
    · have h1 : ∀ᶠ q' in 𝓝 q, √((p.1 - q'.1) ^ 2 + p.2 ^ 2) < q'.2 := hc.continuousAt.eventually_lt hc2.continuousAt h
      have : ∀ᶠ q' : ℝ × ℝ in 𝓝 q, (bodyDisc q'.1 q'.2)ᶜ.indicator g p = (bodyDisc q.1 q.2)ᶜ.indicator g p := by
        filter_upwards [h1] with q' h2
        rw [indicator_of_notMem, indicator_of_notMem]
        · exact fun hn => hn h.le
        · exact fun hn => hn h2.le
      exact tendsto_const_nhds.congr' (this.mono fun _ h => h.symm)
    · have h1 : ∀ᶠ q' in 𝓝 q, q'.2 < √((p.1 - q'.1) ^ 2 + p.2 ^ 2) := hc2.continuousAt.eventually_lt hc.continuousAt h
      have : ∀ᶠ q' : ℝ × ℝ in 𝓝 q, (bodyDisc q'.1 q'.2)ᶜ.indicator g p = (bodyDisc q.1 q.2)ᶜ.indicator g p := by
        filter_upwards [h1] with q' h2
        rw [indicator_of_mem, indicator_of_mem]
        · exact fun hn => absurd hn (not_le.2 h)
        · exact fun hn => absurd hn (not_le.2 h2)
      exact tendsto_const_nhds.congr' (this.mono fun _ h => h.symm)

theorem continuous_quadLc (c : ℝ × ℝ × ℝ) : Continuous fun q : ℝ × ℝ => quadLimbdarkLightCurve c q.1 q.2 := by
  unfold quadLimbdarkLightCurve quadSolutionVector
  have h1 := continuous_uncovered (g := fun _ => (1 : ℝ)) continuous_const
  have h2 := continuous_uncovered continuous_muAt
  have h3 := continuous_uncovered (g := fun p => 4 * muAt p ^ 2 - 2) (by have := continuous_muAt; fun_prop)
  exact (((h1.mul continuous_const).add (h2.mul continuous_const)).add (h3.mul continuous_const)).sub continuous_const

end Exo
