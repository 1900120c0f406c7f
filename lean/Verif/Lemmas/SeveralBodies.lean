import Verif.Spec.SeveralBodies
import Verif.Lemmas.LimbDark
import Mathlib.Analysis.Complex.Isometry
import Mathlib.MeasureTheory.Measure.Lebesgue.Complex
import Mathlib.MeasureTheory.Measure.Haar.InnerProductSpace

namespace Exo
open Real MeasureTheory Set

/-- Rotation of the sky. -/
def turnPlane (c s : ℝ) (p : ℝ × ℝ) : ℝ × ℝ := (c * p.1 - s * p.2, s * p.1 + c * p.2)

theorem turn_measurePreserving {c s : ℝ} (h : c ^ 2 + s ^ 2 = 1) : MeasurePreserving (turnPlane c s) := by
  have hz : ‖(⟨c, s⟩ : ℂ)‖ = 1 := by
    rw [Complex.norm_def, Complex.normSq_mk, show c * c + s * s = 1 by linarith [h, sq c, sq s], Real.sqrt_one]
  let a : Circle := ⟨⟨c, s⟩, by simpa [Submonoid.unitSphere] using hz⟩
  have h1 : MeasurePreserving (rotation a) := (rotation a).measurePreserving
  have h2 := Complex.volume_preserving_equiv_real_prod
  have h3 := (h2.comp h1).comp (h2.symm _)
  have : (turnPlane c s) = (⇑Complex.measurableEquivRealProd ∘ ⇑(rotation a)) ∘ ⇑Complex.measurableEquivRealProd.symm := by
    funext p
    have hp : Complex.measurableEquivRealProd.symm p = ⟨p.1, p.2⟩ := by
      simp [Complex.measurableEquivRealProd_symm_apply]
    have ha : (a : ℂ) = ⟨c, s⟩ := rfl
    simp only [Function.comp_apply, rotation_apply, Complex.measurableEquivRealProd_apply, hp, ha, turnPlane, Complex.mul_re, Complex.mul_im]
    ext
    · simp
    · simp only
      ring
  rw [this]
  exact h3

theorem turn_measurableEmbedding {c s : ℝ} (h : c ^ 2 + s ^ 2 = 1) : MeasurableEmbedding (turnPlane c s) := by
  have hinv : ∀ {c s : ℝ}, c ^ 2 + s ^ 2 = 1 → ∀ p, turnPlane c (-s) (turnPlane c s p) = p := by
    intro c s h p
    ext
    · simp only [turnPlane]; linear_combination p.1 * h
    · simp only [turnPlane]; linear_combination p.2 * h
  have hm : ∀ c s : ℝ, Measurable (turnPlane c s) := fun c s => by unfold turnPlane; fun_prop
  let e : ℝ × ℝ ≃ᵐ ℝ × ℝ :=
    { toFun := turnPlane c s
      invFun := turnPlane c (-s)
      left_inv := hinv h
      right_inv := by
        intro p
        have := hinv (c := c) (s := -s) (by simpa using h) p
        rwa [neg_neg] at this
      measurable_toFun := hm c s
      measurable_invFun := hm c (-s) }
  exact e.measurableEmbedding

theorem measurableSet_shadow (R r : ℝ) (v : V3) : MeasurableSet (shadow R r v) := by
  unfold shadow
  apply MeasurableSet.inter (MeasurableSet.const _)
  exact measurableSet_le (f := fun p : ℝ × ℝ => (p.1 - v.x / R) ^ 2 + (p.2 - v.y / R) ^ 2) (g := fun _ => (r / R) ^ 2) (by fun_prop)
    (by fun_prop)

/-- The light covered does not depend on the direction in which the body is seen. -/
theorem fluxFrom_shadow {u1 u2 R r : ℝ} (hR : 0 < R) (hr : 0 ≤ r) (v : V3) (hz : 0 < v.z) :
    fluxFrom u1 u2 (starDisc ∩ bodyDisc (√(v.x ^ 2 + v.y ^ 2) / R) (r / R)) = fluxFrom u1 u2 (starDisc ∩ shadow R r v) := by
  set B := √(v.x ^ 2 + v.y ^ 2) with hB
  have hB2 : B ^ 2 = v.x ^ 2 + v.y ^ 2 := Real.sq_sqrt (by positivity)
  obtain ⟨c, s, hcs, hx, hy⟩ : ∃ c s : ℝ, c ^ 2 + s ^ 2 = 1 ∧ v.x = B * c ∧ v.y = B * s := by
    by_cases h0 : B = 0
    · have h1 : v.x ^ 2 + v.y ^ 2 = 0 := by rw [← hB2, h0]; ring
      have hx : v.x = 0 := by nlinarith [sq_nonneg v.x, sq_nonneg v.y]
      have hy : v.y = 0 := by nlinarith [sq_nonneg v.x, sq_nonneg v.y]
      exact ⟨1, 0, by norm_num, by simp [h0, hx], by simp [hy]⟩
    · refine ⟨v.x / B, v.y / B, ?_, by field_simp, by field_simp⟩
      rw [div_pow, div_pow, ← add_div, ← hB2, div_self (pow_ne_zero 2 h0)]
  have hn : ∀ p : ℝ × ℝ, (turnPlane c s p).1 ^ 2 + (turnPlane c s p).2 ^ 2 = p.1 ^ 2 + p.2 ^ 2 := by
    intro p
    simp only [turnPlane]
    linear_combination (p.1 ^ 2 + p.2 ^ 2) * hcs
  have hpre : turnPlane c s ⁻¹' (starDisc ∩ shadow R r v) = starDisc ∩ bodyDisc (B / R) (r / R) := by
    ext p
    rw [mem_preimage, mem_inter_iff, mem_inter_iff, mem_bodyDisc (by positivity)]
    have h1 : turnPlane c s p ∈ starDisc ↔ p ∈ starDisc := by
      show (turnPlane c s p).1 ^ 2 + (turnPlane c s p).2 ^ 2 ≤ 1 ↔ p.1 ^ 2 + p.2 ^ 2 ≤ 1
      rw [hn]
    have h2 : turnPlane c s p ∈ shadow R r v ↔ (p.1 - B / R) ^ 2 + p.2 ^ 2 ≤ (r / R) ^ 2 := by
      have h3 : ((turnPlane c s p).1 - v.x / R) ^ 2 + ((turnPlane c s p).2 - v.y / R) ^ 2 = (p.1 - B / R) ^ 2 + p.2 ^ 2 := by
        rw [hx, hy, mul_div_right_comm, mul_div_right_comm]
        simp only [turnPlane]
        linear_combination ((p.1 - B / R) ^ 2 + p.2 ^ 2) * hcs
      show _ ∧ _ ↔ _
      rw [h3]
      exact and_iff_right hz
    rw [h1, h2]
  unfold fluxFrom
  rw [← (turn_measurePreserving hcs).setIntegral_preimage_emb (turn_measurableEmbedding hcs) _ (starDisc ∩ shadow R r v), hpre]
  congr 1
  funext p
  have : muAt (turnPlane c s p) = muAt p := by
    unfold muAt
    rw [sub_sub, hn, ← sub_sub]
  rw [this]

/-- The flux of the code: the light of the part of the star that the body covers. -/
theorem fluxAt_eq {u1 u2 R r : ℝ} (hF : fluxFrom u1 u2 starDisc ≠ 0) (hR : 0 < R) (hr : 0 ≤ r) (v : V3) :
    fluxAt (getCl u1 u2) R r v = -(fluxFrom u1 u2 (starDisc ∩ shadow R r v) / fluxFrom u1 u2 starDisc) := by
  unfold fluxAt computeLightCurve
  simp only [Option.getD_some]
  by_cases hz : 0 < v.z
  · rw [if_pos (by positivity), quadLc_covered u1 u2 _ _ hF, fluxFrom_shadow hR hr v hz]
  · rw [if_neg (by rw [gt_iff_lt, div_pos_iff_of_pos_right hR]; exact hz)]
    have : shadow R r v = ∅ := by
      ext p
      simp [shadow, hz]
    rw [this, inter_empty]
    simp [fluxFrom]

section
variable {n : ℕ} (S : Fin n → Set (ℝ × ℝ)) (g : ℝ × ℝ → ℝ)

/-- How often a point is counted too much. -/
noncomputable def excess (p : ℝ × ℝ) : ℝ := ∑ i, (S i).indicator (fun _ => (1 : ℝ)) p - (⋃ i, S i).indicator (fun _ => (1 : ℝ)) p

theorem excess_nonneg (p : ℝ × ℝ) : 0 ≤ excess S p := by
  unfold excess
  by_cases h : p ∈ ⋃ i, S i
  · rw [indicator_of_mem h]
    obtain ⟨i, hi⟩ := mem_iUnion.1 h
    have : (S i).indicator (fun _ => (1 : ℝ)) p ≤ ∑ i, (S i).indicator (fun _ => (1 : ℝ)) p :=
      Finset.single_le_sum (f := fun i => (S i).indicator (fun _ => (1 : ℝ)) p) (fun j _ => indicator_nonneg (fun _ _ => zero_le_one) _)
        (Finset.mem_univ i)
    rw [indicator_of_mem hi] at this
    linarith
  · rw [indicator_of_notMem h, sub_zero]
    exact Finset.sum_nonneg fun j _ => indicator_nonneg (fun _ _ => zero_le_one) _

theorem excess_eq_zero_iff (p : ℝ × ℝ) : excess S p = 0 ↔ ∀ i j, i ≠ j → p ∉ S i ∩ S j := by
  constructor
  · intro h i j hij hp
    have h1 : ∑ k ∈ ({i, j} : Finset (Fin n)), (S k).indicator (fun _ => (1 : ℝ)) p ≤ ∑ k, (S k).indicator (fun _ => (1 : ℝ)) p :=
      Finset.sum_le_sum_of_subset_of_nonneg (Finset.subset_univ _) fun k _ _ => indicator_nonneg (fun _ _ => zero_le_one) _
    rw [Finset.sum_pair hij, indicator_of_mem hp.1, indicator_of_mem hp.2] at h1
    unfold excess at h
    rw [indicator_of_mem (mem_iUnion.2 ⟨i, hp.1⟩)] at h
    linarith
  · intro h
    unfold excess
    by_cases hu : p ∈ ⋃ i, S i
    · obtain ⟨i, hi⟩ := mem_iUnion.1 hu
      rw [indicator_of_mem hu, Finset.sum_eq_single i, indicator_of_mem hi, sub_self]
      · intro j _ hj
        exact indicator_of_notMem (fun hpj => h i j hj.symm ⟨hi, hpj⟩) _
      · intro hn
        exact absurd (Finset.mem_univ i) hn
    · rw [indicator_of_notMem hu, sub_zero]
      apply Finset.sum_eq_zero
      intro j _
      exact indicator_of_notMem (fun hj => hu (mem_iUnion.2 ⟨j, hj⟩)) _

theorem integral_excess {D : Set (ℝ × ℝ)} (hS : ∀ i, MeasurableSet (S i)) (hg : IntegrableOn g D) :
    (∑ i, ∫ p in D ∩ S i, g p) - (∫ p in D ∩ ⋃ i, S i, g p) = ∫ p in D, excess S p * g p := by
  have hU : MeasurableSet (⋃ i, S i) := MeasurableSet.iUnion hS
  simp_rw [← setIntegral_indicator (hS _)]
  rw [← setIntegral_indicator hU, ← integral_finsetSum _ fun i _ => hg.indicator (hS i),
    ← integral_sub (integrable_finsetSum _ fun i _ => hg.indicator (hS i)) (hg.indicator hU)]
  congr 1
  funext p
  unfold excess
  rw [sub_mul, Finset.sum_mul]
  congr 1
  · apply Finset.sum_congr rfl
    intro i _
    by_cases h : p ∈ S i <;> simp [h]
  · by_cases h : p ∈ ⋃ i, S i <;> simp [h]

theorem integrable_excess {D : Set (ℝ × ℝ)} (hS : ∀ i, MeasurableSet (S i)) (hg : IntegrableOn g D) :
    IntegrableOn (fun p => excess S p * g p) D := by
  have hU : MeasurableSet (⋃ i, S i) := MeasurableSet.iUnion hS
  have h := (integrable_finsetSum Finset.univ fun i _ => hg.indicator (hS i)).sub (hg.indicator hU)
  refine h.congr (Filter.Eventually.of_forall fun p => ?_)
  simp only [excess, Pi.sub_apply]
  rw [sub_mul, Finset.sum_mul]
  congr 1
  · apply Finset.sum_congr rfl
    intro i _
    by_cases h : p ∈ S i <;> simp [h]
  · by_cases h : p ∈ ⋃ i, S i <;> simp [h]

end

end Exo
