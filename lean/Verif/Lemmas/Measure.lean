import Mathlib.Analysis.SpecialFunctions.PolarCoord
import Mathlib.Analysis.SpecialFunctions.Sqrt
import Mathlib.MeasureTheory.Measure.WithDensity
import Mathlib.Tactic.Linarith
import Mathlib.Tactic.FieldSimp
import Mathlib.Tactic.Positivity

/-!
# Change of variables for the priors
-/

namespace Exo
open MeasureTheory Set
open scoped ENNReal

/-- A law whose density is the Jacobian of an injective map is carried by that map to a uniform law on the image. -/
theorem map_uniform_of_jacobian {S : Set (ℝ × ℝ)} (hS : MeasurableSet S) {f : ℝ × ℝ → ℝ × ℝ} (hf : Measurable f)
    {f' : ℝ × ℝ → ℝ × ℝ →L[ℝ] ℝ × ℝ} (hd : ∀ x ∈ S, HasFDerivWithinAt f (f' x) S x) (hi : InjOn f S) (c : ℝ≥0∞)
    {dens : ℝ × ℝ → ℝ≥0∞} (hdens : dens =ᵐ[volume] S.indicator (fun p => c * ENNReal.ofReal |(f' p).det|))
    (hm : Measurable fun p => ENNReal.ofReal |(f' p).det|) :
    Measure.map f (volume.withDensity dens) = c • (volume : Measure (ℝ × ℝ)).restrict (f '' S) := by
  rw [withDensity_congr_ae hdens]
  ext s hs
  rw [Measure.map_apply hf hs, withDensity_apply _ (hf hs), Measure.smul_apply, Measure.restrict_apply hs, smul_eq_mul,
    ← lintegral_indicator (hf hs)]
  have h1 : ∀ p, (f ⁻¹' s).indicator (fun p => S.indicator (fun p => c * ENNReal.ofReal |(f' p).det|) p) p =
      S.indicator (fun p => c * (ENNReal.ofReal |(f' p).det| * s.indicator (fun _ => 1) (f p))) p := by
    intro p
    by_cases hp : p ∈ S <;> by_cases hq : f p ∈ s
    · simp [hp, hq, indicator]
    · simp [hp, hq, indicator]
    · simp [hp, indicator]
    · simp [hp, indicator]
  simp_rw [h1]
  have hmm : Measurable fun p => ENNReal.ofReal |(f' p).det| * s.indicator (fun _ => (1 : ℝ≥0∞)) (f p) :=
    hm.mul ((measurable_one.indicator hs).comp hf)
  rw [lintegral_indicator hS, lintegral_const_mul _ hmm,
    ← lintegral_image_eq_lintegral_abs_det_fderiv_mul volume hS hd hi, lintegral_indicator hs, setLIntegral_one,
    Measure.restrict_apply hs]

/-- The linear map of a 2×2 matrix. -/
noncomputable def mat2 (a b c d : ℝ) : ℝ × ℝ →L[ℝ] ℝ × ℝ :=
  (Matrix.toLin (.finTwoProd ℝ) (.finTwoProd ℝ) !![a, b; c, d]).toContinuousLinearMap

theorem det_mat2 (a b c d : ℝ) : (mat2 a b c d).det = a * d - b * c := by
  unfold mat2
  simp only [LinearMap.det_toContinuousLinearMap, LinearMap.det_toLin, Matrix.det_fin_two_of]

theorem mat2_eq (a b c d : ℝ) : mat2 a b c d =
    (a • ContinuousLinearMap.fst ℝ ℝ ℝ + b • ContinuousLinearMap.snd ℝ ℝ ℝ).prod
      (c • ContinuousLinearMap.fst ℝ ℝ ℝ + d • ContinuousLinearMap.snd ℝ ℝ ℝ) := by
  unfold mat2
  rw [Matrix.toLin_finTwoProd_toContinuousLinearMap]

/-- Open and closed squares differ by a null set. -/
theorem square_ae (a b : ℝ) : (Icc a b ×ˢ Icc a b : Set (ℝ × ℝ)) =ᵐ[volume] (Ioo a b ×ˢ Ioo a b : Set (ℝ × ℝ)) := by
  rw [Measure.volume_eq_prod]
  exact Measure.set_prod_ae_eq Ioo_ae_eq_Icc.symm Ioo_ae_eq_Icc.symm

/-! ## The disc -/

/-- `(x, y √(1 - x²))`. -/
noncomputable def discMap (p : ℝ × ℝ) : ℝ × ℝ := (p.1, p.2 * Real.sqrt (1 - p.1 ^ 2))

theorem measurable_discMap : Measurable discMap := by unfold discMap; fun_prop

theorem discMap_deriv {p : ℝ × ℝ} (hp : p ∈ (Ioo (-1) 1 ×ˢ Ioo (-1) 1 : Set (ℝ × ℝ))) :
    HasFDerivAt discMap (mat2 1 0 (p.2 * (-p.1 / Real.sqrt (1 - p.1 ^ 2))) (Real.sqrt (1 - p.1 ^ 2))) p := by
  have h1 : 0 < 1 - p.1 ^ 2 := by nlinarith [hp.1.1, hp.1.2]
  have hn : HasDerivAt (fun x : ℝ => Real.sqrt (1 - x ^ 2)) (-p.1 / Real.sqrt (1 - p.1 ^ 2)) p.1 := by
    have h2 : HasDerivAt (fun x : ℝ => 1 - x ^ 2) (-(2 * p.1)) p.1 := by
      have := (hasDerivAt_pow 2 p.1).const_sub 1
      convert! this using 1
      ring
    have := h2.sqrt h1.ne'
    convert! this using 1
    field_simp
  rw [mat2_eq]
  have := HasFDerivAt.prodMk (𝕜 := ℝ) (hasFDerivAt_fst (p := p)) ((hasFDerivAt_snd (p := p)).mul
    (hn.comp_hasFDerivAt p hasFDerivAt_fst))
  convert! this using 2
  · simp
  · simp [smul_smul]

theorem discMap_inj : InjOn discMap (Ioo (-1) 1 ×ˢ Ioo (-1) 1) := by
  intro p hp q hq h
  unfold discMap at h
  rw [Prod.mk.injEq] at h
  have h1 : 0 < 1 - p.1 ^ 2 := by nlinarith [hp.1.1, hp.1.2]
  have := Real.sqrt_pos.2 h1
  have h2 := h.2
  rw [← h.1] at h2
  exact Prod.ext h.1 (mul_right_cancel₀ this.ne' h2)

theorem discMap_image : discMap '' (Ioo (-1) 1 ×ˢ Ioo (-1) 1) = {q : ℝ × ℝ | q.1 ^ 2 + q.2 ^ 2 < 1} := by
  ext q
  constructor
  · rintro ⟨p, hp, rfl⟩
    have h1 : 0 < 1 - p.1 ^ 2 := by nlinarith [hp.1.1, hp.1.2]
    have h2 : p.2 ^ 2 < 1 := by nlinarith [hp.2.1, hp.2.2]
    change p.1 ^ 2 + (p.2 * Real.sqrt (1 - p.1 ^ 2)) ^ 2 < 1
    rw [mul_pow, Real.sq_sqrt h1.le]
    nlinarith
  · intro hq
    change q.1 ^ 2 + q.2 ^ 2 < 1 at hq
    have h1 : 0 < 1 - q.1 ^ 2 := by nlinarith [sq_nonneg q.2]
    have hs := Real.sqrt_pos.2 h1
    have hss := Real.sq_sqrt h1.le
    have h2 : |q.2| < Real.sqrt (1 - q.1 ^ 2) := by
      rw [← Real.sqrt_sq_eq_abs]; exact Real.sqrt_lt_sqrt (sq_nonneg _) (by linarith)
    refine ⟨(q.1, q.2 / Real.sqrt (1 - q.1 ^ 2)), ⟨abs_lt.1 (by rw [← sq_lt_one_iff_abs_lt_one]; linarith), ?_⟩, ?_⟩
    · rw [mem_Ioo, ← abs_lt, abs_div, abs_of_pos hs, div_lt_one hs]
      exact h2
    · unfold discMap
      simp only
      rw [div_mul_cancel₀ _ hs.ne']

theorem disc_uniform {dens : ℝ × ℝ → ℝ≥0∞} (c : ℝ≥0∞)
    (hdens : ∀ p, dens p = (Icc (-1) 1 ×ˢ Icc (-1) 1 : Set (ℝ × ℝ)).indicator
      (fun p => c * ENNReal.ofReal (Real.sqrt (1 - p.1 ^ 2))) p) :
    Measure.map discMap (volume.withDensity dens) =
      c • (volume : Measure (ℝ × ℝ)).restrict {q : ℝ × ℝ | q.1 ^ 2 + q.2 ^ 2 < 1} := by
  rw [← discMap_image]
  have hdet : ∀ p : ℝ × ℝ, |(mat2 1 0 (p.2 * (-p.1 / Real.sqrt (1 - p.1 ^ 2))) (Real.sqrt (1 - p.1 ^ 2))).det| =
      Real.sqrt (1 - p.1 ^ 2) := fun p => by
    rw [det_mat2, one_mul, zero_mul, sub_zero, abs_of_nonneg (Real.sqrt_nonneg _)]
  refine map_uniform_of_jacobian (measurableSet_Ioo.prod measurableSet_Ioo) measurable_discMap
    (fun p hp => (discMap_deriv hp).hasFDerivWithinAt) discMap_inj c ?_ ?_
  · simp_rw [hdet]
    rw [show dens = _ from funext hdens]
    exact indicator_ae_eq_of_ae_eq_set (square_ae (-1) 1)
  · simp_rw [hdet]
    fun_prop

/-! ## The limb-darkening triangle -/

/-- `(√q₁ 2q₂, √q₁ (1 - 2q₂))`. -/
noncomputable def triMap (q : ℝ × ℝ) : ℝ × ℝ := (Real.sqrt q.1 * (2 * q.2), Real.sqrt q.1 * (1 - 2 * q.2))

theorem measurable_triMap : Measurable triMap := by unfold triMap; fun_prop

theorem triMap_deriv {q : ℝ × ℝ} (hq : q ∈ (Ioo 0 1 ×ˢ Ioo 0 1 : Set (ℝ × ℝ))) :
    HasFDerivAt triMap (mat2 (1 / (2 * Real.sqrt q.1) * (2 * q.2)) (2 * Real.sqrt q.1)
      (1 / (2 * Real.sqrt q.1) * (1 - 2 * q.2)) (-(2 * Real.sqrt q.1))) q := by
  have hs : HasDerivAt (fun x : ℝ => Real.sqrt x) (1 / (2 * Real.sqrt q.1)) q.1 := Real.hasDerivAt_sqrt hq.1.1.ne'
  have h2 : HasFDerivAt (fun q : ℝ × ℝ => 2 * q.2) ((2 : ℝ) • ContinuousLinearMap.snd ℝ ℝ ℝ) q :=
    (hasFDerivAt_snd (p := q)).const_mul 2
  rw [mat2_eq]
  have := HasFDerivAt.prodMk (𝕜 := ℝ) ((hs.comp_hasFDerivAt q hasFDerivAt_fst).mul h2)
    ((hs.comp_hasFDerivAt q hasFDerivAt_fst).mul (h2.const_sub 1))
  convert! this using 2
  · simp [smul_smul, add_comm, mul_comm]
  · simp [smul_smul, add_comm, mul_comm]
    exact neg_smul (2 * Real.sqrt q.1) (ContinuousLinearMap.snd ℝ ℝ ℝ)

theorem triMap_inj : InjOn triMap (Ioo 0 1 ×ˢ Ioo 0 1) := by
  intro p hp q hq h
  unfold triMap at h
  rw [Prod.mk.injEq] at h
  have hsum : Real.sqrt p.1 = Real.sqrt q.1 := by linarith [h.1, h.2]
  have h1 : p.1 = q.1 := (Real.sqrt_inj hp.1.1.le hq.1.1.le).1 hsum
  have hpos := Real.sqrt_pos.2 hp.1.1
  have h2 := h.1
  rw [← hsum] at h2
  have := mul_left_cancel₀ hpos.ne' h2
  exact Prod.ext h1 (by linarith)

theorem triMap_image : triMap '' (Ioo 0 1 ×ˢ Ioo 0 1) =
    {u : ℝ × ℝ | u.1 + u.2 < 1 ∧ 0 < u.1 ∧ 0 < u.1 + 2 * u.2} := by
  ext u
  constructor
  · rintro ⟨q, hq, rfl⟩
    have hpos := Real.sqrt_pos.2 hq.1.1
    have hlt : Real.sqrt q.1 < 1 := by
      rw [show (1 : ℝ) = Real.sqrt 1 by simp]; exact Real.sqrt_lt_sqrt hq.1.1.le hq.1.2
    have h1 := hq.2.1
    have h2 := hq.2.2
    refine ⟨?_, ?_, ?_⟩
    · change Real.sqrt q.1 * (2 * q.2) + Real.sqrt q.1 * (1 - 2 * q.2) < 1
      linarith
    · change 0 < Real.sqrt q.1 * (2 * q.2)
      positivity
    · change 0 < Real.sqrt q.1 * (2 * q.2) + 2 * (Real.sqrt q.1 * (1 - 2 * q.2))
      have : 0 < Real.sqrt q.1 * (1 - q.2) := mul_pos hpos (by linarith)
      nlinarith
  · rintro ⟨h1, h2, h3⟩
    have hs : 0 < u.1 + u.2 := by linarith
    have e : Real.sqrt ((u.1 + u.2) ^ 2) = u.1 + u.2 := Real.sqrt_sq hs.le
    refine ⟨((u.1 + u.2) ^ 2, u.1 / (2 * (u.1 + u.2))), ⟨⟨by positivity, by nlinarith⟩, ⟨by positivity, ?_⟩⟩, ?_⟩
    · change u.1 / (2 * (u.1 + u.2)) < 1
      rw [div_lt_one (by positivity)]
      linarith
    · unfold triMap
      simp only [e]
      refine Prod.ext ?_ ?_
      · simp only
        field_simp
      · simp only
        field_simp
        ring

theorem tri_uniform {dens : ℝ × ℝ → ℝ≥0∞} (c : ℝ≥0∞)
    (hdens : ∀ p, dens p = (Icc 0 1 ×ˢ Icc 0 1 : Set (ℝ × ℝ)).indicator (fun _ => c) p) :
    Measure.map triMap (volume.withDensity dens) =
      c • (volume : Measure (ℝ × ℝ)).restrict {u : ℝ × ℝ | u.1 + u.2 < 1 ∧ 0 < u.1 ∧ 0 < u.1 + 2 * u.2} := by
  rw [← triMap_image]
  have hdet : ∀ q ∈ (Ioo 0 1 ×ˢ Ioo 0 1 : Set (ℝ × ℝ)), |(mat2 (1 / (2 * Real.sqrt q.1) * (2 * q.2)) (2 * Real.sqrt q.1)
      (1 / (2 * Real.sqrt q.1) * (1 - 2 * q.2)) (-(2 * Real.sqrt q.1))).det| = 1 := fun q hq => by
    have hpos := Real.sqrt_pos.2 hq.1.1
    rw [det_mat2]
    have : 1 / (2 * Real.sqrt q.1) * (2 * q.2) * -(2 * Real.sqrt q.1) -
      2 * Real.sqrt q.1 * (1 / (2 * Real.sqrt q.1) * (1 - 2 * q.2)) = -1 := by
      field_simp
      ring
    rw [this]; simp
  refine map_uniform_of_jacobian (measurableSet_Ioo.prod measurableSet_Ioo) measurable_triMap
    (fun p hp => (triMap_deriv hp).hasFDerivWithinAt) triMap_inj c ?_ ?_
  · rw [show dens = _ from funext hdens]
    refine (indicator_ae_eq_of_ae_eq_set (square_ae 0 1)).trans (Filter.Eventually.of_forall fun q => ?_)
    by_cases hq : q ∈ (Ioo 0 1 ×ˢ Ioo 0 1 : Set (ℝ × ℝ))
    · rw [indicator_of_mem hq, indicator_of_mem hq, hdet q hq]; simp
    · rw [indicator_of_notMem hq, indicator_of_notMem hq]
  · simp_rw [det_mat2]
    fun_prop

/-! ## The angle -/

theorem arg_symm {p : ℝ × ℝ} (hp : p ∈ polarCoord.target) :
    Complex.arg ⟨(polarCoord.symm p).1, (polarCoord.symm p).2⟩ = p.2 := by
  have := polarCoord.right_inv hp
  have h2 := congrArg Prod.snd this
  exact h2

/-- A rotation-invariant law on the plane gives a uniform angle: `c` is the radial mass. -/
theorem angle_uniform (g : ℝ → ℝ≥0∞) (hg : Measurable g) :
    Measure.map (fun p : ℝ × ℝ => Complex.arg ⟨p.1, p.2⟩) (volume.withDensity (fun p => g (p.1 ^ 2 + p.2 ^ 2))) =
      (∫⁻ r in Ioi (0 : ℝ), ENNReal.ofReal r * g (r ^ 2)) • (volume : Measure ℝ).restrict (Ioo (-Real.pi) Real.pi) := by
  have hmeas : Measurable (fun p : ℝ × ℝ => Complex.arg ⟨p.1, p.2⟩) :=
    Complex.measurable_arg.comp Complex.measurableEquivRealProd.symm.measurable
  ext s hs
  rw [Measure.map_apply hmeas hs, withDensity_apply _ (hmeas hs), Measure.smul_apply, Measure.restrict_apply hs, smul_eq_mul,
    ← lintegral_indicator (hmeas hs), ← lintegral_comp_polarCoord_symm]
  have e : ∀ p ∈ polarCoord.target, ENNReal.ofReal p.1 •
      ((fun p : ℝ × ℝ => Complex.arg ⟨p.1, p.2⟩) ⁻¹' s).indicator (fun p => g (p.1 ^ 2 + p.2 ^ 2)) (polarCoord.symm p) =
      (ENNReal.ofReal p.1 * g (p.1 ^ 2)) * s.indicator (fun _ => 1) p.2 := by
    intro p hp
    have ha := arg_symm hp
    have hr : (polarCoord.symm p).1 ^ 2 + (polarCoord.symm p).2 ^ 2 = p.1 ^ 2 := by
      rw [polarCoord_symm_apply]
      simp only
      nlinarith [Real.sin_sq_add_cos_sq p.2]
    by_cases h : p.2 ∈ s
    · rw [indicator_of_mem (by rw [mem_preimage, ha]; exact h), indicator_of_mem h, hr, mul_one, smul_eq_mul]
    · rw [indicator_of_notMem (by rw [mem_preimage, ha]; exact h), indicator_of_notMem h, smul_zero, mul_zero]
  rw [setLIntegral_congr_fun polarCoord.open_target.measurableSet e, polarCoord_target, Measure.volume_eq_prod,
    ← Measure.prod_restrict]
  rw [lintegral_prod_mul (f := fun r : ℝ => ENNReal.ofReal r * g (r ^ 2)) (g := fun t => s.indicator (fun _ => 1) t)
    (by fun_prop) (measurable_one.indicator hs).aemeasurable]
  congr 1
  rw [lintegral_indicator hs, setLIntegral_one, Measure.restrict_apply hs]

end Exo
