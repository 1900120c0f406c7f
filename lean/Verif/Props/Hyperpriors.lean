import Verif.Spec.Hyperpriors
import Verif.Props.EccentricityVector
import Mathlib.Probability.Distributions.Gaussian.Real

/-!
# C99: the hyperparameters of the eccentricity priors keep their priors
-/

namespace Exo
open Kwargs MeasureTheory Set
open scoped ENNReal

open Classical in
theorem hyper_factor (b : Backend) (name s : String) (hi : Option ℝ) (mu sd : ℝ) (σ : State) :
    (hyper b name s hi mu sd).factor σ = hyperPdf b mu sd hi (σ (subName b name s)) := by
  have hset : {y : ℝ | InBounds (some 0) hi y} = {y | 0 ≤ y ∧ ∀ u, hi = some u → y ≤ u} := by
    ext y; simp [InBounds]
  have hin : ∀ y, InBounds (some 0) hi y ↔ 0 ≤ y ∧ ∀ u, hi = some u → y ≤ u := by intro y; simp [InBounds]
  unfold hyperPdf
  cases b
  · show (if InBounds (some 0) hi (σ (subName .pymc3 name s)) then ENNReal.ofReal (normalPdf mu sd (σ (subName .pymc3 name s))) else 0) = _
    rw [if_neg (show ¬ Backend.pymc3 = Backend.pymc by decide), div_one]
    simp only [hin]
  · show (if InBounds (some 0) hi (σ (subName .pymc name s)) then ENNReal.ofReal (normalPdf mu sd (σ (subName .pymc name s))) /
      ∫⁻ y in {y | InBounds (some 0) hi y}, ENNReal.ofReal (normalPdf mu sd y) else 0) = _
    rw [if_pos rfl, hset]
    simp only [hin]

/-- The joint density of `kipping13` with the eccentricity in view. -/
theorem kipping13_density {b : Backend} {name : String} {long : Option Bool} {lower upper : Option ℝ} {K : Kwargs}
    (hK : K.mem "observed" = false) {rs : List Reg} (h : kipping13 b name false long lower upper K = .ok rs) (σ : State) (x : ℝ) :
    jointDensity rs (Function.update σ name x) =
      kippingHyperPdf b long (σ (subName b name "alpha")) (σ (subName b name "beta")) *
      (if lower = none ∧ upper = none then ENNReal.ofReal (betaPdf (σ (subName b name "alpha")) (σ (subName b name "beta")) x)
        else if lower.getD 0 ≤ x ∧ x ≤ upper.getD 1 then
          ENNReal.ofReal (betaPdf (σ (subName b name "alpha")) (σ (subName b name "beta")) x) /
            (if b = .pymc then ∫⁻ y in Icc (lower.getD 0) (upper.getD 1),
              ENNReal.ofReal (betaPdf (σ (subName b name "alpha")) (σ (subName b name "beta")) y) else 1)
        else 0) := by
  obtain ⟨d, kw, hl, hd⟩ := C52_density b name false long lower upper hK h
  obtain ⟨r, -, rfl⟩ := kipping13_ok b name false long lower upper h
  have hr : r = .free name d kw := by
    rw [List.getLast?_append] at hl
    simpa using hl
  subst hr
  have e2 : kippingShape b name false long (Function.update σ name x) = (σ (subName b name "alpha"), σ (subName b name "beta")) := by
    unfold kippingShape
    rw [Function.update_of_ne (subName_ne b name "alpha"), Function.update_of_ne (subName_ne b name "beta")]
    simp
  have e3 : jointDensity (kippingHyper b name false long).1 (Function.update σ name x) =
      kippingHyperPdf b long (σ (subName b name "alpha")) (σ (subName b name "beta")) := by
    have eh : (kippingHyper b name false long).1 = [hyper b name "alpha" none (kippingParams long).1 (kippingParams long).2.1,
      hyper b name "beta" none (kippingParams long).2.2.1 (kippingParams long).2.2.2] := rfl
    rw [eh, jointDensity_cons, jointDensity_cons, jointDensity_nil, mul_one, hyper_factor, hyper_factor,
      Function.update_of_ne (subName_ne b name "alpha"), Function.update_of_ne (subName_ne b name "beta")]
    unfold kippingHyperPdf kippingParams
    cases long with
    | none => simp
    | some l => cases l <;> simp
  rw [jointDensity_append, e3, jointDensity_cons, jointDensity_nil, mul_one]
  congr 1
  show d.density _ _ = _
  rw [hd, e2, Function.update_self]

theorem measurable_betaPdf (a c : ℝ) : Measurable fun x => ENNReal.ofReal (betaPdf a c x) := by
  simp_rw [betaPdf_eq]
  exact (ProbabilityTheory.measurable_betaPDFReal a c).ennreal_ofReal

theorem beta_interval {a c lo hi : ℝ} (ha : 0 < a) (hc : 0 < c) (h1 : lo < hi) (h2 : lo < 1) (h3 : 0 < hi) :
    ∫⁻ y in Icc lo hi, ENNReal.ofReal (betaPdf a c y) ≠ 0 ∧ ∫⁻ y in Icc lo hi, ENNReal.ofReal (betaPdf a c y) ≠ ⊤ := by
  constructor
  · rw [← pos_iff_ne_zero, setLIntegral_pos_iff (measurable_betaPdf a c)]
    have hsub : Ioo (max lo 0) (min hi 1) ⊆ Function.support (fun y => ENNReal.ofReal (betaPdf a c y)) ∩ Icc lo hi := by
      rintro y ⟨h4, h5⟩
      rw [max_lt_iff] at h4
      rw [lt_min_iff] at h5
      exact ⟨(betaPdf_ne_zero ha hc y).2 ⟨h4.2, h5.2⟩, h4.1.le, h5.1.le⟩
    refine lt_of_lt_of_le ?_ (measure_mono hsub)
    rw [Real.volume_Ioo, ENNReal.ofReal_pos, sub_pos, max_lt_iff, lt_min_iff, lt_min_iff]
    exact ⟨⟨h1, h2⟩, h3, one_pos⟩
  · refine ne_top_of_le_ne_top ENNReal.one_ne_top ?_
    rw [← betaPdf_mass ha hc]
    exact setLIntegral_le_lintegral _ _

/-- **C99** (`kipping13`, what holds): on PyMC, and on PyMC3 without limits, the hyperparameters have their documented priors once the
eccentricity is integrated out. Missing: PyMC3 with limits (`C99_kipping13_pymc3_counterexample`). -/
theorem C99_kipping13_partial (b : Backend) (name : String) (long : Option Bool) (lower upper : Option ℝ)
    (hb : b = .pymc ∨ lower = none ∧ upper = none) (h1 : lower.getD 0 < upper.getD 1) (h2 : lower.getD 0 < 1) (h3 : 0 < upper.getD 1)
    {K : Kwargs} (hK : K.mem "observed" = false) {rs : List Reg} (h : kipping13 b name false long lower upper K = .ok rs) (σ : State)
    (ha : 0 < σ (subName b name "alpha")) (hc : 0 < σ (subName b name "beta")) :
    marginal rs name σ = kippingHyperPdf b long (σ (subName b name "alpha")) (σ (subName b name "beta")) := by
  unfold marginal
  simp only [kipping13_density hK h]
  obtain ⟨hz, ht⟩ := beta_interval ha hc h1 h2 h3
  have hm := measurable_betaPdf (σ (subName b name "alpha")) (σ (subName b name "beta"))
  by_cases hl : lower = none ∧ upper = none
  · simp only [if_pos hl]
    rw [lintegral_const_mul _ hm, betaPdf_mass ha hc, mul_one]
  · have hbp : b = .pymc := hb.resolve_right hl
    simp only [if_neg hl, if_pos hbp]
    have e : ∀ x, (if lower.getD 0 ≤ x ∧ x ≤ upper.getD 1 then
          ENNReal.ofReal (betaPdf (σ (subName b name "alpha")) (σ (subName b name "beta")) x) /
            (∫⁻ y in Icc (lower.getD 0) (upper.getD 1),
              ENNReal.ofReal (betaPdf (σ (subName b name "alpha")) (σ (subName b name "beta")) y))
        else 0) = (Icc (lower.getD 0) (upper.getD 1)).indicator (fun x =>
          ENNReal.ofReal (betaPdf (σ (subName b name "alpha")) (σ (subName b name "beta")) x) *
          (∫⁻ y in Icc (lower.getD 0) (upper.getD 1),
              ENNReal.ofReal (betaPdf (σ (subName b name "alpha")) (σ (subName b name "beta")) y))⁻¹) x := by
      intro x
      by_cases hx : lower.getD 0 ≤ x ∧ x ≤ upper.getD 1
      · rw [if_pos hx, indicator_of_mem (mem_Icc.2 hx), div_eq_mul_inv]
      · rw [if_neg hx, indicator_of_notMem (fun hm' : x ∈ Icc (lower.getD 0) (upper.getD 1) => hx (mem_Icc.1 hm'))]
    simp only [e]
    rw [lintegral_const_mul _ ((hm.mul_const _).indicator measurableSet_Icc), lintegral_indicator measurableSet_Icc,
      lintegral_mul_const _ hm, ENNReal.mul_inv_cancel hz ht, mul_one]

/-- The joint density of `vaneylen19` with the eccentricity in view. -/
theorem vaneylen19_density {b : Backend} {name : String} {multi : Bool} {lower upper : Option ℝ} {K : Kwargs}
    (hK : K.mem "observed" = false) {rs : List Reg} (h : vaneylen19 b name false multi lower upper K = .ok rs) (σ : State)
    (hg : 0 < σ (subName b name "sigma_gauss")) (hr : 0 < σ (subName b name "sigma_rayleigh"))
    (h0 : 0 ≤ σ (subName b name "frac")) (h1 : σ (subName b name "frac") ≤ 1) (x : ℝ) :
    jointDensity rs (Function.update σ name x) =
      vaneylenHyperPdf b multi (σ (subName b name "sigma_gauss")) (σ (subName b name "sigma_rayleigh")) (σ (subName b name "frac")) *
      (ENNReal.ofReal (uniformPdf (lower.getD 0) (upper.getD 1) x) *
        ENNReal.ofReal (mixtureDensity (σ (subName b name "frac")) (σ (subName b name "sigma_gauss"))
          (σ (subName b name "sigma_rayleigh")) x)) := by
  have u1 := Function.update_of_ne (subName_ne b name "sigma_gauss") x σ
  have u2 := Function.update_of_ne (subName_ne b name "sigma_rayleigh") x σ
  have u3 := Function.update_of_ne (subName_ne b name "frac") x σ
  obtain ⟨r, hs, p, e, -, -, -, hf⟩ := C53_mixture_partial b name false multi lower upper h (fun σ => σ name) (.inr ⟨hK, rfl⟩)
  obtain ⟨hf1, hf2⟩ := hf (Function.update σ name x)
  have hf2' := hf2 fun _ => by rw [u1, u2, u3]; exact ⟨hg, hr, h0, h1⟩
  obtain ⟨r', -, e'⟩ := vaneylen19_eq h
  have ehs : hs = (vaneylenHyper b name false multi).1 := by
    rw [e'] at e
    have e2 := List.append_inj_left' e rfl
    simp only [List.cons_append, List.nil_append, List.cons.injEq] at e2
    exact e2.2.symm
  have eh : (vaneylenHyper b name false multi).1 = [hyper b name "sigma_gauss" none 0.049 0.02,
      hyper b name "sigma_rayleigh" none 0.26 0.05,
      hyper b name "frac" (some 1) (vaneylenFrac multi).1 (vaneylenFrac multi).2] := rfl
  have eu : ∀ y, (if multi then hyperPdf b 0.08 0.08 (some 1) y else hyperPdf b 0.76 0.2 (some 1) y) =
      hyperPdf b (vaneylenFrac multi).1 (vaneylenFrac multi).2 (some 1) y := by
    intro y; unfold vaneylenFrac; cases multi <;> simp
  rw [e, ehs, eh]
  simp only [List.cons_append, List.nil_append, jointDensity_cons, jointDensity_nil, mul_one, hyper_factor, hf1, hf2', u1, u2, u3,
    vaneylenShape, Function.update_self, Bool.false_eq_true, if_false, vaneylenHyperPdf, eu]
  ring

/-- **C99** (`vaneylen19`, what the code gives): integrating out the eccentricity multiplies the hyperpriors by the part of the mixture
that is within the limits, which depends on the hyperparameters (`C99_vaneylen19_counterexample`). -/
theorem C99_vaneylen19_partial (b : Backend) (name : String) (multi : Bool) (lower upper : Option ℝ)
    {K : Kwargs} (hK : K.mem "observed" = false) {rs : List Reg} (h : vaneylen19 b name false multi lower upper K = .ok rs) (σ : State)
    (hg : 0 < σ (subName b name "sigma_gauss")) (hr : 0 < σ (subName b name "sigma_rayleigh"))
    (h0 : 0 ≤ σ (subName b name "frac")) (h1 : σ (subName b name "frac") ≤ 1) :
    marginal rs name σ =
      vaneylenHyperPdf b multi (σ (subName b name "sigma_gauss")) (σ (subName b name "sigma_rayleigh")) (σ (subName b name "frac")) *
      (ENNReal.ofReal (1 / (upper.getD 1 - lower.getD 0)) * ∫⁻ x in Icc (lower.getD 0) (upper.getD 1),
        ENNReal.ofReal (mixtureDensity (σ (subName b name "frac")) (σ (subName b name "sigma_gauss"))
          (σ (subName b name "sigma_rayleigh")) x)) := by
  unfold marginal
  simp only [vaneylen19_density hK h σ hg hr h0 h1]
  have hm : Measurable fun x => ENNReal.ofReal (mixtureDensity (σ (subName b name "frac")) (σ (subName b name "sigma_gauss"))
          (σ (subName b name "sigma_rayleigh")) x) := by
    refine Measurable.ennreal_ofReal ?_
    unfold mixtureDensity
    exact Measurable.ite measurableSet_Ici (by fun_prop) measurable_const
  have e : ∀ x, ENNReal.ofReal (uniformPdf (lower.getD 0) (upper.getD 1) x) *
        ENNReal.ofReal (mixtureDensity (σ (subName b name "frac")) (σ (subName b name "sigma_gauss"))
          (σ (subName b name "sigma_rayleigh")) x) = (Icc (lower.getD 0) (upper.getD 1)).indicator (fun x =>
          ENNReal.ofReal (1 / (upper.getD 1 - lower.getD 0)) *
          ENNReal.ofReal (mixtureDensity (σ (subName b name "frac")) (σ (subName b name "sigma_gauss"))
          (σ (subName b name "sigma_rayleigh")) x)) x := by
    intro x
    unfold uniformPdf
    by_cases hx : lower.getD 0 ≤ x ∧ x ≤ upper.getD 1
    · rw [if_pos hx, indicator_of_mem (mem_Icc.2 hx)]
    · rw [if_neg hx, indicator_of_notMem (fun hm' : x ∈ Icc (lower.getD 0) (upper.getD 1) => hx (mem_Icc.1 hm')), ENNReal.ofReal_zero,
        zero_mul]
  simp only [e]
  rw [lintegral_const_mul _ ((hm.const_mul _).indicator measurableSet_Icc), lintegral_indicator measurableSet_Icc,
    lintegral_const_mul _ hm]

/-- The integral of the Rayleigh law over `[0, 1]`. -/
theorem rayleigh_interval {sg sr : ℝ} (hr : 0 < sr) :
    ∫⁻ x in Icc (0 : ℝ) 1, ENNReal.ofReal (mixtureDensity 1 sg sr x) = ENNReal.ofReal (1 - Real.exp (-1 / (2 * sr ^ 2))) := by
  have e : ∀ x ∈ Icc (0 : ℝ) 1, ENNReal.ofReal (mixtureDensity 1 sg sr x) =
      ENNReal.ofReal (x / sr ^ 2 * Real.exp (-x ^ 2 / (2 * sr ^ 2))) := by
    intro x hx
    unfold mixtureDensity
    rw [if_pos hx.1]
    congr 1
    ring
  have hc : Continuous fun x : ℝ => x / sr ^ 2 * Real.exp (-x ^ 2 / (2 * sr ^ 2)) := by fun_prop
  rw [setLIntegral_congr_fun measurableSet_Icc e, ← ofReal_integral_eq_lintegral_ofReal
    (hc.integrableOn_Icc) ((ae_restrict_iff' measurableSet_Icc).2 (Filter.Eventually.of_forall fun x hx =>
      mul_nonneg (div_nonneg hx.1 (by positivity)) (Real.exp_pos _).le))]
  congr 1
  rw [integral_Icc_eq_integral_Ioc, ← intervalIntegral.integral_of_le zero_le_one]
  have hd : ∀ x ∈ uIcc (0 : ℝ) 1, HasDerivAt (fun x : ℝ => -Real.exp (-x ^ 2 / (2 * sr ^ 2)))
      (x / sr ^ 2 * Real.exp (-x ^ 2 / (2 * sr ^ 2))) x := by
    intro x _
    have h1 : HasDerivAt (fun x : ℝ => -x ^ 2 / (2 * sr ^ 2)) (-x / sr ^ 2) x := by
      refine (((hasDerivAt_pow 2 x).neg).div_const (2 * sr ^ 2)).congr_deriv ?_
      field_simp
      norm_num
    refine h1.exp.neg.congr_deriv ?_
    ring
  rw [intervalIntegral.integral_eq_sub_of_hasDerivAt hd (hc.intervalIntegrable _ _)]
  norm_num
  ring

theorem normalPdf_pos (mu : ℝ) {sd : ℝ} (hs : 0 < sd) (x : ℝ) : 0 < normalPdf mu sd x := by
  unfold normalPdf
  positivity


theorem normalPdf_eq (mu : ℝ) {sd : ℝ} (hs : 0 < sd) (x : ℝ) :
    normalPdf mu sd x = ProbabilityTheory.gaussianPDFReal mu (Real.toNNReal (sd ^ 2)) x := by
  unfold normalPdf ProbabilityTheory.gaussianPDFReal
  rw [Real.coe_toNNReal _ (sq_nonneg sd), Real.sqrt_mul (show (0 : ℝ) ≤ 2 * Real.pi by positivity) (sd ^ 2), Real.sqrt_sq hs.le]
  rw [div_eq_inv_mul, mul_comm sd]

theorem normalPdf_mass (mu : ℝ) {sd : ℝ} (hs : 0 < sd) : ∫⁻ x, ENNReal.ofReal (normalPdf mu sd x) = 1 := by
  simp_rw [normalPdf_eq mu hs]
  refine ProbabilityTheory.lintegral_gaussianPDFReal_eq_one mu ?_
  exact (Real.toNNReal_pos.2 (pow_pos hs 2)).ne'

theorem hyper_norm (mu : ℝ) {sd : ℝ} (hs : 0 < sd) (hi : Option ℝ) (hhi : ∀ u, hi = some u → 0 < u) :
    ∫⁻ y in {y : ℝ | 0 ≤ y ∧ ∀ u, hi = some u → y ≤ u}, ENNReal.ofReal (normalPdf mu sd y) ≠ 0 ∧
    ∫⁻ y in {y : ℝ | 0 ≤ y ∧ ∀ u, hi = some u → y ≤ u}, ENNReal.ofReal (normalPdf mu sd y) ≠ ⊤ := by
  have hm : Measurable fun y => ENNReal.ofReal (normalPdf mu sd y) := by
    unfold normalPdf; fun_prop
  constructor
  · rw [← pos_iff_ne_zero, setLIntegral_pos_iff hm]
    obtain ⟨u, hu, hu'⟩ : ∃ u, 0 < u ∧ ∀ v, hi = some v → u ≤ v := by
      cases hi with
      | none => exact ⟨1, one_pos, fun v hv => by cases hv⟩
      | some v => exact ⟨v, hhi v rfl, fun w hw => (Option.some.inj hw).le⟩
    have hsub : Ioo 0 u ⊆ Function.support (fun y => ENNReal.ofReal (normalPdf mu sd y)) ∩ {y : ℝ | 0 ≤ y ∧ ∀ u, hi = some u → y ≤ u} := by
      rintro y ⟨h4, h5⟩
      exact ⟨(ENNReal.ofReal_pos.2 (normalPdf_pos mu hs y)).ne', h4.le, fun v hv => h5.le.trans (hu' v hv)⟩
    refine lt_of_lt_of_le ?_ (measure_mono hsub)
    rw [Real.volume_Ioo, ENNReal.ofReal_pos, sub_pos]
    exact hu
  · refine ne_top_of_le_ne_top ENNReal.one_ne_top ?_
    rw [← normalPdf_mass mu hs]
    exact setLIntegral_le_lintegral _ _

theorem hyperPdf_ne (b : Backend) (mu : ℝ) {sd : ℝ} (hs : 0 < sd) (hi : Option ℝ) (hhi : ∀ u, hi = some u → 0 < u) {x : ℝ} (hx : 0 ≤ x)
    (hxu : ∀ u, hi = some u → x ≤ u) : hyperPdf b mu sd hi x ≠ 0 ∧ hyperPdf b mu sd hi x ≠ ⊤ := by
  obtain ⟨hz, ht⟩ := hyper_norm mu hs hi hhi
  unfold hyperPdf
  rw [if_pos ⟨hx, hxu⟩]
  cases b
  · rw [if_neg (show ¬ Backend.pymc3 = Backend.pymc by decide), div_one]
    exact ⟨(ENNReal.ofReal_pos.2 (normalPdf_pos mu hs x)).ne', ENNReal.ofReal_ne_top⟩
  · rw [if_pos rfl]
    exact ⟨ENNReal.div_ne_zero.2 ⟨(ENNReal.ofReal_pos.2 (normalPdf_pos mu hs x)).ne', ht⟩, ENNReal.div_ne_top ENNReal.ofReal_ne_top hz⟩

/-- Each hyperprior is a probability law on PyMC. -/
theorem hyperPdf_mass (mu : ℝ) {sd : ℝ} (hs : 0 < sd) (hi : Option ℝ) (hhi : ∀ u, hi = some u → 0 < u) :
    ∫⁻ x, hyperPdf .pymc mu sd hi x = 1 := by
  obtain ⟨hz, ht⟩ := hyper_norm mu hs hi hhi
  have hms : MeasurableSet {y : ℝ | 0 ≤ y ∧ ∀ u, hi = some u → y ≤ u} := by
    cases hi with
    | none => exact (show {y : ℝ | 0 ≤ y ∧ ∀ u, none = some u → y ≤ u} = Ici 0 by ext y; simp) ▸ measurableSet_Ici
    | some u =>
      exact (show {y : ℝ | 0 ≤ y ∧ ∀ v, some u = some v → y ≤ v} = Icc 0 u by ext y; simp) ▸ measurableSet_Icc
  have hm : Measurable fun y => ENNReal.ofReal (normalPdf mu sd y) := by
    unfold normalPdf; fun_prop
  have e : ∀ x, hyperPdf .pymc mu sd hi x = {y : ℝ | 0 ≤ y ∧ ∀ u, hi = some u → y ≤ u}.indicator (fun x =>
      ENNReal.ofReal (normalPdf mu sd x) *
        (∫⁻ y in {y : ℝ | 0 ≤ y ∧ ∀ u, hi = some u → y ≤ u}, ENNReal.ofReal (normalPdf mu sd y))⁻¹) x := by
    intro x
    unfold hyperPdf
    by_cases hx : 0 ≤ x ∧ ∀ u, hi = some u → x ≤ u
    · rw [if_pos hx, if_pos rfl, indicator_of_mem (show x ∈ {y : ℝ | 0 ≤ y ∧ ∀ u, hi = some u → y ≤ u} from hx), div_eq_mul_inv]
    · rw [if_neg hx, indicator_of_notMem (show ¬ x ∈ {y : ℝ | 0 ≤ y ∧ ∀ u, hi = some u → y ≤ u} from hx)]
  simp only [e]
  rw [lintegral_indicator hms, lintegral_mul_const _ hm, ENNReal.mul_inv_cancel hz ht]

theorem kippingHyperPdf_ne (b : Backend) (long : Option Bool) {x y : ℝ} (hx : 0 ≤ x) (hy : 0 ≤ y) :
    kippingHyperPdf b long x y ≠ 0 ∧ kippingHyperPdf b long x y ≠ ⊤ := by
  have hn : ∀ {mu sd z : ℝ}, 0 < sd → 0 ≤ z → hyperPdf b mu sd none z ≠ 0 ∧ hyperPdf b mu sd none z ≠ ⊤ := fun hs hz =>
    hyperPdf_ne b _ hs none (fun _ h => (by cases h)) hz (fun _ h => (by cases h))
  unfold kippingHyperPdf
  split
  · have h1 := hn (mu := 0.697) (sd := 0.4) (by norm_num) hx
    have h2 := hn (mu := 3.27) (sd := 0.3) (by norm_num) hy
    exact ⟨mul_ne_zero h1.1 h2.1, ENNReal.mul_ne_top h1.2 h2.2⟩
  · have h1 := hn (mu := 1.12) (sd := 0.1) (by norm_num) hx
    have h2 := hn (mu := 3.09) (sd := 0.3) (by norm_num) hy
    exact ⟨mul_ne_zero h1.1 h2.1, ENNReal.mul_ne_top h1.2 h2.2⟩

theorem vaneylenHyperPdf_ne (b : Backend) (multi : Bool) {x y z : ℝ} (hx : 0 ≤ x) (hy : 0 ≤ y) (hz : 0 ≤ z) (hz' : z ≤ 1) :
    vaneylenHyperPdf b multi x y z ≠ 0 ∧ vaneylenHyperPdf b multi x y z ≠ ⊤ := by
  have hn : ∀ {mu sd z : ℝ}, 0 < sd → 0 ≤ z → hyperPdf b mu sd none z ≠ 0 ∧ hyperPdf b mu sd none z ≠ ⊤ := fun hs hz =>
    hyperPdf_ne b _ hs none (fun _ h => (by cases h)) hz (fun _ h => (by cases h))
  have hf : ∀ {mu sd : ℝ}, 0 < sd → hyperPdf b mu sd (some 1) z ≠ 0 ∧ hyperPdf b mu sd (some 1) z ≠ ⊤ := fun hs =>
    hyperPdf_ne b _ hs (some 1) (fun _ h => (by rw [← Option.some.inj h]; exact one_pos)) hz
      (fun _ h => (by rw [← Option.some.inj h]; exact hz'))
  have h1 := hn (mu := 0.049) (sd := 0.02) (by norm_num) hx
  have h2 := hn (mu := 0.26) (sd := 0.05) (by norm_num) hy
  have h3 : (if multi then hyperPdf b 0.08 0.08 (some 1) z else hyperPdf b 0.76 0.2 (some 1) z) ≠ 0 ∧
      (if multi then hyperPdf b 0.08 0.08 (some 1) z else hyperPdf b 0.76 0.2 (some 1) z) ≠ ⊤ := by
    split
    · exact hf (by norm_num)
    · exact hf (by norm_num)
  exact ⟨mul_ne_zero h1.1 (mul_ne_zero h2.1 h3.1), ENNReal.mul_ne_top h1.2 (ENNReal.mul_ne_top h2.2 h3.2)⟩

/-- On PyMC3 with limits the hyperpriors are multiplied by the part of the Beta law that is within the limits. -/
theorem C99_kipping13_pymc3 (name : String) (long : Option Bool) (lower upper : Option ℝ) (hl : ¬ (lower = none ∧ upper = none))
    {K : Kwargs} (hK : K.mem "observed" = false) {rs : List Reg} (h : kipping13 .pymc3 name false long lower upper K = .ok rs)
    (σ : State) :
    marginal rs name σ = kippingHyperPdf .pymc3 long (σ (subName .pymc3 name "alpha")) (σ (subName .pymc3 name "beta")) *
      ∫⁻ x in Icc (lower.getD 0) (upper.getD 1),
        ENNReal.ofReal (betaPdf (σ (subName .pymc3 name "alpha")) (σ (subName .pymc3 name "beta")) x) := by
  unfold marginal
  simp only [kipping13_density hK h]
  have hm := measurable_betaPdf (σ (subName .pymc3 name "alpha")) (σ (subName .pymc3 name "beta"))
  simp only [if_neg hl, if_neg (show ¬ Backend.pymc3 = Backend.pymc by decide), div_one]
  have e : ∀ x, (if lower.getD 0 ≤ x ∧ x ≤ upper.getD 1 then
        ENNReal.ofReal (betaPdf (σ (subName .pymc3 name "alpha")) (σ (subName .pymc3 name "beta")) x) else 0) =
      (Icc (lower.getD 0) (upper.getD 1)).indicator (fun x =>
        ENNReal.ofReal (betaPdf (σ (subName .pymc3 name "alpha")) (σ (subName .pymc3 name "beta")) x)) x := fun x => by
    by_cases hx : lower.getD 0 ≤ x ∧ x ≤ upper.getD 1
    · rw [if_pos hx, indicator_of_mem (mem_Icc.2 hx)]
    · rw [if_neg hx, indicator_of_notMem (fun hm' : x ∈ Icc (lower.getD 0) (upper.getD 1) => hx (mem_Icc.1 hm'))]
  simp only [e]
  rw [lintegral_const_mul _ (hm.indicator measurableSet_Icc), lintegral_indicator measurableSet_Icc]

theorem beta_one_one : ∫⁻ x in Icc (0 : ℝ) (1 / 2), ENNReal.ofReal (betaPdf 1 1 x) = ENNReal.ofReal (1 / 2) := by
  have e : ∀ x ∈ Ioc (0 : ℝ) (1 / 2), ENNReal.ofReal (betaPdf 1 1 x) = 1 := by
    intro x hx
    unfold betaPdf
    rw [if_pos ⟨hx.1, by linarith [hx.2]⟩]
    have h2 : Real.Gamma (1 + 1) = 1 := by rw [Real.Gamma_add_one one_ne_zero, Real.Gamma_one, mul_one]
    rw [h2, Real.Gamma_one]
    norm_num
  rw [← restrict_Ioc_eq_restrict_Icc, setLIntegral_congr_fun measurableSet_Ioc e]
  simp

theorem beta_one_two : ∫⁻ x in Icc (0 : ℝ) (1 / 2), ENNReal.ofReal (betaPdf 1 2 x) = ENNReal.ofReal (3 / 4) := by
  have e : ∀ x ∈ Ioc (0 : ℝ) (1 / 2), ENNReal.ofReal (betaPdf 1 2 x) = ENNReal.ofReal (2 * (1 - x)) := by
    intro x hx
    unfold betaPdf
    rw [if_pos ⟨hx.1, by linarith [hx.2]⟩]
    have h2 : Real.Gamma 2 = 1 := by
      rw [show (2 : ℝ) = 1 + 1 by norm_num, Real.Gamma_add_one one_ne_zero, Real.Gamma_one, mul_one]
    have h3 : Real.Gamma (1 + 2) = 2 := by
      rw [show (1 + 2 : ℝ) = 2 + 1 by norm_num, Real.Gamma_add_one two_ne_zero, h2, mul_one]
    rw [h2, h3, Real.Gamma_one, show (2 - 1 : ℝ) = 1 by norm_num, Real.rpow_one]
    norm_num
  have hc : Continuous fun x : ℝ => 2 * (1 - x) := by fun_prop
  rw [← restrict_Ioc_eq_restrict_Icc, setLIntegral_congr_fun measurableSet_Ioc e, ← ofReal_integral_eq_lintegral_ofReal
    (hc.integrableOn_Ioc) ((ae_restrict_iff' measurableSet_Ioc).2 (Filter.Eventually.of_forall fun x hx =>
      mul_nonneg two_pos.le (by linarith [hx.2])))]
  congr 1
  rw [← intervalIntegral.integral_of_le (by norm_num)]
  rw [intervalIntegral.integral_const_mul, intervalIntegral.integral_sub (by simp) (by simp)]
  simp
  norm_num

/-- **C99** fails on PyMC3 when limits are given: what is left for `alpha` and `beta` is not even proportional to their priors, because
`pm.Bound` does not normalise. -/
theorem C99_kipping13_pymc3_counterexample : ∃ rs, kipping13 .pymc3 "ecc" false none none (some (1 / 2)) [] = .ok rs ∧
    ¬ ∃ c : ℝ≥0∞, ∀ σ : State, 0 < σ "ecc_alpha" → 0 < σ "ecc_beta" →
      marginal rs "ecc" σ = c * kippingHyperPdf .pymc3 none (σ "ecc_alpha") (σ "ecc_beta") := by
  obtain ⟨rs, h⟩ := C52_succeeds .pymc3 "ecc" false none none (some (1 / 2)) [] rfl rfl (.inr (.inr rfl))
  refine ⟨rs, h, ?_⟩
  rintro ⟨c, hc⟩
  have hm := fun σ => C99_kipping13_pymc3 "ecc" none none (some (1 / 2)) (by simp) rfl h σ
  have sa : subName .pymc3 "ecc" "alpha" = "ecc_alpha" := by decide
  have sb : subName .pymc3 "ecc" "beta" = "ecc_beta" := by decide
  simp only [sa, sb, Option.getD_none, Option.getD_some] at hm
  have h1 := hc (fun _ => 1) one_pos one_pos
  have h2 := hc (fun n => if n = "ecc_beta" then 2 else 1) (by simp) (by simp)
  rw [hm] at h1 h2
  have hne : "ecc_alpha" ≠ "ecc_beta" := by decide
  simp only [if_neg hne, if_true] at h1 h2
  rw [beta_one_one, mul_comm] at h1
  rw [beta_one_two, mul_comm] at h2
  have n1 := kippingHyperPdf_ne .pymc3 none (x := 1) (y := 1) (by norm_num) (by norm_num)
  have n2 := kippingHyperPdf_ne .pymc3 none (x := 1) (y := 2) (by norm_num) (by norm_num)
  have c1 := (ENNReal.mul_left_inj n1.1 n1.2).1 h1
  have c2 := (ENNReal.mul_left_inj n2.1 n2.2).1 h2
  rw [← c1] at c2
  rw [ENNReal.ofReal_eq_ofReal_iff (by norm_num) (by norm_num)] at c2
  norm_num at c2

/-- **C99** fails for `vaneylen19` on both back-ends, without any limits given: the mixture is not normalised on `[0, 1]`. -/
theorem C99_vaneylen19_counterexample (b : Backend) (multi : Bool) : ∃ rs, vaneylen19 b "ecc" false multi none none [] = .ok rs ∧
    ¬ ∃ c : ℝ≥0∞, ∀ σ : State, 0 < σ (subName b "ecc" "sigma_gauss") → 0 < σ (subName b "ecc" "sigma_rayleigh") →
      0 ≤ σ (subName b "ecc" "frac") → σ (subName b "ecc" "frac") ≤ 1 →
      marginal rs "ecc" σ = c * vaneylenHyperPdf b multi (σ (subName b "ecc" "sigma_gauss"))
        (σ (subName b "ecc" "sigma_rayleigh")) (σ (subName b "ecc" "frac")) := by
  obtain ⟨rs, h⟩ := C53_succeeds b "ecc" false multi none none [] rfl rfl
  refine ⟨rs, h, ?_⟩
  rintro ⟨c, hc⟩
  have ng : subName b "ecc" "sigma_gauss" ≠ subName b "ecc" "sigma_rayleigh" := by cases b <;> decide
  have nf : subName b "ecc" "frac" ≠ subName b "ecc" "sigma_rayleigh" := by cases b <;> decide
  have key : ∀ s : ℝ, 0 < s → ENNReal.ofReal (1 - Real.exp (-1 / (2 * s ^ 2))) = c := by
    intro s hs
    have h1 := hc (fun n => if n = subName b "ecc" "sigma_rayleigh" then s else 1) (by rw [if_neg ng]; exact one_pos)
      (by simpa using hs) (by rw [if_neg nf]; exact zero_le_one) (by rw [if_neg nf])
    have h2 := C99_vaneylen19_partial b "ecc" multi none none rfl h
      (fun n => if n = subName b "ecc" "sigma_rayleigh" then s else 1) (by rw [if_neg ng]; exact one_pos)
      (by simpa using hs) (by rw [if_neg nf]; exact zero_le_one) (by rw [if_neg nf])
    rw [h2] at h1
    simp only [if_neg ng, if_neg nf, if_true, Option.getD_none, sub_zero, div_one, ENNReal.ofReal_one, one_mul] at h1
    rw [rayleigh_interval hs, mul_comm] at h1
    have n1 := vaneylenHyperPdf_ne b multi (x := 1) (y := s) (z := 1) (by norm_num) hs.le (by norm_num) (by norm_num)
    exact (ENNReal.mul_left_inj n1.1 n1.2).1 h1
  have c1 := key 1 one_pos
  have c2 := key (1 / 2) (by norm_num)
  rw [← c2, ENNReal.ofReal_eq_ofReal_iff (by
      rw [sub_nonneg, Real.exp_le_one_iff]; norm_num) (by rw [sub_nonneg, Real.exp_le_one_iff]; norm_num)] at c1
  have c3 := Real.exp_injective (sub_right_injective c1)
  norm_num at c3

theorem measurable_hyperPdf (b : Backend) (mu sd : ℝ) (hi : Option ℝ) : Measurable (hyperPdf b mu sd hi) := by
  have hms : MeasurableSet {y : ℝ | 0 ≤ y ∧ ∀ u, hi = some u → y ≤ u} := by
    cases hi with
    | none => exact (show {y : ℝ | 0 ≤ y ∧ ∀ u, none = some u → y ≤ u} = Ici 0 by ext y; simp) ▸ measurableSet_Ici
    | some u =>
      exact (show {y : ℝ | 0 ≤ y ∧ ∀ v, some u = some v → y ≤ v} = Icc 0 u by ext y; simp) ▸ measurableSet_Icc
  have hm : Measurable fun y => ENNReal.ofReal (normalPdf mu sd y) := by
    unfold normalPdf; fun_prop
  unfold hyperPdf
  exact Measurable.ite hms (hm.div_const _) measurable_const

/-- **C99** (PyMC): eccentricity and hyperparameters together have a normalised law. -/
theorem C99_kipping13_proper (name : String) (long : Option Bool) (lower upper : Option ℝ)
    (h1 : lower.getD 0 < upper.getD 1) (h2 : lower.getD 0 < 1) (h3 : 0 < upper.getD 1)
    {K : Kwargs} (hK : K.mem "observed" = false) {rs : List Reg} (h : kipping13 .pymc name false long lower upper K = .ok rs) (σ : State) :
    ∫⁻ p, marginal rs name (setTwo σ (subName .pymc name "alpha") (subName .pymc name "beta") p) = 1 := by
  have hne : subName .pymc name "alpha" ≠ subName .pymc name "beta" := by
    intro hc
    unfold subName at hc
    rw [String.append_right_inj] at hc
    revert hc; decide
  have hae : ∀ᵐ x : ℝ, x ≠ 0 := by simp [ae_iff]
  have a1 : ∀ᵐ p : ℝ × ℝ, p.1 ≠ 0 := Measure.quasiMeasurePreserving_fst.ae hae
  have a2 : ∀ᵐ p : ℝ × ℝ, p.2 ≠ 0 := Measure.quasiMeasurePreserving_snd.ae hae
  have e : ∀ᵐ p : ℝ × ℝ, marginal rs name (setTwo σ (subName .pymc name "alpha") (subName .pymc name "beta") p) =
      kippingHyperPdf .pymc long p.1 p.2 := by
    filter_upwards [a1, a2] with p p1 p2
    have s1 := setTwo_fst hne σ p
    have s2 := setTwo_snd σ (subName .pymc name "alpha") (subName .pymc name "beta") p
    by_cases hp : 0 < p.1 ∧ 0 < p.2
    · rw [C99_kipping13_partial .pymc name long lower upper (.inl rfl) h1 h2 h3 hK h _ (by rw [s1]; exact hp.1) (by rw [s2]; exact hp.2),
        s1, s2]
    · have hz : kippingHyperPdf .pymc long p.1 p.2 = 0 := by
        have hlt : p.1 < 0 ∨ p.2 < 0 := by
          by_contra hc
          push Not at hc
          exact hp ⟨lt_of_le_of_ne hc.1 p1.symm, lt_of_le_of_ne hc.2 p2.symm⟩
        have hn : ∀ {mu sd z : ℝ}, z < 0 → hyperPdf .pymc mu sd none z = 0 := by
          intro mu sd z hz
          unfold hyperPdf
          rw [if_neg fun hc => absurd hc.1 (not_le.2 hz)]
        unfold kippingHyperPdf
        rcases hlt with hlt | hlt <;> simp [hn hlt]
      rw [hz]
      unfold marginal
      simp only [kipping13_density hK h, s1, s2, hz, zero_mul, lintegral_zero]
  rw [lintegral_congr_ae e]
  have hprod : ∀ m1 s1 m2 s2 : ℝ, 0 < s1 → 0 < s2 →
      ∫⁻ p : ℝ × ℝ, hyperPdf .pymc m1 s1 none p.1 * hyperPdf .pymc m2 s2 none p.2 = 1 := by
    intro m1 s1 m2 s2 hs1 hs2
    have := lintegral_prod_mul (μ := (volume : Measure ℝ)) (ν := (volume : Measure ℝ)) (f := hyperPdf .pymc m1 s1 none)
      (g := hyperPdf .pymc m2 s2 none) (measurable_hyperPdf ..).aemeasurable (measurable_hyperPdf ..).aemeasurable
    rw [hyperPdf_mass m1 hs1 none (fun _ hn => (by cases hn)), hyperPdf_mass m2 hs2 none (fun _ hn => (by cases hn)),
      mul_one] at this
    exact this
  unfold kippingHyperPdf
  split
  · exact hprod _ _ _ _ (by norm_num) (by norm_num)
  · exact hprod _ _ _ _ (by norm_num) (by norm_num)

/-- **C99** (drawing the eccentricity through `unit_disk`): the hyperparameters keep their priors, up to a constant. -/
theorem C99_disk_kipping13_partial (b : Backend) (nx ny name : String) (long : Option Bool) (lower upper : Option ℝ)
    (hb : b = .pymc ∨ lower = none ∧ upper = none) (hl1 : lower.getD 0 < upper.getD 1) (hl2 : lower.getD 0 < 1) (hl3 : 0 < upper.getD 1)
    {K K' : Kwargs} (hK' : PlainKwargs K') {all : List Reg} {x y : State → ℝ}
    (h : eccFromDisk b nx ny K (kipping13 b name false long lower upper) K' = .ok (all, x, y)) (hnd : (all.map Reg.name).Nodup) :
    ∃ n1 n2, freeNames all = [n1, n2, subName b name "alpha", subName b name "beta"] ∧ ∀ σ : State,
      0 < σ (subName b name "alpha") → 0 < σ (subName b name "beta") →
      law2At all n1 n2 σ univ = ENNReal.ofReal (Real.pi / 4) *
        kippingHyperPdf b long (σ (subName b name "alpha")) (σ (subName b name "beta")) := by
  have ho : K'.mem "observed" = false := plain_not_mem hK' (by decide)
  obtain ⟨rs0, h0⟩ := C52_succeeds b name false long lower upper K' (plain_not_mem hK' (by decide)) (plain_not_mem hK' (by decide))
    (.inr (.inr ho))
  obtain ⟨n1, n2, hs, hf, hf0, hlaw⟩ := C98_kipping13_partial b nx ny name false long lower upper hb hK' h h0 hnd
  obtain ⟨rs, rs', h1, -, rfl⟩ := eccFromDisk_ok h
  have hnn : nx ≠ "__" ++ ny ++ "_unit_disk" := by
    intro hc
    obtain ⟨i0, i1, -, -, rfl, -, -⟩ := unitDisk_ok b nx ny h1
    have : (nx :: ("__" ++ ny ++ "_unit_disk") :: (ny ++ "_jacobian") :: ny :: rs'.map Reg.name).Nodup := hnd
    rw [← hc] at this
    exact (List.nodup_cons.1 this).1 (List.mem_cons_self ..)
  have hn12 : n1 = nx ∧ n2 = "__" ++ ny ++ "_unit_disk" := by
    obtain ⟨i0, i1, -, -, rfl, -, -⟩ := unitDisk_ok b nx ny h1
    have : nx :: ("__" ++ ny ++ "_unit_disk") :: freeNames rs' = n1 :: n2 :: hs := hf
    simp only [List.cons.injEq] at this
    exact ⟨this.1.symm, this.2.1.symm⟩
  obtain ⟨rfl, rfl⟩ := hn12
  have hhs : hs = [subName b name "alpha", subName b name "beta"] := by
    obtain ⟨r, -, rfl⟩ := kipping13_ok b name false long lower upper h0
    obtain ⟨d1, kw1, e1, -⟩ := hyper_free b name "alpha" none (kippingParams long).1 (kippingParams long).2.1
    obtain ⟨d2, kw2, e2, -⟩ := hyper_free b name "beta" none (kippingParams long).2.2.1 (kippingParams long).2.2.2
    have eh : (kippingHyper b name false long).1 = [.free (subName b name "alpha") d1 kw1, .free (subName b name "beta") d2 kw2] := by
      rw [← e1, ← e2]; rfl
    rw [eh] at hf0
    cases r with
    | free m d kw =>
      have : [subName b name "alpha", subName b name "beta", m] = hs ++ [name] := hf0
      exact (List.append_inj_left' (show [subName b name "alpha", subName b name "beta"] ++ [m] = hs ++ [name] from this) rfl).symm
    | potential m f =>
      have : [subName b name "alpha", subName b name "beta"] = hs ++ [name] := hf0
      have h2 := List.append_inj_right' (show [subName b name "alpha"] ++ [subName b name "beta"] = hs ++ [name] from this) rfl
      exact absurd (List.cons.inj h2).1 (subName_ne b name "beta")
    | deterministic m f =>
      have : [subName b name "alpha", subName b name "beta"] = hs ++ [name] := hf0
      have h2 := List.append_inj_right' (show [subName b name "alpha"] ++ [subName b name "beta"] = hs ++ [name] from this) rfl
      exact absurd (List.cons.inj h2).1 (subName_ne b name "beta")
  refine ⟨_, _, by rw [hf, hhs], fun σ ha hc => ?_⟩
  have hm := measurable_disk_setTwo hnn h1 σ
  have m0 : Measurable fun p : ℝ × ℝ => (p.1 ^ 2 + p.2 ^ 2, arctan2 p.2 p.1) := measurable_eccOmega
  have mF : Measurable fun p => eccVector x y (setTwo σ n1 ("__" ++ ny ++ "_unit_disk") p) := m0.comp hm
  have hu := congrArg (fun μ => μ univ) (hlaw σ)
  simp only [Measure.map_apply mF MeasurableSet.univ, preimage_univ, Measure.smul_apply, withDensity_apply _ MeasurableSet.univ,
    Measure.restrict_univ, smul_eq_mul] at hu
  have hmj : Measurable fun e => jointDensity rs0 (Function.update σ name e) :=
    (jointDensity_ok (kipping13_closed hK' h0)).1.comp (measurable_update σ)
  have hbox : (volume : Measure (ℝ × ℝ)).restrict eccBox =
      (volume.restrict (Ico (0 : ℝ) 1)).prod (volume.restrict (Ioc (-Real.pi) Real.pi)) := by
    rw [Measure.prod_restrict]; rfl
  have e1 : ∫⁻ q in eccBox, jointDensity rs0 (Function.update σ name q.1) =
      ENNReal.ofReal (2 * Real.pi) * ∫⁻ e in Ico (0 : ℝ) 1, jointDensity rs0 (Function.update σ name e) := by
    rw [hbox, ← lintegral_map (f := fun e => jointDensity rs0 (Function.update σ name e)) hmj measurable_fst, Measure.map_fst_prod,
      lintegral_smul_measure, Measure.restrict_apply_univ, Real.volume_Ioc, smul_eq_mul]
    congr 2
    ring
  have e2 : ∫⁻ e in Ico (0 : ℝ) 1, jointDensity rs0 (Function.update σ name e) = marginal rs0 name σ := by
    unfold marginal
    rw [← lintegral_indicator measurableSet_Ico]
    congr 1
    funext e
    by_cases he : e ∈ Ico (0 : ℝ) 1
    · rw [indicator_of_mem he]
    · rw [indicator_of_notMem he, kipping13_density ho h0]
      have hz : ENNReal.ofReal (betaPdf (σ (subName b name "alpha")) (σ (subName b name "beta")) e) = 0 := by
        by_contra hne
        have := (betaPdf_ne_zero ha hc e).1 hne
        exact he ⟨this.1.le, this.2⟩
      simp [hz]
  rw [hu, e1, e2, C99_kipping13_partial b name long lower upper hb hl1 hl2 hl3 ho h0 σ ha hc, ← mul_assoc]
  congr 1
  rw [show (8⁻¹ : ℝ≥0∞) = ENNReal.ofReal (1 / 8) by
    rw [one_div, ENNReal.ofReal_inv_of_pos (by norm_num)]; norm_num, ← ENNReal.ofReal_mul (by norm_num)]
  congr 1
  ring

/-- Non-vacuity: both priors with hyperparameters, on both back-ends, at the published values. -/
example (b : Backend) : ∃ (rs rs' : List Reg) (σ : State), kipping13 b "ecc" false (some true) none none [] = .ok rs ∧
    vaneylen19 b "ecc" false false none none [] = .ok rs' ∧ 0 < σ (subName b "ecc" "alpha") ∧ 0 < σ (subName b "ecc" "beta") ∧
    0 < σ (subName b "ecc" "sigma_gauss") ∧ 0 < σ (subName b "ecc" "sigma_rayleigh") ∧ 0 ≤ σ (subName b "ecc" "frac") ∧
    σ (subName b "ecc" "frac") ≤ (1 : ℝ) := by
  obtain ⟨rs, h⟩ := C52_succeeds b "ecc" false (some true) none none [] rfl rfl (.inr (.inl ⟨rfl, rfl⟩))
  obtain ⟨rs', h'⟩ := C53_succeeds b "ecc" false false none none [] rfl rfl
  exact ⟨rs, rs', fun _ => 1 / 2, h, h', by norm_num, by norm_num, by norm_num, by norm_num, by norm_num, by norm_num⟩

/-- Non-vacuity on PyMC with limits. -/
example : ∃ rs, kipping13 .pymc "ecc" false none (some (1 / 10)) (some (9 / 10)) [] = .ok rs ∧
    (some (1 / 10 : ℝ)).getD 0 < (some (9 / 10 : ℝ)).getD 1 := by
  obtain ⟨rs, h⟩ := C52_succeeds .pymc "ecc" false none (some (1 / 10)) (some (9 / 10)) [] rfl rfl (.inl rfl)
  exact ⟨rs, h, by norm_num⟩

end Exo
