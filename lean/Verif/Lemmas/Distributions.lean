import Verif.Lemmas.PyMC
import Verif.Lemmas.Measure
import Verif.Spec.Distributions
import Mathlib.Analysis.SpecialFunctions.Gaussian.GaussianIntegral
import Mathlib.Analysis.SpecialFunctions.Complex.Arg

/-!
# Lemmas for the distribution helpers
-/

namespace Exo
open Kwargs MeasureTheory
open scoped ENNReal

/-- The keyword dictionary of the bounded uniform variables. -/
noncomputable def limKw (b : Backend) (lo hi : ℝ) (v : Val) (K : Kwargs) : Kwargs :=
  ((K.set "lower" (Val.ofReal lo)).set "upper" (Val.ofReal hi)) ++ [(b.startKey, v)]

theorem limKw_lower (b : Backend) (lo hi : ℝ) (v w : Val) (K : Kwargs) :
    (limKw b lo hi v K).get "lower" w = Val.ofReal lo := by
  unfold limKw
  rw [get_append_right_not_mem (by cases b <;> simp [Kwargs.mem, Backend.startKey]), get_set_ne (by decide), get_set_self]

theorem limKw_upper (b : Backend) (lo hi : ℝ) (v w : Val) (K : Kwargs) :
    (limKw b lo hi v K).get "upper" w = Val.ofReal hi := by
  unfold limKw
  rw [get_append_right_not_mem (by cases b <;> simp [Kwargs.mem, Backend.startKey]), get_set_self]

theorem limKw_start (b : Backend) (lo hi : ℝ) (v w : Val) {K : Kwargs} (h1 : K.mem "initval" = false)
    (h2 : K.mem "testval" = false) : (limKw b lo hi v K).get b.startKey w = v := by
  unfold limKw
  rw [get_append_left_not_mem, get_cons_self]
  cases b
  · exact limits_noStart _ _ (by decide) (by decide) h2
  · exact limits_noStart _ _ (by decide) (by decide) h1

theorem limKw_mem (b : Backend) (lo hi : ℝ) (v : Val) (K : Kwargs) : (limKw b lo hi v K).mem b.startKey = true := by
  unfold limKw
  rw [mem_append]; simp [Kwargs.mem]

theorem limKw_eq (b : Backend) (lo hi : ℝ) (v : Val) (K : Kwargs) :
    withInitvalOf b v (((strip K).set "lower" (Val.ofReal lo)).set "upper" (Val.ofReal hi)) = .ok (limKw b lo hi v (strip K)) :=
  withInitvalOf_eq b v (limits_noStart _ _ (by decide) (by decide) (strip_initval K))
    (limits_noStart _ _ (by decide) (by decide) (strip_testval K))

theorem limKw_density (b : Backend) (lo hi : ℝ) (v : Val) (K : Kwargs) (σ : State) (x : ℝ) :
    (Dist.plain .uniform (limKw b lo hi v K)).density σ x = ENNReal.ofReal (uniformPdf lo hi x) := by
  simp only [Dist.density, Family.pdf, limKw_lower, limKw_upper]
  rfl

theorem limKw_interior (b : Backend) (lo hi : ℝ) (v : Val) (K : Kwargs) (σ : State) (x : ℝ) :
    (Dist.plain .uniform (limKw b lo hi v K)).Interior σ x ↔ lo < x ∧ x < hi := by
  simp only [Dist.Interior, limKw_lower, limKw_upper]
  rfl

/-- The start value requested by the caller, or the default. -/
def requested (K : Kwargs) (dflt : Val) : Val := K.get "initval" (K.get "testval" dflt)

theorem unitDisk_eq (b : Backend) (nx ny : String) (K : Kwargs) :
    unitDisk b nx ny K = (do
      let i0 ← (requested K (.seq [fun _ => 0, fun _ => 0])).item 0
      let i1 ← (requested K (.seq [fun _ => 0, fun _ => 0])).item 1
      .ok ([pmVar .uniform nx (limKw b (-1) 1 (.num i0) (strip K)),
        pmVar .uniform ("__" ++ ny ++ "_unit_disk")
          (limKw b (-1) 1 (.num fun σ => i1 σ * Real.sqrt (1 - i0 σ ^ 2)) (strip K)),
        .potential (ny ++ "_jacobian") (fun σ => ptLog (Real.sqrt (1 - σ nx ^ 2))),
        .deterministic ny (fun σ => [σ ("__" ++ ny ++ "_unit_disk") * Real.sqrt (1 - σ nx ^ 2)])],
        fun σ => σ nx, fun σ => σ ("__" ++ ny ++ "_unit_disk") * Real.sqrt (1 - σ nx ^ 2))) := by
  unfold unitDisk
  rw [popInitval_eq]
  simp only [limKw_eq]
  rfl

theorem quadLimbDark_eq (b : Backend) (name : String) (K : Kwargs) :
    quadLimbDark b name K = (do
      let u1 ← (requested K (.seq [fun _ => Real.sqrt 0.5, fun _ => 0])).item 0
      let u2 ← (requested K (.seq [fun _ => Real.sqrt 0.5, fun _ => 0])).item 1
      .ok ([pmVar .uniform ("__" ++ name ++ "_q1") (limKw b 0 1 (.num fun σ => (u1 σ + u2 σ) ^ 2) (strip K)),
        pmVar .uniform ("__" ++ name ++ "_q2")
          (limKw b 0 1 (.nanable fun σ => npDiv (0.5 * u1 σ) (u1 σ + u2 σ)) (strip K)),
        .deterministic name (fun σ => [Real.sqrt (σ ("__" ++ name ++ "_q1")) * (2 * σ ("__" ++ name ++ "_q2")),
          Real.sqrt (σ ("__" ++ name ++ "_q1")) * (1 - 2 * σ ("__" ++ name ++ "_q2"))])],
        fun σ => Real.sqrt (σ ("__" ++ name ++ "_q1")) * (2 * σ ("__" ++ name ++ "_q2")),
        fun σ => Real.sqrt (σ ("__" ++ name ++ "_q1")) * (1 - 2 * σ ("__" ++ name ++ "_q2")))) := by
  unfold quadLimbDark
  rw [popInitval_eq]
  simp only [limKw_eq]
  rfl

/-- `kwargs.setdefault("shape", …)` on PyMC 5. -/
def shaped (b : Backend) (K : Kwargs) : Kwargs :=
  match b with
  | .pymc3 => K
  | .pymc => K.setdefault "shape" (.obj "ror.shape")

theorem shaped_not_mem (b : Backend) {K : Kwargs} {k : String} (hk : "shape" ≠ k) (h : K.mem k = false) :
    (shaped b K).mem k = false := by
  unfold shaped setdefault
  cases b
  · exact h
  · simp only
    split
    · exact h
    · rw [mem_append, h]; simp [Kwargs.mem, hk]

theorem impactParameter_eq (b : Backend) (name : String) (ror : State → ℝ) (K : Kwargs) :
    impactParameter b name ror K = (do
      let bh ← (requested K (Val.ofReal 0.5)).asNum
      .ok ([pmVar .uniform ("__" ++ name ++ "_impact_parameter")
          (limKw b 0 1 (.nanable fun σ => npDiv (bh σ) (1 + ror σ)) (shaped b (strip K))),
        .deterministic name (fun σ => [σ ("__" ++ name ++ "_impact_parameter") * (1 + ror σ)])],
        fun σ => σ ("__" ++ name ++ "_impact_parameter") * (1 + ror σ))) := by
  unfold impactParameter
  rw [popInitval_eq]
  have h1 := shaped_not_mem b (k := "initval") (by decide) (strip_initval K)
  have h2 := shaped_not_mem b (k := "testval") (by decide) (strip_testval K)
  have e : ∀ v, withInitvalOf b v (((shaped b (strip K)).set "lower" (Val.ofReal 0)).set "upper" (Val.ofReal 1)) =
      .ok (limKw b 0 1 v (shaped b (strip K))) := fun v =>
    withInitvalOf_eq b v (limits_noStart _ _ (by decide) (by decide) h1) (limits_noStart _ _ (by decide) (by decide) h2)
  unfold shaped at e ⊢
  cases b
  · simp only [e]
    rfl
  · simp only [e]
    rfl

/-- The potential of `angle`. -/
noncomputable def anglePot (name : String) (regularization : Option ℝ) : List Reg :=
  match regularization with
  | some c => [Reg.potential (name ++ "_regularization")
    (fun σ => (c : EReal) * ptLog (σ ("__" ++ name ++ "_angle1") ^ 2 + σ ("__" ++ name ++ "_angle2") ^ 2))]
  | none => []

theorem angle_eq (b : Backend) (name : String) (reg : Option ℝ) (K : Kwargs) :
    angle b name reg K = (do
      let iv ← (requested K (Val.ofReal 0)).asNum
      .ok ([pmVar .normal ("__" ++ name ++ "_angle1") (strip K ++ [(b.startKey, .num fun σ => Real.sin (iv σ))]),
        pmVar .normal ("__" ++ name ++ "_angle2") (strip K ++ [(b.startKey, .num fun σ => Real.cos (iv σ))])] ++
        anglePot name reg ++
        [.deterministic name (fun σ => [arctan2 (σ ("__" ++ name ++ "_angle1")) (σ ("__" ++ name ++ "_angle2"))])],
        fun σ => arctan2 (σ ("__" ++ name ++ "_angle1")) (σ ("__" ++ name ++ "_angle2")))) := by
  unfold angle anglePot
  rw [popInitval_eq]
  have e := fun v => withInitvalOf_eq b v (strip_initval K) (strip_testval K)
  simp only [e]
  rfl

/-! ## Densities -/

theorem ptLog_exp {x : ℝ} : EReal.exp (ptLog x) = ENNReal.ofReal x := by
  unfold ptLog
  rw [ENNReal.exp_log]

theorem uniformPdf_ne_zero {lo hi x : ℝ} (h : uniformPdf lo hi x ≠ 0) : lo ≤ x ∧ x ≤ hi := by
  unfold uniformPdf at h
  by_contra hc
  rw [if_neg hc] at h
  exact h rfl

theorem ofReal_uniformPdf_ne_zero {lo hi x : ℝ} (h : ENNReal.ofReal (uniformPdf lo hi x) ≠ 0) : lo ≤ x ∧ x ≤ hi :=
  uniformPdf_ne_zero fun h0 => h (by rw [h0, ENNReal.ofReal_zero])

/-- A law on the unit interval, scaled. -/
theorem scale_uniform {k : ℝ} (hk : 0 < k) :
    Measure.map (fun x : ℝ => x * k) (volume.withDensity fun x => ENNReal.ofReal (uniformPdf 0 1 x)) =
      ENNReal.ofReal k⁻¹ • (volume : Measure ℝ).restrict (Set.Icc 0 k) := by
  have h1 : (fun x => ENNReal.ofReal (uniformPdf 0 1 x)) = (Set.Icc (0 : ℝ) 1).indicator 1 := by
    funext x
    unfold uniformPdf
    by_cases hx : 0 ≤ x ∧ x ≤ 1
    · rw [if_pos hx, Set.indicator_of_mem (Set.mem_Icc.2 hx)]; simp
    · rw [if_neg hx, Set.indicator_of_notMem (by rwa [Set.mem_Icc])]; simp
  rw [h1, withDensity_indicator measurableSet_Icc, withDensity_one]
  have h2 : Set.Icc (0 : ℝ) 1 = (fun x : ℝ => x * k) ⁻¹' Set.Icc 0 k := by
    ext x
    rw [Set.mem_preimage, Set.mem_Icc, Set.mem_Icc]
    constructor
    · rintro ⟨a, c⟩; exact ⟨by positivity, by nlinarith⟩
    · rintro ⟨a, c⟩
      exact ⟨nonneg_of_mul_nonneg_left a hk, by by_contra h; push Not at h; nlinarith⟩
  rw [h2, ← Measure.restrict_map (by fun_prop) measurableSet_Icc, Real.map_volume_mul_right hk.ne', Measure.restrict_smul,
    abs_of_pos (inv_pos.2 hk)]

/-- The radial density of `angle`. -/
noncomputable def angleRadial (reg : Option ℝ) (s : ℝ) : ℝ≥0∞ :=
  ENNReal.ofReal (Real.exp (-s / 2) / (2 * Real.pi)) * ENNReal.ofReal s ^ (reg.getD 0)

theorem normalPdf_mul (x y : ℝ) : normalPdf 0 1 x * normalPdf 0 1 y = Real.exp (-(x ^ 2 + y ^ 2) / 2) / (2 * Real.pi) := by
  unfold normalPdf
  have h : Real.sqrt (2 * Real.pi) * Real.sqrt (2 * Real.pi) = 2 * Real.pi :=
    Real.mul_self_sqrt (by positivity)
  rw [div_mul_div_comm, ← Real.exp_add, one_mul, h]
  congr 2
  ring

theorem normalPdf_nonneg {mu s : ℝ} (hs : 0 ≤ s) (x : ℝ) : 0 ≤ normalPdf mu s x := by unfold normalPdf; positivity

theorem anglePot_density (name : String) (reg : Option ℝ) (σ : State) :
    jointDensity (anglePot name reg) σ =
      ENNReal.ofReal (σ ("__" ++ name ++ "_angle1") ^ 2 + σ ("__" ++ name ++ "_angle2") ^ 2) ^ (reg.getD 0) := by
  unfold anglePot jointDensity
  cases reg with
  | none => simp
  | some c =>
    simp only [List.map_cons, List.map_nil, List.prod_cons, List.prod_nil, mul_one, Reg.factor, Option.getD_some]
    unfold ptLog
    rw [← ENNReal.log_rpow, ENNReal.exp_log]

theorem jointDensity_append (r s : List Reg) (σ : State) : jointDensity (r ++ s) σ = jointDensity r σ * jointDensity s σ := by
  unfold jointDensity; rw [List.map_append, List.prod_append]

theorem jointDensity_cons (r : Reg) (s : List Reg) (σ : State) : jointDensity (r :: s) σ = r.factor σ * jointDensity s σ := by
  unfold jointDensity; rw [List.map_cons, List.prod_cons]

theorem jointDensity_nil (σ : State) : jointDensity [] σ = 1 := rfl

theorem angleRadial_measurable (reg : Option ℝ) : Measurable (angleRadial reg) := by
  unfold angleRadial
  fun_prop

/-- The radial mass is finite. -/
theorem angleRadial_finite (reg : Option ℝ) (h : -1 < reg.getD 0) :
    ∫⁻ r in Set.Ioi (0 : ℝ), ENNReal.ofReal r * angleRadial reg (r ^ 2) ≠ ⊤ := by
  have hi := integrableOn_rpow_mul_exp_neg_mul_sq (b := 1 / 2) (by norm_num) (s := 2 * reg.getD 0 + 1) (by linarith)
  have hl := (hi.div_const (2 * Real.pi)).lintegral_lt_top
  refine ne_of_lt (lt_of_eq_of_lt ?_ hl)
  refine setLIntegral_congr_fun measurableSet_Ioi fun r hr => ?_
  have hr : 0 < r := hr
  unfold angleRadial
  rw [ENNReal.ofReal_rpow_of_pos (by positivity), ← ENNReal.ofReal_mul (by positivity), ← ENNReal.ofReal_mul hr.le]
  congr 1
  rw [show (r ^ 2 : ℝ) = r ^ (2 : ℝ) by norm_cast, ← Real.rpow_mul hr.le, Real.rpow_add hr, Real.rpow_one]
  rw [show (-r ^ (2 : ℝ) / 2 : ℝ) = -(1 / 2) * r ^ (2 : ℝ) by ring]
  ring

theorem angleRadial_pos (reg : Option ℝ) :
    ∫⁻ r in Set.Ioi (0 : ℝ), ENNReal.ofReal r * angleRadial reg (r ^ 2) ≠ 0 := by
  have hm : Measurable fun r : ℝ => ENNReal.ofReal r * angleRadial reg (r ^ 2) := by
    have := angleRadial_measurable reg
    fun_prop
  refine ne_of_gt ?_
  rw [setLIntegral_pos_iff hm]
  have : Function.support (fun r : ℝ => ENNReal.ofReal r * angleRadial reg (r ^ 2)) ∩ Set.Ioi 0 = Set.Ioi 0 := by
    rw [Set.inter_eq_right]
    intro r hr
    have hr : 0 < r := hr
    rw [Function.mem_support]
    unfold angleRadial
    refine mul_ne_zero (by simpa using hr) (mul_ne_zero ?_ ?_)
    · have : 0 < Real.exp (-r ^ 2 / 2) / (2 * Real.pi) := by positivity
      simpa using this
    · rw [ENNReal.ofReal_rpow_of_pos (by positivity)]
      have : 0 < (r ^ 2) ^ reg.getD 0 := by positivity
      simpa using this
  rw [this]
  simp

theorem arctan2_sin_cos (v : ℝ) : ∃ k : ℤ, arctan2 (Real.sin v) (Real.cos v) = v + 2 * Real.pi * k := by
  unfold arctan2
  have : (⟨Real.cos v, Real.sin v⟩ : ℂ) = Complex.cos v + Complex.sin v * Complex.I := by
    apply Complex.ext <;> simp [Complex.cos_ofReal_re, Complex.sin_ofReal_re]
  rw [this, Complex.arg_cos_add_sin_mul_I_eq_toIocMod]
  refine ⟨-toIocDiv Real.two_pi_pos (-Real.pi) v, ?_⟩
  have := self_sub_toIocDiv_zsmul Real.two_pi_pos (-Real.pi) v
  rw [← this, zsmul_eq_mul]
  push_cast
  ring

end Exo
