import Verif.Lemmas.Distributions
import Mathlib.Probability.Distributions.Beta

/-!
# Lemmas for the eccentricity priors
-/

namespace Exo
open Kwargs MeasureTheory
open scoped ENNReal

/-! ## Keyword dictionaries -/

theorem get_strip {k : String} (h1 : "initval" ≠ k) (h2 : "testval" ≠ k) (d : Kwargs) (v : Val) :
    (strip d).get k v = d.get k v := by
  unfold strip
  rw [get_del_ne h1, get_del_ne h2]

theorem get_withInitval (b : Backend) {k : String} (h1 : "initval" ≠ k) (h2 : "testval" ≠ k) (d : Kwargs) (v : Val) :
    (withInitval b d).get k v = d.get k v := by
  rw [withInitval_eq, get_append_right_not_mem, get_strip h1 h2]
  have := startKey_ne b (k := k) h1.symm h2.symm
  simp [Kwargs.mem, this]

theorem mem_strip {k : String} {d : Kwargs} (h : d.mem k = false) : (strip d).mem k = false := mem_del_of (mem_del_of h)

theorem mem_withInitval (b : Backend) {k : String} (h1 : "initval" ≠ k) (h2 : "testval" ≠ k) {d : Kwargs} (h : d.mem k = false) :
    (withInitval b d).mem k = false := by
  rw [withInitval_eq, mem_append, mem_strip h]
  have := startKey_ne b (k := k) h1.symm h2.symm
  simp [Kwargs.mem, this]

theorem keyCount_zero {d : Kwargs} {k : String} : keyCount d k = 0 ↔ d.mem k = false := by
  unfold keyCount
  rw [mem_false_iff, List.length_eq_zero_iff, List.filter_eq_nil_iff]
  simp

theorem keyCount_append (d e : Kwargs) (k : String) : keyCount (d ++ e) k = keyCount d k + keyCount e k := by
  unfold keyCount; rw [List.filter_append, List.length_append]

theorem foreign_ne (b : Backend) : b.startKey ≠ b.foreignKey := by cases b <;> decide

theorem strip_start (b : Backend) (d : Kwargs) : (strip d).mem b.startKey = false := by
  cases b
  · exact strip_testval d
  · exact strip_initval d

theorem strip_foreign (b : Backend) (d : Kwargs) : (strip d).mem b.foreignKey = false := by
  cases b
  · exact strip_initval d
  · exact strip_testval d

/-- A dictionary without start keys, plus the native one. -/
theorem clean_append (b : Backend) {d : Kwargs} (v : Val) (h1 : d.mem "initval" = false) (h2 : d.mem "testval" = false) :
    keyCount (d ++ [(b.startKey, v)]) b.startKey = 1 ∧ keyCount (d ++ [(b.startKey, v)]) b.foreignKey = 0 := by
  have e1 : keyCount d b.startKey = 0 := keyCount_zero.2 (by cases b; exact h2; exact h1)
  have e2 : keyCount d b.foreignKey = 0 := keyCount_zero.2 (by cases b; exact h1; exact h2)
  rw [keyCount_append, keyCount_append, e1, e2]
  have := foreign_ne b
  constructor <;> simp [keyCount, this]

theorem clean_withInitval (b : Backend) (d : Kwargs) :
    keyCount (withInitval b d) b.startKey = 1 ∧ keyCount (withInitval b d) b.foreignKey = 0 := by
  rw [withInitval_eq]
  exact clean_append b _ (strip_initval d) (strip_testval d)

theorem clean_limKw (b : Backend) (lo hi : ℝ) (v : Val) {K : Kwargs} (h1 : K.mem "initval" = false) (h2 : K.mem "testval" = false) :
    keyCount (limKw b lo hi v K) b.startKey = 1 ∧ keyCount (limKw b lo hi v K) b.foreignKey = 0 :=
  clean_append b v (limits_noStart _ _ (by decide) (by decide) h1) (limits_noStart _ _ (by decide) (by decide) h2)

/-! ## Interchangeability -/

theorem strip_initval_cons (v : Val) (K : Kwargs) : strip (("initval", v) :: K) = strip K := by
  unfold strip Kwargs.del; simp

theorem strip_testval_cons (v : Val) (K : Kwargs) : strip (("testval", v) :: K) = strip K := by
  unfold strip Kwargs.del; simp

/-- A helper that looks at the start value only through `popInitval` treats the two keys alike. -/
theorem interchangeable_of {α : Type} (f : Kwargs → α) (g : Val → Kwargs → α) (dflt : Val)
    (h : ∀ K, f K = g (requested K dflt) (strip K)) : StartKeysInterchangeable f := by
  intro K v w h1 h2
  have e1 : requested (("testval", v) :: K) dflt = v := by
    unfold requested
    rw [get_cons_self, get_cons_ne (by decide), get_of_not_mem h1]
  have e2 : requested (("initval", v) :: K) dflt = v := get_cons_self ..
  have e3 : requested (("initval", v) :: ("testval", w) :: K) dflt = v := get_cons_self ..
  have e4 : requested (("testval", w) :: ("initval", v) :: K) dflt = v := by
    unfold requested
    rw [get_cons_self, get_cons_ne (by decide), get_cons_self]
  refine ⟨?_, ?_, ?_⟩
  · rw [h, h, e1, e2, strip_initval_cons, strip_testval_cons]
  · rw [h, h, e3, e2, strip_initval_cons, strip_testval_cons, strip_initval_cons]
  · rw [h, h, e4, e2, strip_testval_cons]

/-! ## Beta densities -/

theorem betaPdf_eq (a c x : ℝ) : betaPdf a c x = ProbabilityTheory.betaPDFReal a c x := by
  unfold betaPdf ProbabilityTheory.betaPDFReal ProbabilityTheory.beta
  rw [one_div_div]

theorem betaPdf_mass {a c : ℝ} (ha : 0 < a) (hc : 0 < c) : ∫⁻ x, ENNReal.ofReal (betaPdf a c x) = 1 := by
  simp_rw [betaPdf_eq]
  exact ProbabilityTheory.lintegral_betaPDF_eq_one ha hc

theorem betaPdf_ne_zero {a c : ℝ} (ha : 0 < a) (hc : 0 < c) (x : ℝ) :
    ENNReal.ofReal (betaPdf a c x) ≠ 0 ↔ 0 < x ∧ x < 1 := by
  rw [betaPdf_eq]
  constructor
  · intro h
    by_contra hx
    unfold ProbabilityTheory.betaPDFReal at h
    rw [if_neg hx] at h
    simp at h
  · rintro ⟨h1, h2⟩
    have := ProbabilityTheory.betaPDFReal_pos h1 h2 ha hc
    simpa using this

/-- The density of a Beta variable, truncated or not, depends only on its two parameters. -/
theorem beta_pdf_params {p : Kwargs} {alpha beta : Val} (h1 : p.get "alpha" .none = alpha) (h2 : p.get "beta" .none = beta)
    (σ : State) (x : ℝ) : Family.beta.pdf p σ x = betaPdf (alpha.toNum 1 σ) (beta.toNum 1 σ) x := by
  simp only [Family.pdf, h1, h2]

theorem inBounds_some (lo hi x : ℝ) : InBounds (some lo) (some hi) x ↔ lo ≤ x ∧ x ≤ hi := by
  unfold InBounds
  simp

theorem truncated_beta_ne_zero {p : Kwargs} {alpha beta : Val} (h1 : p.get "alpha" .none = alpha)
    (h2 : p.get "beta" .none = beta) (lo hi : ℝ) (σ : State) (ha : 0 < alpha.toNum 1 σ) (hb : 0 < beta.toNum 1 σ) (x : ℝ) :
    (Dist.truncated .beta p (some lo) (some hi)).density σ x ≠ 0 ↔ lo ≤ x ∧ x ≤ hi ∧ 0 < x ∧ x < 1 := by
  have hZ : ∫⁻ y in {y | InBounds (some lo) (some hi) y}, ENNReal.ofReal (Family.beta.pdf p σ y) ≠ ⊤ := by
    refine ne_top_of_le_ne_top ENNReal.one_ne_top ?_
    refine (setLIntegral_le_lintegral _ _).trans ?_
    simp_rw [beta_pdf_params h1 h2]
    exact (betaPdf_mass ha hb).le
  unfold Dist.density
  simp only
  by_cases hx : InBounds (some lo) (some hi) x
  · rw [if_pos hx, ne_eq, ENNReal.div_eq_zero_iff, not_or, beta_pdf_params h1 h2, ← ne_eq, betaPdf_ne_zero ha hb]
    rw [inBounds_some] at hx
    tauto
  · rw [if_neg hx]
    rw [inBounds_some] at hx
    tauto

theorem bound_beta_ne_zero {p : Kwargs} {alpha beta : Val} (h1 : p.get "alpha" .none = alpha)
    (h2 : p.get "beta" .none = beta) (lo hi : ℝ) (σ : State) (ha : 0 < alpha.toNum 1 σ) (hb : 0 < beta.toNum 1 σ) (x : ℝ) :
    (Dist.bound .beta p (some lo) (some hi)).density σ x ≠ 0 ↔ lo ≤ x ∧ x ≤ hi ∧ 0 < x ∧ x < 1 := by
  unfold Dist.density
  simp only
  by_cases hx : InBounds (some lo) (some hi) x
  · rw [if_pos hx, beta_pdf_params h1 h2, betaPdf_ne_zero ha hb]
    rw [inBounds_some] at hx
    tauto
  · rw [if_neg hx]
    rw [inBounds_some] at hx
    tauto

/-- Two truncated Beta distributions with equal parameters have equal densities. -/
theorem truncated_beta_congr {p q : Kwargs} (h1 : p.get "alpha" .none = q.get "alpha" .none)
    (h2 : p.get "beta" .none = q.get "beta" .none) (lo hi : Option ℝ) (σ : State) (x : ℝ) :
    (Dist.truncated .beta p lo hi).density σ x = (Dist.truncated .beta q lo hi).density σ x := by
  unfold Dist.density
  simp only
  simp_rw [beta_pdf_params h1 h2, beta_pdf_params (p := q) rfl rfl]

/-! ## The mixture -/

theorem exp_logaddexp (x y : EReal) : EReal.exp (logaddexp x y) = EReal.exp x + EReal.exp y := by
  unfold logaddexp; rw [ENNReal.exp_log]

theorem exp_logp (d : Dist) (σ : State) (x : ℝ) : EReal.exp (d.logp σ x) = d.density σ x := by
  unfold Dist.logp; rw [ENNReal.exp_log]

theorem weibull_rayleigh {s : ℝ} (hs : 0 < s) (x : ℝ) :
    weibullPdf 2 (Real.sqrt 2 * s) x = if 0 ≤ x then x / s ^ 2 * Real.exp (-x ^ 2 / (2 * s ^ 2)) else 0 := by
  unfold weibullPdf
  by_cases hx : 0 ≤ x
  · rw [if_pos hx, if_pos hx]
    have h2 : Real.sqrt 2 ^ 2 = 2 := Real.sq_sqrt (by norm_num)
    have h2' : Real.sqrt 2 ≠ 0 := by positivity
    have e1 : (x / (Real.sqrt 2 * s)) ^ ((2 : ℝ) - 1) = x / (Real.sqrt 2 * s) := by norm_num
    have e2 : (x / (Real.sqrt 2 * s)) ^ (2 : ℝ) = x ^ 2 / (2 * s ^ 2) := by
      rw [show ((2 : ℝ)) = ((2 : ℕ) : ℝ) by norm_num, Real.rpow_natCast, div_pow, mul_pow]
      push_cast
      rw [h2]
    rw [e1, e2, ← neg_div]
    congr 1
    field_simp
    rw [h2]
  · rw [if_neg hx, if_neg hx]

end Exo
