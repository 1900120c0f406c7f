import Verif.Lemmas.LightCurveDeriv
import Verif.Lemmas.Strict
import Verif.Spec.Slopes
import Verif.Props.Parameters
import Mathlib.MeasureTheory.Measure.Lebesgue.Integral

/-!
# C106: light curves have slopes
-/

namespace Exo
open Real Set Filter Topology MeasureTheory

/-! ## The flux as a function of the position on the sky -/

theorem alongLimb_centre (h : ℝ → ℝ) (k : ℝ) : alongLimb (fun p => h (muAt p)) cos 0 k = 0 := by
  unfold alongLimb
  have e : ∀ θ, starDisc.indicator (fun p => h (muAt p)) (0 + k * cos θ, k * sin θ) = starDisc.indicator (fun p => h (muAt p)) (k, 0) := by
    intro θ
    have e1 : (0 + k * cos θ) ^ 2 + (k * sin θ) ^ 2 = k ^ 2 + 0 ^ 2 := by linear_combination k ^ 2 * sin_sq_add_cos_sq θ
    have e2 : muAt (0 + k * cos θ, k * sin θ) = muAt (k, 0) := by
      unfold muAt
      simp only
      rw [show 1 - (0 + k * cos θ) ^ 2 - (k * sin θ) ^ 2 = 1 - k ^ 2 - 0 ^ 2 by linarith]
    by_cases hp : ((k, 0) : ℝ × ℝ) ∈ starDisc
    · have hq : ((0 + k * cos θ, k * sin θ) : ℝ × ℝ) ∈ starDisc := by
        simp only [starDisc, mem_ofPred_eq] at hp ⊢
        rw [e1]; exact hp
      rw [indicator_of_mem hp, indicator_of_mem hq, e2]
    · have hq : ((0 + k * cos θ, k * sin θ) : ℝ × ℝ) ∉ starDisc := by
        simp only [starDisc, mem_ofPred_eq] at hp ⊢
        rw [e1]; exact hp
      rw [indicator_of_notMem hp, indicator_of_notMem hq]
  simp only [e]
  rw [intervalIntegral.integral_const_mul, integral_cos]
  simp

theorem sqrt_lipschitz (a b c d : ℝ) : |√(a ^ 2 + b ^ 2) - √(c ^ 2 + d ^ 2)| ≤ |a - c| + |b - d| := by
  have e : ∀ a b : ℝ, √(a ^ 2 + b ^ 2) = ‖(⟨a, b⟩ : ℂ)‖ := fun a b => by
    rw [Complex.norm_def, Complex.normSq_apply, ← sq, ← sq]
  rw [e, e]
  refine (abs_norm_sub_norm_le _ _).trans ((Complex.norm_le_abs_re_add_abs_im _).trans ?_)
  simp

theorem covered_sky {h : ℝ → ℝ} (hh : Continuous h) {x y k : ℝ} (hk : 0 < k) (hne : ¬(x = 0 ∧ y = 0 ∧ k = 1)) :
    ∃ L : ℝ × ℝ × ℝ →L[ℝ] ℝ, HasStrictFDerivAt
      (fun q : ℝ × ℝ × ℝ => ∫ p in starDisc ∩ bodyDisc √(q.1 ^ 2 + q.2.1 ^ 2) q.2.2, h (muAt p)) L (x, y, k) := by
  have hg : Continuous fun p => h (muAt p) := hh.comp continuous_muAt
  have h0 : ¬(√(x ^ 2 + y ^ 2) = 0 ∧ k = 1) := by
    rintro ⟨h1, h2⟩
    rw [sqrt_eq_zero (by positivity)] at h1
    exact hne ⟨by nlinarith, by nlinarith, h2⟩
  have hs := covered_gradient hg hk h0
  by_cases hz : x ^ 2 + y ^ 2 = 0
  · have hx : x = 0 := by nlinarith
    have hy : y = 0 := by nlinarith
    subst hx hy
    refine ⟨(k * alongLimb (fun p => h (muAt p)) (fun _ => 1) 0 k) • ((ContinuousLinearMap.snd ℝ ℝ ℝ).comp (ContinuousLinearMap.snd ℝ ℝ (ℝ × ℝ))), ?_⟩
    have e0 : √((0 : ℝ) ^ 2 + 0 ^ 2) = 0 := by norm_num
    rw [e0, alongLimb_centre] at hs
    refine strict_comp_kink (u := fun q : ℝ × ℝ × ℝ => (√(q.1 ^ 2 + q.2.1 ^ 2), q.2.2)) (x := ((0, 0, k) : ℝ × ℝ × ℝ)) (K := 2)
      (by simp only [e0]; exact hs) ?_ ?_ ?_
    · exact Continuous.continuousAt (by fun_prop)
    · rintro ⟨a, b, c⟩ ⟨a', b', c'⟩
      have m1 : |a - a'| ≤ ‖((a, b, c) : ℝ × ℝ × ℝ) - (a', b', c')‖ := norm_fst_le (((a, b, c) : ℝ × ℝ × ℝ) - (a', b', c'))
      have m0 := norm_snd_le (((a, b, c) : ℝ × ℝ × ℝ) - (a', b', c'))
      have m2 : |b - b'| ≤ ‖((a, b, c) : ℝ × ℝ × ℝ) - (a', b', c')‖ := (norm_fst_le ((b, c) - (b', c') : ℝ × ℝ)).trans m0
      have m3 : |c - c'| ≤ ‖((a, b, c) : ℝ × ℝ × ℝ) - (a', b', c')‖ := (norm_snd_le ((b, c) - (b', c') : ℝ × ℝ)).trans m0
      have m4 := sqrt_lipschitz a b a' b'
      have m5 := norm_nonneg (((a, b, c) : ℝ × ℝ × ℝ) - (a', b', c'))
      rw [Prod.norm_def]
      refine max_le ?_ ?_
      · simp only [Prod.fst_sub, Real.norm_eq_abs]
        linarith
      · simp only [Prod.snd_sub, Real.norm_eq_abs]
        linarith
    · rintro ⟨a, b, c⟩ ⟨a', b', c'⟩
      simp
  · have hu : ContDiffAt ℝ 1 (fun q : ℝ × ℝ × ℝ => (√(q.1 ^ 2 + q.2.1 ^ 2), q.2.2)) (x, y, k) := by
      refine ContDiffAt.prodMk (ContDiffAt.sqrt ?_ hz) ?_ <;> fun_prop
    have hu' := hu.hasStrictFDerivAt one_ne_zero
    exact ⟨_, HasStrictFDerivAt.comp (x, y, k) (f := fun q : ℝ × ℝ × ℝ => (√(q.1 ^ 2 + q.2.1 ^ 2), q.2.2)) hs hu'⟩

theorem covered_contDiffAt {h : ℝ → ℝ} (hh : Continuous h) {x y k : ℝ} (hk : 0 < k) (hne : ¬(x = 0 ∧ y = 0 ∧ k = 1)) :
    ContDiffAt ℝ 1 (fun q : ℝ × ℝ × ℝ => ∫ p in starDisc ∩ bodyDisc √(q.1 ^ 2 + q.2.1 ^ 2) q.2.2, h (muAt p)) (x, y, k) := by
  refine contDiffAt_one_of_strict ?_
  have h1 : ∀ᶠ q : ℝ × ℝ × ℝ in 𝓝 (x, y, k), 0 < q.2.2 :=
    (by fun_prop : ContinuousAt (fun q : ℝ × ℝ × ℝ => q.2.2) (x, y, k)).eventually (lt_mem_nhds hk)
  have h2 : ((x, y, k) : ℝ × ℝ × ℝ) ≠ (0, 0, 1) := fun h => hne (by simpa using h)
  filter_upwards [h1, isOpen_ne.mem_nhds h2] with q hq hq'
  exact covered_sky hh hq fun h => hq' (Prod.ext h.1 (Prod.ext h.2.1 h.2.2))

section
variable {E : Type*} [NormedAddCommGroup E] [NormedSpace ℝ E] {q : E}

theorem uncovered_contDiffAt {h : ℝ → ℝ} (hh : Continuous h) {x y k : E → ℝ} (hx : ContDiffAt ℝ 1 x q) (hy : ContDiffAt ℝ 1 y q)
    (hkc : ContDiffAt ℝ 1 k q) (hk : 0 < k q) (hne : ¬(x q = 0 ∧ y q = 0 ∧ k q = 1)) :
    ContDiffAt ℝ 1 (fun s => ∫ p in starDisc \ bodyDisc √(x s ^ 2 + y s ^ 2) (k s), h (muAt p)) q := by
  have hg : Continuous fun p => h (muAt p) := hh.comp continuous_muAt
  have h1 := (covered_contDiffAt hh hk hne).comp q (hx.prodMk (hy.prodMk hkc))
  refine ((contDiffAt_const (c := ∫ p in starDisc, h (muAt p))).sub h1).congr_of_eventuallyEq (Eventually.of_forall fun s => ?_)
  have := integral_inter_add_sdiff (μ := volume) (f := fun p => h (muAt p)) (s := starDisc)
    (measurableSet_bodyDisc √(x s ^ 2 + y s ^ 2) (k s)) (integrableOn_disc hg subset_rfl)
  simp only [Function.comp, Pi.sub_apply]
  linarith

/-- The flux of a body in front of the star when the coefficients, its position on the sky and its radius are varied. -/
theorem quadLc_contDiffAt {c : E → ℝ × ℝ × ℝ} {x y k : E → ℝ} (hc : ContDiffAt ℝ 1 c q) (hx : ContDiffAt ℝ 1 x q) (hy : ContDiffAt ℝ 1 y q)
    (hkc : ContDiffAt ℝ 1 k q) (hk : 0 < k q) (hne : ¬(x q = 0 ∧ y q = 0 ∧ k q = 1)) :
    ContDiffAt ℝ 1 (fun s => quadLimbdarkLightCurve (c s) √(x s ^ 2 + y s ^ 2) (k s)) q := by
  unfold quadLimbdarkLightCurve quadSolutionVector
  have h1 := uncovered_contDiffAt (h := fun _ => 1) continuous_const hx hy hkc hk hne
  have h2 := uncovered_contDiffAt (h := fun μ => μ) continuous_id hx hy hkc hk hne
  have h3 := uncovered_contDiffAt (h := fun μ => 4 * μ ^ 2 - 2) (by fun_prop) hx hy hkc hk hne
  exact (((h1.mul (ContDiffAt.fst hc)).add (h2.mul (ContDiffAt.fst (ContDiffAt.snd hc)))).add
    (h3.mul (ContDiffAt.snd (ContDiffAt.snd hc)))).sub contDiffAt_const

theorem getCl_contDiffAt {u1 u2 : E → ℝ} (h1 : ContDiffAt ℝ 1 u1 q) (h2 : ContDiffAt ℝ 1 u2 q) (hlaw : 1 - u1 q / 3 - u2 q / 6 ≠ 0) :
    ContDiffAt ℝ 1 (fun s => getCl (u1 s) (u2 s)) q := by
  unfold getCl
  have hn : π * (1 - u1 q - 1.5 * u2 q + (u1 q + 2 * u2 q) / 1.5) ≠ 0 := by
    refine mul_ne_zero pi_pos.ne' ?_
    convert hlaw using 1
    ring
  have hN : ContDiffAt ℝ 1 (fun y => π * (1 - u1 y - 1.5 * u2 y + (u1 y + 2 * u2 y) / 1.5)) q := by fun_prop
  refine ContDiffAt.prodMk ?_ (ContDiffAt.prodMk ?_ ?_)
  · exact ContDiffAt.div (by fun_prop) hN hn
  · exact ContDiffAt.div (by fun_prop) hN hn
  · exact ContDiffAt.div (by fun_prop) hN hn

/-- The flux when everything is varied. -/
theorem fluxAt_contDiffAt {v : E → V3} {r R u1 u2 : E → ℝ} (hlaw : (∫ p in starDisc, quadLaw (u1 q) (u2 q) (muAt p)) ≠ 0)
    (h1 : ContDiffAt ℝ 1 u1 q) (h2 : ContDiffAt ℝ 1 u2 q) (hR0 : 0 < R q) (hRc : ContDiffAt ℝ 1 R q)
    (hx : ContDiffAt ℝ 1 (fun s => (v s).x) q) (hy : ContDiffAt ℝ 1 (fun s => (v s).y) q) (hz : ContinuousAt (fun s => (v s).z) q)
    (hr : ContDiffAt ℝ 1 r q) (hr0 : 0 < r q) (hne : ¬((v q).x = 0 ∧ (v q).y = 0 ∧ r q = R q ∧ 0 < (v q).z))
    (h : (v q).z ≠ 0 ∨ R q + r q < √((v q).x ^ 2 + (v q).y ^ 2)) :
    ContDiffAt ℝ 1 (fun s => fluxAt (getCl (u1 s) (u2 s)) (R s) (r s) (v s)) q := by
  have hl := (law_ne_zero_iff _ _).1 hlaw
  have hd : ContinuousAt (fun s => √((v s).x ^ 2 + (v s).y ^ 2)) q := ((hx.continuousAt.pow 2).add (hy.continuousAt.pow 2)).sqrt
  have hRe : ∀ᶠ s in 𝓝 q, 0 < R s := continuousAt_const.eventually_lt hRc.continuousAt hR0
  have c1 := h1.continuousAt
  have c2 := h2.continuousAt
  have hle : ∀ᶠ s in 𝓝 q, 1 - u1 s / 3 - u2 s / 6 ≠ 0 :=
    ContinuousAt.eventually_ne (by fun_prop : ContinuousAt (fun s => 1 - u1 s / 3 - u2 s / 6) q) hl
  rcases h with h | h
  · rcases lt_or_gt_of_ne h with h | h
    · refine (contDiffAt_const (c := (0 : ℝ))).congr_of_eventuallyEq ?_
      filter_upwards [hz.eventually_lt continuousAt_const h, hRe] with s hs hRs
      exact C37_behind _ _ _ _ (div_nonpos_of_nonpos_of_nonneg (le_of_lt hs) hRs.le)
    · have hq := quadLc_contDiffAt (getCl_contDiffAt h1 h2 hl) (hx.div hRc hR0.ne') (hy.div hRc hR0.ne') (hr.div hRc hR0.ne') (div_pos hr0 hR0) (by
        rintro ⟨a1, a2, a3⟩
        have b1 := (div_eq_zero_iff.1 a1).resolve_right hR0.ne'
        have b2 := (div_eq_zero_iff.1 a2).resolve_right hR0.ne'
        exact hne ⟨b1, b2, (div_eq_one_iff_eq hR0.ne').1 a3, h⟩)
      refine hq.congr_of_eventuallyEq ?_
      filter_upwards [continuousAt_const.eventually_lt hz h, hRe] with s hs hRs
      unfold fluxAt computeLightCurve
      simp only [Option.getD_some, Pi.div_apply]
      rw [if_pos (by positivity), div_pow, div_pow, ← add_div, sqrt_div (by positivity), sqrt_sq hRs.le]
  · refine (contDiffAt_const (c := (0 : ℝ))).congr_of_eventuallyEq ?_
    filter_upwards [(hRc.continuousAt.add hr.continuousAt).eventually_lt hd h, hRe, hle] with s hs hRs hls
    exact fluxAt_zero ((law_ne_zero_iff _ _).2 hls) hRs (fun hc => absurd hc.2 (not_lt.2 (le_of_lt hs)))

end

/-! ## The gradient -/

theorem motionLoss_eq (u1 u2 b k : ℝ) :
    motionLoss u1 u2 b k = k * alongLimb (fun p => quadLaw u1 u2 (muAt p)) cos b k / fluxFrom u1 u2 starDisc := by
  unfold motionLoss alongLimb surface
  rw [← intervalIntegral.integral_const_mul, ← intervalIntegral.integral_div]
  refine intervalIntegral.integral_congr fun θ _ => ?_
  by_cases hp : ((b + k * cos θ, k * sin θ) : ℝ × ℝ) ∈ starDisc
  · rw [indicator_of_mem hp, indicator_of_mem hp]
    ring
  · rw [indicator_of_notMem hp, indicator_of_notMem hp]
    ring

theorem growthLoss_eq (u1 u2 b k : ℝ) :
    growthLoss u1 u2 b k = k * alongLimb (fun p => quadLaw u1 u2 (muAt p)) (fun _ => 1) b k / fluxFrom u1 u2 starDisc := by
  unfold growthLoss alongLimb surface
  rw [← intervalIntegral.integral_const_mul, ← intervalIntegral.integral_div]
  refine intervalIntegral.integral_congr fun θ _ => ?_
  by_cases hp : ((b + k * cos θ, k * sin θ) : ℝ × ℝ) ∈ starDisc
  · rw [indicator_of_mem hp, indicator_of_mem hp]
    ring
  · rw [indicator_of_notMem hp, indicator_of_notMem hp]
    ring

/-- **C106** (gradient): unless body and star coincide on the sky, the flux is strictly differentiable in distance and radius of the body, and the
light lost per unit of motion and growth is the surface brightness along the limb of the body. -/
theorem C106_gradient {u1 u2 : ℝ} (hl : PhysicalLaw u1 u2) {b k z : ℝ} (hk : 0 < k) (hne : ¬(b = 0 ∧ k = 1)) (hz : 0 < z) :
    HasStrictFDerivAt (fun q : ℝ × ℝ => computeLightCurve (getCl u1 u2) q.1 q.2 (some z))
      (-(motionLoss u1 u2 b k • ContinuousLinearMap.fst ℝ ℝ ℝ + growthLoss u1 u2 b k • ContinuousLinearMap.snd ℝ ℝ ℝ)) (b, k) := by
  have hF := hl.pos.ne'
  have h1 := (covered_gradient (continuous_law u1 u2) hk hne).const_mul (fluxFrom u1 u2 starDisc)⁻¹ |>.neg
  have e : (fun q : ℝ × ℝ => computeLightCurve (getCl u1 u2) q.1 q.2 (some z)) =
      fun q => -((fluxFrom u1 u2 starDisc)⁻¹ * ∫ p in starDisc ∩ bodyDisc q.1 q.2, quadLaw u1 u2 (muAt p)) := by
    funext q
    unfold computeLightCurve
    simp only [Option.getD_some]
    rw [if_pos hz, quadLc_covered u1 u2 q.1 q.2 hF, div_eq_inv_mul]
    rfl
  rw [e]
  refine h1.congr_fderiv ?_
  rw [motionLoss_eq, growthLoss_eq]
  ext <;> simp <;> ring

/-- **C106** (contact): a body that touches the star from outside, or does not touch it, covers no light to first order: transits begin and end
without a kink. -/
theorem C106_contact (u1 u2 : ℝ) {b k : ℝ} (hk : 0 < k) (hb : 1 + k ≤ b) : motionLoss u1 u2 b k = 0 ∧ growthLoss u1 u2 b k = 0 := by
  have hae : ∀ᵐ θ : ℝ, surface u1 u2 (b + k * cos θ, k * sin θ) = 0 := by
    have h1 := limb_ae (b := b) hk (fun h => by linarith [h.1]) volume
    filter_upwards [h1] with θ hθ
    refine indicator_of_notMem (fun hm => ?_) _
    simp only [starDisc, mem_ofPred_eq] at hm
    refine hθ (le_antisymm hm ?_)
    have h2 := neg_one_le_cos θ
    have h3 : (b + k * cos θ) ^ 2 + (k * sin θ) ^ 2 = (b - k) ^ 2 + 2 * b * k * (1 + cos θ) := by
      linear_combination k ^ 2 * sin_sq_add_cos_sq θ
    rw [h3]
    have h4 : 0 ≤ b * k * (1 + cos θ) := mul_nonneg (mul_nonneg (by linarith) hk.le) (by linarith)
    nlinarith
  unfold motionLoss growthLoss
  constructor
  · refine intervalIntegral.integral_zero_ae ?_
    filter_upwards [hae] with θ hθ _
    rw [hθ, zero_mul]
  · refine intervalIntegral.integral_zero_ae ?_
    filter_upwards [hae] with θ hθ _
    rw [hθ, zero_mul]

/-- **C106** (centre): in front of the centre of the star motion costs no light to first order. -/
theorem C106_centre (u1 u2 k : ℝ) : motionLoss u1 u2 0 k = 0 := by
  rw [motionLoss_eq, alongLimb_centre (fun μ => quadLaw u1 u2 μ), mul_zero, zero_div]

/-- **C106** (uniform star): a body inside a uniform disc covers its area; moving it changes nothing. -/
theorem C106_uniform {b k : ℝ} (hk : 0 ≤ k) (hb : |b| + k ≤ 1) : motionLoss 0 0 b k = 0 ∧ growthLoss 0 0 b k = 2 * k := by
  have e : ∀ θ, surface 0 0 (b + k * cos θ, k * sin θ) = 1 / π := by
    intro θ
    unfold surface
    rw [indicator_of_mem, fluxFrom_disc]
    · unfold quadLaw
      norm_num
    · simp only [starDisc, mem_ofPred_eq]
      have h3 : (b + k * cos θ) ^ 2 + (k * sin θ) ^ 2 = b ^ 2 + k ^ 2 + 2 * k * (b * cos θ) := by
        linear_combination k ^ 2 * sin_sq_add_cos_sq θ
      have h4 : b * cos θ ≤ |b| := by
        refine (le_abs_self _).trans ?_
        rw [abs_mul]
        exact mul_le_of_le_one_right (abs_nonneg _) (abs_cos_le_one θ)
      rw [h3, ← sq_abs b]
      nlinarith [abs_nonneg b]
  unfold motionLoss growthLoss
  simp only [e]
  constructor
  · rw [intervalIntegral.integral_const_mul, intervalIntegral.integral_const_mul, integral_cos]
    simp
  · rw [intervalIntegral.integral_const, smul_eq_mul]
    have := pi_pos.ne'
    field_simp
    ring

/-! ## In time -/

theorem kepler_contDiff {C : Consts} {A : Args} {o : Orbit} (h : keplerianInit C A = .ok o) (hp : o.Physical) {u1 u2 : ℝ}
    (hlaw : (∫ p in starDisc, quadLaw u1 u2 (muAt p)) ≠ 0) {r : ℝ} (hr0 : 0 < r) (hne : r ≠ o.r_star)
    (hr : o.r_star + r < o.a * (1 - o.eccVal)) :
    ContDiff ℝ 1 fun t => fluxAt (getCl u1 u2) o.r_star r (o.relativePosition C t) := by
  have key : ∀ {f f' f'' : ℝ → ℝ}, (∀ t, HasDerivAt f (f' t) t) → (∀ t, HasDerivAt f' (f'' t) t) → ContDiff ℝ 1 f := by
    intro f f' f'' h1 h2
    rw [contDiff_one_iff_deriv]
    refine ⟨fun t => (h1 t).differentiableAt, ?_⟩
    have : deriv f = f' := funext fun t => (h1 t).deriv
    rw [this]
    exact continuous_iff_continuousAt.2 fun t => (h2 t).continuousAt
  have a1 := fun t => (C08_velocity_is_derivative C A o h hp t).2.2
  have a2 := fun t => (C09_acceleration_is_derivative C A o h hp t).2.2
  have hx := key (fun t => (a1 t).1) fun t => (a2 t).1
  have hy := key (fun t => (a1 t).2.1) fun t => (a2 t).2.1
  rw [contDiff_iff_contDiffAt]
  intro t
  refine fluxAt_contDiffAt (v := fun t => o.relativePosition C t) (r := fun _ => r) (R := fun _ => o.r_star) (u1 := fun _ => u1) (u2 := fun _ => u2)
    hlaw contDiffAt_const contDiffAt_const hp.r_star_pos contDiffAt_const hx.contDiffAt hy.contDiffAt ((a1 t).2.2.continuousAt) contDiffAt_const hr0
    (fun hc => hne hc.2.2.1) ?_
  by_cases hz : (o.relativePosition C t).z = 0
  · right
    have := ((C13_distance_bounds C A o h hp).1 t).1
    unfold V3.norm V3.normSq at this
    rw [hz] at this
    simp only [ne_eq, OfNat.ofNat_ne_zero, not_false_eq_true, zero_pow, add_zero] at this
    linarith
  · exact Or.inl hz

/-- **C106** (rate): how fast the light fades is the light lost per unit of motion times the radial velocity on the sky in stellar radii. -/
theorem C106_rate {C : Consts} {A : Args} {o : Orbit} (h : keplerianInit C A = .ok o) (hp : o.Physical) {u1 u2 : ℝ} (hl : PhysicalLaw u1 u2)
    {r : ℝ} (hr0 : 0 < r) (t : ℝ) (hz : 0 < (o.relativePosition C t).z)
    (hs : 0 < (o.relativePosition C t).x ^ 2 + (o.relativePosition C t).y ^ 2) :
    HasDerivAt (fun t => fluxAt (getCl u1 u2) o.r_star r (o.relativePosition C t))
      (-(motionLoss u1 u2 (√((o.relativePosition C t).x ^ 2 + (o.relativePosition C t).y ^ 2) / o.r_star) (r / o.r_star) *
        (((o.relativePosition C t).x * (o.relativeVelocity t).x + (o.relativePosition C t).y * (o.relativeVelocity t).y) /
          √((o.relativePosition C t).x ^ 2 + (o.relativePosition C t).y ^ 2) / o.r_star))) t := by
  have hR := hp.r_star_pos
  obtain ⟨v1, v2, v3⟩ := (C08_velocity_is_derivative C A o h hp t).2.2
  have hsep : HasDerivAt (fun t => √((o.relativePosition C t).x ^ 2 + (o.relativePosition C t).y ^ 2) / o.r_star)
      (((o.relativePosition C t).x * (o.relativeVelocity t).x + (o.relativePosition C t).y * (o.relativeVelocity t).y) /
          √((o.relativePosition C t).x ^ 2 + (o.relativePosition C t).y ^ 2) / o.r_star) t := by
    refine ((((v1.pow 2).add (v2.pow 2)).sqrt hs.ne').div_const o.r_star).congr_deriv ?_
    simp only [Pi.add_apply, Pi.pow_apply]
    have := (sqrt_pos.2 hs).ne'
    field_simp
    ring
  have hg := (C106_gradient hl (b := √((o.relativePosition C t).x ^ 2 + (o.relativePosition C t).y ^ 2) / o.r_star) (k := r / o.r_star) (z := 1)
    (div_pos hr0 hR) (fun hc => (div_pos (sqrt_pos.2 hs) hR).ne' hc.1) one_pos).hasFDerivAt
  have hc := hg.comp_hasDerivAt t (hsep.prodMk (hasDerivAt_const t (r / o.r_star)))
  refine (hc.congr_deriv (by simp)).congr_of_eventuallyEq ?_
  filter_upwards [v3.continuousAt.eventually (lt_mem_nhds hz)] with s hs
  unfold fluxAt computeLightCurve
  simp only [Option.getD_some, Function.comp]
  rw [if_pos (by positivity), if_pos one_pos]

theorem exposureAverage_contDiff {F : ℝ → ℝ} (hF : ContDiff ℝ 1 F) (E : Option (ℝ × List ℝ × List ℝ)) :
    ContDiff ℝ 1 fun t => exposureAverage F t E := by
  rcases E with _ | ⟨x, ds, ws⟩
  · exact hF
  · simp only [exposureAverage]
    induction ds generalizing ws with
    | nil => simpa using contDiff_const
    | cons d ds ih =>
      cases ws with
      | nil => simpa using contDiff_const
      | cons w ws =>
        simp only [List.zipWith_cons_cons, List.sum_cons]
        have := ih ws
        have h1 : ContDiff ℝ 1 fun t => F (t + x * d) := hF.comp (contDiff_id.add contDiff_const)
        exact (contDiff_const.mul h1).add this

/-- **C106** (`get_light_curve`): for planets on Keplerian orbits that do not touch the star and do not have its size, with or without exposure
time, column `p` of what `get_light_curve` returns is a continuously differentiable function of time. -/
theorem C106_kepler_partial (C : Consts) (cp : ContactOp) (orbits : List Orbit) (R : ℝ) (hR : ∀ o ∈ orbits, o.r_star = R)
    (hb : ∀ o ∈ orbits, ∃ A, keplerianInit C A = .ok o) (hp : ∀ o ∈ orbits, o.Physical) (u1 u2 : ℝ)
    (hlaw : (∫ p in starDisc, quadLaw u1 u2 (muAt p)) ≠ 0) (r : Tensor ℝ) (hr : r.size = orbits.length)
    (hr0 : ∀ p < orbits.length, 0 < r.get (Tensor.unravel r.shape p) ∧ r.get (Tensor.unravel r.shape p) ≠ R)
    (ha : ∀ p (h : p < orbits.length), R + r.get (Tensor.unravel r.shape p) < orbits[p].a * (1 - orbits[p].eccVal))
    (texp : Option ℝ) (oversample order : ℤ) (ho : order = 0 ∨ order = 1 ∨ order = 2) (hn : 1 ≤ oversample) :
    ∃ F : ℕ → ℝ → ℝ, (∀ p < orbits.length, ContDiff ℝ 1 (F p)) ∧ ∀ t : Tensor ℝ, ∃ L,
      (LimbDark.new u1 u2).getLightCurve (some (keplerApi C cp orbits R)) (some r) (some t) (texp.map Tensor.scalar) oversample order
        (some false) = .ok L ∧ L.shape = t.shape ++ [orbits.length] ∧
      ∀ i p, InShape i t.shape → p < orbits.length → L.get (i ++ [p]) = F p (t.get i) := by
  let f : ℕ → ℝ → ℝ := fun p s => match orbits[p]? with
    | some o => fluxAt (getCl u1 u2) R (r.get (Tensor.unravel r.shape p)) (o.relativePosition C s)
    | none => 0
  have hf : ∀ p < orbits.length, ContDiff ℝ 1 (f p) := by
    intro p hpl
    simp only [f, List.getElem?_eq_getElem hpl]
    have hmem := List.getElem_mem hpl
    obtain ⟨A, hA⟩ := hb _ hmem
    have := kepler_contDiff hA (hp _ hmem) hlaw (hr0 p hpl).1 (by rw [hR _ hmem]; exact (hr0 p hpl).2) (by rw [hR _ hmem]; exact ha p hpl)
    rwa [hR _ hmem] at this
  rcases texp with _ | x
  · refine ⟨f, hf, fun t => ?_⟩
    obtain ⟨L, h1, h2, h3⟩ := C39_kepler C cp (LimbDark.new u1 u2) orbits R false r t hr oversample order
    refine ⟨L, h1, h2, fun i p hi hpl => ?_⟩
    rw [h3 i p hpl hi]
    simp only [f, List.getElem?_eq_getElem hpl]
    rfl
  · obtain ⟨S, hS, -⟩ := C38_weights order oversample ho hn
    refine ⟨fun p t => exposureAverage (f p) t (some (x, S)), fun p hpl => exposureAverage_contDiff (hf p hpl) _, fun t => ?_⟩
    obtain ⟨S', hS', L, h1, h2, h3⟩ := C39_values_exposure (LimbDark.new u1 u2) (keplerApi C cp orbits R) false _ rfl r t
      (Tensor.scalar x) hr (Or.inl rfl) oversample order ho hn
    rw [hS] at hS'
    cases hS'
    refine ⟨L, h1, h2, fun i p hi hpl => ?_⟩
    rw [h3 i p hi hpl]
    have e : texpAt (Tensor.scalar x) i = x := by simp [texpAt, Tensor.scalar]
    rw [e]
    congr 1
    funext s
    simp only [f, keplerApi, List.getElem?_eq_getElem hpl]
    rfl

/-- **C106** (`SimpleTransitOrbit`): the light curve of a body that is not larger than the `ror` of the orbit is continuously differentiable, unless
it has the size of the star and passes in front of its centre. -/
theorem C106_simple_partial (P d t0 b R k : ℝ) (hP : 0 < P) (hd : 0 < d) (hdP : d < P) (hR : 0 < R) (hk : 0 < 1 + k) (hb : |b| < 1 + k)
    (u1 u2 r : ℝ) (hlaw : (∫ p in starDisc, quadLaw u1 u2 (muAt p)) ≠ 0) (hr0 : 0 < r) (hr : r ≤ k * R) (hne : b ≠ 0 ∨ r ≠ R)
    (oversample order : ℤ) :
    ∃ F : ℝ → ℝ, ContDiff ℝ 1 F ∧ ∀ t : Tensor ℝ, ∃ L,
      (LimbDark.new u1 u2).getLightCurve (some (simpleApi [simpleInit P d t0 b R k] R)) (some (Tensor.scalar r)) (some t) none
        oversample order (some false) = .ok L ∧ L.shape = t.shape ++ [1] ∧
      ∀ i, InShape i t.shape → L.get (i ++ [0]) = F (t.get i) := by
  obtain ⟨v, hv, hv2, hs, -⟩ := simple_position (P := P) (d := d) (t0 := t0) hd hR hk hb 0
  obtain ⟨Q, hQ⟩ : ∃ Q : ℝ × ℝ → ℝ, ∀ b k, quadLimbdarkLightCurve (getCl u1 u2) b k = Q (b, k) :=
    ⟨fun q => quadLimbdarkLightCurve (getCl u1 u2) q.1 q.2, fun _ _ => rfl⟩
  have hQ0 : ∀ D, 1 + r / R ≤ D → Q (D, r / R) = 0 := fun D hD => by rw [← hQ]; exact C36_unocculted u1 u2 _ _ hlaw hD
  refine ⟨fun t => Q (√(v ^ 2 * wrap (t - t0) P ^ 2 + (b * R) ^ 2) / R, r / R), ?_, fun t => ?_⟩
  · rw [contDiff_iff_contDiffAt]
    intro t
    have hw : Continuous fun t => wrap (t - t0) P ^ 2 := (continuous_wrap_sq hP).comp (continuous_id.sub continuous_const)
    have hcsep : Continuous fun t => v ^ 2 * wrap (t - t0) P ^ 2 + (b * R) ^ 2 := by fun_prop
    by_cases hfar : (R + r) ^ 2 < v ^ 2 * wrap (t - t0) P ^ 2 + (b * R) ^ 2
    · refine (contDiffAt_const (c := (0 : ℝ))).congr_of_eventuallyEq ?_
      filter_upwards [hcsep.continuousAt.eventually (lt_mem_nhds hfar)] with s hs
      refine hQ0 _ ?_
      rw [show 1 + r / R = (R + r) / R by field_simp]
      exact div_le_div_of_nonneg_right (le_sqrt_of_sq_le hs.le) hR.le
    · have hw2 : wrap (t - t0) P ^ 2 ≤ (d / 2) ^ 2 := by
        have h5 : (R + r) ^ 2 ≤ (R * (1 + k)) ^ 2 := pow_le_pow_left₀ (by linarith) (by nlinarith) 2
        have h6 : v ^ 2 * wrap (t - t0) P ^ 2 ≤ v ^ 2 * (d / 2) ^ 2 := by nlinarith
        exact le_of_mul_le_mul_left h6 (by positivity)
      have hw3 := abs_le_of_sq_le_sq' hw2 (by positivity)
      obtain ⟨j, hj⟩ := wrap_spec (t - t0) P
      have hloc : ∀ᶠ s in 𝓝 t, wrap (s - t0) P = s - t0 - j * P := by
        have c1 : ContinuousAt (fun s => s - t0 - j * P) t := by fun_prop
        have e1 : -(P / 2) < t - t0 - j * P := by linarith
        have e2 : t - t0 - j * P < P / 2 := by linarith
        filter_upwards [c1.eventually (lt_mem_nhds e1), c1.eventually (gt_mem_nhds e2)] with s h1 h2
        exact wrap_eq hP h1.le h2 j (by ring)
      have hq := quadLc_contDiffAt (E := ℝ) (q := t) (c := fun _ => getCl u1 u2) (x := fun s => v * (s - t0 - j * P) / R) (y := fun _ => b)
        (k := fun _ => r / R) contDiffAt_const (by fun_prop) contDiffAt_const contDiffAt_const (by positivity) (by
          rintro ⟨-, a2, a3⟩
          rcases hne with h | h
          · exact h a2
          · exact h ((div_eq_one_iff_eq hR.ne').1 a3))
      refine hq.congr_of_eventuallyEq ?_
      filter_upwards [hloc] with s hs
      rw [hs, ← hQ]
      congr 1
      rw [show (v * (s - t0 - j * P) / R) ^ 2 + b ^ 2 = (v ^ 2 * (s - t0 - j * P) ^ 2 + (b * R) ^ 2) / R ^ 2 by field_simp,
        sqrt_div (by positivity), sqrt_sq hR.le]
  · obtain ⟨L, h1, h2, h3⟩ := C39_simple (LimbDark.new u1 u2) [simpleInit P d t0 b R k] R (Tensor.scalar r) t rfl oversample order
    refine ⟨L, h1, h2, fun i hi => ?_⟩
    obtain ⟨v', -, -, hs', hpos⟩ := simple_position (P := P) (t0 := t0) hd hR hk hb (t.get i)
    rw [hs] at hs'
    cases hs'
    refine (h3 i 0 (by simp) _ _ _ hi hpos).trans ?_
    set w := wrap (t.get i - t0) P
    have hrr : (Tensor.scalar r).get (Tensor.unravel (Tensor.scalar r).shape 0) = r := rfl
    rw [hrr]
    unfold fluxAt computeLightCurve
    simp only [Option.getD_some]
    change (if _ then quadLimbdarkLightCurve (getCl u1 u2) _ _ else 0) = _
    rw [hQ, mul_pow]
    by_cases hw : |w| < d / 2
    · rw [if_pos hw, if_pos (by positivity)]
    · rw [if_neg hw, if_neg (by rw [gt_iff_lt, not_lt]; exact div_nonpos_of_nonpos_of_nonneg (by norm_num) hR.le)]
      refine (hQ0 _ ?_).symm
      rw [show 1 + r / R = (R + r) / R by field_simp]
      refine div_le_div_of_nonneg_right ?_ hR.le
      rcases le_or_gt (R + r) 0 with hneg | hpos
      · exact hneg.trans (sqrt_nonneg _)
      refine le_sqrt_of_sq_le ?_
      have hw2 : (d / 2) ^ 2 ≤ w ^ 2 := by
        rw [← sq_abs w]; exact pow_le_pow_left₀ (by positivity) (not_lt.1 hw) 2
      have h4 : (v * d / 2) ^ 2 ≤ v ^ 2 * w ^ 2 := by
        rw [show (v * d / 2) ^ 2 = v ^ 2 * (d / 2) ^ 2 by ring]
        exact mul_le_mul_of_nonneg_left hw2 (sq_nonneg v)
      have h5 : (R + r) ^ 2 ≤ (R * (1 + k)) ^ 2 := pow_le_pow_left₀ hpos.le (by nlinarith) 2
      nlinarith

/-! ## A body of the size of the star -/

/-- When a disc of unit radius moves off the star it uncovers at least the distance it has moved. -/
theorem uncovered_lower {x : ℝ} (h0 : 0 < x) (h1 : x ≤ 1) : x ≤ fluxFrom 0 0 (starDisc \ bodyDisc x 1) := by
  have hl : PhysicalLaw 0 0 := ⟨fun μ _ _ => by unfold quadLaw; norm_num, by norm_num⟩
  set T : Set (ℝ × ℝ) := regionBetween (fun y => -√(1 - y ^ 2)) (fun y => x - √(1 - y ^ 2)) (Ioo (-(1 / 2)) (1 / 2)) with hT
  have hTm : MeasurableSet T := measurableSet_regionBetween (by fun_prop) (by fun_prop) measurableSet_Ioo
  have hvol : volume T = ENNReal.ofReal x := by
    rw [hT, Measure.volume_eq_prod, volume_regionBetween_eq_integral]
    · have : ((fun y : ℝ => x - √(1 - y ^ 2)) - fun y => -√(1 - y ^ 2)) = fun _ => x := by
        funext y
        simp only [Pi.sub_apply]
        ring
      rw [this, integral_const, smul_eq_mul]
      norm_num [Measure.real]
    · exact (Continuous.integrableOn_Icc (by fun_prop)).mono_set Ioo_subset_Icc_self
    · exact (Continuous.integrableOn_Icc (by fun_prop)).mono_set Ioo_subset_Icc_self
    · exact measurableSet_Ioo
    · intro y _
      linarith
  have hsub : Prod.swap ⁻¹' T ⊆ starDisc \ bodyDisc x 1 := by
    rintro ⟨a, y⟩ ⟨hy, ha⟩
    simp only [Prod.swap, mem_Ioo] at hy ha
    have hy2 : y ^ 2 < 1 / 4 := by nlinarith [hy.1, hy.2]
    have hw0 := sqrt_nonneg (1 - y ^ 2)
    have hw := sq_sqrt (show 0 ≤ 1 - y ^ 2 by linarith)
    have hw1 : 1 / 2 ≤ √(1 - y ^ 2) := by
      refine le_sqrt_of_sq_le ?_
      linarith
    refine ⟨?_, fun hm => ?_⟩
    · simp only [starDisc, mem_ofPred_eq]
      nlinarith [ha.1, ha.2]
    · rw [mem_bodyDisc zero_le_one] at hm
      simp only at hm
      nlinarith [ha.1, ha.2]
  calc x = fluxFrom 0 0 (Prod.swap ⁻¹' T) := by
        unfold fluxFrom quadLaw
        simp only [zero_mul, sub_zero]
        rw [setIntegral_const, smul_eq_mul, mul_one, Measure.real, Measure.volume_eq_prod,
          Measure.measurePreserving_swap.measure_preimage hTm.nullMeasurableSet, ← Measure.volume_eq_prod, hvol, ENNReal.toReal_ofReal h0.le]
    _ ≤ _ := fluxFrom_mono hl hsub sdiff_subset

/-- **C106 is false for a body of the size of the star**: at the centre of a total eclipse the light curve has a corner. -/
theorem C106_eclipse_counterexample : ¬ DifferentiableAt ℝ (fun x : ℝ => fluxAt (getCl 0 0) 1 1 ⟨x, 0, 1⟩) 0 := by
  intro hd
  have hl : PhysicalLaw 0 0 := ⟨fun μ _ _ => by unfold quadLaw; norm_num, by norm_num⟩
  have hval : ∀ x : ℝ, fluxAt (getCl 0 0) 1 1 ⟨x, 0, 1⟩ = fluxFrom 0 0 (starDisc \ bodyDisc |x| 1) / π - 1 := by
    intro x
    unfold fluxAt computeLightCurve
    simp only [Option.getD_some]
    rw [if_pos (by norm_num), quadLc_eq, fluxFrom_disc]
    simp [sqrt_sq_eq_abs]
  have h0 : fluxAt (getCl 0 0) 1 1 ⟨0, 0, 1⟩ = -1 := by
    unfold fluxAt
    simp only [ne_eq, OfNat.ofNat_ne_zero, not_false_eq_true, zero_pow, add_zero, sqrt_zero, div_one]
    exact C37_covered 0 0 0 1 1 hl (by norm_num) one_pos
  have hmin : IsLocalMin (fun x : ℝ => fluxAt (getCl 0 0) 1 1 ⟨x, 0, 1⟩) 0 := by
    refine Eventually.of_forall fun x => ?_
    simp only
    rw [h0]
    unfold fluxAt
    exact (C37_range 0 0 _ _ _ hl).1
  have hder := hd.hasDerivAt
  rw [hmin.deriv_eq_zero, hasDerivAt_iff_tendsto_slope] at hder
  have h1 : Tendsto (slope (fun x : ℝ => fluxAt (getCl 0 0) 1 1 ⟨x, 0, 1⟩) 0) (𝓝[>] 0) (𝓝 0) :=
    hder.mono_left (nhdsWithin_mono _ fun x hx => ne_of_gt hx)
  have h2 : ∀ᶠ x in 𝓝[>] (0 : ℝ), 1 / π ≤ slope (fun x : ℝ => fluxAt (getCl 0 0) 1 1 ⟨x, 0, 1⟩) 0 x := by
    filter_upwards [Ioo_mem_nhdsGT (show (0 : ℝ) < 1 by norm_num)] with x hx
    rw [slope_def_field, h0, hval, abs_of_pos hx.1, sub_zero, le_div_iff₀ hx.1, sub_neg_eq_add, sub_add_cancel, div_mul_eq_mul_div, one_mul]
    exact div_le_div_of_nonneg_right (uncovered_lower hx.1 hx.2.le) pi_pos.le
  have := ge_of_tendsto h1 h2
  have := one_div_pos.2 pi_pos
  linarith

/-! ## The hypotheses can be met -/

/-- A body on the limb. -/
example : HasStrictFDerivAt (fun q : ℝ × ℝ => computeLightCurve (getCl 0.3 0.2) q.1 q.2 (some 1))
    (-(motionLoss 0.3 0.2 1 0.1 • ContinuousLinearMap.fst ℝ ℝ ℝ + growthLoss 0.3 0.2 1 0.1 • ContinuousLinearMap.snd ℝ ℝ ℝ)) (1, 0.1) :=
  C106_gradient (physicalLaw_of_kipping (by norm_num) (by norm_num)) (by norm_num) (by norm_num) one_pos

/-- A small planet on an eccentric orbit. -/
example (C : Consts) : ∃ o, keplerianInit C demoEcc = .ok o ∧
    ContDiff ℝ 1 fun t => fluxAt (getCl 0.3 0.2) o.r_star (1 / 10) (o.relativePosition C t) := by
  obtain ⟨o, h, hp, ha, -, hR, -, -, -, -, p, he, hev, -⟩ := demoEcc_ok C
  have hev : o.eccVal = 1 / 2 := by simp [Orbit.eccVal, he, hev]
  exact ⟨o, h, kepler_contDiff h hp ((law_ne_zero_iff _ _).2 (by norm_num)) (by norm_num) (by rw [hR]; norm_num)
    (by rw [hR, ha, hev]; norm_num)⟩

/-- A transit with a duration. -/
example : ∃ F : ℝ → ℝ, ContDiff ℝ 1 F ∧ ∀ t : Tensor ℝ, ∃ L,
      (LimbDark.new 0.3 0.2).getLightCurve (some (simpleApi [simpleInit 10 0.2 1 0.3 1.1 0.1] 1.1)) (some (Tensor.scalar 0.1)) (some t) none
        7 0 (some false) = .ok L ∧ L.shape = t.shape ++ [1] ∧
      ∀ i, InShape i t.shape → L.get (i ++ [0]) = F (t.get i) :=
  C106_simple_partial 10 0.2 1 0.3 1.1 0.1 (by norm_num) (by norm_num) (by norm_num) (by norm_num) (by norm_num)
    (by rw [abs_of_nonneg (by norm_num)]; norm_num) 0.3 0.2 0.1 ((law_ne_zero_iff _ _).2 (by norm_num)) (by norm_num) (by norm_num)
    (Or.inl (by norm_num)) 7 0

end Exo
