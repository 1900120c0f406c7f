import Verif.Spec.Gradients
import Verif.Props.Slopes
import Verif.Props.VelocityFit
import Mathlib.Analysis.Calculus.InverseFunctionTheorem.ContDiff
import Mathlib.Analysis.SpecialFunctions.Complex.LogDeriv
import Mathlib.Analysis.SpecialFunctions.Trigonometric.Deriv
import Mathlib.Analysis.SpecialFunctions.Trigonometric.InverseDeriv
import Mathlib.Analysis.SpecialFunctions.Sqrt
import Mathlib.Analysis.SpecialFunctions.Pow.Deriv

/-!
# C107: positions, velocities and light curves have gradients in the parameters
-/

namespace Exo
open Real Filter Topology

variable {X : Type} [NormedAddCommGroup X] [NormedSpace ℝ X] {x : X} {n : WithTop ℕ∞}

theorem smooth_congr {f g : X → ℝ} (hf : ContDiffAt ℝ n f x) (h : f =ᶠ[𝓝 x] g) : ContDiffAt ℝ n g x := hf.congr_of_eventuallyEq h.symm

/-! ## Kepler's equation -/

/-- The map `(e, E) ↦ (e, M)`. -/
noncomputable def keplerPair (q : ℝ × ℝ) : ℝ × ℝ := (q.1, keplerMap q.1 q.2)

theorem contDiff_keplerPair {n : WithTop ℕ∞} : ContDiff ℝ n keplerPair := by
  unfold keplerPair keplerMap
  have := contDiff_sin (n := n)
  exact contDiff_fst.prodMk (contDiff_snd.sub (contDiff_fst.mul (contDiff_sin.comp contDiff_snd)))

/-- The derivative of `keplerPair`, which is invertible because `1 - e cos E` is. -/
noncomputable def keplerPairDeriv (q : ℝ × ℝ) (h : 1 - q.1 * cos q.2 ≠ 0) : (ℝ × ℝ) ≃L[ℝ] ℝ × ℝ :=
  ContinuousLinearEquiv.equivOfInverse
    ((ContinuousLinearMap.fst ℝ ℝ ℝ).prod ((1 - q.1 * cos q.2) • ContinuousLinearMap.snd ℝ ℝ ℝ - sin q.2 • ContinuousLinearMap.fst ℝ ℝ ℝ))
    ((ContinuousLinearMap.fst ℝ ℝ ℝ).prod ((1 - q.1 * cos q.2)⁻¹ • (ContinuousLinearMap.snd ℝ ℝ ℝ + sin q.2 • ContinuousLinearMap.fst ℝ ℝ ℝ)))
    (by
      rintro ⟨u, v⟩
      simp
      field_simp
      ring)
    (by
      rintro ⟨u, v⟩
      simp
      field_simp
      ring)

theorem hasFDerivAt_keplerPair (q : ℝ × ℝ) (h : 1 - q.1 * cos q.2 ≠ 0) :
    HasFDerivAt keplerPair (keplerPairDeriv q h : ℝ × ℝ →L[ℝ] ℝ × ℝ) q := by
  have h1 : HasFDerivAt (fun q : ℝ × ℝ => q.1) (ContinuousLinearMap.fst ℝ ℝ ℝ) q := hasFDerivAt_fst
  have h2 : HasFDerivAt (fun q : ℝ × ℝ => q.2) (ContinuousLinearMap.snd ℝ ℝ ℝ) q := hasFDerivAt_snd
  refine (h1.prodMk (h2.sub (h1.mul h2.sin))).congr_fderiv ?_
  ext <;> simp [keplerPairDeriv] <;> ring

/-- The solution of Kepler's equation is as smooth as the eccentricity and the mean anomaly. -/
theorem eccAnomaly_contDiffAt {e M : X → ℝ} (hn : n ≠ 0) (he : ContDiffAt ℝ n e x) (hM : ContDiffAt ℝ n M x)
    (h0 : ∀ᶠ y in 𝓝 x, 0 ≤ e y ∧ e y < 1) : ContDiffAt ℝ n (fun y => eccAnomaly (e y) (M y)) x := by
  have hx := h0.self_of_nhds
  have hc := eccAnomaly_tendsto he.continuousAt hM.continuousAt h0
  have hd : 1 - (e x, eccAnomaly (e x) (M x)).1 * cos (e x, eccAnomaly (e x) (M x)).2 ≠ 0 := by
    simp only
    have h1 := cos_le_one (eccAnomaly (e x) (M x))
    nlinarith
  have hK := contDiff_keplerPair.contDiffAt (x := (e x, eccAnomaly (e x) (M x))) (n := n)
  have hf := hasFDerivAt_keplerPair _ hd
  have hinv := hK.to_localInverse hf hn
  have hval : ∀ y, 0 ≤ e y → keplerPair (e y, eccAnomaly (e y) (M y)) = (e y, M y) := fun y h => by
    unfold keplerPair
    simp only
    rw [keplerMap_eccAnomaly h]
  rw [hval x hx.1] at hinv
  have hcomp := (hinv.comp x (he.prodMk hM)).snd
  refine hcomp.congr_of_eventuallyEq ?_
  have hleft := (hK.hasStrictFDerivAt' hf hn).eventually_left_inverse
  have hpair : ContinuousAt (fun y => (e y, eccAnomaly (e y) (M y))) x := he.continuousAt.prodMk hc
  filter_upwards [hpair.eventually hleft, h0] with y hy hy0
  have := hval y hy0.1
  simp only [Function.comp]
  rw [← this]
  exact (congrArg Prod.snd hy).symm

/-- Kepler's equation has a solution also for negative `e`, where it is that for `-e` half a period later. -/
theorem keplerMap_eccAnomaly_all (e M : ℝ) : keplerMap e (eccAnomaly e M) = M := by
  rcases le_total 0 e with h | h
  · exact keplerMap_eccAnomaly h M
  · have hs : Function.Surjective (keplerMap e) := fun M => by
      obtain ⟨E, hE⟩ := keplerMap_surjective (neg_nonneg.2 h) (M + π)
      refine ⟨E - π, ?_⟩
      simp only [keplerMap, sin_sub_pi] at hE ⊢
      linarith
    exact Function.invFun_eq (hs M)

/-- **C107** (Kepler's equation): the derivatives of the eccentric anomaly are `∂E/∂M = 1 / (1 - e cos E)` and `∂E/∂e = sin E / (1 - e cos E)`. -/
theorem C107_kepler_equation {e : ℝ} (he0 : 0 ≤ e) (he1 : e < 1) (M : ℝ) :
    HasStrictFDerivAt (fun q : ℝ × ℝ => eccAnomaly q.1 q.2)
      ((1 - e * cos (eccAnomaly e M))⁻¹ • (sin (eccAnomaly e M) • ContinuousLinearMap.fst ℝ ℝ ℝ + ContinuousLinearMap.snd ℝ ℝ ℝ)) (e, M) := by
  have hc : ContinuousAt (fun q : ℝ × ℝ => eccAnomaly q.1 q.2) (e, M) := by
    rcases he0.lt_or_eq with he0 | rfl
    · refine eccAnomaly_tendsto (x := (e, M)) (e := fun q : ℝ × ℝ => q.1) (M := fun q : ℝ × ℝ => q.2) continuousAt_fst continuousAt_snd ?_
      have c : ContinuousAt (fun q : ℝ × ℝ => q.1) (e, M) := continuousAt_fst
      filter_upwards [c.eventually (lt_mem_nhds he0), c.eventually (gt_mem_nhds he1)] with q h1 h2
      exact ⟨h1.le, h2⟩
    · have h : ∀ q : ℝ × ℝ, eccAnomaly q.1 q.2 = q.2 + q.1 * sin (eccAnomaly q.1 q.2) := fun q => by
        have := keplerMap_eccAnomaly_all q.1 q.2
        simp only [keplerMap] at this
        linarith
      have hz : Tendsto (fun q : ℝ × ℝ => q.1 * sin (eccAnomaly q.1 q.2)) (𝓝 (0, M)) (𝓝 0) := by
        refine squeeze_zero_norm (a := fun q : ℝ × ℝ => |q.1|) (fun q => ?_) ?_
        · rw [norm_mul, norm_eq_abs, norm_eq_abs]
          exact mul_le_of_le_one_right (abs_nonneg _) (abs_sin_le_one _)
        · have : ContinuousAt (fun q : ℝ × ℝ => |q.1|) (0, M) := continuousAt_fst.abs
          simpa [ContinuousAt] using this
      have hs : Tendsto (fun q : ℝ × ℝ => q.2) (𝓝 (0, M)) (𝓝 M) := continuousAt_snd
      simp only [ContinuousAt, eccAnomaly_zero_ecc]
      have := hs.add hz
      rw [add_zero] at this
      exact this.congr fun q => (h q).symm
  have hd : 1 - (e, eccAnomaly e M).1 * cos (e, eccAnomaly e M).2 ≠ 0 := by
    simp only
    have h1 := cos_le_one (eccAnomaly e M)
    nlinarith
  have hf := (contDiff_keplerPair (n := 1)).contDiffAt.hasStrictFDerivAt' (hasFDerivAt_keplerPair _ hd) one_ne_zero
  have hinv := hf.to_localInverse
  have hval : ∀ q : ℝ × ℝ, keplerPair (q.1, eccAnomaly q.1 q.2) = q := fun q => by
    unfold keplerPair
    simp only
    rw [keplerMap_eccAnomaly_all]
  rw [hval (e, M)] at hinv
  refine (hinv.snd.congr_of_eventuallyEq ?_).congr_fderiv ?_
  · have hpair : ContinuousAt (fun q : ℝ × ℝ => (q.1, eccAnomaly q.1 q.2)) (e, M) := continuousAt_fst.prodMk hc
    filter_upwards [hpair.eventually hf.eventually_left_inverse] with q hq
    have := hval q
    rw [this] at hq
    exact congrArg Prod.snd hq
  · ext <;> simp [keplerPairDeriv]

theorem arctan2_contDiffAt {u v : X → ℝ} (hu : ContDiffAt ℝ n u x) (hv : ContDiffAt ℝ n v x) (h : 0 < v x) :
    ContDiffAt ℝ n (fun y => arctan2 (u y) (v y)) x := by
  have h1 : ContDiffAt ℝ n Complex.log (⟨v x, u x⟩ : ℂ) := (Complex.contDiffAt_log (Or.inl h)).restrict_scalars ℝ
  have h2 : ContDiffAt ℝ n (fun y => (⟨v y, u y⟩ : ℂ)) x := by
    have e : (fun y => (⟨v y, u y⟩ : ℂ)) = fun y => Complex.ofRealCLM (v y) + Complex.ofRealCLM (u y) * Complex.I := by
      funext y
      exact Complex.mk_eq_add_mul_I _ _
    rw [e]
    exact (Complex.ofRealCLM.contDiff.contDiffAt.comp x hv).add ((Complex.ofRealCLM.contDiff.contDiffAt.comp x hu).mul contDiffAt_const)
  have h3 := Complex.imCLM.contDiff.contDiffAt.comp x (h1.comp x h2)
  refine h3.congr_of_eventuallyEq (Eventually.of_forall fun y => ?_)
  simp [arctan2, Function.comp, Complex.log_im]

/-- The mean anomaly at transit is as smooth as the eccentricity and the direction of periastron, except at `sin ω = -1`. -/
theorem M0Of_contDiffAt {o : X → Orbit} (he : ContDiffAt ℝ n (fun y => (o y).eccVal) x)
    (hs : ContDiffAt ℝ n (fun y => (o y).sw) x) (hc : ContDiffAt ℝ n (fun y => (o y).cw) x) (hp : ∀ᶠ y in 𝓝 x, (o y).Physical)
    (hr : (o x).sw ≠ -1) : ContDiffAt ℝ n (fun y => M0Of (o y).ecc) x := by
  have hx := hp.self_of_nhds
  have e : ∀ y, M0Of (o y).ecc = 2 * arctan2 (√(1 - (o y).eccVal) * (o y).cw) (√(1 + (o y).eccVal) * (1 + (o y).sw)) -
      (o y).eccVal * sin (2 * arctan2 (√(1 - (o y).eccVal) * (o y).cw) (√(1 + (o y).eccVal) * (1 + (o y).sw))) := by
    intro y
    unfold M0Of Orbit.eccVal Orbit.sw Orbit.cw
    cases h : (o y).ecc with
    | some p => rfl
    | none =>
      simp only
      have : arctan2 (√(1 - 0) * 1) (√(1 + 0) * (1 + 0)) = π / 4 := by
        norm_num
        unfold arctan2
        rw [show (⟨1, 1⟩ : ℂ) = ((√2 : ℝ) : ℂ) * (Complex.cos ((π / 4 : ℝ) : ℂ) + Complex.sin ((π / 4 : ℝ) : ℂ) * Complex.I) by
          apply Complex.ext <;> simp [← Complex.ofReal_cos, ← Complex.ofReal_sin, -Complex.ofReal_div, cos_pi_div_four, sin_pi_div_four, mul_div_assoc']]
        exact Complex.arg_mul_cos_add_sin_mul_I (by positivity) ⟨by linarith [pi_pos], by linarith [pi_pos]⟩
      rw [this]
      ring
  have h1 := hx.omega_sq
  have h2 : -1 ≤ (o x).sw := by nlinarith [sq_nonneg (o x).cw]
  have h3 : 0 < 1 + (o x).sw := by
    rcases h2.eq_or_lt with h | h
    · exact absurd h.symm hr
    · linarith
  have h4 := hx.eccOk.nonneg
  have h5 := hx.eccOk.lt_one
  have ha := arctan2_contDiffAt (x := x) ((((contDiffAt_const (c := (1 : ℝ))).sub he).sqrt (by linarith)).mul hc)
    ((((contDiffAt_const (c := (1 : ℝ))).add he).sqrt (by linarith)).mul ((contDiffAt_const (c := (1 : ℝ))).add hs)) (by positivity)
  have h6 := (contDiffAt_const (c := (2 : ℝ))).mul ha
  have : (fun y => M0Of (o y).ecc) = _ := funext e
  rw [this]
  exact h6.sub (he.mul (contDiff_sin.contDiffAt.comp x h6))

section
variable {C : Consts} {o : X → Orbit}

theorem E_contDiffAt (hn : n ≠ 0) (hb : ∀ y, ∃ A, keplerianInit C A = .ok (o y)) (hp : ∀ᶠ y in 𝓝 x, (o y).Physical) (hc : ElementsSmoothAt n o x)
    (hr : (o x).Regular) {t : X → ℝ} (ht : ContDiffAt ℝ n t x) : ContDiffAt ℝ n (fun y => (o y).E (t y)) x := by
  have hx := hp.self_of_nhds
  have hM0 := M0Of_contDiffAt hc.ecc hc.sinOmega hc.cosOmega hp hr.sw_ne
  have hM : ContDiffAt ℝ n (fun y => (o y).meanAnom (t y)) x := by
    have e : (fun y => (t y - (o y).t0) * (2 * π / (o y).period) + M0Of (o y).ecc) =ᶠ[𝓝 x] fun y => (o y).meanAnom (t y) := by
      filter_upwards [hp] with y hy
      obtain ⟨A, hA⟩ := hb y
      have B := built_of_init hA
      have hn := (B.n_pos hy).ne'
      rw [B.meanAnom_eq, B.t0_eq, ← B.n_eq, ← B.M0_eq]
      field_simp
      ring
    refine smooth_congr ?_ e
    exact ((ht.sub hc.t0).mul (contDiffAt_const.div hc.period hx.period_pos.ne')).add hM0
  exact eccAnomaly_contDiffAt hn hc.ecc hM (hp.mono fun y hy => ⟨hy.eccOk.nonneg, hy.eccOk.lt_one⟩)

theorem rotate_contDiffAt (hb : ∀ y, ∃ A, keplerianInit C A = .ok (o y)) (hp : ∀ᶠ y in 𝓝 x, (o y).Physical) (hc : ElementsSmoothAt n o x)
    {f g : X → ℝ} (hf : ContDiffAt ℝ n f x) (hg : ContDiffAt ℝ n g x) : SmoothVAt n (fun y => (o y).rotate (f y) (g y)) x := by
  have hcW : ContDiffAt ℝ n (fun y => (o y).cW) x := by
    simp only [Orbit.cW_eq]
    exact contDiff_cos.contDiffAt.comp x hc.Omega
  have hsW : ContDiffAt ℝ n (fun y => (o y).sW) x := by
    simp only [Orbit.sW_eq]
    exact contDiff_sin.contDiffAt.comp x hc.Omega
  have hsi : ContDiffAt ℝ n (fun y => (o y).sin_incl) x := by
    refine smooth_congr (contDiff_sin.contDiffAt.comp x hc.incl) (Eventually.of_forall fun y => ?_)
    obtain ⟨A, hA⟩ := hb y
    exact (built_of_init hA).sin_incl_eq.symm
  have hci : ContDiffAt ℝ n (fun y => (o y).cos_incl) x := by
    refine smooth_congr (contDiff_cos.contDiffAt.comp x hc.incl) ?_
    filter_upwards [hp] with y hy
    obtain ⟨A, hA⟩ := hb y
    exact ((built_of_init hA).cos_incl_eq hy.cos_incl_abs).symm
  have hs : ContDiffAt ℝ n (fun y => (o y).sw) x := hc.sinOmega
  have hcw : ContDiffAt ℝ n (fun y => (o y).cw) x := hc.cosOmega
  unfold SmoothVAt
  simp only [Orbit.rotate_eq]
  have h1 := (hcw.mul hf).sub (hs.mul hg)
  have h2 := (hs.mul hf).add (hcw.mul hg)
  exact ⟨(hcW.mul h1).sub (hsW.mul (hci.mul h2)), (hsW.mul h1).add (hcW.mul (hci.mul h2)), hsi.neg.mul h2⟩

/-- **C107** (positions, away from `sin ω = -1`): if the elements of an orbit and the time are `n` times continuously differentiable functions of some
parameters, so are the positions of planet and star and their separation; this includes `n = ∞` and analytic dependence. -/
theorem C107_positions_partial (hn : n ≠ 0) (hb : ∀ y, ∃ A, keplerianInit C A = .ok (o y)) (hp : ∀ᶠ y in 𝓝 x, (o y).Physical) (hc : ElementsSmoothAt n o x)
    (hr : (o x).Regular) {t : X → ℝ} (ht : ContDiffAt ℝ n t x) :
    SmoothVAt n (fun y => (o y).relativePosition C (t y)) x ∧ SmoothVAt n (fun y => (o y).planetPosition C (t y)) x ∧
    SmoothVAt n (fun y => (o y).starPosition C (t y)) x := by
  have hE := E_contDiffAt hn hb hp hc hr ht
  have hx := hp.self_of_nhds
  have hse : ContDiffAt ℝ n (fun y => (o y).se) x := by
    unfold Orbit.se
    exact ((contDiffAt_const (c := (1 : ℝ))).sub (hc.ecc.pow 2)).sqrt (by have := hx.eccOk.nonneg; have := hx.eccOk.lt_one; nlinarith)
  have key : ∀ a : X → ℝ, ContDiffAt ℝ n a x → SmoothVAt n (fun y => (o y).positionNow C (a y) (t y) none) x := by
    intro a ha
    have h := rotate_contDiffAt hb hp hc (ha.mul ((contDiff_cos.contDiffAt.comp x hE).sub hc.ecc))
      (ha.mul (hse.mul (contDiff_sin.contDiffAt.comp x hE)))
    have e : (fun y => (o y).rotate (a y * (cos ((o y).E (t y)) - (o y).eccVal)) (a y * ((o y).se * sin ((o y).E (t y))))) =ᶠ[𝓝 x]
        fun y => (o y).positionNow C (a y) (t y) none := by
      filter_upwards [hp] with y hy
      exact (Orbit.positionNow_eq hy.eccOk C (a y) (t y)).symm
    exact ⟨smooth_congr h.1 (e.fun_comp V3.x), smooth_congr h.2.1 (e.fun_comp V3.y), smooth_congr h.2.2 (e.fun_comp V3.z)⟩
  obtain ⟨A, hA⟩ := hb x
  have hmt : (o x).m_star + (o x).m_planet ≠ 0 := by
    have := hx.m_star_pos
    have := hx.m_planet_nonneg
    positivity
  have hm : ContDiffAt ℝ n (fun y => (o y).m_star + (o y).m_planet) x := hc.m_star.add hc.m_planet
  refine ⟨key _ hc.a.neg, key _ ?_, key _ ?_⟩
  · refine smooth_congr ((hc.a.neg.mul hc.m_star).div hm hmt) (Eventually.of_forall fun y => ?_)
    obtain ⟨A, hA⟩ := hb y
    show -(o y).a * (o y).m_star / ((o y).m_star + (o y).m_planet) = (o y).a_planet
    rw [(built_of_init hA).a_planet_eq, (built_of_init hA).m_total_eq]
  · refine smooth_congr ((hc.a.mul hc.m_planet).div hm hmt) (Eventually.of_forall fun y => ?_)
    obtain ⟨A, hA⟩ := hb y
    show (o y).a * (o y).m_planet / ((o y).m_star + (o y).m_planet) = (o y).a_star
    rw [(built_of_init hA).a_star_eq, (built_of_init hA).m_total_eq]

/-- **C107** (velocities, away from `sin ω = -1`). -/
theorem C107_velocities_partial (hn : n ≠ 0) (hb : ∀ y, ∃ A, keplerianInit C A = .ok (o y)) (hp : ∀ᶠ y in 𝓝 x, (o y).Physical) (hc : ElementsSmoothAt n o x)
    (hr : (o x).Regular) {t : X → ℝ} (ht : ContDiffAt ℝ n t x) :
    SmoothVAt n (fun y => (o y).relativeVelocity (t y)) x ∧ SmoothVAt n (fun y => (o y).planetVelocity (t y)) x ∧
    SmoothVAt n (fun y => (o y).starVelocity (t y)) x := by
  have hE := E_contDiffAt hn hb hp hc hr ht
  have hx := hp.self_of_nhds
  have hse : ContDiffAt ℝ n (fun y => (o y).se) x := by
    unfold Orbit.se
    exact ((contDiffAt_const (c := (1 : ℝ))).sub (hc.ecc.pow 2)).sqrt (by have := hx.eccOk.nonneg; have := hx.eccOk.lt_one; nlinarith)
  have hmt : (o x).m_star + (o x).m_planet ≠ 0 := by
    have := hx.m_star_pos
    have := hx.m_planet_nonneg
    positivity
  have hm : ContDiffAt ℝ n (fun y => (o y).m_star + (o y).m_planet) x := hc.m_star.add hc.m_planet
  have hK : ContDiffAt ℝ n (fun y => (o y).K0) x := by
    refine smooth_congr ((((contDiffAt_const (c := 2 * π)).div hc.period hx.period_pos.ne').mul hc.a).div hm hmt |>.div hse hx.eccOk.se_pos.ne')
      (Eventually.of_forall fun y => ?_)
    obtain ⟨A, hA⟩ := hb y
    have B := built_of_init hA
    show 2 * π / (o y).period * (o y).a / ((o y).m_star + (o y).m_planet) / (o y).se = (o y).K0
    rw [B.K0_eq, K0Of_eq, B.n_eq, B.m_total_eq]
  have hd : ContDiffAt ℝ n (fun y => 1 - (o y).eccVal * cos ((o y).E (t y))) x :=
    contDiffAt_const.sub (hc.ecc.mul (contDiff_cos.contDiffAt.comp x hE))
  have key : ∀ m : X → ℝ, ContDiffAt ℝ n m x → SmoothVAt n (fun y => (o y).velocity (m y) (t y)) x := by
    intro m hm
    have h := rotate_contDiffAt hb hp hc
      ((((hK.mul hm).neg.mul hse).mul (contDiff_sin.contDiffAt.comp x hE)).div hd (hx.eccOk.dpos (t x)).ne')
      ((((hK.mul hm).mul ((contDiffAt_const (c := (1 : ℝ))).sub (hc.ecc.pow 2))).mul (contDiff_cos.contDiffAt.comp x hE)).div hd
        (hx.eccOk.dpos (t x)).ne')
    have e : (fun y => (o y).rotate (-((o y).K0 * m y) * (o y).se * sin ((o y).E (t y)) / (1 - (o y).eccVal * cos ((o y).E (t y))))
        ((o y).K0 * m y * (1 - (o y).eccVal ^ 2) * cos ((o y).E (t y)) / (1 - (o y).eccVal * cos ((o y).E (t y))))) =ᶠ[𝓝 x]
        fun y => (o y).velocity (m y) (t y) := by
      filter_upwards [hp] with y hy
      exact (Orbit.velocity_anom hy.eccOk (m y) (t y)).symm
    exact ⟨smooth_congr h.1 (e.fun_comp V3.x), smooth_congr h.2.1 (e.fun_comp V3.y), smooth_congr h.2.2 (e.fun_comp V3.z)⟩
  refine ⟨key _ ?_, key _ hc.m_star.neg, key _ hc.m_planet⟩
  refine smooth_congr hm.neg (Eventually.of_forall fun y => ?_)
  obtain ⟨A, hA⟩ := hb y
  show -((o y).m_star + (o y).m_planet) = -(o y).m_total
  rw [(built_of_init hA).m_total_eq]

/-- **C107** (radial velocity, away from `sin ω = -1`), with and without `K`. -/
theorem C107_radial_velocity_partial (hn : n ≠ 0) (hb : ∀ y, ∃ A, keplerianInit C A = .ok (o y)) (hp : ∀ᶠ y in 𝓝 x, (o y).Physical)
    (hc : ElementsSmoothAt n o x) (hr : (o x).Regular) {t K : X → ℝ} (ht : ContDiffAt ℝ n t x) (hK : ContDiffAt ℝ n K x) :
    (∃ V : X → ℝ, (∀ y, (o y).radialVelocity C (t y) (some (K y)) = .ok (V y)) ∧ ContDiffAt ℝ n V x) ∧
    ∀ units : Option AUnit, (∃ e, ∀ y, (o y).radialVelocity C (t y) none units = .error e) ∨
      ∃ V : X → ℝ, (∀ y, (o y).radialVelocity C (t y) none units = .ok (V y)) ∧ ContDiffAt ℝ n V x := by
  constructor
  · refine ⟨_, fun y => rv_eq C (o y) (t y) (K y), ?_⟩
    have hE := E_contDiffAt hn hb hp hc hr ht
    have hx := hp.self_of_nhds
    have hse : ContDiffAt ℝ n (fun y => (o y).se) x := by
      unfold Orbit.se
      exact ((contDiffAt_const (c := (1 : ℝ))).sub (hc.ecc.pow 2)).sqrt (by have := hx.eccOk.nonneg; have := hx.eccOk.lt_one; nlinarith)
    have hd : ContDiffAt ℝ n (fun y => 1 - (o y).eccVal * cos ((o y).E (t y))) x :=
      contDiffAt_const.sub (hc.ecc.mul (contDiff_cos.contDiffAt.comp x hE))
    have hs : ContDiffAt ℝ n (fun y => (o y).sw) x := hc.sinOmega
    have hcw : ContDiffAt ℝ n (fun y => (o y).cw) x := hc.cosOmega
    unfold Orbit.latCos
    simp only [Orbit.cosf_eq, Orbit.sinf_eq]
    have h1 := ((contDiff_cos.contDiffAt.comp x hE).sub hc.ecc).div hd (hx.eccOk.dpos (t x)).ne'
    have h2 := (hse.mul (contDiff_sin.contDiffAt.comp x hE)).div hd (hx.eccOk.dpos (t x)).ne'
    exact hK.mul (((hcw.mul h1).sub (hs.mul h2)).add (hc.ecc.mul hcw))
  · intro units
    have hv := (C107_velocities_partial hn hb hp hc hr ht).2.2.2.2
    unfold Orbit.radialVelocity
    cases C.rSunPerDay.to (units.getD C.mPerS) with
    | error e => exact Or.inl ⟨e, fun y => rfl⟩
    | ok conv => exact Or.inr ⟨_, fun y => rfl, contDiffAt_const.mul hv⟩

end

/-! ## Light curves -/

/-- The flux of one planet. -/
theorem flux_contDiffAt {C : Consts} {o : X → Orbit} (hb : ∀ y, ∃ A, keplerianInit C A = .ok (o y)) (hp : ∀ᶠ y in 𝓝 x, (o y).Physical)
    (hc : ElementsSmoothAt 1 o x) (hr : (o x).Regular) {t u1 u2 r R : X → ℝ} (ht : ContDiffAt ℝ 1 t x) (h1 : ContDiffAt ℝ 1 u1 x)
    (h2 : ContDiffAt ℝ 1 u2 x) (hrc : ContDiffAt ℝ 1 r x) (hR : ContDiffAt ℝ 1 R x) (hRo : ∀ y, (o y).r_star = R y)
    (hlaw : (∫ p in starDisc, quadLaw (u1 x) (u2 x) (muAt p)) ≠ 0) (hr0 : 0 < r x) (hne : r x ≠ R x)
    (hclear : R x + r x < (o x).a * (1 - (o x).eccVal)) :
    ContDiffAt ℝ 1 (fun y => fluxAt (getCl (u1 y) (u2 y)) (R y) (r y) ((o y).relativePosition C (t y))) x := by
  have hx := hp.self_of_nhds
  obtain ⟨A, hA⟩ := hb x
  have hv := (C107_positions_partial one_ne_zero hb hp hc hr ht).1
  refine fluxAt_contDiffAt hlaw h1 h2 (by rw [← hRo]; exact hx.r_star_pos) hR hv.1 hv.2.1 hv.2.2.continuousAt hrc hr0 (fun h => hne h.2.2.1) ?_
  by_cases hz : ((o x).relativePosition C (t x)).z = 0
  · right
    have hn := ((C13_distance_bounds C A (o x) hA hx).1 (t x)).1
    unfold V3.norm V3.normSq at hn
    rw [hz] at hn
    simp only [ne_eq, OfNat.ofNat_ne_zero, not_false_eq_true, zero_pow, add_zero] at hn
    linarith
  · exact Or.inl hz

theorem exposureAverage_contDiffAt {F : X → ℝ → ℝ} (hF : ∀ s, ContDiffAt ℝ n (fun y => F y s) x) (t : ℝ) (E : Option (ℝ × List ℝ × List ℝ)) :
    ContDiffAt ℝ n (fun y => exposureAverage (F y) t E) x := by
  rcases E with _ | ⟨τ, ds, ws⟩
  · exact hF t
  · simp only [exposureAverage]
    induction ds generalizing ws with
    | nil => simpa using contDiffAt_const
    | cons d ds ih =>
      cases ws with
      | nil => simpa using contDiffAt_const
      | cons w ws =>
        simp only [List.zipWith_cons_cons, List.sum_cons]
        exact (contDiffAt_const.mul (hF _)).add (ih ws)

/-- **C107** (light curves, away from `sin ω = -1` and from bodies of the size of the star): what `get_light_curve` returns for a system of planets
that do not touch the star is continuously differentiable in the limb-darkening coefficients, the radii and the elements of all orbits, with and
without exposure time. -/
theorem C107_light_curve_partial (C : Consts) (cp : ContactOp) {N : ℕ} {o : Fin N → X → Orbit} (hb : ∀ p y, ∃ A, keplerianInit C A = .ok (o p y))
    (hp : ∀ p, ∀ᶠ y in 𝓝 x, (o p y).Physical) (hc : ∀ p, ElementsSmoothAt 1 (o p) x) (hr : ∀ p, (o p x).Regular) {u1 u2 R : X → ℝ}
    (h1 : ContDiffAt ℝ 1 u1 x) (h2 : ContDiffAt ℝ 1 u2 x) (hR : ContDiffAt ℝ 1 R x) (hRo : ∀ p y, (o p y).r_star = R y)
    (hlaw : (∫ p in starDisc, quadLaw (u1 x) (u2 x) (muAt p)) ≠ 0) {r : X → Tensor ℝ} (hrN : ∀ y, (r y).size = N)
    (hrc : ∀ p < N, ContDiffAt ℝ 1 (fun y => (r y).get (Tensor.unravel (r y).shape p)) x)
    (hr0 : ∀ p < N, 0 < (r x).get (Tensor.unravel (r x).shape p) ∧ (r x).get (Tensor.unravel (r x).shape p) ≠ R x)
    (hclear : ∀ p : Fin N, R x + (r x).get (Tensor.unravel (r x).shape p) < (o p x).a * (1 - (o p x).eccVal))
    (t : Tensor ℝ) (texp : Option ℝ) (oversample order : ℤ) (ho : order = 0 ∨ order = 1 ∨ order = 2) (hov : 1 ≤ oversample) :
    ∃ L : X → Tensor ℝ, (∀ y, (LimbDark.new (u1 y) (u2 y)).getLightCurve (some (keplerApi C cp (List.ofFn fun p => o p y) (R y))) (some (r y))
        (some t) (texp.map Tensor.scalar) oversample order (some false) = .ok (L y)) ∧ (∀ y, (L y).shape = t.shape ++ [N]) ∧
      ∀ i p, InShape i t.shape → p < N → ContDiffAt ℝ 1 (fun y => (L y).get (i ++ [p])) x := by
  have hf : ∀ p : Fin N, ∀ s, ContDiffAt ℝ 1 (fun y => fluxAt (getCl (u1 y) (u2 y)) (R y) ((r y).get (Tensor.unravel (r y).shape p))
      ((o p y).relativePosition C s)) x := fun p s =>
    flux_contDiffAt (hb p) (hp p) (hc p) (hr p) contDiffAt_const h1 h2 (hrc p p.2) hR (hRo p) hlaw (hr0 p p.2).1 (hr0 p p.2).2 (hclear p)
  have hsize : ∀ y, (r y).size = (List.ofFn fun p => o p y).length := fun y => by rw [List.length_ofFn, hrN]
  rcases texp with _ | τ
  · choose L e1 e2 e3 using fun y => C39_kepler C cp (LimbDark.new (u1 y) (u2 y)) (List.ofFn fun p => o p y) (R y) false (r y) t (hsize y) oversample order
    refine ⟨L, e1, fun y => by rw [e2, List.length_ofFn], fun i p hi hpN => ?_⟩
    refine (hf ⟨p, hpN⟩ (t.get i)).congr_of_eventuallyEq (Eventually.of_forall fun y => ?_)
    simp only
    rw [e3 y i p (by rwa [List.length_ofFn]) hi, List.getElem_ofFn]
    rfl
  · obtain ⟨S, hS, -⟩ := C38_weights order oversample ho hov
    choose S' hS' L e1 e2 e3 using fun y => C39_values_exposure (LimbDark.new (u1 y) (u2 y)) (keplerApi C cp (List.ofFn fun p => o p y) (R y)) false _ rfl
      (r y) t (Tensor.scalar τ) (hsize y) (Or.inl rfl) oversample order ho hov
    refine ⟨L, e1, fun y => by rw [e2]; simp [keplerApi], fun i p hi hpN => ?_⟩
    refine (exposureAverage_contDiffAt (hf ⟨p, hpN⟩) (t.get i) (some (τ, S))).congr_of_eventuallyEq (Eventually.of_forall fun y => ?_)
    simp only
    have hSy := hS' y
    rw [hS] at hSy
    have hSe : S' y = S := (Except.ok.inj hSy).symm
    rw [e3 y i p hi (by simpa [keplerApi] using hpN), hSe]
    have e : texpAt (Tensor.scalar τ) i = τ := by simp [texpAt, Tensor.scalar]
    rw [e]
    congr 1
    funext s
    simp [keplerApi, hpN]
    rfl

/-- **C107** (likelihood): the log-likelihood of any data with Gaussian noise is continuously differentiable wherever the model of the data and the
width of the noise are. -/
theorem C107_likelihood {D : Type} (data : List D) (obs : D → ℝ) {model sigma : D → X → ℝ} (hm : ∀ d ∈ data, ContDiffAt ℝ n (model d) x)
    (hs : ∀ d ∈ data, ContDiffAt ℝ n (sigma d) x ∧ 0 < sigma d x) :
    ContDiffAt ℝ n (fun y => (data.map fun d => log (normalPdf (model d y) (sigma d y) (obs d))).sum) x := by
  induction data with
  | nil => simpa using contDiffAt_const
  | cons d ds ih =>
    simp only [List.map_cons, List.sum_cons]
    refine ContDiffAt.add ?_ (ih (fun d hd => hm d (List.mem_cons_of_mem _ hd)) fun d hd => hs d (List.mem_cons_of_mem _ hd))
    obtain ⟨h1, h2⟩ := hs d List.mem_cons_self
    have h3 := hm d List.mem_cons_self
    have hpi : 0 < √(2 * π) := sqrt_pos.2 (by have := pi_pos; positivity)
    unfold normalPdf
    refine ContDiffAt.log ?_ (by positivity)
    exact (((contDiffAt_const.sub h3).pow 2).neg.div (contDiffAt_const.mul (h1.pow 2)) (by positivity)).exp.div (h1.mul contDiffAt_const)
      (by positivity)

/-! ## From the arguments of the constructor -/

/-- **C107** (arguments): if the arguments `period`, `m_star`, `r_star`, `m_planet`, `t0`, `b`, `ecc`, `omega` and `Omega` are `n` times continuously
differentiable, so are the elements of the orbit: the theorems above apply. -/
theorem C107_arguments (C : Consts) {P M R m t0 b e w W : X → ℝ} (hP : ContDiffAt ℝ n P x) (hM : ContDiffAt ℝ n M x)
    (hR : ContDiffAt ℝ n R x) (hm : ContDiffAt ℝ n m x) (ht0 : ContDiffAt ℝ n t0 x) (hb : ContDiffAt ℝ n b x) (he : ContDiffAt ℝ n e x)
    (hw : ContDiffAt ℝ n w x) (hW : ContDiffAt ℝ n W x) (hP0 : 0 < P x) (hM0 : 0 < M x) (hR0 : 0 < R x) (hm0 : ∀ᶠ y in 𝓝 x, 0 ≤ m y)
    (he0 : ∀ᶠ y in 𝓝 x, 0 ≤ e y) (he1 : e x < 1)
    (hi : |b x * (R x * (1 + e x * sin (w x)))| < (C.G * (M x + m x) * P x ^ 2 / (4 * π ^ 2)) ^ (1 / 3 : ℝ) * (1 - e x ^ 2)) :
    ∃ o : X → Orbit, (∀ y, keplerianInit C (transitArgs (P y) (M y) (R y) (m y) (t0 y) (b y) (e y) (w y) (W y)) = .ok (o y)) ∧
      (∀ᶠ y in 𝓝 x, (o y).Physical) ∧ ElementsSmoothAt n o x ∧ (sin (w x) ≠ -1 → (o x).Regular) ∧ (∀ y, (o y).r_star = R y) := by
  have hpi := pi_pos
  have hG := C.G_pos
  obtain ⟨o, ho, hphys, -, hreg, -⟩ := C95_arguments C hP.continuousAt hM.continuousAt hR.continuousAt hm.continuousAt ht0.continuousAt
    hb.continuousAt he.continuousAt hw.continuousAt hW.continuousAt hP0 hM0 hR0 hm0 he0 he1 hi
  have hex : ∀ y, (o y).a = (C.G * (M y + m y) * P y ^ 2 / (4 * π ^ 2)) ^ (1 / 3 : ℝ) ∧ (o y).period = P y ∧ (o y).m_star = M y ∧
      (o y).m_planet = m y ∧ (o y).r_star = R y ∧ (o y).t0 = t0 y ∧ (o y).Omega = some (W y) ∧
      (o y).ecc = some ⟨e y, w y, cos (w y), sin (w y)⟩ ∧
      (o y).cos_incl = (1 + e y * sin (w y)) / (1 - e y ^ 2) * R y / (C.G * (M y + m y) * P y ^ 2 / (4 * π ^ 2)) ^ (1 / 3 : ℝ) * b y ∧
      (o y).incl = arccos (o y).cos_incl := by
    intro y
    have := Except.ok.inj (ho y)
    rw [← this]
    exact ⟨rfl, rfl, rfl, rfl, rfl, rfl, rfl, rfl, rfl, rfl⟩
  choose ha hPo hMo hmo hRo ht0o hWo heo hci hinc using hex
  have hmx := hm0.self_of_nhds
  have hex0 := he0.self_of_nhds
  have hbase : C.G * (M x + m x) * P x ^ 2 / (4 * π ^ 2) ≠ 0 := by positivity
  have hac : ContDiffAt ℝ n (fun y => (o y).a) x := by
    simp only [ha]
    exact ContDiffAt.rpow_const_of_ne (((contDiffAt_const.mul (hM.add hm)).mul (hP.pow 2)).div_const _) hbase
  have hax : 0 < (o x).a := hphys.self_of_nhds.a_pos
  have he2 : 0 < 1 - e x ^ 2 := by nlinarith
  have hsw := contDiff_sin.contDiffAt.comp x hw
  have hcic : ContDiffAt ℝ n (fun y => (o y).cos_incl) x := by
    simp only [hci, ← ha]
    exact (((((contDiffAt_const.add (he.mul hsw)).div (contDiffAt_const.sub (he.pow 2)) he2.ne').mul hR).div hac hax.ne').mul hb)
  have hcx : |(o x).cos_incl| < 1 := by
    rw [hci, ← ha]
    rw [← ha] at hi
    have : (1 + e x * sin (w x)) / (1 - e x ^ 2) * R x / (o x).a * b x = b x * (R x * (1 + e x * sin (w x))) / ((o x).a * (1 - e x ^ 2)) := by
      field_simp
    rw [this, abs_div, abs_of_pos (by positivity : 0 < (o x).a * (1 - e x ^ 2)), div_lt_one (by positivity)]
    exact hi
  refine ⟨o, ho, hphys, ⟨hac, by simpa only [hPo] using hP, by simpa only [ht0o] using ht0, ?_, ?_, ?_, ?_, ?_, by simpa only [hMo] using hM,
      by simpa only [hmo] using hm⟩, hreg, hRo⟩
  · simpa only [Orbit.eccVal, heo] using he
  · simp only [Orbit.sinOmega, heo]
    exact hsw
  · simp only [Orbit.cosOmega, heo]
    exact contDiff_cos.contDiffAt.comp x hw
  · simp only [hinc]
    have := abs_lt.1 hcx
    exact (contDiffAt_arccos (by linarith) (by linarith)).comp x hcic
  · simpa only [hWo, Option.getD_some] using hW

/-! ## The exception -/

/-- **C107 is false at `sin ω = -1`**: the family of orbits with `sin_omega = sin w` and `cos_omega = cos w` has smooth elements, but the
position at `t0` is not differentiable, not even continuous, where it passes through `w = -π / 2`. -/
theorem C107_singular_counterexample (C : Consts) : ∃ o : ℝ → Orbit, (∀ w, keplerianInit C (turningArgs w) = .ok (o w)) ∧ (∀ w, (o w).Physical) ∧
    (∀ n, ElementsSmoothAt n o (-(π / 2))) ∧ ∀ n, ¬SmoothVAt n (fun w => (o w).relativePosition C (o w).t0) (-(π / 2)) := by
  obtain ⟨o, ho, hp, hec, hnc⟩ := C95_singular_counterexample C
  have hex : ∀ w, (o w).a = 10 ∧ (o w).period = 1 ∧ (o w).m_star = 4 * π * π * 10 ^ 3 / (C.G * 1 ^ 2) - 0 ∧ (o w).m_planet = 0 ∧ (o w).t0 = 0 ∧
      (o w).Omega = none ∧ (o w).ecc = some ⟨1 / 2, arctan2 (sin w) (cos w), cos w, sin w⟩ ∧
      (o w).cos_incl = (1 + 1 / 2 * sin w) / (1 - (1 / 2) ^ 2) * 1 / 10 * (1 / 2) ∧ (o w).incl = arccos (o w).cos_incl := by
    intro w
    have := Except.ok.inj (ho w)
    rw [← this]
    exact ⟨rfl, rfl, rfl, rfl, rfl, rfl, rfl, rfl, rfl⟩
  choose ha hP hM hm ht0 hW he hci hinc using hex
  refine ⟨o, ho, hp, fun n => ?_, fun n hd => hnc ⟨hd.1.continuousAt, hd.2.1.continuousAt, hd.2.2.continuousAt⟩⟩
  · refine ⟨?_, ?_, ?_, ?_, ?_, ?_, ?_, ?_, ?_, ?_⟩
    · simp only [ha]; exact contDiffAt_const
    · simp only [hP]; exact contDiffAt_const
    · simp only [ht0]; exact contDiffAt_const
    · simp only [Orbit.eccVal, he]; exact contDiffAt_const
    · simp only [Orbit.sinOmega, he]; exact contDiff_sin.contDiffAt
    · simp only [Orbit.cosOmega, he]; exact contDiff_cos.contDiffAt
    · simp only [hinc, hci]
      have h1 : ContDiff ℝ n fun w => (1 + 1 / 2 * sin w) / (1 - (1 / 2) ^ 2) * 1 / 10 * (1 / 2) := by
        have := contDiff_sin (n := n)
        fun_prop
      refine (contDiffAt_arccos ?_ ?_).comp _ h1.contDiffAt
      · rw [sin_neg, sin_pi_div_two]; norm_num
      · rw [sin_neg, sin_pi_div_two]; norm_num
    · simp only [hW]; exact contDiffAt_const
    · simp only [hM]; exact contDiffAt_const
    · simp only [hm]; exact contDiffAt_const

/-! ## The hypotheses can be met -/

/-- Hypotheses of `C107_arguments`, `C107_positions_partial` and `C107_light_curve_partial`: all nine arguments and the radius of the planet varied at
once about an eccentric orbit; time and limb darkening fixed. -/
example (C : Consts) : ∃ (q : Fin 10 → ℝ) (o : (Fin 10 → ℝ) → Orbit),
    (∀ y, keplerianInit C (transitArgs (y 0) (y 1) (y 2) (y 3) (y 4) (y 5) (y 6) (y 7) (y 8)) = .ok (o y)) ∧
    (∀ t : ℝ, SmoothVAt ⊤ (fun y => (o y).relativePosition C t) q) ∧
    ∀ t : ℝ, ContDiffAt ℝ 1 (fun y => fluxAt (getCl 0.3 0.2) (y 2) (y 9) ((o y).relativePosition C t)) q := by
  have hG := C.G_pos
  have hpi := pi_pos
  have pr : ∀ (n : WithTop ℕ∞) (i : Fin 10) (q : Fin 10 → ℝ), ContDiffAt ℝ n (fun y : Fin 10 → ℝ => y i) q := fun n i q => by fun_prop
  let q : Fin 10 → ℝ := ![1, 4 * π ^ 2 / C.G * 10 ^ 3 / 2, 1, 4 * π ^ 2 / C.G * 10 ^ 3 / 2, 0, 0.5, 0.5, 1, 1, 0.1]
  have ha : (C.G * (q 1 + q 3) * q 0 ^ 2 / (4 * π ^ 2)) ^ (1 / 3 : ℝ) = 10 := by
    have : C.G * (q 1 + q 3) * q 0 ^ 2 / (4 * π ^ 2) = 10 ^ (3 : ℝ) := by
      simp only [q, Matrix.cons_val]
      norm_num
      field_simp
    rw [this, ← rpow_mul (by norm_num)]
    norm_num
  have hpos : ∀ i : Fin 10, i = 3 ∨ i = 6 → ∀ᶠ y in 𝓝 q, 0 ≤ y i := by
    intro i hi
    have h1 : 0 < q i := by
      rcases hi with rfl | rfl
      · simp only [q, Matrix.cons_val]; positivity
      · simp only [q, Matrix.cons_val]; norm_num
    exact ((pr 0 i q).continuousAt.eventually (lt_mem_nhds h1)).mono fun y hy => le_of_lt hy
  have key : ∀ n, _ := fun n => C107_arguments (x := q) C (pr n 0 q) (pr n 1 q) (pr n 2 q) (pr n 3 q) (pr n 4 q) (pr n 5 q) (pr n 6 q) (pr n 7 q) (pr n 8 q)
    (by simp [q]) (by simp only [q, Matrix.cons_val]; positivity) (by simp [q]) (hpos 3 (Or.inl rfl)) (hpos 6 (Or.inr rfl))
    (by simp only [q, Matrix.cons_val]; norm_num) (by
      rw [ha]
      have h1 := sin_le_one 1
      have h2 := neg_one_le_sin 1
      simp only [q, Matrix.cons_val]
      rw [abs_lt]
      constructor <;> norm_num <;> linarith)
  obtain ⟨o, ho, hp, hs, hr, hR⟩ := key ⊤
  have hs1 : ElementsSmoothAt 1 o q := by
    obtain ⟨h1, h2, h3, h4, h5, h6, h7, h8, h9, h10⟩ := hs
    exact ⟨h1.of_le le_top, h2.of_le le_top, h3.of_le le_top, h4.of_le le_top, h5.of_le le_top, h6.of_le le_top, h7.of_le le_top, h8.of_le le_top,
      h9.of_le le_top, h10.of_le le_top⟩
  have hreg := hr (by
    simp only [q, Matrix.cons_val]
    have := sin_pos_of_pos_of_lt_pi one_pos (by linarith [pi_gt_three])
    linarith)
  refine ⟨q, o, ho, fun t => (C107_positions_partial (by simp) (fun y => ⟨_, ho y⟩) hp hs hreg contDiffAt_const).1, fun t => ?_⟩
  refine flux_contDiffAt (fun y => ⟨_, ho y⟩) hp hs1 hreg contDiffAt_const contDiffAt_const contDiffAt_const (pr 1 9 q) (pr 1 2 q) hR
    ((law_ne_zero_iff _ _).2 (by norm_num)) (by simp only [q, Matrix.cons_val]; norm_num) (by simp only [q, Matrix.cons_val]; norm_num) ?_
  have e1 : (o q).a = 10 := by
    have := Except.ok.inj (ho q)
    rw [← this, ← ha]
    rfl
  have e2 : (o q).eccVal = 0.5 := by
    have := Except.ok.inj (ho q)
    rw [← this]
    rfl
  rw [e1, e2]
  simp only [q, Matrix.cons_val]
  norm_num

/-- A datum with unknown mean and unknown noise. -/
example : ContDiffAt ℝ ⊤ (fun q : ℝ × ℝ => ([0.1, 0.3].map fun v : ℝ => log (normalPdf q.1 (exp q.2) v)).sum) (0, 0) :=
  C107_likelihood (X := ℝ × ℝ) [0.1, 0.3] id (fun _ _ => contDiffAt_fst) (fun _ _ => ⟨contDiffAt_snd.exp, exp_pos _⟩)

example : ∃ f' : ℝ × ℝ →L[ℝ] ℝ, HasStrictFDerivAt (fun q : ℝ × ℝ => eccAnomaly q.1 q.2) f' (1 / 2, 3) :=
  ⟨_, C107_kepler_equation (by norm_num) (by norm_num) 3⟩

end Exo
