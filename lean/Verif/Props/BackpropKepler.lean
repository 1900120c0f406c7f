import Verif.Spec.BackpropKepler
import Verif.Props.Backprop
import Verif.Props.Gradients

/-!
# C121: gradients of the light curve of a `KeplerianOrbit` as the compiled graphs compute them
-/

namespace Exo
open Real Function Topology

/-! ## The compiled solution of Kepler's equation -/

theorem hasFDerivAt_quotient {f g : ℝ × ℝ → ℝ} {f' g' : ℝ × ℝ →L[ℝ] ℝ} {p : ℝ × ℝ} (hf : HasFDerivAt f f' p) (hg : HasFDerivAt g g' p) (h0 : g p ≠ 0) :
    HasFDerivAt (fun q => f q / g q) ((g p)⁻¹ • f' - (f p / g p ^ 2) • g') p := by
  have h := hf.mul ((hasDerivAt_inv h0).comp_hasFDerivAt p hg)
  refine (h.congr_of_eventuallyEq (Filter.Eventually.of_forall fun q => ?_)).congr_fderiv ?_
  · simp [div_eq_mul_inv]
  · ext <;> simp <;> field_simp <;> ring

theorem hasFDerivAt_eccAnomaly_swap {e : ℝ} (he0 : 0 ≤ e) (he1 : e < 1) (M : ℝ) :
    HasFDerivAt (fun q : ℝ × ℝ => eccAnomaly q.2 q.1)
      ((1 - e * cos (eccAnomaly e M))⁻¹ • (sin (eccAnomaly e M) • ContinuousLinearMap.snd ℝ ℝ ℝ + ContinuousLinearMap.fst ℝ ℝ ℝ)) (M, e) := by
  have h := (C107_kepler_equation he0 he1 M).hasFDerivAt
  have hs : HasFDerivAt (fun q : ℝ × ℝ => (q.2, q.1)) ((ContinuousLinearMap.snd ℝ ℝ ℝ).prod (ContinuousLinearMap.fst ℝ ℝ ℝ)) (M, e) :=
    hasFDerivAt_snd.prodMk hasFDerivAt_fst
  refine (HasFDerivAt.comp (M, e) (f := fun q : ℝ × ℝ => (q.2, q.1)) h hs).congr_fderiv ?_
  ext <;> simp

/-- **C121 (the derivatives of the compiled operation).** The true anomaly changes by `(1 + e cos f)² / (1 - e²)^(3/2)` with the mean anomaly and by
`(2 + e cos f) sin f / (1 - e²)` with the eccentricity. -/
theorem C121_kepler {e : ℝ} (he0 : 0 ≤ e) (he1 : e < 1) (M : ℝ) :
    HasFDerivAt (fun q : ℝ × ℝ => (keplerOp q.1 q.2).1)
      (((keplerOp M e).2 * anomalyPerMean M e) • ContinuousLinearMap.fst ℝ ℝ ℝ + ((keplerOp M e).2 * anomalyPerEcc M e) • ContinuousLinearMap.snd ℝ ℝ ℝ) (M, e) ∧
    HasFDerivAt (fun q : ℝ × ℝ => (keplerOp q.1 q.2).2)
      ((-(keplerOp M e).1 * anomalyPerMean M e) • ContinuousLinearMap.fst ℝ ℝ ℝ + (-(keplerOp M e).1 * anomalyPerEcc M e) • ContinuousLinearMap.snd ℝ ℝ ℝ)
      (M, e) := by
  have hE := hasFDerivAt_eccAnomaly_swap he0 he1 M
  have hd := one_sub_mul_cos_pos he0 he1 (eccAnomaly e M)
  have he : HasFDerivAt (fun q : ℝ × ℝ => q.2) (ContinuousLinearMap.snd ℝ ℝ ℝ) (M, e) := hasFDerivAt_snd
  have h1 : 0 < 1 - e ^ 2 := by nlinarith
  have hs : HasFDerivAt (fun q : ℝ × ℝ => √(1 - q.2 ^ 2)) ((-e / √(1 - e ^ 2)) • ContinuousLinearMap.snd ℝ ℝ ℝ) (M, e) := by
    have := ((he.pow 2).const_sub 1).sqrt (by simpa using h1.ne')
    refine this.congr_fderiv ?_
    ext
    · simp
    · simp
      field_simp
  have hden : HasFDerivAt (fun q : ℝ × ℝ => 1 - q.2 * cos (eccAnomaly q.2 q.1)) _ (M, e) := (he.mul hE.cos).const_sub 1
  have hsin := hasFDerivAt_quotient (hs.mul hE.sin) hden hd.ne'
  have hcos := hasFDerivAt_quotient (hE.cos.sub he) hden hd.ne'
  have hsq : sin (eccAnomaly e M) ^ 2 = 1 - cos (eccAnomaly e M) ^ 2 := by
    have := sin_sq_add_cos_sq (eccAnomaly e M); linarith
  have hw := sqrt_pos.2 h1
  have hww := sq_sqrt h1.le
  constructor
  · clear hE hden hs he
    refine hsin.congr_fderiv ?_
    ext
    · simp [keplerOp, anomalyPerMean, anomalyPerEcc]
      clear hsin hcos
      generalize eccAnomaly e M = E at *
      generalize √(1 - e ^ 2) = w at *
      generalize cos E = c at *
      generalize sin E = s at *
      field_simp
      linear_combination (-e * w ^ 4) * hsq + (c - e) * (w ^ 2 + 1 - e ^ 2) * hww
    · simp [keplerOp, anomalyPerMean, anomalyPerEcc]
      clear hsin hcos
      generalize eccAnomaly e M = E at *
      generalize √(1 - e ^ 2) = w at *
      generalize cos E = c at *
      generalize sin E = s at *
      field_simp
      linear_combination (-(1 - e ^ 2) * w ^ 2 * e * s) * hsq + ((1 - e ^ 2) * s * ((1 - e * c) * c + c * (1 - e * c) - e * (1 - c ^ 2)) - s * (c - e) * (2 - e * c - e ^ 2)) * hww
  · clear hE hden hs he
    refine hcos.congr_fderiv ?_
    ext
    · simp [keplerOp, anomalyPerMean, anomalyPerEcc]
      clear hsin hcos
      generalize eccAnomaly e M = E at *
      generalize √(1 - e ^ 2) = w at *
      generalize cos E = c at *
      generalize sin E = s at *
      field_simp
      linear_combination (-s * (1 - e ^ 2)) * hww
    · simp [keplerOp, anomalyPerMean, anomalyPerEcc]
      clear hsin hcos
      generalize eccAnomaly e M = E at *
      generalize √(1 - e ^ 2) = w at *
      generalize cos E = c at *
      generalize sin E = s at *
      field_simp
      linear_combination ((1 - e ^ 2) * (1 - e * c)) * hsq + (s ^ 2 * (2 - e * c - e ^ 2)) * hww

/-! ## The graph -/

section
variable {C : Consts} {q : KepPar → ℝ} {m : KepMode}

theorem KepMode.args_ok (C : Consts) (m : KepMode) (q : KepPar → ℝ) : ∃ o, keplerianInit C (m.args q) = .ok o := by
  cases m <;> exact ⟨_, rfl⟩

theorem keplerGraph_real {o : Orbit} (h : keplerianInit C (m.args q) = .ok o) (L : ℝ → ℝ → ℝ) (t : ℝ) :
    o.relativePosition C t = ⟨(m.x1G .input (KepMode.clock t)).real L q, (m.yG .input (KepMode.clock t)).real L q, (m.zG .input (KepMode.clock t)).real L q⟩ ∧ o.cos_incl = (m.cosInclG .input).real L q := by
  cases m <;> (obtain rfl := Except.ok.inj h; exact ⟨rfl, rfl⟩)

/-- **C121 (the graph is that of the rest of the model).** The value of the graph is the flux of the model with NaN and infinities (C116), whatever the parameters. -/
theorem C121_graph (C : Consts) (m : KepMode) (op : FlOp) (q : KepPar → ℝ) (t : ℝ) :
    ∃ o, keplerianInitF C (m.args q) = .ok o ∧
      (m.lightCurveG t).value op (fun i => .fin (q i)) = fluxF op.value o.r_star (o.relativePosition op.kepler) (q .r) t := by
  cases m <;> exact ⟨_, rfl, rfl⟩

variable {L : ℝ → ℝ → ℝ} {op : FlOp}

section regular
variable {ι : Type} {P : KepPar → Graph ι} {w : Graph ι} {x : ι → ℝ}

theorem omega_regular (hP : ∀ p, (P p).Regular L op x) : (m.cosOmegaG P).Regular L op x ∧ (m.sinOmegaG P).Regular L op x := by
  cases m <;> exact ⟨hP _, hP _⟩

theorem sinOmegaG_real : (m.sinOmegaG P).real L x = m.sinOmega fun p => (P p).real L x := by cases m <;> rfl

theorem nG_regular (hP : ∀ p, (P p).Regular L op x) (hq : m.Possible fun p => (P p).real L x) : (KepMode.nG P).Regular L op x :=
  ⟨⟨trivial, trivial⟩, hP _, hq.period.ne'⟩

theorem E0G_regular (hP : ∀ p, (P p).Regular L op x) (hq : m.Possible fun p => (P p).real L x) (hm : m ≠ .circular) : (m.E0G P).Regular L op x := by
  obtain ⟨h0, h1⟩ := hq.ecc hm
  have hw := hq.omega hm
  refine ⟨trivial, ⟨⟨⟨trivial, hP _⟩, ?_⟩, (omega_regular hP).1⟩, ⟨⟨⟨trivial, hP _⟩, ?_⟩, trivial, (omega_regular hP).2⟩, Or.inl ?_⟩
  · simp only [Graph.real]; linarith
  · simp only [Graph.real]; linarith
  · simp only [Graph.real, sinOmegaG_real]
    exact mul_pos (sqrt_pos.2 (by linarith)) (by linarith)

theorem M0G_regular (hP : ∀ p, (P p).Regular L op x) (hq : m.Possible fun p => (P p).real L x) : (m.M0G P).Regular L op x := by
  cases m with
  | circular => exact ⟨trivial, trivial⟩
  | angle => exact ⟨E0G_regular hP hq nofun, hP _, E0G_regular hP hq nofun⟩
  | sincos => exact ⟨E0G_regular hP hq nofun, hP _, E0G_regular hP hq nofun⟩

theorem anomalyG_regular (hP : ∀ p, (P p).Regular L op x) (hw : w.Regular L op x) (hq : m.Possible fun p => (P p).real L x) :
    (m.anomalyG P w).Regular L op x := by
  have hn := nG_regular hP hq
  refine ⟨⟨hw, ⟨hP _, M0G_regular hP hq, hn, ?_⟩, hP _⟩, hn⟩
  simp only [KepMode.nG, Graph.real]
  have := pi_pos
  have := hq.period
  positivity

theorem ome2_pos {q : KepPar → ℝ} (hq : m.Possible q) (hm : m ≠ .circular) : 0 < 1 - q .ecc ^ 2 := by
  obtain ⟨h0, h1⟩ := hq.ecc hm
  nlinarith

theorem cosInclG_regular (hP : ∀ p, (P p).Regular L op x) (hq : m.Possible fun p => (P p).real L x) : (m.cosInclG P).Regular L op x := by
  refine ⟨⟨⟨?_, hP _⟩, hP _, hq.a.ne'⟩, hP _⟩
  cases m with
  | circular => trivial
  | angle => exact ⟨⟨trivial, hP _, hP _⟩, ⟨trivial, hP _⟩, (ome2_pos hq nofun).ne'⟩
  | sincos => exact ⟨⟨trivial, hP _, hP _⟩, ⟨trivial, hP _⟩, (ome2_pos hq nofun).ne'⟩

theorem anomaly_regular (hk : op.ExactKepler) (hP : ∀ p, (P p).Regular L op x) (hw : w.Regular L op x) (hq : m.Possible fun p => (P p).real L x) :
    (m.sinfG P w).Regular L op x ∧ (m.cosfG P w).Regular L op x := by
  have h := anomalyG_regular hP hw hq
  have key : ∀ M : ℝ, m ≠ .circular →
      ExactPair (fun M e => (op.kepler M e).1) op.backSin (fun M e => (keplerOp M e).1) M ((P .ecc).real L x) ∧
      ExactPair (fun M e => (op.kepler M e).2) op.backCos (fun M e => (keplerOp M e).2) M ((P .ecc).real L x) := by
    intro M hm
    obtain ⟨h0, h1⟩ := hq.ecc hm
    have hv := hk.value.exact M _ h0 h1
    obtain ⟨d1, d2⟩ := C121_kepler h0 h1 M
    exact ⟨⟨by simp only [hv], _, _, d1, fun g => hk.backSin g M _ h0 h1⟩, ⟨by simp only [hv], _, _, d2, fun g => hk.backCos g M _ h0 h1⟩⟩
  cases m with
  | circular => exact ⟨h, h⟩
  | angle => exact ⟨⟨h, hP _, (key _ nofun).1⟩, ⟨h, hP _, (key _ nofun).2⟩⟩
  | sincos => exact ⟨⟨h, hP _, (key _ nofun).1⟩, ⟨h, hP _, (key _ nofun).2⟩⟩

theorem keplerOp_conic {e : ℝ} (he0 : 0 ≤ e) (he1 : e < 1) (M : ℝ) : 0 < 1 + e * (keplerOp M e).2 := by
  have hd := one_sub_mul_cos_pos he0 he1 (eccAnomaly e M)
  have h1 : 0 < 1 - e ^ 2 := by nlinarith
  have : 1 + e * (keplerOp M e).2 = (1 - e ^ 2) / (1 - e * cos (eccAnomaly e M)) := by
    simp only [keplerOp]
    field_simp
    ring
  rw [this]
  positivity

theorem radiusG_regular (hk : op.ExactKepler) (hP : ∀ p, (P p).Regular L op x) (hw : w.Regular L op x) (hq : m.Possible fun p => (P p).real L x) :
    (m.radiusG P w).Regular L op x := by
  have h := (anomaly_regular hk hP hw hq).2
  cases m with
  | circular => exact hP _
  | angle =>
    obtain ⟨h0, h1⟩ := hq.ecc nofun
    exact ⟨⟨hP _, trivial, hP _⟩, ⟨trivial, hP _, h⟩, (keplerOp_conic h0 h1 _).ne'⟩
  | sincos =>
    obtain ⟨h0, h1⟩ := hq.ecc nofun
    exact ⟨⟨hP _, trivial, hP _⟩, ⟨trivial, hP _, h⟩, (keplerOp_conic h0 h1 _).ne'⟩

theorem plane_regular (hk : op.ExactKepler) (hP : ∀ p, (P p).Regular L op x) (hw : w.Regular L op x) (hq : m.Possible fun p => (P p).real L x) :
    (m.x1G P w).Regular L op x ∧ (m.y1G P w).Regular L op x := by
  obtain ⟨hs, hc⟩ := anomaly_regular hk hP hw hq
  have hr := radiusG_regular hk hP hw hq
  cases m with
  | circular => exact ⟨⟨hr, hc⟩, ⟨hr, hs⟩⟩
  | angle => exact ⟨⟨⟨hP _, hr, hc⟩, hP _, hr, hs⟩, ⟨⟨hP _, hr, hc⟩, hP _, hr, hs⟩⟩
  | sincos => exact ⟨⟨⟨hP _, hr, hc⟩, hP _, hr, hs⟩, ⟨⟨hP _, hr, hc⟩, hP _, hr, hs⟩⟩

/-- `limb_dark.py:250` on its own is regular, wherever the planet is in front of the star or behind it, except at the centre. -/
theorem limbDark_regular {u1 u2 : ℝ} (hl : PhysicalLaw u1 u2) (hop : op.Exact u1 u2) (hk : op.ExactKepler)
    (hP : ∀ p, (P p).Regular (quadLimbdarkLightCurve (getCl u1 u2)) op x) (hw : w.Regular (quadLimbdarkLightCurve (getCl u1 u2)) op x)
    (hq : m.Possible fun p => (P p).real (quadLimbdarkLightCurve (getCl u1 u2)) x)
    (hc : 0 < (m.x1G P w).real (quadLimbdarkLightCurve (getCl u1 u2)) x ^ 2 + (m.yG P w).real (quadLimbdarkLightCurve (getCl u1 u2)) x ^ 2) :
    (Graph.limbDark (.div (.sqrt (.add (.pow (m.x1G P w) 2) (.pow (m.yG P w) 2))) (P .r_star)) (.div (P .r) (P .r_star))).Regular
      (quadLimbdarkLightCurve (getCl u1 u2)) op x := by
  have hR := hq.r_star
  obtain ⟨hx, hy⟩ := plane_regular hk hP hw hq
  refine ⟨⟨⟨⟨hx, cosInclG_regular hP hq, hy⟩, hc⟩, hP _, hR.ne'⟩, ⟨hP _, hP _, hR.ne'⟩, ?_⟩
  simp only [Graph.real] at hc ⊢
  refine ⟨hop.value _ _, ?_⟩
  have hb := div_pos (sqrt_pos.2 hc) hR
  have hkk := div_pos hq.r hR
  have h := (C106_gradient hl hkk (fun h => hb.ne' h.1) one_pos).hasFDerivAt
  refine ⟨_, _, ?_, fun g => hop.back g _ _ hb hkk⟩
  convert h using 1
  · funext q; simp [computeLightCurve]
  · ext <;> simp

/-- Outside of the disc of the star the light curve stays zero when a parameter changes a little. -/
theorem limbDark_vanishes {X Y R r : Graph ι} {u1 u2 : ℝ} (hl : PhysicalLaw u1 u2) (hX : X.Regular L op x) (hY : Y.Regular L op x) (hR : R.Regular L op x) (hr : r.Regular L op x)
    (hL : L = quadLimbdarkLightCurve (getCl u1 u2)) (hR0 : 0 < R.real L x) (h : R.real L x + r.real L x < √(X.real L x ^ 2 + Y.real L x ^ 2)) :
    (Graph.limbDark (.div (.sqrt (.add (.pow X 2) (.pow Y 2))) R) (.div r R)).VanishesAround L x := by
  classical
  intro j y hy hj
  have e : y = update x j := by
    funext s i
    by_cases hi : i = j
    · subst hi; rw [hj, update_self]
    · rw [hy s i hi, update_of_ne hi]
  subst e
  obtain ⟨_, dX, -⟩ := (C118_backprop op L x _ hX).2 j
  obtain ⟨_, dY, -⟩ := (C118_backprop op L x _ hY).2 j
  obtain ⟨_, dR, -⟩ := (C118_backprop op L x _ hR).2 j
  obtain ⟨_, dr, -⟩ := (C118_backprop op L x _ hr).2 j
  have c1 := (dR.continuousAt.add dr.continuousAt).eventually_lt ((dX.continuousAt.pow 2).add (dY.continuousAt.pow 2)).sqrt (by simpa using h)
  have c2 := continuousAt_const.eventually_lt dR.continuousAt (show (0 : ℝ) < _ by simpa using hR0)
  filter_upwards [c1, c2] with s h1 h2
  have h1' : R.real L (update x j s) + r.real L (update x j s) < √(X.real L (update x j s) ^ 2 + Y.real L (update x j s) ^ 2) := h1
  have h3 : 1 + r.real L (update x j s) / R.real L (update x j s) ≤ √(X.real L (update x j s) ^ 2 + Y.real L (update x j s) ^ 2) / R.real L (update x j s) := by
    rw [le_div_iff₀ h2, add_mul, div_mul_cancel₀ _ h2.ne', one_mul]
    exact h1'.le
  simp only [Graph.real]
  subst hL
  exact C36_unocculted u1 u2 _ _ hl.pos.ne' h3

/-- The light curve is regular, unless the planet is exactly in front of (or behind) the centre of the star or in contact with its disc in the plane of the sky, or the orbit is
seen face-on. -/
theorem lightCurve_regular {u1 u2 : ℝ} (hl : PhysicalLaw u1 u2) (hop : op.Exact u1 u2) (hk : op.ExactKepler)
    (hP : ∀ p, (P p).Regular (quadLimbdarkLightCurve (getCl u1 u2)) op x) (hw : w.Regular (quadLimbdarkLightCurve (getCl u1 u2)) op x)
    (hq : m.Possible fun p => (P p).real (quadLimbdarkLightCurve (getCl u1 u2)) x)
    (hi : |(m.cosInclG P).real (quadLimbdarkLightCurve (getCl u1 u2)) x| < 1)
    (hc : (m.x1G P w).real (quadLimbdarkLightCurve (getCl u1 u2)) x ≠ 0 ∨ (m.yG P w).real (quadLimbdarkLightCurve (getCl u1 u2)) x ≠ 0)
    (hz : Clear ((P .r_star).real (quadLimbdarkLightCurve (getCl u1 u2)) x) ((P .r).real (quadLimbdarkLightCurve (getCl u1 u2)) x)
      ⟨(m.x1G P w).real (quadLimbdarkLightCurve (getCl u1 u2)) x, (m.yG P w).real (quadLimbdarkLightCurve (getCl u1 u2)) x, (m.zG P w).real (quadLimbdarkLightCurve (getCl u1 u2)) x⟩) :
    (m.lightCurveOf P w).Regular (quadLimbdarkLightCurve (getCl u1 u2)) op x := by
  refine ⟨⟨⟨⟨cosInclG_regular hP hq, hi⟩, (plane_regular hk hP hw hq).2⟩, hP _, hq.r_star.ne'⟩, limbDark_regular hl hop hk hP hw hq ?_,
    hz.imp (fun h => div_ne_zero h hq.r_star.ne') fun h =>
      limbDark_vanishes hl (plane_regular hk hP hw hq).1 ⟨cosInclG_regular hP hq, (plane_regular hk hP hw hq).2⟩ (hP _) (hP _) rfl hq.r_star h⟩
  rcases hc with h | h <;> positivity

/-- The real function that the graph stands for is the flux at the position it computes. -/
theorem lightCurveOf_real (u1 u2 : ℝ) : (m.lightCurveOf P w).real (quadLimbdarkLightCurve (getCl u1 u2)) x =
    fluxAt (getCl u1 u2) ((P .r_star).real (quadLimbdarkLightCurve (getCl u1 u2)) x) ((P .r).real (quadLimbdarkLightCurve (getCl u1 u2)) x)
      ⟨(m.x1G P w).real (quadLimbdarkLightCurve (getCl u1 u2)) x, (m.yG P w).real (quadLimbdarkLightCurve (getCl u1 u2)) x,
        (m.zG P w).real (quadLimbdarkLightCurve (getCl u1 u2)) x⟩ := by
  simp only [KepMode.lightCurveOf, fluxGraph, Graph.real, fluxAt, computeLightCurve, Option.getD_some, gt_iff_lt]
  congr!

end regular

theorem input_regular (p : KepPar) : (Graph.input p).Regular L op q := trivial

theorem clock_regular (t : ℝ) : (KepMode.clock t).Regular L op q := ⟨trivial, trivial⟩

/-- **C121 (what holds).** With exact operations the light curve of a `KeplerianOrbit` and its computed derivatives with respect to all parameters are
the true ones, unless the planet is exactly in front of (or behind) the centre of the star or grazes it in the plane of the sky, or the orbit is seen face-on. -/
theorem C121_light_curve_partial {u1 u2 : ℝ} (hl : PhysicalLaw u1 u2) (hop : op.Exact u1 u2) (hk : op.ExactKepler) (hq : m.Possible q)
    (o : (KepPar → ℝ) → Orbit) (ho : ∀ q, keplerianInit C (m.args q) = .ok (o q)) (t : ℝ) (hi : |(o q).cos_incl| < 1)
    (hc : ((o q).relativePosition C t).x ≠ 0 ∨ ((o q).relativePosition C t).y ≠ 0) (hz : Clear (q .r_star) (q .r) ((o q).relativePosition C t)) :
    GradientRight op (m.lightCurveG t) (fun q => fluxAt (getCl u1 u2) (q .r_star) (q .r) ((o q).relativePosition C t)) q := by
  set L := quadLimbdarkLightCurve (getCl u1 u2) with hL
  obtain ⟨hp, hci⟩ := keplerGraph_real (ho q) L t
  rw [hci] at hi
  rw [hp] at hc hz
  have hreg : (m.lightCurveG t).Regular L op q := lightCurve_regular hl hop hk input_regular (clock_regular t) hq hi hc hz
  have hreal : ∀ q, fluxAt (getCl u1 u2) (q .r_star) (q .r) ((o q).relativePosition C t) = (m.lightCurveG t).real L q := fun q => by
    rw [(keplerGraph_real (ho q) L t).1]
    exact (lightCurveOf_real u1 u2).symm
  obtain ⟨h1, h2⟩ := C118_backprop op L q _ hreg
  refine ⟨h1.trans (congrArg Fl.fin (hreal q).symm), fun j => ?_⟩
  obtain ⟨D, hD, hg⟩ := h2 j
  exact ⟨D, by simpa only [hreal] using hD, hg⟩

/-- **C121 (the derivative at `e = 0`).** Where there is no orbit on the other side, the computed derivative with respect to the eccentricity is that from the right. -/
theorem C121_from_the_right {u1 u2 : ℝ} (hl : PhysicalLaw u1 u2) (hop : op.Exact u1 u2) (hk : op.ExactKepler) (hq : m.Possible q)
    (o : (KepPar → ℝ) → Orbit) (ho : ∀ q, keplerianInit C (m.args q) = .ok (o q)) (t : ℝ) (hi : |(o q).cos_incl| < 1)
    (hc : ((o q).relativePosition C t).x ≠ 0 ∨ ((o q).relativePosition C t).y ≠ 0) (hz : Clear (q .r_star) (q .r) ((o q).relativePosition C t)) :
    ∃ D, HasDerivWithinAt (fun e => fluxAt (getCl u1 u2) (q .r_star) (q .r) ((o (update q .ecc e)).relativePosition C t)) D (Set.Ici (q .ecc)) (q .ecc) ∧
      ∀ g : ℝ, (m.lightCurveG t).back op (fun i => .fin (q i)) (.fin g) .ecc = .fin (g * D) := by
  obtain ⟨D, hD, hg⟩ := (C121_light_curve_partial hl hop hk hq o ho t hi hc hz).2 .ecc
  exact ⟨D, by simpa using hD.hasDerivWithinAt, hg⟩

theorem M0G_zero (hm : m ≠ .circular) (he : q .ecc = 0) (hu : m = .sincos → q .sin_omega ^ 2 + q .cos_omega ^ 2 = 1) (hw : -1 < m.sinOmega q) (L : ℝ → ℝ → ℝ) :
    cos ((m.M0G .input).real L q) = (m.sinOmegaG .input).real L q ∧ sin ((m.M0G .input).real L q) = (m.cosOmegaG .input).real L q ∧
      (m.sinOmegaG .input).real L q ^ 2 + (m.cosOmegaG .input).real L q ^ 2 = 1 := by
  have key : ∀ s c : ℝ, s ^ 2 + c ^ 2 = 1 → -1 < s → cos (2 * arctan2 (√(1 - q .ecc) * c) (√(1 + q .ecc) * (1 + s)) - q .ecc * sin (2 * arctan2 (√(1 - q .ecc) * c) (√(1 + q .ecc) * (1 + s)))) = s ∧
      sin (2 * arctan2 (√(1 - q .ecc) * c) (√(1 + q .ecc) * (1 + s)) - q .ecc * sin (2 * arctan2 (√(1 - q .ecc) * c) (√(1 + q .ecc) * (1 + s)))) = c := by
    intro s c h1 h2
    have hpos : 0 < (1 + s) ^ 2 + c ^ 2 := by have : 0 < 1 + s := by linarith
                                              positivity
    have h := cos_two_arctan2 (x := 1 + s) (y := c) hpos
    simp only [he, sub_zero, add_zero, sqrt_one, one_mul, zero_mul]
    rw [h.1, h.2]
    constructor
    · rw [div_eq_iff hpos.ne']; linear_combination (-1 - s) * h1
    · rw [div_eq_iff hpos.ne']; linear_combination (-c) * h1
  cases m with
  | circular => exact absurd rfl hm
  | angle =>
    obtain ⟨k1, k2⟩ := key _ _ (sin_sq_add_cos_sq (q .omega)) hw
    exact ⟨k1, k2, sin_sq_add_cos_sq _⟩
  | sincos =>
    obtain ⟨k1, k2⟩ := key _ _ (hu rfl) hw
    exact ⟨k1, k2, hu rfl⟩

theorem position_zero (hm : m ≠ .circular) (hP : q .period ≠ 0) (he : q .ecc = 0) (hu : m = .sincos → q .sin_omega ^ 2 + q .cos_omega ^ 2 = 1) (hw : -1 < m.sinOmega q)
    {o o₀ : Orbit} (h : keplerianInit C (m.args q) = .ok o) (h₀ : keplerianInit C (KepMode.circular.args q) = .ok o₀) (t : ℝ) :
    o.relativePosition C t = o₀.relativePosition C t ∧ o.cos_incl = o₀.cos_incl := by
  set L : ℝ → ℝ → ℝ := fun _ _ => 0
  obtain ⟨c1, c2, c3⟩ := M0G_zero hm he hu hw L
  rw [(keplerGraph_real h L t).1, (keplerGraph_real h₀ L t).1, (keplerGraph_real h L t).2, (keplerGraph_real h₀ L t).2]
  have hn : (KepMode.nG Graph.input).real L q ≠ 0 := div_ne_zero (by simp [Graph.real, pi_ne_zero]) hP
  have hM : ∀ m : KepMode, (m.anomalyG .input (KepMode.clock t)).real L q = (t - q .t0) * (KepMode.nG Graph.input).real L q + (m.M0G .input).real L q := by
    intro m
    simp only [KepMode.anomalyG, KepMode.clock, Graph.real]
    field_simp
    ring
  have hM0 : (KepMode.circular.M0G .input).real L q = π / 2 := by simp only [KepMode.M0G, Graph.real]; ring
  have hi : (m.cosInclG .input).real L q = (KepMode.circular.cosInclG .input).real L q := by
    cases m with
    | circular => rfl
    | angle => simp [KepMode.cosInclG, KepMode.inclFactorG, KepMode.ome2G, Graph.real, he]
    | sincos => simp [KepMode.cosInclG, KepMode.inclFactorG, KepMode.ome2G, Graph.real, he]
  have hr : (m.radiusG .input (KepMode.clock t)).real L q = -q .a := by
    cases m with
    | circular => rfl
    | angle => simp [KepMode.radiusG, KepMode.ome2G, Graph.real, he]
    | sincos => simp [KepMode.radiusG, KepMode.ome2G, Graph.real, he]
  have hsf : (m.sinfG .input (KepMode.clock t)).real L q = sin ((m.anomalyG .input (KepMode.clock t)).real L q) ∧
      (m.cosfG .input (KepMode.clock t)).real L q = cos ((m.anomalyG .input (KepMode.clock t)).real L q) := by
    cases m with
    | circular => exact ⟨rfl, rfl⟩
    | angle => simp [KepMode.sinfG, KepMode.cosfG, Graph.real, he, keplerOp_zero_ecc]
    | sincos => simp [KepMode.sinfG, KepMode.cosfG, Graph.real, he, keplerOp_zero_ecc]
  rw [hM, sin_add, cos_add, c1, c2] at hsf
  set u := (t - q .t0) * (KepMode.nG Graph.input).real L q with hu'
  have hx : (m.x1G .input (KepMode.clock t)).real L q = (KepMode.circular.x1G .input (KepMode.clock t)).real L q ∧
      (m.y1G .input (KepMode.clock t)).real L q = (KepMode.circular.y1G .input (KepMode.clock t)).real L q := by
    have e1 : (KepMode.circular.x1G .input (KepMode.clock t)).real L q = q .a * sin u := by
      simp only [KepMode.x1G, KepMode.radiusG, KepMode.cosfG, Graph.real, hM, hM0, ← hu', cos_add_pi_div_two]; ring
    have e2 : (KepMode.circular.y1G .input (KepMode.clock t)).real L q = -q .a * cos u := by
      simp only [KepMode.y1G, KepMode.radiusG, KepMode.sinfG, Graph.real, hM, hM0, ← hu', sin_add_pi_div_two]
    rw [e1, e2]
    cases m with
    | circular => exact absurd rfl hm
    | angle =>
      simp only [KepMode.x1G, KepMode.y1G, Graph.real, hr, hsf]
      exact ⟨by linear_combination (q .a * sin u) * c3, by linear_combination (-q .a * cos u) * c3⟩
    | sincos =>
      simp only [KepMode.x1G, KepMode.y1G, Graph.real, hr, hsf]
      exact ⟨by linear_combination (q .a * sin u) * c3, by linear_combination (-q .a * cos u) * c3⟩
  refine ⟨?_, hi⟩
  simp only [KepMode.yG, KepMode.zG, KepMode.sinInclG, Graph.real] at hi hx ⊢
  rw [hx.1, hx.2, hi]

/-- **C121 (`ecc = 0` and `ecc` omitted).** At `ecc = 0` the light curve and its computed derivatives with respect to all parameters but the eccentricity and the argument of periastron are
those of the circular orbit, whatever the argument of periastron (`sin ω > -1`). -/
theorem C121_circular {u1 u2 : ℝ} (hl : PhysicalLaw u1 u2) (hop : op.Exact u1 u2) (hk : op.ExactKepler) (hm : m ≠ .circular) (hq : m.Possible q) (he : q .ecc = 0)
    (hu : m = .sincos → q .sin_omega ^ 2 + q .cos_omega ^ 2 = 1) {o₀ : Orbit} (h₀ : keplerianInit C (KepMode.circular.args q) = .ok o₀) (t : ℝ) (hi : |o₀.cos_incl| < 1)
    (hc : (o₀.relativePosition C t).x ≠ 0 ∨ (o₀.relativePosition C t).y ≠ 0) (hz : Clear (q .r_star) (q .r) (o₀.relativePosition C t)) (j : KepPar)
    (hj : j ≠ .ecc ∧ j ≠ .omega ∧ j ≠ .sin_omega ∧ j ≠ .cos_omega) (g : ℝ) :
    (m.lightCurveG t).value op (fun i => .fin (q i)) = (KepMode.circular.lightCurveG t).value op (fun i => .fin (q i)) ∧
      (m.lightCurveG t).back op (fun i => .fin (q i)) (.fin g) j = (KepMode.circular.lightCurveG t).back op (fun i => .fin (q i)) (.fin g) j := by
  have hex : ∀ (m : KepMode) (q : KepPar → ℝ), ∃ o, keplerianInit C (m.args q) = .ok o := fun m q => by cases m <;> exact ⟨_, rfl⟩
  choose o ho using hex
  obtain rfl := Except.ok.inj (h₀.symm.trans (ho .circular q))
  have hw := hq.omega hm
  obtain ⟨p1, p2⟩ := position_zero hm hq.period.ne' he hu hw (ho m q) (ho .circular q) t
  have hq0 : KepMode.circular.Possible q := ⟨hq.a, hq.period, hq.r_star, hq.r, fun h => absurd rfl h, fun h => absurd rfl h⟩
  obtain ⟨v0, d0⟩ := C121_light_curve_partial hl hop hk hq0 _ (ho .circular) t hi hc hz
  obtain ⟨v1, d1⟩ := C121_light_curve_partial hl hop hk hq _ (ho m) t (by rwa [p2]) (by rwa [p1]) (by rwa [p1])
  refine ⟨by rw [v0, v1]; beta_reduce; rw [p1], ?_⟩
  obtain ⟨D0, hD0, g0⟩ := d0 j
  obtain ⟨D1, hD1, g1⟩ := d1 j
  rw [g0, g1]
  have hev : (fun s => fluxAt (getCl u1 u2) (update q j s .r_star) (update q j s .r) ((o m (update q j s)).relativePosition C t)) =ᶠ[𝓝 (q j)]
      fun s => fluxAt (getCl u1 u2) (update q j s .r_star) (update q j s .r) ((o .circular (update q j s)).relativePosition C t) := by
    have hper : ∀ᶠ s in 𝓝 (q j), update q j s .period ≠ 0 := by
      by_cases hjp : KepPar.period = j
      · subst hjp
        simpa using eventually_ne_nhds hq.period.ne'
      · exact Filter.Eventually.of_forall fun s => by rw [update_of_ne hjp]; exact hq.period.ne'
    filter_upwards [hper] with s hs
    have e1 : update q j s .ecc = q .ecc := update_of_ne hj.1.symm _ _
    have e2 : update q j s .omega = q .omega := update_of_ne hj.2.1.symm _ _
    have e3 : update q j s .sin_omega = q .sin_omega := update_of_ne hj.2.2.1.symm _ _
    have e4 : update q j s .cos_omega = q .cos_omega := update_of_ne hj.2.2.2.symm _ _
    rw [(position_zero hm hs (by rw [e1, he]) (by rw [e3, e4]; exact hu) (by cases m <;> simpa only [KepMode.sinOmega, e2, e3] using hw) (ho m _) (ho .circular _) t).1]
  rw [hD1.unique (hD0.congr_of_eventuallyEq hev)]

/-- **C121 (impossible orbits).** If `b` is so large that no inclination exists, the light curve is zero and all computed derivatives are exactly zero: the
sampler finds neither NaN nor a direction in which to move. -/
theorem C121_impossible {u1 u2 : ℝ} (hl : PhysicalLaw u1 u2) (hop : op.Exact u1 u2) (hk : op.ExactKepler) (hq : m.Possible q) {o : Orbit}
    (h : keplerianInit C (m.args q) = .ok o) (t : ℝ) (hi : 1 < |o.cos_incl|)
    (hc : (o.relativePosition C t).x ≠ 0 ∨ (o.relativePosition C t).y ≠ 0) :
    (m.lightCurveG t).value op (fun i => .fin (q i)) = .fin 0 ∧
      ∀ (g : Fl) (j : KepPar), (m.lightCurveG t).back op (fun i => .fin (q i)) g j = .fin 0 := by
  set L := quadLimbdarkLightCurve (getCl u1 u2) with hL
  obtain ⟨hp, hci⟩ := keplerGraph_real h L t
  rw [hci] at hi
  rw [hp] at hc
  simp only at hc
  have hcv := (C118_backprop op L q _ (cosInclG_regular (L := L) (op := op) input_regular hq)).1
  have hz : ((Graph.div (m.zG .input (KepMode.clock t)) (.input .r_star)).value op fun i => .fin (q i)) = .nan := by
    simp only [Graph.value, KepMode.zG, KepMode.sinInclG, hcv, Fl.arccos_out hi, Fl.sin_nan, Fl.neg_nan, Fl.nan_mul, Fl.nan_div]
  obtain ⟨-, hB⟩ := C118_backprop op L q _ (limbDark_regular hl hop hk input_regular (clock_regular t) hq (by rcases hc with h | h <;> positivity))
  refine ⟨?_, fun g j => ?_⟩
  · simp only [KepMode.lightCurveG, KepMode.lightCurveOf, fluxGraph, Graph.value] at hz ⊢
    simp [hz]
  · obtain ⟨D, -, hg⟩ := hB j
    have := hg 0
    rw [zero_mul] at this
    rw [← this]
    simp only [KepMode.lightCurveG, KepMode.lightCurveOf, fluxGraph]
    rw [Graph.back]
    simp [hz]

theorem zero_over_zero (w : Fl) : w * .fin 0 / .fin 0 = .nan := by
  cases w with
  | fin x => rw [Fl.fin_mul, mul_zero]; show Fl.div _ _ = _; simp [Fl.div]
  | inf s => rw [show (Fl.inf s * .fin 0 : Fl) = .nan by show Fl.mul _ _ = _; simp [Fl.mul], Fl.nan_div]
  | nan => simp

/-- **C121 (what the code does at `sin ω = -1`).** With `sin_omega=-1` and `cos_omega=0`, which stand for an angle like any other, the computed derivatives
with respect to the eccentricity and the two components are NaN, whatever the compiled operations and their derivatives, and whatever is computed from
the light curve afterwards. -/
theorem C121_downwards (hs : q .sin_omega = -1) (hc : q .cos_omega = 0) (he : 0 ≤ q .ecc) (he1 : q .ecc ≤ 1) (t : ℝ) (g : Fl) {j : KepPar}
    (hj : j = .ecc ∨ j = .sin_omega ∨ j = .cos_omega) :
    (KepMode.sincos.lightCurveG t).back op (fun i => .fin (q i)) g j = .nan := by
  have hE : ∀ w : Fl, (KepMode.sincos.E0G .input).back op (fun i => .fin (q i)) w j = .nan := by
    intro w
    have hx : (Graph.mul (.sqrt (.sub (.const 1) (.input .ecc))) (KepMode.sincos.cosOmegaG .input)).value op (fun i => .fin (q i)) = .fin 0 := by
      simp only [Graph.value, KepMode.cosOmegaG, Fl.fin_sub, Fl.sqrt_fin (show (0 : ℝ) ≤ 1 - q .ecc by linarith), hc, Fl.fin_mul, mul_zero]
    have hy : (Graph.mul (.sqrt (.add (.const 1) (.input .ecc))) (.add (.const 1) (KepMode.sincos.sinOmegaG .input))).value op (fun i => .fin (q i)) = .fin 0 := by
      simp only [Graph.value, KepMode.sinOmegaG, Fl.fin_add, Fl.sqrt_fin (show (0 : ℝ) ≤ 1 + q .ecc by linarith), hs, Fl.fin_mul, add_neg_cancel, mul_zero]
    rw [KepMode.E0G, Graph.back, Graph.back, Graph.back]
    rw [hx, hy]
    rw [show (Fl.fin 0 ^ 2 + Fl.fin 0 ^ 2 : Fl) = .fin 0 by simp, show (-Fl.fin 0 : Fl) = .fin 0 by simp, zero_over_zero]
    rcases hj with rfl | rfl | rfl <;> simp [Graph.back, KepMode.cosOmegaG, KepMode.sinOmegaG]
  have hA : ∀ w : Fl, (KepMode.sincos.anomalyG .input (KepMode.clock t)).back op (fun i => .fin (q i)) w j = .nan := by
    intro w
    simp [KepMode.anomalyG, KepMode.clock, KepMode.M0G, Graph.back, hE]
  have hx : ∀ w : Fl, (KepMode.sincos.x1G .input (KepMode.clock t)).back op (fun i => .fin (q i)) w j = .nan := by
    intro w
    simp [KepMode.x1G, KepMode.sinfG, Graph.back, hA]
  simp [KepMode.lightCurveG, KepMode.lightCurveOf, fluxGraph, Graph.back, hx]

/-! ## The centre of the star -/

/-- **C121 (what exact arithmetic does at the centre).** When the planet is exactly in front of the centre of the star (or behind it), the computed
derivatives are NaN, whatever the compiled operations and their derivatives, and whatever is computed from the light curve afterwards. -/
theorem C121_centre (hk : op.ExactKepler) (hq : m.Possible q) {o : Orbit} (h : keplerianInit C (m.args q) = .ok o) (t : ℝ)
    (hx : (o.relativePosition C t).x = 0) (hy : (o.relativePosition C t).y = 0) (g : Fl) {j : KepPar}
    (hj : j = .a ∨ j = .b ∨ j = .r_star ∨ (m = .circular ∧ (j = .period ∨ j = .t0)) ∨ (m ≠ .circular ∧ j = .ecc)) :
    (m.lightCurveG t).back op (fun i => .fin (q i)) g j = .nan := by
  set L : ℝ → ℝ → ℝ := fun _ _ => 0
  obtain ⟨hp, -⟩ := keplerGraph_real h L t
  rw [hp] at hx hy
  simp only at hx hy
  obtain ⟨rx, ry⟩ := plane_regular (L := L) hk input_regular (clock_regular t) hq
  have vx := (C118_backprop op L q _ rx).1
  have vy := (C118_backprop op L q (m.yG .input (KepMode.clock t)) ⟨cosInclG_regular input_regular hq, ry⟩).1
  rw [hx] at vx
  rw [hy] at vy
  have hs : ((Fl.fin 0 ^ 2 + Fl.fin 0 ^ 2 : Fl)).sqrt = .fin 0 := by simp [Fl.sqrt]
  have key : (m.x1G .input (KepMode.clock t)).back op (fun i => .fin (q i)) .nan j + (m.yG .input (KepMode.clock t)).back op (fun i => .fin (q i)) .nan j = .nan := by
    rcases hj with rfl | rfl | rfl | ⟨rfl, rfl | rfl⟩ | ⟨hm, rfl⟩
    · cases m <;> simp [KepMode.x1G, KepMode.radiusG, Graph.back]
    · simp [KepMode.yG, KepMode.cosInclG, Graph.back]
    · simp [KepMode.yG, KepMode.cosInclG, Graph.back]
    · simp [KepMode.x1G, KepMode.cosfG, KepMode.anomalyG, KepMode.clock, KepMode.nG, Graph.back]
    · simp [KepMode.x1G, KepMode.cosfG, KepMode.anomalyG, KepMode.clock, KepMode.nG, Graph.back]
    · cases m <;> simp [KepMode.x1G, KepMode.radiusG, KepMode.ome2G, Graph.back] at hm ⊢
  simp only [KepMode.lightCurveG, KepMode.lightCurveOf, fluxGraph, Graph.back, Graph.value, vx, vy, hs]
  rw [nan_of_zero, key]
  simp

/-- Exact compiled operations. -/
noncomputable def exactOp (u1 u2 : ℝ) : FlOp where
  value b k := match b, k with | .fin b, .fin k => .fin (quadLimbdarkLightCurve (getCl u1 u2) b k) | _, _ => .nan
  backB g b k := match g, b, k with | .fin g, .fin b, .fin k => .fin (g * -motionLoss u1 u2 b k) | _, _, _ => .nan
  backR g b k := match g, b, k with | .fin g, .fin b, .fin k => .fin (g * -growthLoss u1 u2 b k) | _, _, _ => .nan
  kepler M e := match M, e with | .fin M, .fin e => (.fin (keplerOp M e).1, .fin (keplerOp M e).2) | _, _ => (.nan, .nan)
  backSin g M e := match g, M, e with
    | .fin g, .fin M, .fin e => (.fin (g * ((keplerOp M e).2 * anomalyPerMean M e)), .fin (g * ((keplerOp M e).2 * anomalyPerEcc M e)))
    | _, _, _ => (.nan, .nan)
  backCos g M e := match g, M, e with
    | .fin g, .fin M, .fin e => (.fin (g * (-(keplerOp M e).1 * anomalyPerMean M e)), .fin (g * (-(keplerOp M e).1 * anomalyPerEcc M e)))
    | _, _, _ => (.nan, .nan)
  solution i b k := match b, k with | .fin b, .fin k => .fin (solutionEntry i b k) | _, _ => .nan
  backSolution i g b k := match g, b, k with
    | .fin g, .fin b, .fin k =>
      (.fin (g * fderiv ℝ (fun q : ℝ × ℝ => solutionEntry i q.1 q.2) (b, k) (1, 0)), .fin (g * fderiv ℝ (fun q : ℝ × ℝ => solutionEntry i q.1 q.2) (b, k) (0, 1)))
    | _, _, _ => (.nan, .nan)

theorem exactOp_exact (u1 u2 : ℝ) : (exactOp u1 u2).Exact u1 u2 ∧ (exactOp u1 u2).ExactKepler :=
  ⟨⟨fun _ _ => rfl, fun _ _ _ _ _ => ⟨rfl, rfl⟩⟩, ⟨⟨fun _ _ _ _ => rfl, fun _ => rfl⟩, fun _ _ _ _ _ => rfl, fun _ _ _ _ _ => rfl⟩⟩

/-- **C121 (the derivatives exist).** The flux has derivatives with respect to all parameters also where the planet is exactly in front of the centre of
the star, unless it is as large as the star. -/
theorem C121_differentiable {u1 u2 : ℝ} (hl : PhysicalLaw u1 u2) (hq : m.Possible q) (o : (KepPar → ℝ) → Orbit)
    (ho : ∀ q, keplerianInit C (m.args q) = .ok (o q)) (t : ℝ) (hi : |(o q).cos_incl| < 1)
    (hne : ¬(((o q).relativePosition C t).x = 0 ∧ ((o q).relativePosition C t).y = 0 ∧ q .r = q .r_star)) (hz : ((o q).relativePosition C t).z ≠ 0)
    (j : KepPar) :
    ∃ D, HasDerivAt (fun s => fluxAt (getCl u1 u2) (update q j s .r_star) (update q j s .r) ((o (update q j s)).relativePosition C t)) D (q j) := by
  set L : ℝ → ℝ → ℝ := fun _ _ => 0
  obtain ⟨-, hk⟩ := exactOp_exact u1 u2
  have hp := fun q => keplerGraph_real (ho q) L t
  obtain ⟨rx, ry⟩ := plane_regular (L := L) hk input_regular (clock_regular t) hq
  have hcr := cosInclG_regular (L := L) (op := exactOp u1 u2) input_regular hq
  rw [(hp q).2] at hi
  rw [(hp q).1] at hne hz
  simp only at hne hz
  obtain ⟨-, dx⟩ := C118_backprop (exactOp u1 u2) L q _ rx
  obtain ⟨-, dy⟩ := C118_backprop (exactOp u1 u2) L q (m.yG .input (KepMode.clock t)) ⟨hcr, ry⟩
  obtain ⟨-, dz⟩ := C118_backprop (exactOp u1 u2) L q (m.zG .input (KepMode.clock t)) ⟨⟨hcr, hi⟩, ry⟩
  obtain ⟨X, hX, -⟩ := dx j
  obtain ⟨Y, hY, -⟩ := dy j
  obtain ⟨Z, hZ, -⟩ := dz j
  obtain ⟨-, dR⟩ := C118_backprop (exactOp u1 u2) L q (.input .r_star) trivial
  obtain ⟨-, dr⟩ := C118_backprop (exactOp u1 u2) L q (.input .r) trivial
  obtain ⟨A, hA, -⟩ := dR j
  obtain ⟨B, hB, -⟩ := dr j
  simp only [Graph.real] at hA hB
  set z0 := (m.zG .input (KepMode.clock t)).real L q with hz0
  set F : ℝ × ℝ × ℝ × ℝ → ℝ := fun p => fluxAt (getCl u1 u2) p.2.2.1 p.2.2.2 ⟨p.1, p.2.1, z0⟩ with hF
  have hFd : ContDiffAt ℝ 1 F ((m.x1G .input (KepMode.clock t)).real L q, (m.yG .input (KepMode.clock t)).real L q, q .r_star, q .r) :=
    fluxAt_contDiffAt (E := ℝ × ℝ × ℝ × ℝ) (v := fun p => ⟨p.1, p.2.1, z0⟩) (R := fun p => p.2.2.1) (r := fun p => p.2.2.2) (u1 := fun _ => u1)
      (u2 := fun _ => u2) hl.pos.ne' contDiffAt_const contDiffAt_const hq.r_star (by fun_prop) (by fun_prop) (by fun_prop) continuousAt_const
      (by fun_prop) hq.r (fun h => hne ⟨h.1, h.2.1, h.2.2.1⟩) (Or.inl hz)
  have hFf := (hFd.differentiableAt one_ne_zero).hasFDerivAt
  have hcurve : HasDerivAt (fun s => ((m.x1G .input (KepMode.clock t)).real L (update q j s), (m.yG .input (KepMode.clock t)).real L (update q j s), update q j s .r_star, update q j s .r))
      (X, Y, A, B) (q j) := hX.prodMk (hY.prodMk (hA.prodMk hB))
  have hFf' : HasFDerivAt F (fderiv ℝ F ((m.x1G .input (KepMode.clock t)).real L q, (m.yG .input (KepMode.clock t)).real L q, q .r_star, q .r))
      ((fun s => ((m.x1G .input (KepMode.clock t)).real L (update q j s), (m.yG .input (KepMode.clock t)).real L (update q j s), update q j s .r_star, update q j s .r)) (q j)) := by
    simpa using hFf
  refine ⟨_, (hFf'.comp_hasDerivAt (q j) hcurve).congr_of_eventuallyEq ?_⟩
  have hRc : ∀ᶠ s in 𝓝 (q j), 0 < update q j s .r_star :=
    hA.continuousAt.eventually (lt_mem_nhds (by simpa using hq.r_star))
  have hzc : ∀ᶠ s in 𝓝 (q j), (0 < (m.zG .input (KepMode.clock t)).real L (update q j s) ↔ 0 < z0) := by
    rcases lt_or_gt_of_ne hz with h | h
    · filter_upwards [hZ.continuousAt.eventually_lt continuousAt_const (by simpa using h)] with s hs
      exact ⟨fun h' => absurd h' hs.le.not_gt, fun h' => absurd h' h.le.not_gt⟩
    · filter_upwards [hZ.continuousAt.eventually (lt_mem_nhds (a := 0) (by simpa using h))] with s hs
      exact ⟨fun _ => h, fun _ => hs⟩
  filter_upwards [hRc, hzc] with s hs hsz
  rw [(hp (update q j s)).1]
  simp only [hF, comp_apply, fluxAt, computeLightCurve, Option.getD_some, gt_iff_lt]
  simp only [div_pos_iff_of_pos_right hs, hsz]

/-- A planet of a tenth of the radius of its star at ten stellar radii, with `ecc = 0.3` and `omega = π / 2`, and the given `b` and `sin_omega`. -/
noncomputable def demoKep (b s : ℝ) : KepPar → ℝ
  | .a => 10
  | .period => 10
  | .t0 => 0
  | .b => b
  | .r_star => 1
  | .ecc => 0.3
  | .omega => π / 2
  | .sin_omega => s
  | .cos_omega => 0
  | .r => 0.1

theorem demoKep_possible (m : KepMode) (b : ℝ) : m.Possible (demoKep b 1) := by
  refine ⟨by norm_num [demoKep], by norm_num [demoKep], by norm_num [demoKep], by norm_num [demoKep], fun _ => by norm_num [demoKep], fun hm => ?_⟩
  cases m with
  | circular => exact absurd rfl hm
  | angle => norm_num [demoKep, KepMode.sinOmega]
  | sincos => norm_num [demoKep, KepMode.sinOmega]

theorem centralKep_position (o : Orbit) (h : keplerianInit C (KepMode.circular.args (demoKep 0 1)) = .ok o) :
    o.relativePosition C 0 = ⟨0, 0, 10⟩ ∧ o.cos_incl = 0 := by
  obtain ⟨hp, hci⟩ := keplerGraph_real h (fun _ _ => 0) 0
  have hM : (KepMode.circular.anomalyG .input (KepMode.clock 0)).real (fun _ _ => 0) (demoKep 0 1) = π / 2 := by
    simp only [KepMode.anomalyG, KepMode.clock, KepMode.M0G, KepMode.nG, Graph.real, demoKep]
    have := pi_pos.ne'
    field_simp
    norm_num
  rw [hp, hci]
  simp only [KepMode.x1G, KepMode.yG, KepMode.zG, KepMode.y1G, KepMode.cosfG, KepMode.sinfG, KepMode.radiusG, KepMode.sinInclG, KepMode.cosInclG,
    KepMode.inclFactorG, Graph.real, hM]
  simp [demoKep]

/-- Concrete violation of C121: for `KeplerianOrbit(a=10, period=10, t0=0, b=0, r_star=1)` at `t = 0` the flux has derivatives with respect to all parameters;
computed with exact operations, those with respect to all parameters of the orbit are NaN. -/
theorem C121_counterexample {u1 u2 : ℝ} (hl : PhysicalLaw u1 u2) (C : Consts) (o : (KepPar → ℝ) → Orbit)
    (ho : ∀ q, keplerianInit C (KepMode.circular.args q) = .ok (o q)) : ∃ q : KepPar → ℝ, KepMode.circular.Possible q ∧ q .b = 0 ∧ q .t0 = 0 ∧
    (∀ j, ∃ D, HasDerivAt (fun s => fluxAt (getCl u1 u2) (update q j s .r_star) (update q j s .r) ((o (update q j s)).relativePosition C 0)) D (q j)) ∧
    ∀ op : FlOp, op.ExactKepler → ∀ (g : Fl) (j : KepPar), j = .a ∨ j = .period ∨ j = .t0 ∨ j = .b ∨ j = .r_star →
      (KepMode.circular.lightCurveG 0).back op (fun i => .fin (q i)) g j = .nan := by
  obtain ⟨hp, hi⟩ := centralKep_position (C := C) (o (demoKep 0 1)) (ho (demoKep 0 1))
  refine ⟨demoKep 0 1, demoKep_possible _ _, rfl, rfl, fun j => ?_, fun op hk g j hj => ?_⟩
  · refine C121_differentiable hl (demoKep_possible _ _) o ho 0 (by rw [hi]; norm_num) ?_ (by rw [hp]; norm_num) j
    rintro ⟨-, -, h⟩
    norm_num [demoKep] at h
  · refine C121_centre hk (demoKep_possible _ _) (ho (demoKep 0 1)) 0 (by rw [hp]) (by rw [hp]) g ?_
    rcases hj with rfl | rfl | rfl | rfl | rfl <;> simp

/-! ## Examples -/

theorem offsetKep_position (o : Orbit) (h : keplerianInit C (KepMode.sincos.args (demoKep 0.5 1)) = .ok o) :
    (o.relativePosition C 0).y = -0.5 ∧ 0 < (o.relativePosition C 0).z ∧ o.cos_incl = 0.5 / 7 := by
  obtain ⟨hp, hci⟩ := keplerGraph_real h (fun _ _ => 0) 0
  have hM : (KepMode.sincos.anomalyG .input (KepMode.clock 0)).real (fun _ _ => 0) (demoKep 0.5 1) = 0 := by
    simp only [KepMode.anomalyG, KepMode.clock, KepMode.M0G, KepMode.E0G, KepMode.cosOmegaG, KepMode.nG, Graph.real, demoKep, mul_zero]
    have h0 : ∀ x : ℝ, 0 < x → Exo.arctan2 0 x = 0 := fun x hx => Complex.arg_ofReal_of_nonneg hx.le
    rw [h0 _ (mul_pos (sqrt_pos.2 (by norm_num)) (by norm_num [KepMode.sinOmegaG, Graph.real, demoKep]))]
    simp
  have hK : keplerOp 0 0.3 = (0, 1) := by
    have : eccAnomaly 0.3 0 = 0 := eccAnomaly_unique (by norm_num) (by norm_num) (by simp [keplerMap])
    simp only [keplerOp, this]
    norm_num
  rw [hp, hci]
  simp only [KepMode.yG, KepMode.zG, KepMode.y1G, KepMode.cosfG, KepMode.sinfG, KepMode.radiusG, KepMode.sinInclG, KepMode.cosInclG,
    KepMode.inclFactorG, KepMode.sinOmegaG, KepMode.cosOmegaG, KepMode.ome2G, Graph.real, hM]
  simp only [demoKep, hK]
  refine ⟨by norm_num, ?_, by norm_num⟩
  have : 0 < sin (arccos ((1 + 0.3 * 1) / (1 - 0.3 ^ 2) * 1 / 10 * 0.5)) := by
    rw [sin_arccos]
    exact sqrt_pos.2 (by norm_num)
  norm_num at this ⊢
  linarith

/-- The hypotheses of `C121_light_curve_partial` can be met: an eccentric orbit with `b = 0.5` in the middle of the transit. -/
example (C : Consts) (o : (KepPar → ℝ) → Orbit) (ho : ∀ q, keplerianInit C (KepMode.sincos.args q) = .ok (o q)) (hl : PhysicalLaw 0.3 0.2) :
    GradientRight (exactOp 0.3 0.2) (KepMode.sincos.lightCurveG 0)
      (fun q => fluxAt (getCl 0.3 0.2) (q .r_star) (q .r) ((o q).relativePosition C 0)) (demoKep 0.5 1) := by
  obtain ⟨hy, hz, hi⟩ := offsetKep_position (o (demoKep 0.5 1)) (ho (demoKep 0.5 1))
  exact C121_light_curve_partial hl (exactOp_exact _ _).1 (exactOp_exact _ _).2 (demoKep_possible _ _) o ho 0
    (by rw [hi, abs_of_pos (by norm_num)]; norm_num) (Or.inr (by rw [hy]; norm_num)) (Or.inl hz.ne')

/-- The hypotheses of `C121_circular` (and those of the other statements at `e = 0`) can be met: `ecc = 0` and any argument of periastron, in the middle of the transit. -/
example (C : Consts) (q : KepPar → ℝ) (hqe : ∀ p, q p = if p = .ecc then 0 else demoKep 0.5 1 p) {o₀ : Orbit} (h₀ : keplerianInit C (KepMode.circular.args q) = .ok o₀) (hl : PhysicalLaw 0.3 0.2) :
    (KepMode.angle.lightCurveG 0).back (exactOp 0.3 0.2) (fun i => .fin (q i)) (.fin 1) .a = (KepMode.circular.lightCurveG 0).back (exactOp 0.3 0.2) (fun i => .fin (q i)) (.fin 1) .a := by
  obtain ⟨hp, hci⟩ := keplerGraph_real h₀ (fun _ _ => 0) 0
  have hv : q .a = 10 ∧ q .period = 10 ∧ q .t0 = 0 ∧ q .b = 0.5 ∧ q .r_star = 1 ∧ q .r = 0.1 ∧ q .ecc = 0 ∧ q .omega = π / 2 := by simp [hqe, demoKep]
  obtain ⟨v1, v2, v3, v4, v5, v6, v7, v8⟩ := hv
  have hM : (KepMode.circular.anomalyG .input (KepMode.clock 0)).real (fun _ _ => 0) q = π / 2 := by
    simp only [KepMode.anomalyG, KepMode.clock, KepMode.M0G, KepMode.nG, Graph.real, v2, v3]
    have := pi_pos.ne'
    field_simp
    norm_num
  have hq : KepMode.angle.Possible q := ⟨by rw [v1]; norm_num, by rw [v2]; norm_num, by rw [v5]; norm_num, by rw [v6]; norm_num, fun _ => by rw [v7]; norm_num,
    fun _ => by simp [KepMode.sinOmega, v8]⟩
  refine (C121_circular (m := .angle) hl (exactOp_exact _ _).1 (exactOp_exact _ _).2 nofun hq v7 nofun h₀ 0 ?_ (Or.inr ?_) (Or.inl ?_) .a ⟨nofun, nofun, nofun, nofun⟩ 1).2
  · rw [hci]
    norm_num [KepMode.cosInclG, KepMode.inclFactorG, Graph.real, v1, v4, v5]
  · rw [hp]
    simp only [KepMode.yG, KepMode.y1G, KepMode.sinfG, KepMode.radiusG, KepMode.cosInclG, KepMode.inclFactorG, Graph.real, hM, v1, v4, v5]
    norm_num
  · rw [hp]
    simp only [KepMode.zG, KepMode.y1G, KepMode.sinfG, KepMode.radiusG, KepMode.sinInclG, KepMode.cosInclG, KepMode.inclFactorG, Graph.real, hM, v1, v4, v5, sin_arccos]
    norm_num

/-- The hypotheses of `C121_impossible` can be met: `b = 20` at ten stellar radii. -/
example (C : Consts) {o : Orbit} (h : keplerianInit C (KepMode.circular.args (demoKep 20 1)) = .ok o) (hl : PhysicalLaw 0.3 0.2) (g : Fl) :
    (KepMode.circular.lightCurveG 0).back (exactOp 0.3 0.2) (fun i => .fin (demoKep 20 1 i)) g .b = .fin 0 := by
  obtain ⟨hp, hci⟩ := keplerGraph_real h (fun _ _ => 0) 0
  have hM : (KepMode.circular.anomalyG .input (KepMode.clock 0)).real (fun _ _ => 0) (demoKep 20 1) = π / 2 := by
    simp only [KepMode.anomalyG, KepMode.clock, KepMode.M0G, KepMode.nG, Graph.real, demoKep]
    have := pi_pos.ne'
    field_simp
    norm_num
  refine (C121_impossible hl (exactOp_exact _ _).1 (exactOp_exact _ _).2 (demoKep_possible _ _) h 0 ?_ (Or.inr ?_)).2 g .b
  · rw [hci]
    norm_num [KepMode.cosInclG, KepMode.inclFactorG, Graph.real, demoKep]
  · rw [hp]
    simp only [KepMode.yG, KepMode.y1G, KepMode.sinfG, KepMode.radiusG, KepMode.cosInclG, KepMode.inclFactorG, Graph.real, hM]
    norm_num [demoKep]

/-- The hypotheses of `C121_downwards` can be met. -/
example (op : FlOp) (t : ℝ) : (KepMode.sincos.lightCurveG t).back op (fun i => .fin (demoKep 0.5 (-1) i)) (.fin 1) .ecc = .nan :=
  C121_downwards (q := demoKep 0.5 (-1)) rfl rfl (by norm_num [demoKep]) (by norm_num [demoKep]) t (.fin 1) (Or.inl rfl)

end

end Exo
