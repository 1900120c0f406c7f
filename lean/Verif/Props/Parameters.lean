import Verif.Spec.Parameters
import Verif.Props.Averages
import Verif.Props.Continuity
import Verif.Props.Conjunction

/-!
# C95: positions and light curves depend continuously on the parameters
-/

namespace Exo
open Real Filter Topology

/-- The solution of Kepler's equation is a jointly continuous function of the eccentricity and the mean anomaly. -/
theorem eccAnomaly_tendsto {X : Type} [TopologicalSpace X] {e M : X → ℝ} {x : X} (he : ContinuousAt e x) (hM : ContinuousAt M x)
    (h0 : ∀ᶠ y in 𝓝 x, 0 ≤ e y ∧ e y < 1) : ContinuousAt (fun y => eccAnomaly (e y) (M y)) x := by
  have hx := h0.self_of_nhds
  have hE := keplerMap_eccAnomaly hx.1 (M x)
  rw [Metric.continuousAt_iff']
  intro ε hε
  have hl : keplerMap (e x) (eccAnomaly (e x) (M x) - ε) < M x := by
    conv_rhs => rw [← hE]
    exact keplerMap_strictMono hx.1 hx.2 (by linarith)
  have hu : M x < keplerMap (e x) (eccAnomaly (e x) (M x) + ε) := by
    conv_lhs => rw [← hE]
    exact keplerMap_strictMono hx.1 hx.2 (by linarith)
  have hc : ∀ E, ContinuousAt (fun y => keplerMap (e y) E) x := by
    intro E
    unfold keplerMap
    exact continuousAt_const.sub (he.mul continuousAt_const)
  filter_upwards [h0, (hc _).eventually_lt hM hl, hM.eventually_lt (hc _) hu] with y hy h1 h2
  rw [Real.dist_eq, abs_lt]
  have hEy := keplerMap_eccAnomaly hy.1 (M y)
  rw [← hEy] at h1 h2
  rw [(keplerMap_strictMono hy.1 hy.2).lt_iff_lt] at h1 h2
  constructor <;> linarith

/-- The mean anomaly at transit is a continuous function of the eccentricity and the direction of periastron, except at `sin ω = -1`. -/
theorem M0Of_continuousAt {X : Type} [TopologicalSpace X] {o : X → Orbit} {x : X} (he : ContinuousAt (fun y => (o y).eccVal) x)
    (hs : ContinuousAt (fun y => (o y).sw) x) (hc : ContinuousAt (fun y => (o y).cw) x) (hp : ∀ᶠ y in 𝓝 x, (o y).Physical)
    (hr : (o x).sw ≠ -1) : ContinuousAt (fun y => M0Of (o y).ecc) x := by
  have hx := hp.self_of_nhds
  have e : ∀ y, M0Of (o y).ecc = 2 * arctan2 (√(1 - (o y).eccVal) * (o y).cw) (√(1 + (o y).eccVal) * (1 + (o y).sw)) -
      (o y).eccVal * sin (2 * arctan2 (√(1 - (o y).eccVal) * (o y).cw) (√(1 + (o y).eccVal) * (1 + (o y).sw))) := by
    intro y
    unfold M0Of Orbit.eccVal Orbit.sw Orbit.cw
    cases h : (o y).ecc with
    | some p => rfl
    | none =>
      simp only
      have : arctan2 (√(1 - 0) * 1) (√(1 + 0) * (1 + 0)) = π / 4 := by
        norm_num
        unfold arctan2
        rw [show (⟨1, 1⟩ : ℂ) = ((√2 : ℝ) : ℂ) * (Complex.cos ((π / 4 : ℝ) : ℂ) + Complex.sin ((π / 4 : ℝ) : ℂ) * Complex.I) by
          apply Complex.ext <;> simp [← Complex.ofReal_cos, ← Complex.ofReal_sin, -Complex.ofReal_div, cos_pi_div_four, sin_pi_div_four, mul_div_assoc']]
        exact Complex.arg_mul_cos_add_sin_mul_I (by positivity) ⟨by linarith [pi_pos], by linarith [pi_pos]⟩
      rw [this]
      ring
  have ha : ContinuousAt (fun y => arctan2 (√(1 - (o y).eccVal) * (o y).cw) (√(1 + (o y).eccVal) * (1 + (o y).sw))) x := by
    unfold arctan2
    refine ContinuousAt.comp' (x := x) (g := Complex.arg) ?_ ?_
    · refine Complex.continuousAt_arg ?_
      left
      simp only
      have h1 := hx.omega_sq
      have h2 : -1 ≤ (o x).sw := by nlinarith [sq_nonneg (o x).cw]
      have h3 : 0 < 1 + (o x).sw := by
        rcases h2.eq_or_lt with h | h
        · exact absurd h.symm hr
        · linarith
      have h4 := hx.eccOk.nonneg
      positivity
    · have h1 : ContinuousAt (fun y => √(1 - (o y).eccVal) * (o y).cw) x := (continuousAt_const.sub he).sqrt.mul hc
      have h2 : ContinuousAt (fun y => √(1 + (o y).eccVal) * (1 + (o y).sw)) x := (continuousAt_const.add he).sqrt.mul (continuousAt_const.add hs)
      have : (fun y => (⟨√(1 + (o y).eccVal) * (1 + (o y).sw), √(1 - (o y).eccVal) * (o y).cw⟩ : ℂ)) =
          fun y => ((√(1 + (o y).eccVal) * (1 + (o y).sw) : ℝ) : ℂ) + ((√(1 - (o y).eccVal) * (o y).cw : ℝ) : ℂ) * Complex.I := by
        funext y
        exact Complex.mk_eq_add_mul_I _ _
      rw [this]
      exact (Complex.continuous_ofReal.continuousAt.comp' h2).add ((Complex.continuous_ofReal.continuousAt.comp' h1).mul continuousAt_const)
  have h2 := ha.const_mul 2
  have : (fun y => M0Of (o y).ecc) = _ := funext e
  rw [this]
  exact h2.sub (he.mul (continuous_sin.continuousAt.comp' h2))

section
variable {C : Consts} {X : Type} [TopologicalSpace X] {o : X → Orbit} {x : X}

theorem E_continuousAt (hb : ∀ y, ∃ A, keplerianInit C A = .ok (o y)) (hp : ∀ᶠ y in 𝓝 x, (o y).Physical) (hc : ElementsContinuousAt o x)
    (hr : (o x).Regular) {t : X → ℝ} (ht : ContinuousAt t x) : ContinuousAt (fun y => (o y).E (t y)) x := by
  have hx := hp.self_of_nhds
  have hM0 := M0Of_continuousAt hc.ecc hc.sinOmega hc.cosOmega hp hr.sw_ne
  have hM : ContinuousAt (fun y => (o y).meanAnom (t y)) x := by
    have e : (fun y => (t y - (o y).t0) * (2 * π / (o y).period) + M0Of (o y).ecc) =ᶠ[𝓝 x] fun y => (o y).meanAnom (t y) := by
      filter_upwards [hp] with y hy
      obtain ⟨A, hA⟩ := hb y
      have B := built_of_init hA
      have hn := (B.n_pos hy).ne'
      rw [B.meanAnom_eq, B.t0_eq, ← B.n_eq, ← B.M0_eq]
      field_simp
      ring
    refine ContinuousAt.congr ?_ e
    exact ((ht.sub hc.t0).mul (continuousAt_const.div hc.period hx.period_pos.ne')).add hM0
  exact eccAnomaly_tendsto hc.ecc hM (hp.mono fun y hy => ⟨hy.eccOk.nonneg, hy.eccOk.lt_one⟩)

theorem rotate_continuousAt (hb : ∀ y, ∃ A, keplerianInit C A = .ok (o y)) (hp : ∀ᶠ y in 𝓝 x, (o y).Physical) (hc : ElementsContinuousAt o x)
    {f g : X → ℝ} (hf : ContinuousAt f x) (hg : ContinuousAt g x) : ContinuousVAt (fun y => (o y).rotate (f y) (g y)) x := by
  have hcW : ContinuousAt (fun y => (o y).cW) x := by
    simp only [Orbit.cW_eq]
    exact continuous_cos.continuousAt.comp' hc.Omega
  have hsW : ContinuousAt (fun y => (o y).sW) x := by
    simp only [Orbit.sW_eq]
    exact continuous_sin.continuousAt.comp' hc.Omega
  have hsi : ContinuousAt (fun y => (o y).sin_incl) x := by
    refine (continuous_sin.continuousAt.comp' hc.incl).congr (Eventually.of_forall fun y => ?_)
    obtain ⟨A, hA⟩ := hb y
    exact (built_of_init hA).sin_incl_eq.symm
  have hci : ContinuousAt (fun y => (o y).cos_incl) x := by
    refine (continuous_cos.continuousAt.comp' hc.incl).congr ?_
    filter_upwards [hp] with y hy
    obtain ⟨A, hA⟩ := hb y
    exact ((built_of_init hA).cos_incl_eq hy.cos_incl_abs).symm
  have hs : ContinuousAt (fun y => (o y).sw) x := hc.sinOmega
  have hcw : ContinuousAt (fun y => (o y).cw) x := hc.cosOmega
  unfold ContinuousVAt
  simp only [Orbit.rotate_eq]
  have h1 := (hcw.mul hf).sub (hs.mul hg)
  have h2 := (hs.mul hf).add (hcw.mul hg)
  exact ⟨(hcW.mul h1).sub (hsW.mul (hci.mul h2)), (hsW.mul h1).add (hcW.mul (hci.mul h2)), hsi.neg.mul h2⟩

/-- **C95** (positions, away from `sin ω = -1`): if the elements of an orbit are varied continuously, together with the time, the positions of planet
and star and their separation vary continuously; through `ecc = 0` too, and between orbits with and without `ecc`. -/
theorem C95_positions_partial (hb : ∀ y, ∃ A, keplerianInit C A = .ok (o y)) (hp : ∀ᶠ y in 𝓝 x, (o y).Physical) (hc : ElementsContinuousAt o x)
    (hr : (o x).Regular) {t : X → ℝ} (ht : ContinuousAt t x) :
    ContinuousVAt (fun y => (o y).relativePosition C (t y)) x ∧ ContinuousVAt (fun y => (o y).planetPosition C (t y)) x ∧
    ContinuousVAt (fun y => (o y).starPosition C (t y)) x := by
  have hE := E_continuousAt hb hp hc hr ht
  have hx := hp.self_of_nhds
  have hse : ContinuousAt (fun y => (o y).se) x := by
    unfold Orbit.se
    exact (continuousAt_const.sub (hc.ecc.pow 2)).sqrt
  have key : ∀ a : X → ℝ, ContinuousAt a x → ContinuousVAt (fun y => (o y).positionNow C (a y) (t y) none) x := by
    intro a ha
    have h := rotate_continuousAt hb hp hc (ha.mul ((continuous_cos.continuousAt.comp' hE).sub hc.ecc))
      (ha.mul (hse.mul (continuous_sin.continuousAt.comp' hE)))
    have e : (fun y => (o y).rotate (a y * (cos ((o y).E (t y)) - (o y).eccVal)) (a y * ((o y).se * sin ((o y).E (t y))))) =ᶠ[𝓝 x]
        fun y => (o y).positionNow C (a y) (t y) none := by
      filter_upwards [hp] with y hy
      exact (Orbit.positionNow_eq hy.eccOk C (a y) (t y)).symm
    exact ⟨h.1.congr (e.fun_comp V3.x), h.2.1.congr (e.fun_comp V3.y), h.2.2.congr (e.fun_comp V3.z)⟩
  obtain ⟨A, hA⟩ := hb x
  have hmt : (o x).m_star + (o x).m_planet ≠ 0 := by
    have := hx.m_star_pos
    have := hx.m_planet_nonneg
    positivity
  have hm : ContinuousAt (fun y => (o y).m_star + (o y).m_planet) x := hc.m_star.add hc.m_planet
  refine ⟨key _ hc.a.neg, key _ ?_, key _ ?_⟩
  · refine ContinuousAt.congr ((hc.a.neg.mul hc.m_star).div hm hmt) (Eventually.of_forall fun y => ?_)
    obtain ⟨A, hA⟩ := hb y
    show -(o y).a * (o y).m_star / ((o y).m_star + (o y).m_planet) = (o y).a_planet
    rw [(built_of_init hA).a_planet_eq, (built_of_init hA).m_total_eq]
  · refine ContinuousAt.congr ((hc.a.mul hc.m_planet).div hm hmt) (Eventually.of_forall fun y => ?_)
    obtain ⟨A, hA⟩ := hb y
    show (o y).a * (o y).m_planet / ((o y).m_star + (o y).m_planet) = (o y).a_star
    rw [(built_of_init hA).a_star_eq, (built_of_init hA).m_total_eq]

/-- **C95** (velocities, away from `sin ω = -1`). -/
theorem C95_velocities_partial (hb : ∀ y, ∃ A, keplerianInit C A = .ok (o y)) (hp : ∀ᶠ y in 𝓝 x, (o y).Physical) (hc : ElementsContinuousAt o x)
    (hr : (o x).Regular) {t : X → ℝ} (ht : ContinuousAt t x) :
    ContinuousVAt (fun y => (o y).relativeVelocity (t y)) x ∧ ContinuousVAt (fun y => (o y).planetVelocity (t y)) x ∧
    ContinuousVAt (fun y => (o y).starVelocity (t y)) x := by
  have hE := E_continuousAt hb hp hc hr ht
  have hx := hp.self_of_nhds
  have hse : ContinuousAt (fun y => (o y).se) x := by
    unfold Orbit.se
    exact (continuousAt_const.sub (hc.ecc.pow 2)).sqrt
  have hmt : (o x).m_star + (o x).m_planet ≠ 0 := by
    have := hx.m_star_pos
    have := hx.m_planet_nonneg
    positivity
  have hm : ContinuousAt (fun y => (o y).m_star + (o y).m_planet) x := hc.m_star.add hc.m_planet
  have hK : ContinuousAt (fun y => (o y).K0) x := by
    refine ContinuousAt.congr ((((continuousAt_const (y := 2 * π)).div hc.period hx.period_pos.ne').mul hc.a).div hm hmt |>.div hse hx.eccOk.se_pos.ne')
      (Eventually.of_forall fun y => ?_)
    obtain ⟨A, hA⟩ := hb y
    have B := built_of_init hA
    show 2 * π / (o y).period * (o y).a / ((o y).m_star + (o y).m_planet) / (o y).se = (o y).K0
    rw [B.K0_eq, K0Of_eq, B.n_eq, B.m_total_eq]
  have hd : ContinuousAt (fun y => 1 - (o y).eccVal * cos ((o y).E (t y))) x :=
    continuousAt_const.sub (hc.ecc.mul (continuous_cos.continuousAt.comp' hE))
  have key : ∀ m : X → ℝ, ContinuousAt m x → ContinuousVAt (fun y => (o y).velocity (m y) (t y)) x := by
    intro m hm
    have h := rotate_continuousAt hb hp hc
      ((((hK.mul hm).neg.mul hse).mul (continuous_sin.continuousAt.comp' hE)).div hd (hx.eccOk.dpos (t x)).ne')
      ((((hK.mul hm).mul ((continuousAt_const (y := (1 : ℝ))).sub (hc.ecc.pow 2))).mul (continuous_cos.continuousAt.comp' hE)).div hd
        (hx.eccOk.dpos (t x)).ne')
    have e : (fun y => (o y).rotate (-((o y).K0 * m y) * (o y).se * sin ((o y).E (t y)) / (1 - (o y).eccVal * cos ((o y).E (t y))))
        ((o y).K0 * m y * (1 - (o y).eccVal ^ 2) * cos ((o y).E (t y)) / (1 - (o y).eccVal * cos ((o y).E (t y))))) =ᶠ[𝓝 x]
        fun y => (o y).velocity (m y) (t y) := by
      filter_upwards [hp] with y hy
      exact (Orbit.velocity_anom hy.eccOk (m y) (t y)).symm
    exact ⟨h.1.congr (e.fun_comp V3.x), h.2.1.congr (e.fun_comp V3.y), h.2.2.congr (e.fun_comp V3.z)⟩
  refine ⟨key _ ?_, key _ hc.m_star.neg, key _ hc.m_planet⟩
  refine hm.neg.congr (Eventually.of_forall fun y => ?_)
  obtain ⟨A, hA⟩ := hb y
  show -((o y).m_star + (o y).m_planet) = -(o y).m_total
  rw [(built_of_init hA).m_total_eq]

end

/-! ## Light curves -/

theorem getCl_continuousAt {X : Type} [TopologicalSpace X] {u1 u2 : X → ℝ} {x : X} (h1 : ContinuousAt u1 x) (h2 : ContinuousAt u2 x)
    (hlaw : 1 - u1 x / 3 - u2 x / 6 ≠ 0) : ContinuousAt (fun y => getCl (u1 y) (u2 y)) x := by
  unfold getCl
  have hn : π * (1 - u1 x - 1.5 * u2 x + (u1 x + 2 * u2 x) / 1.5) ≠ 0 := by
    refine mul_ne_zero pi_pos.ne' ?_
    convert hlaw using 1
    ring
  have hN : ContinuousAt (fun y => π * (1 - u1 y - 1.5 * u2 y + (u1 y + 2 * u2 y) / 1.5)) x := by fun_prop
  refine ContinuousAt.prodMk ?_ (ContinuousAt.prodMk ?_ ?_)
  · exact ContinuousAt.div (by fun_prop) hN hn
  · exact ContinuousAt.div (by fun_prop) hN hn
  · exact ContinuousAt.div (by fun_prop) hN hn

theorem quadLc_continuousAt {X : Type} [TopologicalSpace X] {c : X → ℝ × ℝ × ℝ} {b r : X → ℝ} {x : X} (hc : ContinuousAt c x)
    (hb : ContinuousAt b x) (hr : ContinuousAt r x) : ContinuousAt (fun y => quadLimbdarkLightCurve (c y) (b y) (r y)) x := by
  unfold quadLimbdarkLightCurve quadSolutionVector
  have key : ∀ {g : ℝ × ℝ → ℝ}, Continuous g → ContinuousAt (fun y => ∫ p in starDisc \ bodyDisc (b y) (r y), g p) x := by
    intro g hg
    exact (continuous_uncovered hg).continuousAt.comp' (f := fun y => (b y, r y)) (hb.prodMk hr)
  have h1 := key (g := fun _ => (1 : ℝ)) continuous_const
  have h2 := key continuous_muAt
  have h3 := key (g := fun p => 4 * muAt p ^ 2 - 2) (by have := continuous_muAt; fun_prop)
  exact (((h1.mul hc.fst).add (h2.mul hc.snd.fst)).add (h3.mul hc.snd.snd)).sub continuousAt_const

theorem law_ne_zero_iff (u1 u2 : ℝ) : (∫ p in starDisc, quadLaw u1 u2 (muAt p)) ≠ 0 ↔ 1 - u1 / 3 - u2 / 6 ≠ 0 := by
  have : ∫ p in starDisc, quadLaw u1 u2 (muAt p) = π * (1 - u1 / 3 - u2 / 6) := fluxFrom_disc u1 u2
  rw [this]
  have := pi_pos.ne'
  simp [this]

/-- The flux when everything is varied. -/
theorem fluxAt_continuousAt_all {X : Type} [TopologicalSpace X] {v : X → V3} {r R u1 u2 : X → ℝ} {q : X}
    (hlaw : (∫ p in starDisc, quadLaw (u1 q) (u2 q) (muAt p)) ≠ 0) (h1 : ContinuousAt u1 q) (h2 : ContinuousAt u2 q) (hR0 : 0 < R q)
    (hRc : ContinuousAt R q) (hv : ContinuousVAt v q) (hr : ContinuousAt r q) (h : (v q).z ≠ 0 ∨ R q + r q < √((v q).x ^ 2 + (v q).y ^ 2)) :
    ContinuousAt (fun s => fluxAt (getCl (u1 s) (u2 s)) (R s) (r s) (v s)) q := by
  obtain ⟨hx, hy, hz⟩ := hv
  have hl := (law_ne_zero_iff _ _).1 hlaw
  have hd : ContinuousAt (fun s => √((v s).x ^ 2 + (v s).y ^ 2)) q := ((hx.pow 2).add (hy.pow 2)).sqrt
  have hRe : ∀ᶠ s in 𝓝 q, 0 < R s := continuousAt_const.eventually_lt hRc hR0
  have hle : ∀ᶠ s in 𝓝 q, 1 - u1 s / 3 - u2 s / 6 ≠ 0 :=
    ContinuousAt.eventually_ne (by fun_prop : ContinuousAt (fun s => 1 - u1 s / 3 - u2 s / 6) q) hl
  have hq := quadLc_continuousAt (getCl_continuousAt h1 h2 hl) (hd.div hRc hR0.ne') (hr.div hRc hR0.ne')
  rcases h with h | h
  · rcases lt_or_gt_of_ne h with h | h
    · refine (continuousAt_const (y := (0 : ℝ))).congr ?_
      filter_upwards [hz.eventually_lt continuousAt_const h, hRe] with s hs hRs
      exact (C37_behind _ _ _ _ (div_nonpos_of_nonpos_of_nonneg (le_of_lt hs) hRs.le)).symm
    · refine hq.congr ?_
      filter_upwards [continuousAt_const.eventually_lt hz h, hRe] with s hs hRs
      unfold fluxAt computeLightCurve
      simp only [Option.getD_some]
      rw [if_pos (by positivity)]
      rfl
  · refine (continuousAt_const (y := (0 : ℝ))).congr ?_
    filter_upwards [(hRc.add hr).eventually_lt hd h, hRe, hle] with s hs hRs hls
    exact (fluxAt_zero ((law_ne_zero_iff _ _).2 hls) hRs (fun hc => absurd hc.2 (not_lt.2 (le_of_lt hs)))).symm

/-- **C95** (light curves, away from `sin ω = -1`): the flux of `LimbDarkLightCurve` for a planet that does not touch the star is a jointly continuous
function of the limb-darkening coefficients, the radii, the elements of the orbit and the time. -/
theorem C95_light_curve_partial {C : Consts} {X : Type} [TopologicalSpace X] {o : X → Orbit} {x : X} (hb : ∀ y, ∃ A, keplerianInit C A = .ok (o y))
    (hp : ∀ᶠ y in 𝓝 x, (o y).Physical) (hc : ElementsContinuousAt o x) (hr : (o x).Regular) {t u1 u2 r : X → ℝ} (ht : ContinuousAt t x)
    (h1 : ContinuousAt u1 x) (h2 : ContinuousAt u2 x) (hrc : ContinuousAt r x) (hR : ContinuousAt (fun y => (o y).r_star) x)
    (hlaw : (∫ p in starDisc, quadLaw (u1 x) (u2 x) (muAt p)) ≠ 0) (hclear : (o x).r_star + r x < (o x).a * (1 - (o x).eccVal)) :
    ContinuousAt (fun y => fluxAt (getCl (u1 y) (u2 y)) (o y).r_star (r y) ((o y).relativePosition C (t y))) x := by
  have hx := hp.self_of_nhds
  obtain ⟨A, hA⟩ := hb x
  refine fluxAt_continuousAt_all hlaw h1 h2 hx.r_star_pos hR (C95_positions_partial hb hp hc hr ht).1 hrc ?_
  by_cases hz : ((o x).relativePosition C (t x)).z = 0
  · right
    have hn := ((C13_distance_bounds C A (o x) hA hx).1 (t x)).1
    unfold V3.norm V3.normSq at hn
    rw [hz] at hn
    simp only [ne_eq, OfNat.ofNat_ne_zero, not_false_eq_true, zero_pow, add_zero] at hn
    linarith
  · exact Or.inl hz

/-! ## From the arguments of the constructor -/

/-- `KeplerianOrbit(period=P, m_star=M, r_star=R, m_planet=m, t0=t0, b=b, ecc=e, omega=w, Omega=W)`. -/
noncomputable def transitArgs (P M R m t0 b e w W : ℝ) : Args :=
  { period := some P, m_star := some M, r_star := some R, m_planet := some m, t0 := some t0, b := some b, ecc := some e, omega := some w,
    Omega := some W }

/-- **C95** (arguments): if the arguments `period`, `m_star`, `r_star`, `m_planet`, `t0`, `b`, `ecc`, `omega` and `Omega` are varied continuously, so are
the elements of the orbit: the two theorems above apply. -/
theorem C95_arguments (C : Consts) {X : Type} [TopologicalSpace X] {P M R m t0 b e w W : X → ℝ} {x : X} (hP : ContinuousAt P x) (hM : ContinuousAt M x)
    (hR : ContinuousAt R x) (hm : ContinuousAt m x) (ht0 : ContinuousAt t0 x) (hb : ContinuousAt b x) (he : ContinuousAt e x)
    (hw : ContinuousAt w x) (hW : ContinuousAt W x) (hP0 : 0 < P x) (hM0 : 0 < M x) (hR0 : 0 < R x) (hm0 : ∀ᶠ y in 𝓝 x, 0 ≤ m y)
    (he0 : ∀ᶠ y in 𝓝 x, 0 ≤ e y) (he1 : e x < 1)
    (hi : |b x * (R x * (1 + e x * sin (w x)))| < (C.G * (M x + m x) * P x ^ 2 / (4 * π ^ 2)) ^ (1 / 3 : ℝ) * (1 - e x ^ 2)) :
    ∃ o : X → Orbit, (∀ y, keplerianInit C (transitArgs (P y) (M y) (R y) (m y) (t0 y) (b y) (e y) (w y) (W y)) = .ok (o y)) ∧
      (∀ᶠ y in 𝓝 x, (o y).Physical) ∧ ElementsContinuousAt o x ∧ (sin (w x) ≠ -1 → (o x).Regular) ∧
      ContinuousAt (fun y => (o y).r_star) x := by
  have hpi := pi_pos
  have hG := C.G_pos
  have hg := C.gccPerSun_pos
  have hex : ∀ y, ∃ o : Orbit, keplerianInit C (transitArgs (P y) (M y) (R y) (m y) (t0 y) (b y) (e y) (w y) (W y)) = .ok o ∧
      o.a = (C.G * (M y + m y) * P y ^ 2 / (4 * π ^ 2)) ^ (1 / 3 : ℝ) ∧ o.period = P y ∧ o.m_star = M y ∧ o.m_planet = m y ∧ o.r_star = R y ∧
      o.rho_star = 3 * M y / (4 * π * R y ^ 3) * C.gccPerSun ∧ o.t0 = t0 y ∧ o.Omega = some (W y) ∧ o.ecc = some ⟨e y, w y, cos (w y), sin (w y)⟩ ∧
      o.cos_incl = (1 + e y * sin (w y)) / (1 - e y ^ 2) * R y / (C.G * (M y + m y) * P y ^ 2 / (4 * π ^ 2)) ^ (1 / 3 : ℝ) * b y ∧
      o.incl = arccos o.cos_incl := by
    intro y
    exact ⟨_, rfl, rfl, rfl, rfl, rfl, rfl, rfl, rfl, rfl, rfl, rfl, rfl⟩
  choose o ho ha hPo hMo hmo hRo hrho ht0o hWo heo hci hinc using hex
  have hmx := hm0.self_of_nhds
  have hex0 := he0.self_of_nhds
  have hbase : 0 < C.G * (M x + m x) * P x ^ 2 / (4 * π ^ 2) := by positivity
  have hac : ContinuousAt (fun y => (o y).a) x := by
    simp only [ha]
    exact ContinuousAt.rpow_const (by fun_prop) (Or.inl hbase.ne')
  have hax : 0 < (o x).a := by rw [ha]; positivity
  have he2 : 0 < 1 - e x ^ 2 := by nlinarith
  have hcic : ContinuousAt (fun y => (o y).cos_incl) x := by
    simp only [hci, ← ha]
    have h1 : ContinuousAt (fun y => (1 + e y * sin (w y)) / (1 - e y ^ 2)) x := ContinuousAt.div (by fun_prop) (by fun_prop) he2.ne'
    exact ((h1.mul hR).div hac hax.ne').mul hb
  have hcx : |(o x).cos_incl| < 1 := by
    rw [hci, ← ha]
    rw [← ha] at hi
    have : (1 + e x * sin (w x)) / (1 - e x ^ 2) * R x / (o x).a * b x = b x * (R x * (1 + e x * sin (w x))) / ((o x).a * (1 - e x ^ 2)) := by
      field_simp
    rw [this, abs_div, abs_of_pos (by positivity : 0 < (o x).a * (1 - e x ^ 2)), div_lt_one (by positivity)]
    exact hi
  have ev : ∀ {f : X → ℝ}, ContinuousAt f x → 0 < f x → ∀ᶠ y in 𝓝 x, 0 < f y := fun hf h => continuousAt_const.eventually_lt hf h
  have hRo' : ContinuousAt (fun y => (o y).r_star) x := by simpa only [hRo] using hR
  refine ⟨o, ho, ?_, ?_, ?_, hRo'⟩
  · filter_upwards [ev hP hP0, ev hM hM0, ev hR hR0, hm0, he0, he.eventually_lt continuousAt_const he1, ev hac hax,
      (hcic.abs).eventually_lt continuousAt_const hcx] with y h1 h2 h3 h4 h5 h6 h7 h8
    refine ⟨by rwa [hPo], h7, by rwa [hMo], by rwa [hmo], by rwa [hRo], ?_, ?_, ?_, ?_, le_of_lt h8⟩
    · rw [hrho]; positivity
    · intro p hp
      rw [heo] at hp
      cases hp
      exact h5
    · intro p hp
      rw [heo] at hp
      cases hp
      exact h6
    · intro p hp
      rw [heo] at hp
      cases hp
      exact sin_sq_add_cos_sq _
  · refine ⟨hac, by simpa only [hPo] using hP, by simpa only [ht0o] using ht0, ?_, ?_, ?_, ?_, ?_, by simpa only [hMo] using hM,
      by simpa only [hmo] using hm⟩
    · simpa only [Orbit.eccVal, heo] using he
    · simp only [Orbit.sinOmega, heo]
      exact continuous_sin.continuousAt.comp' hw
    · simp only [Orbit.cosOmega, heo]
      exact continuous_cos.continuousAt.comp' hw
    · simp only [hinc]
      exact continuous_arccos.continuousAt.comp' hcic
    · simpa only [hWo, Option.getD_some] using hW
  · intro hs p hp
    rw [heo] at hp
    cases hp
    exact hs

/-! ## The exception -/

/-- `KeplerianOrbit(a=10, period=1, b=0.5, ecc=0.5, sin_omega=sin(w), cos_omega=cos(w))`. -/
noncomputable def turningArgs (w : ℝ) : Args :=
  { a := some (10 : ℝ), period := some (1 : ℝ), b := some (1 / 2 : ℝ), ecc := some (1 / 2 : ℝ), sin_omega := some (sin w : ℝ), cos_omega := some (cos w : ℝ) }

/-- **C95 is false at `sin ω = -1`**: when `sin_omega` and `cos_omega` pass through `(-1, 0)`, the planet at `t0` jumps from before to behind the star and
back. -/
theorem C95_singular_counterexample (C : Consts) : ∃ o : ℝ → Orbit, (∀ w, keplerianInit C (turningArgs w) = .ok (o w)) ∧ (∀ w, (o w).Physical) ∧
    ElementsContinuousAt o (-(π / 2)) ∧ ¬ContinuousVAt (fun w => (o w).relativePosition C (o w).t0) (-(π / 2)) := by
  have hG := C.G_pos
  have hg := C.gccPerSun_pos
  have hpi := pi_pos
  have hex : ∀ w, ∃ o : Orbit, keplerianInit C (turningArgs w) = .ok o ∧ o.a = 10 ∧ o.period = 1 ∧ o.r_star = 1 ∧
      o.m_star = 4 * π * π * 10 ^ 3 / (C.G * 1 ^ 2) - 0 ∧ o.m_planet = 0 ∧ 0 < o.rho_star ∧ o.t0 = 0 ∧ o.Omega = none ∧
      o.ecc = some ⟨1 / 2, arctan2 (sin w) (cos w), cos w, sin w⟩ ∧
      o.cos_incl = (1 + 1 / 2 * sin w) / (1 - (1 / 2) ^ 2) * 1 / 10 * (1 / 2) ∧ o.incl = arccos o.cos_incl := by
    intro w
    refine ⟨_, rfl, rfl, rfl, rfl, rfl, rfl, ?_, rfl, rfl, rfl, rfl, rfl⟩
    simp
    positivity
  choose o ho ha hP hR hM hm hrho ht0 hW he hci hinc using hex
  have hcib : ∀ w, |(o w).cos_incl| < 1 := by
    intro w
    rw [hci, abs_lt]
    have h1 := sin_le_one w
    have h2 := neg_one_le_sin w
    constructor <;> norm_num <;> linarith
  have hp : ∀ w, (o w).Physical := by
    intro w
    refine ⟨by rw [hP]; norm_num, by rw [ha]; norm_num, by rw [hM, sub_zero]; positivity, by rw [hm], by rw [hR]; norm_num, hrho w, ?_, ?_, ?_,
      (hcib w).le⟩
    · intro p hp
      rw [he] at hp
      cases hp
      norm_num
    · intro p hp
      rw [he] at hp
      cases hp
      norm_num
    · intro p hp
      rw [he] at hp
      cases hp
      exact sin_sq_add_cos_sq _
  have hsi : ∀ w, 0 < (o w).sin_incl := by
    intro w
    rw [(built_of_init (ho w)).sin_incl_eq, hinc, sin_arccos]
    have := abs_lt.1 (hcib w)
    exact sqrt_pos.2 (by nlinarith)
  refine ⟨o, ho, hp, ?_, fun hc => ?_⟩
  · refine ⟨?_, ?_, ?_, ?_, ?_, ?_, ?_, ?_, ?_, ?_⟩
    · simp only [ha]; exact continuousAt_const
    · simp only [hP]; exact continuousAt_const
    · simp only [ht0]; exact continuousAt_const
    · simp only [Orbit.eccVal, he]; exact continuousAt_const
    · simp only [Orbit.sinOmega, he]; exact continuous_sin.continuousAt
    · simp only [Orbit.cosOmega, he]; exact continuous_cos.continuousAt
    · simp only [hinc, hci]
      have : Continuous fun w => arccos ((1 + 1 / 2 * sin w) / (1 - (1 / 2) ^ 2) * 1 / 10 * (1 / 2)) := by
        have := continuous_arccos
        fun_prop
      exact this.continuousAt
    · simp only [hW]; exact continuousAt_const
    · simp only [hM]; exact continuousAt_const
    · simp only [hm]; exact continuousAt_const
  · have hneg : ((o (-(π / 2))).relativePosition C (o (-(π / 2))).t0).z < 0 := by
      have e : turningArgs (-(π / 2)) = singularArgs := by
        unfold turningArgs singularArgs
        rw [sin_neg, cos_neg, sin_pi_div_two, cos_pi_div_two]
      have h1 := ho (-(π / 2))
      rw [e] at h1
      rw [singular_relativePosition C _ h1]
      have := hsi (-(π / 2))
      simp only
      linarith
    have h1 : ∀ᶠ w in 𝓝[>] (-(π / 2)), ((o w).relativePosition C (o w).t0).z < 0 :=
      nhdsWithin_le_nhds (hc.2.2.eventually_lt continuousAt_const hneg)
    have h2 : ∀ᶠ w in 𝓝[>] (-(π / 2)), w ∈ Set.Ioo (-(π / 2)) (π / 2) := Ioo_mem_nhdsGT (by linarith)
    obtain ⟨w, hw1, hw2⟩ := (h1.and h2).exists
    have hreg : (o w).Regular := by
      intro p hp'
      rw [he] at hp'
      cases hp'
      have := cos_pos_of_mem_Ioo hw2
      have h3 := sin_sq_add_cos_sq w
      intro h4
      simp only at h4
      rw [h4] at h3
      nlinarith
    have := (C06_t0_is_transit_partial C _ (o w) (ho w) (hp w) hreg (hsi w) 0).2
    simp only [Int.cast_zero, zero_mul, add_zero] at this
    linarith

/-- Hypotheses of `C95_arguments`: a family through `ecc = 0`. -/
example (C : Consts) : ∃ M : ℝ, 0 < M ∧ |(1 / 2 : ℝ) * (1 * (1 + |(0 : ℝ)| * sin 1))| <
    (C.G * (M + 0) * 1 ^ 2 / (4 * π ^ 2)) ^ (1 / 3 : ℝ) * (1 - |(0 : ℝ)| ^ 2) := by
  have hG := C.G_pos
  have hpi := pi_pos
  refine ⟨4 * π ^ 2 / C.G, by positivity, ?_⟩
  rw [show C.G * (4 * π ^ 2 / C.G + 0) * 1 ^ 2 / (4 * π ^ 2) = 1 by field_simp; ring, one_rpow]
  norm_num [abs_of_pos]

end Exo
