import Verif.Spec.BackpropStar
import Verif.Props.BackpropExposure

/-!
# C124: gradients of light curves with respect to the properties of the star as the compiled graph computes them
-/

namespace Exo
open Real Function Topology

variable {C : Consts} {s : StarMode} {m : KepMode} {q : StarPar → ℝ} {op : FlOp} {L : ℝ → ℝ → ℝ}

/-! ## The graph stands for the model -/

theorem StarMode.args_ok (C : Consts) (s : StarMode) (m : KepMode) (q : StarPar → ℝ) : ∃ o, keplerianInit C (s.args m q) = .ok o := by
  cases s <;> cases m <;> exact ⟨_, rfl⟩

theorem starGraph_real {o : Orbit} (h : keplerianInit C (s.args m q) = .ok o) (L : ℝ → ℝ → ℝ) (t : ℝ) :
    o.relativePosition C t = ⟨(m.x1G (s.parG C) (StarMode.clock t)).real L q, (m.yG (s.parG C) (StarMode.clock t)).real L q, (m.zG (s.parG C) (StarMode.clock t)).real L q⟩ ∧
      o.cos_incl = (m.cosInclG (s.parG C)).real L q ∧ o.r_star = (s.rStarG C).real L q ∧ o.a = (s.aG C).real L q ∧ o.period = (s.periodG C).real L q := by
  cases s <;> cases m <;> (obtain rfl := Except.ok.inj h; exact ⟨rfl, rfl, rfl, rfl, rfl⟩)

/-- **C124 (the graph is that of the rest of the model).** The value of the graph is the flux of the model with NaN and infinities (C116), whatever the parameters. -/
theorem C124_graph (C : Consts) (s : StarMode) (m : KepMode) (op : FlOp) (q : StarPar → ℝ) (t : ℝ) :
    ∃ o, keplerianInitF C (s.args m q) = .ok o ∧
      (s.lightCurveG C m t).value op (fun i => .fin (q i)) = fluxF op.value o.r_star (o.relativePosition op.kepler) (q (.kep .r)) t := by
  have e : Fl.fin (q .rho_star) / Fl.fin C.gccPerSun = Fl.fin (q .rho_star / C.gccPerSun) := Fl.fin_div C.gccPerSun_pos.ne'
  have key : ∀ (s : StarMode) (m : KepMode), s = .densityRadius ∨ s = .densityMass → ∃ o, keplerianInitF C (s.args m q) = .ok o ∧
      (s.lightCurveG C m t).value op (fun i => .fin (q i)) = fluxF op.value o.r_star (o.relativePosition op.kepler) (q (.kep .r)) t := by
    rintro s m (rfl | rfl) <;> cases m <;> refine ⟨_, rfl, ?_⟩ <;>
      simp only [StarMode.lightCurveG, KepMode.lightCurveOf, fluxGraph, KepMode.x1G, KepMode.yG, KepMode.zG, KepMode.y1G, KepMode.radiusG, KepMode.cosfG, KepMode.sinfG, KepMode.anomalyG,
        KepMode.M0G, KepMode.nG, KepMode.cosInclG, KepMode.sinInclG, KepMode.inclFactorG, KepMode.sinOmegaG, KepMode.cosOmegaG, KepMode.E0G, KepMode.ome2G, StarMode.parG, StarMode.aG,
        StarMode.periodG, StarMode.rStarG, StarMode.mTotalG, StarMode.mStarG, StarMode.rhoG, Graph.value, e] <;> rfl
  cases s with
  | densityRadius => exact key _ m (Or.inl rfl)
  | densityMass => exact key _ m (Or.inr rfl)
  | massRadius => cases m <;> exact ⟨_, rfl, rfl⟩
  | axis => cases m <;> exact ⟨_, rfl, rfl⟩
  | implied => cases m <;> exact ⟨_, rfl, rfl⟩

theorem mStarG_regular (hq : s.Possible m q) : (s.mStarG C).Regular L op q ∧ 0 < (s.mTotalG C).real L q := by
  have hg := C.gccPerSun_pos
  have hG := C.G_pos
  have hp := hq.m_planet
  have hpi := pi_pos
  cases s with
  | massRadius =>
    have := hq.given .m_star (Or.inl rfl)
    exact ⟨trivial, by simp only [StarMode.mTotalG, StarMode.mStarG, Graph.real]; linarith⟩
  | densityRadius =>
    have h1 := hq.given .rho_star (Or.inl rfl)
    have h2 := hq.given (.kep .r_star) (Or.inr (Or.inl rfl))
    refine ⟨⟨⟨⟨⟨trivial, trivial⟩, trivial⟩, trivial, trivial, hg.ne'⟩, trivial, ?_⟩, ?_⟩
    · norm_num [Graph.real]
    · simp only [StarMode.mTotalG, StarMode.mStarG, StarMode.rhoG, Graph.real]; positivity
  | densityMass =>
    have := hq.given .m_star (Or.inr (Or.inl rfl))
    exact ⟨trivial, by simp only [StarMode.mTotalG, StarMode.mStarG, Graph.real]; linarith⟩
  | axis =>
    have := hq.given .m_star (Or.inl rfl)
    exact ⟨trivial, by simp only [StarMode.mTotalG, StarMode.mStarG, Graph.real]; linarith⟩
  | implied =>
    have h1 := hq.given (.kep .a) (Or.inl rfl)
    have h2 := hq.given (.kep .period) (Or.inr (Or.inr rfl))
    refine ⟨⟨⟨⟨⟨⟨trivial, trivial⟩, trivial⟩, trivial⟩, ⟨trivial, trivial⟩, ?_⟩, trivial⟩, ?_⟩
    · simp only [Graph.real]; positivity
    · simp only [StarMode.mTotalG, StarMode.mStarG, Graph.real, sub_add_cancel]; positivity

theorem rStarG_regular (hq : s.Possible m q) : (s.rStarG C).Regular L op q ∧ 0 < (s.rStarG C).real L q := by
  have hg := C.gccPerSun_pos
  have hpi := pi_pos
  cases s with
  | densityMass =>
    have h1 := hq.given .rho_star (Or.inl rfl)
    have h2 := hq.given .m_star (Or.inr (Or.inl rfl))
    have h3 : 0 < q .rho_star / C.gccPerSun := by positivity
    refine ⟨⟨⟨⟨trivial, trivial⟩, ⟨⟨trivial, trivial⟩, trivial, trivial, hg.ne'⟩, ?_⟩, ?_⟩, ?_⟩
    · simp only [StarMode.rhoG, Graph.real]; positivity
    · simp only [StarMode.rhoG, Graph.real]; positivity
    · simp only [StarMode.rStarG, StarMode.rhoG, Graph.real]; positivity
  | massRadius => exact ⟨trivial, hq.given (.kep .r_star) (Or.inr (Or.inl rfl))⟩
  | densityRadius => exact ⟨trivial, hq.given (.kep .r_star) (Or.inr (Or.inl rfl))⟩
  | axis => exact ⟨trivial, hq.given (.kep .r_star) (Or.inr (Or.inl rfl))⟩
  | implied => exact ⟨trivial, hq.given (.kep .r_star) (Or.inr (Or.inl rfl))⟩

theorem third_law_regular {G : Graph StarPar} (hG : G.Regular L op q ∧ 0 < G.real L q) (hP : 0 < q (.kep .period)) :
    (Graph.powr (.div (.mul (.mul (.const C.G) G) (.pow (.input (.kep .period)) 2)) (.mul (.const 4) (.pow (.const π) 2))) (1 / 3)).Regular L op q ∧
    0 < (Graph.powr (.div (.mul (.mul (.const C.G) G) (.pow (.input (.kep .period)) 2)) (.mul (.const 4) (.pow (.const π) 2))) (1 / 3)).real L q := by
  have hc := C.G_pos
  have hpi := pi_pos
  obtain ⟨h1, h2⟩ := hG
  refine ⟨⟨⟨⟨⟨trivial, h1⟩, trivial⟩, ⟨trivial, trivial⟩, ?_⟩, ?_⟩, ?_⟩
  · simp only [Graph.real]; positivity
  · simp only [Graph.real]; positivity
  · simp only [Graph.real]; positivity

theorem aG_regular (hq : s.Possible m q) : (s.aG C).Regular L op q ∧ 0 < (s.aG C).real L q := by
  have hm := mStarG_regular (C := C) (L := L) (op := op) hq
  have hm' : (s.mTotalG C).Regular L op q ∧ 0 < (s.mTotalG C).real L q := ⟨⟨hm.1, trivial⟩, hm.2⟩
  cases s with
  | axis => exact ⟨trivial, hq.given (.kep .a) (Or.inr (Or.inr rfl))⟩
  | implied => exact ⟨trivial, hq.given (.kep .a) (Or.inl rfl)⟩
  | massRadius => exact third_law_regular hm' (hq.given (.kep .period) (Or.inr (Or.inr rfl)))
  | densityRadius => exact third_law_regular hm' (hq.given (.kep .period) (Or.inr (Or.inr rfl)))
  | densityMass => exact third_law_regular hm' (hq.given (.kep .period) (Or.inr (Or.inr rfl)))

theorem periodG_regular (hq : s.Possible m q) : (s.periodG C).Regular L op q ∧ 0 < (s.periodG C).real L q := by
  have hm := mStarG_regular (C := C) (L := L) (op := op) hq
  have hc := C.G_pos
  have hpi := pi_pos
  cases s with
  | axis =>
    have h1 := hq.given (.kep .a) (Or.inr (Or.inr rfl))
    have h2 := mul_pos hc hm.2
    refine ⟨⟨⟨⟨trivial, trivial⟩, trivial, h1⟩, ⟨⟨trivial, hm.1, trivial⟩, h2⟩, (sqrt_pos.2 h2).ne'⟩, ?_⟩
    have h3 := sqrt_pos.2 h2
    show 0 < 2 * π * q (.kep .a) ^ ((3 : ℝ) / 2) / √(C.G * (StarMode.mTotalG C .axis).real L q)
    positivity
  | massRadius => exact ⟨trivial, hq.given (.kep .period) (Or.inr (Or.inr rfl))⟩
  | densityRadius => exact ⟨trivial, hq.given (.kep .period) (Or.inr (Or.inr rfl))⟩
  | densityMass => exact ⟨trivial, hq.given (.kep .period) (Or.inr (Or.inr rfl))⟩
  | implied => exact ⟨trivial, hq.given (.kep .period) (Or.inr (Or.inr rfl))⟩

theorem starPar_regular (hq : s.Possible m q) (p : KepPar) : (s.parG C p).Regular L op q := by
  cases p <;> first | exact (aG_regular hq).1 | exact (periodG_regular hq).1 | exact (rStarG_regular hq).1 | trivial

theorem starPar_possible (hq : s.Possible m q) : m.Possible fun p => (s.parG C p).real L q := by
  refine ⟨(aG_regular (op := exactOp 0 0) hq).2, (periodG_regular (op := exactOp 0 0) hq).2, (rStarG_regular (op := exactOp 0 0) hq).2, hq.r, hq.ecc, fun hm => ?_⟩
  have := hq.omega hm
  cases m <;> exact this

theorem starClock_regular (t : ℝ) : (StarMode.clock t).Regular L op q := ⟨trivial, trivial⟩

/-- **C124 (what holds).** With exact operations the light curve of an orbit given by the properties of its star, and its computed derivatives with respect to all parameters, also
the masses and the density, are the true ones, unless the planet is exactly in front of (or behind) the centre of the star or grazes it in the plane of the sky, or the orbit is seen face-on. -/
theorem C124_light_curve_partial {u1 u2 : ℝ} (hl : PhysicalLaw u1 u2) (hop : op.Exact u1 u2) (hk : op.ExactKepler) (hq : s.Possible m q)
    (o : (StarPar → ℝ) → Orbit) (ho : ∀ q, keplerianInit C (s.args m q) = .ok (o q)) (t : ℝ) (hi : |(o q).cos_incl| < 1)
    (hc : ((o q).relativePosition C t).x ≠ 0 ∨ ((o q).relativePosition C t).y ≠ 0) (hz : Clear (o q).r_star (q (.kep .r)) ((o q).relativePosition C t)) :
    GradientRight op (s.lightCurveG C m t) (fun q => fluxAt (getCl u1 u2) (o q).r_star (q (.kep .r)) ((o q).relativePosition C t)) q := by
  set L := quadLimbdarkLightCurve (getCl u1 u2) with hL
  obtain ⟨hp, hci, hrs, -⟩ := starGraph_real (ho q) L t
  rw [hci] at hi
  rw [hp] at hc
  rw [hp, hrs] at hz
  have hreg : (s.lightCurveG C m t).Regular L op q := lightCurve_regular hl hop hk (starPar_regular hq) (starClock_regular t) (starPar_possible hq) hi hc hz
  have hreal : ∀ q, fluxAt (getCl u1 u2) (o q).r_star (q (.kep .r)) ((o q).relativePosition C t) = (s.lightCurveG C m t).real L q := fun q => by
    rw [(starGraph_real (ho q) L t).1, (starGraph_real (ho q) L t).2.2.1]
    exact (lightCurveOf_real u1 u2).symm
  obtain ⟨h1, h2⟩ := C118_backprop op L q _ hreg
  refine ⟨h1.trans (congrArg Fl.fin (hreal q).symm), fun j => ?_⟩
  obtain ⟨D, hD, hg⟩ := h2 j
  exact ⟨D, by simpa only [hreal] using hD, hg⟩

/-! ## The centre of the star -/

theorem powr_nan_back {ι : Type} [DecidableEq ι] (G : Graph ι) (c : ℝ) (env : ι → Fl) (j : ι) : (Graph.powr G c).back op env .nan j = G.back op env .nan j := by
  simp [Graph.back]

/-- A computed derivative that is NaN stays so: all parameters from which `a` is computed get it. -/
theorem aG_nan (env : StarPar → Fl) {j : StarPar} (hj : j = .m_planet ∨ s.uses j) (h : s = .axis ∨ s = .implied → j = .kep .a) (hr : s = .massRadius → j ≠ .kep .r_star)
    (hd : s = .densityMass → j ≠ .rho_star) :
    (s.aG C).back op env .nan j = .nan := by
  cases s <;> simp only [StarMode.uses] at hj <;> (rcases hj with rfl | rfl | rfl | rfl) <;>
    first
    | (simp [StarMode.aG, StarMode.mTotalG, StarMode.mStarG, StarMode.rhoG, Graph.back]; done)
    | (simp at h; done)
    | (simp at hr; done)
    | (simp at hd; done)

/-- **C124 (what exact arithmetic does at the centre).** When the planet is exactly in front of the centre of the star (or behind it), the computed derivatives are NaN, also those with
respect to the masses and the density, whatever the compiled operations and their derivatives, and whatever is computed from the light curve afterwards. -/
theorem C124_centre (hk : op.ExactKepler) (hq : s.Possible m q) {o : Orbit} (h : keplerianInit C (s.args m q) = .ok o) (t : ℝ)
    (hx : (o.relativePosition C t).x = 0) (hy : (o.relativePosition C t).y = 0) (g : Fl) {j : StarPar}
    (hj : j = .kep .b ∨ ((j = .m_planet ∨ s.uses j) ∧ (s = .axis ∨ s = .implied → j = .kep .a ∨ j = .kep .r_star))) :
    (s.lightCurveG C m t).back op (fun i => .fin (q i)) g j = .nan := by
  set L : ℝ → ℝ → ℝ := fun _ _ => 0
  obtain ⟨hp, -⟩ := starGraph_real h L t
  rw [hp] at hx hy
  refine lightCurveOf_centre (L := L) hk (starPar_regular hq) (starClock_regular t) (starPar_possible hq) hx hy ?_ g
  by_cases hR : (j = .kep .r_star ∧ s ≠ .densityRadius) ∨ (j = .rho_star ∧ s = .densityMass)
  · have : (s.rStarG C).back op (fun i => .fin (q i)) .nan j = .nan := by
      rcases hR with ⟨rfl, hs⟩ | ⟨rfl, rfl⟩
      · cases s <;> simp [StarMode.uses] at hj <;> simp [StarMode.rStarG, Graph.back]
      · simp [StarMode.rStarG, StarMode.rhoG, Graph.back]
    simp [KepMode.yG, KepMode.cosInclG, Graph.back, StarMode.parG, this]
  rcases hj with rfl | ⟨hj, h'⟩
  · simp [KepMode.yG, KepMode.cosInclG, Graph.back, StarMode.parG]
  have ha : (s.aG C).back op (fun i => .fin (q i)) .nan j = .nan := by
    refine aG_nan _ hj (fun hs => (h' hs).resolve_right fun hr => hR (Or.inl ⟨hr, by rcases hs with rfl | rfl <;> simp⟩)) (fun hs hr => hR (Or.inl ⟨hr, by simp [hs]⟩))
      fun hs hr => hR (Or.inr ⟨hr, hs⟩)
  cases m <;> simp [KepMode.x1G, KepMode.radiusG, Graph.back, StarMode.parG, ha]

/-- The flux of the light curve has derivatives with respect to all parameters also where the planet is exactly in front of the centre of the star, unless it is as large as the star. -/
theorem lightCurveOf_differentiable {ι : Type} [DecidableEq ι] {P : KepPar → Graph ι} {w : Graph ι} {x : ι → ℝ} {u1 u2 : ℝ} (hl : PhysicalLaw u1 u2) (hk : op.ExactKepler)
    (hP : ∀ p, (P p).Regular L op x) (hw : w.Regular L op x) (hq : m.Possible fun p => (P p).real L x) (hi : |(m.cosInclG P).real L x| < 1)
    (hne : ¬((m.x1G P w).real L x = 0 ∧ (m.yG P w).real L x = 0 ∧ (P .r).real L x = (P .r_star).real L x)) (hz : (m.zG P w).real L x ≠ 0) (j : ι) :
    ∃ D, HasDerivAt (fun s => fluxAt (getCl u1 u2) ((P .r_star).real L (update x j s)) ((P .r).real L (update x j s))
      ⟨(m.x1G P w).real L (update x j s), (m.yG P w).real L (update x j s), (m.zG P w).real L (update x j s)⟩) D (x j) := by
  obtain ⟨rx, ry⟩ := plane_regular hk hP hw hq
  have hcr := cosInclG_regular hP hq
  obtain ⟨X, hX, -⟩ := (C118_backprop op L x _ rx).2 j
  obtain ⟨Y, hY, -⟩ := (C118_backprop op L x (m.yG P w) ⟨hcr, ry⟩).2 j
  obtain ⟨Z, hZ, -⟩ := (C118_backprop op L x (m.zG P w) ⟨⟨hcr, hi⟩, ry⟩).2 j
  obtain ⟨A, hA, -⟩ := (C118_backprop op L x _ (hP .r_star)).2 j
  obtain ⟨B, hB, -⟩ := (C118_backprop op L x _ (hP .r)).2 j
  set z0 := (m.zG P w).real L x with hz0
  set F : ℝ × ℝ × ℝ × ℝ → ℝ := fun p => fluxAt (getCl u1 u2) p.2.2.1 p.2.2.2 ⟨p.1, p.2.1, z0⟩ with hF
  have hFd : ContDiffAt ℝ 1 F ((m.x1G P w).real L x, (m.yG P w).real L x, (P .r_star).real L x, (P .r).real L x) :=
    fluxAt_contDiffAt (E := ℝ × ℝ × ℝ × ℝ) (v := fun p => ⟨p.1, p.2.1, z0⟩) (R := fun p => p.2.2.1) (r := fun p => p.2.2.2) (u1 := fun _ => u1)
      (u2 := fun _ => u2) hl.pos.ne' contDiffAt_const contDiffAt_const hq.r_star (by fun_prop) (by fun_prop) (by fun_prop) continuousAt_const
      (by fun_prop) hq.r (fun h => hne ⟨h.1, h.2.1, h.2.2.1⟩) (Or.inl hz)
  have hFf := (hFd.differentiableAt one_ne_zero).hasFDerivAt
  have hcurve : HasDerivAt (fun s => ((m.x1G P w).real L (update x j s), (m.yG P w).real L (update x j s), (P .r_star).real L (update x j s), (P .r).real L (update x j s)))
      (X, Y, A, B) (x j) := hX.prodMk (hY.prodMk (hA.prodMk hB))
  have hFf' : HasFDerivAt F (fderiv ℝ F ((m.x1G P w).real L x, (m.yG P w).real L x, (P .r_star).real L x, (P .r).real L x))
      ((fun s => ((m.x1G P w).real L (update x j s), (m.yG P w).real L (update x j s), (P .r_star).real L (update x j s), (P .r).real L (update x j s))) (x j)) := by
    simpa using hFf
  refine ⟨_, (hFf'.comp_hasDerivAt (x j) hcurve).congr_of_eventuallyEq ?_⟩
  have hRc : ∀ᶠ s in 𝓝 (x j), 0 < (P .r_star).real L (update x j s) :=
    hA.continuousAt.eventually (lt_mem_nhds (by simpa using hq.r_star))
  have hzc : ∀ᶠ s in 𝓝 (x j), (0 < (m.zG P w).real L (update x j s) ↔ 0 < z0) := by
    rcases lt_or_gt_of_ne hz with h | h
    · filter_upwards [hZ.continuousAt.eventually_lt continuousAt_const (by simpa using h)] with s hs
      exact ⟨fun h' => absurd h' hs.le.not_gt, fun h' => absurd h' h.le.not_gt⟩
    · filter_upwards [hZ.continuousAt.eventually (lt_mem_nhds (a := 0) (by simpa using h))] with s hs
      exact ⟨fun _ => h, fun _ => hs⟩
  filter_upwards [hRc, hzc] with s hs hsz
  simp only [hF, comp_apply, fluxAt, computeLightCurve, Option.getD_some, gt_iff_lt]
  simp only [div_pos_iff_of_pos_right hs, hsz]

/-- **C124 (the derivatives exist).** The flux has derivatives with respect to all parameters also where the planet is exactly in front of the centre of the star, unless it is as
large as the star. -/
theorem C124_differentiable {u1 u2 : ℝ} (hl : PhysicalLaw u1 u2) (hq : s.Possible m q) (o : (StarPar → ℝ) → Orbit)
    (ho : ∀ q, keplerianInit C (s.args m q) = .ok (o q)) (t : ℝ) (hi : |(o q).cos_incl| < 1)
    (hne : ¬(((o q).relativePosition C t).x = 0 ∧ ((o q).relativePosition C t).y = 0 ∧ q (.kep .r) = (o q).r_star)) (hz : ((o q).relativePosition C t).z ≠ 0) (j : StarPar) :
    ∃ D, HasDerivAt (fun x => fluxAt (getCl u1 u2) (o (update q j x)).r_star (update q j x (.kep .r)) ((o (update q j x)).relativePosition C t)) D (q j) := by
  set L : ℝ → ℝ → ℝ := fun _ _ => 0
  have hp := fun q => starGraph_real (ho q) L t
  rw [(hp q).2.1] at hi
  rw [(hp q).1, (hp q).2.2.1] at hne
  rw [(hp q).1] at hz
  obtain ⟨D, hD⟩ := lightCurveOf_differentiable hl (exactOp_exact u1 u2).2 (starPar_regular hq) (starClock_regular t) (starPar_possible hq) hi hne hz j
  refine ⟨D, ?_⟩
  convert hD using 2 with x
  rw [(hp _).1, (hp _).2.2.1]
  rfl

/-! ## Examples -/

/-- The orbits of `demoKep` around a star of one solar mass, one solar radius and a density of 1.4. -/
noncomputable def demoStar (b : ℝ) : StarPar → ℝ
  | .kep p => demoKep b 1 p
  | .m_star => 1
  | .rho_star => 1.4
  | .m_planet => 0

theorem demoStar_possible (s : StarMode) (m : KepMode) (b : ℝ) : s.Possible m (demoStar b) := by
  have hk := demoKep_possible m b
  refine ⟨fun j hj => ?_, le_rfl, hk.r, hk.ecc, hk.omega⟩
  cases s <;> (rcases hj with rfl | rfl | rfl) <;> norm_num [demoStar, demoKep]

theorem starTransit {b : ℝ} {o : Orbit} (h : keplerianInit C (s.args .circular (demoStar b)) = .ok o) :
    o.relativePosition C 0 = ⟨0, -o.r_star * b, o.a * sin (arccos (o.r_star / o.a * b))⟩ ∧ o.cos_incl = o.r_star / o.a * b ∧ 0 < o.a ∧ 0 < o.r_star := by
  obtain ⟨hp, hci, hR, ha, hP⟩ := starGraph_real h (fun _ _ => 0) 0
  have hq := demoStar_possible s .circular b
  have ha0 := (aG_regular (C := C) (L := fun _ _ => 0) (op := exactOp 0 0) hq).2
  have hR0 := (rStarG_regular (C := C) (L := fun _ _ => 0) (op := exactOp 0 0) hq).2
  have hP0 := (periodG_regular (C := C) (L := fun _ _ => 0) (op := exactOp 0 0) hq).2
  rw [← ha] at ha0
  rw [← hR] at hR0
  rw [← hP] at hP0
  have hM : (KepMode.circular.anomalyG (s.parG C) (StarMode.clock 0)).real (fun _ _ => 0) (demoStar b) = π / 2 := by
    simp only [KepMode.anomalyG, StarMode.clock, KepMode.M0G, KepMode.nG, StarMode.parG, Graph.real, ← hP, demoStar, demoKep]
    have := pi_pos.ne'
    field_simp
    norm_num
    ring
  rw [hp, hci]
  simp only [KepMode.x1G, KepMode.yG, KepMode.zG, KepMode.y1G, KepMode.cosfG, KepMode.sinfG, KepMode.radiusG, KepMode.sinInclG, KepMode.cosInclG,
    KepMode.inclFactorG, Graph.real, hM, StarMode.parG, ← ha, ← hR, cos_pi_div_two, sin_pi_div_two]
  simp only [demoStar, demoKep, one_mul, mul_zero, mul_one]
  refine ⟨?_, trivial, ha0, hR0⟩
  congr 1
  · field_simp
  · ring

/-- The axes of the orbits of `demoStar`: with the density `1.4` and a radius of one (or a mass of one) they depend on the constants. -/
theorem demoStar_axis {b : ℝ} {o : Orbit} (h : keplerianInit C (StarMode.axis.args m (demoStar b)) = .ok o) : o.a = 10 ∧ o.r_star = 1 := by
  cases m <;> (obtain rfl := Except.ok.inj h; exact ⟨rfl, rfl⟩)

/-- The hypotheses of `C124_light_curve_partial` can be met: `a = 10`, `m_star = 1` and `r_star = 1` with `b = 0.5`, in the middle of the transit. -/
example (o : (StarPar → ℝ) → Orbit) (ho : ∀ q, keplerianInit C (StarMode.axis.args .circular q) = .ok (o q)) (hl : PhysicalLaw 0.3 0.2) :
    GradientRight (exactOp 0.3 0.2) (StarMode.axis.lightCurveG C .circular 0)
      (fun q => fluxAt (getCl 0.3 0.2) (o q).r_star (q (.kep .r)) ((o q).relativePosition C 0)) (demoStar 0.5) := by
  obtain ⟨hp, hi, -⟩ := starTransit (ho (demoStar 0.5))
  obtain ⟨ha, hR⟩ := demoStar_axis (ho (demoStar 0.5))
  rw [ha, hR] at hp hi
  refine C124_light_curve_partial hl (exactOp_exact _ _).1 (exactOp_exact _ _).2 (demoStar_possible _ _ _) o ho 0 (by rw [hi, abs_of_pos (by norm_num)]; norm_num)
    (Or.inr (by rw [hp]; norm_num)) (Or.inl ?_)
  rw [hp, sin_arccos]
  exact (mul_pos (by norm_num) (sqrt_pos.2 (by norm_num))).ne'

/-- Concrete violation of C124, with each combination of arguments: for `b=0` at `t = 0` the flux has derivatives with respect to all parameters; computed with exact operations those
with respect to `b` and to each of the arguments from which the axis is computed are NaN. -/
theorem C124_counterexample {u1 u2 : ℝ} (hl : PhysicalLaw u1 u2) (C : Consts) (s : StarMode) (o : (StarPar → ℝ) → Orbit)
    (ho : ∀ q, keplerianInit C (s.args .circular q) = .ok (o q)) (hr : (o (demoStar 0)).r_star ≠ 0.1) : ∃ q : StarPar → ℝ, s.Possible .circular q ∧
    (∀ j, ∃ D, HasDerivAt (fun x => fluxAt (getCl u1 u2) (o (update q j x)).r_star (update q j x (.kep .r)) ((o (update q j x)).relativePosition C 0)) D (q j)) ∧
    ∀ op : FlOp, op.ExactKepler → ∀ (g : Fl) (j : StarPar), j = .kep .b ∨ ((j = .m_planet ∨ s.uses j) ∧ (s = .axis ∨ s = .implied → j = .kep .a ∨ j = .kep .r_star)) →
      (s.lightCurveG C .circular 0).back op (fun i => .fin (q i)) g j = .nan := by
  obtain ⟨hp, hi, ha, -⟩ := starTransit (ho (demoStar 0))
  simp only [mul_zero, arccos_zero, sin_pi_div_two, mul_one] at hp hi
  refine ⟨demoStar 0, demoStar_possible _ _ _, fun j => ?_, fun op hk g j hj => ?_⟩
  · refine C124_differentiable hl (demoStar_possible _ _ _) o ho 0 (by rw [hi]; norm_num) ?_ (by rw [hp]; exact ha.ne') j
    rintro ⟨-, -, h⟩
    exact hr (by rw [← h]; rfl)
  · exact C124_centre hk (demoStar_possible _ _ _) (ho (demoStar 0)) 0 (by rw [hp]) (by rw [hp]) g hj

/-- The hypothesis of `C124_counterexample` on the size of the star holds for instance when the radius is given. -/
example (o : (StarPar → ℝ) → Orbit) (ho : ∀ q, keplerianInit C (StarMode.massRadius.args .circular q) = .ok (o q)) : (o (demoStar 0)).r_star ≠ 0.1 := by
  have : (o (demoStar 0)).r_star = 1 := by rw [Except.ok.inj ((ho (demoStar 0)).symm.trans rfl)]; rfl
  rw [this]
  norm_num

end Exo
