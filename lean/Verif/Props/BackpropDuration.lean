import Verif.Spec.BackpropDuration
import Verif.Props.BackpropRv
import Verif.Props.Duration

/-!
# C126: gradients of light curves with respect to the duration of the transit as the compiled graph computes them
-/

namespace Exo
open Real Function Topology

variable {C : Consts} {m : KepMode} {q : DurPar → ℝ} {op : FlOp} {L : ℝ → ℝ → ℝ}

/-! ## The graph stands for the model -/

theorem Duration.args_ok (C : Consts) (m : KepMode) (q : DurPar → ℝ) : ∃ o, keplerianInit C (Duration.args m q) = .ok o := by
  cases m <;> exact ⟨_, rfl⟩

theorem durGraph_real {o : Orbit} (h : keplerianInit C (Duration.args m q) = .ok o) (L : ℝ → ℝ → ℝ) (t : ℝ) :
    o.relativePosition C t = ⟨(m.x1G (Duration.parG C m) (Duration.clock t)).real L q, (m.yG (Duration.parG C m) (Duration.clock t)).real L q,
      (m.zG (Duration.parG C m) (Duration.clock t)).real L q⟩ ∧
      o.cos_incl = (m.cosInclG (Duration.parG C m)).real L q ∧ o.a = (Duration.aG m).real L q ∧ o.b = (Duration.bG C m).real L q := by
  cases m <;> (obtain rfl := Except.ok.inj h; exact ⟨rfl, rfl, rfl, rfl⟩)

/-- **C126 (the graph is that of the rest of the model).** The value of the graph is the flux of the model with NaN and infinities (C116), whatever the parameters. -/
theorem C126_graph (C : Consts) (m : KepMode) (op : FlOp) (q : DurPar → ℝ) (t : ℝ) :
    ∃ o, keplerianInitF C (Duration.args m q) = .ok o ∧
      (Duration.lightCurveG C m t).value op (fun i => .fin (q i)) = fluxF op.value o.r_star (o.relativePosition op.kepler) (q (.kep .r)) t := by
  cases m <;> exact ⟨_, rfl, rfl⟩

theorem phi_facts {d P : ℝ} (hd : 0 < d) (hdP : d < P) : 0 < sin (π * d / P) ∧ cos (π * d / P) ^ 2 ≤ 1 := by
  have hP := hd.trans hdP
  refine ⟨sin_pos_of_pos_of_lt_pi (by have := pi_pos; positivity) ?_, cos_sq_le_one _⟩
  rw [div_lt_iff₀ hP]
  have := pi_pos
  nlinarith

theorem durAxis_regular (hq : Duration.Possible m q) : (Duration.aG m).Regular L op q ∧ 0 < (Duration.aG m).real L q := by
  cases m with
  | circular =>
    obtain ⟨h1, h2, h3, h4⟩ := hq.circular rfl
    obtain ⟨hs, hc⟩ := phi_facts h1 h2
    have hb := sq_lt_sq' (by have := (abs_lt.1 h4).1; linarith) (abs_lt.1 h4).2
    have hn : 0 < (1 + q .ror) ^ 2 - q (.kep .b) ^ 2 * cos (π * q .duration / q (.kep .period)) ^ 2 := by nlinarith [sq_nonneg (q (.kep .b))]
    have hphi : Duration.phiG.Regular L op q := ⟨⟨trivial, trivial⟩, trivial, hq.period.ne'⟩
    refine ⟨⟨trivial, ⟨⟨⟨trivial, trivial⟩, trivial, hphi⟩, hn⟩, hphi, hs.ne'⟩, ?_⟩
    exact mul_pos hq.r_star (div_pos (sqrt_pos.2 hn) hs)
  | angle => exact ⟨trivial, hq.a nofun⟩
  | sincos => exact ⟨trivial, hq.a nofun⟩

theorem durImpact_regular (hq : Duration.Possible m q) (hb : m ≠ .circular → 0 < (Duration.bG C m).real L q) : (Duration.bG C m).Regular L op q := by
  have key : ∀ m : KepMode, m ≠ .circular → 0 < q (.kep .a) → 0 ≤ q (.kep .ecc) ∧ q (.kep .ecc) < 1 →
      0 < √((Graph.div (.sub (.mul (.pow (Duration.aorG C) 2) (Duration.c2G m)) (.const 1)) (Duration.divisorG m)).real L q) * (1 - q (.kep .ecc) ^ 2) →
      (Graph.mul (.sqrt (.div (.sub (.mul (.pow (Duration.aorG C) 2) (Duration.c2G m)) (.const 1)) (Duration.divisorG m))) (.sub (.const 1) (.pow (.input (.kep .ecc)) 2))).Regular L op q := by
    intro m hm ha he hpos
    have ho : 0 < 1 - q (.kep .ecc) ^ 2 := by nlinarith
    have hr := sqrt_pos.1 (pos_of_mul_pos_left hpos ho.le)
    have hG := C.G_pos
    have hP := hq.period
    have hpi := pi_pos
    have hden : C.G * q (.kep .period) ^ 2 ≠ 0 := by positivity
    have hms : (Duration.mStarG C).Regular L op q := ⟨⟨⟨⟨⟨trivial, trivial⟩, trivial⟩, trivial⟩, ⟨trivial, trivial⟩, hden⟩, trivial⟩
    have hmt : (Graph.add (Duration.mStarG C) (.const 0)).real L q ≠ 0 := by
      have h : (Graph.add (Duration.mStarG C) (.const 0)).real L q = 4 * π * π * q (.kep .a) ^ 3 / (C.G * q (.kep .period) ^ 2) := by
        simp [Duration.mStarG, Graph.real]
      rw [h]
      positivity
    have haor : (Duration.aorG C).Regular L op q := ⟨⟨⟨trivial, hms⟩, ⟨hms, trivial⟩, hmt⟩, trivial, hq.r_star.ne'⟩
    have hw := (omega_regular (m := m) (P := Duration.givenG) (L := L) (op := op) (x := q) fun _ => trivial).2
    have hf : (m.inclFactorG Duration.givenG).Regular L op q := by
      cases m with
      | circular => trivial
      | angle => exact ⟨⟨trivial, trivial, hw⟩, ⟨trivial, trivial⟩, ho.ne'⟩
      | sincos => exact ⟨⟨trivial, trivial, hw⟩, ⟨trivial, trivial⟩, ho.ne'⟩
    have hc : (Duration.c2G m).Regular L op q := ⟨⟨⟨⟨trivial, trivial⟩, hf⟩, trivial, hP.ne'⟩, ⟨⟨⟨trivial, trivial⟩, hf⟩, trivial, hP.ne'⟩⟩
    have hes : (Duration.esinwG m).Regular L op q := ⟨trivial, hw⟩
    have hd : (Duration.divisorG m).real L q ≠ 0 := fun h0 => by
      simp only [Graph.real, h0, div_zero, lt_irrefl] at hr
    exact ⟨⟨⟨⟨⟨haor, hc⟩, trivial⟩, ⟨⟨⟨⟨⟨⟨hc, hes⟩, ⟨trivial, hc⟩, hes⟩, hc⟩, trivial⟩, trivial, trivial⟩, trivial⟩, hd⟩, hr⟩, trivial, trivial⟩
  cases m with
  | circular => trivial
  | angle => exact key _ nofun (hq.a nofun) (hq.ecc nofun) (hb nofun)
  | sincos => exact key _ nofun (hq.a nofun) (hq.ecc nofun) (hb nofun)

theorem durPar_regular (hq : Duration.Possible m q) (hb : m ≠ .circular → 0 < (Duration.bG C m).real L q) (p : KepPar) : (Duration.parG C m p).Regular L op q := by
  cases p <;> first | exact (durAxis_regular hq).1 | exact durImpact_regular hq hb | trivial

theorem durPar_possible (hq : Duration.Possible m q) : m.Possible fun p => (Duration.parG C m p).real L q := by
  refine ⟨(durAxis_regular (op := exactOp 0 0) hq).2, hq.period, hq.r_star, hq.r, hq.ecc, fun hm => ?_⟩
  have := hq.omega hm
  cases m <;> exact this

theorem durClock_regular (t : ℝ) : (Duration.clock t).Regular L op q := ⟨trivial, trivial⟩

/-- **C126 (what holds).** With exact operations the light curve of an orbit given by the duration of its transit and its computed derivatives with respect to all parameters, also the
duration and the ratio of the radii, are the true ones, unless the planet is exactly in front of (or behind) the centre of the star or grazes it in the plane of the sky, or the orbit is seen
face-on, or the computed impact parameter is zero. -/
theorem C126_light_curve_partial {u1 u2 : ℝ} (hl : PhysicalLaw u1 u2) (hop : op.Exact u1 u2) (hk : op.ExactKepler) (hq : Duration.Possible m q)
    (o : (DurPar → ℝ) → Orbit) (ho : ∀ q, keplerianInit C (Duration.args m q) = .ok (o q)) (t : ℝ) (hb : m ≠ .circular → 0 < (o q).b) (hi : |(o q).cos_incl| < 1)
    (hc : ((o q).relativePosition C t).x ≠ 0 ∨ ((o q).relativePosition C t).y ≠ 0) (hz : Clear (q (.kep .r_star)) (q (.kep .r)) ((o q).relativePosition C t)) :
    GradientRight op (Duration.lightCurveG C m t) (fun q => fluxAt (getCl u1 u2) (q (.kep .r_star)) (q (.kep .r)) ((o q).relativePosition C t)) q := by
  set L := quadLimbdarkLightCurve (getCl u1 u2) with hL
  obtain ⟨hp, hci, -, hbb⟩ := durGraph_real (ho q) L t
  rw [hci] at hi
  rw [hp] at hc hz
  rw [hbb] at hb
  refine GradientRight.of_regular (L := L) (lightCurve_regular hl hop hk (durPar_regular hq hb) (durClock_regular t) (durPar_possible hq) hi hc hz) fun q => ?_
  rw [(durGraph_real (ho q) L t).1]
  exact (lightCurveOf_real u1 u2).symm

/-- **C126 (the written-down Jacobian).** For a circular orbit the computed derivative of the semi-major axis with respect to the duration is `orbit.jacobians["duration"]["a"]`. -/
theorem C126_jacobian (hq : Duration.Possible .circular q) {o : Orbit} (ho : keplerianInit C (Duration.args .circular q) = .ok o) (g : ℝ) :
    ∃ J, o.durJac = some J ∧ (Duration.aG .circular).back op (fun i => .fin (q i)) (.fin g) .duration = .fin (g * J.a) := by
  obtain ⟨h1, h2, h3, h4⟩ := hq.circular rfl
  obtain ⟨hs, hc⟩ := phi_facts h1 h2
  have hb := sq_lt_sq' (by have := (abs_lt.1 h4).1; linarith) (abs_lt.1 h4).2
  obtain ⟨D, hD, hg⟩ := (C118_backprop op (fun _ _ => 0) q _ (durAxis_regular hq).1).2 .duration
  have hd := (C25_aor_derivative (q .duration) (q (.kep .period)) (q (.kep .b)) (some (q .ror)) hq.period hs.ne'
    (by simp only [Option.getD_some]; nlinarith [sq_nonneg (q (.kep .b))])).const_mul (q (.kep .r_star))
  have e : (fun x => (Duration.aG .circular).real (fun _ _ => 0) (update q .duration x)) =
      fun x => q (.kep .r_star) * (aorFromDuration x (q (.kep .period)) (q (.kep .b)) (some (q .ror))).1 := by
    funext x
    simp [Duration.aG, Duration.num2G, Duration.phiG, Graph.real, aorFromDuration, update]
  rw [e] at hD
  rw [hg, hD.unique hd]
  obtain rfl := Except.ok.inj ho
  exact ⟨_, rfl, rfl⟩

/-! ## Impossible transits -/

/-- **C126 (impossible transits).** If the planet passes the star at too large a distance, so that no axis gives the duration, the light curve is zero, and the computed derivatives with
respect to all parameters from which the axis is computed are NaN, whatever the compiled operations and their derivatives, and whatever is computed from the light curve afterwards. -/
theorem C126_impossible (hP : q (.kep .period) ≠ 0) (hb : (1 + q .ror) ^ 2 < q (.kep .b) ^ 2 * cos (π * q .duration / q (.kep .period)) ^ 2) (t : ℝ) :
    (Duration.lightCurveG C .circular t).value op (fun i => .fin (q i)) = .fin 0 ∧
    ∀ (g : Fl) (j : DurPar), j = .duration ∨ j = .ror ∨ j = .kep .b ∨ j = .kep .r_star ∨ j = .kep .period →
      (Duration.lightCurveG C .circular t).back op (fun i => .fin (q i)) g j = .nan := by
  have hphi : Duration.phiG.value op (fun i => .fin (q i)) = .fin (π * q .duration / q (.kep .period)) := by
    simp only [Duration.phiG, Graph.value, Fl.fin_mul, Fl.fin_div hP]
  have hn : Duration.num2G.value op (fun i => .fin (q i)) = .fin ((1 + q .ror) ^ 2 - q (.kep .b) ^ 2 * cos (π * q .duration / q (.kep .period)) ^ 2) := by
    simp [Duration.num2G, Graph.value, hphi]
  have ha : (Duration.aG .circular).value op (fun i => .fin (q i)) = .nan := by
    simp [Duration.aG, Graph.value, hn, Fl.sqrt, hb]
  have hx : (KepMode.circular.x1G (Duration.parG C .circular) (Duration.clock t)).value op (fun i => .fin (q i)) = .nan := by
    simp [KepMode.x1G, KepMode.radiusG, Graph.value, Duration.parG, ha]
  have hz : (Graph.div (KepMode.circular.zG (Duration.parG C .circular) (Duration.clock t)) (Duration.parG C .circular .r_star)).value op (fun i => .fin (q i)) = .nan := by
    simp [KepMode.zG, KepMode.y1G, KepMode.radiusG, Graph.value, Duration.parG, ha]
  refine ⟨?_, fun g j hj => ?_⟩
  · simp only [Duration.lightCurveG, KepMode.lightCurveOf, fluxGraph, Graph.value] at hz ⊢
    simp [hz]
  · have hA : (Duration.aG .circular).back op (fun i => .fin (q i)) .nan j = .nan := by
      rcases hj with rfl | rfl | rfl | rfl | rfl <;> simp [Duration.aG, Duration.num2G, Duration.phiG, Graph.back]
    simp only [Duration.lightCurveG, KepMode.lightCurveOf, fluxGraph, Graph.back, Graph.value, hx]
    simp [KepMode.x1G, KepMode.radiusG, Graph.back, Duration.parG, hA]

/-! ## The centre of the star -/

/-- **C126 (what exact arithmetic does at the centre).** When the planet is exactly in front of the centre of the star (or behind it), the computed derivatives are NaN, also that with
respect to the duration. -/
theorem C126_centre (hk : op.ExactKepler) (hq : Duration.Possible m q) {o : Orbit} (h : keplerianInit C (Duration.args m q) = .ok o) (hb : m ≠ .circular → 0 < o.b) (t : ℝ)
    (hx : (o.relativePosition C t).x = 0) (hy : (o.relativePosition C t).y = 0) (g : Fl) {j : DurPar}
    (hj : j = .duration ∨ j = .kep .r_star ∨ (m = .circular ∧ (j = .ror ∨ j = .kep .b)) ∨ (m ≠ .circular ∧ (j = .kep .a ∨ j = .kep .ecc))) :
    (Duration.lightCurveG C m t).back op (fun i => .fin (q i)) g j = .nan := by
  set L : ℝ → ℝ → ℝ := fun _ _ => 0
  obtain ⟨hp, -, -, hbb⟩ := durGraph_real h L t
  rw [hp] at hx hy
  rw [hbb] at hb
  refine lightCurveOf_centre (L := L) hk (durPar_regular hq hb) (durClock_regular t) (durPar_possible hq) hx hy ?_ g
  rcases hj with rfl | rfl | ⟨rfl, rfl | rfl⟩ | ⟨hm, rfl | rfl⟩
  · cases m <;>
      simp [KepMode.x1G, KepMode.yG, KepMode.cosInclG, KepMode.radiusG, Graph.back, Duration.parG, Duration.aG, Duration.bG, Duration.num2G, Duration.phiG, Duration.c2G]
  · simp [KepMode.yG, KepMode.cosInclG, Graph.back, Duration.parG]
  · simp [KepMode.x1G, KepMode.radiusG, Graph.back, Duration.parG, Duration.aG, Duration.num2G]
  · simp [KepMode.x1G, KepMode.radiusG, Graph.back, Duration.parG, Duration.aG, Duration.num2G]
  · cases m <;> simp [KepMode.x1G, KepMode.radiusG, Graph.back, Duration.parG, Duration.aG] at hm ⊢
  · cases m <;> simp [KepMode.x1G, KepMode.radiusG, KepMode.ome2G, Graph.back, Duration.parG] at hm ⊢

/-! ## Examples -/

/-- A transit of a planet of a tenth of the size of the star that takes a tenth of a day of a period of one day. -/
noncomputable def demoDur (b : ℝ) : DurPar → ℝ
  | .kep .period => 1
  | .kep p => demoKep b 1 p
  | .duration => 0.1
  | .ror => 0.1

theorem demoDur_possible {b : ℝ} (hb : |b| < 1.1) : Duration.Possible .circular (demoDur b) := by
  refine ⟨by norm_num [demoDur], by norm_num [demoDur, demoKep], by norm_num [demoDur, demoKep], fun _ => ⟨by norm_num [demoDur], by norm_num [demoDur], by norm_num [demoDur], ?_⟩, fun h => absurd rfl h,
    fun h => absurd rfl h, fun h => absurd rfl h⟩
  show |b| < 1 + 0.1
  norm_num at hb ⊢
  exact hb

theorem durTransit {b : ℝ} (hb : |b| < 1.1) {o : Orbit} (h : keplerianInit C (Duration.args .circular (demoDur b)) = .ok o) :
    o.relativePosition C 0 = ⟨0, -b, o.a * sin (arccos (b / o.a))⟩ ∧ o.cos_incl = b / o.a ∧ 0 < o.a := by
  obtain ⟨hp, hci, ha, -⟩ := durGraph_real h (fun _ _ => 0) 0
  have ha0 := (durAxis_regular (L := fun _ _ => 0) (op := exactOp 0 0) (demoDur_possible hb)).2
  rw [← ha] at ha0
  have hM : (KepMode.circular.anomalyG (Duration.parG C .circular) (Duration.clock 0)).real (fun _ _ => 0) (demoDur b) = π / 2 := by
    simp only [KepMode.anomalyG, Duration.clock, KepMode.M0G, KepMode.nG, Duration.parG, Graph.real, demoDur, demoKep]
    have := pi_pos.ne'
    field_simp
    norm_num
  rw [hp, hci]
  simp only [KepMode.x1G, KepMode.yG, KepMode.zG, KepMode.y1G, KepMode.cosfG, KepMode.sinfG, KepMode.radiusG, KepMode.sinInclG, KepMode.cosInclG,
    KepMode.inclFactorG, Graph.real, hM, Duration.parG, ← ha, cos_pi_div_two, sin_pi_div_two, Duration.bG]
  simp only [demoDur, demoKep, mul_zero, mul_one]
  rw [show 1 / o.a * b = b / o.a by ring]
  refine ⟨?_, rfl, ha0⟩
  congr 1
  · field_simp
  · ring

/-- Concrete violation of C126: `KeplerianOrbit(period=1, t0=0, b=0, duration=0.1, ror=0.1, r_star=1)` at `t = 0`: the flux has derivatives with respect to all parameters; computed with
exact operations those with respect to the duration, the ratio of the radii, `b` and the radius of the star are NaN. -/
theorem C126_counterexample {u1 u2 : ℝ} (hl : PhysicalLaw u1 u2) (C : Consts) (o : (DurPar → ℝ) → Orbit) (ho : ∀ q, keplerianInit C (Duration.args .circular q) = .ok (o q)) :
    ∃ q : DurPar → ℝ, Duration.Possible .circular q ∧
    (∀ j, ∃ D, HasDerivAt (fun x => fluxAt (getCl u1 u2) (update q j x (.kep .r_star)) (update q j x (.kep .r)) ((o (update q j x)).relativePosition C 0)) D (q j)) ∧
    ∀ op : FlOp, op.ExactKepler → ∀ (g : Fl) (j : DurPar), j = .duration ∨ j = .ror ∨ j = .kep .b ∨ j = .kep .r_star →
      (Duration.lightCurveG C .circular 0).back op (fun i => .fin (q i)) g j = .nan := by
  have h0 : |(0 : ℝ)| < 1.1 := by norm_num
  have hq := demoDur_possible h0
  obtain ⟨hp, hi, ha⟩ := durTransit h0 (ho (demoDur 0))
  refine ⟨demoDur 0, hq, fun j => ?_, fun op hk g j hj => ?_⟩
  · set L : ℝ → ℝ → ℝ := fun _ _ => 0
    have hpr := fun q => durGraph_real (ho q) L 0
    have hp' := hp
    rw [(hpr _).1] at hp'
    rw [(hpr _).2.1] at hi
    obtain ⟨hx', hy', hz'⟩ := V3.mk.inj hp'
    obtain ⟨D, hD⟩ := lightCurveOf_differentiable (L := L) hl (exactOp_exact u1 u2).2 (durPar_regular hq fun h => absurd rfl h) (durClock_regular 0) (durPar_possible hq)
      (by rw [hi]; norm_num) (by rintro ⟨-, -, h⟩; norm_num [Duration.parG, Graph.real, demoDur, demoKep] at h)
      (by rw [hz']; simpa using ha.ne') j
    refine ⟨D, ?_⟩
    convert hD using 2 with x
    rw [(hpr _).1]
    rfl
  · refine C126_centre hk hq (ho _) (fun h => absurd rfl h) 0 (by rw [hp]) (by rw [hp]; simp) g ?_
    rcases hj with rfl | rfl | rfl | rfl <;> simp

theorem demoDur_axis {o : Orbit} (h : keplerianInit C (Duration.args .circular (demoDur 0.5)) = .ok o) : 1 < o.a := by
  have e : o.a = 1 * (√((1 + 0.1) ^ 2 - 0.5 ^ 2 * cos (π * 0.1 / 1) ^ 2) / sin (π * 0.1 / 1)) := by obtain rfl := Except.ok.inj h; rfl
  obtain ⟨hs, hc⟩ := phi_facts (d := 0.1) (P := 1) (by norm_num) (by norm_num)
  have hs' : sin (π * 0.1 / 1) < 0.4 := (sin_lt (by have := pi_pos; positivity)).trans (by have := pi_lt_four; linarith)
  have hn : (0.9 : ℝ) < √((1 + 0.1) ^ 2 - 0.5 ^ 2 * cos (π * 0.1 / 1) ^ 2) := lt_sqrt_of_sq_lt (by nlinarith)
  rw [e, one_mul, one_lt_div hs]
  linarith

/-- The hypotheses of `C126_light_curve_partial` can be met: `b = 0.5`, in the middle of the transit. -/
example (o : (DurPar → ℝ) → Orbit) (ho : ∀ q, keplerianInit C (Duration.args .circular q) = .ok (o q)) (hl : PhysicalLaw 0.3 0.2) :
    GradientRight (exactOp 0.3 0.2) (Duration.lightCurveG C .circular 0)
      (fun q => fluxAt (getCl 0.3 0.2) (q (.kep .r_star)) (q (.kep .r)) ((o q).relativePosition C 0)) (demoDur 0.5) := by
  have h0 : |(0.5 : ℝ)| < 1.1 := by rw [abs_of_pos] <;> norm_num
  have ha := demoDur_axis (ho (demoDur 0.5))
  obtain ⟨hp, hi, -⟩ := durTransit h0 (ho (demoDur 0.5))
  have hr : |0.5 / (o (demoDur 0.5)).a| < 1 := by
    rw [abs_of_pos (by positivity), div_lt_one (by linarith)]
    linarith
  refine C126_light_curve_partial hl (exactOp_exact _ _).1 (exactOp_exact _ _).2 (demoDur_possible h0) o ho 0 (fun h => absurd rfl h) (by rw [hi]; exact hr)
    (Or.inr (by rw [hp]; norm_num)) (Or.inl ?_)
  rw [hp, sin_arccos]
  refine (mul_pos (by linarith) (sqrt_pos.2 ?_)).ne'
  have := (sq_lt_one_iff_abs_lt_one _).2 hr
  linarith

/-- The hypotheses of `C126_impossible` can be met: `b = 3` for a duration of a tenth of the period. -/
example (g : Fl) (t : ℝ) : (Duration.lightCurveG C .circular t).back op (fun i => .fin (demoDur 3 i)) g .duration = .nan := by
  refine (C126_impossible (q := demoDur 3) (by norm_num [demoDur]) ?_ t).2 g .duration (Or.inl rfl)
  simp only [demoDur, demoKep]
  have h : cos (π / 3) < cos (π * 0.1 / 1) := cos_lt_cos_of_nonneg_of_le_pi (by have := pi_pos; positivity) (by have := pi_pos; linarith) (by have := pi_pos; linarith)
  rw [cos_pi_div_three] at h
  nlinarith

/-- An eccentric orbit, given by a duration of a tenth of a day, seen along its major axis. -/
noncomputable def demoDurEcc : DurPar → ℝ
  | .kep p => demoKep 0 1 p
  | .duration => 0.1
  | .ror => 0

theorem demoDurEcc_possible : Duration.Possible .sincos demoDurEcc :=
  have h := demoKep_possible .sincos 0
  ⟨h.period, h.r_star, h.r, nofun, fun _ => h.a, h.ecc, h.omega⟩

theorem demoDurEcc_facts {o : Orbit} (h : keplerianInit C (Duration.args .sincos demoDurEcc) = .ok o) :
    0 < o.b ∧ o.b ≤ 1 ∧ o.cos_incl = o.b / 7 ∧ o.relativePosition C 0 = ⟨0, -o.b, 7 * sin (arccos (o.b / 7))⟩ := by
  obtain ⟨hp, hci, ha, hb⟩ := durGraph_real h (fun _ _ => 0) 0
  have hM : (KepMode.sincos.anomalyG (Duration.parG C .sincos) (Duration.clock 0)).real (fun _ _ => 0) demoDurEcc = 0 := by
    simp only [KepMode.anomalyG, Duration.clock, KepMode.M0G, KepMode.E0G, KepMode.cosOmegaG, KepMode.nG, Duration.parG, Graph.real, demoDurEcc, demoKep, mul_zero]
    have h0 : ∀ x : ℝ, 0 < x → Exo.arctan2 0 x = 0 := fun x hx => Complex.arg_ofReal_of_nonneg hx.le
    rw [h0 _ (mul_pos (sqrt_pos.2 (by norm_num)) (by norm_num [KepMode.sinOmegaG, Duration.parG, Graph.real, demoDurEcc, demoKep]))]
    simp
  have hK : keplerOp 0 0.3 = (0, 1) := by
    have : eccAnomaly 0.3 0 = 0 := eccAnomaly_unique (by norm_num) (by norm_num) (by simp [keplerMap])
    simp only [keplerOp, this]
    norm_num
  have haor : (Duration.aorG C).real (fun _ _ => 0) demoDurEcc = -10 := by
    have hG := C.G_pos.ne'
    have hpi := pi_pos.ne'
    simp only [Duration.aorG, Duration.mStarG, Graph.real, demoDurEcc, demoKep]
    field_simp
    norm_num
  have hb' : o.b = √(((-10) ^ 2 * (sin (π * 0.1 * ((1 + 0.3 * 1) / (1 - 0.3 ^ 2)) / 10) * sin (π * 0.1 * ((1 + 0.3 * 1) / (1 - 0.3 ^ 2)) / 10)) - 1) /
      ((sin (π * 0.1 * ((1 + 0.3 * 1) / (1 - 0.3 ^ 2)) / 10) * sin (π * 0.1 * ((1 + 0.3 * 1) / (1 - 0.3 ^ 2)) / 10)) * (0.3 * 1) ^ 2 +
        2 * (sin (π * 0.1 * ((1 + 0.3 * 1) / (1 - 0.3 ^ 2)) / 10) * sin (π * 0.1 * ((1 + 0.3 * 1) / (1 - 0.3 ^ 2)) / 10)) * (0.3 * 1) +
        (sin (π * 0.1 * ((1 + 0.3 * 1) / (1 - 0.3 ^ 2)) / 10) * sin (π * 0.1 * ((1 + 0.3 * 1) / (1 - 0.3 ^ 2)) / 10)) - 0.3 ^ 4 + 2 * 0.3 ^ 2 - 1)) * (1 - 0.3 ^ 2) := by
    rw [hb]
    simp only [Duration.bG, Graph.real, haor]
    rfl
  have hx0 : 0 < π * 0.1 * ((1 + 0.3 * 1) / (1 - 0.3 ^ 2)) / 10 := by have := pi_pos; positivity
  have hx1 : π * 0.1 * ((1 + 0.3 * 1) / (1 - 0.3 ^ 2)) / 10 < 0.06 := by have := pi_lt_four; norm_num; linarith
  generalize π * 0.1 * ((1 + 0.3 * 1) / (1 - 0.3 ^ 2)) / 10 = X at hb' hx0 hx1
  have hs0 := sin_pos_of_pos_of_lt_pi hx0 (by have := pi_gt_three; linarith)
  have hs1 := (sin_lt hx0).trans hx1
  generalize sin X = c at hb' hs0 hs1
  have hcc : 0 ≤ c * c ∧ c * c < 0.0036 := ⟨by positivity, by nlinarith⟩
  generalize c * c = c2 at hb' hcc
  obtain ⟨hc0, hc1⟩ := hcc
  have hneg : c2 * (0.3 * 1) ^ 2 + 2 * c2 * (0.3 * 1) + c2 - 0.3 ^ 4 + 2 * 0.3 ^ 2 - 1 < 0 := by norm_num; linarith
  have hbpos : 0 < o.b := by
    rw [hb']
    refine mul_pos (sqrt_pos.2 (div_pos_of_neg_of_neg ?_ hneg)) (by norm_num)
    linarith
  have hble : o.b ≤ 1 := by
    rw [hb', ← le_div_iff₀ (by norm_num), sqrt_le_left (by norm_num), div_le_iff_of_neg hneg]
    norm_num
    linarith
  have hcos : o.cos_incl = o.b / 7 := by
    rw [hci]
    simp only [KepMode.cosInclG, KepMode.inclFactorG, KepMode.sinOmegaG, KepMode.ome2G, Duration.parG, Duration.aG, Graph.real, ← hb, demoDurEcc, demoKep]
    norm_num
    ring
  refine ⟨hbpos, hble, hcos, ?_⟩
  rw [hp]
  rw [hci] at hcos
  simp only [KepMode.x1G, KepMode.yG, KepMode.zG, KepMode.y1G, KepMode.cosfG, KepMode.sinfG, KepMode.radiusG, KepMode.sinInclG,
    KepMode.sinOmegaG, KepMode.cosOmegaG, KepMode.ome2G, Graph.real, hM, hcos, Duration.parG, Duration.aG]
  simp only [demoDurEcc, demoKep, hK]
  congr 1
  · norm_num
  · norm_num
  · norm_num
    ring

/-- The hypotheses of `C126_light_curve_partial` can be met by an eccentric orbit. -/
example (o : (DurPar → ℝ) → Orbit) (ho : ∀ q, keplerianInit C (Duration.args .sincos q) = .ok (o q)) (hl : PhysicalLaw 0.3 0.2) :
    GradientRight (exactOp 0.3 0.2) (Duration.lightCurveG C .sincos 0)
      (fun q => fluxAt (getCl 0.3 0.2) (q (.kep .r_star)) (q (.kep .r)) ((o q).relativePosition C 0)) demoDurEcc := by
  obtain ⟨hb, hb1, hi, hp⟩ := demoDurEcc_facts (ho demoDurEcc)
  have hr : |(o demoDurEcc).b / 7| < 1 := by
    rw [abs_of_pos (by positivity)]
    linarith
  refine C126_light_curve_partial hl (exactOp_exact _ _).1 (exactOp_exact _ _).2 demoDurEcc_possible o ho 0 (fun _ => hb) (by rw [hi]; exact hr)
    (Or.inr (by rw [hp]; simpa using hb.ne')) (Or.inl ?_)
  rw [hp, sin_arccos]
  refine (mul_pos (by norm_num) (sqrt_pos.2 ?_)).ne'
  have := (sq_lt_one_iff_abs_lt_one _).2 hr
  linarith

end Exo
