import Verif.Spec.BackpropDelay
import Verif.Props.Backprop
import Verif.Props.LightDelay

/-!
# C119: gradients of light-delayed positions as the compiled graphs compute them
-/

namespace Exo
open Real Function Topology

theorem inclArgs_ok (C : Consts) (q : DelayPar → ℝ) : ∃ o, keplerianInit C (inclArgs q) = .ok o ∧ o.a = q .a ∧ o.period = q .period ∧ o.ecc = none ∧
    o.Omega = none ∧ o.n = 2 * π / q .period ∧ o.tref = q .t0 - 0.5 * π / (2 * π / q .period) - q .t0 ∧ (∀ t, o.warp t = t - q .t0) ∧
    o.cos_incl = cos (q .incl) ∧ o.sin_incl = sin (q .incl) := by
  refine ⟨_, rfl, ?_⟩
  simp [inclArgs, M0Of]

variable {C : Consts} {q : DelayPar → ℝ}

theorem delay_real {o : Orbit} (h : keplerianInit C (inclArgs q) = .ok o) (L : ℝ → ℝ → ℝ) (t : ℝ) :
    o.relativePosition C t none true = ⟨(xGraph (newTimeGraph C t)).real L q, (yGraph (newTimeGraph C t)).real L q,
      (zGraph (newTimeGraph C t)).real L q⟩ := by
  obtain ⟨o', h', ha, hP, he, hO, hn, htr, hw, hc, hs⟩ := inclArgs_ok C q
  rw [h] at h'
  cases h'
  simp only [Orbit.relativePosition, Orbit.position, Orbit.retardedPosition, Orbit.positionNow, Orbit.rotate, Orbit.trueAnomaly, Orbit.radius,
    Orbit.delay, Orbit.retardedVz, Orbit.retardedAz, he, hO, hn, htr, hw, hc, hs, ha, hP, if_true]
  simp only [xGraph, yGraph, zGraph, newTimeGraph, azGraph, vzGraph, linearGraph, quadraticGraph, anomalyGraph, trefGraph, nGraph, Graph.real]
  congr!

theorem now_real {o : Orbit} (h : keplerianInit C (inclArgs q) = .ok o) (L : ℝ → ℝ → ℝ) (t : ℝ) :
    o.relativePosition C t = ⟨(xGraph (.const t)).real L q, (yGraph (.const t)).real L q, (zGraph (.const t)).real L q⟩ := by
  obtain ⟨o', h', ha, hP, he, hO, hn, htr, hw, hc, hs⟩ := inclArgs_ok C q
  rw [h] at h'
  cases h'
  simp only [Orbit.relativePosition, Orbit.position, Orbit.positionNow, Orbit.rotate, Orbit.trueAnomaly, Orbit.radius,
    he, hO, hn, htr, hw, hc, hs, ha, Bool.false_eq_true, if_false]
  simp only [xGraph, yGraph, zGraph, anomalyGraph, trefGraph, nGraph, Graph.real]

section
variable {L : ℝ → ℝ → ℝ} {op : FlOp}

theorem nGraph_regular (hP : q .period ≠ 0) : nGraph.Regular L op q := ⟨trivial, trivial, hP⟩

theorem anomalyGraph_regular (hP : q .period ≠ 0) {T : Graph DelayPar} (hT : T.Regular L op q) : (anomalyGraph T).Regular L op q := by
  have hn := nGraph_regular (L := L) (op := op) hP
  refine ⟨⟨⟨hT, trivial⟩, ⟨trivial, trivial, hn, ?_⟩, trivial⟩, hn⟩
  simp only [nGraph, Graph.real]
  have := pi_pos.ne'
  exact div_ne_zero (by positivity) hP

theorem coordinates_regular (hP : q .period ≠ 0) {T : Graph DelayPar} (hT : T.Regular L op q) :
    (xGraph T).Regular L op q ∧ (yGraph T).Regular L op q ∧ (zGraph T).Regular L op q := by
  have h := anomalyGraph_regular hP hT
  exact ⟨⟨trivial, h⟩, ⟨trivial, trivial, h⟩, ⟨trivial, trivial, h⟩⟩

theorem vzGraph_regular (hP : q .period ≠ 0) {T : Graph DelayPar} (hT : T.Regular L op q) : (vzGraph T).Regular L op q :=
  ⟨⟨⟨nGraph_regular hP, trivial⟩, trivial⟩, anomalyGraph_regular hP hT⟩

theorem azGraph_regular (hP : q .period ≠ 0) (ha : q .a ≠ 0) {T : Graph DelayPar} (hT : T.Regular L op q) : (azGraph T).Regular L op q :=
  ⟨⟨nGraph_regular hP, trivial, trivial, neg_ne_zero.2 ha⟩, (coordinates_regular hP hT).2.2⟩

theorem azGraph_real (ha : q .a ≠ 0) (T : Graph DelayPar) :
    (azGraph T).real L q = -(2 * π / q .period) ^ 2 * (zGraph T).real L q := by
  simp only [azGraph, nGraph, Graph.real]
  rw [div_self (neg_ne_zero.2 ha)]
  ring

/-- **C119 (what holds).** Where the body is not exactly in the plane of the sky through the star, and the acceleration along the line of sight is not
exactly at the threshold of the code, the light-delayed coordinates and their computed derivatives are the true ones. -/
theorem C119_delayed_partial (C : Consts) (o : (DelayPar → ℝ) → Orbit) (ho : ∀ q, keplerianInit C (inclArgs q) = .ok (o q)) (hP : 0 < q .period)
    (ha : 0 < q .a) (hslow : 3 * (2 * π / q .period * q .a) ≤ C.c) (t : ℝ) (hz : ((o q).relativePosition C t).z ≠ 0)
    (hne : (2 * π / q .period) ^ 2 * |((o q).relativePosition C t).z| ≠ 1.0e-10) (op : FlOp) :
    GradientRight op (xGraph (newTimeGraph C t)) (fun q => ((o q).relativePosition C t none true).x) q ∧
    GradientRight op (yGraph (newTimeGraph C t)) (fun q => ((o q).relativePosition C t none true).y) q ∧
    GradientRight op (zGraph (newTimeGraph C t)) (fun q => ((o q).relativePosition C t none true).z) q := by
  have hc := C.c_pos
  have hpi := pi_pos
  set L : ℝ → ℝ → ℝ := fun _ _ => 0
  have hT : (Graph.const t : Graph DelayPar).Regular L op q := trivial
  have hzr := coordinates_regular hP.ne' hT
  have hvr := vzGraph_regular hP.ne' hT
  have har := azGraph_regular hP.ne' ha.ne' hT
  have hzz : ((o q).relativePosition C t).z = (zGraph (.const t)).real L q := by rw [now_real (ho q) L t]
  rw [hzz] at hz hne
  have haz := azGraph_real (L := L) (q := q) ha.ne' (.const t)
  set n : ℝ := 2 * π / q .period with hn
  have hn0 : 0 < n := by positivity
  set Z := (zGraph (.const t)).real L q with hZ
  set V := (vzGraph (.const t)).real L q with hV
  have hZle : n * |Z| ≤ C.c / 3 := by
    have h1 : |Z| ≤ q .a := by
      rw [hZ]
      simp only [zGraph, Graph.real, abs_mul, abs_neg, abs_of_pos ha]
      calc _ ≤ 1 * (q .a * 1) := by
            gcongr
            · exact abs_sin_le_one _
            · exact abs_sin_le_one _
        _ = q .a := by ring
    have := mul_le_mul_of_nonneg_left h1 hn0.le
    linarith
  have hVle : |V| ≤ C.c / 3 := by
    have h1 : |V| ≤ n * q .a := by
      rw [hV]
      simp only [vzGraph, nGraph, Graph.real, abs_mul, abs_neg, abs_of_pos ha]
      rw [abs_of_pos hn0]
      calc _ ≤ n * q .a * 1 * 1 := by
            gcongr
            · exact abs_sin_le_one _
            · exact abs_cos_le_one _
        _ = n * q .a := by ring
    linarith
  have hlin : (linearGraph C (.const t)).Regular L op q := by
    refine ⟨⟨trivial, hzr.2.2⟩, ⟨trivial, hvr⟩, ?_⟩
    simp only [Graph.real]
    have := (abs_le.1 hVle).1
    exact ne_of_gt (by linarith)
  have hquad : (quadraticGraph C (.const t)).Regular L op q := by
    have hw : (Graph.add (.const 1) (.div (vzGraph (.const t)) (.const C.c))).Regular L op q := ⟨trivial, hvr, trivial, hc.ne'⟩
    refine ⟨⟨trivial, har, ?_⟩, hw, ⟨⟨hw, hw⟩, ⟨⟨trivial, har⟩, trivial, hzr.2.2⟩, trivial, ?_⟩, ?_⟩
    · rw [haz]
      exact mul_ne_zero (neg_ne_zero.2 (pow_ne_zero 2 hn0.ne')) hz
    · simp only [Graph.real]; positivity
    · simp only [Graph.real] at haz ⊢
      rw [haz, ← hZ, ← hV]
      have h1 : (2 / 3 : ℝ) ≤ 1 + V / C.c := by
        have : -(1 / 3) ≤ V / C.c := by rw [le_div_iff₀ hc]; linarith [(abs_le.1 hVle).1]
        linarith
      have h2 : (n * |Z|) ^ 2 ≤ (C.c / 3) ^ 2 := by gcongr
      have h3 : 2 * (-n ^ 2 * Z) * (0 - Z) / C.c ^ 2 ≤ 2 / 9 := by
        rw [div_le_iff₀ (by positivity)]
        rw [mul_pow, sq_abs] at h2
        nlinarith
      nlinarith
  have hnew : (newTimeGraph C t).Regular L op q := by
    refine ⟨trivial, har, hlin, hquad, ?_⟩
    rw [haz, abs_mul, abs_neg, abs_of_nonneg (by positivity : (0 : ℝ) ≤ n ^ 2)]
    exact hne
  obtain ⟨rx, ry, rz⟩ := coordinates_regular hP.ne' hnew
  have key : ∀ (G : Graph DelayPar) (f : (DelayPar → ℝ) → ℝ), G.Regular L op q → (∀ q, f q = G.real L q) → GradientRight op G f q := by
    intro G f hG hf
    obtain ⟨h1, h2⟩ := C118_backprop op L q G hG
    refine ⟨by rw [h1, hf], fun j => ?_⟩
    obtain ⟨D, hD, hg⟩ := h2 j
    exact ⟨D, by simpa only [hf] using hD, hg⟩
  exact ⟨key _ _ rx fun q => by rw [delay_real (ho q) L t], key _ _ ry fun q => by rw [delay_real (ho q) L t],
    key _ _ rz fun q => by rw [delay_real (ho q) L t]⟩

theorem vzGraph_small (hP : 0 < q .period) (ha : 0 < q .a) (T : Graph DelayPar) : |(vzGraph T).real L q| ≤ 2 * π / q .period * q .a := by
  have hn0 : 0 < 2 * π / q .period := by have := pi_pos; positivity
  simp only [vzGraph, nGraph, Graph.real, abs_mul, abs_neg, abs_of_pos ha]
  rw [abs_of_pos hn0]
  calc _ ≤ 2 * π / q .period * q .a * 1 * 1 := by
        gcongr
        · exact abs_sin_le_one _
        · exact abs_cos_le_one _
    _ = _ := by ring

theorem zero_back (C : Consts) (hP : 0 < q .period) (ha : q .a ≠ 0) (t : ℝ) (op : FlOp) (hz : (zGraph (.const t)).real L q = 0) (g : Fl) (j : DelayPar) :
    (xGraph (newTimeGraph C t)).back op (fun i => .fin (q i)) g j = .nan ∧ (yGraph (newTimeGraph C t)).back op (fun i => .fin (q i)) g j = .nan ∧
      (zGraph (newTimeGraph C t)).back op (fun i => .fin (q i)) g j = .nan := by
  have hc := C.c_pos
  have hT : (Graph.const t : Graph DelayPar).Regular L op q := trivial
  have haz : (azGraph (.const t)).value op (fun i => .fin (q i)) = .fin 0 := by
    rw [(C118_backprop op L q _ (azGraph_regular hP.ne' ha hT)).1, azGraph_real ha, hz, mul_zero]
  have hinf : ((.fin 0 : Fl) * (.fin C.c / .fin 0)) = .nan := by
    show Fl.mul _ (Fl.div _ _) = _
    simp [Fl.div, Fl.mul, hc.ne']
  have hgt : (Fl.fin 1.0e-10).gt (Fl.fin 0).abs = true := by
    simp only [Fl.abs, Fl.gt, abs_zero, decide_eq_true_eq]; norm_num
  have hv : (vzGraph (.const t)).back op (fun i => .fin (q i)) .nan j = .nan := by
    cases j <;> simp [vzGraph, Graph.back, nGraph, anomalyGraph, trefGraph]
  have hnew : ∀ w, (newTimeGraph C t).back op (fun i => .fin (q i)) w j = .nan := by
    intro w
    simp only [newTimeGraph, Graph.back, haz, hgt, if_true]
    simp only [quadraticGraph, Graph.back, Graph.value, haz, hinf, Fl.nan_div, Fl.neg_nan, hv, Fl.nan_add, Fl.add_nan]
  have han' : ∀ w, (anomalyGraph (newTimeGraph C t)).back op (fun i => .fin (q i)) w j = .nan := by
    intro w
    simp only [anomalyGraph, Graph.back, hnew, Fl.nan_add]
  refine ⟨?_, ?_, ?_⟩ <;> simp only [xGraph, yGraph, zGraph, Graph.back, han', Fl.add_nan]

theorem zero_value (C : Consts) (o : (DelayPar → ℝ) → Orbit) (ho : ∀ q, keplerianInit C (inclArgs q) = .ok (o q)) (hP : 0 < q .period)
    (ha : q .a ≠ 0) (t : ℝ) (op : FlOp) (h0 : (zGraph (.const t)).real L q = 0) (hv : C.c + (vzGraph (.const t)).real L q ≠ 0) :
    (xGraph (newTimeGraph C t)).value op (fun i => .fin (q i)) = .fin ((o q).relativePosition C t none true).x ∧
    (yGraph (newTimeGraph C t)).value op (fun i => .fin (q i)) = .fin ((o q).relativePosition C t none true).y ∧
    (zGraph (newTimeGraph C t)).value op (fun i => .fin (q i)) = .fin ((o q).relativePosition C t none true).z := by
  have hT : (Graph.const t : Graph DelayPar).Regular L op q := trivial
  have hzr := coordinates_regular hP.ne' hT
  have har := azGraph_regular hP.ne' ha hT
  have hlin : (linearGraph C (.const t)).Regular L op q := ⟨⟨trivial, hzr.2.2⟩, ⟨trivial, vzGraph_regular hP.ne' hT⟩, hv⟩
  obtain ⟨rx, ry, rz⟩ := coordinates_regular hP.ne' (show (Graph.sub (.const t) (linearGraph C (.const t))).Regular L op q from ⟨trivial, hlin⟩)
  replace h0 : (azGraph (.const t)).real L q = 0 := by rw [azGraph_real ha, h0, mul_zero]
  have hreal : (newTimeGraph C t).real L q = (Graph.sub (.const t) (linearGraph C (.const t))).real L q := by
    simp only [newTimeGraph, Graph.real]
    rw [if_pos (by rw [h0, abs_zero]; norm_num)]
  have hgt : (Fl.fin 1.0e-10).gt (Fl.fin 0).abs = true := by
    simp only [Fl.abs, Fl.gt, abs_zero, decide_eq_true_eq]; norm_num
  have hval : (newTimeGraph C t).value op (fun i => .fin (q i)) = (Graph.sub (.const t) (linearGraph C (.const t))).value op (fun i => .fin (q i)) := by
    simp only [newTimeGraph, Graph.value, (C118_backprop op L q _ har).1, h0, hgt, if_true]
  have hx := (C118_backprop op L q _ rx).1
  have hy := (C118_backprop op L q _ ry).1
  have hz := (C118_backprop op L q _ rz).1
  rw [delay_real (ho q) L t]
  simp only [xGraph, yGraph, zGraph, anomalyGraph, Graph.value, Graph.real] at hx hy hz hval hreal ⊢
  rw [hval, hreal]
  exact ⟨hx, hy, hz⟩

theorem zero_differentiable (C : Consts) (o : (DelayPar → ℝ) → Orbit) (ho : ∀ q, keplerianInit C (inclArgs q) = .ok (o q)) (hP : 0 < q .period)
    (ha : q .a ≠ 0) (t : ℝ) (h0 : (zGraph (.const t)).real L q = 0) (hv : C.c + (vzGraph (.const t)).real L q ≠ 0) (j : DelayPar) :
    DifferentiableAt ℝ (fun s => ((o (update q j s)).relativePosition C t none true).x) (q j) ∧
    DifferentiableAt ℝ (fun s => ((o (update q j s)).relativePosition C t none true).y) (q j) ∧
    DifferentiableAt ℝ (fun s => ((o (update q j s)).relativePosition C t none true).z) (q j) := by
  set op : FlOp := ⟨fun _ _ => .nan, fun _ _ _ => .nan, fun _ _ _ => .nan, fun _ _ => (.nan, .nan), fun _ _ _ => (.nan, .nan), fun _ _ _ => (.nan, .nan), fun _ _ _ => .nan, fun _ _ _ _ => (.nan, .nan)⟩
  have hT : (Graph.const t : Graph DelayPar).Regular L op q := trivial
  have hzr := coordinates_regular hP.ne' hT
  have har := azGraph_regular hP.ne' ha hT
  have hlin : (linearGraph C (.const t)).Regular L op q := ⟨⟨trivial, hzr.2.2⟩, ⟨trivial, vzGraph_regular hP.ne' hT⟩, hv⟩
  obtain ⟨rx, ry, rz⟩ := coordinates_regular hP.ne' (show (Graph.sub (.const t) (linearGraph C (.const t))).Regular L op q from ⟨trivial, hlin⟩)
  have hev : ∀ᶠ s in 𝓝 (q j), (newTimeGraph C t).real L (update q j s) = (Graph.sub (.const t) (linearGraph C (.const t))).real L (update q j s) := by
    obtain ⟨D, hD, -⟩ := (C118_backprop op L q _ har).2 j
    have h0 : (azGraph (.const t)).real L (update q j (q j)) = 0 := by
      rw [update_eq_self, azGraph_real ha, h0, mul_zero]
    filter_upwards [(hD.continuousAt.abs).eventually_lt continuousAt_const (show _ < (1.0e-10 : ℝ) by rw [h0, abs_zero]; norm_num)] with s hs
    simp only [newTimeGraph, Graph.real]
    rw [if_pos hs]
  refine ⟨?_, ?_, ?_⟩
  · obtain ⟨D, hD, -⟩ := (C118_backprop op L q _ rx).2 j
    refine (hD.congr_of_eventuallyEq ?_).differentiableAt
    filter_upwards [hev] with s hs
    rw [delay_real (ho _) L t]
    simp only [xGraph, anomalyGraph, Graph.real] at hs ⊢
    rw [hs]
  · obtain ⟨D, hD, -⟩ := (C118_backprop op L q _ ry).2 j
    refine (hD.congr_of_eventuallyEq ?_).differentiableAt
    filter_upwards [hev] with s hs
    rw [delay_real (ho _) L t]
    simp only [yGraph, anomalyGraph, Graph.real] at hs ⊢
    rw [hs]
  · obtain ⟨D, hD, -⟩ := (C118_backprop op L q _ rz).2 j
    refine (hD.congr_of_eventuallyEq ?_).differentiableAt
    filter_upwards [hev] with s hs
    rw [delay_real (ho _) L t]
    simp only [zGraph, anomalyGraph, Graph.real] at hs ⊢
    rw [hs]

/-- **C119 (what the code does).** At every time at which the body crosses the plane of the sky through the star, the computed derivatives of the
light-delayed coordinates with respect to all parameters are NaN: the branch of the `switch` that is not selected divides by the acceleration, which
is zero. -/
theorem C119_crossing (C : Consts) {o : Orbit} (h : keplerianInit C (inclArgs q) = .ok o) (hP : 0 < q .period) (ha : q .a ≠ 0) (t : ℝ)
    (hz : (o.relativePosition C t).z = 0) (op : FlOp) (g : Fl) (j : DelayPar) :
    (xGraph (newTimeGraph C t)).back op (fun i => .fin (q i)) g j = .nan ∧ (yGraph (newTimeGraph C t)).back op (fun i => .fin (q i)) g j = .nan ∧
      (zGraph (newTimeGraph C t)).back op (fun i => .fin (q i)) g j = .nan := by
  rw [now_real h (fun _ _ => 0) t] at hz
  exact zero_back C hP ha t op hz g j

/-- **C119 (the value at a crossing).** The coordinates themselves are right. -/
theorem C119_crossing_value (C : Consts) (o : (DelayPar → ℝ) → Orbit) (ho : ∀ q, keplerianInit C (inclArgs q) = .ok (o q)) (hP : 0 < q .period)
    (ha : 0 < q .a) (hslow : 2 * π / q .period * q .a < C.c) (t : ℝ) (hz : ((o q).relativePosition C t).z = 0) (op : FlOp) :
    (xGraph (newTimeGraph C t)).value op (fun i => .fin (q i)) = .fin ((o q).relativePosition C t none true).x ∧
    (yGraph (newTimeGraph C t)).value op (fun i => .fin (q i)) = .fin ((o q).relativePosition C t none true).y ∧
    (zGraph (newTimeGraph C t)).value op (fun i => .fin (q i)) = .fin ((o q).relativePosition C t none true).z := by
  rw [now_real (ho q) (fun _ _ => 0) t] at hz
  refine zero_value C o ho hP ha.ne' t op hz (ne_of_gt ?_)
  have := (abs_le.1 (vzGraph_small (L := fun _ _ => 0) hP ha (.const t))).1
  linarith

/-- **C119 (the true gradient at a crossing).** The coordinates have derivatives with respect to all parameters. -/
theorem C119_crossing_differentiable (C : Consts) (o : (DelayPar → ℝ) → Orbit) (ho : ∀ q, keplerianInit C (inclArgs q) = .ok (o q))
    (hP : 0 < q .period) (ha : 0 < q .a) (hslow : 2 * π / q .period * q .a < C.c) (t : ℝ) (hz : ((o q).relativePosition C t).z = 0) (j : DelayPar) :
    DifferentiableAt ℝ (fun s => ((o (update q j s)).relativePosition C t none true).x) (q j) ∧
    DifferentiableAt ℝ (fun s => ((o (update q j s)).relativePosition C t none true).y) (q j) ∧
    DifferentiableAt ℝ (fun s => ((o (update q j s)).relativePosition C t none true).z) (q j) := by
  rw [now_real (ho q) (fun _ _ => 0) t] at hz
  refine zero_differentiable C o ho hP ha.ne' t hz (ne_of_gt ?_) j
  have := (abs_le.1 (vzGraph_small (L := fun _ _ => 0) hP ha (.const t))).1
  linarith

/-- **C119 (face-on orbits).** On a face-on orbit (`incl = 0`) this happens at all times. -/
theorem C119_face_on (C : Consts) (hP : 0 < q .period) (ha : q .a ≠ 0) (hi : q .incl = 0) (t : ℝ) (op : FlOp) (g : Fl) (j : DelayPar) :
    (xGraph (newTimeGraph C t)).back op (fun i => .fin (q i)) g j = .nan ∧ (yGraph (newTimeGraph C t)).back op (fun i => .fin (q i)) g j = .nan ∧
      (zGraph (newTimeGraph C t)).back op (fun i => .fin (q i)) g j = .nan :=
  zero_back (L := fun _ _ => 0) C hP ha t op (by simp [zGraph, Graph.real, hi]) g j

/-- **C119 (face-on orbits, the value).** The coordinates themselves are right. -/
theorem C119_face_on_value (C : Consts) (o : (DelayPar → ℝ) → Orbit) (ho : ∀ q, keplerianInit C (inclArgs q) = .ok (o q)) (hP : 0 < q .period)
    (ha : q .a ≠ 0) (hi : q .incl = 0) (t : ℝ) (op : FlOp) :
    (xGraph (newTimeGraph C t)).value op (fun i => .fin (q i)) = .fin ((o q).relativePosition C t none true).x ∧
    (yGraph (newTimeGraph C t)).value op (fun i => .fin (q i)) = .fin ((o q).relativePosition C t none true).y ∧
    (zGraph (newTimeGraph C t)).value op (fun i => .fin (q i)) = .fin ((o q).relativePosition C t none true).z :=
  zero_value (L := fun _ _ => 0) C o ho hP ha t op (by simp [zGraph, Graph.real, hi]) (by simpa [vzGraph, Graph.real, hi] using C.c_pos.ne')

/-- **C119 (face-on orbits, the true gradient).** The coordinates have derivatives with respect to all parameters. -/
theorem C119_differentiable (C : Consts) (o : (DelayPar → ℝ) → Orbit) (ho : ∀ q, keplerianInit C (inclArgs q) = .ok (o q)) (hP : 0 < q .period)
    (ha : q .a ≠ 0) (hi : q .incl = 0) (t : ℝ) (j : DelayPar) :
    DifferentiableAt ℝ (fun s => ((o (update q j s)).relativePosition C t none true).x) (q j) ∧
    DifferentiableAt ℝ (fun s => ((o (update q j s)).relativePosition C t none true).y) (q j) ∧
    DifferentiableAt ℝ (fun s => ((o (update q j s)).relativePosition C t none true).z) (q j) :=
  zero_differentiable (L := fun _ _ => 0) C o ho hP ha t (by simp [zGraph, Graph.real, hi]) (by simpa [vzGraph, Graph.real, hi] using C.c_pos.ne') j

/-- The parameters of the counterexample: a face-on orbit. -/
noncomputable def faceOnPars : DelayPar → ℝ
  | .a => 10
  | .period => 5
  | .t0 => 1
  | .incl => 0

/-- **C119 (counterexample).** A face-on orbit, at any time: the light-delayed coordinates are computed correctly and have derivatives with respect to
all parameters, but all derivatives that the code computes are NaN. -/
theorem C119_counterexample (C : Consts) (o : (DelayPar → ℝ) → Orbit) (ho : ∀ q, keplerianInit C (inclArgs q) = .ok (o q)) (t : ℝ) (op : FlOp) :
    ∃ q : DelayPar → ℝ, 0 < q .period ∧ 0 < q .a ∧
      (xGraph (newTimeGraph C t)).value op (fun i => .fin (q i)) = .fin ((o q).relativePosition C t none true).x ∧
      (yGraph (newTimeGraph C t)).value op (fun i => .fin (q i)) = .fin ((o q).relativePosition C t none true).y ∧
      (∀ j, DifferentiableAt ℝ (fun s => ((o (update q j s)).relativePosition C t none true).x) (q j) ∧
        DifferentiableAt ℝ (fun s => ((o (update q j s)).relativePosition C t none true).y) (q j)) ∧
      ∀ g j, (xGraph (newTimeGraph C t)).back op (fun i => .fin (q i)) g j = .nan ∧
        (yGraph (newTimeGraph C t)).back op (fun i => .fin (q i)) g j = .nan := by
  have hP : 0 < faceOnPars .period := by norm_num [faceOnPars]
  have ha : 0 < faceOnPars .a := by norm_num [faceOnPars]
  have hi : faceOnPars .incl = 0 := rfl
  obtain ⟨hx, hy, -⟩ := C119_face_on_value C o ho hP ha.ne' hi t op
  exact ⟨faceOnPars, hP, ha, hx, hy, fun j => ⟨(C119_differentiable C o ho hP ha.ne' hi t j).1, (C119_differentiable C o ho hP ha.ne' hi t j).2.1⟩,
    fun g j => ⟨(C119_face_on C hP ha.ne' hi t op g j).1, (C119_face_on C hP ha.ne' hi t op g j).2.1⟩⟩

end

/-- The parameters of an edge-on orbit. -/
noncomputable def edgeOnPars : DelayPar → ℝ
  | .a => 10
  | .period => 5
  | .t0 => 0
  | .incl => π / 2

/-- The hypotheses of `C119_delayed_partial` can be met: the middle of the transit of an edge-on orbit around a star, with the speed of light at least
100 solar radii a day (it is about 37000). -/
example (C : Consts) (hc : 100 ≤ C.c) (o : (DelayPar → ℝ) → Orbit) (ho : ∀ q, keplerianInit C (inclArgs q) = .ok (o q)) (op : FlOp) :
    GradientRight op (xGraph (newTimeGraph C 0)) (fun q => ((o q).relativePosition C 0 none true).x) edgeOnPars := by
  have hpi := pi_pos
  have hz : ((o edgeOnPars).relativePosition C 0).z = 10 := by
    rw [now_real (ho _) (fun _ _ => 0) 0]
    simp only [zGraph, anomalyGraph, trefGraph, nGraph, Graph.real, edgeOnPars, sin_pi_div_two]
    rw [show (0 - 0 - (0 - 0.5 * π / (2 * π / 5) - 0)) * (2 * π / 5) = π / 2 by field_simp; ring, sin_pi_div_two]
    norm_num
  have h3 := pi_gt_three
  have h4 := pi_lt_four
  refine (C119_delayed_partial C o ho (by norm_num [edgeOnPars]) (by norm_num [edgeOnPars]) ?_ 0 (by rw [hz]; norm_num) ?_ op).1
  · simp only [edgeOnPars]; linarith
  · rw [hz]
    simp only [edgeOnPars]
    refine ne_of_gt ?_
    have : (1 : ℝ) ≤ (2 * π / 5) ^ 2 := by nlinarith
    norm_num
    linarith

/-- The hypotheses of `C119_crossing` can be met: the same orbit a quarter of a period before the transit. -/
example (C : Consts) {o : Orbit} (h : keplerianInit C (inclArgs edgeOnPars) = .ok o) (op : FlOp) (j : DelayPar) :
    (xGraph (newTimeGraph C (-1.25))).back op (fun i => .fin (edgeOnPars i)) (.fin 1) j = .nan := by
  have hpi := pi_pos
  refine (C119_crossing C h (by norm_num [edgeOnPars]) (by norm_num [edgeOnPars]) _ ?_ op _ j).1
  rw [now_real h (fun _ _ => 0)]
  simp only [zGraph, anomalyGraph, trefGraph, nGraph, Graph.real, edgeOnPars, sin_pi_div_two]
  rw [show (-1.25 - 0 - (0 - 0.5 * π / (2 * π / 5) - 0)) * (2 * π / 5) = 0 by field_simp; norm_num, sin_zero]
  norm_num

/-- There are orbits for all parameters. -/
example (C : Consts) : ∃ o : (DelayPar → ℝ) → Orbit, ∀ q, keplerianInit C (inclArgs q) = .ok (o q) :=
  ⟨fun q => (inclArgs_ok C q).choose, fun q => (inclArgs_ok C q).choose_spec.1⟩

end Exo
