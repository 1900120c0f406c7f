import Verif.Spec.BackpropMotion
import Verif.Props.BackpropRv

/-!
# C134: gradients of positions, velocities and accelerations as the compiled graph computes them
-/

namespace Exo
open Real Function Topology

variable {C : Consts} {m : KepMode} {op : FlOp} {L : ℝ → ℝ → ℝ} {s : StarMode} {q : StarPar → ℝ}

theorem motion_fields {o : Orbit} (h : keplerianInit C (s.args m q) = .ok o) (L : ℝ → ℝ → ℝ) (t : ℝ) :
    o.trueAnomaly t = ((m.sinfG (s.parG C) (StarMode.clock t)).real L q, (m.cosfG (s.parG C) (StarMode.clock t)).real L q) ∧ o.K0 = (s.K0G C m).real L q ∧
      o.a_planet = (s.axisG C .planet).real L q ∧ o.a_star = (s.axisG C .star).real L q ∧ -o.a = (s.axisG C .relative).real L q ∧
      -o.m_star = (s.factorG C .planet).real L q ∧ o.m_planet = (s.factorG C .star).real L q ∧ -o.m_total = (s.factorG C .relative).real L q := by
  cases s <;> cases m <;> (obtain rfl := Except.ok.inj h; exact ⟨rfl, rfl, rfl, rfl, rfl, rfl, rfl, rfl⟩)

theorem motion_ecc {o : Orbit} (h : keplerianInit C (s.args m q) = .ok o) : o.Omega = none ∧ (match m with
    | .circular => o.ecc = none
    | .angle => ∃ p, o.ecc = some p ∧ p.ecc = q (.kep .ecc) ∧ p.cos_omega = cos (q (.kep .omega)) ∧ p.sin_omega = sin (q (.kep .omega))
    | .sincos => ∃ p, o.ecc = some p ∧ p.ecc = q (.kep .ecc) ∧ p.cos_omega = q (.kep .cos_omega) ∧ p.sin_omega = q (.kep .sin_omega)) := by
  cases s <;> cases m <;> (obtain rfl := Except.ok.inj h; first | exact ⟨rfl, rfl⟩ | exact ⟨rfl, _, rfl, rfl, rfl, rfl⟩)

theorem motion_incl {o : Orbit} (h : keplerianInit C (s.args m q) = .ok o) (L : ℝ → ℝ → ℝ) :
    o.cos_incl = (m.cosInclG (s.parG C)).real L q ∧ o.sin_incl = (m.sinInclG (s.parG C)).real L q := by
  cases s <;> cases m <;> (obtain rfl := Except.ok.inj h; exact ⟨rfl, rfl⟩)

theorem motionG_real {o : Orbit} (h : keplerianInit C (s.args m q) = .ok o) (L : ℝ → ℝ → ℝ) (b : Body) (k : Motion) (c : Coord) (t : ℝ) :
    c.of (o.motion C t b k) = (s.motionG C m b k c t).real L q := by
  obtain ⟨hf, hK, h1, h2, h3, h4, h5, h6⟩ := motion_fields h L t
  obtain ⟨hW, he⟩ := motion_ecc h
  obtain ⟨hc, hs⟩ := motion_incl h L
  have hr : ∀ x y : Graph StarPar, c.of (o.rotate (x.real L q) (y.real L q)) = (s.rotateG C m x y c).real L q := by
    intro x y
    cases m with
    | circular => cases c <;> simp only [Orbit.rotate, hW, he, Coord.of, hc, hs] <;> rfl
    | angle => obtain ⟨p, he, -, e1, e2⟩ := he; cases c <;> simp only [Orbit.rotate, hW, he, Coord.of, hc, hs, e1, e2] <;> rfl
    | sincos => obtain ⟨p, he, -, e1, e2⟩ := he; cases c <;> simp only [Orbit.rotate, hW, he, Coord.of, hc, hs, e1, e2] <;> rfl
  have hP : ∀ b, c.of (o.positionNow C ((s.axisG C b).real L q) t none) = (s.motionG C m b .position c t).real L q := by
    intro b
    refine Eq.trans ?_ (hr _ _)
    cases m with
    | circular => simp only [Orbit.positionNow, Orbit.radius, he, hf]; rfl
    | angle => obtain ⟨p, he, e, -⟩ := he; simp only [Orbit.positionNow, Orbit.radius, he, hf, e]; rfl
    | sincos => obtain ⟨p, he, e, -⟩ := he; simp only [Orbit.positionNow, Orbit.radius, he, hf, e]; rfl
  have hV : ∀ b, c.of (o.velocity ((s.factorG C b).real L q) t) = (s.motionG C m b .velocity c t).real L q := by
    intro b
    refine Eq.trans ?_ (hr _ _)
    cases m with
    | circular => simp only [Orbit.velocity, he, hf, hK]; rfl
    | angle => obtain ⟨p, he, e, -⟩ := he; simp only [Orbit.velocity, he, hf, e, hK]; rfl
    | sincos => obtain ⟨p, he, e, -⟩ := he; simp only [Orbit.velocity, he, hf, e, hK]; rfl
  have hA : ∀ b, c.of (o.acceleration ((s.axisG C b).real L q) ((s.factorG C b).real L q) t) = (s.motionG C m b .acceleration c t).real L q := by
    intro b
    refine Eq.trans ?_ (hr _ _)
    cases m with
    | circular => simp only [Orbit.acceleration, he, hf, hK]; rfl
    | angle => obtain ⟨p, he, e, -⟩ := he; simp only [Orbit.acceleration, he, hf, e, hK]; rfl
    | sincos => obtain ⟨p, he, e, -⟩ := he; simp only [Orbit.acceleration, he, hf, e, hK]; rfl
  have hp : ∀ a, o.position C a t none false = o.positionNow C a t none := fun a => by simp [Orbit.position]
  cases k with
  | position => cases b <;> simp only [Orbit.motion, Orbit.planetPosition, Orbit.starPosition, Orbit.relativePosition, hp, h1, h2, h3, hP]
  | velocity => cases b <;> simp only [Orbit.motion, Orbit.planetVelocity, Orbit.starVelocity, Orbit.relativeVelocity, h4, h5, h6, hV]
  | acceleration => cases b <;> simp only [Orbit.motion, Orbit.planetAcceleration, Orbit.starAcceleration, Orbit.relativeAcceleration, h1, h2, h3, h4, h5, h6, hA]

theorem axisG_regular (hq : s.Possible m q) (b : Body) : (s.axisG C b).Regular L op q := by
  have hm := mStarG_regular (C := C) (L := L) (op := op) hq
  have ha := (aG_regular (C := C) (L := L) (op := op) hq).1
  cases b with
  | planet => exact ⟨⟨ha, hm.1⟩, ⟨hm.1, trivial⟩, hm.2.ne'⟩
  | star => exact ⟨⟨ha, trivial⟩, ⟨hm.1, trivial⟩, hm.2.ne'⟩
  | relative => exact ha

theorem axisG_ne (hq : s.Possible m q) {o : Orbit} (h : keplerianInit C (s.args m q) = .ok o) {b : Body} (hb : o.Moves b) : (s.axisG C b).real L q ≠ 0 := by
  have hm := mStarG_regular (C := C) (L := L) (op := exactOp 0 0) hq
  have ha := (aG_regular (C := C) (L := L) (op := exactOp 0 0) hq).2
  have e : o.m_star = (s.mStarG C).real L q ∧ o.m_planet = q .m_planet := by
    cases s <;> cases m <;> (obtain rfl := Except.ok.inj h; exact ⟨rfl, rfl⟩)
  cases b with
  | planet =>
    have hb : o.m_star ≠ 0 := hb
    rw [e.1] at hb
    exact div_ne_zero (mul_ne_zero (neg_ne_zero.2 ha.ne') hb) hm.2.ne'
  | star =>
    have hb : o.m_planet ≠ 0 := hb
    rw [e.2] at hb
    exact div_ne_zero (mul_ne_zero ha.ne' hb) hm.2.ne'
  | relative => exact neg_ne_zero.2 ha.ne'

theorem amplitudeG_regular (hq : s.Possible m q) (b : Body) : (s.amplitudeG C m b).Regular L op q := by
  have hP := starPar_regular (C := C) (L := L) (op := op) hq
  have hp := starPar_possible (C := C) (L := L) hq
  have hm := mStarG_regular (C := C) (L := L) (op := op) hq
  have hK1 : (Graph.div (.mul (KepMode.nG (s.parG C)) (s.aG C)) (s.mTotalG C)).Regular L op q := ⟨⟨nG_regular hP hp, hP .a⟩, ⟨hm.1, trivial⟩, hm.2.ne'⟩
  have ho2 := fun h => ome2_pos hp h
  refine ⟨?_, ?_⟩
  · cases m with
    | circular => exact hK1
    | angle => exact ⟨hK1, ⟨⟨trivial, trivial⟩, ho2 nofun⟩, (sqrt_pos.2 (ho2 nofun)).ne'⟩
    | sincos => exact ⟨hK1, ⟨⟨trivial, trivial⟩, ho2 nofun⟩, (sqrt_pos.2 (ho2 nofun)).ne'⟩
  · cases b with
    | planet => exact hm.1
    | star => trivial
    | relative => exact ⟨hm.1, trivial⟩

theorem distanceG_regular (hk : op.ExactKepler) (hq : s.Possible m q) (b : Body) (t : ℝ) : (s.distanceG C m b t).Regular L op q := by
  have hP := starPar_regular (C := C) (L := L) (op := op) hq
  have hp := starPar_possible (C := C) (L := L) hq
  have hc := (anomaly_regular hk hP (starClock_regular t) hp).2
  have ha := axisG_regular (C := C) (L := L) (op := op) hq b
  cases m with
  | circular => exact ha
  | angle =>
    obtain ⟨h0, h1⟩ := hp.ecc nofun
    exact ⟨⟨ha, trivial, trivial⟩, ⟨trivial, trivial, hc⟩, (keplerOp_conic h0 h1 _).ne'⟩
  | sincos =>
    obtain ⟨h0, h1⟩ := hp.ecc nofun
    exact ⟨⟨ha, trivial, trivial⟩, ⟨trivial, trivial, hc⟩, (keplerOp_conic h0 h1 _).ne'⟩

theorem pullG_regular (hk : op.ExactKepler) (hq : s.Possible m q) {b : Body} (hb : (s.axisG C b).real L q ≠ 0) (t : ℝ) : (s.pullG C m b t).Regular L op q := by
  have hP := starPar_regular (C := C) (L := L) (op := op) hq
  have hp := starPar_possible (C := C) (L := L) hq
  have hc := (anomaly_regular hk hP (starClock_regular t) hp).2
  have ha := axisG_regular (C := C) (L := L) (op := op) hq b
  have hK := amplitudeG_regular (C := C) (L := L) (op := op) hq b
  cases m with
  | circular => exact ⟨hK, ha, hb⟩
  | angle => exact ⟨⟨hK, ⟨trivial, hc⟩, trivial⟩, ⟨ha, trivial, trivial⟩, mul_ne_zero hb (by have := ome2_pos hp nofun; simp only [Graph.real]; intro h; simp only [StarMode.parG, Graph.real] at this; linarith)⟩
  | sincos => exact ⟨⟨hK, ⟨trivial, hc⟩, trivial⟩, ⟨ha, trivial, trivial⟩, mul_ne_zero hb (by have := ome2_pos hp nofun; simp only [Graph.real]; intro h; simp only [StarMode.parG, Graph.real] at this; linarith)⟩

theorem rotateG_regular (hq : s.Possible m q) {x y : Graph StarPar} (hx : x.Regular L op q) (hy : y.Regular L op q) {c : Coord}
    (hi : c = .z → |(m.cosInclG (s.parG C)).real L q| < 1) : (s.rotateG C m x y c).Regular L op q := by
  have hP := starPar_regular (C := C) (L := L) (op := op) hq
  have hp := starPar_possible (C := C) (L := L) hq
  have hc := cosInclG_regular (L := L) hP hp
  have hw := omega_regular (m := m) hP
  cases c with
  | x => cases m with
    | circular => exact hx
    | angle => exact ⟨⟨hw.1, hx⟩, hw.2, hy⟩
    | sincos => exact ⟨⟨hw.1, hx⟩, hw.2, hy⟩
  | y =>
    refine ⟨hc, ?_⟩
    cases m with
    | circular => exact hy
    | angle => exact ⟨⟨hw.2, hx⟩, hw.1, hy⟩
    | sincos => exact ⟨⟨hw.2, hx⟩, hw.1, hy⟩
  | z =>
    refine ⟨⟨hc, hi rfl⟩, ?_⟩
    cases m with
    | circular => exact hy
    | angle => exact ⟨⟨hw.2, hx⟩, hw.1, hy⟩
    | sincos => exact ⟨⟨hw.2, hx⟩, hw.1, hy⟩

/-- **C134 (what holds).** With exact operations the positions, velocities and accelerations of the planet, of the star and of the planet relative to the star, and their computed
derivatives with respect to all parameters, also the masses, are the true ones, except accelerations of a body that does not move because the other one has no mass, and the
components along the line of sight of an orbit that is seen face-on. -/
theorem C134_partial (hk : op.ExactKepler) (hq : s.Possible m q) (o : (StarPar → ℝ) → Orbit) (ho : ∀ q, keplerianInit C (s.args m q) = .ok (o q)) (b : Body) (k : Motion) (c : Coord)
    (t : ℝ) (hi : c = .z → |(o q).cos_incl| < 1) (hb : k = .acceleration → (o q).Moves b) :
    GradientRight op (s.motionG C m b k c t) (fun q => c.of ((o q).motion C t b k)) q := by
  set L : ℝ → ℝ → ℝ := fun _ _ => 0
  refine GradientRight.of_regular (L := L) ?_ fun q => motionG_real (ho q) L b k c t
  have hP := starPar_regular (C := C) (L := L) (op := op) hq
  have hp := starPar_possible (C := C) (L := L) hq
  obtain ⟨hs, hc⟩ := anomaly_regular hk hP (starClock_regular t) hp
  have hK := amplitudeG_regular (C := C) (L := L) (op := op) hq b
  have hr := distanceG_regular (C := C) (L := L) hk hq b t
  rw [(starGraph_real (ho q) L t).2.1] at hi
  cases k with
  | position => exact rotateG_regular (x := .mul _ _) (y := .mul _ _) hq ⟨hr, hc⟩ ⟨hr, hs⟩ hi
  | velocity =>
    refine rotateG_regular (x := .mul (.neg _) _) hq ⟨hK, hs⟩ ?_ hi
    cases m with
    | circular => exact ⟨hK, hc⟩
    | angle => exact ⟨hK, hc, trivial⟩
    | sincos => exact ⟨hK, hc, trivial⟩
  | acceleration =>
    have hf := pullG_regular (C := C) (L := L) hk hq (axisG_ne hq (ho q) (hb rfl)) t
    exact rotateG_regular (x := .mul _ _) (y := .mul _ _) hq ⟨hf, hc⟩ ⟨hf, hs⟩ hi

/-! ## The acceleration of the star of a planet without a mass -/

/-- Without a mass of the planet, which is what the constructor assumes by default, the star does not move. -/
theorem C134_rest {o : Orbit} (h : keplerianInit C (s.args m q) = .ok o) (h0 : q .m_planet = 0) (t : ℝ) :
    o.starPosition C t = ⟨0, 0, 0⟩ ∧ o.starVelocity t = ⟨0, 0, 0⟩ := by
  have e : o.a_star = 0 ∧ o.m_planet = 0 := by
    cases s <;> cases m <;> (obtain rfl := Except.ok.inj h; refine ⟨?_, h0⟩; show _ * q .m_planet / _ = _; rw [h0]; simp)
  have e2 : o.Omega = none := by cases s <;> cases m <;> (obtain rfl := Except.ok.inj h; rfl)
  constructor
  · simp only [Orbit.starPosition, Orbit.position, Bool.false_eq_true, if_false, Orbit.positionNow, e.1, Orbit.radius, Orbit.rotate, e2]
    cases o.ecc <;> simp
  · simp only [Orbit.starVelocity, Orbit.velocity, e.2, Orbit.rotate, e2]
    cases o.ecc <;> simp

/-- The constructor is called without `m_planet`. -/
theorem C134_default (q : StarPar → ℝ) (h0 : q .m_planet = 0) : keplerianInit C { s.args m q with m_planet := none } = keplerianInit C (s.args m q) := by
  cases s <;> cases m <;> (simp only [StarMode.args, h0]; rfl)

theorem pullG_massless (hk : op.ExactKepler) (hq : s.Possible m q) (h0 : q .m_planet = 0) (t : ℝ) :
    (s.pullG C m .star t).value op (fun i => .fin (q i)) = .nan ∧ ∀ g : Fl, (s.pullG C m .star t).back op (fun i => .fin (q i)) g .m_planet = .nan := by
  set L : ℝ → ℝ → ℝ := fun _ _ => 0
  have hP := starPar_regular (C := C) (L := L) (op := op) hq
  have hp := starPar_possible (C := C) (L := L) hq
  have vc := (C118_backprop op L q _ (anomaly_regular hk hP (starClock_regular t) hp).2).1
  have va := (C118_backprop op L q _ (axisG_regular (C := C) (L := L) (op := op) hq .star)).1
  have vK := (C118_backprop op L q _ (amplitudeG_regular (C := C) (L := L) (op := op) hq .star)).1
  have ea : (s.axisG C .star).real L q = 0 := by show _ * q .m_planet / _ = 0; rw [h0]; simp
  have eK : (s.amplitudeG C m .star).real L q = 0 := by show _ * q .m_planet = 0; rw [h0]; simp
  rw [ea] at va
  rw [eK] at vK
  have h00 : (Fl.fin 0 / Fl.fin 0 : Fl) = .nan := by show Fl.div _ _ = _; simp [Fl.div]
  have hn : (s.axisG C .star).back op (fun i => .fin (q i)) .nan .m_planet = .nan := by
    simp [StarMode.axisG, Graph.back]
  have key : ∀ g : Fl, -(g * Fl.fin 0) / Fl.fin 0 = .nan := by
    intro g
    cases g with
    | fin x => simp [h00]
    | nan => rfl
    | inf n =>
      have : (Fl.inf n * Fl.fin 0 : Fl) = .nan := by show Fl.mul _ _ = _; simp [Fl.mul]
      rw [this]; rfl
  cases m with
  | circular =>
    refine ⟨?_, fun g => ?_⟩
    · simp only [StarMode.pullG, Graph.value, va, vK]; simp [h00]
    · simp only [StarMode.pullG, Graph.back, Graph.value, va, vK]; simp [key, hn]
  | angle =>
    refine ⟨?_, fun g => ?_⟩
    · simp only [StarMode.pullG, Graph.value, va, vK, vc]; simp [h00]
    · simp only [StarMode.pullG, Graph.back, Graph.value, va, vK, vc]; simp [key, hn]
  | sincos =>
    refine ⟨?_, fun g => ?_⟩
    · simp only [StarMode.pullG, Graph.value, va, vK, vc]; simp [h00]
    · simp only [StarMode.pullG, Graph.back, Graph.value, va, vK, vc]; simp [key, hn]

/-- **C134 (a planet without a mass).** The acceleration of the star is NaN at all times, and so is its computed derivative with respect to the mass of the planet: it divides the square
of the amplitude by the axis of the orbit of the star, and both are zero. -/
theorem C134_massless (hk : op.ExactKepler) (hq : s.Possible m q) (h0 : q .m_planet = 0) (c : Coord) (t : ℝ) :
    (s.motionG C m .star .acceleration c t).value op (fun i => .fin (q i)) = .nan ∧
      ∀ g : Fl, (s.motionG C m .star .acceleration c t).back op (fun i => .fin (q i)) g .m_planet = .nan := by
  obtain ⟨hv, hb⟩ := pullG_massless (C := C) hk hq h0 t
  cases m <;> cases c <;>
    simp [StarMode.motionG, StarMode.rotateG, StarMode.alongG, StarMode.acrossG, Graph.value, Graph.back, hv, hb]

/-! ## Examples -/

/-- The hypotheses of `C134_partial` can be met, with each combination of arguments, for everything that is not the acceleration of the star. -/
example (s : StarMode) (o : (StarPar → ℝ) → Orbit) (ho : ∀ q, keplerianInit C (s.args .circular q) = .ok (o q)) (b : Body) (k : Motion) (c : Coord) (t : ℝ)
    (hk : k ≠ .acceleration) : GradientRight (exactOp 0 0) (s.motionG C .circular b k c t) (fun q => c.of ((o q).motion C t b k)) (demoStar 0) :=
  C134_partial (exactOp_exact 0 0).2 (demoStar_possible _ _ _) o ho b k c t (fun _ => by rw [(starTransit (ho _)).2.1]; norm_num) fun h => absurd h hk

/-- The same orbits with a planet of a thousandth of the mass of the Sun. -/
noncomputable def demoHeavy (b : ℝ) : StarPar → ℝ := update (demoStar b) .m_planet 0.001

/-- The hypotheses of `C134_partial` can be met for the acceleration of the star, of an eccentric orbit. -/
example (o : (StarPar → ℝ) → Orbit) (ho : ∀ q, keplerianInit C (StarMode.axis.args .angle q) = .ok (o q)) (c : Coord) (t : ℝ) :
    GradientRight (exactOp 0 0) (StarMode.axis.motionG C .angle .star .acceleration c t) (fun q => c.of ((o q).starAcceleration t)) (demoHeavy 0) := by
  have hq : StarMode.axis.Possible .angle (demoHeavy 0) := by
    have h := demoStar_possible .axis .angle 0
    refine ⟨fun j hj => ?_, by norm_num [demoHeavy], h.r, h.ecc, h.omega⟩
    have := h.given j hj
    rcases hj with rfl | rfl | rfl <;> simpa [demoHeavy, update_of_ne] using this
  refine C134_partial (exactOp_exact 0 0).2 hq o ho .star .acceleration c t (fun _ => ?_) fun _ => ?_
  · rw [(motion_incl (ho _) (fun _ _ => 0)).1]
    simp [KepMode.cosInclG, Graph.real, StarMode.parG, demoHeavy, demoStar, demoKep]
  · rw [Except.ok.inj ((ho (demoHeavy 0)).symm.trans rfl)]
    show demoHeavy 0 .m_planet ≠ 0
    norm_num [demoHeavy]

/-- Concrete violation of C134, with each combination of arguments, circular or eccentric: without a mass of the planet the star is at rest, and its acceleration is NaN instead of zero. -/
theorem C134_counterexample (C : Consts) (s : StarMode) (m : KepMode) (o : (StarPar → ℝ) → Orbit) (ho : ∀ q, keplerianInit C (s.args m q) = .ok (o q)) :
    ∃ q : StarPar → ℝ, s.Possible m q ∧ keplerianInit C { s.args m q with m_planet := none } = .ok (o q) ∧
      (∀ (c : Coord) (t : ℝ), HasDerivAt (fun t => c.of ((o q).starVelocity t)) 0 t) ∧
      ∀ op : FlOp, op.ExactKepler → ∀ (c : Coord) (t : ℝ), (s.motionG C m .star .acceleration c t).value op (fun i => .fin (q i)) = .nan := by
  refine ⟨demoStar 0, demoStar_possible _ _ _, (C134_default _ rfl).trans (ho _), fun c t => ?_, fun op hk c t => (C134_massless hk (demoStar_possible _ _ _) rfl c t).1⟩
  have : (fun t => c.of ((o (demoStar 0)).starVelocity t)) = fun _ => 0 := by
    funext t
    rw [(C134_rest (ho (demoStar 0)) rfl t).2]
    cases c <;> rfl
  rw [this]
  exact hasDerivAt_const t 0

end Exo
