import Verif.Props.Geometry
import Verif.Props.Kinematics
import Verif.Props.Conjunction
import Verif.Spec.Conventions

/-!
# C101: the orbital conventions of the documentation
-/

namespace Exo
open Real Matrix

namespace Built
variable {C : Consts} {A : Args} {o : Orbit} (B : Built C A o)
include B

/-- The code's true anomaly is the true anomaly. -/
theorem trueAnomaly_of (hp : o.Physical) {t f : ℝ} (h : IsTrueAnomaly o t f) : o.trueAnomaly t = (sin f, cos f) := by
  obtain ⟨E, hE, hc, hs⟩ := h
  have hM : o.meanAnom t = E - o.eccVal * sin E := by
    rw [hE, B.meanAnom_eq, B.n_eq]; ring
  have hu : eccAnomaly o.eccVal (o.meanAnom t) = E := eccAnomaly_unique hp.eccOk.nonneg hp.eccOk.lt_one hM.symm
  rw [Orbit.trueAnomaly_eq, keplerOp, hu, hc, hs]

theorem position_documented (hp : o.Physical) {t f w : ℝ} (hf : IsTrueAnomaly o t f) (hw : IsOmega o w) (a : ℝ) :
    (o.positionNow C a t none).vec = documentedRotation o.nodeAngle o.incl w *ᵥ perifocal a o.eccVal f := by
  have hcw : o.cw = cos w := hw.1.symm
  have hsw : o.sw = sin w := hw.2.symm
  have : o.positionNow C a t none = o.rotate (o.radius a (cos f) * cos f) (o.radius a (cos f) * sin f) := by
    unfold Orbit.positionNow
    rw [B.trueAnomaly_of hp hf]
  rw [this, Orbit.rotate_eq, Orbit.radius_eq, o.cW_eq, o.sW_eq, hcw, hsw, B.cos_incl_eq hp.cos_incl_abs, B.sin_incl_eq]
  ext k
  fin_cases k <;>
    simp [V3.vec, documentedRotation, perifocal, rotX, rotZ, Matrix.mul_apply, Matrix.mulVec, dotProduct, Fin.sum_univ_succ] <;> ring

end Built

theorem perifocal_half_turn (W i w a e f : ℝ) :
    documentedRotation W i (w + π) *ᵥ perifocal a e f = documentedRotation W i w *ᵥ perifocal (-a) e f := by
  ext k
  fin_cases k <;>
    simp [documentedRotation, perifocal, rotX, rotZ, Matrix.mul_apply, Matrix.mulVec, dotProduct, Fin.sum_univ_succ] <;> ring

/-- **C101** (positions): the documented chain of rotations, with the argument of periastron that was given, carries the perifocal
position of the *star* to the frame of the observer. The planet, and its position relative to the star, need the argument of periastron
increased by half a turn. -/
theorem C101_rotation_partial (C : Consts) (A : Args) (o : Orbit) (h : keplerianInit C A = .ok o) (hp : o.Physical) (t f w : ℝ)
    (hf : IsTrueAnomaly o t f) (hw : IsOmega o w) :
    (o.starPosition C t).vec = documentedRotation (o.Omega.getD 0) o.incl w *ᵥ
      perifocal (o.a * o.m_planet / (o.m_star + o.m_planet)) o.eccVal f ∧
    (o.planetPosition C t).vec = documentedRotation (o.Omega.getD 0) o.incl (w + π) *ᵥ
      perifocal (o.a * o.m_star / (o.m_star + o.m_planet)) o.eccVal f ∧
    (o.relativePosition C t).vec = documentedRotation (o.Omega.getD 0) o.incl (w + π) *ᵥ perifocal o.a o.eccVal f := by
  have B := built_of_init h
  have key := fun a => B.position_documented hp hf hw a
  refine ⟨?_, ?_, ?_⟩
  · rw [← B.m_total_eq, ← B.a_star_eq]; exact key _
  · rw [perifocal_half_turn, ← B.m_total_eq, ← neg_div, ← neg_mul, ← B.a_planet_eq]; exact key _
  · rw [perifocal_half_turn]; exact key _

/-- **C101** (the simplified formulas of the documentation, for the position of the planet relative to the star). -/
theorem C101_formulas_partial (C : Consts) (A : Args) (o : Orbit) (h : keplerianInit C A = .ok o) (hp : o.Physical) (t f w W : ℝ)
    (hf : IsTrueAnomaly o t f) (hw : IsOmega o (w - π)) (hW : o.Omega = some W) :
    o.relativePosition C t =
      ⟨o.a * (1 - o.eccVal ^ 2) / (1 + o.eccVal * cos f) * (cos W * cos (w + f) - sin W * sin (w + f) * cos o.incl),
       o.a * (1 - o.eccVal ^ 2) / (1 + o.eccVal * cos f) * (sin W * cos (w + f) + cos W * sin (w + f) * cos o.incl),
       -(o.a * (1 - o.eccVal ^ 2) / (1 + o.eccVal * cos f) * sin (w + f) * sin o.incl)⟩ := by
  have B := built_of_init h
  have hcw : o.cw = -cos w := by rw [← cos_sub_pi]; exact hw.1.symm
  have hsw : o.sw = -sin w := by rw [← sin_sub_pi]; exact hw.2.symm
  have : o.relativePosition C t = o.rotate (o.radius (-o.a) (cos f) * cos f) (o.radius (-o.a) (cos f) * sin f) := by
    change o.positionNow C (-o.a) t none = _
    unfold Orbit.positionNow
    rw [B.trueAnomaly_of hp hf]
  rw [this, Orbit.rotate_eq, Orbit.radius_eq, hcw, hsw, B.cos_incl_eq hp.cos_incl_abs, B.sin_incl_eq, cos_add, sin_add]
  simp only [Orbit.cW, Orbit.sW, hW]
  congr 1 <;> ring

/-- **C101** is false for the orbiting body with the argument of periastron as given: on no orbit and at no time is the planet where the
documented formula puts it. -/
theorem C101_planet_counterexample (C : Consts) (A : Args) (o : Orbit) (h : keplerianInit C A = .ok o) (hp : o.Physical) (t f w : ℝ)
    (hf : IsTrueAnomaly o t f) (hw : IsOmega o w) :
    (o.relativePosition C t).vec ≠ documentedRotation (o.Omega.getD 0) o.incl w *ᵥ perifocal o.a o.eccVal f := by
  have B := built_of_init h
  intro he
  have h1 := (C101_rotation_partial C A o h hp t f w hf hw).2.2
  have h2 : documentedRotation (o.Omega.getD 0) o.incl (w + π) *ᵥ perifocal o.a o.eccVal f =
      -(documentedRotation (o.Omega.getD 0) o.incl w *ᵥ perifocal o.a o.eccVal f) := by
    rw [perifocal_half_turn, ← Matrix.mulVec_neg]
    congr 1
    ext k
    fin_cases k <;> simp [perifocal] <;> ring
  rw [h2, ← he] at h1
  have hx := congrFun h1 0
  have hy := congrFun h1 1
  have hz := congrFun h1 2
  simp only [V3.vec, Matrix.cons_val_zero, Matrix.cons_val_one, Matrix.cons_val, Pi.neg_apply] at hx hy hz
  have hn := relativePosition_norm B hp t
  have h0 : (o.relativePosition C t).norm = 0 := by
    unfold V3.norm V3.normSq
    rw [show (o.relativePosition C t).x = 0 by linarith, show (o.relativePosition C t).y = 0 by linarith,
      show (o.relativePosition C t).z = 0 by linarith]
    simp
  rw [hn] at h0
  have := mul_pos hp.a_pos (hp.eccOk.dpos t)
  linarith

/-! ## Nodes -/

/-- At a node. -/
theorem node_aux {C : Consts} {A : Args} {o : Orbit} (B : Built C A o) (hp : o.Physical) (hi : 0 < o.sin_incl) {a m : ℝ} (ha : a ≠ 0)
    (hK : o.K0 * m * o.se = o.n * a) (t : ℝ) (hz : (o.positionNow C a t none).z = 0) :
    ∃ ρ, (o.positionNow C a t none).x = ρ * cos o.nodeAngle ∧ (o.positionNow C a t none).y = ρ * sin o.nodeAngle ∧
      ρ * (o.velocity m t).z < 0 := by
  have hd := hp.eccOk.dpos t
  have hs := hp.eccOk.se_sq
  have hse := hp.eccOk.se_pos
  have h2 := sin_sq_add_cos_sq (o.E t)
  have hn : 0 < o.n := by rw [B.n_eq]; exact div_pos (by positivity) hp.period_pos
  have hu := hp.omega_sq
  rw [Orbit.positionNow_eq hp.eccOk, Orbit.rotate_eq] at hz ⊢
  rw [Orbit.velocity_anom hp.eccOk, Orbit.rotate_eq]
  simp only at hz ⊢
  rw [← o.cW_eq, ← o.sW_eq]
  set X := a * (cos (o.E t) - o.eccVal) with hX
  set Y := a * (o.se * sin (o.E t)) with hY
  set VX := -(o.K0 * m) * o.se * sin (o.E t) / (1 - o.eccVal * cos (o.E t)) with hVX
  set VY := o.K0 * m * (1 - o.eccVal ^ 2) * cos (o.E t) / (1 - o.eccVal * cos (o.E t)) with hVY
  have hL : X * VY - Y * VX = o.n * a ^ 2 * o.se := by
    have e1 : o.K0 * m * o.se ^ 2 = o.n * a * o.se := by rw [← hK]; ring
    have e2 : -(o.K0 * m) * o.se = -(o.n * a) := by rw [← hK]; ring
    rw [hX, hY, hVX, hVY, ← hs, e1, e2, mul_div_assoc', mul_div_assoc', ← sub_div, div_eq_iff hd.ne']
    linear_combination (o.n * a ^ 2 * o.se) * h2
  have hzero : o.sw * X + o.cw * Y = 0 := by
    rcases mul_eq_zero.1 hz with h | h
    · linarith
    · exact h
  refine ⟨o.cw * X - o.sw * Y, ?_, ?_, ?_⟩
  · rw [hzero]; ring
  · rw [hzero]; ring
  · have e : (o.cw * X - o.sw * Y) * (o.sw * VX + o.cw * VY) = o.n * a ^ 2 * o.se := by
      rw [← hL]
      linear_combination (X * VY - Y * VX) * hu + (o.cw * VX - o.sw * VY) * hzero
    have : 0 < o.n * a ^ 2 * o.se := by positivity
    nlinarith

theorem node_iff {C : Consts} {A : Args} {o : Orbit} (B : Built C A o) (hp : o.Physical) (hi : 0 < o.sin_incl) {a m : ℝ} (ha : a ≠ 0)
    (hK : o.K0 * m * o.se = o.n * a) (t : ℝ) (hz : (o.positionNow C a t none).z = 0) :
    (AtAscendingNode (o.positionNow C a t none) (o.velocity m t) ↔ AtPositionAngle o.nodeAngle (o.positionNow C a t none)) ∧
    (AtDescendingNode (o.positionNow C a t none) (o.velocity m t) ↔
      AtPositionAngle (o.nodeAngle + π) (o.positionNow C a t none)) := by
  obtain ⟨ρ, hx, hy, hv⟩ := node_aux B hp hi ha hK t hz
  have h2 := sin_sq_add_cos_sq o.nodeAngle
  constructor
  · constructor
    · rintro ⟨-, h⟩
      exact ⟨ρ, by nlinarith, hx, hy⟩
    · rintro ⟨ρ', h', hx', hy'⟩
      have : ρ = ρ' := by
        rw [hx'] at hx; rw [hy'] at hy
        linear_combination (-(ρ - ρ')) * h2 - cos o.nodeAngle * hx - sin o.nodeAngle * hy
      subst this
      exact ⟨hz, by nlinarith⟩
  · unfold AtPositionAngle
    simp only [cos_add_pi, sin_add_pi]
    constructor
    · rintro ⟨-, h⟩
      exact ⟨-ρ, by nlinarith, by rw [hx]; ring, by rw [hy]; ring⟩
    · rintro ⟨ρ', h', hx', hy'⟩
      have : ρ = -ρ' := by
        rw [hx'] at hx; rw [hy'] at hy
        linear_combination (-(ρ + ρ')) * h2 - cos o.nodeAngle * hx - sin o.nodeAngle * hy
      exact ⟨hz, by subst this; nlinarith⟩

/-- **C101** (line of nodes): when a body crosses the plane of the sky, it is at position angle `Ω` if it moves away from the observer
(the ascending node of the documentation) and on the opposite side if it moves towards the observer. This holds for the planet relative to
the star, for the planet, and for a star with a companion that has mass. -/
theorem C101_nodes (C : Consts) (A : Args) (o : Orbit) (h : keplerianInit C A = .ok o) (hp : o.Physical) (hi : 0 < o.sin_incl) (t : ℝ) :
    ((o.relativePosition C t).z = 0 →
      (AtAscendingNode (o.relativePosition C t) (o.relativeVelocity t) ↔ AtPositionAngle (o.Omega.getD 0) (o.relativePosition C t)) ∧
      (AtDescendingNode (o.relativePosition C t) (o.relativeVelocity t) ↔
        AtPositionAngle (o.Omega.getD 0 + π) (o.relativePosition C t))) ∧
    ((o.planetPosition C t).z = 0 →
      (AtAscendingNode (o.planetPosition C t) (o.planetVelocity t) ↔ AtPositionAngle (o.Omega.getD 0) (o.planetPosition C t)) ∧
      (AtDescendingNode (o.planetPosition C t) (o.planetVelocity t) ↔
        AtPositionAngle (o.Omega.getD 0 + π) (o.planetPosition C t))) ∧
    (0 < o.m_planet → (o.starPosition C t).z = 0 →
      (AtAscendingNode (o.starPosition C t) (o.starVelocity t) ↔ AtPositionAngle (o.Omega.getD 0) (o.starPosition C t)) ∧
      (AtDescendingNode (o.starPosition C t) (o.starVelocity t) ↔
        AtPositionAngle (o.Omega.getD 0 + π) (o.starPosition C t))) := by
  have B := built_of_init h
  have hm := B.m_total_pos hp
  refine ⟨fun hz => node_iff B hp hi (neg_ne_zero.2 hp.a_pos.ne') (B.K_rel hp) t hz, fun hz => node_iff B hp hi ?_ (B.K_planet hp) t hz,
    fun hpl hz => node_iff B hp hi ?_ (B.K_star hp) t hz⟩
  · rw [B.a_planet_eq]
    exact div_ne_zero (mul_ne_zero (neg_ne_zero.2 hp.a_pos.ne') hp.m_star_pos.ne') hm.ne'
  · rw [B.a_star_eq]
    exact div_ne_zero (mul_ne_zero hp.a_pos.ne' hpl.ne') hm.ne'

/-- **C101** (inclination): the angular momentum of the relative motion has the length `√(G M a (1 - e²))`, its component towards the
observer is this times `cos i`, and it is perpendicular to the line of nodes. With `i = 0` the planet therefore runs from north to east,
counter-clockwise on the sky. -/
theorem C101_inclination (C : Consts) (A : Args) (o : Orbit) (h : keplerianInit C A = .ok o) (hp : o.Physical) (t : ℝ) :
    (o.relativePosition C t).cross (o.relativeVelocity t) =
      V3.smul √(C.G * (o.m_star + o.m_planet) * o.a * (1 - o.eccVal ^ 2))
        ⟨-(sin o.incl * sin (o.Omega.getD 0)), sin o.incl * cos (o.Omega.getD 0), cos o.incl⟩ := by
  have B := built_of_init h
  have hs := hp.eccOk.se_sq
  have hse := hp.eccOk.se_pos
  have hK := B.K_rel hp
  have hu := hp.omega_sq
  have hd := (hp.eccOk.dpos t).ne'
  have h2 := sin_sq_add_cos_sq (o.E t)
  have hn : 0 < o.n := by rw [B.n_eq]; exact div_pos (by positivity) hp.period_pos
  have ha := hp.a_pos
  have key : (o.relativePosition C t).cross (o.relativeVelocity t) =
      ((o.rotate 1 0).cross (o.rotate 0 1)).smul (o.n * o.a ^ 2 * o.se) := by
    change (o.positionNow C (-o.a) t none).cross (o.velocity (-o.m_total) t) = _
    rw [Orbit.positionNow_eq hp.eccOk, Orbit.velocity_anom hp.eccOk, cross_rotate]
    congr 1
    rw [← hs]
    have e1 : o.K0 * -o.m_total * o.se ^ 2 = -(o.n * o.a) * o.se := by rw [← mul_neg, ← hK]; ring
    have e2 : -(o.K0 * -o.m_total) * o.se = o.n * o.a := by linarith
    rw [e1, e2, mul_div_assoc', mul_div_assoc', ← sub_div, div_eq_iff hd]
    linear_combination (o.n * o.a ^ 2 * o.se) * h2
  have hlen : √(C.G * (o.m_star + o.m_planet) * o.a * (1 - o.eccVal ^ 2)) = o.n * o.a ^ 2 * o.se := by
    rw [← B.m_total_eq, ← B.third_law hp, ← hs, show o.n ^ 2 * o.a ^ 3 * o.a * o.se ^ 2 = (o.n * o.a ^ 2 * o.se) ^ 2 by ring,
      sqrt_sq (by positivity)]
  rw [key, hlen]
  congr 1
  have hW := o.Omega_sq
  rw [show o.Omega.getD 0 = o.nodeAngle from rfl, ← o.cW_eq, ← o.sW_eq, ← B.cos_incl_eq hp.cos_incl_abs, ← B.sin_incl_eq]
  simp only [Orbit.rotate_eq, V3.cross]
  congr 1
  · linear_combination (-(o.sin_incl * o.sW)) * hu
  · linear_combination (o.sin_incl * o.cW) * hu
  · linear_combination (o.cos_incl) * hu + (o.cos_incl * (o.sw ^ 2 + o.cw ^ 2)) * hW

/-- **C101** (sense of rotation): seen face-on, the planet runs counter-clockwise, from north to east. -/
theorem C101_counterclockwise (C : Consts) (A : Args) (o : Orbit) (h : keplerianInit C A = .ok o) (hp : o.Physical) (hi : o.incl = 0)
    (t : ℝ) : 0 < (o.relativePosition C t).x * (o.relativeVelocity t).y - (o.relativePosition C t).y * (o.relativeVelocity t).x := by
  have hz := congrArg V3.z (C101_inclination C A o h hp t)
  simp only [V3.cross, V3.smul, hi, cos_zero, mul_one] at hz
  rw [hz]
  have := hp.eccOk.ome2_pos
  have := hp.a_pos
  have := C.G_pos
  have : 0 < o.m_star + o.m_planet := by linarith [hp.m_star_pos, hp.m_planet_nonneg]
  positivity

/-! ## The hypotheses can be met -/

/-- Every time has a true anomaly and every orbit an argument of periastron. -/
theorem conventions_nonvacuous (C : Consts) (A : Args) (o : Orbit) (h : keplerianInit C A = .ok o) (hp : o.Physical) (t : ℝ) :
    (∃ f, IsTrueAnomaly o t f) ∧ ∃ w, IsOmega o w := by
  have B := built_of_init h
  constructor
  · obtain ⟨hc, hs⟩ := arctan2_cos_sin (keplerOp_sq hp.eccOk.nonneg hp.eccOk.lt_one (o.meanAnom t))
    refine ⟨arctan2 (keplerOp (o.meanAnom t) o.eccVal).1 (keplerOp (o.meanAnom t) o.eccVal).2, o.E t, ?_, hc, hs⟩
    have := keplerMap_eccAnomaly hp.eccOk.nonneg (o.meanAnom t)
    refine Eq.trans this ?_
    rw [B.meanAnom_eq, B.n_eq]
    ring
  · obtain ⟨hc, hs⟩ := arctan2_cos_sin hp.omega_sq
    exact ⟨arctan2 o.sw o.cw, hc, hs⟩

/-- An orbit whose planet is at a node: `demoEcc` at the periastron. -/
example (C : Consts) : ∃ A o t, keplerianInit C A = .ok o ∧ o.Physical ∧ 0 < o.sin_incl ∧ o.Omega = some 1 ∧
    AtDescendingNode (o.relativePosition C t) (o.relativeVelocity t) := by
  obtain ⟨o, h, hp, ha, hP, hr, hb, ht, hm, hO, p, he, e1, e2, e3, e4⟩ := demoEcc_ok C
  have B := built_of_init h
  have hi : 0 < o.sin_incl := by
    cases h
    simp only
    rw [sin_arccos]
    apply sqrt_pos.2
    simp [inclFactorOf]
    norm_num
  have hE := B.E_periastron hp
  have hsw : o.sw = 0 := by simp [Orbit.sw, he, e3]
  have hcw : o.cw = 1 := by simp [Orbit.cw, he, e4]
  have hev : o.eccVal = 1 / 2 := by simp [Orbit.eccVal, he, e1]
  have hx : o.relativePosition C o.t_periastron = o.positionNow C (-o.a) o.t_periastron none := rfl
  have hz : (o.relativePosition C o.t_periastron).z = 0 := by
    rw [hx, Orbit.positionNow_eq hp.eccOk, Orbit.rotate_eq, hE, hsw]
    simp
  refine ⟨_, o, o.t_periastron, h, hp, hi, hO, ((C101_nodes C _ o h hp hi o.t_periastron).1 hz).2.2 ⟨5, by norm_num, ?_, ?_⟩⟩
  · rw [hx, Orbit.positionNow_eq hp.eccOk, Orbit.rotate_eq, hE, hsw, hcw, ha, hev, o.cW_eq]
    simp only [Orbit.nodeAngle, cos_add_pi, cos_zero, sin_zero]
    ring
  · rw [hx, Orbit.positionNow_eq hp.eccOk, Orbit.rotate_eq, hE, hsw, hcw, ha, hev, o.sW_eq]
    simp only [Orbit.nodeAngle, sin_add_pi, cos_zero, sin_zero]
    ring

end Exo
