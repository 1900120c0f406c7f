import Verif.Props.Geometry

/-!
# C08-C14: velocities, accelerations, Newton's law, conservation laws
-/

namespace Exo
open Real

/-! ## C08 -/

/-- **C08** (velocities are the time derivatives of positions) for planet, star and relative motion. -/
theorem C08_velocity_is_derivative (C : Consts) (A : Args) (o : Orbit) (h : keplerianInit C A = .ok o)
    (hp : o.Physical) (t : ℝ) :
    HasVelocityAt (fun s => o.planetPosition C s) (o.planetVelocity t) t ∧
    HasVelocityAt (fun s => o.starPosition C s) (o.starVelocity t) t ∧
    HasVelocityAt (fun s => o.relativePosition C s) (o.relativeVelocity t) t := by
  have B := built_of_init h
  exact ⟨Orbit.hasVelocityAt_position hp.eccOk C B.hasDerivAt_warp (B.K_planet hp) t,
    Orbit.hasVelocityAt_position hp.eccOk C B.hasDerivAt_warp (B.K_star hp) t,
    Orbit.hasVelocityAt_position hp.eccOk C B.hasDerivAt_warp (B.K_rel hp) t⟩

/-! ## C09 -/

/-- **C09** (accelerations are the time derivatives of velocities) for planet and relative motion, and for the star when
the planet has mass (otherwise the star's semimajor axis is zero, and the code divides by it). -/
theorem C09_acceleration_is_derivative (C : Consts) (A : Args) (o : Orbit) (h : keplerianInit C A = .ok o)
    (hp : o.Physical) (t : ℝ) :
    HasVelocityAt (fun s => o.planetVelocity s) (o.planetAcceleration t) t ∧
    (0 < o.m_planet → HasVelocityAt (fun s => o.starVelocity s) (o.starAcceleration t) t) ∧
    HasVelocityAt (fun s => o.relativeVelocity s) (o.relativeAcceleration t) t := by
  have B := built_of_init h
  exact ⟨Orbit.hasVelocityAt_velocity hp.eccOk (B.a_planet_neg hp).ne B.hasDerivAt_warp (B.K_planet hp) t,
    fun hm => Orbit.hasVelocityAt_velocity hp.eccOk (B.a_star_pos hp hm).ne' B.hasDerivAt_warp (B.K_star hp) t,
    Orbit.hasVelocityAt_velocity hp.eccOk (neg_ne_zero.2 hp.a_pos.ne') B.hasDerivAt_warp (B.K_rel hp) t⟩

example (C : Consts) : ∃ A o, keplerianInit C A = .ok o ∧ o.Physical ∧ 0 < o.m_planet := by
  obtain ⟨o, h, hp, -, -, -, h5, -⟩ := demoMass_ok C
  exact ⟨demoMass, o, h, hp, by rw [h5]; norm_num⟩

/-! ## C10 -/

theorem relativeAcceleration_eq {C : Consts} {A : Args} {o : Orbit} (B : Built C A o) (hp : o.Physical) (t : ℝ) :
    o.relativeAcceleration t =
      (o.relativePosition C t).smul (-(C.G * o.m_total) / (o.relativePosition C t).norm ^ 3) := by
  rw [relativePosition_norm B hp]
  change o.acceleration (-o.a) (-o.m_total) t = (o.positionNow C (-o.a) t none).smul _
  rw [Orbit.positionNow_eq hp.eccOk, ← Orbit.rotate_smul, Orbit.acceleration_anom hp.eccOk]
  have hd := (hp.eccOk.dpos t).ne'
  have ha := hp.a_pos.ne'
  have hK := B.K_total hp
  have h3 := B.third_law hp
  have hs := hp.eccOk.se_sq
  have e : (o.K0 * -o.m_total) ^ 2 * (1 - o.eccVal ^ 2) = o.n ^ 2 * o.a ^ 2 := by
    rw [← hs]; linear_combination (o.K0 * o.m_total * o.se + o.n * o.a) * hK
  rw [neg_mul, e, ← h3]
  congr 1 <;> field_simp

/-- **C10** (Newton's law): the relative velocity is the derivative of the relative position, and the derivative of the
relative velocity is `-G (m_star + m_planet) x / |x|³`. -/
theorem C10_newton (C : Consts) (A : Args) (o : Orbit) (h : keplerianInit C A = .ok o) (hp : o.Physical) (t : ℝ) :
    (∀ s, HasVelocityAt (fun s => o.relativePosition C s) (o.relativeVelocity s) s) ∧
    HasVelocityAt (fun s => o.relativeVelocity s)
      ((o.relativePosition C t).smul
        (-(C.G * (o.m_star + o.m_planet)) / (o.relativePosition C t).norm ^ 3)) t ∧
    0 < (o.relativePosition C t).norm := by
  have B := built_of_init h
  refine ⟨fun s => (C08_velocity_is_derivative C A o h hp s).2.2, ?_, ?_⟩
  · rw [← B.m_total_eq, ← relativeAcceleration_eq B hp]
    exact (C09_acceleration_is_derivative C A o h hp t).2.2
  · rw [relativePosition_norm B hp]
    exact mul_pos hp.a_pos (hp.eccOk.dpos t)

/-! ## C11 -/

/-- **C11** (the barycentre is at rest and relative = planet - star). -/
theorem C11_barycentre (C : Consts) (A : Args) (o : Orbit) (h : keplerianInit C A = .ok o) (hp : o.Physical) (t : ℝ) :
    ((o.starPosition C t).smul o.m_star).add ((o.planetPosition C t).smul o.m_planet) = V3.zero ∧
    ((o.starVelocity t).smul o.m_star).add ((o.planetVelocity t).smul o.m_planet) = V3.zero ∧
    (0 < o.m_planet →
      ((o.starAcceleration t).smul o.m_star).add ((o.planetAcceleration t).smul o.m_planet) = V3.zero) ∧
    o.relativePosition C t = (o.planetPosition C t).sub (o.starPosition C t) ∧
    o.relativeVelocity t = (o.planetVelocity t).sub (o.starVelocity t) ∧
    (0 < o.m_planet → o.relativeAcceleration t = (o.planetAcceleration t).sub (o.starAcceleration t)) := by
  have B := built_of_init h
  have hmt := (B.m_total_pos hp).ne'
  have ha := hp.a_pos.ne'
  have hms := hp.m_star_pos.ne'
  refine ⟨?_, ?_, fun hm => ?_, ?_, ?_, fun hm => ?_⟩
  · change ((o.positionNow C o.a_star t none).smul o.m_star).add ((o.positionNow C o.a_planet t none).smul o.m_planet) = _
    simp only [Orbit.positionNow_eq hp.eccOk, Orbit.rotate_eq, V3.smul, V3.add, V3.zero, B.a_star_eq, B.a_planet_eq]
    congr 1 <;> field_simp <;> ring
  · change ((o.velocity o.m_planet t).smul o.m_star).add ((o.velocity (-o.m_star) t).smul o.m_planet) = _
    simp only [Orbit.velocity_eq, Orbit.rotate_eq, V3.smul, V3.add, V3.zero]
    congr 1 <;> ring
  · have hm' := hm.ne'
    change ((o.acceleration o.a_star o.m_planet t).smul o.m_star).add
      ((o.acceleration o.a_planet (-o.m_star) t).smul o.m_planet) = _
    have e1 : (o.K0 * o.m_planet) ^ 2 / o.a_star = o.m_planet * (o.K0 ^ 2 * o.m_total / o.a) := by
      rw [B.a_star_eq]; field_simp
    have e2 : (o.K0 * -o.m_star) ^ 2 / o.a_planet = -o.m_star * (o.K0 ^ 2 * o.m_total / o.a) := by
      rw [B.a_planet_eq]; field_simp
    have e3 : ∀ (a m : ℝ), o.acceleration a m t = o.rotate
        ((o.K0 * m) ^ 2 / a * (-(1 - o.eccVal ^ 2) * (cos (o.E t) - o.eccVal) / (1 - o.eccVal * cos (o.E t)) ^ 3))
        ((o.K0 * m) ^ 2 / a * (-(1 - o.eccVal ^ 2) * (o.se * sin (o.E t)) / (1 - o.eccVal * cos (o.E t)) ^ 3)) := by
      intro a m
      rw [Orbit.acceleration_anom hp.eccOk]
      congr 1 <;> ring
    rw [e3, e3, e1, e2]
    simp only [Orbit.rotate_eq, V3.smul, V3.add, V3.zero]
    congr 1 <;> ring
  · change o.positionNow C (-o.a) t none = (o.positionNow C o.a_planet t none).sub (o.positionNow C o.a_star t none)
    have e : -o.a = o.a_planet - o.a_star := by
      rw [B.a_star_eq, B.a_planet_eq]; field_simp; rw [B.m_total_eq]; ring
    rw [e]
    simp only [Orbit.positionNow_eq hp.eccOk, Orbit.rotate_eq, V3.sub]
    congr 1 <;> ring
  · change o.velocity (-o.m_total) t = (o.velocity (-o.m_star) t).sub (o.velocity o.m_planet t)
    simp only [Orbit.velocity_eq, Orbit.rotate_eq, V3.sub, B.m_total_eq]
    congr 1 <;> ring
  · have hm' := hm.ne'
    change o.acceleration (-o.a) (-o.m_total) t =
      (o.acceleration o.a_planet (-o.m_star) t).sub (o.acceleration o.a_star o.m_planet t)
    have e1 : (o.K0 * o.m_planet) ^ 2 / o.a_star = o.m_planet * (o.K0 ^ 2 * o.m_total / o.a) := by
      rw [B.a_star_eq]; field_simp
    have e2 : (o.K0 * -o.m_star) ^ 2 / o.a_planet = -o.m_star * (o.K0 ^ 2 * o.m_total / o.a) := by
      rw [B.a_planet_eq]; field_simp
    have e0 : (o.K0 * -o.m_total) ^ 2 / -o.a = -o.m_total * (o.K0 ^ 2 * o.m_total / o.a) := by
      field_simp
    have e3 : ∀ (a m : ℝ), o.acceleration a m t = o.rotate
        ((o.K0 * m) ^ 2 / a * (-(1 - o.eccVal ^ 2) * (cos (o.E t) - o.eccVal) / (1 - o.eccVal * cos (o.E t)) ^ 3))
        ((o.K0 * m) ^ 2 / a * (-(1 - o.eccVal ^ 2) * (o.se * sin (o.E t)) / (1 - o.eccVal * cos (o.E t)) ^ 3)) := by
      intro a m
      rw [Orbit.acceleration_anom hp.eccOk]
      congr 1 <;> ring
    rw [e3, e3, e3, e0, e1, e2]
    generalize o.K0 ^ 2 * o.m_total / o.a = q
    rw [B.m_total_eq]
    simp only [Orbit.rotate_eq, V3.sub]
    congr 1 <;> ring

/-! ## C12 -/

/-- **C12** (periodicity): all positions (with or without light delay and parallax), velocities, accelerations, relative
angles and radial velocities repeat after every whole number of periods. (For `in_transit` see
`C12_in_transit_periodic`.) -/
theorem C12_periodic (C : Consts) (A : Args) (o : Orbit) (h : keplerianInit C A = .ok o) (hp : o.Physical)
    (t : ℝ) (k : ℤ) (px : Option ℝ) (ld : Bool) (K : Option ℝ) (u : Option AUnit) :
    o.planetPosition C (t + k * o.period) px ld = o.planetPosition C t px ld ∧
    o.starPosition C (t + k * o.period) px ld = o.starPosition C t px ld ∧
    o.relativePosition C (t + k * o.period) px ld = o.relativePosition C t px ld ∧
    o.relativeAngles C (t + k * o.period) px ld = o.relativeAngles C t px ld ∧
    o.planetVelocity (t + k * o.period) = o.planetVelocity t ∧
    o.starVelocity (t + k * o.period) = o.starVelocity t ∧
    o.relativeVelocity (t + k * o.period) = o.relativeVelocity t ∧
    o.planetAcceleration (t + k * o.period) = o.planetAcceleration t ∧
    o.starAcceleration (t + k * o.period) = o.starAcceleration t ∧
    o.relativeAcceleration (t + k * o.period) = o.relativeAcceleration t ∧
    o.radialVelocity C (t + k * o.period) K u = o.radialVelocity C t K u := by
  have B := built_of_init h
  have hf : ∀ t, o.trueAnomaly (t + k * o.period) = o.trueAnomaly t := fun t => B.trueAnomaly_add_period hp t k
  have hpos : ∀ a t p, o.positionNow C a (t + k * o.period) p = o.positionNow C a t p := by
    intro a t p; unfold Orbit.positionNow; rw [hf]
  have hdel : ∀ a t, o.delay C a (t + k * o.period) = o.delay C a t := by
    intro a t; unfold Orbit.delay Orbit.retardedVz Orbit.retardedAz; simp only [hpos, hf]
  have hpos2 : ∀ a, o.position C a (t + k * o.period) px ld = o.position C a t px ld := by
    intro a
    unfold Orbit.position Orbit.retardedPosition
    rw [hdel, hpos, show t + k * o.period - o.delay C a t = (t - o.delay C a t) + k * o.period by ring, hpos]
  have hvel : ∀ m, o.velocity m (t + k * o.period) = o.velocity m t := by
    intro m; unfold Orbit.velocity; rw [hf]
  have hacc : ∀ a m, o.acceleration a m (t + k * o.period) = o.acceleration a m t := by
    intro a m; unfold Orbit.acceleration; rw [hf]
  refine ⟨hpos2 _, hpos2 _, hpos2 _, ?_, hvel _, hvel _, hvel _, hacc _ _, hacc _ _, hacc _ _, ?_⟩
  · unfold Orbit.relativeAngles; rw [hpos2]
  · unfold Orbit.radialVelocity Orbit.starVelocity; rw [hf, hvel]

/-! ## C13 -/

/-- **C13** (the distance stays between `a(1-e)` and `a(1+e)`, both attained; constant on circular orbits). -/
theorem C13_distance_bounds (C : Consts) (A : Args) (o : Orbit) (h : keplerianInit C A = .ok o) (hp : o.Physical) :
    (∀ t, o.a * (1 - o.eccVal) ≤ (o.relativePosition C t).norm ∧
      (o.relativePosition C t).norm ≤ o.a * (1 + o.eccVal)) ∧
    (o.relativePosition C o.t_periastron).norm = o.a * (1 - o.eccVal) ∧
    (o.relativePosition C (o.t_periastron + o.period / 2)).norm = o.a * (1 + o.eccVal) ∧
    (o.ecc = none → ∀ t, (o.relativePosition C t).norm = o.a) := by
  have B := built_of_init h
  refine ⟨fun t => ?_, ?_, ?_, fun hn t => ?_⟩
  · rw [relativePosition_norm B hp]
    have h1 := mul_le_mul_of_nonneg_left (cos_le_one (o.E t)) hp.eccOk.nonneg
    have h2 := mul_le_mul_of_nonneg_left (neg_one_le_cos (o.E t)) hp.eccOk.nonneg
    exact ⟨mul_le_mul_of_nonneg_left (by linarith) hp.a_pos.le, mul_le_mul_of_nonneg_left (by linarith) hp.a_pos.le⟩
  · rw [relativePosition_norm B hp, B.E_periastron hp]; simp
  · rw [relativePosition_norm B hp, B.E_apastron hp]; simp
  · rw [relativePosition_norm B hp]; simp [Orbit.eccVal, hn]

/-! ## C14 -/

theorem cross_rotate (o : Orbit) (x y u v : ℝ) :
    (o.rotate x y).cross (o.rotate u v) = ((o.rotate 1 0).cross (o.rotate 0 1)).smul (x * v - y * u) := by
  simp only [Orbit.rotate_eq, V3.cross, V3.smul]
  congr 1 <;> ring

/-- **C14** (angular momentum): the specific angular momentum `x × v` of the relative motion is the same vector at all
times; its squared length is `G M a (1 - e²)`. -/
theorem C14_angular_momentum (C : Consts) (A : Args) (o : Orbit) (h : keplerianInit C A = .ok o) (hp : o.Physical) :
    (∀ t s, (o.relativePosition C t).cross (o.relativeVelocity t) =
      (o.relativePosition C s).cross (o.relativeVelocity s)) ∧
    ∀ t, ((o.relativePosition C t).cross (o.relativeVelocity t)).normSq =
      C.G * (o.m_star + o.m_planet) * o.a * (1 - o.eccVal ^ 2) := by
  have B := built_of_init h
  have hs := hp.eccOk.se_sq
  have hK := B.K_total hp
  have key : ∀ t, (o.relativePosition C t).cross (o.relativeVelocity t) =
      ((o.rotate 1 0).cross (o.rotate 0 1)).smul (o.n * o.a ^ 2 * o.se) := by
    intro t
    change (o.positionNow C (-o.a) t none).cross (o.velocity (-o.m_total) t) = _
    rw [Orbit.positionNow_eq hp.eccOk, Orbit.velocity_anom hp.eccOk, cross_rotate]
    congr 1
    have hd := (hp.eccOk.dpos t).ne'
    have h2 := sin_sq_add_cos_sq (o.E t)
    rw [← hs]
    have e1 : o.K0 * -o.m_total * o.se ^ 2 = -(o.n * o.a) * o.se := by rw [← hK]; ring
    have e2 : -(o.K0 * -o.m_total) * o.se = o.n * o.a := by rw [← hK]; ring
    rw [e1, e2, mul_div_assoc', mul_div_assoc', ← sub_div, div_eq_iff hd]
    linear_combination (o.n * o.a ^ 2 * o.se) * h2
  refine ⟨fun t s => by rw [key, key], fun t => ?_⟩
  rw [key, ← B.m_total_eq, ← B.third_law hp, ← hs]
  have hN : ((o.rotate 1 0).cross (o.rotate 0 1)).normSq = 1 := by
    have h1 := Orbit.rotate_normSq hp (B.incl_sq hp) 1 0
    have h2 := Orbit.rotate_normSq hp (B.incl_sq hp) 0 1
    have h3 := Orbit.rotate_normSq hp (B.incl_sq hp) 1 1
    have e : o.rotate 1 1 = (o.rotate 1 0).add (o.rotate 0 1) := by
      simp only [Orbit.rotate_eq, V3.add]; congr 1 <;> ring
    rw [e] at h3
    generalize o.rotate 1 0 = p at *
    generalize o.rotate 0 1 = q at *
    simp only [V3.normSq, V3.cross, V3.add] at *
    have hdot : p.x * q.x + p.y * q.y + p.z * q.z = 0 := by nlinarith
    have : (p.y * q.z - p.z * q.y) ^ 2 + (p.z * q.x - p.x * q.z) ^ 2 + (p.x * q.y - p.y * q.x) ^ 2 =
        (p.x ^ 2 + p.y ^ 2 + p.z ^ 2) * (q.x ^ 2 + q.y ^ 2 + q.z ^ 2) - (p.x * q.x + p.y * q.y + p.z * q.z) ^ 2 := by ring
    rw [this, h1, h2, hdot]; norm_num
  have hsm : ∀ (c : ℝ) (v : V3), (v.smul c).normSq = c ^ 2 * v.normSq := by
    intro c v; simp only [V3.smul, V3.normSq]; ring
  rw [hsm, hN]
  ring

/-- **C14** (vis-viva / energy): `|v|²/2 - G M/|x| = -G M/(2a)` at all times. -/
theorem C14_vis_viva (C : Consts) (A : Args) (o : Orbit) (h : keplerianInit C A = .ok o) (hp : o.Physical) (t : ℝ) :
    (o.relativeVelocity t).normSq / 2 - C.G * (o.m_star + o.m_planet) / (o.relativePosition C t).norm =
      -(C.G * (o.m_star + o.m_planet)) / (2 * o.a) := by
  have B := built_of_init h
  have hs := hp.eccOk.se_sq
  have hK := B.K_rel hp
  have hd := (hp.eccOk.dpos t).ne'
  have ha := hp.a_pos.ne'
  have h2 := sin_sq_add_cos_sq (o.E t)
  rw [relativePosition_norm B hp, ← B.m_total_eq, ← B.third_law hp]
  change (o.velocity (-o.m_total) t).normSq / 2 - _ = _
  rw [Orbit.velocity_anom hp.eccOk, Orbit.rotate_normSq hp (B.incl_sq hp), ← hs]
  have e1 : o.K0 * -o.m_total * o.se ^ 2 = -(o.n * o.a) * o.se := by rw [pow_two, ← mul_assoc, hK]; ring
  have e2 : -(o.K0 * -o.m_total) * o.se = o.n * o.a := by linear_combination -hK
  rw [e1, e2]
  field_simp
  rw [hs]
  linear_combination o.n ^ 2 * h2

end Exo
