import Verif.Props.ApparentTimes
import Verif.Lemmas.Emission
import Verif.Spec.Emission

/-!
# C111: how far the light-delayed positions are from those at the true emission time
-/

namespace Exo
open Real

namespace Built
variable {C : Consts} {A : Args} {o : Orbit} (B : Built C A o)
include B

theorem one_sub_ecc_pos (hp : o.Physical) : 0 < 1 - o.eccVal := by linarith [hp.eccOk.lt_one]

theorem one_sub_ecc_le (hp : o.Physical) (t : ℝ) : 1 - o.eccVal ≤ 1 - o.eccVal * cos (o.E t) := by
  have := mul_le_mul_of_nonneg_left (cos_le_one (o.E t)) hp.eccOk.nonneg
  linarith

theorem topSpeed_sq (hp : o.Physical) (a : ℝ) : o.topSpeed a ^ 2 = (o.n * a) ^ 2 * ((1 + o.eccVal) / (1 - o.eccVal)) := by
  have h1 := one_sub_ecc_pos B hp
  have h0 := hp.eccOk.nonneg
  unfold Orbit.topSpeed
  rw [mul_pow, sq_sqrt (by positivity), B.n_eq]

theorem topSpeed_nonneg (hp : o.Physical) {a : ℝ} (ha : 0 ≤ a) : 0 ≤ o.topSpeed a := by
  have := hp.period_pos
  have := pi_pos
  unfold Orbit.topSpeed
  positivity

/-- The square of the speed. -/
theorem velocity_normSq (hp : o.Physical) {a m : ℝ} (hK : o.K0 * m * o.se = o.n * a) (t : ℝ) :
    (o.velocity m t).normSq = (o.n * a) ^ 2 * ((1 + o.eccVal * cos (o.E t)) / (1 - o.eccVal * cos (o.E t))) := by
  have hd := (hp.eccOk.dpos t).ne'
  have hs := hp.eccOk.se_sq
  have h2 := sin_sq_add_cos_sq (o.E t)
  rw [Orbit.velocity_anom hp.eccOk, Orbit.rotate_normSq hp (B.incl_sq hp), ← hs,
    show -(o.K0 * m) * o.se * sin (o.E t) = -(o.n * a) * sin (o.E t) by rw [← hK]; ring,
    show o.K0 * m * o.se ^ 2 * cos (o.E t) = (o.n * a) * (o.se * cos (o.E t)) by rw [← hK]; ring]
  rw [div_pow, div_pow, ← add_div, mul_div_assoc', div_eq_div_iff (pow_ne_zero 2 hd) hd]
  have : (-(o.n * a) * sin (o.E t)) ^ 2 + (o.n * a * (o.se * cos (o.E t))) ^ 2 =
      (o.n * a) ^ 2 * ((1 + o.eccVal * cos (o.E t)) * (1 - o.eccVal * cos (o.E t))) := by
    linear_combination (o.n * a) ^ 2 * h2 + (o.n * a) ^ 2 * cos (o.E t) ^ 2 * hs
  rw [this]
  ring

theorem speed_le (hp : o.Physical) {a m : ℝ} (hK : o.K0 * m * o.se = o.n * a) (t : ℝ) :
    (o.velocity m t).normSq ≤ o.topSpeed |a| ^ 2 := by
  have h1 := one_sub_ecc_pos B hp
  have h2 := one_sub_ecc_le B hp t
  rw [velocity_normSq B hp hK, topSpeed_sq B hp, mul_pow, mul_pow, sq_abs]
  refine mul_le_mul_of_nonneg_left ?_ (by positivity)
  rw [div_le_div_iff₀ (by linarith) h1]
  nlinarith

theorem vz_le (hp : o.Physical) {a m : ℝ} (hK : o.K0 * m * o.se = o.n * a) (t : ℝ) : |(o.velocity m t).z| ≤ o.topSpeed |a| := by
  refine abs_le_of_sq_le_sq ?_ (topSpeed_nonneg B hp (abs_nonneg a))
  have := speed_le B hp hK t
  unfold V3.normSq at this
  nlinarith [sq_nonneg (o.velocity m t).x, sq_nonneg (o.velocity m t).y]

theorem z_sq_le (hp : o.Physical) (a t : ℝ) : (o.positionNow C a t none).z ^ 2 ≤ a ^ 2 * (1 - o.eccVal * cos (o.E t)) ^ 2 := by
  have hs := hp.eccOk.se_sq
  have h2 := sin_sq_add_cos_sq (o.E t)
  have h : (o.positionNow C a t none).normSq = a ^ 2 * (1 - o.eccVal * cos (o.E t)) ^ 2 := by
    rw [Orbit.positionNow_eq hp.eccOk, Orbit.rotate_normSq hp (B.incl_sq hp)]
    linear_combination a ^ 2 * sin (o.E t) ^ 2 * hs + a ^ 2 * (1 - o.eccVal ^ 2) * h2
  rw [← h]
  unfold V3.normSq
  nlinarith [sq_nonneg (o.positionNow C a t none).x, sq_nonneg (o.positionNow C a t none).y]

theorem az_form (hp : o.Physical) {a : ℝ} (ha : a ≠ 0) (t : ℝ) :
    o.retardedAz C a t = -(o.n ^ 2) / (1 - o.eccVal * cos (o.E t)) ^ 3 * (o.positionNow C a t none).z := by
  have h1 : o.retardedAz C a t =
      -(o.n ^ 2) * (a / (a * (1 - o.eccVal * cos (o.E t)))) ^ 3 * (o.positionNow C a t none).z := by
    unfold Orbit.retardedAz
    simp only [Orbit.radius_anom hp.eccOk, B.n_eq]
  rw [h1, div_mul_cancel_left₀ ha, inv_pow]
  ring

theorem az_le (hp : o.Physical) {a : ℝ} (ha : a ≠ 0) (t : ℝ) : |o.retardedAz C a t| ≤ o.topAcceleration |a| := by
  have h1 := one_sub_ecc_pos B hp
  have h2 := one_sub_ecc_le B hp t
  have hd := hp.eccOk.dpos t
  have hz : |(o.positionNow C a t none).z| ≤ |a| * (1 - o.eccVal * cos (o.E t)) := by
    refine abs_le_of_sq_le_sq ?_ (by positivity)
    rw [mul_pow, sq_abs]
    exact z_sq_le B hp a t
  rw [az_form B hp ha, abs_mul, abs_div, abs_neg, abs_of_nonneg (sq_nonneg o.n), abs_of_pos (pow_pos hd 3)]
  unfold Orbit.topAcceleration
  rw [← B.n_eq]
  calc o.n ^ 2 / (1 - o.eccVal * cos (o.E t)) ^ 3 * |(o.positionNow C a t none).z|
      ≤ o.n ^ 2 / (1 - o.eccVal * cos (o.E t)) ^ 3 * (|a| * (1 - o.eccVal * cos (o.E t))) :=
        mul_le_mul_of_nonneg_left hz (by positivity)
    _ = o.n ^ 2 * |a| / (1 - o.eccVal * cos (o.E t)) ^ 2 := by field_simp
    _ ≤ o.n ^ 2 * |a| / (1 - o.eccVal) ^ 2 :=
        div_le_div_of_nonneg_left (by positivity) (by positivity) (pow_le_pow_left₀ h1.le h2 2)

/-- The code's square root exists as long as the body is slower than a third of the speed of light. -/
theorem root_exists (hp : o.Physical) {a m : ℝ} (ha : a ≠ 0) (hK : o.K0 * m * o.se = o.n * a) (hslow : 3 * o.topSpeed |a| ≤ C.c) (t : ℝ) :
    0 < C.c - (o.velocity m t).z ∧
    0 < (C.c - (o.velocity m t).z) ^ 2 + 2 * o.retardedAz C a t * (o.positionNow C a t none).z := by
  have h1 := one_sub_ecc_pos B hp
  have h2 := one_sub_ecc_le B hp t
  have hd := hp.eccOk.dpos t
  have hc := C.c_pos
  have hv := (abs_le.1 (vz_le B hp hK t)).2
  have hV := topSpeed_nonneg B hp (abs_nonneg a)
  have hsq := topSpeed_sq B hp |a|
  rw [mul_pow, sq_abs, ← mul_pow] at hsq
  have hna : 0 < (o.n * a) ^ 2 := by
    have := B.n_pos hp
    positivity
  have hpos : 0 < C.c - (o.velocity m t).z := by linarith
  refine ⟨hpos, ?_⟩
  have hz := z_sq_le B hp a t
  have key : -(2 * o.retardedAz C a t * (o.positionNow C a t none).z) ≤ 2 * ((o.n * a) ^ 2 / (1 - o.eccVal)) := by
    rw [az_form B hp ha]
    calc -(2 * (-(o.n ^ 2) / (1 - o.eccVal * cos (o.E t)) ^ 3 * (o.positionNow C a t none).z) * (o.positionNow C a t none).z)
        = 2 * (o.n ^ 2 / (1 - o.eccVal * cos (o.E t)) ^ 3 * (o.positionNow C a t none).z ^ 2) := by ring
      _ ≤ 2 * (o.n ^ 2 / (1 - o.eccVal * cos (o.E t)) ^ 3 * (a ^ 2 * (1 - o.eccVal * cos (o.E t)) ^ 2)) := by gcongr
      _ = 2 * ((o.n * a) ^ 2 / (1 - o.eccVal * cos (o.E t))) := by field_simp
      _ ≤ 2 * ((o.n * a) ^ 2 / (1 - o.eccVal)) := by gcongr
  have h4 : (o.n * a) ^ 2 / (1 - o.eccVal) ≤ o.topSpeed |a| ^ 2 := by
    rw [hsq, mul_div_assoc', div_le_div_iff_of_pos_right h1]
    nlinarith [hp.eccOk.nonneg]
  have h5 : 0 < (o.n * a) ^ 2 / (1 - o.eccVal) := by positivity
  nlinarith

end Built

/-- The heart of C111, for a body with amplitude `a` in the code. -/
theorem emission_core {C : Consts} {A : Args} {o : Orbit} (B : Built C A o) (hp : o.Physical) {a m : ℝ} (ha : a ≠ 0)
    (hK : o.K0 * m * o.se = o.n * a) (hslow : 3 * o.topSpeed |a| ≤ C.c) (t s : ℝ)
    (hs : SeenAt C.c (fun u => (o.positionNow C a u none).z) s t) :
    |(t - o.delay C a t) - s| ≤ 3 / 2 * (o.topAcceleration |a| / C.c) * o.delay C a t ^ 2 := by
  have hc := C.c_pos
  have hV := Built.topSpeed_nonneg B hp (abs_nonneg a)
  have hZ : ∀ u, HasDerivAt (fun u => (o.positionNow C a u none).z) (o.velocity m u).z u := fun u =>
    (Orbit.hasVelocityAt_position hp.eccOk C B.hasDerivAt_warp hK u).2.2
  have hZd : ∀ u, HasDerivAt (fun u => (o.velocity m u).z) (o.acceleration a m u).z u := fun u =>
    (Orbit.hasVelocityAt_velocity hp.eccOk ha B.hasDerivAt_warp hK u).2.2
  have hAz : ∀ u, |(o.acceleration a m u).z| ≤ o.topAcceleration |a| := fun u => by
    rw [← retardedAz_eq B hp m a u ha hK]
    exact Built.az_le B hp ha u
  obtain ⟨hpos, hroot⟩ := Built.root_exists B hp ha hK hslow t
  have hsol := delay_solves C o a t 0 _ _ _ rfl (retardedVz_eq B hp m a t hK) (retardedAz_eq B hp m a t ha hK)
  rw [retardedAz_eq B hp m a t ha hK] at hroot
  set d := o.delay C a t with hdd
  have hres : |C.c * d + (o.positionNow C a t none).z - (o.velocity m t).z * d| ≤ o.topAcceleration |a| * d ^ 2 / 2 := by
    have hA := hAz t
    by_cases hb : |(o.acceleration a m t).z| < 1.0e-10
    · have := hsol.1 hb (by linarith)
      rw [show C.c * d + (o.positionNow C a t none).z - (o.velocity m t).z * d = 0 by linarith, abs_zero]
      have := (abs_nonneg _).trans hA
      positivity
    · have := hsol.2 (not_lt.1 hb) (by linarith)
      rw [show C.c * d + (o.positionNow C a t none).z - (o.velocity m t).z * d = (o.acceleration a m t).z * (d ^ 2 / 2) by linarith, abs_mul,
        abs_of_nonneg (show 0 ≤ d ^ 2 / 2 by positivity), ← mul_div_assoc']
      exact mul_le_mul_of_nonneg_right hA (by positivity)
  have htay := taylor_le hZ hZd hAz t (t - d)
  rw [show t - d - t = -d by ring, neg_sq] at htay
  have hctl := residual_controls hZ (Built.vz_le B hp hK) (by linarith : o.topSpeed |a| < C.c) t (t - d) s
  rw [show C.c * (t - s) + (o.positionNow C a s none).z = 0 by unfold SeenAt at hs; linarith, sub_zero] at hctl
  have htot : |C.c * (t - (t - d)) + (o.positionNow C a (t - d) none).z| ≤ o.topAcceleration |a| * d ^ 2 := by
    have e : C.c * (t - (t - d)) + (o.positionNow C a (t - d) none).z =
        (C.c * d + (o.positionNow C a t none).z - (o.velocity m t).z * d) +
        ((o.positionNow C a (t - d) none).z - ((o.positionNow C a t none).z + (o.velocity m t).z * -d)) := by ring
    rw [e]
    exact (abs_add_le _ _).trans (by linarith)
  have h23 : 2 / 3 * C.c * |t - d - s| ≤ o.topAcceleration |a| * d ^ 2 := by
    refine le_trans ?_ (hctl.trans htot)
    exact mul_le_mul_of_nonneg_right (by linarith) (abs_nonneg _)
  rw [show 3 / 2 * (o.topAcceleration |a| / C.c) * d ^ 2 = 3 / 2 * (o.topAcceleration |a| * d ^ 2) / C.c by ring, le_div_iff₀ hc]
  linarith

/-- Displacement is at most speed times time. -/
theorem displacement_le {C : Consts} {A : Args} {o : Orbit} (B : Built C A o) (hp : o.Physical) {a m : ℝ}
    (hK : o.K0 * m * o.se = o.n * a) (t s : ℝ) :
    ((o.positionNow C a t none).sub (o.positionNow C a s none)).norm ≤ o.topSpeed |a| * |t - s| := by
  have hV := Built.topSpeed_nonneg B hp (abs_nonneg a)
  set D := (o.positionNow C a t none).sub (o.positionNow C a s none) with hD
  have hder : ∀ u, HasDerivAt (fun u => D.x * (o.positionNow C a u none).x + D.y * (o.positionNow C a u none).y +
      D.z * (o.positionNow C a u none).z) (D.x * (o.velocity m u).x + D.y * (o.velocity m u).y + D.z * (o.velocity m u).z) u := fun u => by
    obtain ⟨h1, h2, h3⟩ := Orbit.hasVelocityAt_position hp.eccOk C B.hasDerivAt_warp hK u
    exact ((h1.const_mul _).add (h2.const_mul _)).add (h3.const_mul _)
  have hbound : ∀ u, |D.x * (o.velocity m u).x + D.y * (o.velocity m u).y + D.z * (o.velocity m u).z| ≤ D.norm * o.topSpeed |a| := fun u => by
    refine abs_le_of_sq_le_sq ?_ (mul_nonneg (sqrt_nonneg _) hV)
    have hn : D.norm ^ 2 = D.x ^ 2 + D.y ^ 2 + D.z ^ 2 := sq_sqrt (by unfold V3.normSq; positivity)
    have hs := Built.speed_le B hp hK u
    unfold V3.normSq at hs
    rw [mul_pow, hn]
    have h1 : (D.x * (o.velocity m u).x + D.y * (o.velocity m u).y + D.z * (o.velocity m u).z) ^ 2 ≤
        (D.x ^ 2 + D.y ^ 2 + D.z ^ 2) * ((o.velocity m u).x ^ 2 + (o.velocity m u).y ^ 2 + (o.velocity m u).z ^ 2) := by
      nlinarith [sq_nonneg (D.x * (o.velocity m u).y - D.y * (o.velocity m u).x), sq_nonneg (D.x * (o.velocity m u).z - D.z * (o.velocity m u).x),
        sq_nonneg (D.y * (o.velocity m u).z - D.z * (o.velocity m u).y)]
    exact h1.trans (mul_le_mul_of_nonneg_left hs (by positivity))
  have h := abs_sub_le_of_deriv hder hbound t s
  have hn : D.norm ^ 2 = D.x ^ 2 + D.y ^ 2 + D.z ^ 2 := sq_sqrt (by unfold V3.normSq; positivity)
  have e : (D.x * (o.positionNow C a t none).x + D.y * (o.positionNow C a t none).y + D.z * (o.positionNow C a t none).z) -
      (D.x * (o.positionNow C a s none).x + D.y * (o.positionNow C a s none).y + D.z * (o.positionNow C a s none).z) = D.norm ^ 2 := by
    rw [hn, hD]
    simp only [V3.sub]
    ring
  rw [e, abs_of_nonneg (sq_nonneg _)] at h
  have h0 : 0 ≤ D.norm := sqrt_nonneg _
  rcases h0.eq_or_lt with hz | hz
  · rw [← hz]; positivity
  · by_contra hcon
    push Not at hcon
    nlinarith

/-- The size of the delay. -/
theorem delay_abs_le {C : Consts} {A : Args} {o : Orbit} (B : Built C A o) (hp : o.Physical) {a m : ℝ} (ha : a ≠ 0)
    (hK : o.K0 * m * o.se = o.n * a) (hslow : 3 * o.topSpeed |a| ≤ C.c) (t : ℝ) :
    |o.delay C a t| ≤ 3 * |(o.positionNow C a t none).z| / C.c := by
  have hc := C.c_pos
  have hv := (abs_le.1 (Built.vz_le B hp hK t)).2
  obtain ⟨hpos, hroot⟩ := Built.root_exists B hp ha hK hslow t
  have hb := (delay_bounds C o a t _ _ _ rfl (retardedVz_eq B hp m a t hK) rfl (by linarith)
    (by rw [← sub_eq_add_neg]; exact hroot.le) (az_mul_z B hp a t)).2.2.2.2
  refine hb.trans ?_
  rw [← sub_eq_add_neg, div_le_div_iff₀ hpos hc]
  nlinarith [abs_nonneg (o.positionNow C a t none).z]


/-- The three assertions of C111 for a body with amplitude `a` in the code. -/
theorem accuracy_core {C : Consts} {A : Args} {o : Orbit} (B : Built C A o) (hp : o.Physical) {a m b : ℝ} (ha : a ≠ 0) (hb : |a| = b)
    (hK : o.K0 * m * o.se = o.n * a) (hslow : 3 * o.topSpeed b ≤ C.c) (t : ℝ) :
    ∃ d, o.position C a t none true = o.position C a (t - d) none false ∧ |d| ≤ 3 * |(o.position C a t none false).z| / C.c ∧
      ∀ s, SeenAt C.c (fun u => (o.position C a u none false).z) s t →
        |(t - d) - s| ≤ 3 / 2 * (o.topAcceleration b / C.c) * d ^ 2 ∧
        ((o.position C a t none true).sub (o.position C a s none false)).norm ≤
          o.topSpeed b * (3 / 2 * (o.topAcceleration b / C.c) * d ^ 2) := by
  subst hb
  refine ⟨o.delay C a t, rfl, delay_abs_le B hp ha hK hslow t, fun s hs => ?_⟩
  have h1 := emission_core B hp ha hK hslow t s hs
  exact ⟨h1, (displacement_le B hp hK _ s).trans (mul_le_mul_of_nonneg_left h1 (Built.topSpeed_nonneg B hp (abs_nonneg a)))⟩

/-! ## The claim -/

/-- The bounds are what they are called: no body on an orbit with semi-major axis `o.a` is ever faster or accelerated more. -/
theorem C111_bounds (C : Consts) (A : Args) (o : Orbit) (h : keplerianInit C A = .ok o) (hp : o.Physical) (t : ℝ) :
    (o.relativeVelocity t).norm ≤ o.topSpeed o.a ∧ |(o.relativeVelocity t).z| ≤ o.topSpeed o.a ∧
    |(o.relativeAcceleration t).z| ≤ o.topAcceleration o.a := by
  have B := built_of_init h
  have ha := hp.a_pos
  have habs : |-o.a| = o.a := by rw [abs_neg, abs_of_pos ha]
  refine ⟨sqrt_le_iff.2 ⟨Built.topSpeed_nonneg B hp ha.le, ?_⟩, ?_, ?_⟩
  · have := Built.speed_le B hp (B.K_rel hp) t
    rwa [habs] at this
  · have := Built.vz_le B hp (B.K_rel hp) t
    rwa [habs] at this
  · have := Built.az_le B hp (neg_ne_zero.2 ha.ne') t
    rw [habs, retardedAz_eq B hp _ _ t (neg_ne_zero.2 ha.ne') (B.K_rel hp)] at this
    exact this

/-- **C111** (the question is well posed): what is seen at the time `t` has left the planet at exactly one time, for positions relative to
the star, for the planet and for the star. -/
theorem C111_emission_time (C : Consts) (A : Args) (o : Orbit) (h : keplerianInit C A = .ok o) (hp : o.Physical)
    (hslow : o.topSpeed o.a < C.c) (t : ℝ) :
    (∃! s, SeenAt C.c (fun u => (o.relativePosition C u).z) s t) ∧ (∃! s, SeenAt C.c (fun u => (o.planetPosition C u).z) s t) ∧
    ∃! s, SeenAt C.c (fun u => (o.starPosition C u).z) s t := by
  have B := built_of_init h
  have ha := hp.a_pos
  have hm := B.m_total_pos hp
  have hms := hp.m_star_pos
  have hmp := hp.m_planet_nonneg
  have hmt := B.m_total_eq
  have main : ∀ a m, o.K0 * m * o.se = o.n * a → |a| ≤ o.a → ∃! s, SeenAt C.c (fun u => (o.positionNow C a u none).z) s t := by
    intro a m hK hle
    refine emission_unique (fun u => (Orbit.hasVelocityAt_position hp.eccOk C B.hasDerivAt_warp hK u).2.2) (Built.vz_le B hp hK) ?_ t
    refine lt_of_le_of_lt ?_ hslow
    have hP := hp.period_pos
    have hpi := pi_pos
    unfold Orbit.topSpeed
    gcongr
  refine ⟨main _ _ (B.K_rel hp) ?_, main _ _ (B.K_planet hp) ?_, main _ _ (B.K_star hp) ?_⟩
  · rw [abs_neg, abs_of_pos ha]
  · rw [abs_of_neg (B.a_planet_neg hp), B.a_planet_eq, ← neg_div, div_le_iff₀ hm]
    nlinarith
  · rw [B.a_star_eq, abs_of_nonneg (by positivity), div_le_iff₀ hm]
    nlinarith

/-- **C111** (relative positions), `_partial`: the position returned with `light_delay=True` is a position on the orbit, at a time that is
off the true emission time by at most `3 A d² / 2 c` (`A` the acceleration at periastron, `d` the delay of the code), so the position is off
by at most the speed at periastron times that. Missing: the error is of second order in the delay, although the code expands the light-time
equation to second order (`C111_worse_than_without_acceleration`). -/
theorem C111_accuracy_partial (C : Consts) (A : Args) (o : Orbit) (h : keplerianInit C A = .ok o) (hp : o.Physical)
    (hslow : 3 * o.topSpeed o.a ≤ C.c) (t : ℝ) :
    ∃ d, o.relativePosition C t none true = o.relativePosition C (t - d) ∧ |d| ≤ 3 * |(o.relativePosition C t).z| / C.c ∧
      ∀ s, SeenAt C.c (fun u => (o.relativePosition C u).z) s t →
        |(t - d) - s| ≤ 3 / 2 * (o.topAcceleration o.a / C.c) * d ^ 2 ∧
        ((o.relativePosition C t none true).sub (o.relativePosition C s)).norm ≤
          o.topSpeed o.a * (3 / 2 * (o.topAcceleration o.a / C.c) * d ^ 2) := by
  have B := built_of_init h
  exact accuracy_core B hp (neg_ne_zero.2 hp.a_pos.ne') (by rw [abs_neg, abs_of_pos hp.a_pos]) (B.K_rel hp) hslow t

/-- **C111** for the planet, see `C111_accuracy_partial`. -/
theorem C111_accuracy_planet_partial (C : Consts) (A : Args) (o : Orbit) (h : keplerianInit C A = .ok o) (hp : o.Physical) (b : ℝ)
    (hb : b = o.a * o.m_star / (o.m_star + o.m_planet)) (hslow : 3 * o.topSpeed b ≤ C.c) (t : ℝ) :
    ∃ d, o.planetPosition C t none true = o.planetPosition C (t - d) ∧ |d| ≤ 3 * |(o.planetPosition C t).z| / C.c ∧
      ∀ s, SeenAt C.c (fun u => (o.planetPosition C u).z) s t →
        |(t - d) - s| ≤ 3 / 2 * (o.topAcceleration b / C.c) * d ^ 2 ∧
        ((o.planetPosition C t none true).sub (o.planetPosition C s)).norm ≤
          o.topSpeed b * (3 / 2 * (o.topAcceleration b / C.c) * d ^ 2) := by
  have B := built_of_init h
  exact accuracy_core B hp (B.a_planet_neg hp).ne (by rw [abs_of_neg (B.a_planet_neg hp), B.a_planet_eq, hb, B.m_total_eq]; ring)
    (B.K_planet hp) hslow t

/-- **C111** for the star of a massive planet, see `C111_accuracy_partial`. -/
theorem C111_accuracy_star_partial (C : Consts) (A : Args) (o : Orbit) (h : keplerianInit C A = .ok o) (hp : o.Physical)
    (hm : 0 < o.m_planet) (b : ℝ) (hb : b = o.a * o.m_planet / (o.m_star + o.m_planet)) (hslow : 3 * o.topSpeed b ≤ C.c) (t : ℝ) :
    ∃ d, o.starPosition C t none true = o.starPosition C (t - d) ∧ |d| ≤ 3 * |(o.starPosition C t).z| / C.c ∧
      ∀ s, SeenAt C.c (fun u => (o.starPosition C u).z) s t →
        |(t - d) - s| ≤ 3 / 2 * (o.topAcceleration b / C.c) * d ^ 2 ∧
        ((o.starPosition C t none true).sub (o.starPosition C s)).norm ≤
          o.topSpeed b * (3 / 2 * (o.topAcceleration b / C.c) * d ^ 2) := by
  have B := built_of_init h
  exact accuracy_core B hp (B.a_star_pos hp hm).ne' (by rw [abs_of_pos (B.a_star_pos hp hm), B.a_star_eq, hb, B.m_total_eq])
    (B.K_star hp) hslow t

/-- **C111 is false in the sense of the second-order expansion of the code**: at the reference transit of a circular orbit the emission time
of the code is off by more than the emission time without any acceleration term, `t0 - Z / (Ż - c)`; the excess is at least
`½ (2 π / P)² L³`, which is also the most that the latter is off by (`L` is the light travel time across the radius of the orbit). -/
theorem C111_worse_than_without_acceleration (C : Consts) (A : Args) (o : Orbit) (h : keplerianInit C A = .ok o) (hp : o.Physical)
    (hr : o.Regular) (he : o.eccVal = 0) (hi : 0 < o.sin_incl) (L : ℝ) (hL : L = o.a * o.sin_incl / C.c)
    (hslow : 2 * π / o.period * L ≤ 1 / 10) (hacc : 1.0e-10 ≤ (2 * π / o.period) ^ 2 * (o.a * o.sin_incl)) (d₁ : ℝ)
    (hd₁ : C.c * d₁ = -((o.relativePosition C o.t0).z - (o.relativeVelocity o.t0).z * d₁)) :
    ∃ d s, o.relativePosition C o.t0 none true = o.relativePosition C (o.t0 - d) ∧
      SeenAt C.c (fun u => (o.relativePosition C u).z) s o.t0 ∧ o.t0 < s ∧ s < o.t0 - d₁ ∧ o.t0 - d₁ < o.t0 - d ∧
      |(o.t0 - d₁) - s| ≤ 1 / 2 * (2 * π / o.period) ^ 2 * L ^ 3 ∧
      |(o.t0 - d₁) - s| + 1 / 2 * (2 * π / o.period) ^ 2 * L ^ 3 ≤ |(o.t0 - d) - s| := by
  have B := built_of_init h
  have hc := C.c_pos
  have ha := hp.a_pos
  have hn := B.n_pos hp
  rw [← B.n_eq] at hslow hacc ⊢
  have hLpos : 0 < L := by rw [hL]; positivity
  have hLc : o.a * o.sin_incl = C.c * L := by rw [hL]; field_simp
  have hforms := fun u => Built.circular_forms B hp hr he (-o.a) u
  have hz : ∀ u, (o.relativePosition C u).z = C.c * L * cos (o.n * (u - o.t0)) := fun u => by
    change (o.positionNow C (-o.a) u none).z = _
    rw [(hforms u).1, ← hLc]
    ring
  have hV : (o.relativeVelocity o.t0).z = 0 := by
    have h1 : o.retardedVz (-o.a) o.t0 = -(o.relativeVelocity o.t0).z := retardedVz_eq B hp _ _ _ (B.K_rel hp)
    rw [(hforms o.t0).2.2.1] at h1
    simp at h1
    linarith
  have hW : (o.relativeAcceleration o.t0).z = -(o.n ^ 2 * (C.c * L)) := by
    have h1 : o.retardedAz C (-o.a) o.t0 = (o.relativeAcceleration o.t0).z :=
      retardedAz_eq B hp _ _ _ (neg_ne_zero.2 ha.ne') (B.K_rel hp)
    rw [← h1, (hforms o.t0).2.2.2 (neg_ne_zero.2 ha.ne'), sub_self, mul_zero, cos_zero, ← hLc]
    ring
  have hz0 : (o.relativePosition C o.t0).z = C.c * L := by rw [hz]; simp
  have hd1 : d₁ = -L := by
    rw [hz0, hV] at hd₁
    have : C.c * (d₁ + L) = 0 := by linarith
    rcases mul_eq_zero.1 this with h | h
    · exact absurd h hc.ne'
    · linarith
  subst hd1
  have hsol := (C19_delay_relative_partial C A o h hp o.t0 _ _ _ _ hz0 hV hW rfl).2
    (by
      rw [abs_neg, abs_of_pos (by positivity), ← hLc]
      exact hacc)
    (by
      have : (o.n * L) ^ 2 ≤ (1 / 10) ^ 2 := pow_le_pow_left₀ (by positivity) hslow 2
      nlinarith [sq_nonneg C.c, mul_nonneg (sq_nonneg C.c) (sq_nonneg (o.n * L))])
  set d := o.delay C (-o.a) o.t0 with hd
  have hd2 : -d = L + 1 / 2 * o.n ^ 2 * L * d ^ 2 := by
    have : C.c * (-d - (L + 1 / 2 * o.n ^ 2 * L * d ^ 2)) = 0 := by linarith
    rcases mul_eq_zero.1 this with h | h
    · exact absurd h hc.ne'
    · linarith
  have hdL : L ≤ -d := by
    rw [hd2]
    have : 0 ≤ 1 / 2 * o.n ^ 2 * L * d ^ 2 := by positivity
    linarith
  have hdsq : L ^ 2 ≤ d ^ 2 := by nlinarith
  have hd3 : L + 1 / 2 * o.n ^ 2 * L ^ 3 ≤ -d := by
    rw [hd2]
    have := mul_le_mul_of_nonneg_left hdsq (show 0 ≤ 1 / 2 * o.n ^ 2 * L by positivity)
    nlinarith
  have hex : 0 < 1 / 2 * o.n ^ 2 * L ^ 3 := by positivity
  have hvb : ∀ u, |(o.velocity (-o.m_total) u).z| ≤ C.c / 10 := fun u => by
    have h1 : o.retardedVz (-o.a) u = -(o.velocity (-o.m_total) u).z := retardedVz_eq B hp _ _ _ (B.K_rel hp)
    rw [← abs_neg, ← h1, (hforms u).2.2.1, show -(o.n * -o.a * o.sin_incl * sin (o.n * (u - o.t0))) =
      C.c * (o.n * L) * sin (o.n * (u - o.t0)) by linear_combination o.n * sin (o.n * (u - o.t0)) * hLc, abs_mul,
      abs_of_pos (by positivity)]
    refine (mul_le_of_le_one_right (by positivity) (abs_sin_le_one _)).trans ?_
    nlinarith
  obtain ⟨s, hs, -⟩ := emission_unique (fun u => (Orbit.hasVelocityAt_position hp.eccOk C B.hasDerivAt_warp (B.K_rel hp) u).2.2) hvb
    (show C.c / 10 < C.c by linarith) o.t0
  have hs' : s - o.t0 = L * cos (o.n * (s - o.t0)) := by
    have h1 : C.c * (o.t0 - s) = -(o.relativePosition C s).z := hs
    rw [hz] at h1
    have : C.c * ((s - o.t0) - L * cos (o.n * (s - o.t0))) = 0 := by linarith
    rcases mul_eq_zero.1 this with h | h
    · exact absurd h hc.ne'
    · linarith
  have hx : |s - o.t0| ≤ L := by
    rw [hs', abs_mul, abs_of_pos hLpos]
    exact mul_le_of_le_one_right hLpos.le (abs_cos_le_one _)
  have hnx : |o.n * (s - o.t0)| ≤ 1 / 10 := by
    rw [abs_mul, abs_of_pos hn]
    exact (mul_le_mul_of_nonneg_left hx hn.le).trans hslow
  have hcos : 0 < cos (o.n * (s - o.t0)) := cos_pos_of_mem_Ioo ⟨by
    have := (abs_le.1 hnx).1
    linarith [pi_gt_three], by
    have := (abs_le.1 hnx).2
    linarith [pi_gt_three]⟩
  have hspos : 0 < s - o.t0 := by rw [hs']; positivity
  have hcos1 : cos (o.n * (s - o.t0)) < 1 := by
    rw [← cos_zero]
    refine cos_lt_cos_of_nonneg_of_le_pi le_rfl ?_ (by positivity)
    linarith [(abs_le.1 hnx).2, pi_gt_three]
  have hsL : s - o.t0 < L := by
    rw [hs']
    exact mul_lt_of_lt_one_right hLpos hcos1
  have hcos2 := one_sub_sq_div_two_le_cos (x := o.n * (s - o.t0))
  refine ⟨d, s, rfl, hs, by linarith, by linarith, by linarith, ?_, ?_⟩
  · rw [abs_of_pos (by linarith)]
    have h1 : L - (s - o.t0) = L * (1 - cos (o.n * (s - o.t0))) := by rw [mul_sub, mul_one, ← hs']
    have h2 : (s - o.t0) ^ 2 ≤ L ^ 2 := pow_le_pow_left₀ hspos.le hsL.le 2
    have h3 : L * (1 - cos (o.n * (s - o.t0))) ≤ L * ((o.n * (s - o.t0)) ^ 2 / 2) := mul_le_mul_of_nonneg_left (by linarith) hLpos.le
    have h4 : L * ((o.n * (s - o.t0)) ^ 2 / 2) ≤ L * (o.n ^ 2 * L ^ 2 / 2) := by
      rw [mul_pow]
      gcongr
    calc o.t0 - -L - s = L - (s - o.t0) := by ring
      _ ≤ L * (o.n ^ 2 * L ^ 2 / 2) := by rw [h1]; exact h3.trans h4
      _ = 1 / 2 * o.n ^ 2 * L ^ 3 := by ring
  · rw [abs_of_pos (by linarith), abs_of_pos (by linarith)]
    linarith

/-! ## Examples -/

/-- An eccentric orbit, once around in a day at ten solar radii. -/
noncomputable def swiftArgs : Args :=
  { a := some (10 : ℝ), period := some (1 : ℝ), ecc := some (3 / 5 : ℝ), omega := some (1 : ℝ), incl := some (1 : ℝ) }

/-- The hypotheses of `C111_emission_time` and `C111_accuracy_partial` hold for an eccentric orbit when light crosses at least 400 solar radii per
day (in reality it crosses 37 000). -/
example (C : Consts) (hc : 400 ≤ C.c) : ∃ o, keplerianInit C swiftArgs = .ok o ∧ o.Physical ∧ 3 * o.topSpeed o.a ≤ C.c ∧
    o.topSpeed o.a < C.c := by
  have hG := C.G_pos
  have hg := C.gccPerSun_pos
  have hpi := pi_pos
  have key : ∃ o, keplerianInit C swiftArgs = .ok o ∧ o.Physical ∧ o.a = 10 ∧ o.period = 1 ∧ o.eccVal = 3 / 5 := by
    refine ⟨_, rfl, ⟨?_, ?_, ?_, ?_, ?_, ?_, ?_, ?_, ?_, ?_⟩, ?_, ?_, ?_⟩
    all_goals simp [Orbit.eccVal]
    all_goals try positivity
    all_goals try norm_num
    exact abs_cos_le_one 1
  obtain ⟨o, h, hp, ha, hP, he⟩ := key
  have hs : √((1 + o.eccVal) / (1 - o.eccVal)) = 2 := by
    rw [he, show ((1 + 3 / 5 : ℝ) / (1 - 3 / 5)) = 2 ^ 2 by norm_num, sqrt_sq (by norm_num)]
  have hV : o.topSpeed o.a = 40 * π := by
    unfold Orbit.topSpeed
    rw [hs, ha, hP]
    ring
  have := pi_lt_d2
  exact ⟨o, h, hp, by rw [hV]; linarith, by rw [hV]; linarith⟩

/-- The hypotheses of `C111_worse_than_without_acceleration` hold for `KeplerianOrbit(a=10, period=1)`. -/
example (C : Consts) (hc : 1000 ≤ C.c) : ∃ o L d₁, keplerianInit C plainArgs = .ok o ∧ o.Physical ∧ o.Regular ∧ o.eccVal = 0 ∧
    0 < o.sin_incl ∧ L = o.a * o.sin_incl / C.c ∧ 2 * π / o.period * L ≤ 1 / 10 ∧
    1.0e-10 ≤ (2 * π / o.period) ^ 2 * (o.a * o.sin_incl) ∧
    C.c * d₁ = -((o.relativePosition C o.t0).z - (o.relativeVelocity o.t0).z * d₁) := by
  obtain ⟨o, h, hp, hP, ha, he, hs, -⟩ := plainArgs_ok C
  have h3 := pi_gt_d2
  have h4 := pi_lt_d2
  have hev : o.eccVal = 0 := by simp [Orbit.eccVal, he]
  have hslow : 2 * π / o.period * (o.a * o.sin_incl / C.c) ≤ 1 / 10 := by
    rw [hP, ha, hs, div_one, mul_one, mul_div_assoc', div_le_div_iff₀ (by linarith) (by norm_num)]
    linarith
  have hV := (C111_bounds C plainArgs o h hp o.t0).2.1
  have hVc : o.topSpeed o.a < C.c := by
    unfold Orbit.topSpeed
    rw [hev, hP, ha]
    simp
    linarith
  have hpos : 0 < C.c - (o.relativeVelocity o.t0).z := by linarith [(abs_le.1 hV).2]
  refine ⟨o, _, -(o.relativePosition C o.t0).z / (C.c - (o.relativeVelocity o.t0).z), h, hp, ?_, hev, by rw [hs]; norm_num, rfl, hslow, ?_, ?_⟩
  · simp [Orbit.Regular, he]
  · rw [hP, ha, hs]
    norm_num
    nlinarith
  · have := div_mul_cancel₀ (-(o.relativePosition C o.t0).z) hpos.ne'
    linear_combination this

/-- Two equal masses, ten solar radii apart, once around in a day. -/
noncomputable def twinArgs (C : Consts) : Args :=
  { a := some (10 : ℝ), period := some (1 : ℝ), m_planet := some (2 * π * π * 10 ^ 3 / C.G : ℝ) }

/-- The hypotheses of `C111_accuracy_planet_partial` and `C111_accuracy_star_partial`. -/
example (C : Consts) (hc : 100 ≤ C.c) : ∃ o b, keplerianInit C (twinArgs C) = .ok o ∧ o.Physical ∧ 0 < o.m_planet ∧
    b = o.a * o.m_star / (o.m_star + o.m_planet) ∧ b = o.a * o.m_planet / (o.m_star + o.m_planet) ∧ 3 * o.topSpeed b ≤ C.c := by
  have hG := C.G_pos
  have hg := C.gccPerSun_pos
  have hpi := pi_pos
  have hm : 4 * π * π * 10 ^ 3 / C.G - 2 * π * π * 10 ^ 3 / C.G = 2 * π * π * 10 ^ 3 / C.G := by ring
  have key : ∃ o, keplerianInit C (twinArgs C) = .ok o ∧
      o.Physical ∧ o.a = 10 ∧ o.period = 1 ∧ o.eccVal = 0 ∧ o.m_planet = 2 * π * π * 10 ^ 3 / C.G ∧ o.m_star = 2 * π * π * 10 ^ 3 / C.G := by
    refine ⟨_, rfl, ⟨?_, ?_, ?_, ?_, ?_, ?_, ?_, ?_, ?_, ?_⟩, ?_, ?_, ?_, ?_, ?_⟩
    all_goals simp [Orbit.eccVal, hm]
    all_goals try positivity
  obtain ⟨o, h, hp, ha, hP, he, hmp, hms⟩ := key
  have hpos : 0 < 2 * π * π * 10 ^ 3 / C.G := by positivity
  have hb : o.a * o.m_star / (o.m_star + o.m_planet) = 5 := by
    rw [ha, hmp, hms]
    field_simp
    norm_num
  refine ⟨o, 5, h, hp, hmp ▸ hpos, hb.symm, ?_, ?_⟩
  · rw [← hb, hmp, hms]
  · have := pi_lt_d2
    unfold Orbit.topSpeed
    rw [he, hP]
    simp
    linarith

end Exo
