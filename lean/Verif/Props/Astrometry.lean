import Verif.Lemmas.Identify
import Verif.Props.Kinematics
import Verif.Props.Anomaly
import Verif.Props.Conjunction
import Verif.Model.AstrometryTutorial
import Verif.Spec.Distributions

/-!
# C103: what astrometry determines
-/

namespace Exo
open Real

/-- The direction of periastron on the sky. -/
noncomputable def Orbit.p1 (o : Orbit) : ℝ := o.cW * o.cw - o.sW * (o.cos_incl * o.sw)
noncomputable def Orbit.p2 (o : Orbit) : ℝ := o.sW * o.cw + o.cW * (o.cos_incl * o.sw)
/-- The direction on the sky a quarter of the orbit later. -/
noncomputable def Orbit.q1 (o : Orbit) : ℝ := -(o.cW * o.sw) - o.sW * (o.cos_incl * o.cw)
noncomputable def Orbit.q2 (o : Orbit) : ℝ := -(o.sW * o.sw) + o.cW * (o.cos_incl * o.cw)

theorem Orbit.pq_norm {o : Orbit} (hp : o.Physical) : o.p1 ^ 2 + o.p2 ^ 2 + o.q1 ^ 2 + o.q2 ^ 2 = 1 + o.cos_incl ^ 2 := by
  have h1 := hp.omega_sq
  have h2 := o.Omega_sq
  unfold Orbit.p1 Orbit.p2 Orbit.q1 Orbit.q2
  linear_combination (o.sW ^ 2 + o.cW ^ 2) * (1 + o.cos_incl ^ 2) * h1 + (1 + o.cos_incl ^ 2) * h2

theorem Orbit.pq_det {o : Orbit} (hp : o.Physical) : o.p1 * o.q2 - o.p2 * o.q1 = o.cos_incl := by
  have h1 := hp.omega_sq
  have h2 := o.Omega_sq
  unfold Orbit.p1 Orbit.p2 Orbit.q1 Orbit.q2
  linear_combination (o.sW ^ 2 + o.cW ^ 2) * o.cos_incl * h1 + o.cos_incl * h2

section
variable {C : Consts} {A : Args} {o : Orbit} (B : Built C A o) (hp : o.Physical)
include hp

theorem sky_position (t : ℝ) :
    (o.relativePosition C t).x = -o.a * (o.p1 * (cos (o.E t) - o.eccVal) + o.q1 * (o.se * sin (o.E t))) ∧
    (o.relativePosition C t).y = -o.a * (o.p2 * (cos (o.E t) - o.eccVal) + o.q2 * (o.se * sin (o.E t))) := by
  have h : o.relativePosition C t = o.positionNow C (-o.a) t none := rfl
  rw [h, Orbit.positionNow_eq hp.eccOk, Orbit.rotate_eq]
  unfold Orbit.p1 Orbit.p2 Orbit.q1 Orbit.q2
  constructor <;> ring

include B

theorem sky_velocity (t : ℝ) :
    (o.relativeVelocity t).x = -(o.a * o.n) * (-(o.p1 * sin (o.E t)) + o.q1 * (o.se * cos (o.E t))) / (1 - o.eccVal * cos (o.E t)) ∧
    (o.relativeVelocity t).y = -(o.a * o.n) * (-(o.p2 * sin (o.E t)) + o.q2 * (o.se * cos (o.E t))) / (1 - o.eccVal * cos (o.E t)) := by
  have h : o.relativeVelocity t = o.velocity (-o.m_total) t := rfl
  have hd := (hp.eccOk.dpos t).ne'
  have hK := B.K_rel hp
  have hse := hp.eccOk.se_sq
  rw [h, Orbit.velocity_anom hp.eccOk, Orbit.rotate_eq, ← hse]
  unfold Orbit.p1 Orbit.p2 Orbit.q1 Orbit.q2
  constructor
  · simp only
    field_simp
    linear_combination (-(o.cW * o.cw) * sin (o.E t) + o.sW * o.cos_incl * o.sw * sin (o.E t) - o.cW * o.sw * o.se * cos (o.E t) -
      o.sW * o.cos_incl * o.cw * o.se * cos (o.E t)) * hK
  · simp only
    field_simp
    linear_combination (-(o.sW * o.cw) * sin (o.E t) - o.cW * o.cos_incl * o.sw * sin (o.E t) - o.sW * o.sw * o.se * cos (o.E t) +
      o.cW * o.cos_incl * o.cw * o.se * cos (o.E t)) * hK

/-- The sky-projected angular momentum. -/
theorem sky_momentum (t : ℝ) :
    (o.relativePosition C t).x * (o.relativeVelocity t).y - (o.relativePosition C t).y * (o.relativeVelocity t).x =
      o.n * o.se * (o.a ^ 2 * o.cos_incl) := by
  obtain ⟨x1, x2⟩ := sky_position (C := C) hp t
  obtain ⟨v1, v2⟩ := sky_velocity B hp t
  have hd := (hp.eccOk.dpos t).ne'
  have hdet := Orbit.pq_det hp
  rw [x1, x2, v1, v2, ← hdet, ← mul_div_assoc, ← mul_div_assoc, ← sub_div, div_eq_iff hd]
  have hcs := sin_sq_add_cos_sq (o.E t)
  linear_combination (o.a ^ 2 * o.n * o.se * (o.p1 * o.q2 - o.p2 * o.q1)) * hcs

/-- On a circular orbit, or at periastron, position and velocity on the sky give `a² (1 + cos² i)`. -/
theorem sky_size {t : ℝ} (hE : o.eccVal = 0 ∨ cos (o.E t) = 1) :
    ((o.relativePosition C t).x ^ 2 + (o.relativePosition C t).y ^ 2) / (1 - o.eccVal) ^ 2 +
      ((o.relativeVelocity t).x ^ 2 + (o.relativeVelocity t).y ^ 2) * (1 - o.eccVal) ^ 2 / (o.n * o.se) ^ 2 =
      o.a ^ 2 + (o.a * o.cos_incl) ^ 2 := by
  obtain ⟨x1, x2⟩ := sky_position (C := C) hp t
  obtain ⟨v1, v2⟩ := sky_velocity B hp t
  have hn := (B.n_pos hp).ne'
  have hse := hp.eccOk.se_pos.ne'
  have hlt : 1 - o.eccVal ≠ 0 := by have := hp.eccOk.lt_one; linarith
  have hnorm := Orbit.pq_norm hp
  rw [x1, x2, v1, v2]
  have hcs := sin_sq_add_cos_sq (o.E t)
  rcases hE with h | h
  · have hse1 : o.se = 1 := by unfold Orbit.se; rw [h]; simp
    rw [h, hse1]
    simp only [sub_zero, one_pow, div_one, mul_one, zero_mul, one_mul]
    field_simp
    linear_combination o.a ^ 2 * (o.p1 ^ 2 + o.p2 ^ 2 + o.q1 ^ 2 + o.q2 ^ 2) * hcs + o.a ^ 2 * hnorm
  · have hs : sin (o.E t) = 0 := by
      rw [h] at hcs
      nlinarith
    rw [h, hs]
    simp only [mul_one, mul_zero, add_zero, neg_zero, zero_add]
    field_simp
    linear_combination o.a ^ 2 * hnorm

/-- Position and velocity on the sky never vanish together. -/
theorem sky_ne_zero (t : ℝ) :
    ¬(((o.relativePosition C t).x = 0 ∧ (o.relativePosition C t).y = 0) ∧ (o.relativeVelocity t).x = 0 ∧ (o.relativeVelocity t).y = 0) := by
  rintro ⟨⟨h1, h2⟩, h3, h4⟩
  obtain ⟨x1, x2⟩ := sky_position (C := C) hp t
  obtain ⟨v1, v2⟩ := sky_velocity B hp t
  have ha := hp.a_pos.ne'
  have hn := (B.n_pos hp).ne'
  have hse := hp.eccOk.se_pos.ne'
  have hd := (hp.eccOk.dpos t).ne'
  have hnorm := Orbit.pq_norm hp
  have hcs := sin_sq_add_cos_sq (o.E t)
  rw [h1] at x1
  rw [h2] at x2
  rw [h3] at v1
  rw [h4] at v2
  have key : ∀ p q : ℝ, 0 = -o.a * (p * (cos (o.E t) - o.eccVal) + q * (o.se * sin (o.E t))) →
      0 = -(o.a * o.n) * (-(p * sin (o.E t)) + q * (o.se * cos (o.E t))) / (1 - o.eccVal * cos (o.E t)) → p = 0 ∧ q = 0 := by
    intro p q e1 e2
    have f1 := (mul_eq_zero.1 e1.symm).resolve_left (neg_ne_zero.2 ha)
    have f2 := (mul_eq_zero.1 ((div_eq_zero_iff.1 e2.symm).resolve_right hd)).resolve_left (neg_ne_zero.2 (mul_ne_zero ha hn))
    constructor
    · apply (mul_eq_zero.1 (?_ : p * (1 - o.eccVal * cos (o.E t)) = 0)).resolve_right hd
      linear_combination cos (o.E t) * f1 - sin (o.E t) * f2 - p * hcs
    · have : q * o.se * (1 - o.eccVal * cos (o.E t)) = 0 := by
        linear_combination sin (o.E t) * f1 + (cos (o.E t) - o.eccVal) * f2 - q * o.se * hcs
      exact (mul_eq_zero.1 ((mul_eq_zero.1 this).resolve_right hd)).resolve_right hse
  obtain ⟨k1, k2⟩ := key _ _ x1 v1
  obtain ⟨k3, k4⟩ := key _ _ x2 v2
  rw [k1, k2, k3, k4] at hnorm
  nlinarith [sq_nonneg o.cos_incl]

end

/-! ## What is determined -/

theorem same_positions {C : Consts} {o o' : Orbit} (hs : SameAstrometry C o o') (t : ℝ) :
    (o.relativePosition C t).x = (o'.relativePosition C t).x ∧ (o.relativePosition C t).y = (o'.relativePosition C t).y := by
  have h1 := C18_polar C o t none false
  have h2 := C18_polar C o' t none false
  have := hs t
  rw [this] at h1
  exact ⟨h1.2.2.2.1.trans h2.2.2.2.1.symm, h1.2.2.2.2.trans h2.2.2.2.2.symm⟩

section
variable {C : Consts} {A A' : Args} {o o' : Orbit} (h : keplerianInit C A = .ok o) (hp : o.Physical) (h' : keplerianInit C A' = .ok o')
  (hp' : o'.Physical) (hs : SameAstrometry C o o')
include h hp h' hp' hs

theorem same_velocities (t : ℝ) :
    (o.relativeVelocity t).x = (o'.relativeVelocity t).x ∧ (o.relativeVelocity t).y = (o'.relativeVelocity t).y := by
  obtain ⟨a1, a2, -⟩ := (C08_velocity_is_derivative C A o h hp t).2.2
  obtain ⟨b1, b2, -⟩ := (C08_velocity_is_derivative C A' o' h' hp' t).2.2
  have e1 : (fun s => (o.relativePosition C s).x) = fun s => (o'.relativePosition C s).x := funext fun s => (same_positions hs s).1
  have e2 : (fun s => (o.relativePosition C s).y) = fun s => (o'.relativePosition C s).y := funext fun s => (same_positions hs s).2
  rw [e1] at a1
  rw [e2] at a2
  exact ⟨a1.unique b1, a2.unique b2⟩

/-- The pull of the star is visible on the sky where the planet is not in front of the centre of the star. -/
theorem same_pull_of_ne (t : ℝ) (hne : ¬((o.relativePosition C t).x = 0 ∧ (o.relativePosition C t).y = 0)) :
    o.n ^ 2 / (1 - o.eccVal * cos (o.E t)) ^ 3 = o'.n ^ 2 / (1 - o'.eccVal * cos (o'.E t)) ^ 3 := by
  have B := built_of_init h
  have B' := built_of_init h'
  obtain ⟨-, ⟨a1, a2, -⟩, -⟩ := C10_newton C A o h hp t
  obtain ⟨-, ⟨b1, b2, -⟩, -⟩ := C10_newton C A' o' h' hp' t
  have e1 : (fun s => (o.relativeVelocity s).x) = fun s => (o'.relativeVelocity s).x :=
    funext fun s => (same_velocities h hp h' hp' hs s).1
  have e2 : (fun s => (o.relativeVelocity s).y) = fun s => (o'.relativeVelocity s).y :=
    funext fun s => (same_velocities h hp h' hp' hs s).2
  rw [e1] at a1
  rw [e2] at a2
  have c1 := a1.unique b1
  have c2 := a2.unique b2
  obtain ⟨p1, p2⟩ := same_positions hs t
  have g1 : -(C.G * (o.m_star + o.m_planet)) / (o.relativePosition C t).norm ^ 3 =
      -(o.n ^ 2 / (1 - o.eccVal * cos (o.E t)) ^ 3) := by
    rw [relativePosition_norm B hp, ← B.m_total_eq, ← B.third_law hp, mul_pow]
    have := hp.a_pos.ne'
    have := (hp.eccOk.dpos t).ne'
    field_simp
  have g2 : -(C.G * (o'.m_star + o'.m_planet)) / (o'.relativePosition C t).norm ^ 3 =
      -(o'.n ^ 2 / (1 - o'.eccVal * cos (o'.E t)) ^ 3) := by
    rw [relativePosition_norm B' hp', ← B'.m_total_eq, ← B'.third_law hp', mul_pow]
    have := hp'.a_pos.ne'
    have := (hp'.eccOk.dpos t).ne'
    field_simp
  rw [g1, g2] at c1 c2
  simp only [V3.smul] at c1 c2
  rw [← p1] at c1
  rw [← p2] at c2
  by_cases hx : (o.relativePosition C t).x = 0
  · have hy : (o.relativePosition C t).y ≠ 0 := fun hy => hne ⟨hx, hy⟩
    linarith [mul_right_cancel₀ hy c2]
  · linarith [mul_right_cancel₀ hx c1]

/-- The pull of the star at each time is visible on the sky. -/
theorem same_pull (t : ℝ) :
    o.n ^ 2 / (1 - o.eccVal * cos (o.E t)) ^ 3 = o'.n ^ 2 / (1 - o'.eccVal * cos (o'.E t)) ^ 3 := by
  have B := built_of_init h
  have B' := built_of_init h'
  by_cases h0 : (o.relativePosition C t).x = 0 ∧ (o.relativePosition C t).y = 0
  · have hne := sky_ne_zero (C := C) B hp t
    obtain ⟨d1, d2, -⟩ := (C08_velocity_is_derivative C A o h hp t).2.2
    have hev : ∀ᶠ s in nhdsWithin t {t}ᶜ, ¬((o.relativePosition C s).x = 0 ∧ (o.relativePosition C s).y = 0) := by
      by_cases hv : (o.relativeVelocity t).x = 0
      · have hv2 : (o.relativeVelocity t).y ≠ 0 := fun hv2 => hne ⟨h0, hv, hv2⟩
        exact (d2.eventually_ne (c := 0) hv2).mono fun s hs hc => hs hc.2
      · exact (d1.eventually_ne (c := 0) hv).mono fun s hs hc => hs hc.1
    have hc : ∀ {C : Consts} {A : Args} {o : Orbit}, Built C A o → o.Physical →
        ContinuousAt (fun s => o.n ^ 2 / (1 - o.eccVal * cos (o.E s)) ^ 3) t := by
      intro C A o B hp
      have hE := (B.continuous_E hp).continuousAt (x := t)
      refine ContinuousAt.div continuousAt_const ?_ (pow_pos (hp.eccOk.dpos t) 3).ne'
      exact (continuousAt_const.sub (continuousAt_const.mul (continuous_cos.continuousAt.comp hE))).pow 3
    have l1 := (hc B hp).tendsto.mono_left (nhdsWithin_le_nhds (s := {t}ᶜ))
    have l2 := (hc B' hp').tendsto.mono_left (nhdsWithin_le_nhds (s := {t}ᶜ))
    refine tendsto_nhds_unique (l1.congr' ?_) l2
    exact hev.mono fun s hs2 => same_pull_of_ne h hp h' hp' hs s hs2
  · exact same_pull_of_ne h hp h' hp' hs t h0

/-- **C103** (what astrometry determines): separation and position angle as functions of time determine the period, the eccentricity, the
semimajor axis and the inclination of every orbit, and the times of periastron passage if it is eccentric. -/
theorem C103_determined_size :
    o'.period = o.period ∧ o'.eccVal = o.eccVal ∧ o'.a = o.a ∧ o'.cos_incl = o.cos_incl ∧ (0 < o.eccVal → SamePeriastra o o') := by
  have B := built_of_init h
  have B' := built_of_init h'
  have hn := B.n_pos hp
  have hn' := B'.n_pos hp'
  obtain ⟨he, hN, hcos⟩ := clocks_agree B hp B' hp' (k := 3) (by norm_num) (pow_pos hn 2) (pow_pos hn' 2)
    (same_pull h hp h' hp' hs)
  have hnn : o.n = o'.n := (pow_left_inj₀ hn.le hn'.le (by norm_num)).1 hN
  have hP : o.period = o'.period := by
    have h1 := B.n_mul_period hp
    have h2 := B'.n_mul_period hp'
    rw [← hnn] at h2
    exact mul_left_cancel₀ hn.ne' (h1.trans h2.symm)
  have hse : o.se = o'.se := by unfold Orbit.se; rw [he]
  obtain ⟨p1, p2⟩ := same_positions hs o.t_periastron
  obtain ⟨v1, v2⟩ := same_velocities h hp h' hp' hs o.t_periastron
  have m1 := sky_momentum (C := C) B hp o.t_periastron
  have m2 := sky_momentum (C := C) B' hp' o.t_periastron
  have s1 := sky_size (C := C) B hp (t := o.t_periastron) (Or.inr (by rw [B.E_periastron hp, cos_zero]))
  have s2 := sky_size (C := C) B' hp' (t := o.t_periastron) (by
    rcases hp.eccOk.nonneg.eq_or_lt with h0 | h0
    · exact Or.inl (by rw [← he, ← h0])
    · exact Or.inr (hcos h0))
  rw [p1, p2, v1, v2] at m1 s1
  rw [he, hnn, hse] at s1
  rw [hnn, hse] at m1
  have hk : o.a ^ 2 * o.cos_incl = o'.a ^ 2 * o'.cos_incl := by
    have hpos := (mul_pos hn' hp'.eccOk.se_pos).ne'
    exact mul_left_cancel₀ hpos (m1.symm.trans m2)
  have hS := s1.symm.trans s2
  have ha := hp.a_pos
  have ha' := hp'.a_pos
  have hc := abs_le.1 hp.cos_incl_abs
  have hc' := abs_le.1 hp'.cos_incl_abs
  have haa : o.a ^ 2 = o'.a ^ 2 := by
    generalize o.cos_incl = c at *
    generalize o'.cos_incl = c' at *
    generalize o.a = a at *
    generalize o'.a = a' at *
    have q1 : (a ^ 2 - a' ^ 2) * (a ^ 2 * a' ^ 2 - (a ^ 2 * c) ^ 2) = 0 := by
      have e1 : (a ^ 2 * c) ^ 2 = (a ^ 2 * c) * (a' ^ 2 * c') := by rw [← hk]; ring
      have e2 : (a ^ 2 * c) ^ 2 * a' ^ 2 = a ^ 2 * a' ^ 2 * (a * c) ^ 2 := by ring
      have e3 : (a ^ 2 * c) ^ 2 * a ^ 2 = a ^ 2 * a' ^ 2 * (a' * c') ^ 2 := by rw [hk]; ring
      linear_combination a ^ 2 * a' ^ 2 * hS - e3 + e2
    rcases mul_eq_zero.1 q1 with h1 | h1
    · linarith
    · have c1 : c ^ 2 ≤ 1 := by nlinarith
      have c2 : c' ^ 2 ≤ 1 := by nlinarith
      have i1 : a' ^ 2 ≤ a ^ 2 := by
        have : a' ^ 2 = a ^ 2 * c ^ 2 := by
          have : a ^ 2 * (a' ^ 2 - a ^ 2 * c ^ 2) = 0 := by linear_combination h1
          have := (mul_eq_zero.1 this).resolve_left (pow_pos ha 2).ne'
          linarith
        rw [this]
        exact mul_le_of_le_one_right (sq_nonneg _) c1
      have i2 : a ^ 2 ≤ a' ^ 2 := by
        have : a ^ 2 = a' ^ 2 * c' ^ 2 := by
          rw [hk] at h1
          have : a' ^ 2 * (a ^ 2 - a' ^ 2 * c' ^ 2) = 0 := by linear_combination h1
          have := (mul_eq_zero.1 this).resolve_left (pow_pos ha' 2).ne'
          linarith
        rw [this]
        exact mul_le_of_le_one_right (sq_nonneg _) c2
      linarith
  have haa1 : o.a = o'.a := (pow_left_inj₀ ha.le ha'.le (by norm_num)).1 haa
  refine ⟨hP.symm, he.symm, haa1.symm, ?_, fun h0 => ?_⟩
  · rw [← haa] at hk
    exact (mul_left_cancel₀ (pow_pos ha 2).ne' hk).symm
  · obtain ⟨k, hk⟩ := periastra_of_cos B' hp' (hcos h0)
    refine ⟨-k, ?_⟩
    rw [hk, hP]
    push_cast
    ring

/-- **C103** (what astrometry determines, the angles): for an eccentric orbit not seen face-on the argument of periastron
and the node are determined up to a half turn of both. -/
theorem C103_determined_angles (hi1 : |o.cos_incl| < 1) (he : 0 < o.eccVal) : SameAnglesUpToHalfTurn o o' := by
  have B := built_of_init h
  have B' := built_of_init h'
  obtain ⟨hP, hee, ha, hc, hper⟩ := C103_determined_size h hp h' hp' hs
  obtain ⟨k, hk⟩ := hper he
  have hE : cos (o'.E o.t_periastron) = 1 ∧ sin (o'.E o.t_periastron) = 0 := by
    have := E_shift B hp B' hee.symm hP.symm hk o.t_periastron
    rw [B.E_periastron hp] at this
    have e1 : o'.E o.t_periastron = 0 + (-k : ℤ) * (2 * π) := by push_cast; linarith
    rw [e1, cos_add_int_mul_two_pi, sin_add_int_mul_two_pi, cos_zero, sin_zero]
    exact ⟨rfl, rfl⟩
  have hnn : o'.n = o.n := by rw [B.n_eq, B'.n_eq, hP]
  have hse : o'.se = o.se := by unfold Orbit.se; rw [hee]
  obtain ⟨p1, p2⟩ := same_positions hs o.t_periastron
  obtain ⟨v1, v2⟩ := same_velocities h hp h' hp' hs o.t_periastron
  rw [(sky_position hp _).1, (sky_position hp' _).1, hee, ha, hE.1, hE.2, B.E_periastron hp, cos_zero, sin_zero] at p1
  rw [(sky_position hp _).2, (sky_position hp' _).2, hee, ha, hE.1, hE.2, B.E_periastron hp, cos_zero, sin_zero] at p2
  rw [(sky_velocity B hp _).1, (sky_velocity B' hp' _).1, hee, ha, hnn, hse, hE.1, hE.2, B.E_periastron hp, cos_zero, sin_zero] at v1
  rw [(sky_velocity B hp _).2, (sky_velocity B' hp' _).2, hee, ha, hnn, hse, hE.1, hE.2, B.E_periastron hp, cos_zero, sin_zero] at v2
  have hlt := hp.eccOk.lt_one
  have hu : 1 - o.eccVal * 1 ≠ 0 := by rw [mul_one]; linarith
  have ha0 := hp.a_pos.ne'
  have hn0 := (B.n_pos hp).ne'
  have hse0 := hp.eccOk.se_pos.ne'
  simp only [mul_zero, add_zero, neg_zero, zero_add, mul_one] at p1 p2 v1 v2 hu
  have P1 : o.p1 = o'.p1 := mul_right_cancel₀ hu (mul_left_cancel₀ (neg_ne_zero.2 ha0) p1)
  have P2 : o.p2 = o'.p2 := mul_right_cancel₀ hu (mul_left_cancel₀ (neg_ne_zero.2 ha0) p2)
  rw [div_left_inj' hu] at v1 v2
  have Q1 : o.q1 = o'.q1 := mul_right_cancel₀ hse0 (mul_left_cancel₀ (neg_ne_zero.2 (mul_ne_zero ha0 hn0)) v1)
  have Q2 : o.q2 = o'.q2 := mul_right_cancel₀ hse0 (mul_left_cancel₀ (neg_ne_zero.2 (mul_ne_zero ha0 hn0)) v2)
  unfold Orbit.p1 at P1
  unfold Orbit.p2 at P2
  unfold Orbit.q1 at Q1
  unfold Orbit.q2 at Q2
  rw [hc] at P1 P2 Q1 Q2
  have hc1 := abs_lt.1 hi1
  have hw := hp.omega_sq
  have hw' := hp'.omega_sq
  have hW := o.Omega_sq
  have hW' := o'.Omega_sq
  have n1 : (1 + o.cos_incl) ≠ 0 := by linarith
  have n2 : (1 - o.cos_incl) ≠ 0 := by linarith
  have d1 : o.cW * o.cw - o.sW * o.sw = o'.cW * o'.cw - o'.sW * o'.sw := by
    apply mul_left_cancel₀ n1
    linear_combination P1 + Q2
  have d2 : o.cW * o.cw + o.sW * o.sw = o'.cW * o'.cw + o'.sW * o'.sw := by
    apply mul_left_cancel₀ n2
    linear_combination P1 - Q2
  have d3 : o.sW * o.cw + o.cW * o.sw = o'.sW * o'.cw + o'.cW * o'.sw := by
    apply mul_left_cancel₀ n1
    linear_combination P2 - Q1
  have d4 : o.sW * o.cw - o.cW * o.sw = o'.sW * o'.cw - o'.cW * o'.sw := by
    apply mul_left_cancel₀ n2
    linear_combination P2 + Q1
  have f1 : o'.cW * o'.cw = o.cW * o.cw := by linarith
  have f2 : o'.sW * o'.sw = o.sW * o.sw := by linarith
  have f3 : o'.sW * o'.cw = o.sW * o.cw := by linarith
  have f4 : o'.cW * o'.sw = o.cW * o.sw := by linarith
  have gW : o'.cW = (o.cw * o'.cw + o.sw * o'.sw) * o.cW := by linear_combination (-o'.cW) * hw' + o'.cw * f1 + o'.sw * f4
  have gW2 : o'.sW = (o.cw * o'.cw + o.sw * o'.sw) * o.sW := by linear_combination (-o'.sW) * hw' + o'.cw * f3 + o'.sw * f2
  have hsq : (o.cw * o'.cw + o.sw * o'.sw) ^ 2 = 1 := by
    rw [gW, gW2] at hW'
    linear_combination hW' - (o.cw * o'.cw + o.sw * o'.sw) ^ 2 * hW
  set s := o.cw * o'.cw + o.sw * o'.sw with hs'
  refine ⟨s, ?_, ?_, ?_, ?_, ?_⟩
  · have : (s - 1) * (s + 1) = 0 := by linear_combination hsq
    rcases mul_eq_zero.1 this with h | h
    · left; linarith
    · right; linarith
  · change o'.cw = s * o.cw
    linear_combination (-o'.cw) * hW' + o'.sW * f3 + o'.cW * f1 + o.sW * o.cw * gW2 + o.cW * o.cw * gW + s * o.cw * hW
  · change o'.sw = s * o.sw
    linear_combination (-o'.sw) * hW' + o'.sW * f2 + o'.cW * f4 + o.sW * o.sw * gW2 + o.cW * o.sw * gW + s * o.sw * hW
  · change cos o'.nodeAngle = s * cos o.nodeAngle
    rw [← o.cW_eq, ← o'.cW_eq, gW]
  · change sin o'.nodeAngle = s * sin o.nodeAngle
    rw [← o.sW_eq, ← o'.sW_eq, gW2]

end

/-- **C103** (the half turn): orbits that differ only by a half turn of node and periastron, and by whole periods in the time of periastron
passage, predict the same astrometry; along the line of sight they are mirror images of each other. -/
theorem C103_half_turn {C : Consts} {A A' : Args} {o o' : Orbit} (h : keplerianInit C A = .ok o) (hp : o.Physical)
    (h' : keplerianInit C A' = .ok o') (hp' : o'.Physical) (hP : o'.period = o.period) (he : o'.eccVal = o.eccVal) (ha : o'.a = o.a)
    (hc : o'.cos_incl = o.cos_incl) (hper : SamePeriastra o o') :
    (SameAnglesUpToHalfTurn o o' → SameAstrometry C o o') ∧
    (o'.cosOmega = -o.cosOmega → o'.sinOmega = -o.sinOmega → o'.sin_incl = o.sin_incl → ∀ t,
      (o'.relativePosition C t).z = -(o.relativePosition C t).z ∧ (o'.relativeVelocity t).z = -(o.relativeVelocity t).z) := by
  have B := built_of_init h
  have B' := built_of_init h'
  obtain ⟨k, hk⟩ := hper
  have hcs : ∀ t, cos (o'.E t) = cos (o.E t) ∧ sin (o'.E t) = sin (o.E t) := by
    intro t
    rw [E_shift B hp B' he.symm hP.symm hk t, cos_add_int_mul_two_pi, sin_add_int_mul_two_pi]
    exact ⟨rfl, rfl⟩
  have hse : o'.se = o.se := by unfold Orbit.se; rw [he]
  have hn : o'.n = o.n := by rw [B.n_eq, B'.n_eq, hP]
  constructor
  · rintro ⟨s, hs, h1, h2, h3, h4⟩ t
    change o'.cw = s * o.cw at h1
    change o'.sw = s * o.sw at h2
    change cos o'.nodeAngle = s * cos o.nodeAngle at h3
    change sin o'.nodeAngle = s * sin o.nodeAngle at h4
    rw [← o.cW_eq, ← o'.cW_eq] at h3
    rw [← o.sW_eq, ← o'.sW_eq] at h4
    have hss : s * s = 1 := by rcases hs with rfl | rfl <;> norm_num
    have e1 : o'.p1 = o.p1 := by
      unfold Orbit.p1; rw [h1, h2, h3, h4, hc]
      linear_combination (o.cW * o.cw - o.sW * (o.cos_incl * o.sw)) * hss
    have e2 : o'.p2 = o.p2 := by
      unfold Orbit.p2; rw [h1, h2, h3, h4, hc]
      linear_combination (o.sW * o.cw + o.cW * (o.cos_incl * o.sw)) * hss
    have e3 : o'.q1 = o.q1 := by
      unfold Orbit.q1; rw [h1, h2, h3, h4, hc]
      linear_combination (-(o.cW * o.sw) - o.sW * (o.cos_incl * o.cw)) * hss
    have e4 : o'.q2 = o.q2 := by
      unfold Orbit.q2; rw [h1, h2, h3, h4, hc]
      linear_combination (-(o.sW * o.sw) + o.cW * (o.cos_incl * o.cw)) * hss
    have x1 : (o.relativePosition C t).x = (o'.relativePosition C t).x := by
      rw [(sky_position hp t).1, (sky_position hp' t).1, (hcs t).1, (hcs t).2, e1, e3, hse, he, ha]
    have x2 : (o.relativePosition C t).y = (o'.relativePosition C t).y := by
      rw [(sky_position hp t).2, (sky_position hp' t).2, (hcs t).1, (hcs t).2, e2, e4, hse, he, ha]
    have g : ∀ o : Orbit, o.relativeAngles C t =
      (√((o.relativePosition C t).x ^ 2 + (o.relativePosition C t).y ^ 2), arctan2 (o.relativePosition C t).y (o.relativePosition C t).x) :=
      fun o => rfl
    rw [g, g, x1, x2]
  · intro h1 h2 h3 t
    change o'.cw = -o.cw at h1
    change o'.sw = -o.sw at h2
    constructor
    · change (o'.positionNow C (-o'.a) t none).z = -(o.positionNow C (-o.a) t none).z
      rw [Orbit.positionNow_eq hp.eccOk, Orbit.positionNow_eq hp'.eccOk, Orbit.rotate_eq, Orbit.rotate_eq, (hcs t).1, (hcs t).2, h1, h2, h3,
        hse, he, ha]
      simp only
      ring
    · change (o'.velocity (-o'.m_total) t).z = -(o.velocity (-o.m_total) t).z
      have hK := B.K_rel hp
      have hK' := B'.K_rel hp'
      have hKK : o'.K0 * -o'.m_total = o.K0 * -o.m_total := by
        rw [hse, hn, ha, ← hK] at hK'
        exact mul_right_cancel₀ hp.eccOk.se_pos.ne' hK'
      rw [Orbit.velocity_anom hp.eccOk, Orbit.velocity_anom hp'.eccOk, Orbit.rotate_eq, Orbit.rotate_eq, (hcs t).1, (hcs t).2, h1, h2, h3,
        hse, he, hKK]
      simp only
      ring

/-- **C103** (complete): two orbits of which one is eccentric and not seen face-on predict the same astrometry exactly if they have the
same period, eccentricity, semimajor axis, inclination and periastron passages, and the same angles up to a half turn of both. -/
theorem C103_astrometry_iff {C : Consts} {A A' : Args} {o o' : Orbit} (h : keplerianInit C A = .ok o) (hp : o.Physical)
    (h' : keplerianInit C A' = .ok o') (hp' : o'.Physical) (hi1 : |o.cos_incl| < 1) (he : 0 < o.eccVal) :
    SameAstrometry C o o' ↔ o'.period = o.period ∧ o'.eccVal = o.eccVal ∧ o'.a = o.a ∧ o'.cos_incl = o.cos_incl ∧ SamePeriastra o o' ∧
      SameAnglesUpToHalfTurn o o' := by
  constructor
  · intro hs
    obtain ⟨h1, h2, h3, h4, h5⟩ := C103_determined_size h hp h' hp' hs
    exact ⟨h1, h2, h3, h4, h5 he, C103_determined_angles h hp h' hp' hs hi1 he⟩
  · rintro ⟨h1, h2, h3, h4, h5, h6⟩
    exact (C103_half_turn h hp h' hp' h1 h2 h3 h4 h5).1 h6

/-! ## The tutorial -/

theorem astroArgs_ok (C : Consts) (logP logA tperi plus minus : ℝ) {e ci : ℝ} (h0 : 0 ≤ e) (h1 : e < 1) (c0 : -1 ≤ ci) (c1 : ci ≤ 1) :
    ∃ o, keplerianInit C (astroArgs logP logA e tperi plus minus ci) = .ok o ∧ o.Physical ∧ o.period = exp logP ∧ o.a = exp logA ∧
      o.eccVal = e ∧ o.t_periastron = tperi ∧ o.cos_incl = ci ∧ o.sin_incl = √(1 - ci ^ 2) ∧ o.cosOmega = cos (plus - minus) ∧
      o.sinOmega = sin (plus - minus) ∧ o.Omega = some (plus + minus) := by
  have hG := C.G_pos
  have hg := C.gccPerSun_pos
  have hpi := pi_pos
  have hP := exp_pos logP
  have hA := exp_pos logA
  refine ⟨_, rfl, ⟨?_, ?_, ?_, ?_, ?_, ?_, ?_, ?_, ?_, ?_⟩, ?_, ?_, ?_, ?_, ?_, ?_, ?_, ?_, ?_⟩
  all_goals simp [inclFactorOf, Orbit.eccVal, Orbit.cosOmega, Orbit.sinOmega, cos_arccos c0 c1, sin_arccos]
  all_goals first | positivity | assumption | exact abs_le.2 ⟨c0, c1⟩ | exact ⟨_, rfl, rfl⟩

theorem angle_of_signed {s x y : ℝ} (hs : s = 1 ∨ s = -1) :
    (cos x = s * cos y ∧ sin x = s * sin y) ↔ ∃ k : ℤ, x = y + k * π ∧ (s = 1 ↔ Even k) := by
  constructor
  · rintro ⟨h1, h2⟩
    have hcs := sin_sq_add_cos_sq y
    rcases hs with rfl | rfl
    · have : cos (x - y) = 1 := by rw [cos_sub, h1, h2]; linear_combination hcs
      obtain ⟨k, hk⟩ := (cos_eq_one_iff _).1 this
      exact ⟨2 * k, by push_cast; linarith, by simp⟩
    · have : cos (x - y - π) = 1 := by rw [cos_sub_pi, cos_sub, h1, h2]; linear_combination hcs
      obtain ⟨k, hk⟩ := (cos_eq_one_iff _).1 this
      refine ⟨2 * k + 1, by push_cast; linarith, ?_⟩
      constructor
      · intro h; norm_num at h
      · intro h; exact absurd h (by simp)
  · rintro ⟨k, rfl, hk⟩
    rcases Int.even_or_odd' k with ⟨m, rfl | rfl⟩
    · have : s = 1 := hk.2 (by simp)
      have e : y + ((2 * m : ℤ) : ℝ) * π = y + m * (2 * π) := by push_cast; ring
      rw [e, cos_add_int_mul_two_pi, sin_add_int_mul_two_pi, this, one_mul, one_mul]
      exact ⟨rfl, rfl⟩
    · have : s = -1 := hs.resolve_left fun h => absurd (hk.1 h) (by simp)
      have e : y + ((2 * m + 1 : ℤ) : ℝ) * π = y + π + m * (2 * π) := by push_cast; ring
      rw [e, cos_add_int_mul_two_pi, sin_add_int_mul_two_pi, this, cos_add_pi, sin_add_pi]
      constructor <;> ring

/-- **C103** (the astrometry tutorial): what the data can say about the parameters of the tutorial's model. The sums and differences of
angles that the tutorial samples are determined modulo half a turn, so that the posterior of the model has the same mode four times, while
the package's `angle` covers the full circle. -/
theorem C103_tutorial (C : Consts) (logP logA e tperi plus minus ci logP' logA' e' tperi' plus' minus' ci' : ℝ) (h0 : 0 < e) (h1 : e < 1)
    (c0 : -1 < ci) (c1 : ci < 1) (h0' : 0 ≤ e') (h1' : e' < 1) (c0' : -1 ≤ ci') (c1' : ci' ≤ 1) :
    ∃ o o', keplerianInit C (astroArgs logP logA e tperi plus minus ci) = .ok o ∧
      keplerianInit C (astroArgs logP' logA' e' tperi' plus' minus' ci') = .ok o' ∧
      (SameAstrometry C o o' ↔ logP' = logP ∧ logA' = logA ∧ e' = e ∧ ci' = ci ∧ (∃ k : ℤ, tperi' = tperi + k * exp logP) ∧
        (∃ k : ℤ, plus' = plus + k * π) ∧ ∃ k : ℤ, minus' = minus + k * π) := by
  obtain ⟨o, h, hp, a1, a2, a3, a4, a5, -, a6, a7, a8⟩ := astroArgs_ok C logP logA tperi plus minus h0.le h1 c0.le c1.le
  obtain ⟨o', h', hp', b1, b2, b3, b4, b5, -, b6, b7, b8⟩ := astroArgs_ok C logP' logA' tperi' plus' minus' h0' h1' c0' c1'
  refine ⟨o, o', h, h', ?_⟩
  rw [C103_astrometry_iff h hp h' hp' (by rw [a5]; exact abs_lt.2 ⟨c0, c1⟩) (by rwa [a3])]
  unfold SamePeriastra SameAnglesUpToHalfTurn
  rw [a1, a2, a3, a4, a5, a6, a7, a8, b1, b2, b3, b4, b5, b6, b7, b8, exp_eq_exp, exp_eq_exp]
  simp only [Option.getD_some]
  constructor
  · rintro ⟨e1, e2, e3, e4, e5, s, hs, e6, e7, e8, e9⟩
    obtain ⟨k, hk, hk2⟩ := (angle_of_signed hs).1 ⟨e6, e7⟩
    obtain ⟨l, hl, hl2⟩ := (angle_of_signed hs).1 ⟨e8, e9⟩
    have hkl : Even k ↔ Even l := hk2.symm.trans hl2
    obtain ⟨m, hm⟩ : Even (k + l) := Int.even_add.2 hkl
    have hm' : (k : ℝ) + l = m + m := by exact_mod_cast hm
    refine ⟨e1, e3, e2, e4, e5, ⟨m, ?_⟩, ⟨l - m, ?_⟩⟩
    · linear_combination (1 / 2 : ℝ) * hk + (1 / 2 : ℝ) * hl + (π / 2) * hm'
    · push_cast
      linear_combination (1 / 2 : ℝ) * hl - (1 / 2 : ℝ) * hk - (π / 2) * hm'
  · rintro ⟨e1, e2, e3, e4, e5, ⟨k, hk⟩, l, hl⟩
    have hs : (if Even (k - l) then (1 : ℝ) else -1) = 1 ∨ (if Even (k - l) then (1 : ℝ) else -1) = -1 := by
      split_ifs
      · exact Or.inl rfl
      · exact Or.inr rfl
    have hs2 : (if Even (k - l) then (1 : ℝ) else -1) = 1 ↔ Even (k - l) := by
      split_ifs with h
      · simp [h]
      · simp only [h, iff_false]; norm_num
    have w := (angle_of_signed (x := plus' - minus') (y := plus - minus) hs).2 ⟨k - l, by rw [hk, hl]; push_cast; ring, hs2⟩
    have W := (angle_of_signed (x := plus' + minus') (y := plus + minus) hs).2
      ⟨k + l, by rw [hk, hl]; push_cast; ring, hs2.trans (by rw [Int.even_sub, Int.even_add])⟩
    exact ⟨e1, e3, e2, e4, e5, _, hs, w.1, w.2, W.1, W.2⟩

/-- **C103** (wrapping): the difference of angles that the tutorial compares with zero is the difference to the nearest copy of the
observed angle, so that its normal density is the largest over all copies. -/
theorem C103_wrapped (model obs : ℝ) :
    (-π < thetaDiff model obs ∧ thetaDiff model obs ≤ π) ∧ (∃ k : ℤ, thetaDiff model obs = model - obs + k * (2 * π)) ∧
    (∀ k : ℤ, |thetaDiff model obs| ≤ |model - obs + k * (2 * π)|) ∧
    ∀ sd, 0 < sd → (∃ k : ℤ, normalPdf (thetaDiff model obs) sd 0 = normalPdf (model + k * (2 * π)) sd obs) ∧
      ∀ k : ℤ, normalPdf (model + k * (2 * π)) sd obs ≤ normalPdf (thetaDiff model obs) sd 0 := by
  have hcs := arctan2_cos_sin (sin_sq_add_cos_sq (model - obs))
  have hr : -π < thetaDiff model obs ∧ thetaDiff model obs ≤ π := ⟨Complex.neg_pi_lt_arg _, Complex.arg_le_pi _⟩
  obtain ⟨k, hk, hk2⟩ := (angle_of_signed (x := thetaDiff model obs) (y := model - obs) (s := 1) (Or.inl rfl)).1
    ⟨by rw [one_mul]; exact hcs.1, by rw [one_mul]; exact hcs.2⟩
  obtain ⟨m, hm⟩ := hk2.1 rfl
  have hk' : thetaDiff model obs = model - obs + m * (2 * π) := by
    rw [hk, hm]; push_cast; ring
  have hmin : ∀ k : ℤ, |thetaDiff model obs| ≤ |model - obs + k * (2 * π)| := by
    intro j
    have hj : model - obs + j * (2 * π) = thetaDiff model obs + ((j - m : ℤ) : ℝ) * (2 * π) := by
      rw [hk']; push_cast; ring
    rw [hj]
    generalize thetaDiff model obs = d at hr
    have hpi := pi_pos
    rcases lt_trichotomy (j - m) 0 with hlt | heq | hgt
    · have h2 : ((j - m : ℤ) : ℝ) ≤ -1 := by exact_mod_cast Int.le_sub_one_of_lt hlt
      have : d + ((j - m : ℤ) : ℝ) * (2 * π) ≤ -π := by nlinarith
      rw [abs_of_nonpos (by linarith : d + ((j - m : ℤ) : ℝ) * (2 * π) ≤ 0)]
      exact (abs_le.2 ⟨hr.1.le, hr.2⟩).trans (by linarith)
    · rw [heq]; simp
    · have h2 : (1 : ℝ) ≤ ((j - m : ℤ) : ℝ) := by exact_mod_cast hgt
      have : π ≤ d + ((j - m : ℤ) : ℝ) * (2 * π) := by nlinarith
      rw [abs_of_nonneg (by linarith : 0 ≤ d + ((j - m : ℤ) : ℝ) * (2 * π))]
      exact (abs_le.2 ⟨hr.1.le, hr.2⟩).trans this
  refine ⟨hr, ⟨m, hk'⟩, hmin, fun sd hsd => ⟨⟨m, ?_⟩, fun j => ?_⟩⟩
  · unfold normalPdf
    congr 3
    rw [hk']; ring
  · unfold normalPdf
    have h2 : thetaDiff model obs ^ 2 ≤ (model - obs + j * (2 * π)) ^ 2 := sq_le_sq.2 (hmin j)
    have h3 : 0 < sd * √(2 * π) := by have := pi_pos; positivity
    refine div_le_div_of_nonneg_right (exp_le_exp.2 ?_) h3.le
    refine div_le_div_of_nonneg_right ?_ (by positivity)
    nlinarith

/-- **C103** (face-on): on orbits seen face-on only the sum of the angles is determined, which in the tutorial leaves `minus` free. -/
theorem C103_face_on (C : Consts) (logP logA e tperi plus minus minus' : ℝ) (h0 : 0 ≤ e) (h1 : e < 1) :
    ∃ o o', keplerianInit C (astroArgs logP logA e tperi plus minus 1) = .ok o ∧
      keplerianInit C (astroArgs logP logA e tperi plus minus' 1) = .ok o' ∧ SameAstrometry C o o' := by
  obtain ⟨o, h, hp, a1, a2, a3, a4, a5, -, a6, a7, a8⟩ := astroArgs_ok C logP logA tperi plus minus h0 h1 (by norm_num) le_rfl
  obtain ⟨o', h', hp', b1, b2, b3, b4, b5, -, b6, b7, b8⟩ := astroArgs_ok C logP logA tperi plus minus' h0 h1 (by norm_num) le_rfl
  refine ⟨o, o', h, h', fun t => ?_⟩
  have B := built_of_init h
  have B' := built_of_init h'
  have hE : o.E t = o'.E t := by
    have := E_shift (k := 0) B hp B' (a3.trans b3.symm) (a1.trans b1.symm) (by rw [a4, b4]; simp) t
    simpa using this
  have hse : o'.se = o.se := by unfold Orbit.se; rw [a3, b3]
  have w1 : o.cw = cos (plus - minus) := a6
  have w2 : o.sw = sin (plus - minus) := a7
  have w3 : o.cW = cos (plus + minus) := by unfold Orbit.cW; rw [a8]
  have w4 : o.sW = sin (plus + minus) := by unfold Orbit.sW; rw [a8]
  have w1' : o'.cw = cos (plus - minus') := b6
  have w2' : o'.sw = sin (plus - minus') := b7
  have w3' : o'.cW = cos (plus + minus') := by unfold Orbit.cW; rw [b8]
  have w4' : o'.sW = sin (plus + minus') := by unfold Orbit.sW; rw [b8]
  have hc : ∀ m, cos (plus + m) * cos (plus - m) - sin (plus + m) * (1 * sin (plus - m)) = cos (2 * plus) := by
    intro m; rw [one_mul, ← cos_add]; congr 1; ring
  have hs : ∀ m, sin (plus + m) * cos (plus - m) + cos (plus + m) * (1 * sin (plus - m)) = sin (2 * plus) := by
    intro m; rw [one_mul, ← sin_add]; congr 1; ring
  have e1 : o'.p1 = o.p1 := by unfold Orbit.p1; rw [w1, w2, w3, w4, w1', w2', w3', w4', a5, b5, hc, hc]
  have e2 : o'.p2 = o.p2 := by unfold Orbit.p2; rw [w1, w2, w3, w4, w1', w2', w3', w4', a5, b5, hs, hs]
  have e3 : o'.q1 = o.q1 := by
    unfold Orbit.q1; rw [w1, w2, w3, w4, w1', w2', w3', w4', a5, b5]
    linear_combination hs minus - hs minus'
  have e4 : o'.q2 = o.q2 := by
    unfold Orbit.q2; rw [w1, w2, w3, w4, w1', w2', w3', w4', a5, b5]
    linear_combination hc minus' - hc minus
  have x1 : (o.relativePosition C t).x = (o'.relativePosition C t).x := by
    rw [(sky_position hp t).1, (sky_position hp' t).1, hE, e1, e3, hse, a2, b2, a3, b3]
  have x2 : (o.relativePosition C t).y = (o'.relativePosition C t).y := by
    rw [(sky_position hp t).2, (sky_position hp' t).2, hE, e2, e4, hse, a2, b2, a3, b3]
  have g : ∀ o : Orbit, o.relativeAngles C t =
    (√((o.relativePosition C t).x ^ 2 + (o.relativePosition C t).y ^ 2), arctan2 (o.relativePosition C t).y (o.relativePosition C t).x) :=
    fun o => rfl
  rw [g, g, x1, x2]

/-- The hypotheses can be met: two orbits of the tutorial with the same astrometry and opposite sides of the sky plane. -/
example (C : Consts) : ∃ o o', keplerianInit C (astroArgs 0 0 (1 / 2) 0 1 0 (1 / 2)) = .ok o ∧
    keplerianInit C (astroArgs 0 0 (1 / 2) 1 (1 + π) 0 (1 / 2)) = .ok o' ∧ SameAstrometry C o o' ∧ o ≠ o' := by
  obtain ⟨o, o', h, h', hiff⟩ := C103_tutorial C 0 0 (1 / 2) 0 1 0 (1 / 2) 0 0 (1 / 2) 1 (1 + π) 0 (1 / 2) (by norm_num) (by norm_num)
    (by norm_num) (by norm_num) (by norm_num) (by norm_num) (by norm_num) (by norm_num)
  refine ⟨o, o', h, h', hiff.2 ⟨rfl, rfl, rfl, rfl, ⟨1, by simp⟩, ⟨1, by simp⟩, ⟨0, by simp⟩⟩, ?_⟩
  obtain ⟨o1, k1, -, -, -, -, t1, -⟩ := astroArgs_ok C 0 0 0 1 0 (e := 1 / 2) (ci := 1 / 2) (by norm_num) (by norm_num) (by norm_num)
    (by norm_num)
  obtain ⟨o2, k2, -, -, -, -, t2, -⟩ := astroArgs_ok C 0 0 1 (1 + π) 0 (e := 1 / 2) (ci := 1 / 2) (by norm_num) (by norm_num) (by norm_num)
    (by norm_num)
  rw [h] at k1
  rw [h'] at k2
  cases k1
  cases k2
  rintro rfl
  rw [t1] at t2
  norm_num at t2

example (C : Consts) : ∃ o o', keplerianInit C (astroArgs 0 0 (1 / 2) 0 1 0 (1 / 2)) = .ok o ∧
    keplerianInit C (astroArgs 0 0 (1 / 2) 0 2 0 (1 / 2)) = .ok o' ∧ ¬SameAstrometry C o o' := by
  obtain ⟨o, o', h, h', hiff⟩ := C103_tutorial C 0 0 (1 / 2) 0 1 0 (1 / 2) 0 0 (1 / 2) 0 2 0 (1 / 2) (by norm_num) (by norm_num)
    (by norm_num) (by norm_num) (by norm_num) (by norm_num) (by norm_num) (by norm_num)
  refine ⟨o, o', h, h', fun hs => ?_⟩
  obtain ⟨-, -, -, -, -, ⟨k, hk⟩, -⟩ := hiff.1 hs
  have hpi := pi_gt_three
  have h1 : (k : ℝ) * π = 1 := by linarith
  have h2 : (0 : ℝ) < k := by by_contra hc; nlinarith
  have h3 : (1 : ℝ) ≤ k := by
    have : (0 : ℤ) < k := by exact_mod_cast h2
    exact_mod_cast this
  nlinarith

end Exo
