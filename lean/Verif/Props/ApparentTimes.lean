import Verif.Props.LightDelay
import Verif.Props.Conjunction
import Verif.Lemmas.Apparent
import Verif.Spec.ApparentTimes

/-!
# C102: what is seen when, with light travel time
-/

namespace Exo
open Real

/-! ## Every orbit -/

/-- The code's formula, without its cancellation. -/
theorem delay_eq_div (C : Consts) (o : Orbit) (a t Z V W : ℝ) (hZ : (o.positionNow C a t none).z = Z) (hV : o.retardedVz a t = V)
    (hW : o.retardedAz C a t = W) (hv : 0 < C.c + V) (hd : 0 ≤ (C.c + V) ^ 2 + 2 * W * Z) :
    o.delay C a t = if |W| < 1.0e-10 then -Z / (C.c + V) else -(2 * Z) / (C.c + V + √((C.c + V) ^ 2 + 2 * W * Z)) := by
  have hc := C.c_pos
  unfold Orbit.delay
  simp only [hZ, hV, hW, zero_sub]
  split_ifs with h
  · rfl
  · have hW0 : W ≠ 0 := by
      rintro rfl
      apply h
      rw [abs_zero]
      norm_num
    have e : (1 + V / C.c) * (1 + V / C.c) - 2 * W * -Z / C.c ^ 2 = ((C.c + V) ^ 2 + 2 * W * Z) / C.c ^ 2 := by
      field_simp
      ring
    rw [e, sqrt_div hd, sqrt_sq hc.le]
    have hs := sq_sqrt hd
    have hp : 0 < C.c + V + √((C.c + V) ^ 2 + 2 * W * Z) := by positivity
    rw [eq_div_iff hp.ne']
    generalize √((C.c + V) ^ 2 + 2 * W * Z) = r at hs
    field_simp
    linear_combination (-1 : ℝ) * hs

/-- Sign and size of the delay. -/
theorem delay_bounds (C : Consts) (o : Orbit) (a t Z V W : ℝ) (hZ : (o.positionNow C a t none).z = Z) (hV : o.retardedVz a t = V)
    (hW : o.retardedAz C a t = W) (hv : 0 < C.c + V) (hd : 0 ≤ (C.c + V) ^ 2 + 2 * W * Z) (hWZ : W * Z ≤ 0) :
    (0 < Z → o.delay C a t < 0) ∧ (Z < 0 → 0 < o.delay C a t) ∧ (Z = 0 → o.delay C a t = 0) ∧
    |Z| / (C.c + V) ≤ |o.delay C a t| ∧ |o.delay C a t| ≤ 2 * |Z| / (C.c + V) := by
  rw [delay_eq_div C o a t Z V W hZ hV hW hv hd]
  split_ifs with h
  · refine ⟨fun h => div_neg_of_neg_of_pos (by linarith) hv, fun h => div_pos (by linarith) hv, fun h => by rw [h]; simp, ?_, ?_⟩
    · rw [abs_div, abs_neg, abs_of_pos hv]
    · rw [abs_div, abs_neg, abs_of_pos hv]
      exact div_le_div_of_nonneg_right (by linarith [abs_nonneg Z]) hv.le
  · have hr : √((C.c + V) ^ 2 + 2 * W * Z) ≤ C.c + V := sqrt_le_iff.2 ⟨hv.le, by linarith⟩
    have hr0 := sqrt_nonneg ((C.c + V) ^ 2 + 2 * W * Z)
    set r := √((C.c + V) ^ 2 + 2 * W * Z)
    have hp : 0 < C.c + V + r := by linarith
    refine ⟨fun h => div_neg_of_neg_of_pos (by linarith) hp, fun h => div_pos (by linarith) hp, fun h => by rw [h]; simp, ?_, ?_⟩
    · rw [abs_div, abs_neg, abs_of_pos hp, abs_mul, abs_two, div_le_div_iff₀ hv hp]
      nlinarith [abs_nonneg Z]
    · rw [abs_div, abs_neg, abs_of_pos hp, abs_mul, abs_two]
      exact div_le_div_of_nonneg_left (by positivity) hv (by linarith)

/-- The body accelerates towards the plane of the sky through the barycentre. -/
theorem az_mul_z {C : Consts} {A : Args} {o : Orbit} (B : Built C A o) (hp : o.Physical) (a t : ℝ) :
    o.retardedAz C a t * (o.positionNow C a t none).z ≤ 0 := by
  have hd := hp.eccOk.dpos t
  have h1 : o.retardedAz C a t =
      -(o.n ^ 2) * (a / (a * (1 - o.eccVal * cos (o.E t)))) ^ 3 * (o.positionNow C a t none).z := by
    unfold Orbit.retardedAz
    simp only [Orbit.radius_anom hp.eccOk, B.n_eq]
  rw [h1]
  have h2 : 0 ≤ a / (a * (1 - o.eccVal * cos (o.E t))) := by
    rw [← div_div]
    exact div_nonneg (by by_cases h : a = 0 <;> simp [h]) hd.le
  have := mul_nonneg (mul_nonneg (sq_nonneg o.n) (pow_nonneg h2 3)) (sq_nonneg (o.positionNow C a t none).z)
  linarith [show o.n ^ 2 * (a / (a * (1 - o.eccVal * cos (o.E t)))) ^ 3 * (o.positionNow C a t none).z ^ 2 =
    -(-(o.n ^ 2) * (a / (a * (1 - o.eccVal * cos (o.E t)))) ^ 3 * (o.positionNow C a t none).z * (o.positionNow C a t none).z) by ring]

/-- **C102** (every orbit): a planet in front of the star is seen ahead of time and a planet behind the star is seen late, by at least
the light travel time `|z| / (c - ż)` to the plane of the star and at most twice that, as long as the planet is slower than light and the
code's square root exists. -/
theorem C102_early_or_late (C : Consts) (A : Args) (o : Orbit) (h : keplerianInit C A = .ok o) (hp : o.Physical) (t : ℝ)
    (hv : (o.relativeVelocity t).z < C.c)
    (hd : 0 ≤ (C.c - (o.relativeVelocity t).z) ^ 2 + 2 * (o.relativeAcceleration t).z * (o.relativePosition C t).z) :
    ∃ d, o.relativePosition C t none true = o.relativePosition C (t - d) ∧
      (0 < (o.relativePosition C t).z → d < 0) ∧ ((o.relativePosition C t).z < 0 → 0 < d) ∧ ((o.relativePosition C t).z = 0 → d = 0) ∧
      |(o.relativePosition C t).z| / (C.c - (o.relativeVelocity t).z) ≤ |d| ∧
      |d| ≤ 2 * |(o.relativePosition C t).z| / (C.c - (o.relativeVelocity t).z) := by
  have B := built_of_init h
  have hV : o.retardedVz (-o.a) t = -(o.relativeVelocity t).z := retardedVz_eq B hp _ _ t (B.K_rel hp)
  have hW : o.retardedAz C (-o.a) t = (o.relativeAcceleration t).z :=
    retardedAz_eq B hp _ _ t (neg_ne_zero.2 hp.a_pos.ne') (B.K_rel hp)
  have hWZ : (o.relativeAcceleration t).z * (o.relativePosition C t).z ≤ 0 := by
    rw [← hW]
    exact az_mul_z B hp _ t
  rw [sub_eq_add_neg] at hd ⊢
  exact ⟨o.delay C (-o.a) t, rfl, delay_bounds C o (-o.a) t _ _ _ rfl hV hW (by linarith) hd hWZ⟩

/-! ## Circular orbits -/

namespace Built
variable {C : Consts} {A : Args} {o : Orbit} (B : Built C A o)
include B

/-- The motion on a circular orbit, from the reference transit. -/
theorem circular_forms (hp : o.Physical) (hr : o.Regular) (he : o.eccVal = 0) (a t : ℝ) :
    (o.positionNow C a t none).z = -(a * o.sin_incl * cos (o.n * (t - o.t0))) ∧
    (o.positionNow C a t none).x * cos o.nodeAngle + (o.positionNow C a t none).y * sin o.nodeAngle = -(a * sin (o.n * (t - o.t0))) ∧
    o.retardedVz a t = -(o.n * a * o.sin_incl * sin (o.n * (t - o.t0))) ∧
    (a ≠ 0 → o.retardedAz C a t = o.n ^ 2 * (a * o.sin_incl * cos (o.n * (t - o.t0)))) := by
  have hse : o.se = 1 := by unfold Orbit.se; rw [he]; simp
  have hE : ∀ s, o.E s = o.meanAnom s := by
    intro s
    have := keplerMap_eccAnomaly (e := o.eccVal) he.ge (o.meanAnom s)
    unfold keplerMap at this
    rw [he, zero_mul, sub_zero] at this
    unfold Orbit.E
    rw [he]
    exact this
  have hu := hp.omega_sq
  obtain ⟨c0, s0⟩ := B.E_t0 hp hr.sw_ne
  rw [he, zero_mul, add_zero, add_zero, div_one] at c0
  rw [he, hse, zero_mul, add_zero, one_mul, div_one] at s0
  have hEt : o.E t = o.n * (t - o.t0) + o.E o.t0 := by
    rw [hE, hE, B.meanAnom_eq, B.meanAnom_eq]; ring
  have hc : cos (o.E t) = cos (o.n * (t - o.t0)) * o.sw - sin (o.n * (t - o.t0)) * o.cw := by
    rw [hEt, cos_add, c0, s0]
  have hs : sin (o.E t) = sin (o.n * (t - o.t0)) * o.sw + cos (o.n * (t - o.t0)) * o.cw := by
    rw [hEt, sin_add, c0, s0]
  have hz : (o.positionNow C a t none).z = -(a * o.sin_incl * cos (o.n * (t - o.t0))) := by
    rw [Orbit.positionNow_eq hp.eccOk, Orbit.rotate_eq, he, hse, hc, hs]
    simp only
    linear_combination (-(a * o.sin_incl * cos (o.n * (t - o.t0)))) * hu
  refine ⟨hz, ?_, ?_, fun ha => ?_⟩
  · rw [← o.cW_eq, ← o.sW_eq, Orbit.positionNow_eq hp.eccOk, Orbit.rotate_eq, he, hse, hc, hs]
    simp only
    have hW := o.Omega_sq
    linear_combination (-(a * sin (o.n * (t - o.t0)))) * hu +
      (-(a * sin (o.n * (t - o.t0)))) * (o.sw ^ 2 + o.cw ^ 2) * hW
  · rw [B.retardedVz_form, Orbit.sinf_eq, Orbit.cosf_eq, he, hse, hc, hs]
    simp only [zero_mul, sub_zero, div_one, zero_add, one_mul]
    linear_combination (-(o.n * a * o.sin_incl * sin (o.n * (t - o.t0)))) * hu
  · have h1 : o.retardedAz C a t =
        -(o.n ^ 2) * (a / (a * (1 - o.eccVal * cos (o.E t)))) ^ 3 * (o.positionNow C a t none).z := by
      unfold Orbit.retardedAz
      simp only [Orbit.radius_anom hp.eccOk, B.n_eq]
    rw [h1, hz, he, zero_mul, sub_zero, mul_one, div_self ha]
    ring

end Built

theorem phaseShift_add (β x : ℝ) (k : ℤ) : phaseShift β (x + k * (2 * π)) = phaseShift β x := by
  unfold phaseShift
  rw [sin_add_int_mul_two_pi, cos_add_int_mul_two_pi]

theorem phaseShift_pi (β x : ℝ) : phaseShift β (x + π) = phaseShift (-β) x := by
  unfold phaseShift
  rw [sin_add_pi, cos_add_pi]
  simp only [neg_mul, mul_neg]

/-- The phase at which a body on a circular orbit is seen. -/
theorem seen_phase {C : Consts} {A : Args} {o : Orbit} (B : Built C A o) (hp : o.Physical) (hr : o.Regular) (he : o.eccVal = 0)
    {a β : ℝ} (ha : 0 < a) (hβ : β = o.n * (a * o.sin_incl) / C.c) (hβ0 : 0 < β) (hβ1 : β ≤ 1 / 10) (t : ℝ) :
    (1.0e-10 ≤ o.n ^ 2 * (a * o.sin_incl) * |cos (o.n * (t - o.t0))| →
      o.n * o.delay C (-a) t = -phaseShift β (o.n * (t - o.t0))) ∧
    |o.n * o.delay C (-a) t| ≤ 2 * β := by
  have hc := C.c_pos
  have hn := B.n_pos hp
  have hab : |β| ≤ 1 / 10 := by rwa [abs_of_pos hβ0]
  obtain ⟨hz, -, hv, hw⟩ := B.circular_forms hp hr he (-a) t
  replace hw := hw (neg_ne_zero.2 ha.ne')
  have hs : 0 < o.sin_incl := by
    have h1 : 0 < o.n * (a * o.sin_incl) := by
      rw [hβ] at hβ0
      exact (div_pos_iff_of_pos_right hc).1 hβ0
    exact pos_of_mul_pos_right (pos_of_mul_pos_right h1 hn.le) ha.le
  generalize o.n * (t - o.t0) = φ at *
  have hm : o.n * (a * o.sin_incl) = β * C.c := by rw [hβ]; field_simp
  have hz' : (o.positionNow C (-a) t none).z = a * o.sin_incl * cos φ := by rw [hz]; ring
  have hv' : o.retardedVz (-a) t = β * C.c * sin φ := by rw [hv, ← hm]; ring
  have hw' : o.retardedAz C (-a) t = -(o.n * (β * C.c * cos φ)) := by rw [hw, ← hm]; ring
  have hp1 := ps_p hab φ
  have hr1 := ps_r hab φ
  have hd1 := ps_disc hab φ
  have hpos : 0 < C.c + β * C.c * sin φ := by
    have : C.c + β * C.c * sin φ = C.c * (1 + β * sin φ) := by ring
    rw [this]
    exact mul_pos hc (by linarith)
  have hdisc : (C.c + β * C.c * sin φ) ^ 2 + 2 * (-(o.n * (β * C.c * cos φ))) * (a * o.sin_incl * cos φ) =
      C.c ^ 2 * ((1 + β * sin φ) ^ 2 - 2 * (β * cos φ) ^ 2) := by
    linear_combination (-2 * β * C.c * cos φ ^ 2) * hm
  have hd0 : 0 ≤ (C.c + β * C.c * sin φ) ^ 2 + 2 * (-(o.n * (β * C.c * cos φ))) * (a * o.sin_incl * cos φ) := by
    rw [hdisc]
    exact mul_nonneg (sq_nonneg _) (by linarith)
  have key := delay_eq_div C o (-a) t _ _ _ hz' hv' hw' hpos hd0
  have hwabs : |-(o.n * (β * C.c * cos φ))| = o.n ^ 2 * (a * o.sin_incl) * |cos φ| := by
    rw [abs_neg, show o.n * (β * C.c * cos φ) = o.n ^ 2 * (a * o.sin_incl) * cos φ by linear_combination (-o.n * cos φ) * hm, abs_mul,
      abs_of_pos (by positivity)]
  rw [hwabs, hdisc, sqrt_mul (sq_nonneg _), sqrt_sq hc.le] at key
  have hbig : o.n * (-(2 * (a * o.sin_incl * cos φ)) /
      (C.c + β * C.c * sin φ + C.c * √((1 + β * sin φ) ^ 2 - 2 * (β * cos φ) ^ 2))) = -phaseShift β φ := by
    unfold phaseShift
    rw [show C.c + β * C.c * sin φ + C.c * √((1 + β * sin φ) ^ 2 - 2 * (β * cos φ) ^ 2) =
      C.c * (1 + β * sin φ + √((1 + β * sin φ) ^ 2 - 2 * (β * cos φ) ^ 2)) by ring]
    have hne : 1 + β * sin φ + √((1 + β * sin φ) ^ 2 - 2 * (β * cos φ) ^ 2) ≠ 0 := by linarith
    generalize 1 + β * sin φ + √((1 + β * sin φ) ^ 2 - 2 * (β * cos φ) ^ 2) = S at hne
    rw [← neg_div, ← mul_div_assoc, div_eq_div_iff (mul_ne_zero hc.ne' hne) hne]
    linear_combination (-2 * cos φ * S) * hm
  constructor
  · intro h
    rw [key, if_neg (not_lt.2 h), hbig]
  · rw [key]
    split_ifs with h
    · rw [show C.c + β * C.c * sin φ = C.c * (1 + β * sin φ) by ring, ← mul_div_assoc,
        show o.n * -(a * o.sin_incl * cos φ) = C.c * -(β * cos φ) by linear_combination (-cos φ) * hm,
        mul_div_mul_left _ _ hc.ne', abs_div, abs_neg, abs_of_pos (by linarith : 0 < 1 + β * sin φ),
        div_le_iff₀ (by linarith), abs_mul, abs_of_pos hβ0]
      have := abs_cos_le_one φ
      nlinarith
    · rw [hbig, abs_neg]
      have := phaseShift_abs hab φ
      rwa [abs_of_pos hβ0] at this

/-- The times at which the true phase of what is seen is `θ` modulo a full turn. -/
theorem seen_times {C : Consts} {A : Args} {o : Orbit} (B : Built C A o) (hp : o.Physical) (hr : o.Regular) (he : o.eccVal = 0)
    {a β β' θ : ℝ} (ha : 0 < a) (hβ : β = o.n * (a * o.sin_incl) / C.c) (hβ0 : 0 < β) (hβ1 : β ≤ 1 / 10)
    (hacc : 2.0e-10 ≤ o.n ^ 2 * (a * o.sin_incl)) (hβ' : |β'| = β) (hθ : ∀ x, phaseShift β (x + θ) = phaseShift β' x)
    (hcos : ∀ x, |cos (x + θ)| = |cos x|) :
    ∃ φ, |φ + β'| ≤ 5 * β ^ 2 * β ∧ (0 < β' → φ < 0) ∧ (β' < 0 → 0 < φ) ∧
      ∀ t, (∃ k : ℤ, o.n * (t - o.delay C (-a) t - o.t0) = θ + k * (2 * π)) ↔
        ∃ k : ℤ, t = o.t0 + (θ + φ) / o.n + k * o.period := by
  have hn := B.n_pos hp
  have hP := hp.period_pos
  have hnP : o.n * o.period = 2 * π := by rw [B.n_eq]; field_simp
  obtain ⟨φ, h0, hu, hb, hs1, hs2⟩ := phase_unique (β := β') (by rwa [hβ'])
  have hcosbig : ∀ x, |x| ≤ 1 / 5 → 1 / 2 ≤ |cos x| := by
    intro x hx
    have h1 := one_sub_sq_div_two_le_cos (x := x)
    have h2 : x ^ 2 ≤ (1 / 5) ^ 2 := sq_le_sq' (abs_le.1 hx).1 (abs_le.1 hx).2
    exact le_trans (by nlinarith) (le_abs_self _)
  refine ⟨φ, ?_, hs1, hs2, fun t => ?_⟩
  · have := hb
    rw [hβ', ← sq_abs, hβ'] at this
    exact this
  have ht : ∀ k : ℤ, t = o.t0 + (θ + φ) / o.n + k * o.period ↔ o.n * (t - o.t0) = θ + φ + k * (2 * π) := by
    intro k
    constructor
    · intro h
      rw [h]
      have := hn.ne'
      field_simp
      linear_combination (k : ℝ) * hnP
    · intro h
      have : o.n * t = o.n * (o.t0 + (θ + φ) / o.n + k * o.period) := by
        have := hn.ne'
        rw [mul_add, mul_add, mul_div_cancel₀ _ this]
        linear_combination h - (k : ℝ) * hnP
      exact mul_left_cancel₀ hn.ne' this
  simp only [ht]
  obtain ⟨q1, q2⟩ := seen_phase B hp hr he ha hβ hβ0 hβ1 t
  have hexp : o.n * (t - o.delay C (-a) t - o.t0) = o.n * (t - o.t0) - o.n * o.delay C (-a) t := by ring
  have hphase : ∀ (x : ℝ) (k : ℤ), o.n * (t - o.t0) = x + θ + k * (2 * π) → |x| ≤ 1 / 5 →
      o.n * o.delay C (-a) t = -phaseShift β' x := by
    intro x k hx hx5
    rw [q1, hx, phaseShift_add, hθ]
    rw [hx, cos_add_int_mul_two_pi, hcos]
    have := hcosbig x hx5
    have h2 : 2.0e-10 * (1 / 2) ≤ o.n ^ 2 * (a * o.sin_incl) * |cos x| :=
      mul_le_mul hacc this (by norm_num) ((by norm_num : (0 : ℝ) ≤ 2.0e-10).trans hacc)
    norm_num at h2 ⊢
    linarith
  constructor
  · rintro ⟨k, hk⟩
    refine ⟨k, ?_⟩
    rw [hexp] at hk
    have hx : o.n * (t - o.t0) = o.n * o.delay C (-a) t + θ + k * (2 * π) := by linarith
    have h1 := hphase _ k hx (q2.trans (by linarith))
    have h2 := hu (o.n * o.delay C (-a) t) (by linarith)
    rw [hx, h2]
    ring
  · rintro ⟨k, hk⟩
    refine ⟨k, ?_⟩
    have hφ : |φ| ≤ 1 / 5 := by
      have h1 : φ = -phaseShift β' φ := by linarith
      have h2 := phaseShift_abs (β := β') (by rwa [hβ']) φ
      rw [h1, abs_neg]
      rw [hβ'] at h2
      linarith
    have h1 := hphase φ k (by rw [hk]; ring) hφ
    rw [hexp, hk, h1]
    linarith

/-- On the meridian on the near or far side, on a circular orbit. -/
theorem meridian_iff {C : Consts} {A : Args} {o : Orbit} (B : Built C A o) (hp : o.Physical) (hr : o.Regular) (he : o.eccVal = 0)
    (hi : 0 < o.sin_incl) {a : ℝ} (ha : 0 < a) (g : ℝ) :
    ((OnMeridian (o.Omega.getD 0) (o.positionNow C (-a) g none) ∧ 0 < (o.positionNow C (-a) g none).z) ↔
      ∃ k : ℤ, o.n * (g - o.t0) = 0 + k * (2 * π)) ∧
    ((OnMeridian (o.Omega.getD 0) (o.positionNow C (-a) g none) ∧ (o.positionNow C (-a) g none).z < 0) ↔
      ∃ k : ℤ, o.n * (g - o.t0) = π + k * (2 * π)) := by
  obtain ⟨hz, hm, -, -⟩ := B.circular_forms hp hr he (-a) g
  have hm' : OnMeridian (o.Omega.getD 0) (o.positionNow C (-a) g none) ↔ sin (o.n * (g - o.t0)) = 0 := by
    unfold OnMeridian
    change (o.positionNow C (-a) g none).x * cos o.nodeAngle + (o.positionNow C (-a) g none).y * sin o.nodeAngle = 0 ↔ _
    rw [hm]
    simp [ha.ne']
  have hz' : (o.positionNow C (-a) g none).z = a * o.sin_incl * cos (o.n * (g - o.t0)) := by rw [hz]; ring
  have has := mul_pos ha hi
  rw [hm', hz']
  generalize o.n * (g - o.t0) = φ
  constructor
  · rw [mul_pos_iff_of_pos_left has]
    constructor
    · rintro ⟨h1, h2⟩
      have : cos φ = 1 := by
        have h3 := sin_sq_add_cos_sq φ
        rw [h1] at h3
        nlinarith
      obtain ⟨k, hk⟩ := (cos_eq_one_iff φ).1 this
      exact ⟨k, by rw [← hk, zero_add]⟩
    · rintro ⟨k, rfl⟩
      rw [sin_add_int_mul_two_pi, cos_add_int_mul_two_pi, sin_zero, cos_zero]
      exact ⟨rfl, one_pos⟩
  · rw [show a * o.sin_incl * cos φ < 0 ↔ cos φ < 0 from
      ⟨fun h => by by_contra h2; nlinarith, fun h => mul_neg_of_pos_of_neg has h⟩]
    constructor
    · rintro ⟨h1, h2⟩
      have : cos (φ - π) = 1 := by
        have h3 := sin_sq_add_cos_sq φ
        rw [h1] at h3
        rw [cos_sub_pi]
        nlinarith
      obtain ⟨k, hk⟩ := (cos_eq_one_iff _).1 this
      exact ⟨k, by linarith⟩
    · rintro ⟨k, rfl⟩
      rw [sin_add_int_mul_two_pi, cos_add_int_mul_two_pi, sin_pi, cos_pi]
      exact ⟨rfl, by norm_num⟩

/-- Transits and eclipses of a body with amplitude `a` on a circular orbit. -/
theorem apparent_times {C : Consts} {A : Args} {o : Orbit} (B : Built C A o) (hp : o.Physical) (hr : o.Regular) (he : o.eccVal = 0)
    (hi : 0 < o.sin_incl) {a L : ℝ} (ha : 0 < a) (hL : L = a * o.sin_incl / C.c) (hslow : o.n * L ≤ 1 / 10)
    (hacc : 2.0e-10 ≤ o.n ^ 2 * (a * o.sin_incl)) :
    (∃ T, (∀ t, (OnMeridian (o.Omega.getD 0) (o.retardedPosition C (-a) t none) ∧ 0 < (o.retardedPosition C (-a) t none).z) ↔
        ∃ k : ℤ, t = T + k * o.period) ∧ T < o.t0 ∧ |T - (o.t0 - L)| ≤ 5 * (o.n * L) ^ 2 * L) ∧
    (∃ T, (∀ t, (OnMeridian (o.Omega.getD 0) (o.retardedPosition C (-a) t none) ∧ (o.retardedPosition C (-a) t none).z < 0) ↔
        ∃ k : ℤ, t = T + k * o.period) ∧ o.t0 + o.period / 2 < T ∧ |T - (o.t0 + o.period / 2 + L)| ≤ 5 * (o.n * L) ^ 2 * L) := by
  have hc := C.c_pos
  have hn := B.n_pos hp
  have hL0 : 0 < L := by rw [hL]; positivity
  have hβ : o.n * L = o.n * (a * o.sin_incl) / C.c := by rw [hL]; ring
  have hβ0 : 0 < o.n * L := mul_pos hn hL0
  have hP := hp.period_pos
  have hhalf : π / o.n = o.period / 2 := by
    rw [B.n_eq]
    have := pi_pos.ne'
    field_simp
  constructor
  · obtain ⟨φ, h1, h2, -, h3⟩ := seen_times B hp hr he (θ := 0) (β' := o.n * L) ha hβ hβ0 hslow hacc (abs_of_pos hβ0)
      (fun x => by rw [add_zero]) (fun x => by rw [add_zero])
    refine ⟨o.t0 + (0 + φ) / o.n, fun t => ?_, ?_, ?_⟩
    · rw [← h3]
      exact (meridian_iff B hp hr he hi ha _).1
    · rw [zero_add]
      linarith [div_neg_of_neg_of_pos (h2 hβ0) hn]
    · rw [show o.t0 + (0 + φ) / o.n - (o.t0 - L) = (φ + o.n * L) / o.n by field_simp; ring, abs_div, abs_of_pos hn, div_le_iff₀ hn]
      linarith
  · obtain ⟨φ, h1, -, h2, h3⟩ := seen_times B hp hr he (θ := π) (β' := -(o.n * L)) ha hβ hβ0 hslow hacc
      (by rw [abs_neg, abs_of_pos hβ0]) (fun x => phaseShift_pi _ x) (fun x => by rw [cos_add_pi, abs_neg])
    refine ⟨o.t0 + (π + φ) / o.n, fun t => ?_, ?_, ?_⟩
    · rw [← h3]
      exact (meridian_iff B hp hr he hi ha _).2
    · rw [add_div, hhalf]
      linarith [div_pos (h2 (by linarith)) hn]
    · rw [add_div, hhalf, show o.t0 + (o.period / 2 + φ / o.n) - (o.t0 + o.period / 2 + L) = (φ + -(o.n * L)) / o.n by field_simp; ring,
        abs_div, abs_of_pos hn, div_le_iff₀ hn]
      linarith

/-- **C102** (the tutorial's claim, relative position): on a circular orbit the planet is seen in front of the star exactly once per
period, earlier than the reference transit by the light travel time `L = a sin i / c` up to a relative error of `5 (n L)²`; and behind the
star exactly once per period, later than half a period after the reference transit by as much. -/
theorem C102_transits_early_eclipses_late (C : Consts) (A : Args) (o : Orbit) (h : keplerianInit C A = .ok o) (hp : o.Physical)
    (hr : o.Regular) (he : o.eccVal = 0) (hi : 0 < o.sin_incl) (L : ℝ) (hL : L = o.a * o.sin_incl / C.c)
    (hslow : 2 * π / o.period * L ≤ 1 / 10) (hacc : 2.0e-10 ≤ (2 * π / o.period) ^ 2 * (o.a * o.sin_incl)) :
    (∃ T, (∀ t, SeenInFront C o t ↔ ∃ k : ℤ, t = T + k * o.period) ∧ T < o.t0 ∧
      |T - (o.t0 - L)| ≤ 5 * (2 * π / o.period * L) ^ 2 * L) ∧
    (∃ T, (∀ t, SeenBehind C o t ↔ ∃ k : ℤ, t = T + k * o.period) ∧ o.t0 + o.period / 2 < T ∧
      |T - (o.t0 + o.period / 2 + L)| ≤ 5 * (2 * π / o.period * L) ^ 2 * L) := by
  have B := built_of_init h
  rw [← B.n_eq] at hslow hacc ⊢
  exact apparent_times B hp hr he hi hp.a_pos hL hslow hacc

/-- **C102** (the tutorial's claim as it computes it, with `get_planet_position`): the same for the position of the planet relative to the
barycentre; the distance is that of the planet's own orbit, `a m_star / (m_star + m_planet)`. -/
theorem C102_planet_transits_early_eclipses_late (C : Consts) (A : Args) (o : Orbit) (h : keplerianInit C A = .ok o) (hp : o.Physical)
    (hr : o.Regular) (he : o.eccVal = 0) (hi : 0 < o.sin_incl) (L : ℝ)
    (hL : L = o.a * o.m_star / (o.m_star + o.m_planet) * o.sin_incl / C.c) (hslow : 2 * π / o.period * L ≤ 1 / 10)
    (hacc : 2.0e-10 ≤ (2 * π / o.period) ^ 2 * (o.a * o.m_star / (o.m_star + o.m_planet) * o.sin_incl)) :
    (∃ T, (∀ t, PlanetSeenInFront C o t ↔ ∃ k : ℤ, t = T + k * o.period) ∧ T < o.t0 ∧
      |T - (o.t0 - L)| ≤ 5 * (2 * π / o.period * L) ^ 2 * L) ∧
    (∃ T, (∀ t, PlanetSeenBehind C o t ↔ ∃ k : ℤ, t = T + k * o.period) ∧ o.t0 + o.period / 2 < T ∧
      |T - (o.t0 + o.period / 2 + L)| ≤ 5 * (2 * π / o.period * L) ^ 2 * L) := by
  have B := built_of_init h
  rw [← B.m_total_eq] at hL hacc
  have ha : o.a_planet = -(o.a * o.m_star / o.m_total) := by rw [B.a_planet_eq]; ring
  have ha0 : 0 < o.a * o.m_star / o.m_total := by
    have := B.a_planet_neg hp
    linarith
  rw [← B.n_eq] at hslow hacc ⊢
  have := apparent_times B hp hr he hi ha0 hL hslow hacc
  rw [← ha] at this
  exact this

/-! ## The hypotheses can be met -/

theorem demoCirc_apparent (C : Consts) (hc : 1000 ≤ C.c) : ∃ o, keplerianInit C demoCirc = .ok o ∧ o.Physical ∧ o.Regular ∧
    o.eccVal = 0 ∧ 0 < o.sin_incl ∧ o.t0 = 0 ∧ o.period = 1 ∧ o.a = 10 ∧ o.m_planet = 0 ∧
    2 * π / o.period * (o.a * o.sin_incl / C.c) ≤ 1 / 10 ∧ 2.0e-10 ≤ (2 * π / o.period) ^ 2 * (o.a * o.sin_incl) := by
  obtain ⟨o, h, hp, ha, hP, hrs, hb, ht, he, hm⟩ := demoCirc_ok C
  have B := built_of_init h
  have hev : o.eccVal = 0 := by simp [Orbit.eccVal, he]
  have hci : o.cos_incl = 1 / 20 := by
    cases h
    simp [inclFactorOf]
    norm_num
  have h2 := B.incl_sq hp
  rw [hci] at h2
  have hs : 0 < o.sin_incl := by
    cases h
    simp only
    rw [sin_arccos]
    apply sqrt_pos.2
    simp [inclFactorOf]
    norm_num
  have hs1 : o.sin_incl ≤ 1 := by nlinarith
  have hs2 : 1 / 2 ≤ o.sin_incl := by nlinarith
  refine ⟨o, h, hp, ?_, hev, hs, ht, hP, ha, hm, ?_, ?_⟩
  · intro p hp'
    rw [he] at hp'
    cases hp'
  · rw [hP, ha, div_one, ← mul_div_assoc, div_le_iff₀ C.c_pos]
    nlinarith [pi_lt_four, pi_pos]
  · rw [hP, ha, div_one]
    have := pi_gt_three
    have h3 : 36 ≤ (2 * π) ^ 2 := by nlinarith
    norm_num at *
    nlinarith

example (C : Consts) (hc : 1000 ≤ C.c) : ∃ o T, keplerianInit C demoCirc = .ok o ∧ SeenInFront C o T ∧ T < 0 ∧ ¬SeenInFront C o 0 ∧
    ∃ T', SeenBehind C o T' ∧ 1 / 2 < T' := by
  obtain ⟨o, h, hp, hr, he, hi, ht, hP, ha, hm, h1, h2⟩ := demoCirc_apparent C hc
  obtain ⟨⟨T, hT, hlt, hb⟩, T', hT', hlt', -⟩ := C102_transits_early_eclipses_late C _ o h hp hr he hi _ rfl h1 h2
  rw [ht] at hlt
  rw [ht, hP] at hlt'
  refine ⟨o, T, h, (hT T).2 ⟨0, by simp⟩, hlt, fun h0 => ?_, T', (hT' T').2 ⟨0, by simp⟩, by linarith⟩
  obtain ⟨k, hk⟩ := (hT 0).1 h0
  rw [hP, mul_one] at hk
  rw [hP, ht] at hb
  rw [hP] at h1
  have hL : 0 ≤ o.a * o.sin_incl / C.c := by have := C.c_pos; have := hp.a_pos; positivity
  generalize o.a * o.sin_incl / C.c = L at *
  have hpi := pi_gt_three
  have hLs : L ≤ 1 / 60 := by norm_num at h1; nlinarith
  have hx : 0 ≤ 2 * π / 1 * L := by positivity
  have hx2 : (2 * π / 1 * L) ^ 2 ≤ (1 / 10) ^ 2 := pow_le_pow_left₀ hx h1 2
  have hbb := abs_le.1 hb
  have h3 : -1 < T := by nlinarith
  have h4 : (k : ℝ) = -T := by linarith
  have h5 : (0 : ℝ) < k := by linarith
  have h6 : (k : ℝ) < 1 := by linarith
  have h7 : 0 < k := by exact_mod_cast h5
  have h8 : k < 1 := by exact_mod_cast h6
  omega

example (C : Consts) (hc : 1000 ≤ C.c) : ∃ o, keplerianInit C demoCirc = .ok o ∧ o.Physical ∧ 0 < (o.relativePosition C o.t0).z ∧
    (o.relativeVelocity o.t0).z < C.c ∧
    0 ≤ (C.c - (o.relativeVelocity o.t0).z) ^ 2 + 2 * (o.relativeAcceleration o.t0).z * (o.relativePosition C o.t0).z := by
  obtain ⟨o, h, hp, hr, he, hi, ht, hP, ha, hm, h1, h2⟩ := demoCirc_apparent C hc
  have B := built_of_init h
  have hc0 := C.c_pos
  obtain ⟨hz, -, hv, hw⟩ := B.circular_forms hp hr he (-o.a) o.t0
  replace hw := hw (neg_ne_zero.2 hp.a_pos.ne')
  have hV : o.retardedVz (-o.a) o.t0 = -(o.relativeVelocity o.t0).z := retardedVz_eq B hp _ _ _ (B.K_rel hp)
  have hW : o.retardedAz C (-o.a) o.t0 = (o.relativeAcceleration o.t0).z :=
    retardedAz_eq B hp _ _ _ (neg_ne_zero.2 hp.a_pos.ne') (B.K_rel hp)
  simp only [sub_self, mul_zero, sin_zero, cos_zero, mul_one] at hz hv hw
  have hZ : (o.relativePosition C o.t0).z = o.a * o.sin_incl := by
    have : (o.relativePosition C o.t0).z = (o.positionNow C (-o.a) o.t0 none).z := rfl
    rw [this, hz]; ring
  have hV0 : (o.relativeVelocity o.t0).z = 0 := by linarith
  have hA : (o.relativeAcceleration o.t0).z = -(o.n ^ 2 * (o.a * o.sin_incl)) := by rw [← hW, hw]; ring
  rw [← B.n_eq, ← mul_div_assoc, div_le_iff₀ hc0] at h1
  have hpos : 0 < o.a * o.sin_incl := mul_pos hp.a_pos hi
  refine ⟨o, h, hp, by rwa [hZ], by rwa [hV0], ?_⟩
  rw [hZ, hV0, hA]
  have hn := B.n_pos hp
  have h3 : (o.n * (o.a * o.sin_incl)) ^ 2 ≤ (1 / 10 * C.c) ^ 2 := pow_le_pow_left₀ (by positivity) h1 2
  nlinarith

end Exo
