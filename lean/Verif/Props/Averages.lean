import Verif.Spec.Averages
import Verif.Props.Kinematics
import Verif.Props.Anomaly
import Mathlib.MeasureTheory.Integral.IntervalIntegral.FundThmCalculus

/-!
# C93: averages over an orbit
-/

namespace Exo
open Real MeasureTheory

namespace Built
variable {C : Consts} {A : Args} {o : Orbit} (B : Built C A o)
include B

theorem hasDerivAt_E (hp : o.Physical) (t : ℝ) : HasDerivAt o.E ((1 - o.eccVal * cos (o.E t))⁻¹ * o.n) t := by
  have hM : HasDerivAt o.meanAnom o.n t := by
    have := ((B.hasDerivAt_warp t).sub_const o.tref).mul_const o.n
    rw [one_mul] at this
    exact this
  exact (hasDerivAt_eccAnomaly hp.eccOk.nonneg hp.eccOk.lt_one (o.meanAnom t)).comp t hM

theorem continuous_E (hp : o.Physical) : Continuous o.E :=
  continuous_iff_continuousAt.2 fun t => (B.hasDerivAt_E hp t).continuousAt

theorem E_add_period (hp : o.Physical) (t : ℝ) : o.E (t + o.period) = o.E t + 2 * π := by
  have h := B.meanAnom_add_period hp t 1
  have h2 := eccAnomaly_add_two_pi_mul hp.eccOk.nonneg hp.eccOk.lt_one (o.meanAnom t) 1
  simp only [Int.cast_one, one_mul] at h h2
  unfold Orbit.E
  rw [h, h2]

/-- Averages over time as averages over the eccentric anomaly. -/
theorem timeMean_E (hp : o.Physical) {F g : ℝ → ℝ} {c : ℝ} (hF : ∀ x, HasDerivAt F (g x * (1 - o.eccVal * cos x)) x) (hg : Continuous g)
    (hc : ∀ x, F (x + 2 * π) = F x + c) (t : ℝ) : timeMean (fun s => g (o.E s)) t o.period = c / (2 * π) := by
  have hP := hp.period_pos
  have hn := B.n_pos hp
  have hnP := B.n_mul_period hp
  have hE := B.continuous_E hp
  have h1 : ∀ s ∈ Set.uIcc t (t + o.period), HasDerivAt (fun s => F (o.E s)) (g (o.E s) * o.n) s := by
    intro s _
    have := (hF (o.E s)).comp s (B.hasDerivAt_E hp s)
    have hd := (hp.eccOk.dpos s).ne'
    refine this.congr_deriv ?_
    field_simp
  have h2 := intervalIntegral.integral_eq_sub_of_hasDerivAt h1 ((by fun_prop : Continuous fun s => g (o.E s) * o.n).intervalIntegrable _ _)
  simp only [B.E_add_period hp, hc] at h2
  rw [intervalIntegral.integral_mul_const] at h2
  unfold timeMean
  rw [div_eq_div_iff hP.ne' (by have := pi_pos; positivity), ← hnP]
  linear_combination o.period * h2

end Built

/-- The average of a derivative of a periodic function vanishes. -/
theorem timeMean_deriv {f f' : ℝ → ℝ} {P : ℝ} (hf : ∀ t, HasDerivAt f (f' t) t) (hc : Continuous f') (t : ℝ) (hper : f (t + P) = f t) :
    timeMean f' t P = 0 := by
  unfold timeMean
  rw [intervalIntegral.integral_eq_sub_of_hasDerivAt (fun s _ => hf s) (hc.intervalIntegrable _ _), hper, sub_self, zero_div]

theorem timeMeanV_deriv {f f' : ℝ → V3} {P : ℝ} (hf : ∀ t, HasVelocityAt f (f' t) t) (hx : Continuous fun t => (f' t).x)
    (hy : Continuous fun t => (f' t).y) (hz : Continuous fun t => (f' t).z) (t : ℝ) (hper : f (t + P) = f t) :
    timeMeanV f' t P = V3.zero := by
  unfold timeMeanV V3.zero
  rw [timeMean_deriv (fun s => (hf s).1) hx t (by rw [hper]), timeMean_deriv (fun s => (hf s).2.1) hy t (by rw [hper]),
    timeMean_deriv (fun s => (hf s).2.2) hz t (by rw [hper])]

/-- **C93** (velocities): over a period neither body nor their separation drifts. -/
theorem C93_velocities (C : Consts) (A : Args) (o : Orbit) (h : keplerianInit C A = .ok o) (hp : o.Physical) (t : ℝ) :
    timeMeanV o.planetVelocity t o.period = V3.zero ∧ timeMeanV o.starVelocity t o.period = V3.zero ∧
    timeMeanV o.relativeVelocity t o.period = V3.zero := by
  have hv := C08_velocity_is_derivative C A o h hp
  have ha := C09_acceleration_is_derivative C A o h hp
  have hper := C12_periodic C A o h hp t 1 none false none none
  simp only [Int.cast_one, one_mul] at hper
  have B := built_of_init h
  have hE := B.continuous_E hp
  have hc : ∀ m, Continuous (fun t => (o.velocity m t).x) ∧ Continuous (fun t => (o.velocity m t).y) ∧ Continuous fun t => (o.velocity m t).z := by
    intro m
    have hd : ∀ s, 1 - o.eccVal * cos (o.E s) ≠ 0 := fun s => (hp.eccOk.dpos s).ne'
    simp only [Orbit.velocity_anom hp.eccOk, Orbit.rotate_eq]
    refine ⟨?_, ?_, ?_⟩ <;> fun_prop (disch := assumption)
  exact ⟨timeMeanV_deriv (fun s => (hv s).1) (hc _).1 (hc _).2.1 (hc _).2.2 t hper.1,
    timeMeanV_deriv (fun s => (hv s).2.1) (hc _).1 (hc _).2.1 (hc _).2.2 t hper.2.1,
    timeMeanV_deriv (fun s => (hv s).2.2) (hc _).1 (hc _).2.1 (hc _).2.2 t hper.2.2.1⟩

/-- **C93** (accelerations). -/
theorem C93_accelerations (C : Consts) (A : Args) (o : Orbit) (h : keplerianInit C A = .ok o) (hp : o.Physical) (t : ℝ) :
    timeMeanV o.planetAcceleration t o.period = V3.zero ∧ (0 < o.m_planet → timeMeanV o.starAcceleration t o.period = V3.zero) ∧
    timeMeanV o.relativeAcceleration t o.period = V3.zero := by
  have ha := C09_acceleration_is_derivative C A o h hp
  have hper := C12_periodic C A o h hp t 1 none false none none
  simp only [Int.cast_one, one_mul] at hper
  have B := built_of_init h
  have hE := B.continuous_E hp
  have hc : ∀ a m, Continuous (fun t => (o.acceleration a m t).x) ∧ Continuous (fun t => (o.acceleration a m t).y) ∧
      Continuous fun t => (o.acceleration a m t).z := by
    intro a m
    have hd : ∀ s, (1 - o.eccVal * cos (o.E s)) ^ 3 ≠ 0 := fun s => pow_ne_zero 3 (hp.eccOk.dpos s).ne'
    simp only [Orbit.acceleration_anom hp.eccOk, Orbit.rotate_eq]
    refine ⟨?_, ?_, ?_⟩ <;> fun_prop (disch := assumption)
  exact ⟨timeMeanV_deriv (fun s => (ha s).1) (hc _ _).1 (hc _ _).2.1 (hc _ _).2.2 t hper.2.2.2.2.1,
    fun hm => timeMeanV_deriv (fun s => (ha s).2.1 hm) (hc _ _).1 (hc _ _).2.1 (hc _ _).2.2 t hper.2.2.2.2.2.1,
    timeMeanV_deriv (fun s => (ha s).2.2) (hc _ _).1 (hc _ _).2.1 (hc _ _).2.2 t hper.2.2.2.2.2.2.1⟩

/-- **C93** (radial velocity): `get_radial_velocity` has zero mean over a period, in any unit, from the masses or from `K`. (It is not centred
between its extremes: C15.) -/
theorem C93_radial_velocity (C : Consts) (A : Args) (o : Orbit) (h : keplerianInit C A = .ok o) (hp : o.Physical) (K : Option ℝ) (u : Option AUnit)
    (f : ℝ → ℝ) (hf : ∀ t, o.radialVelocity C t K u = .ok (f t)) (t : ℝ) : timeMean f t o.period = 0 := by
  have B := built_of_init h
  cases K with
  | none =>
    have hz : timeMean (fun s => (o.starVelocity s).z) t o.period = 0 := congrArg V3.z (C93_velocities C A o h hp t).2.1
    have : ∃ k, f = fun s => k * (o.starVelocity s).z := by
      unfold Orbit.radialVelocity at hf
      simp only at hf
      cases hu : C.rSunPerDay.to (u.getD C.mPerS) with
      | error e =>
        have := hf 0
        rw [hu] at this
        cases this
      | ok conv =>
        refine ⟨-conv, funext fun s => ?_⟩
        have := hf s
        rw [hu] at this
        injection this with this
        exact this.symm
    obtain ⟨k, rfl⟩ := this
    unfold timeMean at *
    rw [intervalIntegral.integral_const_mul, mul_div_assoc, hz, mul_zero]
  | some K =>
    have e : f = fun s => K * ((o.cw * (1 - o.eccVal ^ 2) * cos (o.E s) - o.sw * o.se * sin (o.E s)) / (1 - o.eccVal * cos (o.E s))) := by
      funext s
      have := hf s
      have hd := (hp.eccOk.dpos s).ne'
      have e2 : o.radialVelocity C s (some K) u = .ok (K * (o.cw * (o.trueAnomaly s).2 - o.sw * (o.trueAnomaly s).1 + o.eccVal * o.cw)) := by
        unfold Orbit.radialVelocity Orbit.cw Orbit.sw Orbit.eccVal
        cases o.ecc <;> simp
      rw [e2, Orbit.cosf_eq, Orbit.sinf_eq] at this
      injection this with this
      rw [← this, eq_comm, mul_eq_mul_left_iff]
      left
      rw [div_eq_iff hd]
      field_simp
      ring
    have hd : ∀ x, 1 - o.eccVal * cos x ≠ 0 := fun x => (one_sub_mul_cos_pos hp.eccOk.nonneg hp.eccOk.lt_one x).ne'
    rw [e, B.timeMean_E hp (F := fun x => K * (o.cw * (1 - o.eccVal ^ 2) * sin x - o.sw * o.se * (-cos x)))
      (g := fun x => K * ((o.cw * (1 - o.eccVal ^ 2) * cos x - o.sw * o.se * sin x) / (1 - o.eccVal * cos x))) (c := 0), zero_div]
    · intro x
      have := (((hasDerivAt_sin x).const_mul (o.cw * (1 - o.eccVal ^ 2))).sub ((hasDerivAt_cos x).neg.const_mul (o.sw * o.se))).const_mul K
      have hd := hd x
      refine HasDerivAt.congr_deriv this ?_
      field_simp
    · fun_prop (disch := assumption)
    · intro x
      simp

/-- An antiderivative of `cos²`. -/
theorem hasDerivAt_cos_sq_int (x : ℝ) : HasDerivAt (fun x => x / 2 + sin x * cos x / 2) (cos x ^ 2) x := by
  have := ((hasDerivAt_id x).div_const 2).add (((hasDerivAt_sin x).mul (hasDerivAt_cos x)).div_const 2)
  refine HasDerivAt.congr_deriv this ?_
  have := sin_sq_add_cos_sq x
  linear_combination (-1 / 2) * this

/-- **C93** (distances): the average distance is `a (1 + e²/2)`, the average of its square `a² (1 + 3e²/2)` and of its inverse `1/a`. -/
theorem C93_distance (C : Consts) (A : Args) (o : Orbit) (h : keplerianInit C A = .ok o) (hp : o.Physical) (t : ℝ) :
    timeMean (fun s => (o.relativePosition C s).norm) t o.period = o.a * (1 + o.eccVal ^ 2 / 2) ∧
    timeMean (fun s => (o.relativePosition C s).norm ^ 2) t o.period = o.a ^ 2 * (1 + 3 * o.eccVal ^ 2 / 2) ∧
    timeMean (fun s => 1 / (o.relativePosition C s).norm) t o.period = 1 / o.a := by
  have B := built_of_init h
  have hpi := pi_pos.ne'
  have hd : ∀ x, 1 - o.eccVal * cos x ≠ 0 := fun x => (one_sub_mul_cos_pos hp.eccOk.nonneg hp.eccOk.lt_one x).ne'
  simp only [relativePosition_norm B hp]
  refine ⟨?_, ?_, ?_⟩
  · rw [B.timeMean_E hp (F := fun x => o.a * (x - 2 * o.eccVal * sin x + o.eccVal ^ 2 * (x / 2 + sin x * cos x / 2)))
      (g := fun x => o.a * (1 - o.eccVal * cos x)) (c := 2 * π * (o.a * (1 + o.eccVal ^ 2 / 2)))]
    · field_simp
    · intro x
      have := (((hasDerivAt_id x).sub ((hasDerivAt_sin x).const_mul (2 * o.eccVal))).add ((hasDerivAt_cos_sq_int x).const_mul (o.eccVal ^ 2))).const_mul o.a
      refine HasDerivAt.congr_deriv this ?_
      ring
    · fun_prop
    · intro x
      simp only [sin_add_two_pi, cos_add_two_pi]
      ring
  · rw [B.timeMean_E hp (F := fun x => o.a ^ 2 * (x - 3 * o.eccVal * sin x + 3 * o.eccVal ^ 2 * (x / 2 + sin x * cos x / 2) -
        o.eccVal ^ 3 * (sin x - sin x ^ 3 / 3)))
      (g := fun x => (o.a * (1 - o.eccVal * cos x)) ^ 2) (c := 2 * π * (o.a ^ 2 * (1 + 3 * o.eccVal ^ 2 / 2)))]
    · field_simp
    · intro x
      have := ((((hasDerivAt_id x).sub ((hasDerivAt_sin x).const_mul (3 * o.eccVal))).add ((hasDerivAt_cos_sq_int x).const_mul (3 * o.eccVal ^ 2))).sub
        (((hasDerivAt_sin x).sub (((hasDerivAt_sin x).pow 3).div_const 3)).const_mul (o.eccVal ^ 3))).const_mul (o.a ^ 2)
      refine HasDerivAt.congr_deriv this ?_
      have h2 : sin x ^ 2 = 1 - cos x ^ 2 := by linarith [sin_sq_add_cos_sq x]
      simp only [Nat.cast_ofNat, Nat.add_one_sub_one]
      linear_combination (o.a ^ 2 * o.eccVal ^ 3 * cos x) * h2
    · fun_prop
    · intro x
      simp only [sin_add_two_pi, cos_add_two_pi]
      ring
  · have ha := hp.a_pos.ne'
    rw [B.timeMean_E hp (F := fun x => x / o.a) (g := fun x => 1 / (o.a * (1 - o.eccVal * cos x))) (c := 2 * π / o.a)]
    · field_simp
    · intro x
      have := hd x
      refine HasDerivAt.congr_deriv ((hasDerivAt_id x).div_const o.a) ?_
      field_simp
    · have : ∀ x, o.a * (1 - o.eccVal * cos x) ≠ 0 := fun x => mul_ne_zero ha (hd x)
      fun_prop (disch := assumption)
    · intro x
      ring

/-- **C93** (virial theorem): the average of the squared relative velocity is the average of `G M / r`, and both are `G M / a`. -/
theorem C93_virial (C : Consts) (A : Args) (o : Orbit) (h : keplerianInit C A = .ok o) (hp : o.Physical) (t : ℝ) :
    timeMean (fun s => (o.relativeVelocity s).normSq) t o.period = C.G * (o.m_star + o.m_planet) / o.a ∧
    timeMean (fun s => C.G * (o.m_star + o.m_planet) / (o.relativePosition C s).norm) t o.period = C.G * (o.m_star + o.m_planet) / o.a := by
  have B := built_of_init h
  have hE := B.continuous_E hp
  have h1 := (C93_distance C A o h hp t).2.2
  have ha := hp.a_pos
  have hP := hp.period_pos
  have h2 : timeMean (fun s => C.G * (o.m_star + o.m_planet) / (o.relativePosition C s).norm) t o.period = C.G * (o.m_star + o.m_planet) / o.a := by
    unfold timeMean at *
    simp only [div_eq_mul_inv (C.G * (o.m_star + o.m_planet)), ← one_div]
    rw [intervalIntegral.integral_const_mul, mul_div_assoc, h1]
  refine ⟨?_, h2⟩
  have e : ∀ s, (o.relativeVelocity s).normSq = 2 * (C.G * (o.m_star + o.m_planet) / (o.relativePosition C s).norm) - C.G * (o.m_star + o.m_planet) / o.a := by
    intro s
    have := C14_vis_viva C A o h hp s
    have e2 : -(C.G * (o.m_star + o.m_planet)) / (2 * o.a) = -(C.G * (o.m_star + o.m_planet) / o.a) / 2 := by field_simp
    rw [e2] at this
    linarith
  have hcont : Continuous fun s => C.G * (o.m_star + o.m_planet) / (o.relativePosition C s).norm := by
    simp only [relativePosition_norm B hp]
    have : ∀ s, o.a * (1 - o.eccVal * cos (o.E s)) ≠ 0 := fun s => mul_ne_zero ha.ne' (hp.eccOk.dpos s).ne'
    fun_prop (disch := assumption)
  simp only [e]
  unfold timeMean at *
  rw [intervalIntegral.integral_sub ((hcont.const_mul 2 : Continuous _).intervalIntegrable _ _) (by simp),
    intervalIntegral.integral_const_mul, sub_div, mul_div_assoc, h2]
  simp
  field_simp
  ring

/-- **C93** (position): the average relative position is on the side of apastron, `3e/2` semimajor axes from the star. -/
theorem C93_position (C : Consts) (A : Args) (o : Orbit) (h : keplerianInit C A = .ok o) (hp : o.Physical) (t : ℝ) :
    timeMeanV (fun s => o.relativePosition C s) t o.period =
      (o.relativePosition C (o.t_periastron + o.period / 2)).smul (3 / 2 * o.eccVal / (1 + o.eccVal)) := by
  have B := built_of_init h
  have hpi := pi_pos.ne'
  have he1 : 1 + o.eccVal ≠ 0 := by have := hp.eccOk.nonneg; positivity
  have key : ∀ p q : ℝ, timeMean (fun s => p * (cos (o.E s) - o.eccVal) + q * sin (o.E s)) t o.period = -(3 / 2) * o.eccVal * p := by
    intro p q
    rw [B.timeMean_E hp (F := fun x => p * ((1 + o.eccVal ^ 2) * sin x - o.eccVal * x - o.eccVal * (x / 2 + sin x * cos x / 2)) +
        q * (-cos x - o.eccVal * (sin x ^ 2 / 2)))
      (g := fun x => p * (cos x - o.eccVal) + q * sin x) (c := 2 * π * (-(3 / 2) * o.eccVal * p))]
    · field_simp
    · intro x
      have := (((((hasDerivAt_sin x).const_mul (1 + o.eccVal ^ 2)).sub ((hasDerivAt_id x).const_mul o.eccVal)).sub
        ((hasDerivAt_cos_sq_int x).const_mul o.eccVal)).const_mul p).add
        (((hasDerivAt_cos x).neg.sub ((((hasDerivAt_sin x).pow 2).div_const 2).const_mul o.eccVal)).const_mul q)
      refine HasDerivAt.congr_deriv this ?_
      simp only [Nat.cast_ofNat, Nat.add_one_sub_one, pow_one]
      ring
    · fun_prop
    · intro x
      simp only [sin_add_two_pi, cos_add_two_pi]
      ring
  have hpos : ∀ s, o.relativePosition C s = o.rotate (-o.a * (cos (o.E s) - o.eccVal)) (-o.a * (o.se * sin (o.E s))) :=
    fun s => Orbit.positionNow_eq hp.eccOk C (-o.a) s
  simp only [hpos, B.E_apastron hp, Orbit.rotate_eq, V3.smul, timeMeanV, cos_pi, sin_pi]
  have hx := key (o.cW * (o.cw * -o.a) - o.sW * (o.cos_incl * (o.sw * -o.a))) (o.cW * (-(o.sw * (-o.a * o.se))) - o.sW * (o.cos_incl * (o.cw * (-o.a * o.se))))
  have hy := key (o.sW * (o.cw * -o.a) + o.cW * (o.cos_incl * (o.sw * -o.a))) (o.sW * (-(o.sw * (-o.a * o.se))) + o.cW * (o.cos_incl * (o.cw * (-o.a * o.se))))
  have hz := key (-o.sin_incl * (o.sw * -o.a)) (-o.sin_incl * (o.cw * (-o.a * o.se)))
  congr 1
  · refine Eq.trans (congrArg (fun f => timeMean f t o.period) (funext fun s => ?_)) (hx.trans ?_)
    · ring
    · field_simp
      ring
  · refine Eq.trans (congrArg (fun f => timeMean f t o.period) (funext fun s => ?_)) (hy.trans ?_)
    · ring
    · field_simp
      ring
  · refine Eq.trans (congrArg (fun f => timeMean f t o.period) (funext fun s => ?_)) (hz.trans ?_)
    · ring
    · field_simp
      ring

/-- Hypotheses of C93, with an average distance that is not the semimajor axis. -/
example (C : Consts) : ∃ o, keplerianInit C demoEcc = .ok o ∧ o.Physical ∧ 0 < o.eccVal := by
  obtain ⟨o, h1, h2, -, -, -, -, -, -, -, p, h3, h4, -⟩ := demoEcc_ok C
  refine ⟨o, h1, h2, ?_⟩
  unfold Orbit.eccVal
  simp only [h3, h4]
  norm_num

end Exo
