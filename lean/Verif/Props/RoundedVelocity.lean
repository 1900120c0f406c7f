import Verif.Model.RoundedVelocity
import Verif.Props.RoundingEcc

/-!
# C140: rounding in velocities
-/

namespace Exo
open Real

namespace Rounding
variable (ρ : Rounding)

/-- A rounded multiple of a rounded factor. -/
theorem scaled_err {K Kr y y0 k b δ : ℝ} (hδ : ρ.u ≤ δ) (hk0 : 0 ≤ k) (hk : k ≤ 4) (hb0 : 0 ≤ b) (hb : b ≤ 2)
    (hK : |Kr - K| ≤ ρ.u * |K|) (hy : |y - y0| ≤ k * δ) (hy0 : |y0| ≤ b) : |ρ.rnd (Kr * y) - K * y0| ≤ (k + 2 * b + 0.1) * (δ * |K|) := by
  have hu := ρ.u_nonneg
  have hu1 := ρ.u_le
  have hδ0 : 0 ≤ δ := hu.trans hδ
  have hK0 := abs_nonneg K
  have hδK : 0 ≤ δ * |K| := by positivity
  have huK : ρ.u * |K| ≤ δ * |K| := mul_le_mul_of_nonneg_right hδ hK0
  have hKr : |Kr| ≤ 1.001 * |K| := by
    have := abs_sub_abs_le_abs_sub Kr K
    have : ρ.u * |K| ≤ 1 / 1000 * |K| := mul_le_mul_of_nonneg_right hu1 hK0
    linarith
  have h1 : |Kr * y - K * y0| ≤ (1.001 * k + b) * (δ * |K|) := by
    rw [show Kr * y - K * y0 = Kr * (y - y0) + (Kr - K) * y0 by ring]
    refine (abs_add_le _ _).trans ?_
    rw [abs_mul, abs_mul]
    have a1 := mul_le_mul hKr hy (abs_nonneg _) (by positivity)
    have a2 := mul_le_mul (hK.trans huK) hy0 (abs_nonneg _) hδK
    linarith
  have h2 := ρ.near h1
  have h3 : |K * y0| ≤ |K| * b := by
    rw [abs_mul]
    exact mul_le_mul_of_nonneg_left hy0 hK0
  have h4 : ρ.u * |K * y0| ≤ b * (δ * |K|) := (mul_le_mul hδ h3 (abs_nonneg _) hδ0).trans (le_of_eq (by ring))
  have h5 : 0 ≤ (1.001 * k + b) * (δ * |K|) := by positivity
  have h6 := mul_le_mul_of_nonneg_right hu1 h5
  have h7 := mul_le_mul_of_nonneg_right hk hδK
  have h8 := mul_le_mul_of_nonneg_right hb hδK
  refine h2.trans ?_
  linarith

/-- The rounded velocity, given the mean anomaly. -/
theorem velocityFrom_err {C : Consts} {A : Args} {o : Orbit} (h : keplerianInit C A = .ok o) (hp : o.Physical) {kep : ℝ → ℝ → ℝ × ℝ} {η δ : ℝ}
    (hη : 0 ≤ η) (hδ : δ = (ρ.u + η) / (1 - o.eccVal)) (hδ1 : δ ≤ 1 / 1000) {M t : ℝ} (hM : (t - o.t0 - o.tref) * o.n = M)
    (hk : o.ecc ≠ none → KeplerWithin kep η o.eccVal M) (m : ℝ) :
    |(ρ.velocityFrom kep o m M).x - (o.velocity m t).x| ≤ o.roundingFactor * δ * (o.velocity m t).norm ∧
    |(ρ.velocityFrom kep o m M).y - (o.velocity m t).y| ≤ o.roundingFactor * δ * (o.velocity m t).norm ∧
    |(ρ.velocityFrom kep o m M).z - (o.velocity m t).z| ≤ 22 * δ * (o.velocity m t).norm := by
  have B := built_of_init h
  have hu := ρ.u_nonneg
  have he0 := hp.eccOk.nonneg
  have he1 := hp.eccOk.lt_one
  have h1e : 0 < 1 - o.eccVal := by linarith
  have hδe : ρ.u + η = δ * (1 - o.eccVal) := by rw [hδ]; field_simp
  have hδ0 : 0 ≤ δ := by rw [hδ]; positivity
  have hδ2 : δ * (1 - o.eccVal) ≤ δ := mul_le_of_le_one_right hδ0 (by linarith)
  have huδ : ρ.u ≤ δ := by linarith
  have huη : ρ.u ≤ ρ.u + η := by linarith
  have huη1 : ρ.u + η ≤ 1 / 1000 := by linarith
  have hf : o.trueAnomaly t = keplerOp M o.eccVal := by
    rw [Orbit.trueAnomaly_eq, Orbit.meanAnom, B.warp_eq, hM]
  have hsc := keplerOp_sq he0 he1 M
  have hvel : o.velocity m t = o.rotate (-(o.K0 * m) * (keplerOp M o.eccVal).1) (o.K0 * m * ((keplerOp M o.eccVal).2 + o.eccVal)) := by
    unfold Orbit.velocity
    rw [hf]
    cases he : o.ecc with
    | none => simp [Orbit.eccVal, he]
    | some p => simp [Orbit.eccVal, he]
  have hs1 : |(keplerOp M o.eccVal).1| ≤ 1 := abs_le_of_sq_le_sq (by nlinarith [sq_nonneg (keplerOp M o.eccVal).2]) zero_le_one
  have hc1 : |(keplerOp M o.eccVal).2| ≤ 1 := abs_le_of_sq_le_sq (by nlinarith [sq_nonneg (keplerOp M o.eccVal).1]) zero_le_one
  set s := (keplerOp M o.eccVal).1 with hsd
  set c := (keplerOp M o.eccVal).2 with hcd
  have hN : (o.velocity m t).norm ^ 2 = (-(o.K0 * m) * s) ^ 2 + (o.K0 * m * (c + o.eccVal)) ^ 2 := by
    rw [V3.norm, hvel, Orbit.rotate_normSq hp (B.incl_sq hp), sq_sqrt (by positivity)]
  have hN0 : 0 ≤ (o.velocity m t).norm := sqrt_nonneg _
  have hKN : (ρ.u + η) * |o.K0 * m| ≤ δ * (o.velocity m t).norm := by
    rw [hδe, mul_assoc]
    refine mul_le_mul_of_nonneg_left (abs_le_of_sq_le_sq' ?_ hN0).2 hδ0
    rw [hN, mul_pow, sq_abs]
    have : (1 - o.eccVal) ^ 2 ≤ s ^ 2 + (c + o.eccVal) ^ 2 := by
      have := mul_nonneg he0 (by linarith [(abs_le.1 hc1).1] : 0 ≤ 1 + c)
      nlinarith
    have := mul_le_mul_of_nonneg_right this (sq_nonneg (o.K0 * m))
    linarith
  have hKr : |ρ.rnd (o.K0 * m) - o.K0 * m| ≤ ρ.u * |o.K0 * m| := ρ.rnd_err _
  have hKr' : |-ρ.rnd (o.K0 * m) - -(o.K0 * m)| ≤ ρ.u * |-(o.K0 * m)| := by
    rw [← neg_sub', abs_neg, abs_neg]; exact hKr
  have hKδ : 0 ≤ (ρ.u + η) * |o.K0 * m| := by positivity
  cases he : o.ecc with
  | none =>
    have hev : o.eccVal = 0 := by simp [Orbit.eccVal, he]
    have hs : s = sin M := by rw [hsd, hev, keplerOp_zero_ecc]
    have hc : c = cos M := by rw [hcd, hev, keplerOp_zero_ecc]
    have hcF : |ρ.cosF M - (c + o.eccVal)| ≤ 2 * (ρ.u + η) := by rw [hc, hev, add_zero]; exact (ρ.cos_err M).trans (by linarith)
    have hsF : |ρ.sinF M - s| ≤ 2 * (ρ.u + η) := by rw [hs]; exact (ρ.sin_err M).trans (by linarith)
    have q1 := ρ.scaled_err huη (by norm_num) (by norm_num) zero_le_one (by norm_num) hKr' hsF hs1
    have q2 := ρ.scaled_err huη (by norm_num) (by norm_num) zero_le_one (by norm_num) hKr hcF (by rw [hev, add_zero]; exact hc1)
    rw [abs_neg] at q1
    have hvF : ρ.velocityFrom kep o m M = ρ.rotateAny o (ρ.rnd (-ρ.rnd (o.K0 * m) * ρ.sinF M)) (ρ.rnd (ρ.rnd (o.K0 * m) * ρ.cosF M)) := by
      simp only [velocityFrom, anomalyAny, he]
    rw [hvF]
    have := ρ.rotate_err hp (B.incl_sq hp) huδ hδ1 hN0 hN.symm (q1.trans (by linarith)) (q2.trans (by linarith))
    rwa [← hvel] at this
  | some p =>
    have hev : o.eccVal = p.ecc := by simp [Orbit.eccVal, he]
    obtain ⟨EE, hE, k1, k2⟩ := hk (by simp [he])
    rw [← eccAnomaly_unique he0 he1 hE] at k1 k2
    change |_ - s| ≤ η at k1
    change |_ - c| ≤ η at k2
    have hce : |c + o.eccVal| ≤ 2 := (abs_add_le _ _).trans (by rw [abs_of_nonneg he0]; linarith)
    have k3 : |ρ.rnd ((kep M o.eccVal).2 + o.eccVal) - (c + o.eccVal)| ≤ 2.1 * (ρ.u + η) := by
      have h1 : |(kep M o.eccVal).2 + o.eccVal - (c + o.eccVal)| ≤ η := by rw [add_sub_add_right_eq_sub]; exact k2
      have h2 := ρ.near h1
      have h3 := mul_le_mul_of_nonneg_left hce hu
      have h4 := mul_le_mul_of_nonneg_right ρ.u_le hη
      linarith
    have q1 := ρ.scaled_err (k := 1) huη (by norm_num) (by norm_num) zero_le_one (by norm_num) hKr' (k1.trans (by linarith)) hs1
    have q2 := ρ.scaled_err huη (by norm_num) (by norm_num) (by norm_num) (by norm_num) hKr k3 hce
    rw [abs_neg] at q1
    have hvF : ρ.velocityFrom kep o m M = ρ.rotateAny o (ρ.rnd (-ρ.rnd (o.K0 * m) * (kep M o.eccVal).1))
        (ρ.rnd (ρ.rnd (o.K0 * m) * ρ.rnd ((kep M o.eccVal).2 + o.eccVal))) := by
      simp only [velocityFrom, anomalyAny, he, hev]
    rw [hvF]
    have := ρ.rotate_err hp (B.incl_sq hp) huδ hδ1 hN0 hN.symm (q1.trans (by linarith)) (q2.trans (by linarith))
    rwa [← hvel] at this

/-- The time at which the exact mean anomaly is the computed one. -/
theorem backward_time {C : Consts} {A : Args} {o : Orbit} (h : keplerianInit C A = .ok o) (hp : o.Physical) {atan2F : ℝ → ℝ → ℝ}
    (hat : ∀ y x, |atan2F y x - arctan2 y x| ≤ 4 * ρ.u) (t : ℝ) :
    ∃ t', |t' - t| ≤ ρ.u * (2 * |o.t0| + 8 * |t - o.t0| + 29 * o.period) ∧
      (t' - o.t0 - o.tref) * o.n = ρ.computedMeanAnomaly atan2F A o t := by
  have B := built_of_init h
  have hP := hp.period_pos
  have hu := ρ.u_nonneg
  have hpi := pi_pos
  have hn : 0 < o.n := by rw [B.n_eq]; positivity
  obtain ⟨hm, hM0⟩ := ρ.m0_err h hp hat
  have htp : o.t_periastron = o.t0 - o.M0 / o.n := by linarith [timeBlock_eq B.time_block]
  have hM := ρ.meanAnomalyAny_err hP B.n_eq htp B.tref_eq A.t_periastron.isSome hm t
  have htr : |o.tref| ≤ o.period / 2 := by
    have e : o.tref = -(o.M0 / o.n) := by rw [B.tref_eq, htp]; ring
    rw [e, abs_neg, abs_div, abs_of_pos hn, div_le_iff₀ hn, B.n_eq]
    refine hM0.trans (le_of_eq ?_)
    field_simp
  have hν : 2 * (59 * ρ.u / o.n) ≤ 19 * (ρ.u * o.period) := by
    rw [← mul_div_assoc, div_le_iff₀ hn, B.n_eq]
    have e : 19 * (ρ.u * o.period) * (2 * π / o.period) = 38 * π * ρ.u := by field_simp; ring
    rw [e]
    have := pi_gt_d2
    nlinarith
  change |ρ.computedMeanAnomaly atan2F A o t - _| ≤ _ at hM
  generalize ρ.computedMeanAnomaly atan2F A o t = M at *
  refine ⟨o.t0 + o.tref + M / o.n, ?_, by field_simp; ring⟩
  have e : (o.t0 + o.tref + M / o.n - t) * o.n = M - (t - o.t0 - o.tref) * o.n := by field_simp; ring
  rw [← mul_le_mul_iff_left₀ hn, ← abs_of_pos hn, ← abs_mul, abs_of_pos hn, e]
  refine hM.trans (mul_le_mul_of_nonneg_right ?_ hn.le)
  have := mul_le_mul_of_nonneg_left htr hu
  linarith

end Rounding

/-- **C140.** The rounded velocity of the planet, of the star, and their difference (`m` is `-m_star`, `m_planet`, `-m_total`) is, within 22 (with
`Omega`: 49) times `(u + η) / (1 - e)` times the speed, the exact one at a time that differs from the requested one by at most
`u (2 |t0| + 8 |t - t0| + 29 P)`. -/
theorem C140_velocity (C : Consts) (A : Args) (o : Orbit) (h : keplerianInit C A = .ok o) (hp : o.Physical) (ρ : Rounding)
    (kep : ℝ → ℝ → ℝ × ℝ) (η : ℝ) (hη : 0 ≤ η) (hδ : (ρ.u + η) / (1 - o.eccVal) ≤ 1 / 1000) (atan2F : ℝ → ℝ → ℝ)
    (hat : ∀ y x, |atan2F y x - arctan2 y x| ≤ 4 * ρ.u) (t : ℝ)
    (hk : o.ecc ≠ none → KeplerWithin kep η o.eccVal (ρ.computedMeanAnomaly atan2F A o t)) :
    ∃ t', |t' - t| ≤ ρ.u * (2 * |o.t0| + 8 * |t - o.t0| + 29 * o.period) ∧
      ∀ m v, (m = -o.m_star ∧ v = o.planetVelocity t' ∨ m = o.m_planet ∧ v = o.starVelocity t' ∨ m = -o.m_total ∧ v = o.relativeVelocity t') →
        |(ρ.computedVelocity kep atan2F A o m t).x - v.x| ≤ o.roundingFactor * ((ρ.u + η) / (1 - o.eccVal)) * v.norm ∧
        |(ρ.computedVelocity kep atan2F A o m t).y - v.y| ≤ o.roundingFactor * ((ρ.u + η) / (1 - o.eccVal)) * v.norm ∧
        |(ρ.computedVelocity kep atan2F A o m t).z - v.z| ≤ 22 * ((ρ.u + η) / (1 - o.eccVal)) * v.norm := by
  obtain ⟨t', h1, h2⟩ := ρ.backward_time h hp hat t
  refine ⟨t', h1, fun m v hm => ?_⟩
  have hv : v = o.velocity m t' := by rcases hm with ⟨rfl, rfl⟩ | ⟨rfl, rfl⟩ | ⟨rfl, rfl⟩ <;> rfl
  rw [hv]
  exact ρ.velocityFrom_err h hp hη rfl hδ h2 hk m

/-- **C140 (radial velocities without `K`).** For any unit, `conv` being the factor from solar radii per day. -/
theorem C140_radial_velocity (C : Consts) (A : Args) (o : Orbit) (h : keplerianInit C A = .ok o) (hp : o.Physical) (ρ : Rounding)
    (kep : ℝ → ℝ → ℝ × ℝ) (η : ℝ) (hη : 0 ≤ η) (hδ : (ρ.u + η) / (1 - o.eccVal) ≤ 1 / 1000) (atan2F : ℝ → ℝ → ℝ)
    (hat : ∀ y x, |atan2F y x - arctan2 y x| ≤ 4 * ρ.u) (t : ℝ)
    (hk : o.ecc ≠ none → KeplerWithin kep η o.eccVal (ρ.computedMeanAnomaly atan2F A o t)) (unit : Option AUnit) (conv : ℝ)
    (hc : C.rSunPerDay.to (unit.getD C.mPerS) = .ok conv) :
    ∃ t' v, |t' - t| ≤ ρ.u * (2 * |o.t0| + 8 * |t - o.t0| + 29 * o.period) ∧ o.radialVelocity C t' none unit = .ok v ∧
      |ρ.computedRvFull kep atan2F A o conv t - v| ≤ 24 * ((ρ.u + η) / (1 - o.eccVal)) * (|conv| * (o.starVelocity t').norm) := by
  obtain ⟨t', h1, h2⟩ := C140_velocity C A o h hp ρ kep η hη hδ atan2F hat t hk
  obtain ⟨-, -, h3⟩ := h2 o.m_planet (o.starVelocity t') (Or.inr (Or.inl ⟨rfl, rfl⟩))
  refine ⟨t', -conv * (o.starVelocity t').z, h1, by simp only [Orbit.radialVelocity, hc], ?_⟩
  have hu := ρ.u_nonneg
  have he0 := hp.eccOk.nonneg
  have he1 := hp.eccOk.lt_one
  have huδ : ρ.u ≤ (ρ.u + η) / (1 - o.eccVal) := by
    rw [le_div_iff₀ (by linarith)]
    nlinarith
  have hz : |(o.starVelocity t').z| ≤ (o.starVelocity t').norm := by
    rw [← sqrt_sq_eq_abs]
    refine sqrt_le_sqrt ?_
    unfold V3.normSq
    nlinarith [sq_nonneg (o.starVelocity t').x, sq_nonneg (o.starVelocity t').y]
  unfold Rounding.computedRvFull
  generalize (ρ.u + η) / (1 - o.eccVal) = δ at *
  generalize (ρ.computedVelocity kep atan2F A o o.m_planet t).z = w at *
  generalize (o.starVelocity t').z = z at *
  generalize (o.starVelocity t').norm = N at *
  have hδ0 : 0 ≤ δ := hu.trans huδ
  have hN : 0 ≤ N := (abs_nonneg _).trans hz
  have hcN : 0 ≤ |conv| * N := by positivity
  have a1 : |-conv * w - -conv * z| ≤ 22 * δ * (|conv| * N) := by
    rw [← mul_sub, abs_mul, abs_neg]
    exact (mul_le_mul_of_nonneg_left h3 (abs_nonneg _)).trans (le_of_eq (by ring))
  have a2 := ρ.near a1
  have a3 : |-conv * z| ≤ |conv| * N := by
    rw [abs_mul, abs_neg]
    exact mul_le_mul_of_nonneg_left hz (abs_nonneg _)
  have a4 := mul_le_mul huδ a3 (abs_nonneg _) hδ0
  have a5 := mul_le_mul_of_nonneg_right ρ.u_le (by positivity : 0 ≤ 22 * δ * (|conv| * N))
  have a6 : 0 ≤ δ * (|conv| * N) := by positivity
  refine a2.trans ?_
  linarith

/-- The hypotheses hold for `KeplerianOrbit(a=10, period=1, b=0.5, ecc=0.5, omega=0, Omega=1, t0=3)` in double precision with correctly rounded
compiled operations: the relative velocity is off by less than `3·10⁻¹⁴` of the speed, at a time off by less than `10⁻¹²` days. -/
example (C : Consts) : ∃ o, keplerianInit C demoEcc = .ok o ∧ o.ecc ≠ none ∧ ∀ t, |t| ≤ 1000 → ∃ t', |t' - t| ≤ 1e-12 ∧
    |(doubles.computedVelocity (fun M e => (roundDouble (keplerOp M e).1, roundDouble (keplerOp M e).2)) (fun y x => roundDouble (arctan2 y x))
      demoEcc o (-o.m_total) t).x - (o.relativeVelocity t').x| ≤ 3e-14 * (o.relativeVelocity t').norm := by
  obtain ⟨o, ho, hp, ha, hP, hR, -, ht0, -, hO, p, hec, hev', -⟩ := demoEcc_ok C
  have hev : o.eccVal = 1 / 2 := by simp [Orbit.eccVal, hec, hev']
  have hu : doubles.u = 2⁻¹ ^ 53 := rfl
  refine ⟨o, ho, by simp [hec], fun t htt => ?_⟩
  obtain ⟨t', h1, h2⟩ := C140_velocity C demoEcc o ho hp doubles (fun M e => (roundDouble (keplerOp M e).1, roundDouble (keplerOp M e).2))
    (2⁻¹ ^ 53) (by positivity) (by rw [hu, hev]; norm_num) (fun y x => roundDouble (arctan2 y x)) doubles_arctan2 t
    (fun _ => doubles_kepler (by rw [hev]; norm_num) (by rw [hev]; norm_num) _)
  obtain ⟨h3, -⟩ := h2 (-o.m_total) _ (Or.inr (Or.inr ⟨rfl, rfl⟩))
  refine ⟨t', h1.trans ?_, h3.trans (mul_le_mul_of_nonneg_right ?_ (sqrt_nonneg _))⟩
  · have h4 : |t - 3| ≤ 1003 := by
      have := abs_sub t 3
      rw [abs_of_pos (by norm_num : (0 : ℝ) < 3)] at this
      linarith
    rw [ht0, hP, hu, abs_of_pos (by norm_num : (0 : ℝ) < 3)]
    calc (2⁻¹ ^ 53 : ℝ) * (2 * 3 + 8 * |t - 3| + 29 * 1) ≤ 2⁻¹ ^ 53 * (2 * 3 + 8 * 1003 + 29 * 1) :=
          mul_le_mul_of_nonneg_left (by linarith) (by positivity)
      _ ≤ _ := by norm_num
  · have hF : o.roundingFactor ≤ 49 := by unfold Orbit.roundingFactor; split <;> norm_num
    refine (mul_le_mul_of_nonneg_right hF (by rw [hu, hev]; norm_num)).trans ?_
    rw [hu, hev]; norm_num

/-- For `KeplerianOrbit(period=1, m_star=1, r_star=1, m_planet=0.001, incl=1)` in m/s: the radial velocity is off by less than `10⁻¹⁴` of the speed of
the star. -/
example (C : Consts) : ∃ o, keplerianInit C demoMass = .ok o ∧ o.m_planet = 1 / 1000 ∧ ∀ t, ∃ t' v,
    |t' - t| ≤ 2⁻¹ ^ 53 * (2 * |o.t0| + 8 * |t - o.t0| + 29) ∧ o.radialVelocity C t' = .ok v ∧
    |doubles.computedRvFull (fun _ _ => (0, 0)) (fun y x => roundDouble (arctan2 y x)) demoMass o (C.rSunPerDay.scale / C.mPerS.scale) t - v| ≤
      1e-14 * (|C.rSunPerDay.scale / C.mPerS.scale| * (o.starVelocity t').norm) := by
  obtain ⟨o, ho, hp, hP, -, -, hm, -, he⟩ := demoMass_ok C
  have hev : o.eccVal = 0 := by simp [Orbit.eccVal, he]
  have hu : doubles.u = 2⁻¹ ^ 53 := rfl
  refine ⟨o, ho, hm, fun t => ?_⟩
  obtain ⟨t', v, h1, h2, h3⟩ := C140_radial_velocity C demoMass o ho hp doubles (fun _ _ => (0, 0)) 0 le_rfl (by rw [hu, hev]; norm_num)
    (fun y x => roundDouble (arctan2 y x)) doubles_arctan2 t (fun h => absurd he h) none (C.rSunPerDay.scale / C.mPerS.scale)
    (by unfold AUnit.to; rw [if_pos]; · rfl
        · rfl)
  refine ⟨t', v, by rw [hP, mul_one] at h1; exact h1, h2, h3.trans (mul_le_mul_of_nonneg_right ?_ (mul_nonneg (abs_nonneg _) (sqrt_nonneg _)))⟩
  rw [hu, hev]; norm_num

/-- **C140 (the factor `1 / (1 - e)` is real).** With exact arithmetic and a solver whose cosine is off by `η` at apastron, the velocity along the line of
sight is off there by `η / (1 - e)` of itself. -/
theorem C140_amplified (o : Orbit) (hp : o.Physical) (p : EccParams) (he : o.ecc = some p) (t : ℝ) (ht : o.E t = π)
    (kep : ℝ → ℝ → ℝ × ℝ) (M η : ℝ) (hk : kep M p.ecc = (0, -1 + η)) (m : ℝ) :
    ((upwards 0 le_rfl (by norm_num)).velocityFrom kep o m M).z = (1 - η / (1 - p.ecc)) * (o.velocity m t).z := by
  have he1 : 1 - p.ecc ≠ 0 := by have := hp.ecc_lt_one p he; linarith
  have he2 : 1 + p.ecc ≠ 0 := by have := hp.ecc_nonneg p he; linarith
  have hev : o.eccVal = p.ecc := by simp [Orbit.eccVal, he]
  have hs : (o.trueAnomaly t).1 = 0 := by rw [Orbit.sinf_eq, ht, sin_pi, mul_zero, zero_div]
  have hc : (o.trueAnomaly t).2 = -1 := by
    rw [Orbit.cosf_eq, ht, cos_pi, hev, div_eq_iff (by simpa using he2)]
    ring
  have e1 : ((upwards 0 le_rfl (by norm_num)).velocityFrom kep o m M).z = -o.sin_incl * (p.cos_omega * (o.K0 * m * (-1 + η + p.ecc))) := by
    cases hO : o.Omega <;> simp [Rounding.velocityFrom, Rounding.anomalyAny, Rounding.rotateAny, upwards, he, hk, hO]
  have e2 : (o.velocity m t).z = -o.sin_incl * (p.cos_omega * (o.K0 * m * (-1 + p.ecc))) := by
    simp [Orbit.velocity, he, hs, hc, Orbit.rotate_eq, Orbit.cw, Orbit.sw]
  rw [e1, e2]
  field_simp
  ring

/-- Such a time exists on every orbit, for example on `KeplerianOrbit(a=10, period=1, b=0.5, ecc=0.5, omega=0, Omega=1, t0=3)`. -/
example (C : Consts) : ∃ o p t, keplerianInit C demoEcc = .ok o ∧ o.Physical ∧ o.ecc = some p ∧ p.ecc = 1 / 2 ∧ o.E t = π := by
  obtain ⟨o, ho, hp, -, -, -, -, -, -, -, p, hec, hev, -⟩ := demoEcc_ok C
  obtain ⟨t, ht⟩ := (built_of_init ho).exists_time hp π
  exact ⟨o, p, t, ho, hp, hec, hev, ht⟩

end Exo
