import Verif.Model.RoundedRv
import Verif.Props.RoundingEcc
import Verif.Props.VelocityFit

/-!
# C139: rounding in radial velocities
-/

namespace Exo
open Real

namespace Rounding
variable (ρ : Rounding)

/-- The rounded bracket `cos_omega * cosf - sin_omega * sinf + ecc * cos_omega`. -/
theorem bracket_err {e cw sw c s c' s' δ : ℝ} (hδ : ρ.u ≤ δ) (hδ1 : δ ≤ 1 / 1000) (he0 : 0 ≤ e) (he1 : e < 1) (hw : sw ^ 2 + cw ^ 2 = 1)
    (hf : s ^ 2 + c ^ 2 = 1) (hc : |c' - c| ≤ δ) (hs : |s' - s| ≤ δ) :
    |ρ.rnd (ρ.rnd (ρ.rnd (cw * c') - ρ.rnd (sw * s')) + ρ.rnd (e * cw)) - (cw * c - sw * s + e * cw)| ≤ 8.8 * δ := by
  have hu := ρ.u_nonneg
  have hδ0 : 0 ≤ δ := hu.trans hδ
  have hcw : |cw| ≤ 1 := abs_le_of_sq_le_sq (by nlinarith [sq_nonneg sw]) zero_le_one
  have hsw : |sw| ≤ 1 := abs_le_of_sq_le_sq (by nlinarith [sq_nonneg cw]) zero_le_one
  have hc1 : |c| ≤ 1 := abs_le_of_sq_le_sq (by nlinarith [sq_nonneg s]) zero_le_one
  have hs1 : |s| ≤ 1 := abs_le_of_sq_le_sq (by nlinarith [sq_nonneg c]) zero_le_one
  have p1 := ρ.prod_err (R := 1) (ε := 1) (k := 0) (y := cw) (y0 := cw) hδ hδ1 zero_le_one (by norm_num) le_rfl (by norm_num) (by norm_num)
    hc1 (by linarith) hcw (by simp)
  have p2 := ρ.prod_err (R := 1) (ε := 1) (k := 0) (y := sw) (y0 := sw) hδ hδ1 zero_le_one (by norm_num) le_rfl (by norm_num) (by norm_num)
    hs1 (by linarith) hsw (by simp)
  have b1 : |c * cw - s * sw| ≤ 1 :=
    abs_le_of_sq_le_sq (by nlinarith [sq_nonneg (c * sw + s * cw)]) zero_le_one
  have d1 := ρ.diff_err hδ hδ1 zero_le_one (by norm_num) (by norm_num) p1 p2 b1
  have hecw : |e * cw| ≤ 1 := by
    rw [abs_mul, abs_of_nonneg he0]
    exact mul_le_one₀ he1.le (abs_nonneg _) hcw
  have r1 : |ρ.rnd (e * cw) - e * cw| ≤ 0.5 * δ * 2 := by
    refine (ρ.rnd_err _).trans ((mul_le_mul hδ hecw (abs_nonneg _) hδ0).trans (le_of_eq (by ring)))
  have b2 : |c * cw - s * sw + e * cw| ≤ 2 := (abs_add_le _ _).trans (by linarith)
  have f1 := ρ.sum_err (R := 2) (k := 2.75) hδ hδ1 (by norm_num) (by norm_num) (by norm_num) (d1.trans (by linarith)) r1 b2
  rw [mul_comm cw c', mul_comm sw s', mul_comm cw c, mul_comm sw s]
  refine f1.trans ?_
  linarith

/-- The rounded radial velocity, given the mean anomaly. -/
theorem rvFrom_err {C : Consts} {A : Args} {o : Orbit} (h : keplerianInit C A = .ok o) (hp : o.Physical) {kep : ℝ → ℝ → ℝ × ℝ} {η : ℝ}
    (hη : 0 ≤ η) (hδ1 : ρ.u + η ≤ 1 / 1000) {M t : ℝ} (hM : (t - o.t0 - o.tref) * o.n = M)
    (hk : o.ecc ≠ none → KeplerWithin kep η o.eccVal M) (K : ℝ) :
    ∃ v, o.radialVelocity C t (some K) = .ok v ∧ |ρ.rvFrom kep o K M - v| ≤ 11 * (ρ.u + η) * |K| := by
  have B := built_of_init h
  have hu := ρ.u_nonneg
  have he0 := hp.eccOk.nonneg
  have he1 := hp.eccOk.lt_one
  have huδ : ρ.u ≤ ρ.u + η := by linarith
  have hf : o.trueAnomaly t = keplerOp M o.eccVal := by
    rw [Orbit.trueAnomaly_eq, Orbit.meanAnom, B.warp_eq, hM]
  have hsc := keplerOp_sq he0 he1 M
  have hK : 0 ≤ (ρ.u + η) * |K| := by positivity
  cases he : o.ecc with
  | none =>
    have hev : o.eccVal = 0 := by simp [Orbit.eccVal, he]
    refine ⟨K * cos M, by simp only [Orbit.radialVelocity, he, hf, hev, keplerOp_zero_ecc], ?_⟩
    simp only [rvFrom, anomalyAny, he]
    have q := ρ.prod_err (k := 0) (ε := 2) (y := K) (y0 := K) huδ hδ1 (abs_nonneg K) (by norm_num) le_rfl (by norm_num) le_rfl
      (abs_cos_le_one M) ((ρ.cos_err M).trans (by linarith)) le_rfl (by simp)
    rw [mul_comm K, mul_comm K]
    exact q.trans (by linarith)
  | some p =>
    have hev : o.eccVal = p.ecc := by simp [Orbit.eccVal, he]
    obtain ⟨EE, hE, k1, k2⟩ := hk (by simp [he])
    rw [← eccAnomaly_unique he0 he1 hE] at k1 k2
    change |_ - (keplerOp M o.eccVal).1| ≤ η at k1
    change |_ - (keplerOp M o.eccVal).2| ≤ η at k2
    refine ⟨_, by simp only [Orbit.radialVelocity, he, hf]; rfl, ?_⟩
    simp only [rvFrom, anomalyAny, he]
    rw [← hev] at *
    have b := ρ.bracket_err (e := o.eccVal) (cw := p.cos_omega) (sw := p.sin_omega) huδ hδ1 he0 he1 (hp.omega_unit p he) hsc
      (k2.trans (by linarith)) (k1.trans (by linarith))
    have hcw : |p.cos_omega| ≤ 1 := abs_le_of_sq_le_sq (by nlinarith [hp.omega_unit p he, sq_nonneg p.sin_omega]) zero_le_one
    set s := (keplerOp M o.eccVal).1
    set c := (keplerOp M o.eccVal).2
    have b2 : |p.cos_omega * c - p.sin_omega * s + o.eccVal * p.cos_omega| ≤ 2 := by
      have b1 : |p.cos_omega * c - p.sin_omega * s| ≤ 1 :=
        abs_le_of_sq_le_sq (by nlinarith [sq_nonneg (p.sin_omega * c + p.cos_omega * s), hp.omega_unit p he]) zero_le_one
      have hecw : |o.eccVal * p.cos_omega| ≤ 1 := by
        rw [abs_mul, abs_of_nonneg he0]
        exact mul_le_one₀ he1.le (abs_nonneg _) hcw
      exact (abs_add_le _ _).trans (by linarith)
    generalize p.cos_omega * c - p.sin_omega * s + o.eccVal * p.cos_omega = y0 at *
    generalize ρ.rnd (ρ.rnd (ρ.rnd (p.cos_omega * (kep M o.eccVal).2) - ρ.rnd (p.sin_omega * (kep M o.eccVal).1)) +
      ρ.rnd (o.eccVal * p.cos_omega)) = y at *
    have h1 : |K * y - K * y0| ≤ 8.8 * ((ρ.u + η) * |K|) := by
      rw [← mul_sub, abs_mul]
      exact (mul_le_mul_of_nonneg_left b (abs_nonneg K)).trans (le_of_eq (by ring))
    have h2 := ρ.near h1
    have h3 : |K * y0| ≤ 2 * |K| := by
      rw [abs_mul, mul_comm]
      exact mul_le_mul_of_nonneg_right b2 (abs_nonneg K)
    have h4 : ρ.u * |K * y0| ≤ 2 * ((ρ.u + η) * |K|) :=
      (mul_le_mul huδ h3 (abs_nonneg _) (by linarith)).trans (le_of_eq (by ring))
    have h5 : ρ.u * ((ρ.u + η) * |K|) ≤ 1 / 1000 * ((ρ.u + η) * |K|) := mul_le_mul_of_nonneg_right ρ.u_le hK
    refine h2.trans ?_
    linarith

end Rounding

/-- **C139.** The rounded radial velocity with the semi-amplitude `K` is, within `11 (u + η) |K|`, the exact one at a time that differs from the
requested one by at most `u (2 |t0| + 8 |t - t0| + 29 P)`. The error of the solver is not amplified by the eccentricity. -/
theorem C139_rv (C : Consts) (A : Args) (o : Orbit) (h : keplerianInit C A = .ok o) (hp : o.Physical) (ρ : Rounding)
    (kep : ℝ → ℝ → ℝ × ℝ) (η : ℝ) (hη : 0 ≤ η) (hδ : ρ.u + η ≤ 1 / 1000) (atan2F : ℝ → ℝ → ℝ)
    (hat : ∀ y x, |atan2F y x - arctan2 y x| ≤ 4 * ρ.u) (t : ℝ)
    (hk : o.ecc ≠ none → KeplerWithin kep η o.eccVal (ρ.computedMeanAnomaly atan2F A o t)) (K : ℝ) :
    ∃ t' v, |t' - t| ≤ ρ.u * (2 * |o.t0| + 8 * |t - o.t0| + 29 * o.period) ∧ o.radialVelocity C t' (some K) = .ok v ∧
      |ρ.computedRv kep atan2F A o K t - v| ≤ 11 * (ρ.u + η) * |K| := by
  have B := built_of_init h
  have hP := hp.period_pos
  have hu := ρ.u_nonneg
  have hpi := pi_pos
  have hn : 0 < o.n := by rw [B.n_eq]; positivity
  obtain ⟨hm, hM0⟩ := ρ.m0_err h hp hat
  have htp : o.t_periastron = o.t0 - o.M0 / o.n := by linarith [timeBlock_eq B.time_block]
  have hM := ρ.meanAnomalyAny_err hP B.n_eq htp B.tref_eq A.t_periastron.isSome hm t
  have htr : |o.tref| ≤ o.period / 2 := by
    have e : o.tref = -(o.M0 / o.n) := by rw [B.tref_eq, htp]; ring
    rw [e, abs_neg, abs_div, abs_of_pos hn, div_le_iff₀ hn, B.n_eq]
    refine hM0.trans (le_of_eq ?_)
    field_simp
  have hν : 2 * (59 * ρ.u / o.n) ≤ 19 * (ρ.u * o.period) := by
    rw [← mul_div_assoc, div_le_iff₀ hn, B.n_eq]
    have e : 19 * (ρ.u * o.period) * (2 * π / o.period) = 38 * π * ρ.u := by field_simp; ring
    rw [e]
    have := pi_gt_d2
    nlinarith
  change |ρ.computedMeanAnomaly atan2F A o t - _| ≤ _ at hM
  unfold Rounding.computedRv
  generalize ρ.computedMeanAnomaly atan2F A o t = M at *
  obtain ⟨v, hv1, hv2⟩ := ρ.rvFrom_err (t := o.t0 + o.tref + M / o.n) h hp hη hδ (by field_simp; ring) hk K
  refine ⟨o.t0 + o.tref + M / o.n, v, ?_, hv1, hv2⟩
  have e : (o.t0 + o.tref + M / o.n - t) * o.n = M - (t - o.t0 - o.tref) * o.n := by field_simp; ring
  rw [← mul_le_mul_iff_left₀ hn, ← abs_of_pos hn, ← abs_mul, abs_of_pos hn, e]
  refine hM.trans (mul_le_mul_of_nonneg_right ?_ hn.le)
  have := mul_le_mul_of_nonneg_left htr hu
  linarith

/-- The hypotheses hold for `KeplerianOrbit(a=10, period=1, b=0.5, ecc=0.5, omega=0, Omega=1, t0=3)` in double precision with correctly rounded
compiled operations: a radial velocity with `K = 50` is off by less than `2·10⁻¹³`, at a time off by less than `10⁻¹²` days, for a thousand days. -/
example (C : Consts) : ∃ o, keplerianInit C demoEcc = .ok o ∧ o.ecc ≠ none ∧ ∀ t, |t| ≤ 1000 → ∃ t' v, |t' - t| ≤ 1e-12 ∧
    o.radialVelocity C t' (some 50) = .ok v ∧
    |doubles.computedRv (fun M e => (roundDouble (keplerOp M e).1, roundDouble (keplerOp M e).2)) (fun y x => roundDouble (arctan2 y x))
      demoEcc o 50 t - v| ≤ 2e-13 := by
  obtain ⟨o, ho, hp, ha, hP, hR, -, ht0, -, hO, p, hec, hev', -⟩ := demoEcc_ok C
  have hev : o.eccVal = 1 / 2 := by simp [Orbit.eccVal, hec, hev']
  have hu : doubles.u = 2⁻¹ ^ 53 := rfl
  refine ⟨o, ho, by simp [hec], fun t htt => ?_⟩
  obtain ⟨t', v, h1, h2, h3⟩ := C139_rv C demoEcc o ho hp doubles (fun M e => (roundDouble (keplerOp M e).1, roundDouble (keplerOp M e).2))
    (2⁻¹ ^ 53) (by positivity) (by rw [hu]; norm_num) (fun y x => roundDouble (arctan2 y x)) doubles_arctan2 t
    (fun _ => doubles_kepler (by rw [hev]; norm_num) (by rw [hev]; norm_num) _) 50
  refine ⟨t', v, h1.trans ?_, h2, h3.trans ?_⟩
  · have h4 : |t - 3| ≤ 1003 := by
      have := abs_sub t 3
      rw [abs_of_pos (by norm_num : (0 : ℝ) < 3)] at this
      linarith
    rw [ht0, hP, hu, abs_of_pos (by norm_num : (0 : ℝ) < 3)]
    calc (2⁻¹ ^ 53 : ℝ) * (2 * 3 + 8 * |t - 3| + 29 * 1) ≤ 2⁻¹ ^ 53 * (2 * 3 + 8 * 1003 + 29 * 1) :=
          mul_le_mul_of_nonneg_left (by linarith) (by positivity)
      _ ≤ _ := by norm_num
  · rw [hu, abs_of_pos (by norm_num : (0 : ℝ) < 50)]
    norm_num

/-- **C139.** How fast the exact radial velocity changes: at most by `|K| (2 π / P) √(1 - e²) / (1 - e)²` per day. -/
theorem C139_rate (C : Consts) (A : Args) (o : Orbit) (h : keplerianInit C A = .ok o) (hp : o.Physical) (K t s v w : ℝ)
    (hv : o.radialVelocity C t (some K) = .ok v) (hw : o.radialVelocity C s (some K) = .ok w) :
    |v - w| ≤ |K| * (2 * π / o.period * √(1 - o.eccVal ^ 2) / (1 - o.eccVal) ^ 2) * |t - s| := by
  have B := built_of_init h
  have he0 := hp.eccOk.nonneg
  have he1 := hp.eccOk.lt_one
  have hn := B.n_pos hp
  rw [rv_eq] at hv hw
  rw [← Except.ok.inj hv, ← Except.ok.inj hw]
  have hse : o.se = √(1 - o.eccVal ^ 2) := by
    rw [← hp.eccOk.se_sq, sqrt_sq hp.eccOk.se_pos.le]
  have hl : ∀ x ∈ (Set.univ : Set ℝ), ‖-(o.latSin x * o.fdot x)‖ ≤ 2 * π / o.period * √(1 - o.eccVal ^ 2) / (1 - o.eccVal) ^ 2 := by
    intro x _
    have h1 : |o.latSin x| ≤ 1 := abs_le_of_sq_le_sq (by nlinarith [lat_sq hp x, sq_nonneg (o.latCos x)]) zero_le_one
    have h2 : o.fdot x ≤ 2 * π / o.period * √(1 - o.eccVal ^ 2) / (1 - o.eccVal) ^ 2 := by
      unfold Orbit.fdot
      rw [← B.n_eq, ← hse]
      refine div_le_div_of_nonneg_left (mul_nonneg hn.le hp.eccOk.se_pos.le) (by have := sub_pos.2 he1; positivity) ?_
      refine pow_le_pow_left₀ (by linarith) ?_ 2
      have := mul_le_mul_of_nonneg_left (cos_le_one (o.E x)) he0
      linarith
    rw [norm_neg, norm_mul, Real.norm_eq_abs, Real.norm_eq_abs, abs_of_pos (fdot_pos B hp x)]
    exact (mul_le_of_le_one_left (fdot_pos B hp x).le h1).trans h2
  have key := convex_univ.norm_image_sub_le_of_norm_hasDerivWithin_le (fun x _ => (hasDerivAt_lat B hp x).1.hasDerivWithinAt) hl
    (Set.mem_univ s) (Set.mem_univ t)
  rw [Real.norm_eq_abs, Real.norm_eq_abs] at key
  rw [← mul_sub, abs_mul, add_sub_add_right_eq_sub, mul_assoc]
  exact mul_le_mul_of_nonneg_left key (abs_nonneg K)

/-- **C139.** The error of the rounded radial velocity at the requested time. -/
theorem C139_rv_forward (C : Consts) (A : Args) (o : Orbit) (h : keplerianInit C A = .ok o) (hp : o.Physical) (ρ : Rounding)
    (kep : ℝ → ℝ → ℝ × ℝ) (η : ℝ) (hη : 0 ≤ η) (hδ : ρ.u + η ≤ 1 / 1000) (atan2F : ℝ → ℝ → ℝ)
    (hat : ∀ y x, |atan2F y x - arctan2 y x| ≤ 4 * ρ.u) (t : ℝ)
    (hk : o.ecc ≠ none → KeplerWithin kep η o.eccVal (ρ.computedMeanAnomaly atan2F A o t)) (K v : ℝ)
    (hv : o.radialVelocity C t (some K) = .ok v) :
    |ρ.computedRv kep atan2F A o K t - v| ≤ |K| * (11 * (ρ.u + η) +
      2 * π / o.period * √(1 - o.eccVal ^ 2) / (1 - o.eccVal) ^ 2 * (ρ.u * (2 * |o.t0| + 8 * |t - o.t0| + 29 * o.period))) := by
  obtain ⟨t', w, h1, h2, h3⟩ := C139_rv C A o h hp ρ kep η hη hδ atan2F hat t hk K
  have h4 := C139_rate C A o h hp K t' t w v h2 hv
  have hP := hp.period_pos
  have hpi := pi_pos
  have hL : 0 ≤ |K| * (2 * π / o.period * √(1 - o.eccVal ^ 2) / (1 - o.eccVal) ^ 2) := by positivity
  have h5 := mul_le_mul_of_nonneg_left h1 hL
  have h6 := abs_sub_le (ρ.computedRv kep atan2F A o K t) w v
  refine h6.trans ((add_le_add h3 (h4.trans h5)).trans (le_of_eq ?_))
  ring

/-- For the same orbit the radial velocities with `K = 50` are right to `10⁻⁹` for a thousand days. -/
example (C : Consts) : ∃ o, keplerianInit C demoEcc = .ok o ∧ o.ecc ≠ none ∧ ∀ t, |t| ≤ 1000 → ∃ v, o.radialVelocity C t (some 50) = .ok v ∧
    |doubles.computedRv (fun M e => (roundDouble (keplerOp M e).1, roundDouble (keplerOp M e).2)) (fun y x => roundDouble (arctan2 y x))
      demoEcc o 50 t - v| ≤ 1e-9 := by
  obtain ⟨o, ho, hp, ha, hP, hR, -, ht0, -, hO, p, hec, hev', -⟩ := demoEcc_ok C
  have hev : o.eccVal = 1 / 2 := by simp [Orbit.eccVal, hec, hev']
  have hu : doubles.u = 2⁻¹ ^ 53 := rfl
  refine ⟨o, ho, by simp [hec], fun t htt => ⟨_, rv_eq C o t 50, ?_⟩⟩
  refine (C139_rv_forward C demoEcc o ho hp doubles (fun M e => (roundDouble (keplerOp M e).1, roundDouble (keplerOp M e).2))
    (2⁻¹ ^ 53) (by positivity) (by rw [hu]; norm_num) (fun y x => roundDouble (arctan2 y x)) doubles_arctan2 t
    (fun _ => doubles_kepler (by rw [hev]; norm_num) (by rw [hev]; norm_num) _) 50 _ (rv_eq C o t 50)).trans ?_
  have h4 : |t - 3| ≤ 1003 := by
    have := abs_sub t 3
    rw [abs_of_pos (by norm_num : (0 : ℝ) < 3)] at this
    linarith
  have h5 : √(1 - (1 / 2 : ℝ) ^ 2) ≤ 0.8661 := by
    rw [sqrt_le_left (by norm_num)]; norm_num
  have h6 : 2 * π / 1 * √(1 - (1 / 2 : ℝ) ^ 2) / (1 - 1 / 2) ^ 2 ≤ 22 := by
    have := mul_le_mul pi_lt_d2.le h5 (sqrt_nonneg _) (by norm_num)
    have e : 2 * π / 1 * √(1 - (1 / 2 : ℝ) ^ 2) / (1 - 1 / 2) ^ 2 = 8 * (π * √(1 - (1 / 2 : ℝ) ^ 2)) := by ring
    rw [e]
    linarith
  rw [hev, ht0, hP, hu, abs_of_pos (by norm_num : (0 : ℝ) < 3), abs_of_pos (by norm_num : (0 : ℝ) < 50)]
  have h7 : (2⁻¹ ^ 53 : ℝ) * (2 * 3 + 8 * |t - 3| + 29 * 1) ≤ 2⁻¹ ^ 53 * (2 * 3 + 8 * 1003 + 29 * 1) :=
    mul_le_mul_of_nonneg_left (by linarith) (by positivity)
  have h8 := mul_le_mul h6 h7 (by positivity) (by norm_num)
  refine (mul_le_mul_of_nonneg_left (add_le_add_right h8 _) (by norm_num)).trans ?_
  norm_num

/-- **C139.** The bound on the rate is attained: at periastron, if the major axis points at the observer as
far as the inclination allows (`cos_omega = 0`). -/
theorem C139_rate_attained (C : Consts) (A : Args) (o : Orbit) (h : keplerianInit C A = .ok o) (hp : o.Physical) (p : EccParams)
    (he : o.ecc = some p) (hw : p.cos_omega = 0) (K : ℝ) (v : ℝ → ℝ) (hv : ∀ t, o.radialVelocity C t (some K) = .ok (v t)) :
    ∃ t d, HasDerivAt v d t ∧ |d| = |K| * (2 * π / o.period * √(1 - o.eccVal ^ 2) / (1 - o.eccVal) ^ 2) := by
  have B := built_of_init h
  obtain ⟨t, ht⟩ := B.exists_time hp 0
  have hvv : v = fun t => K * (o.latCos t + o.eccVal * o.cw) := funext fun t => (Except.ok.inj ((rv_eq C o t K).symm.trans (hv t))).symm
  have hse : o.se = √(1 - o.eccVal ^ 2) := by
    rw [← hp.eccOk.se_sq, sqrt_sq hp.eccOk.se_pos.le]
  have he1 : 1 - o.eccVal ≠ 0 := by have := hp.eccOk.lt_one; linarith
  refine ⟨t, _, hvv ▸ (((hasDerivAt_lat B hp t).1.add_const (o.eccVal * o.cw)).const_mul K), ?_⟩
  have hs : |o.latSin t| = 1 := by
    have hcw : o.cw = 0 := by simp [Orbit.cw, he, hw]
    have hsw := hp.omega_sq
    have hc : (o.trueAnomaly t).2 = 1 := by rw [Orbit.cosf_eq, ht, cos_zero, mul_one, div_self he1]
    rw [hcw] at hsw
    rw [← sq_eq_sq₀ (abs_nonneg _) zero_le_one, sq_abs, Orbit.latSin, hc, hcw]
    linarith
  rw [abs_mul, abs_neg, abs_mul, hs, one_mul, abs_of_pos (fdot_pos B hp t), Orbit.fdot, ht, cos_zero, mul_one, B.n_eq, hse]

/-- `KeplerianOrbit(a=10, period=1, ecc=0.5, omega=pi/2)` is such an orbit. -/
example (C : Consts) : ∃ o p, keplerianInit C { a := some (10 : ℝ), period := some (1 : ℝ), ecc := some (1 / 2 : ℝ), omega := some (π / 2 : ℝ) } =
    .ok o ∧ o.Physical ∧ o.ecc = some p ∧ p.cos_omega = 0 ∧ p.ecc = 1 / 2 := by
  have hG := C.G_pos
  have hg := C.gccPerSun_pos
  have hpi := pi_pos
  refine ⟨_, _, rfl, ⟨?_, ?_, ?_, ?_, ?_, ?_, ?_, ?_, ?_, ?_⟩, rfl, ?_, ?_⟩ <;> simp <;> try positivity
  norm_num

end Exo
