import Verif.Props.RoundedVelocity

/-!
# C141: rounding in accelerations
-/

namespace Exo
open Real

namespace Rounding
variable (ρ : Rounding)

/-- A rounded product of two numbers with small relative errors. -/
theorem rel_mul {x x' y y' k l δ : ℝ} (hδ : ρ.u ≤ δ) (hδ1 : δ ≤ 1 / 2000) (hk : 0 ≤ k) (hl : 0 ≤ l) (hk3 : k ≤ 12) (hl3 : l ≤ 12)
    (hx : |x' - x| ≤ k * δ * |x|) (hy : |y' - y| ≤ l * δ * |y|) : |ρ.rnd (x' * y') - x * y| ≤ (k + l + 1.1) * δ * |x * y| := by
  have hu := ρ.u_nonneg
  have hδ0 : 0 ≤ δ := hu.trans hδ
  have hδδ : δ * δ ≤ δ / 2000 := by nlinarith
  have h1 : |x' * y' - x * y| ≤ (k + l + 0.072) * δ * |x * y| := by
    rw [show x' * y' - x * y = (x' - x) * (y' - y) + (x' - x) * y + x * (y' - y) by ring]
    refine (abs_add_le _ _).trans ((add_le_add (abs_add_le _ _) le_rfl).trans ?_)
    rw [abs_mul, abs_mul, abs_mul, abs_mul]
    have a1 := mul_le_mul hx hy (abs_nonneg _) (by positivity)
    have a2 := mul_le_mul_of_nonneg_right hx (abs_nonneg y)
    have a3 := mul_le_mul_of_nonneg_left hy (abs_nonneg x)
    have a4 : k * l * (δ * δ) ≤ 144 * (δ / 2000) :=
      mul_le_mul (by nlinarith) hδδ (by positivity) (by norm_num)
    have a5 := mul_le_mul_of_nonneg_right a4 (by positivity : 0 ≤ |x| * |y|)
    have a6 : 0 ≤ δ * (|x| * |y|) := by positivity
    linarith
  have h2 := ρ.near h1
  have a4 : (k + l + 0.072) * δ ≤ 0.013 := by nlinarith
  have a5 := mul_le_mul_of_nonneg_right a4 (abs_nonneg (x * y))
  have a6 : ρ.u * (|x * y| + (k + l + 0.072) * δ * |x * y|) ≤ δ * (1.013 * |x * y|) :=
    mul_le_mul hδ (by linarith) (by positivity) hδ0
  have a7 : 0 ≤ δ * |x * y| := by positivity
  linarith

/-- A rounded quotient of two numbers with small relative errors. -/
theorem rel_div {x x' y y' k l δ : ℝ} (hδ : ρ.u ≤ δ) (hδ1 : δ ≤ 1 / 2000) (hk : 0 ≤ k) (hl : 0 ≤ l) (hk3 : k ≤ 12) (hl3 : l ≤ 3) (hy0 : y ≠ 0)
    (hx : |x' - x| ≤ k * δ * |x|) (hy : |y' - y| ≤ l * δ * |y|) : |ρ.rnd (x' / y') - x / y| ≤ (k + l + 1.1) * δ * |x / y| := by
  have hu := ρ.u_nonneg
  have hδ0 : 0 ≤ δ := hu.trans hδ
  have hyp : 0 < |y| := abs_pos.2 hy0
  have hlδ : l * δ ≤ 0.0015 := by nlinarith
  have hy' : 0.9985 * |y| ≤ |y'| := by
    have h1 := abs_sub_abs_le_abs_sub y y'
    rw [abs_sub_comm] at h1
    have h2 := mul_le_mul_of_nonneg_right hlδ hyp.le
    linarith
  have hyp' : 0 < |y'| := lt_of_lt_of_le (by positivity) hy'
  have hy'0 : y' ≠ 0 := abs_pos.1 hyp'
  have hq : |x / y| * |y| = |x| := by rw [← abs_mul]; congr 1; field_simp
  have h1 : |x' / y' - x / y| ≤ (k + l + 0.03) * δ * |x / y| := by
    rw [show x' / y' - x / y = ((x' - x) - x / y * (y' - y)) / y' by field_simp; ring, abs_div, div_le_iff₀ hyp']
    have a1 : |x / y * (y' - y)| ≤ l * δ * |x| := by
      rw [abs_mul]
      calc _ ≤ |x / y| * (l * δ * |y|) := mul_le_mul_of_nonneg_left hy (abs_nonneg _)
        _ = l * δ * (|x / y| * |y|) := by ring
        _ = _ := by rw [hq]
    refine (abs_sub _ _).trans ((add_le_add hx a1).trans ?_)
    have e3 : 0 ≤ (k + l + 0.03) * δ * |x / y| := by positivity
    refine le_trans ?_ (mul_le_mul_of_nonneg_left hy' e3)
    rw [show (k + l + 0.03) * δ * |x / y| * (0.9985 * |y|) = 0.9985 * (k + l + 0.03) * (δ * (|x / y| * |y|)) by ring, hq]
    have a2 : 0 ≤ δ * |x| := by positivity
    have a3 : k + l ≤ 0.9985 * (k + l + 0.03) := by linarith
    have := mul_le_mul_of_nonneg_right a3 a2
    linarith
  have h2 := ρ.near h1
  have a4 : (k + l + 0.03) * δ ≤ 0.01 := by nlinarith
  have a5 := mul_le_mul_of_nonneg_right a4 (abs_nonneg (x / y))
  have a6 : ρ.u * (|x / y| + (k + l + 0.03) * δ * |x / y|) ≤ δ * (1.01 * |x / y|) :=
    mul_le_mul hδ (by linarith) (by positivity) hδ0
  have a7 : 0 ≤ δ * |x / y| := by positivity
  linarith

/-- The rounded factor on an eccentric orbit. -/
theorem accFactor_err {K Kr a e c c' η δ : ℝ} (he0 : 0 ≤ e) (he : e < 1) (ha : a ≠ 0) (hη : 0 ≤ η) (hδ : δ = (ρ.u + η) / (1 - e))
    (hδ1 : δ ≤ 1 / 2000) (hc : |c| ≤ 1) (hcc : |c' - c| ≤ η) (hK : |Kr - K| ≤ ρ.u * |K|) :
    |ρ.rnd (ρ.rnd (ρ.rnd (Kr ^ 2) * ρ.rnd (ρ.rnd (ρ.rnd (e * c') + 1) ^ 2)) / ρ.rnd (a * ρ.rnd (ρ.rnd (e ^ 2) - 1))) -
      K ^ 2 * (e * c + 1) ^ 2 / (a * (e ^ 2 - 1))| ≤ 14.55 * δ * |K ^ 2 * (e * c + 1) ^ 2 / (a * (e ^ 2 - 1))| := by
  have hu := ρ.u_nonneg
  have h1e : 0 < 1 - e := by linarith
  have hδe : ρ.u + η = δ * (1 - e) := by rw [hδ]; field_simp
  have hδ0 : 0 ≤ δ := by rw [hδ]; positivity
  have hδ2 : δ * (1 - e) ≤ δ := mul_le_of_le_one_right hδ0 (by linarith)
  have huδ : ρ.u ≤ δ := by linarith
  have hηδ : η ≤ δ := by linarith
  have huu : ρ.u * ρ.u ≤ ρ.u / 1000 := ρ.sq_u_le
  -- the squared velocity
  have k1 : |Kr - K| ≤ 1 * δ * |K| := by rw [one_mul]; exact hK.trans (mul_le_mul_of_nonneg_right huδ (abs_nonneg _))
  have k2 := ρ.rel_mul huδ hδ1 zero_le_one zero_le_one (by norm_num) (by norm_num) k1 k1
  rw [← sq, ← sq] at k2
  -- `e² - 1`
  have hN0 : 1 - e ≤ 1 - e ^ 2 := by nlinarith
  have hNp : 0 < 1 - e ^ 2 := by linarith
  have habs : |e ^ 2 - 1| = 1 - e ^ 2 := by rw [abs_sub_comm, abs_of_pos hNp]
  have hsq : e ^ 2 ≤ 1 := by nlinarith
  have n1 : |ρ.rnd (e ^ 2) - 1 - (e ^ 2 - 1)| ≤ ρ.u * e ^ 2 := by
    rw [sub_sub_sub_cancel_right]
    have := ρ.rnd_err (e ^ 2)
    rwa [abs_of_nonneg (sq_nonneg e)] at this
  have n3 : |ρ.rnd (ρ.rnd (e ^ 2) - 1) - (e ^ 2 - 1)| ≤ 1.001 * δ * |e ^ 2 - 1| := by
    have h := ρ.near n1
    rw [habs] at h ⊢
    have h2 : ρ.u * (ρ.u * e ^ 2) ≤ ρ.u / 1000 := by
      have : ρ.u * e ^ 2 ≤ ρ.u := mul_le_of_le_one_right hu hsq
      have := mul_le_mul_of_nonneg_left this hu
      linarith
    have h1 := mul_le_mul_of_nonneg_left hN0 hδ0
    linarith
  have n4 := ρ.rel_mul (x := a) (x' := a) (k := 0) huδ hδ1 le_rfl (by norm_num) (by norm_num) (by norm_num) (by simp) n3
  have hden : a * (e ^ 2 - 1) ≠ 0 := mul_ne_zero ha (by linarith)
  -- `e cos f + 1`
  have hec : |e * c| ≤ 1 := by
    rw [abs_mul, abs_of_nonneg he0]
    exact (mul_le_of_le_one_right he0 hc).trans he.le
  have hD0 : 1 - e ≤ e * c + 1 := by nlinarith [(abs_le.1 hc).1]
  have hD2 : e * c + 1 ≤ 2 := by linarith [(abs_le.1 hec).2]
  have d1 : |e * c' - e * c| ≤ η := by
    rw [← mul_sub, abs_mul, abs_of_nonneg he0]
    exact (mul_le_of_le_one_left (abs_nonneg _) he.le).trans hcc
  have huη : ρ.u * η ≤ ρ.u / 1000 := by
    have := mul_le_mul_of_nonneg_left (hηδ.trans hδ1) hu
    linarith
  have d2 : |ρ.rnd (e * c') + 1 - (e * c + 1)| ≤ η + 1.001 * ρ.u := by
    rw [add_sub_add_right_eq_sub]
    have h := ρ.near d1
    have := mul_le_mul_of_nonneg_left hec hu
    linarith
  have hDp : 0 < e * c + 1 := by linarith
  have d4 : |ρ.rnd (ρ.rnd (e * c') + 1) - (e * c + 1)| ≤ 3.01 * δ * |e * c + 1| := by
    have h := ρ.near d2
    rw [abs_of_pos hDp] at h ⊢
    have := mul_le_mul_of_nonneg_left hD2 hu
    have h1 := mul_le_mul_of_nonneg_left hD0 hδ0
    linarith
  have d5 := ρ.rel_mul huδ hδ1 (by norm_num) (by norm_num) (by norm_num) (by norm_num) d4 d4
  rw [← sq, ← sq] at d5
  have q1 := ρ.rel_mul huδ hδ1 (by norm_num) (by norm_num) (by norm_num) (by norm_num) k2 d5
  have q2 := ρ.rel_div huδ hδ1 (by norm_num) (by norm_num) (by norm_num) (by norm_num) hden q1 n4
  refine q2.trans (mul_le_mul_of_nonneg_right (mul_le_mul_of_nonneg_right (by norm_num) hδ0) (abs_nonneg _))

/-- The rounded acceleration, given the mean anomaly. -/
theorem accelerationFrom_err {C : Consts} {A : Args} {o : Orbit} (h : keplerianInit C A = .ok o) (hp : o.Physical) {kep : ℝ → ℝ → ℝ × ℝ}
    {η δ : ℝ} (hη : 0 ≤ η) (hδ : δ = (ρ.u + η) / (1 - o.eccVal)) (hδ1 : δ ≤ 1 / 2000) {M t : ℝ} (hM : (t - o.t0 - o.tref) * o.n = M)
    (hk : o.ecc ≠ none → KeplerWithin kep η o.eccVal M) (a m : ℝ) (ha : a ≠ 0) :
    |(ρ.accelerationFrom kep o a m M).x - (o.acceleration a m t).x| ≤ 2 * o.roundingFactor * δ * (o.acceleration a m t).norm ∧
    |(ρ.accelerationFrom kep o a m M).y - (o.acceleration a m t).y| ≤ 2 * o.roundingFactor * δ * (o.acceleration a m t).norm ∧
    |(ρ.accelerationFrom kep o a m M).z - (o.acceleration a m t).z| ≤ 44 * δ * (o.acceleration a m t).norm := by
  have B := built_of_init h
  have hu := ρ.u_nonneg
  have he0 := hp.eccOk.nonneg
  have he1 := hp.eccOk.lt_one
  have h1e : 0 < 1 - o.eccVal := by linarith
  have hδe : ρ.u + η = δ * (1 - o.eccVal) := by rw [hδ]; field_simp
  have hδ0 : 0 ≤ δ := by rw [hδ]; positivity
  have hδ2 : δ * (1 - o.eccVal) ≤ δ := mul_le_of_le_one_right hδ0 (by linarith)
  have huδ : ρ.u ≤ δ := by linarith
  have hηδ : η ≤ δ := by linarith
  have hδ3 : δ ≤ 1 / 1000 := by linarith
  have hf : o.trueAnomaly t = keplerOp M o.eccVal := by
    rw [Orbit.trueAnomaly_eq, Orbit.meanAnom, B.warp_eq, hM]
  have hsc := keplerOp_sq he0 he1 M
  have hs1 : |(keplerOp M o.eccVal).1| ≤ 1 := abs_le_of_sq_le_sq (by nlinarith [sq_nonneg (keplerOp M o.eccVal).2]) zero_le_one
  have hc1 : |(keplerOp M o.eccVal).2| ≤ 1 := abs_le_of_sq_le_sq (by nlinarith [sq_nonneg (keplerOp M o.eccVal).1]) zero_le_one
  have hKr : |ρ.rnd (o.K0 * m) - o.K0 * m| ≤ ρ.u * |o.K0 * m| := ρ.rnd_err _
  obtain ⟨F, hacc, hF⟩ : ∃ F, o.acceleration a m t = o.rotate (F * (keplerOp M o.eccVal).2) (F * (keplerOp M o.eccVal).1) ∧
      |ρ.rnd (ρ.accFactor o a m (ρ.anomalyAny kep o M).2 * (ρ.anomalyAny kep o M).2) - F * (keplerOp M o.eccVal).2| ≤ 16.8 * δ * |F| ∧
      |ρ.rnd (ρ.accFactor o a m (ρ.anomalyAny kep o M).2 * (ρ.anomalyAny kep o M).1) - F * (keplerOp M o.eccVal).1| ≤ 16.8 * δ * |F| := by
    cases he : o.ecc with
    | none =>
      have hev : o.eccVal = 0 := by simp [Orbit.eccVal, he]
      refine ⟨-((o.K0 * m) ^ 2) / a, by simp only [Orbit.acceleration, he, hf], ?_⟩
      rw [hev] at hs1 hc1 ⊢
      rw [keplerOp_zero_ecc] at hs1 hc1 ⊢
      have k1 : |ρ.rnd (o.K0 * m) - o.K0 * m| ≤ 1 * δ * |o.K0 * m| := by
        rw [one_mul]; exact hKr.trans (mul_le_mul_of_nonneg_right huδ (abs_nonneg _))
      have k2 := ρ.rel_mul huδ hδ1 zero_le_one zero_le_one (by norm_num) (by norm_num) k1 k1
      rw [← sq, ← sq] at k2
      have k3 : |-ρ.rnd (ρ.rnd (o.K0 * m) ^ 2) - -((o.K0 * m) ^ 2)| ≤ (1 + 1 + 1.1) * δ * |-((o.K0 * m) ^ 2)| := by
        rw [← neg_sub', abs_neg, abs_neg]; exact k2
      have k4 := ρ.rel_div (y := a) (y' := a) (l := 0) huδ hδ1 (by norm_num) le_rfl (by norm_num) (by norm_num) ha k3 (by simp)
      simp only [accFactor, anomalyAny, he]
      generalize -((o.K0 * m) ^ 2) / a = F at *
      have q1 := ρ.prod_err (ε := 2) huδ hδ3 (abs_nonneg F) (by norm_num) (by norm_num) (by norm_num) (by norm_num) hc1
        ((ρ.cos_err M).trans (by linarith)) le_rfl k4
      have q2 := ρ.prod_err (ε := 2) huδ hδ3 (abs_nonneg F) (by norm_num) (by norm_num) (by norm_num) (by norm_num) hs1
        ((ρ.sin_err M).trans (by linarith)) le_rfl k4
      have hF0 : 0 ≤ δ * |F| := by positivity
      rw [mul_comm F, mul_comm F, mul_comm _ (ρ.cosF M), mul_comm _ (ρ.sinF M)]
      exact ⟨q1.trans (by linarith), q2.trans (by linarith)⟩
    | some p =>
      have hev : o.eccVal = p.ecc := by simp [Orbit.eccVal, he]
      obtain ⟨EE, hE, k1, k2⟩ := hk (by simp [he])
      rw [← eccAnomaly_unique he0 he1 hE] at k1 k2
      change |_ - (keplerOp M o.eccVal).1| ≤ η at k1
      change |_ - (keplerOp M o.eccVal).2| ≤ η at k2
      refine ⟨(o.K0 * m) ^ 2 * (o.eccVal * (keplerOp M o.eccVal).2 + 1) ^ 2 / (a * (o.eccVal ^ 2 - 1)),
        by simp only [Orbit.acceleration, he, hf, hev], ?_⟩
      have k4 := ρ.accFactor_err he0 he1 ha hη hδ hδ1 hc1 k2 hKr
      simp only [accFactor, anomalyAny, he]
      rw [← hev]
      generalize (o.K0 * m) ^ 2 * (o.eccVal * (keplerOp M o.eccVal).2 + 1) ^ 2 / (a * (o.eccVal ^ 2 - 1)) = F at *
      have q1 := ρ.prod_err (ε := 1) huδ hδ3 (abs_nonneg F) (by norm_num) (by norm_num) (by norm_num) (by norm_num) hc1
        (k2.trans (by linarith)) le_rfl k4
      have q2 := ρ.prod_err (ε := 1) huδ hδ3 (abs_nonneg F) (by norm_num) (by norm_num) (by norm_num) (by norm_num) hs1
        (k1.trans (by linarith)) le_rfl k4
      have hF0 : 0 ≤ δ * |F| := by positivity
      rw [mul_comm F, mul_comm F, mul_comm _ (kep M o.eccVal).2, mul_comm _ (kep M o.eccVal).1]
      exact ⟨q1.trans (by linarith), q2.trans (by linarith)⟩
  have hxy : (F * (keplerOp M o.eccVal).2) ^ 2 + (F * (keplerOp M o.eccVal).1) ^ 2 = |F| ^ 2 := by
    rw [sq_abs]
    linear_combination F ^ 2 * hsc
  have hnorm : (o.acceleration a m t).norm = |F| := by
    rw [V3.norm, hacc, Orbit.rotate_normSq hp (B.incl_sq hp), hxy, sqrt_sq (abs_nonneg _)]
  rw [hnorm, hacc]
  have r := ρ.rotate_err (δ := 2 * δ) hp (B.incl_sq hp) (by linarith) (by linarith) (abs_nonneg F) hxy
    (hF.1.trans (le_of_eq (by ring))) (hF.2.trans (le_of_eq (by ring)))
  unfold accelerationFrom
  exact ⟨r.1.trans (le_of_eq (by ring)), r.2.1.trans (le_of_eq (by ring)), r.2.2.trans (le_of_eq (by ring))⟩

end Rounding

/-- **C141.** The rounded acceleration of the planet, of the star (with a planet that has a mass) and their difference is, within 44 (with `Omega`: 98)
times `(u + η) / (1 - e)` of its length, the exact one at a time that differs from the requested one by at most
`u (2 |t0| + 8 |t - t0| + 29 P)`. -/
theorem C141_acceleration (C : Consts) (A : Args) (o : Orbit) (h : keplerianInit C A = .ok o) (hp : o.Physical) (ρ : Rounding)
    (kep : ℝ → ℝ → ℝ × ℝ) (η : ℝ) (hη : 0 ≤ η) (hδ : (ρ.u + η) / (1 - o.eccVal) ≤ 1 / 2000) (atan2F : ℝ → ℝ → ℝ)
    (hat : ∀ y x, |atan2F y x - arctan2 y x| ≤ 4 * ρ.u) (t : ℝ)
    (hk : o.ecc ≠ none → KeplerWithin kep η o.eccVal (ρ.computedMeanAnomaly atan2F A o t)) :
    ∃ t', |t' - t| ≤ ρ.u * (2 * |o.t0| + 8 * |t - o.t0| + 29 * o.period) ∧
      ∀ a m w, (a = o.a_planet ∧ m = -o.m_star ∧ w = o.planetAcceleration t' ∨
          o.m_planet ≠ 0 ∧ a = o.a_star ∧ m = o.m_planet ∧ w = o.starAcceleration t' ∨
          a = -o.a ∧ m = -o.m_total ∧ w = o.relativeAcceleration t') →
        |(ρ.computedAcceleration kep atan2F A o a m t).x - w.x| ≤ 2 * o.roundingFactor * ((ρ.u + η) / (1 - o.eccVal)) * w.norm ∧
        |(ρ.computedAcceleration kep atan2F A o a m t).y - w.y| ≤ 2 * o.roundingFactor * ((ρ.u + η) / (1 - o.eccVal)) * w.norm ∧
        |(ρ.computedAcceleration kep atan2F A o a m t).z - w.z| ≤ 44 * ((ρ.u + η) / (1 - o.eccVal)) * w.norm := by
  have B := built_of_init h
  obtain ⟨t', h1, h2⟩ := ρ.backward_time h hp hat t
  have hmt := (B.m_total_pos hp).ne'
  have hap := hp.a_pos.ne'
  refine ⟨t', h1, fun a m w hm => ?_⟩
  have ha : a ≠ 0 := by
    rcases hm with ⟨rfl, -, -⟩ | ⟨hmp, rfl, -, -⟩ | ⟨rfl, -, -⟩
    · rw [B.a_planet_eq]
      have := hp.m_star_pos
      simp only [ne_eq, div_eq_zero_iff, mul_eq_zero, neg_eq_zero, not_or]
      exact ⟨⟨hap, this.ne'⟩, hmt⟩
    · rw [B.a_star_eq]
      exact div_ne_zero (mul_ne_zero hap hmp) hmt
    · exact neg_ne_zero.2 hap
  have hv : w = o.acceleration a m t' := by
    rcases hm with ⟨rfl, rfl, rfl⟩ | ⟨-, rfl, rfl, rfl⟩ | ⟨rfl, rfl, rfl⟩ <;> rfl
  rw [hv]
  exact ρ.accelerationFrom_err h hp hη rfl hδ h2 hk a m ha

/-- The hypotheses hold for `KeplerianOrbit(a=10, period=1, b=0.5, ecc=0.5, omega=0, Omega=1, t0=3)` in double precision with correctly rounded
compiled operations: the relative acceleration is off by less than `5·10⁻¹⁴` of its length, at a time off by less than `10⁻¹²` days. -/
example (C : Consts) : ∃ o, keplerianInit C demoEcc = .ok o ∧ o.ecc ≠ none ∧ ∀ t, |t| ≤ 1000 → ∃ t', |t' - t| ≤ 1e-12 ∧
    |(doubles.computedAcceleration (fun M e => (roundDouble (keplerOp M e).1, roundDouble (keplerOp M e).2)) (fun y x => roundDouble (arctan2 y x))
      demoEcc o (-o.a) (-o.m_total) t).x - (o.relativeAcceleration t').x| ≤ 5e-14 * (o.relativeAcceleration t').norm := by
  obtain ⟨o, ho, hp, ha, hP, hR, -, ht0, -, hO, p, hec, hev', -⟩ := demoEcc_ok C
  have hev : o.eccVal = 1 / 2 := by simp [Orbit.eccVal, hec, hev']
  have hu : doubles.u = 2⁻¹ ^ 53 := rfl
  refine ⟨o, ho, by simp [hec], fun t htt => ?_⟩
  obtain ⟨t', h1, h2⟩ := C141_acceleration C demoEcc o ho hp doubles (fun M e => (roundDouble (keplerOp M e).1, roundDouble (keplerOp M e).2))
    (2⁻¹ ^ 53) (by positivity) (by rw [hu, hev]; norm_num) (fun y x => roundDouble (arctan2 y x)) doubles_arctan2 t
    (fun _ => doubles_kepler (by rw [hev]; norm_num) (by rw [hev]; norm_num) _)
  obtain ⟨h3, -⟩ := h2 (-o.a) (-o.m_total) _ (Or.inr (Or.inr ⟨rfl, rfl, rfl⟩))
  refine ⟨t', h1.trans ?_, h3.trans (mul_le_mul_of_nonneg_right ?_ (sqrt_nonneg _))⟩
  · have h4 : |t - 3| ≤ 1003 := by
      have := abs_sub t 3
      rw [abs_of_pos (by norm_num : (0 : ℝ) < 3)] at this
      linarith
    rw [ht0, hP, hu, abs_of_pos (by norm_num : (0 : ℝ) < 3)]
    calc (2⁻¹ ^ 53 : ℝ) * (2 * 3 + 8 * |t - 3| + 29 * 1) ≤ 2⁻¹ ^ 53 * (2 * 3 + 8 * 1003 + 29 * 1) :=
          mul_le_mul_of_nonneg_left (by linarith) (by positivity)
      _ ≤ _ := by norm_num
  · have hF : o.roundingFactor = 49 := by simp [Orbit.roundingFactor, hO]
    rw [hF, hu, hev]; norm_num

end Exo
