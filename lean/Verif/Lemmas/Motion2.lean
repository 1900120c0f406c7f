import Verif.Lemmas.Motion
import Verif.Lemmas.Inputs

/-!
# Consequences of construction for the motion
-/

namespace Exo
open Real

theorem K0Of_eq (o : Orbit) (n a m : ℝ) : K0Of o.ecc n a m = n * a / m / o.se := by
  unfold K0Of Orbit.se Orbit.eccVal
  cases o.ecc <;> simp

namespace Built
variable {C : Consts} {A : Args} {o : Orbit} (B : Built C A o)
include B

theorem hasDerivAt_warp (t : ℝ) : HasDerivAt o.warp 1 t := by
  have : o.warp = fun t => t - o.t0 := funext B.warp_eq
  rw [this]
  exact (hasDerivAt_id t).sub_const _

theorem meanAnom_eq (t : ℝ) : o.meanAnom t = (t - o.t_periastron) * o.n := by
  unfold Orbit.meanAnom
  rw [B.warp_eq, B.tref_eq]; ring

theorem K_planet (hp : o.Physical) : o.K0 * -o.m_star * o.se = o.n * o.a_planet := by
  have h1 := hp.eccOk.se_pos.ne'
  have h2 := (B.m_total_pos hp).ne'
  rw [B.K0_eq, K0Of_eq, B.a_planet_eq]
  field_simp

theorem K_star (hp : o.Physical) : o.K0 * o.m_planet * o.se = o.n * o.a_star := by
  have h1 := hp.eccOk.se_pos.ne'
  have h2 := (B.m_total_pos hp).ne'
  rw [B.K0_eq, K0Of_eq, B.a_star_eq]
  field_simp

theorem K_rel (hp : o.Physical) : o.K0 * -o.m_total * o.se = o.n * -o.a := by
  have h1 := hp.eccOk.se_pos.ne'
  have h2 := (B.m_total_pos hp).ne'
  rw [B.K0_eq, K0Of_eq]
  field_simp

theorem K_total (hp : o.Physical) : o.K0 * o.m_total * o.se = o.n * o.a := by
  have := B.K_rel hp
  linarith

theorem third_law (hp : o.Physical) : o.n ^ 2 * o.a ^ 3 = C.G * o.m_total := by
  obtain ⟨mp, rho, D, -, -, -, hI, -, -⟩ := B.inputs
  have h := (consistentInputs_spec hI hp.a_pos hp.period_pos hp.rho_star_pos hp.r_star_pos hp.m_star_pos
    hp.m_planet_nonneg).1.third_law
  simp only at h
  have hP := hp.period_pos.ne'
  rw [B.n_eq, B.m_total_eq, div_pow, div_mul_eq_mul_div, div_eq_iff (pow_ne_zero 2 hP), ← h]
  ring

theorem a_planet_neg (hp : o.Physical) : o.a_planet < 0 := by
  rw [B.a_planet_eq]
  exact div_neg_of_neg_of_pos (by nlinarith [hp.a_pos, hp.m_star_pos]) (B.m_total_pos hp)

theorem a_star_pos (hp : o.Physical) (hm : 0 < o.m_planet) : 0 < o.a_star := by
  rw [B.a_star_eq]
  exact div_pos (mul_pos hp.a_pos hm) (B.m_total_pos hp)

theorem meanAnom_add_period (hp : o.Physical) (t : ℝ) (k : ℤ) :
    o.meanAnom (t + k * o.period) = o.meanAnom t + k * (2 * π) := by
  rw [B.meanAnom_eq, B.meanAnom_eq, ← B.n_mul_period hp]; ring

theorem trueAnomaly_add_period (hp : o.Physical) (t : ℝ) (k : ℤ) :
    o.trueAnomaly (t + k * o.period) = o.trueAnomaly t := by
  rw [Orbit.trueAnomaly_eq, Orbit.trueAnomaly_eq, B.meanAnom_add_period hp,
    keplerOp_add_two_pi_mul hp.eccOk.nonneg hp.eccOk.lt_one]

/-- Every eccentric anomaly is reached at some time. -/
theorem exists_time (hp : o.Physical) (x : ℝ) : ∃ t, o.E t = x := by
  refine ⟨keplerMap o.eccVal x / o.n + o.t_periastron, ?_⟩
  unfold Orbit.E
  rw [B.meanAnom_eq, add_sub_cancel_right, div_mul_cancel₀ _ (B.n_pos hp).ne']
  exact eccAnomaly_keplerMap hp.eccOk.nonneg hp.eccOk.lt_one x

theorem E_periastron (hp : o.Physical) : o.E o.t_periastron = 0 := by
  unfold Orbit.E
  apply eccAnomaly_unique hp.eccOk.nonneg hp.eccOk.lt_one
  rw [B.meanAnom_eq]; simp [keplerMap]

theorem E_apastron (hp : o.Physical) : o.E (o.t_periastron + o.period / 2) = π := by
  unfold Orbit.E
  apply eccAnomaly_unique hp.eccOk.nonneg hp.eccOk.lt_one
  rw [B.meanAnom_eq]
  have := B.n_mul_period hp
  simp [keplerMap]
  linarith

end Built

/-- Half-angle evaluation of `cos`/`sin` of `2 arctan2 y x`. -/
theorem cos_two_arctan2 {x y : ℝ} (h : 0 < x ^ 2 + y ^ 2) :
    cos (2 * arctan2 y x) = (x ^ 2 - y ^ 2) / (x ^ 2 + y ^ 2) ∧
    sin (2 * arctan2 y x) = 2 * x * y / (x ^ 2 + y ^ 2) := by
  have hz : (⟨x, y⟩ : ℂ) ≠ 0 := by
    intro hz
    have h1 : x = 0 := congrArg Complex.re hz
    have h2 : y = 0 := congrArg Complex.im hz
    rw [h1, h2] at h; norm_num at h
  have hc : cos (arctan2 y x) = x / ‖(⟨x, y⟩ : ℂ)‖ := Complex.cos_arg hz
  have hs : sin (arctan2 y x) = y / ‖(⟨x, y⟩ : ℂ)‖ := Complex.sin_arg _
  have hn : ‖(⟨x, y⟩ : ℂ)‖ ^ 2 = x ^ 2 + y ^ 2 := by
    rw [Complex.sq_norm, Complex.normSq_mk]; ring
  have hn0 : ‖(⟨x, y⟩ : ℂ)‖ ≠ 0 := norm_ne_zero_iff.2 hz
  constructor
  · rw [cos_two_mul, hc, div_pow, hn]; field_simp; ring
  · rw [sin_two_mul, hc, hs, ← hn]; field_simp

theorem M0Of_eq (o : Orbit) : ∃ E0, M0Of o.ecc = keplerMap o.eccVal E0 ∧
    (o.EccOk → o.sw ^ 2 + o.cw ^ 2 = 1 → o.sw ≠ -1 →
      cos E0 = (o.sw + o.eccVal) / (1 + o.eccVal * o.sw) ∧ sin E0 = o.se * o.cw / (1 + o.eccVal * o.sw)) := by
  unfold Orbit.eccVal Orbit.sw Orbit.cw Orbit.se M0Of Orbit.eccVal
  rcases h : o.ecc with _ | p
  · refine ⟨π / 2, ?_, fun _ _ _ => ?_⟩
    · simp [keplerMap]; ring
    · simp
  · simp only
    refine ⟨_, rfl, fun he hsc hsw => ?_⟩
    have he0 : 0 ≤ p.ecc := by have := he.nonneg; simpa [Orbit.eccVal, h] using this
    have he1 : p.ecc < 1 := by have := he.lt_one; simpa [Orbit.eccVal, h] using this
    have hs1 : 0 < 1 + p.sin_omega := by
      rcases lt_trichotomy (1 + p.sin_omega) 0 with h1 | h1 | h1
      · nlinarith [sq_nonneg p.cos_omega]
      · exact absurd (by linarith) hsw
      · exact h1
    have hs2 : p.sin_omega ≤ 1 := by nlinarith [sq_nonneg p.cos_omega]
    have hd : 0 < 1 + p.ecc * p.sin_omega := by nlinarith
    have q1 : √(1 - p.ecc) ^ 2 = 1 - p.ecc := sq_sqrt (by linarith)
    have q2 : √(1 + p.ecc) ^ 2 = 1 + p.ecc := sq_sqrt (by linarith)
    have q3 : √(1 + p.ecc) * √(1 - p.ecc) = √(1 - p.ecc ^ 2) := by
      rw [← sqrt_mul (by linarith)]; congr 1; ring
    have e1 : (√(1 + p.ecc) * (1 + p.sin_omega)) ^ 2 + (√(1 - p.ecc) * p.cos_omega) ^ 2 =
        2 * (1 + p.sin_omega) * (1 + p.ecc * p.sin_omega) := by
      rw [mul_pow, mul_pow, q1, q2]; linear_combination (1 - p.ecc) * hsc
    have e2 : (√(1 + p.ecc) * (1 + p.sin_omega)) ^ 2 - (√(1 - p.ecc) * p.cos_omega) ^ 2 =
        2 * (1 + p.sin_omega) * (p.sin_omega + p.ecc) := by
      rw [mul_pow, mul_pow, q1, q2]; linear_combination (-(1 - p.ecc)) * hsc
    have hpos : 0 < (√(1 + p.ecc) * (1 + p.sin_omega)) ^ 2 + (√(1 - p.ecc) * p.cos_omega) ^ 2 := by
      rw [e1]; positivity
    obtain ⟨c, s⟩ := cos_two_arctan2 hpos
    rw [c, s, e1, e2]
    constructor
    · field_simp
    · rw [← q3]; field_simp

namespace Built
variable {C : Consts} {A : Args} {o : Orbit} (B : Built C A o)
include B

/-- The eccentric anomaly at the reference transit, away from the singular `sin ω = -1`. -/
theorem E_t0 (hp : o.Physical) (hsw : o.sw ≠ -1) :
    cos (o.E o.t0) = (o.sw + o.eccVal) / (1 + o.eccVal * o.sw) ∧
    sin (o.E o.t0) = o.se * o.cw / (1 + o.eccVal * o.sw) := by
  obtain ⟨E0, h1, h2⟩ := M0Of_eq o
  have : o.E o.t0 = E0 := by
    unfold Orbit.E
    apply eccAnomaly_unique hp.eccOk.nonneg hp.eccOk.lt_one
    rw [B.meanAnom_eq, B.t0_eq, add_sub_cancel_left, div_mul_cancel₀ _ (B.n_pos hp).ne', B.M0_eq, h1]
  rw [this]
  exact h2 hp.eccOk hp.omega_sq hsw

theorem one_add_esw_pos (hp : o.Physical) : 0 < 1 + o.eccVal * o.sw := by
  have h1 := hp.omega_sq
  have h2 := hp.eccOk.nonneg
  have h3 := hp.eccOk.lt_one
  have h4 : -1 ≤ o.sw := by nlinarith [sq_nonneg o.cw]
  nlinarith

theorem inclFactor_eq : inclFactorOf o.ecc = (1 + o.eccVal * o.sw) / (1 - o.eccVal ^ 2) := by
  unfold inclFactorOf Orbit.eccVal Orbit.sw
  cases o.ecc <;> simp

theorem cos_incl_b (hp : o.Physical) : o.cos_incl = o.dcosidb * o.b := by
  have hd : o.dcosidb ≠ 0 := by
    rw [B.dcosidb_eq, B.inclFactor_eq]
    have := (B.one_add_esw_pos hp).ne'
    have := hp.eccOk.ome2_pos.ne'
    have := hp.r_star_pos.ne'
    have := hp.a_pos.ne'
    positivity
  obtain ⟨mp, rho, D, -, -, -, -, hi, -⟩ := B.inputs
  revert hi
  generalize o.cos_incl = ci at *
  generalize o.incl = i at *
  generalize o.b = b at *
  unfold inclBlock
  intro hi
  split at hi
  · split at hi <;> simp only [Except.ok.injEq, Prod.mk.injEq, reduceCtorEq] at hi
    obtain ⟨h0, h1, h2⟩ := hi
    rw [← h1, ← h0]
  · split at hi
    · split at hi <;> simp only [Except.ok.injEq, Prod.mk.injEq, reduceCtorEq] at hi
      obtain ⟨h0, h1, h2⟩ := hi
      rw [← h1, ← h0]; field_simp
    · split at hi
      · split at hi
        · cases hi
        · split at hi
          · cases hi
          · simp only [Except.ok.injEq, Prod.mk.injEq] at hi
            obtain ⟨h0, h1, h2⟩ := hi
            rw [← h1, ← h0]
      · simp only [Except.ok.injEq, Prod.mk.injEq] at hi
        obtain ⟨h0, h1, h2⟩ := hi
        rw [← h1, ← h0]; simp

/-- Relative position at the reference transit. -/
theorem relativePosition_t0 (hp : o.Physical) (hsw : o.sw ≠ -1) :
    o.relativePosition C o.t0 =
      ⟨o.sW * (o.b * o.r_star), -o.cW * (o.b * o.r_star),
        o.sin_incl * (o.a * (1 - o.eccVal ^ 2) / (1 + o.eccVal * o.sw))⟩ := by
  obtain ⟨hc, hs⟩ := B.E_t0 hp hsw
  have h1 := (B.one_add_esw_pos hp).ne'
  have h2 := hp.eccOk.ome2_pos.ne'
  have h3 := hp.omega_sq
  have h4 := hp.eccOk.se_sq
  have h5 := hp.a_pos.ne'
  have hb : o.b * o.r_star = o.cos_incl * (o.a * (1 - o.eccVal ^ 2) / (1 + o.eccVal * o.sw)) := by
    rw [B.cos_incl_b hp, B.dcosidb_eq, B.inclFactor_eq]; field_simp
  change o.positionNow C (-o.a) o.t0 none = _
  rw [Orbit.positionNow_eq hp.eccOk, Orbit.rotate_eq, hc, hs, hb]
  have e1 : -o.a * ((o.sw + o.eccVal) / (1 + o.eccVal * o.sw) - o.eccVal) =
      -(o.a * (1 - o.eccVal ^ 2) / (1 + o.eccVal * o.sw)) * o.sw := by
    rw [div_sub' h1]; ring
  have e2 : -o.a * (o.se * (o.se * o.cw / (1 + o.eccVal * o.sw))) =
      -(o.a * (1 - o.eccVal ^ 2) / (1 + o.eccVal * o.sw)) * o.cw := by rw [← h4]; ring
  rw [e1, e2]
  generalize o.a * (1 - o.eccVal ^ 2) / (1 + o.eccVal * o.sw) = ρ
  ext
  · simp only; linear_combination o.sW * o.cos_incl * ρ * h3
  · simp only; linear_combination -o.cW * o.cos_incl * ρ * h3
  · simp only; linear_combination o.sin_incl * ρ * h3

end Built
end Exo
