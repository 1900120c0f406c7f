import Verif.Props.Kinematics
import Verif.Props.Anomaly
import Mathlib.Analysis.Real.Pi.Bounds

/-!
# C19, C20: light travel time and the swapped orbit
-/

namespace Exo
open Real

/-! ## C19

The observer is at `z = +∞` (`z > 0` is in front of the star). Light emitted at height `z` arrives `(z0 - z)/c` later
than light emitted at height `z0`. With the body's motion at the observation time `t` continued with constant
acceleration, its height at `t - d` is `Z - Ż d + ½ Z̈ d²`, so the delay `d` must satisfy

    c d = z0 - (Z - Ż d + ½ Z̈ d²)                                          (*)
-/

/-- The light-travel-time equation (*) for a body with height `Z`, velocity `Ż`, acceleration `Z̈`. -/
def SolvesDelay (c z0 Z Zd Zdd d : ℝ) : Prop := c * d = z0 - (Z - Zd * d + 1 / 2 * Zdd * d ^ 2)

/-- **C19** (the position is the one a delay earlier): with `light_delay=True` every position method returns the
position without light delay at the time `t - delay`. -/
theorem C19_position_at_emission (C : Consts) (o : Orbit) (t : ℝ) (px : Option ℝ) :
    o.relativePosition C t px true = o.relativePosition C (t - o.delay C (-o.a) t) none ∧
    o.planetPosition C t px true = o.planetPosition C (t - o.delay C o.a_planet t) none ∧
    o.starPosition C t px true = o.starPosition C (t - o.delay C o.a_star t) none :=
  ⟨rfl, rfl, rfl⟩

theorem Built.retardedVz_form {C : Consts} {A : Args} {o : Orbit} (B : Built C A o) (a t : ℝ) :
    o.retardedVz a t = o.n * a / o.se * o.sin_incl *
      (o.eccVal * o.cw + (o.cw * (o.trueAnomaly t).2 - o.sw * (o.trueAnomaly t).1)) := by
  unfold Orbit.retardedVz Orbit.se Orbit.cw Orbit.sw Orbit.eccVal
  rw [B.n_eq]
  cases o.ecc <;> simp

/-- `vz` of the code is minus the line-of-sight velocity, for the body with amplitude `a = -o.a` (relative),
`o.a_planet` or `o.a_star`. -/
theorem retardedVz_eq {C : Consts} {A : Args} {o : Orbit} (B : Built C A o) (hp : o.Physical) (m a t : ℝ)
    (hK : o.K0 * m * o.se = o.n * a) : o.retardedVz a t = -(o.velocity m t).z := by
  have hse := hp.eccOk.se_pos.ne'
  rw [B.retardedVz_form, Orbit.velocity_eq, Orbit.rotate_eq, ← hK]
  field_simp
  ring

/-- `az` of the code is the line-of-sight acceleration. -/
theorem retardedAz_eq {C : Consts} {A : Args} {o : Orbit} (B : Built C A o) (hp : o.Physical) (m a t : ℝ) (ha : a ≠ 0)
    (hK : o.K0 * m * o.se = o.n * a) : o.retardedAz C a t = (o.acceleration a m t).z := by
  have hse := hp.eccOk.se_pos.ne'
  have hse2 := hp.eccOk.se_sq
  have hd := (hp.eccOk.dpos t).ne'
  have h1 : o.retardedAz C a t =
      -(o.n ^ 2) * (a / (a * (1 - o.eccVal * cos (o.E t)))) ^ 3 * (o.positionNow C a t none).z := by
    unfold Orbit.retardedAz
    simp only [Orbit.radius_anom hp.eccOk, B.n_eq]
  have h2 : o.acceleration a m t =
      (o.positionNow C a t none).smul (-(o.n ^ 2) / (1 - o.eccVal * cos (o.E t)) ^ 3) := by
    rw [Orbit.positionNow_eq hp.eccOk, Orbit.acceleration_anom hp.eccOk, ← Orbit.rotate_smul]
    have h3 : -(o.K0 * m) ^ 2 * (1 - o.eccVal ^ 2) / a = -(o.n ^ 2) * a := by
      rw [← hse2, show -(o.K0 * m) ^ 2 * o.se ^ 2 = -(o.K0 * m * o.se) ^ 2 by ring, hK]
      field_simp
    rw [h3]
    congr 1 <;> ring
  rw [h1, h2]
  simp only [V3.smul]
  rw [div_mul_cancel_left₀ ha, inv_pow]
  ring

/-- What the code's formula solves: the first-order equation when `|Z̈| < 1e-10`, and otherwise (*) with the sign of the
acceleration term flipped. -/
theorem delay_solves (C : Consts) (o : Orbit) (a t z0 Z Zd Zdd : ℝ) (hZ : (o.positionNow C a t none).z = Z)
    (hv : o.retardedVz a t = -Zd) (ha : o.retardedAz C a t = Zdd) :
    (|Zdd| < 1.0e-10 → Zd ≠ C.c → C.c * o.delay C a t z0 = z0 - (Z - Zd * o.delay C a t z0)) ∧
    (1.0e-10 ≤ |Zdd| → 2 * Zdd * (z0 - Z) ≤ (C.c - Zd) ^ 2 →
      C.c * o.delay C a t z0 = z0 - (Z - Zd * o.delay C a t z0 - 1 / 2 * Zdd * o.delay C a t z0 ^ 2)) := by
  have hc := C.c_pos.ne'
  constructor
  · intro h1 h2
    unfold Orbit.delay
    simp only [hZ, hv, ha]
    rw [if_pos h1]
    have h3 : C.c + -Zd ≠ 0 := fun h => h2 (by linarith)
    have h4 := div_mul_cancel₀ (z0 - Z) h3
    linear_combination h4
  · intro h1 h2
    unfold Orbit.delay
    simp only [hZ, hv, ha]
    rw [if_neg (not_lt.2 h1)]
    have hz : Zdd ≠ 0 := by
      rintro rfl
      rw [abs_zero] at h1
      norm_num at h1
    have hdisc : 0 ≤ (1 + -Zd / C.c) * (1 + -Zd / C.c) - 2 * Zdd * (z0 - Z) / C.c ^ 2 := by
      have : (1 + -Zd / C.c) * (1 + -Zd / C.c) - 2 * Zdd * (z0 - Z) / C.c ^ 2 =
          ((C.c - Zd) ^ 2 - 2 * Zdd * (z0 - Z)) / C.c ^ 2 := by field_simp; ring
      rw [this]
      exact div_nonneg (by linarith) (sq_nonneg _)
    have hs := sq_sqrt hdisc
    set s := √((1 + -Zd / C.c) * (1 + -Zd / C.c) - 2 * Zdd * (z0 - Z) / C.c ^ 2) with hsdef
    have hs' : C.c ^ 2 * s ^ 2 = (C.c - Zd) ^ 2 - 2 * Zdd * (z0 - Z) := by
      rw [hs]; field_simp; ring
    field_simp
    linear_combination (-1 : ℝ) * hs'

/-- **C19** (the delay), relative motion. The full claim is `SolvesDelay C.c 0 Z Ż Z̈ d`; the code satisfies it only up to
the following residuals: `½ Z̈ d²` (with `|Z̈| < 1e-10`) in the first-order branch, `Z̈ d²` in the second-order branch,
where the acceleration term has the wrong sign (`C19_wrong_sign`). -/
theorem C19_delay_relative_partial (C : Consts) (A : Args) (o : Orbit) (h : keplerianInit C A = .ok o) (hp : o.Physical)
    (t Z Zd Zdd d : ℝ) (hZ : (o.relativePosition C t).z = Z) (hZd : (o.relativeVelocity t).z = Zd)
    (hZdd : (o.relativeAcceleration t).z = Zdd) (hd : o.delay C (-o.a) t = d) :
    (|Zdd| < 1.0e-10 → Zd ≠ C.c → C.c * d = 0 - (Z - Zd * d + 1 / 2 * Zdd * d ^ 2) + 1 / 2 * Zdd * d ^ 2) ∧
    (1.0e-10 ≤ |Zdd| → -2 * Zdd * Z ≤ (C.c - Zd) ^ 2 →
      C.c * d = 0 - (Z - Zd * d + 1 / 2 * Zdd * d ^ 2) + Zdd * d ^ 2) := by
  have B := built_of_init h
  have h1 := retardedVz_eq B hp _ _ t (B.K_rel hp)
  have h2 := retardedAz_eq B hp _ _ t (neg_ne_zero.2 hp.a_pos.ne') (B.K_rel hp)
  have := delay_solves C o (-o.a) t 0 Z Zd Zdd hZ (by rw [h1, ← hZd]; rfl) (by rw [h2, ← hZdd]; rfl)
  rw [hd] at this
  exact ⟨fun a b => by linarith [this.1 a b], fun a b => by linarith [this.2 a (by linarith)]⟩

/-- **C19** (the delay) for the planet, see `C19_delay_relative_partial`. -/
theorem C19_delay_planet_partial (C : Consts) (A : Args) (o : Orbit) (h : keplerianInit C A = .ok o) (hp : o.Physical)
    (t Z Zd Zdd d : ℝ) (hZ : (o.planetPosition C t).z = Z) (hZd : (o.planetVelocity t).z = Zd)
    (hZdd : (o.planetAcceleration t).z = Zdd) (hd : o.delay C o.a_planet t = d) :
    (|Zdd| < 1.0e-10 → Zd ≠ C.c → C.c * d = 0 - (Z - Zd * d + 1 / 2 * Zdd * d ^ 2) + 1 / 2 * Zdd * d ^ 2) ∧
    (1.0e-10 ≤ |Zdd| → -2 * Zdd * Z ≤ (C.c - Zd) ^ 2 →
      C.c * d = 0 - (Z - Zd * d + 1 / 2 * Zdd * d ^ 2) + Zdd * d ^ 2) := by
  have B := built_of_init h
  have h1 := retardedVz_eq B hp _ _ t (B.K_planet hp)
  have h2 := retardedAz_eq B hp _ _ t (B.a_planet_neg hp).ne (B.K_planet hp)
  have := delay_solves C o o.a_planet t 0 Z Zd Zdd hZ (by rw [h1, ← hZd]; rfl) (by rw [h2, ← hZdd]; rfl)
  rw [hd] at this
  exact ⟨fun a b => by linarith [this.1 a b], fun a b => by linarith [this.2 a (by linarith)]⟩

/-- **C19** (the delay) for the star of a massive planet, see `C19_delay_relative_partial`. -/
theorem C19_delay_star_partial (C : Consts) (A : Args) (o : Orbit) (h : keplerianInit C A = .ok o) (hp : o.Physical)
    (hm : 0 < o.m_planet)
    (t Z Zd Zdd d : ℝ) (hZ : (o.starPosition C t).z = Z) (hZd : (o.starVelocity t).z = Zd)
    (hZdd : (o.starAcceleration t).z = Zdd) (hd : o.delay C o.a_star t = d) :
    (|Zdd| < 1.0e-10 → Zd ≠ C.c → C.c * d = 0 - (Z - Zd * d + 1 / 2 * Zdd * d ^ 2) + 1 / 2 * Zdd * d ^ 2) ∧
    (1.0e-10 ≤ |Zdd| → -2 * Zdd * Z ≤ (C.c - Zd) ^ 2 →
      C.c * d = 0 - (Z - Zd * d + 1 / 2 * Zdd * d ^ 2) + Zdd * d ^ 2) := by
  have B := built_of_init h
  have h1 := retardedVz_eq B hp _ _ t (B.K_star hp)
  have h2 := retardedAz_eq B hp _ _ t (B.a_star_pos hp hm).ne' (B.K_star hp)
  have := delay_solves C o o.a_star t 0 Z Zd Zdd hZ (by rw [h1, ← hZd]; rfl) (by rw [h2, ← hZdd]; rfl)
  rw [hd] at this
  exact ⟨fun a b => by linarith [this.1 a b], fun a b => by linarith [this.2 a (by linarith)]⟩

/-- **C19 is false of the code**: in the second-order branch the delay solves the light-travel-time equation only when
the body is at height 0. -/
theorem C19_wrong_sign (C : Consts) (A : Args) (o : Orbit) (h : keplerianInit C A = .ok o) (hp : o.Physical)
    (t Z Zd Zdd d : ℝ) (hZ : (o.relativePosition C t).z = Z) (hZd : (o.relativeVelocity t).z = Zd)
    (hZdd : (o.relativeAcceleration t).z = Zdd) (hd : o.delay C (-o.a) t = d)
    (hbig : 1.0e-10 ≤ |Zdd|) (hdisc : -2 * Zdd * Z ≤ (C.c - Zd) ^ 2) (hne : Z ≠ 0) :
    ¬ SolvesDelay C.c 0 Z Zd Zdd d := by
  intro hs
  have h1 := (C19_delay_relative_partial C A o h hp t Z Zd Zdd d hZ hZd hZdd hd).2 hbig hdisc
  unfold SolvesDelay at hs
  have hz : Zdd ≠ 0 := by
    rintro rfl
    rw [abs_zero] at hbig
    norm_num at hbig
  have h2 : d = 0 := by
    have : Zdd * d ^ 2 = 0 := by linarith
    simpa [hz] using this
  rw [h2] at h1
  apply hne
  linarith

/-- `KeplerianOrbit(a=10, period=1)` -/
noncomputable def plainArgs : Args := { a := some (10 : ℝ), period := some (1 : ℝ) }

theorem plainArgs_ok (C : Consts) : ∃ o, keplerianInit C plainArgs = .ok o ∧ o.Physical ∧ o.period = 1 ∧ o.a = 10 ∧
    o.ecc = none ∧ o.sin_incl = 1 ∧ o.t0 = 0 := by
  have hG := C.G_pos
  have hg := C.gccPerSun_pos
  have hpi := pi_pos
  refine ⟨_, rfl, ⟨?_, ?_, ?_, ?_, ?_, ?_, ?_, ?_, ?_, ?_⟩, ?_, ?_, ?_, ?_, ?_⟩ <;> simp <;> try positivity
  rw [show (0.5 * π : ℝ) = π / 2 by ring, sin_pi_div_two]

/-- Concrete violation of C19: `KeplerianOrbit(a=10, period=1)` at mid-transit, for every choice of constants in which
light crosses at least 100 stellar radii per day. -/
theorem C19_counterexample (C : Consts) (hc : 100 ≤ C.c) : ∃ A o t, keplerianInit C A = .ok o ∧ o.Physical ∧
    ¬ SolvesDelay C.c 0 (o.relativePosition C t).z (o.relativeVelocity t).z (o.relativeAcceleration t).z
      (o.delay C (-o.a) t) := by
  obtain ⟨o, h, hp, hP, ha, he, hs, ht⟩ := plainArgs_ok C
  have B := built_of_init h
  have hn : o.n = 2 * π := by rw [B.n_eq, hP, div_one]
  have hM0 : o.M0 = π / 2 := by rw [B.M0_eq, he, M0Of]; ring
  have hev : o.eccVal = 0 := by simp [Orbit.eccVal, he]
  have hM : o.meanAnom 0 = π / 2 := by
    have := B.t0_eq
    rw [ht, hM0, hn] at this
    rw [B.meanAnom_eq, hn]
    have hpi := pi_pos.ne'
    field_simp at this
    linear_combination (π / 2) * this
  have hE : o.E 0 = π / 2 := by
    unfold Orbit.E; rw [hev, eccAnomaly_zero_ecc, hM]
  have hsw : o.sw = 0 := by simp [Orbit.sw, he]
  have hcw : o.cw = 1 := by simp [Orbit.cw, he]
  have hse : o.se = 1 := by simp [Orbit.se, hev]
  have hmt := (B.m_total_pos hp).ne'
  have hK : o.K0 * -o.m_total = 2 * π * -10 := by
    have := B.K_rel hp
    rw [hse, mul_one, hn, ha] at this; exact this
  have hZ : (o.relativePosition C 0).z = 10 := by
    change (o.positionNow C (-o.a) 0 none).z = 10
    rw [Orbit.positionNow_eq hp.eccOk, Orbit.rotate_eq, hE, hs, hsw, hcw, hse, ha]
    simp
  have hZd : (o.relativeVelocity 0).z = 0 := by
    change (o.velocity (-o.m_total) 0).z = 0
    rw [Orbit.velocity_anom hp.eccOk, Orbit.rotate_eq, hE, hs, hsw, hcw, hse]
    simp
  have hZdd : (o.relativeAcceleration 0).z = -(40 * π ^ 2) := by
    change (o.acceleration (-o.a) (-o.m_total) 0).z = _
    rw [Orbit.acceleration_anom hp.eccOk, Orbit.rotate_eq, hE, hs, hsw, hcw, hse, hK, ha, hev]
    simp
    ring
  have hp3 := pi_gt_d2
  have hp4 := pi_lt_d2
  refine ⟨_, o, 0, h, hp, C19_wrong_sign C _ o h hp 0 _ _ _ _ rfl rfl rfl rfl ?_ ?_ ?_⟩
  · rw [hZdd, abs_neg, abs_of_nonneg (by positivity)]; norm_num; nlinarith
  · rw [hZ, hZd, hZdd]; nlinarith
  · rw [hZ]; norm_num

/-! ## C20 -/

/-- **C20**: the flipped orbit exists for every companion radius, and in it star and planet have swapped roles:
positions (with or without light delay), velocities, and the relative position is negated. -/
theorem C20_flip (C : Consts) (A : Args) (o : Orbit) (h : keplerianInit C A = .ok o) (hp : o.Physical)
    (r : ℝ) :
    ∃ o', o.flip C r = .ok o' ∧ o'.r_star = r ∧ o'.m_star = o.m_planet ∧ o'.m_planet = o.m_star ∧ o'.a = o.a ∧
      o'.period = o.period ∧ ∀ t (px : Option ℝ),
      (∀ ld, o'.planetPosition C t px ld = o.starPosition C t px ld) ∧
      (∀ ld, o'.starPosition C t px ld = o.planetPosition C t px ld) ∧
      o'.relativePosition C t px = (o.relativePosition C t px).smul (-1) ∧
      o'.planetVelocity t = o.starVelocity t ∧ o'.starVelocity t = o.planetVelocity t ∧
      o'.relativeVelocity t = (o.relativeVelocity t).smul (-1) := by
  have B := built_of_init h
  have homega : ∀ p, o.ecc = some p → p.cos_omega = cos p.omega ∧ p.sin_omega = sin p.omega := by
    intro p hpe
    have hb := B.ecc_eq
    have hu := hp.omega_unit p hpe
    unfold eccBlock at hb
    rcases hA : A.ecc with _ | e <;> rcases hw : A.omega with _ | w <;> rcases hs : A.sin_omega with _ | s <;>
      rcases hc : A.cos_omega with _ | c <;> simp [hA, hpe, hw, hs, hc] at hb <;> subst hb <;> simp
    simp only at hu
    exact ⟨(arctan2_cos_sin hu).1.symm, (arctan2_cos_sin hu).2.symm⟩
  have hex : ∃ o', o.flip C r = .ok o' ∧ o'.r_star = r ∧ o'.m_star = o.m_planet ∧ o'.m_planet = o.m_star ∧
      o'.a = (C.G * (o.m_planet + o.m_star) * o.period ^ 2 / (4 * π ^ 2)) ^ ((1 : ℝ) / 3) ∧
      o'.period = o.period ∧ o'.incl = o.incl ∧ o'.cos_incl = cos o.incl ∧ o'.Omega = o.Omega ∧
      o'.ecc = o.ecc.map (fun p => ⟨p.ecc, p.omega - π, cos (p.omega - π), sin (p.omega - π)⟩) ∧
      o'.t_periastron = (if o.ecc.isSome then o.t_periastron else o.t_periastron + 0.5 * o.period) := by
    unfold Orbit.flip Orbit.flipArgs
    rcases he : o.ecc with _ | p <;> rcases hO : o.Omega with _ | W <;> exact ⟨_, rfl, rfl, rfl, rfl, rfl, rfl, rfl, rfl,
      rfl, rfl, rfl⟩
  obtain ⟨o', hf, hr, hms, hmp, ha, hP, hi, hci, hO, he, htp⟩ := hex
  have B' := built_of_init hf
  have hn : o'.n = o.n := by rw [B.n_eq, B'.n_eq, hP]
  have hmt : o'.m_total = o.m_total := by rw [B.m_total_eq, B'.m_total_eq, hms, hmp, add_comm]
  have haa : o'.a = o.a := by
    have h3 := B.third_law hp
    rw [ha, add_comm o.m_planet, ← B.m_total_eq, ← h3, B.n_eq]
    have hPp := hp.period_pos.ne'
    have hpi := pi_pos.ne'
    rw [show (2 * π / o.period) ^ 2 * o.a ^ 3 * o.period ^ 2 / (4 * π ^ 2) = o.a ^ (3 : ℕ) by field_simp; ring]
    rw [show ((1 : ℝ) / 3) = ((3 : ℕ) : ℝ)⁻¹ by norm_num, pow_rpow_inv_natCast hp.a_pos.le (by norm_num)]
  have hap : o'.a_planet = -o.a_star := by rw [B'.a_planet_eq, B.a_star_eq, haa, hms, hmt]; ring
  have has : o'.a_star = -o.a_planet := by rw [B'.a_star_eq, B.a_planet_eq, haa, hmp, hmt]; ring
  have hev : o'.eccVal = o.eccVal := by unfold Orbit.eccVal; rw [he]; cases o.ecc <;> rfl
  have hK : o'.K0 = o.K0 := by
    rw [B.K0_eq, B'.K0_eq, K0Of_eq, K0Of_eq, hn, haa, hmt]; unfold Orbit.se; rw [hev]
  have hci' : o'.cos_incl = o.cos_incl := by rw [hci, B.cos_incl_eq hp.cos_incl_abs]
  have hsi' : o'.sin_incl = o.sin_incl := by rw [B'.sin_incl_eq, B.sin_incl_eq, hi]
  have hnP := B.n_mul_period hp
  have hcW : o'.cW = o.cW := by unfold Orbit.cW; rw [hO]
  have hsW : o'.sW = o.sW := by unfold Orbit.sW; rw [hO]
  have hse : o'.se = o.se := by unfold Orbit.se; rw [hev]
  -- either the direction of periapsis or the anomaly is reversed
  have key : ((∀ t, o'.trueAnomaly t = (-(o.trueAnomaly t).1, -(o.trueAnomaly t).2)) ∧ o.eccVal = 0 ∧
        o'.cw = o.cw ∧ o'.sw = o.sw) ∨
      ((∀ t, o'.trueAnomaly t = o.trueAnomaly t) ∧ o'.cw = -o.cw ∧ o'.sw = -o.sw) := by
    rcases hc : o.ecc with _ | p
    · left
      have hz : o.eccVal = 0 := by simp [Orbit.eccVal, hc]
      refine ⟨fun t => ?_, hz, by simp [Orbit.cw, he, hc], by simp [Orbit.sw, he, hc]⟩
      have hM : o'.meanAnom t = o.meanAnom t - π := by
        rw [B'.meanAnom_eq, B.meanAnom_eq, hn, htp, hc]
        simp only [Option.isSome_none, Bool.false_eq_true, if_false]
        linear_combination -(1 / 2 : ℝ) * hnP
      rw [Orbit.trueAnomaly_eq, Orbit.trueAnomaly_eq, hev, hz, keplerOp_zero_ecc, keplerOp_zero_ecc, hM, sin_sub_pi,
        cos_sub_pi]
    · right
      refine ⟨fun t => ?_, by simp [Orbit.cw, he, hc, cos_sub_pi, (homega p hc).1],
        by simp [Orbit.sw, he, hc, sin_sub_pi, (homega p hc).2]⟩
      have hM : o'.meanAnom t = o.meanAnom t := by
        rw [B'.meanAnom_eq, B.meanAnom_eq, hn, htp, hc]; simp
      rw [Orbit.trueAnomaly_eq, Orbit.trueAnomaly_eq, hev, hM]
  have hradius : ∀ a t, o'.radius a (o'.trueAnomaly t).2 = o.radius a (o.trueAnomaly t).2 := by
    intro a t
    rw [Orbit.radius_eq, Orbit.radius_eq, hev]
    rcases key with ⟨h1, h2, -, -⟩ | ⟨h1, -, -⟩
    · rw [h2]; simp
    · rw [h1]
  have hneg : ∀ a c, o.radius (-a) c = -o.radius a c := by
    intro a c; rw [Orbit.radius_eq, Orbit.radius_eq]; ring
  have hpos : ∀ a t px, o'.positionNow C a t px = o.positionNow C (-a) t px := by
    intro a t px
    unfold Orbit.positionNow
    simp only [hradius, hneg]
    generalize o.radius a (o.trueAnomaly t).2 = R
    rw [Orbit.rotate_eq, Orbit.rotate_eq, hcW, hsW, hci', hsi']
    rcases key with ⟨h1, -, h2, h3⟩ | ⟨h1, h2, h3⟩ <;> rw [h1, h2, h3] <;> cases px <;> simp only <;> congr 1 <;> ring
  have hvel : ∀ m t, o'.velocity m t = o.velocity (-m) t := by
    intro m t
    rw [Orbit.velocity_eq, Orbit.velocity_eq, Orbit.rotate_eq, Orbit.rotate_eq, hcW, hsW, hci', hsi', hev, hK]
    rcases key with ⟨h1, h0, h2, h3⟩ | ⟨h1, h2, h3⟩
    · rw [h1, h2, h3, h0]; congr 1 <;> ring
    · rw [h1, h2, h3]; congr 1 <;> ring
  have hvz : ∀ a t, o'.retardedVz a t = o.retardedVz (-a) t := by
    intro a t
    rw [B'.retardedVz_form, B.retardedVz_form, hn, hse, hsi', hev]
    rcases key with ⟨h1, h0, h2, h3⟩ | ⟨h1, h2, h3⟩
    · rw [h1, h2, h3, h0]; ring
    · rw [h1, h2, h3]; ring
  have haz : ∀ a t, o'.retardedAz C a t = o.retardedAz C (-a) t := by
    intro a t
    unfold Orbit.retardedAz
    simp only [hpos, hradius, hneg, hP, neg_div_neg_eq]
  have hdelay : ∀ a t, o'.delay C a t = o.delay C (-a) t := by
    intro a t
    unfold Orbit.delay
    simp only [hpos, hvz, haz]
  have hposition : ∀ a t px ld, o'.position C a t px ld = o.position C (-a) t px ld := by
    intro a t px ld
    unfold Orbit.position Orbit.retardedPosition
    cases ld <;> simp [hdelay, hpos]
  refine ⟨o', hf, hr, hms, hmp, haa, hP, fun t px => ⟨fun ld => ?_, fun ld => ?_, ?_, ?_, ?_, ?_⟩⟩
  · change o'.position C _ _ _ _ = o.position C _ _ _ _
    rw [hposition, hap, neg_neg]
  · change o'.position C _ _ _ _ = o.position C _ _ _ _
    rw [hposition, has, neg_neg]
  · change o'.positionNow C _ _ _ = (o.positionNow C _ _ _).smul _
    rw [hpos, haa, neg_neg]
    unfold Orbit.positionNow
    rw [← Orbit.rotate_smul]
    simp only [hneg]
    cases px <;> simp
  · change o'.velocity _ _ = o.velocity _ _
    rw [hvel, hms, neg_neg]
  · change o'.velocity _ _ = o.velocity _ _
    rw [hvel, hmp]
  · change o'.velocity _ _ = (o.velocity _ _).smul _
    rw [hvel, hmt, neg_neg, Orbit.velocity_eq, Orbit.velocity_eq, ← Orbit.rotate_smul]
    congr 1 <;> ring

example (C : Consts) : ∃ A o, keplerianInit C A = .ok o ∧ o.Physical ∧ o.ecc ≠ none := by
  obtain ⟨o, h, hp, -, -, -, -, -, -, -, p, h1, -⟩ := demoEcc_ok C
  exact ⟨_, o, h, hp, by simp [h1]⟩

end Exo
