import Verif.Props.Geometry

/-!
# C15-C18: radial velocity, ecc = 0, true anomaly, relative angles
-/

namespace Exo
open Real

/-! ## C17 -/

theorem arctan2_cos_sin {s c : ℝ} (h : s ^ 2 + c ^ 2 = 1) : cos (arctan2 s c) = c ∧ sin (arctan2 s c) = s := by
  have hn : ‖(⟨c, s⟩ : ℂ)‖ = 1 := by
    have : ‖(⟨c, s⟩ : ℂ)‖ ^ 2 = 1 := by rw [Complex.sq_norm, Complex.normSq_mk]; linarith
    nlinarith [norm_nonneg (⟨c, s⟩ : ℂ)]
  have hz : (⟨c, s⟩ : ℂ) ≠ 0 := by intro h0; rw [h0] at hn; simp at hn
  refine ⟨?_, ?_⟩
  · rw [arctan2, Complex.cos_arg hz, hn, div_one]
  · rw [arctan2, Complex.sin_arg, hn, div_one]

/-- **C17** (existence and uniqueness): Kepler's equation `E - e sin E = M` has exactly one solution. -/
theorem C17_kepler_unique (e M : ℝ) (h0 : 0 ≤ e) (h1 : e < 1) : ∃! E, E - e * sin E = M := by
  refine ⟨eccAnomaly e M, keplerMap_eccAnomaly h0 M, fun E hE => ?_⟩
  exact (eccAnomaly_unique h0 h1 hE).symm

/-- **C17** (the returned true anomaly): `get_true_anomaly(M, e)` is in `(-π, π]` and its cosine and sine are those given
by the solution `E` of Kepler's equation. -/
theorem C17_true_anomaly (e M E : ℝ) (h0 : 0 ≤ e) (h1 : e < 1) (hE : E - e * sin E = M) :
    -π < getTrueAnomaly M e ∧ getTrueAnomaly M e ≤ π ∧
    cos (getTrueAnomaly M e) = (cos E - e) / (1 - e * cos E) ∧
    sin (getTrueAnomaly M e) = √(1 - e ^ 2) * sin E / (1 - e * cos E) := by
  have hu : eccAnomaly e M = E := eccAnomaly_unique h0 h1 hE
  obtain ⟨hc, hs⟩ := arctan2_cos_sin (keplerOp_sq h0 h1 M)
  refine ⟨Complex.neg_pi_lt_arg _, Complex.arg_le_pi _, ?_, ?_⟩
  · unfold getTrueAnomaly; rw [hc, keplerOp, hu]
  · unfold getTrueAnomaly; rw [hs, keplerOp, hu]

/-- **C17** (circular limit, periodicity, oddness). -/
theorem C17_special_cases (M : ℝ) :
    (∃ k : ℤ, getTrueAnomaly M 0 = M + k * (2 * π)) ∧
    (∀ e, 0 ≤ e → e < 1 → ∀ k : ℤ, getTrueAnomaly (M + k * (2 * π)) e = getTrueAnomaly M e) ∧
    (∀ e, 0 ≤ e → e < 1 → getTrueAnomaly M e ≠ π → getTrueAnomaly (-M) e = -getTrueAnomaly M e) ∧
    (∀ e, 0 ≤ e → e < 1 → getTrueAnomaly M e = π → getTrueAnomaly (-M) e = π) := by
  have hneg : ∀ e, 0 ≤ e → e < 1 → keplerOp (-M) e = (-(keplerOp M e).1, (keplerOp M e).2) := by
    intro e h0 h1
    simp only [keplerOp, eccAnomaly_neg h0 h1, sin_neg, cos_neg]
    congr 1; ring
  refine ⟨?_, ?_, ?_, ?_⟩
  · have h := arctan2_cos_sin (s := sin M) (c := cos M) (sin_sq_add_cos_sq M)
    have e : getTrueAnomaly M 0 = arctan2 (sin M) (cos M) := by unfold getTrueAnomaly; rw [keplerOp_zero_ecc]
    rw [e]
    have ha : Real.Angle.cos (arctan2 (sin M) (cos M) : Real.Angle) = Real.Angle.cos (M : Real.Angle) := by
      simpa using h.1
    have hb : Real.Angle.sin (arctan2 (sin M) (cos M) : Real.Angle) = Real.Angle.sin (M : Real.Angle) := by
      simpa using h.2
    have := Real.Angle.cos_sin_inj h.1 h.2
    rw [Real.Angle.angle_eq_iff_two_pi_dvd_sub] at this
    obtain ⟨k, hk⟩ := this
    exact ⟨k, by linarith⟩
  · intro e h0 h1 k
    unfold getTrueAnomaly; rw [keplerOp_add_two_pi_mul h0 h1]
  · intro e h0 h1 hne
    unfold getTrueAnomaly at *
    rw [hneg e h0 h1]
    have : (⟨(keplerOp M e).2, -(keplerOp M e).1⟩ : ℂ) =
        (starRingEnd ℂ) ⟨(keplerOp M e).2, (keplerOp M e).1⟩ := rfl
    unfold arctan2 at *
    simp only
    rw [this, Complex.arg_conj, if_neg hne]
  · intro e h0 h1 hpi
    unfold getTrueAnomaly at *
    rw [hneg e h0 h1]
    have : (⟨(keplerOp M e).2, -(keplerOp M e).1⟩ : ℂ) =
        (starRingEnd ℂ) ⟨(keplerOp M e).2, (keplerOp M e).1⟩ := rfl
    unfold arctan2 at *
    simp only
    rw [this, Complex.arg_conj, if_pos hpi]

example : ∃ e M E : ℝ, 0 ≤ e ∧ e < 1 ∧ E - e * sin E = M ∧ e ≠ 0 ∧ E ≠ 0 :=
  ⟨1 / 2, π / 2 - 1 / 2 * sin (π / 2), π / 2, by norm_num, by norm_num, rfl, by norm_num, by positivity⟩

/-! ## C15 -/

/-- The radial-velocity semi-amplitude of the star from the standard formula
`K = (2π/P) a_star sin i / √(1-e²)`, `a_star = a m_planet/(m_star+m_planet)`, in the unit `u`. -/
noncomputable def semiAmplitude (C : Consts) (o : Orbit) (u : AUnit) : ℝ :=
  (2 * π / o.period) * (o.a * o.m_planet / (o.m_star + o.m_planet)) * o.sin_incl / √(1 - o.eccVal ^ 2) *
    (C.rSunPerDay.scale / u.scale)

/-- **C15** (the two forms agree): without `K` the result is that of the `K` form for the orbit's semi-amplitude in the
output unit (default m/s), and it is minus the star's z-velocity in that unit; a unit that is not a velocity fails. -/
theorem C15_forms_agree (C : Consts) (A : Args) (o : Orbit) (h : keplerianInit C A = .ok o) (hp : o.Physical)
    (t : ℝ) (u : AUnit) (hu : u.dim = C.mPerS.dim) :
    o.radialVelocity C t none (some u) = o.radialVelocity C t (some (semiAmplitude C o u)) none ∧
    o.radialVelocity C t none (some u) = .ok (-(C.rSunPerDay.scale / u.scale) * (o.starVelocity t).z) ∧
    o.radialVelocity C t none none = o.radialVelocity C t none (some C.mPerS) ∧
    (∀ v : AUnit, v.dim ≠ C.mPerS.dim → o.radialVelocity C t none (some v) = .error .unitConversion) := by
  have B := built_of_init h
  have hconv : C.rSunPerDay.to u = .ok (C.rSunPerDay.scale / u.scale) := by
    unfold AUnit.to; rw [if_pos]; rw [hu]; rfl
  have h2 : o.radialVelocity C t none (some u) =
      .ok (-(C.rSunPerDay.scale / u.scale) * (o.starVelocity t).z) := by
    unfold Orbit.radialVelocity; simp [hconv]
  refine ⟨?_, h2, rfl, ?_⟩
  · rw [h2]
    have hK := B.K_star hp
    have hse := hp.eccOk.se_pos.ne'
    have hmt := (B.m_total_pos hp).ne'
    have e1 : semiAmplitude C o u = o.K0 * o.m_planet * o.sin_incl * (C.rSunPerDay.scale / u.scale) := by
      unfold semiAmplitude
      rw [show √(1 - o.eccVal ^ 2) = o.se from rfl, ← B.m_total_eq, ← B.n_eq, ← B.a_star_eq, ← hK]
      field_simp
    have e2 : o.radialVelocity C t (some (semiAmplitude C o u)) none =
        .ok (semiAmplitude C o u * (o.cw * (o.trueAnomaly t).2 - o.sw * (o.trueAnomaly t).1 + o.eccVal * o.cw)) := by
      unfold Orbit.radialVelocity Orbit.cw Orbit.sw Orbit.eccVal
      cases o.ecc <;> simp
    rw [e2, e1]
    congr 1
    unfold Orbit.starVelocity
    rw [Orbit.velocity_eq, Orbit.rotate_eq]
    ring
  · intro v hv
    have : C.rSunPerDay.to v = .error .unitConversion := by
      unfold AUnit.to; rw [if_neg]; exact fun h => hv h.symm
    unfold Orbit.radialVelocity; simp [this]

/-- **C15** (range): for `K ≥ 0` the radial velocity stays in `[K(e cos ω - 1), K(e cos ω + 1)]` and both ends are
attained (with `e = 0` on circular orbits). -/
theorem C15_range (C : Consts) (A : Args) (o : Orbit) (h : keplerianInit C A = .ok o) (hp : o.Physical)
    (K : ℝ) (hK : 0 ≤ K) (ecw : ℝ) (hecw : ecw = match o.ecc with | none => 0 | some p => p.ecc * p.cos_omega) :
    (∀ t v, o.radialVelocity C t (some K) = .ok v → K * (ecw - 1) ≤ v ∧ v ≤ K * (ecw + 1)) ∧
    (∃ t, o.radialVelocity C t (some K) = .ok (K * (ecw + 1))) ∧
    (∃ t, o.radialVelocity C t (some K) = .ok (K * (ecw - 1))) := by
  have B := built_of_init h
  have he : ecw = o.eccVal * o.cw := by
    rw [hecw]; unfold Orbit.eccVal Orbit.cw; cases o.ecc <;> simp
  have e2 : ∀ t, o.radialVelocity C t (some K) =
        .ok (K * (o.cw * (o.trueAnomaly t).2 - o.sw * (o.trueAnomaly t).1 + ecw)) := by
    intro t
    rw [he]
    unfold Orbit.radialVelocity Orbit.cw Orbit.sw Orbit.eccVal
    cases o.ecc <;> simp
  have hu := hp.omega_sq
  have hf : ∀ t, (o.trueAnomaly t).1 ^ 2 + (o.trueAnomaly t).2 ^ 2 = 1 := by
    intro t; rw [Orbit.trueAnomaly_eq]; exact keplerOp_sq hp.eccOk.nonneg hp.eccOk.lt_one _
  -- every point of the unit circle is (cos f, sin f) at some time
  have hsurj : ∀ c s : ℝ, s ^ 2 + c ^ 2 = 1 → ∃ t, (o.trueAnomaly t).2 = c ∧ (o.trueAnomaly t).1 = s := by
    intro c s hcs
    have h0 := hp.eccOk.nonneg
    have h1 := hp.eccOk.lt_one
    have hc1 : -1 ≤ c := by nlinarith [sq_nonneg s]
    have hd : 0 < 1 + o.eccVal * c := by nlinarith
    have hse := hp.eccOk.se_sq
    have hunit : (o.se * s / (1 + o.eccVal * c)) ^ 2 + ((c + o.eccVal) / (1 + o.eccVal * c)) ^ 2 = 1 := by
      rw [div_pow, div_pow, ← add_div, div_eq_one_iff_eq (by positivity), mul_pow, hse]
      linear_combination (1 - o.eccVal ^ 2) * hcs
    obtain ⟨a1, a2⟩ := arctan2_cos_sin hunit
    obtain ⟨t, ht⟩ := B.exists_time hp (arctan2 (o.se * s / (1 + o.eccVal * c)) ((c + o.eccVal) / (1 + o.eccVal * c)))
    refine ⟨t, ?_, ?_⟩
    · rw [Orbit.cosf_eq, ht, a1]
      have hd2 := hp.eccOk.dpos t
      rw [ht, a1] at hd2
      rw [div_eq_iff hd2.ne']
      have hx : (c + o.eccVal) / (1 + o.eccVal * c) * (1 + o.eccVal * c) = c + o.eccVal := div_mul_cancel₀ _ hd.ne'
      linear_combination hx
    · rw [Orbit.sinf_eq, ht, a1, a2]
      have hd2 := hp.eccOk.dpos t
      rw [ht, a1] at hd2
      rw [div_eq_iff hd2.ne']
      have hx : 1 - o.eccVal * ((c + o.eccVal) / (1 + o.eccVal * c)) = o.se ^ 2 / (1 + o.eccVal * c) := by
        rw [hse, eq_div_iff hd.ne']
        have hx : (c + o.eccVal) / (1 + o.eccVal * c) * (1 + o.eccVal * c) = c + o.eccVal :=
          div_mul_cancel₀ _ hd.ne'
        linear_combination -o.eccVal * hx
      rw [hx]
      ring
  refine ⟨fun t v hv => ?_, ?_, ?_⟩
  · rw [e2] at hv
    cases hv
    have h1 := hf t
    have hb : (o.cw * (o.trueAnomaly t).2 - o.sw * (o.trueAnomaly t).1) ^ 2 ≤ 1 := by
      nlinarith [sq_nonneg (o.cw * (o.trueAnomaly t).1 + o.sw * (o.trueAnomaly t).2)]
    obtain ⟨b1, b2⟩ := abs_le.1 ((sq_le_one_iff_abs_le_one _).1 hb)
    exact ⟨mul_le_mul_of_nonneg_left (by linarith) hK, mul_le_mul_of_nonneg_left (by linarith) hK⟩
  · obtain ⟨t, h1, h2⟩ := hsurj o.cw (-o.sw) (by rw [neg_sq]; exact hu)
    refine ⟨t, ?_⟩
    rw [e2, h1, h2]
    congr 1
    linear_combination K * hu
  · obtain ⟨t, h1, h2⟩ := hsurj (-o.cw) o.sw (by rw [neg_sq]; exact hu)
    refine ⟨t, ?_⟩
    rw [e2, h1, h2]
    congr 1
    linear_combination -K * hu

/-! ## C18 -/

/-- **C18** (polar form): for every orbit, time and option, `rho ≥ 0`, `theta ∈ (-π, π]` and the sky position is
`(rho cos theta, rho sin theta)`. -/
theorem C18_polar (C : Consts) (o : Orbit) (t : ℝ) (px : Option ℝ) (ld : Bool) :
    0 ≤ (o.relativeAngles C t px ld).1 ∧ -π < (o.relativeAngles C t px ld).2 ∧
    (o.relativeAngles C t px ld).2 ≤ π ∧
    (o.relativePosition C t px ld).x = (o.relativeAngles C t px ld).1 * cos (o.relativeAngles C t px ld).2 ∧
    (o.relativePosition C t px ld).y = (o.relativeAngles C t px ld).1 * sin (o.relativeAngles C t px ld).2 := by
  unfold Orbit.relativeAngles Orbit.relativePosition
  generalize o.position C (-o.a) t px ld = X
  have hn : ‖(⟨X.x, X.y⟩ : ℂ)‖ = √(X.x ^ 2 + X.y ^ 2) := by
    rw [← sqrt_sq (norm_nonneg _), Complex.sq_norm, Complex.normSq_mk]; congr 1; ring
  refine ⟨sqrt_nonneg _, Complex.neg_pi_lt_arg _, Complex.arg_le_pi _, ?_, ?_⟩
  · simp only [arctan2]; rw [← hn, Complex.norm_mul_cos_arg]
  · simp only [arctan2]; rw [← hn, Complex.norm_mul_sin_arg]

/-- **C18** (parallax) without light delay: a parallax multiplies every coordinate by `parallax * au_per_R_sun`. With
`light_delay=True` this is false, see `C18_parallax_ignored_with_light_delay`. -/
theorem C18_parallax_partial (C : Consts) (o : Orbit) (t p : ℝ) :
    o.relativePosition C t (some p) = (o.relativePosition C t none).smul (p * C.auPerRsun) ∧
    o.planetPosition C t (some p) = (o.planetPosition C t none).smul (p * C.auPerRsun) ∧
    o.starPosition C t (some p) = (o.starPosition C t none).smul (p * C.auPerRsun) := by
  have key : ∀ a, o.positionNow C a t (some p) = (o.positionNow C a t none).smul (p * C.auPerRsun) := by
    intro a
    unfold Orbit.positionNow
    simp only
    rw [← Orbit.rotate_smul]
    congr 1 <;> ring
  exact ⟨key _, key _, key _⟩

/-- **C18 is false with light delay**: the parallax is dropped. There is an orbit (`demoCirc`) for which, with
`light_delay=True` and a parallax of `2 / au_per_R_sun`, the coordinates are *not* doubled. -/
theorem C18_parallax_ignored_with_light_delay (C : Consts) :
    (∀ (o : Orbit) (t p : ℝ), o.relativePosition C t (some p) true = o.relativePosition C t none true) ∧
    ∃ A o, keplerianInit C A = .ok o ∧ o.Physical ∧ ∀ t,
      o.relativePosition C t (some (2 / C.auPerRsun)) true ≠
        (o.relativePosition C t none true).smul (2 / C.auPerRsun * C.auPerRsun) := by
  refine ⟨fun o t p => rfl, ?_⟩
  obtain ⟨o, h, hp, -⟩ := demoCirc_ok C
  refine ⟨demoCirc, o, h, hp, fun t heq => ?_⟩
  have B := built_of_init h
  rw [div_mul_cancel₀ _ C.au_pos.ne'] at heq
  change o.relativePosition C (t - o.delay C (-o.a) t) none =
    (o.relativePosition C (t - o.delay C (-o.a) t) none).smul 2 at heq
  have h1 : (o.relativePosition C (t - o.delay C (-o.a) t)).normSq =
      4 * (o.relativePosition C (t - o.delay C (-o.a) t)).normSq := by
    conv_lhs => rw [heq]
    simp only [V3.smul, V3.normSq]; ring
  rw [relativePosition_normSq B hp] at h1
  have h2 := mul_pos hp.a_pos (hp.eccOk.dpos (t - o.delay C (-o.a) t))
  nlinarith

/-! ## C16 -/

theorem M0_shift {p : EccParams} (he : p.ecc = 0) (hu : p.sin_omega ^ 2 + p.cos_omega ^ 2 = 1)
    (hs : p.sin_omega ≠ -1) :
    cos (M0Of (some p)) = p.sin_omega ∧ sin (M0Of (some p)) = p.cos_omega := by
  have hpos : 0 < (1 + p.sin_omega) ^ 2 + p.cos_omega ^ 2 := by
    have h1 : 0 < 1 + p.sin_omega := by
      rcases lt_trichotomy (1 + p.sin_omega) 0 with h1 | h1 | h1
      · nlinarith [sq_nonneg p.cos_omega]
      · exact absurd (by linarith) hs
      · exact h1
    positivity
  have h := cos_two_arctan2 (x := 1 + p.sin_omega) (y := p.cos_omega) hpos
  unfold M0Of
  simp only [he, sub_zero, add_zero, sqrt_one, one_mul, zero_mul]
  rw [h.1, h.2]
  constructor
  · rw [div_eq_iff hpos.ne']; linear_combination (-1 - p.sin_omega) * hu
  · rw [div_eq_iff hpos.ne']; linear_combination (-p.cos_omega) * hu

/-- **C16** (`ecc = 0` and `ecc` omitted are the same orbit), when the timing is given by `t0` (or left at its default)
and `sin ω ≠ -1`: the positions, velocities and accelerations of star, planet and relative motion agree at all times.
Missing: timing by `t_periastron`, where it is false (`C16_t_periastron_counterexample`). -/
theorem C16_zero_ecc_partial (C : Consts) (A : Args) (o₀ o : Orbit) (e : Q) (he : A.ecc = some e) (hz : e.val = 0)
    (ht : A.t_periastron = none)
    (h : keplerianInit C A = .ok o) (h₀ : keplerianInit C { A with ecc := none } = .ok o₀)
    (hp : o.Physical) (hr : o.Regular) (t : ℝ) (px : Option ℝ) :
    o.planetPosition C t px = o₀.planetPosition C t px ∧ o.starPosition C t px = o₀.starPosition C t px ∧
    o.relativePosition C t px = o₀.relativePosition C t px ∧
    o.planetVelocity t = o₀.planetVelocity t ∧ o.starVelocity t = o₀.starVelocity t ∧
    o.relativeVelocity t = o₀.relativeVelocity t ∧
    o.planetAcceleration t = o₀.planetAcceleration t ∧ o.starAcceleration t = o₀.starAcceleration t ∧
    o.relativeAcceleration t = o₀.relativeAcceleration t := by
  have B := built_of_init h
  have B₀ := built_of_init h₀
  obtain ⟨mp, rho, D, hmp, hrho, hD, hI, hi, -⟩ := B.inputs
  obtain ⟨mp₀, rho₀, D₀, hmp₀, hrho₀, hD₀, hI₀, hi₀, -⟩ := B₀.inputs
  have e1 : mp₀ = mp := by simp only at hmp₀; rw [hmp] at hmp₀; cases hmp₀; rfl
  have e2 : rho₀ = rho := by simp only at hrho₀; rw [hrho] at hrho₀; cases hrho₀; rfl
  subst e1 e2
  have hD' : D = ⟨A.a, A.r_star, A.duration, none⟩ := by
    unfold durationBlock at hD; rw [he] at hD; cases hD; rfl
  subst hD'
  -- the duration keyword cannot be present
  have hdur : A.duration = none := by
    rcases hd : A.duration with _ | d
    · rfl
    · exfalso
      rcases hb : A.b with _ | b
      · unfold durationBlock at hD₀; simp [hd, hb] at hD₀
      · unfold inclBlock at hi; simp [hd, hb] at hi
  have hD₀' : D₀ = ⟨A.a, A.r_star, none, none⟩ := by
    unfold durationBlock at hD₀; simp [hdur] at hD₀; exact hD₀.symm
  subst hD₀'
  simp only at hI hI₀
  rw [hI] at hI₀
  simp only [Except.ok.injEq, Inputs.mk.injEq] at hI₀
  obtain ⟨ea, eP, erho, er, em, emp⟩ := hI₀
  -- eccentric parameters
  have hecc₀ : o₀.ecc = none := by have := B₀.ecc_eq; simp [eccBlock] at this; exact this.symm
  obtain ⟨p, hpe⟩ : ∃ p, o.ecc = some p := by
    have := B.ecc_eq
    unfold eccBlock at this
    rcases hw : A.omega with _ | w <;> rcases hs : A.sin_omega with _ | s <;> rcases hc : A.cos_omega with _ | c <;>
      simp [he, hw, hs, hc] at this <;> exact ⟨_, this.symm⟩
  have hpz : p.ecc = 0 := by
    have := B.ecc_eq
    unfold eccBlock at this
    rcases hw : A.omega with _ | w <;> rcases hs : A.sin_omega with _ | s <;> rcases hc : A.cos_omega with _ | c <;>
      simp [he, hpe, hw, hs, hc] at this <;> rw [← this] <;> exact hz
  have hev : o.eccVal = 0 := by simp [Orbit.eccVal, hpe, hpz]
  have hev₀ : o₀.eccVal = 0 := by simp [Orbit.eccVal, hecc₀]
  have hn : o₀.n = o.n := by rw [B.n_eq, B₀.n_eq, eP]
  have hmt : o₀.m_total = o.m_total := by rw [B.m_total_eq, B₀.m_total_eq, em, emp]
  have hap : o₀.a_planet = o.a_planet := by rw [B.a_planet_eq, B₀.a_planet_eq, ea, em, hmt]
  have has : o₀.a_star = o.a_star := by rw [B.a_star_eq, B₀.a_star_eq, ea, emp, hmt]
  have hK : o₀.K0 = o.K0 := by
    rw [B.K0_eq, B₀.K0_eq, K0Of_eq, K0Of_eq, hn, ea, hmt]; unfold Orbit.se; rw [hev, hev₀]
  have hdc : o₀.dcosidb = o.dcosidb := by
    rw [B.dcosidb_eq, B₀.dcosidb_eq, B.inclFactor_eq, B₀.inclFactor_eq, hev, hev₀, ea, er]; simp
  have hincl : o₀.cos_incl = o.cos_incl ∧ o₀.incl = o.incl := by
    simp only [hdur] at hi
    unfold inclBlock at hi hi₀
    simp only [hdc] at hi₀
    rcases hb : A.b with _ | b <;> rcases hin : A.incl with _ | i <;>
      simp only [hb, hin, Option.isSome_some, Option.isSome_none, Bool.false_eq_true, or_self, if_false, reduceCtorEq,
        Except.ok.injEq, Prod.mk.injEq, true_or, if_true] at hi hi₀ <;>
      exact ⟨by rw [← hi₀.2.1, ← hi.2.1], by rw [← hi₀.2.2, ← hi.2.2]⟩
  have hsi : o₀.sin_incl = o.sin_incl := by rw [B.sin_incl_eq, B₀.sin_incl_eq, hincl.2]
  have hOm : o₀.Omega = o.Omega := by rw [B.Omega_eq, B₀.Omega_eq]
  have ht0 : o₀.t0 = o.t0 := by
    have h1 := B.time_block
    have h2 := B₀.time_block
    unfold timeBlock at h1 h2
    rcases ht0 : A.t0 with _ | t0 <;> simp only [ht, ht0, Except.ok.injEq, Prod.mk.injEq] at h1 h2 <;>
      rw [← h1.1, ← h2.1]
  -- anomalies
  have hnn := (B.n_pos hp).ne'
  have hM : o.meanAnom t = (t - o.t0) * o.n + o.M0 := by
    rw [B.meanAnom_eq, B.t0_eq]; field_simp; ring
  have hM₀ : o₀.meanAnom t = (t - o.t0) * o.n + π / 2 := by
    have : o₀.M0 = π / 2 := by rw [B₀.M0_eq, hecc₀]; simp [M0Of]; ring
    rw [B₀.meanAnom_eq, hn, ← ht0, B₀.t0_eq, hn, this]; field_simp; ring
  obtain ⟨c0, s0⟩ := M0_shift hpz (hp.omega_unit p hpe) (hr p hpe)
  rw [← hpe, ← B.M0_eq] at c0 s0
  have hu := hp.omega_unit p hpe
  have hfa : o.trueAnomaly t = (sin (o.meanAnom t), cos (o.meanAnom t)) := by
    rw [Orbit.trueAnomaly_eq, hev, keplerOp_zero_ecc]
  have hfa₀ : o₀.trueAnomaly t = (sin (o₀.meanAnom t), cos (o₀.meanAnom t)) := by
    rw [Orbit.trueAnomaly_eq, hev₀, keplerOp_zero_ecc]
  have hcw : o.cw = p.cos_omega := by simp [Orbit.cw, hpe]
  have hsw : o.sw = p.sin_omega := by simp [Orbit.sw, hpe]
  have hcw₀ : o₀.cw = 1 := by simp [Orbit.cw, hecc₀]
  have hsw₀ : o₀.sw = 0 := by simp [Orbit.sw, hecc₀]
  set φ := (t - o.t0) * o.n with hφ
  have hsum : o.cw * cos (o.meanAnom t) - o.sw * sin (o.meanAnom t) = cos (o₀.meanAnom t) := by
    rw [hM, hM₀, cos_add, sin_add, c0, s0, hcw, hsw, cos_add_pi_div_two]
    linear_combination -sin φ * hu
  have hsum2 : o.sw * cos (o.meanAnom t) + o.cw * sin (o.meanAnom t) = sin (o₀.meanAnom t) := by
    rw [hM, hM₀, cos_add, sin_add, c0, s0, hcw, hsw, sin_add_pi_div_two]
    linear_combination cos φ * hu
  have hrot : ∀ c : ℝ, o.rotate (c * cos (o.meanAnom t)) (c * sin (o.meanAnom t)) =
      o₀.rotate (c * cos (o₀.meanAnom t)) (c * sin (o₀.meanAnom t)) := by
    intro c
    rw [Orbit.rotate_smul, Orbit.rotate_smul]
    congr 1
    rw [Orbit.rotate_eq, Orbit.rotate_eq, hsum, hsum2, hcw₀, hsw₀, hincl.1, hsi]
    unfold Orbit.cW Orbit.sW
    rw [hOm]
    simp
  have hrotv : ∀ c : ℝ, o.rotate (-c * sin (o.meanAnom t)) (c * cos (o.meanAnom t)) =
      o₀.rotate (-c * sin (o₀.meanAnom t)) (c * cos (o₀.meanAnom t)) := by
    intro c
    have e1 : o.cw * (-c * sin (o.meanAnom t)) - o.sw * (c * cos (o.meanAnom t)) = -c * sin (o₀.meanAnom t) := by
      rw [← hsum2]; ring
    have e2 : o.sw * (-c * sin (o.meanAnom t)) + o.cw * (c * cos (o.meanAnom t)) = c * cos (o₀.meanAnom t) := by
      rw [← hsum]; ring
    rw [Orbit.rotate_eq, Orbit.rotate_eq, e1, e2, hcw₀, hsw₀, hincl.1, hsi]
    unfold Orbit.cW Orbit.sW
    rw [hOm]
    simp
  have hpos : ∀ a, o.positionNow C a t px = o₀.positionNow C a t px := by
    intro a
    unfold Orbit.positionNow
    simp only [Orbit.radius_eq, hev, hev₀, hfa, hfa₀, zero_mul, add_zero]
    exact hrot _
  have hvel : ∀ m, o.velocity m t = o₀.velocity m t := by
    intro m
    simp only [Orbit.velocity_eq, hev, hev₀, hfa, hfa₀, hK, add_zero]
    exact hrotv _
  have hacc : ∀ a m, o.acceleration a m t = o₀.acceleration a m t := by
    intro a m
    simp only [Orbit.acceleration_eq, hev, hev₀, hfa, hfa₀, hK]
    simp only [zero_mul, add_zero]
    exact hrot _
  refine ⟨?_, ?_, ?_, ?_, ?_, ?_, ?_, ?_, ?_⟩
  · change o.positionNow C _ t px = o₀.positionNow C _ t px; rw [hap, hpos]
  · change o.positionNow C _ t px = o₀.positionNow C _ t px; rw [has, hpos]
  · change o.positionNow C _ t px = o₀.positionNow C _ t px; rw [ea, hpos]
  · change o.velocity _ t = o₀.velocity _ t; rw [em, hvel]
  · change o.velocity _ t = o₀.velocity _ t; rw [emp, hvel]
  · change o.velocity _ t = o₀.velocity _ t; rw [hmt, hvel]
  · change o.acceleration _ _ t = o₀.acceleration _ _ t; rw [hap, em, hacc]
  · change o.acceleration _ _ t = o₀.acceleration _ _ t; rw [has, emp, hacc]
  · change o.acceleration _ _ t = o₀.acceleration _ _ t; rw [ea, hmt, hacc]

/-- `KeplerianOrbit(a=10, period=1, ecc=0, omega=1, b=0.5)` -/
noncomputable def zeroEccArgs : Args :=
  { a := some (10 : ℝ), period := some (1 : ℝ), b := some (1 / 2 : ℝ), ecc := some (0 : ℝ), omega := some (1 : ℝ) }

example (C : Consts) : ∃ o₀ o, keplerianInit C zeroEccArgs = .ok o ∧
    keplerianInit C { zeroEccArgs with ecc := none } = .ok o₀ ∧ o.Physical ∧ o.Regular := by
  have hG := C.G_pos
  have hg := C.gccPerSun_pos
  have hpi := pi_pos
  refine ⟨_, _, rfl, rfl, ⟨?_, ?_, ?_, ?_, ?_, ?_, ?_, ?_, ?_, ?_⟩, ?_⟩ <;>
    simp [inclFactorOf, Orbit.Regular] <;> try positivity
  · norm_num
  · have : 0 < sin 1 := sin_pos_of_pos_of_lt_pi one_pos (by linarith [two_le_pi])
    linarith

/-- **C16 is false when the timing is given by `t_periastron`**: `KeplerianOrbit(a=10, period=1, t_periastron=0, ecc=0,
omega=π/2)` has its transit at `t0 = 0`, without `ecc` it is at `t0 = 1/4`. -/
theorem C16_t_periastron_counterexample (C : Consts) : ∃ A o o₀, A.ecc = some ((0 : ℝ) : Q) ∧
    keplerianInit C A = .ok o ∧ keplerianInit C { A with ecc := none } = .ok o₀ ∧ o.Physical ∧ o.Regular ∧
    o.relativePosition C 0 ≠ o₀.relativePosition C 0 := by
  have hG := C.G_pos
  have hg := C.gccPerSun_pos
  have hpi := pi_pos
  refine ⟨{ a := some (10 : ℝ), period := some (1 : ℝ), ecc := some (0 : ℝ), omega := some (π / 2 : ℝ),
            t_periastron := some (0 : ℝ) }, _, _, rfl, rfl, rfl,
    ⟨?_, ?_, ?_, ?_, ?_, ?_, ?_, ?_, ?_, ?_⟩, ?_, ?_⟩
  all_goals simp [Orbit.Regular] <;> try positivity
  · norm_num
  · intro h
    have := congrArg V3.x h
    simp [Orbit.relativePosition, Orbit.position, Orbit.positionNow, Orbit.trueAnomaly, Orbit.radius, Orbit.rotate,
      M0Of, arctan2, keplerOp_zero_ecc] at this

end Exo
