import Verif.Lemmas.Identify
import Verif.Props.Anomaly
import Verif.Props.Astrometry

/-!
# C104: what radial velocities determine
-/

namespace Exo
open Real

/-- Cosine and sine of the angle from the node. -/
noncomputable def Orbit.latCos (o : Orbit) (t : ℝ) : ℝ := o.cw * (o.trueAnomaly t).2 - o.sw * (o.trueAnomaly t).1
noncomputable def Orbit.latSin (o : Orbit) (t : ℝ) : ℝ := o.sw * (o.trueAnomaly t).2 + o.cw * (o.trueAnomaly t).1
/-- The speed of the true anomaly. -/
noncomputable def Orbit.fdot (o : Orbit) (t : ℝ) : ℝ := o.n * o.se / (1 - o.eccVal * cos (o.E t)) ^ 2

theorem rv_eq (C : Consts) (o : Orbit) (t K : ℝ) : o.radialVelocity C t (some K) = .ok (K * (o.latCos t + o.eccVal * o.cw)) := by
  unfold Orbit.radialVelocity Orbit.latCos Orbit.cw Orbit.sw Orbit.eccVal
  cases o.ecc <;> simp

section
variable {C : Consts} {A : Args} {o : Orbit} (B : Built C A o) (hp : o.Physical)
include hp

theorem lat_sq (t : ℝ) : o.latSin t ^ 2 + o.latCos t ^ 2 = 1 := by
  have h1 : (o.trueAnomaly t).1 ^ 2 + (o.trueAnomaly t).2 ^ 2 = 1 := by
    rw [Orbit.trueAnomaly_eq]; exact keplerOp_sq hp.eccOk.nonneg hp.eccOk.lt_one _
  have h2 := hp.omega_sq
  unfold Orbit.latSin Orbit.latCos
  linear_combination (o.sw ^ 2 + o.cw ^ 2) * h1 + h2

include B

theorem fdot_pos (t : ℝ) : 0 < o.fdot t := by
  unfold Orbit.fdot
  exact div_pos (mul_pos (B.n_pos hp) hp.eccOk.se_pos) (pow_pos (hp.eccOk.dpos t) 2)

theorem hasDerivAt_lat (t : ℝ) : HasDerivAt o.latCos (-(o.latSin t * o.fdot t)) t ∧ HasDerivAt o.latSin (o.latCos t * o.fdot t) t := by
  have hE := B.hasDerivAt_E hp t
  have hd := (hp.eccOk.dpos t).ne'
  have hse := hp.eccOk.se_sq
  have hcs := sin_sq_add_cos_sq (o.E t)
  have hu : HasDerivAt (fun s => 1 - o.eccVal * cos (o.E s)) (o.eccVal * sin (o.E t) * ((1 - o.eccVal * cos (o.E t))⁻¹ * o.n)) t := by
    have := (hE.cos.const_mul o.eccVal).const_sub 1
    exact this.congr_deriv (by ring)
  have h1 : HasDerivAt (fun s => (o.trueAnomaly s).2) (-((o.trueAnomaly t).1 * o.fdot t)) t := by
    have := (hE.cos.sub_const o.eccVal).div hu hd
    have e : (fun s => (o.trueAnomaly s).2) = (fun s => cos (o.E s) - o.eccVal) / fun s => 1 - o.eccVal * cos (o.E s) :=
      funext fun s => Orbit.cosf_eq s
    rw [e]
    refine this.congr_deriv ?_
    rw [Orbit.sinf_eq]
    unfold Orbit.fdot
    field_simp
    rw [hse]
    ring
  have h2 : HasDerivAt (fun s => (o.trueAnomaly s).1) ((o.trueAnomaly t).2 * o.fdot t) t := by
    have := (hE.sin.const_mul o.se).div hu hd
    have e : (fun s => (o.trueAnomaly s).1) = (fun s => o.se * sin (o.E s)) / fun s => 1 - o.eccVal * cos (o.E s) :=
      funext fun s => Orbit.sinf_eq s
    rw [e]
    refine this.congr_deriv ?_
    rw [Orbit.cosf_eq]
    unfold Orbit.fdot
    generalize hy : 1 - o.eccVal * cos (o.E t) = y at hd
    field_simp
    linear_combination -(o.se * o.n * o.eccVal) * hcs - o.se * o.n * cos (o.E t) * hy
  constructor
  · refine ((h1.const_mul o.cw).sub (h2.const_mul o.sw)).congr_deriv ?_
    unfold Orbit.latSin
    ring
  · refine ((h1.const_mul o.sw).add (h2.const_mul o.cw)).congr_deriv ?_
    unfold Orbit.latCos
    ring

end

section
variable {C : Consts} {A A' : Args} {o o' : Orbit} (h : keplerianInit C A = .ok o) (hp : o.Physical) (h' : keplerianInit C A' = .ok o')
  (hp' : o'.Physical) {K K' : ℝ} (hK : 0 < K) (hK' : 0 < K') (hs : SameVelocities C o o' K K')
include h hp h' hp' hK hK' hs

theorem same_amplitude : K' = K ∧ o'.eccVal * o'.cw = o.eccVal * o.cw := by
  have e1 : o.eccVal * o.cw = match o.ecc with | none => 0 | some p => p.ecc * p.cos_omega := by
    unfold Orbit.eccVal Orbit.cw; cases o.ecc <;> simp
  have e2 : o'.eccVal * o'.cw = match o'.ecc with | none => 0 | some p => p.ecc * p.cos_omega := by
    unfold Orbit.eccVal Orbit.cw; cases o'.ecc <;> simp
  obtain ⟨a1, ⟨t1, a2⟩, t2, a3⟩ := C15_range C A o h hp K hK.le _ e1
  obtain ⟨b1, ⟨s1, b2⟩, s2, b3⟩ := C15_range C A' o' h' hp' K' hK'.le _ e2
  have c1 := (b1 t1 _ ((hs t1).symm.trans a2)).2
  have c2 := (b1 t2 _ ((hs t2).symm.trans a3)).1
  have c3 := (a1 s1 _ ((hs s1).trans b2)).2
  have c4 := (a1 s2 _ ((hs s2).trans b3)).1
  have hKK : K' = K := by linarith
  refine ⟨hKK, ?_⟩
  rw [hKK] at c1 c3
  have := le_antisymm c1 c3
  linarith [mul_left_cancel₀ hK.ne' this]

theorem same_latitude (t : ℝ) : o'.latCos t = o.latCos t ∧ o'.latSin t = o.latSin t ∧ o'.fdot t = o.fdot t := by
  have B := built_of_init h
  have B' := built_of_init h'
  obtain ⟨hKK, hecw⟩ := same_amplitude h hp h' hp' hK hK' hs
  have hc : o'.latCos = o.latCos := by
    funext s
    have := hs s
    rw [rv_eq, rv_eq, hKK, hecw] at this
    have := mul_left_cancel₀ hK.ne' (Except.ok.inj this)
    linarith
  have hS : ∀ s, o'.latSin s = o.latSin s := by
    intro s
    have d1 := (hasDerivAt_lat B hp s).1
    have d2 := (hasDerivAt_lat B' hp' s).1
    rw [hc] at d2
    have hd := d1.unique d2
    have f1 := fdot_pos B hp s
    have f2 := fdot_pos B' hp' s
    have q1 := lat_sq hp s
    have q2 := lat_sq hp' s
    rw [hc] at q2
    have hsq : (o'.latSin s - o.latSin s) * (o'.latSin s + o.latSin s) = 0 := by linear_combination q2 - q1
    rcases mul_eq_zero.1 hsq with h1 | h1
    · linarith
    · have h2 : o'.latSin s = -o.latSin s := by linarith
      rw [h2] at hd
      have h3 : o.latSin s * (o.fdot s + o'.fdot s) = 0 := by linear_combination -hd
      have h4 := (mul_eq_zero.1 h3).resolve_right (by positivity)
      rw [h2, h4, neg_zero]
  have hS' : o'.latSin = o.latSin := funext hS
  refine ⟨congrFun hc t, hS t, ?_⟩
  have d1 := hasDerivAt_lat B hp t
  have d2 := hasDerivAt_lat B' hp' t
  rw [hc, hS'] at d2
  have g1 := d1.1.unique d2.1
  have g2 := d1.2.unique d2.2
  have q1 := lat_sq hp t
  linear_combination (o.fdot t - o'.fdot t) * q1 + o.latSin t * g1 - o.latCos t * g2

/-- **C104** (what radial velocities determine): the velocities as a function of time determine the semi-amplitude, the period and the
eccentricity, and if the orbit is eccentric the times of periastron passage and the argument of periastron. -/
theorem C104_determined : K' = K ∧ o'.period = o.period ∧ o'.eccVal = o.eccVal ∧
    (0 < o.eccVal → SamePeriastra o o' ∧ o'.cosOmega = o.cosOmega ∧ o'.sinOmega = o.sinOmega) := by
  have B := built_of_init h
  have B' := built_of_init h'
  have hn := B.n_pos hp
  have hn' := B'.n_pos hp'
  obtain ⟨he, hN, hcos⟩ := clocks_agree B hp B' hp' (k := 2) (by norm_num) (mul_pos hn hp.eccOk.se_pos) (mul_pos hn' hp'.eccOk.se_pos)
    (fun t => (same_latitude h hp h' hp' hK hK' hs t).2.2.symm)
  have hse : o.se = o'.se := by unfold Orbit.se; rw [he]
  rw [← hse] at hN
  have hnn : o.n = o'.n := mul_right_cancel₀ hp.eccOk.se_pos.ne' hN
  have hP : o.period = o'.period := by
    have h1 := B.n_mul_period hp
    have h2 := B'.n_mul_period hp'
    rw [← hnn] at h2
    exact mul_left_cancel₀ hn.ne' (h1.trans h2.symm)
  refine ⟨(same_amplitude h hp h' hp' hK hK' hs).1, hP.symm, he.symm, fun h0 => ?_⟩
  have hc1 := hcos h0
  have hs1 : sin (o'.E o.t_periastron) = 0 := by
    have := sin_sq_add_cos_sq (o'.E o.t_periastron)
    rw [hc1] at this
    nlinarith
  obtain ⟨k, hk⟩ := periastra_of_cos B' hp' hc1
  have hlt := hp.eccOk.lt_one
  have hne : 1 - o.eccVal ≠ 0 := by linarith
  obtain ⟨l1, l2, -⟩ := same_latitude h hp h' hp' hK hK' hs o.t_periastron
  unfold Orbit.latCos at l1
  unfold Orbit.latSin at l2
  rw [Orbit.cosf_eq, Orbit.sinf_eq, Orbit.cosf_eq, Orbit.sinf_eq, B.E_periastron hp, hc1, hs1, cos_zero, sin_zero, ← he] at l1 l2
  simp only [mul_one, mul_zero, zero_div, div_self hne, sub_zero, add_zero] at l1 l2
  refine ⟨⟨-k, ?_⟩, l1, l2⟩
  rw [hk, hP]
  push_cast
  ring

end

/-- **C104** (complete): two orbits of which one is eccentric predict the same radial velocities with positive semi-amplitudes exactly if
semi-amplitude, period, eccentricity, periastron passages and argument of periastron agree. -/
theorem C104_velocities_iff {C : Consts} {A A' : Args} {o o' : Orbit} (h : keplerianInit C A = .ok o) (hp : o.Physical)
    (h' : keplerianInit C A' = .ok o') (hp' : o'.Physical) {K K' : ℝ} (hK : 0 < K) (hK' : 0 < K') (he : 0 < o.eccVal) :
    SameVelocities C o o' K K' ↔ K' = K ∧ o'.period = o.period ∧ o'.eccVal = o.eccVal ∧ SamePeriastra o o' ∧
      o'.cosOmega = o.cosOmega ∧ o'.sinOmega = o.sinOmega := by
  have B := built_of_init h
  have B' := built_of_init h'
  constructor
  · intro hs
    obtain ⟨h1, h2, h3, h4⟩ := C104_determined h hp h' hp' hK hK' hs
    exact ⟨h1, h2, h3, h4 he⟩
  · rintro ⟨h1, h2, h3, ⟨k, hk⟩, h5, h6⟩ t
    change o'.cw = o.cw at h5
    change o'.sw = o.sw at h6
    have hse : o'.se = o.se := by unfold Orbit.se; rw [h3]
    have hE := E_shift B hp B' h3.symm h2.symm hk t
    rw [rv_eq, rv_eq]
    unfold Orbit.latCos
    rw [Orbit.cosf_eq, Orbit.cosf_eq, Orbit.sinf_eq, Orbit.sinf_eq, hE, cos_add_int_mul_two_pi, sin_add_int_mul_two_pi, h1, h3, h5, h6, hse]

/-- **C104** (sign): a negative semi-amplitude is a half turn of the periastron. -/
theorem C104_negative_amplitude {C : Consts} {A A' : Args} {o o' : Orbit} (h : keplerianInit C A = .ok o) (hp : o.Physical)
    (h' : keplerianInit C A' = .ok o') (K : ℝ) (hP : o'.period = o.period) (he : o'.eccVal = o.eccVal) (hper : SamePeriastra o o')
    (hc : o'.cosOmega = -o.cosOmega) (hs : o'.sinOmega = -o.sinOmega) : SameVelocities C o o' K (-K) := by
  have B := built_of_init h
  have B' := built_of_init h'
  obtain ⟨k, hk⟩ := hper
  intro t
  change o'.cw = -o.cw at hc
  change o'.sw = -o.sw at hs
  have hse : o'.se = o.se := by unfold Orbit.se; rw [he]
  have hE := E_shift B hp B' he.symm hP.symm hk t
  rw [rv_eq, rv_eq]
  unfold Orbit.latCos
  rw [Orbit.cosf_eq, Orbit.cosf_eq, Orbit.sinf_eq, Orbit.sinf_eq, hE, cos_add_int_mul_two_pi, sin_add_int_mul_two_pi, he, hc, hs, hse]
  congr 1
  ring

/-! ## The tutorial -/

theorem rvTutorialArgs_ok (C : Consts) (logP plus minus : ℝ) {e : ℝ} (h0 : 0 ≤ e) (h1 : e < 1) :
    ∃ o, keplerianInit C (rvTutorialArgs logP e plus minus) = .ok o ∧ o.Physical ∧ o.period = exp logP ∧ o.eccVal = e ∧
      o.t_periastron = exp logP * (plus + minus) / (2 * π) ∧ o.cosOmega = cos (plus - minus) ∧ o.sinOmega = sin (plus - minus) := by
  have hG := C.G_pos
  have hg := C.gccPerSun_pos
  have hpi := pi_pos
  have hP := exp_pos logP
  refine ⟨_, rfl, ⟨?_, ?_, ?_, ?_, ?_, ?_, ?_, ?_, ?_, ?_⟩, ?_, ?_, ?_, ?_, ?_⟩
  all_goals simp [inclFactorOf, Orbit.eccVal, Orbit.cosOmega, Orbit.sinOmega]
  all_goals first | positivity | assumption | exact ⟨_, rfl, rfl⟩

/-- **C104** (the radial-velocity tutorial): on eccentric orbits the two sampled angles are determined up to half turns of both or full
turns of one, so that the posterior has the same mode twice, while the tutorial's `angle` covers the full circle. -/
theorem C104_tutorial (C : Consts) (logP logK e plus minus logP' logK' e' plus' minus' : ℝ) (h0 : 0 < e) (h1 : e < 1) (h0' : 0 ≤ e')
    (h1' : e' < 1) :
    ∃ o o', keplerianInit C (rvTutorialArgs logP e plus minus) = .ok o ∧
      keplerianInit C (rvTutorialArgs logP' e' plus' minus') = .ok o' ∧
      (SameVelocities C o o' (exp logK) (exp logK') ↔ logP' = logP ∧ logK' = logK ∧ e' = e ∧
        ∃ j k : ℤ, Even (j + k) ∧ plus' = plus + j * π ∧ minus' = minus + k * π) := by
  obtain ⟨o, h, hp, a1, a2, a3, a4, a5⟩ := rvTutorialArgs_ok C logP plus minus h0.le h1
  obtain ⟨o', h', hp', b1, b2, b3, b4, b5⟩ := rvTutorialArgs_ok C logP' plus' minus' h0' h1'
  refine ⟨o, o', h, h', ?_⟩
  rw [C104_velocities_iff h hp h' hp' (exp_pos _) (exp_pos _) (by rwa [a2])]
  unfold SamePeriastra
  rw [a1, a2, a3, a4, a5, b1, b2, b3, b4, b5, exp_eq_exp, exp_eq_exp]
  have hpi := pi_pos
  have hP := exp_pos logP
  constructor
  · rintro ⟨e1, e2, e3, ⟨k, e4⟩, e5, e6⟩
    obtain ⟨l, hl, hl2⟩ := (angle_of_signed (x := plus' - minus') (y := plus - minus) (s := 1) (Or.inl rfl)).1
      ⟨by rw [one_mul]; exact e5, by rw [one_mul]; exact e6⟩
    obtain ⟨m, hm⟩ := hl2.1 rfl
    have hm' : (l : ℝ) = m + m := by exact_mod_cast hm
    rw [e2] at e4
    have h2 : plus' + minus' = plus + minus + k * (2 * π) := by
      field_simp at e4
      linarith
    refine ⟨e2, e1, e3, k + m, k - m, ⟨k, by ring⟩, ?_, ?_⟩
    · push_cast
      linear_combination (1 / 2 : ℝ) * h2 + (1 / 2 : ℝ) * hl + (π / 2) * hm'
    · push_cast
      linear_combination (1 / 2 : ℝ) * h2 - (1 / 2 : ℝ) * hl - (π / 2) * hm'
  · rintro ⟨e1, e2, e3, j, k, ⟨m, hm⟩, hj, hk⟩
    have hm' : (j : ℝ) + k = m + m := by exact_mod_cast hm
    have w := (angle_of_signed (x := plus' - minus') (y := plus - minus) (s := 1) (Or.inl rfl)).2
      ⟨j - k, by rw [hj, hk]; push_cast; ring, iff_of_true rfl (by rw [Int.even_sub, ← Int.even_add]; exact ⟨m, hm⟩)⟩
    rw [one_mul, one_mul] at w
    refine ⟨e2, e1, e3, ⟨m, ?_⟩, w.1, w.2⟩
    rw [e1, hj, hk]
    field_simp
    linear_combination π * hm'

/-- **C104** (circular orbits): only `minus` is determined, up to half turns; the tutorial's sum of angles is free, which is why the
tutorial samples the sum and difference ("At low eccentricity, omega and the phase of periastron are correlated"). -/
theorem C104_circular (C : Consts) (logP logK plus minus logP' logK' plus' minus' : ℝ) :
    ∃ o o', keplerianInit C (rvTutorialArgs logP 0 plus minus) = .ok o ∧
      keplerianInit C (rvTutorialArgs logP' 0 plus' minus') = .ok o' ∧
      (∀ t, o.radialVelocity C t (some (exp logK)) = .ok (exp logK * cos (2 * π * t / exp logP - 2 * minus))) ∧
      (SameVelocities C o o' (exp logK) (exp logK') ↔ logP' = logP ∧ logK' = logK ∧ ∃ k : ℤ, minus' = minus + k * π) := by
  have key : ∀ logP plus minus, ∃ o, keplerianInit C (rvTutorialArgs logP 0 plus minus) = .ok o ∧ o.Physical ∧ o.period = exp logP ∧
      o.eccVal = 0 ∧ ∀ t, o.latCos t = cos (2 * π * t / exp logP - 2 * minus) ∧ o.latSin t = sin (2 * π * t / exp logP - 2 * minus) := by
    intro logP plus minus
    obtain ⟨o, h, hp, a1, a2, a3, a4, a5⟩ := rvTutorialArgs_ok C logP plus minus le_rfl (by norm_num)
    refine ⟨o, h, hp, a1, a2, fun t => ?_⟩
    have B := built_of_init h
    have hP := exp_pos logP
    have hpi := pi_pos
    have hE : o.E t = (t - o.t_periastron) * o.n := by
      unfold Orbit.E
      rw [a2, eccAnomaly_zero_ecc, B.meanAnom_eq]
    have hn : o.n = 2 * π / exp logP := by
      have := B.n_mul_period hp
      rw [a1] at this
      rw [eq_div_iff hP.ne', this]
    have hse : o.se = 1 := by
      have h1 := hp.eccOk.se_sq
      have h2 := hp.eccOk.se_pos
      rw [a2] at h1
      nlinarith
    have hang : plus - minus + o.E t = 2 * π * t / exp logP - 2 * minus := by
      rw [hE, hn, a3]
      field_simp
      ring
    have w1 : o.cw = cos (plus - minus) := a4
    have w2 : o.sw = sin (plus - minus) := a5
    unfold Orbit.latCos Orbit.latSin
    rw [Orbit.cosf_eq, Orbit.sinf_eq, a2, hse, w1, w2, ← hang, cos_add, sin_add]
    simp
  obtain ⟨o, h, hp, a1, a2, a3⟩ := key logP plus minus
  obtain ⟨o', h', hp', b1, b2, b3⟩ := key logP' plus' minus'
  refine ⟨o, o', h, h', fun t => ?_, ?_⟩
  · rw [rv_eq, a2, (a3 t).1, zero_mul, add_zero]
  constructor
  · intro hs
    obtain ⟨e1, e2, -⟩ := C104_determined h hp h' hp' (exp_pos _) (exp_pos _) hs
    rw [exp_eq_exp] at e1
    rw [a1, b1, exp_eq_exp] at e2
    refine ⟨e2, e1, ?_⟩
    obtain ⟨l1, l2, -⟩ := same_latitude h hp h' hp' (exp_pos _) (exp_pos _) hs 0
    rw [(a3 0).1, (b3 0).1, mul_zero, zero_div, zero_sub, zero_div, zero_sub] at l1
    rw [(a3 0).2, (b3 0).2, mul_zero, zero_div, zero_sub, zero_div, zero_sub] at l2
    obtain ⟨l, hl, hl2⟩ := (angle_of_signed (x := -(2 * minus')) (y := -(2 * minus)) (s := 1) (Or.inl rfl)).1
      ⟨by rw [one_mul]; exact l1, by rw [one_mul]; exact l2⟩
    obtain ⟨m, hm⟩ := hl2.1 rfl
    have hm' : (l : ℝ) = m + m := by exact_mod_cast hm
    refine ⟨-m, ?_⟩
    push_cast
    linear_combination (-1 / 2 : ℝ) * hl - (π / 2) * hm'
  · rintro ⟨rfl, rfl, k, rfl⟩ t
    rw [rv_eq, rv_eq, a2, b2, (a3 t).1, (b3 t).1, zero_mul, zero_mul]
    have : 2 * π * t / exp logP' - 2 * (minus + k * π) = 2 * π * t / exp logP' - 2 * minus - k * (2 * π) := by ring
    rw [this, cos_sub_int_mul_two_pi]

/-- **C104** (the jitter of the tutorial): the tutorial computes the error bars with jitter but does not pass them to the likelihood. For
all data the likelihood of the tutorial is the same for all values of `log_jitter`, so that nothing is inferred about the jitter; the
likelihood with the computed error bars does depend on it. -/
theorem C104_jitter_counterexample (C : Consts) :
    (∀ (data : List RvDatum) (logP logK e plus minus zero logJ logJ' : ℝ),
      rvTutorialLikelihood C data logP logK e plus minus zero logJ = rvTutorialLikelihood C data logP logK e plus minus zero logJ') ∧
    (∀ (mu err logJ logJ' : ℝ), 0 < err → logJ < logJ' →
      normalPdf mu (tutorialErr err logJ') mu < normalPdf mu (tutorialErr err logJ) mu) ∧
    ∃ data : List RvDatum, ∃ v, rvTutorialLikelihood C data 0 0 0 0 0 0 0 = .ok v ∧
      rvTutorialLikelihood C data 0 0 0 0 0 0 1 = .ok v ∧ v ≠ normalPdf 1 (tutorialErr 1 0) 1 ∧ v = normalPdf 1 1 1 := by
  have hpi := pi_pos
  have hmono : ∀ (mu err logJ logJ' : ℝ), 0 < err → logJ < logJ' →
      normalPdf mu (tutorialErr err logJ') mu < normalPdf mu (tutorialErr err logJ) mu := by
    intro mu err logJ logJ' herr hJ
    have h1 : tutorialErr err logJ < tutorialErr err logJ' := by
      unfold tutorialErr
      exact sqrt_lt_sqrt (by positivity) (by gcongr)
    have h2 : 0 < tutorialErr err logJ := by
      unfold tutorialErr
      exact sqrt_pos.2 (by positivity)
    unfold normalPdf
    simp only [sub_self, ne_eq, OfNat.ofNat_ne_zero, not_false_eq_true, zero_pow, neg_zero, zero_div, exp_zero]
    have hs : 0 < √(2 * π) := sqrt_pos.2 (by positivity)
    exact one_div_lt_one_div_of_lt (by positivity) (mul_lt_mul_of_pos_right h1 hs)
  refine ⟨fun _ _ _ _ _ _ _ _ _ => rfl, hmono, [⟨0, 1, 1⟩], normalPdf 1 1 1, ?_, ?_, ?_, rfl⟩
  · obtain ⟨o, -, h, -, h2, -⟩ := C104_circular C 0 0 0 0 0 0 0 0
    have := h2 0
    simp only [exp_zero, mul_zero, zero_div, sub_zero, cos_zero, mul_one] at this
    simp only [rvTutorialLikelihood, h, bind, Except.bind, List.mapM_cons, List.mapM_nil, pure, Except.pure, exp_zero, this]
    simp
  · obtain ⟨o, -, h, -, h2, -⟩ := C104_circular C 0 0 0 0 0 0 0 0
    have := h2 0
    simp only [exp_zero, mul_zero, zero_div, sub_zero, cos_zero, mul_one] at this
    simp only [rvTutorialLikelihood, h, bind, Except.bind, List.mapM_cons, List.mapM_nil, pure, Except.pure, exp_zero, this]
    simp
  · have h1 : (1 : ℝ) < tutorialErr 1 0 := by
      unfold tutorialErr
      rw [mul_zero, exp_zero, lt_sqrt (by norm_num)]
      norm_num
    have hs : 0 < √(2 * π) := sqrt_pos.2 (by positivity)
    unfold normalPdf
    simp only [sub_self, ne_eq, OfNat.ofNat_ne_zero, not_false_eq_true, zero_pow, neg_zero, zero_div, exp_zero]
    exact (one_div_lt_one_div_of_lt (by positivity) (mul_lt_mul_of_pos_right h1 hs)).ne'

/-- The hypotheses can be met: the two modes of the tutorial, and a change of angles that is seen. -/
example (C : Consts) : ∃ o o', keplerianInit C (rvTutorialArgs 0 (1 / 2) 1 0) = .ok o ∧
    keplerianInit C (rvTutorialArgs 0 (1 / 2) (1 + π) π) = .ok o' ∧ SameVelocities C o o' (exp 1) (exp 1) := by
  obtain ⟨o, o', h, h', hiff⟩ := C104_tutorial C 0 1 (1 / 2) 1 0 0 1 (1 / 2) (1 + π) π (by norm_num) (by norm_num) (by norm_num)
    (by norm_num)
  exact ⟨o, o', h, h', hiff.2 ⟨rfl, rfl, rfl, 1, 1, ⟨1, rfl⟩, by simp, by simp⟩⟩

example (C : Consts) : ∃ o o', keplerianInit C (rvTutorialArgs 0 (1 / 2) 1 0) = .ok o ∧
    keplerianInit C (rvTutorialArgs 0 (1 / 2) (1 + π) 0) = .ok o' ∧ ¬SameVelocities C o o' (exp 1) (exp 1) := by
  obtain ⟨o, o', h, h', hiff⟩ := C104_tutorial C 0 1 (1 / 2) 1 0 0 1 (1 / 2) (1 + π) 0 (by norm_num) (by norm_num) (by norm_num)
    (by norm_num)
  refine ⟨o, o', h, h', fun hs => ?_⟩
  obtain ⟨-, -, -, j, k, hjk, hj, hk⟩ := hiff.1 hs
  have hpi := pi_pos
  have h1 : (j : ℝ) = 1 := mul_right_cancel₀ hpi.ne' (by linarith)
  have h2 : (k : ℝ) = 0 := mul_right_cancel₀ hpi.ne' (by linarith)
  have h1' : j = 1 := by exact_mod_cast h1
  have h2' : k = 0 := by exact_mod_cast h2
  rw [h1', h2'] at hjk
  exact absurd hjk (by decide)

end Exo
