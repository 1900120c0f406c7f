import Verif.Spec.MidTransit
import Verif.Props.Conjunction
import Verif.Props.Averages
import Verif.Props.Symmetry
import Verif.Props.TransitFit

/-!
# C110: whether `t0` is the middle of the transit
-/

namespace Exo

open Real

namespace Built
variable {C : Consts} {A : Args} {o : Orbit} (B : Built C A o)
include B

/-- The distance on the sky from the eccentric anomaly. -/
theorem skyDistSq_eq (hp : o.Physical) (t : ℝ) : skyDistSq C o t = o.a ^ 2 * ((1 - o.eccVal * cos (o.E t)) ^ 2 -
    (1 - o.cos_incl ^ 2) * (o.sw * (cos (o.E t) - o.eccVal) + o.cw * (o.se * sin (o.E t))) ^ 2) := by
  have hpos : o.relativePosition C t = o.rotate (-o.a * (cos (o.E t) - o.eccVal)) (-o.a * (o.se * sin (o.E t))) :=
    Orbit.positionNow_eq hp.eccOk C (-o.a) t
  have hw := hp.omega_sq
  have hW := o.Omega_sq
  have hse := hp.eccOk.se_sq
  have hcs := sin_sq_add_cos_sq (o.E t)
  unfold skyDistSq
  rw [hpos, Orbit.rotate_eq]
  simp only
  generalize cos (o.E t) = c at *
  generalize sin (o.E t) = s at *
  linear_combination
    (o.a ^ 2 * ((o.cw * (c - o.eccVal) - o.sw * (o.se * s)) ^ 2 + o.cos_incl ^ 2 * (o.sw * (c - o.eccVal) + o.cw * (o.se * s)) ^ 2)) * hW +
    (o.a ^ 2 * ((c - o.eccVal) ^ 2 + (o.se * s) ^ 2)) * hw + (o.a ^ 2 * s ^ 2) * hse + (o.a ^ 2 * (1 - o.eccVal ^ 2)) * hcs

/-- The height above the sky from the eccentric anomaly. -/
theorem sky_z_eq (hp : o.Physical) (t : ℝ) : (o.relativePosition C t).z =
    o.sin_incl * o.a * (o.sw * (cos (o.E t) - o.eccVal) + o.cw * (o.se * sin (o.E t))) := by
  have hpos : o.relativePosition C t = o.rotate (-o.a * (cos (o.E t) - o.eccVal)) (-o.a * (o.se * sin (o.E t))) :=
    Orbit.positionNow_eq hp.eccOk C (-o.a) t
  rw [hpos, Orbit.rotate_eq]
  simp only
  ring

/-- The rate of change of the distance at the time of transit. -/
theorem skyDistSq_rate (hp : o.Physical) (hr : o.Regular) : HasDerivAt (skyDistSq C o)
    (2 * o.a ^ 2 * o.n * √(1 - o.eccVal ^ 2) * (o.eccVal * o.cosOmega) * o.cos_incl ^ 2 / (1 + o.eccVal * o.sinOmega)) o.t0 := by
  have hE := B.hasDerivAt_E hp o.t0
  obtain ⟨h1, h2⟩ := B.E_t0 hp hr.sw_ne
  have he0 := hp.eccOk.nonneg
  have he1 := hp.eccOk.lt_one
  have hw := hp.omega_sq
  have hse := hp.eccOk.se_sq
  have hD : 0 < 1 + o.eccVal * o.sw := by nlinarith [sq_nonneg o.cw]
  have hd := hp.eccOk.dpos o.t0
  have hcos := hE.cos
  have hsin := hE.sin
  have hX := ((((hcos.const_mul o.eccVal).const_sub 1).pow 2).sub
    (((((hcos.sub_const o.eccVal).const_mul o.sw).add ((hsin.const_mul o.se).const_mul o.cw)).pow 2).const_mul
      (1 - o.cos_incl ^ 2))).const_mul (o.a ^ 2)
  have hf : skyDistSq C o = fun t => o.a ^ 2 * ((1 - o.eccVal * cos (o.E t)) ^ 2 -
    (1 - o.cos_incl ^ 2) * (o.sw * (cos (o.E t) - o.eccVal) + o.cw * (o.se * sin (o.E t))) ^ 2) := funext fun t => B.skyDistSq_eq hp t
  rw [hf]
  refine hX.congr_deriv ?_
  change _ = 2 * o.a ^ 2 * o.n * o.se * (o.eccVal * o.cw) * o.cos_incl ^ 2 / (1 + o.eccVal * o.sw)
  have c1 : cos (o.E o.t0) * (1 + o.eccVal * o.sw) = o.sw + o.eccVal := by rw [h1, div_mul_cancel₀ _ hD.ne']
  have c2 : sin (o.E o.t0) * (1 + o.eccVal * o.sw) = o.se * o.cw := by rw [h2, div_mul_cancel₀ _ hD.ne']
  simp only [Pi.add_apply, Nat.add_one_sub_one, pow_one, Nat.cast_ofNat]
  generalize cos (o.E o.t0) = c at *
  generalize sin (o.E o.t0) = s at *
  have r2 : o.sw * (c - o.eccVal) + o.cw * (o.se * s) = 1 - o.eccVal * c := by
    refine mul_right_cancel₀ hD.ne' ?_
    linear_combination (o.sw + o.eccVal) * c1 + (o.cw * o.se) * c2 + (o.cw ^ 2) * hse + (1 - o.eccVal ^ 2) * hw
  have r3 : o.cw * (o.se * c) - o.sw * s = o.eccVal * s := by
    refine mul_right_cancel₀ hD.ne' ?_
    linear_combination (o.cw * o.se) * c1 - (o.sw + o.eccVal) * c2
  rw [r2, eq_div_iff hD.ne']
  have hi : (1 - o.eccVal * c) * (1 - o.eccVal * c)⁻¹ = 1 := mul_inv_cancel₀ hd.ne'
  generalize (1 - o.eccVal * c)⁻¹ = i at *
  linear_combination (2 * o.a ^ 2 * o.cos_incl ^ 2 * o.eccVal * o.n * s * (1 + o.eccVal * o.sw)) * hi -
    (o.a ^ 2 * (1 - o.cos_incl ^ 2) * 2 * (1 - o.eccVal * c) * i * o.n * (1 + o.eccVal * o.sw)) * r3 +
    (2 * o.a ^ 2 * o.cos_incl ^ 2 * o.eccVal * o.n) * c2

/-- At the time of transit the planet is on the meridian: the distance on the sky is the projected distance. -/
theorem skyDistSq_t0 (hp : o.Physical) (hr : o.Regular) :
    skyDistSq C o o.t0 = o.a ^ 2 * o.cos_incl ^ 2 * ((1 - o.eccVal ^ 2) / (1 + o.eccVal * o.sinOmega)) ^ 2 := by
  obtain ⟨h1, h2⟩ := B.E_t0 hp hr.sw_ne
  have he0 := hp.eccOk.nonneg
  have he1 := hp.eccOk.lt_one
  have hw := hp.omega_sq
  have hse := hp.eccOk.se_sq
  have hD : 0 < 1 + o.eccVal * o.sw := by nlinarith [sq_nonneg o.cw]
  change _ = o.a ^ 2 * o.cos_incl ^ 2 * ((1 - o.eccVal ^ 2) / (1 + o.eccVal * o.sw)) ^ 2
  have c1 : cos (o.E o.t0) * (1 + o.eccVal * o.sw) = o.sw + o.eccVal := by rw [h1, div_mul_cancel₀ _ hD.ne']
  have c2 : sin (o.E o.t0) * (1 + o.eccVal * o.sw) = o.se * o.cw := by rw [h2, div_mul_cancel₀ _ hD.ne']
  rw [B.skyDistSq_eq hp]
  generalize cos (o.E o.t0) = c at *
  generalize sin (o.E o.t0) = s at *
  have r1 : 1 - o.eccVal * c = (1 - o.eccVal ^ 2) / (1 + o.eccVal * o.sw) := by
    rw [eq_div_iff hD.ne']
    linear_combination (-o.eccVal) * c1
  have r2 : o.sw * (c - o.eccVal) + o.cw * (o.se * s) = (1 - o.eccVal ^ 2) / (1 + o.eccVal * o.sw) := by
    rw [← r1]
    refine mul_right_cancel₀ hD.ne' ?_
    linear_combination (o.sw + o.eccVal) * c1 + (o.cw * o.se) * c2 + (o.cw ^ 2) * hse + (1 - o.eccVal ^ 2) * hw
  rw [r1, r2]
  ring

/-- The distance on the sky is at least the distance times the cosine of the inclination. -/
theorem skyDistSq_ge (hp : o.Physical) (t : ℝ) : o.a ^ 2 * o.cos_incl ^ 2 * (1 - o.eccVal * cos (o.E t)) ^ 2 ≤ skyDistSq C o t := by
  have hw := hp.omega_sq
  have hse := hp.eccOk.se_sq
  have hcs := sin_sq_add_cos_sq (o.E t)
  have hi : o.cos_incl ^ 2 ≤ 1 := (sq_le_one_iff_abs_le_one _).2 hp.cos_incl_abs
  rw [B.skyDistSq_eq hp]
  generalize cos (o.E t) = c at *
  generalize sin (o.E t) = s at *
  have hV : (1 - o.eccVal * c) ^ 2 - (o.sw * (c - o.eccVal) + o.cw * (o.se * s)) ^ 2 =
      (o.cw * (c - o.eccVal) - o.sw * (o.se * s)) ^ 2 := by
    linear_combination -((c - o.eccVal) ^ 2 + (o.se * s) ^ 2) * hw - (s ^ 2) * hse - (1 - o.eccVal ^ 2) * hcs
  have h2 : 0 ≤ (1 - o.cos_incl ^ 2) * (o.cw * (c - o.eccVal) - o.sw * (o.se * s)) ^ 2 := mul_nonneg (by linarith) (sq_nonneg _)
  have h3 : 0 ≤ o.a ^ 2 * ((1 - o.cos_incl ^ 2) * (o.cw * (c - o.eccVal) - o.sw * (o.se * s)) ^ 2) := mul_nonneg (sq_nonneg _) h2
  rw [← hV] at h3
  linarith

end Built

/-- **C110** (rate): how fast the distance between star and planet on the sky changes at `t0`. It changes unless the orbit is circular, seen
edge-on, or transits at periastron or apastron. -/
theorem C110_rate {C : Consts} {A : Args} {o : Orbit} (h : keplerianInit C A = .ok o) (hp : o.Physical) (hr : o.Regular) :
    HasDerivAt (skyDistSq C o)
      (2 * o.a ^ 2 * o.n * √(1 - o.eccVal ^ 2) * (o.eccVal * o.cosOmega) * o.cos_incl ^ 2 / (1 + o.eccVal * o.sinOmega)) o.t0 ∧
    (2 * o.a ^ 2 * o.n * √(1 - o.eccVal ^ 2) * (o.eccVal * o.cosOmega) * o.cos_incl ^ 2 / (1 + o.eccVal * o.sinOmega) = 0 ↔
      o.eccVal * o.cosOmega = 0 ∨ o.cos_incl = 0) := by
  have B := built_of_init h
  refine ⟨B.skyDistSq_rate hp hr, ?_⟩
  have ha := hp.a_pos
  have hn := B.n_pos hp
  have he0 := hp.eccOk.nonneg
  have he1 := hp.eccOk.lt_one
  have hw := hp.omega_sq
  have hs : -1 ≤ o.sw := by nlinarith [sq_nonneg o.cw]
  have hD : 0 < 1 + o.eccVal * o.sinOmega := by change 0 < 1 + o.eccVal * o.sw; nlinarith
  have hq : 0 < √(1 - o.eccVal ^ 2) := sqrt_pos.2 (by nlinarith)
  rw [div_eq_zero_iff, mul_eq_zero, mul_eq_zero, mul_eq_zero, mul_eq_zero, mul_eq_zero]
  simp [ha.ne', hn.ne', hq.ne', hD.ne']

/-- **C110** (closest): on circular and edge-on orbits and those that transit at periastron, the planet is never closer to the star on the
sky than at `t0`. Missing: the other orbits, where it is false (`C110_closest_counterexample`). -/
theorem C110_closest_partial {C : Consts} {A : Args} {o : Orbit} (h : keplerianInit C A = .ok o) (hp : o.Physical) (hr : o.Regular)
    (hc : o.eccVal = 0 ∨ o.cos_incl = 0 ∨ o.sinOmega = 1) (t : ℝ) : skyDistSq C o o.t0 ≤ skyDistSq C o t := by
  have B := built_of_init h
  have he0 := hp.eccOk.nonneg
  have he1 := hp.eccOk.lt_one
  refine le_trans ?_ (B.skyDistSq_ge hp t)
  rw [B.skyDistSq_t0 hp hr]
  rcases hc with hc | hc | hc
  · rw [hc]; simp
  · rw [hc]; simp
  · rw [hc]
    refine mul_le_mul_of_nonneg_left ?_ (by positivity)
    rw [show (1 - o.eccVal ^ 2) / (1 + o.eccVal * 1) = 1 - o.eccVal by field_simp; ring]
    exact pow_le_pow_left₀ (by linarith) (by nlinarith [cos_le_one (o.E t)]) 2

/-- **C110** (not the closest): otherwise the planet is closer to the star shortly before `t0` (or shortly after, according to the sign of
`ecc cos(omega)`) than at `t0`, and on the other side farther away. -/
theorem C110_off_centre {C : Consts} {A : Args} {o : Orbit} (h : keplerianInit C A = .ok o) (hp : o.Physical) (hr : o.Regular)
    (hi : o.cos_incl ≠ 0) {σ : ℝ} (hσ : σ = 1 ∨ σ = -1) (hc : 0 < σ * (o.eccVal * o.cosOmega)) :
    ∃ δ > 0, ∀ s, 0 < s → s < δ → skyDistSq C o (o.t0 - σ * s) < skyDistSq C o o.t0 ∧ skyDistSq C o o.t0 < skyDistSq C o (o.t0 + σ * s) := by
  have B := built_of_init h
  obtain ⟨hd, -⟩ := C110_rate h hp hr
  set v := 2 * o.a ^ 2 * o.n * √(1 - o.eccVal ^ 2) * (o.eccVal * o.cosOmega) * o.cos_incl ^ 2 / (1 + o.eccVal * o.sinOmega) with hv
  have ha := hp.a_pos
  have hn := B.n_pos hp
  have he0 := hp.eccOk.nonneg
  have he1 := hp.eccOk.lt_one
  have hw := hp.omega_sq
  have hs : -1 ≤ o.sw := by nlinarith [sq_nonneg o.cw]
  have hD : 0 < 1 + o.eccVal * o.sinOmega := by change 0 < 1 + o.eccVal * o.sw; nlinarith
  have hq : 0 < √(1 - o.eccVal ^ 2) := sqrt_pos.2 (by nlinarith)
  have hσv : 0 < σ * v := by
    have : σ * v = 2 * o.a ^ 2 * o.n * √(1 - o.eccVal ^ 2) * (σ * (o.eccVal * o.cosOmega)) * o.cos_incl ^ 2 / (1 + o.eccVal * o.sinOmega) := by
      rw [hv]; ring
    rw [this]
    have := pow_pos ha 2
    have hi2 : 0 < o.cos_incl ^ 2 := by positivity
    positivity
  have ht := (hasDerivAt_iff_tendsto_slope.1 hd).const_mul σ
  have hev := ht.eventually (lt_mem_nhds hσv)
  rw [eventually_nhdsWithin_iff, Metric.eventually_nhds_iff] at hev
  obtain ⟨δ, hδ, hev⟩ := hev
  refine ⟨δ, hδ, fun s h0 h1 => ?_⟩
  have hσ2 : σ * σ = 1 := by rcases hσ with rfl | rfl <;> norm_num
  have hσa : |σ| = 1 := by rcases hσ with rfl | rfl <;> norm_num
  have hσ0 : σ ≠ 0 := by rcases hσ with rfl | rfl <;> norm_num
  have e1 := hev (y := o.t0 - σ * s) (by rw [dist_eq_norm, norm_eq_abs, sub_sub_cancel_left, abs_neg, abs_mul, hσa, one_mul, abs_of_pos h0]; exact h1)
    (by simp [hσ0, h0.ne'])
  have e2 := hev (y := o.t0 + σ * s) (by rw [dist_eq_norm, norm_eq_abs, add_sub_cancel_left, abs_mul, hσa, one_mul, abs_of_pos h0]; exact h1)
    (by simp [hσ0, h0.ne'])
  simp only [slope_def_field] at e1 e2
  rw [sub_sub_cancel_left, ← mul_div_assoc, div_neg, mul_div_mul_left _ _ hσ0, ← neg_div, lt_div_iff₀ h0, zero_mul] at e1
  rw [add_sub_cancel_left, ← mul_div_assoc, mul_div_mul_left _ _ hσ0, lt_div_iff₀ h0, zero_mul] at e2
  constructor <;> linarith

/-- On an orbit seen edge-on, star and planet coincide on the sky exactly at the conjunctions. -/
theorem Built.edge_on {C : Consts} {A : Args} {o : Orbit} (B : Built C A o) (hp : o.Physical) (hi : 0 < o.sin_incl) (hc : o.cos_incl = 0) (t : ℝ) :
    skyDistSq C o t = 0 ↔ InferiorConjunction C o t ∨ SuperiorConjunction C o t := by
  have hpos : o.relativePosition C t = o.rotate (-o.a * (cos (o.E t) - o.eccVal)) (-o.a * (o.se * sin (o.E t))) :=
    Orbit.positionNow_eq hp.eccOk C (-o.a) t
  have hW := o.Omega_sq
  have hz : skyDistSq C o t = 0 → (o.relativePosition C t).z ≠ 0 := by
    intro h0 hz
    rw [B.sky_z_eq hp, mul_eq_zero, or_iff_right (mul_pos hi hp.a_pos).ne'] at hz
    rw [B.skyDistSq_eq hp, hz] at h0
    have h1 : 0 < (1 - o.eccVal * cos (o.E t)) ^ 2 := pow_pos (hp.eccOk.dpos t) 2
    have h2 := mul_pos (pow_pos hp.a_pos 2) h1
    simp at h0
    rcases h0 with h0 | h0
    · exact hp.a_pos.ne' h0
    · rw [h0] at h1; simp at h1
  have hm : OnMeridian (o.Omega.getD 0) (o.relativePosition C t) ↔ skyDistSq C o t = 0 := by
    unfold OnMeridian skyDistSq
    rw [hpos, Orbit.rotate_eq, show o.Omega.getD 0 = o.nodeAngle from rfl, ← o.cW_eq, ← o.sW_eq, hc]
    simp only [zero_mul, mul_zero, sub_zero, add_zero]
    generalize o.cw * (-o.a * (cos (o.E t) - o.eccVal)) - o.sw * (-o.a * (o.se * sin (o.E t))) = u
    rw [show o.cW * u * o.cW + o.sW * u * o.sW = u by linear_combination u * hW,
      show (o.cW * u) ^ 2 + (o.sW * u) ^ 2 = u ^ 2 by linear_combination u ^ 2 * hW]
    exact (pow_eq_zero_iff two_ne_zero).symm
  unfold InferiorConjunction SuperiorConjunction
  rw [hm, ← and_or_left]
  exact ⟨fun h0 => ⟨h0, (lt_or_gt_of_ne (hz h0)).symm⟩, fun h0 => h0.1⟩

/-- On circular orbits and those that transit at periastron the planet passes in front of the star symmetrically. -/
theorem same_before_after {C : Consts} {A : Args} {o : Orbit} (h : keplerianInit C A = .ok o) (hp : o.Physical) (hr : o.Regular)
    (hc : o.eccVal * o.cosOmega = 0) (s : ℝ) : (o.relativePosition C (o.t0 + s)).SameDisc (o.relativePosition C (o.t0 - s)) := by
  have B := built_of_init h
  obtain ⟨h1, h2⟩ := B.E_t0 hp hr.sw_ne
  have hw := hp.omega_sq
  have he0 := hp.eccOk.nonneg
  have he1 := hp.eccOk.lt_one
  have hse := hp.eccOk.se_sq
  suffices hh : o.eccVal * cos (o.E (o.t0 + s)) = o.eccVal * cos (o.E (o.t0 - s)) ∧
      o.sw * (cos (o.E (o.t0 + s)) - o.eccVal) + o.cw * (o.se * sin (o.E (o.t0 + s))) =
        o.sw * (cos (o.E (o.t0 - s)) - o.eccVal) + o.cw * (o.se * sin (o.E (o.t0 - s))) by
    have e1 := B.skyDistSq_eq hp (o.t0 + s)
    have e2 := B.skyDistSq_eq hp (o.t0 - s)
    rw [hh.1, hh.2, ← e2] at e1
    exact ⟨e1, by rw [B.sky_z_eq hp, B.sky_z_eq hp, hh.2]⟩
  rcases mul_eq_zero.1 hc with hc | hc
  · -- circular
    have hE : ∀ t, o.E t = o.meanAnom t := fun t => by unfold Orbit.E; rw [hc, eccAnomaly_zero_ecc]
    have hM : ∀ x, o.E (o.t0 + x) = o.E o.t0 + o.n * x := by
      intro x
      rw [hE, hE, B.meanAnom_eq, B.meanAnom_eq]; ring
    have hse1 : o.se = 1 := by unfold Orbit.se; rw [hc]; simp
    rw [hc] at h1 h2 ⊢
    rw [hse1] at h2 ⊢
    simp only [zero_mul, add_zero, div_one, one_mul, sub_zero] at h1 h2 ⊢
    rw [sub_eq_add_neg, hM, hM, cos_add, cos_add, sin_add, sin_add, h1, h2, mul_neg, cos_neg, sin_neg]
    exact ⟨trivial, by ring⟩
  · -- at periastron
    change o.cw = 0 at hc
    have hsw : o.sw = 1 := by
      rw [hc] at hw
      have : (o.sw - 1) * (o.sw + 1) = 0 := by linear_combination hw
      rcases mul_eq_zero.1 this with h | h
      · linarith
      · exact absurd (by linarith) hr.sw_ne
    have hcos : cos (o.E o.t0) = 1 := by rw [h1, hsw]; field_simp
    obtain ⟨k, hk⟩ := (cos_eq_one_iff _).1 hcos
    have hM : o.meanAnom o.t0 = k * (2 * π) := by
      have := keplerMap_eccAnomaly he0 (e := o.eccVal) (o.meanAnom o.t0)
      rw [← this, show eccAnomaly o.eccVal (o.meanAnom o.t0) = o.E o.t0 from rfl, ← hk]
      unfold keplerMap
      rw [show sin (↑k * (2 * π)) = 0 by simpa using sin_add_int_mul_two_pi 0 k]; ring
    have hE : ∀ x, o.E (o.t0 + x) = eccAnomaly o.eccVal (o.n * x) + k * (2 * π) := by
      intro x
      rw [← eccAnomaly_add_two_pi_mul he0 he1]
      unfold Orbit.E
      congr 1
      rw [← hM, B.meanAnom_eq, B.meanAnom_eq]; ring
    rw [sub_eq_add_neg, hE, hE, cos_add_int_mul_two_pi, cos_add_int_mul_two_pi, mul_neg, eccAnomaly_neg he0 he1, cos_neg, hc]
    exact ⟨rfl, by ring⟩

/-- **C110** (symmetry): the planet approaches the star on the sky as it recedes from it, seen from `t0`, exactly on circular orbits and those
that transit at periastron. -/
theorem C110_symmetric_iff {C : Consts} {A : Args} {o : Orbit} (h : keplerianInit C A = .ok o) (hp : o.Physical) (hr : o.Regular)
    (hi : 0 < o.sin_incl) : SymmetricAbout (skyDistSq C o) o.t0 ↔ o.eccVal * o.cosOmega = 0 := by
  have B := built_of_init h
  refine ⟨fun hs => ?_, fun hc s => (same_before_after h hp hr hc s).1⟩
  by_cases hc : o.cos_incl = 0
  · obtain ⟨θ, -, -, -, -, hsup, p0, p1, -, hhalf⟩ := C94_superior_partial C A o h hp hr hi
    set ψ := (θ - sin θ) / (2 * π)
    have hP := hp.period_pos
    have h1 : skyDistSq C o (o.t0 + ψ * o.period) = 0 :=
      (B.edge_on hp hi hc _).2 (Or.inr ((hsup _).2 ⟨0, by push_cast; ring⟩))
    rw [hs] at h1
    rcases (B.edge_on hp hi hc _).1 h1 with h2 | h2
    · obtain ⟨k, hk⟩ := (C94_inferior_partial C A o h hp hr hi _).1 h2
      have hk' : -ψ = k := mul_right_cancel₀ hP.ne' (by linarith)
      have k1 : (-1 : ℝ) < k := by rw [← hk']; linarith
      have k2 : (k : ℝ) < 0 := by rw [← hk']; linarith
      have k1' : (-1 : ℤ) < k := by exact_mod_cast k1
      have k2' : k < 0 := by exact_mod_cast k2
      omega
    · obtain ⟨k, hk⟩ := (hsup _).1 h2
      have hk' : -ψ = k + ψ := mul_right_cancel₀ hP.ne' (by linarith)
      have k1 : (-2 : ℝ) < k := by linarith
      have k2 : (k : ℝ) < 0 := by linarith
      have k1' : (-2 : ℤ) < k := by exact_mod_cast k1
      have k2' : k < 0 := by exact_mod_cast k2
      have k3 : k = -1 := by omega
      rw [k3] at hk'
      push_cast at hk'
      exact hhalf.1 (by linarith)
  · by_contra hne
    rcases lt_or_gt_of_ne hne with hlt | hgt
    · obtain ⟨δ, hδ, hh⟩ := C110_off_centre h hp hr hc (σ := -1) (Or.inr rfl) (by linarith)
      obtain ⟨a, b⟩ := hh (δ / 2) (by linarith) (by linarith)
      have := hs (δ / 2)
      rw [show o.t0 - -1 * (δ / 2) = o.t0 + δ / 2 by ring] at a
      rw [show o.t0 + -1 * (δ / 2) = o.t0 - δ / 2 by ring] at b
      linarith
    · obtain ⟨δ, hδ, hh⟩ := C110_off_centre h hp hr hc (σ := 1) (Or.inl rfl) (by linarith)
      obtain ⟨a, b⟩ := hh (δ / 2) (by linarith) (by linarith)
      have := hs (δ / 2)
      rw [one_mul] at a b
      linarith

/-- **C110** (light curves): on circular orbits and those that transit at periastron, light curves are symmetric about `t0`, with or without
exposure time. Missing: the other orbits, where it is false (`C110_light_curve_counterexample`). -/
theorem C110_light_curve_partial {C : Consts} {A : Args} {o : Orbit} (h : keplerianInit C A = .ok o) (hp : o.Physical) (hr : o.Regular)
    (he : o.eccVal * o.cosOmega = 0) (cp : ContactOp) (R : ℝ) (l : LimbDark) (r t t' : Tensor ℝ) (hsz : r.size = 1) (hs : t'.shape = t.shape)
    (htt : ∀ i, InShape i t.shape → t'.get i = 2 * o.t0 - t.get i) (texp : Option (Tensor ℝ))
    (hx : ∀ x, texp = some x → x.shape = [] ∨ x.shape = t.shape) (oversample order : ℤ) (ho : order = 0 ∨ order = 1 ∨ order = 2)
    (hn : 1 ≤ oversample) (hc : order = 0 ∨ 2 ≤ oversample) :
    ∃ L L', l.getLightCurve (some (keplerApi C cp [o] R)) (some r) (some t) texp oversample order (some false) = .ok L ∧
      l.getLightCurve (some (keplerApi C cp [o] R)) (some r) (some t') texp oversample order (some false) = .ok L' ∧
      L.shape = t.shape ++ [1] ∧ L'.shape = L.shape ∧ ∀ i, InShape i t.shape → L'.get (i ++ [0]) = L.get (i ++ [0]) := by
  have key : ∀ ρ s, fluxAt l.c R ρ (o.relativePosition C (2 * o.t0 - s) none) = fluxAt l.c R ρ (o.relativePosition C s none) := by
    intro ρ s
    have := same_before_after h hp hr he (o.t0 - s)
    rw [show o.t0 + (o.t0 - s) = 2 * o.t0 - s by ring, show o.t0 - (o.t0 - s) = s by ring] at this
    exact fluxAt_sameDisc this _ _ _
  cases texp with
  | none =>
    obtain ⟨L, h1, h2, h3⟩ := C39_values l (keplerApi C cp [o] R) false _ rfl r t hsz oversample order
    obtain ⟨L', g1, g2, g3⟩ := C39_values l (keplerApi C cp [o] R) false _ rfl r t' hsz oversample order
    refine ⟨L, L', h1, g1, h2, by rw [h2, g2, hs], fun i hi => ?_⟩
    rw [h3 i 0 hi Nat.one_pos, g3 i 0 (hs ▸ hi) Nat.one_pos, htt i hi]
    exact key _ _
  | some x =>
    obtain ⟨S, hS, L, h1, h2, h3⟩ := C39_values_exposure l (keplerApi C cp [o] R) false _ rfl r t x hsz (hx x rfl) oversample order ho hn
    obtain ⟨S', hS', L', g1, g2, g3⟩ := C39_values_exposure l (keplerApi C cp [o] R) false _ rfl r t' x hsz (hs ▸ hx x rfl)
      oversample order ho hn
    rw [hS] at hS'
    cases hS'
    obtain ⟨S', hS', k1, k2⟩ := C38_symmetric_partial order oversample ho hn hc
    rw [hS] at hS'
    cases hS'
    obtain ⟨S', hS', -, hlen, -⟩ := C38_weights order oversample ho hn
    rw [hS] at hS'
    cases hS'
    refine ⟨L, L', h1, g1, h2, by rw [h2, g2, hs], fun i hi => ?_⟩
    rw [h3 i 0 hi Nat.one_pos, g3 i 0 (hs ▸ hi) Nat.one_pos, htt i hi]
    exact exposureAverage_reverse _ _ o.t0 (fun s => key _ s) _ _ S hlen.symm k1 k2

theorem crossing_lt {u1 u2 : ℝ} (hl : PhysicalLaw u1 u2) (hd : DarkensOutwards u1 u2) {k b b' z z' : ℝ} (hk : 0 < k) (h1 : |1 - k| < b)
    (h2' : b' < 1 + k) (hz : 0 < z) (hz' : 0 < z') (hlt : b < b') :
    computeLightCurve (getCl u1 u2) b k (some z) < computeLightCurve (getCl u1 u2) b' k (some z') := by
  refine lt_of_le_of_ne ?_ fun he => hlt.ne (crossing_injective hl hd hk h1 (hlt.trans h2') (h1.trans hlt) h2' hz hz' he)
  have e : computeLightCurve (getCl u1 u2) b k (some z) = computeLightCurve (getCl u1 u2) b k (some z') := by
    unfold computeLightCurve
    simp only [Option.getD_some]
    rw [if_pos hz, if_pos hz']
  rw [e]
  exact C87_nearer u1 u2 b b' k (some z') hl hd ((abs_nonneg _).trans h1.le) hlt.le

/-- **C110** (grazing transits): if the planet crosses the limb of the star at `t0` and the orbit is not one of those, the star is fainter shortly
before `t0` (or shortly after, according to the sign of `ecc cos(omega)`) than at `t0`, and brighter on the other side. -/
theorem C110_grazing {C : Consts} {A : Args} {o : Orbit} (h : keplerianInit C A = .ok o) (hp : o.Physical) (hr : o.Regular)
    (hi : 0 < o.sin_incl) {σ : ℝ} (hσ : σ = 1 ∨ σ = -1) (hc : 0 < σ * (o.eccVal * o.cosOmega)) {u1 u2 r : ℝ} (hl : PhysicalLaw u1 u2)
    (hd : DarkensOutwards u1 u2) (hk : 0 < r) (hb : |1 - r / o.r_star| < |o.b|) (hb' : |o.b| < 1 + r / o.r_star) :
    ∃ δ > 0, ∀ s, 0 < s → s < δ → fluxOf C o r u1 u2 (o.t0 - σ * s) < fluxOf C o r u1 u2 o.t0 ∧
      fluxOf C o r u1 u2 o.t0 < fluxOf C o r u1 u2 (o.t0 + σ * s) := by
  have B := built_of_init h
  have hR := hp.r_star_pos
  have hkk : 0 < r / o.r_star := div_pos hk hR
  have ha := hp.a_pos
  have hb0 : o.b ≠ 0 := abs_pos.1 ((abs_nonneg _).trans_lt hb)
  have he0 := hp.eccOk.nonneg
  have he1 := hp.eccOk.lt_one
  have hD := B.one_add_esw_pos hp
  have hq : 0 < 1 - o.eccVal ^ 2 := by nlinarith
  have hci : o.cos_incl ≠ 0 := by
    rw [B.cos_incl_b hp, B.dcosidb_eq, B.inclFactor_eq]
    have := hD.ne'
    have := hq.ne'
    have := ha.ne'
    have := hR.ne'
    positivity
  have hsep0 : √(skyDistSq C o o.t0) / o.r_star = |o.b| := by
    have : skyDistSq C o o.t0 = (o.r_star * o.b) ^ 2 := by
      rw [B.skyDistSq_t0 hp hr, B.cos_incl_b hp, B.dcosidb_eq, B.inclFactor_eq]
      change o.a ^ 2 * _ * ((1 - o.eccVal ^ 2) / (1 + o.eccVal * o.sw)) ^ 2 = _
      have := hD.ne'
      have := hq.ne'
      field_simp
    rw [this, sqrt_sq_eq_abs, abs_mul, abs_of_pos hR]
    field_simp
  have hz0 : 0 < (o.relativePosition C o.t0).z := (C94_inferior_partial C A o h hp hr hi o.t0).2 ⟨0, by simp⟩ |>.2
  obtain ⟨δ, hδ, hoff⟩ := C110_off_centre h hp hr hci hσ hc
  have hcE := B.continuous_E hp
  have hcont : Continuous fun t => √(skyDistSq C o t) / o.r_star := by
    simp only [B.skyDistSq_eq hp]
    fun_prop
  have hcz : Continuous fun t => (o.relativePosition C t).z := by
    simp only [B.sky_z_eq hp]
    fun_prop
  have hev : ∀ᶠ t in nhds o.t0, |1 - r / o.r_star| < √(skyDistSq C o t) / o.r_star ∧ √(skyDistSq C o t) / o.r_star < 1 + r / o.r_star ∧
      0 < (o.relativePosition C t).z :=
    (hcont.continuousAt.eventually (lt_mem_nhds (by simpa only [hsep0] using hb))).and
      ((hcont.continuousAt.eventually (gt_mem_nhds (by simpa only [hsep0] using hb'))).and (hcz.continuousAt.eventually (lt_mem_nhds hz0)))
  rw [Metric.eventually_nhds_iff] at hev
  obtain ⟨δ', hδ', hev⟩ := hev
  refine ⟨min δ δ', lt_min hδ hδ', fun s h0 h1 => ?_⟩
  obtain ⟨f1, f2⟩ := hoff s h0 (h1.trans_le (min_le_left _ _))
  have hσa : |σ| = 1 := by rcases hσ with rfl | rfl <;> norm_num
  have g1 := hev (y := o.t0 - σ * s) (by
    rw [dist_eq_norm, norm_eq_abs, sub_sub_cancel_left, abs_neg, abs_mul, hσa, one_mul, abs_of_pos h0]; exact h1.trans_le (min_le_right _ _))
  have g2 := hev (y := o.t0 + σ * s) (by
    rw [dist_eq_norm, norm_eq_abs, add_sub_cancel_left, abs_mul, hσa, one_mul, abs_of_pos h0]; exact h1.trans_le (min_le_right _ _))
  have g0 := hev (y := o.t0) (by simpa using hδ')
  have hmono : ∀ {x y : ℝ}, 0 ≤ x → x < y → √x / o.r_star < √y / o.r_star := fun hx hxy => div_lt_div_of_pos_right (sqrt_lt_sqrt hx hxy) hR
  have hnn : ∀ t, 0 ≤ skyDistSq C o t := fun t => by unfold skyDistSq; positivity
  exact ⟨crossing_lt hl hd hkk g1.1 g0.2.1 (div_pos g1.2.2 hR) (div_pos g0.2.2 hR) (hmono (hnn _) f1),
    crossing_lt hl hd hkk g0.1 g2.2.1 (div_pos g0.2.2 hR) (div_pos g2.2.2 hR) (hmono (hnn _) f2)⟩

/-! ### Examples and counterexamples -/

/-- `KeplerianOrbit(a=10, period=1, b=1, ecc=0.5, omega=w)`, with a planet that grazes the star. -/
noncomputable def grazingArgs (w : ℝ) : Args :=
  { a := some (10 : ℝ), period := some (1 : ℝ), b := some (1 : ℝ), ecc := some (1 / 2 : ℝ), omega := some (w : ℝ) }

theorem grazingArgs_ok (C : Consts) {w : ℝ} (hw : 0 ≤ sin w) : ∃ o, keplerianInit C (grazingArgs w) = .ok o ∧ o.Physical ∧ o.Regular ∧
    0 < o.sin_incl ∧ o.cos_incl ≠ 0 ∧ o.r_star = 1 ∧ o.b = 1 ∧ o.t0 = 0 ∧ o.eccVal = 1 / 2 ∧ o.cosOmega = cos w ∧ o.sinOmega = sin w := by
  have hG := C.G_pos
  have hg := C.gccPerSun_pos
  have hpi := pi_pos
  have hw1 := sin_le_one w
  have hx : (1 + 2⁻¹ * sin w) / (1 - (2 ^ 2)⁻¹) / 10 = (2 + sin w) / 15 := by ring
  have hx0 : 0 < (2 + sin w) / 15 := by positivity
  have hx1 : (2 + sin w) / 15 < 1 := by linarith
  refine ⟨_, rfl, ⟨?_, ?_, ?_, ?_, ?_, ?_, ?_, ?_, ?_, ?_⟩, ?_, ?_, ?_, ?_, ?_, ?_, ?_, ?_, ?_⟩
  all_goals simp [inclFactorOf, Orbit.eccVal, Orbit.cosOmega, Orbit.sinOmega, Orbit.Regular]
  all_goals try positivity
  · norm_num
  · rw [hx, abs_of_pos hx0]; exact hx1.le
  · intro h; linarith
  · rw [hx, sin_arccos]; exact sqrt_pos.2 (by nlinarith)
  · exact ⟨by positivity, by norm_num⟩

/-- **C110 is false for the closest approach**: with `ecc = 0.5`, `omega = 0` the planet is closest to the star before `t0`. -/
theorem C110_closest_counterexample (C : Consts) : ∃ A o, keplerianInit C A = .ok o ∧ o.Physical ∧ o.Regular ∧ 0 < o.sin_incl ∧
    ¬IsLocalMin (skyDistSq C o) o.t0 ∧ ∃ t < o.t0, skyDistSq C o t < skyDistSq C o o.t0 := by
  obtain ⟨o, h, hp, hr, hi, hci, -, -, -, he, hc, -⟩ := grazingArgs_ok C (w := 0) (by simp)
  have hpos : 0 < o.eccVal * o.cosOmega := by rw [he, hc, cos_zero]; norm_num
  obtain ⟨δ, hδ, hh⟩ := C110_off_centre h hp hr hci (σ := 1) (Or.inl rfl) (by linarith)
  refine ⟨_, o, h, hp, hr, hi, fun hmin => ?_, o.t0 - 1 * (δ / 2), by linarith, (hh (δ / 2) (by linarith) (by linarith)).1⟩
  obtain ⟨hd, hz⟩ := C110_rate h hp hr
  rcases hz.1 (hmin.hasDerivAt_eq_zero hd) with h0 | h0
  · exact hpos.ne' h0
  · exact hci h0

/-- **C110 is false for light curves**: a grazing transit with `ecc = 0.5`, `omega = 0` is not symmetric about `t0`, and `t0` is not its
deepest point. -/
theorem C110_light_curve_counterexample (C : Consts) : ∃ A o r, keplerianInit C A = .ok o ∧ o.Physical ∧ o.Regular ∧
    ¬SymmetricAbout (fluxOf C o r 0.3 0.2) o.t0 ∧ ∃ t < o.t0, fluxOf C o r 0.3 0.2 t < fluxOf C o r 0.3 0.2 o.t0 := by
  obtain ⟨o, h, hp, hr, hi, hci, hR, hb, -, he, hc, -⟩ := grazingArgs_ok C (w := 0) (by simp)
  have hpos : 0 < o.eccVal * o.cosOmega := by rw [he, hc, cos_zero]; norm_num
  obtain ⟨δ, hδ, hh⟩ := C110_grazing h hp hr hi (σ := 1) (Or.inl rfl) (by linarith) (u1 := 0.3) (u2 := 0.2) (r := 1 / 10)
    (physicalLaw_of_kipping (by norm_num) (by norm_num)) ((darkensOutwards_iff _ _).2 ⟨by norm_num, by norm_num⟩) (by norm_num)
    (by rw [hR, hb]; norm_num [abs_of_pos]) (by rw [hR, hb]; norm_num)
  obtain ⟨a, b⟩ := hh (δ / 2) (by linarith) (by linarith)
  refine ⟨_, o, _, h, hp, hr, fun hs => ?_, o.t0 - 1 * (δ / 2), by linarith, a⟩
  have := hs (δ / 2)
  rw [one_mul] at a b
  linarith

/-- Hypotheses of `C110_closest_partial` and `C110_light_curve_partial`: a transit at periastron. -/
example (C : Consts) : ∃ o, keplerianInit C (grazingArgs (π / 2)) = .ok o ∧ o.Physical ∧ o.Regular ∧ o.eccVal = 1 / 2 ∧ o.sinOmega = 1 ∧
    o.eccVal * o.cosOmega = 0 := by
  obtain ⟨o, h, hp, hr, -, -, -, -, -, he, hc, hs⟩ := grazingArgs_ok C (w := π / 2) (by simp)
  exact ⟨o, h, hp, hr, he, by rw [hs, sin_pi_div_two], by rw [hc, cos_pi_div_two, mul_zero]⟩

end Exo
