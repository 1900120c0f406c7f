import Verif.Lemmas.LimbDark

/-!
# C36, C37, C41: the limb-darkened flux
-/

namespace Exo
open Real MeasureTheory Set Filter

/-! ## C36 -/

/-- **C36** (law): the three coefficients, in the basis `1`, `μ`, `4μ² - 2` of the solution vector, are the quadratic law
divided by its integral over the stellar disc. -/
theorem C36_coefficients (u1 u2 : ℝ) (h : (∫ p in starDisc, quadLaw u1 u2 (muAt p)) ≠ 0) (μ : ℝ) :
    (getCl u1 u2).1 * 1 + (getCl u1 u2).2.1 * μ + (getCl u1 u2).2.2 * (4 * μ ^ 2 - 2) =
      (1 - u1 * (1 - μ) - u2 * (1 - μ) ^ 2) / ∫ p in starDisc, quadLaw u1 u2 (muAt p) := by
  have hn : π * ((1 - u1 - 1.5 * u2) + (u1 + 2 * u2) / 1.5) = ∫ p in starDisc, quadLaw u1 u2 (muAt p) := by
    rw [show (∫ p in starDisc, quadLaw u1 u2 (muAt p)) = fluxFrom u1 u2 starDisc from rfl, fluxFrom_disc]; ring
  unfold getCl
  simp only
  rw [hn]
  field_simp
  ring

/-- **C36** (the disc integral, in closed form): it does not vanish unless `2 u1 + u2 = 6`. -/
theorem C36_disc_integral (u1 u2 : ℝ) : (∫ p in starDisc, quadLaw u1 u2 (muAt p)) = π * (1 - u1 / 3 - u2 / 6) :=
  fluxFrom_disc u1 u2

/-- **C36** (relative flux): one plus the light curve is the flux from the uncovered part of the disc over the flux from
the whole disc. -/
theorem C36_relative_flux (u1 u2 b r : ℝ) (_h : (∫ p in starDisc, quadLaw u1 u2 (muAt p)) ≠ 0) :
    1 + quadLimbdarkLightCurve (getCl u1 u2) b r =
      (∫ p in starDisc \ bodyDisc b r, quadLaw u1 u2 (muAt p)) / ∫ p in starDisc, quadLaw u1 u2 (muAt p) := by
  rw [quadLc_eq]; unfold fluxFrom; ring

/-- **C36** (un-occulted star): the light curve is exactly zero when the body is off the stellar disc. -/
theorem C36_unocculted (u1 u2 b r : ℝ) (h : (∫ p in starDisc, quadLaw u1 u2 (muAt p)) ≠ 0) (hb : 1 + r ≤ b) :
    quadLimbdarkLightCurve (getCl u1 u2) b r = 0 := by
  rw [quadLc_covered u1 u2 b r h, fluxFrom_apart u1 u2 hb, zero_div, neg_zero]

/-- The solar-like coefficients `(0.3, 0.2)` meet the hypothesis, and the law is then `0.5` at the limb. -/
example : (∫ p in starDisc, quadLaw 0.3 0.2 (muAt p)) ≠ 0 ∧ quadLaw 0.3 0.2 0 = 0.5 := by
  rw [C36_disc_integral]
  have := pi_pos
  constructor
  · have : 0 < π * (1 - 0.3 / 3 - 0.2 / 6) := mul_pos this (by norm_num)
    exact this.ne'
  · unfold quadLaw; norm_num

/-! ## C37 -/

/-- **C37** (range): for a non-negative profile the light curve is between `-1` and `0`. -/
theorem C37_range (u1 u2 b r : ℝ) (los : Option ℝ) (h : PhysicalLaw u1 u2) :
    -1 ≤ computeLightCurve (getCl u1 u2) b r los ∧ computeLightCurve (getCl u1 u2) b r los ≤ 0 := by
  unfold computeLightCurve
  simp only
  split_ifs
  · rw [quadLc_covered u1 u2 b r h.pos.ne']
    have h1 := fluxFrom_nonneg h (S := starDisc ∩ bodyDisc b r)
    have h2 := fluxFrom_mono h (inter_subset_left (s := starDisc) (t := bodyDisc b r)) subset_rfl
    have h3 : fluxFrom u1 u2 (starDisc ∩ bodyDisc b r) / fluxFrom u1 u2 starDisc ≤ 1 := (div_le_one h.pos).2 h2
    have h4 : 0 ≤ fluxFrom u1 u2 (starDisc ∩ bodyDisc b r) / fluxFrom u1 u2 starDisc := div_nonneg h1 h.pos.le
    constructor <;> linarith
  · constructor <;> norm_num

/-- **C37** (out of transit): zero when the discs do not overlap, for every line-of-sight position. -/
theorem C37_apart (u1 u2 b r : ℝ) (los : Option ℝ) (h : PhysicalLaw u1 u2) (hb : 1 + r ≤ b) :
    computeLightCurve (getCl u1 u2) b r los = 0 := by
  unfold computeLightCurve
  simp only
  rw [C36_unocculted u1 u2 b r h.pos.ne' hb, ite_self]

/-- **C37** (behind): zero when the body is not in front of the star, whatever the coefficients. -/
theorem C37_behind (c : ℝ × ℝ × ℝ) (b r z : ℝ) (hz : z ≤ 0) : computeLightCurve c b r (some z) = 0 := by
  unfold computeLightCurve
  simp only [Option.getD_some]
  rw [if_neg (by linarith)]

/-- **C37** (total eclipse): `-1` when the body in front covers the whole star. -/
theorem C37_covered (u1 u2 b r z : ℝ) (h : PhysicalLaw u1 u2) (hb : |b| + 1 ≤ r) (hz : 0 < z) :
    computeLightCurve (getCl u1 u2) b r (some z) = -1 := by
  unfold computeLightCurve
  simp only [Option.getD_some]
  rw [if_pos hz, quadLc_covered u1 u2 b r h.pos.ne', inter_eq_self_of_subset_left (bodyDisc_covers hb),
    div_self h.pos.ne']

/-- **C37** (monotone): a larger body covers at least as much light. -/
theorem C37_mono (u1 u2 b r r' : ℝ) (los : Option ℝ) (h : PhysicalLaw u1 u2) (hr : r ≤ r') :
    computeLightCurve (getCl u1 u2) b r' los ≤ computeLightCurve (getCl u1 u2) b r los := by
  unfold computeLightCurve
  simp only
  split_ifs
  · rw [quadLc_covered u1 u2 b r h.pos.ne', quadLc_covered u1 u2 b r' h.pos.ne', neg_le_neg_iff]
    exact div_le_div_of_nonneg_right (fluxFrom_mono h (inter_subset_inter_right _ (bodyDisc_mono b hr))
      inter_subset_left) h.pos.le
  · exact le_rfl

/-- **C37**, exact value for a uniform star: a body on the disc blocks its area. (This also shows that the light curve is
not constantly zero.) -/
theorem C37_uniform (b r z : ℝ) (hr : 0 < r) (hb : |b| + r ≤ 1) (hz : 0 < z) :
    computeLightCurve (getCl 0 0) b r (some z) = -r ^ 2 := by
  have h : PhysicalLaw 0 0 := ⟨fun μ _ _ => by unfold quadLaw; norm_num, by norm_num⟩
  unfold computeLightCurve
  simp only [Option.getD_some]
  rw [if_pos hz, quadLc_covered 0 0 b r h.pos.ne', inter_eq_self_of_subset_right (bodyDisc_subset hb), fluxFrom_disc]
  have h1 : fluxFrom 0 0 (bodyDisc b r) = π * r ^ 2 := by
    unfold fluxFrom quadLaw
    simp only [zero_mul, sub_zero, setIntegral_const, volume_bodyDisc hr, smul_eq_mul, mul_one]
  have := pi_pos
  rw [h1]
  field_simp
  ring

/-- Every limb-darkening law drawn by Kipping's parametrisation is physical: `u1 + u2 ≤ 1` and `u1 + 2 u2 ≥ 0` suffice. -/
theorem physicalLaw_of_kipping {u1 u2 : ℝ} (h1 : u1 + u2 ≤ 1) (h3 : 0 ≤ u1 + 2 * u2) : PhysicalLaw u1 u2 := by
  constructor
  · intro μ hμ0 hμ1
    unfold quadLaw
    have hx : 0 ≤ (1 - μ) * μ := mul_nonneg (by linarith) hμ0
    -- monotone in μ, and non-negative at μ = 0
    nlinarith [mul_nonneg h3 hμ0, mul_nonneg h3 hx]
  · nlinarith

example : PhysicalLaw 0.3 0.2 := physicalLaw_of_kipping (by norm_num) (by norm_num)

/-! ## C41 -/

/-- **C41** (inverse): the returned radius ratio is the unique non-negative solution of `ror² · f(b) / f0 = delta`, where
`f(b)` is the intensity at the planet's position and `f0` the mean intensity over the disc. -/
theorem C41_inverse (u1 u2 delta b ror : ℝ) (_hb : |b| < 1) (hδ : 0 < delta)
    (hf : 0 < quadLaw u1 u2 √(1 - b ^ 2)) (h0 : 0 < ∫ p in starDisc, quadLaw u1 u2 (muAt p)) :
    ((LimbDark.new u1 u2).rorFromDepth delta b).1 = ror ↔
      0 ≤ ror ∧ ror ^ 2 * quadLaw u1 u2 √(1 - b ^ 2) / ((∫ p in starDisc, quadLaw u1 u2 (muAt p)) / π) = delta := by
  have hpi := pi_pos
  have e0 : (∫ p in starDisc, quadLaw u1 u2 (muAt p)) / π = 1 - 2 * u1 / 6 - 2 * u2 / 12 := by
    rw [C36_disc_integral]; field_simp; ring
  have hf0 : 0 < 1 - 2 * u1 / 6 - 2 * u2 / 12 := by rw [← e0]; positivity
  have ef : quadLaw u1 u2 √(1 - b ^ 2) = 1 - u1 * (1 - √(1 - b ^ 2)) - u2 * (1 - √(1 - b ^ 2)) ^ 2 := rfl
  rw [e0]
  unfold LimbDark.rorFromDepth LimbDark.new
  simp only
  rw [← ef]
  set f := quadLaw u1 u2 √(1 - b ^ 2)
  set f0 := 1 - 2 * u1 / 6 - 2 * u2 / 12
  constructor
  · rintro rfl
    refine ⟨sqrt_nonneg _, ?_⟩
    rw [sq_sqrt (by positivity)]
    field_simp
  · rintro ⟨h, rfl⟩
    rw [show ror ^ 2 * f / f0 * (f0 / f) = ror ^ 2 by field_simp, sqrt_sq h]

/-- **C41** (Jacobian): the second returned value is the derivative of the first with respect to the depth. -/
theorem C41_jacobian (u1 u2 delta b : ℝ) (_hb : |b| < 1) (hδ : 0 < delta)
    (hf : 0 < quadLaw u1 u2 √(1 - b ^ 2)) (h0 : 0 < ∫ p in starDisc, quadLaw u1 u2 (muAt p)) :
    HasDerivAt (fun d => ((LimbDark.new u1 u2).rorFromDepth d b).1) ((LimbDark.new u1 u2).rorFromDepth delta b).2 delta := by
  have hpi := pi_pos
  have e0 : (∫ p in starDisc, quadLaw u1 u2 (muAt p)) / π = 1 - 2 * u1 / 6 - 2 * u2 / 12 := by
    rw [C36_disc_integral]; field_simp; ring
  have hf0 : 0 < 1 - 2 * u1 / 6 - 2 * u2 / 12 := by rw [← e0]; positivity
  have ef : quadLaw u1 u2 √(1 - b ^ 2) = 1 - u1 * (1 - √(1 - b ^ 2)) - u2 * (1 - √(1 - b ^ 2)) ^ 2 := rfl
  unfold LimbDark.rorFromDepth LimbDark.new
  simp only
  rw [← ef]
  set f := quadLaw u1 u2 √(1 - b ^ 2)
  set f0 := 1 - 2 * u1 / 6 - 2 * u2 / 12
  have hpos : 0 < delta * (f0 / f) := by positivity
  have h1 : HasDerivAt (fun d : ℝ => d * (f0 / f)) (f0 / f) delta := by
    simpa using (hasDerivAt_id delta).mul_const (f0 / f)
  refine (h1.sqrt hpos.ne').congr_deriv ?_
  ring

/-- **C41** (why the formula is the depth of a small planet): with the returned radius ratio the true depth of the
limb-darkened transit model agrees with the requested depth to leading order. -/
theorem C41_depth (u1 u2 b : ℝ) (hb : |b| < 1) (hf : 0 < quadLaw u1 u2 √(1 - b ^ 2))
    (h0 : 0 < ∫ p in starDisc, quadLaw u1 u2 (muAt p)) :
    Tendsto (fun delta => -quadLimbdarkLightCurve (getCl u1 u2) b ((LimbDark.new u1 u2).rorFromDepth delta b).1 / delta)
      (nhdsWithin 0 (Ioi 0)) (nhds 1) := by
  have hpi := pi_pos
  have e0 : fluxFrom u1 u2 starDisc = π * (1 - 2 * u1 / 6 - 2 * u2 / 12) := by
    rw [fluxFrom_disc]; ring
  have hf0 : 0 < 1 - 2 * u1 / 6 - 2 * u2 / 12 := by
    have : 0 < fluxFrom u1 u2 starDisc := h0
    rw [e0] at this
    exact pos_of_mul_pos_right this hpi.le
  have ef : quadLaw u1 u2 √(1 - b ^ 2) = 1 - u1 * (1 - √(1 - b ^ 2)) - u2 * (1 - √(1 - b ^ 2)) ^ 2 := rfl
  have hs := flux_small u1 u2 hb
  unfold LimbDark.rorFromDepth LimbDark.new
  simp only
  rw [← ef]
  set f := quadLaw u1 u2 √(1 - b ^ 2)
  set f0 := 1 - 2 * u1 / 6 - 2 * u2 / 12
  have hr : Tendsto (fun d : ℝ => √(d * (f0 / f))) (nhdsWithin 0 (Ioi 0)) (nhdsWithin 0 (Ioi 0)) := by
    apply tendsto_nhdsWithin_of_tendsto_nhds_of_eventually_within
    · have : ContinuousAt (fun d : ℝ => √(d * (f0 / f))) 0 := by fun_prop
      have h := this.tendsto
      simp only [zero_mul, sqrt_zero] at h
      exact h.mono_left nhdsWithin_le_nhds
    · filter_upwards [self_mem_nhdsWithin] with d hd
      exact sqrt_pos.2 (mul_pos hd (by positivity))
  have h2 := (hs.comp hr).div_const (π * f)
  rw [div_self (by positivity)] at h2
  refine h2.congr' ?_
  filter_upwards [self_mem_nhdsWithin] with d hd
  have hd0 : 0 < d := hd
  simp only [Function.comp]
  rw [quadLc_covered u1 u2 _ _ h0.ne', e0, sq_sqrt (by positivity)]
  field_simp

example : |(0.4 : ℝ)| < 1 ∧ 0 < quadLaw 0.3 0.2 √(1 - 0.4 ^ 2) ∧ 0 < ∫ p in starDisc, quadLaw 0.3 0.2 (muAt p) := by
  refine ⟨by rw [abs_of_pos] <;> norm_num, ?_, ?_⟩
  · unfold quadLaw
    have h1 := sqrt_nonneg (1 - 0.4 ^ 2 : ℝ)
    have h2 : √(1 - 0.4 ^ 2 : ℝ) ≤ 1 := by rw [sqrt_le_left zero_le_one]; norm_num
    nlinarith
  · rw [C36_disc_integral]
    exact mul_pos pi_pos (by norm_num)

/-- **C41**, corner: at the limb the small-planet formula still uses the limb intensity; outside (`|b| > 1`) the argument of
the square root is negative, which Python evaluates to NaN. `|b| < 1` in the statements above is where it is a number with
the stated meaning. -/
example : (1 : ℝ) - 1.5 ^ 2 < 0 := by norm_num

end Exo
