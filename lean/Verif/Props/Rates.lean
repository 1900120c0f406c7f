import Verif.Spec.Rates
import Verif.Lemmas.LightCurveDeriv
import Verif.Props.Accuracy
import Verif.Props.Emission
import Verif.Props.Depth

/-!
# C115: how fast light curves change, and what follows for exposure times and interpolation
-/

namespace Exo
open Real MeasureTheory Set

theorem indicator_bounds {u1 u2 B : ℝ} (h : PhysicalLaw u1 u2) (hB : NotBrighterThan u1 u2 B) (p : ℝ × ℝ) :
    0 ≤ starDisc.indicator (fun p => quadLaw u1 u2 (muAt p)) p ∧ starDisc.indicator (fun p => quadLaw u1 u2 (muAt p)) p ≤ B := by
  have h0 := h.1 _ (muAt_nonneg p) (muAt_le_one p)
  have h1 := hB _ (muAt_nonneg p) (muAt_le_one p)
  by_cases hp : p ∈ starDisc
  · rw [indicator_of_mem hp]; exact ⟨h0, h1⟩
  · rw [indicator_of_notMem hp]; exact ⟨le_rfl, h0.trans h1⟩

/-- Motion: the leading limb covers, the trailing limb uncovers. -/
theorem alongLimb_cos_le {u1 u2 B : ℝ} (h : PhysicalLaw u1 u2) (hB : NotBrighterThan u1 u2 B) (b : ℝ) {k : ℝ} (hk : 0 ≤ k) :
    |k * alongLimb (fun p => quadLaw u1 u2 (muAt p)) cos b k| ≤ 2 * k * B := by
  rw [← limb_halves (continuous_law u1 u2), ← integral_Ioc_eq_integral_Ioo, ← intervalIntegral.integral_of_le (by linarith [pi_pos])]
  have hi : ∫ φ in (-(π / 2))..(π / 2), k * B * cos φ = 2 * k * B := by
    rw [intervalIntegral.integral_const_mul, integral_cos, sin_neg, sin_pi_div_two]; ring
  rw [← hi, ← Real.norm_eq_abs]
  refine intervalIntegral.norm_integral_le_of_norm_le (by linarith [pi_pos]) ?_ (Continuous.intervalIntegrable (by fun_prop) _ _)
  refine Filter.Eventually.of_forall fun φ hφ => ?_
  have hc := cos_nonneg_of_mem_Icc ⟨hφ.1.le, hφ.2⟩
  have h1 := indicator_bounds h hB (b + k * cos φ, k * sin φ)
  have h2 := indicator_bounds h hB (b - k * cos φ, k * sin φ)
  rw [Real.norm_eq_abs, abs_mul, abs_of_nonneg (mul_nonneg hk hc)]
  have h3 : |starDisc.indicator (fun p => quadLaw u1 u2 (muAt p)) (b + k * cos φ, k * sin φ) -
      starDisc.indicator (fun p => quadLaw u1 u2 (muAt p)) (b - k * cos φ, k * sin φ)| ≤ B := abs_le.2 ⟨by linarith, by linarith⟩
  calc k * cos φ * _ ≤ k * cos φ * B := mul_le_mul_of_nonneg_left h3 (mul_nonneg hk hc)
    _ = k * B * cos φ := by ring

theorem covered_lipschitz {u1 u2 B : ℝ} (h : PhysicalLaw u1 u2) (hB : NotBrighterThan u1 u2 B) {b b' k : ℝ} (hk : 0 < k) (hb : 0 ≤ b)
    (hbb : b < b') :
    |fluxFrom u1 u2 (starDisc ∩ bodyDisc b' k) - fluxFrom u1 u2 (starDisc ∩ bodyDisc b k)| ≤ 2 * k * B * (b' - b) := by
  have hl := (continuous_law u1 u2)
  have hd : ∀ x ∈ Ioo b b', HasDerivAt (fun b => ∫ p in starDisc ∩ bodyDisc b k, quadLaw u1 u2 (muAt p))
      (k * alongLimb (fun p => quadLaw u1 u2 (muAt p)) cos x k) x := fun x hx =>
    covered_distance hl hk fun h => by linarith [h.1, hx.1]
  have hc : ContinuousOn (fun b => ∫ p in starDisc ∩ bodyDisc b k, quadLaw u1 u2 (muAt p)) (Icc b b') := by
    have h1 : (fun b => ∫ p in starDisc ∩ bodyDisc b k, quadLaw u1 u2 (muAt p)) =
        fun b => -(fluxFrom u1 u2 starDisc * quadLimbdarkLightCurve (getCl u1 u2) b k) := by
      funext b
      rw [quadLc_covered u1 u2 b k h.pos.ne']
      have := h.pos.ne'
      field_simp
      rfl
    rw [h1]
    have := (continuous_quadLc (getCl u1 u2)).comp (f := fun b : ℝ => (b, k)) (by fun_prop)
    exact ((this.const_smul (fluxFrom u1 u2 starDisc)).neg).continuousOn
  obtain ⟨x, hx, he⟩ := exists_hasDerivAt_eq_slope _ _ hbb hc hd
  have h2 := alongLimb_cos_le h hB x hk.le
  rw [he, abs_div, abs_of_pos (sub_pos.2 hbb), div_le_iff₀ (sub_pos.2 hbb)] at h2
  exact h2

/-- **C115 (distance).** Moving a body on the sky by `|b' - b|` stellar radii changes the flux by at most the light of a strip of that length. -/
theorem C115_distance (u1 u2 B : ℝ) (h : PhysicalLaw u1 u2) (hB : NotBrighterThan u1 u2 B) (b b' k : ℝ) (hk : 0 < k) (hb : 0 ≤ b) (hb' : 0 ≤ b')
    (los : Option ℝ) :
    |computeLightCurve (getCl u1 u2) b k los - computeLightCurve (getCl u1 u2) b' k los| ≤ stripLight u1 u2 B k * |b - b'| := by
  have hB0 : 0 ≤ B := (h.1 0 le_rfl zero_le_one).trans (hB 0 le_rfl zero_le_one)
  have hpos := h.pos
  have key : ∀ b b', 0 ≤ b → b < b' →
      |quadLimbdarkLightCurve (getCl u1 u2) b k - quadLimbdarkLightCurve (getCl u1 u2) b' k| ≤ stripLight u1 u2 B k * |b - b'| := by
    intro b b' hb hbb
    have h1 := covered_lipschitz h hB hk hb hbb
    rw [quadLc_covered u1 u2 b k hpos.ne', quadLc_covered u1 u2 b' k hpos.ne', neg_sub_neg, ← sub_div, abs_div, abs_of_pos hpos,
      abs_sub_comm b b', abs_of_pos (sub_pos.2 hbb), div_le_iff₀ hpos]
    refine h1.trans_eq ?_
    rw [stripLight, ← fluxFrom_disc]
    field_simp
  unfold computeLightCurve
  simp only
  split_ifs
  · rcases lt_trichotomy b b' with hlt | rfl | hlt
    · exact key b b' hb hlt
    · simp
    · rw [abs_sub_comm, abs_sub_comm b b']; exact key b' b hb' hlt
  · rw [sub_self, abs_zero]
    have : 0 ≤ stripLight u1 u2 B k := by
      unfold stripLight; rw [← fluxFrom_disc]; positivity
    positivity

/-- **C115 (radius).** A body of radius `k'` instead of `k` covers at most the light of the ring between them more. -/
theorem C115_radius (u1 u2 B : ℝ) (h : PhysicalLaw u1 u2) (hB : NotBrighterThan u1 u2 B) (b k k' : ℝ) (hk : 0 ≤ k) (hk' : 0 ≤ k') (los : Option ℝ) :
    |computeLightCurve (getCl u1 u2) b k los - computeLightCurve (getCl u1 u2) b k' los| ≤ B * |k ^ 2 - k' ^ 2| / (1 - u1 / 3 - u2 / 6) := by
  have hB0 : 0 ≤ B := (h.1 0 le_rfl zero_le_one).trans (hB 0 le_rfl zero_le_one)
  have hpos := h.pos
  have hl := continuous_law u1 u2
  have hI : ∀ p, |starDisc.indicator (fun p => quadLaw u1 u2 (muAt p)) p| ≤ B := fun p =>
    abs_le.2 ⟨by linarith [(indicator_bounds h hB p).1], (indicator_bounds h hB p).2⟩
  have key : ∀ k k', 0 ≤ k → k ≤ k' →
      |quadLimbdarkLightCurve (getCl u1 u2) b k - quadLimbdarkLightCurve (getCl u1 u2) b k'| ≤ B * |k ^ 2 - k' ^ 2| / (1 - u1 / 3 - u2 / 6) := by
    intro k k' hk hkk
    have hi : ∀ x, 0 ≤ x → IntervalIntegrable (fun s => s * alongLimb (fun p => quadLaw u1 u2 (muAt p)) (fun _ => 1) b s) volume 0 x := by
      intro x hx
      rw [intervalIntegrable_iff_integrableOn_Ioc_of_le hx]
      refine Measure.integrableOn_of_bounded (M := x * (B * (2 * π))) (by simp) (alongLimb_measurable hl b).aestronglyMeasurable ?_
      refine (ae_restrict_iff' measurableSet_Ioc).2 (Filter.Eventually.of_forall fun s hs => ?_)
      rw [norm_mul, Real.norm_eq_abs, Real.norm_eq_abs, abs_of_pos hs.1]
      exact mul_le_mul hs.2 (alongLimb_le hl hI hB0 _ (fun _ => by simp) b s) (abs_nonneg _) hx
    have h1 : fluxFrom u1 u2 (starDisc ∩ bodyDisc b k') - fluxFrom u1 u2 (starDisc ∩ bodyDisc b k) =
        ∫ s in k..k', s * alongLimb (fun p => quadLaw u1 u2 (muAt p)) (fun _ => 1) b s := by
      unfold fluxFrom
      rw [covered_rings hl b hk, covered_rings hl b (hk.trans hkk), intervalIntegral.integral_interval_sub_left (hi _ (hk.trans hkk)) (hi _ hk)]
    have h2 : |fluxFrom u1 u2 (starDisc ∩ bodyDisc b k') - fluxFrom u1 u2 (starDisc ∩ bodyDisc b k)| ≤ π * B * (k' ^ 2 - k ^ 2) := by
      have h3 : ∫ s in k..k', 2 * π * B * s = π * B * (k' ^ 2 - k ^ 2) := by
        rw [intervalIntegral.integral_const_mul, integral_id]; ring
      rw [h1, ← h3, ← Real.norm_eq_abs]
      refine intervalIntegral.norm_integral_le_of_norm_le hkk ?_ (Continuous.intervalIntegrable (by fun_prop) _ _)
      refine Filter.Eventually.of_forall fun s hs => ?_
      rw [norm_mul, Real.norm_eq_abs, Real.norm_eq_abs, abs_of_pos (hk.trans_lt hs.1)]
      have h4 := mul_le_mul_of_nonneg_left (alongLimb_le hl hI hB0 (fun _ => 1) (fun _ => by simp) b s) (hk.trans_lt hs.1).le
      linarith
    have h5 : k ^ 2 ≤ k' ^ 2 := pow_le_pow_left₀ hk hkk 2
    rw [quadLc_covered u1 u2 b k hpos.ne', quadLc_covered u1 u2 b k' hpos.ne', neg_sub_neg, ← sub_div, abs_div, abs_of_pos hpos,
      abs_sub_comm (k ^ 2), abs_of_nonneg (sub_nonneg.2 h5), div_le_iff₀ hpos, fluxFrom_disc]
    refine h2.trans_eq ?_
    have := h.2.ne'
    generalize 1 - u1 / 3 - u2 / 6 = D at this ⊢
    field_simp
  unfold computeLightCurve
  simp only
  split_ifs
  · rcases le_total k k' with hle | hle
    · exact key k k' hk hle
    · rw [abs_sub_comm, abs_sub_comm (k ^ 2)]; exact key k' k hk' hle
  · rw [sub_self, abs_zero]
    have := h.2
    positivity

/-! ## Time -/

/-- The distance on the sky changes no faster than the body moves. -/
theorem sky_lipschitz {C : Consts} {A : Args} {o : Orbit} (h : keplerianInit C A = .ok o) (hp : o.Physical) (t s : ℝ) :
    |√((o.relativePosition C t).x ^ 2 + (o.relativePosition C t).y ^ 2) - √((o.relativePosition C s).x ^ 2 + (o.relativePosition C s).y ^ 2)| ≤
      o.topSpeed o.a * |t - s| := by
  have B := built_of_init h
  have hv : ∀ t, (o.relativeVelocity t).x ^ 2 + (o.relativeVelocity t).y ^ 2 ≤ o.topSpeed o.a ^ 2 := by
    intro t
    have h1 := Built.speed_le B hp (B.K_rel hp) t
    rw [abs_neg, abs_of_pos hp.a_pos] at h1
    have h2 : (o.relativeVelocity t).normSq ≤ o.topSpeed o.a ^ 2 := h1
    unfold V3.normSq at h2
    nlinarith [sq_nonneg (o.relativeVelocity t).z]
  have hT := Built.topSpeed_nonneg B hp hp.a_pos.le
  have line : ∀ c d : ℝ, c ^ 2 + d ^ 2 = 1 → ∀ t s, (c * (o.relativePosition C t).x + d * (o.relativePosition C t).y) -
      (c * (o.relativePosition C s).x + d * (o.relativePosition C s).y) ≤ o.topSpeed o.a * |t - s| := by
    intro c d hcd t s
    have hd : ∀ x ∈ (univ : Set ℝ), HasDerivWithinAt (fun t => c * (o.relativePosition C t).x + d * (o.relativePosition C t).y)
        (c * (o.relativeVelocity x).x + d * (o.relativeVelocity x).y) univ x := by
      intro x _
      obtain ⟨-, -, v1, v2, -⟩ := C08_velocity_is_derivative C A o h hp x
      exact ((v1.const_mul c).add (v2.const_mul d)).hasDerivWithinAt
    have hb : ∀ x ∈ (univ : Set ℝ), ‖c * (o.relativeVelocity x).x + d * (o.relativeVelocity x).y‖ ≤ o.topSpeed o.a := by
      intro x _
      rw [Real.norm_eq_abs]
      refine abs_le_of_sq_le_sq ?_ hT
      refine le_trans ?_ (hv x)
      nlinarith [sq_nonneg (c * (o.relativeVelocity x).y - d * (o.relativeVelocity x).x)]
    have := convex_univ.norm_image_sub_le_of_norm_hasDerivWithin_le hd hb (mem_univ s) (mem_univ t)
    rw [Real.norm_eq_abs, Real.norm_eq_abs] at this
    exact (le_abs_self _).trans this
  have half : ∀ t s, √((o.relativePosition C t).x ^ 2 + (o.relativePosition C t).y ^ 2) -
      √((o.relativePosition C s).x ^ 2 + (o.relativePosition C s).y ^ 2) ≤ o.topSpeed o.a * |t - s| := by
    intro t s
    obtain ⟨D, hD⟩ : ∃ D, √((o.relativePosition C t).x ^ 2 + (o.relativePosition C t).y ^ 2) = D := ⟨_, rfl⟩
    have hDs : D ^ 2 = (o.relativePosition C t).x ^ 2 + (o.relativePosition C t).y ^ 2 := by rw [← hD, sq_sqrt (by positivity)]
    have hD0 : 0 ≤ D := hD ▸ sqrt_nonneg _
    rw [hD]
    rcases hD0.eq_or_lt with h0 | hpos
    · rw [← h0]
      have := sqrt_nonneg ((o.relativePosition C s).x ^ 2 + (o.relativePosition C s).y ^ 2)
      have := mul_nonneg hT (abs_nonneg (t - s))
      linarith
    · have hcd : ((o.relativePosition C t).x / D) ^ 2 + ((o.relativePosition C t).y / D) ^ 2 = 1 := by
        rw [div_pow, div_pow, ← add_div, ← hDs, div_self (by positivity)]
      have h1 := line _ _ hcd t s
      have h2 : (o.relativePosition C t).x / D * (o.relativePosition C t).x + (o.relativePosition C t).y / D * (o.relativePosition C t).y = D := by
        field_simp; linarith
      have h3 : (o.relativePosition C t).x / D * (o.relativePosition C s).x + (o.relativePosition C t).y / D * (o.relativePosition C s).y ≤
          √((o.relativePosition C s).x ^ 2 + (o.relativePosition C s).y ^ 2) := by
        refine le_sqrt_of_sq_le ?_
        generalize (o.relativePosition C t).x / D = c at *
        generalize (o.relativePosition C t).y / D = d at *
        nlinarith [sq_nonneg (c * (o.relativePosition C s).y - d * (o.relativePosition C s).x)]
      linarith
  rw [abs_le]
  have h1 := half t s
  have h2 := half s t
  rw [abs_sub_comm s t] at h2
  constructor <;> linarith

theorem fluxRate_nonneg {C : Consts} {A : Args} {o : Orbit} (ho : keplerianInit C A = .ok o) (hp : o.Physical) {u1 u2 B r : ℝ}
    (h : PhysicalLaw u1 u2) (hB : NotBrighterThan u1 u2 B) (hr : 0 ≤ r) : 0 ≤ o.fluxRate u1 u2 B r := by
  have hB0 : 0 ≤ B := (h.1 0 le_rfl zero_le_one).trans (hB 0 le_rfl zero_le_one)
  have := Built.topSpeed_nonneg (built_of_init ho) hp hp.a_pos.le
  have := h.pos
  have := hp.r_star_pos
  unfold Orbit.fluxRate stripLight
  rw [← fluxFrom_disc]
  positivity

/-- **C115 (time).** The light curve of a planet that does not touch the star changes by at most the light of the strip it can sweep in the time. -/
theorem C115_time (C : Consts) (A : Args) (o : Orbit) (ho : keplerianInit C A = .ok o) (hp : o.Physical) (u1 u2 B r : ℝ) (h : PhysicalLaw u1 u2)
    (hB : NotBrighterThan u1 u2 B) (hr : 0 < r) (ha : o.r_star + r < o.a * (1 - o.eccVal)) (t s : ℝ) :
    |fluxAt (getCl u1 u2) o.r_star r (o.relativePosition C t) - fluxAt (getCl u1 u2) o.r_star r (o.relativePosition C s)| ≤
      o.fluxRate u1 u2 B r * |t - s| := by
  have hR := hp.r_star_pos
  have hL : 0 ≤ stripLight u1 u2 B (r / o.r_star) := by
    have hB0 : 0 ≤ B := (h.1 0 le_rfl zero_le_one).trans (hB 0 le_rfl zero_le_one)
    have := h.pos
    unfold stripLight
    rw [← fluxFrom_disc]
    positivity
  have hT := Built.topSpeed_nonneg (built_of_init ho) hp hp.a_pos.le
  -- two times on the same side
  have same : ∀ t s, ∀ z : Option ℝ,
      |computeLightCurve (getCl u1 u2) (√((o.relativePosition C t).x ^ 2 + (o.relativePosition C t).y ^ 2) / o.r_star) (r / o.r_star) z -
        computeLightCurve (getCl u1 u2) (√((o.relativePosition C s).x ^ 2 + (o.relativePosition C s).y ^ 2) / o.r_star) (r / o.r_star) z| ≤
      o.fluxRate u1 u2 B r * |t - s| := by
    intro t s z
    refine (C115_distance u1 u2 B h hB _ _ _ (by positivity) (by positivity) (by positivity) z).trans ?_
    rw [← sub_div, abs_div, abs_of_pos hR]
    unfold Orbit.fluxRate
    calc _ ≤ stripLight u1 u2 B (r / o.r_star) * (o.topSpeed o.a * |t - s| / o.r_star) :=
        mul_le_mul_of_nonneg_left (div_le_div_of_nonneg_right (sky_lipschitz ho hp t s) hR.le) hL
      _ = _ := by ring
  have front : ∀ v : V3, 0 < v.z → fluxAt (getCl u1 u2) o.r_star r v =
      computeLightCurve (getCl u1 u2) (√(v.x ^ 2 + v.y ^ 2) / o.r_star) (r / o.r_star) none := by
    intro v hz
    unfold fluxAt computeLightCurve
    simp [div_pos hz hR]
  have back : ∀ v : V3, v.z ≤ 0 → fluxAt (getCl u1 u2) o.r_star r v = 0 := by
    intro v hz
    unfold fluxAt computeLightCurve
    simp only [Option.getD_some]
    rw [if_neg (not_lt.2 (div_nonpos_of_nonpos_of_nonneg hz hR.le))]
  -- from front to back
  have cross : ∀ t s, 0 < (o.relativePosition C t).z → (o.relativePosition C s).z ≤ 0 →
      |fluxAt (getCl u1 u2) o.r_star r (o.relativePosition C t) - fluxAt (getCl u1 u2) o.r_star r (o.relativePosition C s)| ≤
        o.fluxRate u1 u2 B r * |t - s| := by
    intro t s ht hs
    have hcont : ContinuousOn (fun t => (o.relativePosition C t).z) (uIcc s t) := fun x _ =>
      (C08_velocity_is_derivative C A o ho hp x).2.2.2.2.continuousAt.continuousWithinAt
    obtain ⟨q, hq, hz⟩ := intermediate_value_uIcc hcont (show (0 : ℝ) ∈ uIcc (o.relativePosition C s).z (o.relativePosition C t).z from
      mem_uIcc.2 (Or.inl ⟨hs, ht.le⟩))
    simp only at hz
    have hfar : 1 + r / o.r_star ≤ √((o.relativePosition C q).x ^ 2 + (o.relativePosition C q).y ^ 2) / o.r_star := by
      have h1 := ((C13_distance_bounds C A o ho hp).1 q).1
      unfold V3.norm V3.normSq at h1
      rw [hz] at h1
      rw [le_div_iff₀ hR, add_mul, one_mul, div_mul_cancel₀ _ hR.ne']
      refine (ha.le.trans h1).trans_eq ?_
      congr 1; ring
    have h0 : computeLightCurve (getCl u1 u2) (√((o.relativePosition C q).x ^ 2 + (o.relativePosition C q).y ^ 2) / o.r_star) (r / o.r_star)
        none = 0 := by
      simp only [computeLightCurve, Option.getD_none]
      rw [if_pos one_pos]
      exact C36_unocculted u1 u2 _ _ h.pos.ne' hfar
    have h1 := same t q none
    rw [h0] at h1
    rw [back _ hs, front _ ht]
    refine h1.trans (mul_le_mul_of_nonneg_left ?_ (fluxRate_nonneg ho hp h hB hr.le))
    rw [abs_sub_comm t q, abs_sub_comm t s]
    have := abs_sub_right_of_mem_uIcc hq
    rw [abs_sub_comm, abs_sub_comm t s] at this
    exact this
  rcases lt_or_ge 0 (o.relativePosition C t).z with ht | ht <;> rcases lt_or_ge 0 (o.relativePosition C s).z with hs | hs
  · rw [front _ ht, front _ hs]; exact same t s none
  · exact cross t s ht hs
  · rw [abs_sub_comm, abs_sub_comm t s]; exact cross s t hs ht
  · rw [back _ ht, back _ hs, sub_self, abs_zero]
    exact mul_nonneg (fluxRate_nonneg ho hp h hB hr.le) (abs_nonneg _)

/-! ## Exposure times and interpolation -/

/-- **C115 (exposure, error bound).** For a light curve that changes by at most `K` per day, each order of integration is within
`K x / (oversample - 1)` of the average over an exposure of length `x`. -/
theorem C115_exposure_error (order oversample : ℤ) (ho : order = 0 ∨ order = 1 ∨ order = 2) (hn : 2 ≤ oversample) (f : ℝ → ℝ) (K : ℝ)
    (hK : ∀ t s, |f t - f s| ≤ K * |t - s|) (t x : ℝ) (hx : 0 < x) :
    ∃ S, stencil order oversample = .ok S ∧
      |exposureAverage f t (some (x, S)) - (∫ s in (t - x / 2)..(t + x / 2), f s) / x| ≤ K * x / (oversample - 1) := by
  have hn' : (2 : ℝ) ≤ oversample := by exact_mod_cast hn
  have hK0 : 0 ≤ K := by
    have := (abs_nonneg _).trans (hK 1 0)
    simpa using this
  have hf : Continuous f := by
    refine (LipschitzWith.of_dist_le_mul (K := ⟨K, hK0⟩) fun t s => ?_).continuous
    rw [Real.dist_eq, Real.dist_eq]
    exact hK t s
  have hg : Continuous fun u => f (t + x * u) := hf.comp (by fun_prop)
  have hg' : ∀ u v, |f (t + x * u) - f (t + x * v)| ≤ K * x * |u - v| := by
    intro u v
    refine (hK _ _).trans_eq ?_
    rw [show t + x * u - (t + x * v) = x * (u - v) by ring, abs_mul, abs_of_pos hx]
    ring
  have hKx : 0 ≤ K * x := by positivity
  -- half a cell
  have hcell : ∀ M : ℕ, 0 < M → (oversample - 1 : ℝ) ≤ 2 * M → K * x * (1 / (M : ℝ) / 2) ≤ K * x / (oversample - 1) := by
    intro M hM hle
    have hM' : (0 : ℝ) < M := by exact_mod_cast hM
    rw [div_eq_mul_inv (K * x)]
    refine mul_le_mul_of_nonneg_left ?_ hKx
    rw [div_div, ← one_div, mul_comm (M : ℝ)]
    exact one_div_le_one_div_of_le (by linarith) hle
  rw [← average_eq f t hx.ne']
  rcases ho with rfl | rfl | rfl
  · obtain ⟨n, S, hS, h1, -, -, hap⟩ := C38_midpoint oversample (by omega)
    refine ⟨S, hS, ?_⟩
    have hn0 : 0 < n := by omega
    have hn1 : (0 : ℝ) < n := by exact_mod_cast hn0
    have hle : (oversample : ℝ) ≤ n := by exact_mod_cast h1
    rw [exposureAverage_stencil, hap]
    refine composite_rule hg hn0 _ fun j hj u hu1 hu2 => (hg' _ _).trans (le_trans ?_ (hcell n hn0 (by linarith)))
    refine mul_le_mul_of_nonneg_left ?_ hKx
    have e1 : (2 * (j : ℝ) + 1) / (2 * n) = j / n + 1 / n / 2 := by field_simp
    have e2 : ((j : ℝ) + 1) / n = j / n + 1 / n := by ring
    rw [e2] at hu2
    rw [e1, abs_le]
    constructor <;> linarith
  · obtain ⟨N, S, hS, h1, -, h2, hap⟩ := C38_trapezoid_partial oversample hn
    refine ⟨S, hS, ?_⟩
    have hn0 : 0 < N := by omega
    have hn1 : (0 : ℝ) < N := by exact_mod_cast hn0
    have hle : (oversample : ℝ) ≤ N + 1 := by exact_mod_cast h1
    rw [exposureAverage_stencil, hap, show ∀ A : ℝ, A / (2 * N) = (A / 2) / N by intro A; field_simp, Finset.sum_div]
    refine composite_rule hg hn0 _ fun j hj u hu1 hu2 => le_trans ?_ (hcell N hn0 (by linarith))
    have e2 : ((j : ℝ) + 1) / N = j / N + 1 / N := by ring
    rw [e2] at hu2 ⊢
    have a1 := hg' u (-(1 / 2) + j / N)
    have a2 := hg' u (-(1 / 2) + (j / N + 1 / N))
    rw [abs_of_nonneg (by linarith : 0 ≤ u - (-(1 / 2) + (j : ℝ) / N))] at a1
    rw [abs_sub_comm u, abs_of_nonneg (by linarith : 0 ≤ -(1 / 2) + ((j : ℝ) / N + 1 / N) - u)] at a2
    rw [abs_le] at a1 a2 ⊢
    constructor <;> linarith [a1.1, a1.2, a2.1, a2.2]
  · obtain ⟨m, S, hS, h1, -, h2, hap⟩ := C38_simpson_partial oversample hn
    refine ⟨S, hS, ?_⟩
    have hn0 : 0 < m := by omega
    have hn1 : (0 : ℝ) < m := by exact_mod_cast hn0
    have hle : (oversample : ℝ) ≤ 2 * m + 1 := by exact_mod_cast h1
    rw [exposureAverage_stencil, hap, show ∀ A : ℝ, A / (6 * m) = (A / 6) / m by intro A; field_simp, Finset.sum_div]
    refine composite_rule hg hn0 _ fun j hj u hu1 hu2 => le_trans ?_ (hcell m hn0 (by linarith))
    have e0 : (2 * (j : ℝ)) / (2 * m) = j / m := by field_simp
    have e2 : (2 * (j : ℝ) + 2) / (2 * m) = j / m + 1 / m := by field_simp
    have e1 : (2 * (j : ℝ) + 1) / (2 * m) = j / m + 1 / m / 2 := by field_simp
    have e3 : ((j : ℝ) + 1) / m = j / m + 1 / m := by ring
    rw [e3] at hu2
    rw [e0, e1, e2]
    have a0 := hg' u (-(1 / 2) + j / m)
    have a1 := hg' u (-(1 / 2) + (j / m + 1 / m / 2))
    have a2 := hg' u (-(1 / 2) + (j / m + 1 / m))
    have b1 : K * x * |u - (-(1 / 2) + (j / m + 1 / m / 2))| ≤ K * x * (1 / m / 2) :=
      mul_le_mul_of_nonneg_left (abs_le.2 ⟨by linarith, by linarith⟩) hKx
    rw [abs_of_nonneg (by linarith : 0 ≤ u - (-(1 / 2) + (j : ℝ) / m))] at a0
    rw [abs_sub_comm u, abs_of_nonneg (by linarith : 0 ≤ -(1 / 2) + ((j : ℝ) / m + 1 / m) - u)] at a2
    rw [abs_le] at a0 a1 a2 ⊢
    constructor <;> linarith [a0.1, a0.2, a1.1, a1.2, a2.1, a2.2]

/-- **C115 (`get_light_curve` with an exposure time).** For planets on Keplerian orbits that do not touch the star, what is returned differs from the
average of the light curve over the exposure by at most the largest rate of change times `texp / (oversample - 1)`. -/
theorem C115_exposure_kepler (C : Consts) (cp : ContactOp) (orbits : List Orbit) (R : ℝ) (hR : ∀ o ∈ orbits, o.r_star = R)
    (hb : ∀ o ∈ orbits, ∃ A, keplerianInit C A = .ok o) (hp : ∀ o ∈ orbits, o.Physical) (u1 u2 B : ℝ)
    (h : PhysicalLaw u1 u2) (hB : NotBrighterThan u1 u2 B) (r : Tensor ℝ) (hr : r.size = orbits.length)
    (hr0 : ∀ p < orbits.length, 0 < r.get (Tensor.unravel r.shape p))
    (ha : ∀ p (h : p < orbits.length), R + r.get (Tensor.unravel r.shape p) < orbits[p].a * (1 - orbits[p].eccVal))
    (order : ℤ) (ho : order = 0 ∨ order = 1 ∨ order = 2) (oversample : ℤ) (hn : 2 ≤ oversample) (x : ℝ) (hx : 0 < x) (t : Tensor ℝ) :
    ∃ L, (LimbDark.new u1 u2).getLightCurve (some (keplerApi C cp orbits R)) (some r) (some t) (some (Tensor.scalar x)) oversample order
        (some false) = .ok L ∧ L.shape = t.shape ++ [orbits.length] ∧
      ∀ i p (hp : p < orbits.length), InShape i t.shape → |L.get (i ++ [p]) -
        (∫ s in (t.get i - x / 2)..(t.get i + x / 2),
          fluxAt (getCl u1 u2) R (r.get (Tensor.unravel r.shape p)) (orbits[p].relativePosition C s)) / x| ≤
        orbits[p].fluxRate u1 u2 B (r.get (Tensor.unravel r.shape p)) * x / (oversample - 1) := by
  obtain ⟨S, hS, L, h1, h2, h3⟩ := C39_values_exposure (LimbDark.new u1 u2) (keplerApi C cp orbits R) false _ rfl r t
    (Tensor.scalar x) hr (Or.inl rfl) oversample order ho (by omega)
  refine ⟨L, h1, h2, fun i p hpl hi => ?_⟩
  have hmem := List.getElem_mem hpl
  obtain ⟨A, hA⟩ := hb _ hmem
  have hK := C115_time C A _ hA (hp _ hmem) u1 u2 B (r.get (Tensor.unravel r.shape p)) h hB (hr0 p hpl) (by rw [hR _ hmem]; exact ha p hpl)
  rw [hR _ hmem] at hK
  obtain ⟨S', hS', hE⟩ := C115_exposure_error order oversample ho hn
    (fun s => fluxAt (getCl u1 u2) R (r.get (Tensor.unravel r.shape p)) (orbits[p].relativePosition C s)) _ hK (t.get i) x hx
  rw [hS] at hS'
  cases hS'
  rw [h3 i p hi hpl]
  have e : texpAt (Tensor.scalar x) i = x := by simp [texpAt, Tensor.scalar]
  rw [e]
  refine le_of_eq_of_le ?_ hE
  congr 2
  simp only [keplerApi, List.getElem?_eq_getElem hpl]
  rfl

/-- **C115 (`InterpolatedLightCurve`).** For planets on Keplerian orbits that do not touch the star, what is returned differs from the light curve by
at most `5/2` of the largest rate of change times the step in time. -/
theorem C115_interpolation_kepler (C : Consts) (cp : ContactOp) (orbits : List Orbit) (hne : orbits ≠ []) (R : ℝ)
    (hR : ∀ o ∈ orbits, o.r_star = R) (hb : ∀ o ∈ orbits, ∃ A, keplerianInit C A = .ok o) (hp : ∀ o ∈ orbits, o.Physical)
    (u1 u2 B : ℝ) (h : PhysicalLaw u1 u2) (hB : NotBrighterThan u1 u2 B) (r : Tensor ℝ) (hr : r.size = orbits.length)
    (hr0 : ∀ p < orbits.length, 0 < r.get (Tensor.unravel r.shape p))
    (ha : ∀ p (h : p < orbits.length), R + r.get (Tensor.unravel r.shape p) < orbits[p].a * (1 - orbits[p].eccVal))
    (oversample order : ℤ) (num_planets : Option ℤ) (test_value : Option ℕ)
    (hnp : numPlanets num_planets test_value = .ok orbits.length) (num_phase : ℕ) (ts : List ℝ) :
    ∃ L, interpolatedLightCurve num_phase num_planets test_value (orbits.map fun o => (o.t0, o.period))
        (fun xs => (LimbDark.new u1 u2).getLightCurve (some (keplerApi C cp orbits R)) (some r) (some (Tensor.ofList xs 0)) none
          oversample order (some false)) ts = .ok L ∧ L.shape = [ts.length, orbits.length] ∧
      ∀ i p (hi : i < ts.length) (hp : p < orbits.length), |L.get [i, p] -
        fluxAt (getCl u1 u2) R (r.get (Tensor.unravel r.shape p)) (orbits[p].relativePosition C ts[i])| ≤
          5 / 2 * (orbits[p].fluxRate u1 u2 B (r.get (Tensor.unravel r.shape p)) * (orbits[p].period / (num_phase + 1))) := by
  have hbase := C43_base (LimbDark.new u1 u2) (keplerApi C cp orbits R) false _ rfl r hr oversample order
  obtain ⟨f, hfdef⟩ : ∃ f : ℕ → ℝ → ℝ, ∀ p s, fluxAt (LimbDark.new u1 u2).c (keplerApi C cp orbits R).r_star
      (r.get (Tensor.unravel r.shape p)) (match orbits[p]? with
        | some o => o.relativePosition C s none false
        | none => ⟨0, 0, 0⟩) = f p s := ⟨_, fun _ _ => rfl⟩
  have hbase' : Pointwise (fun xs => (LimbDark.new u1 u2).getLightCurve (some (keplerApi C cp orbits R)) (some r)
      (some (Tensor.ofList xs 0)) none oversample order (some false)) orbits.length f := by
    intro xs
    obtain ⟨y, h1, h2, h3⟩ := hbase xs
    exact ⟨y, h1, h2, fun i p hi hp => (h3 i p hi hp).trans (hfdef p _)⟩
  have hfv : ∀ p (hpl : p < orbits.length) s, f p s =
      fluxAt (getCl u1 u2) R (r.get (Tensor.unravel r.shape p)) (orbits[p].relativePosition C s) := by
    intro p hpl s
    rw [← hfdef]
    simp only [List.getElem?_eq_getElem hpl]
    rfl
  have hlen : (orbits.map fun o => (o.t0, o.period)).length = orbits.length := List.length_map _
  obtain ⟨F, h1, h2⟩ := C43_interpolant _ (orbits.map fun o => (o.t0, o.period)) f (by rw [hlen]; exact hbase')
    (by
      intro q hq
      obtain ⟨o, ho, rfl⟩ := List.mem_map.1 hq
      exact (hp o ho).period_pos)
    (by simpa using hne) num_phase num_planets test_value (by rw [hlen]; exact hnp)
  obtain ⟨L, g1, g2, g3⟩ := h1 ts
  refine ⟨L, g1, by rw [g2, hlen], fun i p hi hpl => ?_⟩
  rw [g3 i p hi (by rw [hlen]; exact hpl), ← hfv p hpl]
  have hF := h2 p (by rw [hlen]; exact hpl)
  rw [List.getElem_map] at hF
  have hmem := List.getElem_mem hpl
  obtain ⟨A, hA⟩ := hb _ hmem
  have hK := C115_time C A _ hA (hp _ hmem) u1 u2 B (r.get (Tensor.unravel r.shape p)) h hB (hr0 p hpl) (by rw [hR _ hmem]; exact ha p hpl)
  have hK0 := fluxRate_nonneg hA (hp _ hmem) h hB (hr0 p hpl).le
  rw [hR _ hmem] at hK
  simp only [← hfv p hpl] at hK
  have hper : ∀ t, f p (t + orbits[p].period) = f p t := by
    intro t
    have := (C12_periodic C A _ hA (hp _ hmem) t 1 none false none none).2.2.1
    push_cast at this
    rw [one_mul] at this
    rw [hfv p hpl, hfv p hpl, this]
  have := C81_interpolation_error _ (f p) orbits[p].t0 orbits[p].period (num_phase + 1) (hp _ hmem).period_pos (Nat.succ_pos _) hF hper
    (orbits[p].fluxRate u1 u2 B (r.get (Tensor.unravel r.shape p)) * (2 * (orbits[p].period / (num_phase + 1 : ℕ))))
    (fun s s' hs => (hK s s').trans (mul_le_mul_of_nonneg_left hs hK0)) ts[i]
  refine this.trans_eq ?_
  push_cast
  ring

/-- The intensity of a star that darkens outwards is at most that of the centre, `1`. -/
theorem C115_centre_brightest (u1 u2 : ℝ) (hd : DarkensOutwards u1 u2) : NotBrighterThan u1 u2 1 := by
  intro μ h0 h1
  have := hd ⟨h0, h1⟩ ⟨zero_le_one, le_rfl⟩ h1
  refine this.trans_eq ?_
  unfold quadLaw
  ring

/-- A planet of a tenth of the stellar radius on a one-day orbit of ten stellar radii around a star with a solar-like law: the flux changes by less
than `4.62` per day, and with the default `oversample = 7` the integration over 15 minutes is within `0.0081` (the depth is `0.0115`). -/
example (C : Consts) (cp : ContactOp) : ∃ o, keplerianInit C plainArgs = .ok o ∧ o.fluxRate 0.3 0.2 1 0.1 < 4.62 ∧
    ∃ L, (LimbDark.new 0.3 0.2).getLightCurve (some (keplerApi C cp [o] 1)) (some (Tensor.scalar 0.1)) (some (Tensor.scalar 0))
        (some (Tensor.scalar 0.0104)) 7 0 (some false) = .ok L ∧
      |L.get [0] - (∫ s in (0 - 0.0104 / 2 : ℝ)..(0 + 0.0104 / 2), fluxAt (getCl 0.3 0.2) 1 0.1 (o.relativePosition C s)) / 0.0104| < 0.0081 := by
  obtain ⟨o, ho, hp, hP, ha, he, hs, ht⟩ := plainArgs_ok C
  have hR : o.r_star = 1 := by
    obtain ⟨o', h', hb'⟩ : ∃ o', keplerianInit C plainArgs = .ok o' ∧ o'.r_star = 1 := ⟨_, rfl, by simp⟩
    rw [ho] at h'; cases h'; exact hb'
  have hev : o.eccVal = 0 := by simp [Orbit.eccVal, he]
  have hrate : o.fluxRate 0.3 0.2 1 0.1 = 4 / (1 - 0.3 / 3 - 0.2 / 6) := by
    have := pi_pos.ne'
    simp only [Orbit.fluxRate, Orbit.topSpeed, stripLight, hR, hP, ha, hev]
    norm_num
    field_simp
    norm_num
  have hrate2 : o.fluxRate 0.3 0.2 1 0.1 < 4.62 := by rw [hrate]; norm_num
  refine ⟨o, ho, hrate2, ?_⟩
  obtain ⟨L, h1, h2, h3⟩ := C115_exposure_kepler C cp [o] 1 (by simp [hR]) (by simpa using ⟨_, ho⟩) (by simpa using hp) 0.3 0.2 1
    (physicalLaw_of_kipping (by norm_num) (by norm_num))
    (C115_centre_brightest _ _ ((darkensOutwards_iff _ _).2 ⟨by norm_num, by norm_num⟩)) (Tensor.scalar 0.1) rfl
    (by intro p _; simp [Tensor.scalar]; norm_num) (by
      intro p hp
      have : p = 0 := by simpa using hp
      subst this
      simp [Tensor.scalar, ha, hev]
      norm_num) 0 (by simp) 7 (by norm_num) 0.0104 (by norm_num) (Tensor.scalar 0)
  refine ⟨L, h1, ?_⟩
  have h4 := h3 [] 0 (by simp) (by simp [InShape, Tensor.scalar])
  simp only [List.nil_append, Tensor.scalar, List.getElem_cons_zero] at h4
  refine h4.trans_lt ?_
  push_cast
  linarith

end Exo
