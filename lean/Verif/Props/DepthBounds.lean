import Verif.Spec.DepthBounds
import Verif.Props.Depth
import Verif.Props.Geometry

/-!
# C92: how well the radius ratio is recovered from the depth of a transit
-/

namespace Exo
open Real MeasureTheory Set

theorem meanBrightness_eq (u1 u2 : ℝ) : meanBrightness u1 u2 = 1 - u1 / 3 - u2 / 6 := by
  unfold meanBrightness
  rw [fluxFrom_disc]
  have := pi_pos
  field_simp

theorem muAt_of_norm (p : ℝ × ℝ) : muAt p = √(1 - √(p.1 ^ 2 + p.2 ^ 2) ^ 2) := by
  unfold muAt
  rw [sq_sqrt (by positivity)]
  congr 1
  ring

/-- The points of the planet are between `b - k` and `b + k` from the centre. -/
theorem norm_of_mem_bodyDisc {b k : ℝ} (hb : 0 ≤ b) {p : ℝ × ℝ} (hp : p ∈ bodyDisc b k) :
    max (b - k) 0 ≤ √(p.1 ^ 2 + p.2 ^ 2) ∧ √(p.1 ^ 2 + p.2 ^ 2) ≤ b + k := by
  have hk : 0 ≤ k := le_trans (sqrt_nonneg _) hp
  rw [mem_bodyDisc hk] at hp
  have hx : |p.1| ≤ √(p.1 ^ 2 + p.2 ^ 2) := abs_le_sqrt (by nlinarith [sq_nonneg p.2])
  have hx' := abs_le.1 hx
  have hn := sqrt_nonneg (p.1 ^ 2 + p.2 ^ 2)
  have hs := sq_sqrt (by positivity : 0 ≤ p.1 ^ 2 + p.2 ^ 2)
  generalize √(p.1 ^ 2 + p.2 ^ 2) = n at *
  constructor
  · refine max_le ?_ hn
    by_contra hc
    push Not at hc
    nlinarith
  · by_contra hc
    push Not at hc
    nlinarith

/-- The brightness does not increase outwards. -/
theorem intensityAt_antitone {u1 u2 : ℝ} (hd : DarkensOutwards u1 u2) {x y : ℝ} (hx : 0 ≤ x) (hxy : x ≤ y) :
    intensityAt u1 u2 y ≤ intensityAt u1 u2 x := by
  unfold intensityAt
  have h1 : ∀ z : ℝ, √(1 - z ^ 2) ∈ Icc (0 : ℝ) 1 := fun z => ⟨sqrt_nonneg _, by rw [sqrt_le_left zero_le_one]; nlinarith [sq_nonneg z]⟩
  exact hd (h1 y) (h1 x) (sqrt_le_sqrt (by nlinarith))

theorem covered_le {u1 u2 : ℝ} (h : PhysicalLaw u1 u2) (hd : DarkensOutwards u1 u2) {b k : ℝ} (hb : 0 ≤ b) (hk : 0 < k) :
    fluxFrom u1 u2 (starDisc ∩ bodyDisc b k) ≤ π * k ^ 2 * intensityAt u1 u2 (max (b - k) 0) := by
  have hfin : volume (bodyDisc b k) ≠ ⊤ := by
    intro hc
    have := volume_bodyDisc (b := b) hk
    rw [measureReal_def, hc] at this
    simp at this
    exact absurd this.symm (by have := pi_pos; positivity)
  have hm := (measurableSet_starDisc.inter (measurableSet_bodyDisc b k))
  have hfin' : volume (starDisc ∩ bodyDisc b k) ≠ ⊤ := ne_top_of_le_ne_top hfin (measure_mono inter_subset_right)
  have hI0 : 0 ≤ intensityAt u1 u2 (max (b - k) 0) :=
    h.1 _ (sqrt_nonneg _) (by rw [sqrt_le_left zero_le_one]; nlinarith [sq_nonneg (max (b - k) 0)])
  have h1 : fluxFrom u1 u2 (starDisc ∩ bodyDisc b k) ≤ ∫ _ in starDisc ∩ bodyDisc b k, intensityAt u1 u2 (max (b - k) 0) := by
    refine setIntegral_mono_on (integrableOn_disc (continuous_law u1 u2) inter_subset_left) (integrableOn_const hfin') hm fun p hp => ?_
    rw [muAt_of_norm]
    exact intensityAt_antitone hd (le_max_right _ _) (norm_of_mem_bodyDisc hb hp.2).1
  rw [setIntegral_const, smul_eq_mul] at h1
  have h2 : volume.real (starDisc ∩ bodyDisc b k) ≤ π * k ^ 2 := by
    rw [← volume_bodyDisc (b := b) hk]
    exact measureReal_mono inter_subset_right hfin
  exact h1.trans (mul_le_mul_of_nonneg_right h2 hI0)

theorem le_covered {u1 u2 : ℝ} (hd : DarkensOutwards u1 u2) {b k : ℝ} (hb : 0 ≤ b) (hk : 0 < k) (hin : b + k ≤ 1) :
    π * k ^ 2 * intensityAt u1 u2 (b + k) ≤ fluxFrom u1 u2 (starDisc ∩ bodyDisc b k) := by
  have hsub : bodyDisc b k ⊆ starDisc := bodyDisc_subset (by rw [abs_of_nonneg hb]; exact hin)
  rw [inter_eq_self_of_subset_right hsub]
  have hfin : volume (bodyDisc b k) ≠ ⊤ := ne_top_of_le_ne_top isCompact_starDisc.measure_ne_top (measure_mono hsub)
  have h1 : ∫ _ in bodyDisc b k, intensityAt u1 u2 (b + k) ≤ fluxFrom u1 u2 (bodyDisc b k) := by
    refine setIntegral_mono_on (integrableOn_const hfin) (integrableOn_disc (continuous_law u1 u2) hsub) (measurableSet_bodyDisc b k)
      fun p hp => ?_
    rw [muAt_of_norm]
    exact intensityAt_antitone hd (sqrt_nonneg _) (norm_of_mem_bodyDisc hb hp).2
  rwa [setIntegral_const, smul_eq_mul, volume_bodyDisc hk] at h1

/-- **C92** (depth): the depth of a transit is the area of the planet times the mean brightness under it, which is between those at the
nearest and the furthest point from the centre of the star. The upper bound holds for grazing transits too. -/
theorem C92_depth (u1 u2 b k z : ℝ) (h : PhysicalLaw u1 u2) (hd : DarkensOutwards u1 u2) (hb : 0 ≤ b) (hk : 0 < k) (hz : 0 < z) :
    -computeLightCurve (getCl u1 u2) b k (some z) ≤ k ^ 2 * intensityAt u1 u2 (max (b - k) 0) / meanBrightness u1 u2 ∧
    (b + k ≤ 1 → k ^ 2 * intensityAt u1 u2 (b + k) / meanBrightness u1 u2 ≤ -computeLightCurve (getCl u1 u2) b k (some z)) := by
  have hpi := pi_pos
  have hm : 0 < fluxFrom u1 u2 starDisc := h.pos
  have e : -computeLightCurve (getCl u1 u2) b k (some z) = fluxFrom u1 u2 (starDisc ∩ bodyDisc b k) / fluxFrom u1 u2 starDisc := by
    unfold computeLightCurve
    simp only [Option.getD_some]
    rw [if_pos hz, quadLc_covered u1 u2 b k h.pos.ne', neg_neg]
  have e2 : ∀ v, k ^ 2 * v / meanBrightness u1 u2 = π * k ^ 2 * v / fluxFrom u1 u2 starDisc := by
    intro v
    unfold meanBrightness
    field_simp
  rw [e, e2, e2]
  exact ⟨div_le_div_of_nonneg_right (covered_le h hd hb hk) hm.le, fun hin => div_le_div_of_nonneg_right (le_covered hd hb hk hin) hm.le⟩

/-- `get_ror_from_approx_transit_depth` in terms of the brightness. -/
theorem rorFromDepth_eq (u1 u2 delta b : ℝ) : ((LimbDark.new u1 u2).rorFromDepth delta b).1 =
    √(delta * (meanBrightness u1 u2 / intensityAt u1 u2 b)) := by
  unfold LimbDark.rorFromDepth LimbDark.new intensityAt quadLaw
  simp only
  rw [meanBrightness_eq]
  congr 3
  ring

/-- **C92** (recovery): given the true depth and impact parameter, `get_ror_from_approx_transit_depth` returns the true radius ratio times
the square root of a ratio of brightnesses within the planet's silhouette. -/
theorem C92_recovery (u1 u2 b k z : ℝ) (h : PhysicalLaw u1 u2) (hd : DarkensOutwards u1 u2) (hb : 0 ≤ b) (hk : 0 < k) (hz : 0 < z)
    (hI : 0 < intensityAt u1 u2 b) :
    ((LimbDark.new u1 u2).rorFromDepth (-computeLightCurve (getCl u1 u2) b k (some z)) b).1 ≤
      k * √(intensityAt u1 u2 (max (b - k) 0) / intensityAt u1 u2 b) ∧
    (b + k ≤ 1 → k * √(intensityAt u1 u2 (b + k) / intensityAt u1 u2 b) ≤
      ((LimbDark.new u1 u2).rorFromDepth (-computeLightCurve (getCl u1 u2) b k (some z)) b).1) := by
  have hm : 0 < meanBrightness u1 u2 := div_pos h.pos pi_pos
  obtain ⟨h1, h2⟩ := C92_depth u1 u2 b k z h hd hb hk hz
  have e : ∀ v, k * √(v / intensityAt u1 u2 b) = √(k ^ 2 * v / meanBrightness u1 u2 * (meanBrightness u1 u2 / intensityAt u1 u2 b)) := by
    intro v
    rw [show k ^ 2 * v / meanBrightness u1 u2 * (meanBrightness u1 u2 / intensityAt u1 u2 b) = k ^ 2 * (v / intensityAt u1 u2 b) by
      field_simp, sqrt_mul (by positivity), sqrt_sq hk.le]
  rw [rorFromDepth_eq, e, e]
  exact ⟨sqrt_le_sqrt (mul_le_mul_of_nonneg_right h1 (by positivity)),
    fun hin => sqrt_le_sqrt (mul_le_mul_of_nonneg_right (h2 hin) (by positivity))⟩

/-- **C92** (central transits): the estimate is never too large and at most by a relative error of the order of the depth too small. -/
theorem C92_central (u1 u2 k z : ℝ) (h : PhysicalLaw u1 u2) (hd : DarkensOutwards u1 u2) (hk : 0 < k) (hk1 : k ≤ 1) (hz : 0 < z) :
    ((LimbDark.new u1 u2).rorFromDepth (-computeLightCurve (getCl u1 u2) 0 k (some z)) 0).1 ≤ k ∧
    k * √(1 - (u1 + max u2 0) * k ^ 2) ≤
      ((LimbDark.new u1 u2).rorFromDepth (-computeLightCurve (getCl u1 u2) 0 k (some z)) 0).1 := by
  have hI : intensityAt u1 u2 0 = 1 := by simp [intensityAt, quadLaw]
  obtain ⟨h1, h2⟩ := C92_recovery u1 u2 0 k z h hd le_rfl hk hz (by rw [hI]; exact one_pos)
  rw [hI] at h1 h2
  constructor
  · rw [max_eq_right (by linarith), hI] at h1
    simpa using h1
  · refine le_trans ?_ (h2 (by linarith))
    refine mul_le_mul_of_nonneg_left (sqrt_le_sqrt ?_) hk.le
    rw [div_one, zero_add]
    unfold intensityAt quadLaw
    obtain ⟨hu1, -⟩ := (darkensOutwards_iff u1 u2).1 hd
    have hs0 := sqrt_nonneg (1 - k ^ 2)
    have hss := sq_sqrt (by nlinarith : 0 ≤ 1 - k ^ 2)
    have hs1 : √(1 - k ^ 2) ≤ 1 := by rw [sqrt_le_left zero_le_one]; nlinarith [sq_nonneg k]
    generalize √(1 - k ^ 2) = s at *
    have ha : 1 - s ≤ k ^ 2 := by nlinarith
    have ha0 : 0 ≤ 1 - s := by linarith
    have hsq : (1 - s) ^ 2 ≤ k ^ 2 := by nlinarith
    have hm1 : u2 * (1 - s) ^ 2 ≤ max u2 0 * k ^ 2 :=
      (mul_le_mul_of_nonneg_right (le_max_left u2 0) (sq_nonneg _)).trans (mul_le_mul_of_nonneg_left hsq (le_max_right _ _))
    have hm2 := mul_le_mul_of_nonneg_left ha hu1
    linarith

/-- **C92** (uniform star): the estimate is exact while the planet is inside the stellar disc. -/
theorem C92_uniform (b k z : ℝ) (hb : |b| + k ≤ 1) (hk : 0 < k) (hz : 0 < z) :
    ((LimbDark.new 0 0).rorFromDepth (-computeLightCurve (getCl 0 0) b k (some z)) b).1 = k := by
  rw [C37_uniform b k z hk hb hz, rorFromDepth_eq, meanBrightness_eq]
  simp [intensityAt, quadLaw, sqrt_sq hk.le]

/-- **C92** (light curves): the depth read off a light curve in the middle of a transit and the impact parameter of the orbit give back the
radius ratio. -/
theorem C92_mid_transit (C : Consts) (cp : ContactOp) (A : Args) (o : Orbit) (ho : keplerianInit C A = .ok o) (hp : o.Physical) (hr : o.Regular)
    (hi : 0 < o.sin_incl) (u1 u2 k : ℝ) (h : PhysicalLaw u1 u2) (hd : DarkensOutwards u1 u2) (hk : 0 < k) (hI : 0 < intensityAt u1 u2 |o.b|)
    (r t : Tensor ℝ) (hrs : r.size = 1) (hrk : r.get (Tensor.unravel r.shape 0) = k * o.r_star) (oversample order : ℤ) :
    ∃ L, (LimbDark.new u1 u2).getLightCurve (some (keplerApi C cp [o] o.r_star)) (some r) (some t) none oversample order (some false) = .ok L ∧
      ∀ i (j : ℤ), InShape i t.shape → t.get i = o.t0 + j * o.period →
        ((LimbDark.new u1 u2).rorFromDepth (-L.get (i ++ [0])) o.b).1 ≤ k * √(intensityAt u1 u2 (max (|o.b| - k) 0) / intensityAt u1 u2 |o.b|) ∧
        (|o.b| + k ≤ 1 → k * √(intensityAt u1 u2 (|o.b| + k) / intensityAt u1 u2 |o.b|) ≤
          ((LimbDark.new u1 u2).rorFromDepth (-L.get (i ++ [0])) o.b).1) := by
  obtain ⟨L, h1, h2, h3⟩ := C39_values (LimbDark.new u1 u2) (keplerApi C cp [o] o.r_star) false _ rfl r t hrs oversample order
  refine ⟨L, h1, fun i j hi' ht => ?_⟩
  have hR := hp.r_star_pos
  have B := built_of_init ho
  have e : o.relativePosition C (o.t0 + j * o.period) = o.relativePosition C o.t0 := by
    change o.positionNow C (-o.a) (o.t0 + j * o.period) none = o.positionNow C (-o.a) o.t0 none
    unfold Orbit.positionNow
    rw [B.trueAnomaly_add_period hp]
  have hz := (C06_t0_is_transit_partial C A o ho hp hr hi j).2
  have hs := C05_separation_at_t0_partial C A o ho hp hr
  rw [e] at hz
  have hflux : L.get (i ++ [0]) = computeLightCurve (getCl u1 u2) |o.b| k (some ((o.relativePosition C o.t0).z / o.r_star)) := by
    rw [h3 i 0 hi' Nat.zero_lt_one]
    show fluxAt (getCl u1 u2) o.r_star (r.get (Tensor.unravel r.shape 0)) (o.relativePosition C (t.get i)) = _
    rw [ht, e, hrk]
    unfold fluxAt
    rw [hs, mul_div_assoc, mul_div_assoc, div_self hR.ne', mul_one, mul_one]
  have hb : ∀ delta, ((LimbDark.new u1 u2).rorFromDepth delta o.b).1 = ((LimbDark.new u1 u2).rorFromDepth delta |o.b|).1 := by
    intro delta
    rw [rorFromDepth_eq, rorFromDepth_eq]
    unfold intensityAt
    rw [sq_abs]
  rw [hflux, hb]
  exact C92_recovery u1 u2 |o.b| k _ h hd (abs_nonneg _) hk (div_pos hz hR) hI

/-- Hypotheses of C92. -/
example (C : Consts) : PhysicalLaw 0.3 0.2 ∧ DarkensOutwards 0.3 0.2 ∧ ∃ o, keplerianInit C demoCirc = .ok o ∧ o.Physical ∧ o.Regular ∧
    0 < o.sin_incl ∧ 0 < intensityAt 0.3 0.2 |o.b| ∧ |o.b| + 1 / 10 ≤ 1 := by
  obtain ⟨o, h1, h2, h3, h4, -, -, -, -, h5⟩ := demoCirc_transits C
  refine ⟨physicalLaw_of_kipping (by norm_num) (by norm_num), (darkensOutwards_iff _ _).2 ⟨by norm_num, by norm_num⟩, o, h1, h2, ?_, h4, ?_, ?_⟩
  · intro p hp
    rw [h3] at hp
    cases hp
  · unfold intensityAt quadLaw
    have := sqrt_nonneg (1 - |o.b| ^ 2)
    have h1 : √(1 - |o.b| ^ 2) ≤ 1 := by rw [sqrt_le_left zero_le_one]; nlinarith [sq_nonneg |o.b|]
    nlinarith
  · rw [h5]
    norm_num [abs_of_pos]

/-- The bounds of `C92_central` differ. -/
example : (1 / 10 : ℝ) * √(1 - (0.3 + max 0.2 0) * (1 / 10) ^ 2) < 1 / 10 := by
  have h : √(1 - (0.3 + max 0.2 0) * (1 / 10) ^ 2 : ℝ) < 1 := by
    rw [sqrt_lt' one_pos, max_eq_left (by norm_num)]
    norm_num
  linarith

end Exo
