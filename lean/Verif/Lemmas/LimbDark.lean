import Verif.Lemmas.Disc
import Mathlib.MeasureTheory.Measure.Lebesgue.EqHaar
import Mathlib.Tactic.NormNum

/-!
# Lemmas on the limb-darkened flux
-/

namespace Exo
open Real MeasureTheory Set Pointwise

theorem continuous_law (u1 u2 : ℝ) : Continuous fun p => quadLaw u1 u2 (muAt p) := by
  unfold quadLaw
  have := continuous_muAt
  fun_prop

theorem muAt_nonneg (p : ℝ × ℝ) : 0 ≤ muAt p := sqrt_nonneg _
theorem muAt_le_one (p : ℝ × ℝ) : muAt p ≤ 1 := by
  unfold muAt
  rw [sqrt_le_left zero_le_one]
  nlinarith [sq_nonneg p.1, sq_nonneg p.2]

/-- The three integrals combine to the flux from a region. -/
theorem fluxFrom_eq (u1 u2 : ℝ) {S : Set (ℝ × ℝ)} (hS : S ⊆ starDisc) :
    fluxFrom u1 u2 S = (1 - u1 - 1.5 * u2) * (∫ _ in S, (1 : ℝ)) + (u1 + 2 * u2) * (∫ p in S, muAt p) +
      (-0.25 * u2) * (∫ p in S, (4 * muAt p ^ 2 - 2)) := by
  have hc := continuous_muAt
  rw [← integral_const_mul, ← integral_const_mul, ← integral_const_mul, ← integral_add, ← integral_add]
  · unfold fluxFrom
    congr 1
    ext p
    unfold quadLaw
    ring
  · exact integrableOn_disc (by fun_prop) hS
  · exact integrableOn_disc (by fun_prop) hS
  · exact integrableOn_disc (by fun_prop) hS
  · exact integrableOn_disc (by fun_prop) hS

theorem fluxFrom_disc (u1 u2 : ℝ) : fluxFrom u1 u2 starDisc = π * (1 - u1 / 3 - u2 / 6) := by
  rw [fluxFrom_eq u1 u2 subset_rfl, integral_disc_one, integral_disc_mu, integral_disc_mu_sq]
  ring

theorem quadLc_eq (u1 u2 b r : ℝ) :
    quadLimbdarkLightCurve (getCl u1 u2) b r =
      fluxFrom u1 u2 (starDisc \ bodyDisc b r) / fluxFrom u1 u2 starDisc - 1 := by
  have hn : π * ((1 - u1 - 1.5 * u2) + (u1 + 2 * u2) / 1.5) = fluxFrom u1 u2 starDisc := by
    rw [fluxFrom_disc]; ring
  unfold quadLimbdarkLightCurve getCl quadSolutionVector
  simp only
  rw [hn, fluxFrom_eq u1 u2 (sdiff_subset (s := starDisc) (t := bodyDisc b r))]
  ring

theorem fluxFrom_diff (u1 u2 : ℝ) {T : Set (ℝ × ℝ)} (hT : MeasurableSet T) :
    fluxFrom u1 u2 (starDisc \ T) = fluxFrom u1 u2 starDisc - fluxFrom u1 u2 (starDisc ∩ T) := by
  have h := integral_inter_add_sdiff (μ := volume) (f := fun p => quadLaw u1 u2 (muAt p)) (s := starDisc) hT
    (integrableOn_disc (continuous_law u1 u2) subset_rfl)
  unfold fluxFrom
  linarith

/-- The model flux is minus the fraction of the light that is covered. -/
theorem quadLc_covered (u1 u2 b r : ℝ) (h : fluxFrom u1 u2 starDisc ≠ 0) :
    quadLimbdarkLightCurve (getCl u1 u2) b r =
      -(fluxFrom u1 u2 (starDisc ∩ bodyDisc b r) / fluxFrom u1 u2 starDisc) := by
  rw [quadLc_eq u1 u2 b r, fluxFrom_diff u1 u2 (measurableSet_bodyDisc b r)]
  field_simp
  ring

theorem fluxFrom_nonneg {u1 u2 : ℝ} (h : PhysicalLaw u1 u2) {S : Set (ℝ × ℝ)} : 0 ≤ fluxFrom u1 u2 S :=
  integral_nonneg fun p => h.1 _ (muAt_nonneg p) (muAt_le_one p)

theorem fluxFrom_mono {u1 u2 : ℝ} (h : PhysicalLaw u1 u2) {S T : Set (ℝ × ℝ)} (hST : S ⊆ T) (hT : T ⊆ starDisc) :
    fluxFrom u1 u2 S ≤ fluxFrom u1 u2 T :=
  setIntegral_mono_set (integrableOn_disc (continuous_law u1 u2) hT)
    (Filter.Eventually.of_forall fun p => h.1 _ (muAt_nonneg p) (muAt_le_one p)) hST.eventuallyLE

theorem PhysicalLaw.pos {u1 u2 : ℝ} (h : PhysicalLaw u1 u2) : 0 < fluxFrom u1 u2 starDisc := by
  rw [fluxFrom_disc]; exact mul_pos pi_pos h.2

theorem bodyDisc_mono (b : ℝ) {r r' : ℝ} (h : r ≤ r') : bodyDisc b r ⊆ bodyDisc b r' := fun _ hp => le_trans hp h

theorem mem_bodyDisc {b r : ℝ} {p : ℝ × ℝ} (hr : 0 ≤ r) : p ∈ bodyDisc b r ↔ (p.1 - b) ^ 2 + p.2 ^ 2 ≤ r ^ 2 :=
  sqrt_le_left hr

/-- Discs that do not overlap (touching allowed). -/
theorem fluxFrom_apart (u1 u2 : ℝ) {b r : ℝ} (h : 1 + r ≤ b) : fluxFrom u1 u2 (starDisc ∩ bodyDisc b r) = 0 := by
  have hsub : starDisc ∩ bodyDisc b r ⊆ {((1 : ℝ), (0 : ℝ))} := by
    rintro ⟨x, y⟩ ⟨h1, h2⟩
    have hr : 0 ≤ r := le_trans (sqrt_nonneg _) h2
    rw [mem_bodyDisc hr] at h2
    simp only [starDisc, mem_ofPred_eq] at h1 h2
    have hx1 : x ≤ 1 := by nlinarith [sq_nonneg y]
    have hx2 : b - x ≤ r := by
      refine le_trans (le_abs_self _) (abs_le_of_sq_le_sq (b := r) ?_ hr)
      nlinarith [sq_nonneg y]
    have hx : x = 1 := by linarith
    subst hx
    have hy : y = 0 := by nlinarith [sq_nonneg y]
    simp [hy]
  unfold fluxFrom
  have h0 : volume (starDisc ∩ bodyDisc b r) = 0 := measure_mono_null hsub (measure_singleton _)
  rw [Measure.restrict_eq_zero.2 h0, integral_zero_measure]

theorem bodyDisc_covers {b r : ℝ} (h : |b| + 1 ≤ r) : starDisc ⊆ bodyDisc b r := by
  rintro ⟨x, y⟩ h1
  have hr : 0 ≤ r := by linarith [abs_nonneg b]
  rw [mem_bodyDisc hr]
  simp only [starDisc, mem_ofPred_eq] at h1 ⊢
  have hx : |x| ≤ 1 := by
    apply abs_le_of_sq_le_sq <;> nlinarith [sq_nonneg y]
  have hb := sq_abs b
  have h3 : -(x * b) ≤ |b| := by
    calc -(x * b) ≤ |x * b| := neg_le_abs _
      _ = |x| * |b| := abs_mul _ _
      _ ≤ 1 * |b| := by gcongr
      _ = |b| := one_mul _
  nlinarith [abs_nonneg b]

theorem volume_starDisc : volume starDisc = ENNReal.ofReal π := by
  have h := integral_disc_one
  rw [setIntegral_const, smul_eq_mul, mul_one] at h
  rw [← h, measureReal_def, ENNReal.ofReal_toReal]
  exact isCompact_starDisc.measure_ne_top

/-- The area of a disc. -/
theorem volume_bodyDisc {b r : ℝ} (hr : 0 < r) : volume.real (bodyDisc b r) = π * r ^ 2 := by
  have h : bodyDisc b r = (fun p => p + (b, (0 : ℝ))) '' (r • starDisc) := by
    ext ⟨x, y⟩
    rw [mem_bodyDisc hr.le]
    simp only [mem_image, mem_smul_set, starDisc, mem_ofPred_eq]
    constructor
    · intro h
      refine ⟨(x - b, y), ⟨((x - b) / r, y / r), ?_, ?_⟩, ?_⟩
      · simp only
        rw [div_pow, div_pow, ← add_div, div_le_one (by positivity)]
        exact h
      · ext <;> simp <;> field_simp
      · ext <;> simp
    · rintro ⟨_, ⟨⟨x', y'⟩, h1, rfl⟩, h2⟩
      simp only [Prod.smul_mk, smul_eq_mul, Prod.mk_add_mk, add_zero, Prod.mk.injEq] at h2
      obtain ⟨rfl, rfl⟩ := h2
      simp only at h1 ⊢
      nlinarith [sq_nonneg r]
  rw [h, measureReal_def]
  have h2 : volume ((fun p => p + (b, (0 : ℝ))) '' (r • starDisc)) = volume (r • starDisc) := by
    rw [image_add_right, measure_preimage_add_right]
  rw [h2, Measure.addHaar_smul, volume_starDisc]
  simp
  rw [ENNReal.toReal_ofReal pi_pos.le, ENNReal.toReal_ofReal (sq_nonneg r)]
  ring

theorem bodyDisc_subset {b r : ℝ} (h : |b| + r ≤ 1) : bodyDisc b r ⊆ starDisc := by
  rintro ⟨x, y⟩ h1
  have hr : 0 ≤ r := le_trans (sqrt_nonneg _) h1
  rw [mem_bodyDisc hr] at h1
  simp only [starDisc, mem_ofPred_eq] at h1 ⊢
  have hx : |x - b| ≤ r := by
    apply abs_le_of_sq_le_sq <;> nlinarith [sq_nonneg y]
  have hb := sq_abs b
  have h3 : (x - b) * b ≤ r * |b| := by
    calc (x - b) * b ≤ |(x - b) * b| := le_abs_self _
      _ = |x - b| * |b| := abs_mul _ _
      _ ≤ r * |b| := by gcongr
  nlinarith [abs_nonneg b]

/-- The light covered by a small body. -/
theorem flux_small (u1 u2 : ℝ) {b : ℝ} (hb : |b| < 1) :
    Filter.Tendsto (fun r => fluxFrom u1 u2 (starDisc ∩ bodyDisc b r) / r ^ 2) (nhdsWithin 0 (Ioi 0))
      (nhds (π * quadLaw u1 u2 √(1 - b ^ 2))) := by
  have hI : quadLaw u1 u2 √(1 - b ^ 2) = quadLaw u1 u2 (muAt (b, 0)) := by simp [muAt]
  rw [hI, Metric.tendsto_nhdsWithin_nhds]
  intro ε hε
  have hc := (continuous_law u1 u2).continuousAt (x := (b, (0 : ℝ)))
  rw [Metric.continuousAt_iff] at hc
  obtain ⟨δ, hδ, hc⟩ := hc (ε / 4 / π) (by have := pi_pos; positivity)
  refine ⟨min (δ / 2) (1 - |b|), lt_min (by linarith) (by linarith), fun {r} hr hr' => ?_⟩
  have hr0 : 0 < r := hr
  rw [dist_zero_right, norm_eq_abs, abs_of_pos hr0, lt_min_iff] at hr'
  have hsub : bodyDisc b r ⊆ starDisc := bodyDisc_subset (by linarith [hr'.2])
  rw [inter_eq_self_of_subset_right hsub]
  have hvol := volume_bodyDisc (b := b) hr0
  have hfin : volume (bodyDisc b r) < ⊤ := (measure_mono hsub).trans_lt isCompact_starDisc.measure_lt_top
  have hpi := pi_pos
  have h1 : fluxFrom u1 u2 (bodyDisc b r) - π * quadLaw u1 u2 (muAt (b, 0)) * r ^ 2 =
      ∫ p in bodyDisc b r, (quadLaw u1 u2 (muAt p) - quadLaw u1 u2 (muAt (b, 0))) := by
    rw [integral_sub, setIntegral_const, hvol]
    · unfold fluxFrom
      simp only [smul_eq_mul]; ring
    · exact integrableOn_disc (continuous_law u1 u2) hsub
    · exact integrableOn_disc continuous_const hsub
  have h2 : ‖∫ p in bodyDisc b r, (quadLaw u1 u2 (muAt p) - quadLaw u1 u2 (muAt (b, 0)))‖ ≤
      ε / 4 / π * volume.real (bodyDisc b r) := by
    apply norm_setIntegral_le_of_norm_le_const hfin
    rintro ⟨x, y⟩ hp
    rw [mem_bodyDisc hr0.le] at hp
    simp only at hp
    rw [← dist_eq_norm]
    apply le_of_lt
    apply hc
    rw [Prod.dist_eq, max_lt_iff]
    have hx : |x - b| ≤ r := by
      apply abs_le_of_sq_le_sq <;> nlinarith [sq_nonneg y]
    have hy : |y| ≤ r := by
      apply abs_le_of_sq_le_sq <;> nlinarith [sq_nonneg (x - b)]
    simp only [Real.dist_eq, sub_zero]
    constructor <;> linarith
  rw [← h1, hvol, norm_eq_abs] at h2
  rw [Real.dist_eq]
  have h3 : fluxFrom u1 u2 (bodyDisc b r) / r ^ 2 - π * quadLaw u1 u2 (muAt (b, 0)) =
      (fluxFrom u1 u2 (bodyDisc b r) - π * quadLaw u1 u2 (muAt (b, 0)) * r ^ 2) / r ^ 2 := by
    field_simp
  rw [h3, abs_div, abs_of_pos (by positivity : (0 : ℝ) < r ^ 2), div_lt_iff₀ (by positivity)]
  refine lt_of_le_of_lt h2 ?_
  rw [show ε / 4 / π * (π * r ^ 2) = ε / 4 * r ^ 2 by field_simp]
  have : (0 : ℝ) < r ^ 2 := by positivity
  nlinarith

end Exo
