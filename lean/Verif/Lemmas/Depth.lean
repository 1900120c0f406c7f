import Mathlib.MeasureTheory.Measure.Haar.Unique
import Mathlib.MeasureTheory.Measure.Lebesgue.EqHaar
import Verif.Lemmas.LimbDark
import Verif.Spec.Depth

/-!
# A disc nearer to the centre covers more of a function that decreases outwards

The proof reflects the sky at the line half way between the two centres.
-/

namespace Exo
open Real MeasureTheory Set

/-- The reflection at the line `x = m`. -/
def reflectAt (m : ℝ) (p : ℝ × ℝ) : ℝ × ℝ := (2 * m - p.1, p.2)

theorem reflectAt_reflectAt (m : ℝ) (p : ℝ × ℝ) : reflectAt m (reflectAt m p) = p := by
  simp [reflectAt]

theorem reflectAt_measurePreserving (m : ℝ) : MeasurePreserving (reflectAt m) := by
  have h1 : MeasurePreserving (fun x : ℝ => 2 * m - x) := by
    have := (Measure.measurePreserving_sub_left (volume : Measure ℝ) (2 * m))
    exact this
  exact h1.prod (MeasurePreserving.id volume)

theorem reflectAt_measurableEmbedding (m : ℝ) : MeasurableEmbedding (reflectAt m) := by
  have hm : Measurable (reflectAt m) := (reflectAt_measurePreserving m).measurable
  exact (MeasurableEquiv.mk ⟨reflectAt m, reflectAt m, reflectAt_reflectAt m, reflectAt_reflectAt m⟩ hm hm).measurableEmbedding

/-- The covered part of a function that decreases with the distance from the origin. -/
theorem covered_antitone {G : ℝ × ℝ → ℝ} (hG : Integrable G)
    (hdec : ∀ p q : ℝ × ℝ, q.1 ^ 2 + q.2 ^ 2 ≤ p.1 ^ 2 + p.2 ^ 2 → G p ≤ G q) {b b' : ℝ} (h0 : 0 ≤ b) (hb : b ≤ b') (r : ℝ) :
    ∫ p in bodyDisc b' r, G p ≤ ∫ p in bodyDisc b r, G p := by
  rcases hb.eq_or_lt with rfl | hlt
  · exact le_rfl
  have hA := measurableSet_bodyDisc b r
  have hA' := measurableSet_bodyDisc b' r
  set m := (b + b') / 2 with hm
  have e1 := integral_inter_add_sdiff (μ := volume) (f := G) (s := bodyDisc b' r) hA hG.integrableOn
  have e2 := integral_inter_add_sdiff (μ := volume) (f := G) (s := bodyDisc b r) hA' hG.integrableOn
  have hpre : reflectAt m ⁻¹' (bodyDisc b r \ bodyDisc b' r) = bodyDisc b' r \ bodyDisc b r := by
    ext ⟨x, y⟩
    simp only [mem_preimage, mem_sdiff, reflectAt, bodyDisc, mem_ofPred_eq]
    rw [show 2 * m - x - b = -(x - b') by rw [hm]; ring, show 2 * m - x - b' = -(x - b) by rw [hm]; ring, neg_sq, neg_sq]
  have e3 := (reflectAt_measurePreserving m).setIntegral_preimage_emb (reflectAt_measurableEmbedding m) G (bodyDisc b r \ bodyDisc b' r)
  rw [hpre] at e3
  have hGr : Integrable (fun p => G (reflectAt m p)) :=
    (reflectAt_measurePreserving m).integrable_comp_of_integrable hG
  have e4 : ∫ p in bodyDisc b' r \ bodyDisc b r, G p ≤ ∫ p in bodyDisc b' r \ bodyDisc b r, G (reflectAt m p) := by
    refine setIntegral_mono_on hG.integrableOn hGr.integrableOn (hA'.diff hA) fun p hp => hdec _ _ ?_
    obtain ⟨x, y⟩ := p
    simp only [mem_sdiff, bodyDisc, mem_ofPred_eq, not_le] at hp
    have h1 : √((x - b') ^ 2 + y ^ 2) < √((x - b) ^ 2 + y ^ 2) := lt_of_le_of_lt hp.1 hp.2
    have h2 := (sqrt_lt_sqrt_iff (by positivity)).1 h1
    have h3 : m < x := by rw [hm]; nlinarith
    have h4 : 0 ≤ m := by rw [hm]; linarith
    simp only [reflectAt]
    nlinarith
  rw [inter_comm] at e1
  linarith

/-- The indicator of the star times the law decreases outwards. -/
theorem law_decreases {u1 u2 : ℝ} (h : PhysicalLaw u1 u2) (hd : DarkensOutwards u1 u2) (p q : ℝ × ℝ)
    (hpq : q.1 ^ 2 + q.2 ^ 2 ≤ p.1 ^ 2 + p.2 ^ 2) :
    starDisc.indicator (fun p => quadLaw u1 u2 (muAt p)) p ≤ starDisc.indicator (fun p => quadLaw u1 u2 (muAt p)) q := by
  by_cases hp : p ∈ starDisc
  · have hq : q ∈ starDisc := by
      simp only [starDisc, mem_ofPred_eq] at hp ⊢
      linarith
    rw [indicator_of_mem hp, indicator_of_mem hq]
    refine hd ⟨muAt_nonneg p, muAt_le_one p⟩ ⟨muAt_nonneg q, muAt_le_one q⟩ ?_
    unfold muAt
    exact sqrt_le_sqrt (by linarith)
  · rw [indicator_of_notMem hp]
    exact indicator_nonneg (fun q _ => h.1 _ (muAt_nonneg q) (muAt_le_one q)) q

/-- The covered flux does not increase with the distance. -/
theorem fluxFrom_antitone {u1 u2 : ℝ} (h : PhysicalLaw u1 u2) (hd : DarkensOutwards u1 u2) {b b' : ℝ} (h0 : 0 ≤ b) (hb : b ≤ b') (r : ℝ) :
    fluxFrom u1 u2 (starDisc ∩ bodyDisc b' r) ≤ fluxFrom u1 u2 (starDisc ∩ bodyDisc b r) := by
  have hG : Integrable (starDisc.indicator fun p => quadLaw u1 u2 (muAt p)) :=
    (integrable_indicator_iff measurableSet_starDisc).2 (integrableOn_disc (continuous_law u1 u2) subset_rfl)
  have := covered_antitone hG (law_decreases h hd) h0 hb r
  rw [setIntegral_indicator measurableSet_starDisc, setIntegral_indicator measurableSet_starDisc, inter_comm, inter_comm (bodyDisc b r)] at this
  exact this

end Exo
