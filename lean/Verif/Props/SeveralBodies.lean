import Verif.Lemmas.SeveralBodies
import Verif.Props.LightCurve
import Verif.Props.LimbDark
import Verif.Props.LightDelay

/-!
# C114 — The sum of the light curves of the planets
-/

namespace Exo
open Real MeasureTheory Set

/-- **C114 (one body).** The flux that `get_light_curve` computes from the distance `b` alone is the light of the part of the star that the disc
of the body covers at its position on the sky. -/
theorem C114_one_body (u1 u2 R r : ℝ) (h : PhysicalLaw u1 u2) (hR : 0 < R) (hr : 0 ≤ r) (v : V3) :
    fluxAt (getCl u1 u2) R r v = fluxFrom u1 u2 (starDisc \ shadow R r v) / fluxFrom u1 u2 starDisc - 1 := by
  rw [fluxAt_eq h.pos.ne' hR hr, fluxFrom_diff u1 u2 (measurableSet_shadow R r v)]
  have := h.pos
  field_simp
  ring

theorem sum_excess (u1 u2 R : ℝ) (h : PhysicalLaw u1 u2) (hR : 0 < R) {n : ℕ} (r : Fin n → ℝ) (hr : ∀ p, 0 ≤ r p) (v : Fin n → V3) :
    jointFlux u1 u2 R r v - ∑ p, fluxAt (getCl u1 u2) R (r p) (v p) =
      (∫ q in starDisc, excess (fun p => shadow R (r p) (v p)) q * quadLaw u1 u2 (muAt q)) / fluxFrom u1 u2 starDisc := by
  have hS : ∀ p, MeasurableSet (shadow R (r p) (v p)) := fun p => measurableSet_shadow _ _ _
  rw [← integral_excess _ _ hS (integrableOn_disc (continuous_law u1 u2) subset_rfl)]
  have h1 : ∑ p, fluxAt (getCl u1 u2) R (r p) (v p) =
      -((∑ p, fluxFrom u1 u2 (starDisc ∩ shadow R (r p) (v p))) / fluxFrom u1 u2 starDisc) := by
    rw [Finset.sum_div, ← Finset.sum_neg_distrib]
    exact Finset.sum_congr rfl fun p _ => fluxAt_eq h.pos.ne' hR (hr p) (v p)
  rw [h1, jointFlux, fluxFrom_diff u1 u2 (MeasurableSet.iUnion hS), sub_div, div_self h.pos.ne', sub_div]
  simp only [fluxFrom]
  ring

/-- **C114 (what holds).** The sum of the light curves is the light lost to all bodies together when no two of them cover a common part of the
star. -/
theorem C114_sum_partial (u1 u2 R : ℝ) (h : PhysicalLaw u1 u2) (hR : 0 < R) {n : ℕ} (r : Fin n → ℝ) (hr : ∀ p, 0 ≤ r p) (v : Fin n → V3)
    (hs : ∀ p q, p ≠ q → ¬ Overlap R (r p) (r q) (v p) (v q)) :
    ∑ p, fluxAt (getCl u1 u2) R (r p) (v p) = jointFlux u1 u2 R r v := by
  have h1 := sum_excess u1 u2 R h hR r hr v
  have h2 : ∀ᵐ q ∂(volume.restrict starDisc), excess (fun p => shadow R (r p) (v p)) q * quadLaw u1 u2 (muAt q) = 0 := by
    have h3 : ∀ p q : Fin n, ∀ᵐ x ∂(volume.restrict starDisc), p ≠ q → x ∉ shadow R (r p) (v p) ∩ shadow R (r q) (v q) := by
      intro p q
      by_cases hpq : p = q
      · exact Filter.Eventually.of_forall fun x hne => absurd hpq hne
      have h4 := not_ne_iff.1 (hs p q hpq)
      have hm := (measurableSet_shadow R (r p) (v p)).inter (measurableSet_shadow R (r q) (v q))
      rw [inter_comm, ← Measure.restrict_apply hm] at h4
      filter_upwards [measure_eq_zero_iff_ae_notMem.1 h4] with x hx _
      exact hx
    have h5 := (ae_all_iff.2 fun p => ae_all_iff.2 fun q => h3 p q)
    filter_upwards [h5] with x hx
    rw [(excess_eq_zero_iff _ x).2 hx, zero_mul]
  rw [integral_eq_zero_of_ae h2, zero_div] at h1
  linarith

/-- Bodies that are further apart on the sky than the sum of their radii do not overlap. -/
theorem C114_separate (R r r' : ℝ) (hR : 0 < R) (hr : 0 ≤ r) (hr' : 0 ≤ r') (v v' : V3)
    (hd : (r + r') ^ 2 < (v.x - v'.x) ^ 2 + (v.y - v'.y) ^ 2) : ¬ Overlap R r r' v v' := by
  unfold Overlap
  rw [not_not]
  have : shadow R r v ∩ shadow R r' v' = ∅ := by
    apply eq_empty_of_forall_notMem
    rintro ⟨x, y⟩ ⟨⟨-, h1⟩, -, h2⟩
    simp only at h1 h2
    have e1 : (R * x - v.x) ^ 2 + (R * y - v.y) ^ 2 ≤ r ^ 2 := by
      have := mul_le_mul_of_nonneg_left h1 (sq_nonneg R)
      have e : R ^ 2 * ((x - v.x / R) ^ 2 + (y - v.y / R) ^ 2) = (R * x - v.x) ^ 2 + (R * y - v.y) ^ 2 := by field_simp
      have e' : R ^ 2 * (r / R) ^ 2 = r ^ 2 := by field_simp
      linarith
    have e2 : (R * x - v'.x) ^ 2 + (R * y - v'.y) ^ 2 ≤ r' ^ 2 := by
      have := mul_le_mul_of_nonneg_left h2 (sq_nonneg R)
      have e : R ^ 2 * ((x - v'.x / R) ^ 2 + (y - v'.y / R) ^ 2) = (R * x - v'.x) ^ 2 + (R * y - v'.y) ^ 2 := by field_simp
      have e' : R ^ 2 * (r' / R) ^ 2 = r' ^ 2 := by field_simp
      linarith
    have e3 := mul_le_mul e1 e2 (by positivity) (by positivity)
    have e4 : |(R * x - v.x) * (R * x - v'.x) + (R * y - v.y) * (R * y - v'.y)| ≤ r * r' := by
      apply abs_le_of_sq_le_sq _ (by positivity)
      nlinarith [sq_nonneg ((R * x - v.x) * (R * y - v'.y) - (R * y - v.y) * (R * x - v'.x))]
    have e5 := (abs_le.1 e4).1
    nlinarith
  rw [this, inter_empty, measure_empty]

/-- **C114 (what holds).** In general the sum of the light curves is not above the light lost to all bodies together, … -/
theorem C114_sum_le (u1 u2 R : ℝ) (h : PhysicalLaw u1 u2) (hR : 0 < R) {n : ℕ} (r : Fin n → ℝ) (hr : ∀ p, 0 ≤ r p) (v : Fin n → V3) :
    ∑ p, fluxAt (getCl u1 u2) R (r p) (v p) ≤ jointFlux u1 u2 R r v := by
  have h1 := sum_excess u1 u2 R h hR r hr v
  have h2 : 0 ≤ ∫ q in starDisc, excess (fun p => shadow R (r p) (v p)) q * quadLaw u1 u2 (muAt q) :=
    integral_nonneg fun q => mul_nonneg (excess_nonneg _ _) (h.1 _ (muAt_nonneg q) (muAt_le_one q))
  have h3 := div_nonneg h2 h.pos.le
  linarith

/-- … and **C114 is false of the code** exactly when bodies overlap in front of the star (for a star that is nowhere dark): the light behind both
is subtracted twice. -/
theorem C114_sum_iff (u1 u2 R : ℝ) (h : ∀ μ, 0 ≤ μ → μ ≤ 1 → 0 < quadLaw u1 u2 μ) (hR : 0 < R) {n : ℕ} (r : Fin n → ℝ)
    (hr : ∀ p, 0 ≤ r p) (v : Fin n → V3) :
    ∑ p, fluxAt (getCl u1 u2) R (r p) (v p) = jointFlux u1 u2 R r v ↔ ∀ p q, p ≠ q → ¬ Overlap R (r p) (r q) (v p) (v q) := by
  have hp : PhysicalLaw u1 u2 := by
    refine ⟨fun μ h0 h1 => (h μ h0 h1).le, ?_⟩
    have h1 := h 1 (by norm_num) (by norm_num)
    have h2 := h (1 / 2) (by norm_num) (by norm_num)
    unfold quadLaw at h1 h2
    linarith
  constructor
  · intro he p q hpq
    unfold Overlap
    rw [not_not]
    have h1 := sum_excess u1 u2 R hp hR r hr v
    rw [he, sub_self, eq_comm, div_eq_zero_iff] at h1
    have hS : ∀ p, MeasurableSet (shadow R (r p) (v p)) := fun p => measurableSet_shadow _ _ _
    have h2 := h1.resolve_right hp.pos.ne'
    rw [integral_eq_zero_iff_of_nonneg (fun q => mul_nonneg (excess_nonneg _ _) (hp.1 _ (muAt_nonneg q) (muAt_le_one q)))
      (integrable_excess _ _ hS (integrableOn_disc (continuous_law u1 u2) subset_rfl))] at h2
    have hm := (hS p).inter (hS q)
    rw [inter_comm, ← Measure.restrict_apply hm, measure_eq_zero_iff_ae_notMem]
    filter_upwards [h2] with x hx
    have h3 := (mul_eq_zero.1 hx).resolve_right (h _ (muAt_nonneg x) (muAt_le_one x)).ne'
    exact (excess_eq_zero_iff _ x).1 h3 p q hpq
  · exact C114_sum_partial u1 u2 R hp hR r hr v

theorem sum_range_map (n : ℕ) (f : ℕ → ℝ) : ((List.range n).map f).sum = ∑ p : Fin n, f p := by
  induction n with
  | zero => simp
  | succ n ih => rw [List.range_succ, List.map_append, List.sum_append, ih, Fin.sum_univ_castSucc]; simp

/-- **C114 (systems).** Summed over the last axis, the light curves of the planets of a system are the light lost to all of them together at the
times at which no two of them overlap in front of the star. -/
theorem C114_system_partial (C : Consts) (cp : ContactOp) (u1 u2 R : ℝ) (h : PhysicalLaw u1 u2) (hR : 0 < R) (orbits : List Orbit)
    (r t : Tensor ℝ) (hr : r.size = orbits.length) (hr0 : ∀ p < orbits.length, 0 ≤ r.get (Tensor.unravel r.shape p)) (ld : Bool)
    (oversample order : ℤ) :
    ∃ L, (LimbDark.new u1 u2).getLightCurve (some (keplerApi C cp orbits R)) (some r) (some t) none oversample order (some false) ld = .ok L ∧
      (L.sumAxis t.ndim).shape = t.shape ∧
      ∀ i, InShape i t.shape →
        (∀ p q : Fin orbits.length, p ≠ q → ¬ Overlap R (r.get (Tensor.unravel r.shape p)) (r.get (Tensor.unravel r.shape q))
          (orbits[p].relativePosition C (t.get i) none ld) (orbits[q].relativePosition C (t.get i) none ld)) →
        (L.sumAxis t.ndim).get i = jointFlux u1 u2 R (fun p : Fin orbits.length => r.get (Tensor.unravel r.shape p))
          (fun p : Fin orbits.length => orbits[p].relativePosition C (t.get i) none ld) := by
  obtain ⟨L, h1, h2, h3⟩ := C39_kepler C cp (LimbDark.new u1 u2) orbits R ld r t hr oversample order
  refine ⟨L, h1, ?_, ?_⟩
  · simp [Tensor.sumAxis, h2, Tensor.ndim, List.eraseIdx_append]
  · intro i hi hs
    have hlen : i.length = t.ndim := hi.length_eq
    rw [← C114_sum_partial u1 u2 R h hR _ (fun p => hr0 p p.2) _ hs]
    have hget : L.shape.getD t.ndim 0 = orbits.length := by simp [h2, Tensor.ndim]
    have hins : ∀ k, i.insertIdx t.ndim k = i ++ [k] := by
      intro k
      rw [← hlen, List.insertIdx_length_self]
    simp only [Tensor.sumAxis, hget, hins, sum_range_map]
    exact Finset.sum_congr rfl fun p _ => h3 i p p.2 hi

/-- Concrete violation of C114: two equal planets of `0.9` stellar radii that cross a uniform star together. The sum is below `-1`: more light is
missing than the star has. -/
theorem C114_counterexample (C : Consts) (cp : ContactOp) : ∃ o, keplerianInit C plainArgs = .ok o ∧ o.Physical ∧
    ∃ L, (LimbDark.new 0 0).getLightCurve (some (keplerApi C cp [o, o] 1)) (some (Tensor.ofList [0.9, 0.9] 0)) (some (Tensor.ofList [0] 0))
        none 7 0 (some false) = .ok L ∧
      (L.sumAxis 1).get [0] = -1.62 ∧
      jointFlux 0 0 1 (fun _ : Fin 2 => 0.9) (fun _ : Fin 2 => o.relativePosition C 0) = -0.81 := by
  obtain ⟨o, h, hp, hP, ha, he, hs, ht⟩ := plainArgs_ok C
  have B := built_of_init h
  have hpos : (o.relativePosition C 0).x = 0 ∧ (o.relativePosition C 0).y = 0 ∧ 0 < (o.relativePosition C 0).z := by
    have hsw : o.sw = 0 := by simp [Orbit.sw, he]
    have hev : o.eccVal = 0 := by simp [Orbit.eccVal, he]
    have hb : o.b = 0 := by
      obtain ⟨o', h', hb'⟩ : ∃ o', keplerianInit C plainArgs = .ok o' ∧ o'.b = 0 := ⟨_, rfl, by simp⟩
      rw [h] at h'; cases h'; exact hb'
    have := B.relativePosition_t0 hp (by rw [hsw]; norm_num)
    rw [ht, hb, hsw, hev, hs, ha] at this
    rw [this]
    norm_num
  obtain ⟨hx, hy, hz⟩ := hpos
  have hlaw : PhysicalLaw 0 0 := physicalLaw_of_kipping (by norm_num) (by norm_num)
  have hflux : fluxAt (LimbDark.new 0 0).c 1 0.9 (o.relativePosition C 0) = -0.81 := by
    unfold fluxAt
    rw [hx, hy]
    simp only [div_one, LimbDark.new]
    rw [show √((0 : ℝ) ^ 2 + 0 ^ 2) = 0 by norm_num, C37_uniform 0 0.9 _ (by norm_num) (by norm_num) hz]
    norm_num
  obtain ⟨L, h1, h2, h3⟩ := C39_kepler C cp (LimbDark.new 0 0) [o, o] 1 false (Tensor.ofList [0.9, 0.9] 0) (Tensor.ofList [0] 0) rfl 7 0
  refine ⟨o, h, hp, L, h1, ?_, ?_⟩
  · have h2' : L.shape = [1, 2] := h2
    have e0 := h3 [0] 0 (by simp) (by simp [InShape, Tensor.ofList])
    have e1 := h3 [0] 1 (by simp) (by simp [InShape, Tensor.ofList])
    simp [Tensor.unravel, Tensor.ofList] at e0 e1
    rw [hflux] at e0 e1
    simp [Tensor.sumAxis, h2', List.range_succ, e0, e1]
    norm_num
  · have h4 := C114_one_body 0 0 1 0.9 hlaw one_pos (by norm_num) (o.relativePosition C 0)
    unfold jointFlux
    rw [iUnion_const, ← h4]
    exact hflux

/-- Two planets next to each other in front of the star: the hypotheses of `C114_sum_partial` hold. -/
example : ∑ p : Fin 2, fluxAt (getCl 0.3 0.2) 1 0.1 ⟨if p = 0 then 0.5 else -0.5, 0, 1⟩ =
    jointFlux 0.3 0.2 1 (fun _ : Fin 2 => 0.1) (fun p : Fin 2 => ⟨if p = 0 then 0.5 else -0.5, 0, 1⟩) := by
  refine C114_sum_partial 0.3 0.2 1 (physicalLaw_of_kipping (by norm_num) (by norm_num)) one_pos _ (fun _ => by norm_num) _ ?_
  intro p q hpq
  apply C114_separate _ _ _ one_pos (by norm_num) (by norm_num)
  fin_cases p <;> fin_cases q <;> simp at hpq ⊢ <;> norm_num

/-- A star that is nowhere dark. -/
example : ∀ μ : ℝ, 0 ≤ μ → μ ≤ 1 → 0 < quadLaw 0.3 0.2 μ := by
  intro μ h0 h1
  unfold quadLaw
  nlinarith

end Exo
