import Verif.Lemmas.Accuracy
import Verif.Props.Continuity
import Verif.Props.Stencil

/-!
# C81: exposure integration and interpolation converge to what they approximate
-/

namespace Exo
open Real Finset

theorem exposureAverage_stencil (f : ℝ → ℝ) (t x : ℝ) (S : List ℝ × List ℝ) :
    exposureAverage f t (some (x, S)) = applyStencil S (fun u => f (t + x * u)) := rfl

/-- The average over the exposure in the two usual forms. -/
theorem average_eq (f : ℝ → ℝ) (t : ℝ) {x : ℝ} (hx : x ≠ 0) :
    ∫ u in (-(1 / 2) : ℝ)..(1 / 2), f (t + x * u) = (∫ s in (t - x / 2)..(t + x / 2), f s) / x := by
  rw [intervalIntegral.integral_comp_add_mul _ hx, smul_eq_mul, inv_mul_eq_div]
  congr 2 <;> ring

/-! ## C81: exposure times -/

/-- **C81** (exposure integration, error bound): for a continuous light curve `f` and any order and `oversample ≥ 2`, if `f` varies by at
most `ε` over times `δ` apart within the exposure `[t - x/2, t + x/2]`, where `δ ≥ 2 x / (oversample - 1)`, then the integrated value
differs from the average of `f` over the exposure by at most `ε`. -/
theorem C81_exposure_error (order oversample : ℤ) (ho : order = 0 ∨ order = 1 ∨ order = 2) (hn : 2 ≤ oversample) (f : ℝ → ℝ)
    (hf : Continuous f) (t x δ ε : ℝ) (hx : 0 < x) (hδ : 2 * x ≤ δ * (oversample - 1))
    (hosc : ∀ s s', |s - t| ≤ x / 2 → |s' - t| ≤ x / 2 → |s - s'| ≤ δ → |f s - f s'| ≤ ε) :
    ∃ S, stencil order oversample = .ok S ∧
      |exposureAverage f t (some (x, S)) - (∫ s in (t - x / 2)..(t + x / 2), f s) / x| ≤ ε := by
  have hn' : (2 : ℝ) ≤ oversample := by exact_mod_cast hn
  have hg : Continuous fun u => f (t + x * u) := hf.comp (by fun_prop)
  have hstep : ∀ K : ℕ, 0 < K → (oversample - 1 : ℝ) ≤ 2 * K → x / K ≤ δ := by
    intro K hK hle
    have hK' : (0 : ℝ) < K := by exact_mod_cast hK
    rw [div_le_iff₀ hK']
    nlinarith
  have hδ0 : 0 ≤ δ := by nlinarith
  have near : ∀ K : ℕ, 0 < K → (oversample - 1 : ℝ) ≤ 2 * K → ∀ j < K, ∀ u v : ℝ, -(1 / 2) + j / (K : ℝ) ≤ u →
      u ≤ -(1 / 2) + (j + 1) / (K : ℝ) → -(1 / 2) + j / (K : ℝ) ≤ v → v ≤ -(1 / 2) + (j + 1) / (K : ℝ) →
      |f (t + x * u) - f (t + x * v)| ≤ ε := by
    intro K hK hle j hj u v hu1 hu2 hv1 hv2
    have hK' : (0 : ℝ) < K := by exact_mod_cast hK
    have hj0 : (0 : ℝ) ≤ j / (K : ℝ) := by positivity
    have hj1 : ((j : ℝ) + 1) / K ≤ 1 := by
      rw [div_le_one hK']
      exact_mod_cast hj
    have hin : ∀ w : ℝ, -(1 / 2) + j / (K : ℝ) ≤ w → w ≤ -(1 / 2) + (j + 1) / (K : ℝ) → |t + x * w - t| ≤ x / 2 := by
      intro w h1 h2
      rw [add_sub_cancel_left, abs_mul, abs_of_pos hx, show x / 2 = x * (1 / 2) by ring]
      exact mul_le_mul_of_nonneg_left (abs_le.2 ⟨by linarith, by linarith⟩) hx.le
    refine hosc _ _ (hin u hu1 hu2) (hin v hv1 hv2) ?_
    rw [show t + x * u - (t + x * v) = x * (u - v) by ring, abs_mul, abs_of_pos hx]
    have e : ((j : ℝ) + 1) / K - j / K = 1 / K := by ring
    have : |u - v| ≤ 1 / K := abs_le.2 ⟨by linarith, by linarith⟩
    calc x * |u - v| ≤ x * (1 / K) := mul_le_mul_of_nonneg_left this hx.le
      _ = x / K := by ring
      _ ≤ δ := hstep K hK hle
  rw [← average_eq f t hx.ne']
  rcases ho with rfl | rfl | rfl
  · obtain ⟨n, S, hS, h1, -, -, hap⟩ := C38_midpoint oversample (by omega)
    refine ⟨S, hS, ?_⟩
    have hn0 : 0 < n := by omega
    have hn1 : (0 : ℝ) < n := by exact_mod_cast hn0
    have hle : (oversample : ℝ) ≤ n := by exact_mod_cast h1
    rw [exposureAverage_stencil, hap]
    refine composite_rule hg hn0 _ fun j hj u hu1 hu2 => near n hn0 (by linarith) j hj u _ hu1 hu2 ?_ ?_
    · have : (j : ℝ) / n ≤ (2 * j + 1) / (2 * n) := by
        rw [div_le_div_iff₀ hn1 (by positivity)]; nlinarith
      linarith
    · have : (2 * (j : ℝ) + 1) / (2 * n) ≤ (j + 1) / n := by
        rw [div_le_div_iff₀ (by positivity) hn1]; nlinarith
      linarith
  · obtain ⟨N, S, hS, h1, -, h2, hap⟩ := C38_trapezoid_partial oversample hn
    refine ⟨S, hS, ?_⟩
    have hn0 : 0 < N := by omega
    have hn1 : (0 : ℝ) < N := by exact_mod_cast hn0
    have hle : (oversample : ℝ) ≤ N + 1 := by exact_mod_cast h1
    rw [exposureAverage_stencil, hap, show ∀ A : ℝ, A / (2 * N) = (A / 2) / N by intro A; field_simp, sum_div]
    refine composite_rule hg hn0 _ fun j hj u hu1 hu2 => ?_
    have hjN : (j : ℝ) / N ≤ (j + 1) / N := div_le_div_of_nonneg_right (by linarith) hn1.le
    have a1 := near N hn0 (by linarith) j hj u (-(1 / 2) + j / N) hu1 hu2 le_rfl (by linarith)
    have a2 := near N hn0 (by linarith) j hj u (-(1 / 2) + (j + 1) / N) hu1 hu2 (by linarith) le_rfl
    rw [abs_le] at a1 a2 ⊢
    constructor <;> linarith [a1.1, a1.2, a2.1, a2.2]
  · obtain ⟨m, S, hS, h1, -, h2, hap⟩ := C38_simpson_partial oversample hn
    refine ⟨S, hS, ?_⟩
    have hn0 : 0 < m := by omega
    have hn1 : (0 : ℝ) < m := by exact_mod_cast hn0
    have hle : (oversample : ℝ) ≤ 2 * m + 1 := by exact_mod_cast h1
    rw [exposureAverage_stencil, hap, show ∀ A : ℝ, A / (6 * m) = (A / 6) / m by intro A; field_simp, sum_div]
    refine composite_rule hg hn0 _ fun j hj u hu1 hu2 => ?_
    have hjN : (j : ℝ) / m ≤ (j + 1) / m := div_le_div_of_nonneg_right (by linarith) hn1.le
    have e0 : (2 * (j : ℝ)) / (2 * m) = j / m := by field_simp
    have e2 : (2 * (j : ℝ) + 2) / (2 * m) = (j + 1) / m := by field_simp
    have e1 : (2 * (j : ℝ) + 1) / (2 * m) = (j / m + (j + 1) / m) / 2 := by field_simp; ring
    have a0 := near m hn0 (by linarith) j hj u (-(1 / 2) + j / m) hu1 hu2 le_rfl (by linarith)
    have a1 := near m hn0 (by linarith) j hj u (-(1 / 2) + (j / m + (j + 1) / m) / 2) hu1 hu2 (by linarith) (by linarith)
    have a2 := near m hn0 (by linarith) j hj u (-(1 / 2) + (j + 1) / m) hu1 hu2 (by linarith) le_rfl
    rw [e0, e1, e2]
    rw [abs_le] at a0 a1 a2 ⊢
    constructor <;> linarith [a0.1, a0.2, a1.1, a1.2, a2.1, a2.2]

/-- **C81** (exposure integration converges): for a continuous light curve the integrated value tends to the average over the exposure as
`oversample` grows, for each order. -/
theorem C81_exposure_converges (order : ℤ) (ho : order = 0 ∨ order = 1 ∨ order = 2) (f : ℝ → ℝ) (hf : Continuous f) (t x ε : ℝ)
    (hx : 0 < x) (hε : 0 < ε) : ∃ N : ℤ, ∀ oversample, N ≤ oversample → ∃ S, stencil order oversample = .ok S ∧
      |exposureAverage f t (some (x, S)) - (∫ s in (t - x / 2)..(t + x / 2), f s) / x| ≤ ε := by
  have hc : UniformContinuousOn f (Set.Icc (t - x / 2) (t + x / 2)) :=
    isCompact_Icc.uniformContinuousOn_of_continuous hf.continuousOn
  obtain ⟨δ, hδ, h⟩ := Metric.uniformContinuousOn_iff_le.1 hc ε hε
  refine ⟨max 2 (⌈2 * x / δ⌉ + 1), fun oversample hN => ?_⟩
  have h1 : (⌈2 * x / δ⌉ : ℝ) + 1 ≤ oversample := by exact_mod_cast (le_max_right _ _).trans hN
  have h2 := Int.le_ceil (2 * x / δ)
  refine C81_exposure_error order oversample ho ((le_max_left _ _).trans hN) f hf t x δ ε hx ?_ fun s s' hs hs' hss => ?_
  · have : 2 * x / δ ≤ oversample - 1 := by linarith
    rw [div_le_iff₀ hδ] at this
    linarith
  · rw [abs_le] at hs hs'
    rw [← Real.dist_eq]
    exact h s ⟨by linarith, by linarith⟩ s' ⟨by linarith, by linarith⟩ (by rw [Real.dist_eq]; exact hss)

/-- Uniformly in time for periodic light curves. -/
theorem exposure_periodic {order : ℤ} (ho : order = 0 ∨ order = 1 ∨ order = 2) {f : ℝ → ℝ} (hf : Continuous f) {P : ℝ} (hP : 0 < P)
    (hper : ∀ t, f (t + P) = f t) {x ε : ℝ} (hx : 0 < x) (hε : 0 < ε) :
    ∃ N : ℤ, ∀ oversample, N ≤ oversample → 2 ≤ oversample ∧ ∀ t, ∃ S, stencil order oversample = .ok S ∧
      |exposureAverage f t (some (x, S)) - (∫ s in (t - x / 2)..(t + x / 2), f s) / x| ≤ ε := by
  obtain ⟨δ, hδ, h⟩ := uniform_of_periodic hP hf hper hε
  refine ⟨max 2 (⌈2 * x / δ⌉ + 1), fun oversample hN => ⟨(le_max_left _ _).trans hN, fun t => ?_⟩⟩
  have h1 : (⌈2 * x / δ⌉ : ℝ) + 1 ≤ oversample := by exact_mod_cast (le_max_right _ _).trans hN
  have h2 := Int.le_ceil (2 * x / δ)
  refine C81_exposure_error order oversample ho ((le_max_left _ _).trans hN) f hf t x δ ε hx ?_ fun s s' _ _ hss => h s s' hss
  have : 2 * x / δ ≤ oversample - 1 := by linarith
  rw [div_le_iff₀ hδ] at this
  linarith

/-- **C81** (`get_light_curve` with an exposure time): for planets on Keplerian orbits that do not touch the star, what is returned tends,
uniformly in time, to the average of the light curve over the exposure. -/
theorem C81_exposure_kepler (C : Consts) (cp : ContactOp) (orbits : List Orbit) (R : ℝ) (hR : ∀ o ∈ orbits, o.r_star = R)
    (hb : ∀ o ∈ orbits, ∃ A, keplerianInit C A = .ok o) (hp : ∀ o ∈ orbits, o.Physical) (u1 u2 : ℝ)
    (hlaw : (∫ p in starDisc, quadLaw u1 u2 (muAt p)) ≠ 0) (r : Tensor ℝ) (hr : r.size = orbits.length)
    (ha : ∀ p (h : p < orbits.length), R + r.get (Tensor.unravel r.shape p) < orbits[p].a * (1 - orbits[p].eccVal))
    (order : ℤ) (ho : order = 0 ∨ order = 1 ∨ order = 2) (x ε : ℝ) (hx : 0 < x) (hε : 0 < ε) :
    ∃ N : ℤ, ∀ oversample, N ≤ oversample → ∀ t : Tensor ℝ, ∃ L,
      (LimbDark.new u1 u2).getLightCurve (some (keplerApi C cp orbits R)) (some r) (some t) (some (Tensor.scalar x)) oversample order
        (some false) = .ok L ∧ L.shape = t.shape ++ [orbits.length] ∧
      ∀ i p (hp : p < orbits.length), InShape i t.shape → |L.get (i ++ [p]) -
        (∫ s in (t.get i - x / 2)..(t.get i + x / 2),
          fluxAt (getCl u1 u2) R (r.get (Tensor.unravel r.shape p)) (orbits[p].relativePosition C s)) / x| ≤ ε := by
  have each : ∀ p, ∃ N : ℤ, ∀ (hpl : p < orbits.length), ∀ oversample, N ≤ oversample → 2 ≤ oversample ∧ ∀ t,
      ∃ S, stencil order oversample = .ok S ∧
      |exposureAverage (fun s => fluxAt (getCl u1 u2) R (r.get (Tensor.unravel r.shape p)) (orbits[p].relativePosition C s)) t
        (some (x, S)) - (∫ s in (t - x / 2)..(t + x / 2),
          fluxAt (getCl u1 u2) R (r.get (Tensor.unravel r.shape p)) (orbits[p].relativePosition C s)) / x| ≤ ε := by
    intro p
    by_cases hpl : p < orbits.length
    · have hmem := List.getElem_mem hpl
      obtain ⟨A, hA⟩ := hb _ hmem
      have hc := kepler_continuous hA (hp _ hmem) hlaw (r := r.get (Tensor.unravel r.shape p)) (by rw [hR _ hmem]; exact ha p hpl)
      rw [hR _ hmem] at hc
      have hper : ∀ t, fluxAt (getCl u1 u2) R (r.get (Tensor.unravel r.shape p))
          (orbits[p].relativePosition C (t + orbits[p].period)) =
          fluxAt (getCl u1 u2) R (r.get (Tensor.unravel r.shape p)) (orbits[p].relativePosition C t) := by
        intro t
        have := (C12_periodic C A _ hA (hp _ hmem) t 1 none false none none).2.2.1
        push_cast at this
        rw [one_mul] at this
        rw [this]
      obtain ⟨F, hF⟩ : ∃ F : ℝ → ℝ, ∀ s, fluxAt (getCl u1 u2) R (r.get (Tensor.unravel r.shape p)) (orbits[p].relativePosition C s) = F s :=
        ⟨_, fun _ => rfl⟩
      simp only [hF] at hc hper ⊢
      obtain ⟨N, hN⟩ := exposure_periodic ho hc (hp _ hmem).period_pos hper hx hε
      exact ⟨N, fun _ => hN⟩
    · exact ⟨0, fun h => absurd h hpl⟩
  choose N hN using each
  obtain ⟨M, hM⟩ : ∃ M : ℤ, ∀ p < orbits.length, N p ≤ M := by
    refine ⟨∑ p ∈ range orbits.length, |N p|, fun p hp => (le_abs_self _).trans ?_⟩
    exact single_le_sum (f := fun p => |N p|) (fun _ _ => abs_nonneg _) (mem_range.2 hp)
  refine ⟨max M 2, fun oversample hov t => ?_⟩
  obtain ⟨S, hS, L, h1, h2, h3⟩ := C39_values_exposure (LimbDark.new u1 u2) (keplerApi C cp orbits R) false _ rfl r t
    (Tensor.scalar x) hr (Or.inl rfl) oversample order ho (by have := (le_max_right M 2).trans hov; omega)
  refine ⟨L, h1, h2, fun i p hpl hi => ?_⟩
  obtain ⟨S', hS', hE⟩ := (hN p hpl oversample ((hM p hpl).trans ((le_max_left _ _).trans hov))).2 (t.get i)
  rw [hS] at hS'
  cases hS'
  rw [h3 i p hi hpl]
  have e : texpAt (Tensor.scalar x) i = x := by simp [texpAt, Tensor.scalar]
  rw [e]
  refine le_of_eq_of_le ?_ hE
  congr 2
  simp only [keplerApi, List.getElem?_eq_getElem hpl]
  rfl

/-! ## C81: interpolation -/

/-- **C81** (interpolation, error bound): if the base light curve is periodic and varies by at most `ε` over two cells, the
interpolated light curve is everywhere within `5/4 ε` of it. -/
theorem C81_interpolation_error (F g : ℝ → ℝ) (t0 P : ℝ) (N : ℕ) (hP : 0 < P) (hN : 0 < N) (hF : FoldedInterpolant F g t0 P N)
    (hper : ∀ t, g (t + P) = g t) (ε : ℝ) (hosc : ∀ s s', |s - s'| ≤ 2 * (P / N) → |g s - g s'| ≤ ε) (t : ℝ) :
    |F t - g t| ≤ 5 / 4 * ε := by
  have hN' : (0 : ℝ) < N := by exact_mod_cast hN
  have hh : 0 < P / N := by positivity
  obtain ⟨j, m, hm, h1, h2, hc⟩ := hF.cubic t
  obtain ⟨c0, c1, c2, c3, hT⟩ := exists_through g (t0 + m * (P / N)) hh
  rw [hc c0 c1 c2 c3 hT]
  have e : g t = g (t - j * P) := by
    have hp : Function.Periodic g P := hper
    have := hp.int_mul j (t - j * P)
    simpa using this
  rw [e]
  refine through_bound hT hh h1 (by linarith) ?_ ?_ ?_ ?_ <;> refine hosc _ _ (abs_le.2 ⟨?_, ?_⟩) <;> linarith

/-- **C81** (interpolation converges): for a continuous periodic base light curve the interpolated light curves converge to it
uniformly in time as `num_phase` grows. -/
theorem C81_interpolation_converges (g : ℝ → ℝ) (t0 P : ℝ) (hP : 0 < P) (hg : Continuous g) (hper : ∀ t, g (t + P) = g t) (ε : ℝ)
    (hε : 0 < ε) : ∃ N0 : ℕ, ∀ N, N0 ≤ N → 0 < N ∧ ∀ F, FoldedInterpolant F g t0 P N → ∀ t, |F t - g t| ≤ ε := by
  obtain ⟨δ, hδ, h⟩ := uniform_of_periodic hP hg hper (ε := 4 / 5 * ε) (by positivity)
  refine ⟨⌈2 * P / δ⌉₊ + 1, fun N hN => ⟨by omega, fun F hF t => ?_⟩⟩
  have h0 : 0 < N := by omega
  have hN' : (0 : ℝ) < N := by exact_mod_cast h0
  have h1 : (⌈2 * P / δ⌉₊ : ℝ) ≤ N := by exact_mod_cast (Nat.le_succ _).trans hN
  have h2 := (Nat.le_ceil (2 * P / δ)).trans h1
  have h3 : 2 * (P / N) ≤ δ := by
    rw [div_le_iff₀ hδ] at h2
    rw [show 2 * (P / N) = 2 * P / N by ring, div_le_iff₀ hN']
    linarith
  have := C81_interpolation_error F g t0 P N hP h0 hF hper (4 / 5 * ε) (fun s s' hs => h s s' (hs.trans h3)) t
  linarith

/-- **C81** (`InterpolatedLightCurve`): for planets on Keplerian orbits that do not touch the star, what is returned tends, uniformly in
time, to the light curve itself as `num_phase` grows. -/
theorem C81_interpolation_kepler (C : Consts) (cp : ContactOp) (orbits : List Orbit) (hne : orbits ≠ []) (R : ℝ)
    (hR : ∀ o ∈ orbits, o.r_star = R) (hb : ∀ o ∈ orbits, ∃ A, keplerianInit C A = .ok o) (hp : ∀ o ∈ orbits, o.Physical)
    (u1 u2 : ℝ) (hlaw : (∫ p in starDisc, quadLaw u1 u2 (muAt p)) ≠ 0) (r : Tensor ℝ) (hr : r.size = orbits.length)
    (ha : ∀ p (h : p < orbits.length), R + r.get (Tensor.unravel r.shape p) < orbits[p].a * (1 - orbits[p].eccVal))
    (oversample order : ℤ) (num_planets : Option ℤ) (test_value : Option ℕ)
    (hnp : numPlanets num_planets test_value = .ok orbits.length) (ε : ℝ) (hε : 0 < ε) :
    ∃ N0 : ℕ, ∀ num_phase : ℕ, N0 ≤ num_phase → ∀ ts : List ℝ, ∃ L,
      interpolatedLightCurve num_phase num_planets test_value (orbits.map fun o => (o.t0, o.period))
        (fun xs => (LimbDark.new u1 u2).getLightCurve (some (keplerApi C cp orbits R)) (some r) (some (Tensor.ofList xs 0)) none
          oversample order (some false)) ts = .ok L ∧ L.shape = [ts.length, orbits.length] ∧
      ∀ i p (hi : i < ts.length) (hp : p < orbits.length), |L.get [i, p] -
        fluxAt (getCl u1 u2) R (r.get (Tensor.unravel r.shape p)) (orbits[p].relativePosition C ts[i])| ≤ ε := by
  have hbase := C43_base (LimbDark.new u1 u2) (keplerApi C cp orbits R) false _ rfl r hr oversample order
  obtain ⟨f, hfdef⟩ : ∃ f : ℕ → ℝ → ℝ, ∀ p s, fluxAt (LimbDark.new u1 u2).c (keplerApi C cp orbits R).r_star
      (r.get (Tensor.unravel r.shape p)) (match orbits[p]? with
        | some o => o.relativePosition C s none false
        | none => ⟨0, 0, 0⟩) = f p s := ⟨_, fun _ _ => rfl⟩
  have hbase' : Pointwise (fun xs => (LimbDark.new u1 u2).getLightCurve (some (keplerApi C cp orbits R)) (some r)
      (some (Tensor.ofList xs 0)) none oversample order (some false)) orbits.length f := by
    intro xs
    obtain ⟨y, h1, h2, h3⟩ := hbase xs
    exact ⟨y, h1, h2, fun i p hi hp => (h3 i p hi hp).trans (hfdef p _)⟩
  have hfv : ∀ p (hpl : p < orbits.length) s, f p s =
      fluxAt (getCl u1 u2) R (r.get (Tensor.unravel r.shape p)) (orbits[p].relativePosition C s) := by
    intro p hpl s
    rw [← hfdef]
    simp only [List.getElem?_eq_getElem hpl]
    rfl
  have each : ∀ p, ∃ N0 : ℕ, ∀ hpl : p < orbits.length, ∀ N, N0 ≤ N → 0 < N ∧
      ∀ F, FoldedInterpolant F (f p) orbits[p].t0 orbits[p].period N → ∀ t, |F t - f p t| ≤ ε := by
    intro p
    by_cases hpl : p < orbits.length
    · have hmem := List.getElem_mem hpl
      obtain ⟨A, hA⟩ := hb _ hmem
      have hc := kepler_continuous hA (hp _ hmem) hlaw (r := r.get (Tensor.unravel r.shape p)) (by rw [hR _ hmem]; exact ha p hpl)
      rw [hR _ hmem] at hc
      simp only [← hfv p hpl] at hc
      have hper : ∀ t, f p (t + orbits[p].period) = f p t := by
        intro t
        have := (C12_periodic C A _ hA (hp _ hmem) t 1 none false none none).2.2.1
        push_cast at this
        rw [one_mul] at this
        rw [hfv p hpl, hfv p hpl, this]
      obtain ⟨N0, h⟩ := C81_interpolation_converges (f p) orbits[p].t0 orbits[p].period (hp _ hmem).period_pos hc hper ε hε
      exact ⟨N0, fun _ => h⟩
    · exact ⟨0, fun h => absurd h hpl⟩
  choose N hN using each
  refine ⟨∑ p ∈ range orbits.length, N p, fun num_phase hnum ts => ?_⟩
  have hlen : (orbits.map fun o => (o.t0, o.period)).length = orbits.length := List.length_map _
  obtain ⟨F, h1, h2⟩ := C43_interpolant _ (orbits.map fun o => (o.t0, o.period)) f (by rw [hlen]; exact hbase')
    (by
      intro q hq
      obtain ⟨o, ho, rfl⟩ := List.mem_map.1 hq
      exact (hp o ho).period_pos)
    (by simpa using hne) num_phase num_planets test_value (by rw [hlen]; exact hnp)
  obtain ⟨L, g1, g2, g3⟩ := h1 ts
  refine ⟨L, g1, by rw [g2, hlen], fun i p hi hpl => ?_⟩
  rw [g3 i p hi (by rw [hlen]; exact hpl), ← hfv p hpl]
  have hF := h2 p (by rw [hlen]; exact hpl)
  rw [List.getElem_map] at hF
  refine (hN p hpl (num_phase + 1) ?_).2 _ hF _
  exact (single_le_sum (f := N) (fun _ _ => Nat.zero_le _) (mem_range.2 hpl)).trans (hnum.trans (Nat.le_succ _))

/-- **C81** (light curves that do not repeat): an interpolated light curve is periodic, so that if the base light curve differs by `D`
between a time and some number of periods later, the interpolated light curve is wrong by at least `D/2` at one of these times, whatever
`num_phase`. -/
theorem C81_not_periodic (F g : ℝ → ℝ) (t0 P : ℝ) (N : ℕ) (hF : FoldedInterpolant F g t0 P N) (t : ℝ) (j : ℤ) :
    |g t - g (t + j * P)| / 2 ≤ |F t - g t| ∨ |g t - g (t + j * P)| / 2 ≤ |F (t + j * P) - g (t + j * P)| := by
  by_contra hcon
  push Not at hcon
  obtain ⟨h1, h2⟩ := hcon
  rw [hF.periodic] at h2
  have : |g t - g (t + j * P)| ≤ |F t - g t| + |F t - g (t + j * P)| := by
    rw [show g t - g (t + j * P) = -(F t - g t) + (F t - g (t + j * P)) by ring]
    exact (abs_add_le _ _).trans_eq (by rw [abs_neg])
  linarith

/-! ### Orbits with timing variations -/

/-- `demoTtv` in more detail: the star has radius 1, the orbit is circular with `a = 10`, `b = 1/2`. -/
theorem demoTtv_more (C : Consts) : ∃ T, ttvInit C demoTtv = .ok (some T) ∧ T.orbit.t0 = 0 ∧ T.orbit.period = 11 / 10 ∧
    T.ttv_period = 1 ∧ T.transit_inds = [0, 2] ∧ T.all_transit_times = [0, 11 / 10, 2] ∧ T.kepler.Physical ∧
    T.orbit.ecc = none ∧ T.orbit.a = 10 ∧ T.orbit.b = 1 / 2 ∧ T.orbit.r_star = 1 ∧ 0 < T.orbit.sin_incl := by
  obtain ⟨T, h, h0, hP, hp, hi, -, -, ha, hk⟩ := demoTtv_ok C
  have hG := C.G_pos
  have hg := C.gccPerSun_pos
  have hpi := pi_pos
  obtain ⟨o, ho, e1, e2, e3, e4, e5⟩ : ∃ o, keplerianInit C { demoTtv.base with t0 := some (0 : ℝ) } = .ok o ∧ o.ecc = none ∧
      o.a = 10 ∧ o.b = 1 / 2 ∧ o.r_star = 1 ∧ 0 < o.sin_incl := by
    refine ⟨_, rfl, rfl, rfl, rfl, rfl, ?_⟩
    refine sin_pos_of_pos_of_lt_pi (arccos_pos.2 ?_) (arccos_lt_pi.2 ?_) <;> simp [inclFactorOf] <;> norm_num
  have hT := h
  unfold ttvInit at hT
  simp only [demoTtv, TtvArgs.shapePeriod, Option.getD_some, List.length_cons, ne_eq, demoTtv_fit] at ho hT
  rw [ho] at hT
  unfold ttvFinish at hT
  simp only at hT
  split at hT
  · cases hT
  split at hT
  · cases hT
  · simp only [Except.ok.injEq, Option.some.injEq] at hT
    subst hT
    exact ⟨_, h, h0, hP, hp, hi, ha, hk, e1, e2, e3, e4, e5⟩

/-- **C81 is false for orbits with timing variations**: for two planets like `TTVOrbit(transit_times=[[0, 2]], transit_inds=[[0, 2]], a=10,
b=0.5, period=1.1)` and `r = 0.1`, interpolation misses the transit at time 2 (or shows one that is not there at time 0.9) by at least
half the depth, whatever `num_phase`. -/
theorem C81_ttv_counterexample (C : Consts) (cp : ContactOp) : ∃ T, ttvInit C demoTtv = .ok (some T) ∧
    ∀ (num_phase : ℕ) (oversample order : ℤ), ∃ L,
      interpolatedLightCurve num_phase (some 2) none ([T.orbit, T.orbit].map fun o => (o.t0, o.period))
        (fun xs => (LimbDark.new 0 0).getLightCurve (some (keplerApi C cp [T.orbit, T.orbit] 1)) (some (Tensor.ofList [1 / 10, 1 / 10] 0))
          (some (Tensor.ofList xs 0)) none oversample order (some false)) [9 / 10, 2] = .ok L ∧
      (1 / 200 ≤ |L.get [0, 0] - fluxAt (getCl 0 0) 1 (1 / 10) (T.orbit.relativePosition C (9 / 10))| ∨
       1 / 200 ≤ |L.get [1, 0] - fluxAt (getCl 0 0) 1 (1 / 10) (T.orbit.relativePosition C 2)|) := by
  obtain ⟨T, h, h0, hP, hp, hi, hall, hk, hc, ha, hb, hR, hs⟩ := demoTtv_more C
  refine ⟨T, h, fun num_phase oversample order => ?_⟩
  have hinc : T.all_transit_times.Pairwise (· < ·) := by rw [hall]; norm_num
  have hpp : 0 < T.ttv_period := by rw [hp]; norm_num
  obtain ⟨⟨A, hA⟩, -⟩ := C31_labelled C _ T h hinc hpp (by rw [hi]; decide)
  have B := built_of_init hA
  have hlaw : PhysicalLaw 0 0 := ⟨fun μ _ _ => by unfold quadLaw; norm_num, by norm_num⟩
  have hrel := B.sin_incl_rel hk hc
  have ea : T.kepler.a = 10 := ha
  have eb : T.kepler.b = 1 / 2 := hb
  have eR : T.kepler.r_star = 1 := hR
  have e0 : T.kepler.t0 = 0 := h0
  have eP : T.kepler.period = 11 / 10 := hP
  have es : 0 < T.kepler.sin_incl := hs
  have hn : T.kepler.n = 2 * π / (11 / 10) := by rw [B.n_eq, eP]
  have warp : ∀ t s, IsNearest T.all_transit_times t s → T.orbit.warp t = t - s := by
    intro t s hns
    obtain ⟨s', h1, h2⟩ := C30_nearest C _ T h hinc hpp t
    rw [h2, h1.unique hns]
  -- in transit at time 2
  have w2 : T.orbit.warp 2 = 0 := by
    rw [warp 2 2 ?_, sub_self]
    rw [hall]
    refine ⟨by simp, fun u hu => ?_⟩
    simp only [List.mem_cons, List.not_mem_nil, or_false] at hu
    rcases hu with rfl | rfl | rfl <;> norm_num
  have g2 : fluxAt (getCl 0 0) 1 (1 / 10) (T.orbit.relativePosition C 2) = -(1 / 10) ^ 2 := by
    rw [T.relativePosition_eq, w2, h0, add_zero]
    obtain ⟨s1, s2⟩ := B.sep_circ hk hc 0
    rw [e0, sub_zero, mul_zero, sin_zero, eb, eR] at s1
    rw [e0, sub_zero, mul_zero, cos_zero, mul_one] at s2
    unfold fluxAt
    rw [s1, s2, show (1 / 2 * 1 : ℝ) ^ 2 + (T.kepler.a * T.kepler.sin_incl) ^ 2 * 0 ^ 2 = (1 / 2) ^ 2 by ring,
      sqrt_sq (by norm_num), div_one, div_one, div_one]
    exact C37_uniform _ _ _ (by norm_num) (by rw [abs_of_pos] <;> norm_num) (by rw [ea]; positivity)
  -- not in transit a period earlier
  have w1 : T.orbit.warp (9 / 10) = -(1 / 5) := by
    rw [warp (9 / 10) (11 / 10) ?_]; · norm_num
    rw [hall]
    refine ⟨by simp, fun u hu => ?_⟩
    simp only [List.mem_cons, List.not_mem_nil, or_false] at hu
    rcases hu with rfl | rfl | rfl <;> norm_num [abs_of_neg, abs_of_pos]
  have g1 : fluxAt (getCl 0 0) 1 (1 / 10) (T.orbit.relativePosition C (9 / 10)) = 0 := by
    rw [T.relativePosition_eq, w1, h0, add_zero]
    obtain ⟨s1, s2⟩ := B.sep_circ hk hc (-(1 / 5))
    unfold fluxAt
    refine C37_apart 0 0 _ _ _ hlaw ?_
    rw [s1, div_one, div_one]
    apply le_sqrt_of_sq_le
    have hpi := pi_pos
    have hsin : 8 / 11 ≤ sin (4 * π / 11) := by
      have := mul_le_sin (x := 4 * π / 11) (by positivity) (by linarith)
      refine le_of_eq_of_le ?_ this
      field_simp
      norm_num
    have e : T.kepler.n * (-(1 / 5) - T.kepler.t0) = -(4 * π / 11) := by rw [hn, e0]; ring
    rw [e, sin_neg, neg_sq]
    rw [ea, eb, eR] at hrel
    have hA2 : (T.kepler.a * T.kepler.sin_incl) ^ 2 = 399 / 4 := by rw [ea]; linarith
    have h2 : (8 / 11 : ℝ) ^ 2 ≤ sin (4 * π / 11) ^ 2 := by gcongr
    rw [hA2, eb, eR]
    norm_num at h2 ⊢
    linarith
  have hbase := C43_base (LimbDark.new 0 0) (keplerApi C cp [T.orbit, T.orbit] 1) false _ rfl (Tensor.ofList [1 / 10, 1 / 10] 0) rfl
    oversample order
  obtain ⟨f, hfdef⟩ : ∃ f : ℕ → ℝ → ℝ, ∀ p s, fluxAt (LimbDark.new 0 0).c (keplerApi C cp [T.orbit, T.orbit] 1).r_star
      ((Tensor.ofList [1 / 10, 1 / 10] (0 : ℝ)).get (Tensor.unravel (Tensor.ofList [1 / 10, 1 / 10] (0 : ℝ)).shape p))
      (match [T.orbit, T.orbit][p]? with
        | some o => o.relativePosition C s none false
        | none => ⟨0, 0, 0⟩) = f p s := ⟨_, fun _ _ => rfl⟩
  have hbase' : Pointwise (fun xs => (LimbDark.new 0 0).getLightCurve (some (keplerApi C cp [T.orbit, T.orbit] 1))
      (some (Tensor.ofList [1 / 10, 1 / 10] 0)) (some (Tensor.ofList xs 0)) none oversample order (some false)) 2 f := by
    intro xs
    obtain ⟨y, h1, h2, h3⟩ := hbase xs
    exact ⟨y, h1, h2, fun i p hi hp => (h3 i p hi hp).trans (hfdef p _)⟩
  have hf0 : ∀ s, f 0 s = fluxAt (getCl 0 0) 1 (1 / 10) (T.orbit.relativePosition C s) := fun s => (hfdef 0 s).symm
  obtain ⟨F, k1, k2⟩ := C43_interpolant _ ([T.orbit, T.orbit].map fun o => (o.t0, o.period)) f hbase'
    (by
      intro q hq
      obtain ⟨o, ho, rfl⟩ := List.mem_map.1 hq
      simp only [List.mem_cons, List.not_mem_nil, or_false, or_self] at ho
      subst ho
      simp only
      rw [hP]; norm_num)
    (by simp) num_phase (some 2) none rfl
  obtain ⟨L, l1, l2, l3⟩ := k1 [9 / 10, 2]
  refine ⟨L, l1, ?_⟩
  rw [l3 0 0 (by simp) (by simp), l3 1 0 (by simp) (by simp), ← hf0, ← hf0]
  have hF := k2 0 (by simp)
  have := C81_not_periodic _ _ _ _ _ hF (9 / 10) 1
  simp only [List.map_cons, List.getElem_cons_zero, hP] at this
  norm_num [hf0, g1, g2] at this ⊢
  exact this

/-! ### Examples -/

/-- Hypotheses of `C81_exposure_error`: a function with slope at most 1, Simpson weights with `oversample = 11`. -/
example : ∃ S, stencil 2 11 = .ok S ∧
    |exposureAverage sin 3 (some (1 / 10, S)) - (∫ s in (3 - (1 / 10) / 2 : ℝ)..(3 + (1 / 10) / 2), sin s) / (1 / 10)| ≤ 1 / 50 := by
  refine C81_exposure_error 2 11 (by norm_num) (by norm_num) sin continuous_sin 3 (1 / 10) (1 / 50) (1 / 50) (by norm_num)
    (by norm_num) fun s s' _ _ h => ?_
  have := Real.abs_sin_sub_sin_le s s'
  exact this.trans h

/-- Hypotheses of `C81_exposure_kepler` and `C81_interpolation_kepler`: an eccentric orbit, `r = 0.1`. -/
example (C : Consts) : ∃ o A, keplerianInit C A = .ok o ∧ o.Physical ∧ o.r_star = 1 ∧ 0 < o.eccVal ∧ 1 + 1 / 10 < o.a * (1 - o.eccVal) := by
  obtain ⟨o, h, hp, ha, -, hR, -, -, -, -, p, he, hev, -⟩ := demoEcc_ok C
  have : o.eccVal = 1 / 2 := by simp [Orbit.eccVal, he, hev]
  exact ⟨o, _, h, hp, hR, by rw [this]; norm_num, by rw [ha, this]; norm_num⟩

end Exo
