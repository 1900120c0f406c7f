import Verif.Lemmas.Ttv2
import Verif.Lemmas.Demo

/-!
# C29-C35: `TTVOrbit`
-/

namespace Exo
open Real

theorem zipWith_zipWith_left {α β γ δ : Type} (g : α → γ → δ) (f : α → β → γ) : ∀ (a : List α) (b : List β),
    List.zipWith g a (List.zipWith f a b) = List.zipWith (fun i y => g i (f i y)) a b
  | [], _ => by simp
  | _ :: _, [] => by simp
  | x :: a, y :: b => by simp [zipWith_zipWith_left g f a b]

/-! ## C29 -/

/-- **C29**: given `transit_times`, the reported `t0` and `ttv_period` minimise the sum of squared residuals over all linear
ephemerides `(a, b)`, they are the only minimiser, the reported `ttvs` are the residuals, sum to zero and are orthogonal to
the transit numbers. Missing: transits that all have the same number (in particular a single transit), where Python gets
NaN (`C29_single_transit_counterexample`). -/
theorem C29_least_squares_partial (C : Consts) (K : TtvArgs) (T : Ttv) (h : ttvInit C K = .ok (some T)) (hv : K.ttvs = none) :
    (∀ a b, ssr T.transit_inds T.transit_times T.orbit.t0 T.ttv_period ≤ ssr T.transit_inds T.transit_times a b) ∧
    (∀ a b, ssr T.transit_inds T.transit_times a b ≤ ssr T.transit_inds T.transit_times T.orbit.t0 T.ttv_period →
      a = T.orbit.t0 ∧ b = T.ttv_period) ∧
    T.ttvs.length = T.transit_times.length ∧
    (∀ (j i : ℕ) (y v : ℝ), T.transit_inds[j]? = some i → T.transit_times[j]? = some y → T.ttvs[j]? = some v →
      v = y - (T.orbit.t0 + T.ttv_period * i)) ∧
    T.ttvs.sum = 0 ∧ (List.zipWith (fun (i : ℕ) v => (i : ℝ) * v) T.transit_inds T.ttvs).sum = 0 := by
  obtain ⟨A, o, ho, hD, ⟨h1, -⟩ | ⟨-, ht, hi, c, hf, hA, hc, hr⟩⟩ := ttv_cases h
  · rw [hv] at h1; cases h1
  have hl := hD.length_eq
  have ht0 : T.orbit.t0 = c := by rw [hD.orbit_eq]; exact hc
  obtain ⟨n1, n2⟩ := linFit_normal hl hf
  obtain ⟨i, hi', j, hj', hij⟩ := (linFit_isSome hl).1 (by rw [hf]; rfl)
  have hzip : T.ttvs = (List.zip T.transit_inds T.transit_times).map
      (fun q => q.2 - (c + T.ttv_period * (q.1 : ℝ))) := by
    rw [hr, List.zip, List.map_zipWith]
    simp only [mul_comm]
  have hmem : ∀ i ∈ T.transit_inds, ∃ y, (i, y) ∈ List.zip T.transit_inds T.transit_times := by
    intro i hi
    rw [← List.map_fst_zip (l₁ := T.transit_inds) (l₂ := T.transit_times) (by omega)] at hi
    obtain ⟨q, hq, rfl⟩ := List.mem_map.1 hi
    exact ⟨q.2, hq⟩
  rw [ht0]
  refine ⟨fun a b => ?_, fun a b hab => ?_, ?_, ?_, ?_, ?_⟩
  · rw [linFit_excess hl hf a b]
    have := sum_sq_nonneg (List.zip T.transit_inds T.transit_times) (c - a) (T.ttv_period - b)
    linarith
  · rw [linFit_excess hl hf a b] at hab
    have h0 := sum_sq_nonneg (List.zip T.transit_inds T.transit_times) (c - a) (T.ttv_period - b)
    have hz := sum_sq_eq_zero (le_antisymm (by linarith) h0)
    obtain ⟨y, hy⟩ := hmem i hi'
    obtain ⟨y', hy'⟩ := hmem j hj'
    have e1 := hz _ hy
    have e2 := hz _ hy'
    simp only at e1 e2
    have e3 : (T.ttv_period - b) * ((i : ℝ) - j) = 0 := by linear_combination e1 - e2
    have hne : (i : ℝ) - j ≠ 0 := sub_ne_zero.2 (by exact_mod_cast hij)
    have e4 := (mul_eq_zero.1 e3).resolve_right hne
    rw [e4, zero_mul, add_zero] at e1
    constructor <;> linarith
  · rw [hzip, List.length_map, List.length_zip, hl, min_self]
  · intro j i y v hi hy hv
    rw [hr, List.getElem?_zipWith, hi, hy] at hv
    simp only [Option.some.injEq] at hv
    rw [← hv]; ring
  · rw [hzip]; exact n1
  · have : List.zipWith (fun (i : ℕ) v => (i : ℝ) * v) T.transit_inds T.ttvs =
        (List.zip T.transit_inds T.transit_times).map (fun q => (q.1 : ℝ) * (q.2 - (c + T.ttv_period * (q.1 : ℝ)))) := by
      rw [hr, List.zip, List.map_zipWith, zipWith_zipWith_left]
      simp only [mul_comm T.ttv_period]
    rw [this]; exact n2

/-- **C29** (exactly periodic times): the exact period and reference time are recovered and all `ttvs` are zero. -/
theorem C29_exact (C : Consts) (K : TtvArgs) (T : Ttv) (h : ttvInit C K = .ok (some T)) (hv : K.ttvs = none) (t P : ℝ)
    (hper : ∀ q ∈ List.zip T.transit_inds T.transit_times, q.2 = t + P * (q.1 : ℝ)) :
    T.orbit.t0 = t ∧ T.ttv_period = P ∧ ∀ v ∈ T.ttvs, v = 0 := by
  obtain ⟨h1, h2, h3, h4, -, -⟩ := C29_least_squares_partial C K T h hv
  have hz : ssr T.transit_inds T.transit_times t P = 0 := by
    unfold ssr
    apply List.sum_eq_zero
    intro x hx
    obtain ⟨q, hq, rfl⟩ := List.mem_map.1 hx
    simp only [hper q hq, sub_self]
    norm_num
  have hnn : 0 ≤ ssr T.transit_inds T.transit_times T.orbit.t0 T.ttv_period := by
    unfold ssr
    apply List.sum_nonneg
    intro x hx
    obtain ⟨q, hq, rfl⟩ := List.mem_map.1 hx
    exact sq_nonneg _
  obtain ⟨e1, e2⟩ := h2 t P (by rw [hz]; exact hnn)
  refine ⟨e1.symm, e2.symm, fun v hv => ?_⟩
  obtain ⟨A, o, ho, hD, -⟩ := ttv_cases h
  have hl := hD.length_eq
  obtain ⟨j, hj, rfl⟩ := List.mem_iff_getElem.1 hv
  have hj1 : j < T.transit_times.length := by omega
  have hj2 : j < T.transit_inds.length := by omega
  have := h4 j _ _ _ (List.getElem?_eq_getElem hj2) (List.getElem?_eq_getElem hj1) (List.getElem?_eq_getElem hj)
  rw [this, ← e1, ← e2]
  have hm : (T.transit_inds[j], T.transit_times[j]) ∈ List.zip T.transit_inds T.transit_times :=
    List.mem_iff_getElem.2 ⟨j, by simp; omega, by simp⟩
  exact sub_eq_zero.2 (hper _ hm)

/-- **C29** (when the ephemeris exists): with vectors of equal length and arguments the base class accepts, the result is
not NaN exactly when two transit numbers differ. -/
theorem C29_exists (C : Consts) (K : TtvArgs) (times : List ℝ) (inds : List ℕ) (hv : K.ttvs = none)
    (ht : K.transit_times = some times) (hi : K.transit_inds = some inds) (hl : inds.length = times.length)
    (hacc : ∀ (t0 : ℝ) (p : Q), K.base.period = some p ∨ (K.base.period = none ∧ p.unit = none) →
      ∃ o, keplerianInit C { K.base with t0 := some t0, period := some p } = .ok o) :
    (∃ T, ttvInit C K = .ok (some T)) ↔ ∃ i ∈ inds, ∃ j ∈ inds, i ≠ j := by
  constructor
  · rintro ⟨T, h⟩
    obtain ⟨A, o, ho, hD, ⟨h1, -⟩ | ⟨-, ht', hi', c, hf, -⟩⟩ := ttv_cases h
    · rw [hv] at h1; cases h1
    rw [ht, Option.some.injEq] at ht'
    rw [hi] at hi'
    simp only [Option.getD_some] at hi'
    rw [← ht', hi'] at hf
    exact (linFit_isSome hl).1 (by rw [hf]; rfl)
  · intro hne
    obtain ⟨⟨s, c⟩, hf⟩ := Option.isSome_iff_exists.1 ((linFit_isSome hl).2 hne)
    unfold ttvInit
    simp only [hv, ht, hi, Option.getD_some, hl, ne_eq, not_true_eq_false, if_false, hf]
    obtain ⟨o, ho⟩ := hacc c (K.shapePeriod s) (by
      unfold TtvArgs.shapePeriod
      rcases K.base.period with _ | p
      · right; refine ⟨rfl, ?_⟩
        rcases K.delta_log_period with _ | d <;> rfl
      · left; rfl)
    simp only at ho
    rw [ho]
    simp only
    obtain ⟨i, hi', -⟩ := hne
    obtain ⟨tts, htts⟩ := allTransitTimes_error (t0 := o.t0) (P := o.period) (times := times) (List.ne_nil_of_mem hi')
    unfold ttvFinish
    rw [htts]
    exact ⟨_, rfl⟩

/-- `TTVOrbit(transit_times=[[0, 2]], transit_inds=[[0, 2]], a=10, b=0.5, period=1.1)`. -/
noncomputable def demoTtv : TtvArgs :=
  { base := { a := some (10 : ℝ), period := some (11 / 10 : ℝ), b := some (1 / 2 : ℝ) }
    transit_times := some [0, 2], transit_inds := some [0, 2] }

theorem demoTtv_fit : linFit [0, 2] [0, 2] = some (1, 0) := by
  unfold linFit
  norm_num

theorem demoTtv_all : allTransitTimes 0 (11 / 10) [0, 2] [0, 2] = .ok [0, 11 / 10, 2] := by
  have : ([0, 2] : List ℕ).max? = some 2 := rfl
  unfold allTransitTimes
  simp only [this]
  congr 1
  norm_num [setSubtensor, List.range_succ]

theorem demoTtv_ok (C : Consts) : ∃ T, ttvInit C demoTtv = .ok (some T) ∧ T.orbit.t0 = 0 ∧ T.orbit.period = 11 / 10 ∧
    T.ttv_period = 1 ∧ T.transit_inds = [0, 2] ∧ T.transit_times = [0, 2] ∧ T.ttvs = [0, 0] ∧
    T.all_transit_times = [0, 11 / 10, 2] ∧ T.kepler.Physical := by
  have hG := C.G_pos
  have hg := C.gccPerSun_pos
  have hpi := pi_pos
  obtain ⟨o, ho, ht0, hP, hphys⟩ : ∃ o, keplerianInit C { demoTtv.base with t0 := some (0 : ℝ) } = .ok o ∧ o.t0 = 0 ∧
      o.period = 11 / 10 ∧ o.Physical := by
    refine ⟨_, rfl, rfl, rfl, ⟨?_, ?_, ?_, ?_, ?_, ?_, ?_, ?_, ?_, ?_⟩⟩ <;>
      simp [inclFactorOf] <;> try positivity
    norm_num
  unfold ttvInit
  simp only [demoTtv, TtvArgs.shapePeriod, Option.getD_some, List.length_cons, ne_eq, demoTtv_fit] at ho ⊢
  rw [ho]
  simp only [ttvFinish, ht0, hP, demoTtv_all]
  refine ⟨_, rfl, rfl, rfl, rfl, rfl, rfl, ?_, rfl, ⟨?_, ?_, ?_, ?_, ?_, ?_, ?_, ?_, ?_, ?_⟩⟩
  · norm_num
  · exact hP ▸ hphys.period_pos
  · exact hphys.a_pos
  · exact hphys.m_star_pos
  · exact hphys.m_planet_nonneg
  · exact hphys.r_star_pos
  · exact hphys.rho_star_pos
  · exact hphys.ecc_nonneg
  · exact hphys.ecc_lt_one
  · exact hphys.omega_unit
  · exact hphys.cos_incl_abs

/-- Hypotheses of `C29_least_squares_partial` and `C29_exact`. -/
example (C : Consts) : ∃ K T, ttvInit C K = .ok (some T) ∧ K.ttvs = none ∧
    ∀ q ∈ List.zip T.transit_inds T.transit_times, q.2 = 0 + 1 * (q.1 : ℝ) := by
  obtain ⟨T, h, -, -, -, hi, ht, -⟩ := demoTtv_ok C
  refine ⟨_, T, h, rfl, ?_⟩
  rw [hi, ht]
  simp

/-- Hypotheses of `C29_exists` (times that are not exactly periodic). -/
example (C : Consts) (t0 : ℝ) (p : Q) (hp : p.unit = none) :
    ∃ o, keplerianInit C { demoCirc with t0 := some t0, period := some p } = .ok o := by
  obtain ⟨v, u⟩ := p
  subst hp
  exact ⟨_, rfl⟩

/-- **C29 is false for a single transit**: every ephemeris through the point is a minimiser, but the attributes are NaN. -/
theorem C29_single_transit_counterexample (C : Consts) :
    ttvInit C { base := demoCirc, transit_times := some [5] } = .ok none ∧ ssr [0] [5] 5 1 = 0 := by
  constructor
  · have hf : linFit [0] [5] = none := by unfold linFit; simp
    unfold ttvInit
    simp only [Option.getD_none, List.length_singleton, List.range_one, ne_eq, not_true_eq_false, if_false, hf]
    rfl
  · simp [ssr]

/-! ## C30 -/

/-- **C30**: with increasing transit times (at least one) and a positive mean period, the time axis at *every* time `t` is
shifted by the transit time nearest to `t`, ties to the earlier one — also before the first and after the last transit. -/
theorem C30_nearest (C : Consts) (K : TtvArgs) (T : Ttv) (h : ttvInit C K = .ok (some T))
    (hinc : T.all_transit_times.Pairwise (· < ·)) (hP : 0 < T.ttv_period) (t : ℝ) :
    ∃ s, IsNearest T.all_transit_times t s ∧ T.orbit.warp t = t - s := by
  obtain ⟨A, o, ho, hD, -⟩ := ttv_cases h
  refine ⟨_, modelDt_nearest (allTransitTimes_spec hD.all_eq).1 hinc hP t, ?_⟩
  rw [hD.orbit_eq, ← hD.edges_eq, ← hD.values_eq]

example (C : Consts) : ∃ K T, ttvInit C K = .ok (some T) ∧ T.all_transit_times.Pairwise (· < ·) ∧ 0 < T.ttv_period := by
  obtain ⟨T, h, -, -, hp, -, -, -, ha, -⟩ := demoTtv_ok C
  refine ⟨_, T, h, ?_, ?_⟩
  · rw [ha]; norm_num
  · rw [hp]; norm_num

/-! ## C31 -/

/-- **C31** (labelled transits): the orbit has an underlying `KeplerianOrbit` with the same attributes, and at every labelled
transit time the planet is where that orbit puts it at its `t0` (positions with or without parallax, and velocities). -/
theorem C31_labelled (C : Consts) (K : TtvArgs) (T : Ttv) (h : ttvInit C K = .ok (some T))
    (hinc : T.all_transit_times.Pairwise (· < ·)) (hP : 0 < T.ttv_period) (hn : T.transit_inds.Nodup) :
    (∃ A, keplerianInit C A = .ok T.kepler) ∧
    ∀ t ∈ T.transit_times, ∀ px,
      T.orbit.relativePosition C t px = T.kepler.relativePosition C T.kepler.t0 px ∧
      T.orbit.planetPosition C t px = T.kepler.planetPosition C T.kepler.t0 px ∧
      T.orbit.starPosition C t px = T.kepler.starPosition C T.kepler.t0 px ∧
      T.orbit.planetVelocity t = T.kepler.planetVelocity T.kepler.t0 := by
  obtain ⟨A, o, ho, hD, -⟩ := ttv_cases h
  have B := built_of_init ho
  have hk : T.kepler = o := by
    unfold Ttv.kepler
    rw [hD.orbit_eq]
    have : o.warp = fun t => t - o.t0 := funext B.warp_eq
    cases o
    simp only at this ⊢
    rw [this]
  refine ⟨⟨A, by rw [hk]; exact ho⟩, fun t ht px => ?_⟩
  obtain ⟨j, hj, rfl⟩ := List.mem_iff_getElem.1 ht
  have hl := hD.length_eq
  have hq : (T.transit_inds[j], T.transit_times[j]) ∈ List.zip T.transit_inds T.transit_times :=
    List.mem_iff_getElem.2 ⟨j, by simp; omega, by simp⟩
  have hall := (allTransitTimes_spec hD.all_eq).2.2.2.2 hn _ hq
  have hmem : T.transit_times[j] ∈ T.all_transit_times := List.mem_of_getElem? hall
  obtain ⟨s, hs, hw⟩ := C30_nearest C K T h hinc hP T.transit_times[j]
  rw [hs.self hmem, sub_self] at hw
  have hf : T.orbit.trueAnomaly T.transit_times[j] = T.kepler.trueAnomaly T.kepler.t0 := by
    unfold Orbit.trueAnomaly
    rw [hw]
    simp only [Ttv.kepler, sub_self]
  have hpos : ∀ a, T.orbit.position C a T.transit_times[j] px false = T.kepler.position C a T.kepler.t0 px false := by
    intro a
    simp only [Orbit.position, Orbit.positionNow, hf, Bool.false_eq_true, if_false]
    rfl
  refine ⟨hpos _, hpos _, hpos _, ?_⟩
  simp only [Orbit.planetVelocity, Orbit.velocity, hf]
  rfl

/-- **C31** (labelled transits, geometrically): for a physical orbit with `sin ω ≠ -1` (see C06) the planet is in front of the
star, at projected distance `|b| r_star` from its centre, at every labelled transit time. -/
theorem C31_mid_transit (C : Consts) (K : TtvArgs) (T : Ttv) (h : ttvInit C K = .ok (some T))
    (hinc : T.all_transit_times.Pairwise (· < ·)) (hP : 0 < T.ttv_period) (hn : T.transit_inds.Nodup)
    (hp : T.kepler.Physical) (hw : ∀ p, T.orbit.ecc = some p → p.sin_omega ≠ -1) (t : ℝ) (ht : t ∈ T.transit_times) :
    √((T.orbit.relativePosition C t).x ^ 2 + (T.orbit.relativePosition C t).y ^ 2) = |T.orbit.b| * T.orbit.r_star ∧
    0 ≤ T.orbit.sin_incl * (T.orbit.relativePosition C t).z := by
  obtain ⟨⟨A, hA⟩, hpos⟩ := C31_labelled C K T h hinc hP hn
  have B := built_of_init hA
  have hsw : T.kepler.sw ≠ -1 := by
    unfold Orbit.sw
    change (match T.orbit.ecc with | none => _ | some p => _) ≠ _
    rcases he : T.orbit.ecc with _ | p
    · norm_num
    · exact hw p he
  rw [(hpos t ht none).1, B.relativePosition_t0 hp hsw]
  have h1 := Orbit.Omega_sq (o := T.kepler)
  have hR := hp.r_star_pos
  constructor
  · simp only
    rw [show (T.kepler.sW * (T.kepler.b * T.kepler.r_star)) ^ 2 + (-T.kepler.cW * (T.kepler.b * T.kepler.r_star)) ^ 2 =
      (T.kepler.b * T.kepler.r_star) ^ 2 by linear_combination (T.kepler.b * T.kepler.r_star) ^ 2 * h1,
      sqrt_sq_eq_abs, abs_mul, abs_of_pos hR]
    rfl
  · simp only
    change 0 ≤ T.kepler.sin_incl * _
    rw [← mul_assoc, ← sq]
    have h2 := (B.one_add_esw_pos hp)
    have h3 := hp.eccOk.ome2_pos
    have h4 := hp.a_pos
    positivity

/-- **C31** (missing transits): a transit number that is not labelled is placed at `t0 + period * k`. This is the linear
ephemeris `t0 + ttv_period * k` when `period` and `ttv_period` agree. Missing: `period` given separately, where it is false
(`C31_missing_counterexample`). -/
theorem C31_missing_partial (C : Consts) (K : TtvArgs) (T : Ttv) (h : ttvInit C K = .ok (some T))
    (hper : K.ttvs = none → K.base.period = none ∧ K.delta_log_period = none) (k : ℕ) (hk : k < T.all_transit_times.length)
    (hm : k ∉ T.transit_inds) :
    T.all_transit_times[k] = T.orbit.t0 + T.ttv_period * k := by
  obtain ⟨A, o, ho, hD, hcase⟩ := ttv_cases h
  have h1 := (allTransitTimes_spec hD.all_eq).2.2.2.1 k hk hm
  rw [List.getElem?_eq_getElem hk, Option.some.injEq] at h1
  have hp : T.ttv_period = o.period := by
    rcases hcase with ⟨-, -, hp, -⟩ | ⟨hv, -, -, c, -, hA, -⟩
    · exact hp
    · obtain ⟨hb, hd⟩ := hper hv
      have B := built_of_init ho
      have hAp : A.period = some (T.ttv_period : Q) := by rw [hA]; simp [TtvArgs.fitted, TtvArgs.shapePeriod, hb, hd]
      exact (B.period_given hAp).symm
  rw [h1, hp, hD.orbit_eq]

/-- **C31 is false for missing transits when `period` is given separately**: with transits 0 and 2 observed at times 0 and 2
(mean period 1) and `period=1.1`, the missing transit 1 is placed at 1.1, not at 1. -/
theorem C31_missing_counterexample (C : Consts) : ∃ K T, ttvInit C K = .ok (some T) ∧ 1 ∉ T.transit_inds ∧
    ∃ x, T.all_transit_times[1]? = some x ∧ x ≠ T.orbit.t0 + T.ttv_period * (1 : ℕ) := by
  obtain ⟨T, h, h0, -, hp, hi, -, -, ha, -⟩ := demoTtv_ok C
  refine ⟨_, T, h, by rw [hi]; simp, 11 / 10, by rw [ha]; rfl, ?_⟩
  rw [h0, hp]; norm_num

/-- Hypotheses of `C31_labelled` and `C31_mid_transit`. -/
example (C : Consts) : ∃ K T, ttvInit C K = .ok (some T) ∧ T.all_transit_times.Pairwise (· < ·) ∧ 0 < T.ttv_period ∧
    T.transit_inds.Nodup ∧ T.kepler.Physical := by
  obtain ⟨T, h, -, -, hp, hi, -, -, ha, hk⟩ := demoTtv_ok C
  refine ⟨_, T, h, ?_, ?_, ?_, hk⟩
  · rw [ha]; norm_num
  · rw [hp]; norm_num
  · rw [hi]; decide

/-- `TTVOrbit(ttvs=[[0, 0, 0]], period=1, a=10, b=0.5)` and with a missing transit. -/
noncomputable def demoZero (inds : Option (List ℕ)) : TtvArgs :=
  { base := demoCirc, ttvs := some [0, 0, 0], transit_inds := inds }

theorem demoZero_ok (C : Consts) : ∃ T, ttvInit C (demoZero (some [0, 1, 3])) = .ok (some T) ∧ T.kepler.Physical ∧
    T.orbit.period = 1 ∧ 2 ∉ T.transit_inds ∧ 2 < T.all_transit_times.length ∧ T.ttvs = [0, 0, 0] := by
  obtain ⟨o, ho, hp, -, hP, -⟩ := demoCirc_ok C
  obtain ⟨tts, htts⟩ := allTransitTimes_error (t0 := o.t0) (P := o.period) (inds := [0, 1, 3])
    (times := [o.t0 + o.period * ((0 : ℕ) : ℝ) + 0, o.t0 + o.period * ((1 : ℕ) : ℝ) + 0, o.t0 + o.period * ((3 : ℕ) : ℝ) + 0])
    (by simp)
  have hlen := (allTransitTimes_spec htts).2.1 3 (by simp)
  unfold ttvInit
  simp only [demoZero, ho, Option.getD_some, List.length_cons, ne_eq, ttvFinish, List.zipWith_cons_cons,
    List.zipWith_nil_left, htts]
  refine ⟨_, rfl, ⟨?_, ?_, ?_, ?_, ?_, ?_, ?_, ?_, ?_, ?_⟩, hP, by simp, by simp only; omega, rfl⟩
  · exact hp.period_pos
  · exact hp.a_pos
  · exact hp.m_star_pos
  · exact hp.m_planet_nonneg
  · exact hp.r_star_pos
  · exact hp.rho_star_pos
  · exact hp.ecc_nonneg
  · exact hp.ecc_lt_one
  · exact hp.omega_unit
  · exact hp.cos_incl_abs

/-- Hypotheses of `C31_missing_partial`. -/
example (C : Consts) : ∃ K T k, ttvInit C K = .ok (some T) ∧
    (K.ttvs = none → K.base.period = none ∧ K.delta_log_period = none) ∧ k < T.all_transit_times.length ∧
    k ∉ T.transit_inds := by
  obtain ⟨T, h, -, -, h1, h2, -⟩ := demoZero_ok C
  exact ⟨_, T, 2, h, fun h => (by cases h), h2, h1⟩

/-! ## C32 -/

/-- **C32** (zero `ttvs`): for any number of transits and any transit numbers, every observable at every time (also outside
the labelled range) equals that of the `KeplerianOrbit` built from the same arguments. Missing: light-delayed positions,
which `TTVOrbit` does not support (C35). -/
theorem C32_zero_ttvs_partial (C : Consts) (K : TtvArgs) (T : Ttv) (h : ttvInit C K = .ok (some T))
    (vs : List ℝ) (hv : K.ttvs = some vs) (hz : ∀ v ∈ vs, v = 0) (o : Orbit) (ho : keplerianInit C K.base = .ok o)
    (hp : o.Physical) : SameObservables C T.orbit o := by
  obtain ⟨A, o', ho', hD, ⟨h1, hA, hper, hi, hl, ht⟩ | ⟨h1, -⟩⟩ := ttv_cases h
  swap
  · rw [hv] at h1; cases h1
  rw [hA, ho, Except.ok.injEq] at ho'
  subst ho'
  rw [hv, Option.some.injEq] at h1
  have B := built_of_init ho
  have hlin := allTransitTimes_linear hD.all_eq (by
    intro q hq
    rw [ht] at hq
    obtain ⟨j, hj, rfl⟩ := List.mem_iff_getElem.1 hq
    simp only [List.getElem_zip, List.getElem_zipWith]
    have hj' : j < T.ttvs.length := by simp at hj; omega
    have : T.ttvs[j] = 0 := hz _ (by rw [h1]; exact List.getElem_mem _)
    rw [this, add_zero])
  have hP := hp.period_pos
  have hinc : T.all_transit_times.Pairwise (· < ·) := by
    rw [hlin, List.pairwise_map]
    refine List.pairwise_lt_range.imp fun {a b} hab => ?_
    have : (a : ℝ) < b := by exact_mod_cast hab
    nlinarith
  rw [hD.orbit_eq]
  refine sameObservables_of_phase C o hP B.n_eq hp.eccOk _ fun t => ?_
  obtain ⟨hs, -⟩ := modelDt_nearest (p := T.ttv_period) (allTransitTimes_spec hD.all_eq).1 hinc (by rw [hper]; exact hP) t
  rw [← hD.edges_eq, ← hD.values_eq, hlin] at hs
  obtain ⟨k, -, hk⟩ := List.mem_map.1 hs
  refine ⟨-(k : ℤ), ?_⟩
  rw [← hk, B.warp_eq]
  push_cast
  ring

/-- **C32** (exactly periodic `transit_times`): likewise, the `KeplerianOrbit` with period `P` and reference time `t0`. -/
theorem C32_periodic_times_partial (C : Consts) (K : TtvArgs) (T : Ttv) (h : ttvInit C K = .ok (some T))
    (hv : K.ttvs = none) (hb : K.base.period = none) (hd : K.delta_log_period = none) (t0 P : ℝ)
    (hper : ∀ q ∈ List.zip T.transit_inds T.transit_times, q.2 = t0 + P * (q.1 : ℝ)) (o : Orbit)
    (ho : keplerianInit C { K.base with t0 := some t0, period := some P } = .ok o) (hp : o.Physical) :
    SameObservables C T.orbit o := by
  obtain ⟨e1, e2, -⟩ := C29_exact C K T h hv t0 P hper
  obtain ⟨A, o', ho', hD, ⟨h1, -⟩ | ⟨-, -, -, c, -, hA, hc, -⟩⟩ := ttv_cases h
  · rw [hv] at h1; cases h1
  have hc' : c = t0 := by
    rw [← e1, hD.orbit_eq]
    exact hc.symm
  have hA' : A = { K.base with t0 := some (t0 : Q), period := some (P : Q) } := by
    rw [hA, hc', e2]; simp [TtvArgs.fitted, TtvArgs.shapePeriod, hb, hd]
  rw [hA', ho, Except.ok.injEq] at ho'
  subst ho'
  have B := built_of_init ho
  have hoP : o.period = P := B.period_given rfl
  have ht0 : o.t0 = t0 := B.t0_given rfl
  have hlin := allTransitTimes_linear hD.all_eq (by rw [ht0, hoP]; exact hper)
  have hP := hp.period_pos
  have hinc : T.all_transit_times.Pairwise (· < ·) := by
    rw [hlin, List.pairwise_map]
    refine List.pairwise_lt_range.imp fun {a b} hab => ?_
    have : (a : ℝ) < b := by exact_mod_cast hab
    nlinarith
  rw [hD.orbit_eq]
  refine sameObservables_of_phase C o hP B.n_eq hp.eccOk _ fun t => ?_
  obtain ⟨hs, -⟩ := modelDt_nearest (p := T.ttv_period) (allTransitTimes_spec hD.all_eq).1 hinc (by rw [e2, ← hoP]; exact hP) t
  rw [← hD.edges_eq, ← hD.values_eq, hlin] at hs
  obtain ⟨k, -, hk⟩ := List.mem_map.1 hs
  refine ⟨-(k : ℤ), ?_⟩
  rw [← hk, B.warp_eq]
  push_cast
  ring

/-- Hypotheses of `C32_zero_ttvs_partial`. -/
example (C : Consts) : ∃ K T vs o, ttvInit C K = .ok (some T) ∧ K.ttvs = some vs ∧ (∀ v ∈ vs, v = 0) ∧
    keplerianInit C K.base = .ok o ∧ o.Physical := by
  obtain ⟨T, h, -⟩ := demoZero_ok C
  obtain ⟨o, ho, hp, -⟩ := demoCirc_ok C
  exact ⟨_, T, _, o, h, rfl, by simp, ho, hp⟩

/-- Hypotheses of `C32_periodic_times_partial`: `TTVOrbit(transit_times=[[0, 2]], transit_inds=[[0, 2]], a=10, b=0.5)`. -/
example (C : Consts) : ∃ K T o, ttvInit C K = .ok (some T) ∧ K.ttvs = none ∧ K.base.period = none ∧
    K.delta_log_period = none ∧ (∀ q ∈ List.zip T.transit_inds T.transit_times, q.2 = 0 + 1 * (q.1 : ℝ)) ∧
    keplerianInit C { K.base with t0 := some (0 : ℝ), period := some (1 : ℝ) } = .ok o ∧ o.Physical := by
  have hG := C.G_pos
  have hg := C.gccPerSun_pos
  have hpi := pi_pos
  obtain ⟨o, ho, hp⟩ : ∃ o, keplerianInit C { ({ a := some (10 : ℝ), b := some (1 / 2 : ℝ) } : Args) with
      t0 := some (0 : ℝ), period := some (1 : ℝ) } = .ok o ∧ o.Physical := by
    refine ⟨_, rfl, ⟨?_, ?_, ?_, ?_, ?_, ?_, ?_, ?_, ?_, ?_⟩⟩ <;> simp [inclFactorOf] <;> try positivity
    norm_num
  obtain ⟨tts, htts⟩ := allTransitTimes_error (t0 := o.t0) (P := o.period) (inds := [0, 2]) (times := [0, 2]) (by simp)
  refine ⟨{ base := { a := some (10 : ℝ), b := some (1 / 2 : ℝ) }, transit_times := some [0, 2],
            transit_inds := some [0, 2] }, ?_⟩
  unfold ttvInit
  simp only [TtvArgs.shapePeriod, Option.getD_some, List.length_cons, ne_eq, demoTtv_fit] at ho ⊢
  simp only [ho, ttvFinish, htts]
  exact ⟨_, o, rfl, trivial, trivial, trivial, by simp, rfl, hp⟩

/-! ## C33 -/

/-- **C33** (relation): whichever was given, `transit_times = t0 + ttv_period * transit_inds + ttvs`, entry by entry, and the
given vector is reported unchanged. When `ttvs` were given `ttv_period` is `period`. -/
theorem C33_relation (C : Consts) (K : TtvArgs) (T : Ttv) (h : ttvInit C K = .ok (some T)) :
    T.transit_inds.length = T.transit_times.length ∧ T.ttvs.length = T.transit_times.length ∧
    (∀ (j i : ℕ) (y v : ℝ), T.transit_inds[j]? = some i → T.transit_times[j]? = some y → T.ttvs[j]? = some v →
      y = T.orbit.t0 + T.ttv_period * i + v) ∧
    (∀ vs, K.ttvs = some vs → T.ttvs = vs ∧ T.ttv_period = T.orbit.period) ∧
    (K.ttvs = none → K.transit_times = some T.transit_times) := by
  obtain ⟨A, o, ho, hD, ⟨h1, hA, hper, hi, hl, ht⟩ | ⟨hv, ht, hi, c, hf, hA, hc, hr⟩⟩ := ttv_cases h
  · refine ⟨hD.length_eq, by rw [← hD.length_eq, hl], ?_, ?_, ?_⟩
    · intro j i y v hi hy hv
      rw [ht, List.getElem?_zipWith, hi, hv] at hy
      simp only [Option.some.injEq] at hy
      rw [← hy, hper, hD.orbit_eq]
    · intro vs hvs
      rw [hvs, Option.some.injEq] at h1
      exact ⟨h1.symm, by rw [hper, hD.orbit_eq]⟩
    · intro hn; rw [hn] at h1; cases h1
  · refine ⟨hD.length_eq, ?_, ?_, ?_, fun _ => ht⟩
    · rw [hr, List.length_zipWith, hD.length_eq, min_self]
    · intro j i y v hi hy hv
      rw [hr, List.getElem?_zipWith, hi, hy] at hv
      simp only [Option.some.injEq] at hv
      rw [← hv, hD.orbit_eq]
      simp only [hc]
      ring
    · intro vs hvs; rw [hvs] at hv; cases hv

/-- **C33** (round trip): an orbit built from `transit_times` (no separate period) is reproduced exactly — transit times,
positions, everything — by rebuilding it from its own `t0`, `period`, `ttvs` and `transit_inds`. Missing: a separately given
`period` (`C33_period_counterexample`). -/
theorem C33_round_trip_partial (C : Consts) (K : TtvArgs) (T : Ttv) (h : ttvInit C K = .ok (some T)) (hv : K.ttvs = none)
    (hb : K.base.period = none) (hd : K.delta_log_period = none) :
    ttvInit C { base := { K.base with t0 := some T.orbit.t0, period := some T.orbit.period }
                ttvs := some T.ttvs, transit_inds := some T.transit_inds } = .ok (some T) := by
  have hrel := C33_relation C K T h
  obtain ⟨A, o, ho, hD, ⟨h1, -⟩ | ⟨-, ht, hi, c, hf, hA, hc, hr⟩⟩ := ttv_cases h
  · rw [hv] at h1; cases h1
  have B := built_of_init ho
  have hAp : A.period = some (T.ttv_period : Q) := by rw [hA]; simp [TtvArgs.fitted, TtvArgs.shapePeriod, hb, hd]
  have hoP : o.period = T.ttv_period := B.period_given hAp
  have e1 : T.orbit.t0 = o.t0 := by rw [hD.orbit_eq]
  have e2 : T.orbit.period = o.period := by rw [hD.orbit_eq]
  have hA' : A = { K.base with t0 := some (T.orbit.t0 : Q), period := some (T.orbit.period : Q) } := by
    rw [hA, e1, e2, hoP, hc]; simp [TtvArgs.fitted, TtvArgs.shapePeriod, hb, hd]
  unfold ttvInit
  simp only [Option.getD_some]
  rw [hA'] at ho
  simp only at ho
  rw [ho]
  simp only
  rw [if_neg (by rw [hrel.1, hrel.2.1]; simp)]
  have htimes : List.zipWith (fun (i : ℕ) ttv => o.t0 + o.period * (i : ℝ) + ttv) T.transit_inds T.ttvs =
      T.transit_times := by
    apply List.ext_getElem?
    intro j
    rw [List.getElem?_zipWith]
    by_cases hj : j < T.transit_times.length
    · have a1 : j < T.transit_inds.length := by rw [hrel.1]; exact hj
      have a2 : j < T.ttvs.length := by rw [hrel.2.1]; exact hj
      have := hrel.2.2.1 j _ _ _ (List.getElem?_eq_getElem a1) (List.getElem?_eq_getElem hj) (List.getElem?_eq_getElem a2)
      rw [List.getElem?_eq_getElem a1, List.getElem?_eq_getElem hj, List.getElem?_eq_getElem a2]
      simp only
      rw [this, e1, hoP]
    · have a1 : ¬ j < T.transit_inds.length := by rw [hrel.1]; exact hj
      rw [List.getElem?_eq_none (by omega), List.getElem?_eq_none (l := T.transit_times) (by omega)]
  rw [htimes]
  unfold ttvFinish
  rw [hD.all_eq]
  simp only
  rw [Except.ok.injEq, Option.some.injEq]
  have e3 := hD.orbit_eq
  have e4 := hD.edges_eq
  have e5 := hD.values_eq
  cases T
  simp only at e3 e4 e5 hoP ⊢
  subst e4 e5
  rw [e3, hoP]

/-- **C33 is false when `period` is given separately**: `transit_times ≠ t0 + period * transit_inds + ttvs`. -/
theorem C33_period_counterexample (C : Consts) : ∃ K T, ttvInit C K = .ok (some T) ∧
    ∃ (j i : ℕ) (y v : ℝ), T.transit_inds[j]? = some i ∧ T.transit_times[j]? = some y ∧ T.ttvs[j]? = some v ∧
      y ≠ T.orbit.t0 + T.orbit.period * i + v := by
  obtain ⟨T, h, h0, hP, -, hi, ht, hv, -⟩ := demoTtv_ok C
  refine ⟨_, T, h, 1, 2, 2, 0, by rw [hi]; rfl, by rw [ht]; rfl, by rw [hv]; rfl, ?_⟩
  rw [h0, hP]; norm_num

/-- **C33** (neither given): a `ValueError`. -/
theorem C33_neither (C : Consts) (K : TtvArgs) (h1 : K.ttvs = none) (h2 : K.transit_times = none) :
    ttvInit C K = .error (.valueError "one of 'ttvs' or 'transit_times' must be defined") := by
  unfold ttvInit
  simp only [h1, h2]

/-! ## C34 -/

theorem mem_arangeInt {lo hi k : ℤ} : k ∈ arangeInt lo hi ↔ lo ≤ k ∧ k < hi := by
  unfold arangeInt
  simp only [List.mem_map, List.mem_range]
  constructor
  · rintro ⟨i, hi, rfl⟩; omega
  · rintro ⟨h1, h2⟩; exact ⟨(k - lo).toNat, by omega, by omega⟩

theorem arangeInt_pairwise (lo hi : ℤ) : (arangeInt lo hi).Pairwise (· < ·) := by
  unfold arangeInt
  rw [List.pairwise_map]
  refine List.pairwise_lt_range.imp fun {a b} hab => ?_
  omega

/-- **C34**: for any number of planets and positive periods, the result for each planet is the strictly increasing list of all
`t0 + k period` with `min_time ≤ t < max_time`. Missing: a transit exactly at `max_time`, which is left out although
`min_time ≤ t ≤ max_time` (`C34_endpoint_counterexample`). -/
theorem C34_expected_times_partial (lo hi : ℝ) (periods t0s : List ℝ) (hl : periods.length = t0s.length)
    (hP : ∀ p ∈ periods, 0 < p) :
    (expectedTransitTimes lo hi periods t0s).length = periods.length ∧
    ∀ (j : ℕ) (p t0 : ℝ) (l : List ℝ), periods[j]? = some p → t0s[j]? = some t0 →
      (expectedTransitTimes lo hi periods t0s)[j]? = some l →
      l.Pairwise (· < ·) ∧ ∀ t, t ∈ l ↔ (∃ k : ℤ, t = t0 + k * p) ∧ lo ≤ t ∧ t < hi := by
  refine ⟨by unfold expectedTransitTimes; simp [hl], ?_⟩
  intro j p t0 l hp ht hlj
  unfold expectedTransitTimes at hlj
  rw [List.getElem?_zipWith, hp, ht] at hlj
  simp only [Option.some.injEq] at hlj
  have hp0 := hP p (List.mem_of_getElem? hp)
  subst hlj
  unfold expectedTimes1
  simp only
  refine ⟨?_, fun t => ?_⟩
  · apply List.Pairwise.filter
    rw [List.pairwise_map]
    refine (arangeInt_pairwise _ _).imp fun {a b} hab => ?_
    have : (a : ℝ) < b := by exact_mod_cast hab
    nlinarith
  · rw [List.mem_filter, List.mem_map]
    simp only [decide_eq_true_eq, mem_arangeInt]
    constructor
    · rintro ⟨⟨k, ⟨h1, h2⟩, rfl⟩, h3, h4⟩
      refine ⟨⟨k, by ring⟩, h3, ?_⟩
      rw [Int.lt_ceil, lt_div_iff₀ hp0] at h2
      linarith
    · rintro ⟨⟨k, rfl⟩, h3, h4⟩
      refine ⟨⟨k, ⟨?_, ?_⟩, by ring⟩, h3, h4.le⟩
      · have : (lo - t0) / p ≤ k := by rw [div_le_iff₀ hp0]; linarith
        exact_mod_cast (Int.floor_le ((lo - t0) / p)).trans this
      · rw [Int.lt_ceil, lt_div_iff₀ hp0]; linarith

/-- **C34 is false at the end of the data span**: for data from 0 to 10 and transits at 0, 5, 10 the one at 10 is missing. -/
theorem C34_endpoint_counterexample : ∃ l, (expectedTransitTimes 0 10 [5] [0])[0]? = some l ∧ (10 : ℝ) ∉ l ∧
    (∃ k : ℤ, (10 : ℝ) = 0 + k * 5) ∧ (0 : ℝ) ≤ 10 ∧ (10 : ℝ) ≤ 10 := by
  obtain ⟨-, h⟩ := C34_expected_times_partial 0 10 [5] [0] rfl (by simp)
  refine ⟨expectedTimes1 0 10 5 0, rfl, fun hm => ?_, ⟨2, by norm_num⟩, by norm_num, le_refl _⟩
  have := ((h 0 5 0 _ rfl rfl rfl).2 10).1 hm
  exact absurd this.2.2 (lt_irrefl _)

/-! ## C35 -/

/-- **C35** (light delay), the part that holds: for one planet and a single time (scalar or length-one vector) the shape of
light-delayed positions is that of the un-delayed ones. Missing: everything else (`C35_shape_counterexample`) and the
companion orbit (`C35_flip_counterexample`). -/
theorem C35_light_delay_partial : publicShape true 1 [] true = publicShape true 1 [] false ∧
    publicShape true 1 [1] true = publicShape true 1 [1] false := by decide

theorem bcastDim_self (n : ℕ) : bcastDim n n = .ok n := by simp [bcastDim]

theorem bcastDim_one_left (n : ℕ) : bcastDim 1 n = .ok n := by
  unfold bcastDim; split
  · next h => rw [h]
  · rfl

theorem retarded_ttv (nt np : ℕ) : retardedShape true np [nt] =
    (match bcastDim nt np with
      | .error e => .error e
      | .ok d => .ok [nt, d, np]) := by
  have h1 : positionShape true np [nt] true = .ok [nt, np] := by
    simp [positionShape, warpShape, bcastShape, bcastRev, bcastDim_self, bcastDim_one_left]
  have h2 : bcastShape ([nt] ++ [1]) [nt, np] = .ok [nt, np] := by
    simp [bcastShape, bcastRev, bcastDim_self, bcastDim_one_left]
  unfold retardedShape
  rw [h1]
  simp only
  rw [h2]
  simp only [positionShape, warpShape, bcastShape, bcastRev, bcastDim_self, List.reverse_cons, List.reverse_nil,
    List.nil_append, List.cons_append, if_true, Bool.false_eq_true, if_false]
  rcases hd : bcastDim nt np with e | d
  · rfl
  · simp [bcastRev, bcastDim_self]

/-- **C35 is false for light-delayed positions**: with `nt ≥ 2` timestamps, the delayed call never returns the shape of the
un-delayed one, for any number of planets; for `np ≥ 2` planets with `np ≠ nt` it raises. On a `KeplerianOrbit` both calls
return the same shape. -/
theorem C35_shape_counterexample (nt np : ℕ) (hn : 2 ≤ nt) (hp : 1 ≤ np) :
    publicShape true np [nt] true ≠ publicShape true np [nt] false ∧
    (2 ≤ np → np ≠ nt → publicShape true np [nt] true = .error .shapeMismatch) ∧
    publicShape false np [nt] true = publicShape false np [nt] false ∧
    publicShape true np [nt] false = publicShape false np [nt] false := by
  have hu : ∀ b, positionShape b np [nt] true = .ok [nt, np] := by
    intro b
    cases b <;> simp [positionShape, warpShape, bcastShape, bcastRev, bcastDim_self, bcastDim_one_left]
  have hk : retardedShape false np [nt] = .ok [nt, np] := by
    unfold retardedShape
    rw [hu]
    simp [positionShape, warpShape, bcastShape, bcastRev, bcastDim_self, bcastDim_one_left]
  have hlen : ∀ d e : ℕ, 2 ≤ d → squeezeShape [nt, d, e] ≠ squeezeShape [nt, e] := by
    intro d e hd heq
    have hc := congrArg List.length heq
    have h1 : nt ≠ 1 := by omega
    have h2 : d ≠ 1 := by omega
    by_cases h3 : e = 1 <;> simp [squeezeShape, h1, h2, h3] at hc
  refine ⟨?_, ?_, ?_, ?_⟩
  · unfold publicShape
    rw [if_pos rfl, if_neg (by simp), hu, retarded_ttv]
    simp only
    unfold bcastDim
    by_cases h1 : nt = np
    · simp only [if_pos h1]
      intro h
      exact hlen nt np hn (Except.ok.inj h)
    · have h2 : nt ≠ 1 := by omega
      simp only [if_neg h1, if_neg h2]
      by_cases h3 : np = 1
      · simp only [if_pos h3]
        intro h
        exact hlen nt np hn (Except.ok.inj h)
      · simp only [if_neg h3]
        intro h; cases h
  · intro h2 hne
    unfold publicShape
    rw [if_pos rfl, retarded_ttv]
    have : bcastDim nt np = .error .shapeMismatch := by
      unfold bcastDim
      rw [if_neg (Ne.symm hne), if_neg (by omega), if_neg (by omega)]
    rw [this]
  · unfold publicShape
    rw [if_pos rfl, if_neg (by simp), hu, hk]
  · unfold publicShape
    rw [if_neg (by simp), hu, if_neg (by simp), hu]

/-- **C35 is false for the companion orbit**: on every `TTVOrbit`, `_flip` raises `ValueError`. -/
theorem C35_flip_counterexample (C : Consts) (T : Ttv) (r : ℝ) :
    T.flip C r = .error (.valueError "one of 'ttvs' or 'transit_times' must be defined") :=
  C33_neither C _ rfl rfl

end Exo
