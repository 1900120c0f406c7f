import Verif.Model.LombScargle
import Verif.Props.Peaks
import Verif.Props.AutocorrEstimator
import Mathlib.Analysis.SpecialFunctions.Log.Deriv
import Mathlib.Analysis.Complex.ExponentialBounds

/-!
# C70
-/

namespace Exo
open Real

/-- The high-pass filter: amplitude response of a third-order Butterworth filter with cut-off `1 / P`. -/
noncomputable def highPass (P f : ℝ) : ℝ := 1 / √(1 + (1 / (P * f)) ^ 6)

theorem lsFilter_eq (P f : ℝ) (hf : f ≠ 0) : lsFilter (1.0 / P) f = highPass P f := by
  unfold lsFilter highPass
  rw [if_neg hf, div_div]
  norm_num

/-- C70. The filter multiplies by a factor strictly between 0 and 1, increasing with the frequency, and equal to `1/√2` at the filter
period. -/
theorem C70_filter (P : ℝ) (hP : 0 < P) :
    (∀ f, 0 < f → 0 < highPass P f ∧ highPass P f < 1) ∧ (∀ f g, 0 < f → f < g → highPass P f < highPass P g) ∧
      highPass P (1 / P) = 1 / √2 := by
  refine ⟨fun f hf => ?_, fun f g hf hfg => ?_, ?_⟩
  · have h : 0 < (1 / (P * f)) ^ 6 := by positivity
    unfold highPass
    refine ⟨by positivity, ?_⟩
    rw [div_lt_one (by positivity)]
    exact lt_sqrt_of_sq_lt (by linarith)
  · have hg : 0 < g := hf.trans hfg
    unfold highPass
    apply one_div_lt_one_div_of_lt (by positivity)
    apply sqrt_lt_sqrt (by positivity)
    have : 1 / (P * g) < 1 / (P * f) := one_div_lt_one_div_of_lt (by positivity) (mul_lt_mul_of_pos_left hfg hP)
    have := pow_lt_pow_left₀ this (by positivity) (by norm_num : 6 ≠ 0)
    linarith
  · unfold highPass
    rw [mul_one_div_cancel hP.ne']
    norm_num

/-- The steps of a successful call. -/
theorem lombScargle_ok {L : LombScargle} {argsort : List ℝ → List ℕ} {x y : List ℝ} {yerr : Option (List ℝ)}
    {min_period max_period filter_period : Option ℝ} {max_peaks : ℤ} {kw : Kw} {r : LsResult}
    (h : lombScargleEstimator L argsort x y yerr min_period max_period filter_period max_peaks kw = .ok r) :
    ∃ kw1 kw2 fp filtered, setRecip kw "maximum_frequency" min_period = .ok kw1 ∧
      setRecip kw1 "minimum_frequency" max_period = .ok kw2 ∧ checkKeywords kw2 = .ok () ∧ L x y yerr kw2 = .ok fp ∧
      lsFiltered filter_period fp.1 (fp.2.map fun P => P / (x.length : ℝ)) = .ok filtered ∧
      findPeaks argsort fp.1 filtered max_peaks = .ok r.peaks ∧ r.periodogram = (fp.1, fp.2.map fun P => P / (x.length : ℝ)) := by
  unfold lombScargleEstimator at h
  obtain ⟨kw1, h1, h⟩ := bind_ok h
  obtain ⟨kw2, h2, h⟩ := bind_ok h
  obtain ⟨u, h3, h⟩ := bind_ok h
  obtain ⟨fp, h4, h⟩ := bind_ok h
  obtain ⟨filtered, h5, h⟩ := bind_ok h
  obtain ⟨peaks, h6, h⟩ := bind_ok h
  cases h
  exact ⟨kw1, kw2, fp, filtered, h1, h2, h3, h4, h5, h6, rfl⟩

theorem lombScargle_intro {L : LombScargle} {argsort : List ℝ → List ℕ} {x y : List ℝ} {yerr : Option (List ℝ)}
    {min_period max_period filter_period : Option ℝ} {max_peaks : ℤ} {kw kw1 kw2 : Kw} {fp : List ℝ × List ℝ} {filtered : List ℝ} {peaks : Peaks}
    (h1 : setRecip kw "maximum_frequency" min_period = .ok kw1) (h2 : setRecip kw1 "minimum_frequency" max_period = .ok kw2)
    (h3 : checkKeywords kw2 = .ok ()) (h4 : L x y yerr kw2 = .ok fp)
    (h5 : lsFiltered filter_period fp.1 (fp.2.map fun P => P / (x.length : ℝ)) = .ok filtered)
    (h6 : findPeaks argsort fp.1 filtered max_peaks = .ok peaks) :
    lombScargleEstimator L argsort x y yerr min_period max_period filter_period max_peaks kw =
      .ok ⟨(fp.1, fp.2.map fun P => P / (x.length : ℝ)), peaks⟩ := by
  unfold lombScargleEstimator
  rw [h1]
  change (setRecip kw1 _ _ >>= _) = _
  rw [h2]
  change (checkKeywords kw2 >>= _) = _
  rw [h3]
  change (L x y yerr kw2 >>= _) = _
  rw [h4]
  change (lsFiltered _ _ _ >>= _) = _
  rw [h5]
  change (findPeaks _ _ _ _ >>= _) = _
  rw [h6]
  rfl

theorem pyRecip_ok {p v : ℝ} (h : pyRecip p = .ok v) : p ≠ 0 ∧ v = 1 / p := by
  unfold pyRecip at h
  split_ifs at h with hp
  cases h
  exact ⟨hp, by norm_num⟩

theorem setRecip_ok {kw kw' : Kw} {key : String} {p : Option ℝ} (h : setRecip kw key p = .ok kw') :
    (∀ q, p = some q → q ≠ 0 ∧ kw' key = some (some (1 / q))) ∧ (p = none → kw' key = kw key) ∧ ∀ k, k ≠ key → kw' k = kw k := by
  cases p with
  | none =>
    cases h
    exact ⟨fun q hq => (Option.some_ne_none q hq.symm).elim, fun _ => rfl, fun _ _ => rfl⟩
  | some q =>
    change (pyRecip q).map _ = _ at h
    cases hv : pyRecip q with
    | error e => rw [hv] at h; cases h
    | ok v =>
      rw [hv] at h
      cases h
      obtain ⟨h1, rfl⟩ := pyRecip_ok hv
      refine ⟨fun q' hq => ?_, fun h => (Option.some_ne_none q h).elim, fun k hk => if_neg hk⟩
      cases hq
      exact ⟨h1, if_pos rfl⟩

/-- C70. The period limits become the reciprocal frequency limits of the periodogram (winning over the frequency limits in `kwargs`), all
other keywords are passed on, and the periodogram returned is the power per data point, unfiltered. -/
theorem C70_limits_and_periodogram (L : LombScargle) (argsort : List ℝ → List ℕ) (x y : List ℝ) (yerr : Option (List ℝ))
    (min_period max_period filter_period : Option ℝ) (max_peaks : ℤ) (kw : Kw) (r : LsResult)
    (h : lombScargleEstimator L argsort x y yerr min_period max_period filter_period max_peaks kw = .ok r) :
    ∃ kw' freq power, L x y yerr kw' = .ok (freq, power) ∧
      (∀ p, min_period = some p → kw' "maximum_frequency" = some (some (1 / p))) ∧
      (min_period = none → kw' "maximum_frequency" = kw "maximum_frequency") ∧
      (∀ p, max_period = some p → kw' "minimum_frequency" = some (some (1 / p))) ∧
      (max_period = none → kw' "minimum_frequency" = kw "minimum_frequency") ∧
      (∀ k, k ≠ "maximum_frequency" → k ≠ "minimum_frequency" → kw' k = kw k) ∧
      r.periodogram.1 = freq ∧ r.periodogram.2.length = power.length ∧
      ∀ (i : ℕ) P, power[i]? = some P → r.periodogram.2[i]? = some (P / x.length) := by
  obtain ⟨kw1, kw2, fp, filtered, h1, h2, -, h4, -, -, h7⟩ := lombScargle_ok h
  obtain ⟨a1, a2, a3⟩ := setRecip_ok h1
  obtain ⟨b1, b2, b3⟩ := setRecip_ok h2
  refine ⟨kw2, fp.1, fp.2, h4, ?_, ?_, ?_, ?_, ?_, by rw [h7], by rw [h7, List.length_map], ?_⟩
  · intro p hp
    rw [b3 _ (by decide), (a1 p hp).2]
  · intro hp
    rw [b3 _ (by decide), a2 hp]
  · exact fun p hp => (b1 p hp).2
  · intro hp
    rw [b2 hp, a3 _ (by decide)]
  · intro k k1 k2
    rw [b3 k k2, a3 k k1]
  · intro i P hP
    rw [h7, List.getElem?_map, hP]
    rfl

/-- C70. The periodogram returned does not depend on the filter, nor on the number of peaks. -/
theorem C70_filter_does_not_touch_the_periodogram (L : LombScargle) (argsort : List ℝ → List ℕ) (x y : List ℝ) (yerr : Option (List ℝ))
    (min_period max_period filter_period filter_period' : Option ℝ) (max_peaks max_peaks' : ℤ) (kw : Kw) (r r' : LsResult)
    (h : lombScargleEstimator L argsort x y yerr min_period max_period filter_period max_peaks kw = .ok r)
    (h' : lombScargleEstimator L argsort x y yerr min_period max_period filter_period' max_peaks' kw = .ok r') :
    r.periodogram = r'.periodogram := by
  obtain ⟨kw1, kw2, fp, filtered, h1, h2, -, h4, -, -, h7⟩ := lombScargle_ok h
  obtain ⟨kw1', kw2', fp', filtered', h1', h2', -, h4', -, -, h7'⟩ := lombScargle_ok h'
  rw [h1] at h1'
  cases h1'
  rw [h2] at h2'
  cases h2'
  rw [h4] at h4'
  cases h4'
  rw [h7, h7']

/-- C70 (partial: it is not true that the filter only affects which peaks are selected, see `C70_filter_changes_the_reported_power`). The
peaks are the highest local maxima of the power times the filter; the power is that of the returned periodogram. -/
theorem C70_peaks_of_the_filtered_power_partial (L : LombScargle) (argsort : List ℝ → List ℕ) (ha : IsArgsort argsort) (x y : List ℝ)
    (yerr : Option (List ℝ)) (min_period max_period : Option ℝ) (P : ℝ) (max_peaks : ℤ) (hm : max_peaks ≠ 0) (kw : Kw) (r : LsResult)
    (h : lombScargleEstimator L argsort x y yerr min_period max_period (some P) max_peaks kw = .ok r)
    (hl : r.periodogram.1.length = r.periodogram.2.length) (hnd : r.periodogram.1.Nodup) (h0 : ∀ f ∈ r.periodogram.1, f ≠ 0) :
    ∃ filtered js ps, filtered.length = r.periodogram.2.length ∧
      (∀ (i : ℕ) f p, r.periodogram.1[i]? = some f → r.periodogram.2[i]? = some p → filtered[i]? = some (p * highPass P f)) ∧
      HighestMaxima filtered (max 1 max_peaks).toNat js ∧ r.peaks = .many ps ∧
      List.Forall₂ (fun j p => peakAt r.periodogram.1 filtered j = .ok p) js ps := by
  obtain ⟨kw1, kw2, fp, filtered, -, -, -, -, h5, h6, h7⟩ := lombScargle_ok h
  rw [h7] at hl hnd h0 ⊢
  simp only at hl hnd h0 ⊢
  unfold lsFiltered at h5
  simp only at h5
  cases hv : pyRecip P with
  | error e => rw [hv] at h5; cases h5
  | ok v =>
    rw [hv] at h5
    cases h5
    have hlen : (List.zipWith (fun P f => P * lsFilter v f) (fp.2.map fun P => P / (x.length : ℝ)) fp.1).length =
        (fp.2.map fun P => P / (x.length : ℝ)).length := by
      rw [List.length_zipWith, hl, min_self]
    obtain ⟨js, hH, h1, -⟩ := C57_highest_local_maxima argsort ha fp.1 _ (hl.trans hlen.symm) hnd max_peaks
    obtain ⟨ps, h2, h3⟩ := h1 hm
    rw [h6] at h2
    cases h2' : r.peaks with
    | one p => rw [h2'] at h2; cases h2
    | many l =>
      rw [h2'] at h2
      cases h2
      refine ⟨_, js, ps, hlen, ?_, hH, rfl, h3⟩
      intro i f p hf hp
      rw [List.getElem?_zipWith, hf, hp]
      simp only
      have := pyRecip_ok hv
      rw [this.2, ← lsFilter_eq P f (h0 f (List.mem_of_getElem? hf)), show (1.0 : ℝ) / P = 1 / P by norm_num]

/-- Three frequencies with a single peak in the middle. -/
noncomputable def demoLs : LombScargle := fun _ _ _ _ => .ok ([1, 2, 3], [exp (-100), 1, exp (-100)])

/-- Only the sample in the middle of three can be selected. -/
theorem three_one_max {power : List ℝ} (h3 : power.length = 3) (hmax : LocalMax power 1) {js : List ℕ} (hH : HighestMaxima power 1 js) :
    js = [1] := by
  have hall : ∀ j, LocalMax power j → j = 1 := by
    rintro j ⟨a, b, c, h1, -, -, hc, -, -⟩
    have : j + 1 < power.length := by
      by_contra h
      rw [List.getElem?_eq_none (by omega)] at hc
      cases hc
    omega
  have hlen := hH.atMost
  cases js with
  | nil => exact absurd (hH.all (by simp) 1 hmax) (by simp)
  | cons j l =>
    have : l = [] := List.length_eq_zero_iff.1 (by simp only [List.length_cons] at hlen; omega)
    rw [this, hall j (hH.isMax j (by simp))]

theorem three_peak (argsort : List ℝ → List ℕ) (ha : IsArgsort argsort) (a b c : ℝ) (ha0 : 0 < a) (hc0 : 0 < c) (hab : a < b)
    (hcb : c < b) :
    ∃ p L α β γ, findPeaks argsort [1, 2, 3] [a, b, c] 1 = .ok (.many [p]) ∧ p.index = 2 ∧ p.logPower = some L ∧
      α + β + γ = log a ∧ 4 * α + 2 * β + γ = log b ∧ 9 * α + 3 * β + γ = log c ∧ α < 0 ∧ L = γ - β ^ 2 / (4 * α) := by
  have hmono : ([1, 2, 3] : List ℝ).Pairwise (· < ·) := by
    simp only [List.pairwise_cons, List.mem_cons, List.not_mem_nil, or_false, List.Pairwise.nil, and_true]
    norm_num
  have hmax : LocalMax [a, b, c] 1 := ⟨a, b, c, le_refl _, rfl, rfl, rfl, hab, hcb⟩
  obtain ⟨js, hH, h1, -⟩ := C57_highest_local_maxima argsort ha [1, 2, 3] [a, b, c] rfl (hmono.imp fun h => ne_of_lt h) 1
  obtain ⟨ps, h2, h3⟩ := h1 one_ne_zero
  have hjs := three_one_max rfl hmax (js := js) (by simpa using hH)
  subst hjs
  cases h3 with
  | @cons _ p _ _ hp ht =>
    cases ht
    obtain ⟨p', α, β, γ, f₀, σ, L, x0, x1, x2, y0, y1, y2, e0, e1, e2, g0, g1, g2, hpk, ⟨q0, q1, q2⟩, hα, hpar, hσ, -, -, hL, -⟩ :=
      C58_fit_is_well_posed [1, 2, 3] [a, b, c] rfl (Or.inl hmono)
        (by
          intro z hz
          simp only [List.mem_cons, List.not_mem_nil, or_false] at hz
          rcases hz with rfl | rfl | rfl <;> linarith) 1 hmax
    cases e0; cases e1; cases e2; cases g0; cases g1; cases g2
    rw [hp] at hpk
    cases hpk
    refine ⟨p, L, α, β, γ, h2, peakAt_index hp, hL, by linear_combination q0, by linear_combination q1, by linear_combination q2, hα, ?_⟩
    have k0 := hpar 0
    have k1 := hpar 1
    have k2 := hpar 2
    have hs : 0 < 2 * σ ^ 2 := by positivity
    have r2 : α = -(1 / (2 * σ ^ 2)) := by
      have : (1 - f₀) ^ 2 / (2 * σ ^ 2) * 2 - (2 - f₀) ^ 2 / (2 * σ ^ 2) - (0 - f₀) ^ 2 / (2 * σ ^ 2) = -2 * (1 / (2 * σ ^ 2)) := by ring
      linarith
    have r1 : β = 2 * f₀ * (1 / (2 * σ ^ 2)) := by
      have : (0 - f₀) ^ 2 / (2 * σ ^ 2) - (1 - f₀) ^ 2 / (2 * σ ^ 2) = (2 * f₀ - 1) * (1 / (2 * σ ^ 2)) := by ring
      linarith
    have r0 : γ = L - f₀ ^ 2 * (1 / (2 * σ ^ 2)) := by
      have : (0 - f₀) ^ 2 / (2 * σ ^ 2) = f₀ ^ 2 * (1 / (2 * σ ^ 2)) := by ring
      linarith
    have hk : 0 < 1 / (2 * σ ^ 2) := by positivity
    generalize 1 / (2 * σ ^ 2) = k at *
    rw [r0, r1, r2]
    field_simp
    ring

/-- "Only affects peak selection" is false: here the same sample is selected with and without the filter, but the log-power reported for
it is lower with the filter. -/
theorem C70_filter_changes_the_reported_power (argsort : List ℝ → List ℕ) (ha : IsArgsort argsort) :
    ∃ r r' p p' l l', lombScargleEstimator demoLs argsort [0] [0] none none none none 1 (fun _ => none) = .ok r ∧
      lombScargleEstimator demoLs argsort [0] [0] none none none (some (1 / 2)) 1 (fun _ => none) = .ok r' ∧
      r.peaks = .many [p] ∧ r'.peaks = .many [p'] ∧ p.index = p'.index ∧ p.logPower = some l ∧ p'.logPower = some l' ∧ l' < l := by
  have hsmall : exp (-100) < 1 := by rw [exp_lt_one_iff]; norm_num
  have hfilt := C70_filter (1 / 2) (by norm_num)
  have f1 := hfilt.1 1 (by norm_num)
  have f3 := hfilt.1 3 (by norm_num)
  have f12 := hfilt.2.1 1 2 (by norm_num) (by norm_num)
  have f2 : highPass (1 / 2) 2 = 1 / √2 := by simpa using hfilt.2.2
  have f2pos : 0 < highPass (1 / 2) 2 := by linarith
  have l2 : log (highPass (1 / 2) 2) = -(log 2) / 2 := by
    rw [f2, one_div, log_inv, log_sqrt (by norm_num)]
    ring
  have l1 : -4 ≤ log (highPass (1 / 2) 1) := by
    unfold highPass
    rw [one_div, log_inv, log_sqrt (by norm_num)]
    have : log (1 + (1 / (1 / 2 * 1)) ^ 6) ≤ log (2 ^ 7 : ℝ) := log_le_log (by norm_num) (by norm_num)
    rw [log_pow] at this
    have := log_two_lt_d9
    push_cast at *
    linarith
  have l1' : log (highPass (1 / 2) 1) < 0 := log_neg f1.1 f1.2
  have l3 : log (highPass (1 / 2) 1) < log (highPass (1 / 2) 3) := log_lt_log f1.1 (hfilt.2.1 1 3 (by norm_num) (by norm_num))
  have l3' : log (highPass (1 / 2) 3) < 0 := log_neg f3.1 f3.2
  have hlt3 : exp (-100) * highPass (1 / 2) 3 < 1 * highPass (1 / 2) 2 := by
    have h4 : exp (-100) * highPass (1 / 2) 3 < exp (-100) * 1 := mul_lt_mul_of_pos_left f3.2 (exp_pos _)
    have h5 : exp (-100) ≤ 1 / 2 := by
      have := add_one_le_exp (100 : ℝ)
      rw [exp_neg, inv_le_comm₀ (exp_pos _) (by norm_num)]
      linarith
    have h6 : (1 : ℝ) / 2 < 1 / √2 := one_div_lt_one_div_of_lt (by positivity) (by
      rw [sqrt_lt' (by norm_num)]; norm_num)
    rw [f2]
    linarith
  have hlt1 : exp (-100) * highPass (1 / 2) 1 < 1 * highPass (1 / 2) 2 := by
    have : exp (-100) * highPass (1 / 2) 1 < 1 * highPass (1 / 2) 1 := mul_lt_mul_of_pos_right hsmall f1.1
    linarith
  obtain ⟨p, L, α, β, γ, h1, h2, h3, q0, q1, q2, hα, hL⟩ := three_peak argsort ha (exp (-100)) 1 (exp (-100)) (exp_pos _) (exp_pos _)
    hsmall hsmall
  obtain ⟨p', L', α', β', γ', h1', h2', h3', q0', q1', q2', hα', hL'⟩ := three_peak argsort ha (exp (-100) * highPass (1 / 2) 1)
    (1 * highPass (1 / 2) 2) (exp (-100) * highPass (1 / 2) 3) (mul_pos (exp_pos _) f1.1) (mul_pos (exp_pos _) f3.1) hlt1 hlt3
  refine ⟨⟨([1, 2, 3], [exp (-100), 1, exp (-100)]), .many [p]⟩, ⟨([1, 2, 3], [exp (-100), 1, exp (-100)]), .many [p']⟩, p, p', L, L',
    ?_, ?_, rfl, rfl, by rw [h2, h2'], h3, h3', ?_⟩
  · have e : ([exp (-100), 1, exp (-100)] : List ℝ).map (fun P => P / (([0] : List ℝ).length : ℝ)) = [exp (-100), 1, exp (-100)] := by
      simp
    refine (lombScargle_intro rfl rfl (if_pos ⟨rfl, rfl⟩) rfl (filtered := [exp (-100), 1, exp (-100)]) ?_ h1).trans ?_
    · exact congrArg _ e
    · simp only [e]
  · have e : ([exp (-100), 1, exp (-100)] : List ℝ).map (fun P => P / (([0] : List ℝ).length : ℝ)) = [exp (-100), 1, exp (-100)] := by
      simp
    refine (lombScargle_intro rfl rfl (if_pos ⟨rfl, rfl⟩) rfl (filtered := [exp (-100) * highPass (1 / 2) 1, 1 * highPass (1 / 2) 2,
      exp (-100) * highPass (1 / 2) 3]) ?_ h1').trans ?_
    · simp only [e]
      unfold lsFiltered pyRecip
      simp only
      rw [if_neg (by norm_num)]
      simp only [Except.map, List.zipWith_cons_cons, List.zipWith_nil_left, lsFilter_eq _ _ (one_ne_zero : (1 : ℝ) ≠ 0),
        lsFilter_eq _ _ (two_ne_zero : (2 : ℝ) ≠ 0), lsFilter_eq _ _ (three_ne_zero : (3 : ℝ) ≠ 0)]
    · simp only [e]
  · have hLe : L = 0 := by
      rw [log_exp] at q0 q2
      rw [log_one] at q1
      have e1 : α = -100 := by linarith
      have e2 : β = 400 := by linarith
      have e3 : γ = -400 := by linarith
      rw [hL, e1, e2, e3]
      norm_num
    rw [log_mul (exp_pos _).ne' f1.1.ne', log_exp] at q0'
    rw [one_mul, l2] at q1'
    rw [log_mul (exp_pos _).ne' f3.1.ne', log_exp] at q2'
    have hlog := log_two_gt_d9
    have hlog' := log_two_lt_d9
    have hα2 : α' ≤ -90 := by linarith
    have hs : 0 ≤ 4 * α' + β' ∧ 4 * α' + β' ≤ 2 := ⟨by linarith, by linarith⟩
    have e : γ' - β' ^ 2 / (4 * α') = (4 * α' + 2 * β' + γ') + (4 * α' + β') ^ 2 / (-(4 * α')) := by
      have := hα'.ne
      field_simp
      ring
    have hq : (4 * α' + β') ^ 2 / (-(4 * α')) ≤ 1 / 10 := by
      rw [div_le_iff₀ (by linarith)]
      nlinarith
    rw [hLe, hL', e, q1']
    linarith

/-- C70. A period limit or filter period of zero, and an explicit `method` or `normalization`, raise. -/
theorem C70_failures (L : LombScargle) (argsort : List ℝ → List ℕ) (x y : List ℝ) (yerr : Option (List ℝ))
    (min_period max_period filter_period : Option ℝ) (max_peaks : ℤ) (kw : Kw)
    (h : min_period = some 0 ∨ max_period = some 0 ∨ filter_period = some 0 ∨ kw "method" ≠ none ∨ kw "normalization" ≠ none) :
    ∃ e, lombScargleEstimator L argsort x y yerr min_period max_period filter_period max_peaks kw = .error e := by
  cases hr : lombScargleEstimator L argsort x y yerr min_period max_period filter_period max_peaks kw with
  | error e => exact ⟨e, rfl⟩
  | ok r =>
    exfalso
    obtain ⟨kw1, kw2, fp, filtered, h1, h2, h3, -, h5, -, -⟩ := lombScargle_ok hr
    have hz : ∀ {p : ℝ} {v : ℝ}, pyRecip p = .ok v → p ≠ 0 := fun h => (pyRecip_ok h).1
    obtain ⟨a1, -, a3⟩ := setRecip_ok h1
    obtain ⟨b1, -, b3⟩ := setRecip_ok h2
    unfold checkKeywords at h3
    split_ifs at h3 with hk
    rw [b3 _ (by decide), a3 _ (by decide), b3 _ (by decide), a3 _ (by decide)] at hk
    rcases h with h | h | h | h | h
    · exact (a1 0 h).1 rfl
    · exact (b1 0 h).1 rfl
    · subst h
      unfold lsFiltered pyRecip at h5
      simp only [if_true] at h5
      cases h5
    · exact h hk.1
    · exact h hk.2

/-- The hypotheses of the theorems above are met. -/
example : ∃ argsort r, IsArgsort argsort ∧
    lombScargleEstimator demoLs argsort [0] [0] none none none (some (1 / 2)) 1 (fun _ => none) = .ok r ∧
    r.periodogram.1.length = r.periodogram.2.length ∧ r.periodogram.1.Nodup ∧ ∀ f ∈ r.periodogram.1, f ≠ 0 := by
  obtain ⟨argsort, ha⟩ := exists_isArgsort
  obtain ⟨r, r', p, p', l, l', -, h, -⟩ := C70_filter_changes_the_reported_power argsort ha
  obtain ⟨kw1, kw2, fp, filtered, -, -, -, h4, -, -, h7⟩ := lombScargle_ok h
  cases h4
  refine ⟨argsort, r', ha, h, by rw [h7]; rfl, ?_, ?_⟩
  · rw [h7]
    simp only [List.nodup_cons, List.mem_cons, List.not_mem_nil, or_false, not_or]
    norm_num
  · rw [h7]
    intro f hf
    simp only [List.mem_cons, List.not_mem_nil, or_false] at hf
    rcases hf with rfl | rfl | rfl <;> norm_num

end Exo
