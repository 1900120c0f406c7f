import Verif.Lemmas.Peaks

/-!
# C57, C58, C59: `find_peaks`
-/

namespace Exo

/-- There is a sorting function of the kind NumPy promises. -/
theorem exists_isArgsort : ∃ argsort, IsArgsort argsort := by
  refine ⟨fun l => (List.range l.length).mergeSort fun i j => decide (l.getD i 0 ≤ l.getD j 0), ?_, ?_⟩
  · exact fun l => List.mergeSort_perm _ _
  · intro l
    rw [List.pairwise_map]
    have h := List.pairwise_mergeSort (le := fun i j : ℕ => decide (l.getD i 0 ≤ l.getD j 0))
      (fun a b c hab hbc => by
        simp only [decide_eq_true_eq] at *
        exact le_trans hab hbc)
      (fun a b => by
        simp only [Bool.or_eq_true, decide_eq_true_eq]
        exact le_total _ _) (List.range l.length)
    exact h.imp fun h => by simpa using h

/-- A periodogram with two peaks, the second one higher. -/
def demoFreq : List ℝ := [1, 2, 3, 4, 5]
def demoPower : List ℝ := [1, 2, 1, 4, 3]

theorem demoPower_max : LocalMax demoPower 1 ∧ LocalMax demoPower 3 := by
  refine ⟨⟨1, 2, 1, le_refl _, rfl, rfl, rfl, ?_, ?_⟩, ⟨1, 4, 3, by norm_num, rfl, rfl, rfl, ?_, ?_⟩⟩ <;> norm_num

theorem demoFreq_pairwise : demoFreq.Pairwise (· < ·) := by
  simp only [demoFreq, List.pairwise_cons, List.mem_cons, List.not_mem_nil, or_false, List.Pairwise.nil, and_true]
  norm_num

/-! ## C57 -/

theorem findPeaks_zero {argsort : List ℝ → List ℕ} {freq power : List ℝ} {max_peaks : ℤ} {ps : List Peak}
    (h : ((orderedInds argsort power).take (max 1 max_peaks).toNat).mapM (peakAt freq power) = .ok ps) (hm : max_peaks = 0) :
    findPeaks argsort freq power max_peaks = (match (generalizing := false) ps with
      | [] => .error (.valueError "no peaks were found")
      | p :: _ => .ok (.one p)) := by
  unfold findPeaks
  rw [h]
  simp only
  rw [if_neg (not_not.2 hm)]
  cases ps <;> rfl

/-- C57. For every power array on a grid of distinct frequencies, whatever the order in which NumPy sorts ties: the peaks returned are
those at the `max(1, max_peaks)` highest strict local maxima, highest first, all of them if there are fewer; with `max_peaks = 0` it is
the highest one alone, or a `ValueError` if there is none. -/
theorem C57_highest_local_maxima (argsort : List ℝ → List ℕ) (ha : IsArgsort argsort) (freq power : List ℝ)
    (hl : freq.length = power.length) (hf : freq.Nodup) (max_peaks : ℤ) :
    ∃ js, HighestMaxima power (max 1 max_peaks).toNat js ∧
      (max_peaks ≠ 0 → ∃ ps, findPeaks argsort freq power max_peaks = .ok (.many ps) ∧
        List.Forall₂ (fun j p => peakAt freq power j = .ok p) js ps) ∧
      (max_peaks = 0 →
        (js = [] ∧ findPeaks argsort freq power max_peaks = .error (.valueError "no peaks were found")) ∨
        ∃ j p, js = [j] ∧ findPeaks argsort freq power max_peaks = .ok (.one p) ∧ peakAt freq power j = .ok p) := by
  have hH := take_orderedInds ha power (max 1 max_peaks).toNat
  obtain ⟨ps, h1, h2⟩ := mapM_forall₂ (f := peakAt freq power) (l := (orderedInds argsort power).take (max 1 max_peaks).toNat)
    fun j hj => peakAt_ok hf hl (hH.isMax j hj)
  refine ⟨_, hH, ?_, ?_⟩
  · intro hm
    refine ⟨ps, ?_, h2⟩
    unfold findPeaks
    rw [h1]
    simp only
    rw [if_pos hm]
  · intro hm
    have hlen : ((orderedInds argsort power).take (max 1 max_peaks).toNat).length ≤ 1 := by
      have := hH.atMost
      rw [hm] at this ⊢
      simpa using this
    rw [findPeaks_zero h1 hm]
    clear h1
    generalize (orderedInds argsort power).take (max 1 max_peaks).toNat = js at *
    cases h2 with
    | nil => exact Or.inl ⟨rfl, rfl⟩
    | @cons j p js' ps' hp ht =>
      have : js' = [] := by
        simp only [List.length_cons] at hlen
        exact List.length_eq_zero_iff.1 (by omega)
      subst this
      exact Or.inr ⟨j, p, rfl, rfl, hp⟩

example : demoFreq.length = demoPower.length ∧ demoFreq.Nodup :=
  ⟨rfl, demoFreq_pairwise.imp fun h => ne_of_lt h⟩

/-- C57. In particular `ValueError` is raised iff `max_peaks = 0` and there is no local maximum, and nothing else is ever raised. -/
theorem C57_value_error_iff (argsort : List ℝ → List ℕ) (ha : IsArgsort argsort) (freq power : List ℝ)
    (hl : freq.length = power.length) (hf : freq.Nodup) (max_peaks : ℤ) :
    ((∃ e, findPeaks argsort freq power max_peaks = .error e) ↔ max_peaks = 0 ∧ ∀ j, ¬ LocalMax power j) ∧
    ∀ e, findPeaks argsort freq power max_peaks = .error e → e = .valueError "no peaks were found" := by
  obtain ⟨js, hH, h1, h2⟩ := C57_highest_local_maxima argsort ha freq power hl hf max_peaks
  by_cases hm : max_peaks = 0
  · rcases h2 hm with ⟨h3, h4⟩ | ⟨j, p, h3, h4, -⟩
    · refine ⟨⟨fun _ => ⟨hm, fun j hj => ?_⟩, fun _ => ⟨_, h4⟩⟩, fun e he => ?_⟩
      · have := hH.all (by rw [h3, hm]; decide) j hj
        rw [h3] at this
        cases this
      · rw [h4] at he
        cases he
        rfl
    · refine ⟨⟨fun ⟨e, he⟩ => ?_, fun ⟨_, hn⟩ => ?_⟩, fun e he => ?_⟩
      · rw [h4] at he
        cases he
      · exact (hn j (hH.isMax j (by rw [h3]; simp))).elim
      · rw [h4] at he
        cases he
  · obtain ⟨ps, h3, -⟩ := h1 hm
    refine ⟨⟨fun ⟨e, he⟩ => ?_, fun ⟨h, _⟩ => (hm h).elim⟩, fun e he => ?_⟩
    · rw [h3] at he
      cases he
    · rw [h3] at he
      cases he

/-- A monotone power array has no local maximum. -/
example : ∀ j, ¬ LocalMax [1, 2] j := by
  rintro j ⟨a, b, c, h1, -, -, hc, -, -⟩
  have : j + 1 < 2 := by
    by_contra h
    rw [List.getElem?_eq_none (by simp; omega)] at hc
    cases hc
  omega

/-! ## C58 -/

/-- C58. On a strictly monotone frequency grid with positive power, the fit at a local maximum `j` exists: it is the parabola through
the logarithms of the three powers; it opens downwards, its vertex `f₀` lies strictly between the neighbouring frequencies, the variance
`σ²` is positive, the log-power reported is the value at the vertex and at least that of the sample; and unless `f₀ = 0` (impossible for
positive frequencies) the period reported is `1/f₀` with the uncertainty `σ/f₀²`. -/
theorem C58_fit_is_well_posed (freq power : List ℝ) (hl : freq.length = power.length)
    (hmono : freq.Pairwise (· < ·) ∨ freq.Pairwise (· > ·)) (hpos : ∀ x ∈ power, 0 < x) (j : ℕ) (hj : LocalMax power j) :
    ∃ p α β γ f₀ σ L x0 x1 x2 y0 y1 y2,
      freq[j - 1]? = some x0 ∧ freq[j]? = some x1 ∧ freq[j + 1]? = some x2 ∧
      power[j - 1]? = some y0 ∧ power[j]? = some y1 ∧ power[j + 1]? = some y2 ∧
      peakAt freq power j = .ok p ∧
      (α * x0 ^ 2 + β * x0 + γ = Real.log y0 ∧ α * x1 ^ 2 + β * x1 + γ = Real.log y1 ∧ α * x2 ^ 2 + β * x2 + γ = Real.log y2) ∧
      α < 0 ∧ (∀ f, α * f ^ 2 + β * f + γ = L - (f - f₀) ^ 2 / (2 * σ ^ 2)) ∧ 0 < σ ∧
      ((x0 < f₀ ∧ f₀ < x2) ∨ (x2 < f₀ ∧ f₀ < x0)) ∧
      Real.log y1 ≤ L ∧ p.logPower = some L ∧
      (f₀ ≠ 0 → p.period = some (1 / f₀) ∧ p.periodUncert = some (σ / f₀ ^ 2)) ∧
      ((∀ f ∈ freq, 0 < f) → 0 < f₀) := by
  have hnd : freq.Nodup := by
    rcases hmono with h | h
    · exact h.imp fun h => ne_of_lt h
    · exact h.imp fun h => ne_of_gt h
  obtain ⟨a, b, c, h1, ha, hb, hc, hab, hcb⟩ := hj
  have hlen : j + 2 ≤ freq.length := by
    by_contra h
    rw [List.getElem?_eq_none (by omega)] at hc
    cases hc
  have ha0 : 0 < a := hpos a (List.mem_of_getElem? ha)
  have hb0 : 0 < b := hpos b (List.mem_of_getElem? hb)
  have hc0 : 0 < c := hpos c (List.mem_of_getElem? hc)
  have hdet := vander3_regular hnd h1 hlen
  obtain ⟨w, hw⟩ := npSolve_ok (A := vander3 fun k : Fin 3 => freq.getD (j - 1 + k) 0) ![Real.log a, Real.log b, Real.log c] hdet
  obtain ⟨e0, e1, e2⟩ := vander3_solution (npSolve_spec hw).2
  have x0 : freq[j - 1]? = some (freq.getD (j - 1) 0) := getElem?_getD (by omega)
  have x1 : freq[j]? = some (freq.getD j 0) := getElem?_getD (by omega)
  have x2 : freq[j + 1]? = some (freq.getD (j + 1) 0) := getElem?_getD (by omega)
  have i1 : j - 1 + 1 = j := by omega
  have i2 : j - 1 + 2 = j + 1 := by omega
  simp only [Fin.val_zero, Fin.val_one, Fin.val_two, add_zero, i1, i2] at e0 e1 e2
  have lt_of : ∀ (R : ℝ → ℝ → Prop), freq.Pairwise R → R (freq.getD (j - 1) 0) (freq.getD j 0) ∧
      R (freq.getD j 0) (freq.getD (j + 1) 0) := by
    intro R hR
    rw [List.pairwise_iff_getElem] at hR
    rw [List.getD_eq_getElem _ _ (by omega : j - 1 < freq.length), List.getD_eq_getElem _ _ (by omega : j < freq.length),
      List.getD_eq_getElem _ _ (by omega : j + 1 < freq.length)]
    exact ⟨hR _ _ _ _ (by omega), hR _ _ _ _ (by omega)⟩
  have hmono' : (freq.getD (j - 1) 0 < freq.getD j 0 ∧ freq.getD j 0 < freq.getD (j + 1) 0) ∨
      (freq.getD (j + 1) 0 < freq.getD j 0 ∧ freq.getD j 0 < freq.getD (j - 1) 0) := by
    rcases hmono with h | h
    · exact Or.inl (lt_of _ h)
    · exact Or.inr ⟨(lt_of _ h).2, (lt_of _ h).1⟩
  have hpk : peakAt freq power j = .ok (peakOfFit j w) := by
    unfold peakAt
    rw [if_neg (by omega)]
    simp only [getD_of_getElem? ha, getD_of_getElem? hb, getD_of_getElem? hc, flog, if_neg (not_le.2 ha0), if_neg (not_le.2 hb0),
      if_neg (not_le.2 hc0), hw]
    rfl
  have hlab : Real.log a < Real.log b := Real.log_lt_log ha0 hab
  have hlcb : Real.log c < Real.log b := Real.log_lt_log hc0 hcb
  have hposf : (∀ f ∈ freq, 0 < f) → 0 < freq.getD (j - 1) 0 ∧ 0 < freq.getD (j + 1) 0 :=
    fun h => ⟨h _ (List.mem_of_getElem? x0), h _ (List.mem_of_getElem? x2)⟩
  generalize freq.getD (j - 1) 0 = u0 at *
  generalize freq.getD j 0 = u1 at *
  generalize freq.getD (j + 1) 0 = u2 at *
  -- slopes of the two chords
  have s1 : (w 0 * (u1 + u0) + w 1) * (u1 - u0) = Real.log b - Real.log a := by linear_combination e1 - e0
  have s2 : (w 0 * (u2 + u1) + w 1) * (u2 - u1) = Real.log c - Real.log b := by linear_combination e2 - e1
  have key : w 0 < 0 ∧ ((u0 < -w 1 / (2 * w 0) ∧ -w 1 / (2 * w 0) < u2) ∨ (u2 < -w 1 / (2 * w 0) ∧ -w 1 / (2 * w 0) < u0)) := by
    rcases hmono' with ⟨m1, m2⟩ | ⟨m1, m2⟩
    · have p1 : 0 < w 0 * (u1 + u0) + w 1 := pos_of_mul_pos_left (by rw [s1]; linarith) (by linarith : 0 ≤ u1 - u0)
      have p2 : w 0 * (u2 + u1) + w 1 < 0 := by
        by_contra h
        have := mul_nonneg (not_lt.1 h) (by linarith : 0 ≤ u2 - u1)
        linarith
      have hw0 : w 0 < 0 := by
        by_contra h
        nlinarith [mul_nonneg (not_lt.1 h) (by linarith : 0 ≤ u2 - u0)]
      refine ⟨hw0, Or.inl ⟨?_, ?_⟩⟩
      · rw [lt_div_iff_of_neg (by linarith)]
        nlinarith
      · rw [div_lt_iff_of_neg (by linarith)]
        nlinarith
    · have p1 : w 0 * (u1 + u0) + w 1 < 0 := by
        by_contra h
        have := mul_nonneg (not_lt.1 h) (by linarith : 0 ≤ u0 - u1)
        nlinarith
      have p2 : 0 < w 0 * (u2 + u1) + w 1 := by
        by_contra h
        have := mul_nonneg (sub_nonneg.2 (not_lt.1 h)) (by linarith : 0 ≤ u1 - u2)
        nlinarith
      have hw0 : w 0 < 0 := by
        by_contra h
        nlinarith [mul_nonneg (not_lt.1 h) (by linarith : 0 ≤ u0 - u2)]
      refine ⟨hw0, Or.inr ⟨?_, ?_⟩⟩
      · rw [lt_div_iff_of_neg (by linarith)]
        nlinarith
      · rw [div_lt_iff_of_neg (by linarith)]
        nlinarith
  obtain ⟨hw0, hbetween⟩ := key
  have hs2 : 0 < -0.5 / w 0 := div_pos_of_neg_of_neg (by norm_num) hw0
  have hσ2 : √(-0.5 / w 0) ^ 2 = -0.5 / w 0 := Real.sq_sqrt hs2.le
  have hf0 : w 1 * (-0.5 / w 0) = -w 1 / (2 * w 0) := by
    field_simp
    ring
  have hsig : fdiv (-0.5) (w 0) = some (-0.5 / w 0) := if_neg hw0.ne
  refine ⟨peakOfFit j w, w 0, w 1, w 2, -w 1 / (2 * w 0), √(-0.5 / w 0), w 2 + 0.5 * (-w 1 / (2 * w 0)) ^ 2 / (-0.5 / w 0),
    u0, u1, u2, a, b, c, x0, x1, x2, ha, hb, hc, hpk, ⟨e0, e1, e2⟩, hw0, ?_, Real.sqrt_pos.2 hs2, hbetween, ?_, ?_, ?_, ?_⟩
  · intro f
    rw [hσ2]
    have := hw0.ne
    field_simp
    norm_num
    ring
  · have : 0 ≤ (-w 0) * (u1 + w 1 / (2 * w 0)) ^ 2 := mul_nonneg (by linarith) (sq_nonneg _)
    have e : w 2 + 0.5 * (-w 1 / (2 * w 0)) ^ 2 / (-0.5 / w 0) = Real.log b + (-w 0) * (u1 + w 1 / (2 * w 0)) ^ 2 := by
      rw [← e1]
      have := hw0.ne
      field_simp
      ring
    rw [e]
    linarith
  · unfold peakOfFit
    simp only [hsig, Option.map_some, hf0]
    show (fdiv _ _).bind _ = _
    unfold fdiv
    rw [if_neg hs2.ne']
    rfl
  · intro hne
    unfold peakOfFit
    simp only [hsig, Option.map_some, hf0]
    constructor
    · show fdiv _ _ = _
      unfold fdiv
      rw [if_neg hne]
    · show (fdiv _ _).bind _ = _
      unfold fdiv
      rw [if_neg (pow_ne_zero 4 hne)]
      show fsqrt _ = _
      unfold fsqrt
      have hq : 0 ≤ -0.5 / w 0 / (-w 1 / (2 * w 0)) ^ 4 := by positivity
      rw [if_neg (not_lt.2 hq), Real.sqrt_div hs2.le]
      congr 2
      rw [show (-w 1 / (2 * w 0)) ^ 4 = ((-w 1 / (2 * w 0)) ^ 2) ^ 2 by ring, Real.sqrt_sq (sq_nonneg _)]
  · intro hf
    obtain ⟨q0, q2⟩ := hposf hf
    rcases hbetween with ⟨h, -⟩ | ⟨h, -⟩ <;> linarith

example : LocalMax demoPower 3 ∧ demoFreq.Pairwise (· < ·) ∧ (∀ x ∈ demoPower, 0 < x) ∧ (∀ f ∈ demoFreq, 0 < f) := by
  refine ⟨demoPower_max.2, demoFreq_pairwise, ?_, ?_⟩
  · intro x hx
    simp only [demoPower, List.mem_cons, List.not_mem_nil, or_false] at hx
    rcases hx with rfl | rfl | rfl | rfl | rfl <;> norm_num
  · intro x hx
    simp only [demoFreq, List.mem_cons, List.not_mem_nil, or_false] at hx
    rcases hx with rfl | rfl | rfl | rfl | rfl <;> norm_num

/-! ## C59 -/

/-- C59 (partial: the full statement says that `power[peak["index"]]` is the maximum; in fact `power[peak["index"] - 1]` is). -/
theorem C59_index_minus_one_is_the_peak_partial (freq power : List ℝ) (j : ℕ) (p : Peak) (h : peakAt freq power j = .ok p)
    (hj : LocalMax power j) : LocalMax power (p.index - 1) ∧ p.index < power.length := by
  rw [peakAt_index h]
  refine ⟨hj, ?_⟩
  obtain ⟨_, _, c, _, _, _, hc, _, _⟩ := hj
  by_contra h
  rw [List.getElem?_eq_none (by omega)] at hc
  cases hc

/-- C59 is false, for every peak of every input: the sample at the reported index is strictly lower than the peak, and is not a local
maximum. -/
theorem C59_reported_index_is_never_the_peak (freq power : List ℝ) (j : ℕ) (p : Peak) (h : peakAt freq power j = .ok p)
    (hj : LocalMax power j) :
    (∃ y y', power[j]? = some y ∧ power[p.index]? = some y' ∧ y' < y) ∧ ¬ LocalMax power p.index := by
  rw [peakAt_index h]
  obtain ⟨a, b, c, h1, ha, hb, hc, hab, hcb⟩ := hj
  refine ⟨⟨b, c, hb, hc, hcb⟩, ?_⟩
  rintro ⟨a', b', c', -, ha', hb', -, hab', -⟩
  rw [Nat.add_sub_cancel, hb] at ha'
  rw [hc] at hb'
  cases ha'
  cases hb'
  linarith

theorem C59_counterexample (argsort : List ℝ → List ℕ) (ha : IsArgsort argsort) :
    ∃ p, findPeaks argsort demoFreq demoPower 0 = .ok (.one p) ∧ ¬ LocalMax demoPower p.index := by
  have hnd : demoFreq.Nodup := demoFreq_pairwise.imp fun h => ne_of_lt h
  obtain ⟨js, hH, -, h2⟩ := C57_highest_local_maxima argsort ha demoFreq demoPower rfl hnd 0
  rcases h2 rfl with ⟨h3, -⟩ | ⟨j, p, h3, h4, h5⟩
  · have := hH.all (by rw [h3]; decide) 1 demoPower_max.1
    rw [h3] at this
    cases this
  · exact ⟨p, h4, (C59_reported_index_is_never_the_peak _ _ j p h5 (hH.isMax j (by rw [h3]; simp))).2⟩

end Exo
