import Verif.Props.SystemLightCurve
import Verif.Spec.TtvInTransit

/-!
# C76: `in_transit` and `use_in_transit` for `TTVOrbit`s
-/

namespace Exo
open Real

/-! ## Helpers -/

theorem Ttv.overlaps_iff (C : Consts) (T : Ttv) (r t : ℝ) :
    Overlaps C T.orbit r t ↔ Overlaps C T.kepler r (T.orbit.warp t + T.orbit.t0) := by
  have hf : T.orbit.trueAnomaly t = T.kepler.trueAnomaly (T.orbit.warp t + T.orbit.t0) := by
    unfold Orbit.trueAnomaly
    simp only [Ttv.kepler, add_sub_cancel_right]
  have hpos : T.orbit.relativePosition C t = T.kepler.relativePosition C (T.orbit.warp t + T.orbit.t0) := by
    simp only [Orbit.relativePosition, Orbit.position, Orbit.positionNow, hf, Bool.false_eq_true, if_false]
    rfl
  unfold Overlaps
  rw [hpos]
  rfl

theorem Ttv.sinceTransit_eq (T : Ttv) (t : ℝ) : T.orbit.sinceTransit t = T.kepler.sinceTransit (T.orbit.warp t + T.orbit.t0) := by
  simp only [Orbit.sinceTransit_eq, Ttv.kepler, add_sub_cancel_right]

theorem Ttv.transitWindow_eq (cp : ContactOp) (T : Ttv) (r : ℝ) : T.orbit.transitWindow cp r = T.kepler.transitWindow cp r := rfl

/-- The window of the code describes the overlaps. -/
theorem Ttv.resolved {C : Consts} {cp : ContactOp} {T : Ttv} {r x : ℝ} (h : Tractable C cp T.kepler r x) :
    ∃ w, Resolved C cp T.orbit r w ∧ ∀ s e, w = some (s, e) → s = -e ∨
      (-(T.orbit.period / 2) ≤ s - x / 2 ∧ e + x / 2 < T.orbit.period / 2) := by
  obtain ⟨w, hR, hsym⟩ := h.resolved
  refine ⟨w, ⟨hR.window, hR.within, fun t => ?_⟩, hsym⟩
  rw [T.overlaps_iff, hR.overlap, T.sinceTransit_eq]

theorem window_circ {cp : ContactOp} {o : Orbit} {r s e : ℝ} {f : ℤ} (hc : o.ecc = none)
    (h : o.transitWindow cp r = (some (s, e), f)) : s = -e := by
  unfold Orbit.transitWindow at h
  rw [hc] at h
  simp only at h
  split at h
  · cases h
  · cases h
    rfl

/-- The distance to the nearest transit changes by no more than the time does. -/
theorem IsNearest.lipschitz {l : List ℝ} {t t' s s' : ℝ} (h : IsNearest l t s) (h' : IsNearest l t' s') :
    |t - s| ≤ |t' - s'| + |t' - t| := by
  have h1 := (h.2 s' h'.1).1
  have h2 : |t - s'| ≤ |t' - s'| + |t' - t| := by
    rw [show t - s' = (t' - s') - (t' - t) by ring]
    exact abs_sub _ _
  linarith

theorem window_abs {P e y : ℝ} : InPeriodicWindow P (-e) e y ↔ InPeriodicWindow P (-e) e |y| := by
  rcases abs_choice y with h | h <;> rw [h]
  unfold InPeriodicWindow
  constructor
  · rintro ⟨k, h1, h2⟩
    exact ⟨-k, by push_cast; linarith, by push_cast; linarith⟩
  · rintro ⟨k, h1, h2⟩
    exact ⟨-k, by push_cast; linarith, by push_cast; linarith⟩

/-- Two times with different nearest transits are separated by the middle between two successive transits. -/
theorem nearest_midpoint {l : List ℝ} (hl : l.Pairwise (· < ·)) {t t' s s' : ℝ} (h : IsNearest l t s) (h' : IsNearest l t' s')
    (hne : s ≠ s') : ∃ (k : ℕ) (a b : ℝ), l[k]? = some a ∧ l[k + 1]? = some b ∧ |t' - (a + b) / 2| ≤ |t' - t| := by
  obtain ⟨i, hi, rfl⟩ := List.mem_iff_getElem.1 h.1
  obtain ⟨j, hj, rfl⟩ := List.mem_iff_getElem.1 h'.1
  have mono : ∀ {a b : ℕ} (ha : a < l.length) (hb : b < l.length), a ≤ b → l[a] ≤ l[b] := by
    intro a b ha hb hab
    rcases hab.eq_or_lt with rfl | h
    · exact le_rfl
    · exact (List.pairwise_iff_getElem.1 hl a b ha hb h).le
  have strict : ∀ {a b : ℕ} (ha : a < l.length) (hb : b < l.length), a < b → l[a] < l[b] :=
    fun ha hb hab => List.pairwise_iff_getElem.1 hl _ _ ha hb hab
  have sides : ∀ {y c d : ℝ}, c < d → |y - c| ≤ |y - d| → y ≤ (c + d) / 2 := by
    intro y c d hcd hy
    by_contra hlt
    push Not at hlt
    rw [abs_of_nonneg (by linarith : 0 ≤ y - c)] at hy
    rcases abs_cases (y - d) with ⟨e, _⟩ | ⟨e, _⟩ <;> rw [e] at hy <;> linarith
  have sides' : ∀ {y c d : ℝ}, c < d → |y - d| ≤ |y - c| → (c + d) / 2 ≤ y := by
    intro y c d hcd hy
    by_contra hlt
    push Not at hlt
    rw [abs_of_nonpos (by linarith : y - d ≤ 0)] at hy
    rcases abs_cases (y - c) with ⟨e, _⟩ | ⟨e, _⟩ <;> rw [e] at hy <;> linarith
  rcases lt_trichotomy i j with hij | rfl | hij
  · refine ⟨j - 1, l[j - 1]'(by omega), l[j], List.getElem?_eq_getElem _, ?_, ?_⟩
    · rw [show j - 1 + 1 = j by omega]; exact List.getElem?_eq_getElem _
    · have a1 := sides' (strict (a := j - 1) (b := j) (by omega) hj (by omega)) (h'.2 _ (List.getElem_mem (by omega))).1
      have a2 := sides (strict (a := i) (b := i + 1) hi (by omega) (by omega)) (h.2 _ (List.getElem_mem (by omega))).1
      have a3 := mono (a := i) (b := j - 1) hi (by omega) (by omega)
      have a4 := mono (a := i + 1) (b := j) (by omega) hj (by omega)
      rw [abs_of_nonneg (by linarith), abs_of_nonneg (by linarith)]
      linarith
  · exact absurd rfl hne
  · refine ⟨j, l[j], l[j + 1]'(by omega), List.getElem?_eq_getElem _, List.getElem?_eq_getElem _, ?_⟩
    have a1 := sides (strict (a := j) (b := j + 1) hj (by omega) (by omega)) (h'.2 _ (List.getElem_mem (by omega))).1
    have a2 := sides' (strict (a := i - 1) (b := i) (by omega) hi (by omega)) (h.2 _ (List.getElem_mem (by omega))).1
    have a3 := mono (a := j) (b := i - 1) hj (by omega) (by omega)
    have a4 := mono (a := j + 1) (b := i) (by omega) hi (by omega)
    rw [abs_of_nonpos (by linarith), abs_of_nonpos (by linarith)]
    linarith

/-! ## C76 -/

/-- **C76, without exposure times**: for any number of planets with transit-timing variations, `i` is returned exactly when some planet
overlaps the stellar disc from the front at time `t[i]`. The transit times need not be in order. Each planet must be `Tractable`: on a
circular orbit outside the star, or on an eccentric orbit for which the compiled solver is right. -/
theorem C76_exact (C : Consts) (cp : ContactOp) (planets : List (Ttv × ℝ))
    (hT : ∀ q ∈ planets, Tractable C cp q.1.kepler q.2) (ts : List ℝ) :
    ∃ l, inTransit cp (planets.map fun q => (q.1.orbit, q.2)) ts = .ok l ∧
      ∀ i, i ∈ l ↔ ∃ h : i < ts.length, ∃ q ∈ planets, Overlaps C q.1.orbit q.2 ts[i] := by
  obtain ⟨l, hl, -, hmem⟩ := inTransit_eq cp (planets.map fun q => (q.1.orbit, q.2)) ts .none trivial
  refine ⟨l, hl, fun i => ?_⟩
  rw [hmem]
  refine exists_congr fun hi => ?_
  simp only [Texp.half, sub_zero, add_zero, List.mem_map]
  constructor
  · rintro (⟨_, ⟨q, hq, rfl⟩, hf⟩ | ⟨_, ⟨q, hq, rfl⟩, w, hw, h1, h2⟩)
    · obtain ⟨w, hR, -⟩ := Ttv.resolved (hT q hq)
      rw [hR.window] at hf
      exact absurd rfl hf
    · obtain ⟨w', hR, -⟩ := Ttv.resolved (hT q hq)
      rw [hR.window] at hw
      exact ⟨q, hq, (hR.overlap _).2 ⟨w.1, w.2, hw, h1, h2⟩⟩
  · rintro ⟨q, hq, ho⟩
    obtain ⟨w', hR, -⟩ := Ttv.resolved (hT q hq)
    obtain ⟨s, e, hw, h1, h2⟩ := (hR.overlap _).1 ho
    exact Or.inr ⟨_, ⟨q, hq, rfl⟩, (s, e), by rw [hR.window]; exact hw, h1, h2⟩

/-- **C76, labelled transits**: the time of a labelled transit is returned when the planet is seen to cross the star
(`|b| r_star ≤ r_star + r`, `sin i > 0`). -/
theorem C76_labelled (C : Consts) (cp : ContactOp) (planets : List (Ttv × ℝ)) (hT : ∀ q ∈ planets, Tractable C cp q.1.kepler q.2)
    (ts : List ℝ) (K : TtvArgs) (q : Ttv × ℝ) (hq : q ∈ planets) (h : ttvInit C K = .ok (some q.1))
    (hinc : q.1.all_transit_times.Pairwise (· < ·)) (hP : 0 < q.1.ttv_period) (hn : q.1.transit_inds.Nodup)
    (hw : ∀ p, q.1.orbit.ecc = some p → p.sin_omega ≠ -1) (hs : 0 < q.1.orbit.sin_incl)
    (hb : |q.1.orbit.b| * q.1.orbit.r_star ≤ q.1.orbit.r_star + q.2) (i : ℕ) (hi : i < ts.length) (ht : ts[i] ∈ q.1.transit_times) :
    ∃ l, inTransit cp (planets.map fun q => (q.1.orbit, q.2)) ts = .ok l ∧ i ∈ l := by
  obtain ⟨l, hl, hm⟩ := C76_exact C cp planets hT ts
  refine ⟨l, hl, (hm i).2 ⟨hi, q, hq, ?_⟩⟩
  obtain ⟨h1, h2⟩ := C31_mid_transit C K q.1 h hinc hP hn (hT q hq).2.1 hw ts[i] ht
  exact ⟨nonneg_of_mul_nonneg_right h2 hs, by rw [h1]; exact hb⟩

/-- **C76, with an exposure time**: every exposure during which some planet overlaps the disc is returned. On circular orbits this holds
although the clock of the planet jumps in the middle between two transits; on eccentric orbits no planet may overlap the disc within half
an exposure of such a middle. The transit times must be increasing. -/
theorem C76_exposure (C : Consts) (cp : ContactOp) (planets : List (Ttv × ℝ)) (x : ℝ)
    (hb : ∀ q ∈ planets, ∃ K, ttvInit C K = .ok (some q.1)) (hinc : ∀ q ∈ planets, q.1.all_transit_times.Pairwise (· < ·))
    (hP : ∀ q ∈ planets, 0 < q.1.ttv_period) (hT : ∀ q ∈ planets, Tractable C cp q.1.kepler q.2 x)
    (hmid : ∀ q ∈ planets, q.1.orbit.ecc ≠ none → q.1.MidpointsClear C q.2 x) (ts : List ℝ) :
    ∃ l, inTransit cp (planets.map fun q => (q.1.orbit, q.2)) ts (.scalar x) = .ok l ∧ (∀ i ∈ l, i < ts.length) ∧
      ∀ i (h : i < ts.length), (∃ q ∈ planets, ∃ u, |u| ≤ x / 2 ∧ Overlaps C q.1.orbit q.2 (ts[i] + u)) → i ∈ l := by
  obtain ⟨l, hl, -, hmem⟩ := inTransit_eq cp (planets.map fun q => (q.1.orbit, q.2)) ts (.scalar x) trivial
  refine ⟨l, hl, fun i hi => ((hmem i).1 hi).1, ?_⟩
  rintro i hi ⟨q, hq, u, hu, ho⟩
  rw [hmem]
  refine ⟨hi, Or.inr ⟨_, List.mem_map.2 ⟨q, hq, rfl⟩, ?_⟩⟩
  have hhalf : (Texp.scalar x).half = x / 2 := by simp only [Texp.half]; ring
  rw [hhalf]
  obtain ⟨w, hR, hsym⟩ := Ttv.resolved (hT q hq)
  have hPp : 0 < q.1.orbit.period := (hT q hq).2.1.period_pos
  obtain ⟨K, hK⟩ := hb q hq
  obtain ⟨c, hc, hwc⟩ := C30_nearest C K q.1 hK (hinc q hq) (hP q hq) ts[i]
  obtain ⟨c', hc', hwc'⟩ := C30_nearest C K q.1 hK (hinc q hq) (hP q hq) (ts[i] + u)
  obtain ⟨s, e, hw, h1, h2⟩ := (hR.overlap _).1 ho
  refine ⟨(s, e), by rw [hR.window]; exact hw, ?_⟩
  simp only
  obtain ⟨hu1, hu2⟩ := abs_le.1 hu
  rw [Orbit.sinceTransit_eq] at h1 h2 ⊢
  rw [hwc'] at h1 h2
  rw [hwc]
  obtain ⟨k, hk⟩ := wrap_spec (ts[i] + u - c') q.1.orbit.period
  by_cases hse : s = -e
  · subst hse
    have hin : InPeriodicWindow q.1.orbit.period (-e) e (ts[i] + u - c') := ⟨k, by linarith, by linarith⟩
    obtain ⟨k', g1, g2⟩ := window_abs.1 hin
    have hd1 := hc.lipschitz hc'
    have hd2 := hc'.lipschitz hc
    rw [show ts[i] + u - ts[i] = u by ring] at hd1
    rw [show ts[i] - (ts[i] + u) = -u by ring, abs_neg] at hd2
    have := wrap_mem_symm (x := ts[i] - c) (e := e + x / 2) hPp (window_abs.2 ⟨k', by linarith, by linarith⟩)
    exact ⟨by linarith [this.1], this.2⟩
  · have hecc : q.1.orbit.ecc ≠ none := by
      intro hcirc
      exact hse (window_circ hcirc (hR.window.trans (by rw [hw])))
    have hcc : c = c' := by
      by_contra hne
      obtain ⟨m, a, b, ha, hb', hab⟩ := nearest_midpoint (hinc q hq) hc hc' hne
      refine hmid q hq hecc m a b ha hb' (ts[i] + u - (a + b) / 2) ?_ ?_
      · rw [show ts[i] + u - ts[i] = u by ring] at hab
        linarith
      · rw [show (a + b) / 2 + (ts[i] + u - (a + b) / 2) = ts[i] + u by ring]
        exact ho
    subst hcc
    rcases hsym s e hw with h | ⟨b1, b2⟩
    · exact absurd h hse
    · exact (wrap_mem_iff hPp b1 b2).2 ⟨k, by linarith, by linarith⟩

theorem IsNearest.toward {l : List ℝ} {t c u : ℝ} (h : IsNearest l t c) (hu : |t + u - c| = |t - c| - |u|) :
    IsNearest l (t + u) c := by
  refine ⟨h.1, fun v hv => ?_⟩
  obtain ⟨h1, h2⟩ := h.2 v hv
  have h3 : |t - v| ≤ |t + u - v| + |u| := by
    rw [show t - v = (t + u - v) - u by ring]
    exact abs_sub _ _
  refine ⟨by linarith, fun he => h2 ?_⟩
  linarith

/-- **C76, nothing superfluous**: an exposure that is returned covers an overlap of the discs, if the nearest transit of every planet is
less than half a period away from its middle. -/
theorem C76_exposure_tight (C : Consts) (cp : ContactOp) (planets : List (Ttv × ℝ)) (x : ℝ) (hx : 0 ≤ x)
    (hb : ∀ q ∈ planets, ∃ K, ttvInit C K = .ok (some q.1)) (hinc : ∀ q ∈ planets, q.1.all_transit_times.Pairwise (· < ·))
    (hP : ∀ q ∈ planets, 0 < q.1.ttv_period) (hT : ∀ q ∈ planets, Tractable C cp q.1.kepler q.2 x) (ts : List ℝ) (l : List ℕ)
    (hl : inTransit cp (planets.map fun q => (q.1.orbit, q.2)) ts (.scalar x) = .ok l) (i : ℕ) (hi : i < ts.length) (hil : i ∈ l)
    (hnear : ∀ q ∈ planets, ∃ c ∈ q.1.all_transit_times, |ts[i] - c| < q.1.orbit.period / 2) :
    ∃ q ∈ planets, ∃ u, |u| ≤ x / 2 ∧ Overlaps C q.1.orbit q.2 (ts[i] + u) := by
  obtain ⟨l', hl', -, hmem⟩ := inTransit_eq cp (planets.map fun q => (q.1.orbit, q.2)) ts (.scalar x) trivial
  rw [hl'] at hl
  cases hl
  have hhalf : (Texp.scalar x).half = x / 2 := by simp only [Texp.half]; ring
  rw [hmem, hhalf] at hil
  simp only [List.mem_map] at hil
  obtain ⟨q, hq, w, hw, h1, h2⟩ : ∃ q ∈ planets, ∃ w, (q.1.orbit.transitWindow cp q.2).1 = some w ∧
      w.1 - x / 2 ≤ q.1.orbit.sinceTransit ts[i] ∧ q.1.orbit.sinceTransit ts[i] ≤ w.2 + x / 2 := by
    obtain ⟨_, ⟨_, ⟨q, hq, rfl⟩, hf⟩ | ⟨_, ⟨q, hq, rfl⟩, w, hw, h1, h2⟩⟩ := hil
    · obtain ⟨w, hR, -⟩ := Ttv.resolved (hT q hq)
      rw [hR.window] at hf
      exact absurd rfl hf
    · exact ⟨q, hq, w, hw, h1, h2⟩
  obtain ⟨w', hR, -⟩ := Ttv.resolved (hT q hq)
  rw [hR.window] at hw
  have hPp : 0 < q.1.orbit.period := (hT q hq).2.1.period_pos
  obtain ⟨a1, a2, a3, a4⟩ := hR.within w.1 w.2 hw
  obtain ⟨K, hK⟩ := hb q hq
  obtain ⟨c, hc, hwc⟩ := C30_nearest C K q.1 hK (hinc q hq) (hP q hq) ts[i]
  obtain ⟨c0, hc0, hlt⟩ := hnear q hq
  have hlt' : |ts[i] - c| < q.1.orbit.period / 2 := lt_of_le_of_lt (hc.2 c0 hc0).1 hlt
  obtain ⟨b1, b2⟩ := abs_lt.1 hlt'
  have hst : q.1.orbit.sinceTransit ts[i] = ts[i] - c := by
    rw [Orbit.sinceTransit_eq, hwc]
    exact wrap_eq hPp (by linarith) b2 0 (by simp)
  rw [hst] at h1 h2
  obtain ⟨u, hu, hu3, hu4, hu5⟩ : ∃ u, |u| ≤ x / 2 ∧ w.1 ≤ ts[i] + u - c ∧ ts[i] + u - c ≤ w.2 ∧ |ts[i] + u - c| = |ts[i] - c| - |u| := by
    by_cases c1 : ts[i] - c < w.1
    · refine ⟨w.1 - (ts[i] - c), ?_, by linarith, by linarith, ?_⟩
      · rw [abs_of_nonneg (by linarith)]; linarith
      · rw [abs_of_nonpos (by linarith), abs_of_nonpos (by linarith), abs_of_nonneg (by linarith)]; ring
    · by_cases c2 : w.2 < ts[i] - c
      · refine ⟨w.2 - (ts[i] - c), ?_, by linarith, by linarith, ?_⟩
        · rw [abs_of_nonpos (by linarith)]; linarith
        · rw [abs_of_nonneg (by linarith), abs_of_nonneg (by linarith), abs_of_nonpos (by linarith)]; ring
      · exact ⟨0, by rw [abs_zero]; linarith, by linarith, by linarith, by simp⟩
  refine ⟨q, hq, u, hu, (hR.overlap _).2 ⟨w.1, w.2, hw, ?_⟩⟩
  obtain ⟨c', hc', hwc'⟩ := C30_nearest C K q.1 hK (hinc q hq) (hP q hq) (ts[i] + u)
  have hcc := hc'.unique (hc.toward hu5)
  have : q.1.orbit.sinceTransit (ts[i] + u) = ts[i] + u - c := by
    rw [Orbit.sinceTransit_eq, hwc', hcc]
    exact wrap_eq hPp (by linarith) (by linarith) 0 (by simp)
  rw [this]
  exact ⟨hu3, hu4⟩

/-- **C76, `use_in_transit`**: for a system of planets with transit-timing variations, restricting the computation of the light curve to
the times in transit changes nothing, without or with one exposure time for all data. -/
theorem C76_use_in_transit {C : Consts} {K : VTtvArgs} {np : ℕ} {V : VTtv} {T : ℕ → Ttv} (cp : ContactOp) (u1 u2 : ℝ)
    (hlaw : (∫ p in starDisc, quadLaw u1 u2 (muAt p)) ≠ 0) (h0 : 0 < np) (hK : K.FitsPlanets np) (hP : K.PerPlanet np)
    (hV : ttvInitV C K = .ok (some V)) (hT : ∀ p < np, ttvInit C (K.ofPlanet p) = .ok (some (T p)))
    (hsz : K.base.ecc = none ∨ np = 1 ∨ ContactSizes V.orbit np) (r t : Tensor ℝ) (hr : r.size = np) (N : ℕ) (ht : t.shape = [N])
    (texp : Option ℝ) (hx : ∀ x, texp = some x → 0 ≤ x)
    (htr : ∀ p < np, Tractable C cp (T p).kepler (r.get (Tensor.unravel r.shape p)) (texp.getD 0))
    (hinc : texp ≠ none → ∀ p < np, (T p).all_transit_times.Pairwise (· < ·) ∧ 0 < (T p).ttv_period ∧
      ((T p).orbit.ecc ≠ none → (T p).MidpointsClear C (r.get (Tensor.unravel r.shape p)) (texp.getD 0)))
    (oversample order : ℤ) (ho : order = 0 ∨ order = 1 ∨ order = 2) (hn : 1 ≤ oversample) :
    ∃ L L', (LimbDark.new u1 u2).getLightCurveV C cp V.orbit r t (texp.map Tensor.scalar) oversample order (some true) = .ok L ∧
      (LimbDark.new u1 u2).getLightCurveV C cp V.orbit r t (texp.map Tensor.scalar) oversample order (some false) = .ok L' ∧
      L.Same L' := by
  obtain ⟨y, h1, h2, h3⟩ := Tensor.reshape_flat r
  rw [hr] at h2
  obtain ⟨S, hS, -, hSlen, hoff, -⟩ := C38_weights order oversample ho hn
  have hyp : ∀ p, y.get [p] = r.get (Tensor.unravel r.shape p) := h3
  have hlen : t.toList.length = N := by rw [Tensor.toList_vec ht]; simp
  have htg : ∀ i (hi : i < N), t.toList[i]'(by rw [hlen]; exact hi) = t.get [i] := by
    intro i hi
    simp [Tensor.toList_vec ht]
  let planets := (List.range np).map fun p => (T p, y.get [p])
  have hpl : ((List.range np).map fun p => ((T p).orbit, y.get [p])) = planets.map fun q => (q.1.orbit, q.2) := by
    simp [planets, List.map_map, Function.comp_def]
  have hall : ∀ {Q : Ttv × ℝ → Prop}, (∀ p < np, Q (T p, r.get (Tensor.unravel r.shape p))) → ∀ q ∈ planets, Q q := by
    intro Q h q hq
    obtain ⟨p, hp, rfl⟩ := List.mem_map.1 hq
    rw [hyp p]
    exact h p (List.mem_range.1 hp)
  have hTl : ∀ q ∈ planets, Tractable C cp q.1.kepler q.2 (texp.getD 0) :=
    hall (Q := fun q => Tractable C cp q.1.kepler q.2 (texp.getD 0)) htr
  obtain ⟨inds, hl, hlt, hm⟩ : ∃ inds, inTransit cp (planets.map fun q => (q.1.orbit, q.2)) t.toList (texpArg texp) = .ok inds ∧
      (∀ i ∈ inds, i < t.toList.length) ∧ ∀ i (h : i < t.toList.length),
        (∃ q ∈ planets, ∃ u, |u| ≤ texp.getD 0 / 2 ∧ Overlaps C q.1.orbit q.2 (t.toList[i] + u)) → i ∈ inds := by
    rcases texp with _ | x
    · obtain ⟨l, h1, h2⟩ := C76_exact C cp planets hTl t.toList
      refine ⟨l, h1, fun i hi => ((h2 i).1 hi).1, fun i hi => ?_⟩
      rintro ⟨q, hq, u, hu, ho⟩
      have : u = 0 := abs_nonpos_iff.1 (by simpa using hu)
      subst this
      exact (h2 i).2 ⟨hi, q, hq, by simpa using ho⟩
    · have hinc' := hinc (by simp)
      refine C76_exposure C cp planets x (hall (Q := fun q => ∃ K, ttvInit C K = .ok (some q.1)) fun p hp => ⟨_, hT p hp⟩)
        (hall (Q := fun q => q.1.all_transit_times.Pairwise (· < ·)) fun p hp => (hinc' p hp).1)
        (hall (Q := fun q => 0 < q.1.ttv_period) fun p hp => (hinc' p hp).2.1) hTl
        (hall (Q := fun q => q.1.orbit.ecc ≠ none → q.1.MidpointsClear C q.2 x) fun p hp => (hinc' p hp).2.2) t.toList
  refine integratedWith_rows (lightCurveAtV_computes (LimbDark.new u1 u2) C (fun t => ttv_ready h0 hK hP hV hT t) (Or.inl trivial) false
    (by simp)) (V.orbit.inTransit cp) y t N ht oversample order h2 _ ?_ inds ?_ ?_ ?_ _ h1
  · intro x hx'
    rcases texp with _ | x0
    · cases hx'
    · simp only [Option.map_some, Option.some.injEq] at hx'
      subst hx'
      exact ⟨Or.inl rfl, S, hS, hSlen, hoff⟩
  · rw [C75_ttv_in_transit_partial cp h0 hK hP hV hT hsz t y N ht h2 _ ?_ false]
    · rw [show texpOf (texp.map Tensor.scalar) = texpArg texp by cases texp <;> rfl, hpl]
      exact hl
    · intro x hx'
      rcases texp with _ | x0
      · cases hx'
      · simp only [Option.map_some, Option.some.injEq] at hx'
        subst hx'
        simp [Tensor.ndim, Tensor.scalar]
  · intro i hi
    rw [← hlen]
    exact hlt i hi
  · intro i hi hni p hp u hu1 hu2
    have hTp := htr p hp
    have hx0 : texpOr0 (texp.map Tensor.scalar) [i] = texp.getD 0 := by
      rcases texp with _ | x0
      · rfl
      · simp [texpOr0, texpAt, Tensor.scalar]
    rw [hx0]
    refine fluxAt_zero hlaw hTp.2.1.r_star_pos ?_
    rintro ⟨h1, h2⟩
    apply hni
    refine hm i (by rw [hlen]; exact hi) ⟨(T p, y.get [p]), List.mem_map.2 ⟨p, List.mem_range.2 hp, rfl⟩, texp.getD 0 * u, ?_, ?_⟩
    · have hx0 : 0 ≤ texp.getD 0 := by
        rcases texp with _ | x0
        · simp
        · exact hx x0 rfl
      rw [abs_le]
      constructor <;> nlinarith
    · rw [htg i hi]
      exact ⟨h1, h2.le⟩

/-! ## The hypotheses are met -/

/-- Two planets on circular orbits seen edge-on; each transits late once. -/
noncomputable def demoTtvPair : VTtvArgs := { base := demoPair, ttvs := some [[1 / 10, 0], [0, 1 / 5, 0]] }

example : demoTtvPair.FitsPlanets 2 ∧ demoTtvPair.PerPlanet 2 ∧ demoTtvPair.base.ecc = none := by
  refine ⟨⟨?_, ?_, ?_, ?_, ?_⟩, ⟨?_, ?_⟩, rfl⟩
  · intro x hx q hq
    subst hq
    simp [demoTtvPair, demoPair] at hx
    rcases hx with rfl | rfl | rfl <;> simp [Tensor.FitsPlanets, Tensor.ofList, Tensor.scalar]
  · intro l h; cases h; rfl
  · intro l h; cases h
  · intro l h; cases h
  · intro l h; cases h
  · intro _; exact ⟨⟨_, Or.inl rfl, rfl⟩, fun q h => by cases h⟩
  · intro h; cases h

theorem Ttv.kepler_eq {C : Consts} {A : Args} {o : Orbit} {T : Ttv} (ho : keplerianInit C A = .ok o) (hD : TtvDone o T) : T.kepler = o := by
  unfold Ttv.kepler
  rw [hD.orbit_eq]
  have : o.warp = fun t => t - o.t0 := funext (built_of_init ho).warp_eq
  cases o
  simp only at this ⊢
  rw [this]

/-- The first planet of `demoTtvPair`: all hypotheses on the single planets. -/
example (C : Consts) (cp : ContactOp) : ∃ T, ttvInit C (demoTtvPair.ofPlanet 0) = .ok (some T) ∧
    T.all_transit_times = [1 / 10, 1] ∧ T.ttv_period = 1 ∧ T.orbit.ecc = none ∧ Tractable C cp T.kepler (1 / 10) (1 / 50) := by
  obtain ⟨o, ho, hT⟩ := demoPair_planet C cp 1 10 (by norm_num) (by norm_num)
  have hK : demoTtvPair.ofPlanet 0 = { base := { period := some (1 : ℝ), a := some (10 : ℝ) }, ttvs := some [1 / 10, 0] } := by
    simp [demoTtvPair, demoPair, VTtvArgs.ofPlanet, VArgs.ofPlanet, TQ.ofPlanet, Tensor.ofPlanet, Tensor.ofList, Tensor.scalar]
  have h2 : ([0, 1] : List ℕ).max? = some 1 := rfl
  obtain ⟨hP, ht0, hecc⟩ : o.period = 1 ∧ o.t0 = 0 ∧ o.ecc = none := by
    cases ho
    exact ⟨rfl, rfl, rfl⟩
  have h : ∃ T, ttvInit C (demoTtvPair.ofPlanet 0) = .ok (some T) ∧ T.all_transit_times = [1 / 10, 1] := by
    rw [hK]
    unfold ttvInit
    simp only [ho, Option.getD_none, List.length_cons, List.length_nil, List.length_range, ne_eq, not_true_eq_false, if_false, ttvFinish,
      hP, ht0]
    rw [show List.range (0 + 1 + 1) = [0, 1] from rfl]
    unfold allTransitTimes
    rw [h2]
    refine ⟨_, rfl, ?_⟩
    norm_num [setSubtensor, List.range_succ]
  obtain ⟨T, h, ha⟩ := h
  obtain ⟨A, o', ho', hD, ⟨h1, h3, h4, -⟩ | ⟨h1, -⟩⟩ := ttv_cases h
  swap
  · rw [hK] at h1; cases h1
  rw [h3, hK, ho] at ho'
  cases ho'
  refine ⟨T, h, ha, by rw [h4, hP], ?_, ?_⟩
  · rw [hD.orbit_eq]; exact hecc
  · rw [Ttv.kepler_eq ho hD]; exact hT

end Exo
