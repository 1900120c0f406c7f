import Verif.Lemmas.TtvLists
import Verif.Props.System
import Mathlib.Tactic.IntervalCases

/-!
# C79: a `TTVOrbit` with more or fewer lists of timing variations than planets
-/

namespace Exo
open Real

section
variable {C : Consts} {K : VTtvArgs} {np : ℕ} {l : List (List ℝ)} {O : VOrbit}

/-- **C79, too many lists**: with more lists than planets the constructor raises `IndexError`. -/
theorem C79_too_many (hA : K.base.FitsPlanets np) (hP : K.base.PerPlanet np) (ht : ∀ q, K.base.t0 = some q → q.val.shape = [np])
    (hO : keplerianInitV C K.base = .ok O) (hv : K.ttvs = some l) (hi : K.transit_inds = none) (hl : np < l.length) :
    ttvInitV C K = .error .indexError :=
  too_many_lists hA hP ht hO hv hi hl

/-- **C79, construction**: with at most as many (non-empty) lists as planets the constructor succeeds, and the timing attributes at
position `p` are those of planet `p` alone. -/
theorem C79_accepted (hA : K.base.FitsPlanets np) (hP : K.base.PerPlanet np) (ht : ∀ q, K.base.t0 = some q → q.val.shape = [np])
    (hO : keplerianInitV C K.base = .ok O) (hv : K.ttvs = some l) (hi : K.transit_inds = none) (hl : l.length ≤ np)
    (hne : ∀ x ∈ l, x ≠ []) :
    ∃ V, ttvInitV C K = .ok (some V) ∧ ∀ p < l.length, ∃ T, ttvInit C (K.ofPlanet p) = .ok (some T) ∧
      V.transit_times[p]? = some T.transit_times ∧ V.ttvs[p]? = some T.ttvs ∧ V.transit_inds[p]? = some T.transit_inds ∧
      V.all_transit_times[p]? = some T.all_transit_times ∧ V.bin_edges[p]? = some T.bin_edges ∧
      V.bin_values[p]? = some T.bin_values := by
  obtain ⟨V, fs, h1, _, _, h4⟩ := lists_build hA hP ht hO hv hi hl hne
  refine ⟨V, h1, fun p hp => ?_⟩
  obtain ⟨T, a, b, c, d, e, f, g, _⟩ := h4 p hp
  exact ⟨T, a, b, c, d, e, f, g⟩

/-- **C79, too few lists**: with at least two lists, but fewer than planets, no position can be evaluated at any array of times: the
axes of lengths `len(ttvs)` and `np` do not broadcast. (The constructor has raised nothing: `C79_accepted`.) -/
theorem C79_too_few (hA : K.base.FitsPlanets np) (hP : K.base.PerPlanet np) (ht : ∀ q, K.base.t0 = some q → q.val.shape = [np])
    (hO : keplerianInitV C K.base = .ok O) (hv : K.ttvs = some l) (hi : K.transit_inds = none) (h2 : 2 ≤ l.length) (hl : l.length < np)
    (hne : ∀ x ∈ l, x ≠ []) (V : VTtv) (hV : ttvInitV C K = .ok (some V)) (t : Tensor ℝ) (parallax : Option ℝ) :
    ∀ v ∈ [V.orbit.planetPosition C (.leaf t) (parallax.map Gr.num) false, V.orbit.starPosition C (.leaf t) (parallax.map Gr.num) false,
        V.orbit.relativePosition C (.leaf t) (parallax.map Gr.num) false],
      v.x.eval = .error .shapeMismatch ∧ v.y.eval = .error .shapeMismatch ∧ v.z.eval = .error .shapeMismatch := by
  obtain ⟨V', fs, h1, h3, h4, _⟩ := lists_build hA hP ht hO hv hi hl.le hne
  rw [hV] at h1
  cases h1
  obtain ⟨g, gl⟩ := keplerianInitV_good (S := [np]) (by simpa using hA.good []) hO
  obtain ⟨q, hq, hqs⟩ := hP
  have hn : O.n.EndsIn np := by
    intro T hT
    obtain ⟨N, hN, bN, _⟩ := g.n
    have sN := shape_eq_of_le hN bN hqs (gl q hq)
    rw [hT] at hN
    cases hN
    rw [sN]
    rfl
  have key : ∀ a : Gr, (V.orbit.position C a (.leaf t) (parallax.map Gr.num) false).Fails := by
    intro a
    rw [h3]
    exact lists_fail O hn (by omega) (by omega) (by omega) t C a parallax
  have fin : ∀ v : V3G, v.Fails → v.squeeze.x.eval = .error .shapeMismatch ∧ v.squeeze.y.eval = .error .shapeMismatch ∧
      v.squeeze.z.eval = .error .shapeMismatch :=
    fun v hv => ⟨hv.1.squeeze.error, hv.2.1.squeeze.error, hv.2.2.squeeze.error⟩
  intro v hv
  simp only [List.mem_cons, List.not_mem_nil, or_false] at hv
  rcases hv with rfl | rfl | rfl <;> exact fin _ (key _)

/-- **C79, one list for several planets**: accepted, and every position can be evaluated; each planet keeps its own orbit, but is moved
along it by the clock of planet `0`. (`os p` is the orbit of planet `p` without timing variations, `T0` the orbit of planet `0` alone.) -/
theorem C79_one_list (hA : K.base.FitsPlanets np) (hP : K.base.PerPlanet np) (ht : ∀ q, K.base.t0 = some q → q.val.shape = [np])
    (hO : keplerianInitV C K.base = .ok O) {x : List ℝ} (hv : K.ttvs = some [x]) (hi : K.transit_inds = none) (hx : x ≠ []) (hnp : 1 ≤ np)
    {os : ℕ → Orbit} (hos : ∀ p < np, keplerianInit C (K.base.ofPlanet p) = .ok (os p)) (t : Tensor ℝ) (parallax : Option ℝ) :
    ∃ V T0, ttvInitV C K = .ok (some V) ∧ ttvInit C (K.ofPlanet 0) = .ok (some T0) ∧
      (V.orbit.planetPosition C (.leaf t) (parallax.map Gr.num) false).Shows t.shape np True
        (fun i p => Orbit.planetPosition { os p with warp := T0.orbit.warp } C (t.get i) parallax false) ∧
      (V.orbit.starPosition C (.leaf t) (parallax.map Gr.num) false).Shows t.shape np True
        (fun i p => Orbit.starPosition { os p with warp := T0.orbit.warp } C (t.get i) parallax false) ∧
      (V.orbit.relativePosition C (.leaf t) (parallax.map Gr.num) false).Shows t.shape np True
        (fun i p => Orbit.relativePosition { os p with warp := T0.orbit.warp } C (t.get i) parallax false) := by
  obtain ⟨V, fs, h1, h3, h4, h5⟩ := lists_build hA hP ht hO hv hi (by simpa using hnp) (by simpa using hx)
  obtain ⟨T, hT, _, _, _, _, _, _, hTo⟩ := h5 0 (by simp)
  refine ⟨V, T, h1, hT, ?_⟩
  obtain ⟨f, rfl⟩ : ∃ f, fs = [f] := List.length_eq_one_iff.1 (by simpa using h4)
  have hw : T.orbit.warp = fun t => t - f t := by rw [hTo]; rfl
  obtain ⟨g, gl⟩ := keplerianInitV_good (hA.good t.shape) hO
  obtain ⟨q, hq, hqs⟩ := hP
  have key : ∀ {a : Gr}, a.Good (t.shape ++ [np]) → ∀ c : Orbit → ℝ, (∀ idx, a.val idx = c (O.at idx)) →
      (V.orbit.position C a (.leaf t) (parallax.map Gr.num) false).squeeze.Shows t.shape np True
      (fun i p => Orbit.position { os p with warp := T.orbit.warp } C (c (os p)) (t.get i) parallax false) := by
    intro a ha c hc
    have h := one_list t rfl g (keplerianInitV_dts hO) f hqs (gl q hq) C ha parallax
    rw [h3]
    have e : ∀ i p, p < np → Orbit.position { O.at (i ++ [p]) with warp := fun t => t - f t } C (a.val (i ++ [p])) (t.get i) parallax false =
        Orbit.position { os p with warp := T.orbit.warp } C (c (os p)) (t.get i) parallax false := by
      intro i p hp
      rw [hc, system_at hA hO hos i hp, hw]
    have congr : ∀ {g : Gr} {u w : List ℕ → ℕ → ℝ}, (∀ i p, p < np → u i p = w i p) → g.Shows t.shape np True u →
        g.Shows t.shape np True w := by
      rintro g u w huw ⟨T, m, k1, k2, k3, k4⟩
      exact ⟨T, m, k1, k2, k3, fun i p hi hp => (k4 i p hi hp).trans (huw i p hp)⟩
    exact ⟨congr (fun i p hp => congrArg V3.x (e i p hp)) h.1, congr (fun i p hp => congrArg V3.y (e i p hp)) h.2.1,
      congr (fun i p hp => congrArg V3.z (e i p hp)) h.2.2⟩
  unfold VOrbit.planetPosition VOrbit.starPosition VOrbit.relativePosition
  rw [show V.orbit.a_planet = O.a_planet by rw [h3], show V.orbit.a_star = O.a_star by rw [h3], show V.orbit.a = O.a by rw [h3]]
  exact ⟨key g.a_planet Orbit.a_planet fun _ => rfl, key g.a_star Orbit.a_star fun _ => rfl,
    key (Gr.good_neg g.a) (fun o => -o.a) fun _ => rfl⟩

end

/-- Two planets with periods of 8 and 16 days, of which only the first is given its (vanishing) timing variations. -/
noncomputable def demoOneList : VTtvArgs :=
  { base := { period := some ⟨.ofList [8, 16] 0, none⟩ }, ttvs := some [[0, 0]] }

theorem demoOneList_fits : demoOneList.base.FitsPlanets 2 ∧ demoOneList.base.PerPlanet 2 := by
  refine ⟨?_, ⟨_, Or.inl rfl, rfl⟩⟩
  intro x hx q hq
  subst hq
  simp [demoOneList] at hx
  rcases hx with rfl | rfl <;> simp [Tensor.FitsPlanets, Tensor.ofList, Tensor.scalar]

theorem demoOneList_second (C : Consts) : ∃ o, keplerianInit C (demoOneList.base.ofPlanet 1) = .ok o ∧ o.t0 = 0 ∧ o.period = 16 ∧
    o.ecc = none ∧ o.Omega = none ∧ o.sin_incl = 1 ∧ 0 < o.a := by
  have hG := C.G_pos
  have hpi := pi_pos
  rw [show demoOneList.base.ofPlanet 1 = { period := some (16 : ℝ) } from rfl]
  refine ⟨_, rfl, rfl, rfl, rfl, rfl, ?_, ?_⟩
  · simp [show (0.5 : ℝ) * π = π / 2 by ring]
  · simp
    positivity

/-- **C79 is false for one list and several planets**: `TTVOrbit(period=[8, 16], ttvs=[[0, 0]])` is accepted. At time 8, the second
planet, half a period after its transit, is behind the star (`z < 0`) - and is shown in front of it, at mid-transit. -/
theorem C79_one_list_counterexample (C : Consts) : ∃ V o T, ttvInitV C demoOneList = .ok (some V) ∧
    keplerianInit C (demoOneList.base.ofPlanet 1) = .ok o ∧
    (V.orbit.relativePosition C (.leaf (.scalar 8)) none false).z.eval = .ok T ∧ T.shape = [2] ∧ 0 < T.get [1] ∧
    (o.relativePosition C 8).z < 0 := by
  obtain ⟨hA, hP⟩ := demoOneList_fits
  have hO : ∃ O, keplerianInitV C demoOneList.base = .ok O := ⟨_, rfl⟩
  obtain ⟨O, hO⟩ := hO
  obtain ⟨V, T0, h1, h2, -, -, -, -, T, m, h3, h4, h5, h6⟩ := C79_one_list hA hP (by intro q h; cases h) hO (x := [0, 0]) rfl rfl (by simp)
    (by norm_num) (planet_orbits hA hO) (.scalar 8) none
  obtain rfl : m = 2 := by tauto
  have h7 := h6 [] 1 List.Forall₂.nil (by norm_num)
  have ho := planet_orbits hA hO 1 (by norm_num)
  have hw : T0.orbit.warp 8 = 0 := by
    obtain ⟨o', ho', e1, e2⟩ : ∃ o, keplerianInit C (demoOneList.base.ofPlanet 0) = .ok o ∧ o.t0 = 0 ∧ o.period = 8 := by
      refine ⟨_, rfl, ?_, ?_⟩
      · rfl
      · rfl
    unfold ttvInit at h2
    rw [show (demoOneList.ofPlanet 0).ttvs = some [0, 0] from rfl, show (demoOneList.ofPlanet 0).base = demoOneList.base.ofPlanet 0 from rfl,
      show (demoOneList.ofPlanet 0).transit_inds = none from rfl] at h2
    simp only [ho', Option.getD_none, List.length_cons, List.length_nil, List.length_range, ne_eq, not_true_eq_false, if_false] at h2
    obtain ⟨tts, ht, rfl⟩ := ttvFinish_ok.1 h2
    rw [e1, e2] at ht
    have : tts = [0, 8] := by
      rw [show List.range (0 + 1 + 1) = [0, 1] from rfl] at ht
      simp [allTransitTimes, setSubtensor, List.range_succ] at ht
      rw [← ht]
    subst this
    show 8 - modelDt (binEdges [0, 8] o'.period) (binValues [0, 8]) 8 = 0
    rw [e2]
    simp only [modelDt, searchsortedLeft, binEdges, binValues]
    norm_num
  obtain ⟨o', ho', e1, e2, e3, e4, e5, e6⟩ := demoOneList_second C
  rw [ho'] at ho
  replace ho := Except.ok.inj ho
  have h7 : T.get [1] = (Orbit.relativePosition { O.at [1] with warp := T0.orbit.warp } C 8).z := h7
  rw [← ho] at h7
  have B := built_of_init ho'
  have ht : o'.tref * o'.n = -(π / 2) := by
    have hn : o'.n ≠ 0 := by rw [B.n_eq, e2]; positivity
    have h := B.time_block
    have hM : o'.M0 = 0.5 * π := by rw [B.M0_eq, e3]; rfl
    unfold timeBlock at h
    rw [show (demoOneList.base.ofPlanet 1).t0 = none from rfl, show (demoOneList.base.ofPlanet 1).t_periastron = none from rfl] at h
    simp only [Except.ok.injEq, Prod.mk.injEq] at h
    rw [B.tref_eq, ← h.2, hM, e1]
    field_simp
    ring
  have hz : ∀ (w : ℝ → ℝ) (t : ℝ), (Orbit.relativePosition { o' with warp := w } C t).z = o'.a * cos (w t * o'.n) := by
    intro w t
    simp only [Orbit.relativePosition, Orbit.position, Orbit.positionNow, Orbit.rotate, Orbit.trueAnomaly, Orbit.radius, e3, e4, e5]
    simp only [Bool.false_eq_true, if_false]
    rw [show (w t - o'.tref) * o'.n = w t * o'.n + π / 2 by rw [sub_mul, ht]; ring, Real.sin_add_pi_div_two]
    ring
  refine ⟨V, _, T, h1, ho', h3, h5, ?_, ?_⟩
  · rw [h7, hz]
    simp only [hw, zero_mul, Real.cos_zero, mul_one]
    exact e6
  · have h8 : (o'.relativePosition C 8).z = o'.a * cos (o'.warp 8 * o'.n) := hz o'.warp 8
    rw [h8, B.warp_eq, e1, B.n_eq, e2, show ((8 : ℝ) - 0) * (2 * π / 16) = π by ring, Real.cos_pi]
    linarith

/-- Hypotheses of `C79_too_many` and `C79_too_few`: three planets, four lists and two lists. -/
noncomputable def demoLists (l : List (List ℝ)) : VTtvArgs :=
  { base := { period := some ⟨.ofList [8, 16, 20] 0, none⟩ }, ttvs := some l }

example (C : Consts) (l : List (List ℝ)) : (demoLists l).base.FitsPlanets 3 ∧ (demoLists l).base.PerPlanet 3 ∧
    (∀ q, (demoLists l).base.t0 = some q → q.val.shape = [3]) ∧ (∃ O, keplerianInitV C (demoLists l).base = .ok O) ∧
    (demoLists l).ttvs = some l ∧ (demoLists l).transit_inds = none := by
  refine ⟨?_, ⟨_, Or.inl rfl, rfl⟩, (by intro q h; cases h), ⟨_, rfl⟩, rfl, rfl⟩
  intro x hx q hq
  subst hq
  simp [demoLists] at hx
  rcases hx with rfl | rfl <;> simp [Tensor.FitsPlanets, Tensor.ofList, Tensor.scalar]

example : 3 < [[(0 : ℝ)], [0], [1 / 5], [0]].length ∧ (2 ≤ [[(0 : ℝ), 1], [1 / 5]].length ∧ [[(0 : ℝ), 1], [1 / 5]].length < 3 ∧
    ∀ x ∈ [[(0 : ℝ), 1], [1 / 5]], x ≠ []) := by
  refine ⟨by simp, by simp, by simp, ?_⟩
  intro x hx
  simp only [List.mem_cons, List.not_mem_nil, or_false] at hx
  rcases hx with rfl | rfl <;> simp

end Exo
