import Verif.Lemmas.Ttv
import Verif.Lemmas.Motion2
import Verif.Lemmas.InTransit
import Verif.Lemmas.Inputs

/-!
# What a successful `TTVOrbit(...)` establishes
-/

namespace Exo
open Real

theorem setSubtensor_length (inds : List ℕ) (vals expect : List ℝ) :
    (setSubtensor expect inds vals).length = expect.length := by
  unfold setSubtensor
  induction List.zip inds vals generalizing expect with
  | nil => rfl
  | cons q l ih => rw [List.foldl_cons, ih, List.length_set]

private theorem foldl_set_of_not_mem (k : ℕ) : ∀ (l : List (ℕ × ℝ)) (e : List ℝ), (∀ q ∈ l, q.1 ≠ k) →
    (l.foldl (fun l p => l.set p.1 p.2) e)[k]? = e[k]?
  | [], _, _ => rfl
  | q :: l, e, h => by
    rw [List.foldl_cons, foldl_set_of_not_mem k l _ (fun r hr => h r (by simp [hr])),
      List.getElem?_set_ne (h q (by simp))]

private theorem foldl_set_of_mem (k : ℕ) (v : ℝ) : ∀ (l : List (ℕ × ℝ)) (e : List ℝ), (l.map Prod.fst).Nodup →
    (k, v) ∈ l → k < e.length → (l.foldl (fun l p => l.set p.1 p.2) e)[k]? = some v
  | [], _, _, h, _ => by cases h
  | q :: l, e, hn, h, hk => by
    rw [List.map_cons, List.nodup_cons] at hn
    rw [List.foldl_cons]
    rcases List.mem_cons.1 h with rfl | h
    · rw [foldl_set_of_not_mem]
      · simp [hk]
      · intro r hr hrk
        exact hn.1 (List.mem_map.2 ⟨r, hr, hrk⟩)
    · exact foldl_set_of_mem k v l _ hn.2 h (by simpa using hk)

/-- The full list of transit times: its length, the missing transits, the labelled ones. -/
theorem allTransitTimes_spec {t0 P : ℝ} {inds : List ℕ} {times tts : List ℝ}
    (h : allTransitTimes t0 P inds times = .ok tts) :
    tts ≠ [] ∧ (∀ i ∈ inds, i < tts.length) ∧ (∃ i ∈ inds, tts.length = i + 1) ∧
    (∀ k, k < tts.length → k ∉ inds → tts[k]? = some (t0 + P * (k : ℝ))) ∧
    (inds.Nodup → ∀ q ∈ List.zip inds times, tts[q.1]? = some q.2) := by
  unfold allTransitTimes at h
  split at h
  · cases h
  next m hm =>
  simp only [Except.ok.injEq] at h
  subst h
  have hm' := List.max?_eq_some_iff.1 hm
  have hlen : (setSubtensor ((List.range (m + 1)).map (fun i : ℕ => t0 + P * (i : ℝ))) inds times).length = m + 1 := by
    rw [setSubtensor_length]; simp
  refine ⟨?_, ?_, ⟨m, hm'.1, hlen⟩, ?_, ?_⟩
  · intro h0
    rw [h0] at hlen
    simp at hlen
  · intro i hi
    have := hm'.2 i hi
    omega
  · intro k hk hki
    rw [hlen] at hk
    unfold setSubtensor
    rw [foldl_set_of_not_mem]
    · simp [hk]
    · rintro q hq rfl
      exact hki (List.of_mem_zip hq).1
  · rintro hn ⟨k, v⟩ hq
    have hk := hm'.2 k (List.of_mem_zip hq).1
    unfold setSubtensor
    apply foldl_set_of_mem k v _ _ ?_ hq
    · simp; omega
    · refine hn.sublist ?_
      clear hq hlen hm' hm hk hn
      induction inds generalizing times with
      | nil => simp
      | cons a l ih =>
        cases times with
        | nil => simp
        | cons b t => simpa using ih

/-- If every labelled transit is on the linear ephemeris, so is every transit. -/
theorem allTransitTimes_linear {t0 P : ℝ} {inds : List ℕ} {times tts : List ℝ}
    (h : allTransitTimes t0 P inds times = .ok tts) (hz : ∀ q ∈ List.zip inds times, q.2 = t0 + P * (q.1 : ℝ)) :
    tts = (List.range tts.length).map (fun i : ℕ => t0 + P * (i : ℝ)) := by
  unfold allTransitTimes at h
  split at h
  · cases h
  next m hm =>
  simp only [Except.ok.injEq] at h
  have : ∀ (l : List (ℕ × ℝ)), (∀ q ∈ l, q.2 = t0 + P * (q.1 : ℝ)) →
      l.foldl (fun l p => l.set p.1 p.2) ((List.range (m + 1)).map (fun i : ℕ => t0 + P * (i : ℝ))) =
        (List.range (m + 1)).map (fun i : ℕ => t0 + P * (i : ℝ)) := by
    intro l
    induction l with
    | nil => intro _; rfl
    | cons q l ih =>
      intro hl
      rw [List.foldl_cons]
      have hset : ((List.range (m + 1)).map (fun i : ℕ => t0 + P * (i : ℝ))).set q.1 q.2 =
          (List.range (m + 1)).map (fun i : ℕ => t0 + P * (i : ℝ)) := by
        apply List.ext_getElem?
        intro j
        rw [List.getElem?_set]
        split
        next hj =>
          subst hj
          rw [hl q (by simp)]
          by_cases hq : q.1 < m + 1
          · simp [hq]
          · simp [hq]
        · rfl
      rw [hset]
      exact ih fun r hr => hl r (by simp [hr])
  have h2 := this _ hz
  have hts : tts = (List.range (m + 1)).map (fun i : ℕ => t0 + P * (i : ℝ)) := by rw [← h]; exact h2
  rw [hts]
  simp

theorem allTransitTimes_error {t0 P : ℝ} {inds : List ℕ} {times : List ℝ} (h : inds ≠ []) :
    ∃ tts, allTransitTimes t0 P inds times = .ok tts := by
  unfold allTransitTimes
  split
  next hm => exact absurd (List.max?_eq_none_iff.1 hm) h
  next m hm => exact ⟨_, rfl⟩

/-- A given `t0` is the attribute `t0`. -/
theorem Built.t0_given {C : Consts} {A : Args} {o : Orbit} (B : Built C A o) {q : Q} (h : A.t0 = some q) : o.t0 = q.val := by
  have := B.time_block
  unfold timeBlock at this
  rw [h] at this
  rcases h2 : A.t_periastron with _ | tp <;> rw [h2] at this
  · simp only [Except.ok.injEq, Prod.mk.injEq] at this
    exact this.1.symm
  · cases this

/-- A given `period` is the attribute `period` (in days). -/
theorem Built.period_given {C : Consts} {A : Args} {o : Orbit} (B : Built C A o) {q : Q} (h : A.period = some q) :
    o.period = q.inUnit C.day := by
  obtain ⟨_, _, D, -, -, -, hc, -⟩ := B.inputs
  rw [h] at hc
  unfold consistentInputs at hc
  split at hc; · cases hc
  split at hc; · cases hc
  split at hc; · cases hc
  rename_i a? ha?
  split at hc; · cases hc
  rename_i p? hp?
  rw [toUnitOpt_eq_ok] at hp?
  simp at hp?
  rw [hp?.2] at hc
  rcases a? with _ | av
  · simp only at hc
    unfold finishInputs at hc
    split at hc; · cases hc
    split at hc; · cases hc
    split at hc; · cases hc
    split at hc; · cases hc
    split at hc; · cases hc
    simp only [Except.ok.injEq, Inputs.mk.injEq] at hc
    exact hc.2.1.symm
  · simp only at hc
    unfold impliedInputs at hc
    split at hc; · cases hc
    split at hc; · cases hc
    simp only [Except.ok.injEq, Inputs.mk.injEq] at hc
    exact hc.2.1.symm

/-- The arguments of the underlying `KeplerianOrbit` when `transit_times` are given (lines 125-142). -/
noncomputable def TtvArgs.fitted (K : TtvArgs) (s c : ℝ) : Args :=
  { K.base with t0 := some c, period := some (K.shapePeriod s) }

/-- The result of `ttvFinish`. -/
structure TtvDone (o : Orbit) (T : Ttv) : Prop where
  orbit_eq : T.orbit = { o with warp := fun t => t - modelDt T.bin_edges T.bin_values t }
  all_eq : allTransitTimes o.t0 o.period T.transit_inds T.transit_times = .ok T.all_transit_times
  edges_eq : T.bin_edges = binEdges T.all_transit_times T.ttv_period
  values_eq : T.bin_values = binValues T.all_transit_times
  length_eq : T.transit_inds.length = T.transit_times.length

theorem ttvFinish_eq {o : Orbit} {p : ℝ} {inds : List ℕ} {times ttvs : List ℝ} {R : Option Ttv}
    (hl : inds.length = times.length) (h : ttvFinish o p inds times ttvs = .ok R) :
    ∃ T, R = some T ∧ TtvDone o T ∧ T.ttv_period = p ∧ T.transit_inds = inds ∧ T.transit_times = times ∧ T.ttvs = ttvs := by
  unfold ttvFinish at h
  split at h
  · cases h
  next tts htts =>
  simp only [Except.ok.injEq] at h
  exact ⟨_, h.symm, ⟨rfl, htts, rfl, rfl, hl⟩, rfl, rfl, rfl, rfl⟩

/-- Everything a successful construction says: the two parameterizations. -/
theorem ttv_cases {C : Consts} {K : TtvArgs} {T : Ttv} (h : ttvInit C K = .ok (some T)) :
    ∃ A o, keplerianInit C A = .ok o ∧ TtvDone o T ∧
      ((K.ttvs = some T.ttvs ∧ A = K.base ∧ T.ttv_period = o.period ∧
          T.transit_inds = K.transit_inds.getD (List.range T.ttvs.length) ∧ T.transit_inds.length = T.ttvs.length ∧
          T.transit_times = List.zipWith (fun (i : ℕ) ttv => o.t0 + o.period * (i : ℝ) + ttv) T.transit_inds T.ttvs) ∨
        (K.ttvs = none ∧ K.transit_times = some T.transit_times ∧
          T.transit_inds = K.transit_inds.getD (List.range T.transit_times.length) ∧
          ∃ c, linFit T.transit_inds T.transit_times = some (T.ttv_period, c) ∧ A = K.fitted T.ttv_period c ∧ o.t0 = c ∧
            T.ttvs = List.zipWith (fun (i : ℕ) y => y - (c + (i : ℝ) * T.ttv_period)) T.transit_inds T.transit_times)) := by
  unfold ttvInit at h
  rcases hv : K.ttvs with _ | ttvs
  · rcases ht : K.transit_times with _ | times
    · simp [hv, ht] at h
    · simp only [hv, ht] at h
      split at h
      · cases h
      next hl =>
      push Not at hl
      split at h
      · split at h
        · cases h
        · split at h <;> cases h
      next s c hf =>
      split at h
      · cases h
      next o ho =>
      obtain ⟨T', hT, hD, h1, h2, h3, h4⟩ := ttvFinish_eq hl h
      cases hT
      refine ⟨K.fitted s c, o, ho, hD, Or.inr ⟨rfl, ?_, ?_, c, ?_, ?_, ?_, ?_⟩⟩
      · rw [h3]
      · rw [h2, h3]
      · rw [h1, h2, h3, hf]
      · rw [h1]
      · exact (built_of_init ho).t0_given rfl
      · rw [h4, h1, h2, h3]
  · simp only [hv] at h
    split at h
    · cases h
    next o ho =>
    split at h
    · cases h
    next hl =>
    push Not at hl
    obtain ⟨T', hT, hD, h1, h2, h3, h4⟩ := ttvFinish_eq (by simp [hl]) h
    cases hT
    refine ⟨_, o, ho, hD, Or.inl ⟨by rw [h4], rfl, h1, ?_, ?_, ?_⟩⟩
    · rw [h2, h4]
    · rw [h2, h4, hl]
    · rw [h3, h2, h4]

/-- Observables depend on time only through the phase. -/
theorem sameObservables_of_phase (C : Consts) (o : Orbit) (hp : 0 < o.period) (hn : o.n = 2 * π / o.period)
    (he : o.EccOk) (w : ℝ → ℝ) (hw : ∀ t, ∃ k : ℤ, w t = o.warp t + k * o.period) :
    SameObservables C { o with warp := w } o := by
  have hf : ∀ t, Orbit.trueAnomaly { o with warp := w } t = o.trueAnomaly t := by
    intro t
    obtain ⟨k, hk⟩ := hw t
    have hM : (w t - o.tref) * o.n = (o.warp t - o.tref) * o.n + k * (2 * π) := by
      rw [hk, hn]; field_simp; ring
    rw [Orbit.trueAnomaly_eq, Orbit.trueAnomaly_eq]
    change keplerOp ((w t - o.tref) * o.n) o.eccVal = keplerOp ((o.warp t - o.tref) * o.n) o.eccVal
    rw [hM, keplerOp_add_two_pi_mul he.nonneg he.lt_one]
  have hs : ∀ t, Orbit.sinceTransit { o with warp := w } t = o.sinceTransit t := by
    intro t
    obtain ⟨k, hk⟩ := hw t
    rw [Orbit.sinceTransit_eq, Orbit.sinceTransit_eq]
    change wrap (w t) o.period = _
    rw [hk, wrap_add_int hp]
  have hpos : ∀ a t px, Orbit.position { o with warp := w } C a t px false = o.position C a t px false := by
    intro a t px
    simp only [Orbit.position, Orbit.positionNow, hf, Bool.false_eq_true, if_false]
    rfl
  have hv : ∀ m t, Orbit.velocity { o with warp := w } m t = o.velocity m t := by
    intro m t
    simp only [Orbit.velocity, hf]
    rfl
  have ha : ∀ a m t, Orbit.acceleration { o with warp := w } a m t = o.acceleration a m t := by
    intro a m t
    simp only [Orbit.acceleration, hf]
    rfl
  refine ⟨fun t px => hpos _ t px, fun t px => hpos _ t px, fun t px => hpos _ t px, fun t px => ?_, fun t => hv _ t,
    fun t => hv _ t, fun t => hv _ t, fun t => ha _ _ t, fun t => ha _ _ t, fun t => ha _ _ t, fun t K u => ?_,
    fun cp r ts texp ld => ?_⟩
  · simp only [Orbit.relativeAngles, hpos]
  · simp only [Orbit.radialVelocity, Orbit.starVelocity, hf, hv]
  · have hwin : Orbit.transitWindow { o with warp := w } cp r = o.transitWindow cp r := rfl
    have hb : ∀ (x y : Orbit × ℝ) (ws : List (Option (ℝ × ℝ))),
        bcast (fun _ _ => ()) [x] ws = bcast (fun _ _ => ()) [y] ws := by
      rintro x y (_ | ⟨w, _ | ⟨w', ws⟩⟩) <;> rfl
    unfold inTransit
    simp only [List.map_cons, List.map_nil, hs, hwin, hb _ (o, r)]

end Exo
