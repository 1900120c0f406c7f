import Verif.Lemmas.TtvRelabel
import Verif.Lemmas.Translate
import Verif.Lemmas.TtvSystem
import Verif.Props.Ttv

/-!
# C77: only which transit happened when matters
-/

namespace Exo
open Real

/-! ## Order -/

theorem ttvFinish_timing {inds inds' : List ℕ} {vals vals' : List ℝ} (h : SameTransits inds vals inds' vals') (o : Orbit) (P : ℝ)
    (res res' : List ℝ) : (ttvFinish o P inds vals res).map (Option.map Ttv.timing) =
      (ttvFinish o P inds' vals' res').map (Option.map Ttv.timing) := by
  unfold ttvFinish
  rw [h.allTransitTimes]
  split <;> rfl

/-- **C77** (order): listing the transits in another order, with their numbers, gives the same exception or the same orbit: the same
attributes as a `KeplerianOrbit`, the same warped time axis, mean period and full list of transit times. -/
theorem C77_order (C : Consts) (K K' : TtvArgs) (h : K.SameUpToOrder K') :
    (ttvInit C K).map (Option.map Ttv.timing) = (ttvInit C K').map (Option.map Ttv.timing) := by
  obtain ⟨hb, hd, ⟨v, v', hv, hv', hs⟩ | ⟨hn, hn', v, v', hv, hv', hs⟩⟩ := h
  · unfold TtvArgs.numbers at hs
    unfold ttvInit
    simp only [hv, hv', hb, hs.length, hs.length', ne_eq, not_true_eq_false, if_false]
    split
    · rfl
    · exact ttvFinish_timing (hs.map _) _ _ _ _
  · unfold TtvArgs.numbers at hs
    have hp : ∀ s, K'.shapePeriod s = K.shapePeriod s := fun s => by unfold TtvArgs.shapePeriod; rw [hb, hd]
    have he : K.transit_inds.getD (List.range v.length) = [] ↔ K'.transit_inds.getD (List.range v'.length) = [] :=
      ⟨fun e => (e ▸ hs.inds_perm).symm.eq_nil, fun e => (e ▸ hs.inds_perm).eq_nil⟩
    unfold ttvInit
    simp only [hn, hn', hv, hv', hb, hs.length, hs.length', ne_eq, not_true_eq_false, if_false, ← hs.linFit, hp, ← he]
    split
    · rfl
    · split
      · rfl
      · exact ttvFinish_timing hs _ _ _ _

/-- **C77** (order, the lists themselves): the attributes `transit_inds`, `transit_times` and `ttvs` of the second orbit list the same
transits with the same times and the same residuals. -/
theorem C77_order_lists (C : Consts) (K K' : TtvArgs) (h : K.SameUpToOrder K') (T T' : Ttv) (hT : ttvInit C K = .ok (some T))
    (hT' : ttvInit C K' = .ok (some T')) :
    SameTransits T.transit_inds T.transit_times T'.transit_inds T'.transit_times ∧
    SameTransits T.transit_inds T.ttvs T'.transit_inds T'.ttvs := by
  have hO := C77_order C K K' h
  rw [hT, hT'] at hO
  simp only [Except.map, Option.map, Except.ok.injEq, Option.some.injEq, Ttv.timing, Prod.mk.injEq] at hO
  obtain ⟨e1, e2, -⟩ := hO
  obtain ⟨A, o, ho, hD, hc⟩ := ttv_cases hT
  obtain ⟨A', o', ho', hD', hc'⟩ := ttv_cases hT'
  have hoo : o'.t0 = o.t0 ∧ o'.period = o.period := by
    have := hD.orbit_eq
    rw [e1, hD'.orbit_eq] at this
    have h1 := congrArg Orbit.t0 this
    have h2 := congrArg Orbit.period this
    exact ⟨h1, h2⟩
  obtain ⟨hb, hd, ⟨v, v', hv, hv', hs⟩ | ⟨hn, hn', v, v', hv, hv', hs⟩⟩ := h
  · rcases hc with ⟨k1, k2, k3, k4, k5, k6⟩ | ⟨k1, -⟩
    swap
    · rw [hv] at k1; cases k1
    rcases hc' with ⟨k1', k2', k3', k4', k5', k6'⟩ | ⟨k1', -⟩
    swap
    · rw [hv'] at k1'; cases k1'
    rw [hv, Option.some.injEq] at k1
    rw [hv', Option.some.injEq] at k1'
    subst k1 k1'
    unfold TtvArgs.numbers at hs
    rw [← k4, ← k4'] at hs
    refine ⟨?_, hs⟩
    rw [k6, k6', hoo.1, hoo.2]
    exact hs.map _
  · rcases hc with ⟨k1, -⟩ | ⟨-, k1, k2, c, k3, -, k4, k5⟩
    · rw [hn] at k1; cases k1
    rcases hc' with ⟨k1', -⟩ | ⟨-, k1', k2', c', k3', -, k4', k5'⟩
    · rw [hn'] at k1'; cases k1'
    rw [hv, Option.some.injEq] at k1
    rw [hv', Option.some.injEq] at k1'
    subst k1 k1'
    unfold TtvArgs.numbers at hs
    rw [← k2, ← k2'] at hs
    refine ⟨hs, ?_⟩
    rw [k5, k5', ← k4, ← k4', hoo.1, ← e2]
    exact hs.map _

/-- Hypotheses of `C77_order`: three transits, listed backwards. -/
example : TtvArgs.SameUpToOrder { base := demoCirc, transit_times := some [0, 1.1, 3], transit_inds := some [0, 1, 3] }
    { base := demoCirc, transit_times := some [3, 1.1, 0], transit_inds := some [3, 1, 0] } where
  base := rfl
  delta := rfl
  given := by
    refine Or.inr ⟨rfl, rfl, _, _, rfl, rfl, rfl, rfl, ?_, by decide⟩
    exact (List.reverse_perm [(0, (0 : ℝ)), (1, 1.1), (3, 3)]).symm

/-- The default numbers are `0, 1, 2, …` in the order listed. -/
example : TtvArgs.SameUpToOrder { base := demoCirc, ttvs := some [0.1, 0.2] }
    { base := demoCirc, ttvs := some [0.2, 0.1], transit_inds := some [1, 0] } where
  base := rfl
  delta := rfl
  given := by
    refine Or.inl ⟨_, _, rfl, rfl, rfl, rfl, ?_, by simpa [TtvArgs.numbers] using List.nodup_range⟩
    exact (List.reverse_perm [(0, (0.1 : ℝ)), (1, 0.2)]).symm

/-- Without the condition that no number is listed twice the order matters: the transit listed last wins. -/
theorem C77_duplicate_counterexample : setSubtensor [0, 1] [1, 1] [5, 6] ≠ setSubtensor [0, 1] [1, 1] [6, 5] := by
  simp [setSubtensor]

/-! ## Numbering -/

theorem linFit_shift {inds : List ℕ} {vals : List ℝ} (hl : inds.length = vals.length) (k : ℕ) :
    linFit (inds.map (· + k)) vals = (linFit inds vals).map (fun q : ℝ × ℝ => (q.1, q.2 - (k : ℝ) * q.1)) := by
  have e1 : ((inds.map (· + k)).map (fun i : ℕ => (i : ℝ))).sum = (inds.map (fun i : ℕ => (i : ℝ))).sum + k * vals.length := by
    rw [← hl]
    clear hl
    induction inds with
    | nil => simp
    | cons i l ih => simp only [List.map_cons, List.sum_cons, List.length_cons, ih]; push_cast; ring
  have e2 : ((inds.map (· + k)).map (fun i : ℕ => (i : ℝ) ^ 2)).sum =
      (inds.map (fun i : ℕ => (i : ℝ) ^ 2)).sum + 2 * k * (inds.map (fun i : ℕ => (i : ℝ))).sum + k ^ 2 * vals.length := by
    rw [← hl]
    clear hl e1
    induction inds with
    | nil => simp
    | cons i l ih => simp only [List.map_cons, List.sum_cons, List.length_cons, ih]; push_cast; ring
  have e3 : (List.zipWith (fun (i : ℕ) y => (i : ℝ) * y) (inds.map (· + k)) vals).sum =
      (List.zipWith (fun (i : ℕ) y => (i : ℝ) * y) inds vals).sum + k * vals.sum := by
    clear e1 e2
    induction inds generalizing vals with
    | nil => cases vals <;> simp at hl ⊢
    | cons i l ih =>
      rcases vals with _ | ⟨y, vals⟩
      · simp at hl
      · simp only [List.map_cons, List.zipWith_cons_cons, List.sum_cons]
        rw [ih (by simpa using hl)]
        push_cast; ring
  unfold linFit
  simp only [e1, e2, e3]
  set n : ℝ := (vals.length : ℝ)
  set sx := (inds.map (fun i : ℕ => (i : ℝ))).sum
  set sxx := (inds.map (fun i : ℕ => (i : ℝ) ^ 2)).sum
  set sy := vals.sum
  set sxy := (List.zipWith (fun (i : ℕ) y => (i : ℝ) * y) inds vals).sum
  have hd : n * (sxx + 2 * k * sx + k ^ 2 * n) - (sx + k * n) ^ 2 = n * sxx - sx ^ 2 := by ring
  rw [hd]
  split
  · rfl
  next h =>
    simp only [Option.map_some, Option.some.injEq, Prod.mk.injEq]
    constructor
    · congr 1; ring
    · field_simp
      ring

theorem allTransitTimes_shift {t0 P : ℝ} {inds : List ℕ} {times tts tts' : List ℝ} (hn : inds.Nodup)
    (hl : inds.length = times.length) (k : ℕ) (h : allTransitTimes t0 P inds times = .ok tts)
    (h' : allTransitTimes (t0 - k * P) P (inds.map (· + k)) times = .ok tts') :
    tts' = (List.range k).map (fun j : ℕ => t0 - k * P + P * (j : ℝ)) ++ tts := by
  obtain ⟨-, -, ⟨m, hm, hlen⟩, h2, h3⟩ := allTransitTimes_spec h
  have hmax := (allTransitTimes_spec h).2.1
  obtain ⟨-, hmax', ⟨m', hm', hlen'⟩, h2', h3'⟩ := allTransitTimes_spec h'
  have hle : tts'.length = k + tts.length := by
    obtain ⟨i, hi, rfl⟩ := List.mem_map.1 hm'
    have a1 := hmax i hi
    have a2 := hmax' (m + k) (List.mem_map.2 ⟨m, hm, rfl⟩)
    omega
  have hn' : (inds.map (· + k)).Nodup := hn.map (fun a b hab => by simpa using hab)
  apply List.ext_getElem?
  intro j
  by_cases hj : j < k
  · rw [List.getElem?_append_left (by simpa using hj)]
    rw [h2' j (by omega)]
    · simp [hj]
    · intro hm
      obtain ⟨i, -, hi⟩ := List.mem_map.1 hm
      omega
  · push Not at hj
    rw [List.getElem?_append_right (by simpa using hj)]
    simp only [List.length_map, List.length_range]
    obtain ⟨i, rfl⟩ := Nat.exists_eq_add_of_le' hj
    rw [Nat.add_sub_cancel]
    by_cases hi : i < tts.length
    swap
    · rw [List.getElem?_eq_none (by omega), List.getElem?_eq_none (by omega)]
    by_cases him : i ∈ inds
    · obtain ⟨a, ha, rfl⟩ := List.mem_iff_getElem.1 him
      have q1 : (inds[a], times[a]) ∈ List.zip inds times := List.mem_iff_getElem.2 ⟨a, by simp; omega, by simp⟩
      have q2 : (inds[a] + k, times[a]) ∈ List.zip (inds.map (· + k)) times :=
        List.mem_iff_getElem.2 ⟨a, by simp; omega, by simp⟩
      have r1 := h3 hn _ q1
      have r2 := h3' hn' _ q2
      simp only at r1 r2
      rw [r1, r2]
    · rw [h2 i hi him, h2' (i + k) (by omega)]
      · push_cast
        congr 1
        ring
      · intro hm
        obtain ⟨i', hi', e⟩ := List.mem_map.1 hm
        simp only [Nat.add_right_cancel_iff] at e
        exact him (e ▸ hi')

/-- If, of a list `l ++ l'`, everything in `l` is further from `t` than the first entry of `l'`, only `l'` matters. -/
theorem IsNearest.of_append {l l' : List ℝ} {t s : ℝ} (h : IsNearest (l ++ l') t s) {a : ℝ} (ha : a ∈ l')
    (hl : ∀ x ∈ l, |t - a| < |t - x|) : IsNearest l' t s := by
  refine ⟨?_, fun u hu => h.2 u (by simp [hu])⟩
  rcases List.mem_append.1 h.1 with hs | hs
  · exact absurd (h.2 a (by simp [ha])).1 (not_le.2 (hl s hs))
  · exact hs

theorem sameAt_of_warp (C : Consts) (o : Orbit) (x y : ℝ) (w w' : ℝ → ℝ) (t : ℝ) (h : w t = w' t) :
    SameAt C { o with warp := w } { o with t0 := x, t_periastron := y, warp := w' } t := by
  have hf : Orbit.trueAnomaly { o with warp := w } t = Orbit.trueAnomaly { o with t0 := x, t_periastron := y, warp := w' } t := by
    simp only [Orbit.trueAnomaly, h]
  have hs : Orbit.sinceTransit { o with warp := w } t = Orbit.sinceTransit { o with t0 := x, t_periastron := y, warp := w' } t := by
    simp only [Orbit.sinceTransit, h]
  have hpos : ∀ a px, Orbit.position { o with warp := w } C a t px false =
      Orbit.position { o with t0 := x, t_periastron := y, warp := w' } C a t px false := by
    intro a px
    simp only [Orbit.position, Orbit.positionNow, hf, Bool.false_eq_true, if_false]
    rfl
  have hv : ∀ m, Orbit.velocity { o with warp := w } m t = Orbit.velocity { o with t0 := x, t_periastron := y, warp := w' } m t := by
    intro m
    simp only [Orbit.velocity, hf]
    rfl
  have ha : ∀ a m, Orbit.acceleration { o with warp := w } a m t =
      Orbit.acceleration { o with t0 := x, t_periastron := y, warp := w' } a m t := by
    intro a m
    simp only [Orbit.acceleration, hf]
    rfl
  refine ⟨hpos _, hpos _, hpos _, fun px => ?_, hv _, hv _, hv _, ha _ _, ha _ _, ha _ _, fun K u => ?_, fun cp r texp => ?_⟩
  · simp only [Orbit.relativeAngles, hpos]
  · simp only [Orbit.radialVelocity, Orbit.starVelocity, hf, hv]
  · have hwin : Orbit.transitWindow { o with warp := w } cp r =
        Orbit.transitWindow { o with t0 := x, t_periastron := y, warp := w' } cp r := rfl
    have hb : ∀ (x y : Orbit × ℝ) (ws : List (Option (ℝ × ℝ))),
        bcast (fun _ _ => ()) [x] ws = bcast (fun _ _ => ()) [y] ws := by
      rintro x y (_ | ⟨w, _ | ⟨w', ws⟩⟩) <;> rfl
    unfold inTransit
    simp only [List.map_cons, List.map_nil, hs, hwin, hb _ (o, r)]

/-- **C77** (numbering): if every transit time given is numbered `k` higher (the docstring asks for numbers that start with zero), the
fitted period, the residuals and the shape are the same, `t0` is `k` periods earlier, and `k` predicted transits precede the transit
times. Times after the middle between the last of these and the first transit time have the same observables. Missing: orbits with a
separate `period`, for which it is false. -/
theorem C77_numbering_partial (C : Consts) (K : TtvArgs) (k : ℕ) (T : Ttv) (h1 : K.ttvs = none) (hT : ttvInit C K = .ok (some T))
    (hn : T.transit_inds.Nodup) (hp : T.orbit.period = T.ttv_period) :
    ∃ T', ttvInit C { K with transit_inds := some (T.transit_inds.map (· + k)) } = .ok (some T') ∧
      T'.ttv_period = T.ttv_period ∧ T'.ttvs = T.ttvs ∧ T'.transit_times = T.transit_times ∧
      (∀ d, { T'.orbit with t0 := T.orbit.t0, t_periastron := T.orbit.t_periastron, warp := d } = { T.orbit with warp := d }) ∧
      T'.orbit.t0 = T.orbit.t0 - k * T.ttv_period ∧
      T'.all_transit_times =
        (List.range k).map (fun j : ℕ => T.orbit.t0 - k * T.ttv_period + T.ttv_period * (j : ℝ)) ++ T.all_transit_times ∧
      (T'.all_transit_times.Pairwise (· < ·) → 0 < T.ttv_period → ∀ t, (∀ a ∈ T.all_transit_times.head?,
        (a + (T.orbit.t0 - T.ttv_period)) / 2 < t) → SameAt C T.orbit T'.orbit t) := by
  obtain ⟨A, o, ho, hD, hc⟩ := ttv_cases hT
  rcases hc with ⟨k1, -⟩ | ⟨-, k1, k2, c, k3, k4, k5, k6⟩
  · rw [h1] at k1; cases k1
  have hl := hD.length_eq
  have ho1 : T.orbit.t0 = o.t0 := by rw [hD.orbit_eq]
  have ho2 : o.period = T.ttv_period := by rw [← hp, hD.orbit_eq]
  have hfit := linFit_shift hl k
  rw [k3, Option.map_some] at hfit
  simp only at hfit
  -- the orbit
  have htp : K.base.t_periastron = none := by
    rcases hq : K.base.t_periastron with _ | q
    · rfl
    · have := (built_of_init ho).time_block
      rw [k4] at this
      simp [timeBlock, TtvArgs.fitted, hq] at this
  have hA' : ({ K.base with t0 := some ((c - k * T.ttv_period : ℝ) : Q), period := some (K.shapePeriod T.ttv_period) } : Args) =
      A.moved (-(k * T.ttv_period)) := by
    rw [k4]
    simp [TtvArgs.fitted, Args.moved, htp, Q.plus, sub_eq_add_neg]
  have ho' := keplerianInit_moved C A (-(k * T.ttv_period))
  rw [ho] at ho'
  simp only [Except.map] at ho'
  have hne : T.transit_inds.map (· + k) ≠ [] := by
    intro e
    rw [List.map_eq_nil_iff] at e
    rw [e] at k3
    have : T.transit_times = [] := List.eq_nil_of_length_eq_zero (by rw [← hl, e]; rfl)
    simp [linFit, this] at k3
  obtain ⟨tts', htts'⟩ := allTransitTimes_error (t0 := o.t0 - k * T.ttv_period) (P := o.period) (times := T.transit_times) hne
  have hall := hD.all_eq
  rw [ho2] at hall htts'
  have happ := allTransitTimes_shift hn hl k hall htts'
  refine ⟨ttvBuild (o.moved (-(k * T.ttv_period))) T.ttv_period (T.transit_inds.map (· + k)) T.transit_times T.ttvs tts', ?_, rfl, rfl, rfl,
    ?_, ?_, ?_, ?_⟩
  · unfold ttvInit
    simp only [h1, k1, Option.getD_some, List.length_map, hl, ne_eq, not_true_eq_false, if_false, hfit]
    have : TtvArgs.shapePeriod ⟨K.base, none, some T.transit_times, some (T.transit_inds.map (· + k)), K.delta_log_period⟩ T.ttv_period =
        K.shapePeriod T.ttv_period := rfl
    rw [this, hA', ho']
    dsimp only
    rw [ttvFinish_ok]
    refine ⟨tts', ?_, ?_⟩
    · simp only [Orbit.moved, ← sub_eq_add_neg, ho2, htts']
    · congr 1
      rw [k6, List.zipWith_map_left]
      congr 1
      funext i y
      push_cast
      ring
  · intro d
    rw [hD.orbit_eq]
    rfl
  · rw [ho1]
    exact (sub_eq_add_neg _ _).symm
  · rw [ho1]
    exact happ
  · intro hs hP t ht
    have hs' : tts'.Pairwise (· < ·) := hs
    rw [happ, List.pairwise_append] at hs'
    obtain ⟨-, hs2, hs3⟩ := hs'
    obtain ⟨-, -, ⟨m, -, hm⟩, -⟩ := allTransitTimes_spec hall
    obtain ⟨a, l, hal⟩ := List.exists_cons_of_ne_nil (l := T.all_transit_times) (by
      intro e; rw [e] at hm; simp at hm)
    have ha : a ∈ T.all_transit_times := by rw [hal]; simp
    have hat := ht a (by rw [hal]; rfl)
    have N1 := modelDt_nearest (List.ne_nil_of_mem ha) hs2 hP t
    have N2 := modelDt_nearest (tts := tts') (by rw [happ, hal]; simp) hs hP t
    rw [happ] at N2
    have N3 := N2.of_append ha (fun x hx => by
      have hxa := hs3 x hx a ha
      obtain ⟨j, hj, rfl⟩ := List.mem_map.1 hx
      have hj : j + 1 ≤ k := List.mem_range.1 hj
      have hjR : (j : ℝ) + 1 ≤ k := by exact_mod_cast hj
      have hx2 : o.t0 - k * T.ttv_period + T.ttv_period * (j : ℝ) ≤ o.t0 - T.ttv_period := by nlinarith
      rw [ho1] at hat
      rw [abs_of_pos (a := t - (o.t0 - k * T.ttv_period + T.ttv_period * (j : ℝ))) (by linarith)]
      rw [abs_lt]
      constructor <;> linarith)
    have N4 := N3.unique N1
    rw [← happ] at N4
    rw [hD.orbit_eq]
    refine sameAt_of_warp C o _ _ _ _ t ?_
    simp only [N4, hD.edges_eq, hD.values_eq]

/-- Hypotheses of `C77_numbering_partial`, all of them: `TTVOrbit(transit_times=[[0, 2]], transit_inds=[[0, 2]], a=10, b=0.5)`, numbered
one later. -/
example (C : Consts) : ∃ K T, K.ttvs = none ∧ ttvInit C K = .ok (some T) ∧ T.transit_inds.Nodup ∧ T.orbit.period = T.ttv_period ∧
    0 < T.ttv_period ∧ T.orbit.t0 = 0 ∧ T.all_transit_times = [0, 1, 2] := by
  obtain ⟨o, ho, ht0, hP⟩ : ∃ o, keplerianInit C { ({ a := some (10 : ℝ), b := some (1 / 2 : ℝ) } : Args) with
      t0 := some (0 : ℝ), period := some (1 : ℝ) } = .ok o ∧ o.t0 = 0 ∧ o.period = 1 := ⟨_, rfl, rfl, rfl⟩
  have htts : allTransitTimes o.t0 o.period [0, 2] [0, 2] = .ok [0, 1, 2] := by
    rw [ht0, hP]
    norm_num [allTransitTimes, setSubtensor, List.range_succ]
  refine ⟨{ base := { a := some (10 : ℝ), b := some (1 / 2 : ℝ) }, transit_times := some [0, 2],
            transit_inds := some [0, 2] }, ?_⟩
  unfold ttvInit
  simp only [TtvArgs.shapePeriod, Option.getD_some, List.length_cons, ne_eq, demoTtv_fit] at ho ⊢
  simp only [ho, ttvFinish, htts]
  exact ⟨_, trivial, rfl, by simp, hP, by norm_num, ht0, rfl⟩

/-- **C77 (numbering) is false with a separate `period`**: the predicted time of the transit that was not observed depends on where
the numbering starts. `TTVOrbit(transit_times=[[0, 2]], period=1.1, …)` with the numbers `[0, 2]` puts the transit between at 1.1,
with `[1, 3]` at 1.2. (The middle is 1.) -/
theorem C77_numbering_counterexample (C : Consts) : ∃ T T',
    ttvInit C demoTtv = .ok (some T) ∧ ttvInit C { demoTtv with transit_inds := some [1, 3] } = .ok (some T') ∧
    T.all_transit_times = [0, 11 / 10, 2] ∧ T'.all_transit_times = [-1, 0, 6 / 5, 2] := by
  obtain ⟨T, hT, -, -, -, -, -, -, ha, -⟩ := demoTtv_ok C
  have hfit : linFit [1, 3] [0, 2] = some (1, -1) := by unfold linFit; norm_num
  obtain ⟨o, ho, ht0, hP⟩ : ∃ o, keplerianInit C { demoTtv.base with t0 := some (-1 : ℝ), period := some (11 / 10 : ℝ) } = .ok o ∧
      o.t0 = -1 ∧ o.period = 11 / 10 := ⟨_, rfl, rfl, rfl⟩
  have htts : allTransitTimes o.t0 o.period [1, 3] [0, 2] = .ok [-1, 0, 6 / 5, 2] := by
    rw [ht0, hP]
    norm_num [allTransitTimes, setSubtensor, List.range_succ]
  refine ⟨T, ?_⟩
  rw [hT]
  unfold ttvInit
  simp only [demoTtv, TtvArgs.shapePeriod, Option.getD_some, List.length_cons, ne_eq, hfit] at ho ⊢
  simp only [ho, ttvFinish, htts]
  exact ⟨_, trivial, rfl, ha, rfl⟩

/-! ## Several planets -/

theorem mapM_rel {α β β' : Type} (f : α → Except PyErr β) (g : α → Except PyErr β') (R : α → β → β' → Prop) (xs : List α)
    (h : ∀ x ∈ xs, (∃ e, f x = .error e ∧ g x = .error e) ∨ ∃ y z, f x = .ok y ∧ g x = .ok z ∧ R x y z) :
    (∃ e, xs.mapM f = .error e ∧ xs.mapM g = .error e) ∨
      ∃ l l', xs.mapM f = .ok l ∧ xs.mapM g = .ok l' ∧ l.length = xs.length ∧ l'.length = xs.length ∧
        ∀ p (hp : p < xs.length), ∃ y z, l[p]? = some y ∧ l'[p]? = some z ∧ R xs[p] y z := by
  induction xs with
  | nil => exact Or.inr ⟨[], [], rfl, rfl, rfl, rfl, fun p hp => by simp at hp⟩
  | cons x xs ih =>
    simp only [List.mapM_cons]
    rcases h x (by simp) with ⟨e, h1, h2⟩ | ⟨y, z, h1, h2, hR⟩
    · exact Or.inl ⟨e, by rw [h1]; rfl, by rw [h2]; rfl⟩
    · rcases ih (fun a ha => h a (by simp [ha])) with ⟨e, h3, h4⟩ | ⟨l, l', h3, h4, h5, h6, h7⟩
      · exact Or.inl ⟨e, by rw [h1, h3]; rfl, by rw [h2, h4]; rfl⟩
      · refine Or.inr ⟨y :: l, z :: l', by rw [h1, h3]; rfl, by rw [h2, h4]; rfl, by simp [h5], by simp [h6], ?_⟩
        rintro (_ | p) hp
        · exact ⟨y, z, rfl, rfl, hR⟩
        · exact h7 p (by simpa using hp)

theorem eachPlanet_rel {α α' : Type} {n : ℕ} {f : ℕ → Except PyErr α} {g : ℕ → Except PyErr α'} (R : ℕ → α → α' → Prop)
    (h : ∀ p < n, (∃ e, f p = .error e ∧ g p = .error e) ∨ ∃ y z, f p = .ok y ∧ g p = .ok z ∧ R p y z) :
    (∃ e, eachPlanet n f = .error e ∧ eachPlanet n g = .error e) ∨
      ∃ l l', eachPlanet n f = .ok l ∧ eachPlanet n g = .ok l' ∧ l.length = n ∧ l'.length = n ∧
        ∀ p < n, ∃ y z, l[p]? = some y ∧ l'[p]? = some z ∧ R p y z := by
  have := mapM_rel f g R (List.range n) (fun x hx => h x (List.mem_range.1 hx))
  simpa only [eachPlanet, List.length_range, List.getElem_range] using this

theorem eachPlanet_congr {α : Type} {n : ℕ} {f g : ℕ → Except PyErr α} (h : ∀ p < n, f p = g p) : eachPlanet n f = eachPlanet n g := by
  rcases eachPlanet_rel (fun _ (y z : α) => y = z) (f := f) (g := g) (n := n) (fun p hp => by
    rw [← h p hp]
    rcases f p with e | y
    · exact Or.inl ⟨e, rfl, rfl⟩
    · exact Or.inr ⟨y, y, rfl, rfl, rfl⟩) with ⟨e, h1, h2⟩ | ⟨l, l', h1, h2, h3, h4, h5⟩
  · rw [h1, h2]
  · rw [h1, h2]
    congr 1
    apply List.ext_getElem?
    intro p
    by_cases hp : p < n
    · obtain ⟨y, z, hy, hz, e⟩ := h5 p hp
      rw [hy, hz, e]
    · rw [List.getElem?_eq_none (by omega), List.getElem?_eq_none (by omega)]

theorem ttvFinishV_timing (o : VOrbit) (t0 period P : Tensor ℝ) {inds inds' : List (List ℕ)} {times times' ttvs ttvs' : List (List ℝ)}
    (h1 : inds.length = inds'.length) (h2 : ttvs.length = ttvs'.length) (h3 : times.length = inds.length) (h4 : times'.length = inds.length)
    (h : ∀ p < inds.length, SameTransits (inds.getD p []) (times.getD p []) (inds'.getD p []) (times'.getD p [])) :
    ((ttvFinishV o t0 period P inds times ttvs).map some).map (Option.map VTtv.timing) =
      ((ttvFinishV o t0 period P inds' times' ttvs').map some).map (Option.map VTtv.timing) := by
  have e : eachPlanet inds.length (allTimesOf t0 period inds times) = eachPlanet inds'.length (allTimesOf t0 period inds' times') := by
    rw [← h1]
    refine eachPlanet_congr (fun p hp => ?_)
    unfold allTimesOf
    rw [listItem_ok [] (by omega : p < times.length), listItem_ok [] (by omega : p < times'.length)]
    simp only [(h p hp).allTransitTimes]
  unfold ttvFinishV
  rw [e, h2]
  split
  · rfl
  · split <;> rfl

/-- **C77** (order, several planets): as `C77_order`, for a system in which the transits of every planet are listed in another order. -/
theorem C77_order_system (C : Consts) (K K' : VTtvArgs) (h : K.SameUpToOrder K') :
    (ttvInitV C K).map (Option.map VTtv.timing) = (ttvInitV C K').map (Option.map VTtv.timing) := by
  obtain ⟨hb, hd, ⟨i, i', v, v', hv, hv', hi, hi', l1, l2, l3, hs⟩ | ⟨hn, hn', i, i', v, v', hv, hv', hi, hi', l1, l2, l3, hs⟩⟩ := h
  · unfold ttvInitV
    simp only [hv, hv', hi, hi', hb, Option.getD_some]
    rcases keplerianInitV C K.base with e | o
    · rfl
    dsimp only
    rcases evalTimes o with e | ⟨t0, period⟩
    · rfl
    dsimp only
    rw [l3]
    rcases eachPlanet_rel (n := v.length) (f := timesOf t0 period i v) (g := timesOf t0 period i' v')
      (fun p y z => SameTransits (i.getD p []) y (i'.getD p []) z) (fun p hp => by
        unfold timesOf
        rw [listItem_ok [] (by omega : p < i.length), listItem_ok [] (by omega : p < i'.length)]
        simp only [(hs p hp).length, (hs p hp).length', ne_eq, not_true_eq_false, if_false]
        rcases t0.entry p with e | a
        · exact Or.inl ⟨e, rfl, rfl⟩
        rcases period.entry p with e | b
        · exact Or.inl ⟨e, rfl, rfl⟩
        exact Or.inr ⟨_, _, rfl, rfl, (hs p hp).map _⟩) with ⟨e, h1, h2⟩ | ⟨l, l', h1, h2, h3, h4, h5⟩
    · rw [h1, h2]
    · rw [h1, h2]
      dsimp only
      refine ttvFinishV_timing o t0 period period (by omega) l3.symm (by omega) (by omega) (fun p hp => ?_)
      obtain ⟨y, z, hy, hz, hR⟩ := h5 p (by omega)
      rw [List.getD_eq_getElem?_getD (l := l), hy, List.getD_eq_getElem?_getD (l := l'), hz]
      exact hR
  · have hfit : ∀ (j : List (List ℕ)) (w : List (List ℝ)), j.length = v.length → w.length = v.length →
        (∀ p < v.length, (j.getD p []).length = (w.getD p []).length) →
        eachPlanet v.length (planetFit (some j) w) =
          .ok ((List.range v.length).map (fun p => (j.getD p [], linFit (j.getD p []) (w.getD p [])))) := by
      intro j w hj hw hjw
      rw [eachPlanet, mapM_ok_iff, List.forall₂_map_right_iff, List.forall₂_same]
      intro p hp
      have hp : p < v.length := List.mem_range.1 hp
      simp only [planetFit, planetInds, listItem_ok [] (by omega : p < j.length), hjw p hp, ne_eq, not_true_eq_false, if_false]
    have f1 := hfit i v l1 rfl (fun p hp => (hs p hp).length)
    have f2 := hfit i' v' l2 l3 (fun p hp => (hs p hp).length')
    have e2 : ∀ (g : Option (ℝ × ℝ) → ℝ), ((List.range v.length).map (fun p => (i'.getD p [], linFit (i'.getD p []) (v'.getD p [])))).map
        (fun f : List ℕ × Option (ℝ × ℝ) => g f.2) =
        ((List.range v.length).map (fun p => (i.getD p [], linFit (i.getD p []) (v.getD p [])))).map
        (fun f : List ℕ × Option (ℝ × ℝ) => g f.2) := by
      intro g
      rw [List.map_map, List.map_map]
      refine List.map_congr_left (fun p hp => ?_)
      simp only [Function.comp, (hs p (List.mem_range.1 hp)).linFit]
    have e3 : ((List.range v.length).map (fun p => (i'.getD p [], linFit (i'.getD p []) (v'.getD p [])))).any (fun f => f.2.isNone) =
        ((List.range v.length).map (fun p => (i.getD p [], linFit (i.getD p []) (v.getD p [])))).any (fun f => f.2.isNone) := by
      rw [List.any_map, List.any_map]
      rw [Bool.eq_iff_iff, List.any_eq_true, List.any_eq_true]
      refine exists_congr (fun p => and_congr_right (fun hp => ?_))
      simp only [Function.comp, (hs p (List.mem_range.1 hp)).linFit]
    have hp : ∀ s, K'.shapePeriod s = K.shapePeriod s := fun s => by unfold VTtvArgs.shapePeriod; rw [hb, hd]
    unfold ttvInitV
    simp only [hn, hn', hv, hv', hi, hi', hb, l3, f1, f2, e3, e2 (fun x => (x.getD (0, 0)).1), e2 (fun x => (x.getD (0, 0)).2), hp,
      List.map_eq_nil_iff]
    split
    · rfl
    split
    · rfl
    split
    · rfl
    split
    · rfl
    split
    · rfl
    refine ttvFinishV_timing _ _ _ _ ?_ ?_ ?_ ?_ ?_
    · simp
    · simp [l3]
    · simp
    · simp [l3]
    · intro p hp
      have hp : p < v.length := by simpa using hp
      have := hs p hp
      simpa [hp] using this

/-- Hypotheses of `C77_order_system`: two planets, the transits of the second one listed backwards. -/
example : VTtvArgs.SameUpToOrder
    { transit_times := some [[0, 1.1], [0, 2, 4.1]], transit_inds := some [[0, 1], [0, 1, 2]] }
    { transit_times := some [[0, 1.1], [4.1, 2, 0]], transit_inds := some [[0, 1], [2, 1, 0]] } where
  base := rfl
  delta := rfl
  given := by
    refine Or.inr ⟨rfl, rfl, _, _, _, _, rfl, rfl, rfl, rfl, rfl, rfl, rfl, fun p hp => ?_⟩
    have hp : p < 2 := hp
    rcases p with _ | _ | p
    · exact ⟨rfl, rfl, .refl _, by decide⟩
    · exact ⟨rfl, rfl, (List.reverse_perm [(0, (0 : ℝ)), (1, 2), (2, 4.1)]).symm, by decide⟩
    · omega

end Exo
