import Verif.Spec.Translate
import Verif.Lemmas.Ttv2

/-!
# Translations of time
-/

namespace Exo
open Real

theorem timeBlock_moved (A : Args) (d M0 n : ℝ) :
    timeBlock (A.moved d) M0 n = (timeBlock A M0 n).map (fun q : ℝ × ℝ => (q.1 + d, q.2 + d)) := by
  unfold Args.moved timeBlock
  rcases h0 : A.t0 with _ | x <;> rcases h1 : A.t_periastron with _ | y <;>
    simp only [Option.map, Except.map, Q.plus, Except.ok.injEq, Prod.mk.injEq, and_true, true_and] <;> (try constructor) <;> ring

/-- The constructor sees the reference times only in `timeBlock`. -/
theorem keplerianInit_times (C : Consts) (A : Args) (d : ℝ) (x y : Option Q)
    (h : ∀ M0 n, timeBlock { A with t0 := x, t_periastron := y } M0 n = (timeBlock A M0 n).map (fun q : ℝ × ℝ => (q.1 + d, q.2 + d))) :
    keplerianInit C { A with t0 := x, t_periastron := y } = (keplerianInit C A).map (·.moved d) := by
  have e5 : durationBlock { A with t0 := x, t_periastron := y } = durationBlock A := rfl
  have e8 : eccBlock { A with t0 := x, t_periastron := y } = eccBlock A := rfl
  have e9 : inclBlock C { A with t0 := x, t_periastron := y } = inclBlock C A := rfl
  unfold keplerianInit
  simp only [e5, e8, e9, h]
  rcases applyUnitKw A.m_planet A.m_planet_units with _ | m
  · rfl
  rcases applyUnitKw A.rho_star A.rho_star_units with _ | r
  · rfl
  rcases durationBlock A with _ | D
  · rfl
  dsimp only
  rcases consistentInputs C D.a A.period r D.r_star A.m_star m with _ | I
  · rfl
  dsimp only
  rcases eccBlock A with _ | ecc
  · rfl
  dsimp only
  rcases inclBlock C A D.duration ecc I.period (-I.a * I.m_star / (I.m_star + I.m_planet)) I.r_star
    (inclFactorOf ecc * I.r_star / I.a) with _ | ⟨b, ci, i⟩
  · rfl
  dsimp only
  rcases timeBlock A (M0Of ecc) (2 * π / I.period) with _ | ⟨t0, tp⟩
  · rfl
  simp only [Except.map, Orbit.moved]
  congr 2
  · ring
  · funext t; ring

/-- The constructor: a translated orbit, or the same exception. -/
theorem keplerianInit_moved (C : Consts) (A : Args) (d : ℝ) :
    keplerianInit C (A.moved d) = (keplerianInit C A).map (·.moved d) := by
  have h := timeBlock_moved A d
  have e : A.moved d = { A with t0 := (A.moved d).t0, t_periastron := (A.moved d).t_periastron } := by
    unfold Args.moved
    split <;> rfl
  rw [e] at h ⊢
  exact keplerianInit_times C A d _ _ h

section
variable (o : Orbit) (d t : ℝ)

theorem moved_trueAnomaly : (o.moved d).trueAnomaly (t + d) = o.trueAnomaly t := by
  simp [Orbit.trueAnomaly, Orbit.moved]

theorem moved_sinceTransit : (o.moved d).sinceTransit (t + d) = o.sinceTransit t := by
  simp [Orbit.sinceTransit, Orbit.moved]

theorem moved_positionNow (C : Consts) (a : ℝ) (px : Option ℝ) :
    (o.moved d).positionNow C a (t + d) px = o.positionNow C a t px := by
  simp only [Orbit.positionNow, moved_trueAnomaly]; rfl

theorem moved_delay (C : Consts) (a z0 : ℝ) : (o.moved d).delay C a (t + d) z0 = o.delay C a t z0 := by
  have h1 : (o.moved d).retardedVz a (t + d) = o.retardedVz a t := by
    simp only [Orbit.retardedVz, moved_trueAnomaly]; rfl
  have h2 : (o.moved d).retardedAz C a (t + d) = o.retardedAz C a t := by
    simp only [Orbit.retardedAz, moved_trueAnomaly, moved_positionNow]; rfl
  simp only [Orbit.delay, moved_positionNow, h1, h2]

theorem moved_position (C : Consts) (a : ℝ) (px : Option ℝ) (ld : Bool) :
    (o.moved d).position C a (t + d) px ld = o.position C a t px ld := by
  simp only [Orbit.position, Orbit.retardedPosition, moved_delay, moved_positionNow]
  have : t + d - o.delay C a t = (t - o.delay C a t) + d := by ring
  rw [this, moved_positionNow]

theorem moved_velocity (m : ℝ) : (o.moved d).velocity m (t + d) = o.velocity m t := by
  simp only [Orbit.velocity, moved_trueAnomaly]; rfl

theorem moved_acceleration (a m : ℝ) : (o.moved d).acceleration a m (t + d) = o.acceleration a m t := by
  simp only [Orbit.acceleration, moved_trueAnomaly]; rfl

end

theorem bcast_map_left {α α' β γ : Type} (f : α' → β → γ) (g : α → α') (u : List α) (v : List β) :
    bcast f (u.map g) v = bcast (fun x y => f (g x) y) u v := by
  unfold bcast
  rw [List.length_map, List.zipWith_map_left]
  split
  · rfl
  · rcases u with _ | ⟨x, _ | ⟨y, u⟩⟩ <;> rcases v with _ | ⟨z, _ | ⟨w, v⟩⟩ <;> simp

theorem bcast_map_out {α β γ γ' : Type} (f : α → β → γ) (g : γ → γ') (u : List α) (v : List β) :
    bcast (fun x y => g (f x y)) u v = (bcast f u v).map (List.map g) := by
  unfold bcast
  split
  · simp [Except.map, List.map_zipWith]
  · rcases u with _ | ⟨x, _ | ⟨y, u⟩⟩ <;> rcases v with _ | ⟨z, _ | ⟨w, v⟩⟩ <;> simp [Except.map]

theorem inTransit_moved (cp : ContactOp) (planets : List (Orbit × ℝ)) (d : ℝ) (ts : List ℝ) (texp : Texp) (ld : Bool) :
    inTransit cp (planets.map fun p => (p.1.moved d, p.2)) (later d ts) texp ld = inTransit cp planets ts texp ld := by
  have h2 : ∀ t : ℝ, (planets.map fun p => (p.1.moved d, p.2)).map (fun p : Orbit × ℝ => p.1.sinceTransit (t + d)) =
      planets.map (fun p : Orbit × ℝ => p.1.sinceTransit t) := by
    intro t
    rw [List.map_map]
    exact List.map_congr_left fun p _ => moved_sinceTransit _ _ _
  have h1 : (planets.map fun p => (p.1.moved d, p.2)).map (fun p : Orbit × ℝ => p.1.transitWindow cp p.2) =
      planets.map (fun p : Orbit × ℝ => p.1.transitWindow cp p.2) := by
    rw [List.map_map]; rfl
  unfold inTransit later
  simp only [h1, bcast_map_left (fun _ _ => ()) (fun p : Orbit × ℝ => (p.1.moved d, p.2)) planets, List.length_map,
    List.map_map (l := ts), Function.comp_def, h2]

theorem Orbit.moved_later (C : Consts) (d : ℝ) (o : Orbit) : Orbit.Later C d o (o.moved d) where
  t0 := rfl
  t_periastron := rfl
  others _ := rfl
  planet _ _ _ := moved_position _ _ _ _ _ _ _
  star _ _ _ := moved_position _ _ _ _ _ _ _
  relative _ _ _ := moved_position _ _ _ _ _ _ _
  angles t px ld := by
    unfold Orbit.relativeAngles
    rw [show (o.moved d).a = o.a from rfl, moved_position]
  planet_v _ := moved_velocity _ _ _ _
  star_v _ := moved_velocity _ _ _ _
  relative_v _ := moved_velocity _ _ _ _
  planet_a _ := moved_acceleration _ _ _ _ _
  star_a _ := moved_acceleration _ _ _ _ _
  relative_a _ := moved_acceleration _ _ _ _ _
  rv t K u := by
    simp only [Orbit.radialVelocity, moved_trueAnomaly]
    rw [show (o.moved d).starVelocity (t + d) = o.starVelocity t from moved_velocity _ _ _ _]
    rfl
  transits cp r ts texp ld := inTransit_moved cp [(o, r)] d ts texp ld
  unit_x t := by simp only [Orbit.unitPosition, moved_trueAnomaly]; rfl
  unit_v t := by simp only [Orbit.unitVelocity, moved_trueAnomaly]; rfl

/-! ## `TTVOrbit` -/

theorem linFit_later {inds : List ℕ} {times : List ℝ} (hl : inds.length = times.length) (d : ℝ) :
    linFit inds (later d times) = (linFit inds times).map (fun q : ℝ × ℝ => (q.1, q.2 + d)) := by
  have e1 : (later d times).length = times.length := by simp [later]
  have e2 : (later d times).sum = times.sum + d * times.length := by
    clear hl e1
    unfold later
    induction times with
    | nil => simp
    | cons y l ih => simp only [List.map_cons, List.sum_cons, List.length_cons, ih]; push_cast; ring
  have e3 : (List.zipWith (fun (i : ℕ) y => (i : ℝ) * y) inds (later d times)).sum =
      (List.zipWith (fun (i : ℕ) y => (i : ℝ) * y) inds times).sum + d * (inds.map (fun i : ℕ => (i : ℝ))).sum := by
    clear e1 e2
    unfold later
    induction inds generalizing times with
    | nil => simp
    | cons i l ih =>
      rcases times with _ | ⟨y, times⟩
      · simp at hl
      · simp only [List.map_cons, List.zipWith_cons_cons, List.sum_cons]
        rw [ih (by simpa using hl)]
        ring
  unfold linFit
  simp only [e1, e2, e3]
  set n : ℝ := (times.length : ℝ)
  set sx := (inds.map (fun i : ℕ => (i : ℝ))).sum
  set sxx := (inds.map (fun i : ℕ => (i : ℝ) ^ 2)).sum
  set sy := times.sum
  set sxy := (List.zipWith (fun (i : ℕ) y => (i : ℝ) * y) inds times).sum
  split
  · rfl
  next h =>
    simp only [Option.map_some, Option.some.injEq, Prod.mk.injEq]
    constructor
    · congr 1; ring
    · rw [div_add' _ _ _ h]
      congr 1; ring

theorem setSubtensor_later (e : List ℝ) (inds : List ℕ) (vals : List ℝ) (d : ℝ) :
    setSubtensor (later d e) inds (later d vals) = later d (setSubtensor e inds vals) := by
  unfold setSubtensor later
  induction inds generalizing e vals with
  | nil => simp
  | cons i l ih =>
    rcases vals with _ | ⟨y, vals⟩
    · simp
    · simp only [List.map_cons, List.zip_cons_cons, List.foldl_cons]
      rw [← ih, List.map_set]

theorem allTransitTimes_later (t0 P : ℝ) (inds : List ℕ) (times : List ℝ) (d : ℝ) :
    allTransitTimes (t0 + d) P inds (later d times) = (allTransitTimes t0 P inds times).map (later d) := by
  unfold allTransitTimes
  split
  · rfl
  · simp only [Except.map]
    rw [← setSubtensor_later]
    congr 2
    unfold later
    rw [List.map_map]
    refine List.map_congr_left fun i _ => ?_
    simp only [Function.comp]
    ring

theorem binEdges_later {tts : List ℝ} (h : tts ≠ []) (P d : ℝ) : binEdges (later d tts) P = later d (binEdges tts P) := by
  unfold binEdges later
  rcases tts with _ | ⟨a, l⟩
  · exact absurd rfl h
  · have h1 : (List.map (· + d) (a :: l)).getLastD 0 = (a :: l).getLastD 0 + d := by
      rw [List.getLastD_eq_getLast?, List.getLastD_eq_getLast?, List.getLast?_map, List.getLast?_eq_getLast_of_ne_nil (by simp)]
      rfl
    rw [h1, ← List.map_tail, ← List.map_dropLast, List.zipWith_map, List.map_append, List.map_append, List.map_zipWith]
    simp only [List.map_cons, List.map_nil, List.headD_cons]
    congr 1
    · congr 1
      · congr 1; ring
      · congr 1; funext x y; ring
    · congr 1; ring

theorem binValues_later {tts : List ℝ} (h : tts ≠ []) (d : ℝ) : binValues (later d tts) = later d (binValues tts) := by
  unfold binValues later
  rcases tts with _ | ⟨a, l⟩
  · exact absurd rfl h
  · have h1 : (List.map (· + d) (a :: l)).getLastD 0 = (a :: l).getLastD 0 + d := by
      rw [List.getLastD_eq_getLast?, List.getLastD_eq_getLast?, List.getLast?_map, List.getLast?_eq_getLast_of_ne_nil (by simp)]
      rfl
    rw [h1]
    simp

theorem modelDt_later {tts : List ℝ} (h : tts ≠ []) (P d t : ℝ) :
    modelDt (binEdges (later d tts) P) (binValues (later d tts)) (t + d) = modelDt (binEdges tts P) (binValues tts) t + d := by
  rw [binEdges_later h, binValues_later h]
  unfold modelDt
  have h1 : searchsortedLeft (later d (binEdges tts P)) (t + d) = searchsortedLeft (binEdges tts P) t := by
    unfold searchsortedLeft later
    rw [List.filter_map, List.length_map]
    congr 2
    funext x
    simp [Function.comp]
  have h2 : searchsortedLeft (binEdges tts P) t < (binValues tts).length := by
    have : searchsortedLeft (binEdges tts P) t ≤ (binEdges tts P).length := List.length_filter_le _ _
    refine lt_of_le_of_lt this ?_
    rcases tts with _ | ⟨a, l⟩
    · exact absurd rfl h
    · simp [binEdges, binValues]
  rw [h1, List.getD_eq_getElem _ _ (by simpa [later] using h2), List.getD_eq_getElem _ _ h2]
  simp [later]

/-- The `TTVOrbit` object `d` days later. -/
noncomputable def Ttv.moved (T : Ttv) (d : ℝ) : Ttv :=
  { T with orbit := T.orbit.moved d, transit_times := later d T.transit_times, all_transit_times := later d T.all_transit_times
           bin_edges := later d T.bin_edges, bin_values := later d T.bin_values }

theorem ttvFinish_moved (o : Orbit) (P : ℝ) (inds : List ℕ) (times ttvs : List ℝ) (d : ℝ) :
    ttvFinish (o.moved d) P inds (later d times) ttvs = (ttvFinish o P inds times ttvs).map (Option.map (·.moved d)) := by
  unfold ttvFinish
  rw [show (o.moved d).t0 = o.t0 + d from rfl, show (o.moved d).period = o.period from rfl, allTransitTimes_later]
  rcases h : allTransitTimes o.t0 o.period inds times with e | tts
  · rfl
  · have hne : tts ≠ [] := (allTransitTimes_spec h).1
    simp only [Except.map, Option.map, Ttv.moved, Orbit.moved, Except.ok.injEq, Option.some.injEq, Ttv.mk.injEq, and_true, true_and]
    refine ⟨?_, binEdges_later hne _ _, binValues_later hne _⟩
    congr 1
    funext t
    have := modelDt_later hne P d (t - d)
    rw [sub_add_cancel] at this
    rw [this]
    ring

theorem ttvInit_moved (C : Consts) (K : TtvArgs) (d : ℝ) :
    ttvInit C (K.moved d) = (ttvInit C K).map (Option.map (·.moved d)) := by
  unfold ttvInit
  rcases hv : K.ttvs with _ | v
  · rcases ht : K.transit_times with _ | times
    · simp only [TtvArgs.moved, hv, ht, Option.map_none]
      rfl
    · simp only [TtvArgs.moved, hv, ht, Option.map_some, Option.isSome_none, Bool.false_eq_true, if_false]
      have hl : (later d times).length = times.length := by simp [later]
      simp only [hl]
      split
      · rfl
      next hlen =>
      push Not at hlen
      rw [linFit_later hlen]
      rcases linFit (K.transit_inds.getD (List.range times.length)) times with _ | ⟨s, c⟩
      · simp only [Option.map_none]
        rcases keplerianInit C { K.base with t0 := some ((0 : ℝ) : Q), period := some (K.base.period.getD ((1 : ℝ) : Q)) } with e | o
        · rfl
        · simp only
          split <;> rfl
      · simp only [Option.map_some]
        have hk := keplerianInit_times C { K.base with t0 := some ((c : ℝ) : Q), period := some (K.shapePeriod s) } d
          (some ((c + d : ℝ) : Q)) K.base.t_periastron (fun M0 n => by
            rcases htp : K.base.t_periastron with _ | q
            · simp only [timeBlock, htp, Except.map, Except.ok.injEq, Prod.mk.injEq, true_and]
              ring
            · simp only [timeBlock, htp, Except.map])
        have hsp : TtvArgs.shapePeriod ⟨K.base, none, some (later d times), K.transit_inds, K.delta_log_period⟩ s = K.shapePeriod s := rfl
        rw [hsp, hk]
        rcases keplerianInit C { K.base with t0 := some ((c : ℝ) : Q), period := some (K.shapePeriod s) } with e | o
        · rfl
        · refine Eq.trans ?_ (ttvFinish_moved o s _ times _ d)
          change ttvFinish (o.moved d) _ _ _ _ = _
          congr 1
          unfold later
          rw [List.zipWith_map_right]
          congr 1
          funext i y
          ring
  · simp only [TtvArgs.moved, hv, Option.isSome_some, if_true, keplerianInit_moved]
    rcases keplerianInit C K.base with e | o
    · rfl
    simp only [Except.map]
    split
    · rfl
    · have := ttvFinish_moved o o.period (K.transit_inds.getD (List.range v.length))
        (List.zipWith (fun (i : ℕ) ttv => o.t0 + o.period * (i : ℝ) + ttv) (K.transit_inds.getD (List.range v.length)) v) v d
      rw [show (o.moved d).t0 = o.t0 + d from rfl, show (o.moved d).period = o.period from rfl]
      refine Eq.trans ?_ this
      congr 1
      unfold later
      rw [List.map_zipWith]
      congr 1
      funext i y
      ring

end Exo
