import Verif.Lemmas.Translate2
import Verif.Lemmas.Demo
import Verif.Props.Ttv

/-!
# C78: only differences of times matter
-/

namespace Exo
open Real

/-- C78: construct an orbit with `t0` (or `t_periastron`) `d` days later: either both constructions raise the same exception, or the
second orbit does at every time `t + d` what the first does at time `t`. -/
theorem C78_orbit (C : Consts) (A : Args) (d : ℝ) : SameOutcome (Orbit.Later C d) (keplerianInit C A) (keplerianInit C (A.moved d)) := by
  rw [keplerianInit_moved]
  rcases keplerianInit C A with e | o
  · exact rfl
  · exact Orbit.moved_later C d o

/-- C78 for orbits with transit timing variations. -/
theorem C78_ttv (C : Consts) (K : TtvArgs) (d : ℝ) : SameOutcome (OptRel (Ttv.Later C d)) (ttvInit C K) (ttvInit C (K.moved d)) := by
  rw [ttvInit_moved]
  rcases ttvInit C K with e | _ | T
  · exact rfl
  · exact trivial
  · exact ⟨Orbit.moved_later C d T.orbit, rfl, rfl, rfl, rfl, rfl⟩

/-- C78: nothing is lost, there is always a later orbit. -/
example (C : Consts) (d : ℝ) : ∃ o o', keplerianInit C demoEcc = .ok o ∧ keplerianInit C (demoEcc.moved d) = .ok o' ∧
    (demoEcc.moved d).t0 = some ((3 + d : ℝ) : Q) ∧ o'.t0 = 3 + d := by
  obtain ⟨o, ho, -, -, -, -, -, ht, -⟩ := demoEcc_ok C
  refine ⟨o, o.moved d, ho, ?_, rfl, by rw [Orbit.moved, ht]⟩
  rw [keplerianInit_moved, ho]
  rfl

example (C : Consts) (d : ℝ) : ∃ T T', ttvInit C demoTtv = .ok (some T) ∧ ttvInit C (demoTtv.moved d) = .ok (some T') ∧
    (demoTtv.moved d).transit_times = some [0 + d, 2 + d] := by
  obtain ⟨T, hT, -⟩ := demoTtv_ok C
  refine ⟨T, T.moved d, hT, ?_, rfl⟩
  rw [ttvInit_moved, hT]
  rfl

theorem mapM_moved (C : Consts) (d : ℝ) (As : List Args) :
    (As.map (·.moved d)).mapM (keplerianInit C) = (As.mapM (keplerianInit C)).map (List.map (·.moved d)) := by
  rw [List.mapM_map]
  induction As with
  | nil => rfl
  | cons A As ih =>
    rw [List.mapM_cons, List.mapM_cons, ih]
    simp only [Function.comp]
    rw [keplerianInit_moved]
    rcases keplerianInit C A with e | o
    · rfl
    · rcases As.mapM (keplerianInit C) with e | os <;> rfl

theorem mapM_ttv_moved (C : Consts) (d : ℝ) (Ks : List TtvArgs) :
    (Ks.map (·.moved d)).mapM (ttvInit C) = (Ks.mapM (ttvInit C)).map (List.map (Option.map (·.moved d))) := by
  rw [List.mapM_map]
  induction Ks with
  | nil => rfl
  | cons A As ih =>
    rw [List.mapM_cons, List.mapM_cons, ih]
    simp only [Function.comp]
    rw [ttvInit_moved]
    rcases ttvInit C A with e | o
    · rfl
    · rcases As.mapM (ttvInit C) with e | os <;> rfl

/-- C78: the light curve of any number of planets: if the orbits and the times of the data are `d` days later, `get_light_curve`
returns the same array or raises the same exception, whatever the other arguments (exposure times, order, `use_in_transit`,
`light_delay`). -/
theorem C78_lightcurve (C : Consts) (cp : ContactOp) (As : List Args) (d : ℝ) (os os' : List Orbit)
    (h : As.mapM (keplerianInit C) = .ok os) (h' : (As.map (·.moved d)).mapM (keplerianInit C) = .ok os') (l : LimbDark) (r_star : ℝ)
    (r t : Tensor ℝ) (texp : Option (Tensor ℝ)) (oversample order : ℤ) (u : Option Bool) (ld : Bool) :
    l.getLightCurve (some (keplerApi C cp os' r_star)) (some r) (some (t.later d)) texp oversample order u ld =
      l.getLightCurve (some (keplerApi C cp os r_star)) (some r) (some t) texp oversample order u ld := by
  rw [mapM_moved, h] at h'
  cases h'
  exact (keplerApi_later C cp os r_star d).getLightCurve l r t texp oversample order u ld

/-- C78: the light curve of planets with transit timing variations. -/
theorem C78_lightcurve_ttv (C : Consts) (cp : ContactOp) (Ks : List TtvArgs) (d : ℝ) (Ts Ts' : List Ttv)
    (h : Ks.mapM (ttvInit C) = .ok (Ts.map some)) (h' : (Ks.map (·.moved d)).mapM (ttvInit C) = .ok (Ts'.map some)) (l : LimbDark)
    (r_star : ℝ) (r t : Tensor ℝ) (texp : Option (Tensor ℝ)) (oversample order : ℤ) (u : Option Bool) (ld : Bool) :
    l.getLightCurve (some (keplerApi C cp (Ts'.map Ttv.orbit) r_star)) (some r) (some (t.later d)) texp oversample order u ld =
      l.getLightCurve (some (keplerApi C cp (Ts.map Ttv.orbit) r_star)) (some r) (some t) texp oversample order u ld := by
  rw [mapM_ttv_moved, h] at h'
  have e : Ts'.map some = (Ts.map (·.moved d)).map some := by
    rw [← Except.ok.inj h', List.map_map, List.map_map]
    rfl
  have e : Ts' = Ts.map (·.moved d) := List.map_injective_iff.2 (Option.some_injective _) e
  rw [e, List.map_map, show (Ttv.orbit ∘ fun T : Ttv => T.moved d) = (fun o : Orbit => o.moved d) ∘ Ttv.orbit from rfl, ← List.map_map]
  exact (keplerApi_later C cp _ r_star d).getLightCurve l r t texp oversample order u ld

/-- C78: the light curve with secondary eclipses. -/
theorem C78_secondary (C : Consts) (cp : ContactOp) (As : List Args) (d : ℝ) (os os' : List Orbit)
    (h : As.mapM (keplerianInit C) = .ok os) (h' : (As.map (·.moved d)).mapM (keplerianInit C) = .ok os') (l : SecondaryEclipse)
    (r_star : ℝ) (r t : Tensor ℝ) (texp : Option (Tensor ℝ)) (oversample order : ℤ) (u : Option Bool) (ld : Bool) :
    l.getLightCurve C cp os' r_star r (t.later d) texp oversample order u ld =
      l.getLightCurve C cp os r_star r t texp oversample order u ld := by
  rw [mapM_moved, h] at h'
  cases h'
  exact secondary_moved C cp l os r_star d r t texp oversample order u ld

/-- C78: the same times in a list, as `in_transit` takes them: the same indices for several planets. -/
theorem C78_in_transit (C : Consts) (cp : ContactOp) (As : List Args) (d : ℝ) (os os' : List Orbit)
    (h : As.mapM (keplerianInit C) = .ok os) (h' : (As.map (·.moved d)).mapM (keplerianInit C) = .ok os') (r_star : ℝ)
    (ts r : List ℝ) (texp : Texp) (ld : Bool) :
    (keplerApi C cp os' r_star).inTransit (later d ts) r texp ld = (keplerApi C cp os r_star).inTransit ts r texp ld := by
  rw [mapM_moved, h] at h'
  cases h'
  exact (keplerApi_later C cp os r_star d).inTransit ts r texp ld

example (C : Consts) (d : ℝ) : ∃ os os', [demoCirc, demoEcc].mapM (keplerianInit C) = .ok os ∧
    ([demoCirc, demoEcc].map (·.moved d)).mapM (keplerianInit C) = .ok os' := by
  obtain ⟨o, ho, -⟩ := demoCirc_ok C
  obtain ⟨o', ho', -⟩ := demoEcc_ok C
  have h : [demoCirc, demoEcc].mapM (keplerianInit C) = .ok [o, o'] := by
    simp only [List.mapM_cons, List.mapM_nil, ho, ho']
    rfl
  exact ⟨_, _, h, by rw [mapM_moved, h]; rfl⟩

example (C : Consts) (d : ℝ) : ∃ Ts Ts' : List Ttv, [demoTtv].mapM (ttvInit C) = .ok (Ts.map some) ∧
    ([demoTtv].map (·.moved d)).mapM (ttvInit C) = .ok (Ts'.map some) := by
  obtain ⟨T, hT, -⟩ := demoTtv_ok C
  have h : [demoTtv].mapM (ttvInit C) = .ok ([T].map some) := by
    simp only [List.mapM_cons, List.mapM_nil, hT]
    rfl
  exact ⟨[T], [T.moved d], h, by rw [mapM_ttv_moved, h]; rfl⟩

/-- C78 for `SimpleTransitOrbit`: positions, in-transit indices and light curves. -/
theorem C78_simple (P D t0 b R k d : ℝ) :
    (simpleInit P D (t0 + d) b R k).t0 = (simpleInit P D t0 b R k).t0 + d ∧
    (∀ t ld, (simpleInit P D (t0 + d) b R k).relativePosition (t + d) ld = (simpleInit P D t0 b R k).relativePosition t ld) ∧
    (∀ t ld, (simpleInit P D (t0 + d) b R k).planetPosition (t + d) ld = (simpleInit P D t0 b R k).planetPosition t ld) ∧
    (∀ t ld, (simpleInit P D (t0 + d) b R k).starPosition (t + d) ld = (simpleInit P D t0 b R k).starPosition t ld) := by
  simp only [simpleInit_moved]
  exact ⟨rfl, fun t ld => simple_position_moved _ _ _ _, fun t _ => simple_position_moved _ _ _ _, fun _ _ => rfl⟩

/-- The arguments of a `SimpleTransitOrbit` for one planet. -/
structure SimpleArgs where
  period : ℝ
  duration : ℝ
  t0 : ℝ
  b : ℝ
  ror : ℝ

/-- The orbit around a star of radius `R`, `d` days later. -/
noncomputable def SimpleArgs.orbit (A : SimpleArgs) (R d : ℝ) : SimpleOrbit := simpleInit A.period A.duration (A.t0 + d) A.b R A.ror

theorem simple_orbits_moved (As : List SimpleArgs) (R d : ℝ) :
    As.map (·.orbit R d) = (As.map (·.orbit R 0)).map (SimpleOrbit.moved · d) := by
  rw [List.map_map]
  refine List.map_congr_left fun A _ => ?_
  simp only [SimpleArgs.orbit, Function.comp, add_zero, simpleInit_moved]

theorem C78_simple_in_transit (As : List SimpleArgs) (R d : ℝ) (ts : List ℝ) (r : Option (List ℝ)) (texp : Texp) (ld : Bool) :
    simpleInTransit (As.map (·.orbit R d)) (later d ts) r texp ld = simpleInTransit (As.map (·.orbit R 0)) ts r texp ld := by
  rw [simple_orbits_moved]
  exact simpleInTransit_moved _ _ _ _ _ _

theorem C78_simple_lightcurve (As : List SimpleArgs) (R d : ℝ) (l : LimbDark) (r_star : ℝ)
    (r t : Tensor ℝ) (texp : Option (Tensor ℝ)) (oversample order : ℤ) (u : Option Bool) (ld : Bool) :
    l.getLightCurve (some (simpleApi (As.map (·.orbit R d)) r_star)) (some r) (some (t.later d)) texp oversample order u ld =
      l.getLightCurve (some (simpleApi (As.map (·.orbit R 0)) r_star)) (some r) (some t) texp oversample order u ld := by
  rw [simple_orbits_moved]
  exact (simpleApi_later _ r_star d).getLightCurve l r t texp oversample order u ld

/-- C78 for interpolated light curves: if the light curve that is interpolated depends on differences of times only (`hf`), so does the
interpolated one. -/
theorem C78_interpolated (num_phase : ℤ) (num_planets : Option ℤ) (test_value : Option ℕ) (orbits : List (ℝ × ℝ)) (d : ℝ)
    (f f' : List ℝ → Except PyErr (Tensor ℝ)) (hf : ∀ ts, f' (later d ts) = f ts) (ts : List ℝ) :
    interpolatedLightCurve num_phase num_planets test_value (orbits.map fun q => (q.1 + d, q.2)) f' (later d ts) =
      interpolatedLightCurve num_phase num_planets test_value orbits f ts :=
  interpolated_later num_phase num_planets test_value orbits d f f' hf ts

/-- The hypothesis of `C78_interpolated` holds for the light curves of `C78_lightcurve`. -/
example (C : Consts) (cp : ContactOp) (d : ℝ) (os os' : List Orbit) (h : [demoCirc, demoEcc].mapM (keplerianInit C) = .ok os)
    (h' : ([demoCirc, demoEcc].map (·.moved d)).mapM (keplerianInit C) = .ok os') (l : LimbDark) (r : Tensor ℝ) (ts : List ℝ) :
    l.getLightCurve (some (keplerApi C cp os' 1)) (some r) (some (Tensor.ofList (later d ts) (0 + d))) =
      l.getLightCurve (some (keplerApi C cp os 1)) (some r) (some (Tensor.ofList ts 0)) := by
  rw [← C78_lightcurve C cp _ d os os' h h']
  congr 2
  simp only [Tensor.later, Tensor.map, Tensor.ofList, later, List.length_map, Tensor.mk.injEq, true_and]
  funext idx
  simp only [List.getD_eq_getElem?_getD, List.getElem?_map]
  rcases ts[idx.headD 0]? with _ | x <;> rfl

/-- C78: the transits expected in a data set that starts and ends `d` days later. -/
theorem C78_expected (min_time max_time d : ℝ) (periods t0s : List ℝ) :
    expectedTransitTimes (min_time + d) (max_time + d) periods (later d t0s) =
      (expectedTransitTimes min_time max_time periods t0s).map (later d) := by
  unfold expectedTransitTimes
  rw [List.map_zipWith]
  conv_lhs => rw [later]
  rw [List.zipWith_map_right]
  congr 1
  funext P t0
  exact expectedTimes1_later _ _ _ _ _

example : expectedTransitTimes (0 + 7) (2 + 7) [1] (later 7 [0]) = (expectedTransitTimes 0 2 [1] [0]).map (later 7) ∧
    0 ∈ (expectedTransitTimes 0 2 [1] [0]).headD [] := by
  refine ⟨C78_expected 0 2 7 [1] [0], ?_⟩
  simp [expectedTransitTimes, expectedTimes1, arangeInt]

end Exo
