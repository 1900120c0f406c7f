import Verif.Lemmas.TtvSystem2
import Verif.Props.Ttv
import Mathlib.Tactic.IntervalCases

/-!
# C72, C73: `TTVOrbit` with several planets; the period that sets the shape
-/

namespace Exo
open Real

/-! ## C72 -/

section
variable {C : Consts} {K : VTtvArgs} {np : ℕ}

theorem ttvMatches (h0 : 0 < np) (hK : K.FitsPlanets np) (hP : K.PerPlanet np) :
    TtvMatches np (ttvInitV C K) (fun p => ttvInit C (K.ofPlanet p)) := by
  cases ht : K.ttvs with
  | some ttvs => exact ttvMatches_ttvs h0 hK hP ht
  | none =>
    cases hs : K.transit_times with
    | some times => exact ttvMatches_times h0 hK hP ht hs
    | none =>
      refine TtvMatches.of_errors 0 h0 ?_ ?_
      · intro v h; simp [ttvInitV, ht, hs] at h
      · intro v h
        unfold ttvInit at h
        rw [show (K.ofPlanet 0).ttvs = none by simp [VTtvArgs.ofPlanet, ht],
          show (K.ofPlanet 0).transit_times = none by simp [VTtvArgs.ofPlanet, hs]] at h
        cases h

/-- **C72, construction**: if the arrays that the code indexes by planet have one entry per planet, a `TTVOrbit` of several planets
can be built (without NaN) exactly when that of each planet can. Missing: shared (scalar) `period` or `t0`, where the constructor
raises (`C72_scalar_period_counterexample`). -/
theorem C72_construction_partial (h0 : 0 < np) (hK : K.FitsPlanets np) (hP : K.PerPlanet np) :
    (∃ V, ttvInitV C K = .ok (some V)) ↔ ∀ p < np, ∃ T, ttvInit C (K.ofPlanet p) = .ok (some T) :=
  (ttvMatches h0 hK hP).1

variable {V : VTtv} {T : ℕ → Ttv}

/-- **C72, timing attributes**: the transit times, O-C values, numbers, expected times, histogram and mean period of planet `p` are
those of the orbit of planet `p` alone. -/
theorem C72_attributes_partial (h0 : 0 < np) (hK : K.FitsPlanets np) (hP : K.PerPlanet np) (hV : ttvInitV C K = .ok (some V))
    (hT : ∀ p < np, ttvInit C (K.ofPlanet p) = .ok (some (T p))) (p : ℕ) (hp : p < np) : V.HasPlanet p (T p) :=
  ((ttvMatches h0 hK hP).2 V hV T hT).1 p hp

theorem ttv_ready (h0 : 0 < np) (hK : K.FitsPlanets np) (hP : K.PerPlanet np) (hV : ttvInitV C K = .ok (some V))
    (hT : ∀ p < np, ttvInit C (K.ofPlanet p) = .ok (some (T p))) (t : Tensor ℝ) : Ready V.orbit t np True (fun p => (T p).orbit) :=
  ((ttvMatches h0 hK hP).2 V hV T hT).2 t

/-- **C72, observables**: positions, separations, velocities, accelerations and radial velocities at every time of an array of times,
planet by planet. Missing besides the shared arrays: light delay, see `C35_shape_counterexample`. -/
theorem C72_observables_partial (h0 : 0 < np) (hK : K.FitsPlanets np) (hP : K.PerPlanet np) (hV : ttvInitV C K = .ok (some V))
    (hT : ∀ p < np, ttvInit C (K.ofPlanet p) = .ok (some (T p))) (t : Tensor ℝ) (parallax : Option ℝ) :
    (V.orbit.planetPosition C (.leaf t) (parallax.map Gr.num) false).Shows t.shape np True
      (fun i p => (T p).orbit.planetPosition C (t.get i) parallax false) ∧
    (V.orbit.starPosition C (.leaf t) (parallax.map Gr.num) false).Shows t.shape np True
      (fun i p => (T p).orbit.starPosition C (t.get i) parallax false) ∧
    (V.orbit.relativePosition C (.leaf t) (parallax.map Gr.num) false).Shows t.shape np True
      (fun i p => (T p).orbit.relativePosition C (t.get i) parallax false) ∧
    (V.orbit.relativeAngles C (.leaf t) (parallax.map Gr.num) false).1.Shows t.shape np True
      (fun i p => ((T p).orbit.relativeAngles C (t.get i) parallax false).1) ∧
    (V.orbit.relativeAngles C (.leaf t) (parallax.map Gr.num) false).2.Shows t.shape np True
      (fun i p => ((T p).orbit.relativeAngles C (t.get i) parallax false).2) ∧
    (V.orbit.planetVelocity (.leaf t)).Shows t.shape np True (fun i p => (T p).orbit.planetVelocity (t.get i)) ∧
    (V.orbit.starVelocity (.leaf t)).Shows t.shape np True (fun i p => (T p).orbit.starVelocity (t.get i)) ∧
    (V.orbit.relativeVelocity (.leaf t)).Shows t.shape np True (fun i p => (T p).orbit.relativeVelocity (t.get i)) ∧
    (V.orbit.planetAcceleration (.leaf t)).Shows t.shape np True (fun i p => (T p).orbit.planetAcceleration (t.get i)) ∧
    (V.orbit.starAcceleration (.leaf t)).Shows t.shape np True (fun i p => (T p).orbit.starAcceleration (t.get i)) ∧
    (V.orbit.relativeAcceleration (.leaf t)).Shows t.shape np True (fun i p => (T p).orbit.relativeAcceleration (t.get i)) := by
  have h := ttv_ready h0 hK hP hV hT t
  obtain ⟨p1, p2, p3⟩ := h.positions C parallax false (by simp)
  obtain ⟨a1, a2⟩ := h.angles C parallax false (by simp)
  exact ⟨p1, p2, p3, a1, a2, h.velocities⟩

/-- **C72, radial velocities.** -/
theorem C72_radial_velocity_partial (h0 : 0 < np) (hK : K.FitsPlanets np) (hP : K.PerPlanet np) (hV : ttvInitV C K = .ok (some V))
    (hT : ∀ p < np, ttvInit C (K.ofPlanet p) = .ok (some (T p))) (t : Tensor ℝ) (k : Option (Tensor ℝ))
    (hk : ∀ x, k = some x → x.FitsPlanets np) (u : Option AUnit) :
    match V.orbit.radialVelocity C (.leaf t) (k.map Gr.leaf) u with
    | .error e => ∀ i p, p < np → (T p).orbit.radialVelocity C (t.get i) (k.map (·.ofPlanet p)) u = .error e
    | .ok g => ∃ v : List ℕ → ℕ → ℝ, (∀ i p, p < np → (T p).orbit.radialVelocity C (t.get i) (k.map (·.ofPlanet p)) u = .ok (v i p)) ∧
        g.Shows t.shape np True v :=
  (ttv_ready h0 hK hP hV hT t).radialVelocity C k hk u

end

/-- **C72, missing numbers**: with transit times of more planets than lists of transit numbers, the constructor raises `IndexError`. -/
theorem C72_missing_inds (C : Consts) (K : VTtvArgs) (times : List (List ℝ)) (inds : List (List ℕ)) (h : K.ttvs = none)
    (ht : K.transit_times = some times) (hi : K.transit_inds = some inds) (hlt : inds.length < times.length)
    (hl : ∀ i < inds.length, (inds.getD i []).length = (times.getD i []).length) : ttvInitV C K = .error .indexError := by
  have e : eachPlanet times.length (planetFit K.transit_inds times) = .error .indexError := by
    refine eachPlanet_error hlt ?_ ?_
    · simp [planetFit, planetInds, hi, listItem]
    · intro i hil
      have e := hl i hil
      simp only [List.getD_eq_getElem?_getD, List.getElem?_eq_getElem hil, Option.getD_some] at e
      exact ⟨_, by simp [planetFit, planetInds, hi, listItem, hil, e]; rfl⟩
  unfold ttvInitV
  rw [h, ht]
  simp only [e]

example : ∃ (times : List (List ℝ)) (inds : List (List ℕ)), inds.length < times.length ∧ 0 < inds.length ∧
    ∀ i < inds.length, (inds.getD i []).length = (times.getD i []).length :=
  ⟨[[1, 2], [3, 5]], [[0, 1]], by simp, by simp, by simp⟩

/-- **C72 is false for a scalar `period` or `t0`**: `KeplerianOrbit` accepts them, but `TTVOrbit` indexes them by planet and raises
`IndexError` - with `ttvs` for a scalar `period` or a scalar `t0`, with `transit_times` for a scalar `period`. -/
theorem C72_scalar_period_counterexample (C : Consts) (P t0 : ℝ) (l : List ℝ) :
    (∃ O, keplerianInitV C { period := some ⟨.scalar P, none⟩, t0 := some ⟨.scalar t0, none⟩ } = .ok O) ∧
    ttvInitV C { base := { period := some ⟨.scalar P, none⟩ }, ttvs := some [l] } = .error .indexError ∧
    ttvInitV C { base := { period := some ⟨.ofList [P] 0, none⟩, t0 := some ⟨.scalar t0, none⟩ }, ttvs := some [l] } =
      .error .indexError ∧
    ttvInitV C { base := { period := some ⟨.scalar P, none⟩ }, transit_times := some [[1, 2, 3]] } = .error .indexError := by
  have one : ∀ f : ℕ → Except PyErr (List ℝ), eachPlanet 1 f = (f 0).map (fun x => [x]) := by
    intro f
    unfold eachPlanet
    rw [show List.range 1 = [0] from rfl, List.mapM_cons, List.mapM_nil]
    cases f 0 <;> rfl
  refine ⟨⟨_, rfl⟩, ?_, ?_, ?_⟩
  · unfold ttvInitV
    simp only
    rw [show keplerianInitV C { period := some ⟨.scalar P, none⟩ } = .ok _ from rfl]
    simp only [evalTimes, Gr.zerosLike, Gr.eval, TQ.gr, List.length_singleton, one, timesOf, Tensor.entry, Tensor.map, Tensor.scalar,
      Except.map]
  · unfold ttvInitV
    simp only
    rw [show keplerianInitV C { period := some ⟨.ofList [P] 0, none⟩, t0 := some ⟨.scalar t0, none⟩ } = .ok _ from rfl]
    simp only [evalTimes, Gr.eval, TQ.gr, List.length_singleton, one, timesOf, Tensor.entry, Tensor.scalar, Except.map]
  · have hf : eachPlanet 1 (planetFit none [[1, 2, 3]]) = .ok [([0, 1, 2], some (1, 1))] := by
      unfold eachPlanet
      rw [show List.range 1 = [0] from rfl, List.mapM_cons, List.mapM_nil]
      have : planetFit none [[1, 2, 3]] 0 = .ok ([0, 1, 2], some (1, 1)) := by
        have h : linFit [0, 1, 2] [1, 2, 3] = some (1, 1) := by
          unfold linFit
          norm_num
        simp only [planetFit, planetInds, List.getD_cons_zero, List.length_cons, List.length_nil, List.length_range, ne_eq,
          not_true_eq_false, if_false]
        rw [show List.range (0 + 1 + 1 + 1) = [0, 1, 2] from rfl, h]
      rw [this]; rfl
    unfold ttvInitV
    simp only [List.length_singleton]
    rw [hf]
    simp only [reduceCtorEq, if_false, List.any_cons, List.any_nil, Option.isNone_some, Bool.or_false, Bool.false_eq_true,
      VTtvArgs.shapePeriod]
    rw [show keplerianInitV C { period := some ⟨.scalar P, none⟩, t0 := some ⟨.ofList _ 0, none⟩ } = .ok _ from rfl]
    simp only [evalTimes, Gr.eval, TQ.gr, ttvFinishV, List.map_cons, List.map_nil, List.length_singleton, one, allTimesOf,
      Tensor.entry, Tensor.scalar, Tensor.ofList, Except.map, Option.getD_some, Nat.zero_lt_one, if_true]

/-- Two planets: own periods, one with two, one with three transits. -/
noncomputable def demoTtvSystem : VTtvArgs :=
  { base := { period := some ⟨.ofList [10, 20] 0, none⟩, b := some ⟨.scalar (1 / 4), none⟩ },
    ttvs := some [[1 / 10, 0], [0, 1 / 5, 0]], transit_inds := some [[0, 2], [0, 1, 2]] }

/-- The same planets from transit times, with `delta_log_period`. -/
noncomputable def demoTtvSystem' : VTtvArgs :=
  { base := { b := some ⟨.scalar (1 / 4), none⟩ }, transit_times := some [[0, 21], [1, 20, 41]],
    transit_inds := some [[0, 2], [0, 1, 2]], delta_log_period := some (.scalar (1 / 100)) }

example : demoTtvSystem.FitsPlanets 2 ∧ demoTtvSystem.PerPlanet 2 := by
  refine ⟨⟨?_, ?_, ?_, ?_, ?_⟩, ⟨?_, ?_⟩⟩
  · intro x hx q hq
    subst hq
    simp [demoTtvSystem] at hx
    rcases hx with rfl | rfl | rfl <;> simp [Tensor.FitsPlanets, Tensor.ofList, Tensor.scalar]
  · intro l h; cases h; rfl
  · intro l h; cases h
  · intro l h; cases h; rfl
  · intro l h; cases h
  · intro _; exact ⟨⟨_, Or.inl rfl, rfl⟩, fun q h => by cases h⟩
  · intro h; cases h

example : demoTtvSystem'.FitsPlanets 2 ∧ demoTtvSystem'.PerPlanet 2 := by
  refine ⟨⟨?_, ?_, ?_, ?_, ?_⟩, ⟨?_, ?_⟩⟩
  · intro x hx q hq
    subst hq
    simp [demoTtvSystem'] at hx
    rcases hx with rfl | rfl <;> simp [Tensor.FitsPlanets, Tensor.scalar]
  · intro l h; cases h
  · intro l h; cases h; rfl
  · intro l h; cases h; rfl
  · intro l h; cases h; simp [Tensor.FitsPlanets, Tensor.scalar]
  · intro h; exact absurd rfl h
  · intro _ q h; cases h

example (C : Consts) : ∃ V, ttvInitV C demoTtvSystem = .ok (some V) := by
  rw [C72_construction_partial (np := 2)]
  rotate_left
  · norm_num
  · refine ⟨?_, ?_, ?_, ?_, ?_⟩
    · intro x hx q hq
      subst hq
      simp [demoTtvSystem] at hx
      rcases hx with rfl | rfl | rfl <;> simp [Tensor.FitsPlanets, Tensor.ofList, Tensor.scalar]
    · intro l h; cases h; rfl
    · intro l h; cases h
    · intro l h; cases h; rfl
    · intro l h; cases h
  · refine ⟨?_, ?_⟩
    · intro _; exact ⟨⟨_, Or.inl rfl, rfl⟩, fun q h => by cases h⟩
    · intro h; cases h
  intro p hp
  interval_cases p
  · exact ⟨_, rfl⟩
  · exact ⟨_, rfl⟩

/-! ## C73 -/

/-- **C73**: with `transit_times` and no `period`, the logarithm of the period that sets the shape of the transits differs from that of
the mean period by `delta_log_period`; without `delta_log_period` they are equal. -/
theorem C73_shape_period (C : Consts) (K : TtvArgs) (T : Ttv) (h : ttvInit C K = .ok (some T)) (hv : K.ttvs = none)
    (hp : K.base.period = none) (hpos : 0 < T.ttv_period) :
    (∀ d, K.delta_log_period = some d → Real.log T.orbit.period - Real.log T.ttv_period = d ∧
      T.orbit.period = T.ttv_period * Real.exp d) ∧
    (K.delta_log_period = none → T.orbit.period = T.ttv_period) := by
  obtain ⟨A, o, ho, hD, ⟨h1, -⟩ | ⟨-, ht, hi, c, hf, hA, hc, hr⟩⟩ := ttv_cases h
  · rw [hv] at h1; cases h1
  have hB := (built_of_init ho).period_given (q := K.shapePeriod T.ttv_period) (by rw [hA]; rfl)
  have hT : T.orbit.period = o.period := by rw [hD.orbit_eq]
  unfold TtvArgs.shapePeriod at hB
  rw [hp] at hB
  constructor
  · intro d hd
    rw [hd] at hB
    have e : T.orbit.period = T.ttv_period * Real.exp d := by
      rw [hT, hB]
      show Real.exp (Real.log T.ttv_period + d) = _
      rw [Real.exp_add, Real.exp_log hpos]
    refine ⟨?_, e⟩
    rw [e, Real.log_mul hpos.ne' (Real.exp_pos d).ne', Real.log_exp]
    ring
  · intro hd
    rw [hd] at hB
    rw [hT, hB]
    rfl

/-- **C73** (a given `period` wins): `period` sets the shape, and `delta_log_period` has no effect. -/
theorem C73_period_given (C : Consts) (K : TtvArgs) (d : Option ℝ) (q : Q) (hp : K.base.period = some q) :
    ttvInit C { K with delta_log_period := d } = ttvInit C K ∧
    ∀ T, ttvInit C K = .ok (some T) → T.orbit.period = q.inUnit C.day := by
  constructor
  · unfold ttvInit TtvArgs.shapePeriod
    simp only [hp]
  · intro T h
    obtain ⟨A, o, ho, hD, ⟨h1, h2⟩ | ⟨-, ht, hi, c, hf, hA, hc, hr⟩⟩ := ttv_cases h
    · rw [hD.orbit_eq]
      exact (built_of_init ho).period_given (by rw [h2.1]; exact hp)
    · rw [hD.orbit_eq]
      refine (built_of_init ho).period_given ?_
      rw [hA, TtvArgs.fitted, TtvArgs.shapePeriod, hp]

/-- **C73** (with `ttvs`): `delta_log_period` and `transit_times` have no effect, and there is only one period. -/
theorem C73_ttvs_given (C : Consts) (K : TtvArgs) (d : Option ℝ) (l : Option (List ℝ)) (hv : K.ttvs ≠ none) :
    ttvInit C { K with delta_log_period := d, transit_times := l } = ttvInit C K ∧
    ∀ T, ttvInit C K = .ok (some T) → T.ttv_period = T.orbit.period := by
  obtain ⟨x, hx⟩ := Option.ne_none_iff_exists'.1 hv
  constructor
  · unfold ttvInit
    simp only [hx]
  · intro T h
    unfold ttvInit at h
    rw [hx] at h
    simp only at h
    split at h
    · cases h
    · split at h
      · cases h
      · obtain ⟨tts, _, rfl⟩ := ttvFinish_ok.1 h
        rfl

/-- Hypotheses of `C73_shape_period`, with a mean period of one day and the shape of a transit on an orbit of `exp (1 / 10)` days. -/
example (C : Consts) : ∃ K T, ttvInit C K = .ok (some T) ∧ K.ttvs = none ∧ K.base.period = none ∧ 0 < T.ttv_period ∧
    K.delta_log_period = some (1 / 10) := by
  refine ⟨{ transit_times := some [0, 2], transit_inds := some [0, 2], delta_log_period := some (1 / 10) }, ?_⟩
  unfold ttvInit
  simp only [Option.getD_some, demoTtv_fit, List.length_cons, List.length_nil, ne_eq, not_true_eq_false, if_false]
  refine ⟨_, rfl, trivial, trivial, ?_, trivial⟩
  norm_num

/-- Hypotheses of `C73_period_given`. -/
example (C : Consts) : ∃ T, ttvInit C demoTtv = .ok (some T) ∧ T.ttv_period ≠ T.orbit.period := by
  obtain ⟨T, h, -, hP, hp, -⟩ := demoTtv_ok C
  exact ⟨T, h, by rw [hP, hp]; norm_num⟩

/-- Hypotheses of `C73_ttvs_given`. -/
example (C : Consts) : ∃ T, ttvInit C (demoTtvSystem.ofPlanet 1) = .ok (some T) ∧ (demoTtvSystem.ofPlanet 1).ttvs ≠ none :=
  ⟨_, rfl, by simp [demoTtvSystem, VTtvArgs.ofPlanet]⟩

end Exo
