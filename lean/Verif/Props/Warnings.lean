import Verif.Spec.Warnings
import Verif.Lemmas.Demo

/-!
# C136: the warnings of `KeplerianOrbit`
-/

namespace Exo
open Real

variable {F : WarnCategory → WarnAction} {α β : Type}

@[simp] theorem Run.bind_ok (x : Run α) (f : α → Run β) {a : α} (h : x.result = .ok a) :
    (x >>= f) = ⟨x.shown ++ (f a).shown, (f a).result⟩ := by
  change Run.bind x f = _
  unfold Run.bind
  rw [h]

@[simp] theorem Run.bind_error (x : Run α) (f : α → Run β) {e} (h : x.result = .error e) : (x >>= f) = ⟨x.shown, .error e⟩ := by
  change Run.bind x f = _
  unfold Run.bind
  rw [h]

/-- The call raises an error in the lines before the warnings are over. -/
theorem init_of_mass_error {C : Consts} {A : Args} {e : PyErr} (h : applyUnitKw A.m_planet A.m_planet_units = .error e) :
    keplerianInit C A = .error e := by
  unfold keplerianInit
  rw [h]

theorem init_of_density_error {C : Consts} {A : Args} {m} {e : PyErr} (hm : applyUnitKw A.m_planet A.m_planet_units = .ok m)
    (h : applyUnitKw A.rho_star A.rho_star_units = .error e) : keplerianInit C A = .error e := by
  unfold keplerianInit
  rw [hm]
  simp only
  rw [h]

theorem init_of_missing_b {C : Consts} {A : Args} {m r} (hm : applyUnitKw A.m_planet A.m_planet_units = .ok m)
    (hr : applyUnitKw A.rho_star A.rho_star_units = .ok r) (he : A.ecc = none) (hd : A.duration ≠ none) (hb : A.b = none) :
    keplerianInit C A = .error (.valueError "'b' must be provided for a circular orbit with a 'duration'") := by
  obtain ⟨d, hd⟩ := Option.ne_none_iff_exists'.1 hd
  unfold keplerianInit
  rw [hm]
  simp only
  rw [hr]
  simp only [durationBlock, he, hd, hb]

/-- One keyword with a unit. -/
theorem unitKwRun_eq (F : WarnCategory → WarnAction) (w : PyWarning) (x : Option Q) (u : Option AUnit) :
    unitKwRun F w x u = if u = none then Run.lift (applyUnitKw x u) else
      match F w.category with
      | .skip => Run.lift (applyUnitKw x u)
      | .print => ⟨[w], plainResult (applyUnitKw x u)⟩
      | .raise => ⟨[], .error (.inl w)⟩ := by
  cases u with
  | none =>
    cases hx : applyUnitKw x none with
    | ok a => simp [unitKwRun, hx, Run.lift, pure]
    | error e => simp [unitKwRun, hx, Run.lift, pure]
  | some u =>
    cases hF : F w.category <;> cases hx : applyUnitKw x (some u) <;>
      simp [unitKwRun, Run.warn, hF, hx, Run.lift, plainResult]

/-- The checks of a circular orbit with a duration. -/
theorem durationChecks_eq (F : WarnCategory → WarnAction) (A : Args) :
    (A.ecc = none ∧ A.duration ≠ none ∧ A.b = none ∧
      durationChecks F A = ⟨[], .error (.inr (.valueError "'b' must be provided for a circular orbit with a 'duration'"))⟩) ∨
    (A.DurationWithoutRor ∧ A.b ≠ none ∧ durationChecks F A = Run.warn F rorWarning) ∨
    (¬ A.DurationWithoutRor ∧ durationChecks F A = ⟨[], .ok ()⟩) := by
  unfold durationChecks Args.DurationWithoutRor
  cases he : A.ecc with
  | some e => exact Or.inr (Or.inr ⟨by simp, rfl⟩)
  | none =>
    cases hd : A.duration with
    | none => exact Or.inr (Or.inr ⟨by simp, rfl⟩)
    | some d =>
      cases hb : A.b with
      | none => exact Or.inl ⟨rfl, by simp, rfl, rfl⟩
      | some b =>
        cases hr : A.ror with
        | none => exact Or.inr (Or.inl ⟨by simp, by simp, rfl⟩)
        | some r => exact Or.inr (Or.inr ⟨by simp, rfl⟩)

/-- The call, step by step. -/
theorem keplerianRun_eq (F : WarnCategory → WarnAction) (C : Consts) (A : Args) :
    keplerianRun F C A = Run.bind (unitKwRun F massUnitsWarning A.m_planet A.m_planet_units) fun _ =>
      Run.bind (unitKwRun F densityUnitsWarning A.rho_star A.rho_star_units) fun _ =>
        Run.bind (durationChecks F A) fun _ => Run.lift (keplerianInit C A) := rfl

theorem unitKwRun_result (w : PyWarning) (x : Option Q) (u : Option AUnit) (hF : u ≠ none → F w.category ≠ .raise) :
    (unitKwRun F w x u).result = plainResult (applyUnitKw x u) := by
  rw [unitKwRun_eq]
  split_ifs with h
  · cases applyUnitKw x u <;> rfl
  · cases hc : F w.category with
    | raise => exact absurd hc (hF h)
    | skip => cases applyUnitKw x u <;> rfl
    | print => rfl

theorem unitKwRun_raise {w : PyWarning} (x : Option Q) {u : Option AUnit} (hu : u ≠ none) (hF : F w.category = .raise) :
    (unitKwRun F w x u) = ⟨[], .error (.inl w)⟩ := by
  rw [unitKwRun_eq, if_neg hu]
  simp only [hF]

theorem Run.bind_result (x : Run α) (f : α → Run β) :
    (Run.bind x f).result = match x.result with | .error e => .error e | .ok a => (f a).result := by
  unfold Run.bind
  cases x.result <;> rfl

theorem Run.bind_shown (x : Run α) (f : α → Run β) {a : α} (h : x.result = .ok a) : (Run.bind x f).shown = x.shown ++ (f a).shown := by
  unfold Run.bind
  rw [h]

theorem lift_result (x : Except PyErr α) : (Run.lift x).result = plainResult x := by cases x <;> rfl

/-- **C136** (same orbit): unless a warning that is due becomes an exception, the result of the call is that of the constructor without
warnings. -/
theorem C136_same_orbit (C : Consts) (A : Args) (hF : ∀ c, F c ≠ .raise) :
    (keplerianRun F C A).result = plainResult (keplerianInit C A) := by
  rw [keplerianRun_eq, Run.bind_result, unitKwRun_result _ _ _ fun _ => hF _]
  cases hm : applyUnitKw A.m_planet A.m_planet_units with
  | error e => rw [init_of_mass_error hm]; rfl
  | ok m =>
    simp only [plainResult]
    rw [Run.bind_result, unitKwRun_result _ _ _ fun _ => hF _]
    cases hr : applyUnitKw A.rho_star A.rho_star_units with
    | error e => rw [init_of_density_error hm hr]; rfl
    | ok r =>
      simp only [plainResult]
      rw [Run.bind_result]
      rcases durationChecks_eq F A with ⟨h1, h2, h3, h4⟩ | ⟨-, -, h4⟩ | ⟨-, h4⟩ <;> rw [h4]
      · rw [init_of_missing_b hm hr h1 h2 h3]
      · unfold Run.warn
        cases hc : F rorWarning.category with
        | raise => exact absurd hc (hF _)
        | skip => exact lift_result _
        | print => exact lift_result _
      · exact lift_result _

/-- A successful call attaches the units. -/
theorem units_of_ok {C : Consts} {A : Args} {o : Orbit} (h : keplerianInit C A = .ok o) :
    (∃ m, applyUnitKw A.m_planet A.m_planet_units = .ok m) ∧ (∃ r, applyUnitKw A.rho_star A.rho_star_units = .ok r) ∧
      (A.ecc = none → A.duration ≠ none → A.b ≠ none) := by
  cases hm : applyUnitKw A.m_planet A.m_planet_units with
  | error e => rw [init_of_mass_error hm] at h; cases h
  | ok m =>
    cases hr : applyUnitKw A.rho_star A.rho_star_units with
    | error e => rw [init_of_density_error hm hr] at h; cases h
    | ok r =>
      refine ⟨⟨m, rfl⟩, ⟨r, rfl⟩, fun h1 h2 h3 => ?_⟩
      rw [init_of_missing_b hm hr h1 h2 h3] at h
      cases h

/-- **C136** (which warnings): a successful call prints one `DeprecationWarning` for each deprecated keyword, and the `UserWarning` iff a
`duration` is given for a circular orbit without `ror`; nothing else, in this order. -/
theorem C136_warnings (C : Consts) (A : Args) (o : Orbit) (h : keplerianInit C A = .ok o) :
    keplerianRun showAll C A = ⟨A.expectedWarnings, .ok o⟩ := by
  obtain ⟨⟨m, hm⟩, ⟨r, hr⟩, hb⟩ := units_of_ok h
  have h1 : ∀ w x u (v : Option Q), applyUnitKw x u = .ok v → unitKwRun showAll w x u = ⟨if u = none then [] else [w], .ok v⟩ := by
    intro w x u v hv
    rw [unitKwRun_eq, hv]
    split_ifs <;> rfl
  rw [keplerianRun_eq, h1 _ _ _ _ hm, h1 _ _ _ _ hr, h]
  unfold Args.expectedWarnings
  rcases durationChecks_eq showAll A with ⟨g1, g2, g3, -⟩ | ⟨g1, -, g4⟩ | ⟨g1, g4⟩
  · exact absurd g3 (hb g1 g2)
  · rw [g4, if_pos g1]
    simp [Run.bind, Run.warn, showAll, Run.lift, rorWarning]
  · rw [g4, if_neg g1]
    simp [Run.bind, Run.lift]

/-- **C136** (strict callers): with all warnings turned into exceptions a call succeeds iff it would succeed without them, uses no deprecated
keyword, and gives `ror` with the duration of a circular orbit; and then the orbit is the same. -/
theorem C136_strict (C : Consts) (A : Args) (o : Orbit) :
    (keplerianRun raiseAll C A).result = .ok o ↔
      keplerianInit C A = .ok o ∧ A.m_planet_units = none ∧ A.rho_star_units = none ∧ ¬ A.DurationWithoutRor := by
  rw [keplerianRun_eq]
  by_cases hm : A.m_planet_units = none
  · by_cases hr : A.rho_star_units = none
    · rw [Run.bind_result, unitKwRun_result _ _ _ fun h => absurd hm h]
      have e1 : applyUnitKw A.m_planet A.m_planet_units = .ok A.m_planet := by rw [hm]; rfl
      have e2 : applyUnitKw A.rho_star A.rho_star_units = .ok A.rho_star := by rw [hr]; rfl
      rw [e1]
      simp only [plainResult]
      rw [Run.bind_result, unitKwRun_result _ _ _ fun h => absurd hr h, e2]
      simp only [plainResult]
      rw [Run.bind_result]
      rcases durationChecks_eq raiseAll A with ⟨g1, g2, g3, g4⟩ | ⟨g1, -, g4⟩ | ⟨g1, g4⟩ <;> rw [g4]
      · rw [init_of_missing_b e1 e2 g1 g2 g3]
        simp
      · simp only [Run.warn, raiseAll]
        exact ⟨fun h => (by cases h), fun h => absurd g1 h.2.2.2⟩
      · simp only [lift_result]
        cases keplerianInit C A <;> simp [plainResult, hm, hr, g1]
    · rw [Run.bind_result, unitKwRun_result _ _ _ fun h => absurd hm h]
      have e1 : applyUnitKw A.m_planet A.m_planet_units = .ok A.m_planet := by rw [hm]; rfl
      rw [e1]
      simp only [plainResult]
      rw [Run.bind_result, unitKwRun_raise _ hr rfl]
      simp [hr]
  · rw [Run.bind_result, unitKwRun_raise _ hm rfl]
    simp [hm]

/-- **C136** (strict callers): a deprecated keyword is reported before anything else is looked at, `m_planet_units` first. -/
theorem C136_strict_keywords (C : Consts) (A : Args) :
    (A.m_planet_units ≠ none → (keplerianRun raiseAll C A).result = .error (.inl massUnitsWarning)) ∧
    (A.m_planet_units = none → A.rho_star_units ≠ none → (keplerianRun raiseAll C A).result = .error (.inl densityUnitsWarning)) := by
  constructor
  · intro hm
    rw [keplerianRun_eq, Run.bind_result, unitKwRun_raise _ hm rfl]
  · intro hm hr
    have e1 : applyUnitKw A.m_planet A.m_planet_units = .ok A.m_planet := by rw [hm]; rfl
    rw [keplerianRun_eq, Run.bind_result, unitKwRun_result _ _ _ fun h => absurd hm h, e1]
    simp only [plainResult]
    rw [Run.bind_result, unitKwRun_raise _ hr rfl]

/-- **C136** (the filter of the test): with `error::UserWarning` the call raises the warning iff the units can be attached, a `duration` and
`b` are given for a circular orbit, and `ror` is not; all other calls end as without warnings. -/
theorem C136_user_warning (C : Consts) (A : Args) :
    ((keplerianRun raiseUser C A).result = .error (.inl rorWarning) ↔
      (∃ m, applyUnitKw A.m_planet A.m_planet_units = .ok m) ∧ (∃ r, applyUnitKw A.rho_star A.rho_star_units = .ok r) ∧
        A.DurationWithoutRor ∧ A.b ≠ none) ∧
    ((keplerianRun raiseUser C A).result ≠ .error (.inl rorWarning) →
      (keplerianRun raiseUser C A).result = plainResult (keplerianInit C A)) := by
  rw [keplerianRun_eq, Run.bind_result, unitKwRun_result _ _ _ fun _ => by simp [raiseUser, massUnitsWarning]]
  cases hm : applyUnitKw A.m_planet A.m_planet_units with
  | error e => rw [init_of_mass_error hm]; simp [plainResult]
  | ok m =>
    simp only [plainResult]
    rw [Run.bind_result, unitKwRun_result _ _ _ fun _ => by simp [raiseUser, densityUnitsWarning]]
    cases hr : applyUnitKw A.rho_star A.rho_star_units with
    | error e => rw [init_of_density_error hm hr]; simp [plainResult]
    | ok r =>
      simp only [plainResult]
      rw [Run.bind_result]
      rcases durationChecks_eq raiseUser A with ⟨g1, g2, g3, g4⟩ | ⟨g1, g2, g4⟩ | ⟨g1, g4⟩ <;> rw [g4]
      · rw [init_of_missing_b hm hr g1 g2 g3]
        simp [g3]
      · simp [Run.warn, raiseUser, rorWarning, g1, g2]
      · simp only [lift_result]
        cases keplerianInit C A <;> simp [plainResult, g1]

/-- `ror` matters only through the duration of a circular orbit, where `None` means zero. -/
theorem init_ror (C : Consts) (A : Args) (r : Option Q) (h : A.ecc = none → A.duration ≠ none → (r.map Q.val).getD 0 = (A.ror.map Q.val).getD 0) :
    keplerianInit C { A with ror := r } = keplerianInit C A := by
  have hd : durationBlock { A with ror := r } = durationBlock A := by
    unfold durationBlock
    simp only
    cases he : A.ecc with
    | some e => rfl
    | none =>
      cases hdur : A.duration with
      | none => rfl
      | some d =>
        simp only
        cases A.b with
        | none => rfl
        | some b =>
          simp only
          cases A.period with
          | none => rfl
          | some p =>
            simp only [aorFromDuration, h he (by simp [hdur])]
  unfold keplerianInit
  simp only [hd]
  rfl

/-- The call that means the same and needs no warning: units attached with `with_unit`, and `ror=0` where `ror` is missing. -/
def Args.quiet (A : Args) (m r : Option Q) : Args :=
  { A with m_planet := m, rho_star := r, m_planet_units := none, rho_star_units := none, ror := some (A.ror.getD ⟨0, none⟩) }

/-- **C136** (what to do about the warnings): every successful call has an equivalent one that issues none: attach the units with `with_unit`
and pass `ror=0`, which is what a missing `ror` means. -/
theorem C136_quiet (C : Consts) (A : Args) (o : Orbit) (h : keplerianInit C A = .ok o) : ∃ m r,
    applyUnitKw A.m_planet A.m_planet_units = .ok m ∧ applyUnitKw A.rho_star A.rho_star_units = .ok r ∧
    (keplerianRun raiseAll C (A.quiet m r)).result = .ok o := by
  obtain ⟨⟨m, hm⟩, ⟨r, hr⟩, -⟩ := units_of_ok h
  refine ⟨m, r, hm, hr, (C136_strict C _ o).2 ⟨?_, rfl, rfl, fun h => by cases h.2.2⟩⟩
  have e : keplerianInit C (A.quiet m r) = keplerianInit C { A with ror := some (A.ror.getD ⟨0, none⟩) } := by
    unfold keplerianInit Args.quiet
    simp only [hm, hr]
    rfl
  rw [e, init_ror C A _ (by intro _ _; cases A.ror <;> rfl), h]

/-- **C136** is false for eccentric orbits: there the radius ratio is ignored, so that the duration is always that of the centre of the planet,
and there is no warning, with `ror` or without. -/
theorem C136_counterexample (C : Consts) : ∃ A o, A.duration ≠ none ∧ A.ror = none ∧ keplerianInit C A = .ok o ∧
    keplerianRun showAll C A = ⟨[], .ok o⟩ ∧ ∀ k, keplerianRun showAll C { A with ror := some k } = ⟨[], .ok o⟩ := by
  let A : Args :=
    { period := some (1 : ℝ), ecc := some (1 / 2 : ℝ), sin_omega := some (1 : ℝ), cos_omega := some (0 : ℝ),
      duration := some (1 / 8 : ℝ) }
  obtain ⟨o, ho⟩ : ∃ o, keplerianInit C A = .ok o := ⟨_, rfl⟩
  refine ⟨A, o, by simp [A], rfl, ho, ?_, fun k => ?_⟩
  · rw [C136_warnings C A o ho]
    simp [Args.expectedWarnings, Args.DurationWithoutRor, A]
  · have : keplerianInit C { A with ror := some k } = .ok o := by
      rw [init_ror C A _ (by simp [A]), ho]
    rw [C136_warnings C _ o this]
    simp [Args.expectedWarnings, Args.DurationWithoutRor, A]

/-- Two warnings: a mass with the deprecated keyword, and a duration without `ror`. -/
example (C : Consts) : ∃ A o, keplerianInit C A = .ok o ∧ A.DurationWithoutRor ∧ A.m_planet_units ≠ none ∧
    (keplerianRun showAll C A).shown = [massUnitsWarning, rorWarning] := by
  let A : Args :=
    { period := some (1 : ℝ), duration := some (1 / 10 : ℝ), b := some (3 / 10 : ℝ), m_planet := some (1 : ℝ),
      m_planet_units := some C.mSun }
  obtain ⟨o, ho⟩ : ∃ o, keplerianInit C A = .ok o := ⟨_, rfl⟩
  refine ⟨A, o, ho, by simp [Args.DurationWithoutRor, A], by simp [A], ?_⟩
  rw [C136_warnings C A o ho]
  simp [Args.expectedWarnings, Args.DurationWithoutRor, A]

/-- `KeplerianOrbit(period=10.1235, t0=0, b=0.34, duration=0.12, r_star=0.7, ror=k)`. -/
noncomputable def demoRor (k : Option Q) : Args :=
  { period := some (10.1235 : ℝ), t0 := some (0 : ℝ), b := some (0.34 : ℝ), duration := some (0.12 : ℝ), r_star := some (0.7 : ℝ),
    ror := k }

/-- The two calls of `test_duration_without_ror_warning`: the first raises the warning, the second does not. -/
example (C : Consts) : (keplerianRun raiseUser C (demoRor none)).result = .error (.inl rorWarning) ∧
    ∃ o, (keplerianRun raiseUser C (demoRor (some (0.06 : ℝ)))).result = .ok o := by
  constructor
  · rw [(C136_user_warning C _).1]
    exact ⟨⟨_, rfl⟩, ⟨_, rfl⟩, by simp [Args.DurationWithoutRor, demoRor], by simp [demoRor]⟩
  · obtain ⟨o, ho⟩ : ∃ o, keplerianInit C (demoRor (some (0.06 : ℝ))) = .ok o := ⟨_, rfl⟩
    refine ⟨o, ?_⟩
    rw [(C136_user_warning C _).2, ho]
    · rfl
    · rw [Ne, (C136_user_warning C _).1]
      simp [Args.DurationWithoutRor, demoRor]

end Exo
