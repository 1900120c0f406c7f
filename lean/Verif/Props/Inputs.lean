import Verif.Lemmas.Accept
import Verif.Lemmas.Demo

/-!
# C01-C04: the constructor's parameters
-/

namespace Exo
open Real

/-! ## C01 -/

/-- **C01** (Kepler's third law and the density relation). Whatever combination of keywords an orbit was built from, if
its attributes are physical then they satisfy `4π²a³ = G (m_star + m_planet) P²` and
`rho_star = 3 m_star / (4π r_star³)` in g/cm³. -/
theorem C01_third_law_and_density (C : Consts) (A : Args) (o : Orbit)
    (h : keplerianInit C A = .ok o) (hp : o.Physical) :
    4 * π ^ 2 * o.a ^ 3 = C.G * (o.m_star + o.m_planet) * o.period ^ 2 ∧
    o.rho_star = C.gccPerSun * (3 * o.m_star / (4 * π * o.r_star ^ 3)) := by
  obtain ⟨mp, rho, D, -, -, -, hI, -, -⟩ := (built_of_init h).inputs
  have := (consistentInputs_spec hI hp.a_pos hp.period_pos hp.rho_star_pos hp.r_star_pos hp.m_star_pos
    hp.m_planet_nonneg).1
  exact ⟨this.third_law, this.density⟩

example (C : Consts) : ∃ A o, keplerianInit C A = .ok o ∧ o.Physical ∧ A.a.isNone ∧ 0 < o.m_planet := by
  obtain ⟨o, h, hp, -, -, -, h5, -⟩ := demoMass_ok C
  exact ⟨demoMass, o, h, hp, rfl, by rw [h5]; norm_num⟩

/-- **C01** (supplied values come back). Every supplied one of `period`, `r_star`, `m_star`, `m_planet`, `rho_star` is the
attribute of the orbit, expressed in the standard unit; so is `a`, unless the orbit is circular with a `duration`.
The full claim (without that exception) is false, see `C01_a_overwritten`. -/
theorem C01_supplied_values_partial (C : Consts) (A : Args) (o : Orbit)
    (h : keplerianInit C A = .ok o) (hp : o.Physical)
    (hm : A.m_planet_units = none) (hrho : A.rho_star_units = none) :
    (∀ q, A.period = some q → o.period = q.inUnit C.day) ∧
    (∀ q, A.r_star = some q → o.r_star = q.inUnit C.rSun) ∧
    (∀ q, A.m_star = some q → o.m_star = q.inUnit C.mSun) ∧
    (∀ q, A.m_planet = some q → o.m_planet = q.inUnit C.mSun) ∧
    (A.m_planet = none → o.m_planet = 0) ∧
    (∀ q, A.rho_star = some q → o.rho_star = q.inUnit C.gcc) ∧
    (¬ A.CircDuration → ∀ q, A.a = some q → o.a = q.inUnit C.rSun) := by
  obtain ⟨mp, rho, D, h1, h2, hD, hI, -, -⟩ := (built_of_init h).inputs
  have := consistentInputs_spec hI hp.a_pos hp.period_pos hp.rho_star_pos hp.r_star_pos hp.m_star_pos
    hp.m_planet_nonneg
  obtain ⟨-, s1, s2, s3, s4, s5, s6, s7⟩ := this
  have e1 := applyUnitKw_eq_ok h1
  have e2 := applyUnitKw_eq_ok h2
  rw [hm] at e1; rw [hrho] at e2
  simp only [labelled] at e1 e2
  subst e1 e2
  refine ⟨fun q hq => (s2 q hq).2, fun q hq => ?_, fun q hq => (s5 q hq).2, fun q hq => (s6 q hq).2, s7,
    fun q hq => (s3 q hq).2, fun hc q hq => ?_⟩
  · by_cases hc : A.CircDuration
    · rcases durationBlock_circ hc with ⟨-, tag, hD'⟩ | ⟨-, -, hD'⟩ | ⟨-, -, x, g, hD'⟩
      · rw [hD'] at hD; cases hD
      · rw [hD'] at hD; cases hD
      · rw [hD'] at hD
        cases hD
        exact (s4 q (by simp [hq])).2
    · rw [durationBlock_not_circ hc] at hD
      cases hD
      exact (s4 q hq).2
  · rw [durationBlock_not_circ hc] at hD
    cases hD
    exact (s1 q hq).2

example (C : Consts) : ∃ A o, keplerianInit C A = .ok o ∧ o.Physical ∧ A.m_planet_units = none ∧
    A.rho_star_units = none ∧ ¬ A.CircDuration ∧ A.a.isSome := by
  obtain ⟨o, h, hp, -⟩ := demoEcc_ok C
  exact ⟨demoEcc, o, h, hp, rfl, rfl, by simp [Args.CircDuration, demoEcc], rfl⟩

/-- **C01 is false in one corner**: with a `duration` on a circular orbit a supplied `a` is silently replaced. Here
`KeplerianOrbit(a=100, period=1, duration=0.5, b=0)` succeeds with `orbit.a = 1`. -/
theorem C01_a_overwritten (C : Consts) : ∃ o, keplerianInit C
    { a := some (100 : ℝ), period := some (1 : ℝ), duration := some (1 / 2 : ℝ), b := some (0 : ℝ) } = .ok o ∧
    o.Physical ∧ o.a = 1 := by
  have hG := C.G_pos
  have hg := C.gccPerSun_pos
  have hpi := pi_pos
  have hs : sin (π * (1 / 2 : ℝ) / 1) = 1 := by rw [show π * (1 / 2 : ℝ) / 1 = π / 2 by ring, sin_pi_div_two]
  have hs' : sin (π * (2 : ℝ)⁻¹) = 1 := by rw [← sin_pi_div_two]; ring_nf
  refine ⟨_, rfl, ⟨?_, ?_, ?_, ?_, ?_, ?_, ?_, ?_, ?_, ?_⟩, ?_⟩ <;>
    simp [hs', inclFactorOf] <;> try positivity

/-! ## C02 -/

/-- **C02** (exactly the documented keyword combinations are accepted). If all unit labels make sense, construction
succeeds iff the set of keywords present is admissible — whatever the numbers are. -/
theorem C02_accepts_iff_admissible (C : Consts) (A : Args) (hu : A.UnitsOk C) :
    (∃ o, keplerianInit C A = .ok o) ↔ A.Admissible := by
  rcases init_cases C A hu with ⟨h1, h2⟩ | ⟨h1, h2⟩
  · exact ⟨fun _ => h2, fun _ => h1⟩
  · refine ⟨?_, fun h => absurd h h1⟩
    rintro ⟨o, ho⟩
    rcases h2 with ⟨tag, h2⟩ | ⟨-, -, -, tag, h2⟩ <;> rw [h2] at ho <;> cases ho

/-- **C02** (rejections are `ValueError`s), except for a circular orbit with `duration` and `b` but no `period`. The full
claim is false, see `C02_missing_period_typeError`. -/
theorem C02_rejected_with_valueError_partial (C : Consts) (A : Args) (hu : A.UnitsOk C) (h : ¬ A.Admissible)
    (hx : ¬ (A.CircDuration ∧ A.b.isSome ∧ A.period.isNone)) :
    ∃ tag, keplerianInit C A = .error (.valueError tag) := by
  rcases init_cases C A hu with ⟨-, h2⟩ | ⟨-, h2 | ⟨h3, h4, h5, -⟩⟩
  · exact absurd h2 h
  · exact h2
  · exact absurd ⟨h3, h4, h5⟩ hx

/-- **C02 is false in one corner**: `KeplerianOrbit(duration=0.1, b=0.0)` (no period, no a) raises `TypeError`, not the
documented `ValueError`. -/
theorem C02_missing_period_typeError (C : Consts) :
    ∃ A : Args, A.UnitsOk C ∧ ¬ A.Admissible ∧ ∃ tag, keplerianInit C A = .error (.typeError tag) := by
  refine ⟨{ duration := some (1 / 10 : ℝ), b := some (0 : ℝ) }, ?_, ?_, _, rfl⟩
  · constructor <;> intro q hq <;> cases hq <;> exact compat_bare _ _
  · intro h
    have := h.size
    simp at this

/-- A labelled argument for which the hypotheses of C02 hold: the period is in hours, say. -/
example (C : Consts) (hour : AUnit) (hd : hour.dim = C.day.dim) :
    Args.UnitsOk C { period := some ⟨24, some hour⟩ } ∧ Args.Admissible { period := some ⟨24, some hour⟩ } := by
  refine ⟨?_, ?_⟩
  · constructor <;> intro q hq <;> cases hq
    · intro b hb; cases hb; exact hd
    · exact compat_bare _ _
  · constructor <;> simp [Args.CircDuration]

/-- A rejected combination satisfying the hypotheses of the `ValueError` theorem: `b` together with `incl`. -/
example (C : Consts) : ∃ A : Args, A.UnitsOk C ∧ ¬ A.Admissible ∧
    ¬ (A.CircDuration ∧ A.b.isSome ∧ A.period.isNone) := by
  refine ⟨{ period := some (1 : ℝ), b := some (0 : ℝ), incl := some (1 : ℝ) }, ?_, ?_, ?_⟩
  · constructor <;> intro q hq <;> cases hq <;> exact compat_bare _ _
  · intro h; exact h.b_incl ⟨rfl, rfl⟩
  · simp

/-! ## C03 -/

/-- Keep an attribute of an orbit (as a bare number), or leave the keyword out. -/
def keep (b : Bool) (x : ℝ) : Option Q := if b then some ⟨x, none⟩ else none

/-- The keyword sets that determine an orbit without recourse to default values: both of `a`, `period` with `r_star`,
or one of them with two of the three stellar parameters. -/
def Determining (ka kp krho kr km : Bool) : Prop :=
  (ka ∧ kp ∧ kr ∧ !krho ∧ !km) ∨ ((ka != kp) ∧
    ((krho ∧ kr ∧ !km) ∨ (krho ∧ !kr ∧ km) ∨ (!krho ∧ kr ∧ km)))

theorem cbrt_of_pow {x y : ℝ} (hx : 0 < x) (h : x ^ 3 = y) : y ^ ((1 : ℝ) / 3) = x := by
  rw [← h, ← rpow_natCast, ← rpow_mul hx.le]; norm_num

/-- **C03** (re-building from derived attributes). For every physical orbit and every determining subset of its
attributes `a, period, rho_star, r_star, m_star` (together with `m_planet`), constructing again succeeds and reproduces
all six values. -/
theorem C03_rebuild (C : Consts) (A : Args) (o : Orbit) (h : keplerianInit C A = .ok o) (hp : o.Physical)
    (ka kp krho kr km : Bool) (hk : Determining ka kp krho kr km) :
    ∃ o', keplerianInit C { a := keep ka o.a, period := keep kp o.period, rho_star := keep krho o.rho_star,
                            r_star := keep kr o.r_star, m_star := keep km o.m_star,
                            m_planet := some (o.m_planet : Q) } = .ok o' ∧
      o'.a = o.a ∧ o'.period = o.period ∧ o'.rho_star = o.rho_star ∧ o'.r_star = o.r_star ∧
      o'.m_star = o.m_star ∧ o'.m_planet = o.m_planet := by
  obtain ⟨h3, hd⟩ := C01_third_law_and_density C A o h hp
  have hG := C.G_pos
  have hg := C.gccPerSun_pos
  have hpi := pi_pos
  have ha := hp.a_pos
  have hP := hp.period_pos
  have hm := hp.m_star_pos
  have hmp := hp.m_planet_nonneg
  have hr := hp.r_star_pos
  have hmt : 0 < o.m_star + o.m_planet := by linarith
  -- the six recovered expressions
  have e_a : (C.G * (o.m_star + o.m_planet) * o.period ^ 2 / (4 * π ^ 2)) ^ ((3 : ℝ)⁻¹) = o.a := by
    rw [inv_eq_one_div]
    refine cbrt_of_pow ha ?_
    rw [← h3]; field_simp
  have e_p : 2 * π * o.a ^ ((3 : ℝ) / 2) / √(C.G * (o.m_star + o.m_planet)) = o.period := by
    rw [div_eq_iff (by positivity)]
    have h4 : (2 * π * o.a ^ ((3 : ℝ) / 2)) ^ 2 = (o.period * √(C.G * (o.m_star + o.m_planet))) ^ 2 := by
      rw [mul_pow, mul_pow, mul_pow, sq_sqrt (by positivity), ← rpow_natCast (o.a ^ _), ← rpow_mul ha.le]
      have : o.a ^ ((3 : ℝ) / 2 * ((2 : ℕ) : ℝ)) = o.a ^ 3 := by rw [← rpow_natCast]; norm_num
      rw [this]; nlinarith
    exact (pow_left_inj₀ (by positivity) (by positivity) two_ne_zero).1 h4
  have e_m : 4 * π * π * o.a ^ 3 / (C.G * o.period ^ 2) - o.m_planet = o.m_star := by
    rw [sub_eq_iff_eq_add, div_eq_iff (by positivity)]; linarith
  have e_rho : 3 * o.m_star / (4 * π * o.r_star ^ 3) * C.gccPerSun = o.rho_star := by rw [hd]; ring
  have e_rho' : o.rho_star / C.gccPerSun * C.gccPerSun = o.rho_star := by field_simp
  have e_m2 : 4 * π * o.r_star ^ 3 * (o.rho_star / C.gccPerSun) / 3 = o.m_star := by
    rw [hd]; field_simp
  have e_r : (3 * o.m_star / (4 * π * (o.rho_star / C.gccPerSun))) ^ ((3 : ℝ)⁻¹) = o.r_star := by
    rw [inv_eq_one_div]
    refine cbrt_of_pow hr ?_
    rw [hd]; field_simp
  have e_rho2 : o.m_star / (4 * π * o.r_star ^ 3 / 3) * C.gccPerSun = o.rho_star := by rw [hd]; field_simp
  unfold Determining at hk
  rcases ka <;> rcases kp <;> rcases krho <;> rcases kr <;> rcases km <;> simp at hk
  all_goals
    refine ⟨_, rfl, ?_⟩
    simp [e_a, e_p, e_m, e_rho, e_rho', e_m2, e_r, e_rho2]

example : Determining true false true false true := by simp [Determining]

/-! ## C04 -/

/-- The argument expressed as a bare number in the standard unit. -/
noncomputable def bareIn (q : Option Q) (u : AUnit) : Option Q := q.map (fun q => ⟨q.inUnit u, none⟩)

/-- Convert the six dimensional arguments (and the duration) to bare numbers by hand. -/
noncomputable def Args.bare (C : Consts) (A : Args) : Args :=
  { A with
    period := bareIn A.period C.day
    a := bareIn A.a C.rSun
    r_star := bareIn A.r_star C.rSun
    m_star := bareIn A.m_star C.mSun
    m_planet := bareIn (labelled A.m_planet A.m_planet_units) C.mSun
    rho_star := bareIn (labelled A.rho_star A.rho_star_units) C.gcc
    duration := bareIn A.duration C.day
    m_planet_units := none
    rho_star_units := none }

theorem bareIn_isNone (q : Option Q) (u : AUnit) : (bareIn q u).isNone = q.isNone := by cases q <;> rfl
theorem bareIn_isSome (q : Option Q) (u : AUnit) : (bareIn q u).isSome = q.isSome := by cases q <;> rfl

theorem toUnitOpt_bareIn {q : Option Q} {u : AUnit} (h : ∀ x, q = some x → x.compat u) :
    toUnitOpt (bareIn q u) u = toUnitOpt q u := by
  rw [toUnitOpt_of_compat h]
  cases q <;> rfl

theorem rhoStarVal_bareIn {C : Consts} {q : Option Q} (h : ∀ x, q = some x → x.compat C.gcc) :
    rhoStarVal C (bareIn q C.gcc) = rhoStarVal C q := by
  rw [rhoStarVal_of_compat h]
  cases q <;> rfl

theorem consistentInputs_bareIn (C : Consts) (a p rho r m mp : Option Q)
    (ha : ∀ q, a = some q → q.compat C.rSun) (hp : ∀ q, p = some q → q.compat C.day)
    (hrho : ∀ q, rho = some q → q.compat C.gcc) (hr : ∀ q, r = some q → q.compat C.rSun)
    (hm : ∀ q, m = some q → q.compat C.mSun) (hmp : ∀ q, mp = some q → q.compat C.mSun) :
    consistentInputs C (bareIn a C.rSun) (bareIn p C.day) (bareIn rho C.gcc) (bareIn r C.rSun) (bareIn m C.mSun)
      (bareIn mp C.mSun) = consistentInputs C a p rho r m mp := by
  have hdr : defaultR (bareIn r C.rSun) (bareIn m C.mSun) = bareIn (defaultR r m) C.rSun := by
    cases r <;> cases m <;> rfl
  have hdm : defaultM (bareIn rho C.gcc) (bareIn r C.rSun) (bareIn m C.mSun) = bareIn (defaultM rho r m) C.mSun := by
    cases r <;> cases m <;> cases rho <;> rfl
  have hr' : ∀ q, defaultR r m = some q → q.compat C.rSun := by
    intro q hq
    unfold defaultR at hq
    split at hq
    · cases hq; exact compat_bare _ _
    · exact hr q hq
  have hm' : ∀ q, defaultM rho r m = some q → q.compat C.mSun := by
    intro q hq
    unfold defaultM at hq
    split at hq
    · cases hq; exact compat_bare _ _
    · exact hm q hq
  unfold consistentInputs finishInputs impliedInputs
  simp only [hdr, hdm, toUnitOpt_bareIn ha, toUnitOpt_bareIn hp, toUnitOpt_bareIn hmp, toUnitOpt_bareIn hr,
    toUnitOpt_bareIn hr', toUnitOpt_bareIn hm', rhoStarVal_bareIn hrho, bareIn_isNone, bareIn_isSome]

/-- **C04** (units are equivalent to converting by hand) for every orbit that is not a circular orbit with a `duration`:
the labelled construction and the construction from bare numbers in the standard units give the same result (the same
orbit or the same error). For circular orbits with a `duration` the claim is false, see `C04_duration_units_ignored`. -/
theorem C04_units_equivalent_partial (C : Consts) (A : Args) (hu : A.UnitsOk C) (hc : ¬ A.CircDuration) :
    keplerianInit C A = keplerianInit C (A.bare C) := by
  have hc' : ¬ (A.bare C).CircDuration := by
    unfold Args.CircDuration at *
    simpa [Args.bare, bareIn_isSome] using hc
  unfold keplerianInit
  rw [applyUnitKw_ok (fun v hv => (hu.m_planet_kw v hv).2), applyUnitKw_ok (fun v hv => (hu.rho_star_kw v hv).2),
    applyUnitKw_ok (by intro v hv; cases hv), applyUnitKw_ok (by intro v hv; cases hv), durationBlock_not_circ hc,
    durationBlock_not_circ hc']
  have hI := consistentInputs_bareIn C A.a A.period (labelled A.rho_star A.rho_star_units) A.r_star A.m_star
    (labelled A.m_planet A.m_planet_units) hu.a hu.period (labelled_compat_rho hu) hu.r_star hu.m_star
    (labelled_compat_mass hu)
  simp only [Args.bare] at *
  have hincl : ∀ e P ap R k, inclBlock C (A.bare C) (bareIn A.duration C.day) e P ap R k =
      inclBlock C A A.duration e P ap R k := by
    intro e P ap R k
    unfold inclBlock
    simp only [bareIn_isSome, Args.bare]
    rcases hd : A.duration with _ | d
    · rfl
    · have h1 : toUnitVal ⟨d.inUnit C.day, none⟩ C.day = toUnitVal d C.day := by
        rw [toUnitVal_of_compat (hu.duration d hd)]; rfl
      simp only [bareIn, Option.map_some, h1]
  simp only [Args.bare] at hincl
  have hecc : eccBlock (A.bare C) = eccBlock A := rfl
  have htime : ∀ M n, timeBlock (A.bare C) M n = timeBlock A M n := fun _ _ => rfl
  simp only [Args.bare] at hecc htime
  simp only [labelled] at *
  simp only [hI, hincl, hecc, htime]

/-- **C04** (keywords are equivalent to labels). The deprecated `m_planet_units` keyword does what labelling the argument
does; likewise `rho_star_units`. -/
theorem C04_unit_keywords (C : Consts) (A : Args) (x y : ℝ) (u v : AUnit) :
    keplerianInit C { A with m_planet := some (x : Q), m_planet_units := some u, rho_star := some (y : Q),
                             rho_star_units := some v } =
    keplerianInit C { A with m_planet := some ⟨x, some u⟩, m_planet_units := none, rho_star := some ⟨y, some v⟩,
                             rho_star_units := none } := rfl

/-- **C04** (an incompatible unit is an error): if any of the dimensional arguments has a label of the wrong dimension
the construction fails. (For `a` this needs the orbit not to be circular with a duration, where `a` is not looked at.) -/
theorem C04_incompatible_unit_fails (C : Consts) (A : Args) (hm : A.m_planet_units = none)
    (hrho : A.rho_star_units = none)
    (h : (∃ q, A.period = some q ∧ ¬ q.compat C.day) ∨ (∃ q, A.r_star = some q ∧ ¬ q.compat C.rSun) ∨
      (∃ q, A.m_star = some q ∧ ¬ q.compat C.mSun) ∨ (∃ q, A.m_planet = some q ∧ ¬ q.compat C.mSun) ∨
      (∃ q, A.rho_star = some q ∧ ¬ q.compat C.gcc) ∨
      (¬ A.CircDuration ∧ ∃ q, A.a = some q ∧ ¬ q.compat C.rSun)) :
    ∀ o, keplerianInit C A ≠ .ok o := by
  intro o ho
  obtain ⟨mp, rho, D, h1, h2, hD, hI, -, -⟩ := (built_of_init ho).inputs
  have e1 := applyUnitKw_eq_ok h1
  have e2 := applyUnitKw_eq_ok h2
  rw [hm] at e1; rw [hrho] at e2
  simp only [labelled] at e1 e2
  subst e1 e2
  have hDr : ∀ q, A.r_star = some q → D.r_star = some q := by
    intro q hq
    by_cases hc : A.CircDuration
    · rcases durationBlock_circ hc with ⟨-, tag, hD'⟩ | ⟨-, -, hD'⟩ | ⟨-, -, x, g, hD'⟩ <;> rw [hD'] at hD <;> cases hD
      simp [hq]
    · rw [durationBlock_not_circ hc] at hD
      cases hD
      exact hq
  have hDa : ¬ A.CircDuration → D.a = A.a := by
    intro hc
    rw [durationBlock_not_circ hc] at hD
    cases hD; rfl
  clear ho h1 h2
  generalize (⟨o.a, o.period, o.rho_star, o.r_star, o.m_star, o.m_planet⟩ : Inputs) = I at hI
  unfold consistentInputs at hI
  split at hI; · cases hI
  split at hI; · cases hI
  rename_i mp? hmp?
  split at hI; · cases hI
  rename_i a? ha?
  split at hI; · cases hI
  rename_i p? hp?
  rw [toUnitOpt_eq_ok] at hmp? ha? hp?
  have key : (∀ q, A.r_star = some q → q.compat C.rSun) ∧ (∀ q, A.m_star = some q → q.compat C.mSun) ∧
      (∀ q, A.rho_star = some q → q.compat C.gcc) := by
    split at hI
    · unfold impliedInputs at hI
      split at hI; · cases hI
      rename_i hno
      split at hI; · cases hI
      rename_i rv hrv
      rw [toUnitOpt_eq_ok] at hrv
      simp only [not_or, Bool.not_eq_true, Option.isSome_eq_false_iff, Option.isNone_iff_eq_none] at hno
      exact ⟨fun q hq => hrv.1 q (hDr q hq), by simp [hno.2], by simp [hno.1]⟩
    · unfold finishInputs at hI
      split at hI; · cases hI
      split at hI; · cases hI
      rename_i rho? hrho?
      split at hI; · cases hI
      rename_i r? hr?
      split at hI; · cases hI
      rename_i m? hm?
      rw [toUnitOpt_eq_ok] at hr? hm?
      refine ⟨fun q hq => hr?.1 q ?_, fun q hq => hm?.1 q ?_, (rhoStarVal_eq_ok hrho?).1⟩
      · rw [hDr q hq]; exact defaultR_some
      · rw [hq]; exact defaultM_some
  rcases h with ⟨q, hq, hbad⟩ | ⟨q, hq, hbad⟩ | ⟨q, hq, hbad⟩ | ⟨q, hq, hbad⟩ | ⟨q, hq, hbad⟩ | ⟨hc, q, hq, hbad⟩
  · exact hbad (hp?.1 q hq)
  · exact hbad (key.1 q hq)
  · exact hbad (key.2.1 q hq)
  · exact hbad (hmp?.1 q hq)
  · exact hbad (key.2.2 q hq)
  · rw [hDa hc] at ha?
    exact hbad (ha?.1 q hq)

/-- A mass given as the period. -/
example (C : Consts) : ∃ A : Args, A.m_planet_units = none ∧ A.rho_star_units = none ∧ ∃ q, A.period = some q ∧ ¬ q.compat C.day := by
  refine ⟨{ period := some ⟨1, some C.mSun⟩ }, rfl, rfl, _, rfl, fun h => ?_⟩
  have := h C.mSun rfl
  simp [Consts.mSun, Consts.day] at this

/-- Hypotheses of C04 are satisfiable with genuinely labelled arguments. -/
example (C : Consts) (hour : AUnit) (hd : hour.dim = C.day.dim) :
    Args.UnitsOk C { period := some ⟨24, some hour⟩ } ∧ ¬ Args.CircDuration { period := some ⟨24, some hour⟩ } := by
  refine ⟨?_, by simp [Args.CircDuration]⟩
  constructor <;> intro q hq <;> cases hq
  · intro b hb; cases hb; exact hd
  · exact compat_bare _ _

/-- **C04 is false for circular orbits with a duration**: the label of `duration` (here a unit of half a day) is ignored.
`KeplerianOrbit(period=1, b=0, duration=with_unit(1, 12h))` is not the orbit with `duration=0.5`. -/
theorem C04_duration_units_ignored (C : Consts) : ∃ A : Args, A.UnitsOk C ∧ A.Admissible ∧
    keplerianInit C A ≠ keplerianInit C (A.bare C) := by
  let u : AUnit := ⟨C.dayScale / 2, C.day.dim, half_pos C.day_pos⟩
  refine ⟨{ period := some (1 : ℝ), b := some (0 : ℝ), duration := some ⟨1 / 3, some u⟩ }, ?_, ?_, ?_⟩
  · constructor <;> intro q hq <;> cases hq
    · exact compat_bare _ _
    · exact compat_bare _ _
    · intro b hb; cases hb; rfl
  · constructor <;> simp [Args.CircDuration]
  · intro h
    have hd := C.day_pos.ne'
    simp only [keplerianInit, applyUnitKw, durationBlock, consistentInputs, toUnitOpt, toUnitVal, toUnit, bareIn,
      impliedInputs, aorFromDuration, eccBlock, inclBlock, timeBlock, Args.bare, labelled, Option.map] at h
    simp [Q.inUnit, u, Consts.day] at h
    have h1 := h.1
    have e1 : π * 3⁻¹ = π / 3 := by ring
    have e2 : π * (3⁻¹ * (C.dayScale / 2) / C.dayScale) = π / 6 := by field_simp; norm_num
    rw [e1, e2, sin_pi_div_three, sin_pi_div_six] at h1
    have h3 : √3 = 1 := by
      field_simp at h1
      linarith
    have h4 : (√3 : ℝ) ^ 2 = 3 := sq_sqrt (by norm_num)
    rw [h3] at h4
    norm_num at h4

end Exo
