import Verif.Lemmas.FlMotion

/-!
# C113 — Parameters that describe no orbit
-/

namespace Exo
open Real

/-- What is known of a constructed orbit. -/
theorem builtF {C : Consts} {A : Args} {o : FlOrbit} (h : keplerianInitF C A = .ok o) :
    eccBlockF A = .ok o.ecc ∧ o.M0 = M0OfF o.ecc ∧ timeBlockF A o.M0 o.n = .ok (o.t0, o.t_periastron) ∧ o.tref = o.t_periastron - o.t0 ∧
      ∃ mp rho aF r d, applyUnitKw A.m_planet A.m_planet_units = .ok mp ∧ applyUnitKw A.rho_star A.rho_star_units = .ok rho ∧
        durationBlockF A = .ok (aF, r, d) ∧
        consistentInputsF C aF A.period rho r A.m_star mp = .ok ⟨o.a, o.period, o.rho_star, o.r_star, o.m_star, o.m_planet⟩ := by
  unfold keplerianInitF at h
  split at h; · cases h
  rename_i mp hmp
  split at h; · cases h
  rename_i rho hrho
  split at h; · cases h
  rename_i aF r d hD
  split at h; · cases h
  rename_i I hI
  simp only at h
  split at h; · cases h
  rename_i ecc hecc
  split at h; · cases h
  rename_i b ci i hincl
  split at h; · cases h
  rename_i t0 tp htime
  simp only [Except.ok.injEq] at h
  subst h
  exact ⟨hecc, rfl, htime, rfl, mp, rho, aF, r, d, hmp, hrho, hD, hI⟩

/-- **C113 (what holds).** For every orbit that exists no operation of the constructor, of `get_relative_position`, of the velocities or of
`get_light_curve` leaves its domain: computed with NaN and infinities, the attributes, positions, velocities and fluxes are the numbers that
the rest of the model computes with real numbers. -/
theorem C113_possible_partial (C : Consts) (A : Args) (o : Orbit) (h : keplerianInit C A = .ok o) (hp : o.Physical)
    (hd : DurationPossible C A o) (kep : FlKepler) (hk : kep.Ok) :
    keplerianInitF C A = .ok o.toFl ∧
      (∀ t, o.toFl.relativePosition kep t = (o.relativePosition C t).toFl) ∧
      (∀ t, o.toFl.velocity kep o.toFl.m_planet t = (o.starVelocity t).toFl) ∧
      ∀ (ld : FlLimbDark) (c : ℝ × ℝ × ℝ), ld.Ok c → ∀ r t texp,
        integratedF ld o.toFl.r_star (o.toFl.relativePosition kep) r t texp =
          .fin (exposureAverage (fun t => fluxAt c o.r_star r (o.relativePosition C t)) t texp) := by
  have B := built_of_init h
  have hpos : ∀ t, o.toFl.relativePosition kep t = (o.relativePosition C t).toFl := fun t => positionNowF_eq B hp.bound hk (-o.a) t
  refine ⟨initF_eq h hp hd, hpos, fun t => velocityF_eq B hp.bound hk o.m_planet t, ?_⟩
  intro ld c hl r t texp
  have : o.toFl.relativePosition kep = fun t => (o.relativePosition C t).toFl := funext hpos
  rw [this]
  exact integratedF_eq hl hp.r_star_pos.ne' r t texp

/-- **C113 (what holds).** Impossible parameters are not rejected: the constructor raises exactly the exceptions that depend on which
arguments are given and on their units. -/
theorem C113_never_rejected (C : Consts) (A : Args) :
    (keplerianInitF C A).map (fun _ => ()) = (keplerianInit C A).map (fun _ => ()) := (sameErr_init C A).symm

/-- A NaN inclination. -/
theorem nan_height {o : FlOrbit} (h : o.sin_incl = .nan) (x y : Fl) : (o.rotate x y).z = .nan := by
  unfold FlOrbit.rotate
  simp only [h, Fl.neg_nan, Fl.nan_mul]
  split <;> rfl

/-- **C113 is false of the code (impact parameter).** When `b` is larger than the distance between planet and star in units of the stellar
radius, no inclination exists, but the orbit is constructed: heights and velocities along the line of sight are NaN, the positions on the sky
are numbers, and every light curve is exactly zero. -/
theorem C113_impossible_impact (C : Consts) (A : Args) (o : Orbit) (h : keplerianInit C A = .ok o) (ho : o.Bound) (b : Q) (hb : A.b = some b)
    (hi : 1 < |o.cos_incl|) (kep : FlKepler) :
    ∃ oF, keplerianInitF C A = .ok oF ∧ oF.r_star = .fin o.r_star ∧ (∀ t, (oF.relativePosition kep t).z = .nan) ∧
      (∀ t conv, oF.radialVelocity kep conv t = .nan) ∧ Flat oF.r_star (oF.relativePosition kep) ∧
      (kep.Ok → ∀ t, (oF.relativePosition kep t).x = .fin (o.relativePosition C t).x ∧
        (oF.relativePosition kep t).y = .fin (o.relativePosition C t).y) := by
  have B := built_of_init h
  obtain ⟨-, -, D, -, -, hD, -, hincl, -⟩ := B.inputs
  have hb' : o.dcosidb * b.val = o.cos_incl ∧ b.val = o.b ∧ ¬(A.incl.isSome = true ∨ D.duration.isSome = true) := by
    unfold inclBlock at hincl
    simp only [hb] at hincl
    split_ifs at hincl with h0
    simp only [Except.ok.injEq, Prod.mk.injEq] at hincl
    exact ⟨hincl.2.1, hincl.1, h0⟩
  obtain ⟨hc, hbv, h0⟩ := hb'
  have hF := initF_core h ho (.fin o.b) (.fin o.cos_incl) .nan (by
    intro D' hD'
    rw [hD] at hD'
    cases hD'
    unfold inclBlockF
    simp only [hb, if_neg h0, Fl.fin_mul]
    rw [Fl.arccos_out (by rw [hc]; exact hi), hc, hbv])
  refine ⟨_, hF, rfl, ?_, ?_, ?_, ?_⟩
  · intro t
    exact nan_height rfl _ _
  · intro t conv
    have : (FlOrbit.velocity { o.toFl with b := .fin o.b, cos_incl := .fin o.cos_incl, incl := .nan, sin_incl := Fl.nan.sin } kep
        o.toFl.m_planet t).z = .nan := by
      unfold FlOrbit.velocity
      simp only
      split <;> exact nan_height rfl _ _
    simp only [FlOrbit.radialVelocity]
    erw [this]
    simp
  · exact flat_of_nan fun t => nan_height rfl _ _
  · intro hk t
    have hpos := positionNowF_eq B ho hk (-o.a) t
    have hx : ∀ x y : Fl, (FlOrbit.rotate { o.toFl with b := .fin o.b, cos_incl := .fin o.cos_incl, incl := .nan, sin_incl := Fl.nan.sin } x y).x =
        (o.toFl.rotate x y).x ∧ (FlOrbit.rotate { o.toFl with b := .fin o.b, cos_incl := .fin o.cos_incl, incl := .nan, sin_incl := Fl.nan.sin } x y).y =
        (o.toFl.rotate x y).y := by
      intro x y
      unfold FlOrbit.rotate
      simp only
      constructor <;> split <;> simp_all [Orbit.toFl]
    constructor
    · refine (hx _ _).1.trans ?_
      exact congrArg FlV3.x hpos
    · refine (hx _ _).2.trans ?_
      exact congrArg FlV3.y hpos

/-- **C113 is false of the code (duration, eccentric orbit).** A `duration` that the eccentric orbit has at no impact parameter gives an orbit
whose `b`, inclination and heights are NaN and whose light curves are exactly zero. -/
theorem C113_impossible_duration (C : Consts) (A : Args) (o : Orbit) (h : keplerianInit C A = .ok o) (ho : o.Bound) (p : EccParams)
    (hp : o.ecc = some p) (hb : A.b = none) (hi : A.incl = none) (d : Q) (dv : ℝ) (hd : A.duration = some d)
    (hdv : toUnitVal d C.day = .ok dv)
    (hneg : (durationFraction o p.ecc p.sin_omega dv).1 / (durationFraction o p.ecc p.sin_omega dv).2 < 0) (kep : FlKepler) :
    ∃ oF, keplerianInitF C A = .ok oF ∧ oF.r_star = .fin o.r_star ∧ oF.b = .nan ∧ (∀ t, (oF.relativePosition kep t).z = .nan) ∧
      Flat oF.r_star (oF.relativePosition kep) := by
  have B := built_of_init h
  have k1 : (durationFraction o p.ecc p.sin_omega dv).2 ≠ 0 := by
    intro h0
    rw [h0, div_zero] at hneg
    exact lt_irrefl _ hneg
  have hF := initF_core h ho .nan .nan .nan (by
    intro D' hD'
    have hdd : D'.duration = some d := by
      unfold durationBlock at hD'
      split at hD'
      · rename_i he _
        have := B.ecc_eq
        simp only [eccBlock, he, Except.ok.injEq] at this
        rw [hp] at this
        cases this
      · simp only [Except.ok.injEq] at hD'
        subst hD'
        exact hd
    unfold inclBlockF
    simp only [hb, hi, hdd, hp, Option.map_some, hdv]
    obtain ⟨b1, -⟩ := bFromDurationF_eq (d := dv) (aP := o.a_planet) (ho.ecc_nonneg p hp) (ho.ecc_lt_one p hp) ho.period_pos.ne'
      ho.r_star_pos.ne' (durationFraction o p.ecc p.sin_omega dv).1 (durationFraction o p.ecc p.sin_omega dv).2 _ rfl rfl rfl k1
    rw [b1, Fl.sqrt_neg hneg]
    simp)
  exact ⟨_, hF, rfl, rfl, fun t => nan_height rfl _ _, flat_of_nan fun t => nan_height rfl _ _⟩

/-- **C113 is false of the code (duration, circular orbit).** A `duration` that no circular orbit of this period can have at this `b` gives an
orbit whose semimajor axis and positions are NaN and whose light curves are exactly zero. -/
theorem C113_impossible_circular_duration (C : Consts) (A : Args) (o : Orbit) (h : keplerianInit C A = .ok o) (he : A.ecc = none)
    (d b P : Q) (hd : A.duration = some d) (hb : A.b = some b) (hP : A.period = some P) (hP0 : P.val ≠ 0)
    (hneg : (1 + (A.ror.map Q.val).getD 0) ^ 2 < b.val ^ 2 * cos (π * d.val / P.val) ^ 2) (kep : FlKepler) :
    ∃ oF, keplerianInitF C A = .ok oF ∧ oF.a = .nan ∧ (∀ t, (oF.relativePosition kep t).z = .nan) ∧
      Flat oF.r_star (oF.relativePosition kep) := by
  have hs := sameErr_init C A
  rw [h] at hs
  rcases hs.cases with ⟨e, h1, -⟩ | ⟨x, oF, -, h2⟩
  · cases h1
  obtain ⟨k1, -, -, -, mp, rho, aF, r, dd, -, -, hD, hI⟩ := builtF h2
  have hecc : oF.ecc = none := by
    simp only [eccBlockF, he, Except.ok.injEq] at k1
    exact k1.symm
  have haor : aorFromDurationF d.val P.val b.val (A.ror.map Q.val) = .nan := by
    simp only [aorFromDurationF, Fl.fin_mul, Fl.fin_pow, Fl.fin_add]
    rw [Fl.fin_div hP0, Fl.cos_fin, Fl.fin_pow, Fl.fin_mul, Fl.fin_sub, Fl.sqrt_neg (by linarith)]
    simp
  have haF : aF = .computed .nan := by
    simp only [durationBlockF, he, hd, hb, hP, haor, Fl.mul_nan, Except.ok.injEq, Prod.mk.injEq] at hD
    exact hD.1.symm
  have ha : oF.a = .nan := by
    subst haF
    simp only [consistentInputsF, AArg.isNone, Bool.false_and, Bool.false_eq_true, if_false, AArg.value, hP] at hI
    split at hI
    · cases hI
    split at hI
    · cases hI
    rename_i hpv
    simp only [toUnitOpt] at hpv
    split at hpv
    · cases hpv
    cases hpv
    simp only at hI
    unfold impliedInputsF at hI
    split_ifs at hI
    split at hI
    · cases hI
    simp only [Except.ok.injEq, FlInputs.mk.injEq] at hI
    exact hI.1.symm
  have hz : ∀ t, (oF.relativePosition kep t).z = .nan := by
    intro t
    simp only [FlOrbit.relativePosition, FlOrbit.positionNow, FlOrbit.radius, FlOrbit.rotate, hecc, ha, Fl.neg_nan, Fl.nan_mul, Fl.mul_nan]
    split <;> rfl
  exact ⟨oF, h2, ha, hz, flat_of_nan hz⟩

/-- **C113 is false of the code (unbound orbits).** An eccentricity above one gives an orbit whose reference time and positions are NaN and
whose light curves are exactly zero. -/
theorem C113_unbound (C : Consts) (A : Args) (o : Orbit) (h : keplerianInit C A = .ok o) (e : Q) (he : A.ecc = some e) (h1 : 1 < e.val)
    (kep : FlKepler) (hk : kep.Ok) :
    ∃ oF, keplerianInitF C A = .ok oF ∧ oF.tref = .nan ∧ (∀ t, (oF.relativePosition kep t).z = .nan) ∧
      Flat oF.r_star (oF.relativePosition kep) := by
  have hs := sameErr_init C A
  rw [h] at hs
  rcases hs.cases with ⟨e, h1, -⟩ | ⟨x, oF, -, h2⟩
  · cases h1
  obtain ⟨k1, k2, k3, k4, -⟩ := builtF h2
  have hecc : ∃ p : FlEcc, oF.ecc = some p ∧ p.ecc = .fin e.val := by
    simp only [eccBlockF, he] at k1
    split at k1
    · split_ifs at k1
      simp only [Except.ok.injEq] at k1
      exact ⟨_, k1.symm, rfl⟩
    · split at k1
      · simp only [Except.ok.injEq] at k1
        exact ⟨_, k1.symm, rfl⟩
      · cases k1
  obtain ⟨p, hp, hpe⟩ := hecc
  have hM : oF.M0 = .nan := by
    rw [k2, hp]
    simp only [M0OfF, hpe, Fl.fin_sub]
    rw [Fl.sqrt_neg (by linarith)]
    simp
  have ht : oF.tref = .nan := by
    rw [k4]
    unfold timeBlockF at k3
    rw [hM] at k3
    split at k3 <;> simp only [Except.ok.injEq, Prod.mk.injEq, reduceCtorEq, Fl.nan_div, Fl.add_nan, Fl.sub_nan] at k3 <;>
      obtain ⟨e1, e2⟩ := k3 <;> rw [← e1, ← e2] <;> simp
  have hz : ∀ t, (oF.relativePosition kep t).z = .nan := by
    intro t
    have hf : oF.trueAnomaly kep t = (.nan, .nan) := by
      simp only [FlOrbit.trueAnomaly, hp, ht, Fl.sub_nan, Fl.nan_mul]
      exact hk.nan _
    simp only [FlOrbit.relativePosition, FlOrbit.positionNow, hf, FlOrbit.rotate, hp, Fl.mul_nan, Fl.add_nan]
    split <;> rfl
  exact ⟨oF, h2, ht, hz, flat_of_nan hz⟩

/-- The mean motion of a constructed orbit. -/
theorem builtF_n {C : Consts} {A : Args} {o : FlOrbit} (h : keplerianInitF C A = .ok o) :
    o.n = ((2 : ℝ) : Fl) * (π : Fl) / o.period := by
  unfold keplerianInitF at h
  split at h; · cases h
  split at h; · cases h
  split at h; · cases h
  split at h; · cases h
  simp only at h
  split at h; · cases h
  split at h; · cases h
  split at h; · cases h
  simp only [Except.ok.injEq] at h
  subst h
  rfl

/-- **C113 is false of the code (no period).** A period of zero is accepted: the mean motion is infinite, no coordinate of a circular orbit is a
number at any time (not even at `t0`, where the phase is zero times infinity), and every light curve is exactly zero. -/
theorem C113_zero_period (C : Consts) (A : Args) (oF : FlOrbit) (h : keplerianInitF C A = .ok oF) (he : A.ecc = none) (hP : oF.period = .fin 0)
    (kep : FlKepler) :
    oF.n = .inf false ∧ (∀ t, (oF.relativePosition kep t).x = .nan ∧ (oF.relativePosition kep t).y = .nan ∧
      (oF.relativePosition kep t).z = .nan) ∧ Flat oF.r_star (oF.relativePosition kep) := by
  obtain ⟨k1, k2, k3, k4, -⟩ := builtF h
  have hn : oF.n = .inf false := by
    rw [builtF_n h, hP]
    show Fl.div _ _ = _
    have := pi_pos
    simp [Fl.div, this.ne', this.le]
  have hecc : oF.ecc = none := by
    simp only [eccBlockF, he, Except.ok.injEq] at k1
    exact k1.symm
  have hM : oF.M0 = .fin (0.5 * π) := by rw [k2, hecc]; rfl
  have hq : (Fl.fin (0.5 * π) / Fl.inf false : Fl) = .fin 0 := rfl
  obtain ⟨t0, ht0, htr⟩ : ∃ t0, oF.t0 = .fin t0 ∧ oF.tref = .fin 0 := by
    rw [k4]
    unfold timeBlockF at k3
    rw [hM, hn, hq] at k3
    split at k3 <;> simp only [Except.ok.injEq, Prod.mk.injEq, reduceCtorEq, Fl.fin_add, Fl.fin_sub] at k3 <;>
      obtain ⟨e1, e2⟩ := k3 <;> rw [← e1, ← e2] <;> exact ⟨_, rfl, by simp⟩
  have hf : ∀ t, oF.trueAnomaly kep t = (.nan, .nan) := by
    intro t
    simp only [FlOrbit.trueAnomaly, hecc, ht0, htr, hn, Fl.fin_sub, sub_zero]
    have : (Fl.fin (t - t0) * Fl.inf false : Fl) = Fl.mul (.fin (t - t0)) (.inf false) := rfl
    rw [this]
    by_cases h0 : t - t0 = 0
    · simp [Fl.mul, h0]
    · simp [Fl.mul, h0, Fl.sin, Fl.cos]
  have hpos : ∀ t, (oF.relativePosition kep t).x = .nan ∧ (oF.relativePosition kep t).y = .nan ∧
      (oF.relativePosition kep t).z = .nan := by
    intro t
    simp only [FlOrbit.relativePosition, FlOrbit.positionNow, hf, FlOrbit.rotate, hecc, Fl.mul_nan]
    split
    · exact ⟨rfl, rfl, rfl⟩
    · simp
  exact ⟨hn, hpos, flat_of_nan fun t => (hpos t).2.2⟩

/-- **C113 is false of the code (negative mass).** A star of negative mass is accepted: the semi-major axis is NaN and every light curve is exactly
zero. -/
theorem C113_negative_mass (C : Consts) (A : Args) (oF : FlOrbit) (h : keplerianInitF C A = .ok oF) (p m : ℝ) (ha : A.a = none)
    (hd : A.duration = none) (hr : A.rho_star = none) (q : ℝ) (hmp : A.m_planet = some ⟨q, none⟩) (hmu : A.m_planet_units = none) (hru : A.rho_star_units = none)
    (hp : A.period = some ⟨p, none⟩) (hm : A.m_star = some ⟨m, none⟩) (hp0 : p ≠ 0) (hm0 : m + q < 0) (kep : FlKepler) :
    oF.a = .nan ∧ Flat oF.r_star (oF.relativePosition kep) := by
  obtain ⟨k1, -, -, -, mp, rho, aF, r, d, h1, h2, h3, h4⟩ := builtF h
  have e1 : mp = some ⟨q, none⟩ := by
    rw [hmp, hmu] at h1
    cases h1; rfl
  have e2 : rho = none := by
    rw [hr, hru] at h2
    cases h2; rfl
  have e3 : aF = .given none ∧ r = A.r_star := by
    unfold durationBlockF at h3
    rw [hd] at h3
    cases he : A.ecc <;> rw [he] at h3 <;> simp only [Except.ok.injEq, Prod.mk.injEq] at h3 <;> exact ⟨by rw [← h3.1, ha], h3.2.1.symm⟩
  have hG := C.G_pos
  have hneg : C.G * (m + q) * p ^ 2 / (4 * π ^ 2) < 0 := by
    apply div_neg_of_neg_of_pos
    · apply mul_neg_of_neg_of_pos
      · exact mul_neg_of_pos_of_neg hG hm0
      · positivity
    · have := pi_pos; positivity
  have haN : oF.a = .nan := by
    have key : (((C.G : Fl) * ((m : Fl) + (q : Fl)) * (p : Fl) ^ 2 / (((4 : ℝ) : Fl) * (π : Fl) ^ 2)).powr (1 / 3) : Fl) = .nan := by
      have := pi_pos.ne'
      simp only [Fl.fin_add, Fl.fin_mul, Fl.fin_pow]
      rw [Fl.fin_div (by positivity), Fl.powr, if_pos hneg]
    rw [e1, e2, e3.1, e3.2, hp, hm] at h4
    cases hR : A.r_star with
    | none =>
      rw [hR] at h4
      simp [consistentInputsF, AArg.isNone, AArg.value, toUnitOpt, toUnitVal, toUnit, finishInputsF, defaultR, defaultM] at h4
    | some R =>
      rw [hR] at h4
      simp only [consistentInputsF, AArg.isNone, AArg.value, toUnitOpt, toUnitVal, toUnit, finishInputsF, defaultR, defaultM, rhoStarVal,
        Option.isNone_some, Option.isNone_none, Bool.and_false, Bool.false_eq_true, if_false, Option.map_none, Option.getD_some, false_and,
        Bool.toNat_true, Bool.toNat_false, ne_eq, not_true_eq_false, add_zero, stellarParamsF] at h4
      split at h4; · cases h4
      rename_i rv hrv
      cases rv with
      | none =>
        split at hrv <;> cases hrv
      | some rv =>
        simp only [Except.ok.injEq, FlInputs.mk.injEq] at h4
        rw [← h4.1]
        exact key
  refine ⟨haN, flat_of_nan fun t => ?_⟩
  simp only [FlOrbit.relativePosition, FlOrbit.positionNow, FlOrbit.radius, FlOrbit.rotate, haN, Fl.neg_nan]
  cases oF.ecc <;> simp only [Fl.nan_mul, Fl.nan_div, Fl.mul_nan, Fl.nan_add] <;> split <;> rfl

/-- `KeplerianOrbit(a=10, period=1, b=20)` -/
noncomputable def farArgs : Args := { a := some (10 : ℝ), period := some (1 : ℝ), b := some (20 : ℝ) }

theorem farArgs_ok (C : Consts) : ∃ o, keplerianInit C farArgs = .ok o ∧ o.Bound ∧ o.cos_incl = 2 ∧ o.dcosidb = 1 / 10 ∧ o.b = 20 := by
  have hG := C.G_pos
  have hg := C.gccPerSun_pos
  have hpi := pi_pos
  refine ⟨_, rfl, ⟨?_, ?_, ?_, ?_, ?_, ?_, ?_, ?_, ?_⟩, ?_, ?_, ?_⟩ <;> simp <;> try positivity
  all_goals norm_num [inclFactorOf]

/-- Concrete violation of C113: no inclination gives `KeplerianOrbit(a=10, period=1, b=20)`, yet the orbit is constructed and every light
curve of it, for planets of every size, is exactly zero. -/
theorem C113_counterexample (C : Consts) (kep : FlKepler) : ∃ A o oF, keplerianInit C A = .ok o ∧ o.Bound ∧
    (¬ ∃ i : ℝ, cos i = o.dcosidb * o.b) ∧ keplerianInitF C A = .ok oF ∧ Flat oF.r_star (oF.relativePosition kep) := by
  obtain ⟨o, h, ho, hc, hd, hb⟩ := farArgs_ok C
  obtain ⟨oF, h1, -, -, -, h2, -⟩ := C113_impossible_impact C farArgs o h ho _ rfl (by rw [hc]; norm_num) kep
  refine ⟨_, o, oF, h, ho, ?_, h1, h2⟩
  rintro ⟨i, hi⟩
  have := cos_le_one i
  rw [hi, hd, hb] at this
  norm_num at this

/-- The hypotheses of `C113_possible_partial` hold for `KeplerianOrbit(a=10, period=1)`. -/
example (C : Consts) (kep : FlKepler) (hk : kep.Ok) : ∃ o, keplerianInitF C { a := some (10 : ℝ), period := some (1 : ℝ) } = .ok o ∧
    o.period = .fin 1 ∧ o.a = .fin 10 := by
  have hG := C.G_pos
  have hg := C.gccPerSun_pos
  have hpi := pi_pos
  obtain ⟨o, h, hp, h1, h2⟩ : ∃ o, keplerianInit C { a := some (10 : ℝ), period := some (1 : ℝ) } = .ok o ∧ o.Physical ∧ o.period = 1 ∧
      o.a = 10 := by
    refine ⟨_, rfl, ⟨?_, ?_, ?_, ?_, ?_, ?_, ?_, ?_, ?_, ?_⟩, ?_, ?_⟩ <;> simp <;> try positivity
  refine ⟨_, (C113_possible_partial C _ o h hp (by intro d p dv hd; cases hd) kep hk).1, ?_, ?_⟩
  · exact congrArg Fl.fin h1
  · exact congrArg Fl.fin h2

/-- `KeplerianOrbit(a=10, period=1, ecc=0.5, omega=0, duration=1/8)` -/
noncomputable def longArgs : Args :=
  { a := some (10 : ℝ), period := some (1 : ℝ), ecc := some (1 / 2 : ℝ), omega := some (0 : ℝ), duration := some (1 / 8 : ℝ) }

/-- The hypotheses of `C113_impossible_duration` hold for a transit that lasts an eighth of the period at `a / R = 10`. -/
example (C : Consts) (kep : FlKepler) : ∃ oF, keplerianInitF C longArgs = .ok oF ∧ oF.b = .nan ∧
    Flat oF.r_star (oF.relativePosition kep) := by
  have hG := C.G_pos
  have hg := C.gccPerSun_pos
  have hpi := pi_pos
  obtain ⟨o, h, ho, p, hp, he, hs, hP, ha, hR⟩ : ∃ o, keplerianInit C longArgs = .ok o ∧ o.Bound ∧ ∃ p, o.ecc = some p ∧ p.ecc = 1 / 2 ∧
      p.sin_omega = 0 ∧ o.period = 1 ∧ o.a_planet = -10 ∧ o.r_star = 1 := by
    refine ⟨_, rfl, ⟨?_, ?_, ?_, ?_, ?_, ?_, ?_, ?_, ?_⟩, _, rfl, ?_, ?_, ?_, ?_, ?_⟩ <;> simp <;> try positivity
    · norm_num
    · field_simp
  obtain ⟨oF, h1, -, h2, -, h3⟩ := C113_impossible_duration C longArgs o h ho p hp rfl rfl _ (1 / 8) rfl rfl (by
    have hc : sin (π * (1 / 8) * ((1 + 1 / 2 * 0) / (1 - (1 / 2 : ℝ) ^ 2)) / 1) = 1 / 2 := by
      rw [show π * (1 / 8) * ((1 + 1 / 2 * 0) / (1 - (1 / 2 : ℝ) ^ 2)) / 1 = π / 6 by ring, sin_pi_div_six]
    simp only [durationFraction, he, hs, hP, ha, hR, hc]
    norm_num) kep
  exact ⟨oF, h1, h2, h3⟩

/-- `KeplerianOrbit(period=1, b=2, duration=1/4)` -/
noncomputable def wideArgs : Args := { period := some (1 : ℝ), b := some (2 : ℝ), duration := some (1 / 4 : ℝ) }

/-- The hypotheses of `C113_impossible_circular_duration` hold for a transit at `b = 2` that lasts a quarter of the period. -/
example (C : Consts) (kep : FlKepler) : ∃ oF, keplerianInitF C wideArgs = .ok oF ∧ oF.a = .nan ∧
    Flat oF.r_star (oF.relativePosition kep) := by
  obtain ⟨oF, h1, h2, -, h3⟩ := C113_impossible_circular_duration C wideArgs _ rfl rfl _ _ _ rfl rfl rfl one_ne_zero (by
    have hc : cos (π * (1 / 4) / 1) = √2 / 2 := by
      rw [← cos_pi_div_four]
      congr 1
      ring
    simp only [wideArgs, hc, div_pow, Real.sq_sqrt (show (0 : ℝ) ≤ 2 by norm_num)]
    norm_num) kep
  exact ⟨oF, h1, h2, h3⟩

/-- `KeplerianOrbit(a=10, period=1, ecc=2, omega=0)` -/
noncomputable def flybyArgs : Args :=
  { a := some (10 : ℝ), period := some (1 : ℝ), ecc := some (2 : ℝ), omega := some (0 : ℝ) }

/-- The hypotheses of `C113_unbound` hold for an eccentricity of two. -/
example (C : Consts) (kep : FlKepler) (hk : kep.Ok) : ∃ oF, keplerianInitF C flybyArgs = .ok oF ∧ oF.tref = .nan ∧
    Flat oF.r_star (oF.relativePosition kep) := by
  obtain ⟨oF, h1, h2, -, h3⟩ := C113_unbound C flybyArgs _ rfl _ rfl (by norm_num) kep hk
  exact ⟨oF, h1, h2, h3⟩

/-- The assumption on the compiled Kepler solver can be met. -/
example : ∃ kep : FlKepler, kep.Ok :=
  ⟨fun M e => match M, e with
    | .fin M, .fin e => (.fin (keplerOp M e).1, .fin (keplerOp M e).2)
    | _, _ => (.nan, .nan), ⟨fun _ _ _ _ => rfl, fun e => by cases e <;> rfl⟩⟩

/-- `KeplerianOrbit(a=10, period=0)` -/
noncomputable def stillArgs : Args := { a := some (10 : ℝ), period := some (0 : ℝ) }

/-- The hypotheses of `C113_zero_period` hold for `KeplerianOrbit(a=10, period=0)`. -/
example (C : Consts) (kep : FlKepler) : ∃ oF, keplerianInitF C stillArgs = .ok oF ∧ oF.n = .inf false ∧
    Flat oF.r_star (oF.relativePosition kep) := by
  obtain ⟨oF, h, hP⟩ : ∃ oF, keplerianInitF C stillArgs = .ok oF ∧ oF.period = .fin 0 := ⟨_, rfl, rfl⟩
  obtain ⟨h1, -, h2⟩ := C113_zero_period C stillArgs oF h rfl hP kep
  exact ⟨oF, h, h1, h2⟩

/-- `KeplerianOrbit(period=1, m_star=-1, r_star=1)` -/
noncomputable def repulsiveArgs : Args := { period := some (1 : ℝ), m_star := some (-1 : ℝ), r_star := some (1 : ℝ) }

/-- The hypotheses of `C113_negative_mass` hold for `KeplerianOrbit(period=1, m_star=-1, r_star=1)`. -/
example (C : Consts) (kep : FlKepler) : ∃ oF, keplerianInitF C repulsiveArgs = .ok oF ∧ oF.a = .nan ∧
    Flat oF.r_star (oF.relativePosition kep) := by
  obtain ⟨oF, h⟩ : ∃ oF, keplerianInitF C repulsiveArgs = .ok oF := ⟨_, rfl⟩
  exact ⟨oF, h, C113_negative_mass C repulsiveArgs oF h 1 (-1) rfl rfl rfl 0 rfl rfl rfl rfl rfl one_ne_zero (by norm_num) kep⟩

end Exo
