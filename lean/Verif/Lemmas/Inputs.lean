import Verif.Lemmas.Init
import Verif.Spec.Units

/-!
# What `_get_consistent_inputs` computes
-/

namespace Exo
open Real

theorem toUnitVal_eq_ok {q : Q} {u : AUnit} {v : ℝ} :
    toUnitVal q u = .ok v ↔ q.compat u ∧ v = q.inUnit u := by
  unfold toUnitVal toUnit AUnit.to Q.compat Q.inUnit
  rcases q with ⟨x, _ | b⟩
  · simp [eq_comm]
  · by_cases h : b.dim = u.dim
    · simp [h, mul_div_assoc, eq_comm]
    · simp [h]

theorem toUnitVal_eq_error {q : Q} {u : AUnit} {e : PyErr} :
    toUnitVal q u = .error e ↔ ¬ q.compat u ∧ e = .unitConversion := by
  unfold toUnitVal toUnit AUnit.to Q.compat
  rcases q with ⟨x, _ | b⟩
  · simp
  · by_cases h : b.dim = u.dim
    · simp [h]
    · simp [h, eq_comm (a := e)]

theorem toUnitVal_of_compat {q : Q} {u : AUnit} (h : q.compat u) : toUnitVal q u = .ok (q.inUnit u) :=
  toUnitVal_eq_ok.2 ⟨h, rfl⟩

theorem toUnitOpt_none {u : AUnit} : toUnitOpt none u = .ok none := rfl

theorem toUnitOpt_eq_ok {q : Option Q} {u : AUnit} {v : Option ℝ} :
    toUnitOpt q u = .ok v ↔ (∀ x, q = some x → x.compat u) ∧ v = q.map (·.inUnit u) := by
  cases q with
  | none => simp [toUnitOpt, eq_comm]
  | some x =>
    simp only [toUnitOpt]
    constructor
    · intro h
      split at h
      · cases h
      · rename_i w hw
        rw [toUnitVal_eq_ok] at hw
        simp only [Except.ok.injEq] at h
        subst h
        simp [hw.1, hw.2]
    · rintro ⟨h1, h2⟩
      rw [toUnitVal_of_compat (h1 x rfl)]
      simp [h2]

theorem toUnitOpt_of_compat {q : Option Q} {u : AUnit} (h : ∀ x, q = some x → x.compat u) :
    toUnitOpt q u = .ok (q.map (·.inUnit u)) := toUnitOpt_eq_ok.2 ⟨h, rfl⟩

/-- Value of a density argument in g/cm³, for any label. -/
theorem rhoStarVal_eq_ok {C : Consts} {q : Option Q} {v : Option ℝ} (h : rhoStarVal C q = .ok v) :
    (∀ x, q = some x → x.compat C.gcc) ∧ v.map (· * C.gccPerSun) = q.map (·.inUnit C.gcc) := by
  have hg := C.gccPerSun_pos
  cases q with
  | none =>
    simp [rhoStarVal] at h; subst h; simp
  | some x =>
    rcases x with ⟨x, _ | b⟩
    · simp [rhoStarVal, hasUnit] at h
      subst h
      simp [Q.compat, Q.inUnit, hg.ne']
    · simp only [rhoStarVal, hasUnit, Option.isSome_some, if_true] at h
      rw [toUnitOpt_eq_ok] at h
      obtain ⟨h1, h2⟩ := h
      subst h2
      have := h1 _ rfl
      constructor
      · intro y hy
        cases hy
        exact this
      · have h1 := C.rhoSun.pos.ne'
        have h2 := C.gcc.pos.ne'
        simp [Q.inUnit, Consts.gccPerSun]
        field_simp

theorem rhoStarVal_of_compat {C : Consts} {q : Option Q} (h : ∀ x, q = some x → x.compat C.gcc) :
    rhoStarVal C q = .ok (q.map (fun x => x.inUnit C.gcc / C.gccPerSun)) := by
  cases q with
  | none => rfl
  | some x =>
    rcases x with ⟨x, _ | b⟩
    · simp [rhoStarVal, hasUnit, Q.inUnit]
    · have hb : (⟨x, some b⟩ : Q).compat C.rhoSun := by
        intro b' hb'
        exact h _ rfl b' hb'
      simp only [rhoStarVal, hasUnit, Option.isSome_some, if_true]
      rw [toUnitOpt_of_compat (by intro y hy; cases hy; exact hb)]
      have h1 := C.rhoSun.pos.ne'
      have h2 := C.gcc.pos.ne'
      simp [Q.inUnit, Consts.gccPerSun]
      field_simp

/-- The algebraic relations between the six numbers. -/
structure Inputs.Consistent (C : Consts) (I : Inputs) : Prop where
  third_law : 4 * π ^ 2 * I.a ^ 3 = C.G * (I.m_star + I.m_planet) * I.period ^ 2
  density : I.rho_star = C.gccPerSun * (3 * I.m_star / (4 * π * I.r_star ^ 3))

theorem cbrt_pow {x : ℝ} (hx : 0 ≤ x) : (x ^ ((1 : ℝ) / 3)) ^ 3 = x := by
  rw [← rpow_natCast, ← rpow_mul hx]; norm_num

/-- Success of `stellarParams` determines the density relation. -/
theorem stellarParams_spec {rho r m : Option ℝ} {rho' r' m' : ℝ}
    (h : stellarParams rho r m = .ok (rho', r', m')) (hr : 0 < r') (hm : 0 < m') (hrho : 0 < rho') :
    rho' = 3 * m' / (4 * π * r' ^ 3) ∧ (∀ x, rho = some x → rho' = x) ∧ (∀ x, r = some x → r' = x) ∧
      (∀ x, m = some x → m' = x) := by
  have hpi := pi_pos
  unfold stellarParams at h
  split at h <;> simp only [Except.ok.injEq, Prod.mk.injEq, reduceCtorEq] at h
  · obtain ⟨h1, h2, h3⟩ := h
    subst h1 h2 h3
    refine ⟨rfl, by simp, by simp, by simp⟩
  · obtain ⟨h1, h2, h3⟩ := h
    subst h1 h3
    refine ⟨?_, by simp, by simp, by simp⟩
    rw [← h2, cbrt_pow (by positivity)]
    field_simp
  · obtain ⟨h1, h2, h3⟩ := h
    subst h1 h2
    refine ⟨?_, by simp, by simp, by simp⟩
    rw [← h3]
    field_simp

theorem defaultR_some {q : Q} {m : Option Q} : defaultR (some q) m = some q := by simp [defaultR]
theorem defaultM_some {q : Q} {rho r : Option Q} : defaultM rho r (some q) = some q := by simp [defaultM]

theorem impliedInputs_spec {C : Consts} {av pv mp : ℝ} {rho r m : Option Q} {I : Inputs}
    (h : impliedInputs C av pv mp rho r m = .ok I)
    (hp : 0 < I.period) (hr : 0 < I.r_star) :
    I.Consistent C ∧ I.a = av ∧ I.period = pv ∧ I.m_planet = mp ∧ rho = none ∧ m = none ∧
    (∀ q, r = some q → q.compat C.rSun ∧ I.r_star = q.inUnit C.rSun) := by
  have hpi := pi_pos
  have hG := C.G_pos
  unfold impliedInputs at h
  split at h; · cases h
  rename_i hno
  split at h; · cases h
  rename_i rv hrv
  rw [toUnitOpt_eq_ok] at hrv
  simp only [Except.ok.injEq] at h
  subst h
  simp only [not_or, Bool.not_eq_true, Option.isSome_eq_false_iff, Option.isNone_iff_eq_none] at *
  refine ⟨⟨?_, ?_⟩, trivial, trivial, trivial, hno.1, hno.2, ?_⟩
  · simp only
    field_simp
    ring
  · simp only
    field_simp
  · intro q hq; subst hq; simp at hrv; simp [hrv]

theorem finishInputs_spec {C : Consts} {a? p? : Option ℝ} {mp : ℝ} {rho r m : Option Q} {I : Inputs}
    (h : finishInputs C a? p? mp rho r m = .ok I)
    (ha : 0 < I.a) (hrho : 0 < I.rho_star) (hr : 0 < I.r_star) (hm : 0 < I.m_star)
    (hmp : 0 ≤ I.m_planet) :
    I.Consistent C ∧ (∀ x, a? = some x → I.a = x) ∧ (∀ x, p? = some x → I.period = x) ∧ I.m_planet = mp ∧
    (∀ q, rho = some q → q.compat C.gcc ∧ I.rho_star = q.inUnit C.gcc) ∧
    (∀ q, r = some q → q.compat C.rSun ∧ I.r_star = q.inUnit C.rSun) ∧
    (∀ q, m = some q → q.compat C.mSun ∧ I.m_star = q.inUnit C.mSun) := by
  have hpi := pi_pos
  have hG := C.G_pos
  have hg := C.gccPerSun_pos
  unfold finishInputs at h
  split at h; · cases h
  split at h; · cases h
  rename_i rho? hrho?
  split at h; · cases h
  rename_i r? hr?
  split at h; · cases h
  rename_i m? hm?
  rw [toUnitOpt_eq_ok] at hr? hm?
  split at h; · cases h
  rename_i rho' r' m' hst
  have hrv := rhoStarVal_eq_ok hrho?
  split at h
  · rename_i pv
    simp only [Except.ok.injEq] at h
    subst h
    simp only at *
    have hrho' : 0 < rho' := pos_of_mul_pos_left hrho hg.le
    obtain ⟨e1, e2, e3, e4⟩ := stellarParams_spec hst hr hm hrho'
    refine ⟨⟨?_, ?_⟩, by simp, by simp, trivial, ?_, ?_, ?_⟩
    · simp only
      rw [cbrt_pow (by positivity)]
      field_simp
    · simp only; rw [e1]; ring
    · intro q hq; subst hq
      refine ⟨hrv.1 q rfl, ?_⟩
      have := hrv.2
      rcases hx : rho? with _ | x
      · simp [hx] at this
      · simp [hx] at this; rw [e2 x hx, this]
    · intro q hq; subst hq
      simp at hr?
      exact ⟨hr?.1, e3 _ hr?.2⟩
    · intro q hq; subst hq
      simp at hm?
      exact ⟨hm?.1, e4 _ hm?.2⟩
  · rename_i av
    simp only [Except.ok.injEq] at h
    subst h
    simp only at *
    have hrho' : 0 < rho' := pos_of_mul_pos_left hrho hg.le
    obtain ⟨e1, e2, e3, e4⟩ := stellarParams_spec hst hr hm hrho'
    refine ⟨⟨?_, ?_⟩, by simp, by simp, trivial, ?_, ?_, ?_⟩
    · simp only
      have hm0 : 0 < m' + mp := by linarith
      have h3 : (av ^ ((3 : ℝ) / 2)) ^ 2 = av ^ 3 := by
        rw [← rpow_natCast, ← rpow_mul ha.le, ← rpow_natCast]; norm_num
      rw [div_pow, mul_pow, mul_pow, h3, sq_sqrt (by positivity)]
      field_simp
      ring
    · simp only; rw [e1]; ring
    · intro q hq; subst hq
      refine ⟨hrv.1 q rfl, ?_⟩
      have := hrv.2
      rcases hx : rho? with _ | x
      · simp [hx] at this
      · simp [hx] at this; rw [e2 x hx, this]
    · intro q hq; subst hq
      simp at hr?
      exact ⟨hr?.1, e3 _ hr?.2⟩
    · intro q hq; subst hq
      simp at hm?
      exact ⟨hm?.1, e4 _ hm?.2⟩
  · cases h

/-- Everything `_get_consistent_inputs` guarantees when it succeeds with physical values. -/
theorem consistentInputs_spec {C : Consts} {a period rho r m mp : Option Q} {I : Inputs}
    (h : consistentInputs C a period rho r m mp = .ok I)
    (ha : 0 < I.a) (hp : 0 < I.period) (hrho : 0 < I.rho_star) (hr : 0 < I.r_star) (hm : 0 < I.m_star)
    (hmp : 0 ≤ I.m_planet) :
    I.Consistent C ∧
    (∀ q, a = some q → q.compat C.rSun ∧ I.a = q.inUnit C.rSun) ∧
    (∀ q, period = some q → q.compat C.day ∧ I.period = q.inUnit C.day) ∧
    (∀ q, rho = some q → q.compat C.gcc ∧ I.rho_star = q.inUnit C.gcc) ∧
    (∀ q, r = some q → q.compat C.rSun ∧ I.r_star = q.inUnit C.rSun) ∧
    (∀ q, m = some q → q.compat C.mSun ∧ I.m_star = q.inUnit C.mSun) ∧
    (∀ q, mp = some q → q.compat C.mSun ∧ I.m_planet = q.inUnit C.mSun) ∧
    (mp = none → I.m_planet = 0) := by
  unfold consistentInputs at h
  split at h; · cases h
  split at h; · cases h
  rename_i mp? hmp?
  split at h; · cases h
  rename_i a? ha?
  split at h; · cases h
  rename_i p? hp?
  rw [toUnitOpt_eq_ok] at hmp? ha? hp?
  have hmp1 : ∀ q, mp = some q → q.compat C.mSun ∧ mp?.getD 0 = q.inUnit C.mSun := by
    intro q hq; subst hq; simp at hmp?; simp [hmp?]
  have hmp2 : mp = none → mp?.getD 0 = 0 := by
    intro hq; subst hq; simp at hmp?; simp [hmp?]
  split at h
  · obtain ⟨h1, h2, h3, h4, h5, h6, h7⟩ := impliedInputs_spec h hp hr
    rw [h2, h3, h4]
    refine ⟨h1, ?_, ?_, by simp [h5], h7, by simp [h6], hmp1, hmp2⟩
    · intro q hq; subst hq; simp at ha?; exact ha?
    · intro q hq; subst hq; simp at hp?; exact hp?
  · obtain ⟨h1, h2, h3, h4, h5, h6, h7⟩ := finishInputs_spec h ha hrho hr hm hmp
    rw [h4]
    refine ⟨h1, ?_, ?_, h5, ?_, ?_, hmp1, hmp2⟩
    · intro q hq; subst hq; simp at ha?; exact ⟨ha?.1, h2 _ ha?.2⟩
    · intro q hq; subst hq; simp at hp?; exact ⟨hp?.1, h3 _ hp?.2⟩
    · intro q hq; subst hq; exact h6 q defaultR_some
    · intro q hq; subst hq; exact h7 q defaultM_some

end Exo
