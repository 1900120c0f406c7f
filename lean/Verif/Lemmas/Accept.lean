import Verif.Lemmas.Inputs
import Verif.Spec.Admissible

/-!
# When each block of the constructor succeeds
-/

namespace Exo
open Real

/-- A `valueError` result. -/
def IsValueError {α : Type} (x : Except PyErr α) : Prop := ∃ tag, x = .error (.valueError tag)

/-- The argument after applying the deprecated unit keyword. -/
def labelled (x : Option Q) (u : Option AUnit) : Option Q :=
  match u with
  | none => x
  | some u => x.map (fun q => ⟨q.val, some u⟩)

theorem applyUnitKw_ok {x : Option Q} {u : Option AUnit}
    (h : ∀ v, u = some v → ∃ r : ℝ, x = some (r : Q)) : applyUnitKw x u = .ok (labelled x u) := by
  cases u with
  | none => rfl
  | some v =>
    obtain ⟨r, rfl⟩ := h v rfl
    rfl

theorem applyUnitKw_eq_ok {x y : Option Q} {u : Option AUnit} (h : applyUnitKw x u = .ok y) : y = labelled x u := by
  cases u with
  | none => simp [applyUnitKw] at h; simp [labelled, h]
  | some v =>
    cases x with
    | none => simp [applyUnitKw] at h
    | some q =>
      rcases q with ⟨q, _ | b⟩ <;> simp [applyUnitKw, withUnit, hasUnit] at h
      simp [labelled, ← h]

theorem labelled_isSome {x : Option Q} {u : Option AUnit} : (labelled x u).isSome = x.isSome := by
  cases u <;> cases x <;> rfl

theorem labelled_isNone {x : Option Q} {u : Option AUnit} : (labelled x u).isNone = x.isNone := by
  cases u <;> cases x <;> rfl

theorem durationBlock_circ {A : Args} (h : A.CircDuration) :
    (A.b.isNone ∧ IsValueError (durationBlock A)) ∨
    (A.b.isSome ∧ A.period.isNone ∧ durationBlock A = .error (.typeError "unsupported operand type(s)")) ∨
    (A.b.isSome ∧ A.period.isSome ∧ ∃ q : ℝ, ∃ g, durationBlock A =
      .ok ⟨some (q : Q), some (A.r_star.getD ⟨1, none⟩), none, some g⟩) := by
  obtain ⟨h1, h2⟩ := h
  rw [Option.isNone_iff_eq_none] at h1
  rw [Option.isSome_iff_exists] at h2
  obtain ⟨d, h2⟩ := h2
  unfold durationBlock
  rw [h1, h2]
  rcases A.b with _ | b
  · left; exact ⟨rfl, _, rfl⟩
  · right
    rcases A.period with _ | p
    · left; simp
    · right; exact ⟨rfl, rfl, _, _, rfl⟩

theorem durationBlock_not_circ {A : Args} (h : ¬ A.CircDuration) :
    durationBlock A = .ok ⟨A.a, A.r_star, A.duration, none⟩ := by
  unfold durationBlock
  unfold Args.CircDuration at h
  rcases h1 : A.ecc with _ | e
  · rcases h2 : A.duration with _ | d
    · rfl
    · simp [h1, h2] at h
  · rfl

theorem eccBlock_cases (A : Args) :
    ((∃ e, eccBlock A = .ok e ∧ e.isSome = A.ecc.isSome) ∧
      (A.ecc.isSome → (A.omega.isSome ∧ ¬ (A.sin_omega.isSome ∧ A.cos_omega.isSome)) ∨
        (A.omega.isNone ∧ A.sin_omega.isSome ∧ A.cos_omega.isSome))) ∨
    (IsValueError (eccBlock A) ∧
      ¬ (A.ecc.isSome → (A.omega.isSome ∧ ¬ (A.sin_omega.isSome ∧ A.cos_omega.isSome)) ∨
        (A.omega.isNone ∧ A.sin_omega.isSome ∧ A.cos_omega.isSome))) := by
  unfold eccBlock
  rcases A.ecc with _ | e
  · left; simp
  · rcases A.omega with _ | w
    · rcases A.sin_omega with _ | s <;> rcases A.cos_omega with _ | c
      · right; exact ⟨⟨_, rfl⟩, by simp⟩
      · right; exact ⟨⟨_, rfl⟩, by simp⟩
      · right; exact ⟨⟨_, rfl⟩, by simp⟩
      · left; simp
    · rcases A.sin_omega with _ | s <;> rcases A.cos_omega with _ | c
      · left; simp
      · left; simp
      · left; simp
      · right; exact ⟨⟨_, rfl⟩, by simp⟩

/-- The inclination block, for a duration that has passed lines 112-131 (present only with an eccentricity). -/
theorem inclBlock_cases (C : Consts) (A : Args) (d : Option Q) (e : Option EccParams) (P ap R k : ℝ)
    (hd : d.isSome → e.isSome) (hu : ∀ q, d = some q → q.compat C.day) :
    ((∃ v, inclBlock C A d e P ap R k = .ok v) ∧ ¬ (A.b.isSome ∧ A.incl.isSome) ∧ ¬ (A.b.isSome ∧ d.isSome) ∧
      ¬ (A.incl.isSome ∧ d.isSome)) ∨
    (IsValueError (inclBlock C A d e P ap R k) ∧ ((A.b.isSome ∧ A.incl.isSome) ∨ (A.b.isSome ∧ d.isSome) ∨
      (A.incl.isSome ∧ d.isSome))) := by
  unfold inclBlock
  rcases A.b with _ | b
  · rcases A.incl with _ | i
    · rcases d with _ | d
      · left; simp
      · rcases e with _ | e
        · simp at hd
        · left
          simp only [toUnitVal_of_compat (hu d rfl)]
          simp
    · rcases d with _ | d
      · left; simp
      · right; exact ⟨⟨_, rfl⟩, by simp⟩
  · rcases A.incl with _ | i
    · rcases d with _ | d
      · left; simp
      · right; exact ⟨⟨_, rfl⟩, by simp⟩
    · right
      simp [IsValueError]

theorem timeBlock_cases (A : Args) (M n : ℝ) :
    ((∃ v, timeBlock A M n = .ok v) ∧ ¬ (A.t0.isSome ∧ A.t_periastron.isSome)) ∨
    (IsValueError (timeBlock A M n) ∧ (A.t0.isSome ∧ A.t_periastron.isSome)) := by
  unfold timeBlock
  rcases A.t0 with _ | t0 <;> rcases A.t_periastron with _ | tp
  · left; simp
  · left; simp
  · left; simp
  · right; exact ⟨⟨_, rfl⟩, by simp⟩

theorem impliedInputs_cases (C : Consts) (a p mp : ℝ) (rho r m : Option Q)
    (hr : ∀ q, r = some q → q.compat C.rSun) :
    ((∃ I, impliedInputs C a p mp rho r m = .ok I) ∧ (rho.isNone ∧ m.isNone)) ∨
    (IsValueError (impliedInputs C a p mp rho r m) ∧ ¬ (rho.isNone ∧ m.isNone)) := by
  unfold impliedInputs
  rw [toUnitOpt_of_compat hr]
  rcases rho with _ | rho <;> rcases m with _ | m
  · left; simp
  · right; exact ⟨⟨_, rfl⟩, by simp⟩
  · right; exact ⟨⟨_, by simp; rfl⟩, by simp⟩
  · right; exact ⟨⟨_, by simp; rfl⟩, by simp⟩

theorem finishInputs_cases (C : Consts) (a? p? : Option ℝ) (mp : ℝ) (rho r m : Option Q)
    (hap : a?.isSome ≠ p?.isSome)
    (hrho : ∀ q, rho = some q → q.compat C.gcc) (hr : ∀ q, r = some q → q.compat C.rSun)
    (hm : ∀ q, m = some q → q.compat C.mSun) :
    ((∃ I, finishInputs C a? p? mp rho (defaultR r m) (defaultM rho r m) = .ok I) ∧
      ((r.isNone ∧ m.isNone) ∨ (rho.isNone ∧ r.isSome ∧ m.isSome) ∨ (rho.isSome ∧ r.isNone ∧ m.isSome) ∨
        (rho.isSome ∧ r.isSome ∧ m.isNone))) ∨
    (IsValueError (finishInputs C a? p? mp rho (defaultR r m) (defaultM rho r m)) ∧
      ¬ ((r.isNone ∧ m.isNone) ∨ (rho.isNone ∧ r.isSome ∧ m.isSome) ∨ (rho.isSome ∧ r.isNone ∧ m.isSome) ∨
        (rho.isSome ∧ r.isSome ∧ m.isNone))) := by
  have hr' : ∀ q, defaultR r m = some q → q.compat C.rSun := by
    intro q hq
    unfold defaultR at hq
    split at hq
    · cases hq; intro b hb; cases hb
    · exact hr q hq
  have hm' : ∀ q, defaultM rho r m = some q → q.compat C.mSun := by
    intro q hq
    unfold defaultM at hq
    split at hq
    · cases hq; intro b hb; cases hb
    · exact hm q hq
  unfold finishInputs
  rw [rhoStarVal_of_compat hrho, toUnitOpt_of_compat hr', toUnitOpt_of_compat hm']
  rcases a? with _ | a <;> rcases p? with _ | p
  · simp at hap
  · rcases rho with _ | rho <;> rcases r with _ | r <;> rcases m with _ | m <;>
      simp [defaultR, defaultM, stellarParams, IsValueError]
  · rcases rho with _ | rho <;> rcases r with _ | r <;> rcases m with _ | m <;>
      simp [defaultR, defaultM, stellarParams, IsValueError]
  · simp at hap

theorem consistentInputs_cases (C : Consts) (a p rho r m mp : Option Q)
    (ha : ∀ q, a = some q → q.compat C.rSun) (hp : ∀ q, p = some q → q.compat C.day)
    (hrho : ∀ q, rho = some q → q.compat C.gcc) (hr : ∀ q, r = some q → q.compat C.rSun)
    (hm : ∀ q, m = some q → q.compat C.mSun) (hmp : ∀ q, mp = some q → q.compat C.mSun) :
    ((∃ I, consistentInputs C a p rho r m mp = .ok I) ∧ (a.isSome ∨ p.isSome) ∧
      (a.isSome → p.isSome → rho.isNone ∧ m.isNone) ∧
      (¬ (a.isSome ∧ p.isSome) → (r.isNone ∧ m.isNone) ∨ (rho.isNone ∧ r.isSome ∧ m.isSome) ∨
        (rho.isSome ∧ r.isNone ∧ m.isSome) ∨ (rho.isSome ∧ r.isSome ∧ m.isNone))) ∨
    (IsValueError (consistentInputs C a p rho r m mp) ∧ ¬ ((a.isSome ∨ p.isSome) ∧
      (a.isSome → p.isSome → rho.isNone ∧ m.isNone) ∧
      (¬ (a.isSome ∧ p.isSome) → (r.isNone ∧ m.isNone) ∨ (rho.isNone ∧ r.isSome ∧ m.isSome) ∨
        (rho.isSome ∧ r.isNone ∧ m.isSome) ∨ (rho.isSome ∧ r.isSome ∧ m.isNone)))) := by
  unfold consistentInputs
  rw [toUnitOpt_of_compat ha, toUnitOpt_of_compat hp, toUnitOpt_of_compat hmp]
  rcases a with _ | a <;> rcases p with _ | p
  · right; simp [IsValueError]
  · have := finishInputs_cases C none (some (p.inUnit C.day)) ((Option.map (·.inUnit C.mSun) mp).getD 0) rho r m
      (by simp) hrho hr hm
    simpa using this
  · have := finishInputs_cases C (some (a.inUnit C.rSun)) none ((Option.map (·.inUnit C.mSun) mp).getD 0) rho r m
      (by simp) hrho hr hm
    simpa using this
  · have := impliedInputs_cases C (a.inUnit C.rSun) (p.inUnit C.day)
      ((Option.map (·.inUnit C.mSun) mp).getD 0) rho r m hr
    simpa using this

end Exo

namespace Exo
open Real

theorem labelled_compat_mass {C : Consts} {A : Args} (hu : A.UnitsOk C) :
    ∀ q, labelled A.m_planet A.m_planet_units = some q → q.compat C.mSun := by
  intro q hq
  rcases h : A.m_planet_units with _ | u
  · rw [h] at hq; exact hu.m_planet q hq
  · obtain ⟨h1, x, hx⟩ := hu.m_planet_kw u h
    rw [h, hx] at hq
    simp [labelled] at hq
    subst hq
    intro b hb; cases hb; exact h1

theorem labelled_compat_rho {C : Consts} {A : Args} (hu : A.UnitsOk C) :
    ∀ q, labelled A.rho_star A.rho_star_units = some q → q.compat C.gcc := by
  intro q hq
  rcases h : A.rho_star_units with _ | u
  · rw [h] at hq; exact hu.rho_star q hq
  · obtain ⟨h1, x, hx⟩ := hu.rho_star_kw u h
    rw [h, hx] at hq
    simp [labelled] at hq
    subst hq
    intro b hb; cases hb; exact h1

theorem compat_bare (x : ℝ) (u : AUnit) : (x : Q).compat u := by intro b hb; cases hb

/-- The constructor succeeds exactly on the admissible keyword combinations; otherwise it raises `ValueError`, except in
one corner where it raises `TypeError`. -/
theorem init_cases (C : Consts) (A : Args) (hu : A.UnitsOk C) :
    ((∃ o, keplerianInit C A = .ok o) ∧ A.Admissible) ∨
    (¬ A.Admissible ∧ (IsValueError (keplerianInit C A) ∨
      (A.CircDuration ∧ A.b.isSome ∧ A.period.isNone ∧ ∃ tag, keplerianInit C A = .error (.typeError tag)))) := by
  unfold keplerianInit
  rw [applyUnitKw_ok (fun v hv => (hu.m_planet_kw v hv).2), applyUnitKw_ok (fun v hv => (hu.rho_star_kw v hv).2)]
  simp only
  by_cases hc : A.CircDuration
  · rcases durationBlock_circ hc with ⟨hb, tag, hD⟩ | ⟨hb, hp, hD⟩ | ⟨hb, hp, q, g, hD⟩
    · right
      rw [hD]
      refine ⟨fun h => ?_, Or.inl ⟨tag, rfl⟩⟩
      have := (h.circ_dur hc).1
      simp_all
    · right
      rw [hD]
      refine ⟨fun h => ?_, Or.inr ⟨hc, hb, hp, _, rfl⟩⟩
      have := (h.circ_dur hc).2
      simp_all
    · rw [hD]
      simp only
      rcases consistentInputs_cases C (some (q : Q)) A.period (labelled A.rho_star A.rho_star_units)
        (some (A.r_star.getD ⟨1, none⟩)) A.m_star (labelled A.m_planet A.m_planet_units)
        (by intro x hx; cases hx; exact compat_bare _ _) hu.period (labelled_compat_rho hu)
        (by
          intro x hx; cases hx
          rcases hr : A.r_star with _ | r
          · exact compat_bare _ _
          · exact hu.r_star r hr) hu.m_star (labelled_compat_mass hu) with
        ⟨⟨I, hI⟩, h1, h2, h3⟩ | ⟨⟨tag, hI⟩, hbad⟩
      · rw [hI]
        simp only
        rcases eccBlock_cases A with ⟨⟨e, he, hes⟩, hec⟩ | ⟨⟨tag, he⟩, hbad⟩
        · rw [he]
          simp only
          rcases inclBlock_cases C A none e I.period (-I.a * I.m_star / (I.m_star + I.m_planet)) I.r_star
            (inclFactorOf e * I.r_star / I.a) (by simp) (by simp) with ⟨⟨⟨b, ci, i⟩, hi⟩, i1, i2, i3⟩ | ⟨⟨tag, hi⟩, hbad⟩
          · rw [hi]
            simp only
            rcases timeBlock_cases A (M0Of e) (2 * π / I.period) with ⟨⟨⟨t0, tp⟩, ht⟩, ht'⟩ | ⟨⟨tag, ht⟩, hbad⟩
            · rw [ht]
              left
              refine ⟨⟨_, rfl⟩, ?_⟩
              refine ⟨fun _ => ⟨hb, hp⟩, Or.inr hp, fun _ _ => ?_, fun h => absurd ⟨Or.inr hc, hp⟩ h, hec, i1, ?_, ?_, ht'⟩
              · simpa [labelled_isNone] using h2 (by simp) hp
              · rintro ⟨-, -, h⟩
                have := hc.1
                simp_all
              · rintro ⟨h, -⟩
                exact i1 ⟨hb, h⟩
            · right
              rw [ht]
              exact ⟨fun h => h.time hbad, Or.inl ⟨_, rfl⟩⟩
          · right
            rw [hi]
            refine ⟨fun h => ?_, Or.inl ⟨_, rfl⟩⟩
            rcases hbad with hb | hb | hb
            · exact h.b_incl hb
            · simp at hb
            · simp at hb
        · right
          rw [he]
          exact ⟨fun h => hbad h.ecc_omega, Or.inl ⟨_, rfl⟩⟩
      · right
        rw [hI]
        refine ⟨fun h => hbad ⟨Or.inr hp, fun _ hp => ?_, fun hh => absurd ⟨by simp, hp⟩ hh⟩, Or.inl ⟨_, rfl⟩⟩
        simpa [labelled_isNone] using h.implied (Or.inr hc) hp
  · rw [durationBlock_not_circ hc]
    simp only
    rcases consistentInputs_cases C A.a A.period (labelled A.rho_star A.rho_star_units)
      A.r_star A.m_star (labelled A.m_planet A.m_planet_units) hu.a hu.period (labelled_compat_rho hu)
      hu.r_star hu.m_star (labelled_compat_mass hu) with ⟨⟨I, hI⟩, h1, h2, h3⟩ | ⟨⟨tag, hI⟩, hbad⟩
    · rw [hI]
      simp only
      rw [labelled_isNone] at h2
      rw [labelled_isNone, labelled_isSome] at h3
      rcases eccBlock_cases A with ⟨⟨e, he, hes⟩, hec⟩ | ⟨⟨tag, he⟩, hbad⟩
      · rw [he]
        simp only
        have hde : A.duration.isSome → A.ecc.isSome := by
          intro h
          by_contra hh
          exact hc ⟨by simpa using hh, h⟩
        rcases inclBlock_cases C A A.duration e I.period (-I.a * I.m_star / (I.m_star + I.m_planet)) I.r_star
          (inclFactorOf e * I.r_star / I.a) (by rw [hes]; exact hde) hu.duration with
          ⟨⟨⟨b, ci, i⟩, hi⟩, i1, i2, i3⟩ | ⟨⟨tag, hi⟩, hbad⟩
        · rw [hi]
          simp only
          rcases timeBlock_cases A (M0Of e) (2 * π / I.period) with ⟨⟨⟨t0, tp⟩, ht⟩, ht'⟩ | ⟨⟨tag, ht⟩, hbad⟩
          · rw [ht]
            left
            refine ⟨⟨_, rfl⟩, ?_⟩
            refine ⟨fun h => absurd h hc, h1, fun h => h2 (h.resolve_right hc), fun h => h3 (fun hh => h ⟨Or.inl hh.1, hh.2⟩),
              hec, i1, fun h => i2 ⟨h.1, h.2.1⟩, i3, ht'⟩
          · right
            rw [ht]
            exact ⟨fun h => h.time hbad, Or.inl ⟨_, rfl⟩⟩
        · right
          rw [hi]
          refine ⟨fun h => ?_, Or.inl ⟨_, rfl⟩⟩
          rcases hbad with hb | hb | hb
          · exact h.b_incl hb
          · exact h.b_dur ⟨hb.1, hb.2, hde hb.2⟩
          · exact h.incl_dur hb
      · right
        rw [he]
        exact ⟨fun h => hbad h.ecc_omega, Or.inl ⟨_, rfl⟩⟩
    · right
      rw [hI]
      rw [labelled_isNone, labelled_isSome] at hbad
      refine ⟨fun h => hbad ⟨h.size, fun h1 h2 => h.implied (Or.inl h1) h2, fun h1 => h.stellar ?_⟩, Or.inl ⟨_, rfl⟩⟩
      rintro ⟨h2 | h2, h3⟩
      · exact h1 ⟨h2, h3⟩
      · exact hc h2

end Exo
