import Verif.Props.Inputs
import Verif.Lemmas.Demo

/-!
# Physically meaningful arguments give physically meaningful orbits

`Orbit.Physical` is a hypothesis of many theorems, in terms of the constructed object. Here it is derived from conditions on the
arguments.
-/

namespace Exo
open Real

/-- Every value that is given is positive (non-negative for the mass of the planet), and if both `a` and `period` are given then the
total mass they imply exceeds that of the planet. -/
structure PositiveInputs (C : Consts) (a period rho r m mp : Option Q) : Prop where
  a_pos : ∀ q, a = some q → 0 < q.inUnit C.rSun
  period_pos : ∀ q, period = some q → 0 < q.inUnit C.day
  rho_pos : ∀ q, rho = some q → 0 < q.inUnit C.gcc
  r_pos : ∀ q, r = some q → 0 < q.inUnit C.rSun
  m_pos : ∀ q, m = some q → 0 < q.inUnit C.mSun
  mp_pos : ∀ q, mp = some q → 0 ≤ q.inUnit C.mSun
  heavy : ∀ qa qp, a = some qa → period = some qp →
    ((mp.map fun q => q.inUnit C.mSun).getD 0) < 4 * π ^ 2 * qa.inUnit C.rSun ^ 3 / (C.G * qp.inUnit C.day ^ 2)

theorem Q.inUnit_bare_one (u : AUnit) : Q.inUnit ⟨1, none⟩ u = 1 := rfl

theorem consistentInputs_pos {C : Consts} {a period rho r m mp : Option Q} {I : Inputs}
    (h : consistentInputs C a period rho r m mp = .ok I) (hpos : PositiveInputs C a period rho r m mp) :
    0 < I.a ∧ 0 < I.period ∧ 0 < I.rho_star ∧ 0 < I.r_star ∧ 0 < I.m_star ∧ 0 ≤ I.m_planet := by
  have hpi := pi_pos
  have hG := C.G_pos
  have hg := C.gccPerSun_pos
  unfold consistentInputs at h
  split at h; · cases h
  split at h; · cases h
  rename_i mp? hmp?
  split at h; · cases h
  rename_i a? ha?
  split at h; · cases h
  rename_i p? hp?
  rw [toUnitOpt_eq_ok] at hmp? ha? hp?
  have hmpe : mp?.getD 0 = (mp.map fun q => q.inUnit C.mSun).getD 0 := by
    cases mp with
    | none => simp at hmp?; simp [hmp?]
    | some q => simp at hmp?; simp [hmp?]
  have hmp0 : 0 ≤ mp?.getD 0 := by
    rw [hmpe]
    cases mp with
    | none => simp
    | some q => exact hpos.mp_pos q rfl
  have ha0 : ∀ x, a? = some x → 0 < x := by
    intro x hx
    cases a with
    | none => simp at ha?; rw [ha?] at hx; cases hx
    | some q => simp at ha?; rw [ha?.2] at hx; cases hx; exact hpos.a_pos q rfl
  have hp0 : ∀ x, p? = some x → 0 < x := by
    intro x hx
    cases period with
    | none => simp at hp?; rw [hp?] at hx; cases hx
    | some q => simp at hp?; rw [hp?.2] at hx; cases hx; exact hpos.period_pos q rfl
  split at h
  · rename_i av pv
    have hav := ha0 av rfl
    have hpv := hp0 pv rfl
    have hheavy : mp?.getD 0 < 4 * π * π * av ^ 3 / (C.G * pv ^ 2) := by
      cases a with
      | none => simp at ha?
      | some qa =>
        cases period with
        | none => simp at hp?
        | some qp =>
          simp at ha? hp?
          have := hpos.heavy qa qp rfl rfl
          rw [← hmpe, ← ha?.2, ← hp?.2] at this
          calc mp?.getD 0 < _ := this
            _ = _ := by ring
    unfold impliedInputs at h
    split at h; · cases h
    split at h; · cases h
    rename_i rv hrv
    rw [toUnitOpt_eq_ok] at hrv
    simp only [Except.ok.injEq] at h
    subst h
    have hr0 : 0 < rv.getD 1 := by
      cases r with
      | none => simp at hrv; simp [hrv]
      | some q => simp at hrv; simp only [hrv, Option.getD_some]; exact hpos.r_pos q rfl
    have hms : 0 < 4 * π * π * av ^ 3 / (C.G * pv ^ 2) - mp?.getD 0 := by linarith
    refine ⟨hav, hpv, ?_, hr0, hms, hmp0⟩
    show 0 < _ / _ * _
    positivity
  · unfold finishInputs at h
    split at h; · cases h
    rename_i hcount
    split at h; · cases h
    rename_i rho? hrho?
    split at h; · cases h
    rename_i r? hr?
    split at h; · cases h
    rename_i m? hm?
    rw [toUnitOpt_eq_ok] at hr? hm?
    split at h; · cases h
    rename_i rho' r' m' hst
    have hrv := rhoStarVal_eq_ok hrho?
    have hrho0 : ∀ x, rho? = some x → 0 < x := by
      intro x hx
      cases rho with
      | none => have := hrv.2; rw [hx] at this; simp at this
      | some q =>
        have := hrv.2
        rw [hx] at this
        simp at this
        have hq := hpos.rho_pos q rfl
        rw [← this] at hq
        exact pos_of_mul_pos_left hq hg.le
    have hr0 : ∀ x, r? = some x → 0 < x := by
      intro x hx
      rw [hx] at hr?
      cases hd : defaultR r m with
      | none => rw [hd] at hr?; simp at hr?
      | some q =>
        rw [hd] at hr?
        simp at hr?
        rw [hr?.2]
        unfold defaultR at hd
        split_ifs at hd with hcond
        · cases hd
          rw [Q.inUnit_bare_one]
          exact one_pos
        · exact hpos.r_pos q hd
    have hm0 : ∀ x, m? = some x → 0 < x := by
      intro x hx
      rw [hx] at hm?
      cases hd : defaultM rho r m with
      | none => rw [hd] at hm?; simp at hm?
      | some q =>
        rw [hd] at hm?
        simp at hm?
        rw [hm?.2]
        unfold defaultM at hd
        split_ifs at hd with hcond
        · cases hd
          rw [Q.inUnit_bare_one]
          exact one_pos
        · exact hpos.m_pos q hd
    have hstar : 0 < rho' ∧ 0 < r' ∧ 0 < m' := by
      unfold stellarParams at hst
      split at hst <;> simp only [Except.ok.injEq, Prod.mk.injEq, reduceCtorEq] at hst
      · obtain ⟨h1, h2, h3⟩ := hst
        have hr := hr0 _ rfl
        have hm := hm0 _ rfl
        subst h2 h3
        refine ⟨?_, hr, hm⟩
        rw [← h1]
        positivity
      · obtain ⟨h1, h2, h3⟩ := hst
        have hr := hrho0 _ rfl
        have hm := hm0 _ rfl
        subst h1 h3
        refine ⟨hr, ?_, hm⟩
        rw [← h2]
        positivity
      · obtain ⟨h1, h2, h3⟩ := hst
        have hr := hrho0 _ rfl
        have hm := hr0 _ rfl
        subst h1 h2
        refine ⟨hr, hm, ?_⟩
        rw [← h3]
        positivity
    obtain ⟨q1, q2, q3⟩ := hstar
    split at h
    · rename_i pv _
      have := hp0 pv rfl
      simp only [Except.ok.injEq] at h
      subst h
      refine ⟨?_, this, mul_pos q1 hg, q2, q3, hmp0⟩
      have : 0 < m' + mp?.getD 0 := by linarith
      show 0 < (_ : ℝ) ^ (_ : ℝ)
      positivity
    · rename_i av _
      have := ha0 av rfl
      simp only [Except.ok.injEq] at h
      subst h
      refine ⟨this, ?_, mul_pos q1 hg, q2, q3, hmp0⟩
      have : 0 < m' + mp?.getD 0 := by linarith
      show 0 < _ / √_
      positivity
    · cases h

/-- Physically meaningful arguments for an orbit that is not circular with a duration. -/
structure Args.PhysicalArgs (C : Consts) (A : Args) : Prop where
  inputs : PositiveInputs C A.a A.period (labelled A.rho_star A.rho_star_units) A.r_star A.m_star (labelled A.m_planet A.m_planet_units)
  ecc : ∀ q, A.ecc = some q → 0 ≤ q.val ∧ q.val < 1
  omega : ∀ s c, A.sin_omega = some s → A.cos_omega = some c → s.val ^ 2 + c.val ^ 2 = 1
  not_circ : ¬ A.CircDuration

/-- The constructor, called with physically meaningful arguments, gives a physical orbit — provided the inclination exists, which is
automatic unless it comes from an impact parameter or a duration. -/
theorem C01_physical_from_arguments (C : Consts) (A : Args) (o : Orbit) (h : keplerianInit C A = .ok o) (hA : A.PhysicalArgs C)
    (hi : (A.b.isSome ∨ A.duration.isSome) → |o.cos_incl| ≤ 1) : o.Physical := by
  have B := built_of_init h
  obtain ⟨mp, rho, D, h1, h2, h3, h4, h5, -⟩ := B.inputs
  rw [durationBlock_not_circ hA.not_circ] at h3
  cases h3
  rw [applyUnitKw_eq_ok h1, applyUnitKw_eq_ok h2] at h4
  obtain ⟨q1, q2, q3, q4, q5, q6⟩ := consistentInputs_pos h4 hA.inputs
  have hecc := B.ecc_eq
  have hp : ∀ p, o.ecc = some p → (0 ≤ p.ecc ∧ p.ecc < 1) ∧ p.sin_omega ^ 2 + p.cos_omega ^ 2 = 1 := by
    intro p hp
    rw [hp] at hecc
    unfold eccBlock at hecc
    split at hecc
    · cases hecc
    · rename_i e he
      split at hecc
      · split_ifs at hecc
        cases hecc
        exact ⟨hA.ecc e he, sin_sq_add_cos_sq _⟩
      · split at hecc
        · rename_i s c hs hc
          cases hecc
          exact ⟨hA.ecc e he, hA.omega s c hs hc⟩
        · cases hecc
  refine ⟨q2, q1, q5, q6, q4, q3, fun p h => (hp p h).1.1, fun p h => (hp p h).1.2, fun p h => (hp p h).2, ?_⟩
  by_cases hb : A.b.isSome ∨ A.duration.isSome
  · exact hi hb
  · rw [not_or, Bool.not_eq_true, Bool.not_eq_true, Option.isSome_eq_false_iff, Option.isSome_eq_false_iff, Option.isNone_iff_eq_none,
      Option.isNone_iff_eq_none] at hb
    unfold inclBlock at h5
    rw [hb.1, hb.2] at h5
    simp only at h5
    split at h5
    · simp only [Option.isSome_none, Bool.false_eq_true, if_false, Except.ok.injEq, Prod.mk.injEq] at h5
      rw [← h5.2.1]
      exact abs_cos_le_one _
    · simp only [Except.ok.injEq, Prod.mk.injEq] at h5
      rw [← h5.2.1]
      simp

example (C : Consts) : (∃ o, keplerianInit C demoMass = .ok o) ∧ demoMass.PhysicalArgs C := by
  refine ⟨⟨_, (demoMass_ok C).choose_spec.1⟩, ⟨?_, ?_, ?_, ?_, ?_, ?_, ?_⟩, ?_, ?_, ?_⟩
  · intro q h; cases h
  · intro q h; cases h; exact one_pos
  · intro q h; cases h
  · intro q h; cases h; exact one_pos
  · intro q h; cases h; exact one_pos
  · intro q h; cases h; show (0 : ℝ) ≤ 1 / 1000; norm_num
  · intro qa qp h; cases h
  · intro q h; cases h
  · intro s c h; cases h
  · rintro ⟨-, h⟩; cases h

end Exo
