import Verif.Lemmas.SystemInTransit

/-!
# Sizes of the arrays that `in_transit` hands to `contact_points`
-/

namespace Exo
open Real

variable {S : List ℕ}

theorem finishInputsV_a {C : Consts} {a p : Option Gr} {mp : Gr} {rho r m : Option VQ} {I : VInputs} (ha : OGood S a) (hp : OGood S p)
    (hmp : mp.Good S) (h1 : OQGood S rho) (h2 : OQGood S r) (h3 : OQGood S m) (h : finishInputsV C a p mp rho r m = .ok I) :
    (∀ g, a = some g → g.Le I.a) ∧ (∀ g, a = none → p = some g → g.Le I.a) := by
  unfold finishInputsV at h
  split at h
  · cases h
  cases hr : rhoStarValV C rho with
  | error e => rw [hr] at h; cases h
  | ok rho? =>
  rw [hr] at h
  simp only at h
  cases hr2 : toUnitOptV r C.rSun with
  | error e => rw [hr2] at h; cases h
  | ok r? =>
  rw [hr2] at h
  simp only at h
  cases hm : toUnitOptV m C.mSun with
  | error e => rw [hm] at h; cases h
  | ok m? =>
  rw [hm] at h
  simp only at h
  cases hs : stellarParamsV rho? r? m? with
  | error e => rw [hs] at h; cases h
  | ok v =>
  rw [hs] at h
  obtain ⟨x, y, z⟩ := v
  obtain ⟨g1, g2, g3⟩ := stellarParamsV_good (rhoStarValV_good h1 hr) (toUnitOptV_good h2 hr2) (toUnitOptV_good h3 hm) hs
  simp only at g1 g2 g3 h
  rcases a with _ | a <;> rcases p with _ | p
  · cases h
  · have hp' := hp p rfl
    cases h
    refine ⟨fun g hg => (by cases hg), fun g _ hg => ?_⟩
    cases hg
    have s1 : Gr.Good S ((C.G : Gr) * (z + mp)) := by good
    have s2 : Gr.Good S ((C.G : Gr) * (z + mp) * p ^ 2) := by good
    have s3 : Gr.Good S ((C.G : Gr) * (z + mp) * p ^ 2 / ((4 * π ^ 2 : ℝ) : Gr)) := by good
    exact (((Gr.le_map _ hp').trans (Gr.le_zip_right _ s1 (Gr.good_map _ hp'))).trans
      (Gr.le_zip_left _ s2 (Gr.good_num S _))).trans (Gr.le_map _ s3)
  · have := ha a rfl
    cases h
    refine ⟨fun g hg => ?_, fun g hg => (by cases hg)⟩
    cases hg
    exact this.le_refl
  · cases h

theorem impliedInputsV_a {C : Consts} {a p mp : Gr} {rho r m : Option VQ} {I : VInputs}
    (h : impliedInputsV C a p mp rho r m = .ok I) : I.a = a := by
  unfold impliedInputsV at h
  split at h
  · cases h
  split at h
  · cases h
  cases h
  rfl

theorem consistentInputsV_a {C : Consts} {a p rho r m mp : Option VQ} {I : VInputs} (ha : OQGood S a) (hp : OQGood S p)
    (h1 : OQGood S rho) (h2 : OQGood S r) (h3 : OQGood S m) (h4 : OQGood S mp) (h : consistentInputsV C a p rho r m mp = .ok I) :
    (∀ q, a = some q → q.val.Le I.a) ∧ (∀ q, a = none → p = some q → q.val.Le I.a) := by
  unfold consistentInputsV at h
  split at h
  · cases h
  cases hmp : toUnitOptV mp C.mSun with
  | error e => rw [hmp] at h; cases h
  | ok mp? =>
  rw [hmp] at h
  simp only at h
  cases hav : toUnitOptV a C.rSun with
  | error e => rw [hav] at h; cases h
  | ok a? =>
  rw [hav] at h
  simp only at h
  cases hpv : toUnitOptV p C.day with
  | error e => rw [hpv] at h; cases h
  | ok p? =>
  rw [hpv] at h
  simp only at h
  have ga := toUnitOptV_good ha hav
  have gp := toUnitOptV_good hp hpv
  have gm := defaultMp_good (toUnitOptV_good h4 hmp) ga gp
  have key : ∀ {J : VInputs}, (∀ g, a? = some g → g.Le J.a) → (∀ g, a? = none → p? = some g → g.Le J.a) →
      (∀ q, a = some q → q.val.Le J.a) ∧ (∀ q, a = none → p = some q → q.val.Le J.a) := by
    intro J k1 k2
    refine ⟨?_, ?_⟩
    · intro q hq
      subst hq
      obtain ⟨v, rfl, hv⟩ := toUnitOptV_some (ha q rfl) hav
      exact hv.trans (k1 v rfl)
    · intro q hq hq'
      subst hq; subst hq'
      obtain ⟨v, rfl, hv⟩ := toUnitOptV_some (hp q rfl) hpv
      exact hv.trans (k2 v (toUnitOptV_none hav) rfl)
  rcases a? with _ | a? <;> rcases p? with _ | p?
  · obtain ⟨i1, i2⟩ := finishInputsV_a ga gp gm h1 (defaultRV_good h2) (defaultMV_good h3) h
    exact key i1 i2
  · obtain ⟨i1, i2⟩ := finishInputsV_a ga gp gm h1 (defaultRV_good h2) (defaultMV_good h3) h
    exact key i1 i2
  · obtain ⟨i1, i2⟩ := finishInputsV_a ga gp gm h1 (defaultRV_good h2) (defaultMV_good h3) h
    exact key i1 i2
  · refine key ?_ ?_
    · intro g hg
      cases hg
      rw [impliedInputsV_a h]
      exact (ga _ rfl).le_refl
    · intro g hg; cases hg

theorem full_of_le {np : ℕ} {q : Tensor ℝ} {g : Gr} (hq : q.shape = [np]) (hg : g.Good [np]) (hl : (Gr.leaf q).Le g) : g.Full np := by
  obtain ⟨T, h1, h2, -⟩ := Gr.Good.full_of_le (g := .leaf q) hg ⟨q, rfl, by simp [Tensor.size, hq]⟩
    (Gr.good_leaf (by rw [hq]; exact BLe.refl _)) hl
  exact ⟨T, h1, h2.size⟩

theorem full_single {g : Gr} (hg : g.Good [1]) : g.Full 1 := by
  obtain ⟨T, h1, h2, -⟩ := hg
  refine ⟨T, h1, ?_⟩
  rcases ble_single h2 with e | e | e <;> simp [Tensor.size, e]

/-- With one planet every array has one entry. -/
theorem contactSizes_single {O : VOrbit} (g : O.Good [1]) : ContactSizes O 1 := by
  intro E hE
  obtain ⟨e1, -, e3, e4⟩ := g.ecc E hE
  exact ⟨full_single g.a, full_single e1, full_single e3, full_single e4⟩

/-- The eccentricity block of the constructor. -/
theorem keplerianInitV_ecc {C : Consts} {A : VArgs} {O : VOrbit} (h : keplerianInitV C A = .ok O) : eccBlockV A = .ok O.ecc := by
  unfold keplerianInitV at h
  repeat' split at h
  all_goals first | (cases h; done) | skip
  simp only at h
  repeat' split at h
  all_goals first | (cases h; done) | skip
  simp only [Except.ok.injEq] at h
  subst h
  assumption

/-- Without `ecc` the orbit is circular. -/
theorem keplerianInitV_circ {C : Consts} {A : VArgs} {O : VOrbit} (h : keplerianInitV C A = .ok O) (he : A.ecc = none) : O.ecc = none := by
  have h5 := keplerianInitV_ecc h
  unfold eccBlockV at h5
  rw [he] at h5
  simp only [Except.ok.injEq] at h5
  exact h5.symm

/-- Sufficient conditions on the arguments. -/
theorem contactSizes_of_args {C : Consts} {A : VArgs} {np : ℕ} {O : VOrbit} (hA : A.FitsPlanets np) (h : A.ContactPerPlanet np)
    (hO : keplerianInitV C A = .ok O) : ContactSizes O np := by
  have hg : A.Good [np] := hA.good []
  obtain ⟨g, -⟩ := keplerianInitV_good hg hO
  intro E hE
  have leaf_full : ∀ {q : TQ} {f : ℝ → ℝ}, q.val.shape = [np] → (Gr.map f (.leaf q.val)).Full np :=
    fun hq => ⟨_, rfl, by simp [Tensor.size, Tensor.map, hq]⟩
  have leaf_full' : ∀ {q : TQ}, q.val.shape = [np] → (Gr.leaf q.val).Full np := fun hq => ⟨_, rfl, by simp [Tensor.size, hq]⟩
  unfold keplerianInitV at hO
  cases h1 : applyUnitKwV A.m_planet A.m_planet_units with
  | error e => rw [h1] at hO; cases hO
  | ok mp =>
  rw [h1] at hO
  simp only at hO
  cases h2 : applyUnitKwV A.rho_star A.rho_star_units with
  | error e => rw [h2] at hO; cases hO
  | ok rho =>
  rw [h2] at hO
  simp only at hO
  cases h3 : durationBlockV A with
  | error e => rw [h3] at hO; cases hO
  | ok D =>
  rw [h3] at hO
  simp only at hO
  cases h4 : consistentInputsV C D.a (A.period.map TQ.gr) rho D.r_star (A.m_star.map TQ.gr) mp with
  | error e => rw [h4] at hO; cases hO
  | ok I =>
  rw [h4] at hO
  simp only at hO
  cases h5 : eccBlockV A with
  | error e => rw [h5] at hO; cases hO
  | ok ecc =>
  rw [h5] at hO
  simp only at hO
  split at hO
  · cases hO
  split at hO
  · cases hO
  cases hO
  simp only at hE
  subst hE
  obtain ⟨d1, d2, -, -, -⟩ := durationBlockV_good hg h3
  have ka := consistentInputsV_a d1 hg.period.gr (applyUnitKwV_good hg.rho_star h2) d2 hg.m_star.gr
    (applyUnitKwV_good hg.m_planet h1) h4
  have heA : ∃ e, A.ecc = some e := by
    cases he : A.ecc with
    | none => unfold eccBlockV at h5; rw [he] at h5; cases h5
    | some e => exact ⟨e, rfl⟩
  obtain ⟨e, he⟩ := heA
  have hDa : D.a = A.a.map TQ.gr := by
    unfold durationBlockV at h3
    rw [he] at h3
    cases h3
    rfl
  constructor
  · rcases h.a with ⟨q, hq, hs⟩ | ⟨hq, q, hq', hs⟩
    · exact full_of_le hs g.a (ka.1 q.gr (by rw [hDa, hq]; rfl))
    · exact full_of_le hs g.a (ka.2 q.gr (by rw [hDa, hq]; rfl) (by rw [hq']; rfl))
  · unfold eccBlockV at h5
    rw [he] at h5
    simp only at h5
    have hes := h.ecc e he
    cases hw : A.omega with
    | some w =>
      rw [hw] at h5
      simp only at h5
      split at h5
      · cases h5
      cases h5
      exact ⟨leaf_full' hes, leaf_full (h.omega w hw), leaf_full (h.omega w hw)⟩
    | none =>
      rw [hw] at h5
      simp only at h5
      split at h5
      · next s c hs hc =>
        cases h5
        exact ⟨leaf_full' hes, leaf_full' (h.cos_omega _ hc), leaf_full' (h.sin_omega _ hs)⟩
      · cases h5

end Exo
