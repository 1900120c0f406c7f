import Verif.Lemmas.FlInit
import Verif.Lemmas.Motion

namespace Exo
open Real

theorem rotateF_eq (o : Orbit) (x y : ℝ) : o.toFl.rotate (.fin x) (.fin y) = (o.rotate x y).toFl := by
  unfold FlOrbit.rotate Orbit.rotate
  cases ho : o.Omega <;> cases he : o.ecc <;> simp [Orbit.toFl, ho, he, V3.toFl]

section
variable {C : Consts} {A : Args} {o : Orbit} {kep : FlKepler}

theorem trueAnomalyF_eq (B : Built C A o) (ho : o.Bound) (hk : kep.Ok) (t : ℝ) :
    o.toFl.trueAnomaly kep t = (.fin (o.trueAnomaly t).1, .fin (o.trueAnomaly t).2) := by
  unfold FlOrbit.trueAnomaly Orbit.trueAnomaly
  cases he : o.ecc with
  | none => simp [Orbit.toFl, he, B.warp_eq]
  | some p =>
    simp only [Orbit.toFl, he, Option.map_some, Fl.fin_sub, Fl.fin_mul, B.warp_eq]
    rw [hk.exact _ _ (ho.ecc_nonneg p he) (ho.ecc_lt_one p he)]

theorem radiusF_eq (ho : o.Bound) (a t : ℝ) :
    o.toFl.radius (.fin a) (.fin (o.trueAnomaly t).2) = .fin (o.radius a (o.trueAnomaly t).2) := by
  unfold FlOrbit.radius Orbit.radius
  cases he : o.ecc with
  | none => simp [Orbit.toFl, he]
  | some p =>
    have h1 : 0 < 1 + p.ecc * (o.trueAnomaly t).2 := by
      simp only [Orbit.trueAnomaly, he]
      exact one_add_mul_cosf_pos (ho.ecc_nonneg p he) (ho.ecc_lt_one p he) _
    simp only [Orbit.toFl, he, Option.map_some, Fl.fin_pow, Fl.fin_sub, Fl.fin_mul, Fl.fin_add]
    rw [Fl.fin_div h1.ne']

theorem positionNowF_eq (B : Built C A o) (ho : o.Bound) (hk : kep.Ok) (a t : ℝ) :
    o.toFl.positionNow kep (.fin a) t = (o.positionNow C a t none).toFl := by
  simp only [FlOrbit.positionNow, Orbit.positionNow]
  rw [trueAnomalyF_eq B ho hk, radiusF_eq ho, Fl.fin_mul, Fl.fin_mul, rotateF_eq]

theorem velocityF_eq (B : Built C A o) (ho : o.Bound) (hk : kep.Ok) (m t : ℝ) :
    o.toFl.velocity kep (.fin m) t = (o.velocity m t).toFl := by
  simp only [FlOrbit.velocity, Orbit.velocity]
  rw [trueAnomalyF_eq B ho hk]
  have hK : o.toFl.K0 = .fin o.K0 := rfl
  cases he : o.ecc with
  | none =>
    have : o.toFl.ecc = none := by simp [Orbit.toFl, he]
    simp only [this, hK, Fl.fin_mul, Fl.fin_neg]
    rw [rotateF_eq]
  | some p =>
    have : o.toFl.ecc = some p.toFl := by simp [Orbit.toFl, he, EccParams.toFl]
    simp only [this, hK, Fl.fin_mul, Fl.fin_neg, EccParams.toFl, Fl.fin_add]
    rw [rotateF_eq]

end

theorem fluxF_eq {ld : FlLimbDark} {c : ℝ × ℝ × ℝ} (hl : ld.Ok c) {R : ℝ} (hR : R ≠ 0) {pos : ℝ → V3} (r t : ℝ) :
    fluxF ld (.fin R) (fun t => (pos t).toFl) r t = .fin (fluxAt c R r (pos t)) := by
  simp only [fluxF, V3.toFl, fluxAt, computeLightCurve, Option.getD_some, Fl.fin_pow, Fl.fin_add]
  rw [Fl.sqrt_fin (by positivity), Fl.fin_div hR, Fl.fin_div hR, Fl.fin_div hR, hl]
  simp only [Fl.gt, decide_eq_true_eq, gt_iff_lt]
  split_ifs <;> rfl

theorem integratedF_eq {ld : FlLimbDark} {c : ℝ × ℝ × ℝ} (hl : ld.Ok c) {R : ℝ} (hR : R ≠ 0) {pos : ℝ → V3} (r t : ℝ)
    (texp : Option (ℝ × List ℝ × List ℝ)) :
    integratedF ld (.fin R) (fun t => (pos t).toFl) r t texp = .fin (exposureAverage (fun t => fluxAt c R r (pos t)) t texp) := by
  unfold integratedF exposureAverage
  split
  · exact fluxF_eq hl hR r t
  · simp only [fluxF_eq hl hR, Fl.fin_mul]
    rw [← Fl.sum_fin, List.map_zipWith]

/-! ## Both models raise the same errors -/

/-- The same exception, or none. -/
def SameErr {α β : Type} (x : Except PyErr α) (y : Except PyErr β) : Prop :=
  x.map (fun _ => ()) = y.map (fun _ => ())

theorem SameErr.error {α β : Type} (e : PyErr) : SameErr (.error e : Except PyErr α) (.error e : Except PyErr β) := rfl
theorem SameErr.ok {α β : Type} (a : α) (b : β) : SameErr (.ok a : Except PyErr α) (.ok b : Except PyErr β) := rfl
theorem SameErr.cases {α β : Type} {x : Except PyErr α} {y : Except PyErr β} (h : SameErr x y) :
    (∃ e, x = .error e ∧ y = .error e) ∨ ∃ a b, x = .ok a ∧ y = .ok b := by
  cases x <;> cases y <;> simp_all [SameErr, Except.map]

theorem sameErr_stellar (rho r m : Option ℝ) : SameErr (stellarParams rho r m) (stellarParamsF rho r m) := by
  cases rho <;> cases r <;> cases m <;> rfl

theorem sameErr_finish {C : Consts} (a? : Option ℝ) (aF? : Option Fl) (ha : aF?.isSome = a?.isSome) (p? : Option ℝ) (mp : ℝ)
    (rho r m : Option Q) : SameErr (finishInputs C a? p? mp rho r m) (finishInputsF C aF? p? mp rho r m) := by
  unfold finishInputs finishInputsF
  split_ifs
  · exact SameErr.error _
  cases rhoStarVal C rho with
  | error e => exact SameErr.error _
  | ok rho? =>
  cases toUnitOpt r C.rSun with
  | error e => exact SameErr.error _
  | ok r? =>
  cases toUnitOpt m C.mSun with
  | error e => exact SameErr.error _
  | ok m? =>
  simp only
  rcases (sameErr_stellar rho? r? m?).cases with ⟨e, h1, h2⟩ | ⟨x, y, h1, h2⟩
  · rw [h1, h2]
    exact SameErr.error _
  · rw [h1, h2]
    simp only
    cases a? <;> cases aF? <;> cases p? <;> first | rfl | simp at ha

theorem sameErr_implied {C : Consts} (av : ℝ) (avF : Fl) (pv mp : ℝ) (rho r m : Option Q) :
    SameErr (impliedInputs C av pv mp rho r m) (impliedInputsF C avF pv mp rho r m) := by
  unfold impliedInputs impliedInputsF
  split_ifs
  · exact SameErr.error _
  cases toUnitOpt r C.rSun with
  | error e => exact SameErr.error _
  | ok r? => exact SameErr.ok _ _

theorem sameErr_inputs {C : Consts} (a : Option Q) (aF : AArg) (hn : aF.isNone = a.isNone)
    (hv : SameErr (toUnitOpt a C.rSun) (aF.value C)) (hs : ∀ v w, toUnitOpt a C.rSun = .ok v → aF.value C = .ok w → w.isSome = v.isSome)
    (p rho r m mp : Option Q) : SameErr (consistentInputs C a p rho r m mp) (consistentInputsF C aF p rho r m mp) := by
  unfold consistentInputs consistentInputsF
  by_cases h0 : a.isNone = true ∧ p.isNone = true
  · rw [if_pos h0, if_pos (by simpa [hn] using h0)]
    exact SameErr.error _
  rw [if_neg h0, if_neg (by simpa [hn] using h0)]
  cases toUnitOpt mp C.mSun with
  | error e => exact SameErr.error _
  | ok mp? =>
  simp only
  rcases hv.cases with ⟨e, h1, h2⟩ | ⟨x, y, h1, h2⟩
  · rw [h1, h2]
    exact SameErr.error _
  have hxy := hs x y h1 h2
  rw [h1, h2]
  cases toUnitOpt p C.day with
  | error e => exact SameErr.error _
  | ok p? =>
  cases x <;> cases y <;> cases p? <;> simp only [Option.isSome_none, Option.isSome_some, reduceCtorEq] at hxy ⊢ <;>
    first | exact sameErr_implied _ _ _ _ _ _ _ | exact sameErr_finish _ _ rfl _ _ _ _ _

theorem sameErr_duration {C : Consts} (A : Args) : (∃ e, durationBlock A = .error e ∧ durationBlockF A = .error e) ∨
    ∃ D aF, durationBlock A = .ok D ∧ durationBlockF A = .ok (aF, D.r_star, D.duration) ∧ aF.isNone = D.a.isNone ∧
      SameErr (toUnitOpt D.a C.rSun) (aF.value C) ∧ ∀ v w, toUnitOpt D.a C.rSun = .ok v → aF.value C = .ok w → w.isSome = v.isSome := by
  have given : ∃ D aF, (.ok ⟨A.a, A.r_star, A.duration, none⟩ : Except PyErr DurBlock) = .ok D ∧
      (.ok (.given A.a, A.r_star, A.duration) : Except PyErr (AArg × Option Q × Option Q)) = .ok (aF, D.r_star, D.duration) ∧
      aF.isNone = D.a.isNone ∧
      SameErr (toUnitOpt D.a C.rSun) (aF.value C) ∧ ∀ v w, toUnitOpt D.a C.rSun = .ok v → aF.value C = .ok w → w.isSome = v.isSome := by
    refine ⟨_, .given A.a, rfl, rfl, rfl, ?_, ?_⟩
    · simp only [AArg.value]
      cases toUnitOpt A.a C.rSun <;> rfl
    · intro v w hv hw
      simp only at hv
      simp only [AArg.value, hv, Except.ok.injEq] at hw
      subst hw
      simp
  unfold durationBlock durationBlockF
  cases he : A.ecc with
  | some e => exact Or.inr (by simpa only [he] using given)
  | none =>
  cases hd : A.duration with
  | none => exact Or.inr (by simpa only [he, hd] using given)
  | some d =>
  cases hb : A.b with
  | none => exact Or.inl ⟨_, rfl, rfl⟩
  | some b =>
  cases hp : A.period with
  | none => exact Or.inl ⟨_, rfl, rfl⟩
  | some p =>
  refine Or.inr ⟨_, .computed _, rfl, rfl, rfl, rfl, ?_⟩
  intro v w hv hw
  simp only [toUnitOpt, toUnitVal, toUnit, Except.ok.injEq] at hv
  simp only [AArg.value, Except.ok.injEq] at hw
  subst hv hw
  rfl

theorem sameErr_ecc (A : Args) : SameErr (eccBlock A) (eccBlockF A) := by
  unfold eccBlock eccBlockF
  cases A.ecc with
  | none => rfl
  | some e =>
  cases A.omega with
  | some w =>
    simp only
    split_ifs <;> rfl
  | none => cases A.sin_omega <;> cases A.cos_omega <;> rfl

theorem ecc_isSome {A : Args} {e : Option EccParams} {eF : Option FlEcc} (h : eccBlock A = .ok e) (hF : eccBlockF A = .ok eF) :
    eF = e.map EccParams.toFl := by
  rw [eccBlockF_eq h] at hF
  exact (Except.ok.inj hF).symm

theorem sameErr_incl {C : Consts} (A : Args) (d : Option Q) (e : Option EccParams) (P aP R dc : ℝ) (PF aPF RF dcF : Fl) :
    SameErr (inclBlock C A d e P aP R dc) (inclBlockF C A d (e.map EccParams.toFl) PF aPF RF dcF) := by
  unfold inclBlock inclBlockF
  cases A.b with
  | some b =>
    simp only
    split_ifs <;> rfl
  | none =>
  cases A.incl with
  | some i =>
    simp only
    split_ifs <;> rfl
  | none =>
  cases d with
  | none => rfl
  | some d =>
  cases e with
  | none => rfl
  | some p =>
  simp only [Option.map_some]
  cases toUnitVal d C.day <;> rfl

theorem sameErr_time (A : Args) (M0 n : ℝ) (M0F nF : Fl) : SameErr (timeBlock A M0 n) (timeBlockF A M0F nF) := by
  unfold timeBlock timeBlockF
  cases A.t0 <;> cases A.t_periastron <;> rfl

/-- Both models of the constructor raise the same exceptions. -/
theorem sameErr_init (C : Consts) (A : Args) : SameErr (keplerianInit C A) (keplerianInitF C A) := by
  unfold keplerianInit keplerianInitF
  cases applyUnitKw A.m_planet A.m_planet_units with
  | error e => rfl
  | ok mp =>
  cases applyUnitKw A.rho_star A.rho_star_units with
  | error e => rfl
  | ok rho =>
  simp only
  rcases sameErr_duration (C := C) A with ⟨e, h1, h2⟩ | ⟨D, aF, h1, h2, h3, h4, h5⟩
  · rw [h1, h2]
    rfl
  rw [h1, h2]
  simp only
  rcases (sameErr_inputs D.a aF h3 h4 h5 A.period rho D.r_star A.m_star mp).cases with ⟨e, h1, h2⟩ | ⟨I, IF, h1, h2⟩
  · rw [h1, h2]
    rfl
  rw [h1, h2]
  simp only
  rcases (sameErr_ecc A).cases with ⟨e, h1, h2⟩ | ⟨e, eF, h1, h2⟩
  · rw [h1, h2]
    rfl
  have := ecc_isSome h1 h2
  subst this
  rw [h1, h2]
  simp only
  rcases (sameErr_incl (C := C) A D.duration e I.period (-I.a * I.m_star / (I.m_star + I.m_planet)) I.r_star (inclFactorOf e * I.r_star / I.a)
    IF.period (-IF.a * IF.m_star / (IF.m_star + IF.m_planet)) IF.r_star
    (inclFactorOfF (e.map EccParams.toFl) * IF.r_star / IF.a)).cases with ⟨e, h1, h2⟩ | ⟨x, y, h1, h2⟩
  · rw [h1, h2]
    rfl
  rw [h1, h2]
  simp only
  rcases (sameErr_time A (M0Of e) (2 * π / I.period) (M0OfF (e.map EccParams.toFl)) (((2 : ℝ) : Fl) * (π : Fl) / IF.period)).cases with
    ⟨e, h1, h2⟩ | ⟨x, y, h1, h2⟩
  · rw [h1, h2]
    rfl
  rw [h1, h2]
  rfl

end Exo
