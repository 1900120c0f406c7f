import Verif.Lemmas.Fl
import Verif.Lemmas.Kepler

namespace Exo
open Real

/-- The six numbers as doubles. -/
def Inputs.toFl (I : Inputs) : FlInputs := ⟨I.a, I.period, I.rho_star, I.r_star, I.m_star, I.m_planet⟩

theorem stellarParamsF_eq {rho? r? m? : Option ℝ} {rho r m : ℝ} (h : stellarParams rho? r? m? = .ok (rho, r, m)) (h1 : 0 < rho)
    (h2 : 0 < r) (h3 : 0 < m) : stellarParamsF rho? r? m? = .ok (.fin rho, .fin r, .fin m) := by
  have hpi := pi_pos
  unfold stellarParams at h
  split at h
  · simp only [Except.ok.injEq, Prod.mk.injEq] at h
    obtain ⟨h, rfl, rfl⟩ := h
    rw [stellarParamsF]
    simp only [Fl.fin_mul, Fl.fin_pow]
    rw [Fl.fin_div (by positivity), h]
  · simp only [Except.ok.injEq, Prod.mk.injEq] at h
    obtain ⟨rfl, h, rfl⟩ := h
    rw [stellarParamsF]
    simp only [Fl.fin_mul]
    rw [Fl.fin_div (by positivity), Fl.powr_fin _ (by positivity), h]
  · simp only [Except.ok.injEq, Prod.mk.injEq] at h
    obtain ⟨rfl, rfl, h⟩ := h
    rw [stellarParamsF]
    simp only [Fl.fin_mul, Fl.fin_pow]
    rw [Fl.fin_div (by norm_num), h]
  · cases h

theorem finishInputsF_eq {C : Consts} {a? p? : Option ℝ} {mp : ℝ} {rho_star r_star m_star : Option Q} {I : Inputs}
    (h : finishInputs C a? p? mp rho_star r_star m_star = .ok I) (ha : 0 < I.a) (hp : 0 < I.period) (hr : 0 < I.rho_star)
    (hR : 0 < I.r_star) (hm : 0 < I.m_star) (hmp : 0 ≤ I.m_planet) :
    finishInputsF C (a?.map Fl.fin) p? mp rho_star r_star m_star = .ok I.toFl := by
  have hpi := pi_pos
  have hG := C.G_pos
  have hg := C.gccPerSun_pos
  unfold finishInputs at h
  split_ifs at h with h0
  unfold finishInputsF
  rw [if_neg h0]
  split at h
  · cases h
  rename_i rho? hrho
  split at h
  · cases h
  rename_i r? hr?
  split at h
  · cases h
  rename_i m? hm?
  split at h
  · cases h
  rename_i rho rv ms hs
  have key : ∀ I' : Inputs, I' = I → I'.rho_star = rho * C.gccPerSun → I'.r_star = rv → I'.m_star = ms →
      stellarParamsF rho? r? m? = .ok (.fin rho, .fin rv, .fin ms) := by
    rintro I' rfl e1 e2 e3
    rw [e1] at hr
    rw [e2] at hR
    rw [e3] at hm
    exact stellarParamsF_eq hs (by by_contra hc; nlinarith) hR hm
  simp only [hrho, hr?, hm?]
  split at h
  · rename_i pv
    simp only [Except.ok.injEq] at h
    have hk := key _ h rfl rfl rfl
    subst h
    simp only [hk, Option.map_none, Inputs.toFl, Fl.fin_mul, Fl.fin_add, Fl.fin_pow] at *
    rw [Fl.fin_div (by positivity), Fl.powr_fin _ (by positivity)]
  · rename_i av
    simp only [Except.ok.injEq] at h
    have hk := key _ h rfl rfl rfl
    subst h
    simp only [hk, Option.map_some, Inputs.toFl, Fl.fin_mul, Fl.fin_add, Fl.fin_pow] at *
    rw [Fl.powr_fin _ (by positivity), Fl.sqrt_fin (by positivity), Fl.fin_mul, Fl.fin_div (by positivity)]
  · cases h

theorem impliedInputsF_eq {C : Consts} {av pv mp : ℝ} {rho_star r_star m_star : Option Q} {I : Inputs}
    (h : impliedInputs C av pv mp rho_star r_star m_star = .ok I) (hp : 0 < I.period) (hR : 0 < I.r_star) :
    impliedInputsF C (.fin av) pv mp rho_star r_star m_star = .ok I.toFl := by
  have hpi := pi_pos
  have hG := C.G_pos
  unfold impliedInputs at h
  split_ifs at h with h0
  unfold impliedInputsF
  rw [if_neg h0]
  split at h
  · cases h
  rename_i r? hr
  simp only [Except.ok.injEq] at h
  subst h
  simp only [Inputs.toFl, hr, Fl.fin_mul, Fl.fin_pow] at *
  rw [Fl.fin_div (by positivity), Fl.fin_div (by positivity), Fl.fin_sub, Fl.fin_div (by positivity), Fl.fin_mul]

theorem consistentInputsF_eq {C : Consts} {a period rho_star r_star m_star m_planet : Option Q} {aF : AArg} {I : Inputs}
    (h : consistentInputs C a period rho_star r_star m_star m_planet = .ok I) (hn : aF.isNone = a.isNone)
    (hv : ∀ v, toUnitOpt a C.rSun = .ok v → aF.value C = .ok (v.map Fl.fin)) (ha : 0 < I.a) (hp : 0 < I.period) (hr : 0 < I.rho_star)
    (hR : 0 < I.r_star) (hm : 0 < I.m_star) (hmp : 0 ≤ I.m_planet) :
    consistentInputsF C aF period rho_star r_star m_star m_planet = .ok I.toFl := by
  unfold consistentInputs at h
  split_ifs at h with h0
  unfold consistentInputsF
  rw [if_neg (by simpa [hn] using h0)]
  split at h
  · cases h
  rename_i mp? h1
  split at h
  · cases h
  rename_i a? h2
  split at h
  · cases h
  rename_i p? h3
  simp only [h1, hv _ h2, h3]
  split at h
  · simp only [Option.map_some]
    exact impliedInputsF_eq h hp hR
  · rename_i hne
    have := finishInputsF_eq h ha hp hr hR hm hmp
    cases a? with
    | none => exact this
    | some av => cases p? with
      | none => exact this
      | some pv => exact absurd rfl (hne av pv rfl)

/-- The attributes of `EccParams` as doubles. -/
noncomputable def EccParams.toFl (p : EccParams) : FlEcc := ⟨p.ecc, p.cos_omega, p.sin_omega⟩

theorem aorFromDurationF_eq {d p b : ℝ} {k : Option ℝ} (h : (aorFromDuration d p b k).1 ≠ 0) :
    aorFromDurationF d p b k = .fin (aorFromDuration d p b k).1 := by
  have hp : p ≠ 0 := by
    rintro rfl
    apply h
    simp [aorFromDuration]
  simp only [aorFromDuration] at h ⊢
  rw [div_ne_zero_iff] at h
  have hs := Real.sqrt_ne_zero'.1 h.1
  simp only [aorFromDurationF, Fl.fin_mul, Fl.fin_pow, Fl.fin_add]
  rw [Fl.fin_div hp, Fl.cos_fin, Fl.fin_pow, Fl.fin_mul, Fl.fin_sub, Fl.sqrt_fin hs.le, Fl.sin_fin, Fl.fin_div h.2]

theorem eccBlockF_eq {A : Args} {e : Option EccParams} (h : eccBlock A = .ok e) : eccBlockF A = .ok (e.map EccParams.toFl) := by
  unfold eccBlock at h
  unfold eccBlockF
  split at h
  · cases h
    simp [*]
  · rename_i q hq
    simp only [hq]
    split at h
    · rename_i w hw
      split_ifs at h with h0
      cases h
      simp only [hw, if_neg h0]
      rfl
    · rename_i hw
      simp only [hw]
      split at h
      · rename_i s c hs hc
        cases h
        simp only [hs, hc]
        rfl
      · cases h

theorem M0OfF_eq {e : Option EccParams} (h0 : ∀ p, e = some p → 0 ≤ p.ecc) (h1 : ∀ p, e = some p → p.ecc < 1) :
    M0OfF (e.map EccParams.toFl) = .fin (M0Of e) := by
  cases e with
  | none => simp [M0OfF, M0Of]
  | some p =>
    have := h0 p rfl
    have := h1 p rfl
    simp only [M0OfF, M0Of, Option.map_some, EccParams.toFl, Fl.fin_add, Fl.fin_sub]
    rw [Fl.sqrt_fin (by linarith), Fl.sqrt_fin (by linarith)]
    simp

theorem K0OfF_eq {e : Option EccParams} {n a m : ℝ} (h0 : ∀ p, e = some p → 0 ≤ p.ecc) (h1 : ∀ p, e = some p → p.ecc < 1) (hm : 0 < m) :
    K0OfF (e.map EccParams.toFl) (.fin n) (.fin a) (.fin m) = .fin (K0Of e n a m) := by
  cases e with
  | none =>
    simp only [K0OfF, K0Of, Option.map_none, Fl.fin_mul]
    rw [Fl.fin_div hm.ne']
  | some p =>
    have := h0 p rfl
    have := h1 p rfl
    have h2 : 0 < 1 - p.ecc ^ 2 := by nlinarith
    simp only [K0OfF, K0Of, Option.map_some, EccParams.toFl, Fl.fin_mul, Fl.fin_pow, Fl.fin_sub]
    rw [Fl.fin_div hm.ne', Fl.sqrt_fin h2.le, Fl.fin_div (Real.sqrt_pos.2 h2).ne']

theorem inclFactorOfF_eq {e : Option EccParams} (h0 : ∀ p, e = some p → 0 ≤ p.ecc) (h1 : ∀ p, e = some p → p.ecc < 1) :
    inclFactorOfF (e.map EccParams.toFl) = .fin (inclFactorOf e) := by
  cases e with
  | none => simp only [inclFactorOfF, inclFactorOf, Option.map_none]
  | some p =>
    have := h0 p rfl
    have := h1 p rfl
    have h2 : 0 < 1 - p.ecc ^ 2 := by nlinarith
    simp only [inclFactorOfF, inclFactorOf, Option.map_some, EccParams.toFl, Fl.fin_mul, Fl.fin_pow, Fl.fin_sub, Fl.fin_add]
    rw [Fl.fin_div h2.ne']

theorem timeBlockF_eq {A : Args} {M0 n t0 tp : ℝ} (h : timeBlock A M0 n = .ok (t0, tp)) (hn : n ≠ 0) :
    timeBlockF A (.fin M0) (.fin n) = .ok (.fin t0, .fin tp) := by
  unfold timeBlock at h
  unfold timeBlockF
  split at h <;> simp only [Except.ok.injEq, Prod.mk.injEq, reduceCtorEq] at h <;> obtain ⟨h1, h2⟩ := h <;>
    subst h1 h2 <;> simp [*, Fl.fin_div hn]

/-- The argument `a` of `_get_consistent_inputs`. -/
theorem durationBlockF_eq {C : Consts} {A : Args} {D : DurBlock} (h : durationBlock A = .ok D)
    (ha : ∀ q, D.a = some q → D.daordtau.isSome → q.val ≠ 0) :
    ∃ aF : AArg, durationBlockF A = .ok (aF, D.r_star, D.duration) ∧ aF.isNone = D.a.isNone ∧
      ∀ v, toUnitOpt D.a C.rSun = .ok v → aF.value C = .ok (v.map Fl.fin) := by
  unfold durationBlock at h
  unfold durationBlockF
  split at h
  · rename_i d he hd
    simp only at h
    split at h
    · cases h
    rename_i b hb
    split at h
    · cases h
    rename_i p hp
    simp only [Except.ok.injEq] at h
    subst h
    have h1 := ha _ rfl rfl
    have h2 : (aorFromDuration d.val p.val b.val (A.ror.map Q.val)).1 ≠ 0 := right_ne_zero_of_mul h1
    simp only [he, hd, hb, hp]
    refine ⟨_, rfl, rfl, ?_⟩
    intro v hv
    rw [aorFromDurationF_eq h2]
    simp only [toUnitOpt, toUnitVal, toUnit, Except.ok.injEq] at hv
    subst hv
    rfl
  · rename_i hne
    simp only [Except.ok.injEq] at h
    subst h
    refine ⟨.given A.a, ?_, rfl, ?_⟩
    · split
      · rename_i d he hd
        exact absurd hd (hne d he)
      · rfl
    · intro v hv
      simp only [AArg.value, hv]

theorem bFromDurationF_eq {p : EccParams} {d P aP R : ℝ} (h0 : 0 ≤ p.ecc) (h1 : p.ecc < 1) (hP : P ≠ 0) (hR : R ≠ 0) (X Y c : ℝ)
    (hc : c = sin (π * d * ((1 + p.ecc * p.sin_omega) / (1 - p.ecc ^ 2)) / P))
    (hX : X = (aP / R * c) ^ 2 - 1) (hY : Y = (c * (1 + p.ecc * p.sin_omega)) ^ 2 - (1 - p.ecc ^ 2) ^ 2) (hY0 : Y ≠ 0) :
    bFromDurationF p.toFl d (.fin P) (.fin aP) (.fin R) = (Fl.fin (X / Y)).sqrt * .fin (1 - p.ecc ^ 2) ∧
      bFromDuration p d P aP R = √(X / Y) * (1 - p.ecc ^ 2) := by
  have h2 : 0 < 1 - p.ecc ^ 2 := by nlinarith
  have hX' : (aP / R) ^ 2 * (c * c) - 1 = X := by rw [hX]; ring
  have hY' : c * c * (p.ecc * p.sin_omega) ^ 2 + 2 * (c * c) * (p.ecc * p.sin_omega) + c * c - p.ecc ^ 4 + 2 * p.ecc ^ 2 - 1 = Y := by
    rw [hY]; ring
  constructor
  · simp only [bFromDurationF, EccParams.toFl, Fl.fin_mul, Fl.fin_pow, Fl.fin_sub, Fl.fin_add]
    rw [Fl.fin_div h2.ne', Fl.fin_mul, Fl.fin_div hP, Fl.sin_fin, Fl.fin_div hR, ← hc]
    simp only [Fl.fin_mul, Fl.fin_pow, Fl.fin_sub, Fl.fin_add]
    rw [hX', hY', Fl.fin_div hY0]
  · simp only [bFromDuration]
    rw [← hc, hX', hY']

theorem durationBlock_duration {A : Args} {D : DurBlock} (h : durationBlock A = .ok D) {d : Q} (hd : D.duration = some d) :
    A.duration = some d := by
  unfold durationBlock at h
  split at h
  · simp only at h
    split at h
    · cases h
    split at h
    · cases h
    simp only [Except.ok.injEq] at h
    subst h
    cases hd
  · simp only [Except.ok.injEq] at h
    subst h
    exact hd

theorem inclBlockF_eq {C : Consts} {A : Args} {D : DurBlock} {o : Orbit} (hD : durationBlock A = .ok D) (ho : o.Bound)
    (h : inclBlock C A D.duration o.ecc o.period o.a_planet o.r_star o.dcosidb = .ok (o.b, o.cos_incl, o.incl))
    (hd : o.dcosidb ≠ 0) (hc : |o.cos_incl| ≤ 1) (hdur : DurationPossible C A o) :
    inclBlockF C A D.duration (o.ecc.map EccParams.toFl) (.fin o.period) (.fin o.a_planet) (.fin o.r_star) (.fin o.dcosidb) =
      .ok (.fin o.b, .fin o.cos_incl, .fin o.incl) := by
  unfold inclBlock at h
  unfold inclBlockF
  split at h
  · rename_i b hb
    split_ifs at h with h0
    simp only [Except.ok.injEq, Prod.mk.injEq] at h
    obtain ⟨h1, h2, h3⟩ := h
    simp only [hb, if_neg h0, Fl.fin_mul]
    rw [Fl.arccos_fin (by rw [h2]; exact hc), h3, h2, h1]
  · rename_i hb
    simp only [hb]
    split at h
    · rename_i i hi
      split_ifs at h with h0
      simp only [Except.ok.injEq, Prod.mk.injEq] at h
      obtain ⟨h1, h2, h3⟩ := h
      simp only [hi, Fl.cos_fin]
      rw [if_neg h0, Fl.fin_div hd, h1, h2, h3]
    · rename_i hi
      simp only [hi]
      split at h
      · rename_i d hdd
        simp only [hdd]
        split at h
        · cases h
        rename_i p hp
        split at h
        · cases h
        rename_i dv hdv
        simp only [Except.ok.injEq, Prod.mk.injEq] at h
        obtain ⟨h1, h2, h3⟩ := h
        obtain ⟨k1, k2⟩ := hdur d p dv (durationBlock_duration hD hdd) hp hdv
        obtain ⟨b1, b2⟩ := bFromDurationF_eq (d := dv) (aP := o.a_planet) (ho.ecc_nonneg p hp) (ho.ecc_lt_one p hp) ho.period_pos.ne'
          ho.r_star_pos.ne' (durationFraction o p.ecc p.sin_omega dv).1 (durationFraction o p.ecc p.sin_omega dv).2 _ rfl rfl rfl k1
        simp only [hp, Option.map_some, hdv]
        rw [b1, Fl.sqrt_fin k2, Fl.fin_mul, ← b2, Fl.fin_mul, Fl.arccos_fin (by rw [h2]; exact hc), h3, h2, h1]
      · rename_i hdd
        simp only [Except.ok.injEq, Prod.mk.injEq] at h
        obtain ⟨h1, h2, h3⟩ := h
        simp only [hdd, Fl.fin_mul, Fl.fin_add]
        rw [← h1, ← h2, ← h3]

theorem consistentInputs_a {C : Consts} {x : ℝ} {p rho r m mp : Option Q} {I : Inputs}
    (h : consistentInputs C (some ⟨x, none⟩) p rho r m mp = .ok I) : I.a = x := by
  unfold consistentInputs at h
  rw [if_neg (by simp)] at h
  split at h
  · cases h
  simp only [toUnitOpt, toUnitVal, toUnit] at h
  split at h
  · cases h
  split at h
  · unfold impliedInputs at h
    split_ifs at h
    split at h
    · cases h
    simp only [Except.ok.injEq] at h
    subst h
    simp_all
  · unfold finishInputs at h
    split_ifs at h
    split at h
    · cases h
    split at h
    · cases h
    split at h
    · cases h
    split at h
    · cases h
    split at h
    · simp_all
    · simp only [Except.ok.injEq] at h
      subst h
      simp_all
    · cases h

/-- The constructor, whatever the inclination. -/
theorem initF_core {C : Consts} {A : Args} {o : Orbit} (h : keplerianInit C A = .ok o) (ho : o.Bound) (b ci i : Fl)
    (hi : ∀ D, durationBlock A = .ok D → inclBlockF C A D.duration (o.ecc.map EccParams.toFl) (.fin o.period) (.fin o.a_planet)
      (.fin o.r_star) (.fin o.dcosidb) = .ok (b, ci, i)) :
    keplerianInitF C A = .ok { o.toFl with b := b, cos_incl := ci, incl := i, sin_incl := i.sin } := by
  have B := built_of_init h
  obtain ⟨mp, rho, D, h1, h2, hD, hI, -, -⟩ := B.inputs
  obtain ⟨aF, k1, k2, k3⟩ := durationBlockF_eq (C := C) hD (by
    intro q hq hs
    unfold durationBlock at hD
    split at hD
    · simp only at hD
      split at hD
      · cases hD
      split at hD
      · cases hD
      simp only [Except.ok.injEq] at hD
      subst hD
      simp only [Option.some.injEq] at hq
      subst hq
      have := consistentInputs_a hI
      rw [← this]
      exact ho.a_pos.ne'
    · simp only [Except.ok.injEq] at hD
      subst hD
      cases hs)
  have hI' := consistentInputsF_eq hI k2 k3 ho.a_pos ho.period_pos ho.rho_star_pos ho.r_star_pos ho.m_star_pos ho.m_planet_nonneg
  have hm : 0 < o.m_star + o.m_planet := by
    have := ho.m_star_pos
    have := ho.m_planet_nonneg
    linarith
  have hpi := pi_pos
  have hn : 2 * π / o.period ≠ 0 := by
    have := ho.period_pos
    positivity
  unfold keplerianInitF
  simp only [h1, h2, k1, hI', Inputs.toFl, Fl.fin_add, Fl.fin_mul, Fl.fin_neg]
  rw [Fl.fin_div hm.ne', eccBlockF_eq B.ecc_eq]
  simp only
  rw [inclFactorOfF_eq ho.ecc_nonneg ho.ecc_lt_one, Fl.fin_mul, Fl.fin_div ho.a_pos.ne', ← B.dcosidb_eq, ← B.m_total_eq, ← B.a_planet_eq,
    hi D hD]
  simp only
  rw [M0OfF_eq ho.ecc_nonneg ho.ecc_lt_one, ← B.M0_eq, Fl.fin_div ho.period_pos.ne', ← B.n_eq, timeBlockF_eq B.time_block (by rw [B.n_eq]; exact hn)]
  simp only
  rw [K0OfF_eq ho.ecc_nonneg ho.ecc_lt_one (by rw [B.m_total_eq]; exact hm), ← B.K0_eq, Fl.fin_div (by rw [B.m_total_eq]; exact hm.ne'), ← B.a_star_eq,
    Fl.fin_sub, ← B.tref_eq]
  simp only [Orbit.toFl, B.Omega_eq, Option.map_map]
  rfl

theorem Built.dcosidb_ne {C : Consts} {A : Args} {o : Orbit} (B : Built C A o) (ho : o.Bound) : o.dcosidb ≠ 0 := by
  have h1 : inclFactorOf o.ecc ≠ 0 := by
    unfold inclFactorOf
    split
    · exact one_ne_zero
    · rename_i p hp
      have e0 := ho.ecc_nonneg p hp
      have e1 := ho.ecc_lt_one p hp
      have hw := ho.omega_unit p hp
      have hs : -1 ≤ p.sin_omega := by nlinarith [sq_nonneg p.cos_omega]
      have h2 : 0 < 1 - p.ecc ^ 2 := by nlinarith
      have h3 : 0 < 1 + p.ecc * p.sin_omega := by nlinarith
      positivity
  rw [B.dcosidb_eq]
  exact div_ne_zero (mul_ne_zero h1 ho.r_star_pos.ne') ho.a_pos.ne'

/-- No operation of the constructor leaves its domain. -/
theorem initF_eq {C : Consts} {A : Args} {o : Orbit} (h : keplerianInit C A = .ok o) (hp : o.Physical) (hd : DurationPossible C A o) :
    keplerianInitF C A = .ok o.toFl := by
  have B := built_of_init h
  obtain ⟨-, -, D, -, -, hD, -, hi, -⟩ := B.inputs
  rw [initF_core h hp.bound (.fin o.b) (.fin o.cos_incl) (.fin o.incl)]
  · rw [Fl.sin_fin, ← B.sin_incl_eq]
    rfl
  · intro D' hD'
    rw [hD] at hD'
    cases hD'
    exact inclBlockF_eq hD hp.bound hi (B.dcosidb_ne hp.bound) hp.cos_incl_abs hd

end Exo
