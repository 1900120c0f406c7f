import Verif.Spec.EstimatorUnits
import Verif.Props.MinimumMass

/-!
# C89: the radial-velocity estimators understand units
-/

namespace Exo
open Real

/-! ## Conversions -/

theorem byHand_into {target : AUnit} {q : Qty} {v : List ℝ} (h : ByHand target q v) : q.into target = .ok v := by
  unfold ByHand at h
  unfold Qty.into
  cases hu : q.unit with
  | none => rw [hu] at h; simp only at h ⊢; rw [h]
  | some u =>
    rw [hu] at h
    simp only at h ⊢
    obtain ⟨h1, h2⟩ := h
    unfold AUnit.to
    rw [if_pos h1]
    simp only [Except.map]
    congr 1
    have ht := target.pos.ne'
    have : v = (v.map (· * target.scale)).map (· / target.scale) := by
      rw [List.map_map]
      conv_lhs => rw [← List.map_id v]
      refine List.map_congr_left fun a _ => ?_
      simp only [Function.comp, id]
      field_simp
    rw [this, h2, List.map_map]
    refine List.map_congr_left fun a _ => ?_
    simp only [Function.comp]
    ring

theorem bare_into (l : List ℝ) (target : AUnit) : (bare l).into target = .ok l := rfl

theorem byHandOpt_into {target : AUnit} {q : Option Qty} {v : Option (List ℝ)} (h : ByHandOpt target q v) : intoOpt q target = .ok v := by
  cases q <;> cases v <;> simp only [ByHandOpt] at h
  · rfl
  · unfold intoOpt
    simp only [byHand_into h, Except.map]

theorem foreign_into {target : AUnit} {q : Qty} (h : Foreign target q) : q.into target = .error .unitConversion := by
  obtain ⟨u, h1, h2⟩ := h
  unfold Qty.into AUnit.to
  rw [h1]
  simp only
  rw [if_neg h2]
  rfl

/-- A conversion either works or fails with the same exception. -/
theorem into_or (q : Qty) (target : AUnit) : (∃ v, q.into target = .ok v) ∨ q.into target = .error .unitConversion := by
  unfold Qty.into AUnit.to
  cases q.unit with
  | none => exact Or.inl ⟨_, rfl⟩
  | some u =>
    simp only
    split_ifs
    · exact Or.inl ⟨_, rfl⟩
    · exact Or.inr rfl

theorem intoOpt_or (q : Option Qty) (target : AUnit) : (∃ v, intoOpt q target = .ok v) ∨ intoOpt q target = .error .unitConversion := by
  cases q with
  | none => exact Or.inl ⟨_, rfl⟩
  | some q =>
    unfold intoOpt
    rcases into_or q target with ⟨v, h⟩ | h
    · exact Or.inl ⟨some v, by simp only [h, Except.map]⟩
    · exact Or.inr (by simp only [h, Except.map])

theorem ivar_byHand {C : Consts} {y e : Qty} {v : List ℝ} (h : ByHand C.mPerS e v) (hl : e.isList = false) :
    ∃ q, ivarQty y (some e) = .ok q ∧ q.into C.ivarUnit = .ok (v.map fun s => 1 / s ^ 2) := by
  unfold ivarQty
  simp only [hl, Bool.false_eq_true, if_false]
  refine ⟨_, rfl, byHand_into ?_⟩
  unfold ByHand at h ⊢
  simp only
  cases hu : e.unit with
  | none => rw [hu] at h; simp only at h ⊢; rw [h]; rfl
  | some u =>
    rw [hu] at h
    simp only [Option.map_some] at h ⊢
    obtain ⟨h1, h2⟩ := h
    refine ⟨?_, ?_⟩
    · simp only [AUnit.invSq, Consts.ivarUnit, h1]
    · have : ∀ (l : List ℝ) (w : AUnit), (l.map fun s => 1 / s ^ 2).map (· * w.invSq.scale) =
          (l.map (· * w.scale)).map fun s => 1 / s ^ 2 := by
        intro l w
        rw [List.map_map, List.map_map]
        refine List.map_congr_left fun a _ => ?_
        simp only [Function.comp, AUnit.invSq]
        rw [mul_pow, one_div_mul_one_div]
      rw [Consts.ivarUnit, this, this, h2]

/-! ## C89 -/

/-- **C89** (`estimate_semi_amplitude`): with uncertainties, attaching units to any of the arguments is the same as converting them by hand
to days and metres per second. -/
theorem C89_semi_amplitude (C : Consts) (periods x y e : Qty) (t0s : Option Qty) (p' x' y' e' : List ℝ) (t' : Option (List ℝ))
    (hp : ByHand C.day periods p') (hx : ByHand C.day x x') (hy : ByHand C.mPerS y y') (he : ByHand C.mPerS e e')
    (ht : ByHandOpt C.day t0s t') (hl : e.isList = false) :
    semiAmplitudeQ C periods x y (some e) t0s = semiAmplitudeQ C (bare p') (bare x') (bare y') (some (bare e')) (t'.map bare) := by
  obtain ⟨q, h1, h2⟩ := ivar_byHand (y := y) he hl
  obtain ⟨q', h3, h4⟩ := ivar_byHand (C := C) (y := bare y') (e := bare e') (v := e') rfl rfl
  have ht' : intoOpt (t'.map bare) C.day = .ok t' := by cases t' <;> rfl
  unfold semiAmplitudeQ
  simp only [bind, Except.bind, h1, h2, h3, h4, byHand_into hp, byHand_into hx, byHand_into hy, byHandOpt_into ht, bare_into, ht']

/-- **C89** (no uncertainties): the same for the times; the velocities must be bare numbers. -/
theorem C89_semi_amplitude_partial (C : Consts) (periods x : Qty) (t0s : Option Qty) (p' x' y : List ℝ) (t' : Option (List ℝ))
    (hp : ByHand C.day periods p') (hx : ByHand C.day x x') (ht : ByHandOpt C.day t0s t') :
    semiAmplitudeQ C periods x (bare y) none t0s = semiAmplitudeQ C (bare p') (bare x') (bare y) none (t'.map bare) := by
  have ht' : intoOpt (t'.map bare) C.day = .ok t' := by cases t' <;> rfl
  unfold semiAmplitudeQ
  simp only [bind, Except.bind, byHand_into hp, byHand_into hx, byHandOpt_into ht, bare_into, ht']

/-- **C89 is false without uncertainties**: velocities with a unit, also with the expected one, are always refused. -/
theorem C89_velocities_without_errors_counterexample (C : Consts) (periods x y : Qty) (t0s : Option Qty) (u : AUnit)
    (hu : y.unit = some u) (hd : u.dim = C.mPerS.dim) : semiAmplitudeQ C periods x y none t0s = .error .unitConversion := by
  have hiv : Foreign C.ivarUnit { vals := y.vals.map fun _ => 1, unit := y.unit } := by
    refine ⟨u, hu, ?_⟩
    rw [hd]
    simp [Consts.mPerS, Consts.ivarUnit, AUnit.invSq]
  unfold semiAmplitudeQ ivarQty
  simp only [bind, Except.bind, foreign_into hiv]
  rcases into_or periods C.day with ⟨v, h⟩ | h <;> rw [h]
  rcases intoOpt_or t0s C.day with ⟨v, h⟩ | h <;> rw [h]
  rcases into_or x C.day with ⟨v, h⟩ | h <;> rw [h]
  rcases into_or y C.mPerS with ⟨v, h⟩ | h <;> rw [h]

/-- **C89** (wrong dimensions): a quantity of the wrong dimension is refused, whichever argument it is. -/
theorem C89_wrong_dimension (C : Consts) (periods x y : Qty) (yerr t0s : Option Qty) (hl : ∀ e, yerr = some e → e.isList = false)
    (h : Foreign C.day periods ∨ Foreign C.day x ∨ Foreign C.mPerS y ∨ (∃ e, yerr = some e ∧ Foreign C.mPerS e) ∨
      ∃ q, t0s = some q ∧ Foreign C.day q) : semiAmplitudeQ C periods x y yerr t0s = .error .unitConversion := by
  obtain ⟨q, hq⟩ : ∃ q, ivarQty y yerr = .ok q := by
    unfold ivarQty
    cases yerr with
    | none => exact ⟨_, rfl⟩
    | some e => simp only [hl e rfl, Bool.false_eq_true, if_false]; exact ⟨_, rfl⟩
  unfold semiAmplitudeQ
  simp only [bind, Except.bind, hq]
  rcases into_or periods C.day with ⟨v1, h1⟩ | h1 <;> rw [h1]
  rcases intoOpt_or t0s C.day with ⟨v2, h2⟩ | h2 <;> rw [h2]
  rcases into_or x C.day with ⟨v3, h3⟩ | h3 <;> rw [h3]
  rcases into_or y C.mPerS with ⟨v4, h4⟩ | h4 <;> rw [h4]
  rcases into_or q C.ivarUnit with ⟨v5, h5⟩ | h5 <;> rw [h5]
  exfalso
  rcases h with h | h | h | ⟨e, rfl, u, hu, hd⟩ | ⟨t, rfl, h⟩
  · rw [foreign_into h] at h1; cases h1
  · rw [foreign_into h] at h3; cases h3
  · rw [foreign_into h] at h4; cases h4
  · unfold ivarQty at hq
    simp only [hl e rfl, Bool.false_eq_true, if_false, Except.ok.injEq] at hq
    have : Foreign C.ivarUnit q := by
      subst hq
      refine ⟨u.invSq, by simp [hu], fun hc => hd ?_⟩
      simp only [AUnit.invSq, Consts.ivarUnit, Consts.mPerS, Dim.mk.injEq] at hc ⊢
      cases hdim : u.dim
      rw [hdim] at hc
      simp only at hc
      simp only [Dim.mk.injEq]
      omega
    rw [foreign_into this] at h5
    cases h5
  · unfold intoOpt at h2
    simp only [foreign_into h, Except.map] at h2
    cases h2

/-- **C89** (lists): uncertainties in a Python list are refused. -/
theorem C89_list_of_errors (C : Consts) (periods x y e : Qty) (t0s : Option Qty) (hl : e.isList = true) :
    ∃ m, semiAmplitudeQ C periods x y (some e) t0s = .error (.typeError m) := by
  unfold semiAmplitudeQ ivarQty
  simp only [hl, if_true]
  exact ⟨_, rfl⟩

/-- **C89** (bare numbers): the estimate from bare arrays of the same length is that of C60. -/
theorem C89_bare (C : Consts) (periods x y : List ℝ) (yerr t0s : Option (List ℝ)) (hy : y.length = x.length)
    (he : ∀ e, yerr = some e → e.length = x.length) :
    semiAmplitudeQ C (bare periods) (bare x) (bare y) (yerr.map bare) (t0s.map bare) = estimateSemiAmplitude periods x y yerr t0s := by
  have ht' : intoOpt (t0s.map bare) C.day = .ok t0s := by cases t0s <;> rfl
  have hiv : ∃ q, ivarQty (bare y) (yerr.map bare) = .ok q ∧ q.into C.ivarUnit = .ok (ivarOf y yerr) := by
    cases yerr with
    | none => exact ⟨_, rfl, rfl⟩
    | some e => exact ⟨_, rfl, rfl⟩
  have hil : (ivarOf y yerr).length = x.length := by
    cases yerr with
    | none => simp [ivarOf, hy]
    | some e => simp [ivarOf, he e rfl]
  obtain ⟨q, h1, h2⟩ := hiv
  unfold semiAmplitudeQ estimateSemiAmplitude fitPlain
  simp only [bind, Except.bind, h1, h2, bare_into, ht']
  have hst : ∀ l : List ℝ, l.length = x.length → stretch x.length l = l := by
    intro l hl
    unfold stretch
    split_ifs with h
    · match l, h with
      | [a], _ => rw [← hl]; rfl
    · rfl
  cases designFuns periods t0s with
  | error e => rfl
  | ok fs =>
    simp only
    rw [if_pos (by simp [shapesFit, hy, hil]), if_neg (by simp [hy, hil]), hst _ hy, hst _ hil]

/-- **C89** (one uncertainty for all): a single number is the same as an array of it. -/
theorem C89_single_error (C : Consts) (periods x y : Qty) (s : ℝ) (u : Option AUnit) (t0s : Option Qty)
    (hy : y.vals.length = x.vals.length) :
    semiAmplitudeQ C periods x y (some { vals := [s], unit := u }) t0s =
      semiAmplitudeQ C periods x y (some { vals := List.replicate x.vals.length s, unit := u }) t0s := by
  have hlen : ∀ (q : Qty) (target : AUnit) v, q.into target = .ok v → v.length = q.vals.length := by
    intro q target v h
    unfold Qty.into AUnit.to at h
    cases hu : q.unit with
    | none => rw [hu] at h; simp only [Except.ok.injEq] at h; rw [h]
    | some u =>
      rw [hu] at h
      simp only at h
      split_ifs at h
      · simp only [Except.map, Except.ok.injEq] at h
        simp [← h]
      · cases h
  unfold semiAmplitudeQ ivarQty
  simp only [Bool.false_eq_true, if_false, bind, Except.bind]
  rcases into_or periods C.day with ⟨v1, h1⟩ | h1 <;> rw [h1]
  rcases intoOpt_or t0s C.day with ⟨v2, h2⟩ | h2 <;> rw [h2]
  rcases into_or x C.day with ⟨v3, h3⟩ | h3 <;> rw [h3]
  rcases into_or y C.mPerS with ⟨v4, h4⟩ | h4 <;> rw [h4]
  have l3 := hlen _ _ _ h3
  have l4 := hlen _ _ _ h4
  simp only
  have key : ∃ f : Except PyErr ℝ, ∀ l : List ℝ, ({ vals := l, unit := u.map AUnit.invSq } : Qty).into C.ivarUnit =
      f.map fun f => l.map (· * f) := by
    cases u with
    | none => exact ⟨.ok 1, fun l => by simp [Qty.into, Except.map]⟩
    | some u => exact ⟨u.invSq.to C.ivarUnit, fun l => rfl⟩
  obtain ⟨f, hf⟩ := key
  rw [hf, hf]
  cases f with
  | error e => rfl
  | ok f =>
    simp only [Except.map, List.map_replicate, List.map_cons, List.map_nil]
    unfold fitPlain
    cases designFuns v1 v2 with
    | error e => rfl
    | ok fs =>
      simp only [← l3, List.length_cons, List.length_nil, List.length_replicate]
      have h4' : v4.length = v3.length := by omega
      have s1 : shapesFit v3.length v4.length (0 + 1) = true := by
        unfold shapesFit
        rw [h4']
        by_cases h : v3.length = 1 <;> simp [h]
      have s2 : shapesFit v3.length v4.length v3.length = true := by
        unfold shapesFit
        simp [h4']
      rw [if_pos s1, if_pos s2]
      have s3 : ∀ a : ℝ, stretch v3.length [a] = stretch v3.length (List.replicate v3.length a) := by
        intro a
        unfold stretch
        simp only [List.length_cons, List.length_nil, zero_add, if_true, List.length_replicate, List.headD_cons]
        split_ifs with h
        · rw [h]; rfl
        · rfl
      rw [s3]

/-- **C89** (`estimate_minimum_mass`): the same for the masses, also for the mass of the star; the result is that of C64, in Jupiter
masses. -/
theorem C89_minimum_mass (C : Consts) (periods x y e : Qty) (t0s : Option Qty) (m : Q) (p' x' y' e' : List ℝ) (t' : Option (List ℝ)) (m' : ℝ)
    (hp : ByHand C.day periods p') (hx : ByHand C.day x x') (hy : ByHand C.mPerS y y') (he : ByHand C.mPerS e e')
    (ht : ByHandOpt C.day t0s t') (hm : ByHandNum C.mSun m m') (hl : e.isList = false) (hly : y'.length = x'.length)
    (hle : e'.length = x'.length) :
    minimumMassQ C periods x y (some e) t0s m = estimateMinimumMass p' x' y' (some e') t' m' := by
  have hm' : toUnitVal m C.mSun = .ok m' := by
    unfold ByHandNum at hm
    unfold toUnitVal toUnit AUnit.to
    cases hu : m.unit with
    | none => rw [hu] at hm; simp only at hm ⊢; rw [hm]
    | some u =>
      rw [hu] at hm
      simp only at hm ⊢
      rw [if_pos hm.1]
      simp only
      congr 1
      have := C.mSun.pos
      field_simp
      linarith [hm.2]
  have hday : ByHand C.day { vals := p', unit := some C.day } p' := ⟨rfl, rfl⟩
  have hyear : ({ vals := p', unit := some C.day } : Qty).into C.year = .ok (p'.map (· / 365.25)) := by
    refine byHand_into ⟨rfl, ?_⟩
    rw [List.map_map]
    refine List.map_congr_left fun a _ => ?_
    simp only [Function.comp, Consts.year, Consts.day]
    ring
  unfold minimumMassQ estimateMinimumMass
  simp only [bind, Except.bind, byHand_into hp, hm']
  rw [C89_semi_amplitude C _ x y e t0s p' x' y' e' t' hday hx hy he ht hl]
  have hb := C89_bare C p' x' y' (some e') t' hly (by rintro _ ⟨⟩; exact hle)
  simp only [Option.map_some] at hb
  rw [hb]
  cases estimateSemiAmplitude p' x' y' (some e') t' with
  | error e => rfl
  | ok K =>
    simp only [hyear, Except.map]
    rw [List.zipWith_map_right]

/-! ### Examples -/

/-- Hypotheses of `C89_semi_amplitude`: a period of 96 hours, velocities of `3 km/s`, bare times. -/
example (C : Consts) (hour km : AUnit) (hh : hour.dim = ⟨0, 0, 1⟩) (hs : 24 * hour.scale = C.dayScale) (hk : km.dim = ⟨1, 0, -1⟩)
    (hks : km.scale = 1000 * C.mPerSScale) :
    ByHand C.day { vals := [96], unit := some hour } [4] ∧ ByHand C.day (bare [0, 1]) [0, 1] ∧
    ByHand C.mPerS { vals := [3, 0], unit := some km } [3000, 0] ∧ ByHandOpt C.day (some (bare [0])) (some [0]) := by
  refine ⟨⟨hh, ?_⟩, rfl, ⟨hk, ?_⟩, rfl⟩
  · simp only [List.map_cons, List.map_nil, List.cons.injEq, and_true, Consts.day]
    linarith
  · simp only [List.map_cons, List.map_nil, List.cons.injEq, and_true, Consts.mPerS, hks]
    constructor <;> ring

/-- Hypotheses of `C89_velocities_without_errors_counterexample` and `C89_wrong_dimension`. -/
example (C : Consts) : ({ vals := [1], unit := some C.mPerS } : Qty).unit = some C.mPerS ∧ Foreign C.day { vals := [1], unit := some C.mPerS } :=
  ⟨rfl, C.mPerS, rfl, by simp [Consts.mPerS, Consts.day]⟩

/-- `estimate_semi_amplitude(4, [0, 1], y)` with bare numbers and `t0s=0` finds the amplitude `3` of noiseless velocities. -/
example (C : Consts) : semiAmplitudeQ C (bare [4]) (bare [0, 1]) (bare ([0, 1].map (rvFixed [4] [0] [3] 5))) none (some (bare [0])) =
    .ok [3] := by
  have := C89_bare C [4] [0, 1] ([0, 1].map (rvFixed [4] [0] [3] 5)) none (some [0]) (by simp) (by simp)
  simp only [Option.map_some, Option.map_none] at this
  rw [this]
  exact C60_fixed_recovers [4] [0] [0, 1] none (by simp) rfl [3] 5 rfl ⟨by simp, by simp [errs], by simp [errs]⟩ demo_determined.2

end Exo
