import Verif.Props.DistributionShapes
import Verif.Lemmas.Broadcast

/-!
# C97 — array-valued parameters: `impact_parameter`, and what is not the same for all helpers
-/

namespace Exo
open Kwargs MeasureTheory
open scoped ENNReal

theorem bleR_of_bcastRev {u v w : List ℕ} (h : bcastRev u v = .ok w) : BLeR u w ∧ BLeR v w := by
  induction u generalizing v w with
  | nil =>
    have : v = w := by simpa [bcastRev] using h
    subst this
    exact ⟨.nil _, BLeR.refl _⟩
  | cons m u ih =>
    cases v with
    | nil =>
      have : m :: u = w := by simpa [bcastRev] using h
      subst this
      exact ⟨BLeR.refl _, .nil _⟩
    | cons n v =>
      unfold bcastRev at h
      unfold bcastDim at h
      by_cases h1 : m = n
      · subst h1
        simp only [if_true] at h
        cases hr : bcastRev u v with
        | error e => rw [hr] at h; cases h
        | ok x =>
          rw [hr] at h
          have h := Except.ok.inj h
          subst h
          exact ⟨.cons (Or.inl rfl) (ih hr).1, .cons (Or.inl rfl) (ih hr).2⟩
      · rw [if_neg h1] at h
        by_cases h2 : m = 1
        · rw [if_pos h2] at h
          cases hr : bcastRev u v with
          | error e => rw [hr] at h; cases h
          | ok x =>
            rw [hr] at h
            have h := Except.ok.inj h
            subst h
            exact ⟨.cons (Or.inr h2) (ih hr).1, .cons (Or.inl rfl) (ih hr).2⟩
        · rw [if_neg h2] at h
          by_cases h3 : n = 1
          · rw [if_pos h3] at h
            cases hr : bcastRev u v with
            | error e => rw [hr] at h; cases h
            | ok x =>
              rw [hr] at h
              have h := Except.ok.inj h
              subst h
              exact ⟨.cons (Or.inl rfl) (ih hr).1, .cons (Or.inr h3) (ih hr).2⟩
          · rw [if_neg h3] at h
            cases h

theorem ble_of_bcast {u v w : List ℕ} (h : bcastShape u v = .ok w) : BLe u w ∧ BLe v w := by
  unfold bcastShape at h
  cases hr : bcastRev u.reverse v.reverse with
  | error e => rw [hr] at h; cases h
  | ok x =>
    rw [hr] at h
    have h := Except.ok.inj h
    subst h
    obtain ⟨h1, h2⟩ := bleR_of_bcastRev hr
    exact ⟨by simpa [BLe] using h1, by simpa [BLe] using h2⟩

/-- Entries of a broadcast operation, broadcast further. -/
theorem bget_zipB {α β γ : Type} {f : α → β → γ} {x : Tensor α} {y : Tensor β} {z : Tensor γ} (h : x.zipB f y = .ok z) {s idx : List ℕ}
    (hb : BLe z.shape s) (hi : InShape idx s) : z.bget idx = f (x.bget idx) (y.bget idx) := by
  unfold Tensor.zipB at h
  cases hr : bcastShape x.shape y.shape with
  | error e => rw [hr] at h; cases h
  | ok w =>
    rw [hr] at h
    have h := Except.ok.inj h
    subst h
    obtain ⟨h1, h2⟩ := ble_of_bcast hr
    have hl : w.length ≤ idx.length := by rw [hi.length]; exact hb.length
    rw [Tensor.bget_eq]
    show f (x.bget (clipIdx w idx)) (y.bget (clipIdx w idx)) = _
    rw [Tensor.bget_clip h1 hl, Tensor.bget_clip h2 hl]

theorem zipB_shape {α β γ : Type} {f : α → β → γ} {x : Tensor α} {y : Tensor β} {z : Tensor γ} (h : x.zipB f y = .ok z) :
    bcastShape x.shape y.shape = .ok z.shape := by
  unfold Tensor.zipB at h
  cases hr : bcastShape x.shape y.shape with
  | error e => rw [hr] at h; cases h
  | ok w => rw [hr] at h; rw [← Except.ok.inj h]

/-- What a successful call of `impact_parameter` has done. -/
theorem impactParameterV_ok (b : Backend) (name : String) {ror : Tensor (VState → ℝ)} {K : VKwargs} {vrs : List VReg}
    {v : Tensor (VState → ℝ)} (h : impactParameterV b name ror K = .ok (vrs, v)) :
    ∃ (bh : Tensor ℝ) (start : Tensor (VState → Option ℝ)),
    (∀ idx, InShape idx (K.impactDims b ror.shape) → bh.bget idx = K.startAt 0.5 idx) ∧
    ((∀ w, K.asked = some w → bcastShape w.value.shape (K.impactDims b ror.shape) = .ok (K.impactDims b ror.shape)) →
      BLe bh.shape (K.impactDims b ror.shape)) ∧
    bh.zipB (fun x (r : VState → ℝ) σ => npDiv x (1 + r σ)) ror = .ok start ∧
    (varV ("__" ++ name ++ "_impact_parameter") (K.impactDims b ror.shape)).zipB
      (fun (x r : VState → ℝ) σ => x σ * (1 + r σ)) ror = .ok v ∧
    vrs = [.free ("__" ++ name ++ "_impact_parameter") (K.impactDims b ror.shape) .uniform
        ((K.other.set "lower" (Val.ofReal 0)).set "upper" (Val.ofReal 1)) b.startKey start, .deterministic name v] := by
  unfold impactParameterV at h
  simp only [popInitvalV, bind, Except.bind] at h
  set init := (K.initval.orElse fun _ => K.testval).getD ⟨.array, .scalar 0.5⟩ with hinit
  have hst : ∀ idx, init.value.bget idx = K.startAt 0.5 idx := by
    intro idx
    unfold VKwargs.startAt VKwargs.asked
    rw [hinit]
    cases K.initval.orElse fun _ => K.testval with
    | none => rfl
    | some w => rfl
  have hfit : (∀ w, K.asked = some w → bcastShape w.value.shape (K.impactDims b ror.shape) = .ok (K.impactDims b ror.shape)) →
      BLe init.value.shape (K.impactDims b ror.shape) := by
    unfold VKwargs.asked
    rw [hinit]
    cases K.initval.orElse fun _ => K.testval with
    | none => exact fun _ => BLe.nil _
    | some w => exact fun hw => (ble_of_bcast (hw w rfl)).1
  cases h0 : impactShape b ror.shape { K with initval := none, testval := none } init.value with
  | error e => rw [h0] at h; cases h
  | ok r =>
  obtain ⟨K', bh⟩ := r
  rw [h0] at h
  simp only at h
  have hK : K'.dims = K.impactDims b ror.shape ∧ K'.other = K.other ∧
      (∀ idx, InShape idx (K.impactDims b ror.shape) → bh.bget idx = K.startAt 0.5 idx) ∧
      ((∀ w, K.asked = some w → bcastShape w.value.shape (K.impactDims b ror.shape) = .ok (K.impactDims b ror.shape)) →
        BLe bh.shape (K.impactDims b ror.shape)) := by
    unfold impactShape at h0
    cases b with
    | pymc3 =>
      have h0 := Prod.mk.inj (Except.ok.inj h0)
      obtain ⟨rfl, rfl⟩ := h0
      refine ⟨?_, rfl, fun idx _ => hst idx, hfit⟩
      unfold VKwargs.impactDims VKwargs.dims
      cases K.shape <;> rfl
    | pymc =>
      simp only at h0
      unfold broadcastTo at h0
      have hd : ((K.shape.getD (.tuple ror.shape)).dims) = K.impactDims .pymc ror.shape := by
        unfold VKwargs.impactDims VKwargs.dims
        cases K.shape <;> rfl
      rw [hd] at h0
      by_cases hb : bcastShape init.value.shape (K.impactDims .pymc ror.shape) = .ok (K.impactDims .pymc ror.shape)
      · rw [if_pos hb] at h0
        have h0 := Prod.mk.inj (Except.ok.inj h0)
        obtain ⟨rfl, rfl⟩ := h0
        refine ⟨?_, rfl, fun idx hi => ?_, fun _ => BLe.refl _⟩
        · rw [← hd]; rfl
        · have e := Tensor.bget_self (x := (⟨K.impactDims .pymc ror.shape, init.value.bget⟩ : Tensor ℝ)) hi
          exact e.trans (hst idx)
      · rw [if_neg hb] at h0; cases h0
  obtain ⟨hK1, hK2, hK3, hK4⟩ := hK
  have hd : ∀ o, VKwargs.dims { K' with other := o } = K'.dims := fun _ => rfl
  cases h1 : bh.zipB (fun x (r : VState → ℝ) σ => npDiv x (1 + r σ)) ror with
  | error e => rw [h1] at h; cases h
  | ok start =>
  rw [h1] at h
  simp only [hd] at h
  cases h2 : (varV ("__" ++ name ++ "_impact_parameter") K'.dims).zipB (fun (x r : VState → ℝ) σ => x σ * (1 + r σ)) ror with
  | error e => rw [h2] at h; cases h
  | ok value =>
  rw [h2] at h
  have h := Prod.mk.inj (Except.ok.inj h)
  obtain ⟨h3, rfl⟩ := h
  refine ⟨bh, start, hK3, hK4, h1, by rw [← hK1]; exact h2, ?_⟩
  rw [← h3, ← hK1, ← hK2]
  rfl

theorem OthersOnly.shaped_limKw {K : VKwargs} (hK : K.OthersOnly) (b : Backend) (lo hi : ℝ) (v : Val) :
    (limKw b lo hi v (shaped b K.other)).get b.startKey .none = v := by
  have h1 : K.other.mem "initval" = false := mem_false_iff.2 fun p hp e => hK p hp (by simp [e])
  have h2 : K.other.mem "testval" = false := mem_false_iff.2 fun p hp e => hK p hp (by simp [e])
  exact limKw_start _ _ _ _ _ (shaped_not_mem b (by decide) h1) (shaped_not_mem b (by decide) h2)

/-- **C97** (impact_parameter): if `ror` fits into the shape of the variable, the call is, entry by entry, the scalar call with that
entry of `ror` and of the start value. -/
theorem C97_impact_parameter (b : Backend) (name : String) {ror : Tensor (VState → ℝ)} {K : VKwargs} (hK : K.OthersOnly)
    (hr : bcastShape (K.impactDims b ror.shape) ror.shape = .ok (K.impactDims b ror.shape)) {vrs : List VReg}
    {v : Tensor (VState → ℝ)} (h : impactParameterV b name ror K = .ok (vrs, v)) :
    v.shape = K.impactDims b ror.shape ∧ AllShape vrs (K.impactDims b ror.shape) ∧
    ∃ (rs : VState → List ℕ → List Reg) (f : VState → List ℕ → State → ℝ),
      (∀ σ idx, impactParameter b name (fun _ => ror.bget idx σ) (("initval", Val.ofReal (K.startAt 0.5 idx)) :: K.other) =
        .ok (rs σ idx, f σ idx)) ∧
      (∀ σ idx, freeNames (rs σ idx) = freeNamesV vrs) ∧ EntryWise b vrs (K.impactDims b ror.shape) rs ∧
      ∀ σ idx, InShape idx (K.impactDims b ror.shape) → v.get idx σ = f σ idx (σ.entry idx) := by
  obtain ⟨bh, start, hbh, -, hst, hv, rfl⟩ := impactParameterV_ok b name h
  have hvs : v.shape = K.impactDims b ror.shape := by
    have := zipB_shape hv
    have e : (varV ("__" ++ name ++ "_impact_parameter") (K.impactDims b ror.shape)).shape = K.impactDims b ror.shape := rfl
    rw [e, hr] at this
    exact (Except.ok.inj this).symm
  refine ⟨hvs, ?_, ?_⟩
  · intro n s f p key start' hm
    simp at hm
    exact hm.2.1
  refine ⟨fun σ idx => List.map (fun r => r idx)
    [fun idx => pmVar .uniform ("__" ++ name ++ "_impact_parameter")
        (limKw b 0 1 (.nanable fun _ => npDiv (K.startAt 0.5 idx) (1 + ror.bget idx σ)) (shaped b K.other)),
      fun idx => .deterministic name (fun τ => [τ ("__" ++ name ++ "_impact_parameter") * (1 + ror.bget idx σ)])],
    fun σ idx τ => τ ("__" ++ name ++ "_impact_parameter") * (1 + ror.bget idx σ), ?_, ?_, ?_, ?_⟩
  · intro σ idx
    rw [impactParameter_eq, hK.strip]
    have hq : requested (("initval", Val.ofReal (K.startAt 0.5 idx)) :: K.other) (Val.ofReal 0.5) = Val.ofReal (K.startAt 0.5 idx) :=
      get_cons_self ..
    rw [hq]
    rfl
  · intro σ idx
    rfl
  · refine Entries.entryWise (rs := fun σ =>
      [fun idx => pmVar .uniform ("__" ++ name ++ "_impact_parameter")
        (limKw b 0 1 (.nanable fun _ => npDiv (K.startAt 0.5 idx) (1 + ror.bget idx σ)) (shaped b K.other)),
      fun idx => .deterministic name (fun τ => [τ ("__" ++ name ++ "_impact_parameter") * (1 + ror.bget idx σ)])]) fun σ => ?_
    refine List.Forall₂.cons (uniformAt b (OthersOnly.shaped_limKw hK b) _ _ _ _ _
        (fun idx => .nanable fun _ => npDiv (K.startAt 0.5 idx) (1 + ror.bget idx σ)) σ fun idx hi hb => ?_)
      (List.Forall₂.cons ⟨trivial, fun _ _ => rfl⟩ List.Forall₂.nil)
    rw [bget_zipB hst (ble_of_bcast hb).1 hi, hbh idx hi]
    rfl
  · intro σ idx hi
    rw [← Tensor.bget_self (x := v) (by rw [hvs]; exact hi), bget_zipB hv (by rw [hvs]; exact BLe.refl _) hi,
      Tensor.bget_self (x := varV ("__" ++ name ++ "_impact_parameter") (K.impactDims b ror.shape)) hi]
    rfl

theorem setEntries_entry (σ : VState) (s : List ℕ) (n : String) (x : Fin s.prod → ℝ) (k : Fin s.prod) :
    setEntries σ s n x n (Tensor.unravel s k) = x k := by
  unfold setEntries
  rw [Function.update_self]
  have h := ravel_unravel k.2
  rw [dif_pos (by rw [h]; exact k.2)]
  congr 1
  exact Fin.ext h

/-- **C97** (impact_parameter): given everything else, in particular the radius ratios, the impact parameters of all entries are
independent and uniform, each on its own `[0, 1 + ror]`. -/
theorem C97_impact_parameter_uniform (b : Backend) (name : String) {ror : Tensor (VState → ℝ)} {K : VKwargs} (hK : K.OthersOnly)
    (hr : bcastShape (K.impactDims b ror.shape) ror.shape = .ok (K.impactDims b ror.shape)) {vrs : List VReg}
    {v : Tensor (VState → ℝ)} (h : impactParameterV b name ror K = .ok (vrs, v)) : ∃ n, freeNamesV vrs = [n] ∧
    ∀ σ : VState, (∀ idx, -1 < ror.bget idx σ) →
      (∀ idx x, ror.bget idx (setEntries σ (K.impactDims b ror.shape) n x) = ror.bget idx σ) →
      UniformOn (Measure.map (fun x (k : Fin (K.impactDims b ror.shape).prod) =>
          v.get (Tensor.unravel (K.impactDims b ror.shape) k) (setEntries σ (K.impactDims b ror.shape) n x))
        (lawV1 vrs (K.impactDims b ror.shape) n σ))
        (Set.univ.pi fun k => Set.Icc 0 (1 + ror.bget (Tensor.unravel (K.impactDims b ror.shape) k) σ)) := by
  obtain ⟨-, -, rs, f, hrs, hn', hE, hv⟩ := C97_impact_parameter b name hK hr h
  have hfn : freeNamesV vrs = ["__" ++ name ++ "_impact_parameter"] := by
    obtain ⟨bh, -, e, -⟩ := impactParameter_ok b name _ (hrs (fun _ _ => 0) [])
    rw [← hn' (fun _ _ => 0) [], e]
    rfl
  refine ⟨_, hfn, fun σ hpos hind => ?_⟩
  have hval : ∀ (τ : VState) (k : Fin (K.impactDims b ror.shape).prod), v.get (Tensor.unravel (K.impactDims b ror.shape) k) τ =
      τ ("__" ++ name ++ "_impact_parameter") (Tensor.unravel (K.impactDims b ror.shape) k) *
        (1 + ror.bget (Tensor.unravel (K.impactDims b ror.shape) k) τ) := by
    intro τ k
    rw [hv τ _ (unravel_inShape k.2)]
    obtain ⟨bh, -, -, e⟩ := impactParameter_ok b name _ (hrs τ (Tensor.unravel (K.impactDims b ror.shape) k))
    rw [e]
    rfl
  have hden : ∀ τ : VState, jointDensityV vrs τ = ∏ k : Fin (K.impactDims b ror.shape).prod,
      ENNReal.ofReal (uniformPdf 0 1 (τ ("__" ++ name ++ "_impact_parameter") (Tensor.unravel (K.impactDims b ror.shape) k))) := by
    intro τ
    rw [(hE τ).1, Finset.prod_range]
    refine Finset.prod_congr rfl fun k _ => ?_
    obtain ⟨bh, -, e, -⟩ := impactParameter_ok b name _ (hrs τ (Tensor.unravel (K.impactDims b ror.shape) k))
    rw [e, impactParameter_density]
    rfl
  unfold lawV1
  simp only [hval, hden, hind, setEntries_entry]
  have hu : ∀ k : Fin (K.impactDims b ror.shape).prod, UniformOn
      (Measure.map (fun x : ℝ => x * (1 + ror.bget (Tensor.unravel (K.impactDims b ror.shape) k) σ))
        (volume.withDensity fun x => ENNReal.ofReal (uniformPdf 0 1 x)))
      (Set.Icc 0 (1 + ror.bget (Tensor.unravel (K.impactDims b ror.shape) k) σ)) := by
    intro k
    have hp : 0 < 1 + ror.bget (Tensor.unravel (K.impactDims b ror.shape) k) σ := by
      linarith [hpos (Tensor.unravel (K.impactDims b ror.shape) k)]
    refine ⟨_, ?_, ENNReal.ofReal_ne_top, scale_uniform hp⟩
    have : 0 < (1 + ror.bget (Tensor.unravel (K.impactDims b ror.shape) k) σ)⁻¹ := inv_pos.2 hp
    simpa using this
  have hm : Measurable fun x => ENNReal.ofReal (uniformPdf 0 1 x) := (measurable_uniformPdf 0 1).ennreal_ofReal
  have hsf : SigmaFinite ((volume : Measure ℝ).withDensity fun x => ENNReal.ofReal (uniformPdf 0 1 x)) :=
    SigmaFinite.withDensity_ofReal _
  rw [volume_pi, withDensity_pi_prod (fun _ => volume) (fun _ x => ENNReal.ofReal (uniformPdf 0 1 x)) fun _ => hm]
  exact uniformOn_pi _ (fun k x => x * (1 + ror.bget (Tensor.unravel (K.impactDims b ror.shape) k) σ)) (fun k => by fun_prop) _ hu

/-- **C97** (impact_parameter): the impact parameter of every entry starts where asked, `1/2` if nothing was asked for. -/
theorem C97_impact_parameter_start (b : Backend) (name : String) {ror : Tensor (VState → ℝ)} {K : VKwargs} (hK : K.OthersOnly)
    (hr : bcastShape (K.impactDims b ror.shape) ror.shape = .ok (K.impactDims b ror.shape)) {vrs : List VReg}
    {v : Tensor (VState → ℝ)} (h : impactParameterV b name ror K = .ok (vrs, v)) (σ : VState) (hσ : IsStartV b vrs σ)
    (idx : List ℕ) (hi : InShape idx (K.impactDims b ror.shape)) (hp : -1 < ror.bget idx σ) : v.get idx σ = K.startAt (1 / 2) idx := by
  obtain ⟨-, -, rs, f, hrs, hn', hE, hv⟩ := C97_impact_parameter b name hK hr h
  rw [hv σ idx hi, C50_start b name _ K.other _ (hrs σ idx) _ hp ((hE σ).2 hσ idx hi)]
  norm_num

/-! ## Calls that succeed, and where they start -/

/-- Without start values every call succeeds that gives the shape as an integer or a tuple (`angle` and `quad_limb_dark`: also as a list;
`impact_parameter`: if `ror` fits). -/
theorem C97_calls_succeed (b : Backend) (name other : String) (reg : Option ℝ) (shape : Option ShapeArg) :
    (∃ r, angleV b name reg { shape := shape } = .ok r) ∧ (∃ r, quadLimbDarkV b name { shape := shape } = .ok r) ∧
    ((∀ l, shape ≠ some (.list l)) → ∃ r, unitDiskV b name other { shape := shape } = .ok r) ∧
    ∀ ror : Tensor (VState → ℝ), bcastShape (VKwargs.impactDims { shape := shape } b ror.shape) ror.shape =
        .ok (VKwargs.impactDims { shape := shape } b ror.shape) →
      ∃ r, impactParameterV b name ror { shape := shape } = .ok r := by
  refine ⟨⟨_, rfl⟩, ⟨_, rfl⟩, fun hl => ?_, fun ror hr => ?_⟩
  · match shape with
    | none => exact ⟨_, rfl⟩
    | some (.int n) => exact ⟨_, rfl⟩
    | some (.tuple l) => exact ⟨_, rfl⟩
    | some (.list l) => exact absurd rfl (hl l)
  · cases b with
    | pymc3 =>
      have e : VKwargs.impactDims { shape := shape } .pymc3 ror.shape = VKwargs.dims { shape := shape } := by
        unfold VKwargs.impactDims
        cases shape <;> rfl
      rw [e] at hr
      unfold impactParameterV
      simp only [popInitvalV, impactShape, bind, Except.bind, Option.orElse_none, Option.getD_none]
      rw [Tensor.zipB_ok (s := ror.shape) (bcastShape_nil_left _)]
      simp only
      rw [Tensor.zipB_ok (s := VKwargs.dims { shape := shape }) hr]
      exact ⟨_, rfl⟩
    | pymc =>
      have e : (shape.getD (.tuple ror.shape)).dims = VKwargs.impactDims { shape := shape } .pymc ror.shape := by
        unfold VKwargs.impactDims VKwargs.dims
        cases shape <;> rfl
      unfold impactParameterV
      simp only [popInitvalV, impactShape, bind, Except.bind, Option.orElse_none, Option.getD_none, broadcastTo, e]
      rw [if_pos (by exact bcastShape_nil_left _)]
      simp only
      rw [Tensor.zipB_ok (s := VKwargs.impactDims { shape := shape } .pymc ror.shape) hr]
      simp only
      rw [Tensor.zipB_ok (s := VKwargs.impactDims { shape := shape } .pymc ror.shape) (by
        show bcastShape (shape.getD (.tuple ror.shape)).dims _ = _
        rw [e]; exact hr)]
      exact ⟨_, rfl⟩

/-- **C97** (angle): a start value that can be broadcast to the shape of the variables can be used, and so can the default. -/
theorem C97_angle_starts_fit (b : Backend) (name : String) (reg : Option ℝ) {K : VKwargs}
    (hK : ∀ w, K.asked = some w → bcastShape w.value.shape K.dims = .ok K.dims) {vrs : List VReg} {v : Tensor (VState → ℝ)}
    (h : angleV b name reg K = .ok (vrs, v)) : StartsFit b vrs := by
  have hsh : bcastShape (K.initval.getD (K.testval.getD (zerosInit K.dims))).value.shape K.dims = .ok K.dims := by
    unfold VKwargs.asked at hK
    cases h1 : K.initval with
    | some w => exact hK w (by rw [h1]; rfl)
    | none =>
      cases h2 : K.testval with
      | some w => exact hK w (by rw [h1, h2]; rfl)
      | none => exact bcastShape_self _
  have h := (Prod.mk.inj (Except.ok.inj h)).1
  subst h
  intro n s f p key start hm
  cases reg <;> simp [pmVarV] at hm <;> rcases hm with hm | hm <;> obtain ⟨-, rfl, -, -, rfl, rfl⟩ := hm <;> exact ⟨rfl, hsh⟩

/-- **C97** (unit_disk): a start value whose rows can be broadcast to the shape of the variables can be used, and so can the default. -/
theorem C97_unit_disk_starts_fit (b : Backend) (nx ny : String) {K : VKwargs}
    (hK : ∀ w, K.asked = some w → bcastShape w.value.shape.tail K.dims = .ok K.dims) {vrs : List VReg} {x y : Tensor (VState → ℝ)}
    (h : unitDiskV b nx ny K = .ok (vrs, x, y)) : StartsFit b vrs := by
  obtain ⟨-, t0, t1, h1, h2, -, -, rfl, -⟩ := unitDiskV_ok b nx ny h
  have hsh : bcastShape t0.shape K.dims = .ok K.dims := by
    rw [h2]
    cases hq : K.asked with
    | none => exact bcastShape_self _
    | some w => exact hK w hq
  intro n s f p key start hm
  simp at hm
  rcases hm with hm | hm <;> obtain ⟨-, rfl, -, -, rfl, rfl⟩ := hm
  · exact ⟨rfl, hsh⟩
  · exact ⟨rfl, by rw [h1] at hsh; exact hsh⟩

/-- **C97** (quad_limb_dark): the same. -/
theorem C97_quad_limb_dark_starts_fit (b : Backend) (name : String) {K : VKwargs}
    (hK : ∀ w, K.asked = some w → bcastShape w.value.shape.tail K.dims = .ok K.dims) {vrs : List VReg} {v : Tensor (VState → ℝ)}
    (h : quadLimbDarkV b name K = .ok (vrs, v)) : StartsFit b vrs := by
  obtain ⟨t0, t1, h1, h2, -, -, rfl, -⟩ := quadLimbDarkV_ok b name h
  have hsh : bcastShape t0.shape K.dims = .ok K.dims := by
    rw [h2]
    cases hq : K.asked with
    | none => exact bcastShape_nil_left _
    | some w => exact hK w hq
  intro n s f p key start hm
  simp at hm
  rcases hm with hm | hm <;> obtain ⟨-, rfl, -, -, rfl, rfl⟩ := hm <;> exact ⟨rfl, hsh⟩

/-- **C97** (impact_parameter): if `ror` fits the shape of the variable, start values that do can be used, and so can the default. -/
theorem C97_impact_parameter_starts_fit (b : Backend) (name : String) {ror : Tensor (VState → ℝ)} {K : VKwargs}
    (hr : bcastShape (K.impactDims b ror.shape) ror.shape = .ok (K.impactDims b ror.shape))
    (hK : ∀ w, K.asked = some w → bcastShape w.value.shape (K.impactDims b ror.shape) = .ok (K.impactDims b ror.shape))
    {vrs : List VReg} {v : Tensor (VState → ℝ)} (h : impactParameterV b name ror K = .ok (vrs, v)) : StartsFit b vrs := by
  obtain ⟨bh, start, -, hbh, hst, -, rfl⟩ := impactParameterV_ok b name h
  obtain ⟨x, hx, -, -, hx'⟩ := BLe.sup (hbh hK) (ble_of_bcast hr).2
  rw [zipB_shape hst] at hx
  intro n s f p key start' hm
  simp at hm
  obtain ⟨-, rfl, -, -, rfl, rfl⟩ := hm
  exact ⟨rfl, by rw [Except.ok.inj hx]; exact bcastShape_of_ble hx'⟩

/-! ## Findings -/

/-- **C97, finding**: `unit_disk` is the only helper that does not accept a list as shape. -/
theorem C97_list_shape_counterexample (b : Backend) (name other : String) (reg : Option ℝ) (l : List ℕ) :
    (∃ msg, unitDiskV b name other { shape := some (.list l) } = .error (.typeError msg)) ∧
    (∃ r, unitDiskV b name other { shape := some (.tuple l) } = .ok r) ∧ (∃ r, angleV b name reg { shape := some (.list l) } = .ok r) ∧
    (∃ r, quadLimbDarkV b name { shape := some (.list l) } = .ok r) ∧
    ∃ r, impactParameterV b name (.scalar fun _ => 0.1) { shape := some (.list l) } = .ok r := by
  refine ⟨⟨_, rfl⟩, ⟨_, rfl⟩, ⟨_, rfl⟩, ⟨_, rfl⟩, (C97_calls_succeed b name other reg _).2.2.2 _ ?_⟩
  have e : bcastShape l [] = .ok l := by
    have := BLe.sup (BLe.refl l) (BLe.nil l)
    obtain ⟨x, hx, h1, -, h2⟩ := this
    rw [hx, BLe.antisymm h1 h2]
  cases b <;> exact e

/-- **C97, finding**: a start value written as a list of lists is accepted by `angle`, but not by `unit_disk` and `quad_limb_dark`, which
accept the same numbers as a list of arrays. -/
theorem C97_nested_list_counterexample (b : Backend) (name other : String) (reg : Option ℝ) (n : ℕ) (t : List ℕ → ℝ) :
    let K : InitKind → VKwargs := fun k => { initval := some ⟨k, ⟨[2, n], t⟩⟩, shape := some (.int n) }
    (∃ msg, unitDiskV b name other (K .nestedList) = .error (.typeError msg)) ∧
    (∃ msg, quadLimbDarkV b name (K .nestedList) = .error (.typeError msg)) ∧ (∃ r, angleV b name reg (K .nestedList) = .ok r) ∧
    (∃ r, unitDiskV b name other (K .listOfArrays) = .ok r) ∧ (∃ r, quadLimbDarkV b name (K .listOfArrays) = .ok r) :=
  ⟨⟨_, rfl⟩, ⟨_, rfl⟩, ⟨_, rfl⟩, ⟨_, rfl⟩, ⟨_, rfl⟩⟩

/-- **C97, finding**: on PyMC3 an impact parameter for a vector of radius ratios, without `shape=`, is a single free number: the entries
of the vector that is returned are proportional to each other, and the start value does not fit the variable. -/
theorem C97_pymc3_vector_ror_counterexample (name : String) (r : List ℕ → ℝ) :
    ∃ vrs v, impactParameterV .pymc3 name ⟨[2], fun idx _ => r idx⟩ {} = .ok (vrs, v) ∧ v.shape = [2] ∧ AllShape vrs [] ∧
      (∀ σ, v.get [0] σ * (1 + r [1]) = v.get [1] σ * (1 + r [0])) ∧ ∀ σ, ¬ IsStartV .pymc3 vrs σ := by
  refine ⟨_, _, rfl, rfl, ?_, ?_, ?_⟩
  · intro n s f p key start hm
    simp [pmVarV] at hm
    exact hm.2.1
  · intro σ
    show σ ("__" ++ name ++ "_impact_parameter") [] * (1 + r [0]) * (1 + r [1]) =
      σ ("__" ++ name ++ "_impact_parameter") [] * (1 + r [1]) * (1 + r [0])
    ring
  · intro σ hσ
    have := (hσ _ _ _ _ _ _ (List.Mem.head _)).2.1
    have e : bcastShape [2] [] = .ok [] := this
    simp [bcastShape, bcastRev] at e
  

/-- The same call on PyMC: two independent entries. -/
theorem C97_pymc_vector_ror (name : String) (r : List ℕ → ℝ) :
    ∃ vrs v, impactParameterV .pymc name ⟨[2], fun idx _ => r idx⟩ {} = .ok (vrs, v) ∧ v.shape = [2] ∧ AllShape vrs [2] := by
  refine ⟨_, _, rfl, rfl, ?_⟩
  intro n s f p key start hm
  simp [pmVarV] at hm
  exact hm.2.1

/-! ## Examples -/

/-- Three phases with a start value for each. -/
example (b : Backend) : ∃ vrs v, angleV b "phi" (some 10)
      { initval := some ⟨.array, ⟨[3], fun idx => (idx.headD 0 : ℝ) / 10⟩⟩, shape := some (.int 3) } = .ok (vrs, v) ∧
    v.shape = [3] ∧ StartsFit b vrs ∧ ∀ σ, IsStartV b vrs σ → ∃ m : ℤ, v.get [2] σ = 2 / 10 + 2 * Real.pi * m := by
  have hK : VKwargs.OthersOnly { initval := some ⟨.array, ⟨[3], fun idx => (idx.headD 0 : ℝ) / 10⟩⟩, shape := some (.int 3) } := by
    intro p hp; cases hp
  refine ⟨_, _, rfl, (C97_angle b "phi" (some 10) hK rfl).1, C97_angle_starts_fit b "phi" (some 10) ?_ rfl, fun σ hσ => ?_⟩
  · intro w hw
    cases hw
    exact bcastShape_self [3]
  · obtain ⟨m, hm⟩ := C97_angle_start b "phi" (some 10) hK rfl σ hσ [2] (.cons (by norm_num) .nil)
    refine ⟨m, hm.trans ?_⟩
    norm_num [VKwargs.startAt, VKwargs.asked, Tensor.bget]

/-- Eccentricity vectors of two planets, without start values: the law of all four numbers. -/
example (b : Backend) : ∃ vrs x y, unitDiskV b "ecs1" "ecs2" { shape := some (.tuple [2]) } = .ok (vrs, x, y) ∧
    x.shape = [2] ∧ StartsFit b vrs ∧ ∃ n1 n2, UniformOn (Measure.map (fun p (k : Fin 2) =>
        (x.get (Tensor.unravel [2] k) (entryState [2] n1 n2 p), y.get (Tensor.unravel [2] k) (entryState [2] n1 n2 p)))
      (lawV2 vrs [2] n1 n2)) (Set.univ.pi fun _ => unitDisc) := by
  have hK : VKwargs.OthersOnly { shape := some (.tuple [2]) } := by intro p hp; cases hp
  obtain ⟨n1, n2, -, h⟩ := C97_unit_disk_uniform b "ecs1" "ecs2" (by decide) hK rfl
  exact ⟨_, _, _, rfl, (C97_unit_disk b "ecs1" "ecs2" hK rfl).1, C97_unit_disk_starts_fit b "ecs1" "ecs2"
    (K := { shape := some (.tuple [2]) }) (fun _ hw => by cases hw) rfl,
    n1, n2, h⟩

/-- Limb darkening of two stars: a row of first and a row of second coefficients. -/
example (b : Backend) : ∃ vrs v, quadLimbDarkV b "u" { shape := some (.int 2) } = .ok (vrs, v) ∧ v.shape = [2, 2] ∧ StartsFit b vrs ∧
    ∀ σ, IsStartV b vrs σ → v.get [0, 1] σ = Real.sqrt 0.5 ∧ v.get [1, 1] σ = 0 := by
  have hK : VKwargs.OthersOnly { shape := some (.int 2) } := by intro p hp; cases hp
  refine ⟨_, _, rfl, (C97_quad_limb_dark b "u" hK rfl).1, C97_quad_limb_dark_starts_fit b "u"
    (K := { shape := some (.int 2) }) (fun _ hw => by cases hw) rfl,
    fun σ hσ => C97_quad_limb_dark_start b "u" hK rfl σ hσ [1] (.cons (by norm_num) .nil) ?_⟩
  have h0 : (0 : ℝ) < Real.sqrt 0.5 := Real.sqrt_pos.2 (by norm_num)
  have h1 : Real.sqrt 0.5 < 1 := by rw [Real.sqrt_lt' (by norm_num)]; norm_num
  show Real.sqrt 0.5 + 0 < 1 ∧ 0 < Real.sqrt 0.5 ∧ 0 < Real.sqrt 0.5 + 2 * 0
  exact ⟨by linarith, h0, by linarith⟩

/-- Two planets on PyMC, without `shape=`: independent impact parameters, each up to its own `1 + ror`, starting at one half. -/
example : ∃ vrs v, impactParameterV .pymc "b" ⟨[2], fun idx _ => if idx = [0] then 0.1 else 0.05⟩ {} = .ok (vrs, v) ∧
    StartsFit .pymc vrs ∧ (∀ σ, IsStartV .pymc vrs σ → v.get [1] σ = 1 / 2) ∧ ∃ n, ∀ σ,
      UniformOn (Measure.map (fun x (k : Fin 2) => v.get (Tensor.unravel [2] k) (setEntries σ [2] n x)) (lawV1 vrs [2] n σ))
        (Set.univ.pi fun k => Set.Icc 0 (1 + if k = 0 then 0.1 else 0.05)) := by
  have hK : VKwargs.OthersOnly {} := by intro p hp; cases hp
  have hr : bcastShape (VKwargs.impactDims {} .pymc [2]) [2] = .ok (VKwargs.impactDims {} .pymc [2]) := bcastShape_self [2]
  have hpos : ∀ idx σ, -1 < Tensor.bget (⟨[2], fun idx _ => if idx = [0] then 0.1 else 0.05⟩ : Tensor (VState → ℝ)) idx σ := by
    intro idx σ
    simp only [Tensor.bget]
    split_ifs <;> norm_num
  obtain ⟨n, -, h⟩ := C97_impact_parameter_uniform .pymc "b" (ror := ⟨[2], fun idx _ => if idx = [0] then 0.1 else 0.05⟩) hK hr rfl
  refine ⟨_, _, rfl, C97_impact_parameter_starts_fit .pymc "b" (ror := ⟨[2], fun idx _ => if idx = [0] then 0.1 else 0.05⟩)
    (K := {}) hr (fun _ hw => by cases hw) rfl, fun σ hσ => ?_, n, fun σ => ?_⟩
  · have hi : InShape [1] [2] := .cons (by norm_num) .nil
    exact C97_impact_parameter_start .pymc "b" (ror := ⟨[2], fun idx _ => if idx = [0] then 0.1 else 0.05⟩) hK hr rfl σ hσ [1] hi
      (hpos _ _)
  · have h := h σ (fun idx => hpos idx σ) (fun _ _ => rfl)
    have e : ∀ k : Fin 2, Tensor.bget (⟨[2], fun idx _ => if idx = [0] then 0.1 else 0.05⟩ : Tensor (VState → ℝ))
        (Tensor.unravel [2] k) σ = if k = 0 then 0.1 else 0.05 := by
      intro k
      fin_cases k <;> simp [Tensor.bget, Tensor.unravel]
    refine Eq.mp ?_ h
    congr 2
    funext k
    exact congrArg (fun z => Set.Icc (0 : ℝ) (1 + z)) (e k)

end Exo
