import Verif.Spec.DistributionShapes
import Verif.Lemmas.ProductLaw
import Verif.Lemmas.Tensor
import Verif.Props.Distributions

/-!
# C97 — array-valued parameters
-/

namespace Exo
open Kwargs MeasureTheory
open scoped ENNReal

/-! ## Entries -/

theorem unravel_inShape : ∀ {s : List ℕ} {k : ℕ}, k < s.prod → InShape (Tensor.unravel s k) s
  | [], k, _ => List.Forall₂.nil
  | n :: s, k, h => by
    rw [List.prod_cons] at h
    have hp : 0 < s.prod := by
      rcases Nat.eq_zero_or_pos s.prod with h0 | h0
      · rw [h0] at h; omega
      · exact h0
    exact List.Forall₂.cons (Nat.div_lt_of_lt_mul (by rwa [mul_comm] at h)) (unravel_inShape (Nat.mod_lt _ hp))

theorem ravel_unravel : ∀ {s : List ℕ} {k : ℕ}, k < s.prod → Tensor.ravel s (Tensor.unravel s k) = k
  | [], k, h => by
    have : k = 0 := by simpa using h
    subst this; rfl
  | n :: s, k, h => by
    rw [List.prod_cons] at h
    have hp : 0 < s.prod := by
      rcases Nat.eq_zero_or_pos s.prod with h0 | h0
      · rw [h0] at h; omega
      · exact h0
    simp only [Tensor.unravel, Tensor.ravel]
    rw [ravel_unravel (Nat.mod_lt _ hp), mul_comm]
    exact Nat.div_add_mod k s.prod

theorem entryState_entry (s : List ℕ) (n1 n2 : String) (p : Fin s.prod → ℝ × ℝ) (k : Fin s.prod) :
    (entryState s n1 n2 p).entry (Tensor.unravel s k) = twoState n1 n2 (p k) := by
  funext n
  unfold VState.entry entryState
  have h := ravel_unravel k.2
  rw [dif_pos (by rw [h]; exact k.2)]
  congr 2
  exact Fin.ext h

/-- A registration and one of its entries. -/
def RegAt (b : Backend) (σ : VState) (idx : List ℕ) : VReg → Reg → Prop
  | .free n s f p _ start, .free m d kw => m = n ∧ (∀ τ x, d.density τ x = (Dist.plain f p).density τ x) ∧
      kw.mem b.startKey = true ∧
      (bcastShape start.shape s = .ok s → (kw.get b.startKey .none).eval (σ.entry idx) = start.bget idx σ)
  | .potential m f, .potential n g => m = n ∧ f.get idx σ = g (σ.entry idx)
  | .deterministic m _, .deterministic n _ => m = n
  | _, _ => False

/-- The shape of a free variable or potential is `s`. -/
def VReg.HasShape (s : List ℕ) : VReg → Prop
  | .free _ s' _ _ _ _ => s' = s
  | .potential _ f => f.shape = s
  | .deterministic _ _ => True

theorem ereal_exp_sum {ι : Type} (t : Finset ι) (f : ι → EReal) : EReal.exp (∑ i ∈ t, f i) = ∏ i ∈ t, EReal.exp (f i) := by
  classical
  induction t using Finset.induction_on with
  | empty => simp
  | insert a t ha ih => rw [Finset.sum_insert ha, Finset.prod_insert ha, EReal.exp_add, ih]

/-- Registrations `vrs` and the registrations of the entries. -/
def Entries (b : Backend) (s : List ℕ) (σ : VState) (vrs : List VReg) (rs : List (List ℕ → Reg)) : Prop :=
  List.Forall₂ (fun vr r => vr.HasShape s ∧ ∀ idx, InShape idx s → RegAt b σ idx vr (r idx)) vrs rs

theorem Entries.joint {b : Backend} {s : List ℕ} {σ : VState} {vrs : List VReg} {rs : List (List ℕ → Reg)}
    (h : Entries b s σ vrs rs) : jointDensityV vrs σ =
      ∏ k ∈ Finset.range s.prod, jointDensity (rs.map fun r => r (Tensor.unravel s k)) (σ.entry (Tensor.unravel s k)) := by
  induction h with
  | nil => simp [jointDensityV, jointDensity]
  | @cons vr r vrs rs h1 h2 ih =>
    have e : ∀ k, jointDensity ((r :: rs).map fun r => r (Tensor.unravel s k)) (σ.entry (Tensor.unravel s k)) =
        (r (Tensor.unravel s k)).factor (σ.entry (Tensor.unravel s k)) *
          jointDensity (rs.map fun r => r (Tensor.unravel s k)) (σ.entry (Tensor.unravel s k)) := fun k => by
      rw [List.map_cons, jointDensity_cons]
    have e' : jointDensityV (vr :: vrs) σ = vr.factor σ * jointDensityV vrs σ := by simp [jointDensityV]
    rw [e', ih]
    simp only [e]
    rw [Finset.prod_mul_distrib]
    congr 1
    obtain ⟨hs, h1⟩ := h1
    have h1' : ∀ k ∈ Finset.range s.prod, RegAt b σ (Tensor.unravel s k) vr (r (Tensor.unravel s k)) := fun k hk =>
      h1 _ (unravel_inShape (Finset.mem_range.1 hk))
    cases vr with
    | free n s' f p key start =>
      have hs : s' = s := hs
      subst hs
      refine Finset.prod_congr rfl fun k hk => ?_
      have := h1' k hk
      cases hr : r (Tensor.unravel s' k) with
      | free m d kw =>
        rw [hr] at this
        obtain ⟨rfl, hd, -, -⟩ := this
        exact (hd _ _).symm
      | potential _ _ => rw [hr] at this; exact this.elim
      | deterministic _ _ => rw [hr] at this; exact this.elim
    | potential n f =>
      have hs : f.shape = s := hs
      subst hs
      simp only [VReg.factor]
      rw [ereal_exp_sum]
      refine Finset.prod_congr rfl fun k hk => ?_
      have := h1' k hk
      cases hr : r (Tensor.unravel f.shape k) with
      | free m d kw => rw [hr] at this; exact this.elim
      | potential _ _ => rw [hr] at this; rw [this.2]; rfl
      | deterministic _ _ => rw [hr] at this; exact this.elim
    | deterministic n f =>
      symm
      refine Finset.prod_eq_one fun k hk => ?_
      have := h1' k hk
      cases hr : r (Tensor.unravel s k) with
      | free m d kw => rw [hr] at this; exact this.elim
      | potential _ _ => rw [hr] at this; exact this.elim
      | deterministic _ _ => rfl

theorem Entries.start {b : Backend} {s : List ℕ} {σ : VState} {vrs : List VReg} {rs : List (List ℕ → Reg)}
    (h : Entries b s σ vrs rs) (hσ : IsStartV b vrs σ) {idx : List ℕ} (hi : InShape idx s) :
    IsStart b (rs.map fun r => r idx) (σ.entry idx) := by
  induction h with
  | nil => intro n d kw hm; simp at hm
  | @cons vr r vrs rs h1 h2 ih =>
    have ih := ih fun n s f p key start hm => hσ n s f p key start (List.mem_cons_of_mem _ hm)
    obtain ⟨hs, h1⟩ := h1
    have h1 := h1 idx hi
    rw [List.map_cons]
    intro n d kw hm
    cases hr : r idx with
    | free m d' kw' =>
      rw [hr] at h1 hm
      cases vr with
      | free m' s' f p key start =>
        obtain ⟨rfl, -, hk, he⟩ := h1
        have hs : s' = s := hs
        subst hs
        obtain ⟨-, hb, hv⟩ := hσ m s' f p key start (List.Mem.head _)
        by_cases hn : m = n
        · subst hn
          refine ⟨kw'.get b.startKey .none, ?_, ?_⟩
          · unfold startValue
            rw [List.findSome?_cons]
            simp [hk]
          · rw [he hb, hv idx hi]; rfl
        · rcases List.mem_cons.1 hm with hm | hm
          · exact absurd (Reg.free.inj hm).1.symm hn
          · obtain ⟨v, h3, h4⟩ := ih n d kw hm
            refine ⟨v, ?_, h4⟩
            rw [← h3]
            unfold startValue
            rw [List.findSome?_cons]
            simp [hn]
      | potential _ _ => exact h1.elim
      | deterministic _ _ => exact h1.elim
    | potential m f =>
      rw [hr] at hm
      rcases List.mem_cons.1 hm with hm | hm
      · cases hm
      · obtain ⟨v, h3, h4⟩ := ih n d kw hm
        refine ⟨v, ?_, h4⟩
        rw [← h3]
        unfold startValue
        rw [List.findSome?_cons]
    | deterministic m f =>
      rw [hr] at hm
      rcases List.mem_cons.1 hm with hm | hm
      · cases hm
      · obtain ⟨v, h3, h4⟩ := ih n d kw hm
        refine ⟨v, ?_, h4⟩
        rw [← h3]
        unfold startValue
        rw [List.findSome?_cons]

theorem Entries.entryWise {b : Backend} {s : List ℕ} {vrs : List VReg} {rs : VState → List (List ℕ → Reg)}
    (h : ∀ σ, Entries b s σ vrs (rs σ)) : EntryWise b vrs s fun σ idx => (rs σ).map fun r => r idx :=
  fun σ => ⟨(h σ).joint, fun hσ _ hi => (h σ).start hσ hi⟩

/-! ## Keyword arguments -/

theorem VKwargs.OthersOnly.strip {K : VKwargs} (h : K.OthersOnly) (v : Val) : strip (("initval", v) :: K.other) = K.other := by
  have h1 : K.other.mem "initval" = false := mem_false_iff.2 fun p hp e => h p hp (by simp [e])
  have h2 : K.other.mem "testval" = false := mem_false_iff.2 fun p hp e => h p hp (by simp [e])
  unfold Exo.strip
  have e : del (("initval", v) :: K.other) "testval" = ("initval", v) :: K.other.del "testval" := by
    unfold del; rw [List.filter_cons_of_pos (by simp)]
  rw [e, del_of_not_mem h2]
  unfold del
  rw [List.filter_cons_of_neg (by simp)]
  exact del_of_not_mem h1

theorem VKwargs.OthersOnly.start_not_mem {K : VKwargs} (h : K.OthersOnly) (b : Backend) : K.other.mem b.startKey = false :=
  mem_false_iff.2 fun p hp e => h p hp (by cases b <;> simp [e, Backend.startKey])

theorem normal_density_start (b : Backend) (K : Kwargs) (v : Val) (σ : State) (x : ℝ) :
    (Dist.plain .normal (K ++ [(b.startKey, v)])).density σ x = (Dist.plain .normal K).density σ x := by
  simp only [Dist.density, Family.pdf]
  rw [get_append_right_not_mem (by cases b <;> simp [Kwargs.mem, Backend.startKey]),
    get_append_right_not_mem (by cases b <;> simp [Kwargs.mem, Backend.startKey])]

theorem uniform_density_limits (lo hi : ℝ) (K : Kwargs) (σ : State) (x : ℝ) :
    (Dist.plain .uniform ((K.set "lower" (Val.ofReal lo)).set "upper" (Val.ofReal hi))).density σ x =
      ENNReal.ofReal (uniformPdf lo hi x) := by
  simp only [Dist.density, Family.pdf]
  rw [get_set_ne (by decide), get_set_self, get_set_self]
  rfl

theorem bget_const {α : Type} (s idx : List ℕ) (x : α) : Tensor.bget ⟨s, fun _ => x⟩ idx = x := rfl

theorem bget_map {α β : Type} (f : α → β) (t : Tensor α) (idx : List ℕ) : (t.map f).bget idx = f (t.bget idx) := rfl

/-! ## Laws -/

theorem finite_of_uniform {α β : Type} [MeasurableSpace α] [MeasureSpace β] {μ : Measure α} {f : α → β} (hf : Measurable f)
    {S : Set β} (hS : volume S ≠ ⊤) (h : UniformOn (μ.map f) S) : IsFiniteMeasure μ := by
  obtain ⟨c, -, hc, e⟩ := h
  refine ⟨?_⟩
  have : μ Set.univ = (μ.map f) Set.univ := by rw [Measure.map_apply hf MeasurableSet.univ, Set.preimage_univ]
  rw [this, e, Measure.smul_apply, Measure.restrict_apply_univ, smul_eq_mul]
  exact ENNReal.mul_lt_top hc.lt_top hS.lt_top

/-- If every entry is uniform on `S` then all entries together are uniform on `S × ... × S`. -/
theorem lawV2_uniform {b : Backend} {vrs : List VReg} {s : List ℕ} {rs : List ℕ → List Reg} {n1 n2 : String}
    (hE : EntryWise b vrs s fun _ => rs) (hm : ∀ idx, Measurable fun p => jointDensity (rs idx) (twoState n1 n2 p))
    {β : Type} [MeasureSpace β] [SigmaFinite (volume : Measure β)] (g : List ℕ → State → β)
    (hg : ∀ idx, Measurable fun p => g idx (twoState n1 n2 p)) {S : Set β} (hS : volume S ≠ ⊤)
    (hU : ∀ idx, UniformOn (Measure.map (fun p => g idx (twoState n1 n2 p)) (law2 (rs idx) n1 n2)) S) :
    UniformOn (Measure.map (fun p (k : Fin s.prod) => g (Tensor.unravel s k) ((entryState s n1 n2 p).entry (Tensor.unravel s k)))
      (lawV2 vrs s n1 n2)) (Set.univ.pi fun _ => S) := by
  have hf : ∀ idx, IsFiniteMeasure (law2 (rs idx) n1 n2) := fun idx => finite_of_uniform (hg idx) hS (hU idx)
  have e : lawV2 vrs s n1 n2 = Measure.pi fun k : Fin s.prod => law2 (rs (Tensor.unravel s k)) n1 n2 := by
    have hf' : ∀ k : Fin s.prod, SigmaFinite ((volume : Measure (ℝ × ℝ)).withDensity
        fun p => jointDensity (rs (Tensor.unravel s k)) (twoState n1 n2 p)) := fun k => by
      have := hf (Tensor.unravel s k)
      unfold law2 at this
      infer_instance
    unfold lawV2 law2
    rw [← withDensity_pi_prod _ _ fun k => hm _]
    congr 1
    funext p
    rw [(hE _).1, Finset.prod_range]
    exact Finset.prod_congr rfl fun k _ => by rw [entryState_entry]
  rw [e]
  simp only [entryState_entry]
  exact uniformOn_pi _ (fun k => fun p => g (Tensor.unravel s k) (twoState n1 n2 p)) (fun k => hg _) _ fun k => hU _

/-! ## angle -/

/-- **C97** (angle): entry by entry the call is the scalar call with the entry of the start value, and every value is that of its
entry. -/
theorem C97_angle (b : Backend) (name : String) (reg : Option ℝ) {K : VKwargs} (hK : VKwargs.OthersOnly K) {vrs : List VReg}
    {v : Tensor (VState → ℝ)} (h : angleV b name reg K = .ok (vrs, v)) :
    v.shape = K.dims ∧ AllShape vrs K.dims ∧ ∃ (rs : List ℕ → List Reg) (f : List ℕ → State → ℝ),
      (∀ idx, angle b name reg (("initval", Val.ofReal (K.startAt 0 idx)) :: K.other) = .ok (rs idx, f idx)) ∧
      (∀ idx, freeNames (rs idx) = freeNamesV vrs) ∧ EntryWise b vrs K.dims (fun _ => rs) ∧
      ∀ idx σ, v.get idx σ = f idx (σ.entry idx) := by
  unfold angleV popInitvalV at h
  have h := Prod.mk.inj (Except.ok.inj h)
  obtain ⟨rfl, rfl⟩ := h
  have hst : ∀ idx, ((K.initval.orElse fun _ => K.testval).getD (zerosInit K.dims)).value.bget idx = K.startAt 0 idx := by
    intro idx
    unfold VKwargs.startAt VKwargs.asked
    cases K.initval.orElse fun _ => K.testval with
    | none => rfl
    | some w => rfl
  refine ⟨rfl, ?_, ?_⟩
  · intro n s f p key start hm
    cases reg <;> simp [pmVarV] at hm <;> rcases hm with hm | hm <;> exact hm.2.1
  refine ⟨fun idx => List.map (fun r => r idx)
    ([fun idx => pmVar .normal ("__" ++ name ++ "_angle1") (K.other ++ [(b.startKey, .num fun _ => Real.sin (K.startAt 0 idx))]),
      fun idx => pmVar .normal ("__" ++ name ++ "_angle2") (K.other ++ [(b.startKey, .num fun _ => Real.cos (K.startAt 0 idx))])] ++
      (anglePot name reg).map (fun r _ => r) ++
      [fun _ => .deterministic name (fun σ => [arctan2 (σ ("__" ++ name ++ "_angle1")) (σ ("__" ++ name ++ "_angle2"))])]),
    fun _ σ => arctan2 (σ ("__" ++ name ++ "_angle1")) (σ ("__" ++ name ++ "_angle2")), ?_, ?_, ?_, ?_⟩
  · intro idx
    rw [angle_eq]
    have hr : requested (("initval", Val.ofReal (K.startAt 0 idx)) :: K.other) (Val.ofReal 0) = Val.ofReal (K.startAt 0 idx) :=
      get_cons_self ..
    rw [hr, hK.strip]
    simp only [Val.ofReal, Val.asNum, List.map_append, List.map_map, Function.comp_def, List.map_id']
    rfl
  · intro idx
    cases reg <;> rfl
  · refine Entries.entryWise fun σ => ?_
    unfold Entries
    have h1 : ∀ (g : ℝ → ℝ) (n : String), (fun (vr : VReg) (r : List ℕ → Reg) => vr.HasShape K.dims ∧ ∀ idx, InShape idx K.dims →
        RegAt b σ idx vr (r idx))
        (pmVarV b .normal n { K with initval := none, testval := none }
          (numStart (((K.initval.orElse fun _ => K.testval).getD (zerosInit K.dims)).value.map g)))
        (fun idx => pmVar .normal n (K.other ++ [(b.startKey, .num fun _ => g (K.startAt 0 idx))])) := by
      intro g n
      refine ⟨rfl, fun idx _ => ⟨rfl, fun τ x => normal_density_start b _ _ τ x, ?_, ?_⟩⟩
      · rw [mem_append]; simp [Kwargs.mem]
      · intro _
        rw [get_append_left_not_mem (hK.start_not_mem b), get_cons_self]
        simp only [numStart, bget_map, hst, Val.eval]
    refine List.Forall₂.cons (h1 _ _) (List.Forall₂.cons (h1 _ _) ?_)
    cases reg with
    | none => exact List.Forall₂.cons ⟨trivial, fun _ _ => rfl⟩ List.Forall₂.nil
    | some c =>
      refine List.Forall₂.cons ⟨rfl, fun idx _ => ⟨rfl, rfl⟩⟩ (List.Forall₂.cons ⟨trivial, fun _ _ => rfl⟩ List.Forall₂.nil)
  · intro idx σ
    rfl

theorem measurable_arctan2 : Measurable fun p : ℝ × ℝ => arctan2 p.1 p.2 := by
  have hma : Measurable (fun p : ℝ × ℝ => Complex.arg ⟨p.1, p.2⟩) :=
    Complex.measurable_arg.comp Complex.measurableEquivRealProd.symm.measurable
  exact hma.comp measurable_swap

/-- **C97** (angle): the angles of all entries are independent and uniform on `(-π, π]`: together they are uniform on the cube. -/
theorem C97_angle_uniform (b : Backend) (name : String) (reg : Option ℝ) (hreg : ∀ c, reg = some c → -1 < c) {K : VKwargs}
    (hK : VKwargs.OthersOnly K) (hP : PlainKwargs K.other) {vrs : List VReg} {v : Tensor (VState → ℝ)}
    (h : angleV b name reg K = .ok (vrs, v)) : ∃ n1 n2, freeNamesV vrs = [n1, n2] ∧
      UniformOn (Measure.map (fun p (k : Fin K.dims.prod) => v.get (Tensor.unravel K.dims k) (entryState K.dims n1 n2 p))
        (lawV2 vrs K.dims n1 n2)) (Set.univ.pi fun _ => Set.Ioc (-Real.pi) Real.pi) := by
  obtain ⟨-, -, rs, f, hrs, hn, hE, hv⟩ := C97_angle b name reg hK h
  have hP' : ∀ idx, PlainKwargs (("initval", Val.ofReal (K.startAt 0 idx)) :: K.other) := fun idx p hp => by
    rcases List.mem_cons.1 hp with rfl | hp
    · simp
    · exact hP p hp
  have hfn : freeNamesV vrs = ["__" ++ name ++ "_angle1", "__" ++ name ++ "_angle2"] := by
    have h0 := hrs []
    obtain ⟨iv, -, e, -⟩ := angle_ok b name reg h0
    rw [← hn [], e]
    cases reg <;> rfl
  refine ⟨_, _, hfn, ?_⟩
  simp only [hv]
  refine lawV2_uniform hE (fun idx => ?_) f (fun idx => ?_) (by simp) fun idx => ?_
  · obtain ⟨iv, -, e, -⟩ := angle_ok b name reg (hrs idx)
    rw [e]
    simp only [angle_density b name reg (hP' idx), twoState_fst (angle_names name), twoState_snd]
    have := angleRadial_measurable reg
    fun_prop
  · obtain ⟨iv, -, -, e⟩ := angle_ok b name reg (hrs idx)
    rw [e]
    simp only [twoState_fst (angle_names name), twoState_snd]
    exact measurable_arctan2
  · obtain ⟨n1, n2, e, hu⟩ := C51_uniform b name reg hreg (hP' idx) (hrs idx)
    rw [hn idx, hfn] at e
    obtain ⟨rfl, e'⟩ := List.cons.inj e
    obtain ⟨rfl, -⟩ := List.cons.inj e'
    exact hu

/-- **C97** (angle): called with a start value, the sampler starts every entry at its entry of the start value, modulo `2π`. -/
theorem C97_angle_start (b : Backend) (name : String) (reg : Option ℝ) {K : VKwargs} (hK : VKwargs.OthersOnly K) {vrs : List VReg}
    {v : Tensor (VState → ℝ)} (h : angleV b name reg K = .ok (vrs, v)) (σ : VState) (hσ : IsStartV b vrs σ) (idx : List ℕ)
    (hi : InShape idx K.dims) : ∃ m : ℤ, v.get idx σ = K.startAt 0 idx + 2 * Real.pi * m := by
  obtain ⟨-, -, rs, f, hrs, hn, hE, hv⟩ := C97_angle b name reg hK h
  rw [hv]
  exact C51_start b name reg K.other _ (hrs idx) _ ((hE σ).2 hσ idx hi)

/-! ## unit_disk -/

theorem item_ok {v w : VInit} {i : ℕ} (h : v.item i = .ok w) :
    w.value = ⟨v.value.shape.tail, fun j => v.value.get (i :: j)⟩ := by
  unfold VInit.item at h
  cases hs : v.value.shape with
  | nil => rw [hs] at h; cases h
  | cons n s =>
    rw [hs] at h
    simp only at h
    split at h
    · have h := Except.ok.inj h
      rw [← h]
      rfl
    · cases h

theorem num_ok {v : VInit} {t : Tensor ℝ} (h : v.num = .ok t) : v.kind = .array ∧ t = v.value := by
  unfold VInit.num at h
  cases hk : v.kind with
  | array => rw [hk] at h; exact ⟨rfl, (Except.ok.inj h).symm⟩
  | listOfArrays => rw [hk] at h; cases h
  | nestedList => rw [hk] at h; cases h

/-- What a successful call of `unit_disk` has done. -/
theorem unitDiskV_ok (b : Backend) (nx ny : String) {K : VKwargs} {vrs : List VReg} {x y : Tensor (VState → ℝ)}
    (h : unitDiskV b nx ny K = .ok (vrs, x, y)) : (∀ l, K.shape ≠ some (.list l)) ∧ ∃ t0 t1 : Tensor ℝ,
    t0.shape = t1.shape ∧ t0.shape = (K.asked.map fun w => w.value.shape.tail).getD K.dims ∧
    (∀ idx, t0.bget idx = K.rowAt 0 0 idx) ∧ (∀ idx, t1.bget idx = K.rowAt 1 0 idx) ∧
    vrs = [.free nx K.dims .uniform ((K.other.set "lower" (Val.ofReal (-1))).set "upper" (Val.ofReal 1)) b.startKey (numStart t0),
      .free ("__" ++ ny ++ "_unit_disk") K.dims .uniform ((K.other.set "lower" (Val.ofReal (-1))).set "upper" (Val.ofReal 1))
        b.startKey (numStart ⟨t1.shape, fun idx => t1.get idx * Real.sqrt (1 - t0.get idx ^ 2)⟩),
      .potential (ny ++ "_jacobian") ⟨K.dims, fun idx σ => ptLog (Real.sqrt (1 - σ nx idx ^ 2))⟩,
      .deterministic ny ⟨K.dims, fun idx σ => σ ("__" ++ ny ++ "_unit_disk") idx * Real.sqrt (1 - σ nx idx ^ 2)⟩] ∧
    x = ⟨K.dims, fun idx σ => σ nx idx⟩ ∧
    y = ⟨K.dims, fun idx σ => σ ("__" ++ ny ++ "_unit_disk") idx * Real.sqrt (1 - σ nx idx ^ 2)⟩ := by
  unfold unitDiskV at h
  have hl : ∀ l, K.shape ≠ some (.list l) := by
    intro l e
    rw [e] at h
    cases h
  refine ⟨hl, ?_⟩
  obtain ⟨sh, hsh⟩ : ∃ sh, diskInitShape K.shape = .ok sh := by
    cases hs : K.shape with
    | none => exact ⟨_, rfl⟩
    | some a =>
      cases a with
      | int n => exact ⟨_, rfl⟩
      | tuple l => exact ⟨_, rfl⟩
      | list l => exact absurd hs (hl l)
  rw [hsh] at h
  simp only [popInitvalV, bind, Except.bind] at h
  set init := (K.initval.orElse fun _ => K.testval).getD (zerosInit sh) with hinit
  cases h0 : init.item 0 with
  | error e => rw [h0] at h; cases h
  | ok i0 =>
  cases h1 : init.item 1 with
  | error e => rw [h0, h1] at h; cases h
  | ok i1 =>
  cases h2 : i0.num with
  | error e => rw [h0, h1] at h; simp only [h2] at h; cases h
  | ok a0 =>
  cases h3 : i1.num with
  | error e => rw [h0, h1] at h; simp only [h2, h3] at h; cases h
  | ok a1 =>
  rw [h0, h1] at h
  simp only [h2, h3] at h
  obtain ⟨-, rfl⟩ := num_ok h2
  obtain ⟨-, rfl⟩ := num_ok h3
  have h := Except.ok.inj h
  have e0 := item_ok h0
  have e1 := item_ok h1
  have hst : ∀ i idx, Tensor.bget ⟨init.value.shape.tail, fun j => init.value.get (i :: j)⟩ idx = K.rowAt i 0 idx := by
    intro i idx
    unfold VKwargs.rowAt VKwargs.asked
    rw [hinit]
    cases K.initval.orElse fun _ => K.testval with
    | none => rfl
    | some w => rfl
  have hdim : sh.tail = K.dims := by
    unfold VKwargs.dims
    cases hs : K.shape with
    | none => rw [hs] at hsh; rw [← Except.ok.inj hsh]; rfl
    | some a =>
      cases a with
      | int n => rw [hs] at hsh; rw [← Except.ok.inj hsh]; rfl
      | tuple l => rw [hs] at hsh; rw [← Except.ok.inj hsh]; rfl
      | list l => exact absurd hs (hl l)
  have hshape : init.value.shape.tail = (K.asked.map fun w => w.value.shape.tail).getD K.dims := by
    rw [hinit]
    unfold VKwargs.asked
    cases K.initval.orElse fun _ => K.testval with
    | none => exact hdim
    | some w => rfl
  refine ⟨i0.value, i1.value, by rw [e0, e1], by rw [e0]; exact hshape, fun idx => by rw [e0, hst], fun idx => by rw [e1, hst], ?_⟩
  have h := Prod.mk.inj h
  have h' := Prod.mk.inj h.2
  exact ⟨h.1.symm, h'.1.symm, h'.2.symm⟩

theorem uniformAt (b : Backend) {K : Kwargs} {K' : Kwargs} (hK : ∀ lo hi v, (limKw b lo hi v K').get b.startKey .none = v)
    (lo hi : ℝ) (n : String) (s : List ℕ) (start : Tensor (VState → Option ℝ)) (v : List ℕ → Val) (σ : VState)
    (hv : ∀ idx, InShape idx s → bcastShape start.shape s = .ok s → (v idx).eval (σ.entry idx) = start.bget idx σ) :
    (fun (vr : VReg) (r : List ℕ → Reg) => vr.HasShape s ∧ ∀ idx, InShape idx s → RegAt b σ idx vr (r idx))
      (.free n s .uniform ((K.set "lower" (Val.ofReal lo)).set "upper" (Val.ofReal hi)) b.startKey start)
      (fun idx => pmVar .uniform n (limKw b lo hi (v idx) K')) := by
  refine ⟨rfl, fun idx hi' => ⟨rfl, fun τ x => ?_, limKw_mem .., fun hb => ?_⟩⟩
  · rw [limKw_density, uniform_density_limits]
  · rw [hK]
    exact hv idx hi' hb

theorem VKwargs.OthersOnly.limKw {K : VKwargs} (hK : K.OthersOnly) (b : Backend) (lo hi : ℝ) (v : Val) :
    (limKw b lo hi v K.other).get b.startKey .none = v := by
  have h1 : K.other.mem "initval" = false := mem_false_iff.2 fun p hp e => hK p hp (by simp [e])
  have h2 : K.other.mem "testval" = false := mem_false_iff.2 fun p hp e => hK p hp (by simp [e])
  exact limKw_start _ _ _ _ _ h1 h2

/-- **C97** (unit_disk): entry by entry the call is the scalar call with the entries of the start value, and the two values are those
of the entry. -/
theorem C97_unit_disk (b : Backend) (nx ny : String) {K : VKwargs} (hK : K.OthersOnly) {vrs : List VReg}
    {x y : Tensor (VState → ℝ)} (h : unitDiskV b nx ny K = .ok (vrs, x, y)) :
    x.shape = K.dims ∧ y.shape = K.dims ∧ AllShape vrs K.dims ∧ ∃ (rs : List ℕ → List Reg) (fx fy : List ℕ → State → ℝ),
      (∀ idx, unitDisk b nx ny (("initval", .seq [fun _ => K.rowAt 0 0 idx, fun _ => K.rowAt 1 0 idx]) :: K.other) =
        .ok (rs idx, fx idx, fy idx)) ∧
      (∀ idx, freeNames (rs idx) = freeNamesV vrs) ∧ EntryWise b vrs K.dims (fun _ => rs) ∧
      ∀ idx σ, x.get idx σ = fx idx (σ.entry idx) ∧ y.get idx σ = fy idx (σ.entry idx) := by
  obtain ⟨-, t0, t1, hsh, -, h0, h1, rfl, rfl, rfl⟩ := unitDiskV_ok b nx ny h
  refine ⟨rfl, rfl, ?_, ?_⟩
  · intro n s f p key start hm
    simp at hm
    rcases hm with hm | hm <;> exact hm.2.1
  refine ⟨fun idx => List.map (fun r => r idx)
    [fun idx => pmVar .uniform nx (limKw b (-1) 1 (.num fun _ => K.rowAt 0 0 idx) K.other),
      fun idx => pmVar .uniform ("__" ++ ny ++ "_unit_disk")
        (limKw b (-1) 1 (.num fun _ => K.rowAt 1 0 idx * Real.sqrt (1 - K.rowAt 0 0 idx ^ 2)) K.other),
      fun _ => .potential (ny ++ "_jacobian") (fun σ => ptLog (Real.sqrt (1 - σ nx ^ 2))),
      fun _ => .deterministic ny (fun σ => [σ ("__" ++ ny ++ "_unit_disk") * Real.sqrt (1 - σ nx ^ 2)])],
    fun _ σ => σ nx, fun _ σ => σ ("__" ++ ny ++ "_unit_disk") * Real.sqrt (1 - σ nx ^ 2), ?_, ?_, ?_, ?_⟩
  · intro idx
    rw [unitDisk_eq, hK.strip]
    have hr : requested (("initval", Val.seq [fun _ => K.rowAt 0 0 idx, fun _ => K.rowAt 1 0 idx]) :: K.other)
        (.seq [fun _ => 0, fun _ => 0]) = Val.seq [fun _ => K.rowAt 0 0 idx, fun _ => K.rowAt 1 0 idx] := get_cons_self ..
    rw [hr]
    rfl
  · intro idx
    rfl
  · refine Entries.entryWise fun σ => ?_
    refine List.Forall₂.cons (uniformAt b (hK.limKw b) _ _ _ _ _ (fun idx => .num fun _ => K.rowAt 0 0 idx) σ fun idx _ _ => ?_)
      (List.Forall₂.cons (uniformAt b (hK.limKw b) _ _ _ _ _
        (fun idx => .num fun _ => K.rowAt 1 0 idx * Real.sqrt (1 - K.rowAt 0 0 idx ^ 2)) σ fun idx _ _ => ?_)
      (List.Forall₂.cons ⟨rfl, fun idx _ => ⟨rfl, rfl⟩⟩ (List.Forall₂.cons ⟨trivial, fun _ _ => rfl⟩ List.Forall₂.nil)))
    · rw [← h0]; rfl
    · rw [← h0, ← h1]
      simp only [Val.eval]
      unfold numStart Tensor.map Tensor.bget
      simp only [hsh]
  · intro idx σ
    exact ⟨rfl, rfl⟩

theorem measurable_uniformPdf (lo hi : ℝ) : Measurable (uniformPdf lo hi) := by
  unfold uniformPdf
  refine Measurable.ite ?_ measurable_const measurable_const
  exact (measurableSet_le measurable_const measurable_id).inter (measurableSet_le measurable_id measurable_const)

theorem volume_unitDisc_ne_top : volume unitDisc ≠ ⊤ := by
  have hsub : unitDisc ⊆ Set.Icc (-1 : ℝ) 1 ×ˢ Set.Icc (-1 : ℝ) 1 := by
    intro q hq
    have hq : q.1 ^ 2 + q.2 ^ 2 < 1 := hq
    have h1 := abs_le.1 ((sq_le_one_iff_abs_le_one q.1).1 (by nlinarith [sq_nonneg q.2]))
    have h2 := abs_le.1 ((sq_le_one_iff_abs_le_one q.2).1 (by nlinarith [sq_nonneg q.1]))
    exact ⟨h1, h2⟩
  exact ((isCompact_Icc.prod isCompact_Icc).measure_lt_top.trans_le' (measure_mono hsub)).ne

theorem volume_physicalTriangle_ne_top : volume physicalTriangle ≠ ⊤ := by
  have hsub : physicalTriangle ⊆ Set.Icc (0 : ℝ) 2 ×ˢ Set.Icc (-1 : ℝ) 1 := by
    rintro q ⟨h1, h2, h3⟩
    exact ⟨⟨h2.le, by linarith⟩, ⟨by linarith, by linarith⟩⟩
  exact ((isCompact_Icc.prod isCompact_Icc).measure_lt_top.trans_le' (measure_mono hsub)).ne

/-- **C97** (unit_disk): the points of all entries are independent and uniform in the disc. -/
theorem C97_unit_disk_uniform (b : Backend) (nx ny : String) (hn : nx ≠ "__" ++ ny ++ "_unit_disk") {K : VKwargs} (hK : K.OthersOnly)
    {vrs : List VReg} {x y : Tensor (VState → ℝ)} (h : unitDiskV b nx ny K = .ok (vrs, x, y)) :
    ∃ n1 n2, freeNamesV vrs = [n1, n2] ∧
      UniformOn (Measure.map (fun p (k : Fin K.dims.prod) => (x.get (Tensor.unravel K.dims k) (entryState K.dims n1 n2 p),
          y.get (Tensor.unravel K.dims k) (entryState K.dims n1 n2 p)))
        (lawV2 vrs K.dims n1 n2)) (Set.univ.pi fun _ => unitDisc) := by
  obtain ⟨-, -, -, rs, fx, fy, hrs, hn', hE, hv⟩ := C97_unit_disk b nx ny hK h
  have hfn : freeNamesV vrs = [nx, "__" ++ ny ++ "_unit_disk"] := by
    obtain ⟨i0, i1, -, -, e, -⟩ := unitDisk_ok b nx ny (hrs [])
    rw [← hn' [], e]
    rfl
  refine ⟨_, _, hfn, ?_⟩
  simp only [hv]
  refine lawV2_uniform hE (fun idx => ?_) (fun idx σ => (fx idx σ, fy idx σ)) (fun idx => ?_) volume_unitDisc_ne_top fun idx => ?_
  · obtain ⟨i0, i1, -, -, e, -⟩ := unitDisk_ok b nx ny (hrs idx)
    rw [e]
    simp only [unitDisk_density, twoState_fst hn, twoState_snd]
    have := measurable_uniformPdf (-1) 1
    fun_prop
  · obtain ⟨i0, i1, -, -, -, e1, e2⟩ := unitDisk_ok b nx ny (hrs idx)
    rw [e1, e2]
    simp only [twoState_fst hn, twoState_snd]
    fun_prop
  · obtain ⟨n1, n2, e, hu⟩ := C48_uniform b nx ny hn (hrs idx)
    rw [hn' idx, hfn] at e
    obtain ⟨rfl, e'⟩ := List.cons.inj e
    obtain ⟨rfl, -⟩ := List.cons.inj e'
    exact hu

/-- **C97** (unit_disk): the first coordinate of every entry starts where asked; the second is short by the factor found in C48. -/
theorem C97_unit_disk_start (b : Backend) (nx ny : String) (hn : nx ≠ "__" ++ ny ++ "_unit_disk") {K : VKwargs} (hK : K.OthersOnly)
    {vrs : List VReg} {x y : Tensor (VState → ℝ)} (h : unitDiskV b nx ny K = .ok (vrs, x, y)) (σ : VState) (hσ : IsStartV b vrs σ)
    (idx : List ℕ) (hi : InShape idx K.dims) (hd : K.rowAt 0 0 idx ^ 2 + K.rowAt 1 0 idx ^ 2 < 1) :
    x.get idx σ = K.rowAt 0 0 idx ∧ y.get idx σ = K.rowAt 1 0 idx * (1 - K.rowAt 0 0 idx ^ 2) := by
  obtain ⟨-, -, -, rs, fx, fy, hrs, hn', hE, hv⟩ := C97_unit_disk b nx ny hK h
  rw [(hv idx σ).1, (hv idx σ).2]
  obtain ⟨h1, h2, -⟩ := C48_start_partial b nx ny hn K.other _ _ hd (hrs idx) _ ((hE σ).2 hσ idx hi)
  exact ⟨h1, h2⟩

/-! ## quad_limb_dark -/

/-- What a successful call of `quad_limb_dark` has done. -/
theorem quadLimbDarkV_ok (b : Backend) (name : String) {K : VKwargs} {vrs : List VReg} {v : Tensor (VState → ℝ)}
    (h : quadLimbDarkV b name K = .ok (vrs, v)) : ∃ t0 t1 : Tensor ℝ,
    t0.shape = t1.shape ∧ t0.shape = (K.asked.map fun w => w.value.shape.tail).getD [] ∧
    (∀ idx, t0.bget idx = K.rowAt 0 (Real.sqrt 0.5) idx) ∧ (∀ idx, t1.bget idx = K.rowAt 1 0 idx) ∧
    vrs = [.free ("__" ++ name ++ "_q1") K.dims .uniform ((K.other.set "lower" (Val.ofReal 0)).set "upper" (Val.ofReal 1)) b.startKey
        (numStart ⟨t0.shape, fun idx => (t0.get idx + t1.get idx) ^ 2⟩),
      .free ("__" ++ name ++ "_q2") K.dims .uniform ((K.other.set "lower" (Val.ofReal 0)).set "upper" (Val.ofReal 1)) b.startKey
        ⟨t0.shape, fun idx _ => npDiv (0.5 * t0.get idx) (t0.get idx + t1.get idx)⟩, .deterministic name v] ∧
    v.shape = 2 :: K.dims ∧
    (∀ idx σ, v.get (0 :: idx) σ = Real.sqrt (σ ("__" ++ name ++ "_q1") idx) * (2 * σ ("__" ++ name ++ "_q2") idx)) ∧
    ∀ idx σ, v.get (1 :: idx) σ = Real.sqrt (σ ("__" ++ name ++ "_q1") idx) * (1 - 2 * σ ("__" ++ name ++ "_q2") idx) := by
  unfold quadLimbDarkV at h
  simp only [popInitvalV, bind, Except.bind] at h
  set init := (K.initval.orElse fun _ => K.testval).getD
    ⟨.listOfArrays, ⟨[2], fun idx => if idx = [0] then Real.sqrt 0.5 else 0⟩⟩ with hinit
  cases h0 : init.item 0 with
  | error e => rw [h0] at h; cases h
  | ok i0 =>
  cases h1 : init.item 1 with
  | error e => rw [h0, h1] at h; cases h
  | ok i1 =>
  cases h2 : i0.num with
  | error e => rw [h0, h1] at h; simp only [h2] at h; cases h
  | ok a0 =>
  cases h3 : i1.num with
  | error e => rw [h0, h1] at h; simp only [h2, h3] at h; cases h
  | ok a1 =>
  rw [h0, h1] at h
  simp only [h2, h3] at h
  obtain ⟨-, rfl⟩ := num_ok h2
  obtain ⟨-, rfl⟩ := num_ok h3
  have h := Except.ok.inj h
  have e0 := item_ok h0
  have e1 := item_ok h1
  have hst : ∀ i idx, i < 2 → Tensor.bget ⟨init.value.shape.tail, fun j => init.value.get (i :: j)⟩ idx =
      K.rowAt i (if i = 0 then Real.sqrt 0.5 else 0) idx := by
    intro i idx hi
    unfold VKwargs.rowAt VKwargs.asked
    rw [hinit]
    cases K.initval.orElse fun _ => K.testval with
    | none =>
      simp only [Option.getD_none, List.tail_cons]
      unfold Tensor.bget
      interval_cases i <;> simp
    | some w => rfl
  have h := Prod.mk.inj h
  obtain ⟨rfl, rfl⟩ := h
  have hshape : init.value.shape.tail = (K.asked.map fun w => w.value.shape.tail).getD [] := by
    rw [hinit]
    unfold VKwargs.asked
    cases K.initval.orElse fun _ => K.testval with
    | none => rfl
    | some w => rfl
  refine ⟨i0.value, i1.value, by rw [e0, e1], by rw [e0]; exact hshape, fun idx => by rw [e0, hst 0 idx (by norm_num)]; rfl,
    fun idx => by rw [e1, hst 1 idx (by norm_num)]; rfl, rfl, rfl, fun _ _ => rfl, fun _ _ => rfl⟩

/-- **C97** (quad_limb_dark): entry by entry the call is the scalar call, the coefficients are the two rows of the value. -/
theorem C97_quad_limb_dark (b : Backend) (name : String) {K : VKwargs} (hK : K.OthersOnly) {vrs : List VReg}
    {v : Tensor (VState → ℝ)} (h : quadLimbDarkV b name K = .ok (vrs, v)) :
    v.shape = 2 :: K.dims ∧ AllShape vrs K.dims ∧ ∃ (rs : List ℕ → List Reg) (f1 f2 : List ℕ → State → ℝ),
      (∀ idx, quadLimbDark b name
        (("initval", .seq [fun _ => K.rowAt 0 (Real.sqrt 0.5) idx, fun _ => K.rowAt 1 0 idx]) :: K.other) =
        .ok (rs idx, f1 idx, f2 idx)) ∧
      (∀ idx, freeNames (rs idx) = freeNamesV vrs) ∧ EntryWise b vrs K.dims (fun _ => rs) ∧
      ∀ idx σ, v.get (0 :: idx) σ = f1 idx (σ.entry idx) ∧ v.get (1 :: idx) σ = f2 idx (σ.entry idx) := by
  obtain ⟨t0, t1, hsh, -, h0, h1, rfl, hs, hv1, hv2⟩ := quadLimbDarkV_ok b name h
  refine ⟨hs, ?_, ?_⟩
  · intro n s f p key start hm
    simp at hm
    rcases hm with hm | hm <;> exact hm.2.1
  refine ⟨fun idx => List.map (fun r => r idx)
    [fun idx => pmVar .uniform ("__" ++ name ++ "_q1")
        (limKw b 0 1 (.num fun _ => (K.rowAt 0 (Real.sqrt 0.5) idx + K.rowAt 1 0 idx) ^ 2) K.other),
      fun idx => pmVar .uniform ("__" ++ name ++ "_q2") (limKw b 0 1
        (.nanable fun _ => npDiv (0.5 * K.rowAt 0 (Real.sqrt 0.5) idx) (K.rowAt 0 (Real.sqrt 0.5) idx + K.rowAt 1 0 idx)) K.other),
      fun _ => .deterministic name (fun σ => [Real.sqrt (σ ("__" ++ name ++ "_q1")) * (2 * σ ("__" ++ name ++ "_q2")),
          Real.sqrt (σ ("__" ++ name ++ "_q1")) * (1 - 2 * σ ("__" ++ name ++ "_q2"))])],
    fun _ σ => Real.sqrt (σ ("__" ++ name ++ "_q1")) * (2 * σ ("__" ++ name ++ "_q2")),
    fun _ σ => Real.sqrt (σ ("__" ++ name ++ "_q1")) * (1 - 2 * σ ("__" ++ name ++ "_q2")), ?_, ?_, ?_, ?_⟩
  · intro idx
    rw [quadLimbDark_eq, hK.strip]
    have hr : requested (("initval", Val.seq [fun _ => K.rowAt 0 (Real.sqrt 0.5) idx, fun _ => K.rowAt 1 0 idx]) :: K.other)
        (.seq [fun _ => Real.sqrt 0.5, fun _ => 0]) = Val.seq [fun _ => K.rowAt 0 (Real.sqrt 0.5) idx, fun _ => K.rowAt 1 0 idx] :=
      get_cons_self ..
    rw [hr]
    rfl
  · intro idx
    rfl
  · refine Entries.entryWise fun σ => ?_
    refine List.Forall₂.cons (uniformAt b (hK.limKw b) _ _ _ _ _
        (fun idx => .num fun _ => (K.rowAt 0 (Real.sqrt 0.5) idx + K.rowAt 1 0 idx) ^ 2) σ fun idx _ _ => ?_)
      (List.Forall₂.cons (uniformAt b (hK.limKw b) _ _ _ _ _
        (fun idx => .nanable fun _ => npDiv (0.5 * K.rowAt 0 (Real.sqrt 0.5) idx) (K.rowAt 0 (Real.sqrt 0.5) idx + K.rowAt 1 0 idx))
          σ fun idx _ _ => ?_)
      (List.Forall₂.cons ⟨trivial, fun _ _ => rfl⟩ List.Forall₂.nil))
    · rw [← h0, ← h1]
      simp only [Val.eval]
      unfold numStart Tensor.map Tensor.bget
      simp only [hsh]
    · rw [← h0, ← h1]
      simp only [Val.eval]
      unfold Tensor.bget
      simp only [hsh]
  · intro idx σ
    exact ⟨hv1 idx σ, hv2 idx σ⟩

/-- **C97** (quad_limb_dark): the coefficients of all entries are independent and uniform on the triangle of physical ones. -/
theorem C97_quad_limb_dark_uniform (b : Backend) (name : String) {K : VKwargs} (hK : K.OthersOnly)
    {vrs : List VReg} {v : Tensor (VState → ℝ)} (h : quadLimbDarkV b name K = .ok (vrs, v)) :
    ∃ n1 n2, freeNamesV vrs = [n1, n2] ∧
      UniformOn (Measure.map (fun p (k : Fin K.dims.prod) => (v.get (0 :: Tensor.unravel K.dims k) (entryState K.dims n1 n2 p),
          v.get (1 :: Tensor.unravel K.dims k) (entryState K.dims n1 n2 p)))
        (lawV2 vrs K.dims n1 n2)) (Set.univ.pi fun _ => physicalTriangle) := by
  obtain ⟨-, -, rs, f1, f2, hrs, hn', hE, hv⟩ := C97_quad_limb_dark b name hK h
  have hfn : freeNamesV vrs = ["__" ++ name ++ "_q1", "__" ++ name ++ "_q2"] := by
    obtain ⟨i0, i1, -, -, e, -⟩ := quadLimbDark_ok b name (hrs [])
    rw [← hn' [], e]
    rfl
  refine ⟨_, _, hfn, ?_⟩
  simp only [hv]
  refine lawV2_uniform hE (fun idx => ?_) (fun idx σ => (f1 idx σ, f2 idx σ)) (fun idx => ?_) volume_physicalTriangle_ne_top
    fun idx => ?_
  · obtain ⟨i0, i1, -, -, e, -⟩ := quadLimbDark_ok b name (hrs idx)
    rw [e]
    simp only [quadLimbDark_density, twoState_fst (ld_names name), twoState_snd]
    have := measurable_uniformPdf 0 1
    fun_prop
  · obtain ⟨i0, i1, -, -, -, e1, e2⟩ := quadLimbDark_ok b name (hrs idx)
    rw [e1, e2]
    simp only [twoState_fst (ld_names name), twoState_snd]
    fun_prop
  · obtain ⟨n1, n2, e, hu⟩ := C49_uniform b name (hrs idx)
    rw [hn' idx, hfn] at e
    obtain ⟨rfl, e'⟩ := List.cons.inj e
    obtain ⟨rfl, -⟩ := List.cons.inj e'
    exact hu

/-- **C97** (quad_limb_dark): the coefficients of every entry start where asked. -/
theorem C97_quad_limb_dark_start (b : Backend) (name : String) {K : VKwargs} (hK : K.OthersOnly)
    {vrs : List VReg} {v : Tensor (VState → ℝ)} (h : quadLimbDarkV b name K = .ok (vrs, v)) (σ : VState) (hσ : IsStartV b vrs σ)
    (idx : List ℕ) (hi : InShape idx K.dims) (hd : (K.rowAt 0 (Real.sqrt 0.5) idx, K.rowAt 1 0 idx) ∈ physicalTriangle) :
    v.get (0 :: idx) σ = K.rowAt 0 (Real.sqrt 0.5) idx ∧ v.get (1 :: idx) σ = K.rowAt 1 0 idx := by
  obtain ⟨-, -, rs, f1, f2, hrs, hn', hE, hv⟩ := C97_quad_limb_dark b name hK h
  rw [(hv idx σ).1, (hv idx σ).2]
  exact C49_start b name K.other _ _ hd (hrs idx) _ ((hE σ).2 hσ idx hi)

end Exo
