import Verif.Model.UnitsHeap
import Verif.Spec.Units
import Mathlib.Tactic.FieldSimp
import Mathlib.Tactic.Ring
import Mathlib.Tactic.Linarith
import Mathlib.Tactic.NormNum

/-!
# C65: unit labels
-/

namespace Exo

/-- Two units of length, for the examples: metre and kilometre, and a second. -/
noncomputable def demoMetre : AUnit := ⟨1, ⟨1, 0, 0⟩, one_pos⟩
noncomputable def demoKm : AUnit := ⟨1000, ⟨1, 0, 0⟩, by norm_num⟩
noncomputable def demoSecond : AUnit := ⟨1, ⟨0, 0, 1⟩, one_pos⟩

/-! ## Values -/

/-- C65. `to_unit(with_unit(x, u), v)` scales by the ratio of the units, whatever kind of object `x` is; the result is a new object
without label. -/
theorem C65_label_then_convert (H : Heap) (i : ℕ) (x : HeapObj) (hx : H[i]? = some x) (hu : x.unit = none) (u v : AUnit)
    (hd : u.dim = v.dim) :
    ∃ H1 j H2 k, heapWithUnit H i u = .ok (H1, j) ∧ heapToUnit H1 j v = .ok (H2, k) ∧
      H2[k]? = some ⟨.float64, x.val * (u.scale / v.scale), none⟩ := by
  have hto : u.to v = .ok (u.scale / v.scale) := by unfold AUnit.to; rw [if_pos hd]
  by_cases hk : x.kind = .float64
  · have h1 : heapWithUnit H i u = .ok (H.setUnit i u, i) := by
      unfold heapWithUnit
      rw [hx]
      simp [hu, Heap.asTensor, hk]
    have h2 : (H.setUnit i u)[i]? = some ⟨x.kind, x.val, some u⟩ := by
      unfold Heap.setUnit
      rw [List.getElem?_modify, hx]
      simp
    refine ⟨_, _, H.setUnit i u ++ [⟨.float64, x.val * (u.scale / v.scale), none⟩], (H.setUnit i u).length, h1, ?_, ?_⟩
    · unfold heapToUnit
      rw [h2]
      simp only [hto]
    · simp
  · have h1 : heapWithUnit H i u = .ok (Heap.setUnit (H ++ [⟨.float64, x.val, none⟩]) H.length u, H.length) := by
      unfold heapWithUnit
      rw [hx]
      have : H.asTensor i x = (H ++ [⟨.float64, x.val, none⟩], H.length) := by
        unfold Heap.asTensor
        cases hk' : x.kind <;> simp_all
      simp [hu, this]
    have h2 : (Heap.setUnit (H ++ [⟨.float64, x.val, none⟩]) H.length u)[H.length]? = some ⟨.float64, x.val, some u⟩ := by
      unfold Heap.setUnit
      rw [List.getElem?_modify]
      simp
    refine ⟨_, _, Heap.setUnit (H ++ [⟨.float64, x.val, none⟩]) H.length u ++ [⟨.float64, x.val * (u.scale / v.scale), none⟩],
      (Heap.setUnit (H ++ [⟨.float64, x.val, none⟩]) H.length u).length, h1, ?_, ?_⟩
    · unfold heapToUnit
      rw [h2]
      simp only [hto]
    · simp

example : ∃ (H : Heap) (i : ℕ) (x : HeapObj), H[i]? = some x ∧ x.unit = none ∧ demoKm.dim = demoMetre.dim :=
  ⟨[⟨.float64, 3, none⟩], 0, ⟨.float64, 3, none⟩, rfl, rfl, rfl⟩

/-- The pure value of a conversion chain `to_unit(with_unit(x, u), v)` (without regard to object identity). -/
noncomputable def convertVal (x : ℝ) (u v : AUnit) : Except PyErr ℝ :=
  match withUnit (x : Q) u with
  | .error e => .error e
  | .ok q => toUnitVal q v

/-- C65. In values: the ratio of the units if they have the same dimension, else a `UnitConversionError`; this is the number that
expresses the labelled quantity in the target unit. -/
theorem C65_conversion_value (x : ℝ) (u v : AUnit) :
    (u.dim = v.dim → convertVal x u v = .ok (x * (u.scale / v.scale)) ∧
      convertVal x u v = .ok (Q.inUnit ⟨x, some u⟩ v)) ∧
    (u.dim ≠ v.dim → convertVal x u v = .error .unitConversion) := by
  constructor
  · intro h
    constructor <;> simp [convertVal, withUnit, hasUnit, toUnitVal, toUnit, AUnit.to, h, Q.inUnit, mul_div_assoc]
  · intro h
    simp [convertVal, withUnit, hasUnit, toUnitVal, toUnit, AUnit.to, h]

example : demoKm.dim = demoMetre.dim ∧ demoKm.dim ≠ demoSecond.dim := by
  refine ⟨rfl, ?_⟩
  simp [demoKm, demoSecond]

/-- C65. Conversions compose, and converting to the own unit is the identity. -/
theorem C65_conversions_compose (x : ℝ) (u v w : AUnit) (huv : u.dim = v.dim) (hvw : v.dim = w.dim) :
    ∃ y, convertVal x u v = .ok y ∧ convertVal y v w = convertVal x u w ∧ convertVal x u u = .ok x := by
  refine ⟨_, ((C65_conversion_value x u v).1 huv).1, ?_, ?_⟩
  · rw [((C65_conversion_value _ v w).1 hvw).1, ((C65_conversion_value x u w).1 (huv.trans hvw)).1]
    have := v.pos.ne'
    have := w.pos.ne'
    congr 1
    field_simp
  · rw [((C65_conversion_value x u u).1 rfl).1, div_self u.pos.ne', mul_one]

example : demoKm.dim = demoMetre.dim ∧ demoMetre.dim = demoKm.dim := ⟨rfl, rfl⟩

/-- C65. Unlabelled objects pass through `to_unit` unchanged: the very same object, and the heap is not touched. -/
theorem C65_unlabelled_passes_through (H : Heap) (i : ℕ) (x : HeapObj) (hx : H[i]? = some x) (hu : x.unit = none) (v : AUnit) :
    heapToUnit H i v = .ok (H, i) ∧ heapHasUnit H i = false := by
  unfold heapToUnit heapHasUnit
  rw [hx]
  simp [hu]

/-! ## Histories -/

/-- One operation keeps kind, value and any label of the existing objects. -/
theorem heapStep_keeps (H : Heap) (op : HeapOp) (i : ℕ) (x : HeapObj) (hx : H[i]? = some x) :
    ∃ x', (heapStep H op)[i]? = some x' ∧ x'.kind = x.kind ∧ x'.val = x.val ∧ (∀ u, x.unit = some u → x'.unit = some u) := by
  have happ : ∀ l : Heap, (H ++ l)[i]? = some x := by
    intro l
    have hi : i < H.length := by
      by_contra h
      rw [List.getElem?_eq_none (not_lt.1 h)] at hx
      cases hx
    rw [List.getElem?_append_left hi, hx]
  cases op with
  | new k v => exact ⟨x, happ _, rfl, rfl, fun _ h => h⟩
  | convert j v =>
    unfold heapStep
    cases hj : H[j]? with
    | none => simp only [heapToUnit, hj]; exact ⟨x, hx, rfl, rfl, fun _ h => h⟩
    | some y =>
      cases hyu : y.unit with
      | none => simp only [heapToUnit, hj, hyu]; exact ⟨x, hx, rfl, rfl, fun _ h => h⟩
      | some b =>
        cases hb : b.to v with
        | error e => simp only [heapToUnit, hj, hyu, hb]; exact ⟨x, hx, rfl, rfl, fun _ h => h⟩
        | ok f => simp only [heapToUnit, hj, hyu, hb]; exact ⟨x, happ _, rfl, rfl, fun _ h => h⟩
  | label j u =>
    unfold heapStep
    cases hj : H[j]? with
    | none => simp only [heapWithUnit, hj]; exact ⟨x, hx, rfl, rfl, fun _ h => h⟩
    | some y =>
      cases hyu : y.unit with
      | some b =>
        simp only [heapWithUnit, hj, hyu, Option.isSome_some, if_true]
        exact ⟨x, hx, rfl, rfl, fun _ h => h⟩
      | none =>
        simp only [heapWithUnit, hj, hyu, Option.isSome_none, Bool.false_eq_true, if_false]
        by_cases hk : y.kind = .float64
        · have hr : H.asTensor j y = (H, j) := by unfold Heap.asTensor; rw [hk]
          rw [hr]
          unfold Heap.setUnit
          rw [List.getElem?_modify, hx]
          by_cases hij : j = i
          · subst hij
            rw [hx] at hj
            cases hj
            refine ⟨{ x with unit := some u }, by simp, rfl, rfl, ?_⟩
            intro u' hu'
            rw [hyu] at hu'
            cases hu'
          · refine ⟨x, by simp [hij], rfl, rfl, fun _ h => h⟩
        · have hr : H.asTensor j y = (H ++ [⟨.float64, y.val, none⟩], H.length) := by
            unfold Heap.asTensor
            cases hk' : y.kind <;> simp_all
          rw [hr]
          unfold Heap.setUnit
          rw [List.getElem?_modify, happ]
          have hi : i < H.length := by
            by_contra h
            rw [List.getElem?_eq_none (not_lt.1 h)] at hx
            cases hx
          have hne : ¬ H.length = i := by omega
          exact ⟨x, by simp [hne], rfl, rfl, fun _ h => h⟩

theorem heapRun_keeps (ops : List HeapOp) : ∀ (H : Heap) (i : ℕ) (x : HeapObj), H[i]? = some x →
    ∃ x', (heapRun ops H)[i]? = some x' ∧ x'.kind = x.kind ∧ x'.val = x.val ∧ (∀ u, x.unit = some u → x'.unit = some u) := by
  induction ops with
  | nil => intro H i x hx; exact ⟨x, hx, rfl, rfl, fun _ h => h⟩
  | cons op ops ih =>
    intro H i x hx
    obtain ⟨x1, h1, k1, v1, u1⟩ := heapStep_keeps H op i x hx
    obtain ⟨x2, h2, k2, v2, u2⟩ := ih _ i x1 h1
    exact ⟨x2, h2, k2.trans k1, v2.trans v1, fun u hu => u2 u (u1 u hu)⟩

/-- C65. Labelling twice is a `TypeError`, no matter what happened in between: after any program, an object that was labelled is
still labelled with the same unit and value, and labelling it again fails and changes nothing. -/
theorem C65_labelling_twice_is_a_type_error (H H1 : Heap) (i j : ℕ) (u u' : AUnit) (ops : List HeapOp)
    (h : heapWithUnit H i u = .ok (H1, j)) :
    heapWithUnit (heapRun ops H1) j u' = .error (.typeError "already has units") ∧
    heapStep (heapRun ops H1) (.label j u') = heapRun ops H1 ∧ heapHasUnit (heapRun ops H1) j = true := by
  have hj : ∃ x, H1[j]? = some x ∧ x.unit = some u := by
    unfold heapWithUnit at h
    cases hx : H[i]? with
    | none => rw [hx] at h; cases h
    | some x =>
      rw [hx] at h
      cases hu : x.unit with
      | some b => simp [hu] at h
      | none =>
        simp only [hu, Option.isSome_none, Bool.false_eq_true, if_false, Except.ok.injEq, Prod.mk.injEq] at h
        obtain ⟨h1, h2⟩ := h
        have hlt : ∃ y, (H.asTensor i x).1[(H.asTensor i x).2]? = some y := by
          unfold Heap.asTensor
          cases x.kind with
          | float64 => exact ⟨x, hx⟩
          | number => exact ⟨⟨.float64, x.val, none⟩, by simp⟩
          | otherTensor => exact ⟨⟨.float64, x.val, none⟩, by simp⟩
        obtain ⟨y, hy⟩ := hlt
        refine ⟨{ y with unit := some u }, ?_, rfl⟩
        rw [← h1, ← h2]
        unfold Heap.setUnit
        rw [List.getElem?_modify, hy]
        simp
  obtain ⟨x, hx, hxu⟩ := hj
  obtain ⟨x', hx', -, -, hu'⟩ := heapRun_keeps ops H1 j x hx
  have hu2 := hu' u hxu
  have herr : heapWithUnit (heapRun ops H1) j u' = .error (.typeError "already has units") := by
    unfold heapWithUnit
    rw [hx']
    simp [hu2]
  refine ⟨herr, ?_, ?_⟩
  · simp only [heapStep, herr]
  · unfold heapHasUnit
    rw [hx']
    simp [hu2]

example : ∃ H1 j, heapWithUnit [⟨.number, 3, none⟩] 0 demoKm = .ok (H1, j) := ⟨_, _, rfl⟩

/-- C65 (partial: only if the object is not already a `float64` tensor). Labelling makes a new object; every other holder of the
original still sees the same, unlabelled object. The full statement claims this of every object; see
`C65_labelling_a_shared_tensor_counterexample`. -/
theorem C65_labelling_is_invisible_to_others_partial (H : Heap) (i : ℕ) (x : HeapObj) (hx : H[i]? = some x) (hu : x.unit = none)
    (hk : x.kind ≠ .float64) (u : AUnit) :
    ∃ H1 j, heapWithUnit H i u = .ok (H1, j) ∧ j ≠ i ∧ ∀ k, k < H.length → H1[k]? = H[k]? := by
  have hr : H.asTensor i x = (H ++ [⟨.float64, x.val, none⟩], H.length) := by
    unfold Heap.asTensor
    cases hk' : x.kind <;> simp_all
  have hi : i < H.length := by
    by_contra h
    rw [List.getElem?_eq_none (not_lt.1 h)] at hx
    cases hx
  refine ⟨Heap.setUnit (H ++ [⟨.float64, x.val, none⟩]) H.length u, H.length, ?_, by omega, ?_⟩
  · unfold heapWithUnit
    rw [hx]
    simp [hu, hr]
  · intro k hk
    unfold Heap.setUnit
    rw [List.getElem?_modify, List.getElem?_append_left hk]
    have : ¬ H.length = k := by omega
    simp [this]

example : ∃ (H : Heap) (x : HeapObj), H[0]? = some x ∧ x.unit = none ∧ x.kind ≠ .float64 :=
  ⟨[⟨.number, 3, none⟩], ⟨.number, 3, none⟩, rfl, rfl, by simp⟩

/-- For every object: labelling leaves the stored numbers alone (it only adds a label). -/
theorem C65_labelling_keeps_values (H : Heap) (i : ℕ) (u : AUnit) (H1 : Heap) (j : ℕ) (h : heapWithUnit H i u = .ok (H1, j))
    (k : ℕ) (x : HeapObj) (hx : H[k]? = some x) : ∃ x', H1[k]? = some x' ∧ x'.val = x.val ∧ x'.kind = x.kind := by
  obtain ⟨x', h1, h2, h3, -⟩ := heapStep_keeps H (.label i u) k x hx
  simp only [heapStep, h] at h1
  exact ⟨x', h1, h3, h2⟩

/-- C65 is false for a shared `float64` tensor: the labelled object is the original object. A holder of the unlabelled tensor who
converts it to metres gets 3 before and 3000 after somebody else labelled it as kilometres. -/
theorem C65_labelling_a_shared_tensor_counterexample :
    ∃ (H H1 : Heap) (j : ℕ), heapWithUnit H 0 demoKm = .ok (H1, j) ∧ j = 0 ∧
      (∃ H2 k y, heapToUnit H 0 demoMetre = .ok (H2, k) ∧ H2[k]? = some y ∧ y.val = 3) ∧
      (∃ H2 k y, heapToUnit H1 0 demoMetre = .ok (H2, k) ∧ H2[k]? = some y ∧ y.val = 3000) := by
  refine ⟨[⟨.float64, 3, none⟩], [⟨.float64, 3, some demoKm⟩], 0, rfl, rfl, ⟨_, _, _, rfl, rfl, rfl⟩, ?_⟩
  have hto : demoKm.to demoMetre = .ok (1000 / 1) := by
    unfold AUnit.to
    rw [if_pos (show demoKm.dim = demoMetre.dim from rfl)]
    rfl
  refine ⟨[⟨.float64, 3, some demoKm⟩, ⟨.float64, 3 * (1000 / 1), none⟩], 1, ⟨.float64, 3 * (1000 / 1), none⟩, ?_, rfl, by norm_num⟩
  simp only [heapToUnit, List.getElem?_cons_zero, hto]
  rfl

end Exo
