import Verif.Model.Units

/-!
# Model of `src/exoplanet/units.py` with object identity

Python variables refer to objects; `with_unit` sets an attribute on an object, so other variables referring to the same object see it.
The heap lists the objects in order of allocation. Values are scalars.
Not modelled: a possible cache of small constants inside Theano, so that two equal numbers become one tensor.
-/

namespace Exo

/-- What an object is, as far as `as_tensor_variable` distinguishes (`utils.py:18-22`): a Python or NumPy number, a tensor of dtype
`float64`, or a tensor of another dtype. -/
inductive ObjKind where
  | number
  | float64
  | otherTensor
  deriving DecidableEq, Repr

/-- An object: its kind, its value and its attribute `__exoplanet_unit__` (`units.py:5`). -/
structure HeapObj where
  kind : ObjKind
  val : ℝ
  unit : Option AUnit

/-- The objects allocated so far; an object is named by its position. -/
abbrev Heap := List HeapObj

/-- `as_tensor_variable(obj)` — `utils.py:18-22`. A tensor is returned by `tensor.as_tensor_variable` as it is, and `astype` returns a
tensor that already has the dtype as it is; anything else becomes a new object. Returns the heap and the result. -/
def Heap.asTensor (H : Heap) (i : ℕ) (x : HeapObj) : Heap × ℕ :=
  match x.kind with
  | .float64 => (H, i)
  | _ => (H ++ [⟨.float64, x.val, none⟩], H.length)

/-- `setattr(obj, UNIT_ATTR_NAME, unit)`. -/
def Heap.setUnit (H : Heap) (i : ℕ) (u : AUnit) : Heap := H.modify i (fun x => { x with unit := some u })

/-- `with_unit(obj, unit)` — `units.py:8-23`, on the heap: the new heap and the object returned. -/
def heapWithUnit (H : Heap) (i : ℕ) (u : AUnit) : Except PyErr (Heap × ℕ) :=
  match H[i]? with
  | none => .error .indexError
  | some x =>
    if x.unit.isSome then .error (.typeError "already has units")
    else
      let r := H.asTensor i x
      .ok (r.1.setUnit r.2 u, r.2)

/-- `to_unit(obj, target)` — `units.py:31-45`, on the heap. -/
noncomputable def heapToUnit (H : Heap) (i : ℕ) (target : AUnit) : Except PyErr (Heap × ℕ) :=
  match H[i]? with
  | none => .error .indexError
  | some x =>
    match x.unit with
    | none => .ok (H, i)
    | some base =>
      match base.to target with
      | .error e => .error e
      | .ok f => .ok (H ++ [⟨.float64, x.val * f, none⟩], H.length)

/-- `has_unit(obj)` — `units.py:26-28`, on the heap. -/
def heapHasUnit (H : Heap) (i : ℕ) : Bool := (H[i]?.bind (·.unit)).isSome

/-- What a program can do with the objects: create one, label one, convert one. -/
inductive HeapOp where
  | new (kind : ObjKind) (val : ℝ)
  | label (i : ℕ) (u : AUnit)
  | convert (i : ℕ) (target : AUnit)

/-- The heap after one operation; a failing operation (the exception is caught by the caller) changes nothing. -/
noncomputable def heapStep (H : Heap) : HeapOp → Heap
  | .new k v => H ++ [⟨k, v, none⟩]
  | .label i u => match heapWithUnit H i u with
    | .ok r => r.1
    | .error _ => H
  | .convert i v => match heapToUnit H i v with
    | .ok r => r.1
    | .error _ => H

/-- The heap after a program. -/
noncomputable def heapRun (ops : List HeapOp) (H : Heap) : Heap := ops.foldl heapStep H

end Exo
