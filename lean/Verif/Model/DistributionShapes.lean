import Verif.Model.Distributions
import Verif.Model.Tensor

/-!
# Distribution helpers with array-valued parameters — src/exoplanet/distributions/distributions.py

`Model/Distributions` follows one entry. Here every registered variable has the shape that was asked for with `shape=...`.

Keyword arguments are a record: the start values under their two names, the shape, and all other keys. Simplified: start values are
arrays of numbers, or Python lists with the structure of an array; integers of NumPy as `shape` are excluded; the error that PyTensor
raises for shapes that do not fit is raised by the call.
-/

namespace Exo
open scoped ENNReal

/-- A sampler state: the value of each free variable at each multi-index. -/
abbrev VState := String → List ℕ → ℝ

/-- The state of one entry of every variable. -/
def VState.entry (σ : VState) (idx : List ℕ) : State := fun n => σ n idx

/-- The values of `shape=`: an `int`, a tuple or a list. -/
inductive ShapeArg where
  | int (n : ℕ)
  | tuple (l : List ℕ)
  | list (l : List ℕ)

/-- The shape the back-end understands (PyMC: `convert_shape`, PyMC3: `np.atleast_1d`). -/
def ShapeArg.dims : ShapeArg → List ℕ
  | .int n => [n]
  | .tuple l => l
  | .list l => l

/-- A start value is a number or a NumPy array, a Python list of these, or a list of lists. -/
inductive InitKind where
  | array
  | listOfArrays
  | nestedList
  deriving DecidableEq

/-- A start value: what it is, and the array with the same entries (`np.asarray`). -/
structure VInit where
  kind : InitKind
  value : Tensor ℝ

/-- Keyword arguments. -/
structure VKwargs where
  initval : Option VInit := none
  testval : Option VInit := none
  shape : Option ShapeArg := none
  other : Kwargs := []

/-- The shape of a variable created with these keyword arguments (no shape: a scalar). -/
def VKwargs.dims (K : VKwargs) : List ℕ := (K.shape.map ShapeArg.dims).getD []

/-- Registrations of array-valued variables: a free variable has its shape, its distribution (the same for all entries), and the start
value under the keyword `key`. -/
inductive VReg where
  | free (name : String) (shape : List ℕ) (f : Family) (params : Kwargs) (key : String) (start : Tensor (VState → Option ℝ))
  | potential (name : String) (f : Tensor (VState → EReal))
  | deterministic (name : String) (f : Tensor (VState → ℝ))

/-- The factor of a registration in the joint density: entries of a free variable are independent, the entries of a potential are summed
(PyMC `Model.logp`, PyMC3 `Model.logpt`). -/
noncomputable def VReg.factor (r : VReg) (σ : VState) : ℝ≥0∞ :=
  match r with
  | .free n s f params _ _ =>
    ∏ k ∈ Finset.range s.prod, (Dist.plain f params).density (σ.entry (Tensor.unravel s k)) (σ n (Tensor.unravel s k))
  | .potential _ f => EReal.exp (∑ k ∈ Finset.range f.shape.prod, f.get (Tensor.unravel f.shape k) σ)
  | .deterministic _ _ => 1

/-- The (unnormalised) joint density of the registered variables. -/
noncomputable def jointDensityV (rs : List VReg) (σ : VState) : ℝ≥0∞ := (rs.map (fun r => r.factor σ)).prod

/-- `kwargs.pop("initval", kwargs.pop("testval", dflt))` (distributions.py:25, 60-62, 87, 115): the value, and what is left. -/
def popInitvalV (K : VKwargs) (dflt : VInit) : VInit × VKwargs :=
  ((K.initval.orElse fun _ => K.testval).getD dflt, { K with initval := none, testval := none })

/-- `np.zeros(s)`. -/
def zerosInit (s : List ℕ) : VInit := ⟨.array, ⟨s, fun _ => 0⟩⟩

/-- `v[i]`: a row of an array, an item of a list; a number has none. -/
def VInit.item (v : VInit) (i : ℕ) : Except PyErr VInit :=
  match v.value.shape with
  | [] => .error (.typeError "not subscriptable")
  | n :: s =>
    if i < n then
      .ok ⟨match v.kind with
          | .array => .array
          | .listOfArrays => .array
          | .nestedList => if s.length ≤ 1 then .listOfArrays else .nestedList,
        ⟨s, fun idx => v.value.get (i :: idx)⟩⟩
    else .error .indexError

/-- What arithmetic (`v ** 2`) needs: a number or an array; a Python list has no powers. -/
def VInit.num (v : VInit) : Except PyErr (Tensor ℝ) :=
  match v.kind with
  | .array => .ok v.value
  | _ => .error (.typeError "unsupported operand type(s) for ** or pow(): 'list' and 'int'")

/-- `pt.broadcast_to(t, s)`. -/
def broadcastTo {α : Type} (t : Tensor α) (s : List ℕ) : Except PyErr (Tensor α) :=
  if bcastShape t.shape s = .ok s then .ok ⟨s, t.bget⟩ else .error .shapeMismatch

/-- A numeric start value. -/
def numStart (t : Tensor ℝ) : Tensor (VState → Option ℝ) := t.map (fun x _ => some x)

/-- `pm.Family(name, **_with_initval(initval=start, **kwargs))` (distributions.py:130-134): no other start value is left in `kwargs`. -/
def pmVarV (b : Backend) (f : Family) (name : String) (K : VKwargs) (start : Tensor (VState → Option ℝ)) : VReg :=
  .free name K.dims f K.other b.startKey start

/-- The registered variable itself, an array of shape `s`. -/
def varV (name : String) (s : List ℕ) : Tensor (VState → ℝ) := ⟨s, fun idx σ => σ name idx⟩

/-- `angle(name, regularization=…, **kwargs)` (distributions.py:11-37). `np.sin` and `np.cos` accept lists. -/
noncomputable def angleV (b : Backend) (name : String) (regularization : Option ℝ) (K : VKwargs) :
    Except PyErr (List VReg × Tensor (VState → ℝ)) :=
  -- 24-25
  let (initval, K) := popInitvalV K (zerosInit K.dims)
  -- 26-31
  let n1 := "__" ++ name ++ "_angle1"
  let n2 := "__" ++ name ++ "_angle2"
  let s := K.dims
  -- 32-36
  let pot := match regularization with
    | some c => [VReg.potential (name ++ "_regularization")
        ⟨s, fun idx σ => (c : EReal) * ptLog ((varV n1 s).get idx σ ^ 2 + (varV n2 s).get idx σ ^ 2)⟩]
    | none => []
  -- 37
  let value : Tensor (VState → ℝ) := ⟨s, fun idx σ => arctan2 ((varV n1 s).get idx σ) ((varV n2 s).get idx σ)⟩
  .ok ([pmVarV b .normal n1 K (numStart (initval.value.map Real.sin)), pmVarV b .normal n2 K (numStart (initval.value.map Real.cos))]
    ++ pot ++ [.deterministic name value], value)

/-- `init_shape` of `unit_disk` (distributions.py:56-59): a tuple can only be added to a tuple. -/
def diskInitShape : Option ShapeArg → Except PyErr (List ℕ)
  | none => .ok [2]
  | some (.int n) => .ok [2, n]
  | some (.tuple l) => .ok (2 :: l)
  | some (.list _) => .error (.typeError "can only concatenate tuple (not \"list\") to tuple")

/-- `unit_disk(name_x, name_y, **kwargs)` (distributions.py:40-75). -/
noncomputable def unitDiskV (b : Backend) (name_x name_y : String) (K : VKwargs) :
    Except PyErr (List VReg × Tensor (VState → ℝ) × Tensor (VState → ℝ)) := do
  -- 56-59
  let init_shape ← diskInitShape K.shape
  -- 60-62
  let (initval, K) := popInitvalV K (zerosInit init_shape)
  -- 64-65
  let K := { K with other := (K.other.set "lower" (Val.ofReal (-1))).set "upper" (Val.ofReal 1) }
  -- 66-72
  let i0 ← initval.item 0
  let i1 ← initval.item 1
  let a0 ← i0.num
  let a1 ← i1.num
  let n2 := "__" ++ name_y ++ "_unit_disk"
  let start2 : Tensor ℝ := ⟨a1.shape, fun idx => a1.get idx * Real.sqrt (1 - a0.get idx ^ 2)⟩
  -- 73-75
  let s := K.dims
  let norm : Tensor (VState → ℝ) := ⟨s, fun idx σ => Real.sqrt (1 - (varV name_x s).get idx σ ^ 2)⟩
  let y : Tensor (VState → ℝ) := ⟨s, fun idx σ => (varV n2 s).get idx σ * norm.get idx σ⟩
  .ok ([pmVarV b .uniform name_x K (numStart i0.value), pmVarV b .uniform n2 K (numStart start2),
    .potential (name_y ++ "_jacobian") ⟨s, fun idx σ => ptLog (norm.get idx σ)⟩, .deterministic name_y y], varV name_x s, y)

/-- `quad_limb_dark(name, **kwargs)` (distributions.py:78-102); the coefficients are stacked along a new first axis. -/
noncomputable def quadLimbDarkV (b : Backend) (name : String) (K : VKwargs) :
    Except PyErr (List VReg × Tensor (VState → ℝ)) := do
  -- 87-89
  let (u, K) := popInitvalV K ⟨.listOfArrays, ⟨[2], fun idx => if idx = [0] then Real.sqrt 0.5 else 0⟩⟩
  let u1 ← u.item 0
  let u2 ← u.item 1
  -- 90-97 (`u1 + u2` of lists is a list, and has no square)
  let K := { K with other := (K.other.set "lower" (Val.ofReal 0)).set "upper" (Val.ofReal 1) }
  let a1 ← u1.num
  let a2 ← u2.num
  let n1 := "__" ++ name ++ "_q1"
  let n2 := "__" ++ name ++ "_q2"
  let s := K.dims
  -- 98-102
  let a : Tensor (VState → ℝ) := ⟨s, fun idx σ => Real.sqrt ((varV n1 s).get idx σ) * (2 * (varV n2 s).get idx σ)⟩
  let c : Tensor (VState → ℝ) := ⟨s, fun idx σ => Real.sqrt ((varV n1 s).get idx σ) * (1 - 2 * (varV n2 s).get idx σ)⟩
  let value : Tensor (VState → ℝ) := ⟨2 :: s, fun idx => if idx.headD 0 = 0 then a.get idx.tail else c.get idx.tail⟩
  .ok ([pmVarV b .uniform n1 K (numStart ⟨a1.shape, fun idx => (a1.get idx + a2.get idx) ^ 2⟩),
    pmVarV b .uniform n2 K ⟨a1.shape, fun idx _ => npDiv (0.5 * a1.get idx) (a1.get idx + a2.get idx)⟩,
    .deterministic name value], value)

/-- The shape and the start value in `impact_parameter` (distributions.py:116-120): only on PyMC the shape defaults to that of `ror`. -/
def impactShape (b : Backend) (rorShape : List ℕ) (K : VKwargs) (bhat : Tensor ℝ) : Except PyErr (VKwargs × Tensor ℝ) :=
  match b with
  | .pymc3 => .ok (K, bhat)
  | .pymc =>
    let shape := K.shape.getD (.tuple rorShape)
    match broadcastTo bhat shape.dims with
    | .error e => .error e
    | .ok bh => .ok ({ K with shape := some shape }, bh)

/-- `impact_parameter(name, ror, **kwargs)` (distributions.py:105-127); `ror` is a number, an array or a tensor. -/
noncomputable def impactParameterV (b : Backend) (name : String) (ror : Tensor (VState → ℝ)) (K : VKwargs) :
    Except PyErr (List VReg × Tensor (VState → ℝ)) := do
  -- 115
  let (bhat, K) := popInitvalV K ⟨.array, .scalar 0.5⟩
  -- 116-120
  let (K, bhat) ← impactShape b ror.shape K bhat.value
  -- 121-126
  let K := { K with other := (K.other.set "lower" (Val.ofReal 0)).set "upper" (Val.ofReal 1) }
  let n := "__" ++ name ++ "_impact_parameter"
  let start ← bhat.zipB (fun x (r : VState → ℝ) σ => npDiv x (1 + r σ)) ror
  -- 127
  let value ← (varV n K.dims).zipB (fun (x r : VState → ℝ) σ => x σ * (1 + r σ)) ror
  .ok ([pmVarV b .uniform n K start, .deterministic name value], value)

end Exo
