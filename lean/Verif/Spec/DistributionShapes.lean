import Verif.Model.DistributionShapes
import Verif.Spec.Distributions

/-!
# What array-valued distributions should do (C97)
-/

namespace Exo
open MeasureTheory
open scoped ENNReal

/-- The names of the free variables, in order. -/
def freeNamesV (rs : List VReg) : List String :=
  rs.filterMap (fun r => match r with | .free n _ _ _ _ _ => some n | _ => none)

/-- All free variables have shape `s`. -/
def AllShape (rs : List VReg) (s : List ℕ) : Prop := ∀ n s' f p key start, VReg.free n s' f p key start ∈ rs → s' = s

/-- The state in which entry number `k` (in C order) of two free variables of shape `s` has the values `p k`. -/
noncomputable def entryState (s : List ℕ) (n1 n2 : String) (p : Fin s.prod → ℝ × ℝ) : VState :=
  fun n idx => if h : Tensor.ravel s idx < s.prod then twoState n1 n2 (p ⟨_, h⟩) n else 0

/-- The law of all entries of two free variables of shape `s`, the only ones registered. -/
noncomputable def lawV2 (rs : List VReg) (s : List ℕ) (n1 n2 : String) : Measure (Fin s.prod → ℝ × ℝ) :=
  volume.withDensity (fun p => jointDensityV rs (entryState s n1 n2 p))

/-- The state `σ` with other values of the variable `n` of shape `s`. -/
noncomputable def setEntries (σ : VState) (s : List ℕ) (n : String) (x : Fin s.prod → ℝ) : VState :=
  Function.update σ n (fun idx => if h : Tensor.ravel s idx < s.prod then x ⟨_, h⟩ else σ n idx)

/-- The law of all entries of one free variable of shape `s`, given the others. -/
noncomputable def lawV1 (rs : List VReg) (s : List ℕ) (n : String) (σ : VState) : Measure (Fin s.prod → ℝ) :=
  volume.withDensity (fun x => jointDensityV rs (setEntries σ s n x))

/-- `σ` is the state from which the sampler starts: each start value is handed over under the keyword the back-end understands, it can
be broadcast to the shape of the variable, and the variable has that value. -/
def IsStartV (b : Backend) (rs : List VReg) (σ : VState) : Prop :=
  ∀ n s f p key start, VReg.free n s f p key start ∈ rs →
    key = b.startKey ∧ bcastShape start.shape s = .ok s ∧ ∀ idx, InShape idx s → start.bget idx σ = some (σ n idx)

/-- Every start value is handed over under the right keyword and can be broadcast to the shape of its variable. -/
def StartsFit (b : Backend) (rs : List VReg) : Prop :=
  ∀ n s f p key start, VReg.free n s f p key start ∈ rs → key = b.startKey ∧ bcastShape start.shape s = .ok s

/-- The start value that was asked for. -/
def VKwargs.asked (K : VKwargs) : Option VInit := K.initval.orElse fun _ => K.testval

/-- The entry of the start value that was asked for, broadcast to the shape of the variable; `dflt` if none was. -/
noncomputable def VKwargs.startAt (K : VKwargs) (dflt : ℝ) (idx : List ℕ) : ℝ :=
  match K.asked with
  | some v => v.value.bget idx
  | none => dflt

/-- The same for row `i` of the start value of a helper with two parameters. -/
noncomputable def VKwargs.rowAt (K : VKwargs) (i : ℕ) (dflt : ℝ) (idx : List ℕ) : ℝ :=
  match K.asked with
  | some v => Tensor.bget ⟨v.value.shape.tail, fun j => v.value.get (i :: j)⟩ idx
  | none => dflt

/-- Array-valued registrations are, entry by entry, the registrations `rs` of scalar calls: the joint density is the product of the
densities of the entries, each in its own state, and the sampler starts every entry where the scalar call starts. -/
def EntryWise (b : Backend) (vrs : List VReg) (s : List ℕ) (rs : VState → List ℕ → List Reg) : Prop :=
  ∀ σ, jointDensityV vrs σ =
      ∏ k ∈ Finset.range s.prod, jointDensity (rs σ (Tensor.unravel s k)) (σ.entry (Tensor.unravel s k)) ∧
    (IsStartV b vrs σ → ∀ idx, InShape idx s → IsStart b (rs σ idx) (σ.entry idx))

/-- The remaining keyword arguments are really others. -/
def VKwargs.OthersOnly (K : VKwargs) : Prop := ∀ p ∈ K.other, p.1 ∉ ["initval", "testval", "shape"]

/-- The shape of an impact parameter: what was asked for with `shape=`; if nothing was, that of `ror` (PyMC), a scalar (PyMC3). -/
def VKwargs.impactDims (K : VKwargs) (b : Backend) (rorShape : List ℕ) : List ℕ :=
  match b, K.shape with
  | .pymc, none => rorShape
  | _, _ => K.dims

end Exo
