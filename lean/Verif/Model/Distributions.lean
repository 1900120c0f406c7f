import Verif.Model.PyMC
import Mathlib.MeasureTheory.Measure.Lebesgue.Basic
import Mathlib.MeasureTheory.Measure.WithDensity

/-!
# Distribution helpers — src/exoplanet/distributions/distributions.py
-/

namespace Exo
open scoped ENNReal
open MeasureTheory

/-! ## Semantics of registrations -/

/-- `x` respects the bounds that are given. -/
def InBounds (lower upper : Option ℝ) (x : ℝ) : Prop := (∀ l, lower = some l → l ≤ x) ∧ (∀ u, upper = some u → x ≤ u)

open Classical in
/-- The density of a distribution at `x`, in sampler state `σ` (its parameters may depend on other variables). -/
noncomputable def Dist.density (d : Dist) (σ : State) (x : ℝ) : ℝ≥0∞ :=
  match d with
  | .plain f p => ENNReal.ofReal (f.pdf p σ x)
  | .truncated f p lo hi =>
    if InBounds lo hi x then
      ENNReal.ofReal (f.pdf p σ x) / ∫⁻ y in {y | InBounds lo hi y}, ENNReal.ofReal (f.pdf p σ y)
    else 0
  | .bound f p lo hi => if InBounds lo hi x then ENNReal.ofReal (f.pdf p σ x) else 0

/-- `_logp(dist, x)` (src/exoplanet/distributions/eccentricity.py:247-250). -/
noncomputable def Dist.logp (d : Dist) (σ : State) (x : ℝ) : EReal := ENNReal.log (d.density σ x)

/-- The factor that a registration contributes to the joint density: the density of a free variable at its value, the exponential
of a potential; deterministics contribute nothing. -/
noncomputable def Reg.factor (r : Reg) (σ : State) : ℝ≥0∞ :=
  match r with
  | .free n d _ => d.density σ (σ n)
  | .potential _ f => EReal.exp (f σ)
  | .deterministic _ _ => 1

/-- The (unnormalised) joint density of the registered variables. -/
noncomputable def jointDensity (rs : List Reg) (σ : State) : ℝ≥0∞ := (rs.map (fun r => r.factor σ)).prod

/-- The keyword under which the back-end understands a start value. -/
def Backend.startKey : Backend → String
  | .pymc3 => "testval"
  | .pymc => "initval"

/-- The numeric value, if there is one. -/
def Val.eval (v : Val) (σ : State) : Option ℝ :=
  match v with
  | .num f => some (f σ)
  | .nanable f => f σ
  | _ => Option.none

/-- The start value that the back-end sees for variable `n`, as a function of the state (start values may be tensors). -/
def startValue (b : Backend) (rs : List Reg) (n : String) : Option Val :=
  rs.findSome? (fun r => match r with
    | .free m _ kw => if m = n ∧ kw.mem b.startKey then some (kw.get b.startKey .none) else none
    | _ => none)

/-- `σ` is the state from which the sampler starts: each free variable is at its start value. -/
def IsStart (b : Backend) (rs : List Reg) (σ : State) : Prop :=
  ∀ n d kw, Reg.free n d kw ∈ rs → ∃ v, startValue b rs n = some v ∧ v.eval σ = some (σ n)

/-- The state with given values of two free variables. -/
noncomputable def twoState (n1 n2 : String) (p : ℝ × ℝ) : State := Function.update (Function.update (fun _ => 0) n1 p.1) n2 p.2

/-- The law of two free variables, the only ones registered. -/
noncomputable def law2 (rs : List Reg) (n1 n2 : String) : Measure (ℝ × ℝ) :=
  volume.withDensity (fun p => jointDensity rs (twoState n1 n2 p))

/-- The law of one free variable, given the others. -/
noncomputable def law1 (rs : List Reg) (n : String) (σ : State) : Measure ℝ :=
  volume.withDensity (fun x => jointDensity rs (Function.update σ n x))

/-! ## The helpers -/

/-- A numeric value; NumPy functions of anything else raise. -/
def Val.asNum : Val → Except PyErr (State → ℝ)
  | .num f => .ok f
  | _ => .error (.typeError "not a number")

/-- `v[i]`. -/
def Val.item (v : Val) (i : ℕ) : Except PyErr (State → ℝ) :=
  match v with
  | .seq l => match l[i]? with
    | some f => .ok f
    | Option.none => .error .indexError
  | _ => .error (.typeError "not subscriptable")

/-- `_with_initval(**kwargs)` (distributions.py:130-134, eccentricity.py:240-244). -/
def withInitval (b : Backend) (kwargs : Kwargs) : Kwargs :=
  let (val, kwargs) := popInitval kwargs .none
  kwargs.set b.startKey val

/-- `_with_initval(initval=val, **kwargs)`. -/
def withInitvalOf (b : Backend) (val : Val) (kwargs : Kwargs) : Except PyErr Kwargs :=
  match Kwargs.merge [("initval", val)] kwargs with
  | .error e => .error e
  | .ok kw => .ok (withInitval b kw)

/-- `pm.Family(name, **kwargs)`. -/
def pmVar (f : Family) (name : String) (kwargs : Kwargs) : Reg := .free name (.plain f kwargs) kwargs

/-- A number. -/
def Val.ofReal (x : ℝ) : Val := .num (fun _ => x)

/-- `angle(name, regularization=…, **kwargs)` (distributions.py:11-37), one entry; the default of `regularization` is `10`. -/
noncomputable def angle (b : Backend) (name : String) (regularization : Option ℝ) (kwargs : Kwargs) :
    Except PyErr (List Reg × (State → ℝ)) := do
  -- 24-25
  let (initval, kwargs) := popInitval kwargs (Val.ofReal 0)
  let iv ← initval.asNum
  -- 26-31
  let n1 := "__" ++ name ++ "_angle1"
  let n2 := "__" ++ name ++ "_angle2"
  let kw1 ← withInitvalOf b (.num fun σ => Real.sin (iv σ)) kwargs
  let kw2 ← withInitvalOf b (.num fun σ => Real.cos (iv σ)) kwargs
  -- 32-36
  let pot := match regularization with
    | some c => [Reg.potential (name ++ "_regularization") (fun σ => (c : EReal) * ptLog (σ n1 ^ 2 + σ n2 ^ 2))]
    | none => []
  -- 37
  let value := fun σ : State => arctan2 (σ n1) (σ n2)
  .ok ([pmVar .normal n1 kw1, pmVar .normal n2 kw2] ++ pot ++ [.deterministic name (fun σ => [value σ])], value)

/-- `unit_disk(name_x, name_y, **kwargs)` (distributions.py:40-75), one entry. -/
noncomputable def unitDisk (b : Backend) (name_x name_y : String) (kwargs : Kwargs) :
    Except PyErr (List Reg × (State → ℝ) × (State → ℝ)) := do
  -- 56-62
  let (initval, kwargs) := popInitval kwargs (.seq [fun _ => 0, fun _ => 0])
  -- 64-65
  let kwargs := (kwargs.set "lower" (Val.ofReal (-1))).set "upper" (Val.ofReal 1)
  -- 66-72
  let i0 ← initval.item 0
  let kw1 ← withInitvalOf b (.num i0) kwargs
  let i1 ← initval.item 1
  let n2 := "__" ++ name_y ++ "_unit_disk"
  let kw2 ← withInitvalOf b (.num fun σ => i1 σ * Real.sqrt (1 - i0 σ ^ 2)) kwargs
  -- 73-75
  let norm := fun σ : State => Real.sqrt (1 - σ name_x ^ 2)
  let y := fun σ : State => σ n2 * norm σ
  .ok ([pmVar .uniform name_x kw1, pmVar .uniform n2 kw2, .potential (name_y ++ "_jacobian") (fun σ => ptLog (norm σ)),
    .deterministic name_y (fun σ => [y σ])], fun σ => σ name_x, y)

/-- `quad_limb_dark(name, **kwargs)` (distributions.py:78-102), one entry; the citation (`distributions.py:85`) is in `Model/Citations`. -/
noncomputable def quadLimbDark (b : Backend) (name : String) (kwargs : Kwargs) :
    Except PyErr (List Reg × (State → ℝ) × (State → ℝ)) := do
  -- 87-89
  let (u, kwargs) := popInitval kwargs (.seq [fun _ => Real.sqrt 0.5, fun _ => 0])
  let u1 ← u.item 0
  let u2 ← u.item 1
  -- 90-97
  let kwargs := (kwargs.set "lower" (Val.ofReal 0)).set "upper" (Val.ofReal 1)
  let n1 := "__" ++ name ++ "_q1"
  let n2 := "__" ++ name ++ "_q2"
  let kw1 ← withInitvalOf b (.num fun σ => (u1 σ + u2 σ) ^ 2) kwargs
  let kw2 ← withInitvalOf b (.nanable fun σ => npDiv (0.5 * u1 σ) (u1 σ + u2 σ)) kwargs
  -- 98-102
  let a := fun σ : State => Real.sqrt (σ n1) * (2 * σ n2)
  let c := fun σ : State => Real.sqrt (σ n1) * (1 - 2 * σ n2)
  .ok ([pmVar .uniform n1 kw1, pmVar .uniform n2 kw2, .deterministic name (fun σ => [a σ, c σ])], a, c)

/-- `impact_parameter(name, ror, **kwargs)` (distributions.py:105-127), one entry; `ror` may be a tensor. The broadcast of the start
value to the shape of `ror` (`distributions.py:116-120`) is the identity on entries. -/
noncomputable def impactParameter (b : Backend) (name : String) (ror : State → ℝ) (kwargs : Kwargs) :
    Except PyErr (List Reg × (State → ℝ)) := do
  -- 115
  let (bhat, kwargs) := popInitval kwargs (Val.ofReal 0.5)
  -- 116-120
  let kwargs := match b with
    | .pymc3 => kwargs
    | .pymc => kwargs.setdefault "shape" (.obj "ror.shape")
  let bh ← bhat.asNum
  -- 121-126
  let kwargs := (kwargs.set "lower" (Val.ofReal 0)).set "upper" (Val.ofReal 1)
  let n := "__" ++ name ++ "_impact_parameter"
  let kw ← withInitvalOf b (.nanable fun σ => npDiv (bh σ) (1 + ror σ)) kwargs
  -- 127
  let value := fun σ : State => σ n * (1 + ror σ)
  .ok ([pmVar .uniform n kw, .deterministic name (fun σ => [value σ])], value)

end Exo
