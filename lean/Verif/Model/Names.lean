import Verif.Model.Eccentricity

/-!
# Several distribution helpers in one model

A script builds one PyMC model by calling several helpers of `exoplanet.distributions` inside `with pm.Model()`. The model keeps its
variables under their names, and adding a variable under a name that exists raises
(`Model.add_named_variable` of PyMC, `Model.add_random_variable` of PyMC3: `ValueError("Variable name ... already exists.")`).

Simplified: the model is only the list of registrations; what was registered before an exception is dropped, since nothing of it is
used; variables created by the script itself are not among the calls.
-/

namespace Exo

/-- The name under which something is registered. -/
def Reg.key : Reg → String
  | .free n _ _ => n
  | .potential n _ => n
  | .deterministic n _ => n

/-- Adding one variable, potential or deterministic to the model (see above). -/
def register (m : List Reg) (r : Reg) : Except PyErr (List Reg) :=
  if m.any (fun s => s.key == r.key) then .error (.valueError "Variable name already exists") else .ok (m ++ [r])

/-- Adding several, in order. -/
def registerAll (m : List Reg) : List Reg → Except PyErr (List Reg)
  | [] => .ok m
  | r :: rs => do
    let m ← register m r
    registerAll m rs

/-- A call of one of the helpers (src/exoplanet/distributions/distributions.py:11-127, eccentricity.py:10-237) with its arguments. -/
inductive Helper where
  | angle (name : String) (regularization : Option ℝ) (kwargs : Kwargs)
  | unitDisk (name_x name_y : String) (kwargs : Kwargs)
  | quadLimbDark (name : String) (kwargs : Kwargs)
  | impactParameter (name : String) (ror : State → ℝ) (kwargs : Kwargs)
  | kipping13 (name : String) (fixed : Bool) (long : Option Bool) (lower upper : Option ℝ) (kwargs : Kwargs)
  | vaneylen19 (name : String) (fixed multi : Bool) (lower upper : Option ℝ) (kwargs : Kwargs)

/-- What the call registers, in order (distributions.py:11-127, eccentricity.py:10-237). -/
noncomputable def Helper.run (b : Backend) : Helper → Except PyErr (List Reg)
  | .angle n reg kw => (Exo.angle b n reg kw).map (·.1)
  | .unitDisk nx ny kw => (Exo.unitDisk b nx ny kw).map (·.1)
  | .quadLimbDark n kw => (Exo.quadLimbDark b n kw).map (·.1)
  | .impactParameter n ror kw => (Exo.impactParameter b n ror kw).map (·.1)
  | .kipping13 n f l lo hi kw => Exo.kipping13 b n f l lo hi kw
  | .vaneylen19 n f m lo hi kw => Exo.vaneylen19 b n f m lo hi kw

/-- The script: the calls one after the other in one model that holds `m`. -/
noncomputable def extendModel (b : Backend) (m : List Reg) : List Helper → Except PyErr (List Reg)
  | [] => .ok m
  | h :: hs => do
    let rs ← h.run b
    let m ← registerAll m rs
    extendModel b m hs

/-- The calls one after the other in a new model. -/
noncomputable def buildModel (b : Backend) (hs : List Helper) : Except PyErr (List Reg) := extendModel b [] hs

end Exo
