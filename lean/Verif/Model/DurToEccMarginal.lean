import Verif.Model.DurToEcc
import Verif.Model.InTransit
import Verif.Model.Eccentricity

/-!
# Model of `src/exoplanet/orbits/dur_to_ecc.py:48-110`

What `duration_to_eccentricity` does once it has its inputs: the sum over the branches and what it registers. The call that should
compute the inputs always fails (`durationToEccentricity` in `Model/DurToEcc`), so this code is never reached; it is modelled from the
quantities of lines 35-46 on. Numbers that are NaN are `none`. Simplified: `func` is a function of the eccentricities (the orbit built
from them has everything else fixed) and registers no variables of its own. Where `s + ecc = 0` (the two branches meet) the code has an infinite
Jacobian, the model a finite one; the theorems exclude this or are about integrals.
-/

namespace Exo
open Real
open scoped ENNReal

/-- What dur_to_ecc.py:35-43 has computed for one planet: `s`, `const` and `u`. -/
structure DurEccPlanet where
  s : ℝ
  const : ℝ
  u : ℝ

/-- dur_to_ecc.py:35-43 for one planet, from the consistent inputs. -/
noncomputable def durEccPlanet (A : DurEccArgs) (I : Inputs) : DurEccPlanet :=
  let const := durEccConst I.period I.r_star A.ror A.b I.a
  ⟨sin A.omega, const, A.duration / const⟩

/-- dur_to_ecc.py:51: `product(*(zip("np", (-1, 1)) for _ in range(num_planets)))`; `false` is the label `n`, `true` the label `p`. -/
def durEccSigns : ℕ → List (List Bool)
  | 0 => [[]]
  | n + 1 => (durEccSigns n).map (false :: ·) ++ (durEccSigns n).map (true :: ·)

/-- dur_to_ecc.py:55: `e1[i] + signs[i] * e2[i]`; NaN if the radicand of `e2` is negative. -/
noncomputable def DurEccPlanet.branch (p : DurEccPlanet) (sign : Bool) : Option ℝ :=
  if (p.s ^ 2 - 1) * p.u ^ 2 + 1 < 0 then none
  else some (durEccE1 p.s p.u + (if sign then 1 else -1) * durEccE2 p.s p.u)

open Classical in
/-- dur_to_ecc.py:58: `(ecc < 1) & (ecc >= 0)`. -/
noncomputable def validEcc : Option ℝ → Bool
  | none => false
  | some e => decide (e < 1 ∧ 0 ≤ e)

/-- One branch: dur_to_ecc.py:51-79. -/
structure DurEccBranch where
  model : String
  ecc : List ℝ
  logjac : EReal
  logprob : EReal

/-- dur_to_ecc.py:72: the name of the sub-model. -/
def durEccLabel (signs : List Bool) : String := "dur_ecc_" ++ "_".intercalate (signs.map fun sign => if sign then "p" else "n")

/-- dur_to_ecc.py:52-79. -/
noncomputable def durEccBranchOf (func : List ℝ → EReal) (ps : List DurEccPlanet) (signs : List Bool) : DurEccBranch :=
  -- 55
  let ecc := List.zipWith DurEccPlanet.branch ps signs
  -- 58-68
  let logjac : EReal := if ecc.all validEcc then
    ((List.zipWith (fun (p : DurEccPlanet) (e : Option ℝ) => durEccLogJac p.s p.const (e.getD 0)) ps ecc).sum : ℝ) else ⊥
  -- 69
  let ecc := ecc.map fun e => if validEcc e then e.getD 0 else 0
  -- 72-79
  ⟨durEccLabel signs, ecc, logjac, func ecc⟩

/-- dur_to_ecc.py:48-79: all branches. -/
noncomputable def durEccBranches (func : List ℝ → EReal) (ps : List DurEccPlanet) : List DurEccBranch :=
  (durEccSigns ps.length).map (durEccBranchOf func ps)

/-- `pm.logsumexp(x)`, as in dur_to_ecc.py:86. -/
noncomputable def logsumexp (l : List EReal) : EReal := ENNReal.log (l.map EReal.exp).sum

open Classical in
/-- dur_to_ecc.py:85 and 97: `1.0 / u > umax_inv`. -/
noncomputable def DurEccPlanet.accepted (p : DurEccPlanet) : Bool := decide (durEccUmaxInv p.s < 1 / p.u)

/-- dur_to_ecc.py:84-89: the potential. The condition has one entry per planet, so that the potential has, too. -/
noncomputable def durEccLogp (func : List ℝ → EReal) (ps : List DurEccPlanet) : List EReal :=
  ps.map fun p => if p.accepted then logsumexp ((durEccBranches func ps).map fun c => c.logprob + c.logjac) else ⊥

/-- dur_to_ecc.py:95-101: the weights. The condition (one entry per planet) is broadcast against the branches. -/
noncomputable def durEccLogw (func : List ℝ → EReal) (ps : List DurEccPlanet) : Except PyErr (List EReal) :=
  let logjacs := (durEccBranches func ps).map DurEccBranch.logjac
  let norm := logsumexp logjacs
  bcast (fun (ok : Bool) logjac => if ok then logjac - norm else ⊥) (ps.map DurEccPlanet.accepted) logjacs

/-- dur_to_ecc.py:103: `k[len(models[0].name) + 1 :]`. -/
def dropPrefix (model k : String) : String := String.ofList (k.toList.drop (model.toList.length + 1))

/-- dur_to_ecc.py:107: `model.named_vars[model.name + "_" + name]`, where the only variable is `ecc` (line 73). -/
def namedVar (b : Backend) (c : DurEccBranch) (name : String) : Except PyErr (List ℝ) :=
  if c.model ++ "_" ++ name = subName b c.model "ecc" then .ok c.ecc else .error (.keyError (c.model ++ "_" ++ name))

/-- dur_to_ecc.py:102-110: the name under which the average is registered, and the average (one entry per planet). -/
noncomputable def durEccAverage (b : Backend) (func : List ℝ → EReal) (ps : List DurEccPlanet) (logw : List EReal) :
    Except PyErr (String × List ℝ) :=
  match durEccBranches func ps with
  | [] => .error .indexError
  | c :: cs =>
    let name := dropPrefix c.model (subName b c.model "ecc")
    match (c :: cs).mapM (fun c => namedVar b c name) with
    | .error e => .error e
    | .ok vs => .ok (name, (List.range ps.length).map fun i =>
        (List.zipWith (fun (w : EReal) (v : List ℝ) => (EReal.exp w).toReal * v.getD i 0) logw vs).sum)

/-- What is registered. -/
structure DurEccResult where
  logp : List EReal
  logw : List EReal
  average : String × List ℝ

/-- dur_to_ecc.py:48-110, for at least one planet. -/
noncomputable def durEccMarginal (b : Backend) (func : List ℝ → EReal) (ps : List DurEccPlanet) : Except PyErr DurEccResult := do
  let logw ← durEccLogw func ps
  let average ← durEccAverage b func ps logw
  .ok ⟨durEccLogp func ps, logw, average⟩

/-- The factor that the potential contributes to the joint density: the back-ends add up the entries of a potential
(see `VReg.factor`). -/
noncomputable def DurEccResult.factor (r : DurEccResult) : ℝ≥0∞ := EReal.exp r.logp.sum

end Exo
