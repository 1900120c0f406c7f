import Verif.Model.Distributions
import Verif.Model.LightCurve
import Verif.Model.LimbDark
import Verif.Model.EccentricityVector

/-!
# The models of the tutorials

`docs/tutorials/data-and-models.md` and `docs/tutorials/intro-to-pymc.md` show how the parts of the package are used together. The
programs are transcribed here up to the observations.
-/

namespace Exo
open Real

/-- What the transit model of the tutorial computes from the sampler's state. -/
structure TransitModel where
  regs : List Reg
  mean : State → ℝ
  t0 : State → ℝ
  period : State → ℝ
  u1 : State → ℝ
  u2 : State → ℝ
  r : State → ℝ
  b : State → ℝ

/-- `docs/tutorials/data-and-models.md:460-477` (`numTransits = 4`, `muR = log(0.04)` there). -/
noncomputable def transitModel (bk : Backend) (numTransits : ℤ) (muR : ℝ) : Except PyErr TransitModel := do
  -- 460
  let mean := pmVar .normal "mean" [("mu", Val.ofReal 0), ("sigma", Val.ofReal 1)]
  -- 464-466
  let t0 := pmVar .normal "t0" [("mu", Val.ofReal 4.35), ("sigma", Val.ofReal 1)]
  let t1 := pmVar .normal "t1" [("mu", Val.ofReal 33.2), ("sigma", Val.ofReal 1)]
  let period : State → ℝ := fun σ => (σ "t1" - σ "t0") / numTransits
  -- 470
  let (rsU, u1, u2) ← quadLimbDark bk "u" [("initval", .seq [fun _ => 0.3, fun _ => 0.2])]
  -- 475-477
  let log_r := pmVar .normal "log_r" [("mu", Val.ofReal muR), ("sigma", Val.ofReal 2)]
  let r : State → ℝ := fun σ => exp (σ "log_r")
  let (rsB, b) ← impactParameter bk "b" r [("initval", Val.ofReal 0.35)]
  .ok { regs := [mean, t0, t1, .deterministic "period" (fun σ => [period σ])] ++ rsU ++
          [log_r, .deterministic "r" (fun σ => [r σ])] ++ rsB
        mean := fun σ => σ "mean", t0 := fun σ => σ "t0", period, u1, u2, r, b }

/-- `docs/tutorials/data-and-models.md:480`: `KeplerianOrbit(period=period, t0=t0, b=b)`. -/
noncomputable def TransitModel.args (m : TransitModel) (σ : State) : Args :=
  { period := some (m.period σ : Q), t0 := some (m.t0 σ : Q), b := some (m.b σ : Q) }

/-- `docs/tutorials/data-and-models.md:485-490`, before `[:, 0] + mean`. -/
noncomputable def TransitModel.lightCurve (C : Consts) (cp : ContactOp) (m : TransitModel) (σ : State) (t : List ℝ) :
    Except PyErr (Tensor ℝ) :=
  match keplerianInit C (m.args σ) with
  | .error e => .error e
  | .ok o => (LimbDark.new (m.u1 σ) (m.u2 σ)).getLightCurve (some (keplerApi C cp [o] o.r_star)) (some (Tensor.scalar (m.r σ)))
      (some (Tensor.ofList t 0))

/-- `docs/tutorials/intro-to-pymc.md:270-279`: the mean anomaly at time `t`, from `logP`, `phi`, `w`. -/
noncomputable def tutorialMeanAnomaly (logP phi w t : ℝ) : ℝ :=
  let n := 2 * π * exp (-logP)
  n * t - (phi + w)

/-- `docs/tutorials/intro-to-pymc.md:272-285`: the radial velocity written out with `get_true_anomaly`, without the background. -/
noncomputable def tutorialRv (logK e w M : ℝ) : ℝ :=
  let K := exp logK
  let f := getTrueAnomaly M e
  K * (cos w * (cos f + e) - sin w * sin f)

end Exo
