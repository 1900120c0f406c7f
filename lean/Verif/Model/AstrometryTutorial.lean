import Verif.Model.Keplerian
import Verif.Model.Tutorials

/-!
# The astrometry and radial-velocity models of `docs/tutorials/data-and-models.md`
-/

namespace Exo
open Real

/-- `docs/tutorials/data-and-models.md:339-364`: the orbit of the astrometry tutorial, from `log_period`, `log_a`, `ecc`, `tperi`, `plus`,
`minus` and `cos_incl`. -/
noncomputable def astroArgs (logP logA e tperi plus minus cosIncl : ℝ) : Args :=
  { a := some (exp logA : ℝ), period := some (exp logP : ℝ), t_periastron := some (tperi : ℝ), incl := some (arccos cosIncl : ℝ),
    ecc := some (e : ℝ), omega := some (plus - minus : ℝ), Omega := some (plus + minus : ℝ) }

/-- `docs/tutorials/data-and-models.md:387-389`: the wrapped difference of two angles. -/
noncomputable def thetaDiff (model obs : ℝ) : ℝ := arctan2 (sin (model - obs)) (cos (model - obs))

/-- `docs/tutorials/data-and-models.md:245-273`: the orbit of the radial-velocity tutorial, from `log_period`, `ecc`, `plus` and `minus`. -/
noncomputable def rvTutorialArgs (logP e plus minus : ℝ) : Args :=
  { period := some (exp logP : ℝ), t_periastron := some (exp logP * (plus + minus) / (2 * π) : ℝ), ecc := some (e : ℝ),
    omega := some (plus - minus : ℝ) }

/-- One line of the data set of the tutorial: `t`, `rv_obs`, `rv_err` (`docs/tutorials/data-and-models.md:234-240`). -/
structure RvDatum where
  t : ℝ
  obs : ℝ
  err : ℝ

/-- `docs/tutorials/data-and-models.md:279`: `err = pt.sqrt(rv_err**2 + pt.exp(2 * log_jitter))`. -/
noncomputable def tutorialErr (err logJitter : ℝ) : ℝ := √(err ^ 2 + exp (2 * logJitter))

/-- `docs/tutorials/data-and-models.md:269-280`: the likelihood of the tutorial, `pm.Normal("obs", mu=rv_model, sigma=rv_err,
observed=rv_obs)` with `rv_model = zero_point + orbit.get_radial_velocity(t, K=semiamp)`. The variable `err` is computed and not used. -/
noncomputable def rvTutorialLikelihood (C : Consts) (data : List RvDatum) (logP logK e plus minus zero logJitter : ℝ) : Except PyErr ℝ := do
  let orbit ← keplerianInit C (rvTutorialArgs logP e plus minus)
  let rv ← data.mapM fun d => orbit.radialVelocity C d.t (some (exp logK))
  let _err := data.map fun d => tutorialErr d.err logJitter
  pure (List.zipWith (fun v d => normalPdf (zero + v) d.err d.obs) rv data).prod

end Exo
