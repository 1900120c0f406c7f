import Verif.Model.AstrometryTutorial
import Verif.Model.BackpropAstro
import Verif.Model.BackpropLaw

/-!
# The graphs of log-likelihoods

What `pm.sample` and `pmx.optimize` differentiate: the logarithm of the density of the data, for the models of the tutorials, and for a light curve of several planets.
PyMC computes the density of each observed vector and adds the sums; here the data are added one after the other. The transforms of bounded variables are not modelled: the parameters are
the variables as they are registered. Uniform priors are constant within their support and left out.
-/

namespace Exo
open Real

namespace Fit
open Graph
variable {ι : Type}

/-- `Normal.logp(value, mu, sigma)` of PyMC. -/
noncomputable def normalG (value mu sigma : Graph ι) : Graph ι :=
  sub (sub (mul (const (-0.5)) (pow (div (sub value mu) sigma) 2)) (Graph.log (Graph.sqrt (mul (const 2) (const π))))) (Graph.log sigma)

/-- `pt.sum` -/
noncomputable def sumG (l : List (Graph ι)) : Graph ι := l.foldl add (const 0)

/-- `pm.Normal("obs", mu=model(t), sigma=err, observed=obs)` — `docs/tutorials/data-and-models.md:280`, 505. -/
noncomputable def likelihoodG (model : ℝ → Graph ι) (data : List RvDatum) : Graph ι :=
  sumG (data.map fun d => normalG (const d.obs) (model d.t) (const d.err))

end Fit

/-- The density of the state and the data in `docs/tutorials/data-and-models.md:457-505`: the priors of lines 460, 464, 465, 475 and the likelihood. -/
noncomputable def Tutorial.posteriorG (C : Consts) (n : ℝ) (data : List RvDatum) : Graph String :=
  .add (Fit.sumG [Fit.normalG (.input "mean") (.const 0) (.const 1), Fit.normalG (.input "t0") (.const 4.35) (.const 1), Fit.normalG (.input "t1") (.const 33.2) (.const 1),
      Fit.normalG (.input "log_r") (.const (Real.log 0.04)) (.const 2)])
    (Fit.likelihoodG (Tutorial.lightCurveG C n) data)

/-! The radial-velocity model of `docs/tutorials/data-and-models.md:243-280`. -/

namespace RvTutorial
open Graph

/-- `period` — line 245. -/
def periodG : Graph String := Graph.exp (input "log_period")

/-- The arguments of the orbit, `ecc` of line 248, `omega`, 255, `tperi`, 270, and `semiamp`, 247. The angles `plus` and `minus` of lines 252 and 253 are parameters. -/
noncomputable def parG : RvPar → Graph String
  | .kep .period => periodG
  | .kep .ecc => input "ecc"
  | .kep .omega => sub (input "plus") (input "minus")
  | .t_periastron => div (mul periodG (add (input "plus") (input "minus"))) (mul (const 2) (const π))
  | .K => Graph.exp (input "log_semiamp")
  | _ => const 0

/-- `rv_model` — line 276. -/
noncomputable def modelG (t : ℝ) : Graph String := add (input "zero_point") ((RvMode.t_periastron.rvG .angle t).subst parG)

/-- The likelihood — line 280. -/
noncomputable def likelihoodG (data : List RvDatum) : Graph String := Fit.likelihoodG modelG data

end RvTutorial

/-- One line of the data of the astrometry tutorial — `docs/tutorials/data-and-models.md:331-333`, 373-375. -/
structure AstroDatum where
  t : ℝ
  rho : ℝ
  theta : ℝ
  rhoErr : ℝ
  thetaErr : ℝ

/-! The astrometry model of `docs/tutorials/data-and-models.md:335-395`. -/

namespace AstroTutorial
open Graph

/-- `KeplerianOrbit(a=a, t_periastron=tperi, period=period, incl=incl, ecc=ecc, omega=omega, Omega=Omega)` — lines 356-364. -/
def mode : AstroMode := ⟨.angle, .t_periastron, true, false⟩

/-- The arguments of the orbit — lines 337-354. The angles `plus` and `minus` are parameters. -/
noncomputable def parG : AstroPar → Graph String
  | .kep .period => Graph.exp (input "log_period")
  | .kep .a => Graph.exp (input "log_a")
  | .kep .ecc => input "ecc"
  | .kep .omega => sub (input "plus") (input "minus")
  | .t_periastron => input "tperi"
  | .Omega => add (input "plus") (input "minus")
  | .incl => Graph.arccos (input "cos_incl")
  | _ => const 0

/-- `rho_model` — line 367. -/
noncomputable def rhoG (C : Consts) (t : ℝ) : Graph String := (mode.rhoG C t).subst parG

/-- `theta_diff` — lines 367, 387-389. -/
noncomputable def diffG (C : Consts) (t observed : ℝ) : Graph String := (mode.residualG C t observed).subst parG

/-- The likelihood — lines 379, 390-395. -/
noncomputable def likelihoodG (C : Consts) (data : List AstroDatum) : Graph String :=
  add (Fit.sumG (data.map fun d => Fit.normalG (const d.rho) (rhoG C d.t) (const d.rhoErr)))
    (Fit.sumG (data.map fun d => Fit.normalG (const 0) (diffG C d.t d.theta) (const d.thetaErr)))

end AstroTutorial

/-- The parameters of a light curve of `n` planets around one star. -/
inductive SysPar (n : ℕ) where
  | own (i : Fin n) (p : KepPar)
  | r_star
  | u1
  | u2
  | mean
  deriving DecidableEq

namespace Planets
open Graph
variable {n : ℕ} (m : KepMode)

/-- The arguments of the orbit of planet `i`: the radius of the star is shared. -/
def parG (i : Fin n) : KepPar → Graph (SysPar n)
  | .r_star => input .r_star
  | p => input (.own i p)

/-- Column `i` of `LimbDarkLightCurve(u1, u2).get_light_curve(orbit=orbit, r=r, t=[t])`, `limb_dark.py:213-251`. -/
noncomputable def planetG (t : ℝ) (i : Fin n) : Graph (SysPar n) :=
  let w := sub (const t) (parG i .t0)
  Law.fluxG (input .u1) (input .u2) (m.x1G (parG i) w) (m.yG (parG i) w) (m.zG (parG i) w) (parG i .r_star) (parG i .r)

/-- `pt.sum(light_curves, axis=-1) + mean` -/
noncomputable def lightCurveG (t : ℝ) : Graph (SysPar n) := add (Fit.sumG ((List.finRange n).map (planetG m t))) (input .mean)

end Planets
end Exo
