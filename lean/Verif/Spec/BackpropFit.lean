import Verif.Model.BackpropFit
import Verif.Spec.BackpropAstro
import Verif.Spec.BackpropLaw

/-!
# Vocabulary of the properties of computed gradients of log-likelihoods
-/

namespace Exo
open Real

/-- The density of data with independent normal errors around `f`. -/
noncomputable def dataDensity (f : ℝ → ℝ) (data : List RvDatum) : ℝ := (data.map fun d => normalPdf (f d.t) d.err d.obs).prod

/-- The light curve of the transit tutorial. -/
noncomputable def Tutorial.flux (C : Consts) (u1 u2 : State → ℝ) (o : State → Orbit) (σ : State) (t : ℝ) : ℝ :=
  fluxAt (getCl (u1 σ) (u2 σ)) 1 (Real.exp (σ "log_r")) ((o σ).relativePosition C t) + σ "mean"

/-- The joint density of the normal variables and the data of the transit tutorial. -/
noncomputable def Tutorial.density (C : Consts) (u1 u2 : State → ℝ) (o : State → Orbit) (data : List RvDatum) (σ : State) : ℝ :=
  normalPdf 0 1 (σ "mean") * normalPdf 4.35 1 (σ "t0") * normalPdf 33.2 1 (σ "t1") * normalPdf (Real.log 0.04) 2 (σ "log_r") * dataDensity (Tutorial.flux C u1 u2 o σ) data

/-- The density of separations and position angles with independent normal errors; those of the angles are measured the short way round. -/
noncomputable def astroDensity (C : Consts) (o : Orbit) (data : List AstroDatum) : ℝ :=
  (data.map fun d => normalPdf (o.relativeAngles C d.t).1 d.rhoErr d.rho).prod * (data.map fun d => normalPdf (wrapped ((o.relativeAngles C d.t).2 - d.theta)) d.thetaErr 0).prod

/-- The parameters of planet `i` among those of the system. -/
def SysPar.planet {n : ℕ} (q : SysPar n → ℝ) (i : Fin n) : KepPar → ℝ
  | .r_star => q .r_star
  | p => q (.own i p)

/-- The flux that planet `i` takes away. -/
noncomputable def planetFlux {n : ℕ} (C : Consts) (o : (KepPar → ℝ) → Orbit) (t : ℝ) (q : SysPar n → ℝ) (i : Fin n) : ℝ :=
  fluxAt (getCl (q .u1) (q .u2)) (q .r_star) (q (.own i .r)) ((o (SysPar.planet q i)).relativePosition C t)

/-- The sum over all planets. -/
noncomputable def systemFlux {n : ℕ} (C : Consts) (o : (KepPar → ℝ) → Orbit) (t : ℝ) (q : SysPar n → ℝ) : ℝ := ∑ i, planetFlux C o t q i + q .mean

/-- Planet `i` is where its light curve can be differentiated: an orbit, not seen face-on, not exactly in front of or behind the centre of the star, and not grazing it in the plane of the sky. -/
structure Smooth {n : ℕ} (C : Consts) (m : KepMode) (o : (KepPar → ℝ) → Orbit) (t : ℝ) (q : SysPar n → ℝ) (i : Fin n) : Prop where
  possible : m.Possible (SysPar.planet q i)
  inclined : |(o (SysPar.planet q i)).cos_incl| < 1
  centre : ((o (SysPar.planet q i)).relativePosition C t).x ≠ 0 ∨ ((o (SysPar.planet q i)).relativePosition C t).y ≠ 0
  clear : Clear (q .r_star) (q (.own i .r)) ((o (SysPar.planet q i)).relativePosition C t)

end Exo
