import Verif.Model.BackpropKepler
import Verif.Model.Units

/-!
# The graph of `SecondaryEclipseLightCurve.get_light_curve`

The orbits are those of `Verif.Model.BackpropKepler`, without a mass of the planet. `orbit._flip(r)` builds a second `KeplerianOrbit` from the attributes of the
first one, in which star and planet have changed places, and the computed derivatives go through both. The two light curves may have different limb darkening,
so that there are two compiled operations; the gradient of the last lines is passed on to each of the light curves.
-/

namespace Exo
open Real

namespace KepMode
open Graph
variable {ι : Type} (m : KepMode) (P : KepPar → Graph ι) (A : Graph ι)

/-- `sinf` of `keplerian.py:331-334` for the mean anomaly `A`. -/
def sinfOf : Graph ι := match m with
  | circular => Graph.sin A
  | _ => keplerSin A (P .ecc)

/-- `cosf` of `keplerian.py:331-334` for the mean anomaly `A`. -/
def cosfOf : Graph ι := match m with
  | circular => Graph.cos A
  | _ => keplerCos A (P .ecc)

/-- `r` of `keplerian.py:401-404`, with the semi-major axis `-self.a` of 540. -/
noncomputable def radiusOf : Graph ι := match m with
  | circular => neg (P .a)
  | m => div (mul (neg (P .a)) (ome2G P)) (add (const 1) (mul (P .ecc) (m.cosfOf P A)))

/-- `x1` of `_rotate_vector`, `keplerian.py:303-308`, for the position of 410. -/
noncomputable def x1Of : Graph ι :=
  let x := mul (m.radiusOf P A) (m.cosfOf P A)
  let y := mul (m.radiusOf P A) (m.sinfOf P A)
  match m with
  | circular => x
  | m => sub (mul (m.cosOmegaG P) x) (mul (m.sinOmegaG P) y)

/-- `y1` of `_rotate_vector`, `keplerian.py:303-308`, for the position of 410. -/
noncomputable def y1Of : Graph ι :=
  let x := mul (m.radiusOf P A) (m.cosfOf P A)
  let y := mul (m.radiusOf P A) (m.sinfOf P A)
  match m with
  | circular => y
  | m => add (mul (m.sinOmegaG P) x) (mul (m.cosOmegaG P) y)

end KepMode

/-- The parameters. -/
inductive SecPar where
  | kep (p : KepPar)
  | surface_brightness_ratio
  deriving DecidableEq

namespace KepMode
open Graph
variable (C : Consts) (m : KepMode)

/-- The arguments of the orbit and the radius of the planet. -/
def secPar (p : KepPar) : Graph SecPar := input (.kep p)

/-- `lc1` — `secondary_eclipse.py:46-55`. -/
noncomputable def primaryG (t : ℝ) : Graph SecPar := m.lightCurveOf secPar (sub (const t) (secPar .t0))

/-- `self.t_periastron` — `keplerian.py:277`. -/
noncomputable def tPeriG : Graph SecPar := sub (secPar .t0) (div (m.M0G secPar) (nG secPar))

/-- `self.m_star` of an orbit given by `a` and `period` — `keplerian.py:883-886`; the mass of the planet is zero. -/
noncomputable def impliedMassG : Graph SecPar :=
  sub (div (mul (mul (mul (const 4) (const π)) (const π)) (pow (secPar .a) 3)) (mul (const C.G) (pow (secPar .period) 2))) (const 0)

/-- `self.omega` — `keplerian.py:193`, 200. -/
noncomputable def omegaG : Graph SecPar := match m with
  | sincos => Graph.arctan2 (secPar .sin_omega) (secPar .cos_omega)
  | _ => secPar .omega

/-- The flipped orbit is circular if the orbit is, and is given by `ecc` and `omega` otherwise — `keplerian.py:780-803`. -/
def flipMode : KepMode := match m with
  | circular => circular
  | _ => angle

/-- The arguments of the flipped orbit, `keplerian.py:780-803`, with the semi-major axis computed from the masses, 925-928, and in the place of the radius of the
planet the radius of the star, `secondary_eclipse.py:58`. -/
noncomputable def flipPar : KepPar → Graph SecPar
  | .a => powr (div (mul (mul (const C.G) (add (const 0) (impliedMassG C))) (pow (secPar .period) 2)) (mul (const 4) (pow (const π) 2))) (1 / 3)
  | .omega => sub m.omegaG (const π)
  | .r_star => secPar .r
  | .r => secPar .r_star
  | p => secPar p

/-- `t_periastron` of the flipped orbit — `keplerian.py:783`, 794. -/
noncomputable def flipPeriG : Graph SecPar := match m with
  | circular => add m.tPeriG (mul (const 0.5) (secPar .period))
  | m => m.tPeriG

/-- `self.t0` of the flipped orbit — `keplerian.py:274`. -/
noncomputable def flipT0G : Graph SecPar := add m.flipPeriG (div (m.flipMode.M0G (m.flipPar C)) (nG (m.flipPar C)))

/-- `M` of `keplerian.py:330` of the flipped orbit, with `self.tref`, 279, and `_warp_times`, 324-327. -/
noncomputable def flipAnomalyG (t : ℝ) : Graph SecPar :=
  mul (sub (sub (const t) (m.flipT0G C)) (sub m.flipPeriG (m.flipT0G C))) (nG (m.flipPar C))

/-- `self.incl` — `keplerian.py:228`; also of the flipped orbit, 784, 796. -/
noncomputable def inclG : Graph SecPar := Graph.arccos (m.cosInclG secPar)

/-- The flux of the flipped orbit with the mean anomaly `A`: the position of `keplerian.py:303-314`, with `self.cos_incl`, 232, and `self.sin_incl`, 281, and `limb_dark.py:213-251`. -/
noncomputable def eclipseOf (A : Graph SecPar) : Graph SecPar :=
  fluxGraph (m.flipMode.x1Of (m.flipPar C) A) (mul (Graph.cos m.inclG) (m.flipMode.y1Of (m.flipPar C) A))
    (mul (neg (Graph.sin m.inclG)) (m.flipMode.y1Of (m.flipPar C) A)) (m.flipPar C .r_star) (m.flipPar C .r)

/-- `lc2` — `secondary_eclipse.py:56-65`. -/
noncomputable def eclipseG (t : ℝ) : Graph SecPar := m.eclipseOf C (m.flipAnomalyG C t)

end KepMode

/-- What the last lines of `get_light_curve` start from: parameters and the two light curves. -/
inductive SecIn where
  | par (p : SecPar)
  | lc1
  | lc2
  deriving DecidableEq

namespace KepMode
open Graph

/-- `flux_ratio` — `secondary_eclipse.py:67-68`. -/
noncomputable def ratioG : Graph SecIn :=
  mul (input (.par .surface_brightness_ratio)) (pow (div (input (.par (.kep .r))) (input (.par (.kep .r_star)))) 2)

/-- The result — `secondary_eclipse.py:70`. -/
noncomputable def combineG : Graph SecIn := div (add (input .lc1) (mul ratioG (input .lc2))) (add (const 1) ratioG)

variable (C : Consts) (m : KepMode) (op1 op2 : FlOp) (env : SecPar → Fl) (t : ℝ)

/-- The parameters and the values of the two light curves. -/
noncomputable def secEnv : SecIn → Fl
  | .par p => env p
  | .lc1 => (m.primaryG t).value op1 env
  | .lc2 => (m.eclipseG C t).value op2 env

/-- The value of `get_light_curve` — `secondary_eclipse.py:33-70`. -/
noncomputable def secValue : Fl := combineG.value op1 (secEnv C m op1 op2 env t)

/-- `pytensor.grad` of `get_light_curve`: the contributions of the last lines and, through them, of both light curves. -/
noncomputable def secBack (g : Fl) (j : SecPar) : Fl :=
  combineG.back op1 (secEnv C m op1 op2 env t) g (.par j) +
    ((m.primaryG t).back op1 env (combineG.back op1 (secEnv C m op1 op2 env t) g .lc1) j +
      (m.eclipseG C t).back op2 env (combineG.back op1 (secEnv C m op1 op2 env t) g .lc2) j)

end KepMode
end Exo
