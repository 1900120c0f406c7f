import Verif.Model.BackpropRv

/-!
# The graphs of `KeplerianOrbit.get_relative_angles`

`KeplerianOrbit(a=..., period=..., incl=...)` with `t0` or `t_periastron`, circular or eccentric, with or without `Omega`, followed by `get_relative_position` or
`get_relative_angles` at one time, with or without a parallax, and the residual of a position angle as the tutorial computes it; and, with `r_star`, a light curve.
-/

namespace Exo
open Real

/-- The parameters. Of `kep`, the impact parameter does not occur, and the radii only in light curves. -/
inductive AstroPar where
  | kep (p : KepPar)
  | t_periastron
  | incl
  | Omega
  | parallax
  deriving DecidableEq

/-- Which of the arguments are given. -/
structure AstroMode where
  /-- `ecc` and `omega` -/
  shape : KepMode
  /-- `t0` or `t_periastron` -/
  ref : RvMode
  /-- `Omega` -/
  node : Bool
  /-- `parallax` -/
  scaled : Bool

namespace AstroMode
open Graph
variable (C : Consts) (m : AstroMode) (t : ℝ)

/-- The attributes of the orbit that are arguments. -/
def parG (p : KepPar) : Graph AstroPar := input (.kep p)

/-- `self.M0 / self.n` — `keplerian.py:274`, 277. -/
noncomputable def delayG : Graph AstroPar := div (m.shape.M0G parG) (KepMode.nG parG)

/-- `self.t0` — `keplerian.py:274`, 276. -/
noncomputable def t0G : Graph AstroPar := match m.ref with
  | .t0 => input (.kep .t0)
  | .t_periastron => add (input .t_periastron) m.delayG

/-- `self.t_periastron` — `keplerian.py:273`, 277. -/
noncomputable def tPeriG : Graph AstroPar := match m.ref with
  | .t0 => sub (input (.kep .t0)) m.delayG
  | .t_periastron => input .t_periastron

/-- `M` of `keplerian.py:330`, with `self.tref`, 279, and `_warp_times`, 324-327. -/
noncomputable def anomalyG : Graph AstroPar := mul (sub (sub (const t) m.t0G) (sub m.tPeriG m.t0G)) (KepMode.nG parG)

/-- `sinf` of `keplerian.py:331-334`. -/
noncomputable def sinfG : Graph AstroPar := match m.shape with
  | .circular => Graph.sin (m.anomalyG t)
  | _ => keplerSin (m.anomalyG t) (parG .ecc)

/-- `cosf` of `keplerian.py:331-334`. -/
noncomputable def cosfG : Graph AstroPar := match m.shape with
  | .circular => Graph.cos (m.anomalyG t)
  | _ => keplerCos (m.anomalyG t) (parG .ecc)

/-- `r` of `keplerian.py:401-404`, with the semi-major axis `-self.a` of 563. -/
noncomputable def distanceG : Graph AstroPar := match m.shape with
  | .circular => neg (parG .a)
  | _ => div (mul (neg (parG .a)) (KepMode.ome2G parG)) (add (const 1) (mul (parG .ecc) (m.cosfG t)))

/-- `r` with the parallax — `keplerian.py:406-408`. -/
noncomputable def radiusG : Graph AstroPar := match m.scaled with
  | false => m.distanceG t
  | true => mul (mul (m.distanceG t) (input .parallax)) (const C.auPerRsun)

/-- `x1` of `_rotate_vector`, `keplerian.py:303-308`, for the position of 410. -/
noncomputable def x1G : Graph AstroPar :=
  let x := mul (m.radiusG C t) (m.cosfG t)
  let y := mul (m.radiusG C t) (m.sinfG t)
  match m.shape with
  | .circular => x
  | s => sub (mul (s.cosOmegaG parG) x) (mul (s.sinOmegaG parG) y)

/-- `y1` of `_rotate_vector`, `keplerian.py:303-308`, for the position of 410. -/
noncomputable def y1G : Graph AstroPar :=
  let x := mul (m.radiusG C t) (m.cosfG t)
  let y := mul (m.radiusG C t) (m.sinfG t)
  match m.shape with
  | .circular => y
  | s => add (mul (s.sinOmegaG parG) x) (mul (s.cosOmegaG parG) y)

/-- `y2` — `keplerian.py:312`, with `self.cos_incl` of 235. -/
noncomputable def y2G : Graph AstroPar := mul (Graph.cos (input .incl)) (m.y1G C t)

/-- `X` — `keplerian.py:311`, 317-320, with `self.cos_Omega` and `self.sin_Omega` of 178-179. -/
noncomputable def xG : Graph AstroPar := match m.node with
  | false => m.x1G C t
  | true => sub (mul (Graph.cos (input .Omega)) (m.x1G C t)) (mul (Graph.sin (input .Omega)) (m.y2G C t))

/-- `Y` — `keplerian.py:312`, 317-321. -/
noncomputable def yG : Graph AstroPar := match m.node with
  | false => m.y2G C t
  | true => add (mul (Graph.sin (input .Omega)) (m.x1G C t)) (mul (Graph.cos (input .Omega)) (m.y2G C t))

/-- `Z` — `keplerian.py:314`, with `self.sin_incl` of 281. -/
noncomputable def zG : Graph AstroPar := mul (neg (Graph.sin (input .incl))) (m.y1G C t)

/-- `rho` — `keplerian.py:567`. -/
noncomputable def rhoG : Graph AstroPar := Graph.sqrt (add (pow (m.xG C t) 2) (pow (m.yG C t) 2))

/-- `theta` — `keplerian.py:568`. -/
noncomputable def thetaG : Graph AstroPar := Graph.arctan2 (m.yG C t) (m.xG C t)

/-- `theta_diff` — `docs/tutorials/data-and-models.md:387-389`. -/
noncomputable def residualG (observed : ℝ) : Graph AstroPar :=
  let d := sub (m.thetaG C t) (const observed)
  Graph.arctan2 (Graph.sin d) (Graph.cos d)

/-- The light curve, `limb_dark.py:213-251`, which does not use a parallax. -/
noncomputable def lightCurveG : Graph AstroPar :=
  let m := { m with scaled := false }
  fluxGraph (m.xG C t) (m.yG C t) (m.zG C t) (parG .r_star) (parG .r)

end AstroMode
end Exo
