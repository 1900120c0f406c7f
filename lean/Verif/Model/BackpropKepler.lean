import Verif.Model.Backprop

/-!
# The graph of the light curve of a `KeplerianOrbit`

`KeplerianOrbit(a=..., period=..., t0=..., b=..., r_star=...)`, circular, or with `ecc` and `omega`, or with `ecc`, `sin_omega` and `cos_omega`,
and without `Omega`, with all arguments and the radius of the planet as parameters, followed by
`LimbDarkLightCurve(u1, u2).get_light_curve(orbit=orbit, r=r, t=t)` at one time. The operations are written down for arguments `P` that may
themselves be computed from other parameters, and for a time `w` since the transit, `self._warp_times(t)`, that may be computed in another way:
a `TTVOrbit` does both (`Verif.Model.BackpropTtv`).
-/

namespace Exo
open Real

/-- The parameters. -/
inductive KepPar where
  | a
  | period
  | t0
  | b
  | r_star
  | ecc
  | omega
  | sin_omega
  | cos_omega
  | r
  deriving DecidableEq

/-- Which of the arguments are given. -/
inductive KepMode where
  /-- neither `ecc` nor `omega` -/
  | circular
  /-- `ecc` and `omega` -/
  | angle
  /-- `ecc`, `sin_omega` and `cos_omega` -/
  | sincos

namespace KepMode
open Graph KepPar
variable {ι : Type} (m : KepMode) (P : KepPar → Graph ι) (w : Graph ι)

/-- `self.cos_omega` — `keplerian.py:195`, 198. Circular orbits do not have it. -/
def cosOmegaG : Graph ι := match m with
  | sincos => P .cos_omega
  | _ => Graph.cos (P .omega)

/-- `self.sin_omega` — `keplerian.py:196`, 199. -/
def sinOmegaG : Graph ι := match m with
  | sincos => P .sin_omega
  | _ => Graph.sin (P .omega)

/-- `self.n` — `keplerian.py:146`. -/
noncomputable def nG : Graph ι := div (mul (const 2) (const π)) (P .period)

/-- `E0` — `keplerian.py:205-209`. -/
noncomputable def E0G : Graph ι :=
  mul (const 2) (Graph.arctan2 (mul (Graph.sqrt (sub (const 1) (P .ecc))) (m.cosOmegaG P))
    (mul (Graph.sqrt (add (const 1) (P .ecc))) (add (const 1) (m.sinOmegaG P))))

/-- `self.M0` — `keplerian.py:184`, 210. -/
noncomputable def M0G : Graph ι := match m with
  | circular => mul (const 0.5) (const π)
  | m => sub (m.E0G P) (mul (P .ecc) (Graph.sin (m.E0G P)))

/-- `ome2` — `keplerian.py:212` and 404. -/
noncomputable def ome2G : Graph ι := sub (const 1) (pow (P .ecc) 2)

/-- `incl_factor` — `keplerian.py:185`, 214. -/
noncomputable def inclFactorG : Graph ι := match m with
  | circular => const 1
  | m => div (add (const 1) (mul (P .ecc) (m.sinOmegaG P))) (ome2G P)

/-- `self.cos_incl` — `keplerian.py:217-219`, 227. -/
noncomputable def cosInclG : Graph ι := mul (div (mul (m.inclFactorG P) (P .r_star)) (P .a)) (P .b)

/-- `self.sin_incl` — `keplerian.py:228`, 281. -/
noncomputable def sinInclG : Graph ι := Graph.sin (Graph.arccos (m.cosInclG P))

/-- `M` of `keplerian.py:330`, with `self.tref`, 279, and `self.t_periastron`, 277. -/
noncomputable def anomalyG : Graph ι :=
  mul (sub w (sub (sub (P .t0) (div (m.M0G P) (nG P))) (P .t0))) (nG P)

/-- `sinf` of `keplerian.py:331-334`. -/
noncomputable def sinfG : Graph ι := match m with
  | circular => Graph.sin (m.anomalyG P w)
  | m => keplerSin (m.anomalyG P w) (P .ecc)

/-- `cosf` of `keplerian.py:331-334`. -/
noncomputable def cosfG : Graph ι := match m with
  | circular => Graph.cos (m.anomalyG P w)
  | m => keplerCos (m.anomalyG P w) (P .ecc)

/-- `r` of `keplerian.py:401-404`, with the semi-major axis `-self.a` of 540. -/
noncomputable def radiusG : Graph ι := match m with
  | circular => neg (P .a)
  | m => div (mul (neg (P .a)) (ome2G P)) (add (const 1) (mul (P .ecc) (m.cosfG P w)))

/-- `x1` of `_rotate_vector`, `keplerian.py:303-308`, for the position of 410. -/
noncomputable def x1G : Graph ι :=
  let x := mul (m.radiusG P w) (m.cosfG P w)
  let y := mul (m.radiusG P w) (m.sinfG P w)
  match m with
  | circular => x
  | m => sub (mul (m.cosOmegaG P) x) (mul (m.sinOmegaG P) y)

/-- `y1` of `_rotate_vector`, `keplerian.py:303-308`, for the position of 410. -/
noncomputable def y1G : Graph ι :=
  let x := mul (m.radiusG P w) (m.cosfG P w)
  let y := mul (m.radiusG P w) (m.sinfG P w)
  match m with
  | circular => y
  | m => add (mul (m.sinOmegaG P) x) (mul (m.cosOmegaG P) y)

/-- `y2` — `keplerian.py:312`. -/
noncomputable def yG : Graph ι := mul (m.cosInclG P) (m.y1G P w)

/-- `Z` — `keplerian.py:314`. -/
noncomputable def zG : Graph ι := mul (neg (m.sinInclG P)) (m.y1G P w)

/-- The light curve, `limb_dark.py:213-251`. -/
noncomputable def lightCurveOf : Graph ι := fluxGraph (m.x1G P w) (m.yG P w) (m.zG P w) (P .r_star) (P .r)

/-- `_warp_times(t)` of a `KeplerianOrbit` — `keplerian.py:324-327`. -/
def clock (t : ℝ) : Graph KepPar := sub (const t) (input t0)

/-- The light curve of a `KeplerianOrbit` at time `t`. -/
noncomputable def lightCurveG (t : ℝ) : Graph KepPar := m.lightCurveOf input (clock t)

end KepMode
end Exo
