import Verif.Model.BackpropStar

/-!
# The graphs of `KeplerianOrbit.get_radial_velocity`

Of the orbits of `Verif.Model.BackpropStar`, computed from the masses, and of `KeplerianOrbit(period=..., t0=...)` or
`KeplerianOrbit(period=..., t_periastron=...)`, circular or eccentric, with the semi-amplitude `K` as an argument of the method.
-/

namespace Exo
open Real

namespace StarMode
open Graph
variable (C : Consts) (s : StarMode) (m : KepMode)

/-- `self.K0` — `keplerian.py:172`, 213. -/
noncomputable def K0G : Graph StarPar :=
  let K := div (mul (KepMode.nG (s.parG C)) (s.aG C)) (s.mTotalG C)
  match m with
  | .circular => K
  | _ => div K (Graph.sqrt (KepMode.ome2G (s.parG C)))

/-- `y1` of `_rotate_vector`, `keplerian.py:303-308`, for the velocity of the star, 572-578, 611. -/
noncomputable def velocityG (t : ℝ) : Graph StarPar :=
  let K := mul (s.K0G C m) (input .m_planet)
  let x := mul (neg K) (m.sinfG (s.parG C) (clock t))
  match m with
  | .circular => mul K (m.cosfG (s.parG C) (clock t))
  | m => add (mul (m.sinOmegaG (s.parG C)) x) (mul (m.cosOmegaG (s.parG C)) (mul K (add (m.cosfG (s.parG C) (clock t)) (input (.kep .ecc)))))

/-- `get_radial_velocity(t)`, `keplerian.py:671-677`, with `conv` of 675. -/
noncomputable def rvG (conv t : ℝ) : Graph StarPar := mul (neg (const conv)) (mul (neg (m.sinInclG (s.parG C))) (s.velocityG C m t))

end StarMode

/-- The parameters with a semi-amplitude. -/
inductive RvPar where
  | kep (p : KepPar)
  | t_periastron
  | K
  deriving DecidableEq

/-- Which reference time is given. -/
inductive RvMode where
  | t0
  | t_periastron

namespace RvMode
open Graph
variable (s : RvMode) (m : KepMode)

/-- The attributes of the orbit that are arguments. -/
def parG (p : KepPar) : Graph RvPar := input (.kep p)

/-- `self.M0 / self.n` — `keplerian.py:274`, 277. -/
noncomputable def delayG : Graph RvPar := div (m.M0G parG) (KepMode.nG parG)

/-- `self.t0` — `keplerian.py:274`, 276. -/
noncomputable def t0G : Graph RvPar := match s with
  | t0 => input (.kep .t0)
  | t_periastron => add (input .t_periastron) (delayG m)

/-- `self.t_periastron` — `keplerian.py:273`, 277. -/
noncomputable def tPeriG : Graph RvPar := match s with
  | t0 => sub (input (.kep .t0)) (delayG m)
  | t_periastron => input .t_periastron

/-- `M` of `keplerian.py:330`, with `self.tref`, 279, and `_warp_times`, 324-327. -/
noncomputable def anomalyG (t : ℝ) : Graph RvPar := mul (sub (sub (const t) (s.t0G m)) (sub (s.tPeriG m) (s.t0G m))) (KepMode.nG parG)

/-- `get_radial_velocity(t, K=K)`, `keplerian.py:658-669`, with the true anomaly of 331-334. -/
noncomputable def rvG (t : ℝ) : Graph RvPar := match m with
  | .circular => mul (input .K) (Graph.cos (s.anomalyG m t))
  | m => mul (input .K) (add (sub (mul (m.cosOmegaG parG) (keplerCos (s.anomalyG m t) (input (.kep .ecc))))
      (mul (m.sinOmegaG parG) (keplerSin (s.anomalyG m t) (input (.kep .ecc))))) (mul (input (.kep .ecc)) (m.cosOmegaG parG)))

end RvMode
end Exo
