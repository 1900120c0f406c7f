import Verif.Model.BackpropKepler
import Verif.Model.Units

/-!
# The graph of the light curve of a `KeplerianOrbit` given by the duration of its transit

`KeplerianOrbit(period=..., t0=..., b=..., duration=..., ror=..., r_star=...)`, where the semi-major axis is computed, and
`KeplerianOrbit(a=..., period=..., t0=..., duration=..., r_star=..., ecc=..., ...)`, where the impact parameter is.
-/

namespace Exo
open Real

/-- The parameters. -/
inductive DurPar where
  | kep (p : KepPar)
  | duration
  | ror
  deriving DecidableEq

namespace Duration
open Graph
variable (C : Consts) (m : KepMode)

/-- `phi` — `keplerian.py:840`. -/
noncomputable def phiG : Graph DurPar := div (mul (const π) (input .duration)) (input (.kep .period))

/-- What `num` of `keplerian.py:843` is the root of. -/
noncomputable def num2G : Graph DurPar :=
  sub (pow (add (const 1) (input .ror)) 2) (mul (pow (input (.kep .b)) 2) (pow (Graph.cos phiG) 2))

/-- `a` of a circular orbit — `keplerian.py:130`, 843-844. -/
noncomputable def aG : Graph DurPar := match m with
  | .circular => mul (input (.kep .r_star)) (div (Graph.sqrt num2G) (Graph.sin phiG))
  | _ => input (.kep .a)

/-- `self.m_star` — `keplerian.py:883-886` with the default `m_planet=0.0`. -/
noncomputable def mStarG : Graph DurPar :=
  sub (div (mul (mul (mul (const 4) (const π)) (const π)) (pow (input (.kep .a)) 3)) (mul (const C.G) (pow (input (.kep .period)) 2))) (const 0)

/-- `aor` — `keplerian.py:245`, with `self.a_planet`, 148. -/
noncomputable def aorG : Graph DurPar := div (div (mul (neg (input (.kep .a))) (mStarG C)) (add (mStarG C) (const 0))) (input (.kep .r_star))

/-- The parameters of the orbit, without the computed ones. -/
def givenG (p : KepPar) : Graph DurPar := input (.kep p)

/-- `c2` — `keplerian.py:243-244`. -/
noncomputable def c2G : Graph DurPar :=
  let c := Graph.sin (div (mul (mul (const π) (input .duration)) (m.inclFactorG givenG)) (input (.kep .period)))
  mul c c

/-- `esinw` — `keplerian.py:246`. -/
noncomputable def esinwG : Graph DurPar := mul (input (.kep .ecc)) (m.sinOmegaG givenG)

/-- The divisor of `keplerian.py:249-256`. -/
noncomputable def divisorG : Graph DurPar :=
  sub (add (sub (add (add (mul (c2G m) (pow (esinwG m) 2)) (mul (mul (const 2) (c2G m)) (esinwG m))) (c2G m)) (pow (input (.kep .ecc)) 4))
    (mul (const 2) (pow (input (.kep .ecc)) 2))) (const 1)

/-- `self.b` of an eccentric orbit — `keplerian.py:247-258`. -/
noncomputable def bG : Graph DurPar := match m with
  | .circular => input (.kep .b)
  | m => mul (Graph.sqrt (div (sub (mul (pow (aorG C) 2) (c2G m)) (const 1)) (divisorG m))) (sub (const 1) (pow (input (.kep .ecc)) 2))

/-- The attributes of the orbit and the radius of the planet. -/
noncomputable def parG : KepPar → Graph DurPar
  | .a => aG m
  | .b => bG C m
  | p => input (.kep p)

/-- `_warp_times(t)` — `keplerian.py:324-327`. -/
noncomputable def clock (t : ℝ) : Graph DurPar := sub (const t) (input (.kep .t0))

/-- The light curve at time `t`. -/
noncomputable def lightCurveG (t : ℝ) : Graph DurPar := m.lightCurveOf (parG C m) (clock t)

end Duration
end Exo
