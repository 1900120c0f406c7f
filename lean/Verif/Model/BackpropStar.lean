import Verif.Model.BackpropKepler
import Verif.Model.Units

/-!
# The graph of the light curve of a `KeplerianOrbit` given by the properties of its star

The arguments of `Verif.Model.BackpropKepler`, but with two of `m_star`, `r_star` and `rho_star` instead of one of `a` and `period`, and with a mass
of the planet: `_get_consistent_inputs` computes what is missing, and the computed derivatives go through it.
-/

namespace Exo
open Real

/-- The parameters. -/
inductive StarPar where
  | kep (p : KepPar)
  | m_star
  | rho_star
  | m_planet
  deriving DecidableEq

/-- Which of the arguments are given. -/
inductive StarMode where
  /-- `period`, `m_star` and `r_star` -/
  | massRadius
  /-- `period`, `rho_star` and `r_star` -/
  | densityRadius
  /-- `period`, `rho_star` and `m_star` -/
  | densityMass
  /-- `a`, `m_star` and `r_star` -/
  | axis
  /-- `a`, `period` and `r_star` -/
  | implied

namespace StarMode
open Graph
variable (C : Consts) (s : StarMode)

/-- `rho_star` without a unit, in solar units — `keplerian.py:909-910`. -/
noncomputable def rhoG : Graph StarPar := div (input .rho_star) (const C.gccPerSun)

/-- `r_star` — `keplerian.py:912`, 920. -/
noncomputable def rStarG : Graph StarPar := match s with
  | densityMass => powr (div (mul (const 3) (input .m_star)) (mul (mul (const 4) (const π)) (rhoG C))) (1 / 3)
  | _ => input (.kep .r_star)

/-- `m_star` — `keplerian.py:883`, 886, 914, 922. -/
noncomputable def mStarG : Graph StarPar := match s with
  | densityRadius => div (mul (mul (mul (const 4) (const π)) (pow (input (.kep .r_star)) 3)) (rhoG C)) (const 3)
  | implied => sub (div (mul (mul (mul (const 4) (const π)) (const π)) (pow (input (.kep .a)) 3)) (mul (const C.G) (pow (input (.kep .period)) 2)))
      (input .m_planet)
  | _ => input .m_star

/-- `self.m_total` — `keplerian.py:144`, also computed in 927 and 931. -/
noncomputable def mTotalG : Graph StarPar := add (s.mStarG C) (input .m_planet)

/-- `a` — `keplerian.py:925-928`. -/
noncomputable def aG : Graph StarPar := match s with
  | axis => input (.kep .a)
  | implied => input (.kep .a)
  | s => powr (div (mul (mul (const C.G) (s.mTotalG C)) (pow (input (.kep .period)) 2)) (mul (const 4) (pow (const π) 2))) (1 / 3)

/-- `period` — `keplerian.py:929-932`. -/
noncomputable def periodG : Graph StarPar := match s with
  | axis => div (mul (mul (const 2) (const π)) (powr (input (.kep .a)) (3 / 2))) (Graph.sqrt (mul (const C.G) (s.mTotalG C)))
  | _ => input (.kep .period)

/-- The attributes of the orbit and the radius of the planet. -/
noncomputable def parG : KepPar → Graph StarPar
  | .a => s.aG C
  | .period => s.periodG C
  | .r_star => s.rStarG C
  | p => input (.kep p)

/-- `_warp_times(t)` — `keplerian.py:324-327`. -/
noncomputable def clock (t : ℝ) : Graph StarPar := sub (const t) (input (.kep .t0))

/-- The light curve at time `t`. -/
noncomputable def lightCurveG (m : KepMode) (t : ℝ) : Graph StarPar := m.lightCurveOf (s.parG C) (clock t)

end StarMode
end Exo
