import Verif.Model.Backprop
import Verif.Model.Keplerian

/-!
# The graph of a light-delayed position

`KeplerianOrbit(a=..., period=..., t0=..., incl=...)`, a circular orbit without `Omega`, with the four arguments as parameters.
-/

namespace Exo
open Real

/-- The parameters. -/
inductive DelayPar where
  | a
  | period
  | t0
  | incl
  deriving DecidableEq

section
open Graph DelayPar

/-- `self.n`, `keplerian.py:146`, and `angvel` of `keplerian.py:431`. -/
noncomputable def nGraph : Graph DelayPar := div (const (2 * π)) (input period)

/-- `self.tref`, `keplerian.py:279`, with `self.t_periastron`, 277, and `self.M0`, 184. -/
noncomputable def trefGraph : Graph DelayPar := sub (sub (input t0) (div (const (0.5 * π)) nGraph)) (input t0)

/-- The mean anomaly of `keplerian.py:330` at time `t`. -/
noncomputable def anomalyGraph (t : Graph DelayPar) : Graph DelayPar := mul (sub (sub t (input t0)) trefGraph) nGraph

/-- The coordinates of the relative position, `keplerian.py:399-409` with `_rotate_vector`, 303-314, and the semi-major axis `-self.a` of 540, at time `t`. -/
noncomputable def xGraph (t : Graph DelayPar) : Graph DelayPar := mul (neg (input a)) (Graph.cos (anomalyGraph t))
@[inherit_doc xGraph]
noncomputable def yGraph (t : Graph DelayPar) : Graph DelayPar := mul (Graph.cos (input incl)) (mul (neg (input a)) (Graph.sin (anomalyGraph t)))
@[inherit_doc xGraph]
noncomputable def zGraph (t : Graph DelayPar) : Graph DelayPar := mul (neg (Graph.sin (input incl))) (mul (neg (input a)) (Graph.sin (anomalyGraph t)))

/-- `vz` of `keplerian.py:434-435`. -/
noncomputable def vzGraph (t : Graph DelayPar) : Graph DelayPar :=
  mul (mul (mul nGraph (neg (input a))) (Graph.sin (input incl))) (Graph.cos (anomalyGraph t))

/-- `az` of `keplerian.py:446`. -/
noncomputable def azGraph (t : Graph DelayPar) : Graph DelayPar :=
  mul (mul (neg (pow nGraph 2)) (pow (div (neg (input a)) (neg (input a))) 3)) (zGraph t)

/-- The first branch of `delay`, `keplerian.py:453`. -/
noncomputable def linearGraph (C : Consts) (t : Graph DelayPar) : Graph DelayPar :=
  div (sub (const 0) (zGraph t)) (add (const C.c) (vzGraph t))

/-- The second branch of `delay`, `keplerian.py:454-461`. -/
noncomputable def quadraticGraph (C : Consts) (t : Graph DelayPar) : Graph DelayPar :=
  let w := add (const 1) (div (vzGraph t) (const C.c))
  mul (div (const C.c) (azGraph t))
    (sub w (Graph.sqrt (sub (mul w w) (div (mul (mul (const 2) (azGraph t)) (sub (const 0) (zGraph t))) (const (C.c ^ 2))))))

/-- `new_t` of `keplerian.py:464-467` with the `delay` of 451-462. -/
noncomputable def newTimeGraph (C : Consts) (t : ℝ) : Graph DelayPar :=
  sub (const t) (ifSmall (azGraph (const t)) 1.0e-10 (linearGraph C (const t)) (quadraticGraph C (const t)))

end

end Exo
