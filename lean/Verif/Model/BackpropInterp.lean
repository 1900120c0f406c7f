import Verif.Model.BackpropKepler

/-!
# The graph of `InterpolatedLightCurve.get_light_curve`

`InterpolatedLightCurve(LimbDarkLightCurve(u1, u2), num_phase, num_planets=1).get_light_curve(orbit=orbit, r=r, t=t)` for one planet on a `KeplerianOrbit`, without an exposure
time, at one time, as a function of the parameters of the orbit and the radius of the planet. The base light curve is a node of the graph for each time of the
grid; the derivatives go through all of them, those with respect to the values that are not used being zero. The number of entries of the grid, `num_phase + 5`, is that of
`pt.arange` in exact arithmetic (C43).
-/

namespace Exo
namespace Interp
open Graph
variable (m : KepMode) (n : ℕ)

/-- `mn` — `interpolated.py:89`. -/
def mnG : Graph KepPar := input .t0

/-- `mx` — `interpolated.py:90`. -/
def mxG : Graph KepPar := add (input .t0) (input .period)

/-- `(mx - mn) / (self.num_phase + 1)` — `interpolated.py:96`. -/
noncomputable def dxG : Graph KepPar := div (sub mxG mnG) (const (n + 1))

/-- `xp[k]` — `interpolated.py:22`: the derivative of `pt.arange` with respect to its start is the sum of the derivatives with respect to its entries, and that with respect to its step is
the sum of those multiplied by the numbers of the entries. -/
noncomputable def xpG (k : ℕ) : Graph KepPar := add (sub mnG (dxG n)) (mul (const k) (dxG n))

/-- `yp[k, 0]` — `interpolated.py:23`, 134-136. -/
noncomputable def ypG (k : ℕ) : Graph KepPar := m.lightCurveOf input (sub (xpG n k) (input .t0))

/-- `a0[i]` — `interpolated.py:30`, with `y1[i] = yp[i + 1, 0]`, 26. -/
noncomputable def a0G (i : ℕ) : Graph KepPar := ypG m n (i + 1)

/-- `a1[i]` — `interpolated.py:31`. -/
noncomputable def a1G (i : ℕ) : Graph KepPar :=
  sub (add (sub (div (neg (ypG m n i)) (const 3)) (mul (const 0.5) (ypG m n (i + 1)))) (ypG m n (i + 2))) (div (ypG m n (i + 3)) (const 6))

/-- `a2[i]` — `interpolated.py:32`. -/
noncomputable def a2G (i : ℕ) : Graph KepPar := sub (mul (const 0.5) (add (ypG m n i) (ypG m n (i + 2)))) (ypG m n (i + 1))

/-- `a3[i]` — `interpolated.py:33`. -/
noncomputable def a3G (i : ℕ) : Graph KepPar :=
  mul (const 0.5) (add (sub (ypG m n (i + 1)) (ypG m n (i + 2))) (div (sub (ypG m n (i + 3)) (ypG m n i)) (const 3)))

/-- `x` — `interpolated.py:93`. -/
noncomputable def xG (t : ℝ) : Graph KepPar := add (Graph.mod (sub (const t) (input .t0)) (input .period)) (input .t0)

/-- The argument of `pt.floor` — `interpolated.py:35`. -/
noncomputable def cellG (t : ℝ) : Graph KepPar := div (sub (xG t) mnG) (dxG n)

/-- `x0` — `interpolated.py:36`; `xp[inds + 1]` is the entry `inds` of `xp[1:]`. -/
noncomputable def x0G (t : ℝ) : Graph KepPar := div (sub (xG t) (index (fun i : Fin (n + 4) => xpG n (i + 1)) (cellG n t))) (dxG n)

/-- The result — `interpolated.py:37`. -/
noncomputable def interpG (t : ℝ) : Graph KepPar :=
  add (add (add (index (fun i : Fin (n + 2) => a0G m n i) (cellG n t)) (mul (index (fun i : Fin (n + 2) => a1G m n i) (cellG n t)) (x0G n t)))
    (mul (index (fun i : Fin (n + 2) => a2G m n i) (cellG n t)) (pow (x0G n t) 2))) (mul (index (fun i : Fin (n + 2) => a3G m n i) (cellG n t)) (pow (x0G n t) 3))

end Interp
end Exo
