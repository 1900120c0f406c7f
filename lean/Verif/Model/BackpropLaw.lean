import Verif.Model.BackpropDist
import Verif.Model.BackpropStar

/-!
# The graph of a light curve with the limb darkening coefficients as parameters

In `Verif.Model.Backprop` the coefficients are constants and the light curve is one compiled operation. Here `get_cl` and the product with the solution vector are part of the graph.
The product of two vectors of length three is written out; its compiled gradient passes one vector to the solution vector, here its entries are passed one after the other.
-/

namespace Exo
open Real

namespace Law
open Graph
variable {ι : Type} (U1 U2 : Graph ι)

/-- `c0` — `limb_dark.py:14`. -/
noncomputable def c0G : Graph ι := sub (sub (const 1) U1) (mul (const 1.5) U2)

/-- `c1` — `limb_dark.py:15`. -/
noncomputable def c1G : Graph ι := add U1 (mul (const 2) U2)

/-- `c2` — `limb_dark.py:16`. -/
noncomputable def c2G : Graph ι := mul (const (-0.25)) U2

/-- `norm` — `limb_dark.py:17`. -/
noncomputable def normG : Graph ι := mul (const π) (add (c0G U1 U2) (div (c1G U1 U2) (const 1.5)))

/-- The result of `get_cl(u1, u2)` — `limb_dark.py:18`. -/
noncomputable def clG : Fin 3 → Graph ι
  | 0 => div (c0G U1 U2) (normG U1 U2)
  | 1 => div (c1G U1 U2) (normG U1 U2)
  | 2 => div (c2G U2) (normG U1 U2)

/-- `quad_limbdark_light_curve(c, b, r)` — `limb_dark.py:21-24`. -/
noncomputable def curveG (b r : Graph ι) : Graph ι :=
  sub (add (add (mul (solution 0 b r) (clG U1 U2 0)) (mul (solution 1 b r) (clG U1 U2 1))) (mul (solution 2 b r) (clG U1 U2 2))) (const 1)

/-- `limb_dark.py:213-222` and `_compute_light_curve`, 234-251, for one planet of radius `r` at the position `(x, y, z)`. -/
noncomputable def fluxG (x y z r_star r : Graph ι) : Graph ι :=
  let b := Graph.sqrt (add (pow x 2) (pow y 2))
  switch (div z r_star) (curveG U1 U2 (div b r_star) (div r r_star))

end Law

/-- The parameters of a light curve of a `KeplerianOrbit`. -/
inductive LawPar where
  | kep (p : KepPar)
  | u1
  | u2
  deriving DecidableEq

namespace Law
open Graph

/-- The parameters of the orbit and the radius of the planet. -/
def parG (p : KepPar) : Graph LawPar := input (.kep p)

/-- `_warp_times(t)` — `keplerian.py:324-327`. -/
noncomputable def clock (t : ℝ) : Graph LawPar := sub (const t) (input (.kep .t0))

/-- `LimbDarkLightCurve(u1, u2).get_light_curve(orbit=orbit, r=r, t=[t])` for the orbits of `Verif.Model.BackpropKepler`. -/
noncomputable def lightCurveG (m : KepMode) (t : ℝ) : Graph LawPar :=
  fluxG (input .u1) (input .u2) (m.x1G parG (clock t)) (m.yG parG (clock t)) (m.zG parG (clock t)) (parG .r_star) (parG .r)

end Law

/-- `quad_limbdark_light_curve(get_cl(u1, u2), b, r)` — `limb_dark.py:11-24` — with the entries of the solution vector computed by `s`. -/
noncomputable def lawValue (s : Fin 3 → FlLimbDark) (u1 u2 : Fl) : FlLimbDark := fun b r =>
  let c0 := .fin 1 - u1 - .fin 1.5 * u2
  let c1 := u1 + .fin 2 * u2
  let c2 := .fin (-0.25) * u2
  let norm := .fin π * (c0 + c1 / .fin 1.5)
  s 0 b r * (c0 / norm) + s 1 b r * (c1 / norm) + s 2 b r * (c2 / norm) - .fin 1

/-- The compiled light curve of `Verif.Model.Backprop` put together from the solution vector: the gradient with respect to the result of the product is passed on to the entries. -/
noncomputable def FlOp.withLaw (op : FlOp) (u1 u2 : ℝ) : FlOp :=
  let c := getCl u1 u2
  { op with
    value := lawValue op.solution (.fin u1) (.fin u2)
    backB := fun g b r => (op.backSolution 0 (g * .fin c.1) b r).1 + (op.backSolution 1 (g * .fin c.2.1) b r).1 + (op.backSolution 2 (g * .fin c.2.2) b r).1
    backR := fun g b r => (op.backSolution 0 (g * .fin c.1) b r).2 + (op.backSolution 1 (g * .fin c.2.1) b r).2 + (op.backSolution 2 (g * .fin c.2.2) b r).2 }

/-! The model of `docs/tutorials/data-and-models.md:452-491` for `num_transits = n`, at one time. -/

namespace Tutorial
open Graph

/-- `period` — line 466. -/
noncomputable def periodG (n : ℝ) : Graph String := div (sub (input "t1") (input "t0")) (const n)

/-- `r` — line 476. -/
def rG : Graph String := Graph.exp (input "log_r")

/-- `b` — line 477 with `distributions.py:127`. -/
noncomputable def bG : Graph String := mul (input "__b_impact_parameter") (add (const 1) rG)

/-- The attributes of the orbit — line 480: a star of one solar mass and radius, `keplerian.py:892-895`, and a planet without mass, line 89; `a` is that of `keplerian.py:925-928`. -/
noncomputable def parG (C : Consts) (n : ℝ) : KepPar → Graph String
  | .a => powr (div (mul (mul (const C.G) (add (const 1) (const 0))) (pow (periodG n) 2)) (mul (const 4) (pow (const π) 2))) (1 / 3)
  | .period => periodG n
  | .t0 => input "t0"
  | .b => bG
  | .r_star => const 1
  | .r => rG
  | _ => const 0

/-- `light_curve` — lines 485-490 — at time `t`. -/
noncomputable def lightCurveG (C : Consts) (n t : ℝ) : Graph String :=
  let w := sub (const t) (input "t0")
  add (Law.fluxG (Helper.u1G "u") (Helper.u2G "u") (KepMode.circular.x1G (parG C n) w) (KepMode.circular.yG (parG C n) w) (KepMode.circular.zG (parG C n) w) (parG C n .r_star) (parG C n .r))
    (input "mean")

end Tutorial
end Exo
