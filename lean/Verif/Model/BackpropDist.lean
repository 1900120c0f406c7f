import Verif.Model.BackpropRv

/-!
# The graphs of the variables and potentials of the distribution helpers

`unit_disk`, `angle`, `quad_limb_dark` and `impact_parameter` of `distributions.py`, one entry, as functions of the variables that they register, and the light curve of an
eccentric orbit whose eccentricity and argument of periastron are computed from the two values of `unit_disk` as in the tutorials, and the radial velocity of such an orbit. The parameters of the graphs are the names of the
registered variables.
-/

namespace Exo

/-- The graph that results when the parameters are themselves computed. -/
noncomputable def Graph.subst {ι κ : Type} (f : ι → Graph κ) : Graph ι → Graph κ
  | input i => f i
  | const c => const c
  | add x y => add (x.subst f) (y.subst f)
  | sub x y => sub (x.subst f) (y.subst f)
  | mul x y => mul (x.subst f) (y.subst f)
  | div x y => div (x.subst f) (y.subst f)
  | neg x => neg (x.subst f)
  | pow x k => pow (x.subst f) k
  | powr x c => powr (x.subst f) c
  | sqrt x => sqrt (x.subst f)
  | sin x => sin (x.subst f)
  | cos x => cos (x.subst f)
  | arccos x => arccos (x.subst f)
  | arctan2 x y => arctan2 (x.subst f) (y.subst f)
  | keplerSin x y => keplerSin (x.subst f) (y.subst f)
  | keplerCos x y => keplerCos (x.subst f) (y.subst f)
  | mod x y => mod (x.subst f) (y.subst f)
  | side x y => side (x.subst f) (y.subst f)
  | switch x y => switch (x.subst f) (y.subst f)
  | ifSmall x c y z => ifSmall (x.subst f) c (y.subst f) (z.subst f)
  | limbDark x y => limbDark (x.subst f) (y.subst f)
  | pick edges values x => pick (fun i => (edges i).subst f) (fun i => (values i).subst f) (x.subst f)
  | overwritten x y => overwritten (x.subst f) (y.subst f)
  | index values x => index (fun i => (values i).subst f) (x.subst f)
  | log x => log (x.subst f)
  | solution i x y => solution i (x.subst f) (y.subst f)
  | exp x => exp (x.subst f)

namespace Helper
open Graph

/-- `norm` of `unit_disk` — `distributions.py:73`. -/
noncomputable def normG (nx : String) : Graph String := Graph.sqrt (sub (const 1) (pow (input nx) 2))

/-- The second value of `unit_disk` — `distributions.py:75`. -/
noncomputable def diskG (nx ny : String) : Graph String := mul (input ("__" ++ ny ++ "_unit_disk")) (normG nx)

/-- The potential of `unit_disk` — `distributions.py:74`. -/
noncomputable def jacobianG (nx : String) : Graph String := Graph.log (normG nx)

/-- The value of `angle` — `distributions.py:37`. -/
noncomputable def angleG (name : String) : Graph String := Graph.arctan2 (input ("__" ++ name ++ "_angle1")) (input ("__" ++ name ++ "_angle2"))

/-- The potential of `angle` — `distributions.py:33-36`. -/
noncomputable def regularizationG (c : ℝ) (name : String) : Graph String :=
  mul (const c) (Graph.log (add (pow (input ("__" ++ name ++ "_angle1")) 2) (pow (input ("__" ++ name ++ "_angle2")) 2)))

/-- The first value of `quad_limb_dark` — `distributions.py:98-101`. -/
noncomputable def u1G (name : String) : Graph String := mul (Graph.sqrt (input ("__" ++ name ++ "_q1"))) (mul (const 2) (input ("__" ++ name ++ "_q2")))

/-- The second value of `quad_limb_dark` — `distributions.py:98-101`. -/
noncomputable def u2G (name : String) : Graph String :=
  mul (Graph.sqrt (input ("__" ++ name ++ "_q1"))) (sub (const 1) (mul (const 2) (input ("__" ++ name ++ "_q2"))))

/-- The value of `impact_parameter` — `distributions.py:127` — for the ratio of the radii `nr`. -/
noncomputable def impactG (name nr : String) : Graph String := mul (input ("__" ++ name ++ "_impact_parameter")) (add (const 1) (input nr))

/-- The two numbers whose squares add up to the eccentricity, and the angle of which is the argument of periastron: `h, k` with `h, k = unit_disk(nx, ny)` in
`docs/tutorials/intro-to-pymc.md:262-264`, `k, h` in `docs/tutorials/data-and-models.md:260-262` (`flip`). -/
noncomputable def hkG (flip : Bool) (nx ny : String) : Graph String × Graph String :=
  match flip with
  | false => (input nx, diskG nx ny)
  | true => (diskG nx ny, input nx)

/-- The arguments of the orbit: `ecc = x**2 + y**2` and `omega = arctan2(y, x)`; the others are variables. -/
noncomputable def parG (hk : Graph String × Graph String) : KepPar → Graph String
  | .a => input "a"
  | .period => input "period"
  | .t0 => input "t0"
  | .b => input "b"
  | .r_star => input "r_star"
  | .ecc => add (pow hk.1 2) (pow hk.2 2)
  | .omega => Graph.arctan2 hk.2 hk.1
  | .sin_omega => const 0
  | .cos_omega => const 0
  | .r => input "r"

/-- The light curve at time `t`. -/
noncomputable def lightCurveG (flip : Bool) (nx ny : String) (t : ℝ) : Graph String := KepMode.angle.lightCurveOf (parG (hkG flip nx ny)) (sub (const t) (input "t0"))

/-- The arguments of `KeplerianOrbit(period=period, t_periastron=tperi, ecc=ecc, omega=omega)` and of `get_radial_velocity(t, K=semiamp)`, `docs/tutorials/data-and-models.md:270-276`, with `ecc` and `omega` as
in 260-262. -/
noncomputable def rvParG (hk : Graph String × Graph String) : RvPar → Graph String
  | .kep p => parG hk p
  | .t_periastron => input "tperi"
  | .K => input "semiamp"

/-- The radial velocity at time `t`. -/
noncomputable def rvG (flip : Bool) (nx ny : String) (t : ℝ) : Graph String := (RvMode.t_periastron.rvG .angle t).subst (rvParG (hkG flip nx ny))

end Helper
end Exo
