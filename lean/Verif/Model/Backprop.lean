import Verif.Model.FlSimple

/-!
# Gradients of light curves as the compiled graphs compute them

The sampler needs the derivatives of the light curve and of the positions with respect to the parameters. PyTensor obtains them by going backwards through the
operations of the graph that the Python code has built: every operation turns the derivative with respect to its result into derivatives with
respect to its arguments (its `L_op`), and the contributions of all uses of a parameter are added. Here the graph of a light curve of one
`SimpleTransitOrbit` at one time is written down operation by operation (`simpleGraph`, `fluxGraph`), with its value (`Graph.value`) and its
gradient (`Graph.back`) computed with `Fl`: real numbers, infinities and NaN. The rules for the derivatives of the operations are those of
PyTensor (`pytensor/scalar/basic.py`, not in `/repo`), and belong to the trusted base.
-/

namespace Exo
open Real

/-- The compiled operations with their gradients. `value` is `exoplanet_core.ops.quad_limbdark_light_curve` as a function of `b` and `r`:
`backB g b r` and `backR g b r` are the contributions to the derivatives with respect to `b` and `r` when `g` is the derivative with respect to
the result. `kepler` is `exoplanet_core.ops.kepler` with the results `sin f` and `cos f`: `backSin g M e` and `backCos g M e` are the
contributions to the derivatives with respect to `M` and `e` when `g` is the derivative with respect to the first or second result.
`solution i` is the `i`-th entry of the result of `exoplanet_core.ops.quad_solution_vector` as a function of `b` and `r`, and `backSolution i` its contributions. -/
structure FlOp where
  value : FlLimbDark
  backB : Fl → Fl → Fl → Fl
  backR : Fl → Fl → Fl → Fl
  kepler : FlKepler
  backSin : Fl → Fl → Fl → Fl × Fl
  backCos : Fl → Fl → Fl → Fl × Fl
  solution : Fin 3 → FlLimbDark
  backSolution : Fin 3 → Fl → Fl → Fl → Fl × Fl

/-- The operations that occur between the parameters `ι` of an orbit and the positions or the light curve. -/
inductive Graph (ι : Type) where
  | input (i : ι)
  | const (c : ℝ)
  | add (x y : Graph ι)
  | sub (x y : Graph ι)
  | mul (x y : Graph ι)
  | div (x y : Graph ι)
  | neg (x : Graph ι)
  /-- `x ** k` for a positive integer `k` -/
  | pow (x : Graph ι) (k : ℕ)
  /-- `x ** c` with a constant real exponent -/
  | powr (x : Graph ι) (c : ℝ)
  /-- `pt.sqrt(x)` -/
  | sqrt (x : Graph ι)
  /-- `pt.sin(x)` -/
  | sin (x : Graph ι)
  /-- `pt.cos(x)` -/
  | cos (x : Graph ι)
  /-- `pt.arccos(x)` -/
  | arccos (x : Graph ι)
  /-- `pt.arctan2(x, y)` -/
  | arctan2 (x y : Graph ι)
  /-- `kepler(x, y)[0]` — `keplerian.py:333` -/
  | keplerSin (x y : Graph ι)
  /-- `kepler(x, y)[1]` — `keplerian.py:333` -/
  | keplerCos (x y : Graph ι)
  /-- `pt.mod(x, y)` -/
  | mod (x y : Graph ι)
  /-- `m * 1.0 - (~m) * 1.0` with `m = pt.abs(x) < y` — `simple.py:64-65` -/
  | side (x y : Graph ι)
  /-- `pt.switch(pt.gt(x, 0), y, pt.zeros_like(y))` — `limb_dark.py:251` -/
  | switch (x y : Graph ι)
  /-- `pt.switch(pt.lt(pt.abs(x), c), y, z)` — `keplerian.py:451-462` -/
  | ifSmall (x : Graph ι) (c : ℝ) (y z : Graph ι)
  /-- `quad_limbdark_light_curve(c, x, y)` — `limb_dark.py:250` -/
  | limbDark (x y : Graph ι)
  /-- `values[searchsorted(edges, x)]` — `ttv.py:178-179` -/
  | pick {k l : ℕ} (edges : Fin k → Graph ι) (values : Fin l → Graph ι) (x : Graph ι)
  /-- An entry of `pt.set_subtensor(expect[inds], times)`, `ttv.py:155-157`, to which first `x` and then `y` is written. -/
  | overwritten (x y : Graph ι)
  /-- `values[pt.cast(pt.floor(x), "int64")]` — `interpolated.py:35-37` -/
  | index {l : ℕ} (values : Fin l → Graph ι) (x : Graph ι)
  /-- `pt.log(x)` -/
  | log (x : Graph ι)
  /-- `quad_solution_vector(x, y)[..., i]` — `limb_dark.py:24` -/
  | solution (i : Fin 3) (x y : Graph ι)
  /-- `pt.exp(x)` -/
  | exp (x : Graph ι)

namespace Fl

/-- `x // y`, of the derivative of `pt.mod`. -/
noncomputable def floorDiv : Fl → Fl → Fl
  | fin x, fin y => if y = 0 then nan else fin ⌊x / y⌋
  | _, _ => nan

/-- `pt.cast(pt.floor(x), "int64")` as an index; there is none for negative numbers, which do not occur where the graphs use it, infinities and NaN. -/
noncomputable def toIndex : Fl → Option ℕ
  | fin x => if 0 ≤ x then some ⌊x⌋.toNat else none
  | _ => none

/-- `pt.exp`; overflow is not modelled -/
noncomputable def exp : Fl → Fl
  | fin x => fin (Real.exp x)
  | inf s => if s then fin 0 else inf false
  | nan => nan

/-- `pt.log` -/
noncomputable def log : Fl → Fl
  | fin x => if x < 0 then nan else if x = 0 then inf true else fin (Real.log x)
  | inf s => if s then nan else inf false
  | nan => nan

end Fl

namespace Graph
variable {ι : Type} (op : FlOp) (env : ι → Fl)

/-- The value of the graph for parameters `env`. -/
noncomputable def value : Graph ι → Fl
  | input i => env i
  | const c => .fin c
  | add x y => x.value + y.value
  | sub x y => x.value - y.value
  | mul x y => x.value * y.value
  | div x y => x.value / y.value
  | neg x => -x.value
  | pow x k => x.value ^ k
  | powr x c => x.value.powr c
  | sqrt x => x.value.sqrt
  | sin x => x.value.sin
  | cos x => x.value.cos
  | arccos x => x.value.arccos
  | arctan2 x y => Fl.arctan2 x.value y.value
  | keplerSin x y => (op.kepler x.value y.value).1
  | keplerCos x y => (op.kepler x.value y.value).2
  | mod x y => Fl.mod x.value y.value
  | side x y => if y.value.gt x.value.abs then .fin 1 else .fin (-1)
  | switch x y => if x.value.gt (.fin 0) then y.value else .fin 0
  | ifSmall x c y z => if (Fl.fin c).gt x.value.abs then y.value else z.value
  | limbDark x y => op.value x.value y.value
  | @pick _ k l edges values x =>
    let n := ((List.finRange k).filter fun i => x.value.gt (edges i).value).length
    if h : n < l then (values ⟨n, h⟩).value else .nan
  | overwritten _ y => y.value
  | @index _ l values x => match x.value.toIndex with
    | some n => if h : n < l then (values ⟨n, h⟩).value else .nan
    | none => .nan
  | log x => x.value.log
  | solution i x y => op.solution i x.value y.value
  | exp x => x.value.exp

/-- `pytensor.grad`: the contributions of the graph to the derivatives with respect to the parameters, when `g` is the derivative with respect
to its value. The rules are those of `Add`, `Sub`, `Mul`, `TrueDiv`, `Neg`, `Pow` (constant exponent), `Sqrt`, `Sin`, `Cos`, `ArcCos`, `ArcTan2`,
`Mod`, `Log`, `Exp` and `Switch`; comparisons, `Floor` and `SearchsortedOp` have no derivative. The derivative of an indexed vector (`AdvancedSubtensor1`) goes to the selected
entry, the others get zero; that of `AdvancedIncSubtensor1(set_instead_of_inc=True)` with respect to the written values is the derivative with respect to the result at the
same indices, also for a value that another one has overwritten. -/
noncomputable def back [DecidableEq ι] : Graph ι → Fl → ι → Fl
  | input i, g => fun j => if i = j then g else .fin 0
  | const _, _ => fun _ => .fin 0
  | add x y, g => fun j => x.back g j + y.back g j
  | sub x y, g => fun j => x.back g j + y.back (-g) j
  | mul x y, g => fun j => x.back (g * y.value op env) j + y.back (g * x.value op env) j
  | div x y, g => fun j => x.back (g / y.value op env) j + y.back (-(g * x.value op env) / (y.value op env * y.value op env)) j
  | neg x, g => fun j => x.back (-g) j
  | pow x k, g => fun j => x.back (g * (.fin k * x.value op env ^ (k - 1))) j
  | powr x c, g => fun j => x.back (g * (.fin c * (x.value op env).powr (c - 1))) j
  | sqrt x, g => fun j => x.back (g * .fin 0.5 / (x.value op env).sqrt) j
  | sin x, g => fun j => x.back (g * (x.value op env).cos) j
  | cos x, g => fun j => x.back (-g * (x.value op env).sin) j
  | arccos x, g => fun j => x.back (-g / (Fl.fin 1 - x.value op env ^ 2).sqrt) j
  | arctan2 x y, g => fun j =>
    x.back (g * y.value op env / (x.value op env ^ 2 + y.value op env ^ 2)) j +
      y.back (g * -x.value op env / (x.value op env ^ 2 + y.value op env ^ 2)) j
  | keplerSin x y, g => fun j =>
    x.back (op.backSin g (x.value op env) (y.value op env)).1 j + y.back (op.backSin g (x.value op env) (y.value op env)).2 j
  | keplerCos x y, g => fun j =>
    x.back (op.backCos g (x.value op env) (y.value op env)).1 j + y.back (op.backCos g (x.value op env) (y.value op env)).2 j
  | mod x y, g => fun j => x.back g j + y.back (-(Fl.floorDiv (x.value op env) (y.value op env)) * g) j
  | side _ _, _ => fun _ => .fin 0
  | switch x y, g => fun j => y.back (if (x.value op env).gt (.fin 0) then g else .fin 0) j
  | ifSmall x c y z, g => fun j =>
    y.back (if (Fl.fin c).gt (x.value op env).abs then g else .fin 0) j + z.back (if (Fl.fin c).gt (x.value op env).abs then .fin 0 else g) j
  | limbDark x y, g => fun j => x.back (op.backB g (x.value op env) (y.value op env)) j + y.back (op.backR g (x.value op env) (y.value op env)) j
  | @pick _ k l edges values x, g => fun j =>
    let n := ((List.finRange k).filter fun i => (x.value op env).gt ((edges i).value op env)).length
    Fl.sum ((List.finRange l).map fun i => (values i).back (if (i : ℕ) = n then g else .fin 0) j)
  | overwritten x y, g => fun j => x.back g j + y.back g j
  | @index _ l values x, g => fun j =>
    Fl.sum ((List.finRange l).map fun i => (values i).back (if (x.value op env).toIndex = some (i : ℕ) then g else .fin 0) j)
  | log x, g => fun j => x.back (g / x.value op env) j
  | solution i x y, g => fun j =>
    x.back (op.backSolution i g (x.value op env) (y.value op env)).1 j + y.back (op.backSolution i g (x.value op env) (y.value op env)).2 j
  | exp x, g => fun j => x.back (g * (x.value op env).exp) j

end Graph

/-- The parameters of a `SimpleTransitOrbit` and the radius of the planet. -/
inductive SimplePar where
  | period
  | duration
  | t0
  | b
  | r_star
  | ror
  | r
  deriving DecidableEq

/-- `limb_dark.py:213-222` and `_compute_light_curve`, 234-251, for one planet of radius `r` at the position `(x, y, z)`. -/
def fluxGraph {ι : Type} (x y z r_star r : Graph ι) : Graph ι :=
  let b := Graph.sqrt (.add (.pow x 2) (.pow y 2))
  .switch (.div z r_star) (.limbDark (.div b r_star) (.div r r_star))

section
open Graph SimplePar

/-- `self.speed` — `simple.py:32-33`. -/
noncomputable def speedGraph : Graph SimplePar :=
  let x2 := mul (pow (input r_star) 2) (sub (pow (add (const 1) (input ror)) 2) (pow (input b) 2))
  div (mul (const 2) (Graph.sqrt x2)) (input duration)

/-- `self._half_period` — `simple.py:35`. -/
noncomputable def halfGraph : Graph SimplePar := mul (const 0.5) (input period)

/-- `dt` of `simple.py:60-61`, with `self._ref_time` of line 36, at time `t`. -/
noncomputable def dtGraph (t : ℝ) : Graph SimplePar :=
  sub (Graph.mod (sub (const t) (sub (input t0) halfGraph)) (input period)) halfGraph

/-- The light curve of a `SimpleTransitOrbit` at time `t`: `get_relative_position`, `simple.py:60-66`, with `self._b_norm` of line 31, followed by `limb_dark.py:213-251`. -/
noncomputable def simpleGraph (t : ℝ) : Graph SimplePar :=
  fluxGraph (mul speedGraph (dtGraph t)) (add (mul (input b) (input r_star)) (const 0)) (side (dtGraph t) (mul (const 0.5) (input duration)))
    (input r_star) (input r)

end

end Exo
