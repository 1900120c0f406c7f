import Verif.Model.BackpropKepler
import Verif.Model.Keplerian
import Verif.Spec.BackpropDelay

/-!
# Vocabulary of the properties of computed gradients of light curves of a `KeplerianOrbit`
-/

namespace Exo
open Real

namespace KepMode
variable (m : KepMode)

/-- The arguments of the constructor. -/
noncomputable def args (q : KepPar → ℝ) : Args :=
  let A : Args := { a := some (q .a), period := some (q .period), t0 := some (q .t0), b := some (q .b), r_star := some (q .r_star) }
  match m with
  | circular => A
  | angle => { A with ecc := some (q .ecc), omega := some (q .omega) }
  | sincos => { A with ecc := some (q .ecc), sin_omega := some (q .sin_omega), cos_omega := some (q .cos_omega) }

/-- The sine of the argument of periastron. -/
noncomputable def sinOmega (q : KepPar → ℝ) : ℝ := match m with
  | sincos => q .sin_omega
  | _ => sin (q .omega)

end KepMode

/-- The planet is in front of the star or behind it, or outside of its disc: it does not graze a star in the plane of the sky. -/
def Clear (R r : ℝ) (v : V3) : Prop := v.z ≠ 0 ∨ R + r < √(v.x ^ 2 + v.y ^ 2)

/-- The change of the true anomaly with the mean anomaly, `(1 + e cos f)² / (1 - e²)^(3/2)`. -/
noncomputable def anomalyPerMean (M e : ℝ) : ℝ := (1 + e * (keplerOp M e).2) ^ 2 / √(1 - e ^ 2) ^ 3

/-- The change of the true anomaly with the eccentricity, `(2 + e cos f) sin f / (1 - e²)`. -/
noncomputable def anomalyPerEcc (M e : ℝ) : ℝ := (2 + e * (keplerOp M e).2) * (keplerOp M e).1 / (1 - e ^ 2)

/-- The compiled solution of Kepler's equation is exact, and its derivatives are computed with the two formulas above. -/
structure FlOp.ExactKepler (op : FlOp) : Prop where
  value : op.kepler.Ok
  backSin : ∀ g M e : ℝ, 0 ≤ e → e < 1 → op.backSin (.fin g) (.fin M) (.fin e) =
    (.fin (g * ((keplerOp M e).2 * anomalyPerMean M e)), .fin (g * ((keplerOp M e).2 * anomalyPerEcc M e)))
  backCos : ∀ g M e : ℝ, 0 ≤ e → e < 1 → op.backCos (.fin g) (.fin M) (.fin e) =
    (.fin (g * (-(keplerOp M e).1 * anomalyPerMean M e)), .fin (g * (-(keplerOp M e).1 * anomalyPerEcc M e)))

/-- Parameters of an orbit: positive sizes and, for an eccentric orbit, `0 ≤ e < 1` and `sin ω > -1`. At `e = 0` the derivative with respect to `e` is that of the solution of
Kepler's equation continued to negative `e`, and hence in particular the derivative from the right: the compiled operation has no value for `e < 0`. -/
structure KepMode.Possible (m : KepMode) (q : KepPar → ℝ) : Prop where
  a : 0 < q .a
  period : 0 < q .period
  r_star : 0 < q .r_star
  r : 0 < q .r
  ecc : m ≠ .circular → 0 ≤ q .ecc ∧ q .ecc < 1
  omega : m ≠ .circular → -1 < m.sinOmega q

end Exo
