import Verif.Model.Keplerian
import Mathlib.Analysis.SpecialFunctions.Log.Basic

/-!
# Model of `src/exoplanet/orbits/dur_to_ecc.py`

Modelled: the call of `_get_consistent_inputs` and the per-planet formulas up to the Jacobian. Not modelled: the sum over the branches
of several planets and what is registered with PyMC (`dur_to_ecc.py:48-110`).
-/

namespace Exo
open Real

/-- A positional argument of `_get_consistent_inputs`: a quantity or `None`, or a unit or `None`. -/
inductive PosArg where
  | quantity (q : Option Q)
  | unit (u : Option AUnit)

/-- Calling `def _get_consistent_inputs(a, period, rho_star, r_star, m_star, m_planet)` (keplerian.py:849) with a list of positional
arguments: Python raises a `TypeError` unless there are exactly six. -/
noncomputable def consistentInputsPositional (C : Consts) : List PosArg → Except PyErr Inputs
  | [.quantity a, .quantity period, .quantity rho_star, .quantity r_star, .quantity m_star, .quantity m_planet] =>
    consistentInputs C a period rho_star r_star m_star m_planet
  | _ => .error (.typeError "_get_consistent_inputs() takes 6 positional arguments")

/-- The keyword arguments that `duration_to_eccentricity` looks at. -/
structure DurEccArgs where
  duration : ℝ
  ror : ℝ
  a : Option Q := none
  period : Option Q := none
  rho_star : Option Q := none
  r_star : Option Q := none
  m_star : Option Q := none
  rho_star_units : Option AUnit := none
  m_planet : Option Q := some (0 : ℝ)
  m_planet_units : Option AUnit := none
  b : ℝ := 0
  omega : ℝ

/-- dur_to_ecc.py:40-41: the duration of a circular orbit. -/
noncomputable def durEccConst (period r_star ror b a : ℝ) : ℝ := period * r_star * √((1 + ror) ^ 2 - b ^ 2) / (π * a)

/-- dur_to_ecc.py:45. -/
noncomputable def durEccE1 (s u : ℝ) : ℝ := -s * u ^ 2 / ((s * u) ^ 2 + 1)

/-- dur_to_ecc.py:46 (NaN in the code if the radicand is negative). -/
noncomputable def durEccE2 (s u : ℝ) : ℝ := √((s ^ 2 - 1) * u ^ 2 + 1) / ((s * u) ^ 2 + 1)

/-- dur_to_ecc.py:38: `umax_inv`. -/
noncomputable def durEccUmaxInv (s : ℝ) : ℝ := if s < 0 then √(1 - s ^ 2) else 1

/-- dur_to_ecc.py:59-68: the logarithm of the Jacobian of a valid branch of one planet. -/
noncomputable def durEccLogJac (s const ecc : ℝ) : ℝ :=
  0.5 * log (1 - ecc ^ 2) + 2 * log (s * ecc + 1) - log |s + ecc| - log const

/-- dur_to_ecc.py:35-46 for one planet: the two candidates `(e1 - e2, e1 + e2)` from the consistent inputs. -/
noncomputable def durEccCandidates (A : DurEccArgs) (I : Inputs) : ℝ × ℝ :=
  let s := sin A.omega
  let const := durEccConst I.period I.r_star A.ror A.b I.a
  let u := A.duration / const
  (durEccE1 s u - durEccE2 s u, durEccE1 s u + durEccE2 s u)

/-- dur_to_ecc.py:18-46, `duration_to_eccentricity` for one planet, as far as the two candidates. -/
noncomputable def durationToEccentricity (C : Consts) (A : DurEccArgs) : Except PyErr (ℝ × ℝ) := do
  let I ← consistentInputsPositional C
    [.quantity A.a, .quantity A.period, .quantity A.rho_star, .quantity A.r_star, .quantity A.m_star, .unit A.rho_star_units,
     .quantity A.m_planet, .unit A.m_planet_units]
  .ok (durEccCandidates A I)

end Exo
