import Verif.Model.BackpropStar
import Verif.Spec.BackpropKepler

/-!
# Vocabulary of the properties of computed gradients with respect to the properties of the star
-/

namespace Exo
open Real

/-- The arguments of the constructor. -/
noncomputable def StarMode.args (s : StarMode) (m : KepMode) (q : StarPar → ℝ) : Args :=
  let A : Args := { m.args (fun p => q (.kep p)) with m_planet := some (q .m_planet) }
  match s with
  | massRadius => { A with a := none, m_star := some (q .m_star) }
  | densityRadius => { A with a := none, rho_star := some (q .rho_star) }
  | densityMass => { A with a := none, r_star := none, rho_star := some (q .rho_star), m_star := some (q .m_star) }
  | axis => { A with period := none, m_star := some (q .m_star) }
  | implied => A

/-- Whether an argument is among those that are given. -/
def StarMode.uses : StarMode → StarPar → Prop
  | massRadius, j => j = .m_star ∨ j = .kep .r_star ∨ j = .kep .period
  | densityRadius, j => j = .rho_star ∨ j = .kep .r_star ∨ j = .kep .period
  | densityMass, j => j = .rho_star ∨ j = .m_star ∨ j = .kep .period
  | axis, j => j = .m_star ∨ j = .kep .r_star ∨ j = .kep .a
  | implied, j => j = .kep .a ∨ j = .kep .r_star ∨ j = .kep .period

/-- Positive sizes and masses and, for an eccentric orbit, `0 ≤ e < 1` and `sin ω > -1`. -/
structure StarMode.Possible (s : StarMode) (m : KepMode) (q : StarPar → ℝ) : Prop where
  given : ∀ j, s.uses j → 0 < q j
  m_planet : 0 ≤ q .m_planet
  r : 0 < q (.kep .r)
  ecc : m ≠ .circular → 0 ≤ q (.kep .ecc) ∧ q (.kep .ecc) < 1
  omega : m ≠ .circular → -1 < m.sinOmega fun p => q (.kep p)

end Exo
