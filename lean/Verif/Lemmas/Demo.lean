import Verif.Lemmas.Inputs

/-!
# Concrete orbits used to show that the hypotheses of the property theorems can be met
-/

namespace Exo
open Real

/-- `KeplerianOrbit(a=10, period=1, b=0.5, m_planet=0)`. -/
noncomputable def demoCirc : Args := { a := some (10 : ℝ), period := some (1 : ℝ), b := some (1 / 2 : ℝ) }

/-- `KeplerianOrbit(a=10, period=1, b=0.5, ecc=0.5, omega=0, Omega=1, t0=3)`. -/
noncomputable def demoEcc : Args :=
  { a := some (10 : ℝ), period := some (1 : ℝ), b := some (1 / 2 : ℝ), ecc := some (1 / 2 : ℝ),
    omega := some (0 : ℝ), Omega := some (1 : ℝ), t0 := some (3 : ℝ) }

/-- `KeplerianOrbit(period=1, m_star=1, r_star=1, m_planet=0.001, incl=1)`. -/
noncomputable def demoMass : Args :=
  { period := some (1 : ℝ), m_star := some (1 : ℝ), r_star := some (1 : ℝ), m_planet := some (1 / 1000 : ℝ),
    incl := some (1 : ℝ) }

theorem demoCirc_ok (C : Consts) : ∃ o, keplerianInit C demoCirc = .ok o ∧ o.Physical ∧
    o.a = 10 ∧ o.period = 1 ∧ o.r_star = 1 ∧ o.b = 1 / 2 ∧ o.t0 = 0 ∧ o.ecc = none ∧ o.m_planet = 0 := by
  have hG := C.G_pos
  have hg := C.gccPerSun_pos
  have hpi := pi_pos
  refine ⟨_, rfl, ⟨?_, ?_, ?_, ?_, ?_, ?_, ?_, ?_, ?_, ?_⟩, ?_, ?_, ?_, ?_, ?_, ?_, ?_⟩ <;>
    simp [inclFactorOf] <;> try positivity
  norm_num

theorem demoEcc_ok (C : Consts) : ∃ o, keplerianInit C demoEcc = .ok o ∧ o.Physical ∧
    o.a = 10 ∧ o.period = 1 ∧ o.r_star = 1 ∧ o.b = 1 / 2 ∧ o.t0 = 3 ∧ o.m_planet = 0 ∧ o.Omega = some 1 ∧
    ∃ p, o.ecc = some p ∧ p.ecc = 1 / 2 ∧ p.omega = 0 ∧ p.sin_omega = 0 ∧ p.cos_omega = 1 := by
  have hG := C.G_pos
  have hg := C.gccPerSun_pos
  have hpi := pi_pos
  refine ⟨_, rfl, ⟨?_, ?_, ?_, ?_, ?_, ?_, ?_, ?_, ?_, ?_⟩, ?_, ?_, ?_, ?_, ?_, ?_, ?_, ⟨_, rfl, ?_, ?_, ?_, ?_⟩⟩ <;>
    simp [inclFactorOf] <;> try positivity
  · norm_num
  · rw [abs_of_nonneg] <;> norm_num
  · simp [demoEcc]

theorem demoMass_ok (C : Consts) : ∃ o, keplerianInit C demoMass = .ok o ∧ o.Physical ∧
    o.period = 1 ∧ o.r_star = 1 ∧ o.m_star = 1 ∧ o.m_planet = 1 / 1000 ∧ o.incl = 1 ∧ o.ecc = none := by
  have hG := C.G_pos
  have hg := C.gccPerSun_pos
  have hpi := pi_pos
  refine ⟨_, rfl, ⟨?_, ?_, ?_, ?_, ?_, ?_, ?_, ?_, ?_, ?_⟩, ?_, ?_, ?_, ?_, ?_, ?_⟩ <;>
    simp <;> try positivity
  exact abs_cos_le_one 1

end Exo
