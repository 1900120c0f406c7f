import Verif.Spec.Orbit
import Mathlib.Tactic.FieldSimp
import Mathlib.Tactic.Linarith

/-!
# What a successful `keplerianInit` establishes
-/

namespace Exo
open Real

/-- All the defining equations of the attributes of a constructed orbit. -/
structure Built (C : Consts) (A : Args) (o : Orbit) : Prop where
  inputs : ∃ mp rho D, applyUnitKw A.m_planet A.m_planet_units = .ok mp ∧
    applyUnitKw A.rho_star A.rho_star_units = .ok rho ∧ durationBlock A = .ok D ∧
    consistentInputs C D.a A.period rho D.r_star A.m_star mp =
      .ok ⟨o.a, o.period, o.rho_star, o.r_star, o.m_star, o.m_planet⟩ ∧
    inclBlock C A D.duration o.ecc o.period o.a_planet o.r_star o.dcosidb = .ok (o.b, o.cos_incl, o.incl) ∧
    o.durJac = durJacOf C ⟨o.a, o.period, o.rho_star, o.r_star, o.m_star, o.m_planet⟩ D.daordtau
  m_total_eq : o.m_total = o.m_star + o.m_planet
  n_eq : o.n = 2 * π / o.period
  a_star_eq : o.a_star = o.a * o.m_planet / o.m_total
  a_planet_eq : o.a_planet = -o.a * o.m_star / o.m_total
  K0_eq : o.K0 = K0Of o.ecc o.n o.a o.m_total
  Omega_eq : o.Omega = A.Omega.map Q.val
  ecc_eq : eccBlock A = .ok o.ecc
  M0_eq : o.M0 = M0Of o.ecc
  dcosidb_eq : o.dcosidb = inclFactorOf o.ecc * o.r_star / o.a
  sin_incl_eq : o.sin_incl = sin o.incl
  time_block : timeBlock A o.M0 o.n = .ok (o.t0, o.t_periastron)
  tref_eq : o.tref = o.t_periastron - o.t0
  warp_eq : ∀ t, o.warp t = t - o.t0

theorem built_of_init {C : Consts} {A : Args} {o : Orbit} (h : keplerianInit C A = .ok o) : Built C A o := by
  unfold keplerianInit at h
  split at h; · cases h
  rename_i mp hmp
  split at h; · cases h
  rename_i rho hrho
  split at h; · cases h
  rename_i D hD
  split at h; · cases h
  rename_i I hI
  simp only at h
  split at h; · cases h
  rename_i ecc hecc
  split at h; · cases h
  rename_i b ci i hincl
  split at h; · cases h
  rename_i t0 tp htime
  simp only [Except.ok.injEq] at h
  subst h
  exact { inputs := ⟨mp, rho, D, hmp, hrho, hD, hI, hincl, rfl⟩, m_total_eq := rfl, n_eq := rfl, a_star_eq := rfl,
          a_planet_eq := rfl, K0_eq := rfl, Omega_eq := rfl, ecc_eq := hecc, M0_eq := rfl, dcosidb_eq := rfl,
          sin_incl_eq := rfl, time_block := htime, tref_eq := rfl, warp_eq := fun _ => rfl }

theorem timeBlock_eq {A : Args} {M0 n t0 tp : ℝ} (h : timeBlock A M0 n = .ok (t0, tp)) : t0 = tp + M0 / n := by
  unfold timeBlock at h
  split at h <;> simp only [Except.ok.injEq, Prod.mk.injEq, reduceCtorEq] at h <;>
    (obtain ⟨h1, h2⟩ := h; subst h1 h2; ring)

namespace Built
variable {C : Consts} {A : Args} {o : Orbit} (B : Built C A o)
include B

theorem t0_eq : o.t0 = o.t_periastron + o.M0 / o.n := timeBlock_eq B.time_block

theorem cos_incl_eq (h : |o.cos_incl| ≤ 1) : o.cos_incl = cos o.incl := by
  obtain ⟨mp, rho, D, -, -, -, -, hi, -⟩ := B.inputs
  rw [abs_le] at h
  revert hi
  generalize o.cos_incl = ci at *
  generalize o.incl = i at *
  generalize o.b = b at *
  unfold inclBlock
  intro hi
  split at hi
  · split at hi <;> simp only [Except.ok.injEq, Prod.mk.injEq, reduceCtorEq] at hi
    obtain ⟨-, h1, h2⟩ := hi
    rw [← h2, h1, cos_arccos h.1 h.2]
  · split at hi
    · split at hi <;> simp only [Except.ok.injEq, Prod.mk.injEq, reduceCtorEq] at hi
      obtain ⟨-, h1, h2⟩ := hi
      rw [← h2, h1]
    · split at hi
      · split at hi
        · cases hi
        · split at hi
          · cases hi
          · simp only [Except.ok.injEq, Prod.mk.injEq] at hi
            obtain ⟨-, h1, h2⟩ := hi
            rw [← h2, h1, cos_arccos h.1 h.2]
      · simp only [Except.ok.injEq, Prod.mk.injEq] at hi
        obtain ⟨-, h1, h2⟩ := hi
        rw [← h2, ← h1, show (0.5 * π + 0 : ℝ) = π / 2 by ring, cos_pi_div_two]

theorem incl_sq (hp : o.Physical) : o.sin_incl ^ 2 + o.cos_incl ^ 2 = 1 := by
  rw [B.cos_incl_eq hp.cos_incl_abs, B.sin_incl_eq]; exact sin_sq_add_cos_sq _

theorem m_total_pos (hp : o.Physical) : 0 < o.m_total := by
  rw [B.m_total_eq]; linarith [hp.m_star_pos, hp.m_planet_nonneg]

theorem n_pos (hp : o.Physical) : 0 < o.n := by
  rw [B.n_eq]; exact div_pos (by positivity) hp.period_pos

theorem n_mul_period (hp : o.Physical) : o.n * o.period = 2 * π := by
  rw [B.n_eq]; exact div_mul_cancel₀ _ hp.period_pos.ne'

end Built
end Exo

namespace Exo
open Real

/-- Re-running the constructor on arguments that give the same blocks gives the same orbit. -/
theorem init_congr {C : Consts} {A A' : Args} {o : Orbit} (h : keplerianInit C A = .ok o)
    (h1 : applyUnitKw A'.m_planet A'.m_planet_units = applyUnitKw A.m_planet A.m_planet_units)
    (h2 : applyUnitKw A'.rho_star A'.rho_star_units = applyUnitKw A.rho_star A.rho_star_units)
    (h3 : durationBlock A' = durationBlock A) (h4 : A'.period = A.period) (h4' : A'.m_star = A.m_star)
    (h5 : eccBlock A' = eccBlock A) (h6 : A'.Omega = A.Omega)
    (h7 : ∀ D, durationBlock A = .ok D →
      inclBlock C A' D.duration o.ecc o.period o.a_planet o.r_star o.dcosidb = .ok (o.b, o.cos_incl, o.incl))
    (h8 : timeBlock A' o.M0 o.n = .ok (o.t0, o.t_periastron)) : keplerianInit C A' = .ok o := by
  unfold keplerianInit at h
  split at h; · cases h
  rename_i mp hmp
  split at h; · cases h
  rename_i rho hrho
  split at h; · cases h
  rename_i D hD
  split at h; · cases h
  rename_i I hI
  simp only at h
  split at h; · cases h
  rename_i ecc hecc
  split at h; · cases h
  rename_i b ci i hincl
  split at h; · cases h
  rename_i t0 tp htime
  simp only [Except.ok.injEq] at h
  subst h
  unfold keplerianInit
  rw [h1, h2, h3, h4, h4', h5, h6, hmp, hrho, hD]
  simp only [hI, hecc]
  simp only at h8
  have := h7 D hD
  simp only at this
  rw [this]
  simp only
  rw [h8]

end Exo
