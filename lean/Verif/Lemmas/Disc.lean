import Verif.Spec.LimbDark
import Mathlib.Analysis.SpecialFunctions.PolarCoord
import Mathlib.MeasureTheory.Integral.Prod
import Mathlib.MeasureTheory.Integral.IntervalIntegral.FundThmCalculus
import Mathlib.Analysis.SpecialFunctions.Integrals.Basic
import Mathlib.Tactic.Linarith
import Mathlib.Tactic.Ring
import Mathlib.Tactic.Positivity
import Mathlib.Tactic.FieldSimp

/-!
# Integrals over the stellar disc
-/

namespace Exo
open Real MeasureTheory Set

theorem continuous_muAt : Continuous muAt := by unfold muAt; fun_prop

theorem measurableSet_starDisc : MeasurableSet starDisc := by
  apply measurableSet_le <;> fun_prop

theorem measurableSet_bodyDisc (b r : ℝ) : MeasurableSet (bodyDisc b r) := by
  apply measurableSet_le <;> fun_prop

theorem isCompact_starDisc : IsCompact starDisc := by
  apply Metric.isCompact_of_isClosed_isBounded
  · exact isClosed_le (by fun_prop) (by fun_prop)
  · refine (Metric.isBounded_closedBall (x := (0 : ℝ × ℝ)) (r := 1)).subset ?_
    rintro ⟨x, y⟩ h
    simp only [starDisc, mem_ofPred_eq] at h
    simp only [Metric.mem_closedBall, dist_zero_right, Prod.norm_def, norm_eq_abs, sup_le_iff]
    constructor <;> apply abs_le_of_sq_le_sq <;> nlinarith

theorem integrableOn_disc {f : ℝ × ℝ → ℝ} (hf : Continuous f) {S : Set (ℝ × ℝ)} (hS : S ⊆ starDisc) :
    IntegrableOn f S :=
  (hf.continuousOn.integrableOn_compact isCompact_starDisc).mono_set hS

/-- A radially symmetric integral over the disc. -/
theorem integral_disc_radial (g : ℝ → ℝ) :
    ∫ p in starDisc, g (p.1 ^ 2 + p.2 ^ 2) = 2 * π * ∫ r in (0:ℝ)..1, r * g (r ^ 2) := by
  rw [← integral_indicator measurableSet_starDisc, ← integral_comp_polarCoord_symm]
  have h1 : ∀ p : ℝ × ℝ, p ∈ polarCoord.target →
      p.1 • starDisc.indicator (fun p : ℝ × ℝ => g (p.1 ^ 2 + p.2 ^ 2)) (polarCoord.symm p) =
      ((Ioc (0:ℝ) 1).indicator (fun r => r * g (r ^ 2)) p.1) * (1 : ℝ) := by
    rintro ⟨r, θ⟩ h
    simp only [polarCoord_target, mem_prod, mem_Ioi] at h
    have e : (r * cos θ) ^ 2 + (r * sin θ) ^ 2 = r ^ 2 := by
      linear_combination r ^ 2 * sin_sq_add_cos_sq θ
    simp only [polarCoord_symm_apply, smul_eq_mul, mul_one]
    by_cases hr : r ≤ 1
    · rw [indicator_of_mem, indicator_of_mem, e]
      · exact ⟨h.1, hr⟩
      · simp only [starDisc, mem_ofPred_eq, e]; nlinarith [h.1]
    · rw [indicator_of_notMem, indicator_of_notMem, mul_zero]
      · exact fun h => hr h.2
      · simp only [starDisc, mem_ofPred_eq, e]; push Not at hr ⊢; nlinarith [h.1]
  rw [setIntegral_congr_fun (polarCoord.open_target.measurableSet) h1, polarCoord_target, Measure.volume_eq_prod,
    setIntegral_prod_mul (fun r => (Ioc (0:ℝ) 1).indicator (fun r => r * g (r ^ 2)) r) (fun _ : ℝ => (1 : ℝ))]
  rw [intervalIntegral.integral_of_le zero_le_one, setIntegral_indicator measurableSet_Ioc,
    inter_eq_self_of_subset_right (Ioc_subset_Ioi_self)]
  simp
  have := pi_pos
  rw [max_eq_left (by linarith)]
  ring

theorem integral_disc_one : ∫ _ in starDisc, (1 : ℝ) = π := by
  rw [integral_disc_radial (fun _ => 1)]
  simp
  ring

theorem integral_disc_mu : ∫ p in starDisc, muAt p = 2 * π / 3 := by
  have : ∀ p : ℝ × ℝ, muAt p = (fun s => √(1 - s)) (p.1 ^ 2 + p.2 ^ 2) := by
    intro p; simp only [muAt]; congr 1; ring
  simp_rw [this]
  rw [integral_disc_radial (fun s => √(1 - s))]
  have h : ∫ r in (0:ℝ)..1, r * √(1 - r ^ 2) = (fun r : ℝ => -(1 / 3) * ((1 - r ^ 2) * √(1 - r ^ 2))) 1 -
      (fun r : ℝ => -(1 / 3) * ((1 - r ^ 2) * √(1 - r ^ 2))) 0 := by
    refine intervalIntegral.integral_eq_sub_of_hasDerivAt_of_le (f := fun r : ℝ => -(1 / 3) * ((1 - r ^ 2) * √(1 - r ^ 2)))
      zero_le_one ?_ ?_ ?_
    · fun_prop
    · intro x hx
      have hpos : 0 < 1 - x ^ 2 := by nlinarith [hx.1, hx.2]
      have h1 : HasDerivAt (fun r : ℝ => 1 - r ^ 2) (-(2 * x)) x := by
        simpa using ((hasDerivAt_id x).pow 2).const_sub 1
      have h2 := (h1.mul (h1.sqrt hpos.ne')).const_mul (-(1 / 3))
      refine h2.congr_deriv ?_
      have hs : √(1 - x ^ 2) ≠ 0 := (sqrt_pos.2 hpos).ne'
      have h3 : √(1 - x ^ 2) ^ 2 = 1 - x ^ 2 := sq_sqrt hpos.le
      field_simp
      linear_combination (-x) * h3
    · exact (by fun_prop : Continuous fun r : ℝ => r * √(1 - r ^ 2)).intervalIntegrable _ _
  rw [h]
  simp
  ring

theorem integral_disc_mu_sq : ∫ p in starDisc, (4 * muAt p ^ 2 - 2) = 0 := by
  have : ∀ p ∈ starDisc, (4 * muAt p ^ 2 - 2) = (fun s => 2 - 4 * s) (p.1 ^ 2 + p.2 ^ 2) := by
    intro p hp
    simp only [starDisc, mem_ofPred_eq] at hp
    simp only [muAt]
    rw [sq_sqrt (by linarith)]
    ring
  rw [setIntegral_congr_fun measurableSet_starDisc this, integral_disc_radial (fun s => 2 - 4 * s)]
  have h : ∫ r in (0:ℝ)..1, r * (2 - 4 * r ^ 2) = (fun r : ℝ => r ^ 2 - r ^ 4) 1 - (fun r : ℝ => r ^ 2 - r ^ 4) 0 := by
    refine intervalIntegral.integral_eq_sub_of_hasDerivAt (f := fun r : ℝ => r ^ 2 - r ^ 4) ?_ ?_
    · intro x _
      refine (((hasDerivAt_id x).pow 2).sub ((hasDerivAt_id x).pow 4)).congr_deriv ?_
      simp; ring
    · exact (by fun_prop : Continuous fun r : ℝ => r * (2 - 4 * r ^ 2)).intervalIntegrable _ _
  rw [h]; simp

end Exo
