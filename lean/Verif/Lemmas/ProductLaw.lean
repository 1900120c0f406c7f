import Verif.Spec.Distributions
import Mathlib.MeasureTheory.Constructions.Pi
import Mathlib.MeasureTheory.Measure.WithDensityFinite

/-!
# Laws of independent entries
-/

namespace Exo
open MeasureTheory
open scoped ENNReal

variable {α β : Type} [MeasurableSpace α] [MeasurableSpace β]

theorem lintegral_pi_prod : ∀ {n : ℕ} (μ : Fin n → Measure α) [∀ i, SigmaFinite (μ i)] (f : Fin n → α → ℝ≥0∞)
    (_ : ∀ i, Measurable (f i)), ∫⁻ x, ∏ i, f i (x i) ∂(Measure.pi μ) = ∏ i, ∫⁻ a, f i a ∂μ i
  | 0, μ, _, f, _ => by simp
  | n + 1, μ, _, f, hf => by
    have hp := (measurePreserving_piFinSuccAbove μ 0).symm
    rw [← hp.lintegral_comp (by fun_prop), Fin.prod_univ_succ]
    have e : ∀ a : α × (Fin n → α), ∏ i, f i ((MeasurableEquiv.piFinSuccAbove (fun _ => α) 0).symm a i) =
        f 0 a.1 * ∏ i : Fin n, f i.succ (a.2 i) := by
      intro a
      rw [Fin.prod_univ_succ]
      rfl
    simp only [e]
    rw [lintegral_prod_mul (f := f 0) (g := fun y : Fin n → α => ∏ i, f i.succ (y i)) (hf 0).aemeasurable
      (Finset.measurable_prod _ fun i _ => (hf i.succ).comp (measurable_pi_apply i)).aemeasurable]
    congr 1
    exact lintegral_pi_prod (fun i => μ i.succ) (fun i => f i.succ) fun i => hf i.succ

/-- The law of independent variables has the product of the densities. -/
theorem withDensity_pi_prod {n : ℕ} (μ : Fin n → Measure α) [∀ i, SigmaFinite (μ i)] (f : Fin n → α → ℝ≥0∞)
    (hf : ∀ i, Measurable (f i)) [∀ i, SigmaFinite ((μ i).withDensity (f i))] :
    (Measure.pi μ).withDensity (fun x => ∏ i, f i (x i)) = Measure.pi fun i => (μ i).withDensity (f i) := by
  refine (Measure.pi_eq fun s hs => ?_).symm
  rw [withDensity_apply _ (MeasurableSet.univ_pi hs), Measure.restrict_pi_pi, lintegral_pi_prod _ _ hf]
  exact Finset.prod_congr rfl fun i _ => (withDensity_apply _ (hs i)).symm

/-- Independent variables, each uniform on a set of finite volume, are together uniform on the product. -/
theorem uniformOn_pi {β : Type} [MeasureSpace β] [SigmaFinite (volume : Measure β)] {n : ℕ} (μ : Fin n → Measure α)
    [∀ i, SigmaFinite (μ i)] (f : Fin n → α → β) (hf : ∀ i, Measurable (f i)) (S : Fin n → Set β)
    (h : ∀ i, UniformOn ((μ i).map (f i)) (S i)) :
    UniformOn ((Measure.pi μ).map fun x i => f i (x i)) (Set.univ.pi S) := by
  choose c h0 ht hc using h
  refine ⟨∏ i, c i, Finset.prod_ne_zero_iff.2 fun i _ => h0 i, (ENNReal.prod_lt_top fun i _ => (ht i).lt_top).ne, ?_⟩
  have hs : ∀ i, SigmaFinite ((μ i).map (f i)) := fun i => by
    rw [hc i]
    have := ht i
    lift c i to NNReal using ht i with ci
    exact inferInstanceAs (SigmaFinite (ci • (volume : Measure β).restrict (S i)))
  rw [Measure.pi_map_pi fun i => (hf i).aemeasurable]
  refine Measure.pi_eq fun s hs' => ?_
  rw [volume_pi, Measure.restrict_pi_pi, Measure.smul_apply, Measure.pi_pi, smul_eq_mul, ← Finset.prod_mul_distrib]
  refine Finset.prod_congr rfl fun i _ => ?_
  rw [hc i]
  rfl

end Exo
