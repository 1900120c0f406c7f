import Mathlib.Analysis.Calculus.ContDiff.Defs
import Mathlib.Analysis.Calculus.ContDiff.Basic
import Mathlib.Analysis.Calculus.ContDiff.Operations
import Mathlib.Analysis.Calculus.InverseFunctionTheorem.FDeriv

/-!
# Strict differentiability on a neighbourhood is continuous differentiability
-/

namespace Exo
open Filter Topology

variable {E F G : Type*} [NormedAddCommGroup E] [NormedSpace ℝ E] [NormedAddCommGroup F] [NormedSpace ℝ F] [NormedAddCommGroup G]
  [NormedSpace ℝ G]

theorem contDiffAt_one_of_strict {f : E → F} {x : E} (h : ∀ᶠ y in 𝓝 x, ∃ f' : E →L[ℝ] F, HasStrictFDerivAt f f' y) : ContDiffAt ℝ 1 f x := by
  rw [contDiffAt_one_iff]
  obtain ⟨u, hu, huo, hxu⟩ := eventually_nhds_iff.1 h
  refine ⟨fderiv ℝ f, u, huo.mem_nhds hxu, ?_, ?_⟩
  · intro y hy
    refine ContinuousAt.continuousWithinAt ?_
    obtain ⟨f', hf⟩ := hu y hy
    rw [Metric.continuousAt_iff']
    intro ε hε
    obtain ⟨s, hs, hA⟩ := hf.approximates_deriv_on_nhds (c := ⟨ε / 2, (half_pos hε).le⟩) (Or.inr (half_pos hε))
    filter_upwards [huo.mem_nhds hy, eventually_eventually_nhds.2 hs] with z hz hsz
    obtain ⟨f'', hz'⟩ := hu z hz
    rw [hf.hasFDerivAt.fderiv, hz'.hasFDerivAt.fderiv, dist_eq_norm]
    have := (hz'.hasFDerivAt.sub f'.hasFDerivAt).le_of_lip' (C := ε / 2) (half_pos hε).le (by
      filter_upwards [hsz] with w hw
      have h1 := hA w hw z (mem_of_mem_nhds hsz)
      have e : (f - ⇑f') w - (f - ⇑f') z = f w - f z - f' (w - z) := by
        simp only [Pi.sub_apply, map_sub]
        abel
      rw [e]
      exact h1)
    linarith
  · intro y hy
    obtain ⟨f', hf⟩ := hu y hy
    exact hf.hasFDerivAt.differentiableAt.hasFDerivAt

/-- A strictly differentiable function after a Lipschitz function whose kinks it does not see. -/
theorem strict_comp_kink {f : F → G} {f' : F →L[ℝ] G} {u : E → F} {x : E} (hf : HasStrictFDerivAt f f' (u x)) {K : ℝ} (hc : ContinuousAt u x)
    (hu : ∀ p q, ‖u p - u q‖ ≤ K * ‖p - q‖) {L : E →L[ℝ] G} (hL : ∀ p q, f' (u p - u q) = L (p - q)) :
    HasStrictFDerivAt (fun p => f (u p)) L x := by
  rw [hasStrictFDerivAt_iff_isLittleO]
  have h1 := hf.isLittleO.comp_tendsto (k := fun p : E × E => (u p.1, u p.2)) (l' := 𝓝 (x, x)) (by
    rw [nhds_prod_eq, nhds_prod_eq]
    exact Tendsto.prodMap hc hc)
  have h2 : (fun p : E × E => u p.1 - u p.2) =O[𝓝 (x, x)] fun p => p.1 - p.2 :=
    Asymptotics.IsBigO.of_bound K (Eventually.of_forall fun p => hu p.1 p.2)
  refine (h1.trans_isBigO h2).congr_left fun p => ?_
  simp only [Function.comp]
  rw [hL]

end Exo
