import Mathlib.Analysis.Calculus.MeanValue
import Mathlib.Analysis.Calculus.Deriv.MeanValue
import Mathlib.Analysis.Calculus.Deriv.Pow
import Mathlib.Topology.Order.IntermediateValue
import Mathlib.Tactic.Linarith
import Mathlib.Tactic.LinearCombination
import Mathlib.Tactic.Positivity

/-!
# The light-time equation for a moving source
-/

namespace Exo
open Set

/-- Mean value inequality on the line. -/
theorem abs_sub_le_of_deriv {f f' : ℝ → ℝ} {K : ℝ} (hf : ∀ s, HasDerivAt f (f' s) s) (hK : ∀ s, |f' s| ≤ K) (x y : ℝ) :
    |f x - f y| ≤ K * |x - y| := by
  have := Convex.norm_image_sub_le_of_norm_hasDerivWithin_le (f := f) (f' := f') (s := univ) (x := y) (y := x) (C := K)
    (fun s _ => (hf s).hasDerivWithinAt) (fun s _ => by simpa using hK s) convex_univ trivial trivial
  simpa using this

/-- Taylor's theorem with the acceleration bounded. -/
theorem taylor_le {Z Zd Zdd : ℝ → ℝ} {K : ℝ} (hZ : ∀ s, HasDerivAt Z (Zd s) s) (hZd : ∀ s, HasDerivAt Zd (Zdd s) s)
    (hK : ∀ s, |Zdd s| ≤ K) (t s : ℝ) : |Z s - (Z t + Zd t * (s - t))| ≤ K * (s - t) ^ 2 / 2 := by
  -- with sign `σ`, `K (s - t)² / 2 + σ (Z s - …)` is smallest at `s = t`
  have key : ∀ σ : ℝ, |σ| = 1 → 0 ≤ K * (s - t) ^ 2 / 2 + σ * (Z s - (Z t + Zd t * (s - t))) := by
    intro σ hσ
    set g : ℝ → ℝ := fun u => K * (u - t) ^ 2 / 2 + σ * (Z u - (Z t + Zd t * (u - t))) with hg
    have hd : ∀ u, HasDerivAt g (K * (u - t) + σ * (Zd u - Zd t)) u := by
      intro u
      have h1 : HasDerivAt (fun u => K * (u - t) ^ 2 / 2) (K * (u - t)) u := by
        have := ((((hasDerivAt_id u).sub_const t).pow 2).const_mul K).div_const 2
        refine this.congr_deriv ?_
        simp
        ring
      have h2 : HasDerivAt (fun u => σ * (Z u - (Z t + Zd t * (u - t)))) (σ * (Zd u - Zd t)) u := by
        have := ((hZ u).sub ((((hasDerivAt_id u).sub_const t).const_mul (Zd t)).const_add (Z t))).const_mul σ
        refine this.congr_deriv ?_
        simp
      exact h1.add h2
    have hb : ∀ u, |σ * (Zd u - Zd t)| ≤ K * |u - t| := by
      intro u
      rw [abs_mul, hσ, one_mul]
      exact abs_sub_le_of_deriv hZd hK u t
    have hg0 : g t = 0 := by simp [hg]
    have hcont : Continuous g := continuous_iff_continuousAt.2 fun u => (hd u).continuousAt
    change 0 ≤ g s
    rw [← hg0]
    rcases le_total t s with h | h
    · have hm : MonotoneOn g (Ici t) := monotoneOn_of_deriv_nonneg (convex_Ici t) hcont.continuousOn
        (fun u _ => (hd u).differentiableAt.differentiableWithinAt) (fun u hu => by
          rw [interior_Ici] at hu
          have hu : t < u := hu
          rw [(hd u).deriv]
          have := (abs_le.1 (hb u)).1
          rw [abs_of_pos (sub_pos.2 hu)] at this
          linarith)
      exact hm self_mem_Ici h h
    · have hm : AntitoneOn g (Iic t) := antitoneOn_of_deriv_nonpos (convex_Iic t) hcont.continuousOn
        (fun u _ => (hd u).differentiableAt.differentiableWithinAt) (fun u hu => by
          rw [interior_Iic] at hu
          have hu : u < t := hu
          rw [(hd u).deriv]
          have := (abs_le.1 (hb u)).2
          rw [abs_of_neg (sub_neg.2 hu)] at this
          linarith)
      exact hm h self_mem_Iic h
  have h1 := key 1 (by simp)
  have h2 := key (-1) (by simp)
  rw [abs_le]
  constructor <;> linarith

section
variable {Z Zd : ℝ → ℝ} {c V : ℝ} (hZ : ∀ s, HasDerivAt Z (Zd s) s) (hV : ∀ s, |Zd s| ≤ V) (hc : V < c)
include hZ hV hc

/-- The residual of the light-time equation controls the error of the emission time. -/
theorem residual_controls (t s u : ℝ) : (c - V) * |s - u| ≤ |(c * (t - s) + Z s) - (c * (t - u) + Z u)| := by
  have h := abs_sub_le_of_deriv hZ hV s u
  have h1 : c * |s - u| ≤ |(c * (t - s) + Z s) - (c * (t - u) + Z u)| + |Z s - Z u| := by
    have hV0 : 0 ≤ V := (abs_nonneg _).trans (hV 0)
    rw [← abs_of_pos (hV0.trans_lt hc), ← abs_mul, abs_of_pos (hV0.trans_lt hc)]
    have : c * (s - u) = -((c * (t - s) + Z s) - (c * (t - u) + Z u)) + (Z s - Z u) := by ring
    rw [this]
    refine (abs_add_le _ _).trans ?_
    rw [abs_neg]
  linarith

/-- There is exactly one emission time. -/
theorem emission_unique (t : ℝ) : ∃! s, c * (t - s) = -Z s := by
  have hcont : Continuous fun s => c * (t - s) + Z s := by
    have : Continuous Z := continuous_iff_continuousAt.2 fun u => (hZ u).continuousAt
    fun_prop
  have hcV : 0 < c - V := by linarith
  -- far away the residual has a sign
  set R := |Z t| / (c - V) with hR
  have hR0 : 0 ≤ R := by positivity
  have hRV : R * (c - V) = |Z t| := div_mul_cancel₀ _ hcV.ne'
  have h1 : 0 ≤ c * (t - (t - R)) + Z (t - R) := by
    have := (abs_le.1 (abs_sub_le_of_deriv hZ hV (t - R) t)).1
    rw [show t - R - t = -R by ring, abs_neg, abs_of_nonneg hR0] at this
    have := neg_abs_le (Z t)
    nlinarith
  have h2 : c * (t - (t + R)) + Z (t + R) ≤ 0 := by
    have := (abs_le.1 (abs_sub_le_of_deriv hZ hV (t + R) t)).2
    rw [show t + R - t = R by ring, abs_of_nonneg hR0] at this
    have := le_abs_self (Z t)
    nlinarith
  obtain ⟨s, -, hs⟩ := intermediate_value_Icc' (show t - R ≤ t + R by linarith) hcont.continuousOn ⟨h2, h1⟩
  refine ⟨s, by simp only at hs; linarith, fun u hu => ?_⟩
  have := residual_controls hZ hV hc t u s
  simp only at hs
  rw [hs, show c * (t - u) + Z u = 0 by linarith, sub_zero, abs_zero] at this
  have h0 : |u - s| ≤ 0 := by
    by_contra hn
    push Not at hn
    nlinarith
  exact sub_eq_zero.1 (abs_nonpos_iff.1 h0)

end

end Exo
