import Verif.Spec.Backprop
import Verif.Props.SimpleImpossible
import Verif.Props.Slopes
import Mathlib.Analysis.Calculus.ContDiff.Operations
import Mathlib.Analysis.Calculus.Deriv.Pi
import Mathlib.Analysis.SpecialFunctions.Complex.LogDeriv
import Mathlib.Analysis.SpecialFunctions.Trigonometric.InverseDeriv

/-!
# C118: gradients of light curves as the compiled graphs compute them
-/

namespace Exo
open Real Function Topology

/-! ## Helpers -/

theorem Fl.fin_floorDiv {x y : ℝ} (h : y ≠ 0) : Fl.floorDiv (.fin x) (.fin y) = .fin ⌊x / y⌋ := by simp [Fl.floorDiv, h]

theorem hasDerivAt_pymod {f g : ℝ → ℝ} {f' g' s : ℝ} (hf : HasDerivAt f f' s) (hg : HasDerivAt g g' s) (h0 : g s ≠ 0)
    (hm : ∀ m : ℤ, f s ≠ g s * m) : HasDerivAt (fun s => pymod (f s) (g s)) (f' - g' * ⌊f s / g s⌋) s := by
  have hc : ContinuousAt (fun s => f s / g s) s := hf.continuousAt.div hg.continuousAt h0
  have hlt : (⌊f s / g s⌋ : ℝ) < f s / g s := by
    refine lt_of_le_of_ne (Int.floor_le _) fun h => hm ⌊f s / g s⌋ ?_
    rw [h]; field_simp
  have he : ∀ᶠ r in nhds s, ⌊f r / g r⌋ = ⌊f s / g s⌋ := by
    filter_upwards [hc.eventually (lt_mem_nhds hlt), hc.eventually (gt_mem_nhds (Int.lt_floor_add_one _))] with r h1 h2
    exact Int.floor_eq_iff.2 ⟨h1.le, h2⟩
  refine (hf.sub (hg.mul_const (⌊f s / g s⌋ : ℝ))).congr_of_eventuallyEq ?_
  filter_upwards [he] with r hr
  simp [pymod, hr]

theorem hasDerivAt_arctan2 {f g : ℝ → ℝ} {f' g' s : ℝ} (hf : HasDerivAt f f' s) (hg : HasDerivAt g g' s) (h0 : 0 < g s ∨ f s ≠ 0) :
    HasDerivAt (fun s => Exo.arctan2 (f s) (g s)) ((f' * g s - f s * g') / (f s ^ 2 + g s ^ 2)) s := by
  have e : (fun y => (⟨g y, f y⟩ : ℂ)) = fun y => (g y : ℂ) + (f y : ℂ) * Complex.I := by
    funext y
    exact Complex.mk_eq_add_mul_I _ _
  have h1 : HasDerivAt (fun y => (⟨g y, f y⟩ : ℂ)) ((g' : ℂ) + (f' : ℂ) * Complex.I) s := by
    rw [e]
    exact hg.ofReal_comp.add (hf.ofReal_comp.mul_const _)
  have h2 := h1.clog_real (by rw [Complex.mem_slitPlane_iff]; exact h0)
  have h3 := (Complex.imCLM.hasFDerivAt (x := Complex.log ⟨g s, f s⟩)).comp_hasDerivAt s h2
  refine (h3.congr_of_eventuallyEq (Filter.Eventually.of_forall fun y => ?_)).congr_deriv ?_
  · simp [Exo.arctan2, Function.comp, Complex.log_im]
  · have hq : f s ^ 2 + g s ^ 2 ≠ 0 := by
      rcases h0 with h | h <;> positivity
    simp only [Complex.imCLM_apply, Complex.div_im, Complex.normSq_mk, Complex.add_re, Complex.add_im, Complex.ofReal_re, Complex.ofReal_im,
      Complex.mul_re, Complex.mul_im, Complex.I_re, Complex.I_im]
    rw [show g s * g s + f s * f s = f s ^ 2 + g s ^ 2 by ring]
    field_simp
    ring

/-- **C118 (what holds).** Going backwards through a graph in which no operation is at a singular point gives the true derivatives with respect
to all parameters. -/
theorem C118_backprop {ι : Type} [DecidableEq ι] (op : FlOp) (L : ℝ → ℝ → ℝ) (x : ι → ℝ) (G : Graph ι) (hG : G.Regular L op x) :
    G.value op (fun i => .fin (x i)) = .fin (G.real L x) ∧
      ∀ j, ∃ D, HasDerivAt (fun s => G.real L (update x j s)) D (x j) ∧ ∀ g : ℝ, G.back op (fun i => .fin (x i)) (.fin g) j = .fin (g * D) := by
  induction G with
  | input i =>
    refine ⟨rfl, fun j => ?_⟩
    by_cases h : i = j
    · subst h
      refine ⟨1, ?_, fun g => ?_⟩
      · simp only [Graph.real, update_self]; exact hasDerivAt_id _
      · simp [Graph.back]
    · refine ⟨0, ?_, fun g => ?_⟩
      · simp only [Graph.real, update_of_ne h]; exact hasDerivAt_const _ _
      · simp [Graph.back, h]
  | const c => exact ⟨rfl, fun j => ⟨0, hasDerivAt_const _ _, fun g => by simp [Graph.back]⟩⟩
  | add a b iha ihb =>
    obtain ⟨va, da⟩ := iha hG.1
    obtain ⟨vb, db⟩ := ihb hG.2
    refine ⟨by simp only [Graph.value, va, vb, Fl.fin_add]; rfl, fun j => ?_⟩
    obtain ⟨A, hA, gA⟩ := da j
    obtain ⟨B, hB, gB⟩ := db j
    refine ⟨A + B, hA.add hB, fun g => ?_⟩
    simp only [Graph.back, gA, gB, Fl.fin_add]
    ring_nf
  | sub a b iha ihb =>
    obtain ⟨va, da⟩ := iha hG.1
    obtain ⟨vb, db⟩ := ihb hG.2
    refine ⟨by simp only [Graph.value, va, vb, Fl.fin_sub]; rfl, fun j => ?_⟩
    obtain ⟨A, hA, gA⟩ := da j
    obtain ⟨B, hB, gB⟩ := db j
    refine ⟨A - B, hA.sub hB, fun g => ?_⟩
    simp only [Graph.back, gA, gB, Fl.fin_neg, Fl.fin_add]
    ring_nf
  | mul a b iha ihb =>
    obtain ⟨va, da⟩ := iha hG.1
    obtain ⟨vb, db⟩ := ihb hG.2
    refine ⟨by simp only [Graph.value, va, vb, Fl.fin_mul]; rfl, fun j => ?_⟩
    obtain ⟨A, hA, gA⟩ := da j
    obtain ⟨B, hB, gB⟩ := db j
    have h := hA.mul hB
    simp only [update_eq_self] at h
    refine ⟨_, h, fun g => ?_⟩
    simp only [Graph.back, va, vb, Fl.fin_mul, gA, gB, Fl.fin_add]
    ring_nf
  | div a b iha ihb =>
    obtain ⟨va, da⟩ := iha hG.1
    obtain ⟨vb, db⟩ := ihb hG.2.1
    have h0 := hG.2.2
    refine ⟨by simp only [Graph.value, va, vb, Fl.fin_div h0]; rfl, fun j => ?_⟩
    obtain ⟨A, hA, gA⟩ := da j
    obtain ⟨B, hB, gB⟩ := db j
    have h := hA.div hB (by simpa using h0)
    simp only [update_eq_self] at h
    refine ⟨_, h, fun g => ?_⟩
    simp only [Graph.back, va, vb, Fl.fin_mul, Fl.fin_neg, Fl.fin_div h0, Fl.fin_div (mul_ne_zero h0 h0), gA, gB, Fl.fin_add]
    congr 1
    field_simp
    ring
  | neg a iha =>
    obtain ⟨va, da⟩ := iha hG
    refine ⟨by simp only [Graph.value, va, Fl.fin_neg]; rfl, fun j => ?_⟩
    obtain ⟨A, hA, gA⟩ := da j
    refine ⟨-A, hA.neg, fun g => ?_⟩
    simp only [Graph.back, Fl.fin_neg, gA]
    ring_nf
  | pow a k iha =>
    obtain ⟨va, da⟩ := iha hG
    refine ⟨by simp only [Graph.value, va, Fl.fin_pow]; rfl, fun j => ?_⟩
    obtain ⟨A, hA, gA⟩ := da j
    have h := hA.pow k
    simp only [update_eq_self] at h
    refine ⟨_, h, fun g => ?_⟩
    simp only [Graph.back, va, Fl.fin_mul, Fl.fin_pow, gA]
    ring_nf
  | sin a iha =>
    obtain ⟨va, da⟩ := iha hG
    refine ⟨by simp only [Graph.value, va, Fl.sin_fin]; rfl, fun j => ?_⟩
    obtain ⟨A, hA, gA⟩ := da j
    have h := hA.sin
    simp only [update_eq_self] at h
    refine ⟨_, h, fun g => ?_⟩
    simp only [Graph.back, va, Fl.cos_fin, Fl.fin_mul, gA]
    ring_nf
  | cos a iha =>
    obtain ⟨va, da⟩ := iha hG
    refine ⟨by simp only [Graph.value, va, Fl.cos_fin]; rfl, fun j => ?_⟩
    obtain ⟨A, hA, gA⟩ := da j
    have h := hA.cos
    simp only [update_eq_self] at h
    refine ⟨_, h, fun g => ?_⟩
    simp only [Graph.back, va, Fl.sin_fin, Fl.fin_mul, Fl.fin_neg, gA]
    ring_nf
  | arccos a iha =>
    obtain ⟨va, da⟩ := iha hG.1
    have h0 := hG.2
    refine ⟨by simp only [Graph.value, va, Fl.arccos_fin h0.le]; rfl, fun j => ?_⟩
    obtain ⟨A, hA, gA⟩ := da j
    have h1 := abs_lt.1 h0
    have hpos : 0 < 1 - a.real L x ^ 2 := by nlinarith [h1.1, h1.2]
    have h2 : HasDerivAt Real.arccos (-(1 / √(1 - a.real L x ^ 2))) (a.real L (update x j (x j))) := by
      simpa using hasDerivAt_arccos h1.1.ne' h1.2.ne
    refine ⟨_, h2.comp (x j) hA, fun g => ?_⟩
    have hs := (sqrt_pos.2 hpos).ne'
    simp only [Graph.back, va, Fl.fin_pow, Fl.fin_neg, Fl.fin_sub, Fl.sqrt_fin hpos.le, Fl.fin_div hs, gA]
    congr 1
    field_simp
  | arctan2 a b iha ihb =>
    obtain ⟨va, da⟩ := iha hG.1
    obtain ⟨vb, db⟩ := ihb hG.2.1
    have h0 := hG.2.2
    refine ⟨by simp only [Graph.value, va, vb, Fl.arctan2_fin]; rfl, fun j => ?_⟩
    obtain ⟨A, hA, gA⟩ := da j
    obtain ⟨B, hB, gB⟩ := db j
    have h := hasDerivAt_arctan2 hA hB (by simpa using h0)
    simp only [update_eq_self] at h
    refine ⟨_, h, fun g => ?_⟩
    have hq : a.real L x ^ 2 + b.real L x ^ 2 ≠ 0 := by
      rcases h0 with h | h <;> positivity
    simp only [Graph.back, va, vb, Fl.fin_pow, Fl.fin_neg, Fl.fin_add, Fl.fin_mul, Fl.fin_div hq, gA, gB]
    congr 1
    field_simp
    ring
  | keplerSin a b iha ihb =>
    obtain ⟨va, da⟩ := iha hG.1
    obtain ⟨vb, db⟩ := ihb hG.2.1
    obtain ⟨hv, eb, ek, hd, hg⟩ := hG.2.2
    refine ⟨by simp only [Graph.value, va, vb]; exact hv, fun j => ?_⟩
    obtain ⟨A, hA, gA⟩ := da j
    obtain ⟨B, hB, gB⟩ := db j
    have hd' : HasFDerivAt (fun q : ℝ × ℝ => (keplerOp q.1 q.2).1) (eb • ContinuousLinearMap.fst ℝ ℝ ℝ + ek • ContinuousLinearMap.snd ℝ ℝ ℝ)
        (a.real L (update x j (x j)), b.real L (update x j (x j))) := by simpa using hd
    have h := hd'.comp_hasDerivAt (x j) (hA.prodMk hB)
    refine ⟨_, h, fun g => ?_⟩
    simp only [Graph.back, va, vb, hg g, gA, gB, Fl.fin_add]
    congr 1
    simp
    ring
  | keplerCos a b iha ihb =>
    obtain ⟨va, da⟩ := iha hG.1
    obtain ⟨vb, db⟩ := ihb hG.2.1
    obtain ⟨hv, eb, ek, hd, hg⟩ := hG.2.2
    refine ⟨by simp only [Graph.value, va, vb]; exact hv, fun j => ?_⟩
    obtain ⟨A, hA, gA⟩ := da j
    obtain ⟨B, hB, gB⟩ := db j
    have hd' : HasFDerivAt (fun q : ℝ × ℝ => (keplerOp q.1 q.2).2) (eb • ContinuousLinearMap.fst ℝ ℝ ℝ + ek • ContinuousLinearMap.snd ℝ ℝ ℝ)
        (a.real L (update x j (x j)), b.real L (update x j (x j))) := by simpa using hd
    have h := hd'.comp_hasDerivAt (x j) (hA.prodMk hB)
    refine ⟨_, h, fun g => ?_⟩
    simp only [Graph.back, va, vb, hg g, gA, gB, Fl.fin_add]
    congr 1
    simp
    ring
  | solution i a b iha ihb =>
    obtain ⟨va, da⟩ := iha hG.1
    obtain ⟨vb, db⟩ := ihb hG.2.1
    obtain ⟨hv, eb, ek, hd, hg⟩ := hG.2.2
    refine ⟨by simp only [Graph.value, va, vb]; exact hv, fun j => ?_⟩
    obtain ⟨A, hA, gA⟩ := da j
    obtain ⟨B, hB, gB⟩ := db j
    have hd' : HasFDerivAt (fun q : ℝ × ℝ => solutionEntry i q.1 q.2) (eb • ContinuousLinearMap.fst ℝ ℝ ℝ + ek • ContinuousLinearMap.snd ℝ ℝ ℝ)
        (a.real L (update x j (x j)), b.real L (update x j (x j))) := by simpa using hd
    have h := hd'.comp_hasDerivAt (x j) (hA.prodMk hB)
    refine ⟨_, h, fun g => ?_⟩
    simp only [Graph.back, va, vb, hg g, gA, gB, Fl.fin_add]
    congr 1
    simp
    ring
  | ifSmall a c b d iha ihb ihd =>
    obtain ⟨va, da⟩ := iha hG.1
    obtain ⟨vb, db⟩ := ihb hG.2.1
    obtain ⟨vd, dd⟩ := ihd hG.2.2.1
    have h0 := hG.2.2.2
    refine ⟨?_, fun j => ?_⟩
    · simp only [Graph.value, va, vb, vd, Fl.abs, Fl.gt, decide_eq_true_eq, Graph.real]
      split_ifs <;> rfl
    · obtain ⟨A, hA, -⟩ := da j
      obtain ⟨B, hB, gB⟩ := db j
      obtain ⟨E, hE, gE⟩ := dd j
      simp only [Graph.back, va, Fl.abs, Fl.gt, decide_eq_true_eq]
      rcases lt_or_gt_of_ne h0 with h | h
      · refine ⟨B, hB.congr_of_eventuallyEq ?_, fun g => ?_⟩
        · have := (hA.continuousAt.abs).eventually_lt continuousAt_const (by simpa using h)
          filter_upwards [this] with s hs
          simp only [Graph.real, if_pos hs]
        · rw [if_pos h, if_pos h, gB, gE]; simp
      · refine ⟨E, hE.congr_of_eventuallyEq ?_, fun g => ?_⟩
        · have := continuousAt_const.eventually_lt (hA.continuousAt.abs) (by simpa using h)
          filter_upwards [this] with s hs
          simp only [Graph.real, if_neg (not_lt.2 (le_of_lt hs))]
        · rw [if_neg (not_lt.2 h.le), if_neg (not_lt.2 h.le), gB, gE]; simp
  | powr a c iha =>
    obtain ⟨va, da⟩ := iha hG.1
    have h0 := hG.2
    refine ⟨by simp only [Graph.value, va, Fl.powr_fin c h0.le]; rfl, fun j => ?_⟩
    obtain ⟨A, hA, gA⟩ := da j
    have h := hA.rpow_const (p := c) (Or.inl (by simpa using h0.ne'))
    simp only [update_eq_self] at h
    refine ⟨_, h, fun g => ?_⟩
    simp only [Graph.back, va, Fl.powr_fin (c - 1) h0.le, Fl.fin_mul, gA]
    congr 1
    ring
  | log a iha =>
    obtain ⟨va, da⟩ := iha hG.1
    have h0 := hG.2
    refine ⟨by simp only [Graph.value, va, Fl.log, if_neg (not_lt.2 h0.le), if_neg h0.ne']; rfl, fun j => ?_⟩
    obtain ⟨A, hA, gA⟩ := da j
    have h := hA.log (by simpa using h0.ne')
    simp only [update_eq_self] at h
    refine ⟨_, h, fun g => ?_⟩
    simp only [Graph.back, va, Fl.fin_div h0.ne', gA]
    congr 1
    field_simp
  | exp a iha =>
    obtain ⟨va, da⟩ := iha hG
    refine ⟨by simp only [Graph.value, va, Fl.exp]; rfl, fun j => ?_⟩
    obtain ⟨A, hA, gA⟩ := da j
    have h := hA.exp
    simp only [update_eq_self] at h
    refine ⟨_, h, fun g => ?_⟩
    simp only [Graph.back, va, Fl.exp, Fl.fin_mul, gA]
    congr 1
    ring
  | sqrt a iha =>
    obtain ⟨va, da⟩ := iha hG.1
    have h0 := hG.2
    refine ⟨by simp only [Graph.value, va, Fl.sqrt_fin h0.le]; rfl, fun j => ?_⟩
    obtain ⟨A, hA, gA⟩ := da j
    have h := hA.sqrt (by simpa using h0.ne')
    simp only [update_eq_self] at h
    refine ⟨_, h, fun g => ?_⟩
    have hs := (sqrt_pos.2 h0).ne'
    simp only [Graph.back, va, Fl.sqrt_fin h0.le, Fl.fin_mul, Fl.fin_div hs, gA]
    congr 1
    field_simp
    ring
  | mod a b iha ihb =>
    obtain ⟨va, da⟩ := iha hG.1
    obtain ⟨vb, db⟩ := ihb hG.2.1
    have h0 := hG.2.2.1
    refine ⟨by simp only [Graph.value, va, vb, Fl.mod, if_neg h0]; rfl, fun j => ?_⟩
    obtain ⟨A, hA, gA⟩ := da j
    obtain ⟨B, hB, gB⟩ := db j
    have h := hasDerivAt_pymod hA hB (by simpa using h0) (by simpa using hG.2.2.2)
    simp only [update_eq_self] at h
    refine ⟨_, h, fun g => ?_⟩
    simp only [Graph.back, va, vb, Fl.fin_floorDiv h0, Fl.fin_mul, Fl.fin_neg, gA, gB, Fl.fin_add]
    ring_nf
  | side a b iha ihb =>
    obtain ⟨va, da⟩ := iha hG.1
    obtain ⟨vb, db⟩ := ihb hG.2.1
    have h0 := hG.2.2
    refine ⟨?_, fun j => ⟨0, ?_, fun g => by simp [Graph.back]⟩⟩
    · simp only [Graph.value, va, vb, Fl.abs, Fl.gt, decide_eq_true_eq, Graph.real]
      split_ifs <;> rfl
    · obtain ⟨A, hA, -⟩ := da j
      obtain ⟨B, hB, -⟩ := db j
      refine (hasDerivAt_const (x j) ((Graph.side a b).real L x)).congr_of_eventuallyEq ?_
      rcases lt_or_gt_of_ne h0 with h | h
      · have := (hA.continuousAt.abs).eventually_lt hB.continuousAt (by simpa using h)
        filter_upwards [this] with s hs
        simp only [Graph.real, if_pos hs, if_pos h]
      · have := hB.continuousAt.eventually_lt (hA.continuousAt.abs) (by simpa using h)
        filter_upwards [this] with s hs
        simp only [Graph.real, if_neg (not_lt.2 (le_of_lt hs)), if_neg (not_lt.2 h.le)]
  | switch a b iha ihb =>
    obtain ⟨va, da⟩ := iha hG.1
    obtain ⟨vb, db⟩ := ihb hG.2.1
    have h0 := hG.2.2
    refine ⟨?_, fun j => ?_⟩
    · simp only [Graph.value, va, vb, Fl.gt, decide_eq_true_eq, Graph.real]
      split_ifs <;> rfl
    · obtain ⟨A, hA, -⟩ := da j
      obtain ⟨B, hB, gB⟩ := db j
      simp only [Graph.back, va, Fl.gt, decide_eq_true_eq]
      rcases h0 with h0 | h0
      swap
      · have hv := h0 j (update x j) (fun s i hi => update_of_ne hi _ _) fun s => update_self _ _ _
        have hB0 : B = 0 := hB.unique ((hasDerivAt_const (x j) (0 : ℝ)).congr_of_eventuallyEq hv)
        refine ⟨0, (hasDerivAt_const (x j) (0 : ℝ)).congr_of_eventuallyEq ?_, fun g => ?_⟩
        · filter_upwards [hv] with s hs
          simp only [Graph.real, hs, ite_self]
        · split_ifs <;> simp [gB, hB0]
      rcases lt_or_gt_of_ne h0 with h | h
      · refine ⟨0, (hasDerivAt_const (x j) (0 : ℝ)).congr_of_eventuallyEq ?_, fun g => ?_⟩
        · have := hA.continuousAt.eventually_lt continuousAt_const (by simpa using h)
          filter_upwards [this] with s hs
          simp only [Graph.real, if_neg (not_lt.2 (le_of_lt hs))]
        · rw [if_neg (not_lt.2 h.le), gB]; simp
      · refine ⟨B, hB.congr_of_eventuallyEq ?_, fun g => ?_⟩
        · have := continuousAt_const.eventually_lt hA.continuousAt (by simpa using h)
          filter_upwards [this] with s hs
          simp only [Graph.real, if_pos hs]
        · rw [if_pos h, gB]
  | limbDark a b iha ihb =>
    obtain ⟨va, da⟩ := iha hG.1
    obtain ⟨vb, db⟩ := ihb hG.2.1
    obtain ⟨hv, eb, ek, hd, hg⟩ := hG.2.2
    refine ⟨by simp only [Graph.value, va, vb, hv]; rfl, fun j => ?_⟩
    obtain ⟨A, hA, gA⟩ := da j
    obtain ⟨B, hB, gB⟩ := db j
    have hd' : HasFDerivAt (fun q : ℝ × ℝ => L q.1 q.2) (eb • ContinuousLinearMap.fst ℝ ℝ ℝ + ek • ContinuousLinearMap.snd ℝ ℝ ℝ)
        (a.real L (update x j (x j)), b.real L (update x j (x j))) := by simpa using hd
    have h := hd'.comp_hasDerivAt (x j) (hA.prodMk hB)
    refine ⟨_, h, fun g => ?_⟩
    simp only [Graph.back, va, vb, (hg g).1, (hg g).2, gA, gB, Fl.fin_add]
    congr 1
    simp
    ring
  | @pick k l edges values a ihe ihv iha =>
    obtain ⟨he, hv, ha, hkl, hne⟩ := hG
    obtain ⟨va, da⟩ := iha ha
    have ve := fun i => (ihe i (he i)).1
    have de := fun i => (ihe i (he i)).2
    have vv := fun i => (ihv i (hv i)).1
    have dv := fun i => (ihv i (hv i)).2
    have hn : ((List.finRange k).filter fun i => decide ((edges i).real L x < a.real L x)).length < l :=
      ((List.length_filter_le _ _).trans (by simp)).trans_lt hkl
    have hfil : ((List.finRange k).filter fun i => (a.value op fun i => .fin (x i)).gt ((edges i).value op fun i => .fin (x i))) =
        (List.finRange k).filter fun i => decide ((edges i).real L x < a.real L x) :=
      List.filter_congr fun i _ => by rw [va, ve i]; rfl
    refine ⟨?_, fun j => ?_⟩
    · simp only [Graph.value, hfil, Graph.real, dif_pos hn, vv]
    · choose D hD gD using fun i => dv i j
      obtain ⟨A, hA, -⟩ := da j
      refine ⟨D ⟨_, hn⟩, (hD ⟨_, hn⟩).congr_of_eventuallyEq ?_, fun g => ?_⟩
      · have hloc : ∀ᶠ s in 𝓝 (x j), ∀ i, ((edges i).real L (update x j s) < a.real L (update x j s) ↔ (edges i).real L x < a.real L x) := by
          refine Filter.eventually_all.2 fun i => ?_
          obtain ⟨E, hE, -⟩ := de i j
          rcases lt_or_gt_of_ne (hne i) with h | h
          · filter_upwards [hE.continuousAt.eventually_lt hA.continuousAt (by simpa using h)] with s hs
            exact ⟨fun _ => h, fun _ => hs⟩
          · filter_upwards [hA.continuousAt.eventually_lt hE.continuousAt (by simpa using h)] with s hs
            exact ⟨fun h' => absurd h' hs.not_gt, fun h' => absurd h' h.not_gt⟩
        filter_upwards [hloc] with s hs
        simp only [Graph.real, hs, dif_pos hn]
      · simp only [Graph.back, hfil]
        have : ((List.finRange l).map fun i => (values i).back op (fun i => .fin (x i))
            (if (i : ℕ) = ((List.finRange k).filter fun i => decide ((edges i).real L x < a.real L x)).length then .fin g else .fin 0) j) =
            ((List.finRange l).map fun i => if i = ⟨_, hn⟩ then g * D ⟨_, hn⟩ else 0).map Fl.fin := by
          rw [List.map_map]
          refine List.map_congr_left fun i _ => ?_
          by_cases hi : i = ⟨_, hn⟩
          · subst hi; simp [gD]
          · have hi' : (i : ℕ) ≠ ((List.finRange k).filter fun i => decide ((edges i).real L x < a.real L x)).length := fun h => hi (Fin.ext h)
            simp [hi, hi', gD]
        rw [this, Fl.sum_fin]
        congr 1
        rw [← Fin.sum_univ_def]
        simp
  | overwritten a b _ _ => exact hG.elim
  | @index l values a ihv iha =>
    obtain ⟨hv, ha, h0, h1, hne⟩ := hG
    obtain ⟨va, da⟩ := iha ha
    have vv := fun i => (ihv i (hv i)).1
    have dv := fun i => (ihv i (hv i)).2
    have hf0 : 0 ≤ ⌊a.real L x⌋ := Int.floor_nonneg.2 h0.le
    have hn : ⌊a.real L x⌋.toNat < l := by
      have : ⌊a.real L x⌋ < (l : ℤ) := Int.floor_lt.2 (by exact_mod_cast h1)
      omega
    have hidx : (a.value op fun i => .fin (x i)).toIndex = some ⌊a.real L x⌋.toNat := by
      rw [va]; simp [Fl.toIndex, h0.le]
    refine ⟨?_, fun j => ?_⟩
    · simp only [Graph.value, hidx, Graph.real, dif_pos hn, dif_pos (And.intro h0.le hn), vv]
    · choose D hD gD using fun i => dv i j
      obtain ⟨A, hA, -⟩ := da j
      refine ⟨D ⟨_, hn⟩, (hD ⟨_, hn⟩).congr_of_eventuallyEq ?_, fun g => ?_⟩
      · have l1 : (⌊a.real L x⌋ : ℝ) < a.real L x := lt_of_le_of_ne (Int.floor_le _) (hne _).symm
        have c1 := continuousAt_const.eventually_lt hA.continuousAt (show (⌊a.real L x⌋ : ℝ) < _ by simpa using l1)
        have c2 := hA.continuousAt.eventually_lt continuousAt_const (show _ < (⌊a.real L x⌋ : ℝ) + 1 by simpa using Int.lt_floor_add_one (a.real L x))
        filter_upwards [c1, c2] with s h2 h3
        have hs : ⌊a.real L (update x j s)⌋ = ⌊a.real L x⌋ := Int.floor_eq_iff.2 ⟨h2.le, h3⟩
        have hs0 : 0 ≤ a.real L (update x j s) := le_trans (by exact_mod_cast hf0) h2.le
        simp only [Graph.real, hs, dif_pos (And.intro hs0 hn)]
      · simp only [Graph.back, hidx]
        have : ((List.finRange l).map fun i => (values i).back op (fun i => .fin (x i))
            (if some ⌊a.real L x⌋.toNat = some (i : ℕ) then .fin g else .fin 0) j) =
            ((List.finRange l).map fun i => if i = ⟨_, hn⟩ then g * D ⟨_, hn⟩ else 0).map Fl.fin := by
          rw [List.map_map]
          refine List.map_congr_left fun i _ => ?_
          by_cases hi : i = ⟨_, hn⟩
          · subst hi; simp [gD]
          · have hi' : ¬some ⌊a.real L x⌋.toNat = some (i : ℕ) := fun h => hi (Fin.ext (Option.some.inj h).symm)
            simp [hi, hi', gD]
        rw [this, Fl.sum_fin]
        congr 1
        rw [← Fin.sum_univ_def]
        simp

section
variable {u1 u2 : ℝ} {q : SimplePar → ℝ}

theorem simpleGraph_real (hR : 0 ≤ q .r_star) (t : ℝ) :
    (simpleGraph t).real (quadLimbdarkLightCurve (getCl u1 u2)) q = simpleFlux u1 u2 q t := by
  have hw : pymod (t - (q .t0 - 0.5 * q .period)) (q .period) - 0.5 * q .period = wrap (t - q .t0) (q .period) := by
    unfold wrap
    rw [show t - (q .t0 - 0.5 * q .period) = t - q .t0 + 0.5 * q .period by ring]
  simp only [simpleGraph, fluxGraph, speedGraph, dtGraph, halfGraph, Graph.real, hw, simpleFlux, fluxAt, simpleChord, computeLightCurve,
    Option.getD_some, gt_iff_lt, add_zero, show (0.5 : ℝ) * q .duration = q .duration / 2 by ring]
  rw [sqrt_mul (sq_nonneg _), sqrt_sq hR]

/-- **C118 (what holds).** With exact operations the light curve of a `SimpleTransitOrbit` and its computed derivatives with respect to all parameters are the
true ones, unless the planet is exactly in front of the centre of the star, at the beginning or end of the transit, or halfway between two transits. -/
theorem C118_simple_partial (hl : PhysicalLaw u1 u2) (op : FlOp) (hop : op.Exact u1 u2) (hq : SimplePossible q) (t : ℝ)
    (hc : q .b ≠ 0 ∨ wrap (t - q .t0) (q .period) ≠ 0) (he : |wrap (t - q .t0) (q .period)| ≠ q .duration / 2)
    (hm : ∀ m : ℤ, t - q .t0 ≠ (m + 1 / 2) * q .period) :
    (simpleGraph t).value op (fun i => .fin (q i)) = .fin (simpleFlux u1 u2 q t) ∧
      ∀ j, ∃ D, HasDerivAt (fun s => simpleFlux u1 u2 (update q j s) t) D (q j) ∧
        ∀ g : ℝ, (simpleGraph t).back op (fun i => .fin (q i)) (.fin g) j = .fin (g * D) := by
  have hP := hq.period
  have hd := hq.duration
  have hR := hq.r_star
  have hw : pymod (t - (q .t0 - 0.5 * q .period)) (q .period) - 0.5 * q .period = wrap (t - q .t0) (q .period) := by
    unfold wrap
    rw [show t - (q .t0 - 0.5 * q .period) = t - q .t0 + 0.5 * q .period by ring]
  have hx2 : 0 < q .r_star ^ 2 * ((1 + q .ror) ^ 2 - q .b ^ 2) := by
    have := sq_lt_sq' (by linarith [(abs_lt.1 hq.b).1]) (abs_lt.1 hq.b).2
    exact mul_pos (by positivity) (by linarith)
  have hv : 0 < 2 * √(q .r_star ^ 2 * ((1 + q .ror) ^ 2 - q .b ^ 2)) / q .duration := by
    have := sqrt_pos.2 hx2
    positivity
  have hdt : (dtGraph t).Regular (quadLimbdarkLightCurve (getCl u1 u2)) op q := by
    refine ⟨⟨⟨trivial, trivial, trivial, trivial⟩, trivial, hP.ne', fun m h => hm (m - 1) ?_⟩, trivial, trivial⟩
    simp only [halfGraph, Graph.real] at h
    push_cast
    linarith
  have hsep : 0 < (2 * √(q .r_star ^ 2 * ((1 + q .ror) ^ 2 - q .b ^ 2)) / q .duration * wrap (t - q .t0) (q .period)) ^ 2 +
      (q .b * q .r_star + 0) ^ 2 := by
    rcases hc with h | h
    · have : 0 < (q .b * q .r_star + 0) ^ 2 := by
        rw [add_zero]; have := mul_ne_zero h hR.ne'; positivity
      positivity
    · have := mul_ne_zero hv.ne' h
      positivity
  have hreg : (simpleGraph t).Regular (quadLimbdarkLightCurve (getCl u1 u2)) op q := by
    have hs : speedGraph.Regular (quadLimbdarkLightCurve (getCl u1 u2)) op q :=
      ⟨⟨trivial, ⟨trivial, ⟨trivial, trivial⟩, trivial⟩, hx2⟩, trivial, hd.ne'⟩
    refine ⟨⟨⟨hdt, ⟨trivial, trivial⟩, ?_⟩, trivial, hR.ne'⟩, ⟨⟨⟨⟨⟨hs, hdt⟩, ⟨trivial, trivial⟩, trivial⟩, ?_⟩, trivial, hR.ne'⟩,
      ⟨trivial, trivial, hR.ne'⟩, ?_⟩, ?_⟩
    · simp only [dtGraph, halfGraph, Graph.real, hw]
      rwa [show (0.5 : ℝ) * q .duration = q .duration / 2 by ring]
    · simpa only [dtGraph, halfGraph, speedGraph, Graph.real, hw] using hsep
    · simp only [dtGraph, halfGraph, speedGraph, Graph.real, hw]
      refine ⟨hop.value _ _, ?_⟩
      have hb := div_pos (sqrt_pos.2 hsep) hR
      have hk := div_pos hq.r hR
      have h := (C106_gradient hl hk (fun h => hb.ne' h.1) one_pos).hasFDerivAt
      refine ⟨_, _, ?_, fun g => hop.back g _ _ hb hk⟩
      convert h using 1
      · funext q; simp [computeLightCurve]
      · ext <;> simp
    · simp only [Graph.real]
      refine Or.inl (div_ne_zero ?_ hR.ne')
      have : ∀ (p : Prop) [Decidable p], (if p then (1 : ℝ) else -1) ≠ 0 := fun p _ => by split_ifs <;> norm_num
      exact this _
  obtain ⟨h1, h2⟩ := C118_backprop op _ q _ hreg
  rw [simpleGraph_real hR.le] at h1
  refine ⟨h1, fun j => ?_⟩
  obtain ⟨D, hD, hg⟩ := h2 j
  refine ⟨D, hD.congr_of_eventuallyEq ?_, hg⟩
  have hc : ContinuousAt (fun s => update q j s .r_star) (q j) := by
    by_cases h : SimplePar.r_star = j
    · subst h; simp only [update_self]; exact continuousAt_id
    · simp only [update_of_ne h]; exact continuousAt_const
  filter_upwards [hc.eventually (lt_mem_nhds (show 0 < update q j (q j) .r_star by simpa using hR))] with s hs
  rw [simpleGraph_real hs.le]

/-- **C118 (the graph is that of the rest of the model).** The value of the graph is the flux of the model with NaN and infinities (C116), whatever the parameters. -/
theorem C118_graph (op : FlOp) (q : SimplePar → ℝ) (t : ℝ) :
    (simpleGraph t).value op (fun i => .fin (q i)) =
      fluxF op.value (simpleInitF (q .period) (q .duration) (q .t0) (q .b) (q .r_star) (q .ror)).r_star
        (simpleInitF (q .period) (q .duration) (q .t0) (q .b) (q .r_star) (q .ror)).relativePosition (q .r) t := by
  rfl

theorem nan_of_zero (w : Fl) : (w * .fin 0.5 / .fin 0) * (.fin (2 : ℕ) * .fin 0 ^ (2 - 1)) = .nan := by
  have h' : ∀ w : Fl, (w / .fin 0) = .nan ∨ ∃ s, (w / .fin 0) = .inf s := by
    intro w
    cases w with
    | fin x =>
      by_cases hx : x = 0
      · left; show Fl.div _ _ = _; simp [Fl.div, hx]
      · right; exact ⟨_, by show Fl.div _ _ = _; simp [Fl.div, hx]; rfl⟩
    | inf s => right; exact ⟨_, rfl⟩
    | nan => left; rfl
  rcases h' (w * .fin 0.5) with h1 | ⟨s, h1⟩
  · rw [h1, Fl.nan_mul]
  · rw [h1, Fl.fin_pow, Fl.fin_mul, show (2 - 1 : ℕ) = 1 from rfl, pow_one, mul_zero]
    show Fl.mul _ _ = _
    simp [Fl.mul]

theorem wrap_centre {P : ℝ} (hP : 0 < P) (m : ℤ) : wrap (m * P) P = 0 :=
  wrap_eq hP (by linarith) (by linarith) m (by ring)

/-- **C118 (what the code does).** At the middle of a central transit (`b = 0`, the default) the computed derivatives with respect to
period, duration, `t0`, `b`, `r_star` and `ror` are NaN, whatever the compiled operation and its derivatives, and whatever is computed from the light curve
afterwards (even with weight zero). -/
theorem C118_centre (op : FlOp) (hP : 0 < q .period) (hd : 0 < q .duration) (hb : q .b = 0) (m : ℤ) (g : Fl) {j : SimplePar} (hj : j ≠ .r) :
    (simpleGraph (q .t0 + m * q .period)).back op (fun i => .fin (q i)) g j = .nan := by
  have hw : pymod (q .t0 + m * q .period - (q .t0 - 0.5 * q .period)) (q .period) - 0.5 * q .period = 0 := by
    have := wrap_centre hP m
    unfold wrap at this
    rwa [show q .t0 + m * q .period - (q .t0 - 0.5 * q .period) = m * q .period + 0.5 * q .period by ring]
  have hdt : (dtGraph (q .t0 + m * q .period)).value op (fun i => .fin (q i)) = .fin 0 := by
    simp only [dtGraph, halfGraph, Graph.value, Fl.fin_sub, Fl.fin_mul, Fl.mod, if_neg hP.ne', hw]
  have hx2 : 0 ≤ q .r_star ^ 2 * ((1 + q .ror) ^ 2 - q .b ^ 2) := by
    rw [hb]; exact mul_nonneg (sq_nonneg _) (by nlinarith [sq_nonneg (1 + q .ror)])
  have hx : (Graph.mul speedGraph (dtGraph (q .t0 + m * q .period))).value op (fun i => .fin (q i)) = .fin 0 := by
    simp only [Graph.value, hdt]
    simp only [speedGraph, Graph.value, Fl.fin_pow, Fl.fin_add, Fl.fin_sub, Fl.fin_mul, Fl.sqrt_fin hx2, Fl.fin_div hd.ne', mul_zero]
  have hy : (Graph.add (.mul (.input SimplePar.b) (.input .r_star)) (.const 0)).value op (fun i => .fin (q i)) = .fin 0 := by
    simp [Graph.value, hb]
  have key : (Graph.mul speedGraph (dtGraph (q .t0 + m * q .period))).back op (fun i => .fin (q i)) .nan j = .nan := by
    cases j <;> simp [Graph.back, speedGraph, dtGraph, halfGraph] at hj ⊢
  have hs : ((Fl.fin 0 ^ 2 + Fl.fin 0 ^ 2 : Fl)).sqrt = .fin 0 := by
    simp [Fl.sqrt]
  generalize hX : Graph.mul speedGraph (dtGraph (q .t0 + m * q .period)) = X at *
  generalize hY : Graph.add (.mul (.input SimplePar.b) (.input .r_star)) (.const 0) = Y at *
  simp only [simpleGraph, hX, hY, fluxGraph, Graph.back, Graph.value, hx, hy, hs]
  rw [nan_of_zero, key]
  simp

theorem par_contDiffAt (i : SimplePar) (q : SimplePar → ℝ) : ContDiffAt ℝ 1 (fun q : SimplePar → ℝ => q i) q := contDiffAt_apply ℝ ℝ i q

theorem wrap_contDiffAt (hP : 0 < q .period) {t : ℝ} (hm : ∀ m : ℤ, t - q .t0 ≠ (m + 1 / 2) * q .period) :
    ContDiffAt ℝ 1 (fun q : SimplePar → ℝ => wrap (t - q .t0) (q .period)) q := by
  obtain ⟨n, hn⟩ : ∃ n : ℤ, n = ⌊(t - q .t0 + 0.5 * q .period) / q .period⌋ := ⟨_, rfl⟩
  have hcq : ContinuousAt (fun q : SimplePar → ℝ => (t - q .t0 + 0.5 * q .period) / q .period) q := by
    refine ContinuousAt.div ?_ (par_contDiffAt .period q).continuousAt hP.ne'
    exact (continuousAt_const.sub (par_contDiffAt .t0 q).continuousAt).add (continuousAt_const.mul (par_contDiffAt .period q).continuousAt)
  have hlt : (n : ℝ) < (t - q .t0 + 0.5 * q .period) / q .period := by
    rw [hn]
    refine lt_of_le_of_ne (Int.floor_le _) fun h => hm (⌊(t - q .t0 + 0.5 * q .period) / q .period⌋ - 1) ?_
    rw [eq_div_iff hP.ne'] at h
    push_cast
    linarith
  have hev : ∀ᶠ y : SimplePar → ℝ in 𝓝 q, wrap (t - y .t0) (y .period) = t - y .t0 - y .period * n := by
    filter_upwards [hcq.eventually (lt_mem_nhds hlt), hcq.eventually (gt_mem_nhds (Int.lt_floor_add_one _))] with y h1 h2
    have : ⌊(t - y .t0 + 0.5 * y .period) / y .period⌋ = n := Int.floor_eq_iff.2 ⟨h1.le, by rw [hn]; exact h2⟩
    simp only [wrap, pymod, this]
    ring
  exact ((contDiffAt_const.sub (par_contDiffAt .t0 q)).sub ((par_contDiffAt .period q).mul contDiffAt_const)).congr_of_eventuallyEq hev

theorem simpleChord_z_ne (v P d t0 b R t : ℝ) : (simpleChord v P d t0 b R t).z ≠ 0 := by
  unfold simpleChord
  dsimp only
  split_ifs <;> norm_num

/-- **C118 (the true gradient).** The flux is continuously differentiable in all parameters together, also at the middle of a central transit, unless the planet
is as large as the star there. -/
theorem C118_differentiable (hl : PhysicalLaw u1 u2) (hq : SimplePossible q) (t : ℝ)
    (hc : ¬(q .b = 0 ∧ wrap (t - q .t0) (q .period) = 0 ∧ q .r = q .r_star)) (he : |wrap (t - q .t0) (q .period)| ≠ q .duration / 2)
    (hm : ∀ m : ℤ, t - q .t0 ≠ (m + 1 / 2) * q .period) : ContDiffAt ℝ 1 (fun q => simpleFlux u1 u2 q t) q := by
  have hp := par_contDiffAt
  have hP := hq.period
  have hd := hq.duration
  have hR := hq.r_star
  have hX : 0 < (1 + q .ror) ^ 2 - q .b ^ 2 := by
    have := sq_lt_sq' (by linarith [(abs_lt.1 hq.b).1]) (abs_lt.1 hq.b).2
    linarith
  have hwc := wrap_contDiffAt hP hm
  have hX' : ContDiffAt ℝ 1 (fun q : SimplePar → ℝ => (1 + q .ror) ^ 2 - q .b ^ 2) q :=
    ((contDiffAt_const.add (hp .ror q)).pow 2).sub ((hp .b q).pow 2)
  have hv : ContDiffAt ℝ 1 (fun q : SimplePar → ℝ => 2 * (q .r_star * √((1 + q .ror) ^ 2 - q .b ^ 2)) / q .duration) q :=
    ContDiffAt.div (contDiffAt_const.mul ((hp .r_star q).mul (hX'.sqrt hX.ne'))) (hp .duration q) hd.ne'
  unfold simpleFlux
  refine fluxAt_contDiffAt (E := SimplePar → ℝ) (q := q) (v := fun q : SimplePar → ℝ => simpleChord (2 * (q .r_star * √((1 + q .ror) ^ 2 - q .b ^ 2)) / q .duration) (q .period) (q .duration) (q .t0) (q .b)
    (q .r_star) t) (R := fun q : SimplePar → ℝ => q .r_star) (r := fun q : SimplePar → ℝ => q .r) (u1 := fun _ => u1) (u2 := fun _ => u2) hl.pos.ne' contDiffAt_const contDiffAt_const hR
    (hp .r_star q) ?_ ?_ ?_ (hp .r q) hq.r ?_ (Or.inl (simpleChord_z_ne _ _ _ _ _ _ _))
  · simp only [simpleChord]
    exact hv.mul hwc
  · simp only [simpleChord]
    exact (hp .b q).mul (hp .r_star q)
  · simp only [simpleChord]
    have c1 := hwc.continuousAt.abs
    have c2 : ContinuousAt (fun q : SimplePar → ℝ => q .duration / 2) q := (hp .duration q).continuousAt.div_const 2
    refine (continuousAt_const (y := if |wrap (t - q .t0) (q .period)| < q .duration / 2 then (1 : ℝ) else -1)).congr ?_
    rcases lt_or_gt_of_ne he with h | h
    · filter_upwards [c1.eventually_lt c2 h] with y hy
      rw [if_pos hy, if_pos h]
    · filter_upwards [c2.eventually_lt c1 h] with y hy
      rw [if_neg (not_lt.2 (le_of_lt hy)), if_neg (not_lt.2 (le_of_lt h))]
  · rintro ⟨h1, h2, h3, -⟩
    simp only [simpleChord] at h1 h2
    have hs := sqrt_pos.2 hX
    refine hc ⟨(mul_eq_zero.1 h2).resolve_right hR.ne', (mul_eq_zero.1 h1).resolve_left ?_, h3⟩
    positivity

/-- A differentiable even function has derivative zero. -/
theorem deriv_even {f : ℝ → ℝ} {D : ℝ} (h : HasDerivAt f D 0) (he : ∀ s, f (-s) = f s) : D = 0 := by
  have h2 := (show HasDerivAt f D (-0) by simpa using h).scomp (0 : ℝ) (hasDerivAt_neg (0 : ℝ))
  have h3 : f ∘ (fun s => -s) = f := funext he
  have h4 : HasDerivAt f ((-1 : ℝ) • D) 0 := by
    have : (f ∘ Neg.neg) = f := funext he
    rw [← this]; exact h2
  have := h.unique h4
  simp at this
  linarith

/-- The middle of a central transit: `SimpleTransitOrbit(period=10, duration=0.1)` and a planet of a tenth of the radius of the star. -/
noncomputable def centralPars : SimplePar → ℝ
  | .period => 10
  | .duration => 0.1
  | .t0 => 0
  | .b => 0
  | .r_star => 1
  | .ror => 0
  | .r => 0.1

theorem centralPars_possible : SimplePossible centralPars := by
  constructor <;> norm_num [centralPars]

/-- Concrete violation of C118: for `SimpleTransitOrbit(period=10, duration=0.1)`, with the default `b = 0` and `t0 = 0`, and `t = 0`, the flux is a
continuously differentiable function of all parameters, with derivative zero with respect to `b`; computed with exact operations its value is right, but
the derivatives with respect to all parameters of the orbit are NaN. -/
theorem C118_counterexample (hl : PhysicalLaw u1 u2) : ∃ (q : SimplePar → ℝ) (t : ℝ), SimplePossible q ∧ q .b = 0 ∧ q .t0 = 0 ∧
    ContDiffAt ℝ 1 (fun q => simpleFlux u1 u2 q t) q ∧ HasDerivAt (fun s => simpleFlux u1 u2 (update q .b s) t) 0 (q .b) ∧
    ∀ op : FlOp, op.Exact u1 u2 → (simpleGraph t).value op (fun i => .fin (q i)) = .fin (simpleFlux u1 u2 q t) ∧
      ∀ (g : Fl) (j : SimplePar), j ≠ .r → (simpleGraph t).back op (fun i => .fin (q i)) g j = .nan := by
  have h0 : wrap (0 - centralPars .t0) (centralPars .period) = 0 := by
    have := wrap_centre (P := 10) (by norm_num) 0
    simpa [centralPars] using this
  have hcd := C118_differentiable hl centralPars_possible 0 (fun h => by have := h.2.2; norm_num [centralPars] at this)
    (by rw [h0]; norm_num [centralPars]) (fun m h => by
      simp only [centralPars] at h
      have h' : (2 * m + 1 : ℝ) = 0 := by linarith
      have h'' : (2 * m + 1 : ℤ) = 0 := by exact_mod_cast h'
      omega)
  refine ⟨centralPars, 0, centralPars_possible, rfl, rfl, hcd, ?_, fun op hop => ⟨?_, fun g j hj => ?_⟩⟩
  · have hu : HasDerivAt (fun s : ℝ => update centralPars .b s) (Pi.single SimplePar.b (1 : ℝ)) (centralPars .b) := hasDerivAt_update _ _ _
    have hd := (hcd.differentiableAt one_ne_zero).hasFDerivAt
    rw [show centralPars = update centralPars .b (centralPars .b) from (update_eq_self _ _).symm] at hd
    have h := hd.comp_hasDerivAt (centralPars .b) hu
    have hb : centralPars .b = 0 := rfl
    rw [hb] at h ⊢
    have := deriv_even h (fun s => by
      simp only [comp_apply, simpleFlux, fluxAt, simpleChord, update_self]
      have : ∀ (s : ℝ) (i : SimplePar), i ≠ .b → update centralPars .b s i = centralPars i := fun s i hi => update_of_ne hi _ _
      simp only [ne_eq, reduceCtorEq, not_false_eq_true, this, h0, mul_zero, neg_mul, neg_sq])
    rw [this] at h
    exact h
  · rw [C118_graph]
    obtain ⟨v, hv2, hv, -, hF⟩ := C116_possible_partial (centralPars .period) (centralPars .duration) (centralPars .t0) (centralPars .b) (centralPars .r_star)
      (centralPars .ror) centralPars_possible.period centralPars_possible.duration centralPars_possible.r_star centralPars_possible.ror centralPars_possible.b
    have h := hF op.value _ hop.value (centralPars .r) 0 none
    simp only [integratedF, exposureAverage] at h
    rw [h]
    simp only [simpleFlux, fluxAt, simpleChord, h0, mul_zero]
  · have := C118_centre op (q := centralPars) centralPars_possible.period centralPars_possible.duration rfl 0 g hj
    simpa [centralPars] using this

end

/-- The hypotheses of `C118_simple_partial` can be met: the transit of `C118_counterexample` a hundredth of a day after its middle. -/
example (hl : PhysicalLaw 0.3 0.2) (op : FlOp) (hop : op.Exact 0.3 0.2) :
    ∃ D, HasDerivAt (fun s => simpleFlux 0.3 0.2 (update centralPars .duration s) 0.01) D 0.1 ∧
      (simpleGraph 0.01).back op (fun i => .fin (centralPars i)) (.fin 1) .duration = .fin D := by
  have h1 : wrap (0.01 - centralPars .t0) (centralPars .period) = 0.01 := by
    simp only [centralPars]
    exact wrap_eq (by norm_num) (by norm_num) (by norm_num) 0 (by norm_num)
  obtain ⟨D, hD, hg⟩ := (C118_simple_partial hl op hop centralPars_possible 0.01 (Or.inr (by rw [h1]; norm_num))
    (by rw [h1, abs_of_pos (by norm_num)]; norm_num [centralPars]) (fun m h => by
      simp only [centralPars] at h
      have h' : (500 * (2 * m + 1) : ℝ) = 1 := by linarith
      have h'' : (500 * (2 * m + 1) : ℤ) = 1 := by exact_mod_cast h'
      omega)).2 .duration
  exact ⟨D, hD, by simpa using hg 1⟩

/-- There are exact operations, and a physical law. -/
example : ∃ op : FlOp, op.Exact 0.3 0.2 := by
  classical
  refine ⟨⟨fun b k => match b, k with | .fin b, .fin k => .fin (quadLimbdarkLightCurve (getCl 0.3 0.2) b k) | _, _ => .nan,
    fun g b k => match g, b, k with | .fin g, .fin b, .fin k => .fin (g * -motionLoss 0.3 0.2 b k) | _, _, _ => .nan,
    fun g b k => match g, b, k with | .fin g, .fin b, .fin k => .fin (g * -growthLoss 0.3 0.2 b k) | _, _, _ => .nan,
    fun _ _ => (.nan, .nan), fun _ _ _ => (.nan, .nan), fun _ _ _ => (.nan, .nan), fun _ _ _ => .nan, fun _ _ _ _ => (.nan, .nan)⟩, ?_, ?_⟩
  · intro b k; rfl
  · intro g b k _ _; exact ⟨rfl, rfl⟩

end Exo
