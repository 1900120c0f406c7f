import Verif.Model.DurToEccMarginal
import Verif.Props.DurToEcc
import Mathlib.MeasureTheory.Function.JacobianOneDim
import Mathlib.MeasureTheory.Constructions.Polish.Basic
import Mathlib.MeasureTheory.Constructions.BorelSpace.Real

/-!
# C108: marginalising over the eccentricity
-/

namespace Exo
open Real MeasureTheory Set
open scoped ENNReal

/-- Where the duration ratio is `u`, the square root of `durEccE2` is `(e + s) / (1 + e s)` up to its sign. -/
theorem durEcc_root {s u e : ℝ} (hs : -1 ≤ s) (he : 0 ≤ e) (he' : e < 1) (h : durationRatio s e = u) :
    ((s * u) ^ 2 + 1) * e + s * u ^ 2 = (e + s) / (1 + e * s) := by
  have hpos : 0 < 1 + e * s := by nlinarith
  have h1e : 0 ≤ 1 - e ^ 2 := by nlinarith
  have hu : u ^ 2 = (1 - e ^ 2) / (1 + e * s) ^ 2 := by rw [← h, durationRatio, div_pow, sq_sqrt h1e]
  have hu' : u ^ 2 * (1 + e * s) ^ 2 = 1 - e ^ 2 := by rw [hu]; field_simp
  rw [eq_div_iff hpos.ne']
  refine mul_right_cancel₀ hpos.ne' ?_
  linear_combination (s ^ 2 * e + s) * hu'

/-- The acceptance test makes the two branches different. -/
theorem durEcc_radicand {s u : ℝ} (hs : -1 ≤ s) (hu : 0 < u) (h : durEccUmaxInv s < 1 / u) : 0 < (s ^ 2 - 1) * u ^ 2 + 1 := by
  rw [lt_div_iff₀ hu] at h
  unfold durEccUmaxInv at h
  split_ifs at h with h0
  · have hc : 0 ≤ 1 - s ^ 2 := by nlinarith
    have : (√(1 - s ^ 2) * u) ^ 2 < 1 ^ 2 := pow_lt_pow_left₀ h (by positivity) two_ne_zero
    rw [mul_pow, sq_sqrt hc] at this
    linarith
  · have : u ^ 2 < 1 := by nlinarith
    nlinarith [mul_nonneg (sq_nonneg s) (sq_nonneg u)]

/-- An eccentricity away from the turning point passes the acceptance test. -/
theorem durEcc_accepts {s e : ℝ} (hs : -1 ≤ s) (he : 0 < e) (he' : e < 1) (hse : e + s ≠ 0) :
    durEccUmaxInv s < 1 / durationRatio s e := by
  have hpos : 0 < 1 + e * s := by nlinarith
  have h1e : 0 < 1 - e ^ 2 := by nlinarith
  have hsq : 0 < √(1 - e ^ 2) := sqrt_pos.2 h1e
  unfold durEccUmaxInv durationRatio
  rw [one_div_div, lt_div_iff₀ hsq]
  split_ifs with h
  · rw [← sqrt_mul (by nlinarith), sqrt_lt' hpos]
    have : 0 < (e + s) ^ 2 := by positivity
    nlinarith
  · have h0 : 0 ≤ s := not_lt.1 h
    have h2 : √(1 - e ^ 2) < 1 := by
      rw [sqrt_lt' one_pos]
      nlinarith
    nlinarith [mul_nonneg he.le h0]

/-- The side of the turning point on which a branch lies. -/
def onSide (s : ℝ) (sign : Bool) : Set ℝ := {e | 0 < e ∧ e < 1 ∧ if sign then 0 < e + s else e + s < 0}

/-- The branch on its side has the given duration. -/
theorem branch_iff_mem {s u : ℝ} (c : ℝ) (hs : -1 ≤ s) (hs' : s ≤ 1) (hu : 0 < u) (sign : Bool) (e : ℝ) (h : e ∈ onSide s sign ∧ durationRatio s e = u) :
    durEccUmaxInv s < 1 / u ∧ DurEccPlanet.branch ⟨s, c, u⟩ sign = some e ∧ e < 1 ∧ 0 ≤ e := by
  have hk : 0 < (s * u) ^ 2 + 1 := by positivity
  revert h
  rintro ⟨⟨he, he', hside⟩, hratio⟩
  have hne : e + s ≠ 0 := by
    cases sign
    · simp at hside; exact hside.ne
    · simp at hside; exact hside.ne'
  have hpos : 0 < 1 + e * s := by nlinarith
  have hacc : durEccUmaxInv s < 1 / u := hratio ▸ durEcc_accepts hs he he' hne
  have hrad := durEcc_radicand hs hu hacc
  have hsq := sqrt_pos.2 hrad
  have hroot := durEcc_root hs he.le he' hratio
  have hsol := ((C68_candidates_are_the_solutions_partial s u e hs hs' hu he.le he').1 hratio).2
  refine ⟨hacc, ?_, he', he.le⟩
  simp only [DurEccPlanet.branch, if_neg (not_lt.2 hrad.le), Option.some.injEq]
  have hE : durEccE1 s u = -s * u ^ 2 / ((s * u) ^ 2 + 1) := rfl
  have hE2 : durEccE2 s u = √((s ^ 2 - 1) * u ^ 2 + 1) / ((s * u) ^ 2 + 1) := rfl
  cases sign
  · simp only [Bool.false_eq_true, if_false] at hside ⊢
    have hneg : (e + s) / (1 + e * s) < 0 := div_neg_of_neg_of_pos hside hpos
    rcases hsol with h | h
    · rw [h]; ring
    · exfalso
      rw [hE, hE2, ← add_div, eq_div_iff hk.ne'] at h
      nlinarith
  · simp only [if_true] at hside ⊢
    have hpos' : 0 < (e + s) / (1 + e * s) := div_pos hside hpos
    rcases hsol with h | h
    · exfalso
      rw [hE, hE2, ← sub_div, eq_div_iff hk.ne'] at h
      nlinarith
    · rw [h]; ring

/-- One branch, for an accepted duration other than that of a circular orbit: valid exactly if it is an eccentricity on its side. -/
theorem branch_iff {s u : ℝ} (c : ℝ) (hs : -1 ≤ s) (hs' : s ≤ 1) (hu : 0 < u) (hu1 : u ≠ 1) (sign : Bool) (e : ℝ) :
    (durEccUmaxInv s < 1 / u ∧ DurEccPlanet.branch ⟨s, c, u⟩ sign = some e ∧ e < 1 ∧ 0 ≤ e) ↔ e ∈ onSide s sign ∧ durationRatio s e = u := by
  have hk : 0 < (s * u) ^ 2 + 1 := by positivity
  constructor
  · rintro ⟨hacc, hb, he', he⟩
    have hrad := durEcc_radicand hs hu hacc
    have hsq := sqrt_pos.2 hrad
    simp only [DurEccPlanet.branch, if_neg (not_lt.2 hrad.le), Option.some.injEq] at hb
    have hroot : ((s * u) ^ 2 + 1) * e + s * u ^ 2 = (if sign then 1 else -1) * √((s ^ 2 - 1) * u ^ 2 + 1) := by
      rw [← hb]
      unfold durEccE1 durEccE2
      field_simp
      ring
    have hratio : durationRatio s e = u := by
      refine (C68_candidates_are_the_solutions_partial s u e hs hs' hu he he').2 ⟨hrad.le, ?_⟩
      rw [← hb]
      cases sign
      · left; simp; ring
      · right; simp
    have hne : e ≠ 0 := by
      rintro rfl
      simp [durationRatio] at hratio
      exact hu1 hratio.symm
    have hpos : 0 < 1 + e * s := by nlinarith
    rw [durEcc_root hs he he' hratio] at hroot
    refine ⟨⟨lt_of_le_of_ne he (Ne.symm hne), he', ?_⟩, hratio⟩
    cases sign
    · simp only [Bool.false_eq_true, if_false] at hroot ⊢
      have : (e + s) / (1 + e * s) < 0 := by rw [hroot]; linarith
      exact (div_neg_iff.1 this).elim (fun h => absurd h.2 (not_lt.2 hpos.le)) fun h => h.1
    · simp only [if_true] at hroot ⊢
      have : 0 < (e + s) / (1 + e * s) := by rw [hroot]; linarith
      exact (div_pos_iff.1 this).elim (fun h => h.1) fun h => absurd h.2 (not_lt.2 hpos.le)
  · exact branch_iff_mem c hs hs' hu sign e

/-- The duration as a function of the eccentricity, and its derivative. -/
theorem hasDerivAt_duration {s c e : ℝ} (hs : -1 ≤ s) (hs' : s ≤ 1) (hc : 0 < c) (he : 0 ≤ e) (he' : e < 1) (hse : e + s ≠ 0) :
    HasDerivAt (fun e => c * durationRatio s e) (-(c * (s + e) / (√(1 - e ^ 2) * (1 + e * s) ^ 2))) e ∧
      exp (durEccLogJac s c e) = |-(c * (s + e) / (√(1 - e ^ 2) * (1 + e * s) ^ 2))|⁻¹ := by
  obtain ⟨d, hd, hj⟩ := C68_jacobian s c e hs hs' hc he he' (by rwa [add_comm])
  have hpos : 0 < 1 + e * s := by nlinarith
  have h1e : 0 < 1 - e ^ 2 := by nlinarith
  have hsq : 0 < √(1 - e ^ 2) := sqrt_pos.2 h1e
  have hss : √(1 - e ^ 2) ^ 2 = 1 - e ^ 2 := sq_sqrt h1e.le
  have hd' : HasDerivAt (fun e => c * durationRatio s e) (-(c * (s + e) / (√(1 - e ^ 2) * (1 + e * s) ^ 2))) e := by
    have d1 : HasDerivAt (fun e : ℝ => √(1 - e ^ 2)) (-(2 * e) / (2 * √(1 - e ^ 2))) e := by
      have := ((hasDerivAt_pow 2 e).const_sub 1).sqrt h1e.ne'
      convert this using 1
      simp
    have d2 : HasDerivAt (fun e : ℝ => 1 + e * s) s e := by
      have := ((hasDerivAt_id e).mul_const s).const_add 1
      simpa using this
    refine ((d1.div d2 hpos.ne').const_mul c).congr_deriv ?_
    rw [show -(2 * e) / (2 * √(1 - e ^ 2)) * (1 + e * s) - √(1 - e ^ 2) * s = -(s + e) / √(1 - e ^ 2) by
      field_simp
      rw [hss]
      ring]
    field_simp
  exact ⟨hd', by rw [hj, hd.unique hd']⟩

theorem durationRatio_pos {s e : ℝ} (hs : -1 ≤ s) (he : 0 ≤ e) (he' : e < 1) : 0 < durationRatio s e :=
  div_pos (sqrt_pos.2 (by nlinarith)) (by nlinarith)

/-- Only a circular orbit has the duration of a circular orbit, except at the other root. -/
theorem injOn_duration {s c : ℝ} (hs : -1 ≤ s) (hs' : s ≤ 1) (hc : 0 < c) (sign : Bool) :
    InjOn (fun e => c * durationRatio s e) (onSide s sign) := by
  intro e he e' he' h
  have hu : 0 < durationRatio s e := durationRatio_pos hs he.1.le he.2.1
  have heq : durationRatio s e = durationRatio s e' := mul_left_cancel₀ hc.ne' h
  have r1 := durEcc_root hs he.1.le he.2.1 rfl
  have r2 := durEcc_root hs he'.1.le he'.2.1 heq.symm
  set u := durationRatio s e
  have hk : 0 < (s * u) ^ 2 + 1 := by positivity
  have s1 := ((C68_candidates_are_the_solutions_partial s u e hs hs' hu he.1.le he.2.1).1 rfl).2
  have s2 := ((C68_candidates_are_the_solutions_partial s u e' hs hs' hu he'.1.le he'.2.1).1 heq.symm).2
  have p1 : 0 < 1 + e * s := by nlinarith [he.1, he.2.1]
  have p2 : 0 < 1 + e' * s := by nlinarith [he'.1, he'.2.1]
  have key : ∀ x y : ℝ, x = durEccE1 s u - durEccE2 s u → y = durEccE1 s u + durEccE2 s u →
      ((s * u) ^ 2 + 1) * x + s * u ^ 2 ≤ 0 ∧ 0 ≤ ((s * u) ^ 2 + 1) * y + s * u ^ 2 := by
    rintro x y rfl rfl
    have hsq := sqrt_nonneg ((s ^ 2 - 1) * u ^ 2 + 1)
    have e1 : ((s * u) ^ 2 + 1) * (durEccE1 s u - durEccE2 s u) + s * u ^ 2 = -√((s ^ 2 - 1) * u ^ 2 + 1) := by
      unfold durEccE1 durEccE2
      field_simp
      ring
    have e2 : ((s * u) ^ 2 + 1) * (durEccE1 s u + durEccE2 s u) + s * u ^ 2 = √((s ^ 2 - 1) * u ^ 2 + 1) := by
      unfold durEccE1 durEccE2
      field_simp
      ring
    rw [e1, e2]
    exact ⟨by linarith, hsq⟩
  have h1 := he.2.2
  have h2 := he'.2.2
  have side : ∀ x, 0 < 1 + x * s → ((if sign then 0 < x + s else x + s < 0) ↔
      if sign then 0 < (x + s) / (1 + x * s) else (x + s) / (1 + x * s) < 0) := by
    intro x hx
    cases sign
    · simp [div_neg_iff, hx, hx.le, not_lt.2 hx.le]
    · simp [div_pos_iff, hx, hx.le, not_lt.2 hx.le]
  rw [side e p1, ← r1] at h1
  rw [side e' p2, ← r2] at h2
  rcases s1 with s1 | s1 <;> rcases s2 with s2 | s2
  · rw [s1, s2]
  · exfalso
    obtain ⟨k1, k2⟩ := key _ _ s1 s2
    cases sign
    · simp at h1 h2; linarith
    · simp at h1 h2; linarith
  · exfalso
    obtain ⟨k1, k2⟩ := key _ _ s2 s1
    cases sign
    · simp at h1 h2; linarith
    · simp at h1 h2; linarith
  · rw [s1, s2]

theorem measurableSet_onSide (s : ℝ) (sign : Bool) : MeasurableSet (onSide s sign) := by
  cases sign
  · exact ((isOpen_lt continuous_const continuous_id).inter ((isOpen_lt continuous_id continuous_const).inter
      (isOpen_lt (continuous_id.add continuous_const) continuous_const))).measurableSet
  · exact ((isOpen_lt continuous_const continuous_id).inter ((isOpen_lt continuous_id continuous_const).inter
      (isOpen_lt continuous_const (continuous_id.add continuous_const)))).measurableSet

theorem onSide_ne {s e : ℝ} {sign : Bool} (h : e ∈ onSide s sign) : e + s ≠ 0 := by
  have := h.2.2
  cases sign
  · simp at this; exact this.ne
  · simp at this; exact this.ne'

/-- The two sides make up the range of the eccentricity. -/
theorem onSide_cover (s : ℝ) (h : ℝ → ℝ≥0∞) :
    (∫⁻ e in onSide s false, h e) + (∫⁻ e in onSide s true, h e) = ∫⁻ e in Ico 0 1, h e := by
  have hdisj : Disjoint (onSide s false) (onSide s true) := by
    rw [Set.disjoint_left]
    intro e h1 h2
    have a1 := h1.2.2
    have a2 := h2.2.2
    simp at a1 a2
    linarith
  rw [← lintegral_union (measurableSet_onSide s true) hdisj]
  refine setLIntegral_congr ?_
  have hsub : onSide s false ∪ onSide s true ⊆ Ico 0 1 := by
    rintro e (h | h) <;> exact ⟨h.1.le, h.2.1⟩
  have hnull : volume (Ico (0 : ℝ) 1 \ (onSide s false ∪ onSide s true)) = 0 := by
    refine measure_mono_null (t := {0} ∪ {-s}) ?_ ?_
    · rintro e ⟨⟨h0, h1⟩, hn⟩
      by_contra hc
      simp only [mem_union, mem_singleton_iff, not_or] at hc
      apply hn
      have hpos : 0 < e := lt_of_le_of_ne h0 (Ne.symm hc.1)
      rcases lt_or_gt_of_ne (show e + s ≠ 0 from fun h => hc.2 (by linarith)) with h | h
      · exact Or.inl ⟨hpos, h1, by simpa using h⟩
      · exact Or.inr ⟨hpos, h1, by simpa using h⟩
    · exact measure_union_null (measure_singleton _) (measure_singleton _)
  exact (HasSubset.Subset.eventuallyLE hsub).antisymm (ae_le_set.2 hnull)

/-- The planet of which the duration is `d`. -/
noncomputable def lasting (s c d : ℝ) : DurEccPlanet := ⟨s, c, d / c⟩

open Classical in
/-- The contribution of one branch to the factor. -/
noncomputable def branchTerm (func : List ℝ → EReal) (s c : ℝ) (sign : Bool) (d : ℝ) : ℝ≥0∞ :=
  if (lasting s c d).accepted ∧ validEcc ((lasting s c d).branch sign) then
    EReal.exp (func [((lasting s c d).branch sign).getD 0]) *
      ENNReal.ofReal (exp (durEccLogJac s c (((lasting s c d).branch sign).getD 0)))
  else 0

theorem durEccLogw_one (func : List ℝ → EReal) (p : DurEccPlanet) : durEccLogw func [p] = .ok
    ([false, true].map fun sign => if p.accepted then (durEccBranchOf func [p] [sign]).logjac -
      logsumexp [(durEccBranchOf func [p] [false]).logjac, (durEccBranchOf func [p] [true]).logjac] else ⊥) := by
  simp [durEccLogw, bcast, durEccBranches, durEccSigns]

theorem label_n : durEccLabel [false] = "dur_ecc_n" := by decide
theorem label_p : durEccLabel [true] = "dur_ecc_p" := by decide

theorem durEccAverage_one (func : List ℝ → EReal) (p : DurEccPlanet) (w₁ w₂ : EReal) : durEccAverage .pymc3 func [p] [w₁, w₂] = .ok
    ("ecc", [(EReal.exp w₁).toReal * (if validEcc (p.branch false) then (p.branch false).getD 0 else 0) +
      ((EReal.exp w₂).toReal * (if validEcc (p.branch true) then (p.branch true).getD 0 else 0))]) := by
  have hn : dropPrefix "dur_ecc_n" "dur_ecc_n_ecc" = "ecc" := by decide
  have h1 : subName .pymc3 "dur_ecc_n" "ecc" = "dur_ecc_n_ecc" := by decide
  have h2 : subName .pymc3 "dur_ecc_p" "ecc" = "dur_ecc_p_ecc" := by decide
  simp [durEccAverage, durEccBranches, durEccSigns, durEccBranchOf, label_n, label_p, namedVar, hn, h1, h2, bind, Except.bind, pure, Except.pure]

/-- The two weights of one planet. -/
noncomputable def weightOf (func : List ℝ → EReal) (p : DurEccPlanet) (sign : Bool) : EReal :=
  if p.accepted then (durEccBranchOf func [p] [sign]).logjac -
    logsumexp [(durEccBranchOf func [p] [false]).logjac, (durEccBranchOf func [p] [true]).logjac] else ⊥

/-- For one planet and PyMC3 everything can be computed. -/
theorem durEccMarginal_one (func : List ℝ → EReal) (p : DurEccPlanet) :
    durEccMarginal .pymc3 func [p] = .ok ⟨durEccLogp func [p], [weightOf func p false, weightOf func p true],
      ("ecc", [(EReal.exp (weightOf func p false)).toReal * (if validEcc (p.branch false) then (p.branch false).getD 0 else 0) +
      ((EReal.exp (weightOf func p true)).toReal * (if validEcc (p.branch true) then (p.branch true).getD 0 else 0))])⟩ := by
  unfold durEccMarginal
  rw [durEccLogw_one]
  simp only [List.map_cons, List.map_nil, bind, Except.bind]
  rw [durEccAverage_one]
  rfl

/-- The factor of one planet is the sum of the two contributions. -/
theorem factor_one (func : List ℝ → EReal) (s c d : ℝ) (w : List EReal) (a : String × List ℝ) :
    (DurEccResult.mk (durEccLogp func [lasting s c d]) w a).factor = branchTerm func s c false d + branchTerm func s c true d := by
  unfold DurEccResult.factor branchTerm
  have hs : (lasting s c d).s = s := rfl
  have hc : (lasting s c d).const = c := rfl
  by_cases h : (lasting s c d).accepted
  · by_cases h1 : validEcc ((lasting s c d).branch false) <;> by_cases h2 : validEcc ((lasting s c d).branch true) <;>
      simp [durEccLogp, h, h1, h2, durEccBranches, durEccSigns, durEccBranchOf, logsumexp, EReal.exp_add, hs, hc]
  · simp [durEccLogp, h]

/-- One branch, as an integral over the durations. -/
theorem lintegral_branchTerm (func : List ℝ → EReal) (φ : ℝ → ℝ≥0∞) {s c : ℝ} (hs : -1 ≤ s) (hs' : s ≤ 1) (hc : 0 < c) (sign : Bool) :
    ∫⁻ d in Ioi 0, φ d * branchTerm func s c sign d = ∫⁻ e in onSide s sign, φ (c * durationRatio s e) * EReal.exp (func [e]) := by
  set g : ℝ → ℝ := fun e => c * durationRatio s e with hg
  have hsub : g '' onSide s sign ⊆ Ioi 0 := by
    rintro _ ⟨e, he, rfl⟩
    exact mul_pos hc (durationRatio_pos hs he.1.le he.2.1)
  have hval : ∀ e ∈ onSide s sign, ((lasting s c (g e)).accepted = true) ∧ (lasting s c (g e)).branch sign = some e := by
    intro e he
    have hu : g e / c = durationRatio s e := by rw [hg]; field_simp
    have hu0 := durationRatio_pos hs he.1.le he.2.1
    have := branch_iff_mem c hs hs' hu0 sign e ⟨he, rfl⟩
    unfold lasting DurEccPlanet.accepted
    rw [hu]
    exact ⟨by simpa using this.1, this.2.1⟩
  have hmeas : MeasurableSet (g '' onSide s sign) := by
    refine (measurableSet_onSide s sign).image_of_continuousOn_injOn ?_ (injOn_duration hs hs' hc sign)
    intro e he
    exact (hasDerivAt_duration hs hs' hc he.1.le he.2.1 (onSide_ne he)).1.continuousAt.continuousWithinAt
  have hae : ∀ᵐ d ∂(volume.restrict (Ioi (0 : ℝ))), φ d * branchTerm func s c sign d = (g '' onSide s sign).indicator (fun d => φ d * branchTerm func s c sign d) d := by
    have hne : ∀ᵐ d ∂(volume.restrict (Ioi (0 : ℝ))), d ≠ c := by
      refine ae_restrict_of_ae ?_
      exact compl_mem_ae_iff.2 (measure_singleton c)
    filter_upwards [hne, ae_restrict_mem measurableSet_Ioi] with d hd hd0
    by_cases hm : d ∈ g '' onSide s sign
    · rw [indicator_of_mem hm]
    · rw [indicator_of_notMem hm]
      unfold branchTerm
      rw [if_neg, mul_zero]
      rintro ⟨h1, h2⟩
      apply hm
      have hdc : 0 < d / c := div_pos hd0 hc
      cases hb : (lasting s c d).branch sign with
      | none => rw [hb] at h2; simp [validEcc] at h2
      | some e =>
        rw [hb] at h2
        simp only [validEcc, decide_eq_true_eq] at h2
        have := (branch_iff c hs hs' hdc (by rw [ne_eq, div_eq_one_iff_eq hc.ne']; exact hd) sign e).1
          ⟨by simpa [DurEccPlanet.accepted, lasting] using h1, hb, h2⟩
        refine ⟨e, this.1, ?_⟩
        simp only [hg, this.2]
        field_simp
  rw [lintegral_congr_ae hae, setLIntegral_indicator hmeas, inter_eq_left.2 hsub,
    lintegral_image_eq_lintegral_abs_deriv_mul (measurableSet_onSide s sign)
      (fun e he => (hasDerivAt_duration hs hs' hc he.1.le he.2.1 (onSide_ne he)).1.hasDerivWithinAt) (injOn_duration hs hs' hc sign)]
  refine setLIntegral_congr_fun (measurableSet_onSide s sign) fun e he => ?_
  have hv := hval e he
  have hvalid : validEcc (some e) = true := by simp [validEcc, he.1.le, he.2.1]
  have hj := (hasDerivAt_duration hs hs' hc he.1.le he.2.1 (onSide_ne he)).2
  have hp : 0 < |-(c * (s + e) / (√(1 - e ^ 2) * (1 + e * s) ^ 2))| := by
    refine inv_pos.1 ?_
    rw [← hj]
    exact exp_pos _
  show ENNReal.ofReal _ * (φ (g e) * branchTerm func s c sign (g e)) = φ (g e) * _
  unfold branchTerm
  rw [hv.2, if_pos ⟨hv.1, hvalid⟩, Option.getD_some, hj, mul_left_comm]
  congr 1
  rw [mul_left_comm, ← ENNReal.ofReal_mul (abs_nonneg _), mul_inv_cancel₀ hp.ne']
  simp

theorem measurable_branchTerm {func : List ℝ → EReal} (hf : Measurable fun e => func [e]) (s c : ℝ) (sign : Bool) :
    Measurable (branchTerm func s c sign) := by
  set E : ℝ → ℝ := fun d => durEccE1 s (d / c) + (if sign then 1 else -1) * durEccE2 s (d / c) with hE
  have hEm : Measurable E := by
    have h1 : Measurable fun d : ℝ => durEccE1 s (d / c) := by unfold durEccE1; fun_prop
    have h2 : Measurable fun d : ℝ => durEccE2 s (d / c) := by unfold durEccE2; fun_prop
    exact h1.add (h2.const_mul _)
  have heq : branchTerm func s c sign = fun d => if durEccUmaxInv s < 1 / (d / c) ∧ 0 ≤ (s ^ 2 - 1) * (d / c) ^ 2 + 1 ∧ E d < 1 ∧ 0 ≤ E d then
      EReal.exp (func [E d]) * ENNReal.ofReal (exp (durEccLogJac s c (E d))) else 0 := by
    funext d
    unfold branchTerm lasting DurEccPlanet.branch DurEccPlanet.accepted
    by_cases h : (s ^ 2 - 1) * (d / c) ^ 2 + 1 < 0
    · simp [h, validEcc, not_le.2 h]
    · simp only [h, validEcc, hE, if_false, decide_eq_true_eq, Option.getD_some, not_lt.1 h, true_and]
  rw [heq]
  refine Measurable.ite ?_ ?_ measurable_const
  · have m1 : Measurable fun d : ℝ => 1 / (d / c) := by fun_prop
    have m2 : Measurable fun d : ℝ => (s ^ 2 - 1) * (d / c) ^ 2 + 1 := by fun_prop
    exact (measurableSet_lt measurable_const m1).inter ((measurableSet_le measurable_const m2).inter
      ((measurableSet_lt hEm measurable_const).inter (measurableSet_le measurable_const hEm)))
  · have hJ : Measurable (durEccLogJac s c) := by unfold durEccLogJac; fun_prop
    exact (EReal.measurable_exp.comp (hf.comp hEm)).mul (ENNReal.measurable_ofReal.comp (measurable_exp.comp (hJ.comp hEm)))

theorem durEccConst_pos {A : DurEccArgs} {I : Inputs} (hP : 0 < I.period) (ha : 0 < I.a) (hr : 0 < I.r_star)
    (hb : A.b ^ 2 < (1 + A.ror) ^ 2) : 0 < durEccConst I.period I.r_star A.ror A.b I.a := by
  have hq : 0 < √((1 + A.ror) ^ 2 - A.b ^ 2) := sqrt_pos.2 (by linarith)
  unfold durEccConst
  have := pi_pos
  positivity

theorem chordTime_eq {A : DurEccArgs} {I : Inputs} (hP : 0 < I.period) (ha : 0 < I.a) {e : ℝ} (he : 0 ≤ e) (he' : e < 1) :
    chordTime I.period I.a I.r_star A.ror A.b (sin A.omega) e =
      durEccConst I.period I.r_star A.ror A.b I.a * durationRatio (sin A.omega) e := by
  have h1e : 0 < √(1 - e ^ 2) := sqrt_pos.2 (by nlinarith)
  have hpos : 0 < 1 + e * sin A.omega := by nlinarith [neg_one_le_sin A.omega]
  unfold chordTime durEccConst durationRatio
  have := pi_pos
  field_simp

/-- C108 (partial: from the consistent inputs on; the call that should compute them always fails, see `C68_call_always_fails`, and for
one planet on PyMC3, see the counterexamples). With a flat prior for the duration, the potential gives the duration the distribution
that it has if the eccentricity is uniform in `[0, 1)` and weighted with the likelihood. In other words the eccentricity has been
integrated out. -/
theorem C108_marginal_partial (A : DurEccArgs) (I : Inputs) (func : List ℝ → EReal) (hf : Measurable fun e => func [e])
    (hP : 0 < I.period) (ha : 0 < I.a) (hr : 0 < I.r_star) (hb : A.b ^ 2 < (1 + A.ror) ^ 2) :
    ∃ r : ℝ → DurEccResult, (∀ d, durEccMarginal .pymc3 func [durEccPlanet { A with duration := d } I] = .ok (r d)) ∧
      ∀ φ : ℝ → ℝ≥0∞, Measurable φ → ∫⁻ d in Ioi 0, φ d * (r d).factor =
        ∫⁻ e in Ico 0 1, φ (chordTime I.period I.a I.r_star A.ror A.b (sin A.omega) e) * EReal.exp (func [e]) := by
  set s := sin A.omega with hs
  have hc := durEccConst_pos hP ha hr hb
  set c := durEccConst I.period I.r_star A.ror A.b I.a with hcd
  have hp : ∀ d, durEccPlanet { A with duration := d } I = lasting s c d := fun d => rfl
  refine ⟨fun d => _, fun d => durEccMarginal_one func _, fun φ hφ => ?_⟩
  simp only [hp, factor_one, mul_add]
  have hm : Measurable fun d => φ d * branchTerm func s c false d := hφ.mul (measurable_branchTerm hf s c false)
  rw [lintegral_add_left hm,
    lintegral_branchTerm func φ (neg_one_le_sin _) (sin_le_one _) hc false, lintegral_branchTerm func φ (neg_one_le_sin _) (sin_le_one _) hc true,
    onSide_cover]
  refine setLIntegral_congr_fun measurableSet_Ico fun e he => ?_
  show φ (c * durationRatio s e) * _ = _
  rw [chordTime_eq hP ha he.1 he.2]

/-- A case with the hypotheses met: if the likelihood is one, the potential is a normalised density for the duration. -/
example : ∃ r : ℝ → DurEccResult, (∀ d, durEccMarginal .pymc3 (fun _ => 0) [durEccPlanet { duration := d, ror := 0.1, omega := 1 } ⟨20, 10, 1, 1, 1, 0⟩] = .ok (r d)) ∧
    ∫⁻ d in Ioi 0, (r d).factor = 1 := by
  obtain ⟨r, h, hr⟩ := C108_marginal_partial { duration := 0, ror := 0.1, omega := 1 } ⟨20, 10, 1, 1, 1, 0⟩ (fun _ => 0) measurable_const
    (by norm_num) (by norm_num) (by norm_num) (by norm_num)
  refine ⟨r, h, ?_⟩
  simpa using hr (fun _ => 1) measurable_const

theorem mem_durEccSigns {n : ℕ} {l : List Bool} : l ∈ durEccSigns n ↔ l.length = n := by
  induction n generalizing l with
  | zero => simp [durEccSigns]
  | succ n ih =>
    cases l with
    | nil => simp [durEccSigns]
    | cons x l => cases x <;> simp [durEccSigns, ih]

/-- The branches of all planets that are valid. -/
theorem signs_iff (ps : List DurEccPlanet) (h : ∀ p ∈ ps, -1 ≤ p.s ∧ p.s ≤ 1 ∧ 0 < p.u) (es : List ℝ) :
    (∃ signs : List Bool, signs.length = ps.length ∧ (List.zipWith DurEccPlanet.branch ps signs).all validEcc = true ∧
      ((List.zipWith DurEccPlanet.branch ps signs).map fun e => if validEcc e then e.getD 0 else 0) = es) ↔
      List.Forall₂ (fun (p : DurEccPlanet) e => 0 ≤ e ∧ e < 1 ∧ durationRatio p.s e = p.u) ps es := by
  induction ps generalizing es with
  | nil =>
    rw [List.forall₂_nil_left_iff]
    constructor
    · rintro ⟨signs, _, _, rfl⟩
      simp
    · rintro rfl
      exact ⟨[], rfl, rfl, rfl⟩
  | cons p ps ih =>
    have hp := h p (List.mem_cons_self)
    have ih' := ih fun q hq => h q (List.mem_cons_of_mem _ hq)
    have one : ∀ e : ℝ, (∃ sign, validEcc (p.branch sign) = true ∧ (p.branch sign).getD 0 = e) ↔ 0 ≤ e ∧ e < 1 ∧ durationRatio p.s e = p.u := by
      intro e
      constructor
      · rintro ⟨sign, hv, rfl⟩
        unfold DurEccPlanet.branch at hv ⊢
        by_cases hr : (p.s ^ 2 - 1) * p.u ^ 2 + 1 < 0
        · rw [if_pos hr] at hv
          simp [validEcc] at hv
        · rw [if_neg hr] at hv ⊢
          simp only [validEcc, decide_eq_true_eq, Option.getD_some] at hv ⊢
          refine ⟨hv.2, hv.1, (C68_candidates_are_the_solutions_partial p.s p.u _ hp.1 hp.2.1 hp.2.2 hv.2 hv.1).2 ⟨not_lt.1 hr, ?_⟩⟩
          cases sign
          · left; simp; ring
          · right; simp
      · rintro ⟨h0, h1, h2⟩
        obtain ⟨hr, h3⟩ := (C68_candidates_are_the_solutions_partial p.s p.u e hp.1 hp.2.1 hp.2.2 h0 h1).1 h2
        rcases h3 with h3 | h3
        · refine ⟨false, ?_⟩
          have : p.branch false = some e := by
            rw [DurEccPlanet.branch, if_neg (not_lt.2 hr), h3]; simp; ring
          rw [this]
          simp [validEcc, h0, h1]
        · refine ⟨true, ?_⟩
          have : p.branch true = some e := by
            rw [DurEccPlanet.branch, if_neg (not_lt.2 hr), h3]; simp
          rw [this]
          simp [validEcc, h0, h1]
    cases es with
    | nil =>
      simp only [List.forall₂_nil_right_iff, reduceCtorEq, iff_false]
      rintro ⟨signs, hl, -, hm⟩
      cases signs with
      | nil => simp at hl
      | cons x l => simp at hm
    | cons e es =>
      rw [List.forall₂_cons, ← one e, ← ih' es]
      constructor
      · rintro ⟨signs, hl, hv, hm⟩
        cases signs with
        | nil => simp at hl
        | cons x l =>
          simp only [List.zipWith_cons_cons, List.all_cons, Bool.and_eq_true, List.map_cons, List.cons.injEq] at hv hm
          rw [if_pos hv.1] at hm
          exact ⟨⟨x, hv.1, hm.1⟩, l, by simpa using hl, hv.2, hm.2⟩
      · rintro ⟨⟨x, hx, he⟩, l, hl, hv, hm⟩
        refine ⟨x :: l, by simp [hl], ?_, ?_⟩
        · simp only [List.zipWith_cons_cons, List.all_cons, hx, hv, Bool.and_self]
        · simp only [List.zipWith_cons_cons, List.map_cons, hx, if_true, he, hm]

/-- C108 (partial: see above). With several planets, the branches that are counted are exactly the combinations of eccentricities
that give the planets their durations; each is counted with its likelihood. -/
theorem C108_branches_partial (func : List ℝ → EReal) (ps : List DurEccPlanet) (h : ∀ p ∈ ps, -1 ≤ p.s ∧ p.s ≤ 1 ∧ 0 < p.u) (es : List ℝ) :
    ((∃ c ∈ durEccBranches func ps, c.logjac ≠ ⊥ ∧ c.ecc = es) ↔
      List.Forall₂ (fun (p : DurEccPlanet) e => 0 ≤ e ∧ e < 1 ∧ durationRatio p.s e = p.u) ps es) ∧
    (durEccBranches func ps).length = 2 ^ ps.length ∧ ∀ c ∈ durEccBranches func ps, c.logprob = func c.ecc := by
  refine ⟨?_, ?_, ?_⟩
  · rw [← signs_iff ps h es]
    constructor
    · rintro ⟨c, hc, hj, he⟩
      obtain ⟨signs, hs, rfl⟩ := List.mem_map.1 hc
      refine ⟨signs, mem_durEccSigns.1 hs, ?_, he⟩
      by_contra hn
      apply hj
      simp only [durEccBranchOf, if_neg hn]
    · rintro ⟨signs, hl, hv, hm⟩
      refine ⟨_, List.mem_map.2 ⟨signs, mem_durEccSigns.2 hl, rfl⟩, ?_, hm⟩
      simp only [durEccBranchOf, if_pos hv]
      exact EReal.coe_ne_bot _
  · unfold durEccBranches
    simp only [List.length_map]
    generalize ps.length = n
    induction n with
    | zero => rfl
    | succ n ih => simp [durEccSigns, ih, pow_succ, mul_two]
  · intro c hc
    obtain ⟨signs, _, rfl⟩ := List.mem_map.1 hc
    rfl

/-- A case with the hypotheses met: two planets with transits at apastron and periastron. -/
example : ∃ c ∈ durEccBranches (fun _ => 0) [⟨-1, 1, √(1 - (0.6 : ℝ) ^ 2) / (1 + 0.6 * -1)⟩, ⟨1, 1, √(1 - (0.5 : ℝ) ^ 2) / (1 + 0.5 * 1)⟩],
    c.logjac ≠ ⊥ ∧ c.ecc = [0.6, 0.5] := by
  refine (C108_branches_partial _ _ ?_ _).1.2 ?_
  · have h1 : 0 < √(1 - (0.6 : ℝ) ^ 2) / (1 + 0.6 * -1) := div_pos (sqrt_pos.2 (by norm_num)) (by norm_num)
    have h2 : 0 < √(1 - (0.5 : ℝ) ^ 2) / (1 + 0.5 * 1) := div_pos (sqrt_pos.2 (by norm_num)) (by norm_num)
    intro p hp
    simp only [List.mem_cons, List.not_mem_nil, or_false] at hp
    rcases hp with rfl | rfl
    · exact ⟨le_rfl, by norm_num, h1⟩
    · exact ⟨by norm_num, le_rfl, h2⟩
  · refine List.Forall₂.cons ⟨by norm_num, by norm_num, rfl⟩ (List.Forall₂.cons ⟨by norm_num, by norm_num, rfl⟩ List.Forall₂.nil)

/-- A valid branch of an accepted duration is not at the turning point. -/
theorem branch_ne {p : DurEccPlanet} (hs : -1 ≤ p.s) (hs' : p.s ≤ 1) (hu : 0 < p.u) (hacc : p.accepted = true) {e : ℝ} (he : 0 ≤ e)
    (he' : e < 1) (h : durationRatio p.s e = p.u) : e + p.s ≠ 0 := by
  have hacc' : durEccUmaxInv p.s < 1 / p.u := by simpa [DurEccPlanet.accepted] using hacc
  have hrad := durEcc_radicand hs hu hacc'
  have hroot := durEcc_root hs he he' h
  intro h0
  rw [h0, zero_div] at hroot
  obtain ⟨-, hsol⟩ := (C68_candidates_are_the_solutions_partial p.s p.u e hs hs' hu he he').1 h
  have hk : 0 < (p.s * p.u) ^ 2 + 1 := by positivity
  have hsq := sqrt_pos.2 hrad
  have hE : durEccE1 p.s p.u = -p.s * p.u ^ 2 / ((p.s * p.u) ^ 2 + 1) := rfl
  have hE2 : durEccE2 p.s p.u = √((p.s ^ 2 - 1) * p.u ^ 2 + 1) / ((p.s * p.u) ^ 2 + 1) := rfl
  rcases hsol with h | h
  · rw [hE, hE2, ← sub_div, eq_div_iff hk.ne'] at h
    nlinarith
  · rw [hE, hE2, ← add_div, eq_div_iff hk.ne'] at h
    nlinarith

/-- A valid branch has the duration of its planet. -/
theorem branch_valid {p : DurEccPlanet} (hs : -1 ≤ p.s) (hs' : p.s ≤ 1) (hu : 0 < p.u) {sign : Bool} (hv : validEcc (p.branch sign) = true) :
    ∃ e, p.branch sign = some e ∧ 0 ≤ e ∧ e < 1 ∧ durationRatio p.s e = p.u := by
  cases hb : p.branch sign with
  | none => rw [hb] at hv; simp [validEcc] at hv
  | some e =>
    rw [hb] at hv
    simp only [validEcc, decide_eq_true_eq] at hv
    refine ⟨e, rfl, hv.2, hv.1, (C68_candidates_are_the_solutions_partial p.s p.u e hs hs' hu hv.2 hv.1).2 ?_⟩
    unfold DurEccPlanet.branch at hb
    split_ifs at hb with h1 h2
    · simp only [one_mul, Option.some.injEq] at hb
      exact ⟨not_lt.1 h1, Or.inr hb.symm⟩
    · simp only [Option.some.injEq] at hb
      exact ⟨not_lt.1 h1, Or.inl (by rw [← hb]; ring)⟩

/-- How fast the eccentricity changes with the duration. -/
noncomputable def eccPerDuration (p : DurEccPlanet) (e : ℝ) : ℝ := |deriv (fun e => p.const * durationRatio p.s e) e|⁻¹

theorem exp_logjac {p : DurEccPlanet} (hs : -1 ≤ p.s) (hs' : p.s ≤ 1) (hc : 0 < p.const) {e : ℝ} (he : 0 ≤ e) (he' : e < 1) (h : e + p.s ≠ 0) :
    exp (durEccLogJac p.s p.const e) = eccPerDuration p e := by
  obtain ⟨h1, h2⟩ := hasDerivAt_duration hs hs' hc he he' h
  rw [h2, eccPerDuration, h1.deriv]

/-- C108 (partial: see above). A combination of eccentricities is weighted with the product of the rates at which the eccentricities
change with the durations. -/
theorem C108_jacobian_partial (func : List ℝ → EReal) (ps : List DurEccPlanet)
    (h : ∀ p ∈ ps, -1 ≤ p.s ∧ p.s ≤ 1 ∧ 0 < p.const ∧ 0 < p.u ∧ p.accepted = true) (c : DurEccBranch) (hc : c ∈ durEccBranches func ps)
    (hj : c.logjac ≠ ⊥) : EReal.exp c.logjac = ENNReal.ofReal (List.zipWith eccPerDuration ps c.ecc).prod := by
  obtain ⟨signs, hs, rfl⟩ := List.mem_map.1 hc
  have hv : (List.zipWith DurEccPlanet.branch ps signs).all validEcc = true := by
    by_contra hn
    exact hj (by simp only [durEccBranchOf, if_neg hn])
  have hl := mem_durEccSigns.1 hs
  clear hj hc hs
  simp only [durEccBranchOf, if_pos hv]
  rw [EReal.exp_coe]
  congr 1
  induction ps generalizing signs with
  | nil => simp
  | cons p ps ih =>
    cases signs with
    | nil => simp at hl
    | cons x signs =>
      have hp := h p List.mem_cons_self
      simp only [List.zipWith_cons_cons, List.all_cons, Bool.and_eq_true] at hv
      simp only [List.zipWith_cons_cons, List.map_cons, List.sum_cons, List.prod_cons, exp_add, if_pos hv.1]
      rw [ih (fun q hq => h q (List.mem_cons_of_mem _ hq)) signs hv.2 (by simpa using hl)]
      obtain ⟨e, hb, he, he', hd⟩ := branch_valid hp.1 hp.2.1 hp.2.2.2.1 hv.1
      rw [hb, Option.getD_some, exp_logjac hp.1 hp.2.1 hp.2.2.1 he he' (branch_ne hp.1 hp.2.1 hp.2.2.2.1 hp.2.2.2.2 he he' hd)]

/-- One planet: the Jacobian of a branch. -/
theorem exp_logjac_one (func : List ℝ → EReal) (p : DurEccPlanet) (sign : Bool) :
    EReal.exp (durEccBranchOf func [p] [sign]).logjac =
      if validEcc (p.branch sign) then ENNReal.ofReal (exp (durEccLogJac p.s p.const ((p.branch sign).getD 0))) else 0 := by
  by_cases hv : validEcc (p.branch sign) <;> simp [durEccBranchOf, hv]

/-- The weights of one planet. -/
theorem exp_weightOf (func : List ℝ → EReal) (p : DurEccPlanet) (hacc : p.accepted = true) (sign : Bool) :
    EReal.exp (weightOf func p sign) = EReal.exp (durEccBranchOf func [p] [sign]).logjac *
      (EReal.exp (durEccBranchOf func [p] [false]).logjac + EReal.exp (durEccBranchOf func [p] [true]).logjac)⁻¹ := by
  unfold weightOf
  rw [if_pos hacc, sub_eq_add_neg, EReal.exp_add, EReal.exp_neg]
  simp [logsumexp]

/-- One planet: the eccentricities that are averaged. -/
theorem average_one (func : List ℝ → EReal) (p : DurEccPlanet) (hs : -1 ≤ p.s) (hs' : p.s ≤ 1) (hc : 0 < p.const) (hu : 0 < p.u)
    (hacc : p.accepted = true) :
    ∃ (J : Bool → ℝ) (E : Bool → ℝ), (∀ b, EReal.exp (durEccBranchOf func [p] [b]).logjac = ENNReal.ofReal (J b)) ∧
      (∀ b, (if validEcc (p.branch b) then (p.branch b).getD 0 else 0) = E b) ∧
      (∀ b, 0 ≤ E b ∧ E b < 1 ∧ ((J b = 0 ∧ validEcc (p.branch b) = false) ∨ (0 < J b ∧ p.branch b = some (E b) ∧ durationRatio p.s (E b) = p.u ∧ J b = eccPerDuration p (E b)))) := by
  refine ⟨fun b => if validEcc (p.branch b) then exp (durEccLogJac p.s p.const ((p.branch b).getD 0)) else 0,
    fun b => if validEcc (p.branch b) then (p.branch b).getD 0 else 0, fun b => ?_, fun b => rfl, fun b => ?_⟩
  · rw [exp_logjac_one]
    by_cases hv : validEcc (p.branch b) = true <;> simp [hv]
  · by_cases hv : validEcc (p.branch b) = true
    · obtain ⟨e, hb, he, he', hd⟩ := branch_valid hs hs' hu hv
      simp only [if_pos hv]
      rw [hb, Option.getD_some]
      refine ⟨he, he', Or.inr ⟨exp_pos _, rfl, hd, ?_⟩⟩
      exact exp_logjac hs hs' hc he he' (branch_ne hs hs' hu hacc he he' hd)
    · have hv' : validEcc (p.branch b) = false := by simpa using hv
      simp [hv']

/-- C108 (partial: see above). For a planet with a possible duration the weights add up to one, and the eccentricity that is reported is
an eccentricity: if only one eccentricity has the duration it is that one; if two have it, it is their mean, weighted with the rates. -/
theorem C108_weights_partial (func : List ℝ → EReal) (p : DurEccPlanet) (hs : -1 < p.s) (hs' : p.s ≤ 1) (hc : 0 < p.const) (hu : 0 < p.u)
    (hacc : p.accepted = true) :
    ∃ r avg, durEccMarginal .pymc3 func [p] = .ok r ∧ (r.logw.map EReal.exp).sum = 1 ∧ r.average = ("ecc", [avg]) ∧ 0 ≤ avg ∧ avg < 1 ∧
      (∀ e, (∀ e', 0 ≤ e' → e' < 1 → (durationRatio p.s e' = p.u ↔ e' = e)) → avg = e) ∧
      ∀ e₁ e₂, e₁ ≠ e₂ → 0 ≤ e₁ → e₁ < 1 → 0 ≤ e₂ → e₂ < 1 → durationRatio p.s e₁ = p.u → durationRatio p.s e₂ = p.u →
        avg = (eccPerDuration p e₁ * e₁ + eccPerDuration p e₂ * e₂) / (eccPerDuration p e₁ + eccPerDuration p e₂) := by
  obtain ⟨J, E, hJ, hE, hb⟩ := average_one func p hs.le hs' hc hu hacc
  have hacc' : durEccUmaxInv p.s < 1 / p.u := by simpa [DurEccPlanet.accepted] using hacc
  obtain ⟨e₀, h0, h1, h2⟩ := (C68_solvable_iff p.s p.u hs hs' hu).2 hacc'.le
  have hJ0 : ∀ b, 0 ≤ J b := fun b => (hb b).2.2.elim (fun h => h.1.ge) fun h => h.1.le
  -- every solution is a branch
  have hsol : ∀ e, 0 ≤ e → e < 1 → durationRatio p.s e = p.u → ∃ b, E b = e ∧ 0 < J b := by
    intro e he he' hd
    obtain ⟨hr, h3⟩ := (C68_candidates_are_the_solutions_partial p.s p.u e hs.le hs' hu he he').1 hd
    have hbr : ∃ b, p.branch b = some e := by
      rcases h3 with h3 | h3
      · exact ⟨false, by rw [DurEccPlanet.branch, if_neg (not_lt.2 hr), h3]; simp; ring⟩
      · exact ⟨true, by rw [DurEccPlanet.branch, if_neg (not_lt.2 hr), h3]; simp⟩
    obtain ⟨b, hbr⟩ := hbr
    have hv : validEcc (p.branch b) = true := by rw [hbr]; simp [validEcc, he, he']
    refine ⟨b, ?_, ?_⟩
    · rw [← hE b, if_pos hv, hbr, Option.getD_some]
    · rcases (hb b).2.2 with h | h
      · rw [h.2] at hv; simp at hv
      · exact h.1
  have hsum : 0 < J false + J true := by
    obtain ⟨b, -, hpos⟩ := hsol e₀ h0 h1 h2
    cases b
    · linarith [hJ0 true]
    · linarith [hJ0 false]
  have hw : ∀ b, EReal.exp (weightOf func p b) = ENNReal.ofReal (J b / (J false + J true)) := by
    intro b
    rw [exp_weightOf func p hacc, hJ, hJ, hJ, ← ENNReal.ofReal_add (hJ0 _) (hJ0 _), ← div_eq_mul_inv, ENNReal.ofReal_div_of_pos hsum]
  have havg : (EReal.exp (weightOf func p false)).toReal * E false + (EReal.exp (weightOf func p true)).toReal * E true =
      (J false * E false + J true * E true) / (J false + J true) := by
    rw [hw, hw, ENNReal.toReal_ofReal (div_nonneg (hJ0 _) hsum.le), ENNReal.toReal_ofReal (div_nonneg (hJ0 _) hsum.le)]
    ring
  refine ⟨_, (J false * E false + J true * E true) / (J false + J true), durEccMarginal_one func p, ?_, ?_, ?_, ?_, ?_, ?_⟩
  · simp only [List.map_cons, List.map_nil, List.sum_cons, List.sum_nil, add_zero, hw]
    rw [← ENNReal.ofReal_add (div_nonneg (hJ0 _) hsum.le) (div_nonneg (hJ0 _) hsum.le), ← add_div, div_self hsum.ne', ENNReal.ofReal_one]
  · simp only [hE, havg]
  · exact div_nonneg (add_nonneg (mul_nonneg (hJ0 _) (hb _).1) (mul_nonneg (hJ0 _) (hb _).1)) hsum.le
  · rw [div_lt_one hsum]
    have a1 := (hb false).2.1
    have a2 := (hb true).2.1
    have j1 := hJ0 false
    have j2 := hJ0 true
    rcases j1.eq_or_lt with j1' | j1'
    · rw [← j1'] at hsum ⊢
      nlinarith
    · nlinarith
  · intro e he
    have hall : ∀ b, J b * E b = J b * e := by
      intro b
      rcases (hb b).2.2 with h | h
      · rw [h.1]; simp
      · rw [(he (E b) (hb b).1 (hb b).2.1).1 h.2.2.1]
    rw [hall, hall, ← add_mul, mul_div_assoc, mul_comm, div_mul_cancel₀ _ hsum.ne']
  · intro e₁ e₂ hne a1 a2 a3 a4 d1 d2
    obtain ⟨b1, hb1, hp1⟩ := hsol e₁ a1 a2 d1
    obtain ⟨b2, hb2, hp2⟩ := hsol e₂ a3 a4 d2
    have hbb : b1 ≠ b2 := by
      rintro rfl
      exact hne (hb1.symm.trans hb2)
    have k : ∀ b, 0 < J b → J b = eccPerDuration p (E b) := by
      intro b hp
      rcases (hb b).2.2 with h | h
      · exact absurd h.1 hp.ne'
      · exact h.2.2.2
    have k1 := k b1 hp1
    have k2 := k b2 hp2
    rw [hb1] at k1
    rw [hb2] at k2
    cases b1 <;> cases b2
    · exact absurd rfl hbb
    · rw [k1, k2, hb1, hb2]
    · rw [k1, k2, hb1, hb2, add_comm, add_comm (eccPerDuration p e₂)]
    · exact absurd rfl hbb

/-- A case with the hypotheses met: the duration of a circular orbit, with two eccentricities (0 and 0.8). -/
theorem demoBoth_accepted : DurEccPlanet.accepted ⟨-1 / 2, 1, 1⟩ = true := by
  simp only [DurEccPlanet.accepted, durEccUmaxInv, decide_eq_true_eq]
  rw [if_pos (by norm_num), sqrt_lt' (by norm_num)]
  norm_num

theorem demoBoth_ratio : durationRatio (-1 / 2) 0 = 1 ∧ durationRatio (-1 / 2) 0.8 = 1 := by
  refine ⟨by simp [durationRatio], ?_⟩
  unfold durationRatio
  rw [show (1 : ℝ) - 0.8 ^ 2 = 0.6 ^ 2 by norm_num, sqrt_sq (by norm_num)]
  norm_num

/-- The rates of the example. -/
theorem demoBoth_rate : eccPerDuration ⟨-1 / 2, 1, 1⟩ 0 = 2 ∧ eccPerDuration ⟨-1 / 2, 1, 1⟩ 0.8 = 0.72 := by
  constructor
  · rw [eccPerDuration, (hasDerivAt_duration (s := -1 / 2) (c := 1) (e := 0) (by norm_num) (by norm_num) (by norm_num) le_rfl (by norm_num)
      (by norm_num)).1.deriv]
    norm_num [abs_of_pos]
  · rw [eccPerDuration, (hasDerivAt_duration (s := -1 / 2) (c := 1) (e := 0.8) (by norm_num) (by norm_num) (by norm_num) (by norm_num)
      (by norm_num) (by norm_num)).1.deriv, show (1 : ℝ) - 0.8 ^ 2 = 0.6 ^ 2 by norm_num, sqrt_sq (by norm_num)]
    norm_num [abs_of_pos]

example : ∃ r, durEccMarginal .pymc3 (fun _ => 0) [⟨-1 / 2, 1, 1⟩] = .ok r ∧ (r.logw.map EReal.exp).sum = 1 ∧ r.average = ("ecc", [(0.8 * 0.72) / 2.72]) := by
  obtain ⟨r, avg, h1, h2, h3, -, -, -, h4⟩ := C108_weights_partial (fun _ => 0) ⟨-1 / 2, 1, 1⟩ (by norm_num) (by norm_num) (by norm_num)
    (by norm_num) demoBoth_accepted
  refine ⟨r, h1, h2, ?_⟩
  rw [h3, h4 0 0.8 (by norm_num) le_rfl (by norm_num) (by norm_num) (by norm_num) demoBoth_ratio.1 demoBoth_ratio.2, demoBoth_rate.1,
    demoBoth_rate.2]
  norm_num

/-- C108 is false of the code for two or more planets: the weights (one for each of the `2 ^ n` branches) are selected with a
condition that has one entry per planet, which cannot be broadcast. -/
theorem C108_counterexample_planets (b : Backend) (func : List ℝ → EReal) (ps : List DurEccPlanet) (h : 2 ≤ ps.length) :
    durEccMarginal b func ps = .error .shapeMismatch := by
  have hlen : (durEccBranches func ps).length = 2 ^ ps.length := by
    unfold durEccBranches
    simp only [List.length_map]
    generalize ps.length = n
    induction n with
    | zero => rfl
    | succ n ih => simp [durEccSigns, ih, pow_succ, mul_two]
  have hlt : ps.length < 2 ^ ps.length := Nat.lt_two_pow_self
  have hb : durEccLogw func ps = .error .shapeMismatch := by
    unfold durEccLogw
    have key : ∀ (f : Bool → EReal → EReal) (u : List Bool) (v : List EReal), 2 ≤ u.length → u.length < v.length → bcast f u v = .error .shapeMismatch := by
      intro f u v h1 h2
      unfold bcast
      rw [if_neg h2.ne]
      match u, v, h1, h2 with
      | [], _, h1, _ => simp at h1
      | [_], _, h1, _ => simp at h1
      | _ :: _ :: _, [], _, h2 => simp at h2
      | _ :: _ :: _, [_], _, h2 => simp at h2
      | _ :: _ :: _, _ :: _ :: _, _, _ => rfl
    refine key _ _ _ (by simpa using h) ?_
    simp only [List.length_map, hlen]
    exact hlt
  unfold durEccMarginal
  rw [hb]
  rfl

example (b : Backend) : durEccMarginal b (fun _ => 0) [⟨0, 1, 0.5⟩, ⟨0, 1, 0.5⟩] = .error .shapeMismatch :=
  C108_counterexample_planets b _ _ (by simp)

/-- C108 is false of the code for two or more planets in another respect: the potential has one entry per planet, all of them equal to
the logarithm of the marginal density, so that the factor is a power of the marginal density. -/
theorem C108_counterexample_power (func : List ℝ → EReal) (ps : List DurEccPlanet) (h : ∀ p ∈ ps, p.accepted = true) (w : List EReal)
    (a : String × List ℝ) : (DurEccResult.mk (durEccLogp func ps) w a).factor =
      ((durEccBranches func ps).map fun c => EReal.exp c.logprob * EReal.exp c.logjac).sum ^ ps.length := by
  have hl : durEccLogp func ps = List.replicate ps.length (logsumexp ((durEccBranches func ps).map fun c => c.logprob + c.logjac)) := by
    rw [List.eq_replicate_iff]
    refine ⟨by simp [durEccLogp], fun x hx => ?_⟩
    obtain ⟨p, hp, rfl⟩ := List.mem_map.1 hx
    rw [if_pos (h p hp)]
  unfold DurEccResult.factor
  show EReal.exp (durEccLogp func ps).sum = _
  rw [hl]
  generalize ps.length = n
  induction n with
  | zero => simp
  | succ n ih =>
    rw [List.replicate_succ, List.sum_cons, EReal.exp_add, ih, pow_succ, mul_comm]
    congr 1
    simp [logsumexp, List.map_map, Function.comp_def, EReal.exp_add]

/-- C108 is false of the code on PyMC: the variables of a sub-model have names with `::`, so that looking them up fails. -/
theorem C108_counterexample_pymc (func : List ℝ → EReal) (p : DurEccPlanet) :
    durEccMarginal .pymc func [p] = .error (.keyError "dur_ecc_n_:ecc") := by
  have hn : dropPrefix "dur_ecc_n" "dur_ecc_n::ecc" = ":ecc" := by decide
  have h1 : subName .pymc "dur_ecc_n" "ecc" = "dur_ecc_n::ecc" := by decide
  have h3 : ¬ "dur_ecc_n_:ecc" = "dur_ecc_n::ecc" := by decide
  unfold durEccMarginal
  rw [durEccLogw_one]
  simp only [bind, Except.bind]
  simp [durEccAverage, durEccBranches, durEccSigns, durEccBranchOf, label_n, label_p, namedVar, hn, h1, h3, bind, Except.bind, pure, Except.pure]

/-- C108 is false of the code: the average that is reported ignores the likelihood. Here the likelihood excludes all eccentricities but
zero, and zero is possible, but the eccentricity that is reported is not zero. -/
theorem C108_counterexample_average :
    let func : List ℝ → EReal := fun es => if es = [0] then 0 else ⊥
    ∃ r avg, durEccMarginal .pymc3 func [⟨-1 / 2, 1, 1⟩] = .ok r ∧ r.factor = 2 ∧ r.average = ("ecc", [avg]) ∧ avg ≠ 0 := by
  intro func
  obtain ⟨r, avg, h1, -, h3, -, -, -, h4⟩ := C108_weights_partial func ⟨-1 / 2, 1, 1⟩ (by norm_num) (by norm_num) (by norm_num)
    (by norm_num) demoBoth_accepted
  refine ⟨r, avg, h1, ?_, h3, ?_⟩
  · rw [durEccMarginal_one] at h1
    rw [← Except.ok.inj h1]
    have hl : (⟨-1 / 2, 1, 1⟩ : DurEccPlanet) = lasting (-1 / 2) 1 1 := by simp [lasting]
    have hrad : ¬ (((-1 / 2 : ℝ) ^ 2 - 1) * 1 ^ 2 + 1 < 0) := by norm_num
    have hsq : √(((-1 / 2 : ℝ) ^ 2 - 1) * 1 ^ 2 + 1) = 1 / 2 := by
      rw [show ((-1 / 2 : ℝ) ^ 2 - 1) * 1 ^ 2 + 1 = (1 / 2) ^ 2 by norm_num, sqrt_sq (by norm_num)]
    have b1 : (lasting (-1 / 2) 1 1).branch false = some 0 := by
      rw [← hl]
      simp only [DurEccPlanet.branch, if_neg hrad, durEccE1, durEccE2, hsq]
      norm_num
    have b2 : (lasting (-1 / 2) 1 1).branch true = some 0.8 := by
      rw [← hl]
      simp only [DurEccPlanet.branch, if_neg hrad, durEccE1, durEccE2, hsq]
      norm_num
    have hacc : (lasting (-1 / 2) 1 1).accepted = true := by rw [← hl]; exact demoBoth_accepted
    have hj := exp_logjac (p := ⟨-1 / 2, 1, 1⟩) (by norm_num) (by norm_num) (by norm_num) (e := 0) le_rfl one_pos (by norm_num)
    rw [demoBoth_rate.1] at hj
    rw [hl, factor_one]
    unfold branchTerm
    rw [b1, b2]
    simp only [Option.getD_some, hacc, validEcc, true_and]
    have hj' : exp (durEccLogJac (-1 / 2) 1 0) = 2 := hj
    rw [hj']
    norm_num [func]
  · rw [h4 0 0.8 (by norm_num) le_rfl (by norm_num) (by norm_num) (by norm_num) demoBoth_ratio.1 demoBoth_ratio.2, demoBoth_rate.1,
      demoBoth_rate.2]
    norm_num

end Exo
