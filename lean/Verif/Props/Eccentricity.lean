import Verif.Lemmas.Eccentricity
import Verif.Props.Distributions

/-!
# C52-C54: eccentricity priors and start-value keywords
-/

namespace Exo
open Kwargs MeasureTheory
open scoped ENNReal

/-! ## C52 -/

/-- The names of the hyperparameters differ from the name of the eccentricity. -/
theorem subName_ne (b : Backend) (name s : String) : subName b name s ≠ name := by
  intro h
  have := congrArg String.length h
  cases b
  · simp only [subName, String.length_append] at this
    have h1 : "_".length = 1 := rfl
    omega
  · simp only [subName, String.length_append] at this
    have h1 : "::".length = 2 := rfl
    omega

theorem truncate_name (b : Backend) (n : String) (f : Family) (lo hi : Option ℝ) (K : Kwargs) : (truncate b n f lo hi K).name = n := by
  cases b
  · rfl
  · unfold truncate
    simp only [popInitval_eq]
    rfl

theorem kippingBounded_name (b : Backend) (n : String) {alpha beta : Val} {lo hi : ℝ} {ecc : Val} {K : Kwargs} {r : Reg}
    (h : kippingBounded b n alpha beta lo hi ecc K = .ok r) : r.name = n := by
  unfold kippingBounded at h
  split at h
  · cases b
    · cases h
    · cases hm : Kwargs.merge [("alpha", alpha), ("beta", beta)] K with
      | error e => simp only [hm] at h; cases h
      | ok kw => simp only [hm] at h; injection h with h; subst h; rfl
  · rw [popInitval_eq] at h
    simp only at h
    cases hm : Kwargs.merge [("alpha", alpha), ("beta", beta)] (withInitval b ((strip K).set "initval"
        (K.get "initval" (K.get "testval" (Val.ofReal (0.5 * (lo + hi))))))) with
    | error e => rw [hm] at h; cases h
    | ok kw => rw [hm] at h; injection h with h; subst h; exact truncate_name ..

theorem kippingUnbounded_name (n : String) {alpha beta : Val} {ecc : Val} {K : Kwargs} {r : Reg}
    (h : kippingUnbounded n alpha beta ecc K = .ok r) : r.name = n := by
  unfold kippingUnbounded at h
  cases hm : Kwargs.merge [("alpha", alpha), ("beta", beta)] K with
  | error e => simp only [hm] at h; split at h <;> cases h
  | ok kw =>
    simp only [hm] at h
    split at h
    · injection h with h; subst h; rfl
    · injection h with h; subst h; rfl

/-- What `kipping13` registers last. -/
noncomputable def kippingLast (b : Backend) (name : String) (alpha beta : Val) (lower upper : Option ℝ) (ecc : Val) (K : Kwargs) :
    Except PyErr Reg :=
  match lower, upper with
  | none, none => kippingUnbounded name alpha beta ecc K
  | lower, upper => kippingBounded b name alpha beta (lower.getD 0) (upper.getD 1) ecc K

theorem kipping13_eq (b : Backend) (name : String) (fixed : Bool) (long : Option Bool) (lower upper : Option ℝ) (K : Kwargs) :
    kipping13 b name fixed long lower upper K =
      (kippingLast b name (kippingHyper b name fixed long).2.1 (kippingHyper b name fixed long).2.2 lower upper
        (K.get "observed" .none) (K.del "observed")).map ((kippingHyper b name fixed long).1 ++ [·]) := by
  unfold kipping13 kippingLast
  simp only [Kwargs.pop]
  cases lower <;> cases upper <;> simp only [] <;> split <;> rename_i h <;> rw [h] <;> rfl

/-- The call succeeded, taken apart. -/
theorem kipping13_ok (b : Backend) (name : String) (fixed : Bool) (long : Option Bool) (lower upper : Option ℝ) {K : Kwargs}
    {rs : List Reg} (h : kipping13 b name fixed long lower upper K = .ok rs) : ∃ r,
    kippingLast b name (kippingHyper b name fixed long).2.1 (kippingHyper b name fixed long).2.2 lower upper
      (K.get "observed" .none) (K.del "observed") = .ok r ∧ rs = (kippingHyper b name fixed long).1 ++ [r] := by
  rw [kipping13_eq] at h
  cases hl : kippingLast b name (kippingHyper b name fixed long).2.1 (kippingHyper b name fixed long).2.2 lower upper
      (K.get "observed" .none) (K.del "observed") with
  | error e => rw [hl] at h; cases h
  | ok r => rw [hl] at h; injection h with h; exact ⟨r, rfl, h.symm⟩

theorem kippingLast_name (b : Backend) (n : String) {alpha beta : Val} {lower upper : Option ℝ} {ecc : Val} {K : Kwargs} {r : Reg}
    (h : kippingLast b n alpha beta lower upper ecc K = .ok r) : r.name = n := by
  unfold kippingLast at h
  cases lower <;> cases upper
  · exact kippingUnbounded_name n h
  all_goals exact kippingBounded_name b n h

/-- **C52** (registration): exactly the two hyperparameters when `fixed=False`, none when `fixed=True`, and then the eccentricity under
its name; nothing else has that name. -/
theorem C52_registration (b : Backend) (name : String) (fixed : Bool) (long : Option Bool) (lower upper : Option ℝ) {K : Kwargs}
    {rs : List Reg} (h : kipping13 b name fixed long lower upper K = .ok rs) :
    rs.map Reg.name = (if fixed then [] else [subName b name "alpha", subName b name "beta"]) ++ [name] ∧
    rs.countP (fun r => r.name = name) = 1 := by
  obtain ⟨r, hr, rfl⟩ := kipping13_ok b name fixed long lower upper h
  have hn := kippingLast_name b name hr
  have e : ((kippingHyper b name fixed long).1 ++ [r]).map Reg.name =
      (if fixed then [] else [subName b name "alpha", subName b name "beta"]) ++ [name] := by
    unfold kippingHyper
    cases fixed
    · simp [hyper, truncate_name, hn]
    · simp [hn]
  refine ⟨e, ?_⟩
  have : ((kippingHyper b name fixed long).1 ++ [r]).countP (fun r => r.name = name) =
      (((kippingHyper b name fixed long).1 ++ [r]).map Reg.name).countP (fun n => n = name) := by
    rw [List.countP_map]; rfl
  rw [this, e]
  cases fixed
  · have h1 := subName_ne b name "alpha"
    have h2 := subName_ne b name "beta"
    simp [h1, h2]
  · simp

/-- A hyperparameter is a free variable with lower limit `0` (and upper limit `hi`). -/
theorem hyper_interior (b : Backend) (name s : String) (hi : Option ℝ) (mu sd : ℝ) : ∃ d kw,
    hyper b name s hi mu sd = .free (subName b name s) d kw ∧
    ∀ σ x, d.Interior σ x ↔ 0 < x ∧ ∀ u, hi = some u → x < u := by
  unfold hyper truncate
  cases b
  · refine ⟨_, _, rfl, fun σ x => ?_⟩
    simp [Dist.Interior]
  · simp only [popInitval_eq]
    refine ⟨_, _, rfl, fun σ x => ?_⟩
    simp [Dist.Interior]

/-- **C52** (hyperparameters): with `fixed=False`, both hyperparameters are free variables, and positive in every state visited. -/
theorem C52_hyper_positive (b : Backend) (name : String) (long : Option Bool) (lower upper : Option ℝ) {K : Kwargs}
    {rs : List Reg} (h : kipping13 b name false long lower upper K = .ok rs) (σ : State) (hσ : Visited rs σ) :
    subName b name "alpha" ∈ freeNames rs ∧ subName b name "beta" ∈ freeNames rs ∧
    0 < σ (subName b name "alpha") ∧ 0 < σ (subName b name "beta") := by
  obtain ⟨r, hr, rfl⟩ := kipping13_ok b name false long lower upper h
  have e : (kippingHyper b name false long).1 = [hyper b name "alpha" none (kippingParams long).1 (kippingParams long).2.1,
    hyper b name "beta" none (kippingParams long).2.2.1 (kippingParams long).2.2.2] := rfl
  rw [e] at hσ ⊢
  obtain ⟨d1, k1, e1, i1⟩ := hyper_interior b name "alpha" none (kippingParams long).1 (kippingParams long).2.1
  obtain ⟨d2, k2, e2, i2⟩ := hyper_interior b name "beta" none (kippingParams long).2.2.1 (kippingParams long).2.2.2
  rw [e1, e2] at hσ ⊢
  refine ⟨?_, ?_, ?_, ?_⟩
  · simp [freeNames]
  · simp [freeNames]
  · exact ((i1 σ _).1 (hσ.2 _ d1 k1 (List.Mem.head _))).1
  · exact ((i2 σ _).1 (hσ.2 _ d2 k2 (List.Mem.tail _ (List.Mem.head _)))).1

theorem merge_ok {e d kw : Kwargs} (h : Kwargs.merge e d = .ok kw) : kw = e ++ d := by
  unfold Kwargs.merge at h
  split at h
  · cases h
  · injection h with h; exact h.symm

/-- The eccentricity variable when nothing is observed. -/
theorem kippingLast_free (b : Backend) (n : String) {alpha beta : Val} {lower upper : Option ℝ} {K : Kwargs} {r : Reg}
    (h : kippingLast b n alpha beta lower upper .none K = .ok r) : ∃ d kw, r = .free n d kw ∧
    d.params.get "alpha" .none = alpha ∧ d.params.get "beta" .none = beta ∧
    ((lower = none ∧ upper = none ∧ d = .plain .beta d.params) ∨
      (b = .pymc ∧ d = .truncated .beta d.params (some (lower.getD 0)) (some (upper.getD 1))) ∨
      (b = .pymc3 ∧ d = .bound .beta d.params (some (lower.getD 0)) (some (upper.getD 1)))) := by
  have hbd : ∀ lo hi, kippingBounded b n alpha beta lo hi .none K = .ok r → ∃ d kw, r = .free n d kw ∧
    d.params.get "alpha" .none = alpha ∧ d.params.get "beta" .none = beta ∧
      ((b = .pymc ∧ d = .truncated .beta d.params (some lo) (some hi)) ∨
      (b = .pymc3 ∧ d = .bound .beta d.params (some lo) (some hi))) := by
    intro lo hi h
    unfold kippingBounded at h
    simp only [popInitval_eq] at h
    cases hm : Kwargs.merge [("alpha", alpha), ("beta", beta)] (withInitval b ((strip K).set "initval"
        (K.get "initval" (K.get "testval" (Val.ofReal (0.5 * (lo + hi))))))) with
    | error e => rw [hm] at h; cases h
    | ok kw =>
      rw [hm] at h
      injection h with h
      have hkw := merge_ok hm
      have ga : kw.get "alpha" .none = alpha := by rw [hkw]; exact get_cons_self ..
      have gb : kw.get "beta" .none = beta := by
        rw [hkw]; exact (get_cons_ne (by decide) ..).trans (get_cons_self ..)
      subst h
      unfold truncate
      cases b
      · refine ⟨_, _, rfl, ?_, ?_, Or.inr ⟨rfl, rfl⟩⟩
        · simp only [Dist.params]; rw [get_withInitval _ (by decide) (by decide)]; exact ga
        · simp only [Dist.params]; rw [get_withInitval _ (by decide) (by decide)]; exact gb
      · simp only [popInitval_eq]
        refine ⟨_, _, rfl, ?_, ?_, Or.inl ⟨trivial, rfl⟩⟩
        · simp only [Dist.params]; rw [get_strip (by decide) (by decide)]; exact ga
        · simp only [Dist.params]; rw [get_strip (by decide) (by decide)]; exact gb
  unfold kippingLast at h
  cases lower with
  | none =>
    cases upper with
    | none =>
      simp only at h
      unfold kippingUnbounded at h
      simp only at h
      cases hm : Kwargs.merge [("alpha", alpha), ("beta", beta)] K with
      | error e => rw [hm] at h; cases h
      | ok kw =>
        rw [hm] at h
        injection h with h
        have hkw := merge_ok hm
        subst h
        refine ⟨_, _, rfl, ?_, ?_, Or.inl ⟨by trivial, by trivial, rfl⟩⟩
        · simp only [Dist.params]; rw [hkw]; exact get_cons_self ..
        · simp only [Dist.params]; rw [hkw]; exact (get_cons_ne (by decide) ..).trans (get_cons_self ..)
    | some u =>
      obtain ⟨d, kw, a1, a2, a3, a4⟩ := hbd _ _ h
      exact ⟨d, kw, a1, a2, a3, Or.inr a4⟩
  | some l =>
    have h' : kippingBounded b n alpha beta l (upper.getD 1) .none K = .ok r := by
      cases upper <;> exact h
    obtain ⟨d, kw, a1, a2, a3, a4⟩ := hbd _ _ h'
    exact ⟨d, kw, a1, a2, a3, Or.inr a4⟩

/-- The shape parameters in use in state `σ`: the fixed ones, or the two hyperparameters. -/
noncomputable def kippingShape (b : Backend) (name : String) (fixed : Bool) (long : Option Bool) (σ : State) : ℝ × ℝ :=
  if fixed then
    if long = some false then (0.697, 3.27) else (1.12, 3.09)
  else (σ (subName b name "alpha"), σ (subName b name "beta"))

theorem kippingShape_eq (b : Backend) (name : String) (fixed : Bool) (long : Option Bool) (σ : State) :
    ((kippingHyper b name fixed long).2.1.toNum 1 σ, (kippingHyper b name fixed long).2.2.toNum 1 σ) =
      kippingShape b name fixed long σ := by
  unfold kippingHyper kippingShape
  cases fixed
  · rfl
  · cases long with
    | none => rfl
    | some l => cases l <;> rfl

/-- **C52** (density): when nothing is observed, the eccentricity is registered as a free variable, whose density is the Beta density
with the selected parameters: on PyMC normalised to the requested interval, on PyMC3 cut off there, and untouched without limits. -/
theorem C52_density (b : Backend) (name : String) (fixed : Bool) (long : Option Bool) (lower upper : Option ℝ) {K : Kwargs}
    {rs : List Reg} (hK : K.mem "observed" = false) (h : kipping13 b name fixed long lower upper K = .ok rs) :
    ∃ d kw, rs.getLast? = some (.free name d kw) ∧ ∀ σ x,
      d.density σ x =
        (if lower = none ∧ upper = none then
          ENNReal.ofReal (betaPdf (kippingShape b name fixed long σ).1 (kippingShape b name fixed long σ).2 x)
        else if lower.getD 0 ≤ x ∧ x ≤ upper.getD 1 then
          ENNReal.ofReal (betaPdf (kippingShape b name fixed long σ).1 (kippingShape b name fixed long σ).2 x) /
            (if b = .pymc then ∫⁻ y in Set.Icc (lower.getD 0) (upper.getD 1),
              ENNReal.ofReal (betaPdf (kippingShape b name fixed long σ).1 (kippingShape b name fixed long σ).2 y) else 1)
        else 0) := by
  obtain ⟨r, hr, rfl⟩ := kipping13_ok b name fixed long lower upper h
  rw [get_of_not_mem hK, del_of_not_mem hK] at hr
  obtain ⟨d, kw, rfl, ha, hb, hd⟩ := kippingLast_free b name hr
  refine ⟨d, kw, by simp, fun σ x => ?_⟩
  rw [← kippingShape_eq]
  simp only
  have hset : {y : ℝ | InBounds (some (lower.getD 0)) (some (upper.getD 1)) y} = Set.Icc (lower.getD 0) (upper.getD 1) := by
    ext y; exact inBounds_some ..
  unfold kippingLast at hr
  rcases hd with ⟨rfl, rfl, hd⟩ | ⟨rfl, hd⟩ | ⟨rfl, hd⟩
  · rw [if_pos ⟨rfl, rfl⟩, hd, Dist.density, beta_pdf_params ha hb]
  · have hne : ¬(lower = none ∧ upper = none) := by
      rintro ⟨rfl, rfl⟩
      simp only [kippingUnbounded] at hr
      cases hm : Kwargs.merge [("alpha", (kippingHyper .pymc name fixed long).2.1), ("beta", (kippingHyper .pymc name fixed long).2.2)] K with
      | error e => rw [hm] at hr; cases hr
      | ok kw' => rw [hm] at hr; injection hr with hr; unfold pmVar at hr; injection hr with _ h2 _; rw [hd] at h2; cases h2
    rw [if_neg hne, hd, Dist.density, if_pos rfl, hset]
    simp only [beta_pdf_params ha hb]
    by_cases hx : lower.getD 0 ≤ x ∧ x ≤ upper.getD 1
    · rw [if_pos hx, if_pos ((inBounds_some ..).2 hx)]
    · rw [if_neg hx, if_neg fun hc => hx ((inBounds_some ..).1 hc)]
  · have hne : ¬(lower = none ∧ upper = none) := by
      rintro ⟨rfl, rfl⟩
      simp only [kippingUnbounded] at hr
      cases hm : Kwargs.merge [("alpha", (kippingHyper .pymc3 name fixed long).2.1), ("beta", (kippingHyper .pymc3 name fixed long).2.2)] K with
      | error e => rw [hm] at hr; cases hr
      | ok kw' => rw [hm] at hr; injection hr with hr; unfold pmVar at hr; injection hr with _ h2 _; rw [hd] at h2; cases h2
    rw [if_neg hne, hd, Dist.density, if_neg (show ¬ Backend.pymc3 = Backend.pymc by decide), div_one]
    simp only [beta_pdf_params ha hb]
    by_cases hx : lower.getD 0 ≤ x ∧ x ≤ upper.getD 1
    · rw [if_pos hx, if_pos ((inBounds_some ..).2 hx)]
    · rw [if_neg hx, if_neg fun hc => hx ((inBounds_some ..).1 hc)]

/-- **C52** (support): the support is the requested interval intersected with the unit interval, wherever the shape parameters are
positive (always when `fixed=True`; in every state visited when `fixed=False`, by `C52_hyper_positive`). -/
theorem C52_support (b : Backend) (name : String) (fixed : Bool) (long : Option Bool) (lower upper : Option ℝ) {K : Kwargs}
    {rs : List Reg} (hK : K.mem "observed" = false) (h : kipping13 b name fixed long lower upper K = .ok rs) :
    ∃ d kw, rs.getLast? = some (.free name d kw) ∧ ∀ σ x,
      (fixed = false → 0 < σ (subName b name "alpha") ∧ 0 < σ (subName b name "beta")) →
      (d.density σ x ≠ 0 ↔ lower.getD 0 ≤ x ∧ x ≤ upper.getD 1 ∧ 0 < x ∧ x < 1) := by
  obtain ⟨r, hr, rfl⟩ := kipping13_ok b name fixed long lower upper h
  rw [get_of_not_mem hK, del_of_not_mem hK] at hr
  obtain ⟨d, kw, rfl, ha, hb, hd⟩ := kippingLast_free b name hr
  refine ⟨d, kw, by simp, fun σ x hpos => ?_⟩
  have hs := kippingShape_eq b name fixed long σ
  rw [Prod.ext_iff] at hs
  have hsp : 0 < (kippingShape b name fixed long σ).1 ∧ 0 < (kippingShape b name fixed long σ).2 := by
    unfold kippingShape
    cases fixed
    · exact hpos rfl
    · rw [if_pos rfl]
      split <;> constructor <;> norm_num
  have h1 : 0 < (kippingHyper b name fixed long).2.1.toNum 1 σ := lt_of_lt_of_eq hsp.1 hs.1.symm
  have h2 : 0 < (kippingHyper b name fixed long).2.2.toNum 1 σ := lt_of_lt_of_eq hsp.2 hs.2.symm
  rcases hd with ⟨rfl, rfl, hd⟩ | ⟨-, hd⟩ | ⟨-, hd⟩
  · rw [hd, Dist.density, beta_pdf_params ha hb, betaPdf_ne_zero h1 h2]
    simp only [Option.getD_none]
    constructor
    · rintro ⟨a, c⟩; exact ⟨a.le, c.le, a, c⟩
    · tauto
  · rw [hd]; exact truncated_beta_ne_zero ha hb _ _ σ h1 h2 x
  · rw [hd]; exact bound_beta_ne_zero ha hb _ _ σ h1 h2 x

/-- Observed eccentricity. -/
theorem kippingLast_observed (n : String) {alpha beta : Val} {lower upper : Option ℝ} {e : State → ℝ} {K : Kwargs} {r r' : Reg}
    {b : Backend} (hb : b = .pymc ∨ lower = none ∧ upper = none)
    (h : kippingLast b n alpha beta lower upper (.num e) K = .ok r) (h' : kippingLast b n alpha beta lower upper .none K = .ok r') :
    ∃ d kw f, r = .potential n f ∧ r' = .free n d kw ∧ ∀ σ, r.factor σ = d.density σ (e σ) := by
  obtain ⟨d, kw, rfl, hda, hdb, hd⟩ := kippingLast_free b n h'
  by_cases hlu : lower = none ∧ upper = none
  · obtain ⟨rfl, rfl⟩ := hlu
    unfold kippingLast kippingUnbounded at h h'
    simp only at h h'
    cases hm : Kwargs.merge [("alpha", alpha), ("beta", beta)] K with
    | error e => rw [hm] at h; cases h
    | ok kw' =>
      rw [hm] at h h'
      injection h with h
      injection h' with h'
      unfold pmVar at h'
      injection h' with _ h2 _
      subst h
      refine ⟨d, kw, _, rfl, rfl, fun σ => ?_⟩
      rw [Reg.factor, exp_logp, h2]
  · have hb : b = .pymc := hb.resolve_right hlu
    subst hb
    have hd : d = .truncated .beta d.params (some (lower.getD 0)) (some (upper.getD 1)) := by
      rcases hd with ⟨h1, h2, -⟩ | ⟨-, hd⟩ | ⟨h1, -⟩
      · exact absurd ⟨h1, h2⟩ hlu
      · exact hd
      · cases h1
    have hk : kippingBounded .pymc n alpha beta (lower.getD 0) (upper.getD 1) (.num e) K = .ok r := by
      unfold kippingLast at h
      cases lower <;> cases upper
      · exact absurd ⟨rfl, rfl⟩ hlu
      all_goals exact h
    unfold kippingBounded truncateDist at hk
    simp only at hk
    cases hm : Kwargs.merge [("alpha", alpha), ("beta", beta)] K with
    | error e => rw [hm] at hk; cases hk
    | ok kw' =>
      rw [hm] at hk
      injection hk with hk
      have hkw := merge_ok hm
      have ga : kw'.get "alpha" .none = alpha := by rw [hkw]; exact get_cons_self ..
      have gb : kw'.get "beta" .none = beta := by rw [hkw]; exact (get_cons_ne (by decide) ..).trans (get_cons_self ..)
      subst hk
      refine ⟨d, kw, _, rfl, rfl, fun σ => ?_⟩
      rw [Reg.factor, exp_logp, hd]
      exact truncated_beta_congr (ga.trans hda.symm) (gb.trans hdb.symm) _ _ σ _

/-- **C52** (observed, what holds): on PyMC, and on PyMC3 without limits, an observed eccentricity is scored by exactly the density that
the free variable would have; the hyperparameters are the same. Missing from the full statement: PyMC3 with limits, which is not
implemented (`C52_observed_pymc3_raises`). -/
theorem C52_observed_partial (b : Backend) (name : String) (fixed : Bool) (long : Option Bool) (lower upper : Option ℝ)
    (hb : b = .pymc ∨ lower = none ∧ upper = none) {K : Kwargs} (hK : K.mem "observed" = false) (e : State → ℝ)
    {rs rs' : List Reg} (h : kipping13 b name fixed long lower upper (("observed", .num e) :: K) = .ok rs)
    (h' : kipping13 b name fixed long lower upper K = .ok rs') :
    ∃ hs d kw f, rs = hs ++ [.potential name f] ∧ rs' = hs ++ [.free name d kw] ∧
      ∀ σ, (Reg.potential name f).factor σ = d.density σ (e σ) := by
  obtain ⟨r, hr, rfl⟩ := kipping13_ok b name fixed long lower upper h
  obtain ⟨r', hr', rfl⟩ := kipping13_ok b name fixed long lower upper h'
  rw [get_of_not_mem hK, del_of_not_mem hK] at hr'
  have e2 : Kwargs.del (("observed", Val.num e) :: K) "observed" = K := by
    have := del_of_not_mem hK
    unfold Kwargs.del at this ⊢
    rw [List.filter_cons_of_neg (by simp)]
    exact this
  rw [get_cons_self, e2] at hr
  obtain ⟨d, kw, f, rfl, rfl, hf⟩ := kippingLast_observed name hb hr hr'
  exact ⟨_, d, kw, f, rfl, rfl, hf⟩

/-- **C52** (observed): on PyMC3, an observed eccentricity with limits raises `NotImplementedError`. -/
theorem C52_observed_pymc3_raises (name : String) (fixed : Bool) (long : Option Bool) (lower upper : Option ℝ)
    (hlu : ¬(lower = none ∧ upper = none)) (K : Kwargs) (e : State → ℝ) :
    kipping13 .pymc3 name fixed long lower upper (("observed", .num e) :: K) =
      .error (.notImplemented "observed eccentricity with bounds") := by
  rw [kipping13_eq, get_cons_self]
  unfold kippingLast kippingBounded
  cases lower <;> cases upper
  · exact absurd ⟨rfl, rfl⟩ hlu
  all_goals rfl

/-- **C52** (options): not giving `long` is the same as `long=True`, although the documentation announces a fit to the full data set. -/
theorem C52_long_none_same (b : Backend) (name : String) (fixed : Bool) (lower upper : Option ℝ) (K : Kwargs) :
    kipping13 b name fixed none lower upper K = kipping13 b name fixed (some true) lower upper K := rfl

/-- **C52**: the call succeeds for all options unless shape parameters are given as keywords, or the case above. -/
theorem C52_succeeds (b : Backend) (name : String) (fixed : Bool) (long : Option Bool) (lower upper : Option ℝ) (K : Kwargs)
    (h1 : K.mem "alpha" = false) (h2 : K.mem "beta" = false)
    (h3 : b = .pymc ∨ (lower = none ∧ upper = none) ∨ K.mem "observed" = false) :
    ∃ rs, kipping13 b name fixed long lower upper K = .ok rs := by
  rw [kipping13_eq]
  have m0 : ∀ (x y : Val), Kwargs.merge [("alpha", x), ("beta", y)] (K.del "observed") =
      .ok ([("alpha", x), ("beta", y)] ++ K.del "observed") := by
    intro x y
    unfold Kwargs.merge
    simp [mem_del_of h1, mem_del_of h2]
  have m1 : ∀ (x y v : Val), Kwargs.merge [("alpha", x), ("beta", y)] (withInitval b ((strip (K.del "observed")).set "initval" v)) =
      .ok ([("alpha", x), ("beta", y)] ++ withInitval b ((strip (K.del "observed")).set "initval" v)) := by
    intro x y v
    unfold Kwargs.merge
    have a1 : (withInitval b ((strip (K.del "observed")).set "initval" v)).mem "alpha" = false :=
      mem_withInitval b (by decide) (by decide) (mem_set_ne _ (by decide) (mem_strip (mem_del_of h1)))
    have a2 : (withInitval b ((strip (K.del "observed")).set "initval" v)).mem "beta" = false :=
      mem_withInitval b (by decide) (by decide) (mem_set_ne _ (by decide) (mem_strip (mem_del_of h2)))
    simp [a1, a2]
  have hl : ∃ r, kippingLast b name (kippingHyper b name fixed long).2.1 (kippingHyper b name fixed long).2.2 lower upper
      (K.get "observed" .none) (K.del "observed") = .ok r := by
    by_cases hlu : lower = none ∧ upper = none
    · obtain ⟨rfl, rfl⟩ := hlu
      unfold kippingLast kippingUnbounded
      simp only [m0]
      split
      · exact ⟨_, rfl⟩
      · exact ⟨_, rfl⟩
    · have hb : ∀ lo hi, ∃ r, kippingBounded b name (kippingHyper b name fixed long).2.1 (kippingHyper b name fixed long).2.2 lo hi
          (K.get "observed" .none) (K.del "observed") = .ok r := by
        intro lo hi
        unfold kippingBounded
        simp only [popInitval_eq, m0, m1]
        split
        · rename_i e he
          rcases h3 with rfl | h3 | h3
          · exact ⟨_, rfl⟩
          · exact absurd h3 hlu
          · rw [get_of_not_mem h3] at he; cases he
        · exact ⟨_, rfl⟩
      unfold kippingLast
      cases lower <;> cases upper
      · exact absurd ⟨rfl, rfl⟩ hlu
      all_goals exact hb _ _
  obtain ⟨r, hr⟩ := hl
  rw [hr]
  exact ⟨_, rfl⟩

/-- Non-vacuity: the prior with limits and free hyperparameters registers three variables, and is visited at reasonable values. -/
example (b : Backend) : ∃ rs, kipping13 b "ecc" false (some false) (some 0) (some (9 / 10)) [] = .ok rs ∧
    rs.map Reg.name = [subName b "ecc" "alpha", subName b "ecc" "beta", "ecc"] := by
  obtain ⟨rs, h⟩ := C52_succeeds b "ecc" false (some false) (some 0) (some (9 / 10)) [] rfl rfl (Or.inr (Or.inr rfl))
  exact ⟨rs, h, (C52_registration b "ecc" false _ _ _ h).1⟩

example : ∃ rs rs' , kipping13 .pymc "ecc" true none (some 0) none [("observed", .num fun _ => 3 / 10)] = .ok rs ∧
    kipping13 .pymc "ecc" true none (some 0) none [] = .ok rs' := by
  obtain ⟨rs, h⟩ := C52_succeeds .pymc "ecc" true none (some 0) none [("observed", .num fun _ => 3 / 10)] rfl rfl (Or.inl rfl)
  obtain ⟨rs', h'⟩ := C52_succeeds .pymc "ecc" true none (some 0) none [] rfl rfl (Or.inl rfl)
  exact ⟨rs, rs', h, h'⟩

/-! ## C53 -/

/-- The parameters of the mixture in state `σ`: `(sigma_gauss, sigma_rayleigh, frac)`. -/
noncomputable def vaneylenShape (b : Backend) (name : String) (fixed multi : Bool) (σ : State) : ℝ × ℝ × ℝ :=
  if fixed then (0.049, 0.26, if multi then 0.08 else 0.76)
  else (σ (subName b name "sigma_gauss"), σ (subName b name "sigma_rayleigh"), σ (subName b name "frac"))

theorem vaneylenShape_eq (b : Backend) (name : String) (fixed multi : Bool) (σ : State) :
    ((vaneylenHyper b name fixed multi).2.1 σ, (vaneylenHyper b name fixed multi).2.2.1 σ,
      (vaneylenHyper b name fixed multi).2.2.2 σ) = vaneylenShape b name fixed multi σ := by
  unfold vaneylenHyper vaneylenShape vaneylenFrac
  cases fixed <;> cases multi <;> rfl

/-- The value of the eccentricity that is scored. -/
noncomputable def scoredEcc (b : Backend) (name : String) (K : Kwargs) (σ : State) : ℝ :=
  match K.get "observed" .none, b with
  | .num e, .pymc => e σ
  | _, _ => σ name

theorem vaneylenEcc_ok (b : Backend) (name : String) (lo hi : ℝ) {K : Kwargs} {r : Reg} {ecc : State → ℝ}
    (h : vaneylenEcc b name lo hi K = .ok (r, ecc)) : ecc = scoredEcc b name K ∧ r.name = name ∧
      ∀ σ, r.factor σ = ENNReal.ofReal (uniformPdf lo hi (ecc σ)) := by
  unfold vaneylenEcc at h
  simp only [Kwargs.pop] at h
  cases hm : Kwargs.merge [("lower", Val.ofReal lo), ("upper", Val.ofReal hi)] (K.del "observed") with
  | error e => rw [hm] at h; cases h
  | ok kw =>
    rw [hm] at h
    have hkw := merge_ok hm
    have ga : kw.get "lower" .none = Val.ofReal lo := by rw [hkw]; exact get_cons_self ..
    have gb : kw.get "upper" .none = Val.ofReal hi := by
      rw [hkw]; exact (get_cons_ne (by decide) ..).trans (get_cons_self ..)
    have hpdf : ∀ σ x, (Dist.plain .uniform kw).density σ x = ENNReal.ofReal (uniformPdf lo hi x) := by
      intro σ x
      simp only [Dist.density, Family.pdf, ga, gb]
      rfl
    have hfree : (pmVar Family.uniform name kw, fun σ : State => σ name) = (r, ecc) →
        ecc = (fun σ => σ name) ∧ r.name = name ∧ ∀ σ, r.factor σ = ENNReal.ofReal (uniformPdf lo hi (ecc σ)) := by
      intro e
      rw [Prod.mk.injEq] at e
      obtain ⟨rfl, rfl⟩ := e
      exact ⟨rfl, rfl, fun σ => hpdf σ _⟩
    simp only at h
    unfold scoredEcc
    cases ho : K.get "observed" .none with
    | num e =>
      rw [ho] at h
      cases b
      · injection h with h; exact hfree h
      · injection h with h
        rw [Prod.mk.injEq] at h
        obtain ⟨rfl, rfl⟩ := h
        refine ⟨rfl, rfl, fun σ => ?_⟩
        rw [Reg.factor, exp_logp]
        exact hpdf σ _
    | nanable g => rw [ho] at h; injection h with h; exact hfree h
    | seq l => rw [ho] at h; injection h with h; exact hfree h
    | none => rw [ho] at h; injection h with h; exact hfree h
    | obj t => rw [ho] at h; injection h with h; exact hfree h

/-- The registrations of `vaneylen19`: limits, hyperparameters, mixture, scored at `scoredEcc`. -/
theorem vaneylen19_factors (b : Backend) (name : String) (fixed multi : Bool) (lower upper : Option ℝ) {K : Kwargs} {rs : List Reg}
    (h : vaneylen19 b name fixed multi lower upper K = .ok rs) : ∃ r hs p, rs = r :: hs ++ [p] ∧
    r.name = name ∧ p.name = subName b name "prior" ∧
    hs.map Reg.name = (if fixed then [] else [subName b name "sigma_gauss", subName b name "sigma_rayleigh", subName b name "frac"]) ∧
    ∀ σ, r.factor σ = ENNReal.ofReal (uniformPdf (lower.getD 0) (upper.getD 1) (scoredEcc b name K σ)) ∧
      (0 < (vaneylenShape b name fixed multi σ).1 → 0 < (vaneylenShape b name fixed multi σ).2.1 →
        0 ≤ (vaneylenShape b name fixed multi σ).2.2 → (vaneylenShape b name fixed multi σ).2.2 ≤ 1 →
        p.factor σ = ENNReal.ofReal (mixtureDensity (vaneylenShape b name fixed multi σ).2.2 (vaneylenShape b name fixed multi σ).1
          (vaneylenShape b name fixed multi σ).2.1 (scoredEcc b name K σ))) := by
  unfold vaneylen19 at h
  cases he : vaneylenEcc b name (lower.getD 0) (upper.getD 1) K with
  | error e => rw [he] at h; cases h
  | ok re =>
    obtain ⟨r, ecc⟩ := re
    rw [he] at h
    obtain ⟨rfl, hn, hf⟩ := vaneylenEcc_ok b name _ _ he
    injection h with h
    have h' : r :: (vaneylenHyper b name fixed multi).1 ++ [.potential (subName b name "prior") (fun σ =>
      logaddexp (ptLog (1 - (vaneylenHyper b name fixed multi).2.2.2 σ) +
          (Dist.plain .halfNormal [("sigma", .num (vaneylenHyper b name fixed multi).2.1)]).logp σ (scoredEcc b name K σ))
        (ptLog ((vaneylenHyper b name fixed multi).2.2.2 σ) + (Dist.plain .weibull [("alpha", Val.ofReal 2),
          ("beta", .num (fun σ => Real.sqrt 2 * (vaneylenHyper b name fixed multi).2.2.1 σ))]).logp σ (scoredEcc b name K σ)))] =
        rs := h
    refine ⟨r, _, _, h'.symm, hn, rfl, ?_, fun σ => ⟨hf σ, ?_⟩⟩
    · unfold vaneylenHyper
      cases fixed
      · simp [hyper, truncate_name]
      · rfl
    · have hs := vaneylenShape_eq b name fixed multi σ
      rw [← hs]
      simp only
      intro h1 h2 h3 h4
      rw [Reg.factor, exp_logaddexp, EReal.exp_add, EReal.exp_add, exp_logp, exp_logp, ptLog_exp, ptLog_exp]
      have hg : (Dist.plain .halfNormal [("sigma", .num (vaneylenHyper b name fixed multi).2.1)]).density σ (scoredEcc b name K σ) =
          ENNReal.ofReal (halfNormalPdf ((vaneylenHyper b name fixed multi).2.1 σ) (scoredEcc b name K σ)) := rfl
      have hw : (Dist.plain .weibull [("alpha", Val.ofReal 2),
          ("beta", .num (fun σ => Real.sqrt 2 * (vaneylenHyper b name fixed multi).2.2.1 σ))]).density σ (scoredEcc b name K σ) =
          ENNReal.ofReal (weibullPdf 2 (Real.sqrt 2 * (vaneylenHyper b name fixed multi).2.2.1 σ) (scoredEcc b name K σ)) := rfl
      rw [hg, hw, weibull_rayleigh h2]
      unfold mixtureDensity halfNormalPdf
      by_cases hx : 0 ≤ scoredEcc b name K σ
      · rw [if_pos hx, if_pos hx, if_pos hx, ← ENNReal.ofReal_mul (by linarith), ← ENNReal.ofReal_mul h3, ← ENNReal.ofReal_add]
        · have : 0 ≤ 1 - (vaneylenHyper b name fixed multi).2.2.2 σ := by linarith
          positivity
        · positivity
      · rw [if_neg hx, if_neg hx, if_neg hx]
        simp

/-- **C53** (what holds): on PyMC for sampled and observed eccentricities, and on PyMC3 for sampled ones, what is added to the model is
the uniform density on `[lower, upper]` times the mixture, both at the eccentricity (the observed value `e` or the variable). The
shape parameters are the published ones or the hyperparameters. Missing from the full statement: observed values on PyMC3. -/
theorem C53_mixture_partial (b : Backend) (name : String) (fixed multi : Bool) (lower upper : Option ℝ) {K : Kwargs} {rs : List Reg}
    (h : vaneylen19 b name fixed multi lower upper K = .ok rs) (ecc : State → ℝ)
    (hecc : (b = .pymc ∧ K.get "observed" .none = .num ecc) ∨ (K.mem "observed" = false ∧ ecc = fun σ => σ name)) :
    ∃ r hs p, rs = r :: hs ++ [p] ∧ r.name = name ∧ p.name = subName b name "prior" ∧
    hs.map Reg.name = (if fixed then [] else [subName b name "sigma_gauss", subName b name "sigma_rayleigh", subName b name "frac"]) ∧
    ∀ σ, r.factor σ = ENNReal.ofReal (uniformPdf (lower.getD 0) (upper.getD 1) (ecc σ)) ∧
      ((fixed = false → 0 < σ (subName b name "sigma_gauss") ∧ 0 < σ (subName b name "sigma_rayleigh") ∧
        0 ≤ σ (subName b name "frac") ∧ σ (subName b name "frac") ≤ 1) →
      p.factor σ = ENNReal.ofReal (mixtureDensity (vaneylenShape b name fixed multi σ).2.2 (vaneylenShape b name fixed multi σ).1
          (vaneylenShape b name fixed multi σ).2.1 (ecc σ))) := by
  have hs : scoredEcc b name K = ecc := by
    unfold scoredEcc
    rcases hecc with ⟨rfl, ho⟩ | ⟨ho, rfl⟩
    · funext σ; simp only [ho]
    · funext σ; simp only [get_of_not_mem ho]
  obtain ⟨r, hyps, p, e1, e2, e3, e4, e5⟩ := vaneylen19_factors b name fixed multi lower upper h
  rw [hs] at e5
  refine ⟨r, hyps, p, e1, e2, e3, e4, fun σ => ?_⟩
  have hsh : (fixed = false → 0 < σ (subName b name "sigma_gauss") ∧ 0 < σ (subName b name "sigma_rayleigh") ∧
        0 ≤ σ (subName b name "frac") ∧ σ (subName b name "frac") ≤ 1) →
      0 < (vaneylenShape b name fixed multi σ).1 ∧ 0 < (vaneylenShape b name fixed multi σ).2.1 ∧
        0 ≤ (vaneylenShape b name fixed multi σ).2.2 ∧ (vaneylenShape b name fixed multi σ).2.2 ≤ 1 := by
    intro hp
    unfold vaneylenShape
    cases fixed
    · exact hp rfl
    · rw [if_pos rfl]
      refine ⟨by norm_num, by norm_num, ?_, ?_⟩ <;> cases multi <;> norm_num
  refine ⟨(e5 σ).1, fun hp => ?_⟩
  obtain ⟨a1, a2, a3, a4⟩ := hsh hp
  exact (e5 σ).2 a1 a2 a3 a4

/-- **C53** (hyperparameters): with `fixed=False`, in every state visited both widths are positive and the weight is in `(0, 1)`. -/
theorem C53_hyper_range (b : Backend) (name : String) (multi : Bool) (lower upper : Option ℝ) {K : Kwargs}
    {rs : List Reg} (h : vaneylen19 b name false multi lower upper K = .ok rs) (σ : State) (hσ : Visited rs σ) :
    0 < σ (subName b name "sigma_gauss") ∧ 0 < σ (subName b name "sigma_rayleigh") ∧
      0 < σ (subName b name "frac") ∧ σ (subName b name "frac") < 1 := by
  have hsub : ∀ r ∈ (vaneylenHyper b name false multi).1, r ∈ rs := by
    unfold vaneylen19 at h
    cases he : vaneylenEcc b name (lower.getD 0) (upper.getD 1) K with
    | error e => rw [he] at h; cases h
    | ok re =>
      rw [he] at h
      injection h with h
      intro r hr
      rw [← h]
      exact List.mem_append_left _ (List.mem_append_right _ hr)
  have e : (vaneylenHyper b name false multi).1 = [hyper b name "sigma_gauss" none 0.049 0.02,
    hyper b name "sigma_rayleigh" none 0.26 0.05,
    hyper b name "frac" (some 1) (vaneylenFrac multi).1 (vaneylenFrac multi).2] := rfl
  rw [e] at hsub
  obtain ⟨d1, k1, e1, i1⟩ := hyper_interior b name "sigma_gauss" none 0.049 0.02
  obtain ⟨d2, k2, e2, i2⟩ := hyper_interior b name "sigma_rayleigh" none 0.26 0.05
  obtain ⟨d3, k3, e3, i3⟩ := hyper_interior b name "frac" (some 1) (vaneylenFrac multi).1 (vaneylenFrac multi).2
  rw [e1, e2, e3] at hsub
  have h1 := (i1 σ _).1 (hσ.2 _ d1 k1 (hsub _ (List.Mem.head _)))
  have h2 := (i2 σ _).1 (hσ.2 _ d2 k2 (hsub _ (List.Mem.tail _ (List.Mem.head _))))
  have h3 := (i3 σ _).1 (hσ.2 _ d3 k3 (hsub _ (List.Mem.tail _ (List.Mem.tail _ (List.Mem.head _)))))
  exact ⟨h1.1, h2.1, h3.1, h3.2 1 rfl⟩

/-- **C53 is violated** on PyMC3: an observed eccentricity is discarded, exactly the same is registered as without it. -/
theorem C53_pymc3_ignores_observed (name : String) (fixed multi : Bool) (lower upper : Option ℝ) {K : Kwargs}
    (hK : K.mem "observed" = false) (e : State → ℝ) :
    vaneylen19 .pymc3 name fixed multi lower upper (("observed", .num e) :: K) =
      vaneylen19 .pymc3 name fixed multi lower upper K := by
  have e2 : Kwargs.del (("observed", Val.num e) :: K) "observed" = K := by
    have := del_of_not_mem hK
    unfold Kwargs.del at this ⊢
    rw [List.filter_cons_of_neg (by simp)]
    exact this
  have : vaneylenEcc .pymc3 name (lower.getD 0) (upper.getD 1) (("observed", .num e) :: K) =
      vaneylenEcc .pymc3 name (lower.getD 0) (upper.getD 1) K := by
    unfold vaneylenEcc
    simp only [Kwargs.pop, e2, get_cons_self, del_of_not_mem hK, get_of_not_mem hK]
  unfold vaneylen19
  rw [this]

/-- `vaneylen19` succeeds for all options, unless the limits are also among the keyword arguments. -/
theorem C53_succeeds (b : Backend) (name : String) (fixed multi : Bool) (lower upper : Option ℝ) (K : Kwargs)
    (h1 : K.mem "lower" = false) (h2 : K.mem "upper" = false) : ∃ rs, vaneylen19 b name fixed multi lower upper K = .ok rs := by
  have : ∃ p, vaneylenEcc b name (lower.getD 0) (upper.getD 1) K = .ok p := by
    unfold vaneylenEcc
    have m : ∀ x y : Val, Kwargs.merge [("lower", x), ("upper", y)] (K.del "observed") =
        .ok ([("lower", x), ("upper", y)] ++ K.del "observed") := by
      intro x y
      unfold Kwargs.merge
      simp [mem_del_of h1, mem_del_of h2]
    simp only [Kwargs.pop, m]
    split
    · exact ⟨_, rfl⟩
    · exact ⟨_, rfl⟩
  obtain ⟨⟨r, ecc⟩, hp⟩ := this
  unfold vaneylen19
  rw [hp]
  exact ⟨_, rfl⟩

/-- **C53 is violated** on PyMC3, concretely: the observed value is `3/10`, where the mixture is positive; the registered density
vanishes in the state `ecc = -1` of a variable that should not exist. -/
theorem C53_observed_counterexample : ∃ rs σ,
    vaneylen19 .pymc3 "ecc" true false none none [("observed", .num fun _ => 3 / 10)] = .ok rs ∧
    freeNames rs = ["ecc"] ∧ jointDensity rs σ = 0 ∧ 0 < mixtureDensity 0.76 0.049 0.26 (3 / 10) := by
  obtain ⟨rs, h⟩ := C53_succeeds .pymc3 "ecc" true false none none [("observed", .num fun _ => 3 / 10)] rfl rfl
  obtain ⟨r, hs, p, e1, -, -, -, e5⟩ := vaneylen19_factors .pymc3 "ecc" true false none none h
  refine ⟨rs, fun _ => -1, h, ?_, ?_, ?_⟩
  · unfold vaneylen19 at h
    injection h with h
    rw [← h]
    rfl
  · rw [e1, List.cons_append, jointDensity_cons, (e5 _).1]
    have : scoredEcc .pymc3 "ecc" [("observed", .num fun _ => 3 / 10)] (fun _ => -1) = -1 := rfl
    rw [this]
    simp [uniformPdf]
    norm_num
  · unfold mixtureDensity
    rw [if_pos (by norm_num)]
    have h1 := Real.exp_pos (-(3 / 10 : ℝ) ^ 2 / (2 * (49e-3 : ℝ) ^ 2))
    have h2 := Real.exp_pos (-(3 / 10 : ℝ) ^ 2 / (2 * (0.26 : ℝ) ^ 2))
    have h3 : 0 < Real.sqrt (2 / Real.pi) := Real.sqrt_pos.2 (by positivity)
    refine add_pos ?_ ?_
    · refine mul_pos (by norm_num) (mul_pos (div_pos h3 (by norm_num)) h1)
    · exact mul_pos (by norm_num) (mul_pos (by norm_num) h2)

/-- Non-vacuity of `C53_mixture_partial`: an observed eccentricity on PyMC with free hyperparameters. -/
example : ∃ rs, vaneylen19 .pymc "ecc" false true (some 0) (some (1 / 2)) [("observed", .num fun _ => 3 / 10)] = .ok rs :=
  C53_succeeds _ _ _ _ _ _ _ rfl rfl

/-! ## C54 -/

/-- **C54** (interchangeable): all helpers that treat start values, and the bounded eccentricity prior, cannot tell `initval` from
`testval`, and `initval` wins if both are given. -/
theorem C54_interchangeable (b : Backend) (name name' : String) (reg : Option ℝ) (ror : State → ℝ) :
    StartKeysInterchangeable (angle b name reg) ∧ StartKeysInterchangeable (unitDisk b name name') ∧
    StartKeysInterchangeable (quadLimbDark b name) ∧ StartKeysInterchangeable (impactParameter b name ror) ∧
    StartKeysInterchangeable (withInitval b) := by
  have hi : StartKeysInterchangeable (impactParameter b name ror) := by
    refine interchangeable_of _ (fun v K => do
      let bh ← v.asNum
      .ok ([pmVar .uniform ("__" ++ name ++ "_impact_parameter")
          (limKw b 0 1 (.nanable fun σ => npDiv (bh σ) (1 + ror σ)) (shaped b K)),
        .deterministic name (fun σ => [σ ("__" ++ name ++ "_impact_parameter") * (1 + ror σ)])],
        fun σ => σ ("__" ++ name ++ "_impact_parameter") * (1 + ror σ))) (Val.ofReal 0.5) fun K => impactParameter_eq b name ror K
  have hq : StartKeysInterchangeable (quadLimbDark b name) := by
    refine interchangeable_of _ (fun v K => do
      let u1 ← v.item 0
      let u2 ← v.item 1
      .ok ([pmVar .uniform ("__" ++ name ++ "_q1") (limKw b 0 1 (.num fun σ => (u1 σ + u2 σ) ^ 2) K),
        pmVar .uniform ("__" ++ name ++ "_q2")
          (limKw b 0 1 (.nanable fun σ => npDiv (0.5 * u1 σ) (u1 σ + u2 σ)) K),
        .deterministic name (fun σ => [Real.sqrt (σ ("__" ++ name ++ "_q1")) * (2 * σ ("__" ++ name ++ "_q2")),
          Real.sqrt (σ ("__" ++ name ++ "_q1")) * (1 - 2 * σ ("__" ++ name ++ "_q2"))])],
        fun σ => Real.sqrt (σ ("__" ++ name ++ "_q1")) * (2 * σ ("__" ++ name ++ "_q2")),
        fun σ => Real.sqrt (σ ("__" ++ name ++ "_q1")) * (1 - 2 * σ ("__" ++ name ++ "_q2"))))
      (.seq [fun _ => Real.sqrt 0.5, fun _ => 0]) fun K => quadLimbDark_eq b name K
  have hd : StartKeysInterchangeable (unitDisk b name name') := by
    refine interchangeable_of _ (fun v K => do
      let i0 ← v.item 0
      let i1 ← v.item 1
      .ok ([pmVar .uniform name (limKw b (-1) 1 (.num i0) K),
        pmVar .uniform ("__" ++ name' ++ "_unit_disk")
          (limKw b (-1) 1 (.num fun σ => i1 σ * Real.sqrt (1 - i0 σ ^ 2)) K),
        .potential (name' ++ "_jacobian") (fun σ => ptLog (Real.sqrt (1 - σ name ^ 2))),
        .deterministic name' (fun σ => [σ ("__" ++ name' ++ "_unit_disk") * Real.sqrt (1 - σ name ^ 2)])],
        fun σ => σ name, fun σ => σ ("__" ++ name' ++ "_unit_disk") * Real.sqrt (1 - σ name ^ 2)))
      (.seq [fun _ => 0, fun _ => 0]) fun K => unitDisk_eq b name name' K
  have ha : StartKeysInterchangeable (angle b name reg) := by
    refine interchangeable_of _ (fun v K => do
      let iv ← v.asNum
      .ok ([pmVar .normal ("__" ++ name ++ "_angle1") (K ++ [(b.startKey, .num fun σ => Real.sin (iv σ))]),
        pmVar .normal ("__" ++ name ++ "_angle2") (K ++ [(b.startKey, .num fun σ => Real.cos (iv σ))])] ++
        anglePot name reg ++
        [.deterministic name (fun σ => [arctan2 (σ ("__" ++ name ++ "_angle1")) (σ ("__" ++ name ++ "_angle2"))])],
        fun σ => arctan2 (σ ("__" ++ name ++ "_angle1")) (σ ("__" ++ name ++ "_angle2")))) (Val.ofReal 0) fun K =>
          angle_eq b name reg K
  exact ⟨ha, hd, hq, hi, interchangeable_of _ (fun v K => K ++ [(b.startKey, v)]) .none fun K => withInitval_eq b K⟩

/-- **C54** (interchangeable): so does `kipping13` with limits, when nothing is observed. -/
theorem C54_interchangeable_kipping13 (b : Backend) (name : String) (fixed : Bool) (long : Option Bool) (lower upper : Option ℝ)
    (hlu : ¬(lower = none ∧ upper = none)) (K : Kwargs) (v w : Val) (h0 : K.mem "observed" = false)
    (h1 : K.mem "initval" = false) (h2 : K.mem "testval" = false) :
    kipping13 b name fixed long lower upper (("testval", v) :: K) = kipping13 b name fixed long lower upper (("initval", v) :: K) ∧
    kipping13 b name fixed long lower upper (("initval", v) :: ("testval", w) :: K) =
      kipping13 b name fixed long lower upper (("initval", v) :: K) ∧
    kipping13 b name fixed long lower upper (("testval", w) :: ("initval", v) :: K) =
      kipping13 b name fixed long lower upper (("initval", v) :: K) := by
  have key : ∀ alpha beta, StartKeysInterchangeable (kippingLast b name alpha beta lower upper .none) := by
    intro alpha beta
    refine interchangeable_of _ (fun x K => do
      let kw ← Kwargs.merge [("alpha", alpha), ("beta", beta)] (withInitval b (K.set "initval" x))
      .ok (truncate b name .beta (some (lower.getD 0)) (some (upper.getD 1)) kw))
      (Val.ofReal (0.5 * (lower.getD 0 + upper.getD 1))) fun K => ?_
    unfold kippingLast kippingBounded requested
    cases lower <;> cases upper
    · exact absurd ⟨rfl, rfl⟩ hlu
    all_goals simp only [popInitval_eq]
  have hno : ∀ K' : Kwargs, K'.mem "observed" = false → kipping13 b name fixed long lower upper K' =
      (kippingLast b name (kippingHyper b name fixed long).2.1 (kippingHyper b name fixed long).2.2 lower upper
        .none K').map ((kippingHyper b name fixed long).1 ++ [·]) := by
    intro K' h
    rw [kipping13_eq, get_of_not_mem h, del_of_not_mem h]
  have hc : ∀ (k : String) (x : Val) (K' : Kwargs), k ≠ "observed" → K'.mem "observed" = false →
      Kwargs.mem ((k, x) :: K') "observed" = false := by
    intro k x K' hk h
    rw [mem_false_iff] at h ⊢
    intro p hp
    rcases List.mem_cons.1 hp with rfl | hp
    · exact hk
    · exact h p hp
  obtain ⟨a1, a2, a3⟩ := key _ _ K v w h1 h2
  refine ⟨?_, ?_, ?_⟩
  · rw [hno _ (hc _ _ _ (by decide) h0), hno _ (hc _ _ _ (by decide) h0), a1]
  · rw [hno _ (hc _ _ _ (by decide) (hc _ _ _ (by decide) h0)), hno _ (hc _ _ _ (by decide) h0), a2]
  · rw [hno _ (hc _ _ _ (by decide) (hc _ _ _ (by decide) h0)), hno _ (hc _ _ _ (by decide) h0), a3]

/-- **C54** (hand-over): whatever keyword arguments are given, every variable that these helpers register gets exactly one start value,
under the keyword its back-end understands, and never the other keyword. -/
theorem C54_clean (b : Backend) (K : Kwargs) :
    (∀ name reg rs v, angle b name reg K = .ok (rs, v) → StartKeysClean b rs) ∧
    (∀ nx ny rs x y, unitDisk b nx ny K = .ok (rs, x, y) → StartKeysClean b rs) ∧
    (∀ name rs x y, quadLimbDark b name K = .ok (rs, x, y) → StartKeysClean b rs) ∧
    (∀ name ror rs v, impactParameter b name ror K = .ok (rs, v) → StartKeysClean b rs) := by
  refine ⟨fun name reg rs v h => ?_, fun nx ny rs x y h => ?_, fun name rs x y h => ?_, fun name ror rs v h => ?_⟩
  · obtain ⟨iv, -, rfl, -⟩ := angle_ok b name reg h
    have hp : ∀ n d kw, Reg.free n d kw ∉ anglePot name reg := by
      intro n d kw hm
      unfold anglePot at hm
      cases reg <;> simp at hm
    intro n d kw hm
    simp only [pmVar, List.mem_append, List.mem_cons, Reg.free.injEq, reduceCtorEq, List.not_mem_nil, or_false, hp] at hm
    rcases hm with ⟨-, rfl, rfl⟩ | ⟨-, rfl, rfl⟩
    · obtain ⟨c1, c2⟩ := clean_append b (.num fun σ => Real.sin (iv σ)) (strip_initval K) (strip_testval K)
      exact ⟨c1, c2, c2⟩
    · obtain ⟨c1, c2⟩ := clean_append b (.num fun σ => Real.cos (iv σ)) (strip_initval K) (strip_testval K)
      exact ⟨c1, c2, c2⟩
  · obtain ⟨i0, i1, -, -, rfl, -, -⟩ := unitDisk_ok b nx ny h
    intro n d kw hm
    simp only [pmVar, List.mem_cons, Reg.free.injEq, reduceCtorEq, List.not_mem_nil, or_false] at hm
    rcases hm with ⟨-, rfl, rfl⟩ | ⟨-, rfl, rfl⟩
    · have c := clean_limKw b (-1) 1 (.num i0) (strip_initval K) (strip_testval K)
      exact ⟨c.1, c.2, c.2⟩
    · have c := clean_limKw b (-1) 1 (.num fun σ => i1 σ * Real.sqrt (1 - i0 σ ^ 2)) (strip_initval K) (strip_testval K)
      exact ⟨c.1, c.2, c.2⟩
  · obtain ⟨i0, i1, -, -, rfl, -, -⟩ := quadLimbDark_ok b name h
    intro n d kw hm
    simp only [pmVar, List.mem_cons, Reg.free.injEq, reduceCtorEq, List.not_mem_nil, or_false] at hm
    rcases hm with ⟨-, rfl, rfl⟩ | ⟨-, rfl, rfl⟩
    · have c := clean_limKw b 0 1 (.num fun σ => (i0 σ + i1 σ) ^ 2) (strip_initval K) (strip_testval K)
      exact ⟨c.1, c.2, c.2⟩
    · have c := clean_limKw b 0 1 (.nanable fun σ => npDiv (0.5 * i0 σ) (i0 σ + i1 σ)) (strip_initval K) (strip_testval K)
      exact ⟨c.1, c.2, c.2⟩
  · obtain ⟨bh, -, rfl, -⟩ := impactParameter_ok b name ror h
    intro n d kw hm
    simp only [pmVar, List.mem_cons, Reg.free.injEq, reduceCtorEq, List.not_mem_nil, or_false] at hm
    obtain ⟨-, rfl, rfl⟩ := hm
    have c := clean_limKw b 0 1 (.nanable fun σ => npDiv (bh σ) (1 + ror σ))
      (shaped_not_mem b (by decide) (strip_initval K)) (shaped_not_mem b (by decide) (strip_testval K))
    exact ⟨c.1, c.2, c.2⟩

theorem truncate_clean (b : Backend) (n : String) (f : Family) (lo hi : Option ℝ) (K : Kwargs) :
    StartKeysClean b [truncate b n f lo hi K] := by
  intro m d kw hm
  unfold truncate at hm
  cases b
  · simp only [List.mem_cons, List.not_mem_nil, or_false, Reg.free.injEq] at hm
    obtain ⟨-, rfl, rfl⟩ := hm
    have c := clean_withInitval .pymc3 K
    exact ⟨c.1, c.2, c.2⟩
  · simp only [popInitval_eq, List.mem_cons, List.not_mem_nil, or_false, Reg.free.injEq] at hm
    obtain ⟨-, rfl, rfl⟩ := hm
    exact ⟨rfl, rfl, keyCount_zero.2 (strip_testval K)⟩

/-- **C54** (hand-over): the same for `kipping13` with limits and all its hyperparameters. -/
theorem C54_clean_kipping13 (b : Backend) (name : String) (fixed : Bool) (long : Option Bool) (lower upper : Option ℝ)
    (hlu : ¬(lower = none ∧ upper = none)) (K : Kwargs) {rs : List Reg}
    (h : kipping13 b name fixed long lower upper K = .ok rs) : StartKeysClean b rs := by
  obtain ⟨r, hr, rfl⟩ := kipping13_ok b name fixed long lower upper h
  intro n d kw hm
  rcases List.mem_append.1 hm with hm | hm
  · unfold kippingHyper at hm
    cases fixed
    · simp only [Bool.false_eq_true, if_false, List.mem_cons, List.not_mem_nil, or_false] at hm
      rcases hm with hm | hm
      · exact truncate_clean b _ _ _ _ _ n d kw (by rw [hm]; exact List.Mem.head _)
      · exact truncate_clean b _ _ _ _ _ n d kw (by rw [hm]; exact List.Mem.head _)
    · simp at hm
  · rw [List.mem_singleton] at hm
    subst hm
    have hk : kippingBounded b name (kippingHyper b name fixed long).2.1 (kippingHyper b name fixed long).2.2 (lower.getD 0)
        (upper.getD 1) (K.get "observed" .none) (K.del "observed") = .ok (.free n d kw) := by
      unfold kippingLast at hr
      cases lower <;> cases upper
      · exact absurd ⟨rfl, rfl⟩ hlu
      all_goals exact hr
    unfold kippingBounded at hk
    split at hk
    · cases b
      · cases hk
      · cases hm : Kwargs.merge [("alpha", (kippingHyper .pymc name fixed long).2.1), ("beta", (kippingHyper .pymc name fixed long).2.2)]
            (K.del "observed") with
        | error e => simp only [hm] at hk; cases hk
        | ok kw => simp only [hm] at hk; cases hk
    · rw [popInitval_eq] at hk
      simp only at hk
      cases hm : Kwargs.merge [("alpha", (kippingHyper b name fixed long).2.1), ("beta", (kippingHyper b name fixed long).2.2)]
          (withInitval b ((strip (K.del "observed")).set "initval" ((K.del "observed").get "initval" ((K.del "observed").get "testval"
            (Val.ofReal (0.5 * (lower.getD 0 + upper.getD 1))))))) with
      | error e => rw [hm] at hk; cases hk
      | ok kw' =>
        rw [hm] at hk
        injection hk with hk
        exact truncate_clean b _ _ _ _ _ n d kw (by rw [← hk]; exact List.Mem.head _)

/-- **C54** (hand-over, what holds for the others): `kipping13` without limits and `vaneylen19` hand over what they are given, so the
start value arrives if it is given under the native keyword. Missing: translation of the other keyword. -/
theorem C54_forwarded_partial (b : Backend) (name : String) (fixed : Bool) (K : Kwargs) (v : Val)
    (h0 : K.mem "observed" = false) (h1 : K.mem "initval" = false) (h2 : K.mem "testval" = false) :
    (∀ long rs, kipping13 b name fixed long none none ((b.startKey, v) :: K) = .ok rs → StartKeysClean b rs ∧
      ∃ d kw, rs.getLast? = some (.free name d kw) ∧ kw.get b.startKey .none = v) ∧
    (∀ multi lower upper rs, vaneylen19 b name fixed multi lower upper ((b.startKey, v) :: K) = .ok rs → StartKeysClean b rs ∧
      ∃ d kw, rs.head? = some (.free name d kw) ∧ kw.get b.startKey .none = v) := by
  have hs : K.mem b.startKey = false := by cases b; exact h2; exact h1
  have hf : K.mem b.foreignKey = false := by cases b; exact h1; exact h2
  have hc1 : keyCount ((b.startKey, v) :: K) b.startKey = 1 := by
    rw [← List.singleton_append, keyCount_append, keyCount_zero.2 hs]; simp [keyCount]
  have hc2 : keyCount ((b.startKey, v) :: K) b.foreignKey = 0 := by
    rw [← List.singleton_append, keyCount_append, keyCount_zero.2 hf]; simp [keyCount, foreign_ne b]
  have ho : Kwargs.mem ((b.startKey, v) :: K) "observed" = false := by
    have e := mem_append [(b.startKey, v)] K "observed"
    rw [List.singleton_append, h0] at e
    rw [e]
    cases b <;> rfl
  have hhyp : ∀ s hi mu sd, StartKeysClean b [hyper b name s hi mu sd] := fun s hi mu sd => truncate_clean b _ _ _ _ _
  refine ⟨fun long rs h => ?_, fun multi lower upper rs h => ?_⟩
  · obtain ⟨r, hr, rfl⟩ := kipping13_ok b name fixed long none none h
    rw [get_of_not_mem ho, del_of_not_mem ho] at hr
    simp only [kippingLast, kippingUnbounded] at hr
    cases hm : Kwargs.merge [("alpha", (kippingHyper b name fixed long).2.1), ("beta", (kippingHyper b name fixed long).2.2)]
        ((b.startKey, v) :: K) with
    | error e => rw [hm] at hr; cases hr
    | ok kw =>
      rw [hm] at hr
      injection hr with hr
      have hkw := merge_ok hm
      have k1 : keyCount kw b.startKey = 1 := by
        rw [hkw, keyCount_append, hc1]; cases b <;> rfl
      have k2 : keyCount kw b.foreignKey = 0 := by
        rw [hkw, keyCount_append, hc2]; cases b <;> rfl
      have k3 : kw.get b.startKey .none = v := by
        rw [hkw, get_append_left_not_mem (by cases b <;> rfl), get_cons_self]
      subst hr
      refine ⟨?_, .plain .beta kw, kw, by simp [pmVar], k3⟩
      intro n d kw' hmem
      rcases List.mem_append.1 hmem with hmem | hmem
      · unfold kippingHyper at hmem
        cases fixed
        · simp only [Bool.false_eq_true, if_false, List.mem_cons, List.not_mem_nil, or_false] at hmem
          rcases hmem with hmem | hmem
          · exact hhyp _ _ _ _ n d kw' (by rw [hmem]; exact List.Mem.head _)
          · exact hhyp _ _ _ _ n d kw' (by rw [hmem]; exact List.Mem.head _)
        · simp at hmem
      · rw [List.mem_singleton] at hmem
        unfold pmVar at hmem
        injection hmem with _ e1 e2
        subst e1 e2
        exact ⟨k1, k2, k2⟩
  · unfold vaneylen19 vaneylenEcc at h
    simp only [Kwargs.pop, get_of_not_mem ho, del_of_not_mem ho] at h
    cases hm : Kwargs.merge [("lower", Val.ofReal (lower.getD 0)), ("upper", Val.ofReal (upper.getD 1))] ((b.startKey, v) :: K) with
    | error e => rw [hm] at h; cases h
    | ok kw =>
      rw [hm] at h
      injection h with h
      have hkw := merge_ok hm
      have k1 : keyCount kw b.startKey = 1 := by
        rw [hkw, keyCount_append, hc1]; cases b <;> rfl
      have k2 : keyCount kw b.foreignKey = 0 := by
        rw [hkw, keyCount_append, hc2]; cases b <;> rfl
      have k3 : kw.get b.startKey .none = v := by
        rw [hkw, get_append_left_not_mem (by cases b <;> rfl), get_cons_self]
      subst h
      refine ⟨?_, .plain .uniform kw, kw, rfl, k3⟩
      intro n d kw' hmem
      rw [List.mem_append, List.mem_append, List.mem_singleton, List.mem_singleton] at hmem
      rcases hmem with (hmem | hmem) | hmem
      · unfold pmVar at hmem
        injection hmem with _ e1 e2
        subst e1 e2
        exact ⟨k1, k2, k2⟩
      · unfold vaneylenHyper at hmem
        cases fixed
        · simp only [Bool.false_eq_true, if_false, List.mem_cons, List.not_mem_nil, or_false] at hmem
          rcases hmem with hmem | hmem | hmem
          · exact hhyp _ _ _ _ n d kw' (by rw [hmem]; exact List.Mem.head _)
          · exact hhyp _ _ _ _ n d kw' (by rw [hmem]; exact List.Mem.head _)
          · exact hhyp _ _ _ _ n d kw' (by rw [hmem]; exact List.Mem.head _)
        · simp at hmem
      · cases hmem

/-- **C54 is violated** by `kipping13` without limits and by `vaneylen19`: they forward the keyword arguments as they are, so `testval`
reaches PyMC, and `initval` reaches PyMC3. -/
theorem C54_leak_counterexample (b : Backend) : ∃ rs rs',
    kipping13 b "ecc" true none none none [(b.foreignKey, Val.ofReal (1 / 10))] = .ok rs ∧ ¬ StartKeysClean b rs ∧
    vaneylen19 b "ecc" true false none none [(b.foreignKey, Val.ofReal (1 / 10))] = .ok rs' ∧ ¬ StartKeysClean b rs' := by
  have h1 : Kwargs.mem [(b.foreignKey, Val.ofReal (1 / 10))] "observed" = false := by cases b <;> rfl
  have hm1 : Kwargs.merge [("alpha", Val.ofReal 1.12), ("beta", Val.ofReal 3.09)] [(b.foreignKey, Val.ofReal (1 / 10))] =
    .ok [("alpha", Val.ofReal 1.12), ("beta", Val.ofReal 3.09), (b.foreignKey, Val.ofReal (1 / 10))] := by cases b <;> rfl
  have hm2 : Kwargs.merge [("lower", Val.ofReal 0), ("upper", Val.ofReal 1)] [(b.foreignKey, Val.ofReal (1 / 10))] =
    .ok [("lower", Val.ofReal 0), ("upper", Val.ofReal 1), (b.foreignKey, Val.ofReal (1 / 10))] := by cases b <;> rfl
  have e1 : kipping13 b "ecc" true none none none [(b.foreignKey, Val.ofReal (1 / 10))] =
      .ok [pmVar .beta "ecc" [("alpha", Val.ofReal 1.12), ("beta", Val.ofReal 3.09), (b.foreignKey, Val.ofReal (1 / 10))]] := by
    rw [kipping13_eq, get_of_not_mem h1, del_of_not_mem h1]
    unfold kippingLast kippingUnbounded kippingHyper kippingParams
    simp only [if_true, hm1]
    rfl
  have e2 : ∃ p, vaneylen19 b "ecc" true false none none [(b.foreignKey, Val.ofReal (1 / 10))] =
      .ok (pmVar .uniform "ecc" [("lower", Val.ofReal 0), ("upper", Val.ofReal 1), (b.foreignKey, Val.ofReal (1 / 10))] :: p) := by
    have : vaneylenEcc b "ecc" 0 1 [(b.foreignKey, Val.ofReal (1 / 10))] =
        .ok (pmVar .uniform "ecc" [("lower", Val.ofReal 0), ("upper", Val.ofReal 1), (b.foreignKey, Val.ofReal (1 / 10))],
          fun σ => σ "ecc") := by
      unfold vaneylenEcc
      simp only [Kwargs.pop, get_of_not_mem h1, del_of_not_mem h1, hm2]
    unfold vaneylen19
    simp only [Option.getD_none, this]
    exact ⟨_, rfl⟩
  obtain ⟨p, e2⟩ := e2
  refine ⟨_, _, e1, ?_, e2, ?_⟩
  · intro hc
    have := (hc _ _ _ (List.Mem.head _)).2.1
    cases b <;> simp [keyCount, Backend.foreignKey] at this
  · intro hc
    have := (hc "ecc" _ _ (List.Mem.head _)).2.1
    cases b <;> simp [keyCount, Backend.foreignKey] at this

end Exo
