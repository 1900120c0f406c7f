import Verif.Lemmas.Distributions

/-!
# C48-C51: `unit_disk`, `quad_limb_dark`, `impact_parameter`, `angle`

The theorems speak of one entry of the (array) parameters. A helper called with `initval=v` has `("initval", v)` in its
keyword dictionary; `K` are the other keyword arguments.
-/

namespace Exo
open Kwargs MeasureTheory
open scoped ENNReal

theorem startValue_self (b : Backend) (f : Family) (n : String) {kw : Kwargs} (h : kw.mem b.startKey = true) (rs : List Reg) :
    startValue b (pmVar f n kw :: rs) n = some (kw.get b.startKey .none) := by
  unfold startValue pmVar
  rw [List.findSome?_cons]
  simp [h]

theorem startValue_ne (b : Backend) (f : Family) {m n : String} (hn : m ≠ n) (kw : Kwargs) (rs : List Reg) :
    startValue b (pmVar f m kw :: rs) n = startValue b rs n := by
  unfold startValue pmVar
  rw [List.findSome?_cons]
  simp [hn]

/-! ## C48 -/

/-- The parameter of the disc as called: two entries. -/
theorem unitDisk_ok (b : Backend) (nx ny : String) {K : Kwargs} {rs : List Reg} {x y : State → ℝ}
    (h : unitDisk b nx ny K = .ok (rs, x, y)) : ∃ i0 i1,
    (requested K (.seq [fun _ => 0, fun _ => 0])).item 0 = .ok i0 ∧ (requested K (.seq [fun _ => 0, fun _ => 0])).item 1 = .ok i1 ∧
    rs = [pmVar .uniform nx (limKw b (-1) 1 (.num i0) (strip K)),
        pmVar .uniform ("__" ++ ny ++ "_unit_disk")
          (limKw b (-1) 1 (.num fun σ => i1 σ * Real.sqrt (1 - i0 σ ^ 2)) (strip K)),
        .potential (ny ++ "_jacobian") (fun σ => ptLog (Real.sqrt (1 - σ nx ^ 2))),
        .deterministic ny (fun σ => [σ ("__" ++ ny ++ "_unit_disk") * Real.sqrt (1 - σ nx ^ 2)])] ∧
    x = (fun σ => σ nx) ∧ y = fun σ => σ ("__" ++ ny ++ "_unit_disk") * Real.sqrt (1 - σ nx ^ 2) := by
  rw [unitDisk_eq] at h
  cases h0 : (requested K (.seq [fun _ => 0, fun _ => 0])).item 0 with
  | error e => rw [h0] at h; cases h
  | ok i0 =>
    cases h1 : (requested K (.seq [fun _ => 0, fun _ => 0])).item 1 with
    | error e => rw [h0, h1] at h; cases h
    | ok i1 =>
      rw [h0, h1] at h
      refine ⟨i0, i1, rfl, rfl, ?_⟩
      injection h with h
      rw [Prod.mk.injEq, Prod.mk.injEq] at h
      exact ⟨h.1.symm, h.2.1.symm, h.2.2.symm⟩

theorem unitDisk_density (b : Backend) (nx n2 nj ny : String) (v w : Val) (K : Kwargs) (g : State → List ℝ) (σ : State) :
    jointDensity [pmVar .uniform nx (limKw b (-1) 1 v K), pmVar .uniform n2 (limKw b (-1) 1 w K),
      .potential nj (fun σ => ptLog (Real.sqrt (1 - σ nx ^ 2))), .deterministic ny g] σ =
    ENNReal.ofReal (uniformPdf (-1) 1 (σ nx)) * (ENNReal.ofReal (uniformPdf (-1) 1 (σ n2)) *
      ENNReal.ofReal (Real.sqrt (1 - σ nx ^ 2))) := by
  simp only [jointDensity_cons, jointDensity_nil, pmVar, Reg.factor, limKw_density, ptLog_exp, mul_one]

/-- **C48** (support): in every state the sampler visits, `x² + y² < 1`. -/
theorem C48_support (b : Backend) (nx ny : String) {K : Kwargs} {rs : List Reg} {x y : State → ℝ}
    (h : unitDisk b nx ny K = .ok (rs, x, y)) (σ : State) (hσ : Visited rs σ) : x σ ^ 2 + y σ ^ 2 < 1 := by
  obtain ⟨i0, i1, -, -, rfl, rfl, rfl⟩ := unitDisk_ok b nx ny h
  have h1 := (limKw_interior ..).1 (hσ.2 nx _ _ (List.Mem.head _))
  have h2 := (limKw_interior ..).1 (hσ.2 ("__" ++ ny ++ "_unit_disk") _ _ (List.Mem.tail _ (List.Mem.head _)))
  have hp : 0 < 1 - σ nx ^ 2 := by nlinarith [h1.1, h1.2]
  have hq : σ ("__" ++ ny ++ "_unit_disk") ^ 2 < 1 := by nlinarith [h2.1, h2.2]
  simp only
  rw [mul_pow, Real.sq_sqrt hp.le]
  nlinarith

/-- **C48** (support): wherever the joint density is not zero, `x² + y² ≤ 1` (equality only on the boundary of the sampled
square). -/
theorem C48_density_support (b : Backend) (nx ny : String) {K : Kwargs} {rs : List Reg} {x y : State → ℝ}
    (h : unitDisk b nx ny K = .ok (rs, x, y)) (σ : State) (hσ : jointDensity rs σ ≠ 0) :
    x σ ^ 2 + y σ ^ 2 ≤ 1 ∧ x σ ^ 2 < 1 := by
  obtain ⟨i0, i1, -, -, rfl, rfl, rfl⟩ := unitDisk_ok b nx ny h
  rw [unitDisk_density] at hσ
  have h2 := ofReal_uniformPdf_ne_zero (left_ne_zero_of_mul (right_ne_zero_of_mul hσ))
  have h3 := right_ne_zero_of_mul (right_ne_zero_of_mul hσ)
  have hp : 0 < 1 - σ nx ^ 2 := by
    rw [ne_eq, ENNReal.ofReal_eq_zero, not_le, Real.sqrt_pos] at h3
    exact h3
  have hq : σ ("__" ++ ny ++ "_unit_disk") ^ 2 ≤ 1 := by nlinarith [h2.1, h2.2]
  simp only
  rw [mul_pow, Real.sq_sqrt hp.le]
  exact ⟨by nlinarith, by linarith⟩

/-- **C48** (law): two free variables are registered, and under their joint law (including the Jacobian potential) the returned pair
is uniform on the unit disc. -/
theorem C48_uniform (b : Backend) (nx ny : String) (hn : nx ≠ "__" ++ ny ++ "_unit_disk") {K : Kwargs} {rs : List Reg}
    {x y : State → ℝ} (h : unitDisk b nx ny K = .ok (rs, x, y)) : ∃ n1 n2, freeNames rs = [n1, n2] ∧
    UniformOn (Measure.map (fun p => (x (twoState n1 n2 p), y (twoState n1 n2 p))) (law2 rs n1 n2)) unitDisc := by
  obtain ⟨i0, i1, -, -, rfl, rfl, rfl⟩ := unitDisk_ok b nx ny h
  refine ⟨nx, "__" ++ ny ++ "_unit_disk", rfl, ENNReal.ofReal (1 / 4), by norm_num, ENNReal.ofReal_ne_top, ?_⟩
  unfold law2
  simp only [unitDisk_density, twoState_fst hn, twoState_snd]
  refine disc_uniform (ENNReal.ofReal (1 / 4)) fun p => ?_
  unfold uniformPdf
  by_cases h1 : -1 ≤ p.1 ∧ p.1 ≤ 1 <;> by_cases h2 : -1 ≤ p.2 ∧ p.2 ≤ 1
  · rw [if_pos h1, if_pos h2, Set.indicator_of_mem (Set.mk_mem_prod (Set.mem_Icc.2 h1) (Set.mem_Icc.2 h2)), ← mul_assoc,
      ← ENNReal.ofReal_mul (by norm_num)]
    norm_num
  · rw [if_neg h2, Set.indicator_of_notMem fun hc => h2 hc.2]; simp
  · rw [if_neg h1, Set.indicator_of_notMem fun hc => h1 hc.1]; simp
  · rw [if_neg h1, Set.indicator_of_notMem fun hc => h1 hc.1]; simp

/-- **C48** (start, what holds): with `initval=(a, c)` in the disc, the sampler starts at `x = a` and at `y = c (1 - a²)`.
Missing from the full statement: `y = c`, which fails when `a c ≠ 0`. -/
theorem C48_start_partial (b : Backend) (nx ny : String) (hn : nx ≠ "__" ++ ny ++ "_unit_disk") (K : Kwargs) (a c : ℝ)
    (hac : a ^ 2 + c ^ 2 < 1) {rs : List Reg} {x y : State → ℝ}
    (h : unitDisk b nx ny (("initval", .seq [fun _ => a, fun _ => c]) :: K) = .ok (rs, x, y)) (σ : State)
    (hσ : IsStart b rs σ) : x σ = a ∧ y σ = c * (1 - a ^ 2) ∧ (y σ = c ↔ a = 0 ∨ c = 0) := by
  obtain ⟨i0, i1, e0, e1, rfl, rfl, rfl⟩ := unitDisk_ok b nx ny h
  have hr : requested (("initval", .seq [fun _ => a, fun _ => c]) :: K) (.seq [fun _ => 0, fun _ => 0]) =
      .seq [fun _ => a, fun _ => c] := get_cons_self ..
  rw [hr] at e0 e1
  injection e0 with e0
  injection e1 with e1
  subst e0 e1
  obtain ⟨v, hv, hv2⟩ := hσ nx _ _ (List.Mem.head _)
  rw [startValue_self _ _ _ (limKw_mem ..), limKw_start _ _ _ _ _ (strip_initval _) (strip_testval _)] at hv
  injection hv with hv
  subst hv
  obtain ⟨w, hw, hw2⟩ := hσ ("__" ++ ny ++ "_unit_disk") _ _ (List.Mem.tail _ (List.Mem.head _))
  rw [startValue_ne _ _ hn, startValue_self _ _ _ (limKw_mem ..),
    limKw_start _ _ _ _ _ (strip_initval _) (strip_testval _)] at hw
  injection hw with hw
  subst hw
  simp only [Val.eval, Option.some.injEq] at hv2 hw2
  have hp : 0 < 1 - a ^ 2 := by nlinarith [sq_nonneg c]
  have hy : c * Real.sqrt (1 - a ^ 2) * Real.sqrt (1 - a ^ 2) = c * (1 - a ^ 2) := by
    rw [mul_assoc, Real.mul_self_sqrt hp.le]
  refine ⟨hv2.symm, ?_, ?_⟩
  · simp only
    rw [← hv2, ← hw2, hy]
  · simp only
    rw [← hv2, ← hw2, hy]
    constructor
    · intro e
      have : c * a ^ 2 = 0 := by linarith
      rcases mul_eq_zero.1 this with h | h
      · exact Or.inr h
      · exact Or.inl (pow_eq_zero_iff two_ne_zero |>.1 h)
    · rintro (rfl | rfl) <;> ring

/-- `unit_disk` succeeds with a start value. -/
theorem unitDisk_succeeds (b : Backend) (nx ny : String) (K : Kwargs) (a c : ℝ) :
    ∃ r, unitDisk b nx ny (("initval", .seq [fun _ => a, fun _ => c]) :: K) = .ok r := by
  rw [unitDisk_eq]
  have hr : requested (("initval", .seq [fun _ => a, fun _ => c]) :: K) (.seq [fun _ => 0, fun _ => 0]) =
      .seq [fun _ => a, fun _ => c] := get_cons_self ..
  rw [hr]
  exact ⟨_, rfl⟩

/-- The state in which `unit_disk("x", "y", initval=(a, c))` starts. -/
noncomputable def diskStart (a c : ℝ) : State := twoState "x" "__y_unit_disk" (a, c * Real.sqrt (1 - a ^ 2))

theorem diskStart_isStart (b : Backend) (a c : ℝ) {rs : List Reg} {x y : State → ℝ}
    (h : unitDisk b "x" "y" [("initval", .seq [fun _ => a, fun _ => c])] = .ok (rs, x, y)) : IsStart b rs (diskStart a c) := by
  obtain ⟨i0, i1, e0, e1, rfl, rfl, rfl⟩ := unitDisk_ok b "x" "y" h
  have hr : requested [("initval", .seq [fun _ => a, fun _ => c])] (.seq [fun _ => 0, fun _ => 0]) =
      .seq [fun _ => a, fun _ => c] := get_cons_self ..
  rw [hr] at e0 e1
  injection e0 with e0
  injection e1 with e1
  subst e0 e1
  have hne : ("x" : String) ≠ "__" ++ "y" ++ "_unit_disk" := by decide
  intro n d kw hm
  simp only [pmVar, List.mem_cons, Reg.free.injEq, reduceCtorEq, List.not_mem_nil, or_false] at hm
  rcases hm with ⟨rfl, -, -⟩ | ⟨rfl, -, -⟩
  · refine ⟨_, startValue_self _ _ _ (limKw_mem ..) _, ?_⟩
    rw [limKw_start _ _ _ _ _ (strip_initval _) (strip_testval _)]
    unfold diskStart
    rw [twoState_fst (by decide)]
    rfl
  · refine ⟨_, (startValue_ne _ _ hne _ _).trans (startValue_self _ _ _ (limKw_mem ..) _), ?_⟩
    rw [limKw_start _ _ _ _ _ (strip_initval _) (strip_testval _)]
    unfold diskStart
    rw [show "__" ++ "y" ++ "_unit_disk" = "__y_unit_disk" by decide, twoState_snd]
    rfl

/-- **C48 is violated** (start): with `initval=(3/5, 1/2)` the sampler starts at `y = 8/25`. -/
theorem C48_start_counterexample (b : Backend) : ∃ rs x y σ,
    unitDisk b "x" "y" [("initval", .seq [fun _ => 3 / 5, fun _ => 1 / 2])] = .ok (rs, x, y) ∧ IsStart b rs σ ∧
    x σ = 3 / 5 ∧ y σ = 8 / 25 ∧ y σ ≠ 1 / 2 := by
  obtain ⟨⟨rs, x, y⟩, h⟩ := unitDisk_succeeds b "x" "y" [] (3 / 5) (1 / 2)
  have hs := diskStart_isStart b (3 / 5) (1 / 2) h
  obtain ⟨h1, h2, -⟩ := C48_start_partial b "x" "y" (by decide) [] (3 / 5) (1 / 2) (by norm_num) h _ hs
  exact ⟨rs, x, y, _, h, hs, h1, by rw [h2]; norm_num, by rw [h2]; norm_num⟩

/-- Visited states exist: the hypotheses of `C48_support` are met, e.g. at the centre. -/
example (b : Backend) : ∃ rs x y, unitDisk b "x" "y" [] = .ok (rs, x, y) ∧ Visited rs (fun _ => 1 / 2) := by
  refine ⟨_, _, _, unitDisk_eq b "x" "y" [], ?_, ?_⟩
  · rw [unitDisk_density]
    simp only [uniformPdf]
    norm_num
  · intro n d kw hm
    simp only [pmVar, List.mem_cons, Reg.free.injEq, reduceCtorEq, List.not_mem_nil, or_false] at hm
    rcases hm with ⟨rfl, rfl, -⟩ | ⟨rfl, rfl, -⟩
    · rw [limKw_interior]; norm_num
    · rw [limKw_interior]; norm_num

/-! ## C49 -/

theorem quadLimbDark_ok (b : Backend) (name : String) {K : Kwargs} {rs : List Reg} {a c : State → ℝ}
    (h : quadLimbDark b name K = .ok (rs, a, c)) : ∃ u1 u2,
    (requested K (.seq [fun _ => Real.sqrt 0.5, fun _ => 0])).item 0 = .ok u1 ∧
    (requested K (.seq [fun _ => Real.sqrt 0.5, fun _ => 0])).item 1 = .ok u2 ∧
    rs = [pmVar .uniform ("__" ++ name ++ "_q1") (limKw b 0 1 (.num fun σ => (u1 σ + u2 σ) ^ 2) (strip K)),
        pmVar .uniform ("__" ++ name ++ "_q2")
          (limKw b 0 1 (.nanable fun σ => npDiv (0.5 * u1 σ) (u1 σ + u2 σ)) (strip K)),
        .deterministic name (fun σ => [Real.sqrt (σ ("__" ++ name ++ "_q1")) * (2 * σ ("__" ++ name ++ "_q2")),
          Real.sqrt (σ ("__" ++ name ++ "_q1")) * (1 - 2 * σ ("__" ++ name ++ "_q2"))])] ∧
    a = (fun σ => Real.sqrt (σ ("__" ++ name ++ "_q1")) * (2 * σ ("__" ++ name ++ "_q2"))) ∧
    c = fun σ => Real.sqrt (σ ("__" ++ name ++ "_q1")) * (1 - 2 * σ ("__" ++ name ++ "_q2")) := by
  rw [quadLimbDark_eq] at h
  cases h0 : (requested K (.seq [fun _ => Real.sqrt 0.5, fun _ => 0])).item 0 with
  | error e => rw [h0] at h; cases h
  | ok i0 =>
    cases h1 : (requested K (.seq [fun _ => Real.sqrt 0.5, fun _ => 0])).item 1 with
    | error e => rw [h0, h1] at h; cases h
    | ok i1 =>
      rw [h0, h1] at h
      refine ⟨i0, i1, rfl, rfl, ?_⟩
      injection h with h
      rw [Prod.mk.injEq, Prod.mk.injEq] at h
      exact ⟨h.1.symm, h.2.1.symm, h.2.2.symm⟩

theorem quadLimbDark_density (b : Backend) (n1 n2 n : String) (v w : Val) (K : Kwargs) (g : State → List ℝ) (σ : State) :
    jointDensity [pmVar .uniform n1 (limKw b 0 1 v K), pmVar .uniform n2 (limKw b 0 1 w K), .deterministic n g] σ =
    ENNReal.ofReal (uniformPdf 0 1 (σ n1)) * ENNReal.ofReal (uniformPdf 0 1 (σ n2)) := by
  simp only [jointDensity_cons, jointDensity_nil, pmVar, Reg.factor, limKw_density, mul_one]

/-- The two names of the hidden variables differ. -/
theorem ld_names (name : String) : "__" ++ name ++ "_q1" ≠ "__" ++ name ++ "_q2" := by
  intro h
  have := congrArg String.toList h
  simp [String.toList_append] at this

/-- Physical coefficients (boundary included) give a non-negative profile that increases from limb to centre. -/
theorem brightness_physical {u : ℝ × ℝ} (h1 : u.1 + u.2 ≤ 1) (h2 : 0 ≤ u.1) (h3 : 0 ≤ u.1 + 2 * u.2) :
    (∀ mu ∈ Set.Icc (0 : ℝ) 1, 0 ≤ brightness u mu) ∧ MonotoneOn (brightness u) (Set.Icc 0 1) := by
  have hmono : MonotoneOn (brightness u) (Set.Icc 0 1) := by
    intro m hm n hn hmn
    unfold brightness
    have key : 0 ≤ (n - m) * (u.1 + u.2 * (2 - m - n)) := by
      refine mul_nonneg (by linarith) ?_
      have a1 := hm.1; have a2 := hn.2; have a3 := hm.2; have a4 := hn.1
      -- a convex combination of `u.1` and `u.1 + 2 u.2`
      have : u.1 + u.2 * (2 - m - n) = u.1 * ((m + n) / 2) + (u.1 + 2 * u.2) * (1 - (m + n) / 2) := by ring
      rw [this]
      have b1 : 0 ≤ (m + n) / 2 := by linarith
      have b2 : 0 ≤ 1 - (m + n) / 2 := by linarith
      positivity
    nlinarith
  refine ⟨fun mu hmu => ?_, hmono⟩
  have := hmono (Set.left_mem_Icc.2 zero_le_one) hmu hmu.1
  refine le_trans ?_ this
  unfold brightness
  linarith

/-- **C49** (support): in every state the sampler visits, the coefficients lie in Kipping's triangle. -/
theorem C49_support (b : Backend) (name : String) {K : Kwargs} {rs : List Reg} {u1 u2 : State → ℝ}
    (h : quadLimbDark b name K = .ok (rs, u1, u2)) (σ : State) (hσ : Visited rs σ) : (u1 σ, u2 σ) ∈ physicalTriangle := by
  obtain ⟨i0, i1, -, -, rfl, rfl, rfl⟩ := quadLimbDark_ok b name h
  have h1 := (limKw_interior ..).1 (hσ.2 ("__" ++ name ++ "_q1") _ _ (List.Mem.head _))
  have h2 := (limKw_interior ..).1 (hσ.2 ("__" ++ name ++ "_q2") _ _ (List.Mem.tail _ (List.Mem.head _)))
  have := triMap_image.subset ⟨(σ ("__" ++ name ++ "_q1"), σ ("__" ++ name ++ "_q2")), ⟨h1, h2⟩, rfl⟩
  exact this

/-- **C49** (physics): wherever the joint density is not zero, the brightness profile is non-negative and does not increase towards
the limb. -/
theorem C49_physical (b : Backend) (name : String) {K : Kwargs} {rs : List Reg} {u1 u2 : State → ℝ}
    (h : quadLimbDark b name K = .ok (rs, u1, u2)) (σ : State) (hσ : jointDensity rs σ ≠ 0) :
    (∀ mu ∈ Set.Icc (0 : ℝ) 1, 0 ≤ brightness (u1 σ, u2 σ) mu) ∧ MonotoneOn (brightness (u1 σ, u2 σ)) (Set.Icc 0 1) := by
  obtain ⟨i0, i1, -, -, rfl, rfl, rfl⟩ := quadLimbDark_ok b name h
  rw [quadLimbDark_density] at hσ
  have h1 := ofReal_uniformPdf_ne_zero (left_ne_zero_of_mul hσ)
  have h2 := ofReal_uniformPdf_ne_zero (right_ne_zero_of_mul hσ)
  have hs0 := Real.sqrt_nonneg (σ ("__" ++ name ++ "_q1"))
  have hs1 : Real.sqrt (σ ("__" ++ name ++ "_q1")) ≤ 1 := Real.sqrt_le_one.2 h1.2
  refine brightness_physical ?_ ?_ ?_
  · simp only; nlinarith
  · simp only; exact mul_nonneg hs0 (by linarith [h2.1])
  · simp only
    have := mul_nonneg hs0 (by linarith [h2.2] : 0 ≤ 1 - σ ("__" ++ name ++ "_q2"))
    nlinarith

/-- **C49** (law): two free variables are registered, and the returned pair is uniform on the triangle. -/
theorem C49_uniform (b : Backend) (name : String) {K : Kwargs} {rs : List Reg} {u1 u2 : State → ℝ}
    (h : quadLimbDark b name K = .ok (rs, u1, u2)) : ∃ n1 n2, freeNames rs = [n1, n2] ∧
    UniformOn (Measure.map (fun p => (u1 (twoState n1 n2 p), u2 (twoState n1 n2 p))) (law2 rs n1 n2)) physicalTriangle := by
  obtain ⟨i0, i1, -, -, rfl, rfl, rfl⟩ := quadLimbDark_ok b name h
  refine ⟨"__" ++ name ++ "_q1", "__" ++ name ++ "_q2", rfl, 1, one_ne_zero, ENNReal.one_ne_top, ?_⟩
  unfold law2
  simp only [quadLimbDark_density, twoState_fst (ld_names name), twoState_snd]
  refine tri_uniform 1 fun p => ?_
  unfold uniformPdf
  by_cases h1 : 0 ≤ p.1 ∧ p.1 ≤ 1 <;> by_cases h2 : 0 ≤ p.2 ∧ p.2 ≤ 1
  · rw [if_pos h1, if_pos h2, Set.indicator_of_mem (Set.mk_mem_prod (Set.mem_Icc.2 h1) (Set.mem_Icc.2 h2))]
    norm_num
  · rw [if_neg h2, Set.indicator_of_notMem fun hc => h2 hc.2]; simp
  · rw [if_neg h1, Set.indicator_of_notMem fun hc => h1 hc.1]; simp
  · rw [if_neg h1, Set.indicator_of_notMem fun hc => h1 hc.1]; simp

/-- The start equations of `quad_limb_dark`. -/
theorem quadLimbDark_start (b : Backend) (name : String) (K : Kwargs) (u1 u2 : ℝ) {rs : List Reg} {a c : State → ℝ}
    (h : quadLimbDark b name (("initval", .seq [fun _ => u1, fun _ => u2]) :: K) = .ok (rs, a, c)) (σ : State)
    (hσ : IsStart b rs σ) : σ ("__" ++ name ++ "_q1") = (u1 + u2) ^ 2 ∧
      npDiv (0.5 * u1) (u1 + u2) = some (σ ("__" ++ name ++ "_q2")) := by
  obtain ⟨i0, i1, e0, e1, rfl, rfl, rfl⟩ := quadLimbDark_ok b name h
  have hr : requested (("initval", .seq [fun _ => u1, fun _ => u2]) :: K) (.seq [fun _ => Real.sqrt 0.5, fun _ => 0]) =
      .seq [fun _ => u1, fun _ => u2] := get_cons_self ..
  rw [hr] at e0 e1
  injection e0 with e0
  injection e1 with e1
  subst e0 e1
  obtain ⟨v, hv, hv2⟩ := hσ ("__" ++ name ++ "_q1") _ _ (List.Mem.head _)
  rw [startValue_self _ _ _ (limKw_mem ..), limKw_start _ _ _ _ _ (strip_initval _) (strip_testval _)] at hv
  injection hv with hv
  subst hv
  obtain ⟨w, hw, hw2⟩ := hσ ("__" ++ name ++ "_q2") _ _ (List.Mem.tail _ (List.Mem.head _))
  rw [startValue_ne _ _ (ld_names name), startValue_self _ _ _ (limKw_mem ..),
    limKw_start _ _ _ _ _ (strip_initval _) (strip_testval _)] at hw
  injection hw with hw
  subst hw
  simp only [Val.eval, Option.some.injEq] at hv2 hw2
  exact ⟨hv2.symm, hw2⟩

/-- **C49** (start): called with `initval=(u1, u2)` in the triangle, the sampler starts at exactly these coefficients. -/
theorem C49_start (b : Backend) (name : String) (K : Kwargs) (u1 u2 : ℝ) (hu : (u1, u2) ∈ physicalTriangle)
    {rs : List Reg} {a c : State → ℝ}
    (h : quadLimbDark b name (("initval", .seq [fun _ => u1, fun _ => u2]) :: K) = .ok (rs, a, c)) (σ : State)
    (hσ : IsStart b rs σ) : a σ = u1 ∧ c σ = u2 := by
  obtain ⟨h1, h2⟩ := quadLimbDark_start b name K u1 u2 h σ hσ
  obtain ⟨i0, i1, -, -, -, rfl, rfl⟩ := quadLimbDark_ok b name h
  have hs : 0 < u1 + u2 := by
    have b1 := hu.2.1; have b2 := hu.2.2
    simp only at b1 b2
    linarith
  unfold npDiv at h2
  rw [if_neg hs.ne', Option.some.injEq] at h2
  simp only
  rw [h1, ← h2, Real.sqrt_sq hs.le]
  constructor <;> field_simp <;> ring

/-- **C49** (boundary): `initval=(0, 0)`, a uniform disc, lies on the corner of the triangle and has no start state at all: the second
hidden variable starts at `0/0`. -/
theorem C49_start_corner (b : Backend) (name : String) (K : Kwargs) {rs : List Reg} {a c : State → ℝ}
    (h : quadLimbDark b name (("initval", .seq [fun _ => 0, fun _ => 0]) :: K) = .ok (rs, a, c)) (σ : State) :
    ¬ IsStart b rs σ := by
  intro hσ
  have h2 := (quadLimbDark_start b name K 0 0 h σ hσ).2
  simp [npDiv] at h2

theorem quadLimbDark_succeeds (b : Backend) (name : String) (K : Kwargs) (u1 u2 : ℝ) :
    ∃ r, quadLimbDark b name (("initval", .seq [fun _ => u1, fun _ => u2]) :: K) = .ok r := by
  rw [quadLimbDark_eq]
  have hr : requested (("initval", .seq [fun _ => u1, fun _ => u2]) :: K) (.seq [fun _ => Real.sqrt 0.5, fun _ => 0]) =
      .seq [fun _ => u1, fun _ => u2] := get_cons_self ..
  rw [hr]
  exact ⟨_, rfl⟩

/-- Non-vacuity: solar-like coefficients have a start state, which is visited. -/
example (b : Backend) : ∃ rs a c σ, quadLimbDark b "u" [("initval", .seq [fun _ => 3 / 10, fun _ => 1 / 5])] = .ok (rs, a, c) ∧
    IsStart b rs σ ∧ Visited rs σ ∧ ((3 / 10 : ℝ), (1 / 5 : ℝ)) ∈ physicalTriangle := by
  obtain ⟨⟨rs, a, c⟩, h⟩ := quadLimbDark_succeeds b "u" [] (3 / 10) (1 / 5)
  obtain ⟨i0, i1, e0, e1, rfl, -, -⟩ := quadLimbDark_ok b "u" h
  have hr : requested [("initval", .seq [fun _ => 3 / 10, fun _ => 1 / 5])] (.seq [fun _ => Real.sqrt 0.5, fun _ => 0]) =
      .seq [fun _ => 3 / 10, fun _ => 1 / 5] := get_cons_self ..
  rw [hr] at e0 e1
  injection e0 with e0
  injection e1 with e1
  subst e0 e1
  have hq1 : twoState "__u_q1" "__u_q2" (1 / 4, 3 / 10) ("__" ++ "u" ++ "_q1") = 1 / 4 := twoState_fst (by decide) _
  have hq2 : twoState "__u_q1" "__u_q2" (1 / 4, 3 / 10) ("__" ++ "u" ++ "_q2") = 3 / 10 := twoState_snd _ _ _
  refine ⟨_, a, c, twoState "__u_q1" "__u_q2" (1 / 4, 3 / 10), h, ?_, ⟨?_, ?_⟩, ?_⟩
  · intro n d kw hm
    simp only [pmVar, List.mem_cons, Reg.free.injEq, reduceCtorEq, List.not_mem_nil, or_false] at hm
    rcases hm with ⟨rfl, -, -⟩ | ⟨rfl, -, -⟩
    · refine ⟨_, startValue_self _ _ _ (limKw_mem ..) _, ?_⟩
      rw [limKw_start _ _ _ _ _ (strip_initval _) (strip_testval _), hq1]
      simp only [Val.eval, Option.some.injEq]; norm_num
    · refine ⟨_, (startValue_ne _ _ (ld_names "u") _ _).trans (startValue_self _ _ _ (limKw_mem ..) _), ?_⟩
      rw [limKw_start _ _ _ _ _ (strip_initval _) (strip_testval _), hq2]
      simp only [Val.eval, npDiv]; norm_num
  · rw [quadLimbDark_density, hq1, hq2]
    simp only [uniformPdf]; norm_num
  · intro n d kw hm
    simp only [pmVar, List.mem_cons, Reg.free.injEq, reduceCtorEq, List.not_mem_nil, or_false] at hm
    rcases hm with ⟨rfl, rfl, -⟩ | ⟨rfl, rfl, -⟩
    · rw [limKw_interior, hq1]; norm_num
    · rw [limKw_interior, hq2]; norm_num
  · refine ⟨?_, ?_, ?_⟩ <;> norm_num

/-! ## C50 -/

theorem impactParameter_ok (b : Backend) (name : String) (ror : State → ℝ) {K : Kwargs} {rs : List Reg} {v : State → ℝ}
    (h : impactParameter b name ror K = .ok (rs, v)) : ∃ bh, (requested K (Val.ofReal 0.5)).asNum = .ok bh ∧
    rs = [pmVar .uniform ("__" ++ name ++ "_impact_parameter")
          (limKw b 0 1 (.nanable fun σ => npDiv (bh σ) (1 + ror σ)) (shaped b (strip K))),
        .deterministic name (fun σ => [σ ("__" ++ name ++ "_impact_parameter") * (1 + ror σ)])] ∧
    v = fun σ => σ ("__" ++ name ++ "_impact_parameter") * (1 + ror σ) := by
  rw [impactParameter_eq] at h
  cases h0 : (requested K (Val.ofReal 0.5)).asNum with
  | error e => rw [h0] at h; cases h
  | ok bh =>
    rw [h0] at h
    refine ⟨bh, rfl, ?_⟩
    injection h with h
    rw [Prod.mk.injEq] at h
    exact ⟨h.1.symm, h.2.symm⟩

theorem impactParameter_density (b : Backend) (n m : String) (v : Val) (K : Kwargs) (g : State → List ℝ) (σ : State) :
    jointDensity [pmVar .uniform n (limKw b 0 1 v K), .deterministic m g] σ = ENNReal.ofReal (uniformPdf 0 1 (σ n)) := by
  simp only [jointDensity_cons, jointDensity_nil, pmVar, Reg.factor, limKw_density, mul_one]

/-- **C50** (support): wherever the joint density is not zero, `0 ≤ b ≤ 1 + ror`. -/
theorem C50_support (b : Backend) (name : String) (ror : State → ℝ) {K : Kwargs} {rs : List Reg} {v : State → ℝ}
    (h : impactParameter b name ror K = .ok (rs, v)) (σ : State) (hr : -1 < ror σ) (hσ : jointDensity rs σ ≠ 0) :
    0 ≤ v σ ∧ v σ ≤ 1 + ror σ := by
  obtain ⟨bh, -, rfl, rfl⟩ := impactParameter_ok b name ror h
  rw [impactParameter_density] at hσ
  have h1 := ofReal_uniformPdf_ne_zero hσ
  simp only
  exact ⟨mul_nonneg h1.1 (by linarith), by nlinarith [h1.2]⟩

/-- **C50** (law): one free variable is registered; conditioned on everything else (in particular on `ror`, which does not depend on it)
the value is uniform on `[0, 1 + ror]`. -/
theorem C50_uniform (b : Backend) (name : String) (ror : State → ℝ) {K : Kwargs} {rs : List Reg} {v : State → ℝ}
    (h : impactParameter b name ror K = .ok (rs, v)) : ∃ n, freeNames rs = [n] ∧
    ∀ σ : State, -1 < ror σ → (∀ x, ror (Function.update σ n x) = ror σ) →
      UniformOn (Measure.map (fun x => v (Function.update σ n x)) (law1 rs n σ)) (Set.Icc 0 (1 + ror σ)) := by
  obtain ⟨bh, -, rfl, rfl⟩ := impactParameter_ok b name ror h
  refine ⟨_, rfl, fun σ hr hind => ⟨ENNReal.ofReal (1 + ror σ)⁻¹, ?_, ENNReal.ofReal_ne_top, ?_⟩⟩
  · have : 0 < (1 + ror σ)⁻¹ := inv_pos.2 (by linarith)
    simpa using this
  · unfold law1
    simp only [impactParameter_density, Function.update_self, hind]
    exact scale_uniform (by linarith)

/-- **C50** (start): called with `initval=b0`, the sampler starts at `b0`, whatever `ror > -1` is in the start state. -/
theorem C50_start (b : Backend) (name : String) (ror : State → ℝ) (K : Kwargs) (b0 : ℝ) {rs : List Reg} {v : State → ℝ}
    (h : impactParameter b name ror (("initval", .num fun _ => b0) :: K) = .ok (rs, v)) (σ : State) (hr : -1 < ror σ)
    (hσ : IsStart b rs σ) : v σ = b0 := by
  obtain ⟨bh, e, rfl, rfl⟩ := impactParameter_ok b name ror h
  have hrq : requested (("initval", .num fun _ => b0) :: K) (Val.ofReal 0.5) = .num fun _ => b0 := get_cons_self ..
  rw [hrq] at e
  injection e with e
  subst e
  obtain ⟨w, hw, hw2⟩ := hσ ("__" ++ name ++ "_impact_parameter") _ _ (List.Mem.head _)
  rw [startValue_self _ _ _ (limKw_mem ..), limKw_start _ _ _ _ _ (shaped_not_mem b (by decide) (strip_initval _))
    (shaped_not_mem b (by decide) (strip_testval _))] at hw
  injection hw with hw
  subst hw
  have hne : 1 + ror σ ≠ 0 := by linarith
  simp only [Val.eval, npDiv, if_neg hne, Option.some.injEq] at hw2
  simp only
  rw [← hw2, div_mul_cancel₀ _ hne]

/-- **C50** (start): the default start is `b = 1/2`. -/
theorem C50_default_start (b : Backend) (name : String) (ror : State → ℝ) (K : Kwargs) (h1 : K.mem "initval" = false)
    (h2 : K.mem "testval" = false) {rs : List Reg} {v : State → ℝ}
    (h : impactParameter b name ror K = .ok (rs, v)) (σ : State) (hr : -1 < ror σ)
    (hσ : IsStart b rs σ) : v σ = 1 / 2 := by
  obtain ⟨bh, e, rfl, rfl⟩ := impactParameter_ok b name ror h
  unfold requested at e
  rw [get_of_not_mem h2, get_of_not_mem h1] at e
  injection e with e
  subst e
  obtain ⟨w, hw, hw2⟩ := hσ ("__" ++ name ++ "_impact_parameter") _ _ (List.Mem.head _)
  rw [startValue_self _ _ _ (limKw_mem ..), limKw_start _ _ _ _ _ (shaped_not_mem b (by decide) (strip_initval _))
    (shaped_not_mem b (by decide) (strip_testval _))] at hw
  injection hw with hw
  subst hw
  have hne : 1 + ror σ ≠ 0 := by linarith
  simp only [Val.eval, npDiv, if_neg hne, Option.some.injEq] at hw2
  simp only
  rw [← hw2, div_mul_cancel₀ _ hne]
  norm_num

/-- Non-vacuity: with a constant `ror`, and a start state. -/
example (b : Backend) : ∃ rs v σ, impactParameter b "b" (fun _ => 1 / 10) [("initval", .num fun _ => 3 / 10)] = .ok (rs, v) ∧
    IsStart b rs σ ∧ jointDensity rs σ ≠ 0 := by
  refine ⟨_, _, fun _ => 3 / 11, impactParameter_eq .., ?_, ?_⟩
  · intro n d kw hm
    simp only [pmVar, List.mem_cons, Reg.free.injEq, reduceCtorEq, List.not_mem_nil, or_false] at hm
    obtain ⟨rfl, -, -⟩ := hm
    refine ⟨_, startValue_self _ _ _ (limKw_mem ..) _, ?_⟩
    rw [limKw_start _ _ _ _ _ (shaped_not_mem b (by decide) (strip_initval _)) (shaped_not_mem b (by decide) (strip_testval _))]
    simp only [Val.eval, npDiv]; norm_num
  · rw [impactParameter_density]
    simp only [uniformPdf]; norm_num

/-! ## C51 -/

theorem angle_ok (b : Backend) (name : String) (reg : Option ℝ) {K : Kwargs} {rs : List Reg} {v : State → ℝ}
    (h : angle b name reg K = .ok (rs, v)) : ∃ iv, (requested K (Val.ofReal 0)).asNum = .ok iv ∧
    rs = [pmVar .normal ("__" ++ name ++ "_angle1") (strip K ++ [(b.startKey, .num fun σ => Real.sin (iv σ))]),
        pmVar .normal ("__" ++ name ++ "_angle2") (strip K ++ [(b.startKey, .num fun σ => Real.cos (iv σ))])] ++
        anglePot name reg ++
        [.deterministic name (fun σ => [arctan2 (σ ("__" ++ name ++ "_angle1")) (σ ("__" ++ name ++ "_angle2"))])] ∧
    v = fun σ => arctan2 (σ ("__" ++ name ++ "_angle1")) (σ ("__" ++ name ++ "_angle2")) := by
  rw [angle_eq] at h
  cases h0 : (requested K (Val.ofReal 0)).asNum with
  | error e => rw [h0] at h; cases h
  | ok bh =>
    rw [h0] at h
    refine ⟨bh, rfl, ?_⟩
    injection h with h
    rw [Prod.mk.injEq] at h
    exact ⟨h.1.symm, h.2.symm⟩

theorem angle_names (name : String) : "__" ++ name ++ "_angle1" ≠ "__" ++ name ++ "_angle2" := by
  intro h
  have := congrArg String.toList h
  simp [String.toList_append] at this

theorem plain_not_mem {K : Kwargs} (hK : PlainKwargs K) {k : String}
    (hk : k ∉ ["initval", "testval", "shape", "dims", "model"]) : K.mem k = false :=
  mem_false_iff.2 fun p hp h => hk (h ▸ hK p hp)

theorem angle_normal_density (b : Backend) {K : Kwargs} (hK : PlainKwargs K) (v : Val) (σ : State) (x : ℝ) :
    (Dist.plain .normal (strip K ++ [(b.startKey, v)])).density σ x = ENNReal.ofReal (normalPdf 0 1 x) := by
  have hm : ∀ k : String, k ∉ ["initval", "testval", "shape", "dims", "model"] →
      Kwargs.mem (strip K ++ [(b.startKey, v)]) k = false := by
    intro k hk
    rw [mem_append]
    have h1 : (strip K).mem k = false := mem_del_of (mem_del_of (plain_not_mem hK hk))
    rw [h1]
    have : b.startKey ≠ k := startKey_ne b (fun e => hk (by simp [e])) (fun e => hk (by simp [e]))
    simp [Kwargs.mem, this]
  simp only [Dist.density, Family.pdf]
  rw [get_of_not_mem (hm "mu" (by decide)), get_of_not_mem (hm "sigma" (by decide))]
  rfl

theorem angle_density (b : Backend) (name : String) (reg : Option ℝ) {K : Kwargs} (hK : PlainKwargs K) (v w : Val)
    (g : State → List ℝ) (σ : State) :
    jointDensity ([pmVar .normal ("__" ++ name ++ "_angle1") (strip K ++ [(b.startKey, v)]),
        pmVar .normal ("__" ++ name ++ "_angle2") (strip K ++ [(b.startKey, w)])] ++
        anglePot name reg ++ [.deterministic name g]) σ =
    angleRadial reg (σ ("__" ++ name ++ "_angle1") ^ 2 + σ ("__" ++ name ++ "_angle2") ^ 2) := by
  rw [jointDensity_append, jointDensity_append, anglePot_density]
  simp only [jointDensity_cons, jointDensity_nil, pmVar, Reg.factor, angle_normal_density b hK, mul_one]
  rw [← ENNReal.ofReal_mul (normalPdf_nonneg zero_le_one _), normalPdf_mul]
  rfl

/-- **C51** (range): in every state whatsoever the angle is in `(-π, π]`. -/
theorem C51_range (b : Backend) (name : String) (reg : Option ℝ) {K : Kwargs} {rs : List Reg} {v : State → ℝ}
    (h : angle b name reg K = .ok (rs, v)) (σ : State) : -Real.pi < v σ ∧ v σ ≤ Real.pi := by
  obtain ⟨iv, -, -, rfl⟩ := angle_ok b name reg h
  exact ⟨Complex.neg_pi_lt_arg _, Complex.arg_le_pi _⟩

theorem anglePot_freeNames (name : String) (reg : Option ℝ) : freeNames (anglePot name reg) = [] := by
  unfold anglePot; cases reg <;> rfl

/-- **C51** (law): two free variables are registered, and the angle is uniform on `(-π, π]` for every regularization larger than `-1`
(the default is `10`) and for no regularization. At `-1` and below, the registered density has infinite mass near the origin. -/
theorem C51_uniform (b : Backend) (name : String) (reg : Option ℝ) (hreg : ∀ c, reg = some c → -1 < c) {K : Kwargs}
    (hK : PlainKwargs K) {rs : List Reg} {v : State → ℝ} (h : angle b name reg K = .ok (rs, v)) :
    ∃ n1 n2, freeNames rs = [n1, n2] ∧
      UniformOn (Measure.map (fun p => v (twoState n1 n2 p)) (law2 rs n1 n2)) (Set.Ioc (-Real.pi) Real.pi) := by
  obtain ⟨iv, -, rfl, rfl⟩ := angle_ok b name reg h
  refine ⟨"__" ++ name ++ "_angle1", "__" ++ name ++ "_angle2", ?_,
    ∫⁻ r in Set.Ioi (0 : ℝ), ENNReal.ofReal r * angleRadial reg (r ^ 2), angleRadial_pos reg, angleRadial_finite reg ?_, ?_⟩
  · have := anglePot_freeNames name reg
    unfold freeNames at this ⊢
    rw [List.filterMap_append, List.filterMap_append, this]
    rfl
  · cases reg with
    | none => simp
    | some c => exact hreg c rfl
  · unfold law2
    simp only [angle_density b name reg hK, twoState_fst (angle_names name), twoState_snd]
    rw [← Measure.restrict_congr_set Ioo_ae_eq_Ioc]
    have hsw : (fun p : ℝ × ℝ => arctan2 p.1 p.2) = (fun p : ℝ × ℝ => Complex.arg ⟨p.1, p.2⟩) ∘ Prod.swap := rfl
    have hms : Measure.map Prod.swap ((volume : Measure (ℝ × ℝ)).withDensity fun p => angleRadial reg (p.1 ^ 2 + p.2 ^ 2)) =
        (volume : Measure (ℝ × ℝ)).withDensity fun p => angleRadial reg (p.1 ^ 2 + p.2 ^ 2) := by
      have hmeas : Measurable fun p : ℝ × ℝ => angleRadial reg (p.1 ^ 2 + p.2 ^ 2) := by
        have := angleRadial_measurable reg
        fun_prop
      ext s hs
      rw [Measure.map_apply measurable_swap hs, withDensity_apply _ (measurable_swap hs), withDensity_apply _ hs]
      have hp : MeasurePreserving (Prod.swap : ℝ × ℝ → ℝ × ℝ) volume volume := Measure.measurePreserving_swap
      rw [← hp.setLIntegral_comp_preimage hs hmeas]
      refine setLIntegral_congr_fun (measurable_swap hs) fun p _ => ?_
      simp only [Prod.fst_swap, Prod.snd_swap, add_comm]
    have hma : Measurable (fun p : ℝ × ℝ => Complex.arg ⟨p.1, p.2⟩) :=
      Complex.measurable_arg.comp Complex.measurableEquivRealProd.symm.measurable
    rw [hsw, ← Measure.map_map hma measurable_swap, hms]
    exact angle_uniform _ (angleRadial_measurable reg)

/-- **C51** (law): for every regularization, also one that cannot be normalised, the registered density depends on the two free
variables only through `x1² + x2²`: it has no preferred direction. -/
theorem C51_isotropic (b : Backend) (name : String) (reg : Option ℝ) {K : Kwargs} (hK : PlainKwargs K) {rs : List Reg}
    {v : State → ℝ} (h : angle b name reg K = .ok (rs, v)) : ∃ n1 n2, freeNames rs = [n1, n2] ∧
    ∀ σ τ : State, σ n1 ^ 2 + σ n2 ^ 2 = τ n1 ^ 2 + τ n2 ^ 2 → jointDensity rs σ = jointDensity rs τ := by
  obtain ⟨iv, -, rfl, rfl⟩ := angle_ok b name reg h
  refine ⟨"__" ++ name ++ "_angle1", "__" ++ name ++ "_angle2", ?_, fun σ τ hστ => ?_⟩
  · have := anglePot_freeNames name reg
    unfold freeNames at this ⊢
    rw [List.filterMap_append, List.filterMap_append, this]
    rfl
  · rw [angle_density b name reg hK, angle_density b name reg hK, hστ]

/-- **C51** (start): called with `initval=v0`, the sampler starts at `v0` modulo `2π`. -/
theorem C51_start (b : Backend) (name : String) (reg : Option ℝ) (K : Kwargs) (v0 : ℝ) {rs : List Reg} {v : State → ℝ}
    (h : angle b name reg (("initval", .num fun _ => v0) :: K) = .ok (rs, v)) (σ : State) (hσ : IsStart b rs σ) :
    ∃ k : ℤ, v σ = v0 + 2 * Real.pi * k := by
  obtain ⟨iv, e, rfl, rfl⟩ := angle_ok b name reg h
  have hrq : requested (("initval", .num fun _ => v0) :: K) (Val.ofReal 0) = .num fun _ => v0 := get_cons_self ..
  rw [hrq] at e
  injection e with e
  subst e
  have hg : ∀ w : Val, Kwargs.get (strip (("initval", .num fun _ => v0) :: K) ++ [(b.startKey, w)]) b.startKey .none = w := by
    intro w
    rw [get_append_left_not_mem, get_cons_self]
    cases b
    · exact strip_testval _
    · exact strip_initval _
  have hm : ∀ w : Val, Kwargs.mem (strip (("initval", .num fun _ => v0) :: K) ++ [(b.startKey, w)]) b.startKey = true := by
    intro w; rw [mem_append]; simp [Kwargs.mem]
  simp only [List.cons_append, List.nil_append] at hσ
  obtain ⟨w, hw, hw2⟩ := hσ ("__" ++ name ++ "_angle1") _ _ (List.Mem.head _)
  rw [startValue_self _ _ _ (hm _), hg] at hw
  injection hw with hw
  subst hw
  obtain ⟨w, hw, hw3⟩ := hσ ("__" ++ name ++ "_angle2") _ _ (List.Mem.tail _ (List.Mem.head _))
  rw [startValue_ne _ _ (angle_names name), startValue_self _ _ _ (hm _), hg] at hw
  injection hw with hw
  subst hw
  simp only [Val.eval, Option.some.injEq] at hw2 hw3
  simp only
  rw [← hw2, ← hw3]
  exact arctan2_sin_cos v0

/-- Non-vacuity: the default call, with the documented regularization. -/
example (b : Backend) : ∃ rs v, angle b "omega" (some 10) [("initval", .num fun _ => 7)] = .ok (rs, v) ∧
    PlainKwargs [("initval", .num fun _ => 7)] := by
  refine ⟨_, _, angle_eq .., ?_⟩
  intro p hp
  simp only [List.mem_cons, List.not_mem_nil, or_false] at hp
  subst hp
  decide

end Exo
