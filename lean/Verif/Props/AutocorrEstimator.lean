import Verif.Model.AutocorrEstimator
import Verif.Spec.AutocorrEstimator
import Verif.Props.Autocorr

/-!
# C62: the autocorrelation estimator
-/

namespace Exo

theorem npMin_ok {a : List ℝ} {m : ℝ} (h : npMin a = .ok m) : m ∈ a ∧ ∀ b ∈ a, m ≤ b := by
  unfold npMin at h
  cases hm : a.min? with
  | none => rw [hm] at h; cases h
  | some v =>
    rw [hm] at h
    cases h
    exact List.min?_eq_some_iff.1 hm

theorem npMax_ok {a : List ℝ} {m : ℝ} (h : npMax a = .ok m) : m ∈ a ∧ ∀ b ∈ a, b ≤ m := by
  unfold npMax at h
  cases hm : a.max? with
  | none => rw [hm] at h; cases h
  | some v =>
    rw [hm] at h
    cases h
    exact List.max?_eq_some_iff.1 hm

theorem npMin_nil : npMin [] = .error (.valueError "zero-size array to reduction operation minimum") := rfl

theorem exists_npMin {a : List ℝ} (h : a ≠ []) : ∃ m, npMin a = .ok m := by
  unfold npMin
  cases a with
  | nil => exact (h rfl).elim
  | cons v l => exact ⟨_, rfl⟩

theorem exists_npMax {a : List ℝ} (h : a ≠ []) : ∃ m, npMax a = .ok m := by
  unfold npMax
  cases a with
  | nil => exact (h rfl).elim
  | cons v l => exact ⟨_, rfl⟩

theorem mem_npDiff {x : List ℝ} {d : ℝ} (h : d ∈ npDiff x) : ∃ i : ℕ, ∃ a b, x[i]? = some a ∧ x[i + 1]? = some b ∧ d = b - a := by
  obtain ⟨i, hi, rfl⟩ := List.getElem_of_mem h
  have h1 : i + 1 < x.length := by
    simp only [npDiff, List.length_zipWith, List.length_tail] at hi
    omega
  refine ⟨i, x[i], x[i + 1], List.getElem?_eq_getElem _, List.getElem?_eq_getElem _, ?_⟩
  simp [npDiff]

theorem getElem?_of_getD_some {l : List (Option ℝ)} {i : ℕ} {a : ℝ} (h : l.getD i none = some a) : l[i]? = some (some a) := by
  rw [List.getD_eq_getElem?_getD] at h
  cases hl : l[i]? with
  | none => rw [hl] at h; cases h
  | some v => rw [hl] at h; exact congrArg some h

theorem nanGt_iff (a b : Option ℝ) : nanGt a b = true ↔ ∃ u v, a = some u ∧ b = some v ∧ v < u := by
  cases a <;> cases b <;> simp [nanGt]

theorem mem_acorPeaks {tau : List ℝ} {acor : List (Option ℝ)} {m : ℝ} {i : ℕ} (hl : tau.length = acor.length) :
    i ∈ acorPeaks tau acor m ↔ NanLocalMax acor i ∧ ∃ p, tau[i]? = some p ∧ m ≤ p := by
  unfold acorPeaks NanLocalMax
  rw [List.mem_filter, List.mem_filter, List.mem_range'_1, Bool.and_eq_true, decide_eq_true_eq, nanGt_iff, nanGt_iff]
  constructor
  · rintro ⟨⟨⟨h1, h2⟩, ⟨b, a, hb, ha, hab⟩, ⟨b', c, hb', hc, hcb⟩⟩, h3⟩
    rw [hb] at hb'
    cases hb'
    exact ⟨⟨a, b, c, h1, getElem?_of_getD_some ha, getElem?_of_getD_some hb, getElem?_of_getD_some hc, hab, hcb⟩, _,
      getElem?_getD (by omega), h3⟩
  · rintro ⟨⟨a, b, c, h1, ha, hb, hc, hab, hcb⟩, p, hp, hmp⟩
    have : i + 1 < acor.length := by
      by_contra h
      rw [List.getElem?_eq_none (by omega)] at hc
      cases hc
    refine ⟨⟨⟨h1, by omega⟩, ⟨b, a, ?_, ?_, hab⟩, ⟨b, c, ?_, ?_, hcb⟩⟩, ?_⟩
    · rw [List.getD_eq_getElem?_getD, hb]; rfl
    · rw [List.getD_eq_getElem?_getD, ha]; rfl
    · rw [List.getD_eq_getElem?_getD, hb]; rfl
    · rw [List.getD_eq_getElem?_getD, hc]; rfl
    · rw [getD_of_getElem? hp]; exact hmp

theorem acorPeaks_sorted (tau : List ℝ) (acor : List (Option ℝ)) (m : ℝ) : (acorPeaks tau acor m).Pairwise (· < ·) :=
  (List.pairwise_lt_range' (s := 1) (n := acor.length - 2)).filter _ |>.filter _

theorem acorChoose_spec (tau : List ℝ) (acor : List (Option ℝ)) (M : ℝ) (inds : List ℕ) :
    acorChoose tau acor M inds = [] ∨ ∃ i ∈ inds, acorChoose tau acor M inds = [tau.getD i 0] ∧ tau.getD i 0 ≤ M := by
  cases inds with
  | nil => exact Or.inl rfl
  | cons i rest =>
    unfold acorChoose
    by_cases h : tau.getD i 0 > M
    · simp only [if_pos h]
      exact Or.inl trivial
    · simp only [if_neg h]
      cases rest with
      | nil => exact Or.inr ⟨i, by simp, rfl, not_lt.1 h⟩
      | cons k rest =>
        simp only
        by_cases h2 : nanGt (acor.getD k none) (acor.getD i none) = true
        · simp only [h2, if_true]
          by_cases h3 : tau.getD k 0 > M
          · rw [if_pos h3]
            exact Or.inl rfl
          · rw [if_neg h3]
            exact Or.inr ⟨k, by simp, rfl, not_lt.1 h3⟩
        · simp only [h2, if_neg h, Bool.false_eq_true, if_false]
          exact Or.inr ⟨i, by simp, rfl, not_lt.1 h⟩

theorem bind_ok {α β : Type} {a : Except PyErr α} {f : α → Except PyErr β} {r : β} (h : (a >>= f) = .ok r) :
    ∃ v, a = .ok v ∧ f v = .ok r := by
  cases a with
  | error e => cases h
  | ok v => exact ⟨v, rfl, h⟩

theorem ok_bind {α β : Type} {a : Except PyErr α} {f : α → Except PyErr β} {v : α} (ha : a = .ok v) (h : ∃ r, f v = .ok r) :
    ∃ r, (a >>= f) = .ok r := by
  subst ha
  exact h

/-- The steps of a successful call. -/
theorem autocorrEstimator_ok {F : Filters} {scipy : Bool} {x y : List ℝ} {min_period max_period : Option ℝ} {oversample smooth : ℝ}
    {max_peaks : ℤ} {r : AcorResult}
    (h : autocorrEstimator F scipy x y min_period max_period oversample smooth max_peaks = .ok r) :
    ∃ m M lo hi gap x0 xx yy acor, acorMinPeriod x min_period = .ok m ∧ acorMaxPeriod x max_period = .ok M ∧
      npMin (npDiff x) = .ok gap ∧ npMin x = .ok lo ∧ npMax x = .ok hi ∧ npArange lo hi (gap / oversample) = .ok xx ∧
      F.interp xx x y = .ok yy ∧ firstOf x = .ok x0 ∧ autocorrFunction yy = .ok acor ∧
      r = ⟨xx.map (fun v => v - x0), F.gaussian acor (smooth * m / (gap / oversample)),
        acorChoose (xx.map fun v => v - x0) (F.gaussian acor (smooth * m / (gap / oversample))) M
          (acorPeaks (xx.map fun v => v - x0) (F.gaussian acor (smooth * m / (gap / oversample))) m)⟩ := by
  unfold autocorrEstimator at h
  obtain ⟨-, -, h⟩ := bind_ok h
  obtain ⟨m, hm, h⟩ := bind_ok h
  obtain ⟨M, hM, h⟩ := bind_ok h
  obtain ⟨gap, hgap, h⟩ := bind_ok h
  obtain ⟨lo, hlo, h⟩ := bind_ok h
  obtain ⟨hi, hhi, h⟩ := bind_ok h
  obtain ⟨xx, hxx, h⟩ := bind_ok h
  obtain ⟨yy, hyy, h⟩ := bind_ok h
  obtain ⟨x0, hx0, h⟩ := bind_ok h
  obtain ⟨acor, hacor, h⟩ := bind_ok h
  exact ⟨m, M, lo, hi, gap, x0, xx, yy, acor, hm, hM, hgap, hlo, hhi, hxx, hyy, hx0, hacor, (Except.ok.inj h).symm⟩

theorem autocorrFunction_length {x : List ℝ} {r : List (Option ℝ)} (h : autocorrFunction x = .ok r) : r.length = x.length := by
  unfold autocorrFunction at h
  have := congrArg List.length (rawAcf_eq x)
  rw [List.length_map, List.length_range] at this
  cases hr : rawAcf x with
  | nil => rw [hr] at h; cases h
  | cons a l =>
    rw [hr] at h this
    cases h
    rw [List.length_map, this]

/-! ## C62 -/

/-- C62. At most one peak is returned; its period is the lag of a strict local maximum of the smoothed autocorrelation returned with it,
and lies within the limits on the period (those given, or the smallest gap and the time span). -/
theorem C62_only_admissible_peaks (F : Filters) (hF : F.Ok) (scipy : Bool) (x y : List ℝ) (min_period max_period : Option ℝ)
    (oversample smooth : ℝ) (max_peaks : ℤ) (r : AcorResult)
    (h : autocorrEstimator F scipy x y min_period max_period oversample smooth max_peaks = .ok r) :
    r.peaks.length ≤ 1 ∧ r.tau.length = r.acor.length ∧
    ∀ p ∈ r.peaks, (∃ j : ℕ, r.tau[j]? = some p ∧ NanLocalMax r.acor j) ∧ AboveMin x min_period p ∧ BelowMax x max_period p := by
  obtain ⟨m, M, lo, hi, gap, x0, xx, yy, acor, hm, hM, hgap, hlo, hhi, hxx, hyy, hx0, hacor, rfl⟩ := autocorrEstimator_ok h
  simp only
  have hl : (xx.map fun v => v - x0).length = (F.gaussian acor (smooth * m / (gap / oversample))).length := by
    rw [List.length_map, hF.gaussian_length, autocorrFunction_length hacor, hF.interp_length _ _ _ _ hyy]
  generalize (xx.map fun v => v - x0) = tau at *
  generalize F.gaussian acor (smooth * m / (gap / oversample)) = ac at *
  rcases acorChoose_spec tau ac M (acorPeaks tau ac m) with h0 | ⟨i, hi', h1, h2⟩
  · rw [h0]
    exact ⟨by simp, hl, by simp⟩
  · rw [h1]
    refine ⟨by simp, hl, ?_⟩
    intro p hp
    rw [List.mem_singleton] at hp
    subst hp
    obtain ⟨hmax, p, hp, hmp⟩ := (mem_acorPeaks hl).1 hi'
    have e := getD_of_getElem? hp
    rw [e] at h2 ⊢
    refine ⟨⟨i, hp, hmax⟩, ?_, ?_⟩
    · unfold AboveMin
      unfold acorMinPeriod at hm
      cases min_period with
      | some m' => cases hm; exact hmp
      | none =>
        obtain ⟨k, a, b, ha, hb, hd⟩ := mem_npDiff (npMin_ok hm).1
        exact ⟨k, a, b, ha, hb, by rw [← hd]; exact hmp⟩
    · unfold BelowMax
      unfold acorMaxPeriod at hM
      cases max_period with
      | some M' => cases hM; exact h2
      | none =>
        simp only at hM
        rw [hhi, hlo] at hM
        cases hM
        exact ⟨lo, (npMin_ok hlo).1, hi, (npMax_ok hhi).1, h2⟩

/-- `i` is the lag (as a position) of a local maximum with period at least `m`, and no earlier one is. -/
def FirstFrom (tau : List ℝ) (acor : List (Option ℝ)) (m : ℝ) (s i : ℕ) : Prop :=
  (s ≤ i ∧ NanLocalMax acor i ∧ ∃ p, tau[i]? = some p ∧ m ≤ p) ∧
  ∀ k, s ≤ k → k < i → NanLocalMax acor k → ∀ p, tau[k]? = some p → p < m

/-- C62. Which peak: nothing if there is no local maximum above `min_period` or the first one lies above `max_period`; otherwise the
second one if there is one and it is higher, unless it lies above `max_period` (then nothing is returned at all); otherwise the first. -/
theorem C62_which_peak (F : Filters) (hF : F.Ok) (scipy : Bool) (x y : List ℝ) (m M : ℝ)
    (oversample smooth : ℝ) (max_peaks : ℤ) (r : AcorResult)
    (h : autocorrEstimator F scipy x y (some m) (some M) oversample smooth max_peaks = .ok r) :
    ((∀ i, ¬ FirstFrom r.tau r.acor m 0 i) → r.peaks = []) ∧
    ∀ i p, FirstFrom r.tau r.acor m 0 i → r.tau[i]? = some p →
      (M < p → r.peaks = []) ∧
      (p ≤ M → (∀ k, ¬ FirstFrom r.tau r.acor m (i + 1) k) → r.peaks = [p]) ∧
      ∀ k q a b, FirstFrom r.tau r.acor m (i + 1) k → r.tau[k]? = some q → r.acor[i]? = some (some a) → r.acor[k]? = some (some b) →
        p ≤ M → (b ≤ a → r.peaks = [p]) ∧ (a < b → q ≤ M → r.peaks = [q]) ∧ (a < b → M < q → r.peaks = []) := by
  obtain ⟨m', M', lo, hi, gap, x0, xx, yy, acor, hm, hM, hgap, hlo, hhi, hxx, hyy, hx0, hacor, rfl⟩ := autocorrEstimator_ok h
  cases hm
  cases hM
  simp only
  have hl : (xx.map fun v => v - x0).length = (F.gaussian acor (smooth * m / (gap / oversample))).length := by
    rw [List.length_map, hF.gaussian_length, autocorrFunction_length hacor, hF.interp_length _ _ _ _ hyy]
  generalize (xx.map fun v => v - x0) = tau at *
  generalize F.gaussian acor (smooth * m / (gap / oversample)) = ac at *
  have hmem : ∀ i, i ∈ acorPeaks tau ac m ↔ NanLocalMax ac i ∧ ∃ p, tau[i]? = some p ∧ m ≤ p := fun i => mem_acorPeaks hl
  have hs := acorPeaks_sorted tau ac m
  generalize acorPeaks tau ac m = inds at *
  have hfirst : ∀ s i, FirstFrom tau ac m s i → i ∈ inds ∧ s ≤ i ∧ ∀ k ∈ inds, s ≤ k → i ≤ k := by
    rintro s i ⟨⟨h1, h2, h3⟩, h4⟩
    refine ⟨(hmem i).2 ⟨h2, h3⟩, h1, fun k hk hsk => ?_⟩
    obtain ⟨g1, p, g2, g3⟩ := (hmem k).1 hk
    by_contra hlt
    exact absurd (h4 k hsk (not_le.1 hlt) g1 p g2) (not_lt.2 g3)
  have hfirst' : ∀ s i, i ∈ inds → s ≤ i → (∀ k ∈ inds, s ≤ k → i ≤ k) → FirstFrom tau ac m s i := by
    intro s i h1 h2 h3
    obtain ⟨g1, g2⟩ := (hmem i).1 h1
    refine ⟨⟨h2, g1, g2⟩, fun k hk hki hmax p hp => ?_⟩
    by_contra hlt
    exact absurd (h3 k ((hmem k).2 ⟨hmax, p, hp, not_lt.1 hlt⟩) hk) (not_le.2 hki)
  constructor
  · intro hno
    cases inds with
    | nil => rfl
    | cons i rest =>
      refine (hno i (hfirst' 0 i (by simp) (Nat.zero_le _) ?_)).elim
      intro k hk _
      rcases List.mem_cons.1 hk with rfl | hk
      · exact le_rfl
      · exact ((List.pairwise_cons.1 hs).1 k hk).le
  · intro i p hi hp
    obtain ⟨h1, -, h3⟩ := hfirst 0 i hi
    cases inds with
    | nil => cases h1
    | cons i' rest =>
      have hii : i = i' := by
        apply le_antisymm (h3 i' (by simp) (Nat.zero_le _))
        rcases List.mem_cons.1 h1 with rfl | h1
        · exact le_rfl
        · exact ((List.pairwise_cons.1 hs).1 i h1).le
      subst hii
      have hpD := getD_of_getElem? hp
      refine ⟨fun hM => ?_, fun hM hno => ?_, ?_⟩
      · unfold acorChoose
        simp only [hpD, if_pos hM]
      · cases rest with
        | nil =>
          unfold acorChoose
          simp only [hpD, if_neg (not_lt.2 hM)]
        | cons k rest =>
          obtain ⟨hi1, hs2⟩ := List.pairwise_cons.1 hs
          refine (hno k (hfirst' (i + 1) k (by simp) (hi1 k (by simp)) ?_)).elim
          intro l hl' hil
          rcases List.mem_cons.1 hl' with rfl | hl'
          · omega
          rcases List.mem_cons.1 hl' with rfl | hl'
          · exact le_rfl
          · exact ((List.pairwise_cons.1 hs2).1 l hl').le
      · intro k q a b hk hq ha hb hM
        obtain ⟨g1, g2, g3⟩ := hfirst (i + 1) k hk
        cases rest with
        | nil =>
          rw [List.mem_singleton] at g1
          omega
        | cons k' rest =>
          obtain ⟨hi1, hs2⟩ := List.pairwise_cons.1 hs
          have hkk : k = k' := by
            apply le_antisymm (g3 k' (by simp) (hi1 k' (by simp)))
            rcases List.mem_cons.1 g1 with rfl | g1
            · omega
            rcases List.mem_cons.1 g1 with rfl | g1
            · exact le_rfl
            · exact ((List.pairwise_cons.1 hs2).1 k g1).le
          subst hkk
          have hqD := getD_of_getElem? hq
          have haD : ac.getD i none = some a := by rw [List.getD_eq_getElem?_getD, ha]; rfl
          have hbD : ac.getD k none = some b := by rw [List.getD_eq_getElem?_getD, hb]; rfl
          unfold acorChoose
          simp only [hpD, if_neg (not_lt.2 hM), haD, hbD, nanGt, decide_eq_true_eq]
          refine ⟨fun hab => ?_, fun hab hqM => ?_, fun hab hqM => ?_⟩
          · rw [if_neg (not_lt.2 hab), hpD, if_neg (not_lt.2 hM)]
          · rw [if_pos hab, hqD, if_neg (not_lt.2 hqM)]
          · rw [if_pos hab, hqD, if_pos hqM]

/-- C62. With SciPy, at least two strictly increasing times, matching data and a positive oversampling the call succeeds. -/
theorem C62_succeeds (F : Filters) (hF : F.Ok) (x y : List ℝ) (min_period max_period : Option ℝ) (oversample smooth : ℝ) (max_peaks : ℤ)
    (hl : x.length = y.length) (h2 : 2 ≤ x.length) (hs : x.Pairwise (· < ·)) (ho : 0 < oversample) :
    ∃ r, autocorrEstimator F true x y min_period max_period oversample smooth max_peaks = .ok r := by
  have hne : x ≠ [] := by rintro rfl; simp at h2
  have hdne : npDiff x ≠ [] := by
    intro h
    have := congrArg List.length h
    simp only [npDiff, List.length_zipWith, List.length_tail, List.length_nil] at this
    omega
  obtain ⟨gap, hgap⟩ := exists_npMin hdne
  obtain ⟨lo, hlo⟩ := exists_npMin hne
  obtain ⟨hi, hhi⟩ := exists_npMax hne
  have hgpos : 0 < gap := by
    obtain ⟨i, a, b, ha, hb, rfl⟩ := mem_npDiff (npMin_ok hgap).1
    obtain ⟨hi1, ha'⟩ := List.getElem?_eq_some_iff.1 ha
    obtain ⟨hi2, hb'⟩ := List.getElem?_eq_some_iff.1 hb
    rw [List.pairwise_iff_getElem] at hs
    have := hs i (i + 1) hi1 hi2 (by omega)
    rw [ha', hb'] at this
    linarith
  have hspan : lo < hi := by
    rw [List.pairwise_iff_getElem] at hs
    have h01 := hs 0 1 (by omega) (by omega) (by omega)
    have h3 := (npMin_ok hlo).2 _ (List.getElem_mem (show 0 < x.length by omega))
    have h4 := (npMax_ok hhi).2 _ (List.getElem_mem (show 1 < x.length by omega))
    linarith
  have hdx : 0 < gap / oversample := div_pos hgpos ho
  have hxx : npArange lo hi (gap / oversample) =
      .ok ((List.range ⌈(hi - lo) / (gap / oversample)⌉.toNat).map fun i : ℕ => lo + i * (gap / oversample)) := if_neg hdx.ne'
  obtain ⟨yy, hyy⟩ := hF.interp_ok ((List.range ⌈(hi - lo) / (gap / oversample)⌉.toNat).map fun i : ℕ => lo + i * (gap / oversample))
    x y hl hne
  have hylen := hF.interp_length _ _ _ _ hyy
  obtain ⟨acor, hacor⟩ : ∃ acor, autocorrFunction yy = .ok acor := by
    have hpos : 0 < ⌈(hi - lo) / (gap / oversample)⌉.toNat := by
      have : 0 < ⌈(hi - lo) / (gap / oversample)⌉ := Int.ceil_pos.2 (div_pos (by linarith) hdx)
      omega
    have hy0 : 0 < yy.length := by rw [hylen]; simpa using hpos
    unfold autocorrFunction
    cases hr : rawAcf yy with
    | nil =>
      have := congrArg List.length (rawAcf_eq yy)
      rw [hr, List.length_map, List.length_range] at this
      simp at this
      omega
    | cons a l => exact ⟨_, rfl⟩
  obtain ⟨m, hm⟩ : ∃ m, acorMinPeriod x min_period = .ok m := by
    unfold acorMinPeriod
    cases min_period with
    | some m => exact ⟨m, rfl⟩
    | none => exact ⟨gap, hgap⟩
  obtain ⟨M, hM⟩ : ∃ M, acorMaxPeriod x max_period = .ok M := by
    unfold acorMaxPeriod
    cases max_period with
    | some m => exact ⟨m, rfl⟩
    | none =>
      simp only
      rw [hlo, hhi]
      exact ⟨hi - lo, rfl⟩
  obtain ⟨x0, hx0⟩ : ∃ x0, firstOf x = .ok x0 := by
    cases x with
    | nil => exact (hne rfl).elim
    | cons a l => exact ⟨a, rfl⟩
  unfold autocorrEstimator
  exact ok_bind rfl (ok_bind hm (ok_bind hM (ok_bind hgap (ok_bind hlo (ok_bind hhi (ok_bind hxx (ok_bind hyy (ok_bind hx0
    (ok_bind hacor ⟨_, rfl⟩)))))))))

/-- C62, failures: without SciPy `ImportError`; with fewer than two times `ValueError`; with unsorted or repeated times no result. -/
theorem C62_failures (F : Filters) (hF : F.Ok) (scipy : Bool) (x y : List ℝ) (min_period max_period : Option ℝ) (oversample smooth : ℝ)
    (max_peaks : ℤ) :
    (scipy = false →
      autocorrEstimator F scipy x y min_period max_period oversample smooth max_peaks = .error (.importError "scipy")) ∧
    (scipy = true → x.length < 2 →
      ∃ t, autocorrEstimator F scipy x y min_period max_period oversample smooth max_peaks = .error (.valueError t)) ∧
    (∀ i a b, x[i]? = some a → x[i + 1]? = some b → b ≤ a → 0 < oversample →
      ∃ e, autocorrEstimator F scipy x y min_period max_period oversample smooth max_peaks = .error e) := by
  refine ⟨?_, ?_, ?_⟩
  · rintro rfl
    rfl
  · rintro rfl h2
    have hd : npDiff x = [] := by
      apply List.length_eq_zero_iff.1
      simp only [npDiff, List.length_zipWith, List.length_tail]
      omega
    have hmin := hd ▸ npMin_nil
    unfold autocorrEstimator
    simp only [if_true]
    cases min_period with
    | none =>
      simp only [acorMinPeriod]
      rw [hmin]
      exact ⟨_, rfl⟩
    | some m =>
      simp only [acorMinPeriod]
      cases max_period with
      | some M =>
        simp only [acorMaxPeriod]
        rw [hmin]
        exact ⟨_, rfl⟩
      | none =>
        simp only [acorMaxPeriod]
        cases x with
        | nil => exact ⟨_, rfl⟩
        | cons a l =>
          rw [hmin]
          exact ⟨_, rfl⟩
  · intro i a b ha hb hab ho
    cases h : autocorrEstimator F scipy x y min_period max_period oversample smooth max_peaks with
    | error e => exact ⟨e, rfl⟩
    | ok r =>
      obtain ⟨m', M', lo, hi, gap, x0, xx, yy, acor, hm, hM, hgap, hlo, hhi, hxx, hyy, hx0, hacor, rfl⟩ := autocorrEstimator_ok h
      exfalso
      have hg : gap ≤ b - a := by
        refine (npMin_ok hgap).2 _ ?_
        obtain ⟨hi1, ha'⟩ := List.getElem?_eq_some_iff.1 ha
        obtain ⟨hi2, hb'⟩ := List.getElem?_eq_some_iff.1 hb
        rw [List.mem_iff_getElem]
        refine ⟨i, by simp only [npDiff, List.length_zipWith, List.length_tail]; omega, ?_⟩
        simp [npDiff, ha', hb']
      have hdx : gap / oversample ≤ 0 := div_nonpos_of_nonpos_of_nonneg (by linarith) ho.le
      have hspan : lo ≤ hi := (npMin_ok hlo).2 _ (npMax_ok hhi).1
      unfold npArange at hxx
      split_ifs at hxx with h0
      simp only [Except.ok.injEq] at hxx
      have hz : ⌈(hi - lo) / (gap / oversample)⌉.toNat = 0 := by
        rw [Int.toNat_eq_zero, Int.ceil_le]
        simpa using div_nonpos_of_nonneg_of_nonpos (by linarith : 0 ≤ hi - lo) hdx
      rw [hz] at hxx
      have hyl := hF.interp_length _ _ _ _ hyy
      rw [← hxx] at hyl
      have hy0 : yy = [] := List.length_eq_zero_iff.1 (by rw [hyl]; rfl)
      rw [hy0, (C61_constant_or_empty [] (by simp)).2 rfl] at hacor
      cases hacor

/-- The assumptions on the libraries can be met. -/
theorem filters_exist : ∃ F : Filters, F.Ok :=
  ⟨⟨fun a _ => a, fun xx x y => if x.length = y.length then .ok (xx.map fun _ => 0) else .error (.valueError "interp")⟩,
    ⟨fun _ _ => rfl, fun xx x y h _ => ⟨_, if_pos h⟩, fun xx x y r h => by
      simp only at h
      split_ifs at h
      cases h
      simp⟩⟩

example : ([0, 1, 3] : List ℝ).Pairwise (· < ·) ∧ 2 ≤ ([0, 1, 3] : List ℝ).length := by
  constructor
  · simp
  · simp

/-- A case with a peak: times 0, 1, 3, and a smoothing routine that returns 0, 1, 0. -/
example : ∃ (F : Filters) (_ : F.Ok) (r : AcorResult),
    autocorrEstimator F true [0, 1, 3] [5, 6, 4] none (some 2) 1 2 10 = .ok r ∧ r.peaks = [1] := by
  let F : Filters := ⟨fun a _ => (List.range a.length).map fun i => if i = 1 then some 1 else some 0,
    fun xx x y => if x.length = y.length then .ok (xx.map fun _ => 0) else .error (.valueError "interp")⟩
  have hF : F.Ok := ⟨fun a _ => by simp [F], fun xx x y h _ => ⟨_, if_pos h⟩, fun xx x y r h => by
      simp only [F] at h
      split_ifs at h
      cases h
      simp⟩
  obtain ⟨r, hr⟩ := C62_succeeds F hF [0, 1, 3] [5, 6, 4] none (some 2) 1 2 10 rfl (by simp) (by simp) one_pos
  refine ⟨F, hF, r, hr, ?_⟩
  obtain ⟨m, M, lo, hi, gap, x0, xx, yy, acor, hm, hM, hgap, hlo, hhi, hxx, hyy, hx0, hacor, rfl⟩ := autocorrEstimator_ok hr
  have e1 : gap = 1 := by
    have h := npMin_ok hgap
    simp only [npDiff, List.tail_cons, List.zipWith_cons_cons, List.zipWith_nil_right, List.mem_cons, List.not_mem_nil, or_false] at h
    obtain ⟨h1, h2⟩ := h
    have := h2 _ (Or.inl rfl)
    rcases h1 with h1 | h1 <;> linarith
  have e2 : m = 1 := by
    rw [← e1]
    exact Except.ok.inj (hm.symm.trans hgap)
  have e3 : lo = 0 := by
    have h := npMin_ok hlo
    simp only [List.mem_cons, List.not_mem_nil, or_false] at h
    obtain ⟨h1, h2⟩ := h
    have := h2 _ (Or.inl rfl)
    rcases h1 with h1 | h1 | h1 <;> linarith
  have e4 : hi = 3 := by
    have h := npMax_ok hhi
    simp only [List.mem_cons, List.not_mem_nil, or_false] at h
    obtain ⟨h1, h2⟩ := h
    have := h2 _ (Or.inr (Or.inr rfl))
    rcases h1 with h1 | h1 | h1 <;> linarith
  cases hM
  cases hx0
  subst e1 e2 e3 e4
  have hxx' : xx = [0, 1, 2] := by
    unfold npArange at hxx
    simp only [div_one, sub_zero, one_ne_zero, if_false, Except.ok.injEq] at hxx
    rw [← hxx, show ⌈(3 : ℝ)⌉ = 3 from by norm_num]
    simp [List.range_succ]
  subst hxx'
  have hl : acor.length = 3 := by
    rw [autocorrFunction_length hacor, hF.interp_length _ _ _ _ hyy]
    rfl
  simp only [F, hl]
  norm_num [acorPeaks, acorChoose, List.range_succ, List.range', nanGt]

end Exo
