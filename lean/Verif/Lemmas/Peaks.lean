import Verif.Model.Peaks
import Verif.Spec.Peaks
import Mathlib.Data.List.Sort
import Mathlib.Data.List.Nodup
import Mathlib.LinearAlgebra.Matrix.Determinant.Basic
import Mathlib.LinearAlgebra.Matrix.ToLin
import Mathlib.Tactic.FinCases
import Mathlib.Tactic.LinearCombination
import Mathlib.Tactic.Ring
import Mathlib.Tactic.Linarith
import Mathlib.Tactic.FieldSimp

/-!
# Helper lemmas for `find_peaks`
-/

namespace Exo
open Matrix

theorem getD_of_getElem? {l : List ℝ} {i : ℕ} {a : ℝ} (h : l[i]? = some a) : l.getD i 0 = a := by
  rw [List.getD_eq_getElem?_getD, h]; rfl

theorem getElem?_getD {l : List ℝ} {i : ℕ} (h : i < l.length) : l[i]? = some (l.getD i 0) := by
  rw [List.getD_eq_getElem?_getD, List.getElem?_eq_getElem h]; rfl

theorem mem_peakInds (power : List ℝ) (i : ℕ) : i ∈ peakInds power ↔ LocalMax power i := by
  unfold peakInds LocalMax
  rw [List.mem_filter, List.mem_range'_1, Bool.and_eq_true, decide_eq_true_eq, decide_eq_true_eq]
  constructor
  · rintro ⟨⟨h1, h2⟩, h3, h4⟩
    exact ⟨_, _, _, h1, getElem?_getD (by omega), getElem?_getD (by omega), getElem?_getD (by omega), h3, h4⟩
  · rintro ⟨a, b, c, h1, ha, hb, hc, hab, hcb⟩
    rw [getD_of_getElem? ha, getD_of_getElem? hb, getD_of_getElem? hc]
    have : i + 1 < power.length := by
      by_contra h
      rw [List.getElem?_eq_none (by omega)] at hc
      cases hc
    exact ⟨⟨h1, by omega⟩, hab, hcb⟩

theorem nodup_peakInds (power : List ℝ) : (peakInds power).Nodup := by
  unfold peakInds
  exact List.Nodup.filter _ List.nodup_range'

/-- The reordered positions are a permutation of the positions. -/
theorem orderedInds_perm {argsort : List ℝ → List ℕ} (ha : IsArgsort argsort) (power : List ℝ) :
    (orderedInds argsort power).Perm (peakInds power) := by
  unfold orderedInds
  refine (List.reverse_perm _).trans ?_
  refine ((ha.perm _).map _).trans ?_
  rw [List.length_map]
  have : (List.range (peakInds power).length).map (fun k => (peakInds power).getD k 0) = peakInds power := by
    apply List.ext_getElem
    · simp
    · intro n h1 h2
      simp only [List.getElem_map, List.getElem_range]
      rw [List.getD_eq_getElem _ _ h2]
  rw [this]

/-- They are in non-increasing order of power. -/
theorem orderedInds_sorted {argsort : List ℝ → List ℕ} (ha : IsArgsort argsort) (power : List ℝ) :
    (orderedInds argsort power).Pairwise fun i j => power.getD j 0 ≤ power.getD i 0 := by
  unfold orderedInds
  simp only
  rw [List.pairwise_reverse, List.pairwise_map]
  have h := ha.sorted ((peakInds power).map fun i => power.getD i 0)
  rw [List.pairwise_map] at h
  refine h.imp_of_mem ?_
  intro k l hk hl hkl
  have hr : ∀ m ∈ argsort ((peakInds power).map fun i => power.getD i 0), m < (peakInds power).length := by
    intro m hm
    have := (ha.perm _).mem_iff.1 hm
    rw [List.mem_range, List.length_map] at this
    exact this
  have e : ∀ m, m < (peakInds power).length →
      ((peakInds power).map fun i => power.getD i 0).getD m 0 = power.getD ((peakInds power).getD m 0) 0 := by
    intro m hm
    rw [List.getD_eq_getElem _ _ (by rw [List.length_map]; exact hm), List.getElem_map, List.getD_eq_getElem _ _ hm]
  rw [e k (hr k hk), e l (hr l hl)] at hkl
  exact hkl

/-- The first `n` reordered positions are the `n` highest local maxima. -/
theorem take_orderedInds {argsort : List ℝ → List ℕ} (ha : IsArgsort argsort) (power : List ℝ) (n : ℕ) :
    HighestMaxima power n ((orderedInds argsort power).take n) := by
  have hperm := orderedInds_perm ha power
  have hsort := orderedInds_sorted ha power
  have hmem : ∀ i, i ∈ orderedInds argsort power ↔ LocalMax power i := fun i => hperm.mem_iff.trans (mem_peakInds power i)
  have hnd : (orderedInds argsort power).Nodup := hperm.nodup_iff.2 (nodup_peakInds power)
  have hat : ∀ i j, i ∈ orderedInds argsort power → j ∈ orderedInds argsort power → power.getD i 0 ≤ power.getD j 0 →
      AtMost power i j := by
    intro i j hi hj h
    obtain ⟨_, b, _, _, _, hb, _, _, _⟩ := (hmem i).1 hi
    obtain ⟨_, b', _, _, _, hb', _, _, _⟩ := (hmem j).1 hj
    rw [getD_of_getElem? hb, getD_of_getElem? hb'] at h
    exact ⟨b, b', hb, hb', h⟩
  have htake : ∀ j ∈ (orderedInds argsort power).take n, j ∈ orderedInds argsort power := fun j hj => List.mem_of_mem_take hj
  refine ⟨hnd.sublist (List.take_sublist _ _), fun j hj => (hmem j).1 (htake j hj), ?_, ?_, ?_, ?_⟩
  · exact (hsort.sublist (List.take_sublist n _)).imp_of_mem fun hi hj h => hat _ _ (htake _ hj) (htake _ hi) h
  · intro j hj hjn i hi
    have hj' := (hmem j).2 hj
    rw [← List.take_append_drop n (orderedInds argsort power)] at hj' hsort
    rcases List.mem_append.1 hj' with h | h
    · exact (hjn h).elim
    · exact hat _ _ ((hmem j).2 hj) (htake i hi) ((List.pairwise_append.1 hsort).2.2 i hi j h)
  · rw [List.length_take]; exact min_le_left _ _
  · intro hlt j hj
    have hj' := (hmem j).2 hj
    rw [List.length_take] at hlt
    rw [List.take_of_length_le (by omega)]
    exact hj'

/-! ### The parabola -/

theorem vander3_det (f : Fin 3 → ℝ) : (vander3 f).det = (f 0 - f 1) * (f 0 - f 2) * (f 1 - f 2) := by
  rw [Matrix.det_fin_three]
  simp only [vander3, Matrix.of_apply]
  norm_num
  ring

theorem npSolve_spec {n : Type} [Fintype n] [DecidableEq n] {A : Matrix n n ℝ} {b w : n → ℝ} (h : npSolve A b = .ok w) :
    A.det ≠ 0 ∧ A.mulVec w = b := by
  unfold npSolve at h
  split_ifs at h with hd
  cases h
  refine ⟨hd, ?_⟩
  rw [Matrix.mulVec_mulVec, Matrix.mul_nonsing_inv _ (isUnit_iff_ne_zero.2 hd), Matrix.one_mulVec]

theorem npSolve_ok {n : Type} [Fintype n] [DecidableEq n] {A : Matrix n n ℝ} (b : n → ℝ) (h : A.det ≠ 0) :
    ∃ w, npSolve A b = .ok w := ⟨_, if_neg h⟩

/-- The system of the parabola, written out. -/
theorem vander3_solution {f w : Fin 3 → ℝ} {l0 l1 l2 : ℝ} (h : (vander3 f).mulVec w = ![l0, l1, l2]) :
    w 0 * f 0 ^ 2 + w 1 * f 0 + w 2 = l0 ∧ w 0 * f 1 ^ 2 + w 1 * f 1 + w 2 = l1 ∧ w 0 * f 2 ^ 2 + w 1 * f 2 + w 2 = l2 := by
  have h0 := congrFun h 0
  have h1 := congrFun h 1
  have h2 := congrFun h 2
  simp [vander3, Matrix.mulVec, dotProduct, Fin.sum_univ_three] at h0 h1 h2
  refine ⟨?_, ?_, ?_⟩ <;> linarith

/-- Frequencies of a grid without repetitions give a regular system at any interior point. -/
theorem vander3_regular {freq : List ℝ} (hf : freq.Nodup) {i : ℕ} (h1 : 1 ≤ i) (h2 : i + 2 ≤ freq.length) :
    (vander3 fun k : Fin 3 => freq.getD (i - 1 + k) 0).det ≠ 0 := by
  have ne : ∀ a b : ℕ, a < freq.length → b < freq.length → a ≠ b → freq.getD a 0 - freq.getD b 0 ≠ 0 := by
    intro a b ha hb hab h
    rw [List.getD_eq_getElem _ _ ha, List.getD_eq_getElem _ _ hb, sub_eq_zero] at h
    exact hab ((List.Nodup.getElem_inj_iff hf).1 h)
  rw [vander3_det]
  refine mul_ne_zero (mul_ne_zero (ne _ _ ?_ ?_ ?_) (ne _ _ ?_ ?_ ?_)) (ne _ _ ?_ ?_ ?_) <;> simp <;> omega

/-- At a local maximum the fit raises nothing. -/
theorem peakAt_ok {freq power : List ℝ} (hf : freq.Nodup) (hl : freq.length = power.length) {i : ℕ} (hi : LocalMax power i) :
    ∃ p, peakAt freq power i = .ok p := by
  obtain ⟨a, b, c, h1, ha, hb, hc, -, -⟩ := hi
  have hlen : i + 2 ≤ freq.length := by
    by_contra h
    rw [List.getElem?_eq_none (by omega)] at hc
    cases hc
  have hdet := vander3_regular hf h1 hlen
  unfold peakAt
  rw [if_neg (by omega)]
  split
  · obtain ⟨w, hw⟩ := npSolve_ok (A := vander3 fun k : Fin 3 => freq.getD (i - 1 + k) 0) ![_, _, _] hdet
    exact ⟨_, by rw [hw]; rfl⟩
  · rw [if_neg hdet]
    exact ⟨_, rfl⟩

theorem mapM_forall₂ {α β : Type} {f : α → Except PyErr β} : ∀ {l : List α}, (∀ a ∈ l, ∃ b, f a = .ok b) →
    ∃ bs, l.mapM f = .ok bs ∧ List.Forall₂ (fun a b => f a = .ok b) l bs
  | [], _ => ⟨[], rfl, .nil⟩
  | a :: l, h => by
    obtain ⟨b, hb⟩ := h a (by simp)
    obtain ⟨bs, h1, h2⟩ := mapM_forall₂ (l := l) fun a ha => h a (by simp [ha])
    refine ⟨b :: bs, ?_, .cons hb h2⟩
    rw [List.mapM_cons, hb, h1]
    rfl

/-- The index stored in a peak. -/
theorem peakAt_index {freq power : List ℝ} {i : ℕ} {p : Peak} (h : peakAt freq power i = .ok p) : p.index = i + 1 := by
  unfold peakAt at h
  simp only at h
  by_cases hl : freq.length < i + 2
  · rw [if_pos hl] at h
    cases h
  rw [if_neg hl] at h
  split at h
  · rename_i l0 l1 l2 _ _ _
    cases hn : npSolve (vander3 fun k : Fin 3 => freq.getD (i - 1 + k) 0) ![l0, l1, l2] with
    | error e => rw [hn] at h; cases h
    | ok w => rw [hn] at h; cases h; rfl
  · by_cases hd : (vander3 fun k : Fin 3 => freq.getD (i - 1 + k) 0).det = 0
    · rw [if_pos hd] at h
      cases h
    · rw [if_neg hd] at h
      cases h
      rfl

end Exo
