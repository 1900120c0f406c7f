import Verif.Spec.Ttv
import Mathlib.Tactic.Linarith
import Mathlib.Tactic.LinearCombination
import Mathlib.Tactic.Positivity
import Mathlib.Tactic.FieldSimp
import Mathlib.Tactic.Ring
import Mathlib.Algebra.BigOperators.Group.List.Basic
import Mathlib.Data.List.GetD

/-!
# Lemmas on the regression and the bins of `TTVOrbit`
-/

namespace Exo
open Real

section Fit
variable (pts : List (ℕ × ℝ))

/-- Sums over the observed transits. -/
private noncomputable def S (f : ℕ × ℝ → ℝ) : ℝ := (pts.map f).sum

private theorem S_expand (a b : ℝ) :
    S pts (fun q => (q.2 - (a + b * (q.1 : ℝ))) ^ 2) =
      S pts (fun q => q.2 ^ 2) - 2 * a * S pts (fun q => q.2) - 2 * b * S pts (fun q => (q.1 : ℝ) * q.2)
        + a ^ 2 * pts.length + 2 * a * b * S pts (fun q => (q.1 : ℝ)) + b ^ 2 * S pts (fun q => (q.1 : ℝ) ^ 2) := by
  unfold S
  induction pts with
  | nil => simp
  | cons q l ih => simp only [List.map_cons, List.sum_cons, List.length_cons, ih]; push_cast; ring

private theorem S_lin (a b : ℝ) :
    S pts (fun q => q.2 - (a + b * (q.1 : ℝ))) =
      S pts (fun q => q.2) - a * pts.length - b * S pts (fun q => (q.1 : ℝ)) := by
  unfold S
  induction pts with
  | nil => simp
  | cons q l ih => simp only [List.map_cons, List.sum_cons, List.length_cons, ih]; push_cast; ring

private theorem S_linx (a b : ℝ) :
    S pts (fun q => (q.1 : ℝ) * (q.2 - (a + b * (q.1 : ℝ)))) =
      S pts (fun q => (q.1 : ℝ) * q.2) - a * S pts (fun q => (q.1 : ℝ)) - b * S pts (fun q => (q.1 : ℝ) ^ 2) := by
  unfold S
  induction pts with
  | nil => simp
  | cons q l ih => simp only [List.map_cons, List.sum_cons, ih]; ring

private theorem S_nonneg (f : ℕ × ℝ → ℝ) (h : ∀ q ∈ pts, 0 ≤ f q) : 0 ≤ S pts f := by
  unfold S
  exact List.sum_nonneg (by rintro x hx; obtain ⟨q, hq, rfl⟩ := List.mem_map.1 hx; exact h q hq)

private theorem S_eq_zero (f : ℕ × ℝ → ℝ) (h : ∀ q ∈ pts, 0 ≤ f q) (h0 : S pts f = 0) : ∀ q ∈ pts, f q = 0 := by
  induction pts with
  | nil => simp
  | cons q l ih =>
    have h1 : 0 ≤ f q := h q (by simp)
    have h2 : 0 ≤ S l f := S_nonneg l f fun q hq => h q (by simp [hq])
    have h3 : f q + S l f = 0 := by simpa [S] using h0
    intro r hr
    rcases List.mem_cons.1 hr with rfl | hr
    · linarith
    · exact ih (fun q hq => h q (by simp [hq])) (by linarith) r hr

private theorem S_sq (a b : ℝ) : S pts (fun q => (a + b * (q.1 : ℝ)) ^ 2) =
    a ^ 2 * pts.length + 2 * a * b * S pts (fun q => (q.1 : ℝ)) + b ^ 2 * S pts (fun q => (q.1 : ℝ) ^ 2) := by
  unfold S
  induction pts with
  | nil => simp
  | cons q l ih => simp only [List.map_cons, List.sum_cons, List.length_cons, ih]; push_cast; ring

end Fit

/-- The regression of lines 110-117 in terms of sums over the observed transits. -/
private theorem linFit_eq {inds : List ℕ} {times : List ℝ} (hl : inds.length = times.length) :
    linFit inds times =
      let pts := List.zip inds times
      let N : ℝ := pts.length
      let sx := S pts (fun q => (q.1 : ℝ))
      let sxx := S pts (fun q => (q.1 : ℝ) ^ 2)
      let sy := S pts (fun q => q.2)
      let sxy := S pts (fun q => (q.1 : ℝ) * q.2)
      if N * sxx - sx ^ 2 = 0 then none
      else some ((N * sxy - sx * sy) / (N * sxx - sx ^ 2), (sxx * sy - sx * sxy) / (N * sxx - sx ^ 2)) := by
  have e1 : ∀ f : ℕ → ℝ, (inds.map f).sum = S (List.zip inds times) (fun q => f q.1) := by
    intro f
    unfold S
    rw [← List.map_fst_zip (l₁ := inds) (l₂ := times) (by omega), List.map_map]
    simp [Function.comp_def, List.map_fst_zip (l₁ := inds) (l₂ := times) (by omega)]
  have e2 : times.sum = S (List.zip inds times) (fun q => q.2) := by
    unfold S
    rw [List.map_snd_zip (by omega)]
  have e3 : (List.zipWith (fun (i : ℕ) y => (i : ℝ) * y) inds times).sum =
      S (List.zip inds times) (fun q => (q.1 : ℝ) * q.2) := by
    unfold S
    rw [List.zip, List.map_zipWith]
  have e4 : ((List.zip inds times).length : ℝ) = times.length := by simp [hl]
  unfold linFit
  simp only [e1, e2, e3, e4]

/-- The normal equations. -/
theorem linFit_normal {inds : List ℕ} {times : List ℝ} (hl : inds.length = times.length) {s c : ℝ}
    (h : linFit inds times = some (s, c)) :
    ((List.zip inds times).map (fun q => q.2 - (c + s * (q.1 : ℝ)))).sum = 0 ∧
    ((List.zip inds times).map (fun q => (q.1 : ℝ) * (q.2 - (c + s * (q.1 : ℝ))))).sum = 0 := by
  rw [linFit_eq hl] at h
  simp only at h
  split at h
  · cases h
  next hd =>
  simp only [Option.some.injEq, Prod.mk.injEq] at h
  obtain ⟨h1, h2⟩ := h
  rw [div_eq_iff hd] at h1 h2
  refine ⟨?_, ?_⟩
  · refine (S_lin _ c s).trans ?_
    apply mul_left_cancel₀ hd
    linear_combination ((List.zip inds times).length : ℝ) * h2 + S (List.zip inds times) (fun q => (q.1 : ℝ)) * h1
  · refine (S_linx _ c s).trans ?_
    apply mul_left_cancel₀ hd
    linear_combination S (List.zip inds times) (fun q => (q.1 : ℝ)) * h2 + S (List.zip inds times) (fun q => (q.1 : ℝ) ^ 2) * h1

/-- Pythagoras: the excess of any ephemeris over the fitted one. -/
theorem linFit_excess {inds : List ℕ} {times : List ℝ} (hl : inds.length = times.length) {s c : ℝ}
    (h : linFit inds times = some (s, c)) (a b : ℝ) :
    ssr inds times a b = ssr inds times c s +
      ((List.zip inds times).map (fun q => ((c - a) + (s - b) * (q.1 : ℝ)) ^ 2)).sum := by
  obtain ⟨h1, h2⟩ := linFit_normal hl h
  have e1 := S_expand (List.zip inds times) a b
  have e2 := S_expand (List.zip inds times) c s
  have e3 := S_sq (List.zip inds times) (c - a) (s - b)
  have e4 : _ = (0 : ℝ) := (S_lin (List.zip inds times) c s).symm.trans h1
  have e5 : _ = (0 : ℝ) := (S_linx (List.zip inds times) c s).symm.trans h2
  unfold S at e1 e2 e3 e4 e5
  unfold ssr
  rw [e1, e2, e3]
  linear_combination (-2 * a + 2 * c) * e4 + (2 * s - 2 * b) * e5

/-- The fit exists exactly when two transit numbers differ. -/
theorem linFit_isSome {inds : List ℕ} {times : List ℝ} (hl : inds.length = times.length) :
    (linFit inds times).isSome ↔ ∃ i ∈ inds, ∃ j ∈ inds, i ≠ j := by
  set pts := List.zip inds times with hpts
  have hmem : ∀ i ∈ inds, ∃ y, (i, y) ∈ pts := by
    intro i hi
    rw [← List.map_fst_zip (l₁ := inds) (l₂ := times) (by omega)] at hi
    obtain ⟨q, hq, rfl⟩ := List.mem_map.1 hi
    exact ⟨q.2, hq⟩
  have hmem' : ∀ q ∈ pts, q.1 ∈ inds := fun q hq => (List.of_mem_zip hq).1
  set N : ℝ := (pts.length : ℝ)
  set sx := S pts (fun q => (q.1 : ℝ))
  set sxx := S pts (fun q => (q.1 : ℝ) ^ 2)
  -- variance
  have hv : S pts (fun q => ((-sx) + N * (q.1 : ℝ)) ^ 2) = N * (N * sxx - sx ^ 2) := by
    rw [S_sq]; ring
  have key : N * sxx - sx ^ 2 = 0 ↔ ¬ ∃ i ∈ inds, ∃ j ∈ inds, i ≠ j := by
    constructor
    · rintro h0 ⟨i, hi, j, hj, hij⟩
      rw [h0, mul_zero] at hv
      have hz := S_eq_zero pts _ (fun q _ => sq_nonneg _) hv
      obtain ⟨y, hy⟩ := hmem i hi
      obtain ⟨y', hy'⟩ := hmem j hj
      have h1 := pow_eq_zero_iff (two_ne_zero) |>.1 (hz _ hy)
      have h2 := pow_eq_zero_iff (two_ne_zero) |>.1 (hz _ hy')
      have hN : N ≠ 0 := by
        have : 0 < pts.length := List.length_pos_of_mem hy
        exact Nat.cast_ne_zero.2 this.ne'
      have h3 : N * (i : ℝ) = N * (j : ℝ) := by simp only at h1 h2; linarith
      exact hij (by exact_mod_cast mul_left_cancel₀ hN h3)
    · intro hne
      push Not at hne
      by_cases hp : pts = []
      · have : sx = 0 := by simp [sx, S, hp]
        have h2 : N = 0 := by simp [N, hp]
        rw [this, h2]; ring
      obtain ⟨q0, hq0⟩ := List.exists_mem_of_ne_nil _ hp
      have hall : ∀ q ∈ pts, (q.1 : ℝ) = (q0.1 : ℝ) := by
        intro q hq
        exact_mod_cast hne _ (hmem' q hq) _ (hmem' q0 hq0)
      have h1 : sx = N * (q0.1 : ℝ) := by
        simp only [sx, S, N]
        rw [List.map_congr_left (g := fun _ => (q0.1 : ℝ)) (fun q hq => hall q hq)]
        simp
      have h2 : sxx = N * (q0.1 : ℝ) ^ 2 := by
        simp only [sxx, S, N]
        rw [List.map_congr_left (g := fun _ => (q0.1 : ℝ) ^ 2) (fun q hq => by rw [hall q hq])]
        simp
      rw [h1, h2]; ring
  rw [linFit_eq hl]
  simp only
  rw [show (N * sxx - sx ^ 2 = 0) = ((List.zip inds times).length * S (List.zip inds times) (fun q => (q.1 : ℝ) ^ 2) -
    S (List.zip inds times) (fun q => (q.1 : ℝ)) ^ 2 = (0 : ℝ)) from rfl] at key
  split
  next h => simpa using key.1 h
  next h => simpa using not_not.1 (fun hh => h (key.2 hh))

/-- The sum of squares of deviations vanishes only if all do. -/
theorem sum_sq_eq_zero {pts : List (ℕ × ℝ)} {a b : ℝ}
    (h : (pts.map (fun q => (a + b * (q.1 : ℝ)) ^ 2)).sum = 0) : ∀ q ∈ pts, a + b * (q.1 : ℝ) = 0 := by
  intro q hq
  exact pow_eq_zero_iff two_ne_zero |>.1 (S_eq_zero pts _ (fun q _ => sq_nonneg _) h q hq)

theorem sum_sq_nonneg (pts : List (ℕ × ℝ)) (a b : ℝ) : 0 ≤ (pts.map (fun q => (a + b * (q.1 : ℝ)) ^ 2)).sum :=
  S_nonneg pts _ (fun _ _ => sq_nonneg _)

/-! ## The bins -/

open Classical

/-- Midpoints of consecutive entries (line 164). -/
private noncomputable def mids (l : List ℝ) : List ℝ := List.zipWith (fun a b => 0.5 * (a + b)) l.tail l.dropLast

private theorem mids_cons (a b : ℝ) (l : List ℝ) : mids (a :: b :: l) = (0.5 * (b + a)) :: mids (b :: l) := rfl

private theorem binEdges_cons (a : ℝ) (l : List ℝ) (p : ℝ) :
    binEdges (a :: l) p = (a - 0.5 * p) :: (mids (a :: l) ++ [(a :: l).getLastD 0 + 0.5 * p]) := rfl

private theorem binValues_cons (a : ℝ) (l : List ℝ) :
    binValues (a :: l) = a :: (a :: l ++ [(a :: l).getLastD 0]) := rfl

private theorem getLastD_cons_cons (a b : ℝ) (l : List ℝ) : (a :: b :: l).getLastD 0 = (b :: l).getLastD 0 := by
  simp [List.getLastD]

private theorem le_edges {p : ℝ} (hp : 0 < p) : ∀ (l : List ℝ) (b : ℝ), (b :: l).Pairwise (· < ·) →
    ∀ e ∈ mids (b :: l) ++ [(b :: l).getLastD 0 + 0.5 * p], b < e
  | [], b, _, e, he => by
    simp [mids] at he
    subst he
    norm_num
    linarith
  | c :: l, b, hs, e, he => by
    have hbc : b < c := (List.pairwise_cons.1 hs).1 c (by simp)
    rw [mids_cons, getLastD_cons_cons, List.cons_append, List.mem_cons] at he
    rcases he with rfl | he
    · norm_num; linarith
    · exact hbc.trans (le_edges hp l c (List.pairwise_cons.1 hs).2 e he)

/-- The nearest entry, by recursion. -/
private noncomputable def near (t : ℝ) : ℝ → List ℝ → ℝ
  | a, [] => a
  | a, b :: l => if 0.5 * (b + a) < t then near t b l else a

private theorem ss_cons (e : ℝ) (l : List ℝ) (t : ℝ) :
    searchsortedLeft (e :: l) t = if e < t then searchsortedLeft l t + 1 else searchsortedLeft l t := by
  unfold searchsortedLeft
  by_cases h : e < t <;> simp [h]

private theorem ss_zero {l : List ℝ} {t : ℝ} (h : ∀ e ∈ l, t ≤ e) : searchsortedLeft l t = 0 := by
  unfold searchsortedLeft
  rw [List.length_eq_zero_iff, List.filter_eq_nil_iff]
  intro e he
  simpa using h e he

private theorem getD_near {p : ℝ} (hp : 0 < p) (t : ℝ) : ∀ (l : List ℝ) (a : ℝ), (a :: l).Pairwise (· < ·) →
    (a :: l ++ [(a :: l).getLastD 0]).getD
      (searchsortedLeft (mids (a :: l) ++ [(a :: l).getLastD 0 + 0.5 * p]) t) 0 = near t a l
  | [], a, _ => by
    simp only [near, mids, List.tail_cons, List.zipWith_nil_left, List.nil_append, List.getLastD_cons]
    rw [ss_cons]
    split <;> simp [searchsortedLeft]
  | b :: l, a, hs => by
    have hab : a < b := (List.pairwise_cons.1 hs).1 b (by simp)
    have hs' := (List.pairwise_cons.1 hs).2
    have ih := getD_near hp t l b hs'
    rw [mids_cons, getLastD_cons_cons, List.cons_append, List.cons_append (a := 0.5 * (b + a)), ss_cons]
    unfold near
    split
    · rw [← ih]; rfl
    · next h =>
      have : searchsortedLeft (mids (b :: l) ++ [(b :: l).getLastD 0 + 0.5 * p]) t = 0 := by
        apply ss_zero
        intro e he
        have := le_edges hp l b hs' e he
        norm_num at h
        linarith
      rw [this]; rfl

private theorem near_nearest (t : ℝ) : ∀ (l : List ℝ) (a : ℝ), (a :: l).Pairwise (· < ·) → IsNearest (a :: l) t (near t a l)
  | [], a, _ => by simp [IsNearest, near]
  | b :: l, a, hs => by
    have hall := (List.pairwise_cons.1 hs).1
    have hs' := (List.pairwise_cons.1 hs).2
    have hab : a < b := hall b (by simp)
    obtain ⟨h1, h2⟩ := near_nearest t l b hs'
    unfold near
    split
    · next h =>
      norm_num at h
      refine ⟨List.mem_cons_of_mem _ h1, fun u hu => ?_⟩
      rcases List.mem_cons.1 hu with rfl | hu
      · have h3 := (h2 b (by simp)).1
        have h4 : |t - b| < |t - u| := by
          rw [abs_of_pos (by linarith : 0 < t - u), abs_lt]
          constructor <;> linarith
        exact ⟨by linarith, fun h => by linarith⟩
      · exact h2 u hu
    · next h =>
      norm_num at h
      refine ⟨by simp, fun u hu => ?_⟩
      rcases List.mem_cons.1 hu with rfl | hu
      · simp
      · have hau := hall u hu
        have hbu : b ≤ u := by
          rcases List.mem_cons.1 hu with rfl | hu
          · exact le_refl _
          · exact ((List.pairwise_cons.1 hs').1 u hu).le
        refine ⟨?_, fun _ => hau.le⟩
        rw [abs_le]
        constructor
        · have := neg_abs_le (t - u)
          rcases abs_cases (t - u) with ⟨h5, _⟩ | ⟨h5, _⟩ <;> linarith
        · rcases abs_cases (t - u) with ⟨h5, _⟩ | ⟨h5, _⟩ <;> linarith

/-- The value looked up in the bins is the nearest transit time. -/
theorem modelDt_nearest {tts : List ℝ} {p : ℝ} (hne : tts ≠ []) (hs : tts.Pairwise (· < ·)) (hp : 0 < p) (t : ℝ) :
    IsNearest tts t (modelDt (binEdges tts p) (binValues tts) t) := by
  obtain ⟨a, l, rfl⟩ := List.exists_cons_of_ne_nil hne
  unfold modelDt
  rw [binEdges_cons, binValues_cons, ss_cons]
  split
  · rw [List.getD_cons_succ, getD_near hp t l a hs]
    exact near_nearest t l a hs
  · next h =>
    rw [ss_zero (fun e he => ?_)]
    · have hn : near t a l = a := by
        cases l with
        | nil => rfl
        | cons b l =>
          have hab : a < b := (List.pairwise_cons.1 hs).1 b (by simp)
          unfold near
          rw [if_neg]
          norm_num at h ⊢
          linarith
      have := near_nearest t l a hs
      rwa [hn] at this
    · have := le_edges hp l a hs e he
      norm_num at h
      linarith

/-- The nearest entry is unique. -/
theorem IsNearest.unique {l : List ℝ} {t s s' : ℝ} (h : IsNearest l t s) (h' : IsNearest l t s') : s = s' := by
  obtain ⟨a1, a2⟩ := h.2 s' h'.1
  obtain ⟨b1, b2⟩ := h'.2 s h.1
  exact le_antisymm (a2 (le_antisymm a1 b1)) (b2 (le_antisymm b1 a1))

/-- The nearest entry to an entry is that entry. -/
theorem IsNearest.self {l : List ℝ} {t s : ℝ} (h : IsNearest l t s) (ht : t ∈ l) : s = t := by
  have := (h.2 t ht).1
  simp at this
  linarith

end Exo
