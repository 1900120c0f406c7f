import Verif.Props.SemiAmplitude
import Mathlib.Algebra.BigOperators.Group.List.Basic

/-!
# Helper lemmas: a least-squares fit is its unique best model
-/

namespace Exo
open Real

/-- `est` succeeds exactly if there is one best model among the valid ones, reports `out` of it, and fails with `LinAlgError` otherwise. -/
structure IsFit {A R : Type} (est : Except PyErr R) (valid : A → Prop) (chi : A → ℝ) (out : A → R) : Prop where
  ok_iff : ∀ K, est = .ok K ↔ ∃ q, valid q ∧ (∀ q', valid q' → q' ≠ q → chi q < chi q') ∧ out q = K
  error : ∀ e, est = .error e → e = .linAlg

/-- Two fits whose models correspond to each other. -/
theorem IsFit.transfer {A A' R R' : Type} {est : Except PyErr R} {valid : A → Prop} {chi : A → ℝ} {out : A → R}
    {est' : Except PyErr R'} {valid' : A' → Prop} {chi' : A' → ℝ} {out' : A' → R'} (h : IsFit est valid chi out)
    (h' : IsFit est' valid' chi' out') (φ : A → A') (ψ : A' → A) (hφ : ∀ q, valid q → valid' (φ q)) (hψ : ∀ q, valid' q → valid (ψ q))
    (hψφ : ∀ q, valid q → ψ (φ q) = q) (hφψ : ∀ q, valid' q → φ (ψ q) = q) (s : ℝ) (hs : 0 < s)
    (hchi : ∀ q, valid q → chi' (φ q) = s * chi q) (g : R → R') (hg : ∀ q, valid q → out' (φ q) = g (out q)) : est' = est.map g := by
  cases he : est with
  | ok K =>
    obtain ⟨q, h1, h2, h3⟩ := (h.ok_iff K).1 he
    refine (h'.ok_iff _).2 ⟨φ q, hφ q h1, fun q' hq' hne => ?_, by rw [hg q h1, h3]⟩
    have hne' : ψ q' ≠ q := by
      rintro rfl
      exact hne (hφψ q' hq').symm
    have h4 := h2 (ψ q') (hψ q' hq') hne'
    rw [hchi q h1, ← hφψ q' hq', hchi _ (hψ q' hq')]
    exact mul_lt_mul_of_pos_left h4 hs
  | error e =>
    obtain rfl := h.error e he
    cases he' : est' with
    | error e' => rw [h'.error e' he']; rfl
    | ok K' =>
      exfalso
      obtain ⟨q', h1, h2, -⟩ := (h'.ok_iff K').1 he'
      have : est = .ok (out (ψ q')) := (h.ok_iff _).2 ⟨ψ q', hψ q' h1, fun q hq hne => ?_, rfl⟩
      · rw [this] at he; cases he
      · have hne' : φ q ≠ q' := by
          rintro rfl
          exact hne (hψφ q hq).symm
        have h4 := h2 (φ q) (hφ q hq) hne'
        rw [hchi q hq] at h4
        nth_rw 1 [← hφψ q' h1] at h4
        rw [hchi _ (hψ q' h1)] at h4
        exact lt_of_mul_lt_mul_left h4 hs.le

/-- Adding a model that vanishes on all the samples. -/
theorem chiSquare_congr {x y s : List ℝ} {m m' : ℝ → ℝ} (h : ∀ t ∈ x, m t = m' t) :
    chiSquare (x.zip (y.zip s)) m = chiSquare (x.zip (y.zip s)) m' := by
  unfold chiSquare
  congr 1
  refine List.map_congr_left fun d hd => ?_
  rw [h d.1 (List.of_mem_zip hd).1]

theorem rvFree_add (periods : List ℝ) : ∀ (ab ab' : List (ℝ × ℝ)), ab.length = periods.length → ab'.length = periods.length →
    ∀ c c' t, rvFree periods (List.zipWith (fun p q => (p.1 + q.1, p.2 + q.2)) ab ab') (c + c') t =
      rvFree periods ab c t + rvFree periods ab' c' t := by
  unfold rvFree
  induction periods with
  | nil => intro ab ab' h h' c c' t; simp
  | cons P l ih =>
    intro ab ab' h h' c c' t
    cases ab with
    | nil => simp at h
    | cons p ab =>
      cases ab' with
      | nil => simp at h'
      | cons q ab' =>
        have := ih ab ab' (by simpa using h) (by simpa using h') c c' t
        simp only [List.zipWith_cons_cons, List.zip_cons_cons, List.map_cons, List.sum_cons] at this ⊢
        linarith

theorem zipWith_add_ne {ab ab' : List (ℝ × ℝ)} (hl : ab'.length = ab.length) (h : ∃ p ∈ ab', p ≠ (0, 0)) :
    List.zipWith (fun p q => (p.1 + q.1, p.2 + q.2)) ab ab' ≠ ab := by
  obtain ⟨p, hp, hne⟩ := h
  intro hc
  obtain ⟨i, hi, rfl⟩ := List.getElem_of_mem hp
  have := congrArg (fun l => l[i]?) hc
  simp only [List.getElem?_zipWith, List.getElem?_eq_getElem hi, List.getElem?_eq_getElem (hl ▸ hi : i < ab.length), Option.some.injEq] at this
  apply hne
  have h1 := congrArg Prod.fst this
  have h2 := congrArg Prod.snd this
  simp only at h1 h2
  ext <;> simp <;> linarith

theorem fit_free {periods x y : List ℝ} {yerr : Option (List ℝ)} (hd : GoodData x y yerr) (hP : ∀ P ∈ periods, P ≠ 0) :
    IsFit (estimateSemiAmplitude periods x y yerr none) (fun q : List (ℝ × ℝ) × ℝ => q.1.length = periods.length)
      (fun q => chiSquare (x.zip (y.zip (errs y yerr))) (rvFree periods q.1 q.2)) (fun q => q.1.map fun p => √(p.1 ^ 2 + p.2 ^ 2)) := by
  constructor
  · intro K
    constructor
    · intro h
      obtain ⟨ab, c, h1, h2, h3⟩ := C60_free_minimises periods x y yerr hd hP K h
      exact ⟨(ab, c), h1, fun q hq hne => h3 q.1 q.2 hq hne, h2.symm⟩
    · rintro ⟨⟨ab, c⟩, h1, h2, rfl⟩
      simp only at h1 h2
      cases h : estimateSemiAmplitude periods x y yerr none with
      | error e =>
        exfalso
        obtain ⟨-, ab', c', k1, k2, k3⟩ := (C60_free_singular_iff _ _ _ _ hd hP e).1 h
        have := h2 (List.zipWith (fun p q => (p.1 + q.1, p.2 + q.2)) ab ab', c + c') (by simp [h1, k1]) (by
          intro hc
          have e1 := congrArg Prod.fst hc
          have e2 := congrArg Prod.snd hc
          simp only at e1 e2
          rcases k2 with k2 | k2
          · exact k2 (by linarith)
          · exact zipWith_add_ne (by omega) k2 e1)
        have hc := chiSquare_congr (x := x) (y := y) (s := errs y yerr)
          (m := rvFree periods (List.zipWith (fun p q => (p.1 + q.1, p.2 + q.2)) ab ab') (c + c')) (m' := rvFree periods ab c)
          fun t ht => by rw [rvFree_add periods ab ab' h1 k1, k3 t ht, add_zero]
        simp only at this
        rw [hc] at this
        exact lt_irrefl _ this
      | ok K =>
        obtain ⟨ab', c', k1, k2, k3⟩ := C60_free_minimises periods x y yerr hd hP K h
        by_cases he : (ab, c) = (ab', c')
        · cases he; rw [k2]
        · have a1 := k3 ab c h1 he
          have a2 := h2 (ab', c') k1 (Ne.symm he)
          simp only at a2
          linarith
  · intro e h
    exact ((C60_free_singular_iff _ _ _ _ hd hP e).1 h).1

theorem rvFixed_add (periods t0s : List ℝ) (hl : t0s.length = periods.length) : ∀ (K K' : List ℝ), K.length = periods.length →
    K'.length = periods.length → ∀ c c' t, rvFixed periods t0s (List.zipWith (· + ·) K K') (c + c') t =
      rvFixed periods t0s K c t + rvFixed periods t0s K' c' t := by
  unfold rvFixed
  induction periods generalizing t0s with
  | nil => intro ab ab' h h' c c' t; simp
  | cons P l ih =>
    intro ab ab' h h' c c' t
    cases t0s with
    | nil => simp at hl
    | cons t0 t0s =>
      cases ab with
      | nil => simp at h
      | cons p ab =>
        cases ab' with
        | nil => simp at h'
        | cons q ab' =>
          have := ih t0s (by simpa using hl) ab ab' (by simpa using h) (by simpa using h') c c' t
          simp only [List.zipWith_cons_cons, List.zip_cons_cons, List.map_cons, List.sum_cons] at this ⊢
          linarith

theorem fit_fixed {periods t0s x y : List ℝ} {yerr : Option (List ℝ)} (hd : GoodData x y yerr) (hP : ∀ P ∈ periods, P ≠ 0)
    (hl : t0s.length = periods.length) :
    IsFit (estimateSemiAmplitude periods x y yerr (some t0s)) (fun q : List ℝ × ℝ => q.1.length = periods.length)
      (fun q => chiSquare (x.zip (y.zip (errs y yerr))) (rvFixed periods t0s q.1 q.2)) (fun q => q.1) := by
  constructor
  · intro K
    constructor
    · intro h
      obtain ⟨h1, c, h3⟩ := C60_fixed_minimises periods t0s x y yerr hd hP hl K h
      exact ⟨(K, c), h1, fun q hq hne => h3 q.1 q.2 hq hne, rfl⟩
    · rintro ⟨⟨K, c⟩, h1, h2, rfl⟩
      simp only at h1 h2
      cases h : estimateSemiAmplitude periods x y yerr (some t0s) with
      | error e =>
        exfalso
        obtain ⟨-, K', c', k1, k2, k3⟩ := (C60_fixed_singular_iff _ _ _ _ _ hd hP hl e).1 h
        have := h2 (List.zipWith (· + ·) K K', c + c') (by simp [h1, k1]) (by
          intro hc
          have e1 := congrArg Prod.fst hc
          have e2 := congrArg Prod.snd hc
          simp only at e1 e2
          rcases k2 with k2 | ⟨k, hk, hne⟩
          · exact k2 (by linarith)
          · obtain ⟨i, hi, rfl⟩ := List.getElem_of_mem hk
            have := congrArg (fun l => l[i]?) e1
            simp only [List.getElem?_zipWith, List.getElem?_eq_getElem hi, List.getElem?_eq_getElem (by omega : i < K.length),
              Option.some.injEq] at this
            exact hne (by linarith))
        have hc := chiSquare_congr (x := x) (y := y) (s := errs y yerr)
          (m := rvFixed periods t0s (List.zipWith (· + ·) K K') (c + c')) (m' := rvFixed periods t0s K c)
          fun t ht => by rw [rvFixed_add periods t0s hl K K' h1 k1, k3 t ht, add_zero]
        simp only at this
        rw [hc] at this
        exact lt_irrefl _ this
      | ok K' =>
        obtain ⟨k1, c', k3⟩ := C60_fixed_minimises periods t0s x y yerr hd hP hl K' h
        by_cases he : (K, c) = (K', c')
        · cases he; rfl
        · have a1 := k3 K c h1 he
          have a2 := h2 (K', c') k1 (Ne.symm he)
          simp only at a2
          linarith
  · intro e h
    exact ((C60_fixed_singular_iff _ _ _ _ _ hd hP hl e).1 h).1

end Exo
