import Verif.Model.SemiAmplitude
import Verif.Spec.SemiAmplitude
import Verif.Lemmas.Peaks
import Mathlib.Algebra.BigOperators.Fin
import Mathlib.Algebra.Order.BigOperators.Group.Finset
import Mathlib.LinearAlgebra.Matrix.Nondegenerate
import Mathlib.LinearAlgebra.Matrix.ToLinearEquiv

/-!
# Helper lemmas: weighted linear least squares on lists
-/

namespace Exo
open Real Matrix

/-- A linear combination of functions. -/
def combo (fs : List (ℝ → ℝ)) (cs : List ℝ) (t : ℝ) : ℝ := (List.zipWith (fun f c => f t * c) fs cs).sum

theorem sum_fin_get {α : Type} (l : List α) (g : α → ℝ) : ∑ i : Fin l.length, g (l.get i) = (l.map g).sum := by
  rw [← List.sum_ofFn]
  congr 1
  apply List.ext_getElem <;> simp

theorem sum_fin_combo (fs : List (ℝ → ℝ)) (w : Fin fs.length → ℝ) (t : ℝ) :
    ∑ j, fs.get j t * w j = combo fs (List.ofFn w) t := by
  unfold combo
  rw [← List.sum_ofFn]
  congr 1
  apply List.ext_getElem <;> simp

theorem exists_ofFn {n : ℕ} (cs : List ℝ) (h : cs.length = n) : ∃ w : Fin n → ℝ, List.ofFn w = cs := by
  subst h
  exact ⟨cs.get, List.ofFn_get cs⟩

theorem chiSquare_fin (x y s : List ℝ) (hy : y.length = x.length) (hs : s.length = x.length) (m : ℝ → ℝ) :
    chiSquare (x.zip (y.zip s)) m = ∑ i : Fin x.length, ((y.getD i 0 - m (x.get i)) / s.getD i 0) ^ 2 := by
  unfold chiSquare
  rw [← List.sum_ofFn]
  congr 1
  apply List.ext_getElem
  · simp [hy, hs]
  · intro n h1 h2
    simp at h1
    simp [hy, hs, h1]

section lsq
variable {n : ℕ} {m : ℕ} (D : Matrix (Fin n) (Fin m) ℝ) (v y : Fin n → ℝ)

theorem normal_apply (w : Fin m → ℝ) (k : Fin m) : (Dᵀ * Matrix.of fun i j => D i j * v i).mulVec w k =
    ∑ i, D i k * v i * D.mulVec w i := by
  rw [← Matrix.mulVec_mulVec]
  simp only [Matrix.mulVec, dotProduct, Matrix.transpose_apply, Matrix.of_apply]
  refine Finset.sum_congr rfl fun i _ => ?_
  rw [mul_assoc]
  refine congrArg (D i k * ·) ?_
  rw [Finset.mul_sum]
  refine Finset.sum_congr rfl fun j _ => ?_
  ring

theorem normal_dot (w u : Fin m → ℝ) : ∑ k, u k * (Dᵀ * Matrix.of fun i j => D i j * v i).mulVec w k =
    ∑ i, v i * D.mulVec u i * D.mulVec w i := by
  simp only [normal_apply, Finset.mul_sum]
  rw [Finset.sum_comm]
  refine Finset.sum_congr rfl fun i _ => ?_
  have : D.mulVec u i = ∑ k, D i k * u k := rfl
  rw [this, Finset.mul_sum, Finset.sum_mul]
  refine Finset.sum_congr rfl fun k _ => ?_
  ring

theorem normal_det_zero_iff (hv : ∀ i, 0 < v i) : (Dᵀ * Matrix.of fun i j => D i j * v i).det = 0 ↔
    ∃ w : Fin m → ℝ, w ≠ 0 ∧ ∀ i, D.mulVec w i = 0 := by
  rw [← Matrix.exists_mulVec_eq_zero_iff]
  constructor
  · rintro ⟨w, hw, h⟩
    refine ⟨w, hw, fun i => ?_⟩
    have h0 := normal_dot D v w w
    rw [h] at h0
    simp only [Pi.zero_apply, mul_zero, Finset.sum_const_zero] at h0
    have h1 := (Finset.sum_eq_zero_iff_of_nonneg (fun i _ => by
      have := mul_nonneg (hv i).le (mul_self_nonneg (D.mulVec w i))
      rw [← mul_assoc] at this
      exact this)).1 h0.symm i (Finset.mem_univ _)
    rw [mul_assoc] at h1
    exact mul_self_eq_zero.1 ((mul_eq_zero.1 h1).resolve_left (hv i).ne')
  · rintro ⟨w, hw, h⟩
    refine ⟨w, hw, ?_⟩
    funext k
    rw [normal_apply]
    simp [h]

theorem lsq_expand {w : Fin m → ℝ} (h : (Dᵀ * Matrix.of fun i j => D i j * v i).mulVec w = Dᵀ.mulVec fun i => y i * v i)
    (u : Fin m → ℝ) : ∑ i, v i * (y i - D.mulVec u i) ^ 2 =
      ∑ i, v i * (y i - D.mulVec w i) ^ 2 + ∑ i, v i * D.mulVec (u - w) i ^ 2 := by
  have h1 := normal_dot D v w (u - w)
  rw [h] at h1
  have h2 : ∑ k, (u - w) k * Dᵀ.mulVec (fun i => y i * v i) k = ∑ i, v i * D.mulVec (u - w) i * y i := by
    simp only [Matrix.mulVec, dotProduct, Matrix.transpose_apply, Finset.mul_sum, Finset.sum_mul]
    rw [Finset.sum_comm]
    refine Finset.sum_congr rfl fun i _ => Finset.sum_congr rfl fun k _ => ?_
    ring
  rw [h2] at h1
  rw [← Finset.sum_add_distrib]
  have h3 : ∀ i, D.mulVec u i = D.mulVec w i + D.mulVec (u - w) i := by
    intro i
    rw [Matrix.mulVec_sub]
    simp
  have h4 : ∑ i, (v i * D.mulVec (u - w) i * y i - v i * D.mulVec (u - w) i * D.mulVec w i) = 0 := by
    rw [Finset.sum_sub_distrib, h1, sub_self]
  have h5 : ∑ i, v i * (y i - D.mulVec u i) ^ 2 = ∑ i, (v i * (y i - D.mulVec w i) ^ 2 + v i * D.mulVec (u - w) i ^ 2) -
      2 * ∑ i, (v i * D.mulVec (u - w) i * y i - v i * D.mulVec (u - w) i * D.mulVec w i) := by
    rw [Finset.mul_sum, ← Finset.sum_sub_distrib]
    refine Finset.sum_congr rfl fun i _ => ?_
    rw [h3 i]
    ring
  rw [h5, h4]
  ring

end lsq

theorem designMatrix_mulVec (fs : List (ℝ → ℝ)) (x : List ℝ) (w : Fin fs.length → ℝ) (i : Fin x.length) :
    (designMatrix fs x).mulVec w i = combo fs (List.ofFn w) (x.get i) := by
  rw [← sum_fin_combo]
  rfl

theorem ivarOf_length (y : List ℝ) (yerr : Option (List ℝ)) : (ivarOf y yerr).length = (errs y yerr).length := by
  cases yerr <;> simp [ivarOf, errs]

theorem ivarOf_getD {y : List ℝ} {yerr : Option (List ℝ)} {i : ℕ} (hi : i < (errs y yerr).length) :
    (ivarOf y yerr).getD i 0 = 1 / (errs y yerr).getD i 0 ^ 2 := by
  cases yerr with
  | none =>
    simp only [errs, Option.getD_none, List.length_map] at hi
    simp [ivarOf, errs, hi]
  | some e =>
    simp only [errs, Option.getD_some] at hi
    simp [ivarOf, errs, hi]

section
variable {fs : List (ℝ → ℝ)} {x y : List ℝ} {yerr : Option (List ℝ)} (hy : y.length = x.length)
  (hs : (errs y yerr).length = x.length) (hpos : ∀ s ∈ errs y yerr, s ≠ 0)
include hs hpos

theorem ivar_pos (i : Fin x.length) : 0 < (ivarOf y yerr).getD i 0 := by
  rw [ivarOf_getD (by rw [hs]; exact i.2)]
  have : (errs y yerr).getD i 0 ≠ 0 := by
    rw [List.getD_eq_getElem _ _ (by rw [hs]; exact i.2)]
    exact hpos _ (List.getElem_mem _)
  positivity

/-- The solver fails iff some non-trivial combination of the columns vanishes at all the times. -/
theorem solveNormal_error_iff (e : PyErr) : solveNormal fs x y (ivarOf y yerr) = .error e ↔
    e = .linAlg ∧ ∃ cs : List ℝ, cs.length = fs.length ∧ (∃ c ∈ cs, c ≠ 0) ∧ ∀ t ∈ x, combo fs cs t = 0 := by
  have key := normal_det_zero_iff (designMatrix fs x) (fun i => (ivarOf y yerr).getD i 0) (ivar_pos hs hpos)
  have key2 : (∃ w : Fin fs.length → ℝ, w ≠ 0 ∧ ∀ i, (designMatrix fs x).mulVec w i = 0) ↔
      ∃ cs : List ℝ, cs.length = fs.length ∧ (∃ c ∈ cs, c ≠ 0) ∧ ∀ t ∈ x, combo fs cs t = 0 := by
    constructor
    · rintro ⟨w, hw, h⟩
      refine ⟨List.ofFn w, by simp, ?_, ?_⟩
      · obtain ⟨k, hk⟩ := Function.ne_iff.1 hw
        exact ⟨w k, by simp, hk⟩
      · intro t ht
        obtain ⟨i, hi, rfl⟩ := List.getElem_of_mem ht
        rw [← h ⟨i, hi⟩, designMatrix_mulVec]
        rfl
    · rintro ⟨cs, hl, ⟨c, hc, hc0⟩, h⟩
      obtain ⟨w, rfl⟩ := exists_ofFn cs hl
      refine ⟨w, ?_, fun i => ?_⟩
      · rintro rfl
        rw [List.mem_ofFn] at hc
        obtain ⟨k, rfl⟩ := hc
        exact hc0 rfl
      · rw [designMatrix_mulVec]
        exact h _ (List.get_mem _ _)
  rw [← key2, ← key]
  unfold solveNormal npSolve
  simp only
  split_ifs with h0
  · constructor
    · intro h
      cases h
      exact ⟨rfl, h0⟩
    · rintro ⟨rfl, -⟩
      rfl
  · constructor
    · intro h
      cases h
    · rintro ⟨-, h⟩
      exact (h0 h).elim

include hy
/-- A solution is the only minimiser of `χ²`. -/
theorem solveNormal_spec {w : List ℝ} (h : solveNormal fs x y (ivarOf y yerr) = .ok w) :
    w.length = fs.length ∧ ∀ cs : List ℝ, cs.length = fs.length → cs ≠ w →
      chiSquare (x.zip (y.zip (errs y yerr))) (combo fs w) < chiSquare (x.zip (y.zip (errs y yerr))) (combo fs cs) := by
  unfold solveNormal at h
  simp only at h
  generalize hr : npSolve ((designMatrix fs x)ᵀ * Matrix.of fun i j => designMatrix fs x i j * (ivarOf y yerr).getD i 0)
    ((designMatrix fs x)ᵀ.mulVec fun i => y.getD i 0 * (ivarOf y yerr).getD i 0) = r at h
  cases r with
  | error e => cases h
  | ok w' =>
    cases h
    obtain ⟨hdet, hw⟩ := npSolve_spec hr
    refine ⟨by simp, fun cs hl hne => ?_⟩
    obtain ⟨u, rfl⟩ := exists_ofFn cs hl
    have hpos' := ivar_pos hs hpos
    have e := lsq_expand (designMatrix fs x) (fun i => (ivarOf y yerr).getD i 0) (fun i => y.getD i 0) hw u
    have conv : ∀ u : Fin fs.length → ℝ, chiSquare (x.zip (y.zip (errs y yerr))) (combo fs (List.ofFn u)) =
        ∑ i : Fin x.length, (ivarOf y yerr).getD i 0 * (y.getD i 0 - (designMatrix fs x).mulVec u i) ^ 2 := by
      intro u
      rw [chiSquare_fin x y _ hy hs]
      refine Finset.sum_congr rfl fun i _ => ?_
      rw [ivarOf_getD (by rw [hs]; exact i.2), designMatrix_mulVec, div_pow]
      ring
    rw [conv, conv, e]
    refine lt_add_of_pos_right _ ?_
    have hnn : ∀ i ∈ (Finset.univ : Finset (Fin x.length)),
        0 ≤ (ivarOf y yerr).getD i 0 * (designMatrix fs x).mulVec (u - w') i ^ 2 :=
      fun i _ => mul_nonneg (hpos' i).le (sq_nonneg _)
    refine lt_of_le_of_ne (Finset.sum_nonneg hnn) fun h0 => ?_
    have hz := (Finset.sum_eq_zero_iff_of_nonneg hnn).1 h0.symm
    refine hdet ((normal_det_zero_iff (designMatrix fs x) _ hpos').2 ⟨u - w', ?_, fun i => ?_⟩)
    · intro h
      exact hne (by rw [sub_eq_zero.1 h])
    · exact pow_eq_zero_iff (two_ne_zero) |>.1 ((mul_eq_zero.1 (hz i (Finset.mem_univ _))).resolve_left (hpos' i).ne')

end

/-! ### The layout of the coefficients -/

/-- The coefficients `a₀, b₀, a₁, b₁, …, c`. -/
def pack (ab : List (ℝ × ℝ)) (c : ℝ) : List ℝ := (ab.flatMap fun p => [p.1, p.2]) ++ [c]

theorem pack_length (ab : List (ℝ × ℝ)) (c : ℝ) : (pack ab c).length = 2 * ab.length + 1 := by
  unfold pack
  induction ab with
  | nil => rfl
  | cons p l ih => simp only [List.flatMap_cons, List.append_assoc, List.length_append, List.length_cons, List.length_nil] at *; omega

theorem exists_pack : ∀ (p : ℕ) (w : List ℝ), w.length = 2 * p + 1 → ∃ ab c, ab.length = p ∧ w = pack ab c
  | 0, [c], _ => ⟨[], c, rfl, rfl⟩
  | p + 1, a :: b :: w, h => by
    obtain ⟨ab, c, h1, h2⟩ := exists_pack p w (by simp only [List.length_cons] at h; omega)
    exact ⟨(a, b) :: ab, c, by simp [h1], by rw [h2]; rfl⟩

theorem pack_inj {ab ab' : List (ℝ × ℝ)} {c c' : ℝ} (h : pack ab c = pack ab' c') : ab = ab' ∧ c = c' := by
  induction ab generalizing ab' with
  | nil =>
    cases ab' with
    | nil => simpa [pack] using h
    | cons q l => simp [pack] at h
  | cons p l ih =>
    cases ab' with
    | nil => simp [pack] at h
    | cons q l' =>
      have h' : p.1 :: p.2 :: pack l c = q.1 :: q.2 :: pack l' c' := h
      simp only [List.cons.injEq] at h'
      obtain ⟨h1, h2, h3⟩ := h'
      obtain ⟨h4, h5⟩ := ih h3
      exact ⟨by rw [h4, Prod.ext h1 h2], h5⟩

theorem dropLast_pack (ab : List (ℝ × ℝ)) (c : ℝ) : (pack ab c).dropLast = ab.flatMap fun p => [p.1, p.2] := by
  unfold pack
  rw [List.dropLast_concat]

theorem every2_flat (ab : List (ℝ × ℝ)) : every2 (ab.flatMap fun p => [p.1, p.2]) = ab.map Prod.fst := by
  induction ab with
  | nil => rfl
  | cons p l ih => simp only [List.flatMap_cons, List.map_cons, ← ih]; rfl

theorem every2_flat_tail (ab : List (ℝ × ℝ)) : every2 ((ab.flatMap fun p => [p.1, p.2]).drop 1) = ab.map Prod.snd := by
  induction ab with
  | nil => rfl
  | cons p l ih =>
    cases l with
    | nil => rfl
    | cons q l =>
      simp only [List.flatMap_cons, List.map_cons] at *
      rw [← ih]
      rfl

theorem amplitudes_pack (ab : List (ℝ × ℝ)) (c : ℝ) : amplitudes (pack ab c) none = ab.map fun p => √(p.1 ^ 2 + p.2 ^ 2) := by
  unfold amplitudes
  simp only
  rw [dropLast_pack, every2_flat, every2_flat_tail]
  induction ab with
  | nil => rfl
  | cons p l ih => simp [ih]

/-- The columns without reference times. -/
noncomputable def freeFuns (periods : List ℝ) : List (ℝ → ℝ) :=
  (periods.flatMap fun P => [fun x : ℝ => sin (2 * π * x / P), fun x : ℝ => cos (2 * π * x / P)]) ++ [fun _ : ℝ => (1 : ℝ)]

theorem freeFuns_length (periods : List ℝ) : (freeFuns periods).length = 2 * periods.length + 1 := by
  unfold freeFuns
  induction periods with
  | nil => rfl
  | cons p l ih => simp only [List.flatMap_cons, List.append_assoc, List.length_append, List.length_cons, List.length_nil] at *; omega

theorem combo_free (periods : List ℝ) (ab : List (ℝ × ℝ)) (c t : ℝ) (h : ab.length = periods.length) :
    combo (freeFuns periods) (pack ab c) t = rvFree periods ab c t := by
  induction periods generalizing ab with
  | nil =>
    cases ab with
    | nil => simp [combo, freeFuns, pack, rvFree]
    | cons => simp at h
  | cons P l ih =>
    cases ab with
    | nil => simp at h
    | cons p ab =>
      have e : combo (freeFuns (P :: l)) (pack (p :: ab) c) t =
          sin (2 * π * t / P) * p.1 + (cos (2 * π * t / P) * p.2 + combo (freeFuns l) (pack ab c) t) := by
        unfold combo freeFuns pack
        simp only [List.flatMap_cons, List.cons_append, List.nil_append, List.zipWith_cons_cons, List.sum_cons]
      rw [e, ih ab (by simpa using h)]
      unfold rvFree
      simp only [List.zip_cons_cons, List.map_cons, List.sum_cons]
      ring

/-- The columns with reference times. -/
noncomputable def fixedFuns (periods t0s : List ℝ) : List (ℝ → ℝ) :=
  ((periods.zip t0s).map fun p => fun x : ℝ => cos (2 * π * (x - (p.2 - 0.25 * p.1)) / p.1)) ++ [fun _ : ℝ => (1 : ℝ)]

theorem combo_fixed (periods t0s K : List ℝ) (c t : ℝ) (hP : ∀ P ∈ periods, P ≠ 0) (h : K.length = (periods.zip t0s).length) :
    combo (fixedFuns periods t0s) (K ++ [c]) t = rvFixed periods t0s K c t := by
  have hP' : ∀ p ∈ periods.zip t0s, p.1 ≠ 0 := fun p hp => hP _ (List.of_mem_zip hp).1
  unfold fixedFuns rvFixed
  generalize periods.zip t0s = l at *
  induction l generalizing K with
  | nil =>
    cases K with
    | nil => simp [combo]
    | cons => simp at h
  | cons p l ih =>
    cases K with
    | nil => simp at h
    | cons k K =>
      have e : combo (((p :: l).map fun p => fun x : ℝ => cos (2 * π * (x - (p.2 - 0.25 * p.1)) / p.1)) ++ [fun _ : ℝ => (1 : ℝ)]) (k :: K ++ [c]) t =
          cos (2 * π * (t - (p.2 - 0.25 * p.1)) / p.1) * k +
            combo ((l.map fun p => fun x : ℝ => cos (2 * π * (x - (p.2 - 0.25 * p.1)) / p.1)) ++ [fun _ : ℝ => (1 : ℝ)]) (K ++ [c]) t := by
        unfold combo
        simp only [List.map_cons, List.cons_append, List.zipWith_cons_cons, List.sum_cons]
      rw [e, ih K (by simpa using h) fun q hq => hP' q (List.mem_cons_of_mem _ hq)]
      simp only [List.zip_cons_cons, List.map_cons, List.sum_cons]
      have h0 := hP' p List.mem_cons_self
      have : cos (2 * π * (t - (p.2 - 0.25 * p.1)) / p.1) = -sin (2 * π * (t - p.2) / p.1) := by
        rw [← cos_add_pi_div_two]
        congr 1
        field_simp
        ring
      rw [this]
      ring

end Exo
