import Verif.Spec.Nan
import Verif.Spec.LightCurve
import Verif.Lemmas.Init

namespace Exo
open Real

namespace Fl

@[simp] theorem fin_add (x y : ℝ) : (fin x + fin y : Fl) = fin (x + y) := rfl
@[simp] theorem fin_neg (x : ℝ) : (-fin x : Fl) = fin (-x) := rfl
@[simp] theorem fin_sub (x y : ℝ) : (fin x - fin y : Fl) = fin (x - y) := by
  rw [sub_eq_add_neg]; rfl
@[simp] theorem fin_mul (x y : ℝ) : (fin x * fin y : Fl) = fin (x * y) := rfl
theorem fin_div {x y : ℝ} (h : y ≠ 0) : (fin x / fin y : Fl) = fin (x / y) := by
  show div _ _ = _
  simp [div, h]
@[simp] theorem fin_pow (x : ℝ) (k : ℕ) : (fin x ^ k : Fl) = fin (x ^ k) := by
  show npow _ _ = _
  induction k with
  | zero => simp [npow]
  | succ k ih => rw [npow, ih, fin_mul, pow_succ]
theorem sqrt_fin {x : ℝ} (h : 0 ≤ x) : (fin x).sqrt = fin (√x) := by simp [sqrt, not_lt.2 h]
theorem sqrt_neg {x : ℝ} (h : x < 0) : (fin x).sqrt = nan := by simp [sqrt, h]
theorem powr_fin {x : ℝ} (p : ℝ) (h : 0 ≤ x) : (fin x).powr p = fin (x ^ p) := by simp [powr, not_lt.2 h]
@[simp] theorem sin_fin (x : ℝ) : (fin x).sin = fin (Real.sin x) := rfl
@[simp] theorem cos_fin (x : ℝ) : (fin x).cos = fin (Real.cos x) := rfl
@[simp] theorem arctan2_fin (y x : ℝ) : arctan2 (fin y) (fin x) = fin (Exo.arctan2 y x) := rfl
theorem arccos_fin {x : ℝ} (h : |x| ≤ 1) : (fin x).arccos = fin (Real.arccos x) := by simp [arccos, abs_le.1 h]
theorem arccos_out {x : ℝ} (h : 1 < |x|) : (fin x).arccos = nan := by
  rw [arccos, if_neg]
  exact fun h' => absurd (abs_le.2 h') (not_le.2 h)

@[simp] theorem nan_add (x : Fl) : (nan + x : Fl) = nan := by cases x <;> rfl
@[simp] theorem add_nan (x : Fl) : (x + nan : Fl) = nan := by cases x <;> rfl
@[simp] theorem neg_nan : (-nan : Fl) = nan := rfl
@[simp] theorem nan_sub (x : Fl) : (nan - x : Fl) = nan := nan_add _
@[simp] theorem sub_nan (x : Fl) : (x - nan : Fl) = nan := add_nan _
@[simp] theorem nan_mul (x : Fl) : (nan * x : Fl) = nan := by cases x <;> rfl
@[simp] theorem mul_nan (x : Fl) : (x * nan : Fl) = nan := by cases x <;> rfl
@[simp] theorem nan_div (x : Fl) : (nan / x : Fl) = nan := by cases x <;> rfl
@[simp] theorem div_nan (x : Fl) : (x / nan : Fl) = nan := by cases x <;> rfl
@[simp] theorem nan_pow (k : ℕ) : (nan ^ (k + 1) : Fl) = nan := mul_nan _
@[simp] theorem sqrt_nan : nan.sqrt = nan := rfl
@[simp] theorem sin_nan : nan.sin = nan := rfl
@[simp] theorem cos_nan : nan.cos = nan := rfl
@[simp] theorem arccos_nan : nan.arccos = nan := rfl
@[simp] theorem powr_nan (p : ℝ) : nan.powr p = nan := rfl
@[simp] theorem arctan2_nan_left (x : Fl) : arctan2 nan x = nan := rfl
@[simp] theorem arctan2_nan_right (x : Fl) : arctan2 x nan = nan := by cases x <;> rfl
@[simp] theorem gt_nan_left (x : Fl) : gt nan x = false := by cases x <;> rfl

theorem sum_fin (l : List ℝ) : sum (l.map fin) = fin l.sum := by
  have : ∀ (l : List ℝ) (x : ℝ), (l.map fin).foldl (· + ·) (fin x) = fin (x + l.sum) := by
    intro l
    induction l with
    | nil => intro x; simp
    | cons a l ih => intro x; rw [List.map_cons, List.foldl_cons, fin_add, ih, List.sum_cons, add_assoc]
  rw [sum, this, zero_add]

end Fl

/-- Positions of NaN height give zero flux. -/
theorem flat_of_nan {r_star : Fl} {pos : ℝ → FlV3} (h : ∀ t, (pos t).z = .nan) : Flat r_star pos := by
  intro ld r t texp inds
  have hf : ∀ t, fluxF ld r_star pos r t = .fin 0 := by
    intro t
    simp [fluxF, h]
  have hi : ∀ t, integratedF ld r_star pos r t texp = .fin 0 := by
    intro t
    unfold integratedF
    split
    · exact hf t
    · rename_i x dt w
      simp only [hf, Fl.fin_mul, mul_zero]
      have h0 : List.zipWith (fun (_ _ : ℝ) => Fl.fin 0) dt w = (List.zipWith (fun (_ _ : ℝ) => (0 : ℝ)) dt w).map Fl.fin := by
        rw [List.map_zipWith]
      rw [h0, Fl.sum_fin]
      congr 1
      apply List.sum_eq_zero
      intro y hy
      rw [List.mem_iff_getElem] at hy
      obtain ⟨i, hi, rfl⟩ := hy
      simp
  unfold lightCurveF
  split
  · simp only [hi]
  · simp only [hi, ite_self]
    apply List.ext_getElem <;> simp

end Exo
