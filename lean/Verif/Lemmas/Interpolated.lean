import Verif.Model.Interpolated
import Verif.Lemmas.InTransit
import Mathlib.Data.Real.Archimedean
import Mathlib.Data.List.GetD
import Mathlib.Topology.Algebra.Order.Floor
import Mathlib.Topology.Piecewise
import Mathlib.Topology.Instances.Real.Lemmas

namespace Exo
open Real

/-! ## Lists -/

theorem pyIndex_range {α : Type} (g : ℕ → α) (L : ℕ) (i : ℤ) (h0 : 0 ≤ i) (h1 : i < L) :
    pyIndex ((List.range L).map g) i = .ok (g i.toNat) := by
  unfold pyIndex
  simp only
  rw [if_neg (not_lt.2 h0), if_neg (not_lt.2 h0)]
  have : i.toNat < L := by omega
  simp [this]

theorem pySlice_range {α : Type} (g : ℕ → α) (L a b : ℕ) :
    pySlice ((List.range L).map g) a b = (List.range (L - b - a)).map (fun j => g (j + a)) := by
  unfold pySlice
  apply List.ext_getElem
  · simp
  · intro i h1 h2
    simp [Nat.add_comm]

theorem zip_range {α β : Type} (g : ℕ → α) (h : ℕ → β) (L : ℕ) :
    List.zip ((List.range L).map g) ((List.range L).map h) = (List.range L).map (fun j => (g j, h j)) := by
  apply List.ext_getElem
  · simp
  · intro i h1 h2
    simp

theorem arange_grid {t0 dx : ℝ} (hdx : 0 < dx) (N : ℕ) (mx : ℝ) (hmx : mx = t0 + N * dx) :
    arange (t0 - dx) (mx + 2.5 * dx) dx = (List.range (N + 4)).map (fun k : ℕ => t0 + ((k : ℝ) - 1) * dx) := by
  unfold arange
  have e : (mx + 2.5 * dx - (t0 - dx)) / dx = N + 3.5 := by
    rw [hmx]; field_simp; ring
  have hc : ⌈(mx + 2.5 * dx - (t0 - dx)) / dx⌉ = (N : ℤ) + 4 := by
    rw [e, Int.ceil_eq_iff]
    push_cast
    constructor <;> norm_num <;> linarith
  rw [hc]
  have : ((N : ℤ) + 4).toNat = N + 4 := by omega
  rw [this]
  refine List.map_congr_left fun k _ => ?_
  ring

/-! ## One value -/

/-- The value of the interpolant in cell `i` at the local coordinate `s`; `g j` is the value at node `j`. -/
noncomputable def cellValue (g : ℤ → ℝ) (i : ℤ) (s : ℝ) : ℝ :=
  g i + (-g (i - 1) / 3 - 0.5 * g i + g (i + 1) - g (i + 2) / 6) * s + (0.5 * (g (i - 1) + g (i + 1)) - g i) * s ^ 2 +
    0.5 * ((g i - g (i + 1)) + (g (i + 2) - g (i - 1)) / 3) * s ^ 3

/-- `func` evaluates a base light curve with `k` columns point by point. -/
def Pointwise (func : List ℝ → Except PyErr (Tensor ℝ)) (k : ℕ) (f : ℕ → ℝ → ℝ) : Prop :=
  ∀ xs : List ℝ, ∃ y, func xs = .ok y ∧ y.shape = [xs.length, k] ∧
    ∀ i p (h : i < xs.length), p < k → y.get [i, p] = f p xs[i]

theorem interpAt_eq {func : List ℝ → Except PyErr (Tensor ℝ)} {k : ℕ} {f : ℕ → ℝ → ℝ} (hf : Pointwise func k f) {n : ℕ}
    (hn : n < k) {t0 dx mx y : ℝ} (hdx : 0 < dx) (N : ℕ) (hmx : mx = t0 + N * dx) (hy0 : 0 ≤ y) (hy1 : y < N * dx) :
    interpAt n (y + t0) t0 mx dx func =
      .ok (cellValue (fun j : ℤ => f n (t0 + j * dx)) ⌊y / dx⌋ (y / dx - ⌊y / dx⌋)) := by
  unfold interpAt
  rw [arange_grid hdx N mx hmx]
  obtain ⟨yp, h1, h2, h3⟩ := hf ((List.range (N + 4)).map (fun k : ℕ => t0 + ((k : ℝ) - 1) * dx))
  have hcol : column yp n = .ok ((List.range (N + 4)).map (fun i : ℕ => f n (t0 + ((i : ℝ) - 1) * dx))) := by
    unfold column
    rw [h2]
    simp only
    rw [if_pos hn]
    congr 1
    simp only [List.length_map, List.length_range]
    refine List.map_congr_left fun i hi => ?_
    rw [List.mem_range] at hi
    rw [h3 i n (by simpa using hi) hn]
    simp
  have e : (y + t0 - t0) / dx = y / dx := by rw [add_sub_cancel_right]
  have hi0 : 0 ≤ ⌊y / dx⌋ := Int.floor_nonneg.2 (by positivity)
  have hi1 : ⌊y / dx⌋ < (N : ℤ) := by
    rw [Int.floor_lt]; push_cast; rw [div_lt_iff₀ hdx]; exact hy1
  simp only [bind, Except.bind, h1, hcol, pySlice_range, e, Nat.sub_zero,
    show N + 4 - 3 = N + 1 by omega, show N + 4 - 2 - 1 = N + 1 by omega, show N + 4 - 1 - 2 = N + 1 by omega,
    zip_range, List.map_map]
  rw [pyIndex_range _ _ _ (by omega) (by push_cast; omega)]
  simp only
  rw [pyIndex_range _ _ _ hi0 (by push_cast; omega)]
  simp only
  rw [pyIndex_range _ _ _ hi0 (by push_cast; omega)]
  simp only
  rw [pyIndex_range _ _ _ hi0 (by push_cast; omega)]
  simp only
  rw [pyIndex_range _ _ _ hi0 (by push_cast; omega)]
  simp only [Function.comp]
  generalize hI : ⌊y / dx⌋ = I at *
  obtain ⟨m, rfl⟩ : ∃ m : ℕ, I = m := ⟨I.toNat, by omega⟩
  have t1 : (m : ℤ).toNat = m := by omega
  have t2 : ((m : ℤ) + 1).toNat = m + 1 := by omega
  rw [t1, t2]
  unfold cellValue
  congr 1
  have g0 : (t0 + (((m + 0 : ℕ) : ℝ) - 1) * dx) = t0 + (((m : ℤ) - 1 : ℤ) : ℝ) * dx := by push_cast; ring
  have g1 : (t0 + (((m + 1 : ℕ) : ℝ) - 1) * dx) = t0 + ((m : ℤ) : ℝ) * dx := by push_cast; ring
  have g2 : (t0 + (((m + 2 : ℕ) : ℝ) - 1) * dx) = t0 + (((m : ℤ) + 1 : ℤ) : ℝ) * dx := by push_cast; ring
  have g3 : (t0 + (((m + 3 : ℕ) : ℝ) - 1) * dx) = t0 + (((m : ℤ) + 2 : ℤ) : ℝ) * dx := by push_cast; ring
  have gs : (y + t0 - (t0 + (((m + 1 : ℕ) : ℝ) - 1) * dx)) / dx = y / dx - ((m : ℤ) : ℝ) := by
    push_cast; field_simp; ring
  rw [gs, g0, g1, g2, g3]

theorem cellValue_zero (g : ℤ → ℝ) (i : ℤ) : cellValue g i 0 = g i := by unfold cellValue; ring

theorem cellValue_one (g : ℤ → ℝ) (i : ℤ) : cellValue g i 1 = g (i + 1) := by unfold cellValue; ring

theorem continuous_cellValue (g : ℤ → ℝ) (i : ℤ) : Continuous (cellValue g i) := by unfold cellValue; fun_prop

/-- Gluing: a function that is given by matching pieces between consecutive integers is continuous. -/
theorem continuous_glue (q : ℤ → ℝ → ℝ) (hq : ∀ i, Continuous (q i)) (hm : ∀ i, q i 1 = q (i + 1) 0) :
    Continuous (fun s : ℝ => q ⌊s⌋ (s - ⌊s⌋)) := by
  have heq : ∀ i : ℤ, Set.EqOn (fun s : ℝ => q ⌊s⌋ (s - ⌊s⌋)) (fun s => q i (s - i)) (Set.Icc (i : ℝ) (i + 1)) := by
    intro i s ⟨h1, h2⟩
    rcases h2.lt_or_eq with h | h
    · have : ⌊s⌋ = i := Int.floor_eq_iff.2 ⟨h1, h⟩
      simp only [this]
    · have : ⌊s⌋ = i + 1 := by rw [Int.floor_eq_iff]; push_cast; constructor <;> linarith
      simp only [this]
      push_cast
      rw [h, sub_self, show (i : ℝ) + 1 - i = 1 by ring, hm]
  have hcont : ∀ i : ℤ, ContinuousOn (fun s : ℝ => q ⌊s⌋ (s - ⌊s⌋)) (Set.Icc (i : ℝ) (i + 1)) := by
    intro i
    refine ContinuousOn.congr ?_ (heq i)
    exact ((hq i).comp (continuous_id.sub continuous_const)).continuousOn
  rw [continuous_iff_continuousAt]
  intro x
  have hset : Set.Icc ((⌊x⌋ - 1 : ℤ) : ℝ) ((⌊x⌋ - 1 : ℤ) + 1) ∪ Set.Icc ((⌊x⌋ : ℤ) : ℝ) ((⌊x⌋ : ℤ) + 1) ∈ nhds x := by
    have : Set.Ioo ((⌊x⌋ : ℝ) - 1) ((⌊x⌋ : ℝ) + 1) ∈ nhds x :=
      Ioo_mem_nhds (by linarith [Int.floor_le x]) (Int.lt_floor_add_one x)
    refine Filter.mem_of_superset this ?_
    rintro y ⟨h1, h2⟩
    rcases le_total y ⌊x⌋ with h | h
    · left; push_cast; constructor <;> linarith
    · right; exact ⟨h, h2.le⟩
  have := ((hcont (⌊x⌋ - 1)).union_of_isClosed (hcont ⌊x⌋) isClosed_Icc isClosed_Icc)
  exact this.continuousAt hset

/-- The interpolant of `g` with `N` cells per period. -/
noncomputable def interpolant (g : ℝ → ℝ) (t0 P dx t : ℝ) : ℝ :=
  cellValue (fun j : ℤ => g (t0 + j * dx)) ⌊pymod (t - t0) P / dx⌋ (pymod (t - t0) P / dx - ⌊pymod (t - t0) P / dx⌋)

theorem interpolant_continuous (g : ℝ → ℝ) (t0 P : ℝ) (N : ℕ) (hN : 0 < N) (hP : 0 < P) (hg : g (t0 + P) = g t0) :
    Continuous (interpolant g t0 P (P / N)) := by
  have hN' : (0 : ℝ) < N := by exact_mod_cast hN
  have hdx : 0 < P / N := by positivity
  -- on one period, with both ends
  set K : ℝ → ℝ := fun s => cellValue (fun j : ℤ => g (t0 + j * (P / N))) ⌊s⌋ (s - ⌊s⌋) with hK
  have hKc : Continuous K := continuous_glue _ (continuous_cellValue _) (fun i => by rw [cellValue_one, cellValue_zero])
  set H : ℝ → ℝ := fun y => K (N * y)
  have hHc : Continuous H := hKc.comp (continuous_const.mul continuous_id)
  have hH01 : H 0 = H 1 := by
    simp only [H, hK, mul_zero, mul_one, Int.floor_zero, Int.floor_natCast]
    push_cast
    rw [sub_self, sub_self, cellValue_zero, cellValue_zero]
    push_cast
    rw [zero_mul, add_zero, mul_div_cancel₀ _ hN'.ne', hg]
  have hcomp : Continuous (H ∘ Int.fract) := ContinuousOn.comp_fract'' hHc.continuousOn hH01
  have : interpolant g t0 P (P / N) = (H ∘ Int.fract) ∘ (fun t => (t - t0) / P) := by
    funext t
    simp only [interpolant, Function.comp, H, hK]
    have e : pymod (t - t0) P / (P / N) = N * Int.fract ((t - t0) / P) := by
      unfold pymod Int.fract
      field_simp
    rw [e]
  rw [this]
  exact hcomp.comp ((continuous_id.sub continuous_const).div_const P)

theorem mapM_ok {α β : Type} (g : α → β) (l : List α) (f : α → Except PyErr β) (h : ∀ x ∈ l, f x = .ok (g x)) :
    l.mapM f = .ok (l.map g) := by
  induction l with
  | nil => rfl
  | cons a l ih =>
    rw [List.mapM_cons, h a (by simp), ih (fun x hx => h x (by simp [hx]))]
    rfl

end Exo
