import Verif.Model.Autocorr
import Verif.Spec.Autocorr
import Verif.Lemmas.Peaks
import Mathlib.Algebra.Field.GeomSum
import Mathlib.Analysis.SpecialFunctions.Complex.Log
import Mathlib.Algebra.Order.BigOperators.Group.Finset
import Mathlib.Algebra.BigOperators.Field

/-!
# C61: the autocorrelation function
-/

namespace Exo
open Real

theorem nextPowTwoLoop_spec (n : ℕ) : ∀ (i : ℕ) (hi : 0 < i), (∃ k, i = 2 ^ k) → (∃ k, nextPowTwoLoop n i hi = 2 ^ k) ∧
    n ≤ nextPowTwoLoop n i hi ∧ i ≤ nextPowTwoLoop n i hi ∧ (nextPowTwoLoop n i hi = i ∨ nextPowTwoLoop n i hi < 2 * n) := by
  intro i hi
  induction i, hi using nextPowTwoLoop.induct n with
  | case1 i hi h ih =>
    rintro ⟨k, hk⟩
    obtain ⟨h1, h2, h3, h4⟩ := ih ⟨k + 1, by rw [hk, pow_succ]; ring⟩
    rw [nextPowTwoLoop, if_pos h]
    exact ⟨h1, h2, by omega, by omega⟩
  | case2 i hi h =>
    intro hk
    rw [nextPowTwoLoop, if_neg h]
    exact ⟨hk, by omega, le_rfl, Or.inl rfl⟩

/-- C61. `next_pow_two(n)` is the least power of two that is at least `n`. -/
theorem C61_next_pow_two (n : ℕ) : (∃ k, nextPowTwo n = 2 ^ k) ∧ n ≤ nextPowTwo n ∧ ∀ k, n ≤ 2 ^ k → nextPowTwo n ≤ 2 ^ k := by
  obtain ⟨⟨j, h1⟩, h2, -, h4⟩ := nextPowTwoLoop_spec n 1 one_pos ⟨0, rfl⟩
  refine ⟨⟨j, h1⟩, h2, fun k hk => ?_⟩
  unfold nextPowTwo
  rcases h4 with h4 | h4
  · rw [h4]
    exact Nat.one_le_two_pow
  · rw [h1] at h4 ⊢
    have : 2 ^ j < 2 ^ (k + 1) := by
      rw [pow_succ]
      omega
    exact Nat.pow_le_pow_right (by norm_num) (Nat.lt_succ_iff.1 ((Nat.pow_lt_pow_iff_right (by norm_num)).1 this))

example : nextPowTwo 5 = 8 := by
  simp [nextPowTwo, nextPowTwoLoop]

/-- Orthogonality of the characters. -/
theorem character_sum (N : ℕ) (hN : 0 < N) (d : ℤ) :
    ∑ k ∈ Finset.range N, Complex.exp (2 * π * Complex.I * d / N * k) = if (N : ℤ) ∣ d then (N : ℂ) else 0 := by
  have hN' : (N : ℂ) ≠ 0 := by exact_mod_cast hN.ne'
  have hpow : ∀ k : ℕ, Complex.exp (2 * π * Complex.I * d / N * k) = Complex.exp (2 * π * Complex.I * d / N) ^ k := by
    intro k
    rw [← Complex.exp_nat_mul]
    congr 1
    ring
  simp only [hpow]
  have hone : Complex.exp (2 * π * Complex.I * d / N) = 1 ↔ (N : ℤ) ∣ d := by
    rw [Complex.exp_eq_one_iff]
    constructor
    · rintro ⟨m, hm⟩
      refine ⟨m, ?_⟩
      have h2 : (2 * π * Complex.I : ℂ) ≠ 0 := Complex.two_pi_I_ne_zero
      have : (d : ℂ) = N * m := by
        have h3 : (2 * π * Complex.I : ℂ) * d = (2 * π * Complex.I : ℂ) * (N * m) := by
          field_simp at hm
          linear_combination (2 * π * Complex.I : ℂ) * hm
        exact mul_left_cancel₀ h2 h3
      exact_mod_cast this
    · rintro ⟨m, rfl⟩
      refine ⟨m, ?_⟩
      push_cast
      field_simp
  split_ifs with h
  · rw [hone.2 h]
    simp
  · have h1 : Complex.exp (2 * π * Complex.I * d / N) ≠ 1 := fun h' => h (hone.1 h')
    rw [geom_sum_eq h1, ← hpow]
    have : Complex.exp (2 * π * Complex.I * d / N * N) = 1 := by
      rw [Complex.exp_eq_one_iff]
      exact ⟨d, by field_simp⟩
    rw [this, sub_self, zero_div]

/-- The inverse transform of the power spectrum is the circular autocorrelation; for a series that fills at most half of the window there is no wrap-around. -/
theorem ifft_power (a : ℕ → ℝ) (n N : ℕ) (hN : 2 * n ≤ N) (hN0 : 0 < N) (ha : ∀ i, n ≤ i → a i = 0) (j : ℕ) (hj : j < n) :
    (∑ k ∈ Finset.range N,
        ((∑ m ∈ Finset.range N, (a m : ℂ) * Complex.exp (-2 * π * Complex.I * m * k / N)) *
          (starRingEnd ℂ) (∑ m ∈ Finset.range N, (a m : ℂ) * Complex.exp (-2 * π * Complex.I * m * k / N))) *
        Complex.exp (2 * π * Complex.I * j * k / N)) / N =
      ((∑ i ∈ Finset.range (n - j), a i * a (i + j) : ℝ) : ℂ) := by
  have hN' : (N : ℂ) ≠ 0 := by exact_mod_cast hN0.ne'
  have hconj : ∀ k : ℕ, (starRingEnd ℂ) (∑ m ∈ Finset.range N, (a m : ℂ) * Complex.exp (-2 * π * Complex.I * m * k / N)) =
      ∑ l ∈ Finset.range N, (a l : ℂ) * Complex.exp (2 * π * Complex.I * l * k / N) := by
    intro k
    rw [map_sum]
    refine Finset.sum_congr rfl fun l _ => ?_
    rw [map_mul, Complex.conj_ofReal, ← Complex.exp_conj]
    congr 2
    simp only [map_div₀, map_mul, map_neg, Complex.conj_ofReal, Complex.conj_I, map_natCast, map_ofNat]
    ring
  have e1 : ∀ k : ℕ, ((∑ m ∈ Finset.range N, (a m : ℂ) * Complex.exp (-2 * π * Complex.I * m * k / N)) *
          (starRingEnd ℂ) (∑ m ∈ Finset.range N, (a m : ℂ) * Complex.exp (-2 * π * Complex.I * m * k / N))) *
        Complex.exp (2 * π * Complex.I * j * k / N) =
      ∑ m ∈ Finset.range N, ∑ l ∈ Finset.range N, (a m : ℂ) * a l *
        Complex.exp (2 * π * Complex.I * ((j + l - m : ℤ) : ℂ) / N * k) := by
    intro k
    rw [hconj, Finset.sum_mul_sum, Finset.sum_mul]
    refine Finset.sum_congr rfl fun m _ => ?_
    rw [Finset.sum_mul]
    refine Finset.sum_congr rfl fun l _ => ?_
    have : Complex.exp (2 * π * Complex.I * ((j + l - m : ℤ) : ℂ) / N * k) =
        Complex.exp (-2 * π * Complex.I * m * k / N) * Complex.exp (2 * π * Complex.I * l * k / N) *
          Complex.exp (2 * π * Complex.I * j * k / N) := by
      rw [← Complex.exp_add, ← Complex.exp_add]
      congr 1
      push_cast
      ring
    rw [this]
    ring
  have e2 : ∑ k ∈ Finset.range N, ∑ m ∈ Finset.range N, ∑ l ∈ Finset.range N, (a m : ℂ) * a l *
        Complex.exp (2 * π * Complex.I * ((j + l - m : ℤ) : ℂ) / N * k) =
      ∑ l ∈ Finset.range N, ∑ m ∈ Finset.range N, (a m : ℂ) * a l * (if (N : ℤ) ∣ (j + l - m : ℤ) then (N : ℂ) else 0) := by
    rw [Finset.sum_comm]
    rw [Finset.sum_comm (s := Finset.range N) (t := Finset.range N)
      (f := fun l m => (a m : ℂ) * a l * (if (N : ℤ) ∣ (j + l - m : ℤ) then (N : ℂ) else 0))]
    refine Finset.sum_congr rfl fun m _ => ?_
    rw [Finset.sum_comm]
    refine Finset.sum_congr rfl fun l _ => ?_
    rw [← Finset.mul_sum, character_sum N hN0]
  have e3 : ∀ l ∈ Finset.range N, ∑ m ∈ Finset.range N, (a m : ℂ) * a l * (if (N : ℤ) ∣ (j + l - m : ℤ) then (N : ℂ) else 0) =
      N * ((a l * a (l + j) : ℝ) : ℂ) := by
    intro l hl
    rw [Finset.mem_range] at hl
    by_cases hln : n ≤ l
    · simp [ha l hln]
    · rw [Finset.sum_eq_single (l + j)]
      · rw [if_pos (by rw [show ((j : ℤ) + l - ((l + j : ℕ) : ℤ)) = 0 by push_cast; ring]; exact dvd_zero _)]
        push_cast
        ring
      · intro m hm hne
        rw [Finset.mem_range] at hm
        by_cases hmn : n ≤ m
        · simp [ha m hmn]
        · rw [if_neg, mul_zero]
          intro hdvd
          have h0 : ((j : ℤ) + l - m) ≠ 0 := by omega
          have := Int.le_of_dvd (abs_pos.2 h0) ((dvd_abs _ _).2 hdvd)
          have h3 : |(j : ℤ) + l - m| < N := by
            rw [abs_lt]
            constructor <;> omega
          omega
      · intro h
        rw [Finset.mem_range] at h
        rw [ha (l + j) (by omega)]
        simp
  rw [Finset.sum_congr rfl fun k _ => e1 k, e2, Finset.sum_congr rfl e3, ← Finset.mul_sum, mul_div_cancel_left₀ _ hN',
    ← Complex.ofReal_sum]
  congr 1
  symm
  apply Finset.sum_subset
  · intro i hi
    rw [Finset.mem_range] at *
    omega
  · intro i _ hi
    rw [Finset.mem_range] at hi
    rw [ha (i + j) (by omega), mul_zero]

theorem centred_getD (x : List ℝ) (i : ℕ) : (x.map fun v => ((v - npMean x : ℝ) : ℂ)).getD i 0 =
    ((if i < x.length then x.getD i 0 - npMean x else 0 : ℝ) : ℂ) := by
  by_cases hi : i < x.length
  · rw [if_pos hi, List.getD_eq_getElem _ _ (by simpa using hi), List.getElem_map, List.getD_eq_getElem _ _ hi]
  · rw [if_neg hi, List.getD_eq_default _ _ (by simpa using hi)]
    simp

theorem power_getD (x : List ℝ) (N k : ℕ) (hk : k < N) :
    ((npFft (x.map fun v => ((v - npMean x : ℝ) : ℂ)) N).map fun z => z * (starRingEnd ℂ) z).getD k 0 =
      ((∑ m ∈ Finset.range N, ((if m < x.length then x.getD m 0 - npMean x else 0 : ℝ) : ℂ) *
          Complex.exp (-2 * π * Complex.I * m * k / N)) *
        (starRingEnd ℂ) (∑ m ∈ Finset.range N, ((if m < x.length then x.getD m 0 - npMean x else 0 : ℝ) : ℂ) *
          Complex.exp (-2 * π * Complex.I * m * k / N))) := by
  rw [List.getD_eq_getElem _ _ (by simpa [npFft] using hk)]
  simp only [npFft, List.getElem_map, List.getElem_range, centred_getD]

theorem npFft_length (a : List ℂ) (N : ℕ) : (npFft a N).length = N := by simp [npFft]

theorem npIfft_getElem (F : List ℂ) (N : ℕ) (hF : F.length = N) (j : ℕ) (hj : j < (npIfft F).length) :
    (npIfft F)[j] = (∑ k ∈ Finset.range N, F.getD k 0 * Complex.exp (2 * π * Complex.I * j * k / N)) / N := by
  subst hF
  simp only [npIfft, List.getElem_map, List.getElem_range]

theorem acf_window (x : List ℝ) (N : ℕ) (hN : 2 * x.length ≤ N) (hN0 : 0 < N) :
    ((npIfft ((npFft (x.map fun v => ((v - npMean x : ℝ) : ℂ)) N).map fun z => z * (starRingEnd ℂ) z)).take x.length).map Complex.re =
      (List.range x.length).map (autocov x) := by
  apply List.ext_getElem
  · simp only [List.length_map, List.length_take, List.length_range, npIfft, npFft]
    omega
  · intro j h1 h2
    have hj : j < x.length := by simpa using h2
    rw [List.getElem_map, List.getElem_take, List.getElem_map, List.getElem_range,
      npIfft_getElem _ N (by rw [List.length_map, npFft_length])]
    rw [Finset.sum_congr rfl fun k hk => by rw [power_getD x N k (Finset.mem_range.1 hk)]]
    rw [ifft_power (fun m => if m < x.length then x.getD m 0 - npMean x else 0) x.length N hN hN0
      (fun i hi => if_neg (not_lt.2 hi)) j hj, Complex.ofReal_re]
    unfold autocov
    refine Finset.sum_congr rfl fun i hi => ?_
    rw [Finset.mem_range] at hi
    rw [if_pos (by omega), if_pos (by omega)]
    rfl

theorem rawAcf_eq (x : List ℝ) : rawAcf x = (List.range x.length).map (autocov x) := by
  have hn := (C61_next_pow_two x.length).2.1
  have hpos : 0 < nextPowTwo x.length := by
    obtain ⟨k, hk⟩ := (C61_next_pow_two x.length).1
    rw [hk]
    positivity
  exact acf_window x (2 * nextPowTwo x.length) (by omega) (by omega)

theorem autocov_zero_pos_iff (x : List ℝ) : autocov x 0 = 0 ↔ ∀ v ∈ x, v = avg x := by
  unfold autocov
  simp only [Nat.sub_zero, add_zero]
  rw [Finset.sum_eq_zero_iff_of_nonneg fun i _ => mul_self_nonneg _]
  constructor
  · intro h v hv
    obtain ⟨i, hi, rfl⟩ := List.getElem_of_mem hv
    have := h i (Finset.mem_range.2 hi)
    rw [mul_self_eq_zero, List.getD_eq_getElem _ _ hi] at this
    linarith
  · intro h i hi
    rw [Finset.mem_range] at hi
    rw [List.getD_eq_getElem _ _ hi, h _ (List.getElem_mem hi)]
    simp

theorem abs_autocov_le (x : List ℝ) (k : ℕ) : |autocov x k| ≤ autocov x 0 := by
  unfold autocov
  simp only [Nat.sub_zero, add_zero]
  set d : ℕ → ℝ := fun i => x.getD i 0 - avg x
  have h1 : |∑ i ∈ Finset.range (x.length - k), d i * d (i + k)| ≤
      ∑ i ∈ Finset.range (x.length - k), (d i * d i + d (i + k) * d (i + k)) / 2 := by
    refine (Finset.abs_sum_le_sum_abs _ _).trans (Finset.sum_le_sum fun i _ => ?_)
    rw [abs_le]
    constructor <;> nlinarith [sq_nonneg (d i + d (i + k)), sq_nonneg (d i - d (i + k))]
  refine h1.trans ?_
  rw [← Finset.sum_div, Finset.sum_add_distrib]
  have h2 : ∑ i ∈ Finset.range (x.length - k), d i * d i ≤ ∑ i ∈ Finset.range x.length, d i * d i :=
    Finset.sum_le_sum_of_subset_of_nonneg (Finset.range_mono (by omega)) fun i _ _ => mul_self_nonneg _
  have h3 : ∑ i ∈ Finset.range (x.length - k), d (i + k) * d (i + k) ≤ ∑ i ∈ Finset.range x.length, d i * d i := by
    by_cases hk : k ≤ x.length
    · have e : ∑ i ∈ Finset.range x.length, d i * d i =
          ∑ i ∈ Finset.range k, d i * d i + ∑ i ∈ Finset.range (x.length - k), d (k + i) * d (k + i) := by
        rw [← Finset.sum_range_add, Nat.add_sub_cancel' hk]
      rw [e]
      have : 0 ≤ ∑ i ∈ Finset.range k, d i * d i := Finset.sum_nonneg fun i _ => mul_self_nonneg _
      simp only [Nat.add_comm _ k]
      linarith
    · rw [Nat.sub_eq_zero_of_le (by omega)]
      simp only [Finset.range_zero, Finset.sum_empty]
      exact Finset.sum_nonneg fun i _ => mul_self_nonneg _
  linarith

/-- C61. For a series that is not constant the result is the autocorrelation without wrap-around, one value per lag, equal to 1 at lag
zero and within `[-1, 1]`. -/
theorem C61_is_the_autocorrelation (x : List ℝ) (hx : ∃ a ∈ x, ∃ b ∈ x, a ≠ b) :
    autocorrFunction x = .ok ((List.range x.length).map fun k => some (autocov x k / autocov x 0)) ∧
    autocov x 0 / autocov x 0 = 1 ∧ ∀ k, -1 ≤ autocov x k / autocov x 0 ∧ autocov x k / autocov x 0 ≤ 1 := by
  have h0 : autocov x 0 ≠ 0 := by
    intro h
    rw [autocov_zero_pos_iff] at h
    obtain ⟨a, ha, b, hb, hab⟩ := hx
    exact hab ((h a ha).trans (h b hb).symm)
  have hpos : 0 < autocov x 0 := lt_of_le_of_ne ((abs_nonneg _).trans (abs_autocov_le x 0)) h0.symm
  refine ⟨?_, div_self h0, fun k => ?_⟩
  · obtain ⟨a, ha, -⟩ := hx
    obtain ⟨n, hn⟩ : ∃ n, x.length = n + 1 := ⟨x.length - 1, by have := List.length_pos_of_mem ha; omega⟩
    have hr : rawAcf x = autocov x 0 :: (List.range n).map fun k => autocov x (k + 1) := by
      rw [rawAcf_eq, hn, List.range_succ_eq_map, List.map_cons, List.map_map]
      rfl
    unfold autocorrFunction
    rw [hr]
    simp only
    rw [← hr, rawAcf_eq, List.map_map]
    congr 1
    refine List.map_congr_left fun k _ => ?_
    simp only [Function.comp, fdiv, if_neg h0]
  · have := abs_le.1 (abs_autocov_le x k)
    rw [le_div_iff₀ hpos, div_le_iff₀ hpos]
    constructor <;> linarith

/-- C61, the remaining inputs: a constant series gives NaN at every lag, an empty one fails. -/
theorem C61_constant_or_empty (x : List ℝ) (hx : ∀ a ∈ x, ∀ b ∈ x, a = b) :
    (x ≠ [] → autocorrFunction x = .ok (x.map fun _ => none)) ∧ (x = [] → autocorrFunction x = .error .indexError) := by
  constructor
  · intro hne
    have hall : ∀ v ∈ x, v = avg x := by
      intro v hv
      have hsum : x.sum = x.length * v := by
        have : x = List.replicate x.length v := List.eq_replicate_iff.2 ⟨rfl, fun b hb => hx b hb v hv⟩
        conv_lhs => rw [this]
        simp
      unfold avg
      rw [hsum]
      have : (x.length : ℝ) ≠ 0 := by exact_mod_cast (List.length_pos_iff.2 hne).ne'
      field_simp
    have h0 := (autocov_zero_pos_iff x).2 hall
    obtain ⟨n, hn⟩ : ∃ n, x.length = n + 1 := ⟨x.length - 1, by have := List.length_pos_iff.2 hne; omega⟩
    have hr : rawAcf x = autocov x 0 :: (List.range n).map fun k => autocov x (k + 1) := by
      rw [rawAcf_eq, hn, List.range_succ_eq_map, List.map_cons, List.map_map]
      rfl
    unfold autocorrFunction
    rw [hr]
    simp only
    rw [← hr, rawAcf_eq, h0]
    congr 1
    apply List.ext_getElem <;> simp [fdiv]
  · rintro rfl
    unfold autocorrFunction
    rw [rawAcf_eq]
    rfl

example : ∃ a ∈ ([1, 2, 4] : List ℝ), ∃ b ∈ ([1, 2, 4] : List ℝ), a ≠ b := ⟨1, by simp, 2, by simp, by norm_num⟩

end Exo
