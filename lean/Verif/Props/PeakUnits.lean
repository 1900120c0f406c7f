import Verif.Spec.PeakUnits
import Verif.Props.Peaks
import Verif.Props.AutocorrEstimator
import Mathlib.Algebra.Order.Floor.Semiring

/-!
# C91: peaks and autocorrelations do not depend on units and origins
-/

namespace Exo
open Matrix

/-! ## `find_peaks` -/

theorem npSolve_eq_ok_iff {n : Type} [Fintype n] [DecidableEq n] {A : Matrix n n ℝ} {b w : n → ℝ} :
    npSolve A b = .ok w ↔ A.det ≠ 0 ∧ A.mulVec w = b := by
  refine ⟨npSolve_spec, fun ⟨h1, h2⟩ => ?_⟩
  unfold npSolve
  rw [if_neg h1, ← h2, Matrix.mulVec_mulVec, Matrix.nonsing_inv_mul _ (isUnit_iff_ne_zero.2 h1), Matrix.one_mulVec]

theorem vander3_mulVec (f w : Fin 3 → ℝ) (l0 l1 l2 : ℝ) : (vander3 f).mulVec w = ![l0, l1, l2] ↔
    w 0 * f 0 ^ 2 + w 1 * f 0 + w 2 = l0 ∧ w 0 * f 1 ^ 2 + w 1 * f 1 + w 2 = l1 ∧ w 0 * f 2 ^ 2 + w 1 * f 2 + w 2 = l2 := by
  refine ⟨vander3_solution, fun ⟨h0, h1, h2⟩ => ?_⟩
  funext i
  fin_cases i
  · simp [vander3, Matrix.mulVec, dotProduct, Fin.sum_univ_three]; linarith
  · simp [vander3, Matrix.mulVec, dotProduct, Fin.sum_univ_three]; linarith
  · simp [vander3, Matrix.mulVec, dotProduct, Fin.sum_univ_three]; linarith

/-- The fit as a parabola through three points. -/
theorem parabola_iff (f w : Fin 3 → ℝ) (l0 l1 l2 : ℝ) : npSolve (vander3 f) ![l0, l1, l2] = .ok w ↔
    (f 0 - f 1) * (f 0 - f 2) * (f 1 - f 2) ≠ 0 ∧ w 0 * f 0 ^ 2 + w 1 * f 0 + w 2 = l0 ∧ w 0 * f 1 ^ 2 + w 1 * f 1 + w 2 = l1 ∧
      w 0 * f 2 ^ 2 + w 1 * f 2 + w 2 = l2 := by
  rw [npSolve_eq_ok_iff, vander3_det, vander3_mulVec]

/-- Solving corresponding systems. -/
theorem npSolve_transfer {f f' : Fin 3 → ℝ} {l l' : Fin 3 → ℝ} (g : (Fin 3 → ℝ) → Fin 3 → ℝ)
    (hdet : (vander3 f').det = 0 ↔ (vander3 f).det = 0)
    (h : ∀ w, npSolve (vander3 f) l = .ok w → npSolve (vander3 f') l' = .ok (g w)) :
    npSolve (vander3 f') l' = (npSolve (vander3 f) l).map g := by
  by_cases hd : (vander3 f).det = 0
  · unfold npSolve
    rw [if_pos hd, if_pos (hdet.2 hd)]
    rfl
  · obtain ⟨w, hw⟩ := npSolve_ok l hd
    rw [h w hw, hw]
    rfl

theorem peakOfFit_units (i : ℕ) (s : ℝ) (hs : s ≠ 0) (w : Fin 3 → ℝ) :
    peakOfFit i ![w 0 / s ^ 2, w 1 / s, w 2] = (peakOfFit i w).inUnits s := by
  unfold peakOfFit Peak.inUnits
  simp only [Matrix.cons_val_zero, Matrix.cons_val_one, Matrix.cons_val_two, Matrix.head_cons, Matrix.tail_cons]
  by_cases h0 : w 0 = 0
  · simp [fdiv, h0]
  · have h0' : w 0 / s ^ 2 ≠ 0 := div_ne_zero h0 (pow_ne_zero 2 hs)
    have e : -0.5 / (w 0 / s ^ 2) = s ^ 2 * (-0.5 / w 0) := by field_simp
    have hσ : (-0.5 / w 0 : ℝ) ≠ 0 := div_ne_zero (by norm_num) h0
    simp only [fdiv, if_neg h0, if_neg h0', e, Option.map_some, Option.bind_eq_bind, Option.bind_some]
    generalize (-0.5 / w 0 : ℝ) = σ at hσ
    have e1 : w 1 / s * (s ^ 2 * σ) = s * (w 1 * σ) := by field_simp
    rw [e1]
    generalize w 1 * σ = f
    have hσ' : s ^ 2 * σ ≠ 0 := mul_ne_zero (pow_ne_zero 2 hs) hσ
    rw [if_neg hσ, if_neg hσ']
    simp only [Option.bind_some]
    congr 1
    · congr 1
      field_simp
    · by_cases hf : f = 0
      · simp [hf]
      · rw [if_neg hf, if_neg (mul_ne_zero hs hf), Option.map_some]
        congr 1
        field_simp
    · by_cases hf : f = 0
      · simp [hf]
      · rw [if_neg (pow_ne_zero 4 hf), if_neg (pow_ne_zero 4 (mul_ne_zero hs hf))]
        simp only [Option.bind_some]
        have e2 : s ^ 2 * σ / (s * f) ^ 4 = σ / f ^ 4 / s ^ 2 := by field_simp
        rw [e2]
        have hs2 : 0 < s ^ 2 := by positivity
        generalize σ / f ^ 4 = v
        unfold fsqrt
        by_cases hv : v < 0
        · rw [if_pos hv, if_pos (div_neg_of_neg_of_pos hv hs2)]
          rfl
        · rw [if_neg hv, if_neg (not_lt.2 (div_nonneg (not_lt.1 hv) hs2.le)), Option.map_some, Real.sqrt_div (not_lt.1 hv), Real.sqrt_sq_eq_abs]

theorem getD_map_scale (l : List ℝ) (s : ℝ) (i : ℕ) : (l.map (s * ·)).getD i 0 = s * l.getD i 0 := by
  rw [List.getD_eq_getElem?_getD, List.getD_eq_getElem?_getD, List.getElem?_map]
  cases l[i]? <;> simp

theorem peakAt_units (freq power : List ℝ) (s : ℝ) (hs : s ≠ 0) (i : ℕ) :
    peakAt (freq.map (s * ·)) power i = (peakAt freq power i).map (Peak.inUnits s) := by
  have hdet : (vander3 fun k : Fin 3 => (freq.map (s * ·)).getD (i - 1 + k) 0).det = 0 ↔
      (vander3 fun k : Fin 3 => freq.getD (i - 1 + k) 0).det = 0 := by
    rw [vander3_det, vander3_det]
    simp only [getD_map_scale]
    generalize freq.getD (i - 1 + (0 : Fin 3)) 0 = a
    generalize freq.getD (i - 1 + (1 : Fin 3)) 0 = b
    generalize freq.getD (i - 1 + (2 : Fin 3)) 0 = c
    have : (s * a - s * b) * (s * a - s * c) * (s * b - s * c) = s ^ 3 * ((a - b) * (a - c) * (b - c)) := by ring
    rw [this, mul_eq_zero]
    exact ⟨fun h => h.resolve_left (pow_ne_zero 3 hs), Or.inr⟩
  unfold peakAt
  simp only [List.length_map]
  by_cases hlen : freq.length < i + 2
  · rw [if_pos hlen, if_pos hlen]; rfl
  rw [if_neg hlen, if_neg hlen]
  cases h0 : flog (power.getD (i - 1) 0) with
  | none => simp only [hdet]; split_ifs <;> rfl
  | some l0 =>
    cases h1 : flog (power.getD i 0) with
    | none => simp only [hdet]; split_ifs <;> rfl
    | some l1 =>
      cases h2 : flog (power.getD (i + 1) 0) with
      | none => simp only [hdet]; split_ifs <;> rfl
      | some l2 =>
        simp only
        rw [npSolve_transfer (fun w => ![w 0 / s ^ 2, w 1 / s, w 2]) hdet]
        · cases npSolve (vander3 fun k : Fin 3 => freq.getD (i - 1 + k) 0) ![l0, l1, l2] with
          | error e => rfl
          | ok w => simp only [Except.map, peakOfFit_units i s hs w]
        · intro w hw
          rw [parabola_iff] at hw
          rw [npSolve_eq_ok_iff, vander3_mulVec]
          refine ⟨fun h => ?_, ?_⟩
          · rw [hdet, vander3_det] at h
            exact hw.1 h
          · simp only [getD_map_scale, Matrix.cons_val_zero, Matrix.cons_val_one, Matrix.cons_val_two, Matrix.head_cons, Matrix.tail_cons]
            obtain ⟨-, e0, e1, e2⟩ := hw
            refine ⟨?_, ?_, ?_⟩
            · rw [← e0]; field_simp
            · rw [← e1]; field_simp
            · rw [← e2]; field_simp

theorem mapM_map {l : List ℕ} {f g : ℕ → Except PyErr Peak} {u : Peak → Peak} (h : ∀ i ∈ l, g i = (f i).map u) :
    l.mapM g = (l.mapM f).map (List.map u) := by
  induction l with
  | nil => rfl
  | cons a l ih =>
    rw [List.mapM_cons, List.mapM_cons, h a (by simp), ih fun i hi => h i (by simp [hi])]
    cases f a with
    | error e => rfl
    | ok p =>
      cases l.mapM f with
      | error e => rfl
      | ok ps => rfl

theorem findPeaks_map {argsort argsort' : List ℝ → List ℕ} {freq power freq' power' : List ℝ} {u : Peak → Peak} (max_peaks : ℤ)
    (ho : orderedInds argsort' power' = orderedInds argsort power)
    (h : ∀ i ∈ orderedInds argsort power, peakAt freq' power' i = (peakAt freq power i).map u) :
    findPeaks argsort' freq' power' max_peaks = (findPeaks argsort freq power max_peaks).map (Peaks.map u) := by
  unfold findPeaks
  rw [ho, mapM_map fun i hi => h i (List.mem_of_mem_take hi)]
  cases ((orderedInds argsort power).take (max 1 max_peaks).toNat).mapM (peakAt freq power) with
  | error e => rfl
  | ok ps =>
    simp only [Except.map]
    by_cases hm : max_peaks = 0
    · simp only [hm, ne_eq, not_true_eq_false, if_false]
      cases ps with
      | nil => rfl
      | cons p ps => rfl
    · simp only [hm, ne_eq, not_false_eq_true, if_true]
      rfl

/-- C91. With frequencies in another unit (cycles per day or microhertz), and even with negative ones, the same peaks are found in the same
order; periods and their uncertainties are in the new unit. -/
theorem C91_unit_of_frequency (argsort : List ℝ → List ℕ) (freq power : List ℝ) (max_peaks : ℤ) (s : ℝ) (hs : s ≠ 0) :
    findPeaks argsort (freq.map (s * ·)) power max_peaks = (findPeaks argsort freq power max_peaks).map (Peaks.map (Peak.inUnits s)) :=
  findPeaks_map max_peaks rfl fun i _ => peakAt_units freq power s hs i

theorem peakOfFit_louder (i : ℕ) (a : ℝ) (w : Fin 3 → ℝ) : peakOfFit i ![w 0, w 1, w 2 + a] = (peakOfFit i w).louder a := by
  unfold peakOfFit Peak.louder
  simp only [Matrix.cons_val_zero, Matrix.cons_val_one, Matrix.cons_val_two, Matrix.head_cons, Matrix.tail_cons]
  congr 1
  cases fdiv (-0.5) (w 0) with
  | none => rfl
  | some σ =>
    simp only [Option.map_some, Option.bind_eq_bind, Option.bind_some]
    cases fdiv (0.5 * (w 1 * σ) ^ 2) σ with
    | none => rfl
    | some q => simp only [Option.bind_some, Option.map_some]; congr 1; ring

theorem flog_scale (c v : ℝ) (hc : 0 < c) : flog (c * v) = (flog v).map (· + Real.log c) := by
  unfold flog
  by_cases hv : v ≤ 0
  · rw [if_pos hv, if_pos (mul_nonpos_of_nonneg_of_nonpos hc.le hv)]; rfl
  · rw [if_neg hv, if_neg (not_le.2 (mul_pos hc (not_le.1 hv))), Real.log_mul hc.ne' (by linarith), Option.map_some, add_comm]

theorem peakAt_louder (freq power : List ℝ) (c : ℝ) (hc : 0 < c) (i : ℕ) :
    peakAt freq (power.map (c * ·)) i = (peakAt freq power i).map (Peak.louder (Real.log c)) := by
  unfold peakAt
  simp only [getD_map_scale, flog_scale _ _ hc]
  by_cases hlen : freq.length < i + 2
  · rw [if_pos hlen, if_pos hlen]; rfl
  rw [if_neg hlen, if_neg hlen]
  cases h0 : flog (power.getD (i - 1) 0) with
  | none => simp only [Option.map_none]; split_ifs <;> rfl
  | some l0 =>
    cases h1 : flog (power.getD i 0) with
    | none => simp only [Option.map_none]; split_ifs <;> rfl
    | some l1 =>
      cases h2 : flog (power.getD (i + 1) 0) with
      | none => simp only [Option.map_none]; split_ifs <;> rfl
      | some l2 =>
        simp only [Option.map_some]
        rw [npSolve_transfer (l := ![l0, l1, l2]) (fun w => ![w 0, w 1, w 2 + Real.log c]) Iff.rfl]
        · cases npSolve (vander3 fun k : Fin 3 => freq.getD (i - 1 + k) 0) ![l0, l1, l2] with
          | error e => rfl
          | ok w => simp only [Except.map, peakOfFit_louder i _ w]
        · intro w hw
          rw [parabola_iff] at hw ⊢
          simp only [Matrix.cons_val_zero, Matrix.cons_val_one, Matrix.cons_val_two, Matrix.head_cons, Matrix.tail_cons]
          obtain ⟨e, e0, e1, e2⟩ := hw
          exact ⟨e, by linarith, by linarith, by linarith⟩

theorem peakInds_scale (power : List ℝ) (c : ℝ) (hc : 0 < c) : peakInds (power.map (c * ·)) = peakInds power := by
  unfold peakInds
  rw [List.length_map]
  refine List.filter_congr fun i _ => ?_
  simp only [getD_map_scale, mul_lt_mul_iff_right₀ hc]

/-- With distinct heights there is only one order. -/
theorem orderedInds_unique {argsort argsort' : List ℝ → List ℕ} (ha : IsArgsort argsort) (ha' : IsArgsort argsort') (power power' : List ℝ)
    (hp : peakInds power' = peakInds power) (hle : ∀ i j, power'.getD i 0 ≤ power'.getD j 0 ↔ power.getD i 0 ≤ power.getD j 0)
    (hd : DistinctPeaks power) : orderedInds argsort' power' = orderedInds argsort power := by
  have h1 := orderedInds_perm ha power
  have h2 := orderedInds_perm ha' power'
  have s1 := orderedInds_sorted ha power
  have s2 := (orderedInds_sorted ha' power').imp fun h => (hle _ _).1 h
  rw [hp] at h2
  refine List.Perm.eq_of_pairwise (le := fun i j => power.getD j 0 ≤ power.getD i 0) ?_ s2 s1 (h2.trans h1.symm)
  intro i j hi hj a b
  have mi := (mem_peakInds power i).1 (h2.mem_iff.1 hi)
  have mj := (mem_peakInds power j).1 (h1.mem_iff.1 hj)
  refine hd i j mi mj ?_
  obtain ⟨-, b1, -, -, -, e1, -⟩ := mi
  obtain ⟨-, b2, -, -, -, e2, -⟩ := mj
  rw [getD_of_getElem? e1, getD_of_getElem? e2] at a b
  rw [e1, e2, le_antisymm b a]

/-- C91. With powers in another unit the same peaks are found in the same order, with the same periods; the logarithms of the heights move
by the logarithm of the factor. Equal heights are excluded because NumPy leaves their order open. -/
theorem C91_unit_of_power (argsort argsort' : List ℝ → List ℕ) (ha : IsArgsort argsort) (ha' : IsArgsort argsort') (freq power : List ℝ)
    (max_peaks : ℤ) (c : ℝ) (hc : 0 < c) (hd : DistinctPeaks power) :
    findPeaks argsort' freq (power.map (c * ·)) max_peaks =
      (findPeaks argsort freq power max_peaks).map (Peaks.map (Peak.louder (Real.log c))) :=
  findPeaks_map max_peaks (orderedInds_unique ha ha' power _ (peakInds_scale power c hc)
    (fun i j => by simp only [getD_map_scale, mul_le_mul_iff_right₀ hc]) hd) fun i _ => peakAt_louder freq power c hc i

/-- A spectrum whose two peaks have different heights. -/
example : DistinctPeaks demoPower ∧ LocalMax demoPower 1 ∧ LocalMax demoPower 3 := by
  refine ⟨?_, demoPower_max⟩
  intro i j hi hj h
  obtain ⟨a, b, c, h1, -, h2, h3, -, -⟩ := hi
  obtain ⟨a', b', c', k1, -, k2, k3, -, -⟩ := hj
  have hi4 : i + 1 < demoPower.length := by
    by_contra hc
    rw [List.getElem?_eq_none (by omega)] at h3; cases h3
  have hj4 : j + 1 < demoPower.length := by
    by_contra hc
    rw [List.getElem?_eq_none (by omega)] at k3; cases k3
  simp [demoPower] at hi4 hj4
  have hi' : i = 1 ∨ i = 2 ∨ i = 3 := by omega
  have hj' : j = 1 ∨ j = 2 ∨ j = 3 := by omega
  rcases hi' with rfl | rfl | rfl <;> rcases hj' with rfl | rfl | rfl <;> simp [demoPower] at h ⊢ <;> norm_num at h

/-! ### The spectrum read backwards -/

theorem getD_reverse (l : List ℝ) (i : ℕ) (h : i < l.length) : l.reverse.getD i 0 = l.getD (l.length - 1 - i) 0 := by
  rw [List.getD_eq_getElem _ _ (by simpa using h), List.getD_eq_getElem _ _ (by omega), List.getElem_reverse]

theorem localMax_reverse (power : List ℝ) (j : ℕ) (h : LocalMax power j) : LocalMax power.reverse (power.length - 1 - j) := by
  obtain ⟨a, b, c, h1, ha, hb, hc, hab, hcb⟩ := h
  have hj : j + 1 < power.length := by
    by_contra h
    rw [List.getElem?_eq_none (by omega)] at hc
    cases hc
  refine ⟨c, b, a, by omega, ?_, ?_, ?_, hcb, hab⟩
  · rw [List.getElem?_reverse (by omega), ← hc]
    congr 1
    omega
  · rw [List.getElem?_reverse (by omega), ← hb]
    congr 1
    omega
  · rw [List.getElem?_reverse (by omega), ← ha]
    congr 1
    omega

theorem peakAt_reverse (freq power : List ℝ) (hl : freq.length = power.length) (j : ℕ) (h1 : 1 ≤ j) (h2 : j + 1 < power.length) :
    peakAt freq.reverse power.reverse (power.length - 1 - j) = (peakAt freq power j).map (Peak.mirrored power.length) := by
  have hf : ∀ k : ℕ, k < 3 → freq.reverse.getD (power.length - 1 - j - 1 + k) 0 = freq.getD (j - 1 + (2 - k)) 0 := by
    intro k hk
    rw [getD_reverse _ _ (by omega)]
    congr 1
    omega
  have p0 : power.reverse.getD (power.length - 1 - j - 1) 0 = power.getD (j + 1) 0 := by
    rw [getD_reverse _ _ (by omega)]
    congr 1
    omega
  have p1 : power.reverse.getD (power.length - 1 - j) 0 = power.getD j 0 := by
    rw [getD_reverse _ _ (by omega)]
    congr 1
    omega
  have p2 : power.reverse.getD (power.length - 1 - j + 1) 0 = power.getD (j - 1) 0 := by
    rw [getD_reverse _ _ (by omega)]
    congr 1
    omega
  have hdet : (vander3 fun k : Fin 3 => freq.reverse.getD (power.length - 1 - j - 1 + k) 0).det = 0 ↔
      (vander3 fun k : Fin 3 => freq.getD (j - 1 + k) 0).det = 0 := by
    rw [vander3_det, vander3_det]
    simp only [hf _ (Fin.isLt _)]
    have e0 : (2 - ((0 : Fin 3) : ℕ)) = ((2 : Fin 3) : ℕ) := rfl
    have e1 : (2 - ((1 : Fin 3) : ℕ)) = ((1 : Fin 3) : ℕ) := rfl
    have e2 : (2 - ((2 : Fin 3) : ℕ)) = ((0 : Fin 3) : ℕ) := rfl
    rw [e0, e1, e2]
    generalize freq.getD (j - 1 + (0 : Fin 3)) 0 = a
    generalize freq.getD (j - 1 + (1 : Fin 3)) 0 = b
    generalize freq.getD (j - 1 + (2 : Fin 3)) 0 = c
    have : (c - b) * (c - a) * (b - a) = -((a - b) * (a - c) * (b - c)) := by ring
    rw [this, neg_eq_zero]
  have hidx : power.length - 1 - j + 1 = power.length - 1 - (j + 1 - 1) + 1 := by omega
  unfold peakAt
  simp only [List.length_reverse, p0, p1, p2]
  have c1 : ¬ freq.length < power.length - 1 - j + 2 := by omega
  have c2 : ¬ freq.length < j + 2 := by omega
  rw [if_neg c1, if_neg c2]
  cases h0 : flog (power.getD (j - 1) 0) with
  | none =>
    cases flog (power.getD (j + 1) 0) <;> cases flog (power.getD j 0) <;> simp only [hdet] <;> split_ifs <;>
      simp only [Except.map, Peak.mirrored, ← hidx]
  | some l0 =>
    cases h1 : flog (power.getD j 0) with
    | none => cases flog (power.getD (j + 1) 0) <;> simp only [hdet] <;> split_ifs <;> simp only [Except.map, Peak.mirrored, ← hidx]
    | some l1 =>
      cases h2 : flog (power.getD (j + 1) 0) with
      | none => simp only [hdet]; split_ifs <;> simp only [Except.map, Peak.mirrored, ← hidx]
      | some l2 =>
        simp only
        rw [npSolve_transfer (l := ![l0, l1, l2]) (fun w => w) hdet]
        · cases npSolve (vander3 fun k : Fin 3 => freq.getD (j - 1 + k) 0) ![l0, l1, l2] with
          | error e => rfl
          | ok w => simp only [Except.map, peakOfFit, Peak.mirrored, ← hidx]
        · intro w hw
          rw [parabola_iff] at hw
          rw [npSolve_eq_ok_iff, vander3_mulVec]
          refine ⟨fun h => ?_, ?_⟩
          · rw [hdet, vander3_det] at h
            exact hw.1 h
          · simp only [hf _ (Fin.isLt _)]
            obtain ⟨-, e0, e1, e2⟩ := hw
            exact ⟨e2, e1, e0⟩

theorem mapM_comp (l : List ℕ) (g : ℕ → ℕ) (f : ℕ → Except PyErr Peak) : (l.map g).mapM f = l.mapM fun i => f (g i) := by
  induction l with
  | nil => rfl
  | cons a l ih => rw [List.map_cons, List.mapM_cons, List.mapM_cons, ih]

/-- C91. Listing the spectrum from the highest frequency to the lowest gives the same peaks, in the same order. -/
theorem C91_reversed_spectrum (argsort argsort' : List ℝ → List ℕ) (ha : IsArgsort argsort) (ha' : IsArgsort argsort') (freq power : List ℝ)
    (hl : freq.length = power.length) (max_peaks : ℤ) (hd : DistinctPeaks power) :
    findPeaks argsort' freq.reverse power.reverse max_peaks =
      (findPeaks argsort freq power max_peaks).map (Peaks.map (Peak.mirrored power.length)) := by
  have hlm : ∀ j, LocalMax power j → 1 ≤ j ∧ j + 1 < power.length := by
    rintro j ⟨a, b, c, h1, ha, hb, hc, -⟩
    refine ⟨h1, ?_⟩
    by_contra h
    rw [List.getElem?_eq_none (by omega)] at hc
    cases hc
  have hinv : ∀ j, LocalMax power.reverse j → LocalMax power (power.length - 1 - j) := by
    intro j hj
    have := localMax_reverse _ _ hj
    rwa [List.reverse_reverse, List.length_reverse] at this
  have hlt : ∀ j, LocalMax power.reverse j → 1 ≤ j ∧ j + 1 < power.length := by
    rintro j ⟨a, b, c, h1, ha, hb, hc, -⟩
    refine ⟨h1, ?_⟩
    by_contra h
    rw [List.getElem?_eq_none (by rw [List.length_reverse]; omega)] at hc
    cases hc
  have ho : orderedInds argsort' power.reverse = (orderedInds argsort power).map fun j => power.length - 1 - j := by
    have m1 := orderedInds_perm ha power
    have m2 := orderedInds_perm ha' power.reverse
    have s1 := orderedInds_sorted ha power
    have s2 := orderedInds_sorted ha' power.reverse
    have k1 : ∀ j ∈ orderedInds argsort power, LocalMax power j := fun j hj => (mem_peakInds power j).1 (m1.mem_iff.1 hj)
    have k2 : ∀ j ∈ orderedInds argsort' power.reverse, LocalMax power.reverse j :=
      fun j hj => (mem_peakInds _ j).1 (m2.mem_iff.1 hj)
    have hperm : (orderedInds argsort' power.reverse).Perm ((orderedInds argsort power).map fun j => power.length - 1 - j) := by
      rw [List.perm_ext_iff_of_nodup (m2.nodup_iff.2 (nodup_peakInds _)) ?_]
      · intro j
        rw [m2.mem_iff, mem_peakInds, List.mem_map]
        constructor
        · intro hj
          refine ⟨power.length - 1 - j, m1.mem_iff.2 ((mem_peakInds _ _).2 (hinv j hj)), ?_⟩
          have := hlt j hj
          omega
        · rintro ⟨i, hi, rfl⟩
          exact localMax_reverse _ _ (k1 i hi)
      · refine List.Nodup.map_on ?_ (m1.nodup_iff.2 (nodup_peakInds _))
        intro i hi j hj hij
        have := hlm i (k1 i hi)
        have := hlm j (k1 j hj)
        omega
    refine List.Perm.eq_of_pairwise (le := fun i j => power.reverse.getD j 0 ≤ power.reverse.getD i 0) ?_ s2 ?_ hperm
    · intro i j hi hj a b
      have mi := k2 i hi
      have mj := k2 j (hperm.mem_iff.2 hj)
      have li := hlt i mi
      have lj := hlt j mj
      rw [getD_reverse _ _ (by omega), getD_reverse _ _ (by omega)] at a b
      have := hd _ _ (hinv i mi) (hinv j mj) (by
        rw [getElem?_getD (by omega), getElem?_getD (by omega), le_antisymm b a])
      omega
    · rw [List.pairwise_map]
      refine s1.imp_of_mem fun {i j} hi hj h => ?_
      have li := hlm i (k1 i hi)
      have lj := hlm j (k1 j hj)
      rw [getD_reverse _ _ (by omega), getD_reverse _ _ (by omega)]
      have e1 : power.length - 1 - (power.length - 1 - j) = j := by omega
      have e2 : power.length - 1 - (power.length - 1 - i) = i := by omega
      rw [e1, e2]
      exact h
  unfold findPeaks
  rw [ho, ← List.map_take, mapM_comp]
  rw [mapM_map (f := peakAt freq power) (u := Peak.mirrored power.length)]
  · cases ((orderedInds argsort power).take (max 1 max_peaks).toNat).mapM (peakAt freq power) with
    | error e => rfl
    | ok ps =>
      simp only [Except.map]
      by_cases hm : max_peaks = 0
      · simp only [hm, ne_eq, not_true_eq_false, if_false]
        cases ps with
        | nil => rfl
        | cons p ps => rfl
      · simp only [hm, ne_eq, not_false_eq_true, if_true]
        rfl
  · intro i hi
    have := hlm i ((mem_peakInds power i).1 ((orderedInds_perm ha power).mem_iff.1 (List.mem_of_mem_take hi)))
    exact peakAt_reverse freq power hl i this.1 this.2

/-! ## The autocorrelation -/

theorem avg_affine (x : List ℝ) (a b : ℝ) (hx : x ≠ []) : avg (x.map fun v => a * v + b) = a * avg x + b := by
  have hl : (x.length : ℝ) ≠ 0 := by exact_mod_cast (List.length_pos_iff.2 hx).ne'
  have hs : ∀ l : List ℝ, (l.map fun v => a * v + b).sum = a * l.sum + l.length * b := by
    intro l
    induction l with
    | nil => simp
    | cons v l ih => simp only [List.map_cons, List.sum_cons, ih, List.length_cons]; push_cast; ring
  unfold avg
  rw [hs, List.length_map]
  field_simp

theorem autocov_affine (x : List ℝ) (a b : ℝ) (k : ℕ) : autocov (x.map fun v => a * v + b) k = a ^ 2 * autocov x k := by
  by_cases hx : x = []
  · subst hx; simp [autocov]
  unfold autocov
  rw [List.length_map, Finset.mul_sum]
  refine Finset.sum_congr rfl fun i hi => ?_
  rw [Finset.mem_range] at hi
  have g : ∀ j, j < x.length → (x.map fun v => a * v + b).getD j 0 = a * x.getD j 0 + b := by
    intro j hj
    rw [List.getD_eq_getElem _ _ (by simpa using hj), List.getD_eq_getElem _ _ hj, List.getElem_map]
  rw [avg_affine x a b hx, g i (by omega), g (i + k) (by omega)]
  ring

theorem autocorrFunction_congr {x x' : List ℝ} (hl : x'.length = x.length) (c : ℝ) (hc : c ≠ 0)
    (h : ∀ k, k < x.length → autocov x' k = c * autocov x k) : autocorrFunction x' = autocorrFunction x := by
  have hr : rawAcf x' = (rawAcf x).map (c * ·) := by
    rw [rawAcf_eq, rawAcf_eq, hl, List.map_map]
    exact List.map_congr_left fun k hk => h k (List.mem_range.1 hk)
  unfold autocorrFunction
  rw [hr]
  cases rawAcf x with
  | nil => rfl
  | cons a0 l =>
    simp only [List.map_cons, List.map_map]
    have : ∀ v, fdiv (c * v) (c * a0) = fdiv v a0 := by
      intro v
      unfold fdiv
      by_cases h0 : a0 = 0
      · simp [h0]
      · rw [if_neg h0, if_neg (mul_ne_zero hc h0), mul_div_mul_left _ _ hc]
    rw [this]
    congr 2
    exact List.map_congr_left fun v _ => this v

/-- C91. The autocorrelation does not depend on the zero point and the scale (or sign) of the series. -/
theorem C91_autocorrelation_of_affine (x : List ℝ) (a b : ℝ) (ha : a ≠ 0) : autocorrFunction (x.map fun v => a * v + b) = autocorrFunction x :=
  autocorrFunction_congr (by simp) (a ^ 2) (pow_ne_zero 2 ha) fun k _ => autocov_affine x a b k

/-- C91. Nor on the direction of time. -/
theorem C91_autocorrelation_of_reversed (x : List ℝ) : autocorrFunction x.reverse = autocorrFunction x := by
  refine autocorrFunction_congr (by simp) 1 one_ne_zero fun k hk => ?_
  have ha : avg x.reverse = avg x := by
    unfold avg
    rw [List.sum_reverse, List.length_reverse]
  unfold autocov
  rw [one_mul, List.length_reverse, ha, ← Finset.sum_range_reflect]
  refine Finset.sum_congr rfl fun i hi => ?_
  rw [Finset.mem_range] at hi
  rw [getD_reverse _ _ (by omega), getD_reverse _ _ (by omega)]
  have e1 : x.length - 1 - (x.length - k - 1 - i) = i + k := by omega
  have e2 : x.length - 1 - (x.length - k - 1 - i + k) = i := by omega
  rw [e1, e2, mul_comm]

/-! ## The autocorrelation estimator -/

theorem npDiff_affine (x : List ℝ) (s d : ℝ) : npDiff (x.map fun t => s * t + d) = (npDiff x).map (s * ·) := by
  unfold npDiff
  rw [← List.map_tail, List.zipWith_map, List.map_zipWith]
  congr 1
  funext a b
  ring

theorem min?_affine (x : List ℝ) (s d : ℝ) (hs : 0 < s) : (x.map fun t => s * t + d).min? = x.min?.map fun t => s * t + d := by
  cases hx : x.min? with
  | none =>
    rw [List.min?_eq_none_iff] at hx
    subst hx
    rfl
  | some m =>
    obtain ⟨h1, h2⟩ := List.min?_eq_some_iff.1 hx
    rw [Option.map_some]
    refine List.min?_eq_some_iff.2 ⟨List.mem_map.2 ⟨m, h1, rfl⟩, fun b hb => ?_⟩
    obtain ⟨t, ht, rfl⟩ := List.mem_map.1 hb
    have := mul_le_mul_of_nonneg_left (h2 t ht) hs.le
    linarith

theorem max?_affine (x : List ℝ) (s d : ℝ) (hs : 0 < s) : (x.map fun t => s * t + d).max? = x.max?.map fun t => s * t + d := by
  cases hx : x.max? with
  | none =>
    rw [List.max?_eq_none_iff] at hx
    subst hx
    rfl
  | some m =>
    obtain ⟨h1, h2⟩ := List.max?_eq_some_iff.1 hx
    rw [Option.map_some]
    refine List.max?_eq_some_iff.2 ⟨List.mem_map.2 ⟨m, h1, rfl⟩, fun b hb => ?_⟩
    obtain ⟨t, ht, rfl⟩ := List.mem_map.1 hb
    have := mul_le_mul_of_nonneg_left (h2 t ht) hs.le
    linarith

theorem npMin_affine (x : List ℝ) (s d : ℝ) (hs : 0 < s) : npMin (x.map fun t => s * t + d) = (npMin x).map fun t => s * t + d := by
  unfold npMin
  rw [min?_affine x s d hs]
  cases x.min? <;> rfl

theorem npMax_affine (x : List ℝ) (s d : ℝ) (hs : 0 < s) : npMax (x.map fun t => s * t + d) = (npMax x).map fun t => s * t + d := by
  unfold npMax
  rw [max?_affine x s d hs]
  cases x.max? <;> rfl

theorem npMin_diff_affine (x : List ℝ) (s d : ℝ) (hs : 0 < s) : npMin (npDiff (x.map fun t => s * t + d)) = (npMin (npDiff x)).map (s * ·) := by
  rw [npDiff_affine]
  have := npMin_affine (npDiff x) s 0 hs
  simpa using this

theorem npArange_affine (lo hi dx s d : ℝ) (hs : 0 < s) :
    npArange (s * lo + d) (s * hi + d) (s * dx) = (npArange lo hi dx).map (List.map fun t => s * t + d) := by
  unfold npArange
  by_cases h : dx = 0
  · simp [h, Except.map]
  · rw [if_neg h, if_neg (mul_ne_zero hs.ne' h)]
    have e : (s * hi + d - (s * lo + d)) / (s * dx) = (hi - lo) / dx := by
      field_simp
      ring
    rw [e]
    simp only [Except.map, List.map_map]
    congr 1
    refine List.map_congr_left fun i _ => ?_
    simp only [Function.comp_apply]
    ring

theorem acorPeaks_units (tau : List ℝ) (acor : List (Option ℝ)) (m s : ℝ) (hs : 0 < s) :
    acorPeaks (tau.map (s * ·)) acor (s * m) = acorPeaks tau acor m := by
  unfold acorPeaks
  refine List.filter_congr fun i _ => ?_
  rw [getD_map_scale]
  simp only [mul_le_mul_iff_right₀ hs]

theorem acorChoose_units (tau : List ℝ) (acor : List (Option ℝ)) (M s : ℝ) (hs : 0 < s) (inds : List ℕ) :
    acorChoose (tau.map (s * ·)) acor (s * M) inds = (acorChoose tau acor M inds).map (s * ·) := by
  unfold acorChoose
  cases inds with
  | nil => rfl
  | cons i rest =>
    simp only [getD_map_scale, gt_iff_lt, mul_lt_mul_iff_right₀ hs]
    by_cases h : M < tau.getD i 0
    · rw [if_pos h, if_pos h]; rfl
    · rw [if_neg h, if_neg h]
      cases rest with
      | nil => rfl
      | cons k r =>
        simp only
        generalize (if nanGt (acor.getD k none) (acor.getD i none) = true then k else i) = n
        split_ifs <;> rfl

theorem bind_corr {α α' β β' : Type} {a : Except PyErr α} {a' : Except PyErr α'} {k : α → Except PyErr β} {k' : α' → Except PyErr β'}
    {g : β → β'} (f : α → α') (ha : a' = a.map f) (h : ∀ v, k' (f v) = (k v).map g) : (a' >>= k') = (a >>= k).map g := by
  subst ha
  cases a with
  | error e => rfl
  | ok v => exact h v

/-- C91. The origin and the unit of time do not matter to the autocorrelation estimator: lags and periods are found in the new unit
(periods given by the user are in it too), and the correlations are the same. -/
theorem C91_estimator_unit_of_time (F : Filters) (hF : InterpNatural F.interp) (scipy : Bool) (x y : List ℝ) (min_period max_period : Option ℝ)
    (oversample smooth : ℝ) (max_peaks : ℤ) (s d : ℝ) (hs : 0 < s) :
    autocorrEstimator F scipy (x.map fun t => s * t + d) y (min_period.map (s * ·)) (max_period.map (s * ·)) oversample smooth max_peaks =
      (autocorrEstimator F scipy x y min_period max_period oversample smooth max_peaks).map (AcorResult.inUnits s) := by
  have h1 : acorMinPeriod (x.map fun t => s * t + d) (min_period.map (s * ·)) = (acorMinPeriod x min_period).map (s * ·) := by
    cases min_period with
    | none => exact npMin_diff_affine x s d hs
    | some m => rfl
  have h2 : acorMaxPeriod (x.map fun t => s * t + d) (max_period.map (s * ·)) = (acorMaxPeriod x max_period).map (s * ·) := by
    cases max_period with
    | some m => rfl
    | none =>
      simp only [acorMaxPeriod, Option.map_none]
      rw [npMax_affine x s d hs, npMin_affine x s d hs]
      cases npMax x with
      | error e => rfl
      | ok a =>
        cases npMin x with
        | error e => rfl
        | ok b =>
          show Except.ok (s * a + d - (s * b + d)) = Except.ok (s * (a - b))
          congr 1
          ring
  have h3 : firstOf (x.map fun t => s * t + d) = (firstOf x).map fun t => s * t + d := by
    cases x <;> rfl
  unfold autocorrEstimator
  refine bind_corr (fun u => u) (by cases requireScipy scipy <;> rfl) fun _ => ?_
  refine bind_corr _ h1 fun m => ?_
  refine bind_corr _ h2 fun M => ?_
  refine bind_corr _ (npMin_diff_affine x s d hs) fun gap => ?_
  refine bind_corr _ (npMin_affine x s d hs) fun lo => ?_
  refine bind_corr _ (npMax_affine x s d hs) fun hi => ?_
  have e1 : s * gap / oversample = s * (gap / oversample) := by ring
  simp only [e1]
  refine bind_corr _ (npArange_affine lo hi _ s d hs) fun xx => ?_
  refine bind_corr (fun v => v) (by rw [hF.abscissae s d xx x y hs]; cases F.interp xx x y <;> rfl) fun yy => ?_
  refine bind_corr _ h3 fun x0 => ?_
  refine bind_corr (fun v => v) (by cases autocorrFunction yy <;> rfl) fun acor => ?_
  have e2 : smooth * (s * m) / (s * (gap / oversample)) = smooth * m / (gap / oversample) := by
    rw [show smooth * (s * m) = s * (smooth * m) by ring, mul_div_mul_left _ _ hs.ne']
  have e3 : ((xx.map fun t => s * t + d).map fun v => v - (s * x0 + d)) = (xx.map fun v => v - x0).map (s * ·) := by
    rw [List.map_map, List.map_map]
    refine List.map_congr_left fun v _ => ?_
    simp only [Function.comp_apply]
    ring
  simp only [e2, e3, Except.map]
  rw [acorPeaks_units _ _ _ _ hs, acorChoose_units _ _ _ _ hs]
  rfl

/-- C91. Nor do the zero point and the unit (or the sign) of the data. -/
theorem C91_estimator_unit_of_data (F : Filters) (hF : InterpNatural F.interp) (scipy : Bool) (x y : List ℝ) (min_period max_period : Option ℝ)
    (oversample smooth : ℝ) (max_peaks : ℤ) (a b : ℝ) (ha : a ≠ 0) :
    autocorrEstimator F scipy x (y.map fun v => a * v + b) min_period max_period oversample smooth max_peaks =
      autocorrEstimator F scipy x y min_period max_period oversample smooth max_peaks := by
  have same : ∀ {α : Type} (e : Except PyErr α), e = e.map fun v => v := fun e => by cases e <;> rfl
  rw [same (autocorrEstimator F scipy x y min_period max_period oversample smooth max_peaks)]
  unfold autocorrEstimator
  refine bind_corr _ (same _) fun _ => ?_
  refine bind_corr _ (same _) fun m => ?_
  refine bind_corr _ (same _) fun M => ?_
  refine bind_corr _ (same _) fun gap => ?_
  refine bind_corr _ (same _) fun lo => ?_
  refine bind_corr _ (same _) fun hi => ?_
  refine bind_corr _ (same _) fun xx => ?_
  refine bind_corr _ (hF.ordinates a b xx x y) fun yy => ?_
  refine bind_corr _ (same _) fun x0 => ?_
  rw [C91_autocorrelation_of_affine yy a b ha]
  exact bind_corr _ (same _) fun acor => rfl

/-- `np.interp` at one point, for ascending abscissae: constant outside, linear between neighbours. -/
noncomputable def linearAt : List (ℝ × ℝ) → ℝ → ℝ
  | [], _ => 0
  | [p], _ => p.2
  | p :: q :: l, t => if t ≤ p.1 then p.2 else if t < q.1 then p.2 + (q.2 - p.2) / (q.1 - p.1) * (t - p.1) else linearAt (q :: l) t

theorem linearAt_abscissae (s d : ℝ) (hs : 0 < s) (t : ℝ) : ∀ l : List (ℝ × ℝ),
    linearAt (l.map fun p => (s * p.1 + d, p.2)) (s * t + d) = linearAt l t := by
  intro l
  induction l with
  | nil => rfl
  | cons p l ih =>
    cases l with
    | nil => rfl
    | cons q l =>
      simp only [List.map_cons, linearAt] at ih ⊢
      rw [ih]
      simp only [add_le_add_iff_right, add_lt_add_iff_right, mul_le_mul_iff_right₀ hs, mul_lt_mul_iff_right₀ hs]
      congr 2
      have e1 : s * q.1 + d - (s * p.1 + d) = s * (q.1 - p.1) := by ring
      have e2 : s * t + d - (s * p.1 + d) = s * (t - p.1) := by ring
      rw [e1, e2]
      by_cases h : q.1 - p.1 = 0
      · simp [h]
      · field_simp

theorem linearAt_ordinates (a b t : ℝ) : ∀ l : List (ℝ × ℝ), l ≠ [] →
    linearAt (l.map fun p => (p.1, a * p.2 + b)) t = a * linearAt l t + b := by
  intro l
  induction l with
  | nil => intro h; exact (h rfl).elim
  | cons p l ih =>
    intro _
    cases l with
    | nil => rfl
    | cons q l =>
      have := ih (by simp)
      simp only [List.map_cons, linearAt] at this ⊢
      rw [this]
      split_ifs
      · rfl
      · ring
      · rfl

/-- Linear interpolation has the properties assumed of it. -/
theorem interp_natural : ∃ F : Filters, F.Ok ∧ InterpNatural F.interp := by
  refine ⟨⟨fun a _ => a, fun xx x y => if x.length = y.length ∧ x ≠ [] then .ok (xx.map (linearAt (x.zip y))) else .error (.valueError "interp")⟩,
    ⟨fun _ _ => rfl, fun xx x y h h0 => ⟨_, if_pos ⟨h, h0⟩⟩, fun xx x y r h => ?_⟩, ⟨fun s d xx x y hs => ?_, fun a b xx x y => ?_⟩⟩
  · simp only at h
    split_ifs at h
    cases h
    simp
  · simp only [List.length_map, ne_eq, List.map_eq_nil_iff]
    by_cases h : x.length = y.length ∧ ¬ x = []
    · rw [if_pos h, if_pos h, List.map_map]
      congr 1
      refine List.map_congr_left fun t _ => ?_
      have e : (x.map fun t => s * t + d).zip y = (x.zip y).map fun p => (s * p.1 + d, p.2) := by
        rw [List.zip_map_left]
        rfl
      rw [Function.comp_apply, e]
      exact linearAt_abscissae s d hs t _
    · rw [if_neg h, if_neg h]
  · simp only [List.length_map, ne_eq]
    by_cases h : x.length = y.length ∧ ¬ x = []
    · rw [if_pos h, if_pos h]
      simp only [Except.map, List.map_map]
      congr 1
      refine List.map_congr_left fun t _ => ?_
      have e : x.zip (y.map fun v => a * v + b) = (x.zip y).map fun p => (p.1, a * p.2 + b) := by
        rw [List.zip_map_right]
        rfl
      rw [Function.comp_apply, e]
      refine linearAt_ordinates a b t _ fun h0 => ?_
      rw [List.zip_eq_nil_iff] at h0
      rcases h0 with h0 | h0
      · exact h.2 h0
      · rw [h0] at h; exact h.2 (List.length_eq_zero_iff.1 h.1)
    · rw [if_neg h, if_neg h]
      rfl

end Exo
