import Verif.Props.SemiAmplitude

/-!
# C64: minimum masses
-/

namespace Exo
open Real Matrix

/-- The normal equations with explicit sizes. -/
noncomputable def solveN (n m : ℕ) (D : Matrix (Fin n) (Fin m) ℝ) (y iv : Fin n → ℝ) : Except PyErr (List ℝ) :=
  (npSolve (Dᵀ * Matrix.of fun i j => D i j * iv i) (Dᵀ.mulVec fun i => y i * iv i)).map List.ofFn

theorem solveNormal_eq (fs : List (ℝ → ℝ)) (x y iv : List ℝ) (n m : ℕ) (hn : x.length = n) (hm : fs.length = m) :
    solveNormal fs x y iv = solveN n m (Matrix.of fun i j => (fs.get (j.cast hm.symm)) (x.get (i.cast hn.symm)))
      (fun i => y.getD i 0) fun i => iv.getD i 0 := by
  subst hn hm
  rfl

/-- Only the values of the columns at the samples matter. -/
theorem solveNormal_congr {fs fs' : List (ℝ → ℝ)} {x x' : List ℝ} (y iv : List ℝ) (hm : fs.length = fs'.length)
    (hn : x.length = x'.length)
    (h : ∀ (i j : ℕ) (hi : i < x.length) (hj : j < fs.length), fs[j] x[i] = (fs'[j]'(hm ▸ hj)) (x'[i]'(hn ▸ hi))) :
    solveNormal fs x y iv = solveNormal fs' x' y iv := by
  rw [solveNormal_eq fs x y iv _ _ hn hm, solveNormal_eq fs' x' y iv _ _ rfl rfl]
  congr 1
  ext i j
  exact h i j (by omega) (by omega)

theorem npSolve_smul {n : Type} [Fintype n] [DecidableEq n] (A : Matrix n n ℝ) (b : n → ℝ) (c : ℝ) :
    npSolve A (c • b) = (npSolve A b).map fun w => c • w := by
  unfold npSolve
  split_ifs
  · rfl
  · simp only [Except.map]
    rw [Matrix.mulVec_smul]

theorem solveNormal_smul (fs : List (ℝ → ℝ)) (x y iv : List ℝ) (c : ℝ) :
    solveNormal fs x (y.map (c * ·)) iv = (solveNormal fs x y iv).map fun w => w.map (c * ·) := by
  unfold solveNormal
  simp only
  have e : ((designMatrix fs x)ᵀ.mulVec fun i : Fin x.length => (y.map (c * ·)).getD i 0 * iv.getD i 0) =
      c • ((designMatrix fs x)ᵀ.mulVec fun i : Fin x.length => y.getD i 0 * iv.getD i 0) := by
    rw [← Matrix.mulVec_smul]
    congr 1
    funext i
    have : (y.map (c * ·)).getD i 0 = c * y.getD i 0 := by
      rw [List.getD_eq_getElem?_getD, List.getD_eq_getElem?_getD, List.getElem?_map]
      cases y[(i : ℕ)]? <;> simp
    rw [this]
    simp only [Pi.smul_apply, smul_eq_mul]
    ring
  rw [e, npSolve_smul]
  generalize npSolve ((designMatrix fs x)ᵀ * Matrix.of fun i j => designMatrix fs x i j * iv.getD i 0)
    ((designMatrix fs x)ᵀ.mulVec fun i => y.getD i 0 * iv.getD i 0) = r
  cases r with
  | error e => rfl
  | ok w =>
    simp only [Except.map]
    congr 1
    apply List.ext_getElem <;> simp

theorem every2_map {α β : Type} (g : α → β) : ∀ l : List α, every2 (l.map g) = (every2 l).map g
  | [] => rfl
  | [_] => rfl
  | _ :: _ :: l => by simp only [List.map_cons, every2, every2_map g l]

theorem ivarOf_map (y : List ℝ) (yerr : Option (List ℝ)) (g : ℝ → ℝ) : ivarOf (y.map g) yerr = ivarOf y yerr := by
  cases yerr with
  | none =>
    simp only [ivarOf, List.map_map]
    rfl
  | some => rfl

theorem amplitudes_smul (w : List ℝ) (c : ℝ) (t0s : Option (List ℝ)) :
    amplitudes (w.map (c * ·)) t0s = (amplitudes w t0s).map ((if t0s = none then |c| else c) * ·) := by
  cases t0s with
  | some l => simp [amplitudes]
  | none =>
    unfold amplitudes
    simp only [if_true]
    rw [← List.map_dropLast, ← List.map_drop, every2_map, every2_map, List.zipWith_map, List.map_zipWith]
    congr 1
    funext a b
    rw [show (c * a) ^ 2 + (c * b) ^ 2 = c ^ 2 * (a ^ 2 + b ^ 2) by ring, sqrt_mul (sq_nonneg c), sqrt_sq_eq_abs]

/-! ## C64 -/

/-- C64. The amplitudes, hence the masses, are homogeneous in the data: scaling the velocities by `c` scales the result by `c` (with
reference times) or `|c|` (without), and does not change whether the call fails. -/
theorem C64_linear_in_the_data (periods x y : List ℝ) (yerr t0s : Option (List ℝ)) (m_star c : ℝ) :
    estimateMinimumMass periods x (y.map (c * ·)) yerr t0s m_star =
      (estimateMinimumMass periods x y yerr t0s m_star).map fun m => m.map ((if t0s = none then |c| else c) * ·) := by
  have hK : estimateSemiAmplitude periods x (y.map (c * ·)) yerr t0s =
      (estimateSemiAmplitude periods x y yerr t0s).map fun m => m.map ((if t0s = none then |c| else c) * ·) := by
    unfold estimateSemiAmplitude
    cases designFuns periods t0s with
    | error e => rfl
    | ok fs =>
      simp only
      rw [ivarOf_map, List.length_map]
      split_ifs with h
      · rfl
      · rfl
      all_goals
        rw [solveNormal_smul]
        cases solveNormal fs x y (ivarOf y yerr) with
        | error e => rfl
        | ok w =>
          simp only [Except.map]
          rw [amplitudes_smul]
          simp_all
  unfold estimateMinimumMass
  rw [hK]
  cases estimateSemiAmplitude periods x y yerr t0s with
  | error e => rfl
  | ok K =>
    simp only [Except.map, List.map_map, List.map_zipWith]
    congr 1
    generalize (if t0s = none then |c| else c) = c'
    rw [List.zipWith_map_left, List.zipWith_map_left]
    congr 1
    funext a b
    simp only [Function.comp]
    ring

/-- C64. Scaling the stellar mass by `s ≥ 0` scales the masses by `s^(2/3)`. -/
theorem C64_scales_with_stellar_mass (periods x y : List ℝ) (yerr t0s : Option (List ℝ)) (m_star s : ℝ) (hm : 0 < m_star) (hs : 0 < s) :
    estimateMinimumMass periods x y yerr t0s (s * m_star) =
      (estimateMinimumMass periods x y yerr t0s m_star).map fun m => m.map (s ^ (2 / 3 : ℝ) * ·) := by
  unfold estimateMinimumMass
  cases estimateSemiAmplitude periods x y yerr t0s with
  | error e => rfl
  | ok K =>
    simp only [Except.map, List.map_zipWith]
    congr 1
    rw [List.zipWith_map_left, List.zipWith_map_left]
    congr 1
    funext a b
    rw [mul_rpow hs.le hm.le]
    ring

theorem designFuns_scale (s : ℝ) (hs : s ≠ 0) (periods : List ℝ) (t0s : Option (List ℝ)) :
    (∃ e, designFuns periods t0s = .error e ∧ designFuns (periods.map (s * ·)) (t0s.map (List.map (s * ·))) = .error e) ∨
    ∃ fs, designFuns (periods.map (s * ·)) (t0s.map (List.map (s * ·))) = .ok fs ∧
      designFuns periods t0s = .ok (fs.map fun f => fun t => f (s * t)) := by
  cases t0s with
  | some l =>
    unfold designFuns
    simp only [Option.map_some, List.length_map]
    split_ifs with h
    · exact Or.inl ⟨_, rfl, rfl⟩
    · refine Or.inr ⟨_, rfl, ?_⟩
      congr 1
      rw [List.map_append, List.map_map]
      congr 1
      rw [List.zip_map, List.map_map]
      refine List.map_congr_left fun p _ => ?_
      funext t
      simp only [Function.comp, Prod.map]
      congr 1
      rw [show 2 * π * (s * t - (s * p.2 - 0.25 * (s * p.1))) = s * (2 * π * (t - (p.2 - 0.25 * p.1))) by ring,
        mul_div_mul_left _ _ hs]
  | none =>
    refine Or.inr ⟨_, rfl, ?_⟩
    unfold designFuns
    simp only
    congr 1
    rw [List.map_append]
    congr 1
    rw [List.map_flatMap, List.flatMap_map]
    congr 1
    funext P
    simp only [List.map_cons, List.map_nil, List.cons.injEq, and_true]
    have e : ∀ t : ℝ, 2 * π * (s * t) / (s * P) = 2 * π * t / P := by
      intro t
      rw [show 2 * π * (s * t) = s * (2 * π * t) by ring, mul_div_mul_left _ _ hs]
    exact ⟨funext fun t => by rw [e], funext fun t => by rw [e]⟩

/-- C64. Scaling all the times (periods, samples, reference times) by `s > 0` leaves the amplitudes alone and scales the masses by
`s^(1/3)`. -/
theorem C64_scales_with_period (periods x y : List ℝ) (yerr t0s : Option (List ℝ)) (m_star s : ℝ) (hP : ∀ P ∈ periods, 0 < P)
    (hs : 0 < s) :
    estimateSemiAmplitude (periods.map (s * ·)) (x.map (s * ·)) y yerr (t0s.map (List.map (s * ·))) =
      estimateSemiAmplitude periods x y yerr t0s ∧
    estimateMinimumMass (periods.map (s * ·)) (x.map (s * ·)) y yerr (t0s.map (List.map (s * ·))) m_star =
      (estimateMinimumMass periods x y yerr t0s m_star).map fun m => m.map (s ^ (1 / 3 : ℝ) * ·) := by
  have hK : estimateSemiAmplitude (periods.map (s * ·)) (x.map (s * ·)) y yerr (t0s.map (List.map (s * ·))) =
      estimateSemiAmplitude periods x y yerr t0s := by
    unfold estimateSemiAmplitude
    rcases designFuns_scale s hs.ne' periods t0s with ⟨e, h1, h2⟩ | ⟨fs, h1, h2⟩
    · rw [h1, h2]
    · rw [h1, h2]
      simp only [List.length_map]
      have e1 : solveNormal fs (x.map (s * ·)) y (ivarOf y yerr) =
          solveNormal (fs.map fun f => fun t => f (s * t)) x y (ivarOf y yerr) :=
        solveNormal_congr y _ (by simp) (by simp) (by simp)
      have e2 : ∀ w, amplitudes w (t0s.map (List.map (s * ·))) = amplitudes w t0s := by
        intro w
        cases t0s <;> rfl
      rw [e1]
      simp only [e2]
  refine ⟨hK, ?_⟩
  unfold estimateMinimumMass
  rw [hK]
  cases estimateSemiAmplitude periods x y yerr t0s with
  | error e => rfl
  | ok K =>
    simp only [Except.map, List.map_zipWith]
    congr 1
    rw [List.zipWith_map_left, List.zipWith_map_left, List.zipWith_map_right]
    clear hK
    induction periods generalizing K with
    | nil => simp
    | cons P l ih =>
      cases K with
      | nil => rfl
      | cons k K =>
        simp only [List.zipWith_cons_cons]
        rw [ih fun Q hQ => hP Q (List.mem_cons_of_mem _ hQ)]
        congr 1
        rw [mul_div_assoc, mul_rpow hs.le (by have := hP P List.mem_cons_self; positivity)]
        ring

/-- C64. Each mass is positive/zero/negative with its amplitude, and gives the amplitude back through
`K = 28.4329 m/s · (m/M_J) · (M/M_⊙)^(-2/3) · (P/yr)^(-1/3)`; without reference times the masses are non-negative. -/
theorem C64_mass_from_amplitude (periods x y : List ℝ) (yerr t0s : Option (List ℝ)) (m_star : ℝ) (hm : 0 < m_star)
    (hP : ∀ P ∈ periods, 0 < P) (m : List ℝ) (h : estimateMinimumMass periods x y yerr t0s m_star = .ok m) :
    ∃ K, estimateSemiAmplitude periods x y yerr t0s = .ok K ∧
      (∀ (i : ℕ) mi, m[i]? = some mi → ∃ P k, periods[i]? = some P ∧ K[i]? = some k ∧
        k = 28.4329 * mi / (m_star ^ (2 / 3 : ℝ) * (P / 365.25) ^ (1 / 3 : ℝ)) ∧ (mi = 0 ↔ k = 0) ∧ (t0s = none → 0 ≤ mi)) := by
  unfold estimateMinimumMass at h
  cases hK : estimateSemiAmplitude periods x y yerr t0s with
  | error e => rw [hK] at h; cases h
  | ok K =>
    rw [hK] at h
    simp only [Except.map, Except.ok.injEq] at h
    subst h
    refine ⟨K, rfl, fun i mi hi => ?_⟩
    rw [List.zipWith_map_left, List.getElem?_zipWith] at hi
    cases hk : K[i]? with
    | none => rw [hk] at hi; simp at hi
    | some k =>
      cases hp : periods[i]? with
      | none => rw [hk, hp] at hi; simp at hi
      | some P =>
        rw [hk, hp] at hi
        simp only [Option.some.injEq] at hi
        have hP0 := hP P (List.mem_of_getElem? hp)
        have h1 : 0 < m_star ^ (2 / 3 : ℝ) := rpow_pos_of_pos hm _
        have h2 : 0 < (P / 365.25) ^ (1 / 3 : ℝ) := rpow_pos_of_pos (by positivity) _
        refine ⟨P, k, rfl, rfl, ?_⟩
        generalize m_star ^ (2 / 3 : ℝ) = u at *
        generalize (P / 365.25) ^ (1 / 3 : ℝ) = v at *
        have h3 : (0 : ℝ) < 28.4329 := by norm_num
        generalize (28.4329 : ℝ) = z at *
        subst hi
        refine ⟨?_, ?_, ?_⟩
        · field_simp
        · constructor
          · intro h
            simpa [h1.ne', h2.ne', h3.ne'] using h
          · rintro rfl
            simp
        · rintro rfl
          have hk0 : 0 ≤ k := by
            unfold estimateSemiAmplitude at hK
            cases hd : designFuns periods none with
            | error e => rw [hd] at hK; cases hK
            | ok fs =>
              rw [hd] at hK
              simp only at hK
              split_ifs at hK
              cases hw : solveNormal fs x y (ivarOf y yerr) with
              | error e => rw [hw] at hK; cases hK
              | ok w =>
                rw [hw] at hK
                simp only [Except.map, Except.ok.injEq] at hK
                subst hK
                unfold amplitudes at hk
                simp only at hk
                rw [List.getElem?_zipWith] at hk
                split at hk
                · cases hk
                  exact sqrt_nonneg _
                · cases hk
          positivity

/-- The hypotheses are met with a non-zero mass. -/
example : ∃ m, estimateMinimumMass [4] [0, 1] ([0, 1].map (rvFixed [4] [0] [3] 5)) none (some [0]) 1 = .ok [m] ∧ m ≠ 0 := by
  have hK := C60_fixed_recovers [4] [0] [0, 1] none (by simp) rfl [3] 5 rfl ⟨by simp, by simp [errs], by simp [errs]⟩
    demo_determined.2
  refine ⟨3 / 28.4329 * 1 ^ (2 / 3 : ℝ) * (4 / 365.25) ^ (1 / 3 : ℝ), ?_, ?_⟩
  · unfold estimateMinimumMass
    rw [hK]
    rfl
  · have h2 : (0 : ℝ) < (4 / 365.25) ^ (1 / 3 : ℝ) := rpow_pos_of_pos (by norm_num) _
    simp only [one_rpow, mul_one]
    have : (3 : ℝ) / 28.4329 ≠ 0 := by norm_num
    exact mul_ne_zero this h2.ne'

end Exo
