import Verif.Lemmas.Fit
import Mathlib.Algebra.BigOperators.Fin
import Mathlib.Algebra.BigOperators.Group.List.Lemmas

/-!
# C90: the estimates do not depend on arbitrary choices

Radial velocities: the order of the data, the origin of time, the zero point of the velocities, the scale of the uncertainties, the order
of the planets, and which transit is called `t0`.
-/

namespace Exo
open Real

theorem map_id_except {R : Type} (e : Except PyErr R) : e.map (fun K => K) = e := by cases e <;> rfl

theorem errs_map (y : List ℝ) (yerr : Option (List ℝ)) (f : ℝ → ℝ) : errs (y.map f) yerr = errs y yerr := by
  cases yerr with
  | none => simp only [errs, Option.getD_none, List.map_map]; rfl
  | some e => rfl

theorem chiSquare_shift (x : List ℝ) (rest : List (ℝ × ℝ)) (d : ℝ) (m m' : ℝ → ℝ) (h : ∀ t, m' (t + d) = m t) :
    chiSquare ((x.map (· + d)).zip rest) m' = chiSquare (x.zip rest) m := by
  unfold chiSquare
  rw [List.zip_map_left, List.map_map]
  congr 1
  refine List.map_congr_left fun q _ => ?_
  simp [h]

theorem chiSquare_offset (x y s : List ℝ) (d : ℝ) (m m' : ℝ → ℝ) (h : ∀ t, m' t = m t + d) :
    chiSquare (x.zip ((y.map (· + d)).zip s)) m' = chiSquare (x.zip (y.zip s)) m := by
  unfold chiSquare
  rw [List.zip_map_left, List.zip_map_right, List.map_map]
  congr 1
  refine List.map_congr_left fun q _ => ?_
  simp [h]

theorem chiSquare_errs (x y s : List ℝ) (k : ℝ) (m : ℝ → ℝ) :
    chiSquare (x.zip (y.zip (s.map (k * ·)))) m = (k ^ 2)⁻¹ * chiSquare (x.zip (y.zip s)) m := by
  unfold chiSquare
  rw [List.zip_map_right, List.zip_map_right, List.map_map, ← List.sum_map_mul_left]
  congr 1
  refine List.map_congr_left fun q _ => ?_
  simp only [Function.comp_apply, Prod.map_fst, Prod.map_snd, id_eq]
  rw [div_pow, div_pow, mul_pow, div_mul_eq_div_div_swap]
  ring

theorem chiSquare_perm {D D' : List (ℝ × ℝ × ℝ)} (h : D.Perm D') (m : ℝ → ℝ) : chiSquare D m = chiSquare D' m :=
  (h.map _).sum_eq

/-- Masses follow from amplitudes. -/
theorem minimumMass_congr {periods x y x' y' : List ℝ} {yerr t0s yerr' t0s' : Option (List ℝ)}
    (h : estimateSemiAmplitude periods x' y' yerr' t0s' = estimateSemiAmplitude periods x y yerr t0s) (m : ℝ) :
    estimateMinimumMass periods x' y' yerr' t0s' m = estimateMinimumMass periods x y yerr t0s m := by
  unfold estimateMinimumMass
  rw [h]

/-- C90. The estimates depend on the measurements `(time, velocity, uncertainty)` but not on the order in which they are listed (nor on
whether unit uncertainties are given or left out). -/
theorem C90_order_of_the_data (periods x y x' y' : List ℝ) (yerr yerr' t0s : Option (List ℝ)) (hd : GoodData x y yerr)
    (hd' : GoodData x' y' yerr') (hP : ∀ P ∈ periods, P ≠ 0) (ht : ∀ l, t0s = some l → l.length = periods.length)
    (hp : (x'.zip (y'.zip (errs y' yerr'))).Perm (x.zip (y.zip (errs y yerr)))) :
    estimateSemiAmplitude periods x' y' yerr' t0s = estimateSemiAmplitude periods x y yerr t0s ∧
      ∀ m, estimateMinimumMass periods x' y' yerr' t0s m = estimateMinimumMass periods x y yerr t0s m := by
  suffices h : estimateSemiAmplitude periods x' y' yerr' t0s = estimateSemiAmplitude periods x y yerr t0s from ⟨h, minimumMass_congr h⟩
  rw [← map_id_except (estimateSemiAmplitude periods x y yerr t0s)]
  cases t0s with
  | none =>
    exact (fit_free hd hP).transfer (fit_free hd' hP) id id (fun _ h => h) (fun _ h => h) (fun _ _ => rfl) (fun _ _ => rfl) 1 one_pos
      (fun q _ => by rw [one_mul]; exact chiSquare_perm hp _) _ (fun _ _ => rfl)
  | some t0s =>
    exact (fit_fixed hd hP (ht _ rfl)).transfer (fit_fixed hd' hP (ht _ rfl)) id id (fun _ h => h) (fun _ h => h) (fun _ _ => rfl)
      (fun _ _ => rfl) 1 one_pos (fun q _ => by rw [one_mul]; exact chiSquare_perm hp _) _ (fun _ _ => rfl)

/-- Turning the coefficients of a sine and a cosine by the phase gained in a time `d`. -/
noncomputable def turn (d P : ℝ) (p : ℝ × ℝ) : ℝ × ℝ :=
  (p.1 * cos (2 * π * d / P) + p.2 * sin (2 * π * d / P), -p.1 * sin (2 * π * d / P) + p.2 * cos (2 * π * d / P))

theorem turn_turn (d P : ℝ) (p : ℝ × ℝ) : turn (-d) P (turn d P p) = p := by
  have e : 2 * π * -d / P = -(2 * π * d / P) := by ring
  unfold turn
  rw [e, cos_neg, sin_neg]
  have := sin_sq_add_cos_sq (2 * π * d / P)
  ext
  · simp only; linear_combination p.1 * this
  · simp only; linear_combination p.2 * this

theorem turns_turns (d : ℝ) : ∀ (periods : List ℝ) (ab : List (ℝ × ℝ)), ab.length = periods.length →
    List.zipWith (turn (-d)) periods (List.zipWith (turn d) periods ab) = ab := by
  intro periods
  induction periods with
  | nil => intro ab h; cases ab with | nil => rfl | cons => simp at h
  | cons P l ih =>
    intro ab h
    cases ab with
    | nil => simp at h
    | cons p ab => simp only [List.zipWith_cons_cons, turn_turn]; rw [ih ab (by simpa using h)]

theorem rvFree_turn (d c t : ℝ) : ∀ (periods : List ℝ) (ab : List (ℝ × ℝ)), (∀ P ∈ periods, P ≠ 0) →
    rvFree periods (List.zipWith (turn d) periods ab) c (t + d) = rvFree periods ab c t := by
  unfold rvFree
  intro periods
  induction periods with
  | nil => intro ab _; rfl
  | cons P l ih =>
    intro ab hP
    cases ab with
    | nil => rfl
    | cons p ab =>
      have := ih ab fun Q hQ => hP Q (by simp [hQ])
      simp only [List.zipWith_cons_cons, List.zip_cons_cons, List.map_cons, List.sum_cons] at this ⊢
      have e : 2 * π * (t + d) / P = 2 * π * t / P + 2 * π * d / P := by ring
      have hs := sin_sq_add_cos_sq (2 * π * d / P)
      have a1 : (turn d P p).1 = p.1 * cos (2 * π * d / P) + p.2 * sin (2 * π * d / P) := rfl
      have a2 : (turn d P p).2 = -p.1 * sin (2 * π * d / P) + p.2 * cos (2 * π * d / P) := rfl
      rw [e, sin_add, cos_add, a1, a2]
      linear_combination this + (p.1 * sin (2 * π * t / P) + p.2 * cos (2 * π * t / P)) * hs

theorem norm_turn (d P : ℝ) (p : ℝ × ℝ) : (turn d P p).1 ^ 2 + (turn d P p).2 ^ 2 = p.1 ^ 2 + p.2 ^ 2 := by
  have hs := sin_sq_add_cos_sq (2 * π * d / P)
  unfold turn
  simp only
  linear_combination (p.1 ^ 2 + p.2 ^ 2) * hs

theorem norms_turn (d : ℝ) : ∀ (periods : List ℝ) (ab : List (ℝ × ℝ)), ab.length = periods.length →
    (List.zipWith (turn d) periods ab).map (fun p => √(p.1 ^ 2 + p.2 ^ 2)) = ab.map fun p => √(p.1 ^ 2 + p.2 ^ 2) := by
  intro periods
  induction periods with
  | nil => intro ab h; cases ab with | nil => rfl | cons => simp at h
  | cons P l ih =>
    intro ab h
    cases ab with
    | nil => simp at h
    | cons p ab => simp only [List.zipWith_cons_cons, List.map_cons, norm_turn]; rw [ih ab (by simpa using h)]

theorem rvFixed_shift (periods K : List ℝ) (d c t : ℝ) : ∀ (t0s : List ℝ),
    rvFixed periods (t0s.map (· + d)) K c (t + d) = rvFixed periods t0s K c t := by
  intro t0s
  unfold rvFixed
  rw [List.zip_map_right, List.zip_map_left, List.map_map]
  congr 2
  refine List.map_congr_left fun q _ => ?_
  simp

/-- C90. The origin of time (BJD, BJD - 2450000, days since the first exposure, ...) does not matter, provided the reference times are
measured from it too. -/
theorem C90_origin_of_time (periods x y : List ℝ) (yerr t0s : Option (List ℝ)) (d : ℝ) (hd : GoodData x y yerr)
    (hP : ∀ P ∈ periods, P ≠ 0) (ht : ∀ l, t0s = some l → l.length = periods.length) :
    estimateSemiAmplitude periods (x.map (· + d)) y yerr (t0s.map (List.map (· + d))) = estimateSemiAmplitude periods x y yerr t0s ∧
      ∀ m, estimateMinimumMass periods (x.map (· + d)) y yerr (t0s.map (List.map (· + d))) m =
        estimateMinimumMass periods x y yerr t0s m := by
  suffices h : estimateSemiAmplitude periods (x.map (· + d)) y yerr (t0s.map (List.map (· + d))) =
    estimateSemiAmplitude periods x y yerr t0s from ⟨h, minimumMass_congr h⟩
  rw [← map_id_except (estimateSemiAmplitude periods x y yerr t0s)]
  have hd' : GoodData (x.map (· + d)) y yerr := ⟨by simp [hd.lenY], by simp [hd.lenS], hd.errNe⟩
  cases t0s with
  | none =>
    exact (fit_free hd hP).transfer (fit_free hd' hP) (fun q => (List.zipWith (turn d) periods q.1, q.2))
      (fun q => (List.zipWith (turn (-d)) periods q.1, q.2)) (fun q h => by simp [h]) (fun q h => by simp [h])
      (fun q h => by simp only [turns_turns d periods q.1 h])
      (fun q h => by
        have := turns_turns (-d) periods q.1 h
        rw [neg_neg] at this
        simp only [this]) 1 one_pos
      (fun q _ => by rw [one_mul]; exact chiSquare_shift _ _ _ _ _ fun t => rvFree_turn d q.2 t periods q.1 hP) _
      (fun q h => norms_turn d periods q.1 h)
  | some t0s =>
    refine (fit_fixed hd hP (ht _ rfl)).transfer (fit_fixed hd' hP (by simpa using ht _ rfl)) id id (fun _ h => h) (fun _ h => h)
      (fun _ _ => rfl) (fun _ _ => rfl) 1 one_pos (fun q _ => ?_) _ (fun _ _ => rfl)
    rw [one_mul]
    exact chiSquare_shift _ _ _ _ _ fun t => rvFixed_shift _ _ _ _ _ _

/-- C90. The zero point of the velocities does not matter. -/
theorem C90_zero_point (periods x y : List ℝ) (yerr t0s : Option (List ℝ)) (d : ℝ) (hd : GoodData x y yerr)
    (hP : ∀ P ∈ periods, P ≠ 0) (ht : ∀ l, t0s = some l → l.length = periods.length) :
    estimateSemiAmplitude periods x (y.map (· + d)) yerr t0s = estimateSemiAmplitude periods x y yerr t0s ∧
      ∀ m, estimateMinimumMass periods x (y.map (· + d)) yerr t0s m = estimateMinimumMass periods x y yerr t0s m := by
  suffices h : estimateSemiAmplitude periods x (y.map (· + d)) yerr t0s = estimateSemiAmplitude periods x y yerr t0s from
    ⟨h, minimumMass_congr h⟩
  rw [← map_id_except (estimateSemiAmplitude periods x y yerr t0s)]
  have hd' : GoodData x (y.map (· + d)) yerr := ⟨by simp [hd.lenY], by rw [errs_map]; exact hd.lenS, by rw [errs_map]; exact hd.errNe⟩
  cases t0s with
  | none =>
    refine (fit_free hd hP).transfer (fit_free hd' hP) (fun q => (q.1, q.2 + d)) (fun q => (q.1, q.2 - d)) (fun _ h => h)
      (fun _ h => h) (fun q _ => by simp) (fun q _ => by simp) 1 one_pos (fun q _ => ?_) _ (fun _ _ => rfl)
    rw [one_mul, errs_map]
    exact chiSquare_offset _ _ _ _ _ _ fun t => by simp only [rvFree]; ring
  | some t0s =>
    refine (fit_fixed hd hP (ht _ rfl)).transfer (fit_fixed hd' hP (ht _ rfl)) (fun q => (q.1, q.2 + d)) (fun q => (q.1, q.2 - d))
      (fun _ h => h) (fun _ h => h) (fun q _ => by simp) (fun q _ => by simp) 1 one_pos (fun q _ => ?_) _ (fun _ _ => rfl)
    rw [one_mul, errs_map]
    exact chiSquare_offset _ _ _ _ _ _ fun t => by simp only [rvFixed]; ring

/-- C90. Only the ratios of the uncertainties matter (their signs and their common scale do not). -/
theorem C90_scale_of_the_uncertainties (periods x y yerr : List ℝ) (t0s : Option (List ℝ)) (k : ℝ) (hk : k ≠ 0)
    (hd : GoodData x y (some yerr)) (hP : ∀ P ∈ periods, P ≠ 0) (ht : ∀ l, t0s = some l → l.length = periods.length) :
    estimateSemiAmplitude periods x y (some (yerr.map (k * ·))) t0s = estimateSemiAmplitude periods x y (some yerr) t0s ∧
      ∀ m, estimateMinimumMass periods x y (some (yerr.map (k * ·))) t0s m = estimateMinimumMass periods x y (some yerr) t0s m := by
  suffices h : estimateSemiAmplitude periods x y (some (yerr.map (k * ·))) t0s = estimateSemiAmplitude periods x y (some yerr) t0s from
    ⟨h, minimumMass_congr h⟩
  rw [← map_id_except (estimateSemiAmplitude periods x y (some yerr) t0s)]
  have hd' : GoodData x y (some (yerr.map (k * ·))) := by
    refine ⟨hd.lenY, by simpa [errs] using hd.lenS, fun s hs => ?_⟩
    obtain ⟨r, hr, rfl⟩ := List.mem_map.1 (show s ∈ yerr.map (k * ·) from hs)
    exact mul_ne_zero hk (hd.errNe r hr)
  have hk2 : 0 < (k ^ 2)⁻¹ := by positivity
  cases t0s with
  | none =>
    exact (fit_free hd hP).transfer (fit_free hd' hP) id id (fun _ h => h) (fun _ h => h) (fun _ _ => rfl) (fun _ _ => rfl) _ hk2
      (fun q _ => chiSquare_errs _ _ _ _ _) _ (fun _ _ => rfl)
  | some t0s =>
    exact (fit_fixed hd hP (ht _ rfl)).transfer (fit_fixed hd' hP (ht _ rfl)) id id (fun _ h => h) (fun _ h => h) (fun _ _ => rfl)
      (fun _ _ => rfl) _ hk2 (fun q _ => chiSquare_errs _ _ _ _ _) _ (fun _ _ => rfl)

/-- C90. In particular, equal uncertainties are the same as none. -/
theorem C90_equal_uncertainties (periods x y : List ℝ) (t0s : Option (List ℝ)) (k : ℝ) (hk : k ≠ 0) (hl : y.length = x.length)
    (hP : ∀ P ∈ periods, P ≠ 0) (ht : ∀ l, t0s = some l → l.length = periods.length) :
    estimateSemiAmplitude periods x y (some (y.map fun _ => k)) t0s = estimateSemiAmplitude periods x y none t0s ∧
      ∀ m, estimateMinimumMass periods x y (some (y.map fun _ => k)) t0s m = estimateMinimumMass periods x y none t0s m := by
  have hd : GoodData x y (some (y.map fun _ => 1)) := ⟨hl, by simp [errs, hl], by simp [errs]⟩
  have hd0 : GoodData x y none := ⟨hl, by simp [errs, hl], by simp [errs]⟩
  have h1 := C90_scale_of_the_uncertainties periods x y (y.map fun _ => 1) t0s k hk hd hP ht
  have h2 := C90_order_of_the_data periods x y x y none (some (y.map fun _ => 1)) t0s hd0 hd hP ht (List.Perm.refl _)
  have e : (y.map fun _ => (1 : ℝ)).map (k * ·) = y.map fun _ => k := by simp
  rw [e] at h1
  exact ⟨h1.1.trans h2.1, fun m => (h1.2 m).trans (h2.2 m)⟩

/-! ## The order of the planets -/

theorem ofFn_getD {α : Type} {n : ℕ} (l : List α) (d : α) (h : l.length = n) : List.ofFn (fun i : Fin n => l.getD i d) = l := by
  subst h
  refine List.ext_getElem (by simp) fun i h1 h2 => ?_
  simp

theorem getD_ofFn {α : Type} {n : ℕ} (f : Fin n → α) (i : Fin n) (d : α) : (List.ofFn f).getD i d = f i := by
  simp

theorem zip_ofFn {α β : Type} {n : ℕ} (f : Fin n → α) (g : Fin n → β) : (List.ofFn f).zip (List.ofFn g) = List.ofFn fun i => (f i, g i) := by
  refine List.ext_getElem (by simp) fun i h1 h2 => ?_
  simp

theorem rvFree_ofFn {n : ℕ} (P : Fin n → ℝ) (a : Fin n → ℝ × ℝ) (c t : ℝ) : rvFree (List.ofFn P) (List.ofFn a) c t =
    ∑ i, ((a i).1 * sin (2 * π * t / P i) + (a i).2 * cos (2 * π * t / P i)) + c := by
  unfold rvFree
  rw [zip_ofFn, List.map_ofFn, List.sum_ofFn]
  rfl

theorem rvFixed_ofFn {n : ℕ} (P T K : Fin n → ℝ) (c t : ℝ) : rvFixed (List.ofFn P) (List.ofFn T) (List.ofFn K) c t =
    ∑ i, (-K i * sin (2 * π * (t - T i) / P i)) + c := by
  unfold rvFixed
  rw [zip_ofFn, zip_ofFn, List.map_ofFn, List.sum_ofFn]
  rfl

/-- The planets in another order. -/
def reorder {α : Type} {n : ℕ} (σ : Equiv.Perm (Fin n)) (d : α) (l : List α) : List α := List.ofFn fun i => l.getD (σ i) d

theorem reorder_reorder {α : Type} {n : ℕ} (σ τ : Equiv.Perm (Fin n)) (h : ∀ i, σ (τ i) = i) (d : α) (l : List α) (hl : l.length = n) :
    reorder τ d (reorder σ d l) = l := by
  unfold reorder
  rw [← ofFn_getD l d hl]
  congr 1
  funext i
  rw [getD_ofFn, h, getD_ofFn]

/-- C90. Listing the planets in another order only reorders the answer. -/
theorem C90_order_of_the_planets (n : ℕ) (σ : Equiv.Perm (Fin n)) (P : Fin n → ℝ) (x y : List ℝ) (yerr : Option (List ℝ))
    (T : Fin n → ℝ) (hd : GoodData x y yerr) (hP : ∀ i, P i ≠ 0) :
    estimateSemiAmplitude (List.ofFn (P ∘ σ)) x y yerr none =
      (estimateSemiAmplitude (List.ofFn P) x y yerr none).map (fun K => List.ofFn fun i => K.getD (σ i) 0) ∧
    estimateSemiAmplitude (List.ofFn (P ∘ σ)) x y yerr (some (List.ofFn (T ∘ σ))) =
      (estimateSemiAmplitude (List.ofFn P) x y yerr (some (List.ofFn T))).map fun K => List.ofFn fun i => K.getD (σ i) 0 := by
  have h1 : ∀ Q ∈ List.ofFn P, Q ≠ 0 := by
    intro Q hQ
    obtain ⟨i, rfl⟩ := (List.mem_ofFn' P Q).1 hQ
    exact hP i
  have h2 : ∀ Q ∈ List.ofFn (P ∘ σ), Q ≠ 0 := by
    intro Q hQ
    obtain ⟨i, rfl⟩ := (List.mem_ofFn' (P ∘ σ) Q).1 hQ
    exact hP _
  constructor
  · refine (fit_free hd h1).transfer (fit_free hd h2) (fun q => (reorder σ (0, 0) q.1, q.2)) (fun q => (reorder σ.symm (0, 0) q.1, q.2))
      (fun q h => by simp [reorder]) (fun q h => by simp [reorder]) (fun q h => ?_) (fun q h => ?_) 1 one_pos (fun q h => ?_) _ (fun q h => ?_)
    · rw [reorder_reorder _ _ (fun i => by simp) _ _ (by simpa using h)]
    · rw [reorder_reorder _ _ (fun i => by simp) _ _ (by simpa using h)]
    · rw [one_mul]
      obtain ⟨ab, c⟩ := q
      simp only [List.length_ofFn] at h
      congr 1
      funext t
      conv_rhs => rw [← ofFn_getD ab (0, 0) h]
      simp only
      unfold reorder
      rw [rvFree_ofFn, rvFree_ofFn]
      congr 1
      exact Equiv.sum_comp σ fun i => ((ab.getD i (0, 0)).1 * sin (2 * π * t / P i) + (ab.getD i (0, 0)).2 * cos (2 * π * t / P i))
    · unfold reorder
      rw [List.map_ofFn]
      congr 1
      funext i
      simp only [List.length_ofFn] at h
      have hi : (σ i : ℕ) < q.1.length := by rw [h]; exact (σ i).2
      simp [hi]
  · refine (fit_fixed hd h1 (by simp)).transfer (fit_fixed hd h2 (by simp)) (fun q => (reorder σ 0 q.1, q.2))
      (fun q => (reorder σ.symm 0 q.1, q.2)) (fun q h => by simp [reorder]) (fun q h => by simp [reorder]) (fun q h => ?_) (fun q h => ?_) 1
      one_pos (fun q h => ?_) _ (fun q h => rfl)
    · rw [reorder_reorder _ _ (fun i => by simp) _ _ (by simpa using h)]
    · rw [reorder_reorder _ _ (fun i => by simp) _ _ (by simpa using h)]
    · rw [one_mul]
      obtain ⟨K, c⟩ := q
      simp only [List.length_ofFn] at h
      congr 1
      funext t
      conv_rhs => rw [← ofFn_getD K 0 h]
      simp only
      unfold reorder
      rw [rvFixed_ofFn, rvFixed_ofFn]
      congr 1
      exact Equiv.sum_comp σ fun i => (-(K.getD i 0) * sin (2 * π * (t - T i) / P i))

/-! ## Another reference time -/

/-- C90. Any other transit may serve as `t0`: with `t0 + n P` the amplitudes are the same. With `t0` at the opposite phase (`n` odd halves of the
period) the amplitude changes sign. -/
theorem C90_which_transit (n : ℕ) (P T : Fin n → ℝ) (N : Fin n → ℤ) (x y : List ℝ) (yerr : Option (List ℝ)) (hd : GoodData x y yerr)
    (hP : ∀ i, P i ≠ 0) :
    estimateSemiAmplitude (List.ofFn P) x y yerr (some (List.ofFn fun i => T i + N i * (P i / 2))) =
      (estimateSemiAmplitude (List.ofFn P) x y yerr (some (List.ofFn T))).map fun K => List.ofFn fun i => (-1) ^ N i * K.getD i 0 := by
  have h1 : ∀ Q ∈ List.ofFn P, Q ≠ 0 := by
    intro Q hQ
    obtain ⟨i, rfl⟩ := (List.mem_ofFn' P Q).1 hQ
    exact hP i
  have hsq : ∀ i, ((-1 : ℝ) ^ N i) * (-1) ^ N i = 1 := fun i => by
    rw [← mul_zpow]; norm_num
  have hinv : ∀ K : List ℝ, K.length = n → (List.ofFn fun i : Fin n => (-1 : ℝ) ^ N i * (List.ofFn fun i : Fin n => (-1) ^ N i * K.getD i 0).getD i 0) = K := by
    intro K hK
    conv_rhs => rw [← ofFn_getD K 0 hK]
    congr 1
    funext i
    rw [getD_ofFn, ← mul_assoc, hsq, one_mul]
  refine (fit_fixed hd h1 (by simp)).transfer (fit_fixed hd h1 (by simp)) (fun q => (List.ofFn fun i => (-1) ^ N i * q.1.getD i 0, q.2))
    (fun q => (List.ofFn fun i => (-1) ^ N i * q.1.getD i 0, q.2)) (fun q h => by simp) (fun q h => by simp) (fun q h => ?_) (fun q h => ?_) 1
    one_pos (fun q h => ?_) _ (fun q h => rfl)
  · simp only [hinv q.1 (by simpa using h)]
  · simp only [hinv q.1 (by simpa using h)]
  · rw [one_mul]
    obtain ⟨K, c⟩ := q
    simp only [List.length_ofFn] at h
    congr 1
    funext t
    conv_rhs => rw [← ofFn_getD K 0 h]
    simp only
    rw [rvFixed_ofFn, rvFixed_ofFn]
    congr 1
    refine Finset.sum_congr rfl fun i _ => ?_
    have e : 2 * π * (t - (T i + N i * (P i / 2))) / P i = 2 * π * (t - T i) / P i - N i * π := by
      field_simp [hP i]
      ring
    rw [e, sin_sub_int_mul_pi]
    linear_combination -(K.getD i 0) * sin (2 * π * (t - T i) / P i) * hsq i

/-- Whole periods. -/
theorem C90_same_phase (n : ℕ) (P T : Fin n → ℝ) (N : Fin n → ℤ) (x y : List ℝ) (yerr : Option (List ℝ)) (hd : GoodData x y yerr)
    (hP : ∀ i, P i ≠ 0) :
    estimateSemiAmplitude (List.ofFn P) x y yerr (some (List.ofFn fun i => T i + N i * P i)) =
      estimateSemiAmplitude (List.ofFn P) x y yerr (some (List.ofFn T)) := by
  have h := C90_which_transit n P T (fun i => 2 * N i) x y yerr hd hP
  have e : (fun i => T i + ((2 * N i : ℤ) : ℝ) * (P i / 2)) = fun i => T i + N i * P i := by
    funext i
    push_cast
    ring
  rw [e] at h
  rw [h]
  cases hK : estimateSemiAmplitude (List.ofFn P) x y yerr (some (List.ofFn T)) with
  | error e => rfl
  | ok K =>
    have hl : K.length = n := by
      have := (C60_fixed_minimises (List.ofFn P) (List.ofFn T) x y yerr hd (by
        intro Q hQ
        obtain ⟨i, rfl⟩ := (List.mem_ofFn' P Q).1 hQ
        exact hP i) (by simp) K hK).1
      simpa using this
    simp only [Except.map]
    congr 1
    conv_rhs => rw [← ofFn_getD K 0 hl]
    congr 1
    funext i
    rw [zpow_mul]
    norm_num

/-! The hypotheses can be met, and the fit is not singular. -/

example : GoodData [0, 1, 2] [5, 7, -3] (some [1, 2, 1]) ∧ GoodData [2, 0, 1] [-3, 5, 7] (some [1, 1, 2]) ∧
    ([2, 0, 1].zip (([-3, 5, 7] : List ℝ).zip (errs [-3, 5, 7] (some [1, 1, 2])))).Perm
      (([0, 1, 2] : List ℝ).zip ([5, 7, -3].zip (errs [5, 7, -3] (some [1, 2, 1])))) ∧
    ∃ K, estimateSemiAmplitude [4] [0, 1, 2] [5, 7, -3] (some [1, 2, 1]) none = .ok K := by
  have hd : GoodData [0, 1, 2] [5, 7, -3] (some [1, 2, 1]) := ⟨rfl, rfl, by simp [errs]⟩
  refine ⟨hd, ⟨rfl, rfl, by simp [errs]⟩, ?_, ?_⟩
  · simp only [errs, Option.getD_some, List.zip_cons_cons, List.zip_nil_right]
    exact (List.perm_append_comm (l₁ := [((2 : ℝ), (-3 : ℝ), (1 : ℝ))]) (l₂ := [(0, 5, 1), (1, 7, 2)]))
  · cases h : estimateSemiAmplitude [4] [0, 1, 2] [5, 7, -3] (some [1, 2, 1]) none with
    | ok K => exact ⟨K, rfl⟩
    | error e =>
      obtain ⟨-, ab, c, h1, h2, h3⟩ := (C60_free_singular_iff _ _ _ _ hd (by simp) e).1 h
      obtain ⟨q1, q2⟩ := demo_determined.1 ab c h1 h3
      rcases h2 with h2 | ⟨p, hp, h2⟩
      · exact (h2 q1).elim
      · exact (h2 (q2 p hp)).elim

end Exo
