import Verif.Model.Tensor
import Mathlib.Data.List.Forall2
import Mathlib.Data.List.GetD
import Mathlib.Tactic.Ring
import Mathlib.Tactic.Linarith

/-!
# Lemmas on arrays
-/

namespace Exo

/-! ## Shapes -/

theorem bcastDim_one_left (n : ℕ) : bcastDim 1 n = .ok n := by
  unfold bcastDim
  by_cases h : 1 = n
  · simp [← h]
  · simp [h]
theorem bcastDim_one_right (n : ℕ) : bcastDim n 1 = .ok n := by
  unfold bcastDim
  by_cases h : n = 1
  · simp [h]
  · simp [h]
theorem bcastDim_self (n : ℕ) : bcastDim n n = .ok n := by unfold bcastDim; simp

theorem bcastRev_nil_right (u : List ℕ) : bcastRev u [] = .ok u := by cases u <;> rfl

theorem bcastRev_self (u : List ℕ) : bcastRev u u = .ok u := by
  induction u with
  | nil => rfl
  | cons m u ih => simp [bcastRev, bcastDim_self, ih]

theorem bcastRev_ones_left (u : List ℕ) : bcastRev (List.replicate u.length 1) u = .ok u := by
  induction u with
  | nil => rfl
  | cons m u ih => simp [List.replicate, bcastRev, bcastDim_one_left, ih]

theorem bcastShape_self (u : List ℕ) : bcastShape u u = .ok u := by simp [bcastShape, bcastRev_self]

theorem bcastShape_nil_left (u : List ℕ) : bcastShape [] u = .ok u := by simp [bcastShape, bcastRev]

theorem bcastShape_row (s : List ℕ) (n : ℕ) : bcastShape (s ++ [1]) [n] = .ok (s ++ [n]) := by
  simp [bcastShape, bcastRev, bcastDim_one_left, bcastRev_nil_right]

theorem bcastShape_full (s : List ℕ) (n : ℕ) : bcastShape (s ++ [1]) (s ++ [n]) = .ok (s ++ [n]) := by
  simp [bcastShape, bcastRev, bcastDim_one_left, bcastRev_self]

theorem bcastShape_outer (s : List ℕ) (n : ℕ) :
    bcastShape (List.replicate s.length 1 ++ [n]) (s ++ [1]) = .ok (s ++ [n]) := by
  have h := bcastRev_ones_left s.reverse
  rw [List.length_reverse] at h
  simp [bcastShape, bcastRev, bcastDim_one_right, h]

theorem bcastShape_weights (s : List ℕ) (n p : ℕ) :
    bcastShape (List.replicate s.length 1 ++ [n] ++ [1]) (s ++ [n] ++ [p]) = .ok (s ++ [n] ++ [p]) := by
  have h := bcastRev_ones_left s.reverse
  rw [List.length_reverse] at h
  simp [bcastShape, bcastRev, bcastDim_one_left, bcastDim_self, h]

/-! ## Indices -/

theorem InShape.length {idx s : List ℕ} (h : InShape idx s) : idx.length = s.length := List.Forall₂.length_eq h

theorem inShape_append {i j s u : List ℕ} (h : InShape i s) (h' : InShape j u) : InShape (i ++ j) (s ++ u) := by
  unfold InShape at *
  exact List.rel_append h h'

theorem inShape_singleton {k n : ℕ} : InShape [k] [n] ↔ k < n := by simp [InShape]

theorem inShape_snoc {i s : List ℕ} {k n : ℕ} (h : InShape i s) (hk : k < n) : InShape (i ++ [k]) (s ++ [n]) :=
  inShape_append h (inShape_singleton.2 hk)

theorem InShape.append_inv {idx s u : List ℕ} (h : InShape idx (s ++ u)) :
    ∃ i j, idx = i ++ j ∧ InShape i s ∧ InShape j u := by
  refine ⟨idx.take s.length, idx.drop s.length, (List.take_append_drop _ _).symm, ?_, ?_⟩
  · have := List.forall₂_take s.length h
    simpa [InShape] using this
  · have := List.forall₂_drop s.length h
    simpa [InShape] using this

theorem InShape.snoc_inv {idx s : List ℕ} {n : ℕ} (h : InShape idx (s ++ [n])) :
    ∃ i k, idx = i ++ [k] ∧ InShape i s ∧ k < n := by
  obtain ⟨i, j, rfl, h1, h2⟩ := h.append_inv
  cases h2 with
  | cons hk h2 => cases h2; exact ⟨i, _, rfl, h1, hk⟩

/-- Replacing the index of an axis of length one by zero changes nothing. -/
theorem clip_eq {idx s : List ℕ} (h : InShape idx s) :
    List.zipWith (fun n i => if n = 1 then 0 else i) s idx = idx := by
  unfold InShape at h
  induction h with
  | nil => rfl
  | @cons a b l₁ l₂ hab _ ih =>
    simp only [List.zipWith_cons_cons, ih]
    congr 1
    split_ifs with h1
    · omega
    · rfl

theorem clip_ones (l : List ℕ) : List.zipWith (fun n i => if n = 1 then 0 else i) (List.replicate l.length 1) l =
    List.replicate l.length 0 := by
  induction l with
  | nil => rfl
  | cons a l ih => simp [List.replicate, ih]

namespace Tensor
variable {α β γ : Type}

theorem bget_self {x : Tensor α} {idx : List ℕ} (h : InShape idx x.shape) : x.bget idx = x.get idx := by
  unfold bget
  rw [h.length, Nat.sub_self, List.drop_zero, clip_eq h]

theorem bget_scalar {x : Tensor α} (hx : x.shape = []) (idx : List ℕ) : x.bget idx = x.get [] := by
  unfold bget; rw [hx]; simp

theorem bget_padright {x : Tensor α} {i : List ℕ} (h : InShape i x.shape) (k : ℕ) :
    (x.padright 1).bget (i ++ [k]) = x.get i := by
  unfold bget padright
  simp only [List.replicate_one, List.length_append, List.length_singleton, h.length, Nat.sub_self, List.drop_zero]
  rw [List.zipWith_append (h := h.length.symm), clip_eq h, ← h.length, List.take_left']
  rfl

theorem bget_row {v : Tensor α} {n : ℕ} (hv : v.shape = [n]) (i : List ℕ) {k : ℕ} (hk : k < n) :
    v.bget (i ++ [k]) = v.get [k] := by
  unfold bget
  rw [hv]
  simp only [List.length_append, List.length_singleton, Nat.add_sub_cancel, List.drop_left']
  congr 1
  exact clip_eq (inShape_singleton.2 hk)

theorem bget_padleft {v : Tensor α} {n m : ℕ} (hv : v.shape = [n]) {i : List ℕ} (hi : i.length = m) {k : ℕ} (hk : k < n) :
    (v.padleft m).bget (i ++ [k]) = v.get [k] := by
  subst hi
  unfold bget padleft
  rw [hv]
  simp only [List.length_append, List.length_singleton, List.length_replicate, Nat.sub_self, List.drop_zero]
  rw [List.zipWith_append (h := by simp), clip_ones, clip_eq (inShape_singleton.2 hk), List.drop_left' (by simp)]

theorem bget_weights {v : Tensor α} {n m : ℕ} (hv : v.shape = [n]) {i : List ℕ} (hi : i.length = m) {k : ℕ} (hk : k < n)
    (p : ℕ) : ((v.padleft m).padright 1).bget (i ++ [k] ++ [p]) = v.get [k] := by
  subst hi
  unfold bget padright padleft
  rw [hv]
  simp only [List.length_append, List.length_singleton, List.length_replicate, Nat.sub_self, List.drop_zero,
    List.replicate_one]
  rw [List.zipWith_append (h := by simp), List.zipWith_append (h := by simp), clip_ones,
    clip_eq (inShape_singleton.2 hk), List.take_left' (by simp), List.drop_left' (by simp)]

theorem zipB_ok {f : α → β → γ} {x : Tensor α} {y : Tensor β} {s : List ℕ} (h : bcastShape x.shape y.shape = .ok s) :
    x.zipB f y = .ok ⟨s, fun idx => f (x.bget idx) (y.bget idx)⟩ := by
  unfold zipB; rw [h]

/-! ## Squeeze and reshape -/

theorem squeezeShape_prod (s : List ℕ) : (squeezeShape s).prod = s.prod := by
  unfold squeezeShape
  induction s with
  | nil => rfl
  | cons n s ih =>
    by_cases h : n = 1
    · rw [List.filter_cons_of_neg (by simp [h]), ih, h, List.prod_cons, Nat.one_mul]
    · rw [List.filter_cons_of_pos (by simp [h]), List.prod_cons, List.prod_cons, ih]

theorem ravel_lt {idx s : List ℕ} (h : InShape idx s) : ravel s idx < s.prod := by
  unfold InShape at h
  induction h with
  | nil => simp [ravel]
  | @cons a b l₁ l₂ hab _ ih =>
    simp only [ravel, List.prod_cons]
    calc a * l₂.prod + ravel l₂ l₁ < a * l₂.prod + l₂.prod := by omega
      _ = (a + 1) * l₂.prod := by ring
      _ ≤ b * l₂.prod := Nat.mul_le_mul_right _ hab

theorem unravel_ravel {idx s : List ℕ} (h : InShape idx s) : unravel s (ravel s idx) = idx := by
  unfold InShape at h
  induction h with
  | nil => rfl
  | @cons a b l₁ l₂ hab hl ih =>
    have := ravel_lt hl
    simp only [ravel, unravel]
    rw [Nat.add_comm, Nat.add_mul_div_right _ _ (by omega), Nat.div_eq_of_lt this, Nat.add_mul_mod_self_right,
      Nat.mod_eq_of_lt this, ih, Nat.zero_add]

theorem unsqueeze_unravel {idx s : List ℕ} (h : InShape idx s) :
    unsqueeze s (unravel (squeezeShape s) (ravel s idx)) = idx := by
  unfold InShape at h
  induction h with
  | nil => rfl
  | @cons a b l₁ l₂ hab hl ih =>
    have hlt := ravel_lt hl
    by_cases hb : b = 1
    · subst hb
      have ha : a = 0 := by omega
      subst ha
      simp only [ravel, Nat.zero_mul, Nat.zero_add, unsqueeze, if_true]
      rw [show squeezeShape (1 :: l₂) = squeezeShape l₂ by simp [squeezeShape], ih]
    · simp only [ravel, unsqueeze, if_neg hb]
      rw [show squeezeShape (b :: l₂) = b :: squeezeShape l₂ by simp [squeezeShape, hb]]
      simp only [unravel, squeezeShape_prod, List.headD_cons, List.tail_cons]
      rw [Nat.add_comm, Nat.add_mul_div_right _ _ (by omega), Nat.div_eq_of_lt hlt, Nat.add_mul_mod_self_right,
        Nat.mod_eq_of_lt hlt, ih, Nat.zero_add]

/-- Reshaping a squeezed array to its original shape gives it back. -/
theorem reshape_squeeze (x : Tensor α) (f : α → β) : ∃ y, (x.squeeze.map f).reshape x.shape = .ok y ∧ y.shape = x.shape ∧
    ∀ idx, InShape idx x.shape → y.get idx = f (x.get idx) := by
  unfold reshape
  rw [if_pos (by simp [map, squeeze, squeezeShape_prod])]
  refine ⟨_, rfl, rfl, fun idx h => ?_⟩
  simp only [map, squeeze]
  rw [unsqueeze_unravel h]

/-- The entries in C order of a reshaped array. -/
theorem reshape_flat (x : Tensor α) : ∃ y, x.reshape [x.size] = .ok y ∧ y.shape = [x.size] ∧
    ∀ k, y.get [k] = x.get (unravel x.shape k) := by
  unfold reshape
  rw [if_pos (by simp [size])]
  refine ⟨_, rfl, rfl, fun k => ?_⟩
  simp [ravel]

theorem insertIdx_end (i : List ℕ) (q k : ℕ) : (i ++ [q]).insertIdx i.length k = i ++ ([k] ++ [q]) := by
  induction i with
  | nil => rfl
  | cons a i ih => simpa using ih

theorem sumAxis_last_but_one {x : Tensor ℝ} {s : List ℕ} {n p : ℕ} (hx : x.shape = s ++ [n] ++ [p]) :
    (x.sumAxis s.length).shape = s ++ [p] ∧ ∀ i q, InShape i s →
      (x.sumAxis s.length).get (i ++ [q]) = ((List.range n).map (fun k => x.get (i ++ [k] ++ [q]))).sum := by
  constructor
  · unfold sumAxis
    simp only
    rw [hx, List.append_assoc, List.eraseIdx_append_of_length_le le_rfl]
    simp
  · intro i q hi
    unfold sumAxis
    simp only
    have h1 : x.shape.getD s.length 0 = n := by rw [hx]; simp
    rw [h1]
    congr 1
    refine List.map_congr_left fun k _ => ?_
    congr 1
    rw [← hi.length, List.append_assoc]
    exact insertIdx_end i q k

theorem toList_vec {x : Tensor α} {n : ℕ} (hx : x.shape = [n]) : x.toList = (List.range n).map (fun k => x.get [k]) := by
  unfold toList size
  rw [hx]
  simp [unravel]

end Tensor
end Exo
