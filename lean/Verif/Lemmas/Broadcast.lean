import Verif.Lemmas.Tensor
import Verif.Model.System

/-!
# Broadcasting order and evaluation of graphs
-/

namespace Exo

/-- `u` broadcasts into `v` (both written from the last axis to the first). -/
inductive BLeR : List ℕ → List ℕ → Prop
  | nil (v : List ℕ) : BLeR [] v
  | cons {m n : ℕ} {u v : List ℕ} (h : m = n ∨ m = 1) (hr : BLeR u v) : BLeR (m :: u) (n :: v)

/-- `u` broadcasts into `v`. -/
def BLe (u v : List ℕ) : Prop := BLeR u.reverse v.reverse

theorem BLeR.refl (u : List ℕ) : BLeR u u := by
  induction u with
  | nil => exact .nil _
  | cons m u ih => exact .cons (Or.inl rfl) ih

theorem BLeR.trans {u v w : List ℕ} (h : BLeR u v) (h' : BLeR v w) : BLeR u w := by
  induction h generalizing w with
  | nil => exact .nil _
  | cons hm _ ih =>
    cases h' with
    | cons hn hr' =>
      refine .cons ?_ (ih hr')
      rcases hm with rfl | rfl
      · exact hn
      · exact Or.inr rfl

theorem BLeR.sup {u v w : List ℕ} (hu : BLeR u w) (hv : BLeR v w) : ∃ x, bcastRev u v = .ok x ∧ BLeR u x ∧ BLeR v x ∧ BLeR x w := by
  induction hu generalizing v with
  | nil w => exact ⟨v, by simp [bcastRev], .nil _, BLeR.refl v, hv⟩
  | @cons m n u w hm hr ih =>
    cases hv with
    | nil => exact ⟨m :: u, by simp [bcastRev], BLeR.refl _, .nil _, .cons hm hr⟩
    | @cons k _ v _ hk hvr =>
      obtain ⟨x, hx, h1, h2, h3⟩ := ih hvr
      by_cases hmk : m = k
      · exact ⟨m :: x, by simp [bcastRev, hmk, bcastDim_self, hx], .cons (Or.inl rfl) h1, .cons (Or.inl hmk.symm) h2, .cons hm h3⟩
      · by_cases hm1 : m = 1
        · exact ⟨k :: x, by simp [bcastRev, hm1, bcastDim_one_left, hx], .cons (Or.inr hm1) h1, .cons (Or.inl rfl) h2, .cons hk h3⟩
        · rcases hk with hk | hk
          · rcases hm with hm | hm
            · exact absurd (hm.trans hk.symm) hmk
            · exact absurd hm hm1
          · exact ⟨m :: x, by simp [bcastRev, hk, bcastDim_one_right, hx], .cons (Or.inl rfl) h1, .cons (Or.inr hk) h2, .cons hm h3⟩

theorem BLe.refl (u : List ℕ) : BLe u u := BLeR.refl _
theorem BLe.trans {u v w : List ℕ} (h : BLe u v) (h' : BLe v w) : BLe u w := BLeR.trans h h'
theorem BLe.nil (v : List ℕ) : BLe [] v := BLeR.nil _

theorem BLe.sup {u v w : List ℕ} (hu : BLe u w) (hv : BLe v w) : ∃ x, bcastShape u v = .ok x ∧ BLe u x ∧ BLe v x ∧ BLe x w := by
  obtain ⟨x, hx, h1, h2, h3⟩ := BLeR.sup hu hv
  exact ⟨x.reverse, by simp [bcastShape, hx], by simpa [BLe] using h1, by simpa [BLe] using h2, by simpa [BLe] using h3⟩

theorem BLe.length {u v : List ℕ} (h : BLe u v) : u.length ≤ v.length := by
  have : ∀ {u v : List ℕ}, BLeR u v → u.length ≤ v.length := by
    intro u v h
    induction h with
    | nil => simp
    | cons _ _ ih => simpa using ih
  simpa [BLe] using this h

/-- If two shapes broadcast into each other they are equal. -/
theorem BLe.antisymm {u v : List ℕ} (h : BLe u v) (h' : BLe v u) : u = v := by
  have : ∀ {u v : List ℕ}, BLeR u v → BLeR v u → u = v := by
    intro u v h
    induction h with
    | nil v => intro h'; cases h'; rfl
    | cons hm _ ih =>
      intro h'
      cases h' with
      | cons hn hr' =>
        rw [ih hr']
        congr 1
        rcases hm with h | h
        · exact h
        · rcases hn with h2 | h2
          · exact h2.symm
          · rw [h, h2]
  exact List.reverse_injective (this h h')

theorem bcastShape_of_ble {u v : List ℕ} (h : BLe u v) : bcastShape u v = .ok v := by
  obtain ⟨x, hx, _, h2, h3⟩ := BLe.sup h (BLe.refl v)
  rw [hx, BLe.antisymm h3 h2]

theorem ble_append (s : List ℕ) {u v : List ℕ} (h : BLe u v) : BLe u (s ++ v) := by
  have : ∀ {u v w : List ℕ}, BLeR u v → BLeR u (v ++ w) := by
    intro u v w h
    induction h with
    | nil => exact .nil _
    | cons hm _ ih => exact .cons hm ih
  simpa [BLe] using this (w := s.reverse) h

theorem ble_pad (s : List ℕ) (n : ℕ) : BLe (s ++ [1]) (s ++ [n]) := by
  simp only [BLe, List.reverse_append, List.reverse_singleton, List.singleton_append]
  exact .cons (Or.inr rfl) (BLeR.refl _)

/-- Between `s ++ [1]` and `s ++ [n]` there are only these two. -/
theorem ble_between {s w : List ℕ} {n : ℕ} (h : BLe (s ++ [1]) w) (h' : BLe w (s ++ [n])) :
    w = s ++ [1] ∨ w = s ++ [n] := by
  unfold BLe at h h'
  simp only [List.reverse_append, List.reverse_singleton, List.singleton_append] at h h'
  generalize hw : w.reverse = r at h h'
  cases h with
  | @cons _ k _ v hk hr =>
    cases h' with
    | cons hk' hr' =>
      have e : s = v.reverse := BLe.antisymm (by simpa [BLe] using hr) (by simpa [BLe] using hr')
      have ew : w = s ++ [k] := by
        rw [e, ← List.reverse_reverse w, hw]; simp
      rcases hk' with rfl | rfl
      · exact Or.inr ew
      · exact Or.inl ew

/-! ## Reading an entry through two broadcasts -/

/-- The index transformation of `Tensor.bget`. -/
def clipIdx (shape idx : List ℕ) : List ℕ :=
  List.zipWith (fun n i => if n = 1 then 0 else i) shape (idx.drop (idx.length - shape.length))

theorem Tensor.bget_eq {α : Type} (x : Tensor α) (idx : List ℕ) : x.bget idx = x.get (clipIdx x.shape idx) := rfl

/-- `clipIdx` from the last axis to the first. -/
theorem clipIdx_reverse {shape idx : List ℕ} (h : shape.length ≤ idx.length) :
    (clipIdx shape idx).reverse = List.zipWith (fun n i => if n = 1 then 0 else i) shape.reverse idx.reverse := by
  unfold clipIdx
  rw [List.reverse_zipWith (by rw [List.length_drop]; omega), List.reverse_drop]
  have : ∀ (a b : List ℕ), List.zipWith (fun n i => if n = 1 then 0 else i) a (b.take a.length) =
      List.zipWith (fun n i => if n = 1 then 0 else i) a b := by
    intro a
    induction a with
    | nil => simp
    | cons m a ih => intro b; cases b with
      | nil => simp
      | cons k b => simp [ih]
  rw [show idx.length - (idx.length - shape.length) = shape.reverse.length by rw [List.length_reverse]; omega]
  exact this _ _

theorem clipIdx_length {shape idx : List ℕ} (h : shape.length ≤ idx.length) : (clipIdx shape idx).length = shape.length := by
  unfold clipIdx
  rw [List.length_zipWith, List.length_drop]; omega

theorem clipIdx_clipIdx {u v idx : List ℕ} (h : BLe u v) (hl : v.length ≤ idx.length) :
    clipIdx u (clipIdx v idx) = clipIdx u idx := by
  have key : ∀ {u v : List ℕ}, BLeR u v → ∀ i : List ℕ, v.length ≤ i.length →
      List.zipWith (fun n i => if n = 1 then 0 else i) u (List.zipWith (fun n i => if n = 1 then 0 else i) v i) =
      List.zipWith (fun n i => if n = 1 then 0 else i) u i := by
    intro u v h
    induction h with
    | nil => simp
    | cons hm _ ih =>
      intro i hi
      cases i with
      | nil => simp at hi
      | cons k i =>
        simp only [List.zipWith_cons_cons]
        rw [ih i (by simpa using hi)]
        congr 1
        rcases hm with rfl | rfl
        · split <;> simp_all
        · simp
  apply List.reverse_injective
  rw [clipIdx_reverse (by rw [clipIdx_length hl]; exact h.length), clipIdx_reverse hl, clipIdx_reverse (h.length.trans hl)]
  exact key h _ (by simpa using hl)

/-- An entry of an array broadcast in two steps. -/
theorem Tensor.bget_clip {α : Type} {x : Tensor α} {v idx : List ℕ} (h : BLe x.shape v) (hl : v.length ≤ idx.length) :
    x.bget (clipIdx v idx) = x.bget idx := by
  rw [Tensor.bget_eq, Tensor.bget_eq, clipIdx_clipIdx h hl]

theorem clipIdx_inShape {u v idx : List ℕ} (h : BLe u v) (hi : InShape idx v) : InShape (clipIdx u idx) u := by
  have key : ∀ {u v : List ℕ}, BLeR u v → ∀ i : List ℕ, List.Forall₂ (· < ·) i v →
      List.Forall₂ (· < ·) (List.zipWith (fun n i => if n = 1 then 0 else i) u i) u := by
    intro u v h
    induction h with
    | nil => intros; simp
    | cons hm _ ih =>
      intro i hi
      cases hi with
      | cons hk hi' =>
        simp only [List.zipWith_cons_cons]
        refine .cons ?_ (ih _ hi')
        rcases hm with rfl | rfl
        · split
          · omega
          · exact hk
        · simp
  have h1 := key h idx.reverse (by
    have := List.rel_reverse hi
    simpa using this)
  have hl : u.length ≤ idx.length := by rw [hi.length]; exact h.length
  rw [← clipIdx_reverse hl] at h1
  have := List.rel_reverse h1
  simpa [InShape] using this

/-! ## Graphs -/

namespace Gr

/-- The value at an index that every broadcast computation must produce. -/
def val : Gr → List ℕ → ℝ
  | leaf x, idx => x.bget idx
  | map f x, idx => f (x.val idx)
  | zip f x y, idx => f (x.val idx) (y.val idx)
  | zip3 f x y z, idx => f (x.val idx) (y.val idx) (z.val idx)
  | same f x y, idx => f (x.val idx) (y.val idx)
  | padright x, idx => x.val idx.dropLast
  | squeeze x, idx => x.val idx
  | stack fs x, idx => fs.getD (idx.getLastD 0) id (x.val idx.dropLast)

/-- The graph evaluates, its shape broadcasts into `S`, and its entries are those of `val`. -/
def Good (S : List ℕ) (g : Gr) : Prop :=
  ∃ T, g.eval = .ok T ∧ BLe T.shape S ∧ ∀ idx, InShape idx S → T.bget idx = g.val idx

/-- The shape of `g` broadcasts into that of `h`; both evaluate. -/
def Le (g h : Gr) : Prop := ∃ T U, g.eval = .ok T ∧ h.eval = .ok U ∧ BLe T.shape U.shape

theorem Le.trans {g h k : Gr} (a : Le g h) (b : Le h k) : Le g k := by
  obtain ⟨T, U, hT, hU, h1⟩ := a
  obtain ⟨U', V, hU', hV, h2⟩ := b
  rw [hU] at hU'; cases hU'
  exact ⟨T, V, hT, hV, h1.trans h2⟩

theorem Good.le_refl {S : List ℕ} {g : Gr} (h : Good S g) : Le g g := by
  obtain ⟨T, hT, _⟩ := h
  exact ⟨T, T, hT, hT, BLe.refl _⟩

theorem good_leaf {S : List ℕ} {x : Tensor ℝ} (h : BLe x.shape S) : Good S (leaf x) := ⟨x, rfl, h, fun _ _ => rfl⟩

theorem good_num (S : List ℕ) (c : ℝ) : Good S (num c) := good_leaf (BLe.nil S)

theorem good_map {S : List ℕ} {x : Gr} (f : ℝ → ℝ) (h : Good S x) : Good S (map f x) := by
  obtain ⟨T, hT, h1, h2⟩ := h
  exact ⟨T.map f, by simp [eval, hT], h1, fun idx hi => by rw [val, ← h2 idx hi]; rfl⟩

theorem le_map {S : List ℕ} {x : Gr} (f : ℝ → ℝ) (h : Good S x) : Le x (map f x) := by
  obtain ⟨T, hT, h1, h2⟩ := h
  exact ⟨T, T.map f, hT, by simp [eval, hT], BLe.refl _⟩

theorem map_le {S : List ℕ} {x : Gr} (f : ℝ → ℝ) (h : Good S x) : Le (map f x) x := by
  obtain ⟨T, hT, h1, h2⟩ := h
  exact ⟨T.map f, T, by simp [eval, hT], hT, BLe.refl _⟩

theorem zip_spec {S : List ℕ} {x y : Gr} (f : ℝ → ℝ → ℝ) (hx : Good S x) (hy : Good S y) :
    Good S (zip f x y) ∧ Le x (zip f x y) ∧ Le y (zip f x y) := by
  obtain ⟨X, hX, h1, h2⟩ := hx
  obtain ⟨Y, hY, h3, h4⟩ := hy
  obtain ⟨w, hw, b1, b2, b3⟩ := BLe.sup h1 h3
  have e : (zip f x y).eval = .ok ⟨w, fun idx => f (X.bget idx) (Y.bget idx)⟩ := by
    simp [eval, hX, hY, Tensor.zipB_ok hw]
  refine ⟨⟨_, e, b3, fun idx hi => ?_⟩, ⟨X, _, hX, e, b1⟩, ⟨Y, _, hY, e, b2⟩⟩
  rw [val, ← h2 idx hi, ← h4 idx hi, Tensor.bget_eq]
  have hl : w.length ≤ idx.length := by rw [hi.length]; exact b3.length
  simp only
  rw [Tensor.bget_clip b1 hl, Tensor.bget_clip b2 hl]

theorem good_zip {S : List ℕ} {x y : Gr} (f : ℝ → ℝ → ℝ) (hx : Good S x) (hy : Good S y) : Good S (zip f x y) :=
  (zip_spec f hx hy).1

theorem le_zip_left {S : List ℕ} {x y : Gr} (f : ℝ → ℝ → ℝ) (hx : Good S x) (hy : Good S y) : Le x (zip f x y) :=
  (zip_spec f hx hy).2.1

theorem le_zip_right {S : List ℕ} {x y : Gr} (f : ℝ → ℝ → ℝ) (hx : Good S x) (hy : Good S y) : Le y (zip f x y) :=
  (zip_spec f hx hy).2.2

theorem zip3_spec {S : List ℕ} {x y z : Gr} (f : ℝ → ℝ → ℝ → ℝ) (hx : Good S x) (hy : Good S y) (hz : Good S z) :
    Good S (zip3 f x y z) ∧ Le x (zip3 f x y z) := by
  obtain ⟨X, hX, h1, h2⟩ := hx
  obtain ⟨Y, hY, h3, h4⟩ := hy
  obtain ⟨Z, hZ, h5, h6⟩ := hz
  obtain ⟨w, hw, b1, b2, b3⟩ := BLe.sup h1 h3
  obtain ⟨w', hw', c1, c2, c3⟩ := BLe.sup b3 h5
  have e : (zip3 f x y z).eval = .ok ⟨w', fun idx => f (X.bget (clipIdx w idx)) (Y.bget (clipIdx w idx)) (Z.bget idx)⟩ := by
    simp only [eval, hX, hY, hZ, Tensor.zipB_ok hw]
    rw [Tensor.zipB_ok (by simpa using hw')]
    rfl
  refine ⟨⟨_, e, c3, fun idx hi => ?_⟩, ⟨X, _, hX, e, b1.trans c1⟩⟩
  have hl : w'.length ≤ idx.length := by rw [hi.length]; exact c3.length
  have hl2 : w.length ≤ idx.length := by rw [hi.length]; exact b3.length
  rw [val, ← h2 idx hi, ← h4 idx hi, ← h6 idx hi, Tensor.bget_eq]
  simp only
  rw [clipIdx_clipIdx c1 hl, Tensor.bget_clip b1 hl2, Tensor.bget_clip b2 hl2, Tensor.bget_clip c2 hl]

/-- The compiled operation: the second argument is `y + zeros_like(x)`. -/
theorem good_same {S : List ℕ} {x y : Gr} (f : ℝ → ℝ → ℝ) (hx : Good S x) (hy : Good S y) (hl : Le y x) :
    Good S (same f x (y + x.zerosLike)) ∧ Le x (same f x (y + x.zerosLike)) := by
  have hz : Good S x.zerosLike := good_map _ hx
  have hg : Good S (y + x.zerosLike) := good_zip _ hy hz
  have h1 : Le x (y + x.zerosLike) := (le_map _ hx).trans (le_zip_right _ hy hz)
  have h2 : Le (y + x.zerosLike) x := by
    obtain ⟨Y, X, hY, hX, hb⟩ := hl
    have e : (y + x.zerosLike).eval = Y.zipB (· + ·) (X.map fun _ => 0) := by
      show (zip _ _ _).eval = _
      simp [eval, hY, zerosLike, hX]
    rw [Tensor.zipB_ok (y := X.map fun _ => 0) (s := X.shape) (bcastShape_of_ble hb)] at e
    exact ⟨_, X, e, hX, BLe.refl _⟩
  obtain ⟨X, W, hX, hW, b1⟩ := h1
  obtain ⟨W', X', hW', hX', b2⟩ := h2
  rw [hX] at hX'; cases hX'
  rw [hW] at hW'; cases hW'
  have hs : X.shape = W.shape := BLe.antisymm b1 b2
  obtain ⟨T, hT, g1, g2⟩ := hx
  rw [hX] at hT; cases hT
  obtain ⟨T, hT, g3, g4⟩ := hg
  rw [hW] at hT; cases hT
  generalize y + x.zerosLike = w at hW g4 ⊢
  have e : (same f x w).eval = .ok ⟨X.shape, fun idx => f (X.get idx) (W.get idx)⟩ := by
    simp only [eval, hX, hW]
    rw [if_pos hs]
  refine ⟨⟨_, e, g1, fun idx hi => ?_⟩, ⟨X, _, hX, e, BLe.refl _⟩⟩
  rw [val, ← g2 idx hi, ← g4 idx hi, Tensor.bget_eq, Tensor.bget_eq, Tensor.bget_eq, ← hs]

/-- The padded array of times. -/
theorem good_padright {x : Gr} {T : Tensor ℝ} (h : x.eval = .ok T) (hv : ∀ idx, InShape idx T.shape → T.get idx = x.val idx) (n : ℕ) :
    Good (T.shape ++ [n]) x.padright := by
  refine ⟨T.padright 1, by simp [eval, h], by simpa [Tensor.padright] using ble_pad T.shape n, fun idx hi => ?_⟩
  obtain ⟨i, k, rfl, h1, _⟩ := hi.snoc_inv
  rw [Tensor.bget_padright h1, val, List.dropLast_concat, hv i h1]

/-- The stacked lookups. -/
theorem good_stack {x : Gr} {T : Tensor ℝ} (h : x.eval = .ok T) (hv : ∀ idx, InShape idx T.shape → T.get idx = x.val idx)
    (fs : List (ℝ → ℝ)) : Good (T.shape ++ [fs.length]) (stack fs x) := by
  have e : (stack fs x).eval = .ok ⟨T.shape ++ [fs.length], fun idx => fs.getD (idx.getLastD 0) id (T.get idx.dropLast)⟩ := by
    simp only [eval, h]
  refine ⟨_, e, BLe.refl _, fun idx hi => ?_⟩
  rw [Tensor.bget_self hi]
  obtain ⟨i, k, rfl, h1, _⟩ := hi.snoc_inv
  simp only [val, List.dropLast_concat]
  rw [hv i h1]

end Gr
end Exo
