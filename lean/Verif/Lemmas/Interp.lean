import Verif.Model.Interp
import Verif.Spec.Interp
import Verif.Lemmas.Tensor
import Verif.Lemmas.Interpolated
import Mathlib.Algebra.BigOperators.Ring.List
import Mathlib.Data.List.GetD
import Mathlib.Tactic.Linarith
import Mathlib.Tactic.Ring
import Mathlib.Tactic.FieldSimp
import Mathlib.Tactic.Positivity

/-!
# Lemmas on grid interpolation
-/

namespace Exo
open Tensor

/-! ## searchsorted -/

theorem ss_cons (e : ℝ) (l : List ℝ) (t : ℝ) :
    searchsortedLeft (e :: l) t = if e < t then searchsortedLeft l t + 1 else searchsortedLeft l t := by
  unfold searchsortedLeft
  by_cases h : e < t <;> simp [h]

theorem ss_le (l : List ℝ) (t : ℝ) : searchsortedLeft l t ≤ l.length := List.length_filter_le _ _

theorem ss_below {l : List ℝ} (hl : l.Pairwise (· < ·)) (t : ℝ) {j : ℕ} (hj : j < searchsortedLeft l t) : l.getD j 0 < t := by
  induction l generalizing j with
  | nil => simp [searchsortedLeft] at hj
  | cons e l ih =>
    rw [List.pairwise_cons] at hl
    rw [ss_cons] at hj
    by_cases h : e < t
    · cases j with
      | zero => simpa using h
      | succ j => rw [if_pos h] at hj; simpa using ih hl.2 (by omega)
    · rw [if_neg h] at hj
      exfalso
      have := ih hl.2 (j := 0) (by omega)
      cases l with
      | nil => simp [searchsortedLeft] at hj
      | cons a l => simp at this; have := hl.1 a (by simp); linarith

theorem ss_above {l : List ℝ} (hl : l.Pairwise (· < ·)) (t : ℝ) {j : ℕ} (hj : searchsortedLeft l t ≤ j) (hj' : j < l.length) :
    t ≤ l.getD j 0 := by
  induction l generalizing j with
  | nil => simp at hj'
  | cons e l ih =>
    rw [List.pairwise_cons] at hl
    rw [ss_cons] at hj
    by_cases h : e < t
    · rw [if_pos h] at hj
      obtain ⟨j, rfl⟩ : ∃ k, j = k + 1 := ⟨j - 1, by omega⟩
      simpa using ih hl.2 (by omega) (by simpa using hj')
    · rw [if_neg h] at hj
      cases j with
      | zero => simpa using h
      | succ j =>
        have hj2 : j < l.length := by simpa using hj'
        have := hl.1 (l.getD j 0) (by rw [List.getD_eq_getElem _ _ hj2]; exact List.getElem_mem hj2)
        simp only [List.getD_cons_succ]
        linarith

/-! ## One axis -/

/-- The cell index as a natural number. -/
noncomputable def cellIdx (g : List ℝ) (x : ℝ) : ℕ := (gridClip g (gridInsert g x)).toNat

theorem gridClip_eq {g : List ℝ} (hg : 2 ≤ g.length) (x : ℝ) : gridClip g (gridInsert g x) = (cellIdx g x : ℤ) := by
  unfold cellIdx
  rw [Int.toNat_of_nonneg]
  unfold gridClip clipInt
  split
  · omega
  · split <;> omega

theorem cellIdx_lt {g : List ℝ} (hg : 2 ≤ g.length) (x : ℝ) : cellIdx g x + 1 < g.length := by
  have h := gridClip_eq hg x
  unfold gridClip clipInt at h
  split at h
  · omega
  · split at h <;> omega

theorem cellIdx_spec {g : List ℝ} (hg : IsGrid g) (x : ℝ) : CellOf g x (cellIdx g x) := by
  have hlt := cellIdx_lt hg.1 x
  have h := gridClip_eq hg.1 x
  have hle := ss_le g x
  unfold gridClip clipInt gridInsert at h
  refine ⟨hlt, ?_, ?_⟩
  · split at h
    · right; omega
    · split at h
      · left; exact (ss_below hg.2 x (by omega)).le
      · left; exact (ss_below hg.2 x (by omega)).le
  · split at h
    · left; exact ss_above hg.2 x (by omega) (by omega)
    · split at h
      · right; omega
      · left; exact ss_above hg.2 x (by omega) (by omega)

/-- The normalised distance. -/
noncomputable def cellDist (g : List ℝ) (x : ℝ) : ℝ :=
  (x - g.getD (cellIdx g x) 0) / (g.getD (cellIdx g x + 1) 0 - g.getD (cellIdx g x) 0)

theorem pyIndex_nat {α : Type} (v : List α) (k : ℕ) (hk : k < v.length) (d : α) : pyIndex v (k : ℤ) = .ok (v.getD k d) := by
  unfold pyIndex
  simp [hk, show ¬ ((k : ℤ) < 0) by omega]

theorem gridDistance_eq {g : List ℝ} (hg : 2 ≤ g.length) (x : ℝ) :
    gridDistance g x (gridClip g (gridInsert g x)) = .ok (cellDist g x) := by
  have h := cellIdx_lt hg x
  unfold gridDistance
  rw [gridClip_eq hg, pyIndex_nat g _ (by omega) 0, show (cellIdx g x : ℤ) + 1 = ((cellIdx g x + 1 : ℕ) : ℤ) by push_cast; rfl,
    pyIndex_nat g _ h 0]
  rfl

theorem getD_lt {g : List ℝ} (hg : g.Pairwise (· < ·)) {i j : ℕ} (hij : i < j) (hj : j < g.length) :
    g.getD i 0 < g.getD j 0 := by
  rw [List.getD_eq_getElem _ _ (by omega), List.getD_eq_getElem _ _ hj]
  exact List.pairwise_iff_getElem.1 hg _ _ _ _ hij

/-! ## Elementwise operations that may raise -/

theorem inShape_unravel : ∀ (s : List ℕ) (k : ℕ), k < s.prod → InShape (unravel s k) s
  | [], _, _ => List.Forall₂.nil
  | n :: s, k, h => by
    rw [List.prod_cons] at h
    have hs : 0 < s.prod := Nat.pos_of_ne_zero (fun h0 => by simp [h0] at h)
    exact List.Forall₂.cons ((Nat.div_lt_iff_lt_mul hs).2 h) (inShape_unravel s _ (Nat.mod_lt _ hs))

theorem Tensor.mapE_eq {α β : Type} (d : β) (f : α → Except PyErr β) (g : α → β) (x : Tensor α)
    (h : ∀ idx, InShape idx x.shape → f (x.get idx) = .ok (g (x.get idx))) :
    ∃ y, x.mapE d f = .ok y ∧ y.shape = x.shape ∧ ∀ idx, InShape idx x.shape → y.get idx = g (x.get idx) := by
  have : x.toList.mapM f = .ok (x.toList.map g) := by
    refine mapM_ok g _ _ fun a ha => ?_
    unfold Tensor.toList at ha
    obtain ⟨k, hk, rfl⟩ := List.mem_map.1 ha
    exact h _ (inShape_unravel _ _ (List.mem_range.1 hk))
  unfold Tensor.mapE
  rw [this]
  refine ⟨_, rfl, rfl, fun idx hidx => ?_⟩
  have hr := ravel_lt hidx
  have : (x.toList.map g).getD (ravel x.shape idx) d = g (x.get (unravel x.shape (ravel x.shape idx))) := by
    unfold Tensor.toList Tensor.size
    simp [hr]
  simp only [this, unravel_ravel hidx]

/-! ## The loops -/

/-- The state of one axis, entry by entry. -/
structure AxisAt (coords : Tensor ℝ) (s : List ℕ) (n : ℕ) (g : List ℝ) (a : GridAxis) : Prop where
  index : ∀ idx, InShape idx s → a.index.get idx = (cellIdx g (coords.get (idx ++ [n])) : ℤ)
  dist : ∀ idx, InShape idx s → a.dist.get idx = cellDist g (coords.get (idx ++ [n]))
  outside : ∀ idx, a.outside.get idx = gridOutside g (gridInsert g (coords.get (idx ++ [n])))

theorem gridAxis_eq {coords : Tensor ℝ} {s : List ℕ} {N n : ℕ} (hc : coords.shape = s ++ [N]) (hn : n < N) {g : List ℝ}
    (hg : 2 ≤ g.length) : ∃ a, gridAxis coords n g = .ok a ∧ AxisAt coords s n g a := by
  have hcol : lastColumn coords n = .ok ⟨s, fun idx => coords.get (idx ++ [n])⟩ := by
    unfold lastColumn
    rw [hc]
    simp [hn]
  obtain ⟨y, h1, h2, h3⟩ := Tensor.mapE_eq 0 (fun x => gridDistance g x (gridClip g (gridInsert g x))) (cellDist g)
    ⟨s, fun idx => coords.get (idx ++ [n])⟩ (fun idx _ => gridDistance_eq hg _)
  unfold gridAxis
  rw [hcol]
  simp only [bind, Except.bind]
  rw [h1]
  exact ⟨_, rfl, fun idx _ => gridClip_eq hg _, h3, fun idx => rfl⟩

/-- The states of all axes. -/
inductive AxesAt (coords : Tensor ℝ) (s : List ℕ) : ℕ → List (List ℝ) → List GridAxis → Prop
  | nil (n : ℕ) : AxesAt coords s n [] []
  | cons {n : ℕ} {g : List ℝ} {a : GridAxis} {gs : List (List ℝ)} {as : List GridAxis} :
      AxisAt coords s n g a → AxesAt coords s (n + 1) gs as → AxesAt coords s n (g :: gs) (a :: as)

theorem AxesAt.length {coords : Tensor ℝ} {s : List ℕ} {n : ℕ} {points : List (List ℝ)} {as : List GridAxis}
    (h : AxesAt coords s n points as) : as.length = points.length := by
  induction h with
  | nil => rfl
  | cons _ _ ih => simp [ih]

theorem gridAxes_eq {coords : Tensor ℝ} {s : List ℕ} {N : ℕ} (hc : coords.shape = s ++ [N]) :
    ∀ (points : List (List ℝ)) (n : ℕ), (∀ g ∈ points, 2 ≤ g.length) → n + points.length ≤ N →
      ∃ as, gridAxes coords n points = .ok as ∧ AxesAt coords s n points as
  | [], n, _, _ => ⟨[], rfl, .nil n⟩
  | g :: points, n, hg, hn => by
    simp only [List.length_cons] at hn
    obtain ⟨a, h1, h2⟩ := gridAxis_eq hc (n := n) (by omega) (hg g (by simp))
    obtain ⟨as, h3, h4⟩ := gridAxes_eq hc points (n + 1) (fun g hg' => hg g (by simp [hg'])) (by omega)
    refine ⟨a :: as, ?_, .cons h2 h4⟩
    unfold gridAxes
    rw [h1]
    simp only [bind, Except.bind]
    rw [h3]

/-- Multilinear interpolation from cell indices and normalised distances. -/
noncomputable def ml : List (ℕ × ℝ) → (List ℕ → ℝ) → ℝ
  | [], v => v []
  | (i, y) :: r, v => (1 - y) * ml r (fun c => v (i :: c)) + y * ml r (fun c => v ((i + 1) :: c))

theorem ml_congr (r : List (ℕ × ℝ)) {v w : List ℕ → ℝ} (h : ∀ c, Corner (r.map Prod.fst) c → v c = w c) : ml r v = ml r w := by
  induction r generalizing v w with
  | nil => exact h [] List.Forall₂.nil
  | cons p r ih =>
    obtain ⟨i, y⟩ := p
    unfold ml
    rw [ih (fun c hc => h (i :: c) (List.Forall₂.cons (Or.inl rfl) hc)),
      ih (fun c hc => h ((i + 1) :: c) (List.Forall₂.cons (Or.inr rfl) hc))]

theorem product_sum (idx : List ℕ) (as : List GridAxis) (ks : List ℕ)
    (hk : List.Forall₂ (fun (a : GridAxis) (k : ℕ) => a.index.get idx = (k : ℤ)) as ks) (v : List ℕ → ℝ) :
    ((product (as.map (fun a => (a.index, a.index.map (· + 1))))).map (fun e : List (Tensor ℤ) =>
      v (e.map (fun t => (t.get idx).toNat)) *
        (((e.zip as).map (fun p => cornerFactor (p.1.get idx) (p.2.index.get idx) (p.2.dist.get idx))).prod))).sum =
      ml (ks.zip (as.map (fun a => a.dist.get idx))) v := by
  induction hk generalizing v with
  | nil => simp [product, ml]
  | @cons a k as ks h _ ih =>
    simp only [List.map_cons, product, List.map_append, List.map_map, List.sum_append, List.zip_cons_cons, ml]
    congr 1
    · rw [← ih (fun c => v (k :: c)), ← List.sum_map_mul_left]
      congr 1
      refine List.map_congr_left fun e _ => ?_
      simp only [Function.comp, List.map_cons, List.zip_cons_cons, List.prod_cons, h, Int.toNat_natCast, cornerFactor, if_true]
      ring
    · rw [← ih (fun c => v ((k + 1) :: c)), ← List.sum_map_mul_left]
      congr 1
      refine List.map_congr_left fun e _ => ?_
      have e1 : ((a.index.map (· + 1)).get idx).toNat = k + 1 := by
        simp only [Tensor.map, h]; omega
      have e2 : cornerFactor ((a.index.map (· + 1)).get idx) (a.index.get idx) (a.dist.get idx) = a.dist.get idx := by
        unfold cornerFactor Tensor.map
        simp
      simp only [Function.comp, List.map_cons, List.zip_cons_cons, List.prod_cons, e1, e2]
      ring

theorem product_mem {α : Type} {ps : List (α × α)} {e : List α} (h : e ∈ product ps) :
    List.Forall₂ (fun x p => x = p.1 ∨ x = p.2) e ps := by
  induction ps generalizing e with
  | nil => simp [product] at h; subst h; exact .nil
  | cons p ps ih =>
    simp only [product, List.mem_append, List.mem_map] at h
    rcases h with ⟨e', he, rfl⟩ | ⟨e', he, rfl⟩
    · exact .cons (Or.inl rfl) (ih he)
    · exact .cons (Or.inr rfl) (ih he)

theorem gatherIndices_eq (u : List ℕ) : ∀ {ns : List ℕ} {is : List ℤ}, List.Forall₂ (fun (n : ℕ) (i : ℤ) => 0 ≤ i ∧ i < (n : ℤ)) ns is →
    gatherIndices (ns ++ u) is = .ok (is.map Int.toNat)
  | _, _, .nil => by cases u <;> rfl
  | _, _, .cons (a := n) (b := i) (l₁ := ns) (l₂ := is) h hr => by
    have : gatherIndex n i = .ok i.toNat := by
      unfold gatherIndex
      simp only
      obtain ⟨m, rfl⟩ := Int.eq_ofNat_of_zero_le h.1
      have hm : m < n := by omega
      simp [hm, show ¬ ((m : ℤ) < 0) by omega]
    simp only [List.cons_append, gatherIndices, bind, Except.bind, this, gatherIndices_eq u hr, List.map_cons]

theorem gather_eq {values : Tensor ℝ} {ns u s : List ℕ} (hv : values.shape = ns ++ u) {edge : List (Tensor ℤ)}
    (he : ∀ idx, InShape idx s → List.Forall₂ (fun (n : ℕ) (i : ℤ) => 0 ≤ i ∧ i < (n : ℤ)) ns (edge.map (fun e => e.get idx)))
    (hl : edge.length = ns.length) :
    ∃ v, gather values s edge = .ok v ∧ v.shape = s ++ u ∧ ∀ idx j, InShape idx s →
      v.get (idx ++ j) = values.get (edge.map (fun e => (e.get idx).toNat) ++ j) := by
  obtain ⟨js, h1, h2, h3⟩ := Tensor.mapE_eq [] (gatherIndices values.shape) (fun is => is.map Int.toNat)
    (Tensor.mk s (fun idx => edge.map (fun e => e.get idx))) (fun idx hidx => by rw [hv]; exact gatherIndices_eq u (he idx hidx))
  unfold gather
  rw [h1]
  refine ⟨_, rfl, ?_, fun idx j hidx => ?_⟩
  · simp [hv, hl]
  · have := h3 idx hidx
    simp only [List.map_map] at this
    simp only [← hidx.length, List.take_left', List.drop_left', this]
    rfl

theorem edges_ok {coords : Tensor ℝ} {s : List ℕ} {n : ℕ} {points : List (List ℝ)} {as : List GridAxis}
    (ha : AxesAt coords s n points as) (hg : ∀ g ∈ points, 2 ≤ g.length) {e : List (Tensor ℤ)}
    (he : e ∈ product (as.map (fun a => (a.index, a.index.map (· + 1))))) {idx : List ℕ} (hidx : InShape idx s) :
    List.Forall₂ (fun (n : ℕ) (i : ℤ) => 0 ≤ i ∧ i < (n : ℤ)) (points.map List.length) (e.map (fun t => t.get idx)) := by
  have hm := product_mem he
  clear he
  induction ha generalizing e with
  | nil => cases hm; exact .nil
  | @cons n g a gs as h _ ih =>
    cases hm with
    | cons hp hr =>
      refine .cons ?_ (ih (fun g hg' => hg g (by simp [hg'])) hr)
      have hlt := cellIdx_lt (hg g (by simp)) (coords.get (idx ++ [n]))
      have hi := h.index idx hidx
      rcases hp with rfl | rfl
      · simp only [hi]; omega
      · simp only [Tensor.map, hi]; omega

theorem gridSum_eq (values : Tensor ℝ) (s : List ℕ) (as : List GridAxis) (S : List ℕ) (F : List (Tensor ℤ) → List ℕ → ℝ) :
    ∀ (edges : List (List (Tensor ℤ))) (result : Tensor ℝ), result.shape = S →
      (∀ e ∈ edges, ∃ v T, gather values s e = .ok v ∧ Tensor.zipB (· * ·) v (cornerWeight s e as) = .ok T ∧ T.shape = S ∧
        ∀ i, InShape i S → T.get i = F e i) →
      ∃ R, gridSum values s as edges result = .ok R ∧ R.shape = S ∧
        ∀ i, InShape i S → R.get i = result.get i + (edges.map (fun e => F e i)).sum
  | [], result, hr, _ => ⟨result, rfl, hr, fun i _ => by simp⟩
  | e :: edges, result, hr, h => by
    obtain ⟨v, T, h1, h2, h3, h4⟩ := h e (by simp)
    have hz : Tensor.zipB (· + ·) result T = .ok ⟨S, fun idx => result.bget idx + T.bget idx⟩ :=
      zipB_ok (by rw [hr, h3, bcastShape_self])
    obtain ⟨R, g1, g2, g3⟩ := gridSum_eq values s as S F edges ⟨S, fun idx => result.bget idx + T.bget idx⟩ rfl
      (fun e he => h e (by simp [he]))
    refine ⟨R, ?_, g2, fun i hi => ?_⟩
    · unfold gridSum
      rw [h1]
      simp only [bind, Except.bind]
      rw [h2]
      simp only
      rw [hz]
      exact g1
    · rw [g3 i hi]
      simp only [List.map_cons, List.sum_cons]
      rw [bget_self (by rw [hr]; exact hi), bget_self (by rw [h3]; exact hi), h4 i hi]
      ring

theorem AxesAt.cells {coords : Tensor ℝ} {s : List ℕ} {n : ℕ} {points : List (List ℝ)} {as : List GridAxis}
    (ha : AxesAt coords s n points as) {idx : List ℕ} (hidx : InShape idx s) :
    List.Forall₂ (fun (a : GridAxis) (k : ℕ) => a.index.get idx = (k : ℤ)) as
      (List.zipWith cellIdx points ((List.range points.length).map (fun d => coords.get (idx ++ [n + d])))) ∧
    as.map (fun a => a.dist.get idx) =
      List.zipWith cellDist points ((List.range points.length).map (fun d => coords.get (idx ++ [n + d]))) := by
  induction ha with
  | nil => simp
  | @cons n g a gs as h _ ih =>
    simp only [List.length_cons, List.range_succ_eq_map, List.map_cons, List.map_map, List.zipWith_cons_cons, add_zero]
    have e : (fun d => coords.get (idx ++ [n + d])) ∘ Nat.succ = fun d => coords.get (idx ++ [n + 1 + d]) := by
      funext d; simp only [Function.comp]; congr 3; omega
    rw [e]
    exact ⟨.cons (h.index idx hidx) ih.1, by rw [h.dist idx hidx, ih.2]⟩

theorem foldl_mul_eq (l : List ℝ) : l.foldl (· * ·) 1 = l.prod := by rw [List.prod_eq_foldl]

/-- The cells and distances of a query point. -/
noncomputable def cellsOf (points : List (List ℝ)) (x : List ℝ) : List (ℕ × ℝ) :=
  (List.zipWith cellIdx points x).zip (List.zipWith cellDist points x)

theorem AxesAt.mask {coords : Tensor ℝ} {s : List ℕ} {n : ℕ} {points : List (List ℝ)} {as : List GridAxis}
    (ha : AxesAt coords s n points as) (idx : List ℕ) (b : Bool) :
    as.foldl (fun b a => b || a.outside.get idx) b = (b || (List.zipWith (fun g x => gridOutside g (gridInsert g x)) points
      ((List.range points.length).map (fun d => coords.get (idx ++ [n + d])))).any id) := by
  induction ha generalizing b with
  | nil => simp
  | @cons n g a gs as h _ ih =>
    simp only [List.length_cons, List.range_succ_eq_map, List.map_cons, List.map_map, List.zipWith_cons_cons, add_zero,
      List.foldl_cons, List.any_cons, id]
    have e : (fun d => coords.get (idx ++ [n + d])) ∘ Nat.succ = fun d => coords.get (idx ++ [n + 1 + d]) := by
      funext d; simp only [Function.comp]; congr 3; omega
    rw [ih, e, h.outside idx, Bool.or_assoc]

/-- Scalar tables, without fill value. -/
theorem interp_eq {points : List (List ℝ)} (hg : ∀ g ∈ points, 2 ≤ g.length) {values coords : Tensor ℝ} {s : List ℕ} {N : ℕ}
    (hv : values.shape = points.map List.length) (hc : coords.shape = s ++ [N]) (hN : points.length ≤ N) (fill : Option ℝ) :
    ∃ L, regularGridInterp points values coords fill = .ok L ∧ L.shape = s ∧ ∀ idx, InShape idx s →
      L.get idx = match fill with
        | none => ml (cellsOf points (queryPoint coords idx points.length)) values.get
        | some f => if (List.zipWith (fun g x => gridOutside g (gridInsert g x)) points
            (queryPoint coords idx points.length)).any id then f
          else ml (cellsOf points (queryPoint coords idx points.length)) values.get := by
  obtain ⟨as, h1, h2⟩ := gridAxes_eq hc points 0 hg (by omega)
  have hs : coords.shape.dropLast = s := by rw [hc]; simp
  have hu : values.shape.drop points.length = [] := by rw [hv]; simp
  obtain ⟨R, g1, g2, g3⟩ := gridSum_eq values s as s (fun e i => values.get (e.map (fun t => (t.get i).toNat)) *
      (((e.zip as).map (fun p => cornerFactor (p.1.get i) (p.2.index.get i) (p.2.dist.get i))).prod))
    (product (as.map (fun a => (a.index, a.index.map (· + 1))))) ⟨s, fun _ => 0⟩ rfl (by
      intro e he
      have hl : e.length = (points.map List.length).length := by
        have h3 := (product_mem he).length_eq
        rw [List.length_map] at h3 ⊢
        rw [h3, h2.length]
      obtain ⟨v, v1, v2, v3⟩ := gather_eq (u := []) (by simpa using hv) (fun idx hidx => edges_ok h2 hg he hidx) hl
      rw [List.append_nil] at v2
      have hz : Tensor.zipB (· * ·) v (cornerWeight s e as) =
          .ok ⟨s, fun idx => v.bget idx * (cornerWeight s e as).bget idx⟩ := zipB_ok (by rw [v2]; exact bcastShape_self s)
      refine ⟨v, _, v1, hz, rfl, fun i hi => ?_⟩
      simp only
      rw [bget_self (by rw [v2]; exact hi), bget_self (x := cornerWeight s e as) hi]
      have := v3 i [] hi
      rw [List.append_nil, List.append_nil] at this
      rw [this]
      simp only [cornerWeight, foldl_mul_eq])
  have hR : ∀ idx, InShape idx s → R.get idx = ml (cellsOf points (queryPoint coords idx points.length)) values.get := by
    intro idx hidx
    obtain ⟨c1, c2⟩ := h2.cells hidx
    rw [g3 idx hidx, product_sum idx as _ c1, c2]
    simp only [zero_add]
    rfl
  have hrun : regularGridInterp points values coords fill = gridFill (gridMask s as) fill R := by
    unfold regularGridInterp
    simp only [bind, Except.bind, hs, hu, h1, List.append_nil]
    rw [g1]
  rw [hrun]
  cases fill with
  | none => exact ⟨R, rfl, g2, hR⟩
  | some f =>
    unfold gridFill
    refine ⟨_, zipB_ok (by rw [g2]; exact bcastShape_self s), rfl, fun idx hidx => ?_⟩
    simp only
    rw [bget_self (x := gridMask s as) hidx, bget_self (by rw [g2]; exact hidx), hR idx hidx]
    have := h2.mask idx false
    simp only [Bool.false_or, zero_add] at this
    simp only [gridMask, this]
    rfl

theorem gather_edges {points : List (List ℝ)} (hg : ∀ g ∈ points, 2 ≤ g.length) {values coords : Tensor ℝ} {s u : List ℕ}
    (hv : values.shape = points.map List.length ++ u) {as : List GridAxis} (h2 : AxesAt coords s 0 points as)
    {e : List (Tensor ℤ)} (he : e ∈ product (as.map (fun a => (a.index, a.index.map (· + 1))))) :
    ∃ v, gather values s e = .ok v ∧ v.shape = s ++ u ∧ ∀ idx j, InShape idx s →
      v.get (idx ++ j) = values.get (e.map (fun t => (t.get idx).toNat) ++ j) := by
  have hl : e.length = (points.map List.length).length := by
    have h3 := (product_mem he).length_eq
    rw [List.length_map] at h3 ⊢
    rw [h3, h2.length]
  exact gather_eq hv (fun idx hidx => edges_ok h2 hg he hidx) hl

theorem bcastShape_lead_one (u : List ℕ) : bcastShape (1 :: u) [1] = .ok (1 :: u) := by
  unfold bcastShape
  rcases h : (1 :: u).reverse with - | ⟨a, r⟩
  · simp at h
  · simp only [List.reverse_singleton, bcastRev, bcastDim_one_right, bcastRev_nil_right]
    rw [← h, List.reverse_reverse]

theorem bget_one {α : Type} {x : Tensor α} (hx : x.shape = [1]) (idx : List ℕ) (hi : idx ≠ []) : x.bget idx = x.get [0] := by
  unfold bget
  rw [hx]
  have : (idx.drop (idx.length - [1].length)).length = 1 := by
    have := List.length_pos_iff.2 hi
    simp; omega
  obtain ⟨a, ha⟩ := List.length_eq_one_iff.1 this
  rw [ha]
  simp

/-- Tables of vectors, one query point. -/
theorem interp_vec {points : List (List ℝ)} (hg : ∀ g ∈ points, 2 ≤ g.length) {values coords : Tensor ℝ} {u : List ℕ} {N : ℕ}
    (hv : values.shape = points.map List.length ++ u) (hc : coords.shape = [1] ++ [N]) (hN : points.length ≤ N)
    (fill : Option ℝ) :
    ∃ L, regularGridInterp points values coords fill = .ok L ∧ L.shape = 1 :: u ∧ ∀ j, InShape j u →
      L.get (0 :: j) = match fill with
        | none => ml (cellsOf points (queryPoint coords [0] points.length)) (fun c => values.get (c ++ j))
        | some f => if (List.zipWith (fun g x => gridOutside g (gridInsert g x)) points
            (queryPoint coords [0] points.length)).any id then f
          else ml (cellsOf points (queryPoint coords [0] points.length)) (fun c => values.get (c ++ j)) := by
  obtain ⟨as, h1, h2⟩ := gridAxes_eq hc points 0 hg (by omega)
  have hs : coords.shape.dropLast = [1] := by rw [hc]; simp
  have hu : values.shape.drop points.length = u := by rw [hv]; simp
  have h0 : InShape [0] [1] := inShape_singleton.2 (by omega)
  obtain ⟨R, g1, g2, g3⟩ := gridSum_eq values [1] as (1 :: u)
    (fun e i => values.get (e.map (fun t => (t.get [0]).toNat) ++ i.tail) *
      (((e.zip as).map (fun p => cornerFactor (p.1.get [0]) (p.2.index.get [0]) (p.2.dist.get [0]))).prod))
    (product (as.map (fun a => (a.index, a.index.map (· + 1))))) ⟨1 :: u, fun _ => 0⟩ rfl (by
      intro e he
      obtain ⟨v, v1, v2, v3⟩ := gather_edges hg hv h2 he
      have hz : Tensor.zipB (· * ·) v (cornerWeight [1] e as) =
          .ok ⟨1 :: u, fun idx => v.bget idx * (cornerWeight [1] e as).bget idx⟩ :=
        zipB_ok (by rw [v2]; exact bcastShape_lead_one u)
      refine ⟨v, _, v1, hz, rfl, fun i hi => ?_⟩
      simp only
      have hne : i ≠ [] := by rintro rfl; cases hi
      rw [bget_self (by rw [v2]; exact hi), bget_one (x := cornerWeight [1] e as) rfl i hne]
      cases hi with
      | @cons a _ j _ ha hj =>
        obtain rfl : a = 0 := by omega
        have := v3 [0] j h0
        rw [List.singleton_append] at this
        rw [this]
        simp only [cornerWeight, foldl_mul_eq, List.tail_cons])
  have hR : ∀ j, InShape j u → R.get (0 :: j) =
      ml (cellsOf points (queryPoint coords [0] points.length)) (fun c => values.get (c ++ j)) := by
    intro j hj
    obtain ⟨c1, c2⟩ := h2.cells h0
    rw [g3 (0 :: j) (.cons (by omega) hj)]
    have := product_sum [0] as _ c1 (fun c => values.get (c ++ j))
    rw [c2] at this
    simp only [zero_add, List.tail_cons] at this ⊢
    exact this
  have hrun : regularGridInterp points values coords fill = gridFill (gridMask [1] as) fill R := by
    unfold regularGridInterp
    simp only [bind, Except.bind, hs, hu, h1]
    rw [show [1] ++ u = 1 :: u from rfl, g1]
  rw [hrun]
  cases fill with
  | none => exact ⟨R, rfl, g2, hR⟩
  | some f =>
    unfold gridFill
    have hb : bcastShape [1] (1 :: u) = .ok (1 :: u) := by
      unfold bcastShape
      rcases h : (1 :: u).reverse with - | ⟨a, r⟩
      · simp at h
      · simp only [List.reverse_singleton, bcastRev, bcastDim_one_left]
        rw [← h, List.reverse_reverse]
    refine ⟨_, zipB_ok (by rw [g2]; exact hb), rfl, fun j hj => ?_⟩
    simp only
    rw [bget_one (x := gridMask [1] as) rfl _ (by simp), bget_self (by rw [g2]; exact .cons (by omega) hj), hR j hj]
    have := h2.mask [0] false
    simp only [Bool.false_or, zero_add] at this
    simp only [gridMask, this]
    rfl

/-! ## Properties of `ml` -/

/-- A multi-affine function is affine on the first coordinate of a list. -/
theorem MultiAffine.cons {n : ℕ} {f : List ℝ → ℝ} (hf : MultiAffine (n + 1) f) {xs : List ℝ} (hx : xs.length = n) {a b : ℝ}
    (hab : a ≠ b) (x : ℝ) :
    f (x :: xs) = (1 - (x - a) / (b - a)) * f (a :: xs) + (x - a) / (b - a) * f (b :: xs) := by
  obtain ⟨p, q, h⟩ := hf (x :: xs) (by simp [hx]) 0 (by omega)
  have hx' := h x
  have ha := h a
  have hb := h b
  simp only [List.set_cons_zero] at hx' ha hb
  rw [hx', ha, hb]
  have : b - a ≠ 0 := sub_ne_zero.2 hab.symm
  field_simp
  ring

theorem MultiAffine.tail {n : ℕ} {f : List ℝ → ℝ} (hf : MultiAffine (n + 1) f) (a : ℝ) :
    MultiAffine n (fun xs => f (a :: xs)) := by
  intro x hx d hd
  obtain ⟨p, q, h⟩ := hf (a :: x) (by simp [hx]) (d + 1) (by omega)
  exact ⟨p, q, fun t => by simpa using h t⟩

theorem ml_affine : ∀ {points : List (List ℝ)} (_ : ∀ g ∈ points, IsGrid g) {x : List ℝ} (_ : x.length = points.length)
    {f : List ℝ → ℝ} (_ : MultiAffine points.length f), ml (cellsOf points x) (fun c => f (node points c)) = f x
  | [], _, x, hx, f, _ => by
    obtain rfl : x = [] := by simpa using hx
    rfl
  | g :: points, hg, [], hx, _, _ => by simp at hx
  | g :: points, hg, x :: xs, hx, f, hf => by
    have hg0 := hg g (by simp)
    have hgs : ∀ g ∈ points, IsGrid g := fun g h => hg g (by simp [h])
    have hlt := cellIdx_lt hg0.1 x
    have hne := (getD_lt hg0.2 (Nat.lt_succ_self (cellIdx g x)) hlt).ne
    have hxs : xs.length = points.length := by simpa using hx
    change (1 - cellDist g x) * ml (cellsOf points xs) (fun c => f (g.getD (cellIdx g x) 0 :: node points c)) +
      cellDist g x * ml (cellsOf points xs) (fun c => f (g.getD (cellIdx g x + 1) 0 :: node points c)) = f (x :: xs)
    rw [ml_affine hgs hxs (hf.tail (g.getD (cellIdx g x) 0)), ml_affine hgs hxs (hf.tail (g.getD (cellIdx g x + 1) 0)),
      hf.cons hxs hne x]
    rfl

theorem ml_bounds (r : List (ℕ × ℝ)) (hr : ∀ p ∈ r, 0 ≤ p.2 ∧ p.2 ≤ 1) (lo hi : ℝ) (v : List ℕ → ℝ)
    (hv : ∀ c, Corner (r.map Prod.fst) c → lo ≤ v c ∧ v c ≤ hi) : lo ≤ ml r v ∧ ml r v ≤ hi := by
  induction r generalizing v with
  | nil => exact hv [] .nil
  | cons p r ih =>
    obtain ⟨i, y⟩ := p
    obtain ⟨h0, h1⟩ := hr (i, y) (by simp)
    simp only at h0 h1
    have ha := ih (fun p hp => hr p (by simp [hp])) (fun c => v (i :: c)) (fun c hc => hv _ (.cons (Or.inl rfl) hc))
    have hb := ih (fun p hp => hr p (by simp [hp])) (fun c => v ((i + 1) :: c)) (fun c hc => hv _ (.cons (Or.inr rfl) hc))
    unfold ml
    constructor
    · nlinarith [ha.1, hb.1, mul_nonneg (sub_nonneg.2 h1) (sub_nonneg.2 ha.1), mul_nonneg h0 (sub_nonneg.2 hb.1)]
    · nlinarith [ha.2, hb.2, mul_nonneg (sub_nonneg.2 h1) (sub_nonneg.2 ha.2), mul_nonneg h0 (sub_nonneg.2 hb.2)]

end Exo
