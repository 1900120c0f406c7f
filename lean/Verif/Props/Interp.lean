import Verif.Lemmas.Interp

/-!
# C45-C47: interpolation on regular grids
-/

namespace Exo
open Tensor

theorem length_queryPoint (coords : Tensor ℝ) (idx : List ℕ) (n : ℕ) : (queryPoint coords idx n).length = n := by
  simp [queryPoint]

theorem cellsOf_fst {points : List (List ℝ)} {x : List ℝ} :
    (cellsOf points x).map Prod.fst = List.zipWith cellIdx points x := by
  unfold cellsOf
  rw [List.map_fst_zip (by simp)]

theorem cellsOf_cell {points : List (List ℝ)} (hg : ∀ g ∈ points, IsGrid g) {x : List ℝ} (hx : x.length = points.length) :
    Cell points x (List.zipWith cellIdx points x) := by
  refine ⟨by simp [hx], fun d hd => ?_⟩
  have hd' : d < x.length := by omega
  have : (List.zipWith cellIdx points x).getD d 0 = cellIdx (points.getD d []) (x.getD d 0) := by simp [hd, hd']
  rw [this]
  exact cellIdx_spec (hg _ (by rw [List.getD_eq_getElem _ _ hd]; exact List.getElem_mem hd)) _

theorem dist_mem {g : List ℝ} (hg : IsGrid g) {x : ℝ} (h0 : g.headD 0 ≤ x) (h1 : x ≤ g.getLastD 0) :
    0 ≤ cellDist g x ∧ cellDist g x ≤ 1 := by
  obtain ⟨hk, hl, hr⟩ := cellIdx_spec hg x
  have hlt := getD_lt hg.2 (Nat.lt_succ_self (cellIdx g x)) hk
  have hpos : 0 < g.getD (cellIdx g x + 1) 0 - g.getD (cellIdx g x) 0 := sub_pos.2 hlt
  have ha : g.getD (cellIdx g x) 0 ≤ x := by
    rcases hl with h | h
    · exact h
    · rw [h]; cases g with
      | nil => simp at hk
      | cons a g => simpa using h0
  have hb : x ≤ g.getD (cellIdx g x + 1) 0 := by
    rcases hr with h | h
    · exact h
    · have : g.getLastD 0 = g.getD (cellIdx g x + 1) 0 := by
        rw [List.getLastD_eq_getLast?, List.getLast?_eq_getElem?, List.getD_eq_getElem?_getD]
        congr 2; omega
      rw [← this]; exact h1
  unfold cellDist
  constructor
  · exact div_nonneg (by linarith) hpos.le
  · rw [div_le_one hpos]; linarith

theorem dists_mem : ∀ {points : List (List ℝ)} (_ : ∀ g ∈ points, IsGrid g) {x : List ℝ} (_ : InsideGrid points x),
    ∀ p ∈ cellsOf points x, 0 ≤ p.2 ∧ p.2 ≤ 1
  | [], _, x, _, p, hp => by simp [cellsOf] at hp
  | g :: points, _, [], _, p, hp => by simp [cellsOf] at hp
  | g :: points, hg, x :: xs, hi, p, hp => by
    simp only [cellsOf, List.zipWith_cons_cons, List.zip_cons_cons, List.mem_cons] at hp
    rcases hp with rfl | hp
    · have := hi 0 (by simp)
      simp only [List.getD_cons_zero] at this
      exact dist_mem (hg g (by simp)) this.1 this.2
    · refine dists_mem (fun g h => hg g (by simp [h])) (x := xs) (fun d hd => ?_) p hp
      simpa using hi (d + 1) (by simpa using hd)

theorem ml_node : ∀ {points : List (List ℝ)} (_ : ∀ g ∈ points, IsGrid g) {c : List ℕ} (_ : InShape c (points.map List.length))
    (v : List ℕ → ℝ), ml (cellsOf points (node points c)) v = v c
  | [], _, c, hc, v => by cases hc; rfl
  | g :: points, hg, [], hc, v => by cases hc
  | g :: points, hg, c :: cs, hc, v => by
    cases hc with
    | cons hc hcs =>
    have hg0 := hg g (by simp)
    have ih := fun w => ml_node (fun g h => hg g (by simp [h])) hcs w
    change (1 - cellDist g (g.getD c 0)) * ml (cellsOf points (node points cs)) (fun e => v (cellIdx g (g.getD c 0) :: e)) +
      cellDist g (g.getD c 0) * ml (cellsOf points (node points cs)) (fun e => v ((cellIdx g (g.getD c 0) + 1) :: e)) =
        v (c :: cs)
    rw [ih, ih]
    obtain ⟨hk, hl, hr⟩ := cellIdx_spec hg0 (g.getD c 0)
    have hlt := getD_lt hg0.2 (Nat.lt_succ_self (cellIdx g (g.getD c 0))) hk
    have hpos : g.getD (cellIdx g (g.getD c 0) + 1) 0 - g.getD (cellIdx g (g.getD c 0)) 0 ≠ 0 := (sub_pos.2 hlt).ne'
    have h1 : cellIdx g (g.getD c 0) ≤ c := by
      by_contra hcon
      push Not at hcon
      have := getD_lt hg0.2 hcon (by omega)
      rcases hl with h | h
      · linarith
      · omega
    have h2 : c ≤ cellIdx g (g.getD c 0) + 1 := by
      by_contra hcon
      push Not at hcon
      have := getD_lt hg0.2 hcon hc
      rcases hr with h | h
      · linarith
      · omega
    unfold cellDist
    rcases (show c = cellIdx g (g.getD c 0) ∨ c = cellIdx g (g.getD c 0) + 1 by omega) with h | h
    · rw [← h]; simp
    · rw [← h, div_self (by rw [← h] at hpos; exact hpos)]; simp

/-! ## C45 -/

/-- **C45** (core): for grids of any dimension and tables with one value per node, the result has one entry per query point. At a
query point `x` with cell `k`: the result equals every multi-affine function that agrees with the table at the `2^n` corners of
the cell, so it is the multilinear interpolant and depends on nothing else; and inside the grid it is bounded by the values at the
corners. -/
theorem C45_cell (points : List (List ℝ)) (hg : ∀ g ∈ points, IsGrid g) (values coords : Tensor ℝ) (s : List ℕ)
    (hv : values.shape = points.map List.length) (hc : coords.shape = s ++ [points.length]) :
    ∃ L, regularGridInterp points values coords none = .ok L ∧ L.shape = s ∧ ∀ idx, InShape idx s →
      ∃ k, Cell points (queryPoint coords idx points.length) k ∧
        (∀ f, MultiAffine points.length f → (∀ c, Corner k c → values.get c = f (node points c)) →
          L.get idx = f (queryPoint coords idx points.length)) ∧
        (InsideGrid points (queryPoint coords idx points.length) → ∀ lo hi,
          (∀ c, Corner k c → lo ≤ values.get c ∧ values.get c ≤ hi) → lo ≤ L.get idx ∧ L.get idx ≤ hi) := by
  obtain ⟨L, h1, h2, h3⟩ := interp_eq (fun g h => (hg g h).1) hv hc le_rfl none
  refine ⟨L, h1, h2, fun idx hidx => ?_⟩
  have hlen := length_queryPoint coords idx points.length
  refine ⟨_, cellsOf_cell hg hlen, fun f hf hfc => ?_, fun hin lo hi hb => ?_⟩
  · rw [h3 idx hidx]
    simp only
    rw [ml_congr (w := fun c => f (node points c)) _ (fun c hc => hfc c (by rw [← cellsOf_fst]; exact hc)), ml_affine hg hlen hf]
  · rw [h3 idx hidx]
    exact ml_bounds _ (dists_mem hg hin) lo hi _ (fun c hc => hb c (by rw [← cellsOf_fst]; exact hc))

/-- **C45** (nodes): at a grid node the result is the tabulated value. -/
theorem C45_nodes (points : List (List ℝ)) (hg : ∀ g ∈ points, IsGrid g) (values coords : Tensor ℝ) (s : List ℕ)
    (hv : values.shape = points.map List.length) (hc : coords.shape = s ++ [points.length]) :
    ∃ L, regularGridInterp points values coords none = .ok L ∧ L.shape = s ∧ ∀ idx c, InShape idx s →
      InShape c values.shape → queryPoint coords idx points.length = node points c → L.get idx = values.get c := by
  obtain ⟨L, h1, h2, h3⟩ := interp_eq (fun g h => (hg g h).1) hv hc le_rfl none
  refine ⟨L, h1, h2, fun idx c hidx hcs hx => ?_⟩
  rw [h3 idx hidx]
  simp only
  rw [hx, ml_node hg (by rw [← hv]; exact hcs)]

/-- **C45** (multi-affine functions): a table of a multi-affine function is reproduced everywhere, also outside the grid. -/
theorem C45_multiaffine (points : List (List ℝ)) (hg : ∀ g ∈ points, IsGrid g) (values coords : Tensor ℝ) (s : List ℕ)
    (hv : values.shape = points.map List.length) (hc : coords.shape = s ++ [points.length]) (f : List ℝ → ℝ)
    (hf : MultiAffine points.length f) (hfv : ∀ c, InShape c values.shape → values.get c = f (node points c)) :
    ∃ L, regularGridInterp points values coords none = .ok L ∧ L.shape = s ∧
      ∀ idx, InShape idx s → L.get idx = f (queryPoint coords idx points.length) := by
  obtain ⟨L, h1, h2, h3⟩ := C45_cell points hg values coords s hv hc
  refine ⟨L, h1, h2, fun idx hidx => ?_⟩
  obtain ⟨k, ⟨hkl, hk⟩, h4, -⟩ := h3 idx hidx
  refine h4 f hf fun c hcor => hfv c ?_
  rw [hv]
  unfold Corner at hcor
  unfold InShape
  rw [List.forall₂_iff_get] at hcor ⊢
  refine ⟨by rw [← hcor.1, hkl]; simp, fun d hd1 hd2 => ?_⟩
  have hd3 : d < points.length := by simpa using hd2
  have hd4 : d < k.length := by omega
  have := (hk d hd3).1
  rw [List.getD_eq_getElem _ _ hd4, List.getD_eq_getElem _ _ hd3] at this
  have h5 := hcor.2 d hd4 hd1
  simp only [List.get_eq_getElem, List.getElem_map] at h5 ⊢
  omega

/-- **C45** holds for the class as well. -/
theorem C45_class (points : List (List ℝ)) (values t : Tensor ℝ) (fill : Option ℝ) :
    (GridInterpolator.new points values fill).evaluate t = regularGridInterp points values t fill := rfl

/-- The hypotheses are met: a 2-dimensional uneven grid, three query points, one of them outside; the table of `x y`. -/
example : (∀ g ∈ ([[0, 1, 3], [-1, 2]] : List (List ℝ)), IsGrid g) ∧
    MultiAffine 2 (fun x => x.getD 0 0 * x.getD 1 0) ∧
    (Tensor.mk [3, 2] (fun c => (fun x : List ℝ => x.getD 0 0 * x.getD 1 0) (node [[0, 1, 3], [-1, 2]] c))).shape =
      ([[0, 1, 3], [-1, 2]] : List (List ℝ)).map List.length := by
  refine ⟨?_, ?_, rfl⟩
  · intro g hg
    simp only [List.mem_cons, List.not_mem_nil, or_false] at hg
    rcases hg with rfl | rfl <;> refine ⟨by norm_num, ?_⟩ <;> simp <;> norm_num
  · intro x hx d hd
    obtain ⟨a, b, rfl⟩ := List.length_eq_two.1 hx
    rcases (show d = 0 ∨ d = 1 by omega) with rfl | rfl
    · exact ⟨0, b, fun t => by simp; ring⟩
    · exact ⟨0, a, fun t => by simp⟩

/-! ## C46 -/

theorem outside_iff {g : List ℝ} (hg : IsGrid g) (x : ℝ) :
    gridOutside g (gridInsert g x) = true ↔ x ≤ g.headD 0 ∨ g.getLastD 0 < x := by
  have hhead : g.headD 0 = g.getD 0 0 := by cases g <;> rfl
  have hlast : g.getLastD 0 = g.getD (g.length - 1) 0 := by
    rw [List.getLastD_eq_getLast?, List.getLast?_eq_getElem?, List.getD_eq_getElem?_getD]
  have hlen := hg.1
  have hle := ss_le g x
  unfold gridOutside gridInsert
  rw [Bool.or_eq_true, decide_eq_true_iff, decide_eq_true_iff, hhead, hlast]
  constructor
  · rintro (h | h)
    · left; exact ss_above hg.2 x (by omega) (by omega)
    · right; exact ss_below hg.2 x (by omega)
  · rintro (h | h)
    · left
      by_contra hcon
      have := ss_below hg.2 x (j := 0) (by omega)
      linarith
    · right
      by_contra hcon
      have := ss_above hg.2 x (j := g.length - 1) (by omega) (by omega)
      linarith

theorem any_outside {points : List (List ℝ)} (hg : ∀ g ∈ points, IsGrid g) {x : List ℝ} (hx : x.length = points.length) :
    (List.zipWith (fun g x => gridOutside g (gridInsert g x)) points x).any id = true ↔
      ∃ d < points.length, x.getD d 0 ≤ (points.getD d []).headD 0 ∨ (points.getD d []).getLastD 0 < x.getD d 0 := by
  rw [List.any_eq_true]
  constructor
  · rintro ⟨b, hb, rfl⟩
    obtain ⟨d, hd, he⟩ := List.getElem_of_mem hb
    have hd1 : d < points.length := by simp at hd; omega
    have hd2 : d < x.length := by omega
    rw [List.getElem_zipWith] at he
    refine ⟨d, hd1, (outside_iff (hg _ ?_) _).1 ?_⟩
    · rw [List.getD_eq_getElem _ _ hd1]; exact List.getElem_mem hd1
    · rw [List.getD_eq_getElem _ _ hd1, List.getD_eq_getElem _ _ hd2]; exact he
  · rintro ⟨d, hd, h⟩
    have hd2 : d < x.length := by omega
    refine ⟨_, List.getElem_mem (n := d) (by simp; omega), ?_⟩
    rw [List.getElem_zipWith]
    rw [← outside_iff (hg _ (by rw [List.getD_eq_getElem _ _ hd]; exact List.getElem_mem hd)), List.getD_eq_getElem _ _ hd,
      List.getD_eq_getElem _ _ hd2] at h
    exact h

/-- **C46** (what the code does): with `fill_value` a point gets it iff some coordinate is *at or* below the first grid point, or
above the last one; otherwise it gets the interpolated value. -/
theorem C46_rule_partial (points : List (List ℝ)) (hg : ∀ g ∈ points, IsGrid g) (values coords : Tensor ℝ) (s : List ℕ)
    (hv : values.shape = points.map List.length) (hc : coords.shape = s ++ [points.length]) (fill : ℝ) :
    ∃ L L0, regularGridInterp points values coords (some fill) = .ok L ∧ regularGridInterp points values coords none = .ok L0 ∧
      L.shape = s ∧ ∀ idx, InShape idx s →
      ((∃ d < points.length, (queryPoint coords idx points.length).getD d 0 ≤ (points.getD d []).headD 0 ∨
          (points.getD d []).getLastD 0 < (queryPoint coords idx points.length).getD d 0) → L.get idx = fill) ∧
      ((∀ d < points.length, (points.getD d []).headD 0 < (queryPoint coords idx points.length).getD d 0 ∧
          (queryPoint coords idx points.length).getD d 0 ≤ (points.getD d []).getLastD 0) → L.get idx = L0.get idx) := by
  obtain ⟨L, h1, h2, h3⟩ := interp_eq (fun g h => (hg g h).1) hv hc le_rfl (some fill)
  obtain ⟨L0, g1, g2, g3⟩ := interp_eq (fun g h => (hg g h).1) hv hc le_rfl none
  refine ⟨L, L0, h1, g1, h2, fun idx hidx => ⟨fun h => ?_, fun h => ?_⟩⟩
  · rw [h3 idx hidx]
    exact if_pos ((any_outside hg (length_queryPoint _ _ _)).2 h)
  · rw [h3 idx hidx, g3 idx hidx]
    refine if_neg fun hcon => ?_
    obtain ⟨d, hd, h'⟩ := (any_outside hg (length_queryPoint _ _ _)).1 hcon
    have := h d hd
    rcases h' with h' | h' <;> linarith

/-- **C46**, away from the lower faces of the grid: a point none of whose coordinates equals the first point of its axis gets
`fill_value` iff it is outside the grid. -/
theorem C46_fill_partial (points : List (List ℝ)) (hg : ∀ g ∈ points, IsGrid g) (values coords : Tensor ℝ) (s : List ℕ)
    (hv : values.shape = points.map List.length) (hc : coords.shape = s ++ [points.length]) (fill : ℝ) :
    ∃ L L0, regularGridInterp points values coords (some fill) = .ok L ∧ regularGridInterp points values coords none = .ok L0 ∧
      L.shape = s ∧ ∀ idx, InShape idx s →
      (∀ d < points.length, (queryPoint coords idx points.length).getD d 0 ≠ (points.getD d []).headD 0) →
      (¬ InsideGrid points (queryPoint coords idx points.length) → L.get idx = fill) ∧
      (InsideGrid points (queryPoint coords idx points.length) → L.get idx = L0.get idx) := by
  obtain ⟨L, L0, h1, h2, h3, h4⟩ := C46_rule_partial points hg values coords s hv hc fill
  refine ⟨L, L0, h1, h2, h3, fun idx hidx hne => ⟨fun h => (h4 idx hidx).1 ?_, fun h => (h4 idx hidx).2 fun d hd => ?_⟩⟩
  · unfold InsideGrid at h
    push Not at h
    obtain ⟨d, hd, h⟩ := h
    refine ⟨d, hd, ?_⟩
    by_contra hcon
    push Not at hcon
    exact absurd (h hcon.1.le) (not_lt.2 hcon.2)
  · exact ⟨lt_of_le_of_ne (h d hd).1 (hne d hd).symm, (h d hd).2⟩

/-- Filling with a number instead of NaN. -/
theorem fill_of_nan (points : List (List ℝ)) (values coords : Tensor ℝ) (f : ℝ) :
    regularGridInterp points values coords (some f) =
      (regularGridInterpNaN points values coords).map fun L => ⟨L.shape, fun idx => (L.get idx).getD f⟩ := by
  unfold regularGridInterp regularGridInterpNaN
  simp only [bind, Except.bind]
  cases gridAxes coords 0 points with
  | error e => rfl
  | ok axes =>
    simp only
    cases gridSum values coords.shape.dropLast axes (product (axes.map (fun a => (a.index, a.index.map (· + 1)))))
        ⟨coords.shape.dropLast ++ values.shape.drop points.length, fun _ => 0⟩ with
    | error e => rfl
    | ok R =>
      simp only [gridFill]
      unfold Tensor.zipB
      cases bcastShape (gridMask coords.shape.dropLast axes).shape R.shape with
      | error e => rfl
      | ok s =>
        simp only [Except.map]
        congr 2
        funext idx
        split_ifs <;> rfl

/-- **C46** (NaN): with `fill_value=np.nan` an entry is NaN iff some coordinate is at or below the first grid point, or above the last one;
the others are the interpolated values. -/
theorem C46_nan_partial (points : List (List ℝ)) (hg : ∀ g ∈ points, IsGrid g) (values coords : Tensor ℝ) (s : List ℕ)
    (hv : values.shape = points.map List.length) (hc : coords.shape = s ++ [points.length]) :
    ∃ L L0, regularGridInterpNaN points values coords = .ok L ∧ regularGridInterp points values coords none = .ok L0 ∧
      L.shape = s ∧ ∀ idx, InShape idx s →
      (L.get idx = none ↔ ∃ d < points.length, (queryPoint coords idx points.length).getD d 0 ≤ (points.getD d []).headD 0 ∨
          (points.getD d []).getLastD 0 < (queryPoint coords idx points.length).getD d 0) ∧
      (L.get idx ≠ none → L.get idx = some (L0.get idx)) := by
  obtain ⟨La, L0, a1, a2, a3, a4⟩ := C46_rule_partial points hg values coords s hv hc 0
  obtain ⟨Lb, L0', b1, b2, b3, b4⟩ := C46_rule_partial points hg values coords s hv hc 1
  rw [a2] at b2
  cases b2
  rw [fill_of_nan] at a1 b1
  cases h : regularGridInterpNaN points values coords with
  | error e => rw [h] at a1; cases a1
  | ok L =>
    rw [h] at a1 b1
    cases a1
    cases b1
    refine ⟨L, L0, rfl, a2, a3, fun idx hidx => ?_⟩
    have ha := a4 idx hidx
    have hb := b4 idx hidx
    by_cases hout : ∃ d < points.length, (queryPoint coords idx points.length).getD d 0 ≤ (points.getD d []).headD 0 ∨
          (points.getD d []).getLastD 0 < (queryPoint coords idx points.length).getD d 0
    · have h0 := ha.1 hout
      have h1 := hb.1 hout
      simp only at h0 h1
      have : L.get idx = none := by
        cases hL : L.get idx with
        | none => rfl
        | some v =>
          rw [hL] at h0 h1
          simp only [Option.getD_some] at h0 h1
          rw [h0] at h1
          norm_num at h1
      exact ⟨⟨fun _ => hout, fun _ => this⟩, fun hne => absurd this hne⟩
    · have hin := hout
      push Not at hin
      have h0 := ha.2 hin
      have h1 := hb.2 hin
      simp only at h0 h1
      have : L.get idx = some (L0.get idx) := by
        cases hL : L.get idx with
        | none =>
          rw [hL] at h0 h1
          simp only [Option.getD_none] at h0 h1
          rw [← h0] at h1
          norm_num at h1
        | some v =>
          rw [hL] at h0
          simp only [Option.getD_some] at h0
          rw [h0]
      exact ⟨⟨fun hn => absurd (this.symm.trans hn) (Option.some_ne_none _), fun ho => absurd ho hout⟩, fun _ => this⟩

/-- **C46** (NaN), for points outside the grid: they are NaN. -/
theorem C46_nan_outside (points : List (List ℝ)) (hg : ∀ g ∈ points, IsGrid g) (values coords : Tensor ℝ) (s : List ℕ)
    (hv : values.shape = points.map List.length) (hc : coords.shape = s ++ [points.length]) (L : Tensor (Option ℝ))
    (hL : regularGridInterpNaN points values coords = .ok L) (idx : List ℕ) (hidx : InShape idx s)
    (ho : ¬ InsideGrid points (queryPoint coords idx points.length)) : L.get idx = none := by
  obtain ⟨L', L0, h1, -, -, h4⟩ := C46_nan_partial points hg values coords s hv hc
  rw [hL] at h1
  cases h1
  refine (h4 idx hidx).1.2 ?_
  unfold InsideGrid at ho
  push Not at ho
  obtain ⟨d, hd, h⟩ := ho
  refine ⟨d, hd, ?_⟩
  by_contra hcon
  push Not at hcon
  exact absurd (h hcon.1.le) (not_lt.2 hcon.2)

/-- Hypotheses of the theorems on NaN: the point 2 is outside the grid `[0, 1]`, and its entry is NaN. -/
example : ∃ L, regularGridInterpNaN [[0, 1]] ⟨[2], fun c => if c = [0] then 5 else 6⟩ ⟨[1, 1], fun _ => 2⟩ = .ok L ∧ L.get [0] = none := by
  have hg : ∀ g ∈ ([[0, 1]] : List (List ℝ)), IsGrid g := by
    intro g hg
    simp only [List.mem_cons, List.not_mem_nil, or_false] at hg
    subst hg
    refine ⟨by norm_num, by simp⟩
  obtain ⟨L, L0, h1, -, -, h4⟩ := C46_nan_partial [[0, 1]] hg ⟨[2], fun c => if c = [0] then 5 else 6⟩ ⟨[1, 1], fun _ => 2⟩ [1] rfl rfl
  refine ⟨L, h1, (h4 [0] (inShape_singleton.2 (by omega))).1.2 ⟨0, by simp, Or.inr ?_⟩⟩
  norm_num [queryPoint]

/-- **C46** is false: the first grid point is inside the grid but gets `fill_value` instead of the tabulated value. -/
theorem C46_lower_edge_counterexample :
    ∃ L L0, regularGridInterp [[0, 1]] ⟨[2], fun c => if c = [0] then 5 else 6⟩ ⟨[1, 1], fun _ => 0⟩ (some 100) = .ok L ∧
      regularGridInterp [[0, 1]] ⟨[2], fun c => if c = [0] then 5 else 6⟩ ⟨[1, 1], fun _ => 0⟩ none = .ok L0 ∧
      InsideGrid [[0, 1]] (queryPoint ⟨[1, 1], fun _ => 0⟩ [0] 1) ∧ L0.get [0] = 5 ∧ L.get [0] = 100 := by
  have hg : ∀ g ∈ ([[0, 1]] : List (List ℝ)), IsGrid g := by
    intro g hg
    simp only [List.mem_cons, List.not_mem_nil, or_false] at hg
    subst hg
    refine ⟨by norm_num, by simp⟩
  obtain ⟨L, L0, h1, h2, h3, h4⟩ := C46_rule_partial [[0, 1]] hg ⟨[2], fun c => if c = [0] then 5 else 6⟩
    ⟨[1, 1], fun _ => 0⟩ [1] rfl rfl 100
  obtain ⟨L0', g1, g2, g3⟩ := C45_nodes [[0, 1]] hg ⟨[2], fun c => if c = [0] then 5 else 6⟩ ⟨[1, 1], fun _ => 0⟩ [1] rfl rfl
  rw [h2] at g1
  cases g1
  have h0 : InShape [0] [1] := inShape_singleton.2 (by omega)
  refine ⟨L, L0, h1, h2, ?_, ?_, ?_⟩
  · intro d hd
    obtain rfl : d = 0 := by simpa using hd
    simp [queryPoint]
  · exact (g3 [0] [0] h0 (inShape_singleton.2 (by omega)) (by simp [queryPoint, node])).trans (by simp)
  · exact (h4 [0] h0).1 ⟨0, by simp, Or.inl (by simp [queryPoint])⟩

/-! ## C47 -/

/-- Component `j` of a table of vectors. -/
def tableColumn (values : Tensor ℝ) (j : ℕ) : Tensor ℝ := ⟨values.shape.dropLast, fun c => values.get (c ++ [j])⟩

/-- **C47** for a single query point: a table of shape `(m1, …, mn, nout)` gives a `(1, nout)` result whose column `j` is the
interpolation of column `j` of the table. -/
theorem C47_single_partial (points : List (List ℝ)) (hg : ∀ g ∈ points, IsGrid g) (values coords : Tensor ℝ) (nout : ℕ)
    (hv : values.shape = points.map List.length ++ [nout]) (hc : coords.shape = [1, points.length]) (fill : Option ℝ) :
    ∃ L, regularGridInterp points values coords fill = .ok L ∧ L.shape = [1, nout] ∧ ∀ j < nout,
      ∃ Lj, regularGridInterp points (tableColumn values j) coords fill = .ok Lj ∧ Lj.shape = [1] ∧ L.get [0, j] = Lj.get [0] := by
  obtain ⟨L, h1, h2, h3⟩ := interp_vec (fun g h => (hg g h).1) hv hc le_rfl fill
  refine ⟨L, h1, h2, fun j hj => ?_⟩
  obtain ⟨Lj, g1, g2, g3⟩ := interp_eq (values := tableColumn values j) (s := [1]) (fun g h => (hg g h).1)
    (by unfold tableColumn; rw [hv]; simp) hc le_rfl fill
  refine ⟨Lj, g1, g2, ?_⟩
  rw [h3 [j] (inShape_singleton.2 hj), g3 [0] (inShape_singleton.2 (by omega))]
  rfl

theorem product_ne_nil {α : Type} (ps : List (α × α)) : product ps ≠ [] := by
  induction ps with
  | nil => simp [product]
  | cons p ps ih => simp [product, ih]

/-- **C47** is false for more than one query point: unless the number of points and the number of outputs agree (or one of them is
one), the weights do not broadcast and the call raises, for every grid and table. -/
theorem C47_shape_counterexample (points : List (List ℝ)) (hg : ∀ g ∈ points, IsGrid g) (values coords : Tensor ℝ)
    (ntest nout : ℕ) (hv : values.shape = points.map List.length ++ [nout]) (hc : coords.shape = [ntest, points.length])
    (hn : ntest ≠ nout) (h1 : ntest ≠ 1) (h2 : nout ≠ 1) (fill : Option ℝ) :
    regularGridInterp points values coords fill = .error .shapeMismatch := by
  obtain ⟨as, ha, hA⟩ := gridAxes_eq (s := [ntest]) hc points 0 (fun g h => (hg g h).1) (by omega)
  have hs : coords.shape.dropLast = [ntest] := by rw [hc]; simp
  unfold regularGridInterp
  simp only [bind, Except.bind, hs, ha]
  rcases hp : product (as.map (fun a => (a.index, a.index.map (· + 1)))) with - | ⟨e, es⟩
  · exact absurd hp (product_ne_nil _)
  · obtain ⟨v, v1, v2, -⟩ := gather_edges (s := [ntest]) (fun g h => (hg g h).1) hv hA (e := e) (by rw [hp]; simp)
    have hb : Tensor.zipB (· * ·) v (cornerWeight [ntest] e as) = .error .shapeMismatch := by
      unfold Tensor.zipB
      rw [v2]
      simp [cornerWeight, bcastShape, bcastRev, bcastDim, hn.symm, h1, h2]
    simp only [hp]
    unfold gridSum
    simp only [bind, Except.bind, v1, hb]

/-- **C47** is false when the numbers agree: silently, the weights of point `j` are applied to component `j`. Two points, two
components: the query at the first node should return the first row of the table, but component 1 comes from the second row. -/
theorem C47_silent_counterexample (v : List ℕ → ℝ) :
    ∃ L, regularGridInterp [[0, 1]] ⟨[2, 2], v⟩ ⟨[2, 1], fun idx => if idx = [0, 0] then 0 else 1⟩ none = .ok L ∧
      L.get [0, 0] = v [0, 0] ∧ L.get [0, 1] = v [1, 1] := by
  have hg : ∀ g ∈ ([[0, 1]] : List (List ℝ)), IsGrid g := by
    intro g hg
    simp only [List.mem_cons, List.not_mem_nil, or_false] at hg
    subst hg
    refine ⟨by norm_num, by simp⟩
  set coords : Tensor ℝ := ⟨[2, 1], fun idx => if idx = [0, 0] then 0 else 1⟩ with hcoords
  obtain ⟨as, ha, hA⟩ := gridAxes_eq (coords := coords) (s := [2]) (N := 1) rfl [[0, 1]] 0 (fun g h => (hg g h).1) (by simp)
  have hf : ∀ i < 2, InShape [i] [2] := fun i hi => inShape_singleton.2 hi
  have hf2 : ∀ i < 2, ∀ j < 2, InShape [i, j] [2, 2] := fun i hi j hj => .cons hi (.cons hj .nil)
  have hk : ∀ x : ℝ, cellIdx [0, 1] x = 0 := fun x => by
    have := cellIdx_lt (g := [0, 1]) (by simp) x
    simpa using this
  cases hA with
  | @cons _ _ a _ as' hax hnil =>
  cases hnil
  have hi0 : ∀ i < 2, a.index.get [i] = 0 := fun i hi => by rw [hax.index [i] (hf i hi), hk]; rfl
  have hd0 : a.dist.get [0] = 0 := by
    rw [hax.dist [0] (hf 0 (by omega))]; unfold cellDist; rw [hk]; simp [hcoords]
  have hd1 : a.dist.get [1] = 1 := by
    rw [hax.dist [1] (hf 1 (by omega))]; unfold cellDist; rw [hk]; simp [hcoords]
  obtain ⟨R, g1, g2, g3⟩ := gridSum_eq ⟨[2, 2], v⟩ [2] [a] [2, 2]
    (fun e i => v (e.map (fun t => (t.get [i.headD 0]).toNat) ++ i.tail) *
      (((e.zip [a]).map (fun p => cornerFactor (p.1.get i.tail) (p.2.index.get i.tail) (p.2.dist.get i.tail))).prod))
    (product [(a.index, a.index.map (· + 1))]) ⟨[2, 2], fun _ => 0⟩ rfl (by
      intro e he
      obtain ⟨w, v1, v2, v3⟩ := gather_edges (points := [[0, 1]]) (values := ⟨[2, 2], v⟩) (u := [2])
        (fun g h => (hg g h).1) rfl (.cons hax (.nil _)) he
      have hz : Tensor.zipB (· * ·) w (cornerWeight [2] e [a]) =
          .ok ⟨[2, 2], fun idx => w.bget idx * (cornerWeight [2] e [a]).bget idx⟩ :=
        zipB_ok (by rw [v2]; rfl)
      refine ⟨w, _, v1, hz, rfl, fun i hi => ?_⟩
      cases hi with
      | @cons i _ l _ hi hl =>
      cases hl with
      | @cons j _ l _ hj hl =>
      cases hl
      simp only
      rw [bget_self (by rw [v2]; exact hf2 i hi j hj)]
      have hw : (cornerWeight [2] e [a]).bget [i, j] = (cornerWeight [2] e [a]).get [j] := bget_row (n := 2) rfl [i] hj
      rw [hw]
      have := v3 [i] [j] (hf i hi)
      rw [List.singleton_append] at this
      rw [this]
      simp only [cornerWeight, foldl_mul_eq, List.tail_cons, List.headD_cons])
  refine ⟨R, ?_, ?_, ?_⟩
  · have : regularGridInterp [[0, 1]] ⟨[2, 2], v⟩ coords none =
        (gridSum ⟨[2, 2], v⟩ [2] [a] (product [(a.index, a.index.map (· + 1))]) ⟨[2, 2], fun _ => 0⟩).bind
          (gridFill (gridMask [2] [a]) none) := by
      unfold regularGridInterp
      simp only [bind, Except.bind, ha]
      rfl
    rw [this, g1]
    rfl
  · rw [g3 [0, 0] (hf2 0 (by omega) 0 (by omega))]
    simp [product, cornerFactor, hi0 0, hd0, Tensor.map]
  · rw [g3 [0, 1] (hf2 0 (by omega) 1 (by omega))]
    simp [product, cornerFactor, hi0 0, hi0 1, hd1, Tensor.map]

/-- A witness for the hypotheses of `C47_single_partial` and `C47_shape_counterexample`. -/
example : (Tensor.mk [2, 3] (fun _ => (0 : ℝ))).shape = ([[0, 1]] : List (List ℝ)).map List.length ++ [3] ∧
    (∀ g ∈ ([[0, 1]] : List (List ℝ)), IsGrid g) := by
  refine ⟨rfl, ?_⟩
  intro g hg
  simp only [List.mem_cons, List.not_mem_nil, or_false] at hg
  subst hg
  exact ⟨by norm_num, by simp⟩

end Exo
