import Verif.Spec.BackpropGrid
import Verif.Props.BackpropFit
import Verif.Props.Interp

/-!
# C133: gradients of interpolated tables as the compiled graph computes them
-/

namespace Exo
open Real Function GridPar
open scoped Topology

namespace GridInterp
variable {op : FlOp} {L : ℝ → ℝ → ℝ} {len : ℕ → ℕ} {N : ℕ} {fill : Option ℝ} {q : GridPar → ℝ}

/-! ## Graphs with the same value and derivatives -/

structure SameAt {ι : Type} [DecidableEq ι] (op : FlOp) (env : ι → Fl) (G H : Graph ι) : Prop where
  value : G.value op env = H.value op env
  back : ∀ g j, G.back op env g j = H.back op env g j

namespace SameAt
variable {ι : Type} [DecidableEq ι] {env : ι → Fl} {G G' H H' : Graph ι}

theorem refl (G : Graph ι) : SameAt op env G G := ⟨rfl, fun _ _ => rfl⟩

theorem sub (h : SameAt op env G G') (h' : SameAt op env H H') : SameAt op env (.sub G H) (.sub G' H') :=
  ⟨by simp only [Graph.value, h.value, h'.value], fun g j => by simp only [Graph.back, h.back, h'.back]⟩

theorem add (h : SameAt op env G G') (h' : SameAt op env H H') : SameAt op env (.add G H) (.add G' H') :=
  ⟨by simp only [Graph.value, h.value, h'.value], fun g j => by simp only [Graph.back, h.back, h'.back]⟩

theorem mul (h : SameAt op env G G') (h' : SameAt op env H H') : SameAt op env (.mul G H) (.mul G' H') :=
  ⟨by simp only [Graph.value, h.value, h'.value], fun g j => by simp only [Graph.back, h.back, h'.back, h.value, h'.value]⟩

theorem div (h : SameAt op env G G') (h' : SameAt op env H H') : SameAt op env (.div G H) (.div G' H') :=
  ⟨by simp only [Graph.value, h.value, h'.value], fun g j => by simp only [Graph.back, h.back, h'.back, h.value, h'.value]⟩

theorem foldl (f : Graph ι → Graph ι → Graph ι) (hf : ∀ {A A' B B'}, SameAt op env A A' → SameAt op env B B' → SameAt op env (f A B) (f A' B')) {l l' : List (Graph ι)}
    (h : List.Forall₂ (SameAt op env) l l') {A A' : Graph ι} (hA : SameAt op env A A') : SameAt op env (l.foldl f A) (l'.foldl f A') := by
  induction h generalizing A A' with
  | nil => exact hA
  | cons h _ ih => exact ih (hf hA h)

end SameAt

theorem sum_single {l : ℕ} {F : Fin l → Fl} (n : Fin l) (h : ∀ i, i ≠ n → F i = .fin 0) : Fl.sum ((List.finRange l).map F) = F n := by
  have z : ∀ x : Fl, x + .fin 0 = x := fun x => by
    cases x with
    | fin x => rw [Fl.fin_add]; simp
    | _ => rfl
  have z' : ∀ x : Fl, Fl.fin 0 + x = x := fun x => by
    cases x with
    | fin x => rw [Fl.fin_add]; simp
    | _ => rfl
  have key : ∀ (k : List (Fin l)) (a : Fl), n ∉ k → (k.map F).foldl (· + ·) a = a := by
    intro k
    induction k with
    | nil => intro a _; rfl
    | cons i k ih =>
      intro a hn
      rw [List.map_cons, List.foldl_cons, h i fun e => hn (by simp [e]), z, ih _ fun e => hn (List.mem_cons_of_mem _ e)]
  obtain ⟨k1, k2, e⟩ := List.append_of_mem (List.mem_finRange n)
  have hnd := List.nodup_finRange l
  rw [e] at hnd
  have h12 := List.nodup_append.1 hnd
  rw [Fl.sum, e, List.map_append, List.foldl_append, key k1 _ fun hm => h12.2.2 n hm n (by simp) rfl, List.map_cons, List.foldl_cons, z',
    key k2 _ (List.nodup_cons.1 h12.2.1).1]

/-! ## The selected cell -/

/-- The number of grid points below the coordinate. -/
noncomputable def below (len : ℕ → ℕ) (q : GridPar → ℝ) (d : ℕ) : ℕ := ((List.range (len d)).filter fun k => decide (q (.point d k) < q (.coord d))).length

theorem below_le (d : ℕ) : below len q d ≤ len d := (List.length_filter_le _ _).trans (by simp)

theorem below_eq (d : ℕ) : searchsortedLeft ((List.range (len d)).map fun k => q (.point d k)) (q (.coord d)) = below len q d := by
  rw [searchsortedLeft, List.filter_map, List.length_map]
  rfl

theorem below_fin (d : ℕ) : ((List.finRange (len d)).filter fun i : Fin (len d) => decide (q (.point d i) < q (.coord d))).length = below len q d := by
  rw [below, ← List.map_coe_finRange_eq_range, List.filter_map, List.length_map]
  rfl

theorem cellIdx_eq {d : ℕ} (h : 2 ≤ len d) : cellIdx ((List.range (len d)).map fun k => q (.point d k)) (q (.coord d)) = cell (len d) (below len q d) := by
  have hle := below_le (len := len) (q := q) d
  unfold cellIdx gridClip clipInt gridInsert cell
  rw [below_eq, List.length_map, List.length_range]
  split
  · omega
  · split <;> omega

theorem outside_eq {d : ℕ} :
    gridOutside ((List.range (len d)).map fun k => q (.point d k)) (gridInsert ((List.range (len d)).map fun k => q (.point d k)) (q (.coord d))) = true ↔
      below len q d = 0 ∨ below len q d = len d := by
  have hle := below_le (len := len) (q := q) d
  unfold gridOutside gridInsert
  rw [below_eq, List.length_map, List.length_range, Bool.or_eq_true, decide_eq_true_iff, decide_eq_true_iff]
  omega

/-! ## The graph with the selection made -/

section frozen
variable (k : ℕ → ℕ)

def distF (d : ℕ) : Graph GridPar := .div (.sub (.input (.coord d)) (.input (.point d (k d + 0)))) (.sub (.input (.point d (k d + 1))) (.input (.point d (k d + 0))))

def tableF : List ℕ → List ℕ → (List ℕ → Graph GridPar) → Graph GridPar
  | d :: ds, e :: es, v => tableF ds es fun c => v ((k d + e) :: c)
  | _, _, v => v []

def factorF (d e : ℕ) : Graph GridPar := if e = 0 then .sub (.const 1) (distF k d) else distF k d

def weightF (ds es : List ℕ) : Graph GridPar := (List.zipWith (factorF k) ds es).foldl .mul (.const 1)

noncomputable def resultF (ds : List ℕ) : Graph GridPar :=
  Fit.sumG ((product (ds.map fun _ => (0, 1))).map fun es => .mul (tableF k ds es fun c => .input (.value c)) (weightF k ds es))

end frozen

section same

theorem pick_same {d : ℕ} {v : ℕ → Graph GridPar} (hz : ∀ n j, n ≠ below len q d → (v n).back op (fun i => .fin (q i)) (.fin 0) j = .fin 0) :
    SameAt op (fun i => .fin (q i)) (pickG len d v) (v (below len q d)) := by
  have hn : below len q d < len d + 1 := Nat.lt_succ_of_le (below_le d)
  have hfil : ((List.finRange (len d)).filter fun i : Fin (len d) => (Fl.fin (q (.coord d))).gt (.fin (q (.point d i)))).length = below len q d := by
    rw [← below_fin]
    rfl
  constructor
  · simp only [pickG, Graph.value, hfil, dif_pos hn]
  · intro g j
    simp only [pickG, Graph.back, Graph.value, hfil]
    rw [sum_single ⟨_, hn⟩ fun i hi => ?_]
    · simp
    · have : (i : ℕ) ≠ below len q d := fun e => hi (Fin.ext e)
      rw [if_neg this]
      exact hz _ j this

theorem input_zero (i j : GridPar) : (Graph.input i).back op (fun i => .fin (q i)) (.fin 0) j = .fin 0 := by
  simp [Graph.back]

theorem gridG_same (d e : ℕ) : SameAt op (fun i => .fin (q i)) (gridG len d e) (.input (.point d (cell (len d) (below len q d) + e))) :=
  pick_same (v := fun n => .input (.point d (cell (len d) n + e))) fun _ _ _ => input_zero _ _

theorem distG_same (d : ℕ) : SameAt op (fun i => .fin (q i)) (distG len d) (distF (fun d => cell (len d) (below len q d)) d) :=
  ((SameAt.refl _).sub (gridG_same d 0)).div ((gridG_same d 1).sub (gridG_same d 0))

theorem tableG_same (ds es : List ℕ) (v : List ℕ → Graph GridPar) (hv : ∀ c j, (v c).back op (fun i => .fin (q i)) (.fin 0) j = .fin 0) :
    SameAt op (fun i => .fin (q i)) (tableG len ds es v) (tableF (fun d => cell (len d) (below len q d)) ds es v) ∧
      ∀ j, (tableF (fun d => cell (len d) (below len q d)) ds es v).back op (fun i => .fin (q i)) (.fin 0) j = .fin 0 := by
  induction ds generalizing es v with
  | nil => exact ⟨by unfold tableG tableF; exact .refl _, fun j => by unfold tableF; exact hv _ _⟩
  | cons d ds ih =>
    cases es with
    | nil => exact ⟨by unfold tableG tableF; exact .refl _, fun j => by unfold tableF; exact hv _ _⟩
    | cons e es =>
      have h := fun n => ih es (fun c => v ((cell (len d) n + e) :: c)) fun c j => hv _ _
      have hp := pick_same (op := op) (q := q) (len := len) (d := d) (v := fun n => tableG len ds es fun c => v ((cell (len d) n + e) :: c)) fun n j _ => by
        rw [(h n).1.back]; exact (h n).2 j
      refine ⟨?_, fun j => (h _).2 j⟩
      exact ⟨hp.value.trans (h _).1.value, fun g j => (hp.back g j).trans ((h _).1.back g j)⟩

theorem factorG_same (d e : ℕ) : SameAt op (fun i => .fin (q i)) (factorG len d e) (factorF (fun d => cell (len d) (below len q d)) d e) := by
  unfold factorG factorF
  split
  · exact (SameAt.refl _).sub (distG_same d)
  · exact distG_same d

theorem weightG_same (ds es : List ℕ) : SameAt op (fun i => .fin (q i)) (weightG len ds es) (weightF (fun d => cell (len d) (below len q d)) ds es) := by
  refine SameAt.foldl _ SameAt.mul ?_ (.refl _)
  induction ds generalizing es with
  | nil => exact .nil
  | cons d ds ih => cases es with
    | nil => exact .nil
    | cons e es => exact .cons (factorG_same d e) (ih es)

theorem resultG_same (ds : List ℕ) : SameAt op (fun i => .fin (q i)) (resultG len ds) (resultF (fun d => cell (len d) (below len q d)) ds) := by
  refine SameAt.foldl _ SameAt.add ?_ (.refl _)
  rw [List.forall₂_map_left_iff, List.forall₂_map_right_iff, List.forall₂_same]
  exact fun es _ => (tableG_same ds es _ fun c j => input_zero _ _).1.mul (weightG_same ds es)

end same

/-! ## Its value and derivatives -/

section value
variable (k : ℕ → ℕ)

noncomputable def dist (q : GridPar → ℝ) (d : ℕ) : ℝ := (q (.coord d) - q (.point d (k d))) / (q (.point d (k d + 1)) - q (.point d (k d)))

theorem foldl_mul_real (l : List (Graph GridPar)) (A : Graph GridPar) : (l.foldl .mul A).real L q = A.real L q * (l.map fun G => G.real L q).prod := by
  induction l generalizing A with
  | nil => simp
  | cons G l ih => rw [List.foldl_cons, ih, List.map_cons, List.prod_cons, Graph.real, mul_assoc]

theorem foldl_add_real (l : List (Graph GridPar)) (A : Graph GridPar) : (l.foldl .add A).real L q = A.real L q + (l.map fun G => G.real L q).sum := by
  induction l generalizing A with
  | nil => simp
  | cons G l ih => rw [List.foldl_cons, ih, List.map_cons, List.sum_cons, Graph.real, add_assoc]

theorem corners_sum (ds : List ℕ) (v : List ℕ → Graph GridPar) :
    ((product (ds.map fun _ => (0, 1))).map fun es => (tableF k ds es v).real L q * ((List.zipWith (factorF k) ds es).map fun G => G.real L q).prod).sum =
      ml (ds.map fun d => (k d, dist k q d)) fun c => (v c).real L q := by
  induction ds generalizing v with
  | nil => simp [product, ml, tableF]
  | cons d ds ih =>
    simp only [List.map_cons, product, List.map_append, List.map_map, List.sum_append, ml]
    rw [← ih fun c => v (k d :: c), ← ih fun c => v ((k d + 1) :: c), ← List.sum_map_mul_left, ← List.sum_map_mul_left]
    congr 1
    · congr 1
      refine List.map_congr_left fun es _ => ?_
      have : (factorF k d 0).real L q = 1 - dist k q d := rfl
      simp only [Function.comp, List.zipWith_cons_cons, List.map_cons, List.prod_cons, this, tableF, add_zero]
      ring
    · congr 1
      refine List.map_congr_left fun es _ => ?_
      have : (factorF k d 1).real L q = dist k q d := rfl
      simp only [Function.comp, List.zipWith_cons_cons, List.map_cons, List.prod_cons, this, tableF]
      ring

theorem resultF_real (ds : List ℕ) : (resultF k ds).real L q = ml (ds.map fun d => (k d, dist k q d)) fun c => q (.value c) := by
  rw [resultF, Fit.sumG, foldl_add_real, List.map_map]
  have := corners_sum (L := L) (q := q) k ds fun c => .input (.value c)
  simp only [Graph.real] at this ⊢
  rw [zero_add, ← this]
  congr 1
  refine List.map_congr_left fun es _ => ?_
  simp only [Function.comp, Graph.real, weightF, foldl_mul_real, one_mul]

theorem foldl_regular (f : Graph GridPar → Graph GridPar → Graph GridPar) (hf : ∀ A B, A.Regular L op q → B.Regular L op q → (f A B).Regular L op q) (l : List (Graph GridPar))
    (hl : ∀ G ∈ l, G.Regular L op q) (A : Graph GridPar) (hA : A.Regular L op q) : (l.foldl f A).Regular L op q := by
  induction l generalizing A with
  | nil => exact hA
  | cons G l ih => exact ih (fun H hH => hl H (List.mem_cons_of_mem _ hH)) _ (hf _ _ hA (hl G List.mem_cons_self))

theorem resultF_regular (ds : List ℕ) (h : ∀ d ∈ ds, q (.point d (k d)) ≠ q (.point d (k d + 1))) : (resultF k ds).Regular L op q := by
  refine foldl_regular .add (fun _ _ hA hB => ⟨hA, hB⟩) _ (fun G hG => ?_) _ trivial
  obtain ⟨es, -, hG'⟩ := List.mem_map.1 hG
  clear hG
  subst hG'
  refine ⟨?_, foldl_regular .mul (fun _ _ hA hB => ⟨hA, hB⟩) _ (fun G hG => ?_) _ trivial⟩
  · have : ∀ (ds es : List ℕ) (v : List ℕ → Graph GridPar), (∀ c, (v c).Regular L op q) → (tableF k ds es v).Regular L op q := by
      intro ds
      induction ds with
      | nil => intro es v hv; unfold tableF; exact hv _
      | cons d ds ih =>
        intro es v hv
        cases es with
        | nil => unfold tableF; exact hv _
        | cons e es => exact ih es _ fun c => hv _
    exact this _ _ _ fun _ => trivial
  · have : ∀ es : List ℕ, G ∈ List.zipWith (factorF k) ds es → G.Regular L op q := by
      clear hG
      clear * - h
      induction ds with
      | nil => intro es hG; simp at hG
      | cons d ds ih =>
        intro es hG
        cases es with
        | nil => simp at hG
        | cons e es =>
          rw [List.zipWith_cons_cons, List.mem_cons] at hG
          rcases hG with rfl | hG
          · have hd : (distF k d).Regular L op q := ⟨⟨trivial, trivial⟩, ⟨trivial, trivial⟩, sub_ne_zero.2 (h d List.mem_cons_self).symm⟩
            unfold factorF
            split
            · exact ⟨trivial, hd⟩
            · exact hd
          · exact ih (fun d hd => h d (List.mem_cons_of_mem _ hd)) es hG
    exact this es hG

end value

/-! ## What the code returns -/

/-- The coordinate of one of the axes is at or below the first point or above the last. -/
def Out (len : ℕ → ℕ) (q : GridPar → ℝ) (ds : List ℕ) : Prop := ∃ d ∈ ds, below len q d = 0 ∨ below len q d = len d

open Classical in
theorem returns_eq {f : (GridPar → ℝ) → ℝ} (hf : Returns len N fill f) (h2 : ∀ d < N, 2 ≤ len d) (q : GridPar → ℝ) :
    f q = match fill with
      | none => ml ((List.range N).map fun d => (cell (len d) (below len q d), dist (fun d => cell (len d) (below len q d)) q d)) fun c => q (.value c)
      | some x => if Out len q (List.range N) then x
        else ml ((List.range N).map fun d => (cell (len d) (below len q d), dist (fun d => cell (len d) (below len q d)) q d)) fun c => q (.value c) := by
  obtain ⟨T, hT, e⟩ := hf q
  have hl : (points len N q).length = N := by simp [points]
  obtain ⟨T', h1, -, h3⟩ := interp_eq (points := points len N q) (values := table len N q) (coords := query N q) (s := [1]) (N := N)
    (fun g hg => by
      obtain ⟨d, hd, rfl⟩ := List.mem_map.1 hg
      simpa using h2 d (List.mem_range.1 hd))
    (by simp [points, table]) rfl hl.le fill
  obtain rfl := Except.ok.inj (hT.symm.trans h1)
  rw [← e, h3 [0] (by simp [InShape])]
  have hx : queryPoint (query N q) [0] (points len N q).length = (List.range N).map fun d => q (.coord d) := by
    rw [hl]
    rfl
  have hc : cellsOf (points len N q) ((List.range N).map fun d => q (.coord d)) =
      (List.range N).map fun d => (cell (len d) (below len q d), dist (fun d => cell (len d) (below len q d)) q d) := by
    unfold cellsOf points
    rw [List.zipWith_map, List.zipWith_map, List.zipWith_self, List.zipWith_self, List.zip_map', List.map_congr_left]
    intro d hd
    have h := h2 d (List.mem_range.1 hd)
    have hk := cellIdx_lt (g := (List.range (len d)).map fun k => q (.point d k)) (by simpa using h) (q (.coord d))
    rw [cellIdx_eq h, List.length_map, List.length_range] at hk
    simp only [cellDist, dist, cellIdx_eq h]
    congr 1
    rw [List.getD_eq_getElem _ _ (by simp; omega), List.getD_eq_getElem _ _ (by simp; omega)]
    simp
  have ho : (List.zipWith (fun g x => gridOutside g (gridInsert g x)) (points len N q) ((List.range N).map fun d => q (.coord d))).any id = true ↔ Out len q (List.range N) := by
    unfold points
    rw [List.zipWith_map, List.zipWith_self, List.any_map, List.any_eq_true]
    exact exists_congr fun d => and_congr_right fun _ => outside_eq
  rw [hx, hc]
  cases fill with
  | none => rfl
  | some x =>
    simp only [ho]
    rfl

open Classical in
/-- The graph with the selection made at `q`. -/
noncomputable def frozen (len : ℕ → ℕ) (N : ℕ) (fill : Option ℝ) (q : GridPar → ℝ) : Graph GridPar := match fill with
  | none => resultF (fun d => cell (len d) (below len q d)) (List.range N)
  | some x => if Out len q (List.range N) then .const x else resultF (fun d => cell (len d) (below len q d)) (List.range N)

/-- The same cells are used at `q'` as at `q`. -/
def Keep (len : ℕ → ℕ) (N : ℕ) (fill : Option ℝ) (q q' : GridPar → ℝ) : Prop :=
  ∀ d < N, cell (len d) (below len q' d) = cell (len d) (below len q d) ∧
    (fill ≠ none → (below len q' d = 0 ↔ below len q d = 0) ∧ (below len q' d = len d ↔ below len q d = len d))

theorem keep_eq {f : (GridPar → ℝ) → ℝ} (hf : Returns len N fill f) (h2 : ∀ d < N, 2 ≤ len d) {q' : GridPar → ℝ} (hk : Keep len N fill q q') : f q' = (frozen len N fill q).real L q' := by
  have e : ((List.range N).map fun d => (cell (len d) (below len q' d), dist (fun d => cell (len d) (below len q' d)) q' d)) =
      (List.range N).map fun d => (cell (len d) (below len q d), dist (fun d => cell (len d) (below len q d)) q' d) := by
    refine List.map_congr_left fun d hd => ?_
    simp only [dist, (hk d (List.mem_range.1 hd)).1]
  rw [returns_eq hf h2]
  cases fill with
  | none => simp only [frozen, resultF_real, e]
  | some x =>
    have ho : Out len q' (List.range N) ↔ Out len q (List.range N) := exists_congr fun d => and_congr_right fun hd => by
      obtain ⟨h1, h2⟩ := (hk d (List.mem_range.1 hd)).2 (by simp)
      rw [h1, h2]
    simp only [frozen, e, ho]
    by_cases h : Out len q (List.range N)
    · rw [if_pos (ho.2 h), if_pos h]; rfl
    · rw [if_neg (ho.not.2 h), if_neg h, resultF_real]

theorem frozen_regular (hq : Increasing len N q) : (frozen len N fill q).Regular L op q := by
  have h : (resultF (fun d => cell (len d) (below len q d)) (List.range N)).Regular L op q := by
    refine resultF_regular _ _ fun d hd => ?_
    obtain ⟨h2, hi⟩ := hq d (List.mem_range.1 hd)
    refine (hi _ _ (Nat.lt_succ_self _) ?_).ne
    unfold cell
    omega
  unfold frozen
  cases fill with
  | none => exact h
  | some x =>
    simp only
    split
    · trivial
    · exact h

open Classical in
theorem fillG_same (x : ℝ) (ds : List ℕ) {R : Graph GridPar} (hR : ∀ j, R.back op (fun i => .fin (q i)) (.fin 0) j = .fin 0) :
    SameAt op (fun i => .fin (q i)) (fillG len x ds R) (if Out len q ds then .const x else R) ∧ ∀ j, (fillG len x ds R).back op (fun i => .fin (q i)) (.fin 0) j = .fin 0 := by
  induction ds with
  | nil => exact ⟨by rw [if_neg (by simp [Out])]; exact .refl _, hR⟩
  | cons d ds ih =>
    have hp := pick_same (op := op) (q := q) (len := len) (d := d) (v := fun n => if n = 0 ∨ n = len d then .const x else fillG len x ds R) fun n j _ => by
      split
      · rfl
      · exact ih.2 j
    have ho : Out len q (d :: ds) ↔ (below len q d = 0 ∨ below len q d = len d) ∨ Out len q ds := by simp [Out]
    have key : SameAt op (fun i => .fin (q i)) (if below len q d = 0 ∨ below len q d = len d then .const x else fillG len x ds R) (if Out len q (d :: ds) then .const x else R) := by
      by_cases h : below len q d = 0 ∨ below len q d = len d
      · rw [if_pos h, if_pos (ho.2 (Or.inl h))]; exact .refl _
      · rw [if_neg h]
        simp only [ho, h, false_or]
        exact ih.1
    have key' : SameAt op (fun i => .fin (q i)) (fillG len x (d :: ds) R) (if Out len q (d :: ds) then .const x else R) :=
      ⟨hp.value.trans key.value, fun g j => (hp.back g j).trans (key.back g j)⟩
    refine ⟨key', fun j => ?_⟩
    rw [key'.back]
    split
    · rfl
    · exact hR j

theorem interpG_same (hq : Increasing len N q) : SameAt op (fun i => .fin (q i)) (interpG len N fill) (frozen len N fill q) := by
  have hr := resultG_same (op := op) (len := len) (q := q) (List.range N)
  cases fill with
  | none => exact hr
  | some x =>
    have h0 : ∀ j, (resultG len (List.range N)).back op (fun i => .fin (q i)) (.fin 0) j = .fin 0 := fun j => by
      have hreg : (frozen len N none q).Regular (fun _ _ => 0) op q := frozen_regular hq
      obtain ⟨D, -, hD⟩ := (C118_backprop op _ q _ hreg).2 j
      rw [hr.back, show resultF (fun d => cell (len d) (below len q d)) (List.range N) = frozen len N none q from rfl, hD, zero_mul]
    have h := (fillG_same (op := op) (len := len) (q := q) x (List.range N) h0).1
    unfold interpG frozen
    simp only at h ⊢
    split at h
    · next hc => rw [if_pos hc]; exact h
    · next hc => rw [if_neg hc]; exact ⟨h.value.trans hr.value, fun g j => (h.back g j).trans (hr.back g j)⟩

/-- The derivatives computed at `q` are those of a smooth function, with which the result agrees as long as the cells are the same. -/
theorem core (op : FlOp) {f : (GridPar → ℝ) → ℝ} (hf : Returns len N fill f) (hq : Increasing len N q) :
    ∃ Φ, GradientRight op (interpG len N fill) Φ q ∧ ∀ q', Keep len N fill q q' → f q' = Φ q' := by
  have hs := interpG_same (op := op) (fill := fill) hq
  obtain ⟨h1, h2⟩ := C118_backprop op (fun _ _ => 0) q _ (frozen_regular (fill := fill) hq)
  refine ⟨fun q => (frozen len N fill _).real (fun _ _ => 0) q, ⟨hs.value.trans h1, fun j => ?_⟩, fun q' hk => keep_eq hf (fun d hd => (hq d hd).1) hk⟩
  obtain ⟨D, hD, hg⟩ := h2 j
  exact ⟨D, hD, fun g => (hs.back _ _).trans (hg g)⟩

/-! ## Which cells are kept -/

theorem below_congr {q' : GridPar → ℝ} {d : ℕ} (h : ∀ k < len d, (q' (.point d k) < q' (.coord d) ↔ q (.point d k) < q (.coord d))) : below len q' d = below len q d := by
  unfold below
  rw [List.filter_congr fun k hk => ?_]
  simp only [h k (List.mem_range.1 hk)]

theorem below_le_one {d : ℕ} (h : ∀ k < len d, k ≠ 0 → ¬ q (.point d k) < q (.coord d)) : below len q d ≤ 1 := by
  unfold below
  rcases hl : len d with _ | l
  · simp
  · rw [List.range_succ_eq_map, List.filter_cons]
    have : List.filter (fun k => decide (q (.point d k) < q (.coord d))) (List.map Nat.succ (List.range l)) = [] := by
      rw [List.filter_eq_nil_iff]
      intro k hk
      obtain ⟨i, hi, rfl⟩ := List.mem_map.1 hk
      simpa using h (i + 1) (by rw [hl]; simpa using List.mem_range.1 hi) (by omega)
    rw [this]
    split <;> simp

theorem le_below {d l : ℕ} (hl : len d = l + 1) (h : ∀ k < l, q (.point d k) < q (.coord d)) : l ≤ below len q d := by
  unfold below
  rw [hl, List.range_succ, List.filter_append]
  have : List.filter (fun k => decide (q (.point d k) < q (.coord d))) (List.range l) = List.range l := by
    rw [List.filter_eq_self]
    intro k hk
    simpa using h k (List.mem_range.1 hk)
  rw [this]
  simp

/-- Where it matters, the coordinates are on the same side of the grid points. -/
theorem keep_of (hq : Increasing len N q) {q' : GridPar → ℝ}
    (h : ∀ d < N, ∀ k < len d, (q' (.point d k) < q' (.coord d) ↔ q (.point d k) < q (.coord d)) ∨ q (.coord d) = q (.point d k) ∧ fill = none ∧ (k = 0 ∨ k + 1 = len d)) :
    Keep len N fill q q' := by
  intro d hd
  obtain ⟨h2, hi⟩ := hq d hd
  by_cases hall : ∀ k < len d, (q' (.point d k) < q' (.coord d) ↔ q (.point d k) < q (.coord d))
  · rw [below_congr hall]
    simp
  push Not at hall
  obtain ⟨k0, hk0, hne⟩ := hall
  obtain ⟨he, hf, hk⟩ : q (.coord d) = q (.point d k0) ∧ fill = none ∧ (k0 = 0 ∨ k0 + 1 = len d) := by
    rcases h d hd k0 hk0 with h' | h'
    · rcases hne with ⟨a, b⟩ | ⟨a, b⟩
      · exact absurd (h'.1 a) b.not_gt
      · exact absurd (h'.2 b) a.not_gt
    · exact h'
  refine ⟨?_, fun h => (h hf).elim⟩
  have hside : ∀ k < len d, k ≠ k0 → (q' (.point d k) < q' (.coord d) ↔ q (.point d k) < q (.coord d)) := fun k hk' hkk => by
    rcases h d hd k hk' with h' | ⟨h', -⟩
    · exact h'
    · rw [he] at h'
      rcases lt_or_gt_of_ne hkk with hlt | hlt
      · exact absurd h' (hi _ _ hlt hk0).ne'
      · exact absurd h' (hi _ _ hlt hk').ne
  have hlt : ∀ k, k < k0 → q (.point d k) < q (.coord d) := fun k hk' => by rw [he]; exact hi _ _ hk' hk0
  have hgt : ∀ k < len d, k0 ≤ k → ¬ q (.point d k) < q (.coord d) := fun k hk' hkk => by
    rw [he, not_lt]
    rcases hkk.eq_or_lt with rfl | hkk
    · exact le_rfl
    · exact (hi _ _ hkk hk').le
  rcases hk with rfl | hk
  · have a : below len q d ≤ 1 := below_le_one fun k hk' _ => hgt k hk' (Nat.zero_le _)
    have b : below len q' d ≤ 1 := below_le_one fun k hk' h0 => (hside k hk' h0).not.2 (hgt k hk' (Nat.zero_le _))
    unfold cell
    omega
  · have a : k0 ≤ below len q d := le_below hk.symm hlt
    have b : k0 ≤ below len q' d := le_below hk.symm fun k hk' => (hside k (by omega) hk'.ne).2 (hlt k hk')
    unfold cell
    omega

theorem compare (len : ℕ → ℕ) (N : ℕ) (q : GridPar → ℝ) (j : GridPar) : ∀ᶠ s in 𝓝 (q j), ∀ d < N, ∀ k < len d, q (.coord d) ≠ q (.point d k) →
    (update q j s (.point d k) < update q j s (.coord d) ↔ q (.point d k) < q (.coord d)) := by
  have hc : ∀ i, ContinuousAt (fun s => update q j s i) (q j) := fun i => by
    by_cases h : i = j
    · subst h; simp only [update_self]; exact continuousAt_id
    · simpa [h] using continuousAt_const
  have hu : ∀ i, update q j (q j) i = q i := fun i => by rw [update_eq_self]
  refine (Filter.eventually_all_finite (Set.finite_lt_nat N)).2 fun d _ => (Filter.eventually_all_finite (Set.finite_lt_nat (len d))).2 fun k _ => ?_
  by_cases h : q (.coord d) = q (.point d k)
  · exact Filter.Eventually.of_forall fun s h' => (h' h).elim
  rcases lt_or_gt_of_ne h with h | h
  · filter_upwards [(hc (.coord d)).eventually_lt (hc (.point d k)) (by rwa [hu, hu])] with s hs _
    exact ⟨fun h' => absurd h' hs.not_gt, fun h' => absurd h' h.not_gt⟩
  · filter_upwards [(hc (.point d k)).eventually_lt (hc (.coord d)) (by rwa [hu, hu])] with s hs _
    exact ⟨fun _ => h, fun _ => hs⟩

end GridInterp

open GridInterp
variable {op : FlOp} {len : ℕ → ℕ} {N : ℕ} {fill : Option ℝ} {q : GridPar → ℝ} {f : (GridPar → ℝ) → ℝ}

/-- **C133 (one parameter).** For a grid in increasing order, the computed derivative with respect to a coordinate, a grid point or an entry of the table is right unless that parameter is a coordinate
equal to a grid point of its axis, or such a grid point; and also then at the ends of an axis, when there is no `fill_value`. The other coordinates may be at grid points. -/
theorem C133_parameter_partial (hf : Returns len N fill f) (hq : Increasing len N q) {j : GridPar}
    (hj : ∀ d < N, ∀ k < len d, q (.coord d) = q (.point d k) → (j ≠ .coord d ∧ j ≠ .point d k) ∨ fill = none ∧ (k = 0 ∨ k + 1 = len d)) :
    ∃ D, HasDerivAt (fun s => f (update q j s)) D (q j) ∧ ∀ g : ℝ, (interpG len N fill).back op (fun i => .fin (q i)) (.fin g) j = .fin (g * D) := by
  obtain ⟨Φ, hΦ, hk⟩ := core op hf hq
  obtain ⟨D, hD, hg⟩ := hΦ.2 j
  refine ⟨D, hD.congr_of_eventuallyEq ?_, hg⟩
  filter_upwards [compare len N q j] with s hs
  refine hk _ (keep_of hq fun d hd k hk => ?_)
  by_cases he : q (.coord d) = q (.point d k)
  · rcases hj d hd k hk he with ⟨h1, h2⟩ | h
    · left
      rw [update_of_ne h1.symm, update_of_ne h2.symm]
    · exact Or.inr ⟨he, h⟩
  · exact Or.inl (hs d hd k hk he)

/-- **C133.** The interpolated value and all its computed derivatives, with respect to the coordinates, the grid and the table, are right in the interior of all cells of a grid in increasing order; without a `fill_value` also
outside of the grid and at its ends. -/
theorem C133_partial (hf : Returns len N fill f) (hq : Increasing len N q)
    (h : ∀ d < N, ∀ k < len d, q (.coord d) = q (.point d k) → fill = none ∧ (k = 0 ∨ k + 1 = len d)) : GradientRight op (interpG len N fill) f q := by
  obtain ⟨Φ, hΦ, hk⟩ := core op hf hq
  exact ⟨by rw [hΦ.1, ← hk q fun d _ => by simp], fun j => C133_parameter_partial hf hq fun d hd k hk he => Or.inr (h d hd k hk he)⟩

/-- **C133 (value).** The value of the graph is that of the function, at all points. -/
theorem C133_value (hf : Returns len N fill f) (hq : Increasing len N q) : (interpG len N fill).value op (fun i => .fin (q i)) = .fin (f q) := by
  obtain ⟨Φ, hΦ, hk⟩ := core op hf hq
  rw [hΦ.1, ← hk q fun d _ => by simp]

/-- **C133 (table).** The computed derivatives with respect to the entries of the table are right everywhere. -/
theorem C133_table (hf : Returns len N fill f) (hq : Increasing len N q) (c : List ℕ) :
    ∃ D, HasDerivAt (fun s => f (update q (.value c) s)) D (q (.value c)) ∧ ∀ g : ℝ, (interpG len N fill).back op (fun i => .fin (q i)) (.fin g) (.value c) = .fin (g * D) :=
  C133_parameter_partial hf hq fun _ _ _ _ _ => Or.inl ⟨by simp, by simp⟩

/-- **C133 (left).** The computed derivative with respect to a coordinate is the derivative from the left everywhere, also at grid points and at the edges of the region where `fill_value` is returned. -/
theorem C133_left (hf : Returns len N fill f) (hq : Increasing len N q) (d₀ : ℕ) :
    ∃ D, HasDerivWithinAt (fun s => f (update q (.coord d₀) s)) D (Set.Iic (q (.coord d₀))) (q (.coord d₀)) ∧
      ∀ g : ℝ, (interpG len N fill).back op (fun i => .fin (q i)) (.fin g) (.coord d₀) = .fin (g * D) := by
  obtain ⟨Φ, hΦ, hk⟩ := core op hf hq
  obtain ⟨D, hD, hg⟩ := hΦ.2 (.coord d₀)
  refine ⟨D, hD.hasDerivWithinAt.congr_of_eventuallyEq ?_ ?_, hg⟩
  · filter_upwards [nhdsWithin_le_nhds (compare len N q (.coord d₀)), self_mem_nhdsWithin] with s hs hle
    refine hk _ (keep_of hq fun d hd k hk => Or.inl ?_)
    by_cases he : q (.coord d) = q (.point d k)
    · rw [update_of_ne (by simp : GridPar.point d k ≠ .coord d₀)]
      by_cases hd0 : d = d₀
      · subst hd0
        rw [update_self]
        exact ⟨fun h => absurd (h.trans_le hle) (by rw [he]; exact lt_irrefl _), fun h => absurd h (by rw [he]; exact lt_irrefl _)⟩
      · rw [update_of_ne (by simpa using hd0)]
    · exact hs d hd k hk he
  · simp only [update_eq_self]
    exact hk q fun d _ => by simp

/-- **C133 (edge).** With a `fill_value` the graph has this value, and all computed derivatives are zero, when a coordinate is below or *at* the first grid point of its axis, or above the last. -/
theorem C133_edge {x : ℝ} (hq : Increasing len N q) {d : ℕ} (hd : d < N) (h : q (.coord d) ≤ q (.point d 0) ∨ q (.point d (len d - 1)) < q (.coord d)) :
    (interpG len N (some x)).value op (fun i => .fin (q i)) = .fin x ∧ ∀ g j, (interpG len N (some x)).back op (fun i => .fin (q i)) g j = .fin 0 := by
  have hs := interpG_same (op := op) (fill := some x) hq
  obtain ⟨h2, hi⟩ := hq d hd
  have ho : Out len q (List.range N) := by
    refine ⟨d, List.mem_range.2 hd, ?_⟩
    rcases h with h | h
    · left
      rw [below, List.length_eq_zero_iff, List.filter_eq_nil_iff]
      intro k hk
      have : q (.point d 0) ≤ q (.point d k) := by
        rcases Nat.eq_zero_or_pos k with rfl | h0
        · exact le_rfl
        · exact (hi _ _ h0 (List.mem_range.1 hk)).le
      simpa using h.trans this
    · right
      rw [below, List.filter_eq_self.2 fun k hk => ?_, List.length_range]
      have : q (.point d k) ≤ q (.point d (len d - 1)) := by
        have hk' := List.mem_range.1 hk
        rcases (Nat.le_sub_one_of_lt hk').eq_or_lt with e | e
        · rw [← e]
        · exact (hi _ _ e (by omega)).le
      simpa using this.trans_lt h
  unfold frozen at hs
  simp only [if_pos ho] at hs
  exact ⟨hs.value, fun g j => hs.back g j⟩

/-- The function of the theorems exists for all grids with two or more points on each axis. -/
theorem returns_exists (h2 : ∀ d < N, 2 ≤ len d) (fill : Option ℝ) : ∃ f, Returns len N fill f := by
  have h : ∀ q, ∃ T, regularGridInterp (points len N q) (table len N q) (query N q) fill = .ok T := fun q => by
    obtain ⟨T, h1, -⟩ := interp_eq (points := points len N q) (values := table len N q) (coords := query N q) (s := [1]) (N := N)
      (fun g hg => by
        obtain ⟨d, hd, rfl⟩ := List.mem_map.1 hg
        simpa using h2 d (List.mem_range.1 hd))
      (by simp [points, table]) rfl (by simp [points]) fill
    exact ⟨T, h1⟩
  choose T hT using h
  exact ⟨fun q => (T q).get [0], fun q => ⟨T q, hT q, rfl⟩⟩

/-- A table of a triangle: the values `0, 1, 0` at `0, 1, 2`. -/
noncomputable def triangle (x : ℝ) : GridPar → ℝ
  | .coord _ => x
  | .point _ k => k
  | .value [1] => 1
  | .value _ => 0

theorem triangle_increasing (x : ℝ) : Increasing (fun _ => 3) 1 (triangle x) := fun d _ => ⟨by norm_num, fun i k h _ => by simpa [triangle] using h⟩

theorem triangle_update (s : ℝ) : update (triangle 1) (.coord 0) s (.coord 0) = s ∧ ∀ k, update (triangle 1) (.coord 0) s (.point 0 k) = k := ⟨by simp, fun k => by simp [triangle]⟩

theorem triangle_value (hf : Returns (fun _ => 3) 1 none f) {s : ℝ} :
    (0 < s → s ≤ 1 → f (update (triangle 1) (.coord 0) s) = s) ∧ (1 < s → s < 2 → f (update (triangle 1) (.coord 0) s) = 2 - s) := by
  have h := returns_eq hf (fun _ _ => by norm_num) (update (triangle 1) (.coord 0) s)
  obtain ⟨h1, h2⟩ := triangle_update s
  have hr : List.range 3 = [0, 1, 2] := rfl
  refine ⟨fun a b => ?_, fun a b => ?_⟩
  · have hb : below (fun _ => 3) (update (triangle 1) (.coord 0) s) 0 = 1 := by
      simp only [below, h1, h2, hr]
      simp [a, not_lt.2 b, not_lt.2 (b.trans (by norm_num : (1 : ℝ) ≤ 2))]
    rw [h]
    simp [List.range_succ, hb, ml, cell, GridInterp.dist, h1, h2, triangle]
  · have hb : below (fun _ => 3) (update (triangle 1) (.coord 0) s) 0 = 2 := by
      simp only [below, h1, h2, hr]
      simp [a, not_lt.2 b.le, (by linarith : 0 < s)]
    rw [h]
    simp [List.range_succ, hb, ml, cell, GridInterp.dist, h1, h2, triangle]
    ring

/-- Concrete violation of C133: at the tip of a triangle the computed derivative is the slope on its left side, although the function has no derivative there. -/
theorem C133_counterexample (hf : Returns (fun _ => 3) 1 none f) :
    (∀ g : ℝ, (interpG (fun _ => 3) 1 none).back op (fun i => .fin (triangle 1 i)) (.fin g) (.coord 0) = .fin g) ∧
      ¬ ∃ D, HasDerivAt (fun s => f (update (triangle 1) (.coord 0) s)) D 1 := by
  obtain ⟨D, hD, hg⟩ := C133_left (op := op) hf (triangle_increasing 1) 0
  have hc : triangle 1 (.coord 0) = 1 := rfl
  rw [hc] at hD
  have hl : HasDerivWithinAt (fun s => f (update (triangle 1) (.coord 0) s)) 1 (Set.Iic 1) 1 := by
    refine (hasDerivWithinAt_id 1 _).congr_of_eventuallyEq ?_ ((triangle_value hf).1 one_pos le_rfl)
    filter_upwards [nhdsWithin_le_nhds (lt_mem_nhds one_pos), self_mem_nhdsWithin] with s h0 h1
    exact (triangle_value hf).1 h0 h1
  have hu := uniqueDiffWithinAt_Iic (1 : ℝ)
  have e : D = 1 := hu.eq_deriv _ hD hl
  refine ⟨fun g => by rw [hg, e, mul_one], fun ⟨D', hD'⟩ => ?_⟩
  have e1 : D' = 1 := hu.eq_deriv _ hD'.hasDerivWithinAt hl
  have hr : HasDerivWithinAt (fun s => f (update (triangle 1) (.coord 0) s)) (-1) (Set.Ici 1) 1 := by
    have h := ((hasDerivWithinAt_id (1 : ℝ) (Set.Ici 1)).const_sub 2)
    refine h.congr_of_eventuallyEq ?_ ?_
    · filter_upwards [nhdsWithin_le_nhds (gt_mem_nhds (by norm_num : (1 : ℝ) < 2)), self_mem_nhdsWithin] with s h0 h1
      rcases eq_or_lt_of_le (show (1 : ℝ) ≤ s from h1) with rfl | h1
      · rw [(triangle_value hf).1 one_pos le_rfl]; norm_num
      · exact (triangle_value hf).2 h1 h0
    · rw [(triangle_value hf).1 one_pos le_rfl]; norm_num
  have e2 : D' = -1 := (uniqueDiffWithinAt_Ici (1 : ℝ)).eq_deriv _ hD'.hasDerivWithinAt hr
  linarith

/-- The hypotheses of `C133_partial` can be met: a point within a cell of a grid with two axes and another on the triangle. -/
example : (∃ f, Returns (fun _ => 3) 2 (some 7) f) ∧ Increasing (fun _ => 3) 2 (triangle 0.5) ∧
    ∀ d < 2, ∀ k < 3, triangle 0.5 (.coord d) = triangle 0.5 (.point d k) → (some 7 : Option ℝ) = none ∧ (k = 0 ∨ k + 1 = 3) := by
  refine ⟨returns_exists (fun _ _ => by norm_num) _, fun d _ => ⟨by norm_num, fun i k h _ => by simpa [triangle] using h⟩, fun d _ k hk h => ?_⟩
  simp only [triangle] at h
  interval_cases k <;> norm_num at h

/-- Without a fill value the computed derivatives are also right outside of the grid. -/
example (hf : Returns (fun _ => 3) 1 none f) : GradientRight op (interpG (fun _ => 3) 1 none) f (triangle 5) :=
  C133_partial hf (triangle_increasing 5) fun d _ k hk h => by
    simp only [triangle] at h
    interval_cases k <;> norm_num at h

end Exo
