import Verif.Lemmas.LightCurve
import Verif.Props.Stencil
import Verif.Props.LimbDark
import Verif.Props.InTransit2
import Verif.Props.Simple

/-!
# Lemmas on `use_in_transit`
-/

namespace Exo
open Real

/-- The light curve with `use_in_transit`: the same as without on the selected times, zero elsewhere. -/
theorem selectedWith_rows {lcAt : Tensor ℝ → Tensor ℝ → Bool → Except PyErr (Tensor ℝ)} {np : ℕ} {F : ℕ → ℝ → ℝ → ℝ}
    (hF : Computes lcAt false np F) (inTr : Tensor ℝ → Tensor ℝ → Option (Tensor ℝ) → Bool → Except PyErr (List ℕ))
    (r t : Tensor ℝ) (nt : ℕ) (ht : t.shape = [nt]) (oversample order : ℤ) (hr : r.shape = [np])
    (texp : Option (Tensor ℝ)) (htexp : ∀ x, texp = some x → (x.shape = [] ∨ x.shape = [nt]) ∧
      ∃ S, stencil order oversample = .ok S ∧ S.2.length = S.1.length ∧ ∀ d ∈ S.1, -(1 / 2) ≤ d ∧ d ≤ 1 / 2)
    (inds : List ℕ) (hin : inTr t r texp false = .ok inds) (hval : ∀ i ∈ inds, i < nt)
    (R : Tensor ℝ) (hR : R.reshape [R.size] = .ok r) :
    ∃ L L', lightCurveWith (integratedWith lcAt) inTr R t texp oversample order (some true) false = .ok L ∧
      lightCurveWith (integratedWith lcAt) inTr R t texp oversample order (some false) false = .ok L' ∧
      L.shape = t.shape ++ [np] ∧ L'.shape = t.shape ++ [np] ∧
      ∀ i p, i < nt → p < np → L.get [i, p] = if i ∈ inds then L'.get [i, p] else 0 := by
  have hall : inds.all (· < nt) = true := by rw [List.all_eq_true]; intro i hi; simpa using hval i hi
  obtain ⟨M, hM, hMs, hMv⟩ := padAdd_spec (r := r.map (fun _ => 0)) (n := np) (by simp [Tensor.map, hr]) t
  obtain ⟨t', ht', ht's, ht'v⟩ : ∃ t', t.takeRows inds = .ok t' ∧ t'.shape = [inds.length] ∧
      ∀ j, t'.get [j] = t.get [inds.getD j 0] := by
    unfold Tensor.takeRows
    rw [ht]
    simp only
    rw [if_pos hall]
    exact ⟨_, rfl, rfl, fun j => rfl⟩
  -- writing the rows back
  have hset : ∀ lc : Tensor ℝ, lc.shape = [inds.length] ++ [np] →
      ∃ L, M.setRows inds lc = .ok L ∧ L.shape = t.shape ++ [np] ∧
        ∀ i p, i < nt → p < np → L.get ([i] ++ [p]) =
          if i ∈ inds then lc.get ([inds.idxOf i] ++ [p]) else 0 := by
    intro lc hlc
    have hMs' : M.shape = nt :: [np] := by rw [hMs, ht]; rfl
    unfold Tensor.setRows
    rw [hMs']
    simp only
    rw [if_pos hall, if_pos (by rw [hlc]; exact bcastShape_self _)]
    refine ⟨_, rfl, by rw [ht]; rfl, fun i p hi hp => ?_⟩
    by_cases h : i ∈ inds
    · rw [if_pos h]
      refine (if_pos (c := ([i] ++ [p]).headD 0 ∈ inds) h).trans ?_
      refine Tensor.bget_self (idx := [inds.idxOf i] ++ [p]) ?_
      rw [hlc]
      exact inShape_snoc (inShape_singleton.2 (List.idxOf_lt_length_iff.2 h)) hp
    · rw [if_neg h]
      refine (if_neg (c := ([i] ++ [p]).headD 0 ∈ inds) h).trans ?_
      have h1 := hMv [i] p (by rw [ht]; exact inShape_singleton.2 hi) hp
      simpa [Tensor.map] using h1
  have hidx : ∀ i ∈ inds, inds.getD (inds.idxOf i) 0 = i := by
    intro i hi
    rw [List.getD_eq_getElem _ _ (List.idxOf_lt_length_iff.2 hi), List.getElem_idxOf]
  rcases htx : texp with _ | x
  · subst htx
    obtain ⟨L', h1, h2, h3⟩ := (integratedWith_spec hF r t oversample order hr).1
    obtain ⟨lc, h4, h5, h6⟩ := (integratedWith_spec hF r t' oversample order hr).1
    rw [ht's] at h5
    obtain ⟨L, h7, h8, h9⟩ := hset lc h5
    refine ⟨L, L', ?_, ?_, h8, h2, ?_⟩
    · unfold lightCurveWith
      simp only [Option.getD_some, if_true, bind, Except.bind, hR, hM, hin, ht', texpRows, h4, h7]
    · unfold lightCurveWith
      simp only [Option.getD_some, Bool.false_eq_true, if_false, bind, Except.bind, hR, h1]
    · intro i p hi hp
      refine (h9 i p hi hp).trans ?_
      by_cases h : i ∈ inds
      · rw [if_pos h, if_pos h, h6 _ p (by rw [ht's]; exact inShape_singleton.2 (List.idxOf_lt_length_iff.2 h)) hp, ht'v,
          hidx i h]
        exact (h3 [i] p (by rw [ht]; exact inShape_singleton.2 hi) hp).symm
      · rw [if_neg h, if_neg h]
  · subst htx
    obtain ⟨hxs, S, hS, hlen, hoff⟩ := htexp x rfl
    obtain ⟨L', h1, h2, h3⟩ := (integratedWith_spec hF r t oversample order hr).2 x S (by rw [ht]; exact hxs) hS hlen
    -- the exposure times of the selected rows
    obtain ⟨x', hx', hx's, hx'v⟩ : ∃ x', texpRows (some x) inds = .ok (some x') ∧
        (x'.shape = [] ∨ x'.shape = t'.shape) ∧ ∀ j < inds.length, texpAt x' [j] = texpAt x [inds.getD j 0] := by
      unfold texpRows
      simp only
      by_cases h0 : x.shape = []
      · refine ⟨x, by rw [if_pos (by simp [Tensor.ndim, h0])], Or.inl h0, fun j hj => ?_⟩
        simp [texpAt, h0]
      · have hxn := hxs.resolve_left h0
        rw [if_neg (by simp [Tensor.ndim, h0])]
        unfold Tensor.takeRows
        rw [hxn]
        simp only
        rw [if_pos hall]
        refine ⟨_, rfl, Or.inr (by rw [ht's]), fun j hj => ?_⟩
        simp [texpAt, hxn]
    obtain ⟨lc, h4, h5, h6⟩ := (integratedWith_spec hF r t' oversample order hr).2 x' S hx's hS hlen
    rw [ht's] at h5
    obtain ⟨L, h7, h8, h9⟩ := hset lc h5
    refine ⟨L, L', ?_, ?_, h8, h2, ?_⟩
    · unfold lightCurveWith
      simp only [Option.getD_some, if_true, bind, Except.bind, hR, hM, hin, ht', hx', h4, h7]
    · unfold lightCurveWith
      simp only [Option.getD_some, Bool.false_eq_true, if_false, bind, Except.bind, hR, h1]
    · intro i p hi hp
      refine (h9 i p hi hp).trans ?_
      by_cases h : i ∈ inds
      · have hj := List.idxOf_lt_length_iff.2 h
        rw [if_pos h, if_pos h, h6 _ p (by rw [ht's]; exact inShape_singleton.2 hj) hp, ht'v, hx'v _ hj, hidx i h]
        exact (h3 [i] p (by rw [ht]; exact inShape_singleton.2 hi) hp).symm
      · rw [if_neg h, if_neg h]

/-- If no flux is lost at the times that are not selected, `use_in_transit` makes no difference. -/
theorem integratedWith_rows {lcAt : Tensor ℝ → Tensor ℝ → Bool → Except PyErr (Tensor ℝ)} {np : ℕ} {F : ℕ → ℝ → ℝ → ℝ}
    (hF : Computes lcAt false np F) (inTr : Tensor ℝ → Tensor ℝ → Option (Tensor ℝ) → Bool → Except PyErr (List ℕ))
    (r t : Tensor ℝ) (nt : ℕ) (ht : t.shape = [nt]) (oversample order : ℤ) (hr : r.shape = [np])
    (texp : Option (Tensor ℝ)) (htexp : ∀ x, texp = some x → (x.shape = [] ∨ x.shape = [nt]) ∧
      ∃ S, stencil order oversample = .ok S ∧ S.2.length = S.1.length ∧ ∀ d ∈ S.1, -(1 / 2) ≤ d ∧ d ≤ 1 / 2)
    (inds : List ℕ) (hin : inTr t r texp false = .ok inds) (hval : ∀ i ∈ inds, i < nt)
    (hzero : ∀ i < nt, i ∉ inds → ∀ p < np, ∀ u, -(1 / 2) ≤ u → u ≤ 1 / 2 →
      F p (r.get [p]) (t.get [i] + texpOr0 texp [i] * u) = 0)
    (R : Tensor ℝ) (hR : R.reshape [R.size] = .ok r) :
    ∃ L L', lightCurveWith (integratedWith lcAt) inTr R t texp oversample order (some true) false = .ok L ∧
      lightCurveWith (integratedWith lcAt) inTr R t texp oversample order (some false) false = .ok L' ∧ L.Same L' := by
  have hInShape : ∀ idx, InShape idx (t.shape ++ [np]) → ∃ i p, idx = [i] ++ [p] ∧ i < nt ∧ p < np := by
    intro idx h
    obtain ⟨i, p, rfl, h1, h2⟩ := h.snoc_inv
    rw [ht] at h1
    obtain ⟨i0, hi0⟩ : ∃ i0, i = [i0] := by
      cases h1 with
      | cons a b => cases b; exact ⟨_, rfl⟩
    subst hi0
    exact ⟨i0, p, rfl, inShape_singleton.1 h1, h2⟩
  obtain ⟨L, L', h1, h2, h3, h4, h5⟩ := selectedWith_rows hF inTr r t nt ht oversample order hr texp htexp inds hin hval R hR
  refine ⟨L, L', h1, h2, h3.trans h4.symm, fun idx hidx => ?_⟩
  rw [h3] at hidx
  obtain ⟨i, p, rfl, hi, hp⟩ := hInShape idx hidx
  refine (h5 i p hi hp).trans ?_
  by_cases h : i ∈ inds
  · rw [if_pos h]; rfl
  rw [if_neg h]
  unfold lightCurveWith at h2
  simp only [Option.getD_some, Bool.false_eq_true, if_false, bind, Except.bind, hR] at h2
  rcases htx : texp with _ | x
  · subst htx
    obtain ⟨L'', g1, g2, g3⟩ := (integratedWith_spec hF r t oversample order hr).1
    rw [g1] at h2
    cases h2
    rw [g3 [i] p (by rw [ht]; exact inShape_singleton.2 hi) hp]
    have := hzero i hi h p hp 0 (by norm_num) (by norm_num)
    simp only [texpOr0, zero_mul, add_zero] at this
    exact this.symm
  · subst htx
    obtain ⟨hxs, S, hS, hlen, hoff⟩ := htexp x rfl
    obtain ⟨L'', g1, g2, g3⟩ := (integratedWith_spec hF r t oversample order hr).2 x S (by rw [ht]; exact hxs) hS hlen
    rw [g1] at h2
    cases h2
    rw [g3 [i] p (by rw [ht]; exact inShape_singleton.2 hi) hp]
    symm
    apply List.sum_eq_zero
    intro y hy
    obtain ⟨k, hk, rfl⟩ := List.mem_iff_getElem.1 hy
    rw [List.length_zipWith] at hk
    have hk1 : k < S.1.length := by omega
    rw [List.getElem_zipWith]
    obtain ⟨ho1, ho2⟩ := hoff _ (List.getElem_mem hk1)
    have := hzero i hi h p hp _ ho1 ho2
    simp only [texpOr0] at this
    rw [this, mul_zero]

/-- The light curve with `use_in_transit`: the same as without on the selected times, zero elsewhere. -/
theorem selected_rows (l : LimbDark) (o : OrbitApi) (r t : Tensor ℝ) (nt : ℕ) (ht : t.shape = [nt]) (oversample order : ℤ)
    (f : ℕ → ℝ → V3) (hf : o.pos false = .ok f) (hr : r.shape = [o.np])
    (texp : Option (Tensor ℝ)) (htexp : ∀ x, texp = some x → (x.shape = [] ∨ x.shape = [nt]) ∧
      ∃ S, stencil order oversample = .ok S ∧ S.2.length = S.1.length ∧ ∀ d ∈ S.1, -(1 / 2) ≤ d ∧ d ≤ 1 / 2)
    (inds : List ℕ) (hin : o.inTransitT t r texp false = .ok inds) (hval : ∀ i ∈ inds, i < nt)
    (R : Tensor ℝ) (hR : R.reshape [R.size] = .ok r) :
    ∃ L L', l.getLightCurve (some o) (some R) (some t) texp oversample order (some true) = .ok L ∧
      l.getLightCurve (some o) (some R) (some t) texp oversample order (some false) = .ok L' ∧
      L.shape = t.shape ++ [o.np] ∧ L'.shape = t.shape ++ [o.np] ∧
      ∀ i p, i < nt → p < o.np → L.get [i, p] = if i ∈ inds then L'.get [i, p] else 0 :=
  selectedWith_rows (np := o.np) (F := fun p r t => fluxAt l.c o.r_star r (f p t))
    (fun tg G hG => lightCurveAt_spec l o tg G false f hf hG) o.inTransitT r t nt ht oversample order hr texp htexp inds hin hval R hR

/-- If no flux is lost at the times that are not selected, `use_in_transit` makes no difference. -/
theorem integrated_rows (l : LimbDark) (o : OrbitApi) (r t : Tensor ℝ) (nt : ℕ) (ht : t.shape = [nt]) (oversample order : ℤ)
    (f : ℕ → ℝ → V3) (hf : o.pos false = .ok f) (hr : r.shape = [o.np])
    (texp : Option (Tensor ℝ)) (htexp : ∀ x, texp = some x → (x.shape = [] ∨ x.shape = [nt]) ∧
      ∃ S, stencil order oversample = .ok S ∧ S.2.length = S.1.length ∧ ∀ d ∈ S.1, -(1 / 2) ≤ d ∧ d ≤ 1 / 2)
    (inds : List ℕ) (hin : o.inTransitT t r texp false = .ok inds) (hval : ∀ i ∈ inds, i < nt)
    (hzero : ∀ i < nt, i ∉ inds → ∀ p < o.np, ∀ u, -(1 / 2) ≤ u → u ≤ 1 / 2 →
      fluxAt l.c o.r_star (r.get [p]) (f p (t.get [i] + texpOr0 texp [i] * u)) = 0)
    (R : Tensor ℝ) (hR : R.reshape [R.size] = .ok r) :
    ∃ L L', l.getLightCurve (some o) (some R) (some t) texp oversample order (some true) = .ok L ∧
      l.getLightCurve (some o) (some R) (some t) texp oversample order (some false) = .ok L' ∧ L.Same L' :=
  integratedWith_rows (np := o.np) (F := fun p r t => fluxAt l.c o.r_star r (f p t))
    (fun tg G hG => lightCurveAt_spec l o tg G false f hf hG) o.inTransitT r t nt ht oversample order hr texp htexp inds hin hval hzero R hR

end Exo
