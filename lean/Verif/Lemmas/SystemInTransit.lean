import Verif.Lemmas.SystemLightCurve

/-!
# `in_transit` of systems of several planets
-/

namespace Exo
open Real

section
variable {O : VOrbit} {np : ℕ} {os : ℕ → Orbit}

theorem over_zip3 {S : List ℕ} {L : List Gr} {x y z : Gr} (f : ℝ → ℝ → ℝ → ℝ) (hx : Over S L x) (hy : y.Good S) (hz : z.Good S) :
    Over S L (.zip3 f x y z) :=
  ⟨(Gr.zip3_spec f hx.1 hy hz).1, fun k hk => (hx.2 k hk).trans (Gr.zip3_spec f hx.1 hy hz).2⟩

theorem over_leaf {np : ℕ} {x : Tensor ℝ} (h : PerPl np x) : Over [np] [.leaf x] (.leaf x) :=
  ⟨Gr.good_leaf h.ble, fun k hk => by
    rw [List.mem_singleton] at hk
    rw [hk]
    exact (Gr.good_leaf (S := [np]) h.ble).le_refl⟩

theorem at_of {O : VOrbit} (hat : ∀ p < np, O.at [p] = os p) {α : Type} (f : Orbit → α) {p : ℕ} (hp : p < np) : f (O.at [p]) = f (os p) := by
  rw [hat p hp]

theorem transitWindows_circ (g : O.Good [np]) (hat : ∀ p < np, O.at [p] = os p) (he : O.ecc = none) (cp : ContactOp) {r : Tensor ℝ}
    (hr : PerPl np r) :
    ∃ W ok, O.transitWindows cp (.leaf r) = .ok (W, ok) ∧ PerPl np W ∧
      (∀ p < np, W.bget [p] = ((os p).transitWindow cp (r.bget [p])).1) ∧
      ok = ((List.range np).map fun p => (os p).transitWindow cp (r.bget [p])).all (fun x => x.2 = 0) := by
  have gr : (Gr.leaf r).Good [np] := Gr.good_leaf hr.ble
  have gz := Gr.good_zerosLike g.a
  have gR := Gr.good_add g.r_star gz
  have oarg : Over [np] [.leaf r] ((1 + (Gr.leaf r + O.a.zerosLike) / (O.r_star + O.a.zerosLike)) ^ 2 - O.b ^ 2) :=
    over_zip_left _ (over_map _ (over_zip_right _ (Gr.good_ofNat 1) (over_zip_left _ (over_zip_left _ (over_leaf hr) gz) gR)))
      (Gr.good_pow 2 g.b)
  have gden := Gr.good_mul g.a g.sin_incl
  have ox := over_zip_right (· * ·) (Gr.good_div gR gden) (over_map (fun v : ℝ => √v) oarg)
  have ghp : ((((0.5 : ℝ) : Gr)) * O.period).Good [np] := Gr.good_mul (Gr.good_num _ _) g.period
  have onan : Over [np] [.leaf r] (O.halfDuration (.leaf r)).1 := over_zip3 _ oarg gden ox.good
  have ohd : Over [np] [.leaf r] (O.halfDuration (.leaf r)).2 :=
    over_zip_left _ (over_zip_right _ ghp (over_map _ ox)) (Gr.good_num _ _)
  obtain ⟨N, hN, pN, vN⟩ := over_eval hr onan
  obtain ⟨H, hH, pH, vH⟩ := over_eval hr ohd
  obtain ⟨W, hW, pW, vW⟩ := zipB_perPl (fun n h : ℝ => if n = 0 then some (-h, h) else none) pN pH
  have hecc : ∀ p < np, (os p).ecc = none := fun p hp => by rw [← hat p hp]; simp [VOrbit.at, he]
  refine ⟨W, true, ?_, pW, fun p hp => ?_, ?_⟩
  · unfold VOrbit.transitWindows
    simp only [he, bind, Except.bind, hN, hH, hW]
  · rw [vW p hp, vN p hp, vH p hp]
    unfold Orbit.transitWindow
    simp only [hecc p hp]
    have e : (os p).halfDuration (r.bget [p]) = if (O.halfDuration (.leaf r)).1.val [p] = 0 then
        some ((O.halfDuration (.leaf r)).2.val [p]) else none := by
      rw [← hat p hp]
      unfold Orbit.halfDuration VOrbit.halfDuration
      simp only [VOrbit.at, Gr.val_zip3, Gr.val_sub, Gr.val_pow, Gr.val_add, Gr.val_one, Gr.val_div, Gr.val_leaf, Gr.val_zerosLike,
        Gr.val_mul, Gr.val_sqrt, Gr.val_num, Gr.val, add_zero]
      split_ifs <;> simp_all
    rw [e]
    split <;> rfl
  · symm
    rw [List.all_eq_true]
    intro x hx
    obtain ⟨p, hp, rfl⟩ := List.mem_map.1 hx
    unfold Orbit.transitWindow
    simp only [hecc p (List.mem_range.1 hp)]
    split <;> simp

theorem contactArrays_spec (cp : ContactOp) {a e cw sw ci si L : Tensor ℝ} (ha : PerPl np a) (he : PerPl np e) (hcw : PerPl np cw)
    (hsw : PerPl np sw) (hci : PerPl np ci) (hsi : PerPl np si) (hL : PerPl np L) :
    ∃ c, contactArrays cp a e cw sw ci si L = .ok c ∧ PerPl np c ∧ ∀ p < np,
      c.bget [p] = cp (a.bget [p]) (e.bget [p]) (cw.bget [p]) (sw.bget [p]) (ci.bget [p]) (si.bget [p]) (L.bget [p]) := by
  unfold contactArrays
  rw [if_pos (by simp only [ha.size, he.size, hcw.size, hsw.size, hci.size, hsi.size, hL.size, and_self])]
  refine ⟨_, rfl, ha, fun p hp => ?_⟩
  rw [Tensor.bget_eq]
  simp only
  rw [he.flatAt ha hp, hcw.flatAt ha hp, hsw.flatAt ha hp, hci.flatAt ha hp, hsi.flatAt ha hp, hL.flatAt ha hp, Tensor.bget_eq a]

theorem transitWindows_ecc (g : O.Good [np]) (hat : ∀ p < np, O.at [p] = os p) {E : VEcc} (he : O.ecc = some E)
    (hsz : ContactSizes O np) (cp : ContactOp) {r : Tensor ℝ} (hr : PerPl np r) :
    ∃ W ok, O.transitWindows cp (.leaf r) = .ok (W, ok) ∧ PerPl np W ∧
      (∀ p < np, W.bget [p] = ((os p).transitWindow cp (r.bget [p])).1) ∧
      ok = ((List.range np).map fun p => (os p).transitWindow cp (r.bget [p])).all (fun x => x.2 = 0) := by
  obtain ⟨f1, f2, f3, f4⟩ := hsz E he
  obtain ⟨e1, -, e3, e4⟩ := g.ecc E he
  have gr : (Gr.leaf r).Good [np] := Gr.good_leaf hr.ble
  have gz := Gr.good_zerosLike g.a
  have la := Gr.le_map (fun _ => 0) g.a
  obtain ⟨a, ha, pa, va⟩ := g.a.full f1
  obtain ⟨e, hE, pe, ve⟩ := e1.full f2
  obtain ⟨cw, hcw, pcw, vcw⟩ := e3.full f3
  obtain ⟨sw, hsw, psw, vsw⟩ := e4.full f4
  obtain ⟨ci, hci, pci, vci⟩ := Gr.Good.full_of_le (Gr.good_add g.cos_incl gz) f1 g.a (la.trans (Gr.le_zip_right _ g.cos_incl gz))
  obtain ⟨si, hsi, psi, vsi⟩ := Gr.Good.full_of_le (Gr.good_add g.sin_incl gz) f1 g.a (la.trans (Gr.le_zip_right _ g.sin_incl gz))
  obtain ⟨L, hL, pL, vL⟩ := over_eval hr (over_zip_right (· + ·) (Gr.good_add g.r_star gz) (over_zip_left (· + ·) (over_leaf hr) gz))
  obtain ⟨c, hc, pc, vc⟩ := contactArrays_spec cp pa pe pcw psw pci psi pL
  have ghp : ((((0.5 : ℝ) : Gr)) * O.period).Good [np] := Gr.good_mul (Gr.good_num _ _) g.period
  have phase : ∀ {x : Tensor ℝ}, PerPl np x → Over [np] [.leaf x]
      (Gr.zip pymod ((.leaf x - O.M0) / O.n + ((0.5 : ℝ) : Gr) * O.period) O.period - ((0.5 : ℝ) : Gr) * O.period) := fun hx =>
    over_zip_left _ (over_zip_left _ (over_zip_left _ (over_zip_left _ (over_zip_left _ (over_leaf hx) g.M0) g.n) ghp) g.period) ghp
  have pl : PerPl np (c.map Contact.left) := pc
  have pr : PerPl np (c.map Contact.right) := pc
  obtain ⟨s, hs, ps, vs⟩ := over_eval pl (over_zip3 (fun x y z => if x > 0 then y else z) (phase pl)
    (Gr.good_sub (phase pl).good g.period) (phase pl).good)
  obtain ⟨t, ht, pt, vt⟩ := over_eval pr (over_zip3 (fun x y z => if x < 0 then y else z) (phase pr)
    (Gr.good_add (phase pr).good g.period) (phase pr).good)
  obtain ⟨W, hW, pW, vW⟩ := zipB_perPl (fun s e : ℝ => some (s, e)) ps pt
  have hecc : ∀ p < np, (os p).ecc = some (E.at [p]) := fun p hp => by rw [← hat p hp]; simp [VOrbit.at, he]
  have hcv : ∀ p < np, c.bget [p] = cp (os p).a (E.at [p]).ecc (E.at [p]).cos_omega (E.at [p]).sin_omega (os p).cos_incl
      (os p).sin_incl ((os p).r_star + r.bget [p]) := by
    intro p hp
    rw [vc p hp, va p hp, ve p hp, vcw p hp, vsw p hp, vci p hp, vsi p hp, vL p hp, ← hat p hp]
    simp only [Gr.val_add, Gr.val_zip, Gr.val_zerosLike, Gr.val_leaf, add_zero, VOrbit.at, VEcc.at]
  refine ⟨W, (c.map Contact.flag).toList.all (· = 0), ?_, pW, fun p hp => ?_, ?_⟩
  · unfold VOrbit.transitWindows
    simp only [he, bind, Except.bind]
    rw [ha, hE, hcw, hsw, hci, hsi]
    simp only
    erw [hL]
    simp only [hc]
    erw [hs]
    simp only
    erw [ht]
    simp only [hW]
  · rw [vW p hp, vs p hp, vt p hp]
    unfold Orbit.transitWindow
    simp only [hecc p hp, ← hcv p hp]
    rw [← hat p hp]
    rfl
  · rw [PerPl.toList (np := np) (x := c.map Contact.flag) pc, List.all_map, List.all_map]
    rw [Bool.eq_iff_iff, List.all_eq_true, List.all_eq_true]
    refine forall₂_congr fun p hp => ?_
    have hp' := List.mem_range.1 hp
    simp only [Function.comp, decide_eq_true_iff]
    rw [show (c.map Contact.flag).bget [p] = (c.bget [p]).flag from rfl, hcv p hp']
    unfold Orbit.transitWindow
    simp only [hecc p hp']


theorem transitWindows_spec (g : O.Good [np]) (hat : ∀ p < np, O.at [p] = os p) (hsz : ContactSizes O np) (cp : ContactOp)
    {r : Tensor ℝ} (hr : PerPl np r) :
    ∃ W ok, O.transitWindows cp (.leaf r) = .ok (W, ok) ∧ PerPl np W ∧
      (∀ p < np, W.bget [p] = ((os p).transitWindow cp (r.bget [p])).1) ∧
      ok = ((List.range np).map fun p => (os p).transitWindow cp (r.bget [p])).all (fun x => x.2 = 0) := by
  cases he : O.ecc with
  | none => exact transitWindows_circ g hat he cp hr
  | some E => exact transitWindows_ecc g hat he hsz cp hr

end

/-! ## Exposure times -/

theorem bget_pair_eq {α : Type} {q : ℕ} {x : Tensor α} (h : PerPl q x) (i : ℕ) {k : ℕ} (hk : k < q) : x.bget [i, k] = x.bget [k] := by
  rcases h with h | ⟨-, h⟩
  · exact (Tensor.bget_row h [i] hk).trans (Tensor.bget_row h [] hk).symm
  · rw [Tensor.bget_scalar h, Tensor.bget_scalar h]

theorem map_range_single {α : Type} (f : ℕ → α) : (List.range 1).map f = [f 0] := rfl

theorem bcast_ranges {α β γ : Type} (F : α → β → γ) (n m : ℕ) (u : ℕ → α) (v : ℕ → β) :
    bcast F ((List.range n).map u) ((List.range m).map v) =
      if n = m then .ok ((List.range n).map fun k => F (u k) (v k))
      else if n = 1 then .ok ((List.range m).map fun k => F (u 0) (v k))
      else if m = 1 then .ok ((List.range n).map fun k => F (u k) (v 0))
      else .error .shapeMismatch := by
  unfold bcast
  simp only [List.length_map, List.length_range]
  by_cases h : n = m
  · subst h
    rw [if_pos rfl, if_pos rfl]
    congr 1
    apply List.ext_getElem <;> simp
  · rw [if_neg h, if_neg h]
    by_cases h1 : n = 1
    · subst h1
      rw [if_pos rfl, map_range_single]
      simp [Function.comp_def]
    · rw [if_neg h1]
      by_cases h2 : m = 1
      · subst h2
        rw [if_pos rfl, map_range_single]
        split
        · rename_i x hx
          have := congrArg List.length hx
          simp at this
          exact absurd this h1
        · rename_i y hy _
          simp only [List.cons.injEq, and_true] at hy
          subst hy
          simp [Function.comp_def]
        · rename_i h3 h4
          exact absurd rfl (h4 _)
      · rw [if_neg h2]
        split
        · rename_i x hx
          have := congrArg List.length hx
          simp at this
          exact absurd this h1
        · rename_i y hy _
          have := congrArg List.length hy
          simp at this
          exact absurd this h2
        · rfl

theorem bget_zip_perPl {α β γ : Type} {q : ℕ} {x : Tensor α} {y : Tensor β} (f : α → β → γ) {w : List ℕ} (hw : w = [q] ∨ q = 1 ∧ w = [])
    (b1 : BLe x.shape w) (b2 : BLe y.shape w) (k : ℕ) :
    (⟨w, fun idx => f (x.bget idx) (y.bget idx)⟩ : Tensor γ).bget [k] = f (x.bget [k]) (y.bget [k]) := by
  rw [Tensor.bget_eq]
  have hl : w.length ≤ [k].length := by rcases hw with h | ⟨-, h⟩ <;> simp [h]
  simp only
  rw [Tensor.bget_clip b1 hl, Tensor.bget_clip b2 hl]

/-- Widening the windows by the exposure time. -/
theorem widenT_spec {np : ℕ} {W : Tensor (Option (ℝ × ℝ))} (hW : PerPl np W) (texp : Option (Tensor ℝ))
    (htexp : ∀ x, texp = some x → x.ndim ≤ 1) :
    match widenT W texp with
    | .error e => widenAll ((List.range np).map fun p => W.bget [p]) (texpOf texp) = .error e
    | .ok W' => ∃ q, (q = np ∨ np = 1) ∧ PerPl q W' ∧
        widenAll ((List.range np).map fun p => W.bget [p]) (texpOf texp) = .ok ((List.range q).map fun p => W'.bget [p]) := by
  cases texp with
  | none => exact ⟨np, Or.inl rfl, hW, rfl⟩
  | some x =>
    simp only [widenT, texpOf]
    have hnd := htexp x rfl
    rcases hxs : x.shape with _ | ⟨m, _ | ⟨m', s⟩⟩
    · have hb : BLe x.shape W.shape := by rw [hxs]; exact BLe.nil _
      rw [Tensor.zipB_ok (bcastShape_of_ble_right hb)]
      refine ⟨np, Or.inl rfl, hW, ?_⟩
      simp only [widenAll, List.map_map]
      congr 1
      refine List.map_congr_left fun p hp => ?_
      rw [Function.comp, bget_zip_perPl widen hW (BLe.refl _) hb p, Tensor.bget_scalar hxs]
    · have hxl : x.toList = (List.range m).map fun k => x.bget [k] := PerPl.toList (np := m) (Or.inl hxs)
      simp only [widenAll, hxl]
      rw [bcast_ranges]
      have hx0 : ∀ k, m = 1 → x.bget [k] = x.bget [0] := by
        intro k hm; subst hm; simp [Tensor.bget, hxs]
      have hW0 : ∀ k, np = 1 → W.bget [k] = W.bget [0] := by
        intro k hm; subst hm
        rcases hW with h | ⟨-, h⟩ <;> simp [Tensor.bget, h]
      by_cases h1 : np = m
      · subst h1
        have hb : BLe W.shape x.shape := by rw [hxs]; exact hW.ble
        rw [Tensor.zipB_ok (bcastShape_of_ble hb), if_pos rfl]
        refine ⟨np, Or.inl rfl, Or.inl hxs, ?_⟩
        congr 1
        refine List.map_congr_left fun p hp => ?_
        rw [bget_zip_perPl widen (Or.inl hxs) hb (BLe.refl _) p]
      · rw [if_neg h1]
        by_cases h2 : np = 1
        · have hb : BLe W.shape x.shape := by
            refine BLe.trans hW.ble ?_
            rw [hxs, h2]
            exact .cons (Or.inr rfl) (.nil _)
          rw [Tensor.zipB_ok (bcastShape_of_ble hb), if_pos h2]
          refine ⟨m, Or.inr h2, Or.inl hxs, ?_⟩
          congr 1
          refine List.map_congr_left fun p hp => ?_
          rw [bget_zip_perPl widen (Or.inl hxs) hb (BLe.refl _) p, hW0 p h2]
        · have hWs : W.shape = [np] := hW.resolve_right fun h => h2 h.1
          rw [if_neg h2]
          by_cases h3 : m = 1
          · have hb : BLe x.shape W.shape := by
              rw [hxs, hWs, h3]
              exact .cons (Or.inr rfl) (.nil _)
            rw [Tensor.zipB_ok (bcastShape_of_ble_right hb), if_pos h3]
            refine ⟨np, Or.inl rfl, hW, ?_⟩
            congr 1
            refine List.map_congr_left fun p hp => ?_
            rw [bget_zip_perPl widen hW (BLe.refl _) hb p, hx0 p h3]
          · rw [if_neg h3]
            unfold Tensor.zipB
            rw [hWs, hxs]
            simp [bcastShape, bcastRev, bcastDim, h1, h2, h3]
    · exfalso
      simp [Tensor.ndim, hxs] at hnd

/-! ## The mask -/

section
variable {O : VOrbit} {np : ℕ} {os : ℕ → Orbit} {full : Prop}

theorem sinceTransit_spec {t : Tensor ℝ} {N : ℕ} (h : Ready O t np full os) (ht : t.shape = [N]) :
    ∃ D, (O.sinceTransit (.leaf t)).eval = .ok D ∧ (D.shape = [N, 1] ∨ D.shape = [N, np]) ∧
      ∀ i p, i < N → p < np → D.bget [i, p] = (os p).sinceTransit (t.get [i]) := by
  have gt := time_good t np
  have g := h.good
  have ghp : ((((0.5 : ℝ) : Gr)) * O.period).Good (t.shape ++ [np]) := Gr.good_mul (Gr.good_num _ _) g.period
  have ot : Over (t.shape ++ [np]) [(Gr.leaf t).padright] (Gr.leaf t).padright :=
    ⟨gt, fun k hk => by rw [List.mem_singleton] at hk; rw [hk]; exact gt.le_refl⟩
  have ow : Over (t.shape ++ [np]) [(Gr.leaf t).padright] (O.warpTimes (.leaf t) true) := by
    rw [show O.warpTimes (.leaf t) true = (Gr.leaf t).padright - O.shift (.leaf t) from rfl]
    exact over_zip_left _ ot h.shift
  have od : Over (t.shape ++ [np]) [(Gr.leaf t).padright] (O.sinceTransit (.leaf t)) :=
    over_zip_left _ (over_zip_left _ (over_zip_left _ ow ghp) g.period) ghp
  obtain ⟨⟨D, hD, hb, hv⟩, hL⟩ := od
  refine ⟨D, hD, ?_, fun i p hi hp => ?_⟩
  · have h1 : BLe (t.shape ++ [1]) D.shape := by
      obtain ⟨A, B, hA, hB, hAB⟩ := hL _ List.mem_cons_self
      rw [hD] at hB; cases hB
      simp only [Gr.eval] at hA
      cases hA
      simpa [Tensor.padright] using hAB
    have := ble_between h1 hb
    rwa [ht] at this
  · have hi' : InShape [i] t.shape := by rw [ht]; exact inShape_singleton.2 hi
    have := hv ([i] ++ [p]) (inShape_snoc hi' hp)
    refine this.trans ?_
    unfold VOrbit.sinceTransit Orbit.sinceTransit
    simp only [Gr.val_sub, Gr.val_zip, Gr.val_add, Gr.val_mul, Gr.val_num]
    rw [VOrbit.warpTimes_at _ _ _ _ (Or.inl rfl), VOrbit.timeAt, if_pos rfl, time_val hi', ← h.at_eq [i] p hp]
    rfl

/-- The comparison of the times since transit with the windows. -/
theorem mask_spec {D : Tensor ℝ} {W : Tensor (Option (ℝ × ℝ))} {N q : ℕ} (hD : D.shape = [N, 1] ∨ D.shape = [N, np]) (hW : PerPl q W)
    (hq : q = np ∨ np = 1) (f : ℕ → ℕ → ℝ) (h0 : 0 < np) (hv : ∀ i p, i < N → p < np → D.bget [i, p] = f i p) :
    ∃ M, D.zipB inWindow W = .ok M ∧ M.shape = [N, q] ∧
      ∀ i k, i < N → k < q → M.get [i, k] = inWindow (f i (if np = 1 then 0 else k)) (W.bget [k]) := by
  have hDb : BLe D.shape [N, q] ∧ BLe [N, 1] D.shape := by
    have e1 : BLe [N, 1] [N, 1] := BLe.refl _
    have e2 : ∀ n, BLe [N, 1] [N, n] := fun n => ble_pad [N] n
    rcases hD with h | h
    · rw [h]; exact ⟨e2 q, e1⟩
    · rw [h]
      refine ⟨?_, e2 np⟩
      rcases hq with hq | hq
      · rw [hq]; exact BLe.refl _
      · rw [hq]; exact e2 q
  have hWb : BLe W.shape [N, q] := BLe.trans hW.ble (ble_append [N] (BLe.refl [q]))
  obtain ⟨w, hw, b1, b2, b3⟩ := BLe.sup hDb.1 hWb
  have hwq : w = [N, q] := by
    rcases ble_between (s := [N]) (hDb.2.trans b1) b3 with e | e
    · rcases hW with h | ⟨h1, -⟩
      · rw [h, e] at b2
        unfold BLe at b2
        cases b2 with
        | cons hm _ =>
          have : q = 1 := by rcases hm with h | h <;> exact h
          rw [e, this]; rfl
      · rw [e, h1]; rfl
    · exact e
  subst hwq
  refine ⟨_, Tensor.zipB_ok hw, rfl, fun i k hi hk => ?_⟩
  simp only
  rw [bget_pair_eq hW i hk]
  congr 1
  by_cases h1 : np = 1
  · rw [if_pos h1, ← hv i 0 hi h0]
    rw [Tensor.bget_eq, Tensor.bget_eq]
    congr 1
    rcases hD with h | h
    · rw [h]; simp [clipIdx]
    · rw [h, h1]; simp [clipIdx]
  · rw [if_neg h1]
    have hq' : q = np := hq.resolve_right h1
    exact hv i k hi (hq' ▸ hk)

/-- `in_transit` for lists, with the planets numbered. -/
theorem inTransit_numbered (cp : ContactOp) (r : ℕ → ℝ) (t : List ℝ) (texp : Texp) {q : ℕ} {w : ℕ → Option (ℝ × ℝ)}
    (hq : q = np ∨ np = 1)
    (hw : widenAll ((List.range np).map fun p => ((os p).transitWindow cp (r p)).1) texp = .ok ((List.range q).map w)) :
    inTransit cp ((List.range np).map fun p => (os p, r p)) t texp false = .ok
      (if ((List.range np).map fun p => (os p).transitWindow cp (r p)).all (fun x => x.2 = 0) then
        (List.range t.length).filter (fun i => (List.range q).any fun k =>
          inWindow ((os (if np = 1 then 0 else k)).sinceTransit (t.getD i 0)) (w k))
      else List.range t.length) := by
  unfold inTransit
  simp only [Bool.false_eq_true, if_false, List.map_map, Function.comp_def]
  rw [hw]
  simp only [bcast_ranges]
  have hrow : ∀ x : ℝ, (match (if np = q then Except.ok ((List.range np).map fun k => inWindow ((os k).sinceTransit x) (w k))
        else if np = 1 then .ok ((List.range q).map fun k => inWindow ((os 0).sinceTransit x) (w k))
        else if q = 1 then .ok ((List.range np).map fun k => inWindow ((os k).sinceTransit x) (w 0))
        else (.error .shapeMismatch : Except PyErr (List Bool))) with
      | .error _ => []
      | .ok m => m) = (List.range q).map fun k => inWindow ((os (if np = 1 then 0 else k)).sinceTransit x) (w k) := by
    intro x
    by_cases h1 : np = 1
    · by_cases h2 : np = q
      · subst h2
        subst h1
        simp
      · rw [if_neg h2, if_pos h1]
        simp [h1]
    · have h2 : q = np := hq.resolve_right h1
      subst h2
      simp [h1]
  have hshape : ∃ z, (if np = q then Except.ok ((List.range np).map fun _ => ())
        else if np = 1 then .ok ((List.range q).map fun _ => ())
        else if q = 1 then .ok ((List.range np).map fun _ => ())
        else (.error .shapeMismatch : Except PyErr (List Unit))) = .ok z := by
    by_cases h1 : np = q
    · rw [if_pos h1]; exact ⟨_, rfl⟩
    · rw [if_neg h1, if_pos (hq.resolve_left fun h => h1 h.symm)]; exact ⟨_, rfl⟩
  obtain ⟨z, hz⟩ := hshape
  rw [hz]
  simp only
  split
  · congr 1
    refine List.filter_congr fun i hi => ?_
    have hi' := List.mem_range.1 hi
    rw [List.getD_eq_getElem _ _ (by simpa using hi'), List.getElem_map]
    refine (congrArg (fun l : List Bool => l.any id) (hrow t[i])).trans ?_
    rw [List.any_map, List.getD_eq_getElem _ _ hi']
    rfl
  · rfl

/-- `in_transit` of a system is `in_transit` of its planets. -/
theorem inTransit_ready (h0 : 0 < np) (hR : ∀ t : Tensor ℝ, Ready O t np full os) (hsz : ContactSizes O np) (cp : ContactOp)
    {t r : Tensor ℝ} {N : ℕ} (ht : t.shape = [N]) (hr : r.shape = [np]) (texp : Option (Tensor ℝ))
    (htexp : ∀ x, texp = some x → x.ndim ≤ 1) (ld : Bool) :
    O.inTransit cp t r texp ld = inTransit cp ((List.range np).map fun p => (os p, r.get [p])) t.toList (texpOf texp) ld := by
  cases ld with
  | true => rfl
  | false =>
    have g : O.Good [np] := (hR (Tensor.scalar 0)).good
    have hat : ∀ p < np, O.at [p] = os p := fun p hp => (hR (Tensor.scalar 0)).at_eq [] p hp
    obtain ⟨W, ok, h1, h2, h3, h4⟩ := transitWindows_spec g hat hsz cp (Or.inl hr : PerPl np r)
    have hrg : ∀ p < np, r.bget [p] = r.get [p] := fun p hp => Tensor.bget_self (by rw [hr]; exact inShape_singleton.2 hp)
    have hws : ((List.range np).map fun p => W.bget [p]) = (List.range np).map fun p => ((os p).transitWindow cp (r.get [p])).1 :=
      List.map_congr_left fun p hp => by rw [h3 p (List.mem_range.1 hp), hrg p (List.mem_range.1 hp)]
    have hok : ok = ((List.range np).map fun p => (os p).transitWindow cp (r.get [p])).all (fun x => x.2 = 0) := by
      rw [h4]
      congr 1
      exact List.map_congr_left fun p hp => by rw [hrg p (List.mem_range.1 hp)]
    obtain ⟨D, hD, hDs, hDv⟩ := sinceTransit_spec (hR t) ht
    have hw := widenT_spec h2 texp htexp
    rw [hws] at hw
    unfold VOrbit.inTransit
    simp only [Bool.false_eq_true, if_false, bind, Except.bind, h1]
    cases hW : widenT W texp with
    | error e =>
      rw [hW] at hw
      simp only at hw ⊢
      unfold inTransit
      simp only [Bool.false_eq_true, if_false, List.map_map, Function.comp_def]
      rw [hw]
    | ok W' =>
      rw [hW] at hw
      simp only at hw ⊢
      obtain ⟨q, hq, pW', hw⟩ := hw
      obtain ⟨M, hM, hMs, hMv⟩ := mask_spec hDs pW' hq (fun i p => (os p).sinceTransit (t.get [i])) h0 hDv
      rw [hD]
      simp only [hM, ht]
      have hmask : maskIndices N M.anyLast = .ok ((List.range N).filter fun i => (List.range q).any fun k =>
          inWindow ((os (if np = 1 then 0 else k)).sinceTransit (t.get [i])) (W'.bget [k])) := by
        unfold maskIndices Tensor.anyLast
        simp only [hMs]
        rw [if_pos (show [N, q].dropLast = [N] from rfl)]
        congr 1
        refine List.filter_congr fun i hi => ?_
        have : ∀ k ∈ List.range q, M.get ([i] ++ [k]) = inWindow ((os (if np = 1 then 0 else k)).sinceTransit (t.get [i])) (W'.bget [k]) :=
          fun k hk => hMv i k (List.mem_range.1 hi) (List.mem_range.1 hk)
        rw [Bool.eq_iff_iff, List.any_eq_true, List.any_eq_true]
        refine exists_congr fun k => and_congr_right fun hk => ?_
        rw [this k (by simpa using hk)]
      rw [hmask]
      simp only
      have htl : t.toList = (List.range N).map fun i => t.get [i] := Tensor.toList_vec ht
      have hlen : t.toList.length = N := by rw [htl]; simp
      rw [inTransit_numbered (os := os) cp (fun p => r.get [p]) t.toList (texpOf texp) hq hw, hlen, ← hok]
      congr 1
      split
      · refine List.filter_congr fun i hi => ?_
        have hi' := List.mem_range.1 hi
        rw [List.getD_eq_getElem _ _ (by rw [hlen]; exact hi')]
        simp [htl]
      · rfl

end
end Exo
