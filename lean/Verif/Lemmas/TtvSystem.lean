import Verif.Lemmas.System3
import Verif.Spec.TtvSystem

/-!
# `TTVOrbit` with several planets
-/

namespace Exo
open Real

theorem mapM_ok_iff {α β : Type} (f : α → Except PyErr β) (xs : List α) (l : List β) :
    xs.mapM f = .ok l ↔ List.Forall₂ (fun x y => f x = .ok y) xs l := by
  induction xs generalizing l with
  | nil =>
    simp only [List.mapM_nil, List.forall₂_nil_left_iff]
    exact ⟨fun h => by cases h; rfl, fun h => by subst h; rfl⟩
  | cons x xs ih =>
    rw [List.mapM_cons]
    cases hx : f x with
    | error e =>
      constructor
      · intro h; cases h
      · intro h; cases h with
        | cons h1 _ => rw [hx] at h1; cases h1
    | ok y =>
      cases hr : xs.mapM f with
      | error e =>
        constructor
        · intro h; cases h
        · intro h; cases h with
          | cons h1 h2 => rw [← ih, hr] at h2; cases h2
      | ok ys =>
        constructor
        · intro h; cases h; exact .cons hx ((ih ys).1 hr)
        · intro h
          cases h with
          | cons h1 h2 =>
            rw [hx] at h1; cases h1
            rw [← ih, hr] at h2; cases h2
            rfl

theorem eachPlanet_ok {α : Type} {n : ℕ} {f : ℕ → Except PyErr α} {l : List α} (h : eachPlanet n f = .ok l) :
    l.length = n ∧ ∀ i < n, ∃ x, l[i]? = some x ∧ f i = .ok x := by
  rw [eachPlanet, mapM_ok_iff, List.forall₂_iff_get] at h
  obtain ⟨h1, h2⟩ := h
  rw [List.length_range] at h1
  refine ⟨h1.symm, fun i hi => ⟨l[i]'(h1 ▸ hi), by simp, ?_⟩⟩
  have := h2 i (by simpa using hi) (h1 ▸ hi)
  simpa using this

theorem eachPlanet_exists {α : Type} {n : ℕ} {f : ℕ → Except PyErr α} (h : ∀ i < n, ∃ x, f i = .ok x) :
    ∃ l, eachPlanet n f = .ok l := by
  have : ∀ xs : List ℕ, (∀ i ∈ xs, ∃ x, f i = .ok x) → ∃ l, xs.mapM f = .ok l := by
    intro xs
    induction xs with
    | nil => exact fun _ => ⟨[], rfl⟩
    | cons i xs ih =>
      intro h
      obtain ⟨x, hx⟩ := h i (by simp)
      obtain ⟨l, hl⟩ := ih (fun j hj => h j (by simp [hj]))
      exact ⟨x :: l, (mapM_ok_iff f _ _).2 (.cons hx ((mapM_ok_iff f _ _).1 hl))⟩
  exact this _ (fun i hi => h i (by simpa using hi))

/-- A loop stops at the first planet whose body raises. -/
theorem eachPlanet_error {α : Type} {n k : ℕ} (hk : k < n) {f : ℕ → Except PyErr α} {e : PyErr} (h : f k = .error e)
    (h' : ∀ i < k, ∃ x, f i = .ok x) : eachPlanet n f = .error e := by
  unfold eachPlanet
  obtain ⟨m, rfl⟩ : ∃ m, n = k + (m + 1) := ⟨n - k - 1, by omega⟩
  obtain ⟨l, hl⟩ : ∃ l, (List.range k).mapM f = .ok l := by
    obtain ⟨l, hl⟩ := eachPlanet_exists (n := k) (f := f) h'
    exact ⟨l, hl⟩
  rw [List.range_add, List.mapM_append, hl, List.range_succ_eq_map, List.map_cons, List.mapM_cons]
  simp only [Nat.add_zero, h]
  rfl

theorem entry_of_shape {x : Tensor ℝ} {n i : ℕ} (h : x.shape = [n]) (hi : i < n) : x.entry i = .ok (x.get [i]) := by
  simp [Tensor.entry, h, hi]

theorem ofPlanet_of_shape {x : Tensor ℝ} {n i : ℕ} (h : x.shape = [n]) (hi : i < n) : x.ofPlanet i = x.get [i] := by
  unfold Tensor.ofPlanet
  by_cases h1 : n = 1
  · subst h1
    have : i = 0 := by omega
    simp [h, this]
  · rw [h]
    split
    · rename_i h2; cases h2
    · rename_i h2; simp at h2; exact absurd h2 h1
    · rfl

theorem listItem_ok {α : Type} {l : List α} {i : ℕ} (d : α) (hi : i < l.length) : listItem l i = .ok (l.getD i d) := by
  simp [listItem, hi]

/-- The outcome of `ttvFinish`. -/
noncomputable def ttvBuild (o : Orbit) (P : ℝ) (inds : List ℕ) (times ttvs tts : List ℝ) : Ttv where
  orbit := { o with warp := fun t => t - modelDt (binEdges tts P) (binValues tts) t }
  ttv_period := P
  transit_times := times
  ttvs := ttvs
  transit_inds := inds
  all_transit_times := tts
  bin_edges := binEdges tts P
  bin_values := binValues tts

theorem ttvFinish_ok {o : Orbit} {P : ℝ} {inds : List ℕ} {times ttvs : List ℝ} {T : Ttv} :
    ttvFinish o P inds times ttvs = .ok (some T) ↔
      ∃ tts, allTransitTimes o.t0 o.period inds times = .ok tts ∧ T = ttvBuild o P inds times ttvs tts := by
  unfold ttvFinish
  cases allTransitTimes o.t0 o.period inds times with
  | error e => simp
  | ok tts =>
    simp only [Except.ok.injEq, Option.some.injEq, exists_eq_left']
    exact eq_comm

section
variable {o : VOrbit} {t0 period P : Tensor ℝ} {inds : List (List ℕ)} {times ttvs : List (List ℝ)} {np : ℕ}

/-- The last phase of the constructor, planet by planet. -/
theorem ttvFinishV_ok {m : ℕ} (hm : np ≤ m) (h1 : t0.shape = [m]) (h2 : period.shape = [m]) (h3 : P.shape = [m]) (h4 : inds.length = np)
    (h5 : times.length = np) (h6 : ttvs.length = np) :
    ((∃ V, ttvFinishV o t0 period P inds times ttvs = .ok V) ↔
      ∀ p < np, ∃ tts, allTransitTimes (t0.get [p]) (period.get [p]) (inds.getD p []) (times.getD p []) = .ok tts) ∧
    ∀ V, ttvFinishV o t0 period P inds times ttvs = .ok V →
      V.ttv_period = P ∧ V.transit_times = times ∧ V.ttvs = ttvs ∧ V.transit_inds = inds ∧
      (∃ fs : List (ℝ → ℝ), V.orbit = { o with dts := some fs } ∧ fs.length = np ∧
      ∀ p < np, ∀ tts, allTransitTimes (t0.get [p]) (period.get [p]) (inds.getD p []) (times.getD p []) = .ok tts →
        V.all_transit_times[p]? = some tts ∧ V.bin_edges[p]? = some (binEdges tts (P.get [p])) ∧
        V.bin_values[p]? = some (binValues tts) ∧ fs.getD p id = modelDt (binEdges tts (P.get [p])) (binValues tts)) := by
  have hf : ∀ p < np, allTimesOf t0 period inds times p =
      allTransitTimes (t0.get [p]) (period.get [p]) (inds.getD p []) (times.getD p []) := by
    intro p hp
    rw [allTimesOf, entry_of_shape h1 (hp.trans_le hm), entry_of_shape h2 (hp.trans_le hm), listItem_ok [] (by omega)]
  have hE : ∀ tts : List (List ℝ), tts.length = np → ∃ edges, eachPlanet tts.length (edgesOf P tts) = .ok edges ∧
      ∀ p < np, edges[p]? = some (binEdges (tts.getD p []) (P.get [p])) := by
    intro tts ht
    obtain ⟨l, hl⟩ := eachPlanet_exists (n := tts.length) (f := edgesOf P tts) (fun i hi => by
        rw [edgesOf, entry_of_shape h3 (by omega)]; exact ⟨_, rfl⟩)
    refine ⟨l, hl, fun p hp => ?_⟩
    obtain ⟨x, hx, hx'⟩ := (eachPlanet_ok hl).2 p (by omega)
    simp only [edgesOf, entry_of_shape h3 (hp.trans_le hm), Except.ok.injEq] at hx'
    rw [hx, hx']
  constructor
  · constructor
    · rintro ⟨V, hV⟩ p hp
      unfold ttvFinishV at hV
      split at hV
      · cases hV
      · rename_i tts ht
        obtain ⟨x, _, hx⟩ := (eachPlanet_ok ht).2 p (by omega)
        exact ⟨x, (hf p hp).symm.trans hx⟩
    · intro h
      obtain ⟨tts, ht⟩ := eachPlanet_exists (n := inds.length) (f := allTimesOf t0 period inds times) (fun i hi => by
          obtain ⟨x, hx⟩ := h i (by omega)
          exact ⟨x, (hf i (by omega)).trans hx⟩)
      obtain ⟨edges, he, _⟩ := hE tts ((eachPlanet_ok ht).1.trans h4)
      unfold ttvFinishV
      rw [ht]
      simp only
      rw [he]
      exact ⟨_, rfl⟩
  · intro V hV
    unfold ttvFinishV at hV
    split at hV
    · cases hV
    · rename_i tts ht
      obtain ⟨hl, hx⟩ := eachPlanet_ok ht
      obtain ⟨edges, he, hed⟩ := hE tts (hl.trans h4)
      simp only at hV
      rw [he] at hV
      simp only [Except.ok.injEq] at hV
      subst hV
      refine ⟨rfl, rfl, rfl, rfl, _, rfl, by simp [h6], fun p hp l hl' => ?_⟩
      obtain ⟨x, hx1, hx2⟩ := hx p (by omega)
      have hx2 := (hf p hp).symm.trans hx2
      rw [hl'] at hx2
      cases hx2
      have e1 : tts.getD p [] = l := by rw [List.getD_eq_getElem?_getD, hx1]; rfl
      have e2 := hed p hp
      rw [e1] at e2
      have e3 : (tts.map binValues)[p]? = some (binValues l) := by rw [List.getElem?_map, hx1]; rfl
      refine ⟨hx1, e2, e3, ?_⟩
      rw [List.getD_eq_getElem?_getD, List.getElem?_map, List.getElem?_range (by omega)]
      simp only [Option.map_some, Option.getD_some]
      rw [List.getD_eq_getElem?_getD, e2, List.getD_eq_getElem?_getD, e3]
      rfl

end
/-! ## The arrays that are indexed by planet -/

theorem shape_eq_of_le {g : Gr} {T q : Tensor ℝ} {np : ℕ} (hT : g.eval = .ok T) (hb : BLe T.shape [np]) (hq : q.shape = [np])
    (hl : (Gr.leaf q).Le g) : T.shape = [np] := by
  obtain ⟨A, B, hA, hB, hAB⟩ := hl
  rw [hT] at hB; cases hB
  cases hA
  rw [hq] at hAB
  exact BLe.antisymm hb hAB

theorem le_of_num_div {c : ℝ} {x : Gr} {S : List ℕ} (h : x.Good S) : Gr.Le ((c : Gr) / x) x := by
  obtain ⟨X, hX, _⟩ := h
  have e : ((c : Gr) / x).eval = .ok ⟨X.shape, fun idx => (Tensor.scalar c).bget idx / X.bget idx⟩ := by
    show (Gr.zip _ _ _).eval = _
    simp only [Gr.eval, Gr.num, hX]
    exact Tensor.zipB_ok (s := X.shape) (by simpa [Tensor.scalar] using bcastShape_nil_left X.shape)
  exact ⟨_, X, e, hX, BLe.refl _⟩

theorem evalTimes_ok {C : Consts} {A : VArgs} {O : VOrbit} {np : ℕ} (hA : A.FitsPlanets np) (hO : keplerianInitV C A = .ok O)
    (hP : A.PerPlanet np) (ht : ∀ q, A.t0 = some q → q.val.shape = [np]) :
    ∃ t0 period, evalTimes O = .ok (t0, period) ∧ t0.shape = [np] ∧ period.shape = [np] ∧
      ∀ p < np, t0.get [p] = O.t0.val [p] ∧ period.get [p] = O.period.val [p] := by
  obtain ⟨g, gl⟩ := keplerianInitV_good (S := [np]) (by simpa using hA.good []) hO
  obtain ⟨q, hq, hqs⟩ := hP
  obtain ⟨_, hn, hb⟩ := keplerianInitV_fields hO
  have hqn := gl q hq
  have hqp : (Gr.leaf q.val).Le O.period := by
    rw [hn] at hqn
    exact hqn.trans (le_of_num_div g.period)
  obtain ⟨X, hX, bX, vX⟩ := g.t0
  obtain ⟨Y, hY, bY, vY⟩ := g.period
  have sY := shape_eq_of_le hY bY hqs hqp
  have sX : X.shape = [np] := by
    have hqt : ∀ q' : Tensor ℝ, q'.shape = [np] → (Gr.leaf q').Le O.t0 → X.shape = [np] := fun q' h1 h2 => shape_eq_of_le hX bX h1 h2
    unfold timeBlockV at hb
    cases h1 : A.t0 with
    | some t0 =>
      cases h2 : A.t_periastron with
      | some tp => rw [h1, h2] at hb; cases hb
      | none =>
        rw [h1, h2] at hb
        simp only [Except.ok.injEq, Prod.mk.injEq] at hb
        rw [← hb.1] at hX
        cases hX
        exact ht t0 h1
    | none =>
      cases h2 : A.t_periastron with
      | some tp =>
        rw [h1, h2] at hb
        simp only [Except.ok.injEq, Prod.mk.injEq] at hb
        refine hqt q.val hqs ?_
        rw [← hb.1]
        have htp : (Gr.leaf tp.val).Good [np] := by
          have := (hA.good []).t_periastron tp h2
          simpa using this
        exact hqn.trans ((Gr.le_zip_right _ g.M0 g.n).trans (Gr.le_zip_right _ htp (Gr.good_div g.M0 g.n)))
      | none =>
        rw [h1, h2] at hb
        simp only [Except.ok.injEq, Prod.mk.injEq] at hb
        refine hqt q.val hqs ?_
        rw [← hb.1]
        exact hqp.trans (Gr.le_map _ g.period)
  refine ⟨X, Y, by simp [evalTimes, hX, hY], sX, sY, fun p hp => ⟨?_, ?_⟩⟩
  · rw [← vX [p] (inShape_singleton.2 hp), Tensor.bget_self (by rw [sX]; exact inShape_singleton.2 hp)]
  · rw [← vY [p] (inShape_singleton.2 hp), Tensor.bget_self (by rw [sY]; exact inShape_singleton.2 hp)]

theorem good_dts {o : VOrbit} {S : List ℕ} (h : o.Good S) (x : Option (List (ℝ → ℝ))) : VOrbit.Good { o with dts := x } S := by
  cases h
  constructor <;> assumption

/-- The last phase of the constructor, in a system. -/
theorem ttvFinish_core {C : Consts} {A : VArgs} {O : VOrbit} {np : ℕ} (hA : A.FitsPlanets np) (hO : keplerianInitV C A = .ok O)
    {os : ℕ → Orbit} (hos : ∀ p < np, keplerianInit C (A.ofPlanet p) = .ok (os p)) (hAP : A.PerPlanet np)
    {t0 period P : Tensor ℝ} {inds : List (List ℕ)} {times ttvs : List (List ℝ)} (h1 : t0.shape = [np]) (h2 : period.shape = [np])
    (hv : ∀ p < np, t0.get [p] = O.t0.val [p] ∧ period.get [p] = O.period.val [p])
    (h3 : P.shape = [np]) (h4 : inds.length = np) (h5 : times.length = np) (h6 : ttvs.length = np) :
    ((∃ V, ttvFinishV O t0 period P inds times ttvs = .ok V) ↔ ∀ p < np, ∃ T,
      ttvFinish (os p) (P.get [p]) (inds.getD p []) (times.getD p []) (ttvs.getD p []) = .ok (some T)) ∧
    ∀ V, ttvFinishV O t0 period P inds times ttvs = .ok V → ∀ Ts : ℕ → Ttv, (∀ p < np,
      ttvFinish (os p) (P.get [p]) (inds.getD p []) (times.getD p []) (ttvs.getD p []) = .ok (some (Ts p))) →
      (∀ p < np, V.HasPlanet p (Ts p)) ∧ ∀ t, Ready V.orbit t np True (fun p => (Ts p).orbit) := by
  have ht : ∀ p < np, t0.get [p] = (os p).t0 ∧ period.get [p] = (os p).period := by
    intro p hp
    obtain ⟨a, b⟩ := hv p hp
    rw [a, b, ← system_at hA hO hos [] hp]
    exact ⟨rfl, rfl⟩
  obtain ⟨f1, f2⟩ := ttvFinishV_ok (o := O) le_rfl h1 h2 h3 h4 h5 h6
  constructor
  · rw [f1]
    refine forall₂_congr fun p hp => ?_
    simp only [ttvFinish_ok]
    rw [(ht p hp).1, (ht p hp).2]
    constructor
    · rintro ⟨tts, h⟩; exact ⟨_, tts, h, rfl⟩
    · rintro ⟨_, tts, h, _⟩; exact ⟨tts, h⟩
  · intro V hV Ts hTs
    obtain ⟨v1, v2, v3, v4, fs, v5, v6, v7⟩ := f2 V hV
    have key : ∀ p < np, ∃ tts, Ts p = ttvBuild (os p) (P.get [p]) (inds.getD p []) (times.getD p []) (ttvs.getD p []) tts ∧
        V.all_transit_times[p]? = some tts ∧ V.bin_edges[p]? = some (binEdges tts (P.get [p])) ∧
        V.bin_values[p]? = some (binValues tts) ∧ fs.getD p id = modelDt (binEdges tts (P.get [p])) (binValues tts) := by
      intro p hp
      obtain ⟨tts, h, hT⟩ := ttvFinish_ok.1 (hTs p hp)
      rw [← (ht p hp).1, ← (ht p hp).2] at h
      exact ⟨tts, hT, v7 p hp tts h⟩
    have getD_some : ∀ {α : Type} (l : List α) (d : α) (p : ℕ), p < l.length → l[p]? = some (l.getD p d) := by
      intro α l d p hp
      simp [hp]
    refine ⟨fun p hp => ?_, fun t => ?_⟩
    · obtain ⟨tts, hT, k1, k2, k3, k4⟩ := key p hp
      constructor
      · rw [v1, hT, ofPlanet_of_shape h3 hp]; rfl
      · rw [v2, hT]; exact getD_some _ _ _ (by omega)
      · rw [v3, hT]; exact getD_some _ _ _ (by omega)
      · rw [v4, hT]; exact getD_some _ _ _ (by omega)
      · rw [k1, hT]; rfl
      · rw [k2, hT]; rfl
      · rw [k3, hT]; rfl
    · obtain ⟨g1, g2⟩ := keplerianInitV_good (hA.good t.shape) hO
      refine ⟨by rw [v5]; exact good_dts g1 _, ?_, ?_, ?_⟩
      · rw [v5]
        have := Gr.good_stack (x := .leaf t) rfl (fun _ hi => (Tensor.bget_self hi).symm) fs
        rw [v6] at this
        exact this
      · intro _
        obtain ⟨q, hq, hs⟩ := hAP
        exact ⟨q.val, hs, by rw [v5]; exact g2 q hq⟩
      · intro i p hp
        obtain ⟨tts, hT, k1, k2, k3, k4⟩ := key p hp
        rw [hT, v5, ← system_at hA hO hos i hp]
        unfold ttvBuild VOrbit.at
        simp only [keplerianInitV_dts hO]
        congr 1
        funext t'
        simp [k4, ← k4]

end Exo
