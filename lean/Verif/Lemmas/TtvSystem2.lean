import Verif.Lemmas.TtvSystem

/-!
# `TTVOrbit` with several planets: the constructor
-/

namespace Exo
open Real

theorem map_some_ok {α : Type} {x : Except PyErr α} {y : α} : x.map some = .ok (some y) ↔ x = .ok y := by
  cases x <;> simp [Except.map]

/-- What the theorems about `TTVOrbit` say. -/
def TtvMatches (np : ℕ) (V : Except PyErr (Option VTtv)) (T : ℕ → Except PyErr (Option Ttv)) : Prop :=
  ((∃ v, V = .ok (some v)) ↔ ∀ p < np, ∃ τ, T p = .ok (some τ)) ∧
  ∀ v, V = .ok (some v) → ∀ τ : ℕ → Ttv, (∀ p < np, T p = .ok (some (τ p))) →
    (∀ p < np, v.HasPlanet p (τ p)) ∧ ∀ t, Ready v.orbit t np True (fun p => (τ p).orbit)

theorem TtvMatches.of_errors {np : ℕ} {V : Except PyErr (Option VTtv)} {T : ℕ → Except PyErr (Option Ttv)} (p : ℕ) (hp : p < np)
    (hV : ∀ v, V ≠ .ok (some v)) (hT : ∀ τ, T p ≠ .ok (some τ)) : TtvMatches np V T := by
  refine ⟨⟨fun ⟨v, h⟩ => absurd h (hV v), fun h => ?_⟩, fun v h => absurd h (hV v)⟩
  obtain ⟨τ, h⟩ := h p hp
  exact absurd h (hT τ)

theorem TtvMatches.congr {np : ℕ} {V V' : Except PyErr (Option VTtv)} {T T' : ℕ → Except PyErr (Option Ttv)}
    (h : TtvMatches np V T) (hV : V' = V) (hT : ∀ p < np, T' p = T p) : TtvMatches np V' T' := by
  subst hV
  refine ⟨h.1.trans (forall₂_congr fun p hp => by rw [hT p hp]), fun v hv τ hτ => h.2 v hv τ fun p hp => by rw [← hT p hp, hτ p hp]⟩

theorem planet_orbits {C : Consts} {A : VArgs} {np : ℕ} (hA : A.FitsPlanets np) {O : VOrbit} (hO : keplerianInitV C A = .ok O) :
    ∀ p < np, keplerianInit C (A.ofPlanet p) = .ok (O.at [p]) := by
  intro p hp
  rw [← hA.at_eq [] hp, keplerianInit_at, hO]
  rfl

theorem planet_error {C : Consts} {A : VArgs} {np : ℕ} (hA : A.FitsPlanets np) {e : PyErr} (hO : keplerianInitV C A = .error e) :
    ∀ p < np, keplerianInit C (A.ofPlanet p) = .error e := by
  intro p hp
  rw [← hA.at_eq [] hp, keplerianInit_at, hO]
  rfl

/-- The last phase, for tables `inds`, `times`, `ttvs` of `np` rows. -/
theorem ttvMatches_finish {C : Consts} {A : VArgs} {O : VOrbit} {np : ℕ} (hA : A.FitsPlanets np) (hO : keplerianInitV C A = .ok O)
    (hAP : A.PerPlanet np) {t0 period P : Tensor ℝ} {inds : List (List ℕ)} {times ttvs : List (List ℝ)}
    (h1 : t0.shape = [np]) (h2 : period.shape = [np])
    (hv : ∀ p < np, t0.get [p] = O.t0.val [p] ∧ period.get [p] = O.period.val [p])
    (h3 : P.shape = [np]) (h4 : inds.length = np) (h5 : times.length = np) (h6 : ttvs.length = np) :
    TtvMatches np ((ttvFinishV O t0 period P inds times ttvs).map some)
      (fun p => ttvFinish (O.at [p]) (P.get [p]) (inds.getD p []) (times.getD p []) (ttvs.getD p [])) := by
  obtain ⟨f1, f2⟩ := ttvFinish_core hA hO (planet_orbits hA hO) hAP h1 h2 hv h3 h4 h5 h6
  refine ⟨?_, ?_⟩
  · simp only [map_some_ok]; exact f1
  · intro v hv'
    exact f2 v (map_some_ok.1 hv')

theorem getD_map_range (ttvs : List (List ℝ)) (ti : Option (List (List ℕ))) {p : ℕ} (hp : p < ttvs.length) :
    (ti.map (·.getD p [])).getD (List.range (ttvs.getD p []).length) =
      (ti.getD (ttvs.map fun l => List.range l.length)).getD p [] := by
  cases ti with
  | some l => rfl
  | none => simp [hp]

theorem ttvMatches_ttvs {C : Consts} {K : VTtvArgs} {np : ℕ} (h0 : 0 < np) (hK : K.FitsPlanets np) (hP : K.PerPlanet np)
    {ttvs : List (List ℝ)} (ht : K.ttvs = some ttvs) : TtvMatches np (ttvInitV C K) (fun p => ttvInit C (K.ofPlanet p)) := by
  have hl := hK.ttvs ttvs ht
  obtain ⟨hAP, hq⟩ := hP.with_ttvs (by rw [ht]; simp)
  have hT : ∀ p, (K.ofPlanet p).ttvs = some (ttvs.getD p []) := fun p => by simp [VTtvArgs.ofPlanet, ht]
  cases hO : keplerianInitV C K.base with
  | error e =>
    have := planet_error hK.base hO 0 h0
    refine TtvMatches.of_errors 0 h0 ?_ ?_
    · intro v h; simp [ttvInitV, ht, hO] at h
    · intro v h
      unfold ttvInit at h
      rw [hT] at h
      simp [VTtvArgs.ofPlanet, this] at h
  | ok O =>
    obtain ⟨t0, period, he, s1, s2, hv⟩ := evalTimes_ok hK.base hO hAP hq
    have hos := planet_orbits hK.base hO
    set inds := K.transit_inds.getD (ttvs.map fun l => List.range l.length) with hi
    have hli : inds.length = np := by
      rw [hi]
      cases hx : K.transit_inds with
      | none => simp [hl]
      | some l => exact hK.transit_inds l hx
    have hind : ∀ p < np, (K.ofPlanet p).transit_inds.getD (List.range (ttvs.getD p []).length) = inds.getD p [] :=
      fun p hp => getD_map_range ttvs K.transit_inds (by omega)
    have tm : ∀ p < np, timesOf t0 period inds ttvs p = if (inds.getD p []).length ≠ (ttvs.getD p []).length then .error .shapeMismatch
        else .ok (List.zipWith (fun (k : ℕ) ttv => (O.at [p]).t0 + (O.at [p]).period * (k : ℝ) + ttv) (inds.getD p []) (ttvs.getD p [])) := by
      intro p hp
      rw [timesOf, entry_of_shape s1 hp, entry_of_shape s2 hp, listItem_ok [] (by omega), (hv p hp).1, (hv p hp).2]
      rfl
    have hs : ∀ p < np, ttvInit C (K.ofPlanet p) = if (inds.getD p []).length ≠ (ttvs.getD p []).length then .error .shapeMismatch
        else ttvFinish (O.at [p]) (O.at [p]).period (inds.getD p [])
          (List.zipWith (fun (k : ℕ) ttv => (O.at [p]).t0 + (O.at [p]).period * (k : ℝ) + ttv) (inds.getD p []) (ttvs.getD p []))
          (ttvs.getD p []) := by
      intro p hp
      unfold ttvInit
      rw [hT]
      simp only
      rw [show (K.ofPlanet p).base = K.base.ofPlanet p from rfl, hos p hp, hind p hp]
    have hV : ttvInitV C K = match eachPlanet ttvs.length (timesOf t0 period inds ttvs) with
        | .error e => .error e
        | .ok times => (ttvFinishV O t0 period period inds times ttvs).map some := by
      unfold ttvInitV
      rw [ht]
      simp only
      rw [hO]
      simp only
      rw [he, ← hi]
      rfl
    by_cases hall : ∀ p < np, (inds.getD p []).length = (ttvs.getD p []).length
    · obtain ⟨times, htimes⟩ := eachPlanet_exists (n := ttvs.length) (f := timesOf t0 period inds ttvs) (fun p hp => by
        rw [tm p (by omega), if_neg (by simpa using hall p (by omega))]; exact ⟨_, rfl⟩)
      obtain ⟨l1, l2⟩ := eachPlanet_ok htimes
      have hti : ∀ p < np, times.getD p [] =
          List.zipWith (fun (k : ℕ) ttv => (O.at [p]).t0 + (O.at [p]).period * (k : ℝ) + ttv) (inds.getD p []) (ttvs.getD p []) := by
        intro p hp
        obtain ⟨x, hx, hx'⟩ := l2 p (by omega)
        rw [tm p hp, if_neg (by simpa using hall p hp)] at hx'
        rw [List.getD_eq_getElem?_getD, hx]
        exact (Except.ok.inj hx').symm
      refine TtvMatches.congr (ttvMatches_finish hK.base hO hAP s1 s2 hv s2 hli (l1.trans hl) hl) (by rw [hV, htimes]) ?_
      intro p hp
      rw [hs p hp, if_neg (by simpa using hall p hp), hti p hp, (hv p hp).2]
      rfl
    · push Not at hall
      obtain ⟨p, hp, hne⟩ := hall
      refine TtvMatches.of_errors p hp ?_ ?_
      · intro v h
        rw [hV] at h
        split at h
        · cases h
        · rename_i times htimes
          obtain ⟨x, _, hx⟩ := (eachPlanet_ok htimes).2 p (by omega)
          rw [tm p hp, if_pos hne] at hx
          cases hx
      · intro v h
        rw [hs p hp, if_pos hne] at h
        cases h

/-! ## With `transit_times` -/

theorem ofPlanet_ofList (l : List ℝ) {p : ℕ} (hp : p < l.length) : (Tensor.ofList l 0).ofPlanet p = l.getD p 0 := by
  rw [ofPlanet_of_shape (n := l.length) rfl hp]; rfl

theorem shapePeriod_ok {K : VTtvArgs} {np : ℕ} (hK : K.FitsPlanets np) (hP : K.PerPlanet np) (hn : K.ttvs = none) {slopes : List ℝ}
    (hs : slopes.length = np) : ∃ q : TQ, K.shapePeriod slopes = .ok q ∧ q.val.shape = [np] ∧
      ∀ p < np, q.ofPlanet p = (K.ofPlanet p).shapePeriod (slopes.getD p 0) := by
  unfold VTtvArgs.shapePeriod TtvArgs.shapePeriod
  cases hb : K.base.period with
  | some q => exact ⟨q, rfl, hP.with_times hn q hb, fun p hp => by simp [VTtvArgs.ofPlanet, VArgs.ofPlanet, hb]⟩
  | none =>
    cases hd : K.delta_log_period with
    | none =>
      refine ⟨_, rfl, by simp [Tensor.ofList, hs], fun p hp => ?_⟩
      simp only [VTtvArgs.ofPlanet, VArgs.ofPlanet, hb, hd, Option.map_none, TQ.ofPlanet]
      rw [ofPlanet_ofList slopes (by omega)]
    | some d =>
      have hf := hK.delta_log_period d hd
      have hb1 : BLe d.shape [np] := Tensor.FitsPlanets.ble hf
      obtain ⟨w, hw, b1, _, b3⟩ := BLe.sup (BLe.refl [np]) hb1
      have hw' : w = [np] := BLe.antisymm b3 b1
      subst hw'
      have hz : ((Tensor.ofList slopes 0).map Real.log).zipB (· + ·) d =
          .ok ⟨[np], fun idx => ((Tensor.ofList slopes 0).map Real.log).bget idx + d.bget idx⟩ :=
        Tensor.zipB_ok (by simpa [Tensor.map, Tensor.ofList, hs] using hw)
      simp only [hz]
      refine ⟨_, rfl, rfl, fun p hp => ?_⟩
      simp only [VTtvArgs.ofPlanet, VArgs.ofPlanet, hb, hd, Option.map_none, Option.map_some, TQ.ofPlanet]
      rw [ofPlanet_of_shape (n := np) rfl hp]
      have e1 : ((Tensor.ofList slopes 0).map Real.log).bget [p] = Real.log (slopes.getD p 0) := by
        rw [Tensor.bget_self (by simpa [Tensor.map, Tensor.ofList, hs] using inShape_singleton.2 hp)]; rfl
      have e2 : d.bget [p] = d.ofPlanet p := ofPlanet_eq hf [] hp
      simp only [Tensor.map] at e1 ⊢
      rw [e1, e2]

theorem planetFit_eq (ti : Option (List (List ℕ))) (times : List (List ℝ)) {np p : ℕ}
    (hi : ∀ l, ti = some l → l.length = np) (hp : p < np) :
    planetFit ti times p =
      (let inds := (ti.map (·.getD p [])).getD (List.range (times.getD p []).length)
       if inds.length ≠ (times.getD p []).length then .error .shapeMismatch else .ok (inds, linFit inds (times.getD p []))) := by
  unfold planetFit planetInds
  cases ti with
  | none => rfl
  | some l =>
    simp only
    rw [listItem_ok [] (by rw [hi l rfl]; exact hp)]
    rfl

theorem ttvMatches_times {C : Consts} {K : VTtvArgs} {np : ℕ} (h0 : 0 < np) (hK : K.FitsPlanets np) (hP : K.PerPlanet np)
    (hn : K.ttvs = none) {times : List (List ℝ)} (ht : K.transit_times = some times) :
    TtvMatches np (ttvInitV C K) (fun p => ttvInit C (K.ofPlanet p)) := by
  have hl := hK.transit_times times ht
  have hT1 : ∀ p, (K.ofPlanet p).ttvs = none := fun p => by simp [VTtvArgs.ofPlanet, hn]
  have hT2 : ∀ p, (K.ofPlanet p).transit_times = some (times.getD p []) := fun p => by simp [VTtvArgs.ofPlanet, ht]
  set ind : ℕ → List ℕ := fun p => (K.ofPlanet p).transit_inds.getD (List.range (times.getD p []).length) with hind
  have hpf : ∀ p < np, planetFit K.transit_inds times p = if (ind p).length ≠ (times.getD p []).length then .error .shapeMismatch
      else .ok (ind p, linFit (ind p) (times.getD p [])) := fun p hp => planetFit_eq _ times hK.transit_inds hp
  have hs : ∀ p, ttvInit C (K.ofPlanet p) = if (ind p).length ≠ (times.getD p []).length then .error .shapeMismatch else
      match linFit (ind p) (times.getD p []) with
      | none =>
        match keplerianInit C { (K.base.ofPlanet p) with t0 := some (0 : ℝ), period := some ((K.base.ofPlanet p).period.getD (1 : ℝ)) } with
        | .error e => .error e
        | .ok _ => if (ind p) = [] then .error (.valueError "zero-size array to reduction operation maximum") else .ok none
      | some (slope, intercept) =>
        match keplerianInit C { (K.base.ofPlanet p) with t0 := some intercept, period := some ((K.ofPlanet p).shapePeriod slope) } with
        | .error e => .error e
        | .ok o => ttvFinish o slope (ind p) (times.getD p [])
            (List.zipWith (fun (i : ℕ) y => y - (intercept + (i : ℝ) * slope)) (ind p) (times.getD p [])) := by
    intro p
    unfold ttvInit
    rw [hT1, hT2]
    rfl
  by_cases hall : ∀ p < np, (ind p).length = (times.getD p []).length
  swap
  · push Not at hall
    obtain ⟨p, hp, hne⟩ := hall
    refine TtvMatches.of_errors p hp ?_ ?_
    · intro v h
      unfold ttvInitV at h
      rw [hn, ht] at h
      simp only at h
      split at h
      · cases h
      · rename_i fits hfits
        obtain ⟨x, _, hx⟩ := (eachPlanet_ok hfits).2 p (by omega)
        rw [hpf p hp, if_pos hne] at hx
        cases hx
    · intro v h
      rw [hs p, if_pos hne] at h
      cases h
  obtain ⟨fits, hfits⟩ := eachPlanet_exists (n := times.length) (f := planetFit K.transit_inds times) (fun p hp => by
    rw [hpf p (by omega), if_neg (by simpa using hall p (by omega))]; exact ⟨_, rfl⟩)
  obtain ⟨l1, l2⟩ := eachPlanet_ok hfits
  have hfit : ∀ p < np, fits[p]? = some (ind p, linFit (ind p) (times.getD p [])) := by
    intro p hp
    obtain ⟨x, hx, hx'⟩ := l2 p (by omega)
    rw [hpf p hp, if_neg (by simpa using hall p hp)] at hx'
    rw [hx, Except.ok.inj hx']
  have hne : fits ≠ [] := by rintro rfl; simp at l1; omega
  by_cases hnone : ∃ p < np, linFit (ind p) (times.getD p []) = none
  · obtain ⟨p, hp, hp'⟩ := hnone
    refine TtvMatches.of_errors p hp ?_ ?_
    · intro v h
      unfold ttvInitV at h
      rw [hn, ht] at h
      simp only at h
      rw [hfits] at h
      simp only [if_neg hne] at h
      have hany : fits.any (fun f => f.2.isNone) = true := by
        rw [List.any_eq_true]
        refine ⟨_, List.mem_of_getElem? (hfit p hp), by rw [hp']; rfl⟩
      rw [if_pos hany] at h
      cases h
    · intro v h
      rw [hs p, if_neg (by simpa using hall p hp), hp'] at h
      simp only at h
      split at h
      · cases h
      · split at h <;> cases h
  · push Not at hnone
    have hany : fits.any (fun f => f.2.isNone) = false := by
      rw [List.any_eq_false]
      intro f hf
      obtain ⟨p, hp⟩ := List.mem_iff_getElem?.1 hf
      have hpl : p < fits.length := (List.getElem?_eq_some_iff.1 hp).1
      have := hfit p (by omega)
      rw [hp] at this
      cases this
      have h := hnone p (by omega)
      intro h2
      exact h (Option.isNone_iff_eq_none.1 h2)
    set fit : ℕ → ℝ × ℝ := fun p => (linFit (ind p) (times.getD p [])).getD (0, 0) with hfitdef
    have hlin : ∀ p < np, linFit (ind p) (times.getD p []) = some (fit p) := by
      intro p hp
      obtain ⟨x, hx⟩ := Option.ne_none_iff_exists'.1 (hnone p hp)
      show linFit _ _ = some ((linFit (ind p) (times.getD p [])).getD (0, 0))
      rw [hx]
      rfl
    set slopes := fits.map (fun f => (f.2.getD (0, 0)).1) with hslopes
    set intercepts := fits.map (fun f => (f.2.getD (0, 0)).2) with hints
    set ttvs := List.zipWith (fun (f : List ℕ × Option (ℝ × ℝ)) ts =>
      List.zipWith (fun (k : ℕ) y => y - ((f.2.getD (0, 0)).2 + (k : ℝ) * (f.2.getD (0, 0)).1)) f.1 ts) fits times with httvs
    have lf : fits.length = np := by omega
    have gs : ∀ p < np, slopes.getD p 0 = (fit p).1 := by
      intro p hp
      rw [hslopes, List.getD_eq_getElem?_getD, List.getElem?_map, hfit p hp]; rfl
    have gi : ∀ p < np, intercepts.getD p 0 = (fit p).2 := by
      intro p hp
      rw [hints, List.getD_eq_getElem?_getD, List.getElem?_map, hfit p hp]; rfl
    have gn : ∀ p < np, (fits.map Prod.fst).getD p [] = ind p := by
      intro p hp
      rw [List.getD_eq_getElem?_getD, List.getElem?_map, hfit p hp]; rfl
    have gt : ∀ p < np, ttvs.getD p [] =
        List.zipWith (fun (k : ℕ) y => y - ((fit p).2 + (k : ℝ) * (fit p).1)) (ind p) (times.getD p []) := by
      intro p hp
      rw [httvs, List.getD_eq_getElem?_getD, List.getElem?_zipWith, hfit p hp,
        show times[p]? = some (times.getD p []) by simp [hl, hp]]
      rfl
    obtain ⟨q, hq, hqs, hqp⟩ := shapePeriod_ok hK hP hn (slopes := slopes) (by simp [hslopes, lf])
    set A : VArgs := { K.base with t0 := some ⟨.ofList intercepts 0, none⟩, period := some q } with hA
    have fA : A.FitsPlanets np := by
      intro x hx r hr
      simp only [hA, List.mem_cons, List.not_mem_nil, or_false] at hx
      have hbase := hK.base
      rcases hx with rfl | h | rfl | h
      · cases hr; exact Or.inr (Or.inr hqs)
      · exact hbase x (by simp [h]) r hr
      · cases hr; exact Or.inr (Or.inr (by simp [Tensor.ofList, hints, lf]))
      · exact hbase x (by simp only [List.mem_cons]; tauto) r hr
    have pA : A.PerPlanet np := ⟨q, Or.inl rfl, hqs⟩
    have tA : ∀ r, A.t0 = some r → r.val.shape = [np] := by
      intro r hr
      cases hr
      simp [Tensor.ofList, hints, lf]
    have oA : ∀ p < np, A.ofPlanet p = { (K.base.ofPlanet p) with t0 := some ((fit p).2 : ℝ), period := some ((K.ofPlanet p).shapePeriod (fit p).1) } := by
      intro p hp
      have e1 : TQ.ofPlanet ⟨.ofList intercepts 0, none⟩ p = ((fit p).2 : Q) := by
        unfold TQ.ofPlanet
        simp only
        rw [ofPlanet_ofList _ (by simp [hints, lf, hp]), gi p hp]
      have e2 := hqp p hp
      rw [gs p hp] at e2
      rw [← e1, ← e2]
      rfl
    have hV : ttvInitV C K = match keplerianInitV C A with
        | .error e => .error e
        | .ok o =>
          match evalTimes o with
          | .error e => .error e
          | .ok (t0, period) => (ttvFinishV o t0 period (.ofList slopes 0) (fits.map Prod.fst) times ttvs).map some := by
      unfold ttvInitV
      rw [hn, ht]
      simp only
      rw [hfits]
      simp only [if_neg hne, hany, Bool.false_eq_true, if_false]
      rw [← hslopes, ← hints, ← httvs, hq]
      rfl
    have hs' : ∀ p < np, ttvInit C (K.ofPlanet p) = match keplerianInit C (A.ofPlanet p) with
        | .error e => .error e
        | .ok o => ttvFinish o (fit p).1 (ind p) (times.getD p []) (ttvs.getD p []) := by
      intro p hp
      rw [hs p, if_neg (by simpa using hall p hp), hlin p hp, oA p hp, gt p hp]
    cases hO : keplerianInitV C A with
    | error e =>
      refine TtvMatches.of_errors 0 h0 ?_ ?_
      · intro v h; rw [hV, hO] at h; cases h
      · intro v h; rw [hs' 0 h0, planet_error fA hO 0 h0] at h; cases h
    | ok O =>
      obtain ⟨t0, period, he, s1, s2, hv⟩ := evalTimes_ok fA hO pA tA
      refine TtvMatches.congr (ttvMatches_finish fA hO pA s1 s2 hv (P := .ofList slopes 0) (inds := fits.map Prod.fst) (times := times)
        (ttvs := ttvs) (by simp [Tensor.ofList, hslopes, lf]) (by simp [lf]) hl (by simp [httvs, lf, hl])) (by rw [hV, hO]; simp only; rw [he]) ?_
      intro p hp
      rw [hs' p hp, planet_orbits fA hO p hp, gn p hp, ← gs p hp]
      rfl

end Exo
