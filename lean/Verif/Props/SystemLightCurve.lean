import Verif.Lemmas.SystemContacts
import Verif.Lemmas.LightCurve2
import Verif.Props.LightCurve
import Verif.Props.System
import Verif.Props.TtvSystem

/-!
# C75: the light curve of a system is that of its planets

`get_light_curve` and `in_transit` with an orbit whose arguments are arrays (`KeplerianOrbit` and `TTVOrbit` with several planets).
-/

namespace Exo
open Real

section
variable {C : Consts} {O : VOrbit} {np : ℕ} {os : ℕ → Orbit} {full : Prop}

theorem lightCurve_ready (l : LimbDark) (cp : ContactOp) (hR : ∀ t : Tensor ℝ, Ready O t np full os) (hfull : full ∨ np = 1)
    (ld : Bool) (hld : ld = true → O.dts = none) (r t : Tensor ℝ) (hr : r.size = np) (oversample order : ℤ) :
    ∃ L, l.getLightCurveV C cp O r t none oversample order (some false) ld = .ok L ∧ L.shape = t.shape ++ [np] ∧
      ∀ i p, InShape i t.shape → p < np → L.get (i ++ [p]) =
        fluxAt l.c (os p).r_star (r.get (Tensor.unravel r.shape p)) ((os p).relativePosition C (t.get i) none ld) := by
  obtain ⟨y, h1, h2, h3⟩ := Tensor.reshape_flat r
  obtain ⟨L, h4, h5, h6⟩ := (integratedWith_spec (lightCurveAtV_computes l C hR hfull ld hld) y t oversample order
    (by rw [h2, hr])).1
  refine ⟨L, ?_, h5, fun i p hi hp => by rw [h6 i p hi hp, h3]⟩
  unfold LimbDark.getLightCurveV lightCurveWith
  simp only [Option.getD_some, Bool.false_eq_true, if_false, bind, Except.bind, h1, h4]

theorem lightCurve_ready_exposure (l : LimbDark) (cp : ContactOp) (hR : ∀ t : Tensor ℝ, Ready O t np full os)
    (hfull : full ∨ np = 1) (ld : Bool) (hld : ld = true → O.dts = none) (r t x : Tensor ℝ) (hr : r.size = np)
    (hx : x.shape = [] ∨ x.shape = t.shape) (oversample order : ℤ) (ho : order = 0 ∨ order = 1 ∨ order = 2) (hn : 1 ≤ oversample) :
    ∃ S, stencil order oversample = .ok S ∧
    ∃ L, l.getLightCurveV C cp O r t (some x) oversample order (some false) ld = .ok L ∧ L.shape = t.shape ++ [np] ∧
      ∀ i p, InShape i t.shape → p < np → L.get (i ++ [p]) =
        exposureAverage (fun s => fluxAt l.c (os p).r_star (r.get (Tensor.unravel r.shape p)) ((os p).relativePosition C s none ld))
          (t.get i) (some (texpAt x i, S)) := by
  obtain ⟨S, hS, -, hlen, -⟩ := C38_weights order oversample ho hn
  refine ⟨S, hS, ?_⟩
  obtain ⟨y, h1, h2, h3⟩ := Tensor.reshape_flat r
  obtain ⟨L, h4, h5, h6⟩ := (integratedWith_spec (lightCurveAtV_computes l C hR hfull ld hld) y t oversample order
    (by rw [h2, hr])).2 x S hx hS hlen
  refine ⟨L, ?_, h5, fun i p hi hp => by rw [h6 i p hi hp, h3]; rfl⟩
  unfold LimbDark.getLightCurveV lightCurveWith
  simp only [Option.getD_some, Bool.false_eq_true, if_false, bind, Except.bind, h1, h4]

end

section
variable {C : Consts} {A : VArgs} {np : ℕ} {O : VOrbit} {os : ℕ → Orbit}

/-- **C75, the values**: without exposure time, and without the restriction to the times in transit, entry `(i, p)` of the light curve
is the flux that the body at the position of planet `p` (the orbit built from the arguments of planet `p` alone) covers at time
`t[i]`. The times may have any number of axes, the radii any shape with one entry per planet. Missing: several planets that share one
`period` (or `a`), see `C75_shared_period_counterexample`. -/
theorem C75_light_curve_partial (l : LimbDark) (cp : ContactOp) (hA : A.FitsPlanets np) (hP : A.PerPlanet np ∨ np = 1)
    (hO : keplerianInitV C A = .ok O) (hos : ∀ p < np, keplerianInit C (A.ofPlanet p) = .ok (os p)) (light_delay : Bool)
    (r t : Tensor ℝ) (hr : r.size = np) (oversample order : ℤ) :
    ∃ L, l.getLightCurveV C cp O r t none oversample order (some false) light_delay = .ok L ∧ L.shape = t.shape ++ [np] ∧
      ∀ i p, InShape i t.shape → p < np → L.get (i ++ [p]) =
        fluxAt l.c (os p).r_star (r.get (Tensor.unravel r.shape p)) ((os p).relativePosition C (t.get i) none light_delay) :=
  lightCurve_ready l cp (fun t => system_ready hA hO hos t) hP light_delay (fun _ => keplerianInitV_dts hO) r t hr oversample order

/-- **C75, exposure times** (one for all times, or one per time): the weighted average over the sub-exposures. -/
theorem C75_exposure_partial (l : LimbDark) (cp : ContactOp) (hA : A.FitsPlanets np) (hP : A.PerPlanet np ∨ np = 1)
    (hO : keplerianInitV C A = .ok O) (hos : ∀ p < np, keplerianInit C (A.ofPlanet p) = .ok (os p)) (light_delay : Bool)
    (r t x : Tensor ℝ) (hr : r.size = np) (hx : x.shape = [] ∨ x.shape = t.shape) (oversample order : ℤ)
    (ho : order = 0 ∨ order = 1 ∨ order = 2) (hn : 1 ≤ oversample) :
    ∃ S, stencil order oversample = .ok S ∧
    ∃ L, l.getLightCurveV C cp O r t (some x) oversample order (some false) light_delay = .ok L ∧ L.shape = t.shape ++ [np] ∧
      ∀ i p, InShape i t.shape → p < np → L.get (i ++ [p]) =
        exposureAverage (fun s =>
          fluxAt l.c (os p).r_star (r.get (Tensor.unravel r.shape p)) ((os p).relativePosition C s none light_delay))
          (t.get i) (some (texpAt x i, S)) :=
  lightCurve_ready_exposure l cp (fun t => system_ready hA hO hos t) hP light_delay (fun _ => keplerianInitV_dts hO) r t x hr hx
    oversample order ho hn

/-- **C75, `in_transit`**: the selected times are those selected for the list of the planets (see C21-C23 for what these are),
exceptions included. Missing: eccentric orbits whose `a`, `ecc` or `omega` is shared by several planets, see
`C75_shared_omega_counterexample`. -/
theorem C75_in_transit_partial (cp : ContactOp) (h0 : 0 < np) (hA : A.FitsPlanets np) (hO : keplerianInitV C A = .ok O)
    (hos : ∀ p < np, keplerianInit C (A.ofPlanet p) = .ok (os p)) (hsz : A.ecc = none ∨ np = 1 ∨ A.ContactPerPlanet np)
    (t r : Tensor ℝ) (N : ℕ) (ht : t.shape = [N]) (hr : r.shape = [np]) (texp : Option (Tensor ℝ))
    (htexp : ∀ x, texp = some x → x.ndim ≤ 1) (light_delay : Bool) :
    O.inTransit cp t r texp light_delay =
      inTransit cp ((List.range np).map fun p => (os p, r.get [p])) t.toList (texpOf texp) light_delay := by
  refine inTransit_ready h0 (fun t => system_ready hA hO hos t) ?_ cp ht hr texp htexp light_delay
  rcases hsz with h | h | h
  · intro E hE
    rw [keplerianInitV_circ hO h] at hE
    cases hE
  · subst h
    exact contactSizes_single (system_ready hA hO hos (Tensor.scalar 0)).good
  · exact contactSizes_of_args hA h hO

/-- **C75, `use_in_transit`**: restricting the computation to the times in transit changes nothing. Each planet must be `Tractable` (see
C40), the exposure time is absent or one number. Missing: as above, and what is missing in C40. -/
theorem C75_use_in_transit_partial (cp : ContactOp) (u1 u2 : ℝ) (hlaw : (∫ p in starDisc, quadLaw u1 u2 (muAt p)) ≠ 0) (h0 : 0 < np)
    (hA : A.FitsPlanets np) (hP : A.PerPlanet np ∨ np = 1) (hO : keplerianInitV C A = .ok O)
    (hos : ∀ p < np, keplerianInit C (A.ofPlanet p) = .ok (os p)) (hsz : A.ecc = none ∨ np = 1 ∨ A.ContactPerPlanet np)
    (r t : Tensor ℝ) (hr : r.size = np) (N : ℕ) (ht : t.shape = [N]) (texp : Option ℝ) (hx : ∀ x, texp = some x → 0 ≤ x)
    (hT : ∀ p < np, Tractable C cp (os p) (r.get (Tensor.unravel r.shape p)) (texp.getD 0)) (oversample order : ℤ)
    (ho : order = 0 ∨ order = 1 ∨ order = 2) (hn : 1 ≤ oversample) :
    ∃ L L', (LimbDark.new u1 u2).getLightCurveV C cp O r t (texp.map Tensor.scalar) oversample order (some true) = .ok L ∧
      (LimbDark.new u1 u2).getLightCurveV C cp O r t (texp.map Tensor.scalar) oversample order (some false) = .ok L' ∧
      L.Same L' := by
  obtain ⟨y, h1, h2, h3⟩ := Tensor.reshape_flat r
  rw [hr] at h2
  obtain ⟨S, hS, -, hSlen, hoff, -⟩ := C38_weights order oversample ho hn
  have hyp : ∀ p, y.get [p] = r.get (Tensor.unravel r.shape p) := h3
  have hlen : t.toList.length = N := by rw [Tensor.toList_vec ht]; simp
  have htg : ∀ i (hi : i < N), t.toList[i]'(by rw [hlen]; exact hi) = t.get [i] := by
    intro i hi
    simp [Tensor.toList_vec ht]
  let planets := (List.range np).map fun p => (os p, y.get [p])
  have hTl : ∀ q ∈ planets, Tractable C cp q.1 q.2 (texp.getD 0) := by
    intro q hq
    obtain ⟨p, hp, rfl⟩ := List.mem_map.1 hq
    rw [hyp p]
    exact hT p (List.mem_range.1 hp)
  obtain ⟨inds, hl, hm⟩ : ∃ inds, inTransit cp planets t.toList (texpArg texp) = .ok inds ∧
      ∀ i, i ∈ inds ↔ ∃ h : i < t.toList.length, ∃ q ∈ planets, ∃ u, |u| ≤ texp.getD 0 / 2 ∧ Overlaps C q.1 q.2 (t.toList[i] + u) := by
    rcases texp with _ | x
    · obtain ⟨l, h1, h2⟩ := inTransit_exact C cp planets hTl t.toList
      refine ⟨l, h1, fun i => ?_⟩
      rw [h2]
      refine exists_congr fun hi => exists_congr fun q => and_congr_right fun hq => ?_
      simp only [Option.getD_none, zero_div]
      constructor
      · intro h; exact ⟨0, by simp, by simpa using h⟩
      · rintro ⟨u, hu, h⟩
        have : u = 0 := abs_nonpos_iff.1 hu
        subst this; simpa using h
    · exact C22_exposure C cp planets x (hx x rfl) hTl t.toList
  refine integratedWith_rows (lightCurveAtV_computes (LimbDark.new u1 u2) C (fun t => system_ready hA hO hos t) hP false (by simp))
    (O.inTransit cp) y t N ht oversample order h2 _ ?_ inds ?_ ?_ ?_ _ h1
  · intro x hx'
    rcases texp with _ | x0
    · cases hx'
    · simp only [Option.map_some, Option.some.injEq] at hx'
      subst hx'
      exact ⟨Or.inl rfl, S, hS, hSlen, hoff⟩
  · rw [C75_in_transit_partial cp h0 hA hO hos hsz t y N ht h2 _ ?_ false]
    · rw [show texpOf (texp.map Tensor.scalar) = texpArg texp by cases texp <;> rfl]
      exact hl
    · intro x hx'
      rcases texp with _ | x0
      · cases hx'
      · simp only [Option.map_some, Option.some.injEq] at hx'
        subst hx'
        simp [Tensor.ndim, Tensor.scalar]
  · intro i hi
    rw [← hlen]
    exact ((hm i).1 hi).1
  · intro i hi hni p hp u hu1 hu2
    have hTp := hT p hp
    have hx0 : texpOr0 (texp.map Tensor.scalar) [i] = texp.getD 0 := by
      rcases texp with _ | x0
      · rfl
      · simp [texpOr0, texpAt, Tensor.scalar]
    rw [hx0]
    refine fluxAt_zero hlaw hTp.2.1.r_star_pos ?_
    rintro ⟨h1, h2⟩
    apply hni
    rw [hm]
    refine ⟨by rw [hlen]; exact hi, (os p, y.get [p]), List.mem_map.2 ⟨p, List.mem_range.2 hp, rfl⟩, texp.getD 0 * u, ?_, ?_⟩
    · have hx0 : 0 ≤ texp.getD 0 := by
        rcases texp with _ | x0
        · simp
        · exact hx x0 rfl
      rw [abs_le]
      constructor <;> nlinarith
    · rw [htg i hi]
      exact ⟨h1, h2.le⟩

end

section
variable {C : Consts} {K : VTtvArgs} {np : ℕ} {V : VTtv} {T : ℕ → Ttv}

/-- **C75 for `TTVOrbit`s**: the values, without light delay (see C35). -/
theorem C75_ttv_light_curve_partial (l : LimbDark) (cp : ContactOp) (h0 : 0 < np) (hK : K.FitsPlanets np) (hP : K.PerPlanet np)
    (hV : ttvInitV C K = .ok (some V)) (hT : ∀ p < np, ttvInit C (K.ofPlanet p) = .ok (some (T p))) (r t : Tensor ℝ)
    (hr : r.size = np) (oversample order : ℤ) :
    ∃ L, l.getLightCurveV C cp V.orbit r t none oversample order (some false) = .ok L ∧ L.shape = t.shape ++ [np] ∧
      ∀ i p, InShape i t.shape → p < np → L.get (i ++ [p]) =
        fluxAt l.c (T p).orbit.r_star (r.get (Tensor.unravel r.shape p)) ((T p).orbit.relativePosition C (t.get i)) :=
  lightCurve_ready l cp (fun t => ttv_ready h0 hK hP hV hT t) (Or.inl trivial) false (by simp) r t hr oversample order

/-- **C75 for `TTVOrbit`s**: exposure times. -/
theorem C75_ttv_exposure_partial (l : LimbDark) (cp : ContactOp) (h0 : 0 < np) (hK : K.FitsPlanets np) (hP : K.PerPlanet np)
    (hV : ttvInitV C K = .ok (some V)) (hT : ∀ p < np, ttvInit C (K.ofPlanet p) = .ok (some (T p))) (r t x : Tensor ℝ)
    (hr : r.size = np) (hx : x.shape = [] ∨ x.shape = t.shape) (oversample order : ℤ)
    (ho : order = 0 ∨ order = 1 ∨ order = 2) (hn : 1 ≤ oversample) :
    ∃ S, stencil order oversample = .ok S ∧
    ∃ L, l.getLightCurveV C cp V.orbit r t (some x) oversample order (some false) = .ok L ∧ L.shape = t.shape ++ [np] ∧
      ∀ i p, InShape i t.shape → p < np → L.get (i ++ [p]) =
        exposureAverage (fun s =>
          fluxAt l.c (T p).orbit.r_star (r.get (Tensor.unravel r.shape p)) ((T p).orbit.relativePosition C s))
          (t.get i) (some (texpAt x i, S)) :=
  lightCurve_ready_exposure l cp (fun t => ttv_ready h0 hK hP hV hT t) (Or.inl trivial) false (by simp) r t x hr hx oversample order
    ho hn

theorem ttvFinishV_ecc {o : VOrbit} {t0 period P : Tensor ℝ} {inds : List (List ℕ)} {times ttvs : List (List ℝ)} {V : Option VTtv}
    (h : (ttvFinishV o t0 period P inds times ttvs).map some = .ok V) : ∃ W, V = some W ∧ W.orbit.ecc = o.ecc := by
  unfold ttvFinishV at h
  split at h
  · cases h
  · split at h
    · cases h
    · cases h
      exact ⟨_, rfl, rfl⟩

omit V in
/-- Without `ecc`, a `TTVOrbit` is circular. -/
theorem ttvInitV_circ {V : VTtv} (h : ttvInitV C K = .ok (some V)) (he : K.base.ecc = none) : V.orbit.ecc = none := by
  have key : ∀ {A : VArgs} {o : VOrbit} {t0 period P : Tensor ℝ} {inds : List (List ℕ)} {times ttvs : List (List ℝ)},
      A.ecc = none → keplerianInitV C A = .ok o → (ttvFinishV o t0 period P inds times ttvs).map some = .ok (some V) →
      V.orbit.ecc = none := by
    intro A o t0 period P inds times ttvs hA ho h
    obtain ⟨W, hW, e⟩ := ttvFinishV_ecc h
    cases hW
    rw [e, keplerianInitV_circ ho hA]
  unfold ttvInitV at h
  split at h
  · cases h
  · simp only at h
    split at h
    · cases h
    · rename_i ho
      split at h
      · cases h
      · split at h
        · cases h
        · exact key he ho h
  · split at h
    · cases h
    · split at h
      · cases h
      · split at h
        · cases h
        · simp only at h
          split at h
          · cases h
          · split at h
            · cases h
            · rename_i ho
              split at h
              · cases h
              · exact key (by exact he) ho h

/-- **C75 for `TTVOrbit`s**: `in_transit`. -/
theorem C75_ttv_in_transit_partial (cp : ContactOp) (h0 : 0 < np) (hK : K.FitsPlanets np) (hP : K.PerPlanet np)
    (hV : ttvInitV C K = .ok (some V)) (hT : ∀ p < np, ttvInit C (K.ofPlanet p) = .ok (some (T p)))
    (hsz : K.base.ecc = none ∨ np = 1 ∨ ContactSizes V.orbit np) (t r : Tensor ℝ) (N : ℕ) (ht : t.shape = [N]) (hr : r.shape = [np])
    (texp : Option (Tensor ℝ)) (htexp : ∀ x, texp = some x → x.ndim ≤ 1) (light_delay : Bool) :
    V.orbit.inTransit cp t r texp light_delay =
      inTransit cp ((List.range np).map fun p => ((T p).orbit, r.get [p])) t.toList (texpOf texp) light_delay := by
  refine inTransit_ready (os := fun p => (T p).orbit) h0 (fun t => ttv_ready h0 hK hP hV hT t) ?_ cp ht hr texp htexp light_delay
  rcases hsz with h | h | h
  · intro E hE
    rw [ttvInitV_circ hV h] at hE
    cases hE
  · subst h
    exact contactSizes_single (ttv_ready h0 hK hP hV hT (Tensor.scalar 0)).good
  · exact h

end

/-! ## Where it fails -/

/-- **C75 is false for a shared `omega`**: the eccentricities of at least two planets with one `omega` for all. `KeplerianOrbit` accepts
them and the positions and the light curve without `use_in_transit` are right (C71, `C75_light_curve_partial`), but `in_transit` hands
arrays of different lengths to `contact_points`, so that `get_light_curve` with the default arguments raises. (The compiled operation
is not in the repository; that it needs arrays with equally many entries is part of the model, see `contactArrays`.) -/
theorem C75_shared_omega_counterexample (C : Consts) (cp : ContactOp) (l : LimbDark) (A : VArgs) (np : ℕ) (hnp : 2 ≤ np)
    (hA : A.FitsPlanets np) (O : VOrbit) (hO : keplerianInitV C A = .ok O) (e w : TQ) (he : A.ecc = some e) (hw : A.omega = some w)
    (hes : e.val.shape = [np]) (hws : w.val.shape = [] ∨ w.val.shape = [1]) (r t : Tensor ℝ) (hr : r.size = np)
    (texp : Option (Tensor ℝ)) (oversample order : ℤ) :
    l.getLightCurveV C cp O r t texp oversample order = .error .shapeMismatch := by
  obtain ⟨y, h1, h2, h3⟩ := Tensor.reshape_flat r
  obtain ⟨M, h4, h5⟩ := padAdd_zero (r := y.map (fun _ => 0)) (n := r.size) (by simp [Tensor.map, h2]) t
  obtain ⟨g, -⟩ := keplerianInitV_good (S := [np]) (by simpa using hA.good []) hO
  have hE := keplerianInitV_ecc hO
  unfold eccBlockV at hE
  rw [he, hw] at hE
  simp only at hE
  split at hE
  · cases hE
  simp only [Except.ok.injEq] at hE
  have gr : (Gr.leaf y).Good [np] := Gr.good_leaf (by rw [h2, hr]; exact BLe.refl _)
  have gz := Gr.good_zerosLike g.a
  obtain ⟨Ta, ea, -⟩ := g.a
  obtain ⟨Tc, ec, -⟩ := Gr.good_add g.cos_incl gz
  obtain ⟨Ts, es, -⟩ := Gr.good_add g.sin_incl gz
  obtain ⟨TL, eL, -⟩ := Gr.good_add (Gr.good_add g.r_star gz) (Gr.good_add gr gz)
  have hwin : O.transitWindows cp (.leaf y) = .error .shapeMismatch := by
    unfold VOrbit.transitWindows
    rw [← hE]
    simp only [bind, Except.bind, ea, ec, es, eL]
    simp only [Gr.eval, Gr.cos, Gr.sin]
    unfold contactArrays
    rw [if_neg]
    rintro ⟨k1, k2, -⟩
    have k1' : np = Ta.size := by rw [← k1]; simp [Tensor.size, hes]
    have k2' : 1 = Ta.size := by rw [← k2]; rcases hws with h | h <;> simp [Tensor.size, Tensor.map, h]
    omega
  unfold LimbDark.getLightCurveV lightCurveWith
  simp only [Option.getD_none, Bool.not_false, if_true, bind, Except.bind, h1, h4]
  unfold VOrbit.inTransit
  simp only [Bool.false_eq_true, if_false, bind, Except.bind, hwin]

/-- The same with `cos_omega` shared (whatever `sin_omega`). -/
theorem C75_shared_cos_counterexample (C : Consts) (cp : ContactOp) (l : LimbDark) (A : VArgs) (np : ℕ) (hnp : 2 ≤ np)
    (hA : A.FitsPlanets np) (O : VOrbit) (hO : keplerianInitV C A = .ok O) (e w v : TQ) (he : A.ecc = some e) (hom : A.omega = none)
    (hw : A.cos_omega = some w) (hv : A.sin_omega = some v)
    (hes : e.val.shape = [np]) (hws : w.val.shape = [] ∨ w.val.shape = [1]) (r t : Tensor ℝ) (hr : r.size = np)
    (texp : Option (Tensor ℝ)) (oversample order : ℤ) :
    l.getLightCurveV C cp O r t texp oversample order = .error .shapeMismatch := by
  obtain ⟨y, h1, h2, h3⟩ := Tensor.reshape_flat r
  obtain ⟨M, h4, h5⟩ := padAdd_zero (r := y.map (fun _ => 0)) (n := r.size) (by simp [Tensor.map, h2]) t
  obtain ⟨g, -⟩ := keplerianInitV_good (S := [np]) (by simpa using hA.good []) hO
  have hE := keplerianInitV_ecc hO
  unfold eccBlockV at hE
  rw [he, hom, hw, hv] at hE
  simp only [Except.ok.injEq] at hE
  have gr : (Gr.leaf y).Good [np] := Gr.good_leaf (by rw [h2, hr]; exact BLe.refl _)
  have gz := Gr.good_zerosLike g.a
  obtain ⟨Ta, ea, -⟩ := g.a
  obtain ⟨Tc, ec, -⟩ := Gr.good_add g.cos_incl gz
  obtain ⟨Ts, es, -⟩ := Gr.good_add g.sin_incl gz
  obtain ⟨TL, eL, -⟩ := Gr.good_add (Gr.good_add g.r_star gz) (Gr.good_add gr gz)
  have hwin : O.transitWindows cp (.leaf y) = .error .shapeMismatch := by
    unfold VOrbit.transitWindows
    rw [← hE]
    simp only [bind, Except.bind, ea, ec, es, eL]
    simp only [Gr.eval]
    unfold contactArrays
    rw [if_neg]
    rintro ⟨k1, k2, -⟩
    have k1' : np = Ta.size := by rw [← k1]; simp [Tensor.size, hes]
    have k2' : 1 = Ta.size := by rw [← k2]; rcases hws with h | h <;> simp [Tensor.size, h]
    omega
  unfold LimbDark.getLightCurveV lightCurveWith
  simp only [Option.getD_none, Bool.not_false, if_true, bind, Except.bind, h1, h4]
  unfold VOrbit.inTransit
  simp only [Bool.false_eq_true, if_false, bind, Except.bind, hwin]

/-- `demoSystem` is such a system. -/
example (C : Consts) (cp : ContactOp) (l : LimbDark) (t : Tensor ℝ) : ∃ O, keplerianInitV C demoSystem = .ok O ∧
    l.getLightCurveV C cp O (.ofList [1 / 10, 1 / 20] 0) t = .error .shapeMismatch := by
  refine ⟨_, rfl, C75_shared_omega_counterexample C cp l demoSystem 2 le_rfl ?_ _ rfl _ _ rfl rfl rfl (Or.inl rfl) _ t rfl none 7 0⟩
  intro x hx q hq
  subst hq
  simp [demoSystem] at hx
  rcases hx with rfl | rfl | rfl | rfl | rfl | rfl <;> simp [Tensor.FitsPlanets, Tensor.ofList, Tensor.scalar]

/-- Two planets on circular orbits with the same period and the same distance from the star. -/
noncomputable def demoTrojans : VArgs :=
  { period := some ⟨.scalar 8, none⟩, a := some ⟨.scalar 10, none⟩, b := some ⟨.ofList [0, 0] 0, none⟩ }

theorem demoTrojans_fits : demoTrojans.FitsPlanets 2 := by
  intro x hx q hq
  subst hq
  simp [demoTrojans] at hx
  rcases hx with rfl | rfl | rfl | rfl <;> simp [Tensor.FitsPlanets, Tensor.ofList, Tensor.scalar]

theorem demoTrojan_position (C : Consts) : ∃ o, keplerianInit C { period := some (8 : ℝ), a := some (10 : ℝ), b := some (0 : ℝ) } = .ok o ∧
    o.r_star = 1 ∧ ∀ t, o.relativePosition C t = ⟨10 * sin (π / 4 * t), 0, 10 * cos (π / 4 * t)⟩ := by
  refine ⟨_, rfl, rfl, fun t => ?_⟩
  have hpi := pi_ne_zero
  have hM : (t + 1 / 2 * π / (2 * π / 8)) * (2 * π / 8) = π / 4 * t + π / 2 := by field_simp; ring
  simp only [Orbit.relativePosition, Orbit.position, Orbit.positionNow, Orbit.rotate, Orbit.radius, Orbit.trueAnomaly, 
    inclFactorOf, M0Of]
  norm_num
  rw [hM, cos_add_pi_div_two, sin_add_pi_div_two]
  constructor <;> ring

/-- The same with a scalar `b`: one planet. -/
noncomputable def demoTrojan : VArgs :=
  { period := some ⟨.scalar 8, none⟩, a := some ⟨.scalar 10, none⟩, b := some ⟨.scalar 0, none⟩ }

theorem demoTrojan_fits : demoTrojan.FitsPlanets 1 := by
  intro x hx q hq
  subst hq
  simp [demoTrojan] at hx
  rcases hx with rfl | rfl | rfl | rfl <;> simp [Tensor.FitsPlanets, Tensor.scalar]

theorem demoTrojans_ofPlanet (p : ℕ) (hp : p < 2) :
    demoTrojans.ofPlanet p = { period := some (8 : ℝ), a := some (10 : ℝ), b := some (0 : ℝ) } := by
  have h : ∀ x : ℝ, some (⟨x, none⟩ : Q) = some (x : Q) := fun _ => rfl
  interval_cases p <;> simp [demoTrojans, VArgs.ofPlanet, TQ.ofPlanet, Tensor.ofPlanet, Tensor.ofList, Tensor.scalar]

theorem demoTrojan_ofPlanet (p : ℕ) :
    demoTrojan.ofPlanet p = { period := some (8 : ℝ), a := some (10 : ℝ), b := some (0 : ℝ) } := by
  simp [demoTrojan, VArgs.ofPlanet, TQ.ofPlanet, Tensor.ofPlanet, Tensor.scalar]

theorem demoTrojans_graphs (C : Consts) : ∃ O, keplerianInitV C demoTrojans = .ok O ∧ O.r_star = 1 ∧
    ∀ (N : ℕ) (t : Tensor ℝ), t.shape = [N] → N ≠ 1 → ∃ X Y Z,
    (O.relativePosition C (.leaf t) none false).x.eval = .ok X ∧ (O.relativePosition C (.leaf t) none false).y.eval = .ok Y ∧
    (O.relativePosition C (.leaf t) none false).z.eval = .ok Z ∧ X.shape = [N] ∧ Y.shape = [N, 2] ∧ Z.shape = [N, 2] ∧
    (∀ i < N, X.get [i] = 10 * sin (π / 4 * t.get [i])) ∧
    ∀ i p, i < N → p < 2 → Y.get [i, p] = 0 ∧ Z.get [i, p] = 10 * cos (π / 4 * t.get [i]) := by
  obtain ⟨o, ho, -, hpos⟩ := demoTrojan_position C
  obtain ⟨O', hO'⟩ : ∃ O', keplerianInitV C demoTrojan = .ok O' := ⟨_, rfl⟩
  obtain ⟨O, hO, hR, hX, hy, hz, hc, hs⟩ : ∃ O, keplerianInitV C demoTrojans = .ok O ∧ O.r_star = 1 ∧
      (∀ t, (O.relativePosition C t none false).x = (O'.relativePosition C t none false).x) ∧
      (∀ t, (O.position C (-O.a) t none false).y = O.cos_incl * (O.radius (-O.a) (O.trueAnomaly t).2 * (O.trueAnomaly t).1)) ∧
      (∀ t, (O.position C (-O.a) t none false).z = -O.sin_incl * (O.radius (-O.a) (O.trueAnomaly t).2 * (O.trueAnomaly t).1)) ∧
      O.cos_incl = O.dcosidb * .leaf (.ofList [0, 0] 0) ∧ O.sin_incl = O.cos_incl.arccos.sin := by
    cases hO'
    exact ⟨_, rfl, rfl, fun _ => rfl, fun _ => rfl, fun _ => rfl, rfl, rfl⟩
  refine ⟨O, hO, hR, fun N t ht hN => ?_⟩
  have h1 := system_ready (os := fun _ => o) demoTrojan_fits hO' (fun p _ => by rw [demoTrojan_ofPlanet]; exact ho) t
  have h2 := system_ready (os := fun _ => o) demoTrojans_fits hO (fun p hp => by rw [demoTrojans_ofPlanet p hp]; exact ho) t
  have g := h2.good
  have gt := time_good t 2
  obtain ⟨-, -, ⟨X, mx, eX, hmx, tX⟩, -, -⟩ := h1.positions C none false (by simp)
  have e1 : mx = 1 := by rcases hmx with h | h; exacts [h, h.1]
  subst e1
  rw [ht] at tX
  have ov := VOrbit.position_over g C (Gr.good_neg g.a) gt h2.shift none false (by simp)
  have hq : (Gr.leaf (.ofList [0, 0] 0)).Le O.cos_incl := by
    rw [hc]
    exact Gr.le_zip_right (S := t.shape ++ [2]) _ g.dcosidb (Gr.good_leaf (ble_append t.shape (BLe.refl [2])))
  have hq' : (Gr.leaf (.ofList [0, 0] 0)).Le (-O.sin_incl) := by
    rw [hs]
    exact ((hq.trans (Gr.le_map _ g.cos_incl)).trans (Gr.le_map _ (Gr.good_map _ g.cos_incl))).trans
      (Gr.le_map _ (Gr.good_map _ (Gr.good_map _ g.cos_incl)))
  obtain ⟨f1, f2⟩ := VOrbit.trueAnomaly_over (pad := true) g gt h2.shift
  have gy : (O.radius (-O.a) (O.trueAnomaly (.leaf t)).2 * (O.trueAnomaly (.leaf t)).1).Good (t.shape ++ [2]) :=
    Gr.good_mul (VOrbit.radius_good g (Gr.good_neg g.a) f2.good) f1.good
  have hv : ∀ i p, InShape i t.shape → p < 2 → (O.position C (-O.a) (.leaf t) none false).at (i ++ [p]) = o.relativePosition C (t.get i) := by
    intro i p hi hp
    have := VOrbit.position_at (o := O) (idx := i ++ [p]) C (-O.a) (.leaf t) none false (by simp)
    simp only [Option.map_none] at this
    rw [this, time_val hi, ← h2.at_eq i p hp]
    rfl
  have key : ∀ {w : Gr} {c : Gr} {f : List ℕ → ℕ → ℝ}, w = c * (O.radius (-O.a) (O.trueAnomaly (.leaf t)).2 * (O.trueAnomaly (.leaf t)).1) →
      c.Good (t.shape ++ [2]) → (Gr.leaf (.ofList [0, 0] 0)).Le c → (Gr.leaf t).padright.Le w →
      (∀ i p, InShape i t.shape → p < 2 → w.val (i ++ [p]) = f i p) →
      ∃ W, w.squeeze.eval = .ok W ∧ W.shape = [N, 2] ∧ ∀ i p, i < N → p < 2 → W.get [i, p] = f [i] p := by
    intro w c f hw gc hl hp hf
    have := shows_squeeze (full := True) (n := c) (np := 2) (t := t) (g := w) ⟨by rw [hw]; exact Gr.good_mul gc gy, fun k hk => by
      rcases List.mem_cons.1 hk with rfl | hk
      · exact hp
      · rw [List.mem_singleton] at hk
        rw [hk, hw]
        exact Gr.le_zip_left _ gc gy⟩ (fun _ => ⟨_, rfl, hl⟩) hf
    rw [ht] at this
    exact C71_rows_and_columns hN (by norm_num) trivial this
  obtain ⟨Y, eY, sY, vY⟩ := key (hy (.leaf t)) g.cos_incl hq (ov.2.1.2 _ List.mem_cons_self)
    (fun i p hi hp => congrArg V3.y (hv i p hi hp))
  obtain ⟨Z, eZ, sZ, vZ⟩ := key (hz (.leaf t)) (Gr.good_neg g.sin_incl) hq' (ov.2.2.2 _ List.mem_cons_self)
    (fun i p hi hp => congrArg V3.z (hv i p hi hp))
  refine ⟨X, Y, Z, by rw [hX]; exact eX, eY, eZ, ?_, sY, sZ, fun i hi => ?_, fun i p hi hp => ⟨?_, ?_⟩⟩
  · rw [tX.1]; simp [squeezeShape, hN]
  · have := tX.2 [i] 0 (inShape_singleton.2 hi) (by norm_num)
    simp [dropUnit, hN] at this
    rw [this, hpos]
  · rw [vY i p hi hp, hpos]
  · rw [vZ i p hi hp, hpos]

/-- **C75 is false for a shared `period`**: two planets with the same period and semimajor axis and their own `b` (or `incl`).
`get_relative_position` returns `x` with one axis (times) and `y`, `z` with two axes (times, planets). Unless there are one or two times,
`get_light_curve` raises. With two times the axis of the times in `x` is taken for the axis of the planets in `y`: at time
`t[0] = 1`, an eighth of the period after the transit, the second planet is shown to cover a hundredth of the star. -/
theorem C75_shared_period_counterexample (C : Consts) (cp : ContactOp) : ∃ O, keplerianInitV C demoTrojans = .ok O ∧
    (∀ (l : LimbDark) (r t : Tensor ℝ) (N : ℕ), t.shape = [N] → N ≠ 1 → N ≠ 2 → r.size = 2 →
      l.getLightCurveV C cp O r t none 7 0 (some false) = .error .shapeMismatch) ∧
    ∃ L, (LimbDark.new 0 0).getLightCurveV C cp O (.ofList [1 / 10, 1 / 10] 0) (.ofList [1, 0] 0) none 7 0 (some false) = .ok L ∧
      L.shape = [2, 2] ∧ L.get [0, 1] = -(1 / 100) ∧
      ∃ o, keplerianInit C (demoTrojans.ofPlanet 1) = .ok o ∧
        fluxAt (LimbDark.new 0 0).c o.r_star (1 / 10) (o.relativePosition C 1) = 0 := by
  obtain ⟨O, hO, hR, hg⟩ := demoTrojans_graphs C
  refine ⟨O, hO, ?_, ?_⟩
  · intro l r t N ht hN hN2 hr
    obtain ⟨y, h1, h2, h3⟩ := Tensor.reshape_flat r
    obtain ⟨G, h4, h5⟩ := padAdd_zero h2 t
    obtain ⟨X, Y, Z, eX, eY, eZ, sX, sY, sZ, -⟩ := hg N t ht hN
    unfold LimbDark.getLightCurveV lightCurveWith
    simp only [Option.getD_some, Bool.false_eq_true, if_false, bind, Except.bind, h1, integratedWith, h4]
    unfold LimbDark.lightCurveAtV LimbDark.lightCurveAtG
    simp only [bind, Except.bind, eX, eY, eZ]
    have : X.zipB (fun x y => √(x ^ 2 + y ^ 2)) Y = .error .shapeMismatch := by
      unfold Tensor.zipB
      rw [sX, sY]
      simp [bcastShape, bcastRev, bcastDim, hN, hN2]
    rw [this]
  · obtain ⟨X, Y, Z, eX, eY, eZ, sX, sY, sZ, vX, vYZ⟩ := hg 2 (.ofList [1, 0] 0) rfl (by norm_num)
    obtain ⟨o, ho, hr, hpos⟩ := demoTrojan_position C
    obtain ⟨y, h1, h2, h3⟩ := Tensor.reshape_flat (.ofList [1 / 10, 1 / 10] (0 : ℝ))
    obtain ⟨G, h4, sG, vG⟩ := padAdd_spec (n := 2) (by rw [h2]; rfl) (.ofList [1, 0] (0 : ℝ))
    have sG' : G.shape = [2, 2] := by rw [sG]; rfl
    have i01 : InShape [0, 1] [2, 2] := by simp [InShape]
    have eR : O.r_star.eval = .ok (.scalar 1) := by rw [hR]; show Except.ok (Tensor.scalar ((1 : ℕ) : ℝ)) = _; rw [Nat.cast_one]
    have hG : G.get [0, 1] = 1 / 10 := by
      have := vG [0] 1 (inShape_singleton.2 (by norm_num)) (by norm_num)
      rw [h3] at this
      simpa [Tensor.ofList, Tensor.unravel] using this
    have bX : X.bget [0, 1] = 0 := by
      refine (Tensor.bget_row sX [0] (by norm_num : 1 < 2)).trans ?_
      rw [vX 1 (by norm_num)]
      simp [Tensor.ofList]
    have bY : Y.bget [0, 1] = 0 := by
      rw [Tensor.bget_self (by rw [sY]; exact i01), (vYZ 0 1 (by norm_num) (by norm_num)).1]
    have bZ : Z.get [0, 1] = 10 * cos (π / 4) := by
      rw [(vYZ 0 1 (by norm_num) (by norm_num)).2]; simp [Tensor.ofList]
    have hc : 0 < cos (π / 4) := by rw [cos_pi_div_four]; positivity
    have bself : ∀ f : List ℕ → ℝ, (⟨[2, 2], f⟩ : Tensor ℝ).bget [0, 1] = f [0, 1] := fun _ => Tensor.bget_self i01
    have bs : bcastShape [2, 2] [] = .ok [2, 2] := bcastShape_of_ble_right (BLe.nil _)
    obtain ⟨L, hL, sL, vL⟩ : ∃ L, (LimbDark.new 0 0).getLightCurveV C cp O (.ofList [1 / 10, 1 / 10] 0) (.ofList [1, 0] 0) none 7 0
        (some false) = .ok L ∧ L.shape = [2, 2] ∧
        L.get [0, 1] = computeLightCurve (LimbDark.new 0 0).c (√(X.bget [0, 1] ^ 2 + Y.bget [0, 1] ^ 2) / 1) (G.get [0, 1] / 1)
          (some (Z.get [0, 1] / 1)) := by
      unfold LimbDark.getLightCurveV lightCurveWith
      simp only [Option.getD_some, Bool.false_eq_true, if_false, bind, Except.bind, h1, integratedWith, h4]
      unfold LimbDark.lightCurveAtV LimbDark.lightCurveAtG
      simp only [bind, Except.bind, eX, eY, eZ]
      rw [Tensor.zipB_ok (s := [2, 2]) (by rw [sX, sY]; exact bcastShape_of_ble (ble_append [2] (BLe.refl [2])))]
      simp only [sG', Tensor.reshape, sZ, eR, if_true]
      rw [Tensor.zipB_ok (s := [2, 2]) bs, Tensor.zipB_ok (s := [2, 2]) (by rw [sG']; exact bs), Tensor.zipB_ok (s := [2, 2]) bs]
      simp only [and_self, if_true]
      refine ⟨_, rfl, rfl, ?_⟩
      simp only
      rw [Tensor.bget_self (x := G) (by rw [sG']; exact i01), Tensor.bget_scalar (x := Tensor.scalar (1 : ℝ)) rfl, bself, bself]
      simp only [show Tensor.unravel [2, 2] (Tensor.ravel [2, 2] [0, 1]) = [0, 1] by decide]
      rfl
    refine ⟨L, hL, sL, ?_, o, by rw [demoTrojans_ofPlanet 1 (by norm_num)]; exact ho, ?_⟩
    · rw [vL, bX, bY, hG, bZ]
      have := C37_uniform 0 (1 / 10) (10 * cos (π / 4)) (by norm_num) (by norm_num) (by positivity)
      simp only [div_one]
      rw [show √((0 : ℝ) ^ 2 + 0 ^ 2) = 0 by norm_num]
      refine this.trans (by norm_num)
    · refine fluxAt_zero (u1 := 0) (u2 := 0) ?_ (by rw [hr]; norm_num) ?_
      · rw [C36_disc_integral]
        have := pi_pos
        norm_num
      · rintro ⟨-, h⟩
        rw [hpos, hr] at h
        simp only [mul_one, sin_pi_div_four] at h
        have h0 : √((10 * (√2 / 2)) ^ 2 + 0 ^ 2) = √50 := by
          congr 1
          rw [mul_pow, div_pow, sq_sqrt (by norm_num)]
          norm_num
        rw [h0] at h
        have : (7 : ℝ) < √50 := by rw [lt_sqrt (by norm_num)]; norm_num
        linarith

/-! ## The hypotheses are met -/

/-- Two planets on circular orbits seen edge-on, with their own periods and distances. -/
noncomputable def demoPair : VArgs := { period := some ⟨.ofList [1, 2] 0, none⟩, a := some ⟨.ofList [10, 20] 0, none⟩ }

/-- Two planets on eccentric orbits, the angle of periastron of each given. -/
noncomputable def demoEccPair : VArgs :=
  { period := some ⟨.ofList [1, 2] 0, none⟩, ecc := some ⟨.ofList [1 / 10, 1 / 5] 0, none⟩,
    omega := some ⟨.ofList [1 / 2, 1] 0, none⟩, b := some ⟨.scalar (1 / 4), none⟩ }

example : demoPair.FitsPlanets 2 ∧ demoPair.PerPlanet 2 ∧ demoPair.ecc = none := by
  refine ⟨?_, ⟨_, Or.inl rfl, rfl⟩, rfl⟩
  intro x hx q hq
  subst hq
  simp [demoPair] at hx
  rcases hx with rfl | rfl | rfl <;> simp [Tensor.FitsPlanets, Tensor.ofList, Tensor.scalar]

example : demoEccPair.FitsPlanets 2 ∧ demoEccPair.PerPlanet 2 ∧ demoEccPair.ContactPerPlanet 2 := by
  refine ⟨?_, ⟨_, Or.inl rfl, rfl⟩, ⟨?_, ?_, ?_, ?_, Or.inr ⟨rfl, _, rfl, rfl⟩⟩⟩
  · intro x hx q hq
    subst hq
    simp [demoEccPair] at hx
    rcases hx with rfl | rfl | rfl | rfl | rfl <;> simp [Tensor.FitsPlanets, Tensor.ofList, Tensor.scalar]
  all_goals intro q h; cases h
  all_goals rfl

theorem demoPair_planet (C : Consts) (cp : ContactOp) (P a : ℝ) (hP : 0 < P) (ha : 10 ≤ a) :
    ∃ o, keplerianInit C { period := some P, a := some a } = .ok o ∧ Tractable C cp o (1 / 10) (1 / 50) := by
  have hG := C.G_pos
  have hg := C.gccPerSun_pos
  have hpi := pi_pos
  have ha0 : 0 < a := by linarith
  obtain ⟨o, ho, hphys, hecc, hoa, hos, hor⟩ : ∃ o, keplerianInit C { period := some P, a := some a } = .ok o ∧ o.Physical ∧
      o.ecc = none ∧ o.a = a ∧ o.sin_incl = 1 ∧ o.r_star = 1 := by
    refine ⟨_, rfl, ⟨?_, ?_, ?_, ?_, ?_, ?_, ?_, ?_, ?_, ?_⟩, ?_, ?_, ?_, ?_⟩ <;>
      simp [inclFactorOf] <;> try positivity
    rw [show (0.5 : ℝ) * π = π / 2 by ring]
    exact sin_pi_div_two
  refine ⟨o, ho, ⟨_, ho⟩, hphys, by norm_num, ?_⟩
  rw [hecc]
  refine ⟨by rw [hos]; norm_num, ?_⟩
  rw [hor, hoa]
  linarith

/-- Each planet of `demoPair` can be built, and is `Tractable` with radius `0.1` and an exposure time of `0.02`. -/
example (C : Consts) (cp : ContactOp) : (∃ O, keplerianInitV C demoPair = .ok O) ∧ ∃ os : ℕ → Orbit, ∀ p < 2,
    keplerianInit C (demoPair.ofPlanet p) = .ok (os p) ∧
    Tractable C cp (os p) ((Tensor.ofList [1 / 10, 1 / 10] (0 : ℝ)).get (Tensor.unravel [2] p)) (1 / 50) := by
  refine ⟨⟨_, rfl⟩, ?_⟩
  obtain ⟨o₀, h0, t0⟩ := demoPair_planet C cp 1 10 (by norm_num) (by norm_num)
  obtain ⟨o₁, h1, t1⟩ := demoPair_planet C cp 2 20 (by norm_num) (by norm_num)
  refine ⟨fun p => if p = 0 then o₀ else o₁, fun p hp => ?_⟩
  interval_cases p
  · refine ⟨?_, ?_⟩
    · simpa [demoPair, VArgs.ofPlanet, TQ.ofPlanet, Tensor.ofPlanet, Tensor.ofList, Tensor.scalar] using h0
    · simpa [Tensor.ofList, Tensor.unravel] using t0
  · refine ⟨?_, ?_⟩
    · simpa [demoPair, VArgs.ofPlanet, TQ.ofPlanet, Tensor.ofPlanet, Tensor.ofList, Tensor.scalar] using h1
    · simpa [Tensor.ofList, Tensor.unravel] using t1

end Exo
