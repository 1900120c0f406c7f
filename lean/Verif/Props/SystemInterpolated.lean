import Verif.Model.SystemInterpolated
import Verif.Props.Interpolated
import Verif.Props.SystemLightCurve

/-!
# C82: interpolated light curves of systems of planets
-/

namespace Exo
open Real

theorem Tensor.entry_ok {x : Tensor ℝ} {n i : ℕ} (h : x.shape = [n]) (hi : i < n) : x.entry i = .ok (x.get [i]) := by
  unfold Tensor.entry
  rw [h]
  simp [hi]

theorem Tensor.entry_large {x : Tensor ℝ} {n i : ℕ} (h : x.shape = [n]) (hi : n ≤ i) : x.entry i = .error .indexError := by
  unfold Tensor.entry
  rw [h]
  simp [hi]

theorem Tensor.entry_scalar {x : Tensor ℝ} (h : x.shape = []) (i : ℕ) : x.entry i = .error .indexError := by
  unfold Tensor.entry
  rw [h]

/-- The first `m` of `k` planets, `m ≥ 2`. -/
theorem interpolatedT_several {func : List ℝ → Except PyErr (Tensor ℝ)} {k : ℕ} {f : ℕ → ℝ → ℝ} (hf : Pointwise func k f)
    {t0 P : Tensor ℝ} {n0 n1 : ℕ} (h0 : t0.shape = [n0]) (h1 : P.shape = [n1]) {m : ℕ} (hm : 2 ≤ m) (hk : m ≤ k) (hm0 : m ≤ n0)
    (hm1 : m ≤ n1) (hP : ∀ p < m, 0 < P.get [p]) (num_phase : ℕ) {num_planets : Option ℤ} {test_value : Option ℕ}
    (hnp : numPlanets num_planets test_value = .ok m) (ts : List ℝ) :
    ∃ L, interpolatedLightCurveT num_phase num_planets test_value t0 P func ts = .ok L ∧ L.shape = [ts.length, m] ∧
      ∀ i p (h : i < ts.length), p < m →
        L.get [i, p] = interpolant (f p) (t0.get [p]) (P.get [p]) (P.get [p] / ((num_phase + 1 : ℕ) : ℝ)) ts[i] := by
  unfold interpolatedLightCurveT
  rw [hnp]
  simp only
  rw [if_neg (by omega), Int.toNat_natCast]
  rw [mapM_ok (fun p => ts.map (interpolant (f p) (t0.get [p]) (P.get [p]) (P.get [p] / ((num_phase + 1 : ℕ) : ℝ)))) _ _
    (fun n hn => ?_)]
  · refine ⟨_, rfl, rfl, fun i p hi hp => ?_⟩
    simp [hi, hp]
  · rw [List.mem_range] at hn
    unfold planetColumnT
    rw [Tensor.entry_ok h0 (by omega), Tensor.entry_ok h1 (by omega)]
    exact interpColumn_eq hf (by omega) num_phase (hP n hn) ts

theorem mapM_fails {α β : Type} {f : α → Except PyErr β} {e : PyErr} : ∀ {l : List α} {x : α}, x ∈ l → f x = .error e →
    ∃ e', l.mapM f = .error e'
  | a :: l, x, hx, h => by
    rw [List.mapM_cons]
    cases ha : f a with
    | error e' => exact ⟨e', rfl⟩
    | ok b =>
      rcases List.mem_cons.1 hx with rfl | hx
      · rw [h] at ha; cases ha
      · obtain ⟨e', he⟩ := mapM_fails hx h
        exact ⟨e', by rw [he]; rfl⟩

section
variable {C : Consts} {A : VArgs} {np : ℕ} {O : VOrbit} {os : ℕ → Orbit}

/-- `t0` and `period` of a system, entry by entry. -/
theorem evalTimes_planets (hA : A.FitsPlanets np) (hP : A.PerPlanet np) (ht : ∀ q, A.t0 = some q → q.val.shape = [np])
    (hO : keplerianInitV C A = .ok O) (hos : ∀ p < np, keplerianInit C (A.ofPlanet p) = .ok (os p)) :
    ∃ t0 P, evalTimes O = .ok (t0, P) ∧ t0.shape = [np] ∧ P.shape = [np] ∧
      ∀ p < np, t0.get [p] = (os p).t0 ∧ P.get [p] = (os p).period := by
  obtain ⟨t0, P, h1, h2, h3, h4⟩ := evalTimes_ok hA hO hP ht
  refine ⟨t0, P, h1, h2, h3, fun p hp => ?_⟩
  have e : keplerianInit C (A.ofPlanet p) = .ok (O.at [p]) := by
    rw [← hA.at_eq [] hp, keplerianInit_at, hO]
    rfl
  rw [hos p hp] at e
  rw [Except.ok.inj e]
  exact h4 p hp

theorem pointwise_system (l : LimbDark) (cp : ContactOp) (hA : A.FitsPlanets np) (hP : A.PerPlanet np ∨ np = 1)
    (hO : keplerianInitV C A = .ok O) (hos : ∀ p < np, keplerianInit C (A.ofPlanet p) = .ok (os p)) (ld : Bool) (r : Tensor ℝ)
    (hr : r.size = np) (oversample order : ℤ) :
    Pointwise (fun xs => l.getLightCurveV C cp O r (Tensor.ofList xs 0) none oversample order (some false) ld) np
      (fun p s => fluxAt l.c (os p).r_star (r.get (Tensor.unravel r.shape p)) ((os p).relativePosition C s none ld)) := by
  intro xs
  obtain ⟨L, h1, h2, h3⟩ := C75_light_curve_partial l cp hA hP hO hos ld r (Tensor.ofList xs 0) hr oversample order
  refine ⟨L, h1, h2, fun i p hi hp => ?_⟩
  have := h3 [i] p (inShape_singleton.2 hi) hp
  simpa [Tensor.ofList, hi] using this

/-- **C82** (several planets): with vectors `t0` and `period`, column `p` is the cubic interpolant of the light curve of planet `p` alone,
folded with the period and reference transit of that planet. With a smaller `num_planets = m` (at least 2) the result has the first
`m` columns only: the other planets are missing without any warning. -/
theorem C82_system_partial (l : LimbDark) (cp : ContactOp) (hA : A.FitsPlanets np) (hP : A.PerPlanet np)
    (ht : ∀ q, A.t0 = some q → q.val.shape = [np]) (hO : keplerianInitV C A = .ok O)
    (hos : ∀ p < np, keplerianInit C (A.ofPlanet p) = .ok (os p)) (hpos : ∀ p < np, 0 < (os p).period) (ld : Bool) (r : Tensor ℝ)
    (hr : r.size = np) (oversample order : ℤ) (num_phase m : ℕ) (hm : 2 ≤ m) (hmn : m ≤ np) (num_planets : Option ℤ)
    (test_value : Option ℕ) (hnp : numPlanets num_planets test_value = .ok m) :
    ∃ F : ℕ → ℝ → ℝ,
      (∀ ts : List ℝ, ∃ L, interpolatedV l C cp num_phase num_planets test_value O r ts none oversample order (some false) ld = .ok L ∧
        L.shape = [ts.length, m] ∧ ∀ i p (h : i < ts.length), p < m → L.get [i, p] = F p ts[i]) ∧
      ∀ p < m, FoldedInterpolant (F p)
        (fun s => fluxAt l.c (os p).r_star (r.get (Tensor.unravel r.shape p)) ((os p).relativePosition C s none ld))
        (os p).t0 (os p).period (num_phase + 1) := by
  obtain ⟨t0, P, h1, h2, h3, h4⟩ := evalTimes_planets hA hP ht hO hos
  have hf := pointwise_system l cp hA (Or.inl hP) hO hos ld r hr oversample order
  refine ⟨_, fun ts => ?_, fun p hp => interpolant_folded _ _ _ _ (Nat.succ_pos _) (hpos p (by omega))⟩
  unfold interpolatedV
  rw [h1]
  obtain ⟨L, g1, g2, g3⟩ := interpolatedT_several hf h2 h3 hm hmn hmn hmn (fun p hp => by rw [(h4 p (by omega)).2]; exact hpos p (by omega))
    num_phase hnp ts
  refine ⟨L, g1, g2, fun i p hi hp => ?_⟩
  rw [g3 i p hi hp, (h4 p (by omega)).1, (h4 p (by omega)).2]

/-- **C82** (one planet, scalar `t0` and `period`). -/
theorem C82_single (l : LimbDark) (cp : ContactOp) (hA : A.FitsPlanets 1) (hO : keplerianInitV C A = .ok O) (o : Orbit)
    (ho : keplerianInit C (A.ofPlanet 0) = .ok o) (t0 P : Tensor ℝ) (he : evalTimes O = .ok (t0, P)) (h0 : t0.shape = [])
    (h1 : P.shape = []) (hpos : 0 < o.period) (ld : Bool) (r : Tensor ℝ) (hr : r.size = 1) (oversample order : ℤ) (num_phase : ℕ)
    (num_planets : Option ℤ) (test_value : Option ℕ) (hnp : numPlanets num_planets test_value = .ok 1) :
    ∃ F : ℝ → ℝ,
      (∀ ts : List ℝ, ∃ L, interpolatedV l C cp num_phase num_planets test_value O r ts none oversample order (some false) ld = .ok L ∧
        L.shape = [ts.length, 1] ∧ ∀ i (h : i < ts.length), L.get [i, 0] = F ts[i]) ∧
      FoldedInterpolant F
        (fun s => fluxAt l.c o.r_star (r.get (Tensor.unravel r.shape 0)) (o.relativePosition C s none ld)) o.t0 o.period (num_phase + 1) := by
  have hos : ∀ p < 1, keplerianInit C (A.ofPlanet p) = .ok ((fun _ => o) p) := by
    intro p hp
    obtain rfl : p = 0 := by omega
    exact ho
  have hf := pointwise_system l cp hA (Or.inr rfl) hO hos ld r hr oversample order
  obtain ⟨os', hos', hS⟩ := C71_attributes C A hA O hO
  have e0 : os' 0 = o := by
    have := hos' 0 one_pos
    rw [ho] at this
    exact (Except.ok.inj this).symm
  have ev : O.t0.eval = .ok t0 ∧ O.period.eval = .ok P := by
    unfold evalTimes at he
    split at he
    · cases he
    · rename_i x hx
      split at he
      · cases he
      · rename_i y hy
        simp only [Except.ok.injEq, Prod.mk.injEq] at he
        exact ⟨by rw [hx, he.1], by rw [hy, he.2]⟩
  have v0 : t0.get [] = o.t0 := by
    obtain ⟨T, hT, -, hv⟩ := hS.t0
    rw [ev.1] at hT
    cases hT
    have := hv 0 one_pos
    simp only [e0] at this
    rw [← this, Tensor.ofPlanet, h0]
  have v1 : P.get [] = o.period := by
    obtain ⟨T, hT, -, hv⟩ := hS.period
    rw [ev.2] at hT
    cases hT
    have := hv 0 one_pos
    simp only [e0] at this
    rw [← this, Tensor.ofPlanet, h1]
  refine ⟨_, fun ts => ?_, interpolant_folded _ _ _ _ (Nat.succ_pos _) hpos⟩
  unfold interpolatedV interpolatedLightCurveT
  rw [he, hnp]
  simp only
  rw [if_pos le_rfl, if_pos ⟨h0, h1⟩, v0, v1, interpColumn_eq hf one_pos num_phase hpos ts]
  refine ⟨_, rfl, rfl, fun i hi => ?_⟩
  simp [hi]

/-- **C82 is false for vectors of length one**: if `t0` or `period` of the orbit is not a scalar and `num_planets` is 1 (given, or found
from the length of the period), `get_light_curve` fails for all arguments. -/
theorem C82_one_planet_vector (l : LimbDark) (C : Consts) (cp : ContactOp) (O : VOrbit) (t0 P : Tensor ℝ)
    (he : evalTimes O = .ok (t0, P)) (hs : t0.shape ≠ [] ∨ P.shape ≠ []) (num_phase np : ℤ) (h1 : np ≤ 1) (num_planets : Option ℤ)
    (test_value : Option ℕ) (hnp : numPlanets num_planets test_value = .ok np) (r : Tensor ℝ) (ts : List ℝ) (texp : Option (Tensor ℝ))
    (oversample order : ℤ) (uit : Option Bool) (ld : Bool) :
    ∃ e, interpolatedV l C cp num_phase num_planets test_value O r ts texp oversample order uit ld = .error e := by
  unfold interpolatedV interpolatedLightCurveT
  rw [he, hnp]
  simp only
  rw [if_pos h1, if_neg (by tauto)]
  exact ⟨_, rfl⟩

/-- **C82 is false for `TTVOrbit`s of one planet**: a `TTVOrbit` always has vectors. -/
theorem C82_ttv_one_planet (l : LimbDark) (C : Consts) (cp : ContactOp) (K : VTtvArgs) (V : VTtv) (hV : ttvInitV C K = .ok (some V))
    (hne : V.transit_inds ≠ []) (num_phase np : ℤ) (h1 : np ≤ 1) (num_planets : Option ℤ)
    (test_value : Option ℕ) (hnp : numPlanets num_planets test_value = .ok np) (r : Tensor ℝ) (ts : List ℝ) (texp : Option (Tensor ℝ))
    (oversample order : ℤ) (uit : Option Bool) (ld : Bool) :
    ∃ e, interpolatedV l C cp num_phase num_planets test_value V.orbit r ts texp oversample order uit ld = .error e := by
  have key : ∀ {o : VOrbit} {t0 P Q : Tensor ℝ} {inds : List (List ℕ)} {times ttvs : List (List ℝ)}, evalTimes o = .ok (t0, P) →
      (ttvFinishV o t0 P Q inds times ttvs).map some = .ok (some V) → evalTimes V.orbit = .ok (t0, P) ∧ t0.shape ≠ [] := by
    intro o t0 P Q inds times ttvs he h
    unfold ttvFinishV at h
    split at h
    · cases h
    · rename_i tts htts
      split at h
      · cases h
      · simp only [Except.map, Except.ok.injEq, Option.some.injEq] at h
        subst h
        refine ⟨he, fun hsc => ?_⟩
        have hpos : 0 < inds.length := List.length_pos_iff.2 hne
        have hf : allTimesOf t0 P inds times 0 = .error .indexError := by
          unfold allTimesOf
          rw [Tensor.entry_scalar hsc]
        obtain ⟨e', hx⟩ := mapM_fails (f := allTimesOf t0 P inds times) (List.mem_range.2 hpos) hf
        unfold eachPlanet at htts
        rw [hx] at htts
        cases htts
  have hV' := hV
  unfold ttvInitV at hV'
  obtain ⟨t0, P, he, hs⟩ : ∃ t0 P, evalTimes V.orbit = .ok (t0, P) ∧ t0.shape ≠ [] := by
    split at hV'
    · cases hV'
    · simp only at hV'
      split at hV'
      · cases hV'
      · split at hV'
        · cases hV'
        · rename_i he
          split at hV'
          · cases hV'
          · exact ⟨_, _, key he hV'⟩
    · split at hV'
      · cases hV'
      · split at hV'
        · cases hV'
        · split at hV'
          · cases hV'
          · simp only at hV'
            split at hV'
            · cases hV'
            · split at hV'
              · cases hV'
              · split at hV'
                · cases hV'
                · rename_i he
                  exact ⟨_, _, key he hV'⟩
  exact C82_one_planet_vector l C cp _ t0 P he (Or.inl hs) num_phase np h1 num_planets test_value hnp r ts texp oversample order uit ld

/-- **C82 is false for several planets sharing one `t0` or one `period`**, and for `num_planets` larger than the number of planets:
`get_light_curve` fails. -/
theorem C82_shared_scalar (l : LimbDark) (C : Consts) (cp : ContactOp) (O : VOrbit) (t0 P : Tensor ℝ)
    (he : evalTimes O = .ok (t0, P)) (np : ℤ) (h2 : 2 ≤ np)
    (hs : t0.shape = [] ∨ P.shape = [] ∨ (∃ n : ℕ, (t0.shape = [n] ∨ P.shape = [n]) ∧ n < np)) (num_phase : ℤ) (num_planets : Option ℤ)
    (test_value : Option ℕ) (hnp : numPlanets num_planets test_value = .ok np) (r : Tensor ℝ) (ts : List ℝ) (texp : Option (Tensor ℝ))
    (oversample order : ℤ) (uit : Option Bool) (ld : Bool) :
    ∃ e, interpolatedV l C cp num_phase num_planets test_value O r ts texp oversample order uit ld = .error e := by
  unfold interpolatedV interpolatedLightCurveT
  rw [he, hnp]
  simp only
  rw [if_neg (by omega)]
  have bad : ∃ n, n < np.toNat ∧ (t0.entry n = .error .indexError ∨ P.entry n = .error .indexError) := by
    rcases hs with h | h | ⟨n, h | h, hn⟩
    · exact ⟨0, by omega, Or.inl (Tensor.entry_scalar h 0)⟩
    · exact ⟨0, by omega, Or.inr (Tensor.entry_scalar h 0)⟩
    · exact ⟨n, by omega, Or.inl (Tensor.entry_large h le_rfl)⟩
    · exact ⟨n, by omega, Or.inr (Tensor.entry_large h le_rfl)⟩
  obtain ⟨n, hn, hb⟩ := bad
  generalize (fun xs => l.getLightCurveV C cp O r (Tensor.ofList xs 0) texp oversample order uit ld) = func
  obtain ⟨e, hf⟩ : ∃ e, planetColumnT num_phase t0 P func ts n = .error e := by
    unfold planetColumnT
    rcases hb with hb | hb
    · rw [hb]; exact ⟨_, rfl⟩
    · rw [hb]
      cases t0.entry n <;> exact ⟨_, rfl⟩
  obtain ⟨e', hx⟩ := mapM_fails (List.mem_range.2 hn) hf
  rw [hx]
  exact ⟨_, rfl⟩

end

/-! ### Examples and concrete witnesses -/

/-- Hypotheses of `C82_system_partial`: `demoSystem`. -/
example (C : Consts) : ∃ O, ∃ os : ℕ → Orbit, keplerianInitV C demoSystem = .ok O ∧ demoSystem.PerPlanet 2 ∧
    (∀ q, demoSystem.t0 = some q → q.val.shape = [2]) ∧ (∀ p < 2, keplerianInit C (demoSystem.ofPlanet p) = .ok (os p)) ∧
    (os 0).period = 10 ∧ (os 1).period = 20 := by
  have hA : demoSystem.FitsPlanets 2 := by
    intro x hx q hq
    subst hq
    simp [demoSystem] at hx
    rcases hx with rfl | rfl | rfl | rfl | rfl | rfl <;> simp [Tensor.FitsPlanets, Tensor.ofList, Tensor.scalar]
  obtain ⟨O, hO⟩ : ∃ O, keplerianInitV C demoSystem = .ok O := ⟨_, rfl⟩
  obtain ⟨os, hos, -⟩ := C71_attributes C demoSystem hA O hO
  refine ⟨O, os, hO, ⟨_, Or.inl rfl, rfl⟩, ?_, hos, ?_, ?_⟩
  · intro q hq
    simp [demoSystem] at hq
    try (subst hq; rfl)
  · have := (built_of_init (hos 0 (by norm_num))).period_given rfl
    simpa [demoSystem, VArgs.ofPlanet, TQ.ofPlanet, Tensor.ofPlanet, Tensor.ofList, Q.inUnit] using this
  · have := (built_of_init (hos 1 (by norm_num))).period_given rfl
    simpa [demoSystem, VArgs.ofPlanet, TQ.ofPlanet, Tensor.ofPlanet, Tensor.ofList, Q.inUnit] using this

/-- Hypotheses of `C82_single`: `KeplerianOrbit(period=10.0)`. -/
example (C : Consts) : ∃ O t0 P, keplerianInitV C { period := some ⟨.scalar 10, none⟩ } = .ok O ∧ evalTimes O = .ok (t0, P) ∧
    t0.shape = [] ∧ P.shape = [] := ⟨_, _, _, rfl, rfl, rfl, rfl⟩

/-- **C82, witness for one planet**: `KeplerianOrbit(period=[10.0])` with `num_planets=1`. -/
theorem C82_one_planet_counterexample (l : LimbDark) (C : Consts) (cp : ContactOp) :
    ∃ O, keplerianInitV C { period := some ⟨.ofList [10] 0, none⟩ } = .ok O ∧ ∀ (num_phase : ℤ) (r : Tensor ℝ) (ts : List ℝ),
      ∃ e, interpolatedV l C cp num_phase (some 1) none O r ts = .error e :=
  ⟨_, rfl, fun num_phase r ts => C82_one_planet_vector l C cp _ _ _ rfl (Or.inl (by simp [Tensor.ofList, Tensor.map])) num_phase 1 le_rfl _ _ rfl
    r ts none 7 0 none false⟩

/-- **C82, witness for a shared `t0`**: `KeplerianOrbit(period=[10.0, 20.0], t0=0.0)` with `num_planets=2`. -/
theorem C82_shared_counterexample (l : LimbDark) (C : Consts) (cp : ContactOp) :
    ∃ O, keplerianInitV C { period := some ⟨.ofList [10, 20] 0, none⟩, t0 := some ⟨.scalar 0, none⟩ } = .ok O ∧
      ∀ (num_phase : ℤ) (r : Tensor ℝ) (ts : List ℝ), ∃ e, interpolatedV l C cp num_phase (some 2) none O r ts = .error e :=
  ⟨_, rfl, fun num_phase r ts => C82_shared_scalar l C cp _ _ _ rfl 2 le_rfl (Or.inl rfl) num_phase _ _ rfl r ts none 7 0 none false⟩

end Exo
