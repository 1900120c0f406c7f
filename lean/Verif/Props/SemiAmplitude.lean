import Verif.Lemmas.SemiAmplitude
import Verif.Lemmas.Init
import Verif.Lemmas.Demo
import Verif.Lemmas.Motion

/-!
# C60 and C64: amplitudes and masses from radial velocities
-/

namespace Exo
open Real

/-- Data are usable: equal lengths and non-zero uncertainties. -/
structure GoodData (x y : List ℝ) (yerr : Option (List ℝ)) : Prop where
  lenY : y.length = x.length
  lenS : (errs y yerr).length = x.length
  errNe : ∀ s ∈ errs y yerr, s ≠ 0

theorem estimate_free {x y : List ℝ} {yerr : Option (List ℝ)} (hd : GoodData x y yerr) (periods : List ℝ) :
    estimateSemiAmplitude periods x y yerr none =
      (solveNormal (freeFuns periods) x y (ivarOf y yerr)).map fun w => amplitudes w none := by
  unfold estimateSemiAmplitude designFuns
  simp only
  rw [if_neg]
  · rfl
  · rw [ivarOf_length, hd.lenS, hd.lenY]
    simp

theorem estimate_fixed {x y : List ℝ} {yerr : Option (List ℝ)} (hd : GoodData x y yerr) {periods t0s : List ℝ}
    (hl : periods.length ≤ t0s.length) :
    estimateSemiAmplitude periods x y yerr (some t0s) =
      (solveNormal (fixedFuns periods t0s) x y (ivarOf y yerr)).map List.dropLast := by
  unfold estimateSemiAmplitude designFuns
  simp only
  rw [if_neg (not_lt.2 hl)]
  simp only
  rw [if_neg]
  · rfl
  · rw [ivarOf_length, hd.lenS, hd.lenY]
    simp

/-! ## C60 -/

/-- C60. Without reference times the amplitudes `√(a² + b²)` come from the unique minimiser of `χ²` over all sines, cosines and constants. -/
theorem C60_free_minimises (periods x y : List ℝ) (yerr : Option (List ℝ)) (hd : GoodData x y yerr) (_hP : ∀ P ∈ periods, P ≠ 0)
    (K : List ℝ) (h : estimateSemiAmplitude periods x y yerr none = .ok K) :
    ∃ ab c, ab.length = periods.length ∧ K = ab.map (fun p => √(p.1 ^ 2 + p.2 ^ 2)) ∧
      ∀ ab' c', ab'.length = periods.length → (ab', c') ≠ (ab, c) →
        chiSquare (x.zip (y.zip (errs y yerr))) (rvFree periods ab c) < chiSquare (x.zip (y.zip (errs y yerr))) (rvFree periods ab' c') := by
  rw [estimate_free hd] at h
  cases hw : solveNormal (freeFuns periods) x y (ivarOf y yerr) with
  | error e => rw [hw] at h; cases h
  | ok w =>
    rw [hw] at h
    cases h
    obtain ⟨hl, hmin⟩ := solveNormal_spec hd.lenY hd.lenS hd.errNe hw
    rw [freeFuns_length] at hl
    obtain ⟨ab, c, h1, rfl⟩ := exists_pack _ w hl
    refine ⟨ab, c, h1, amplitudes_pack ab c, fun ab' c' h2 hne => ?_⟩
    have := hmin (pack ab' c') (by rw [pack_length, freeFuns_length, h2]) fun he => hne (by
      obtain ⟨q1, q2⟩ := pack_inj he
      rw [q1, q2])
    rwa [show combo (freeFuns periods) (pack ab c) = rvFree periods ab c from funext fun t => combo_free _ _ _ _ h1,
      show combo (freeFuns periods) (pack ab' c') = rvFree periods ab' c' from funext fun t => combo_free _ _ _ _ h2] at this

/-- C60. With reference times the amplitudes are themselves the unique minimiser, over all amplitudes and constants. -/
theorem C60_fixed_minimises (periods t0s x y : List ℝ) (yerr : Option (List ℝ)) (hd : GoodData x y yerr) (hP : ∀ P ∈ periods, P ≠ 0)
    (hl : t0s.length = periods.length) (K : List ℝ) (h : estimateSemiAmplitude periods x y yerr (some t0s) = .ok K) :
    K.length = periods.length ∧ ∃ c, ∀ K' c', K'.length = periods.length → (K', c') ≠ (K, c) →
        chiSquare (x.zip (y.zip (errs y yerr))) (rvFixed periods t0s K c) <
          chiSquare (x.zip (y.zip (errs y yerr))) (rvFixed periods t0s K' c') := by
  rw [estimate_fixed hd hl.ge] at h
  have hz : (periods.zip t0s).length = periods.length := by simp [hl]
  cases hw : solveNormal (fixedFuns periods t0s) x y (ivarOf y yerr) with
  | error e => rw [hw] at h; cases h
  | ok w =>
    rw [hw] at h
    cases h
    obtain ⟨hlen, hmin⟩ := solveNormal_spec hd.lenY hd.lenS hd.errNe hw
    have hf : (fixedFuns periods t0s).length = periods.length + 1 := by simp [fixedFuns, hl]
    rw [hf] at hlen
    have hne : w ≠ [] := by
      rintro rfl
      simp at hlen
    have hw2 : w = w.dropLast ++ [w.getLast hne] := (List.dropLast_append_getLast hne).symm
    have hdl : w.dropLast.length = periods.length := by simp [hlen]
    refine ⟨hdl, w.getLast hne, fun K' c' h2 hne' => ?_⟩
    have := hmin (K' ++ [c']) (by simp [h2, hf]) fun he => hne' (by
      rw [hw2] at he
      have := List.append_inj' he rfl
      simp only [List.cons.injEq, and_true] at this
      rw [this.1, this.2])
    rw [hw2] at this
    rwa [show combo (fixedFuns periods t0s) (w.dropLast ++ [w.getLast hne]) = rvFixed periods t0s w.dropLast (w.getLast hne) from
        funext fun t => combo_fixed _ _ _ _ _ hP (by rw [hdl, hz]),
      show combo (fixedFuns periods t0s) (K' ++ [c']) = rvFixed periods t0s K' c' from
        funext fun t => combo_fixed _ _ _ _ _ hP (by rw [h2, hz])] at this

/-- C60. Without reference times the only failure on usable data is `LinAlgError`, raised iff the samples cannot tell some non-trivial
combination of the signals from zero. -/
theorem C60_free_singular_iff (periods x y : List ℝ) (yerr : Option (List ℝ)) (hd : GoodData x y yerr) (_hP : ∀ P ∈ periods, P ≠ 0)
    (e : PyErr) :
    estimateSemiAmplitude periods x y yerr none = .error e ↔ e = .linAlg ∧
      ∃ ab c, ab.length = periods.length ∧ (c ≠ 0 ∨ ∃ p ∈ ab, p ≠ (0, 0)) ∧ ∀ t ∈ x, rvFree periods ab c t = 0 := by
  have h1 := solveNormal_error_iff (fs := freeFuns periods) hd.lenS hd.errNe e
  rw [estimate_free hd]
  have h2 : (solveNormal (freeFuns periods) x y (ivarOf y yerr)).map (fun w => amplitudes w none) = .error e ↔
      solveNormal (freeFuns periods) x y (ivarOf y yerr) = .error e := by
    cases solveNormal (freeFuns periods) x y (ivarOf y yerr) with
    | error e' => simp [Except.map]
    | ok w => simp [Except.map]
  rw [h2, h1]
  refine and_congr_right fun _ => ⟨?_, ?_⟩
  · rintro ⟨cs, hl, ⟨a, ha, ha0⟩, hz⟩
    rw [freeFuns_length] at hl
    obtain ⟨ab, c, h3, rfl⟩ := exists_pack _ cs hl
    refine ⟨ab, c, h3, ?_, fun t ht => by rw [← combo_free _ _ _ _ h3]; exact hz t ht⟩
    simp only [pack, List.mem_append, List.mem_flatMap, List.mem_cons, List.not_mem_nil, or_false] at ha
    rcases ha with ⟨p, hp, rfl | rfl⟩ | rfl
    · exact Or.inr ⟨p, hp, fun h => ha0 (by rw [h])⟩
    · exact Or.inr ⟨p, hp, fun h => ha0 (by rw [h])⟩
    · exact Or.inl ha0
  · rintro ⟨ab, c, hl, hne, hz⟩
    refine ⟨pack ab c, by rw [pack_length, freeFuns_length, hl], ?_, fun t ht => by rw [combo_free _ _ _ _ hl]; exact hz t ht⟩
    simp only [pack, List.mem_append, List.mem_flatMap, List.mem_cons, List.not_mem_nil, or_false]
    rcases hne with hc | ⟨p, hp, hp0⟩
    · exact ⟨c, Or.inr rfl, hc⟩
    · by_cases h : p.1 = 0
      · exact ⟨p.2, Or.inl ⟨p, hp, Or.inr rfl⟩, fun h' => hp0 (Prod.ext h h')⟩
      · exact ⟨p.1, Or.inl ⟨p, hp, Or.inl rfl⟩, h⟩

/-- C60. The same with reference times; and if there are fewer reference times than periods, `IndexError`. -/
theorem C60_fixed_singular_iff (periods t0s x y : List ℝ) (yerr : Option (List ℝ)) (hd : GoodData x y yerr)
    (hP : ∀ P ∈ periods, P ≠ 0) (hl : t0s.length = periods.length) (e : PyErr) :
    estimateSemiAmplitude periods x y yerr (some t0s) = .error e ↔ e = .linAlg ∧
      ∃ K c, K.length = periods.length ∧ (c ≠ 0 ∨ ∃ k ∈ K, k ≠ 0) ∧ ∀ t ∈ x, rvFixed periods t0s K c t = 0 := by
  have h1 := solveNormal_error_iff (fs := fixedFuns periods t0s) hd.lenS hd.errNe e
  have hz' : (periods.zip t0s).length = periods.length := by simp [hl]
  have hf : (fixedFuns periods t0s).length = periods.length + 1 := by simp [fixedFuns, hl]
  rw [estimate_fixed hd hl.ge]
  have h2 : (solveNormal (fixedFuns periods t0s) x y (ivarOf y yerr)).map List.dropLast = .error e ↔
      solveNormal (fixedFuns periods t0s) x y (ivarOf y yerr) = .error e := by
    cases solveNormal (fixedFuns periods t0s) x y (ivarOf y yerr) with
    | error e' => simp [Except.map]
    | ok w => simp [Except.map]
  rw [h2, h1]
  refine and_congr_right fun _ => ⟨?_, ?_⟩
  · rintro ⟨w, hlen, ⟨a, ha, ha0⟩, hz⟩
    rw [hf] at hlen
    have hne : w ≠ [] := by
      rintro rfl
      simp at hlen
    have hw2 : w = w.dropLast ++ [w.getLast hne] := (List.dropLast_append_getLast hne).symm
    have hdl : w.dropLast.length = periods.length := by simp [hlen]
    refine ⟨w.dropLast, w.getLast hne, hdl, ?_, fun t ht => ?_⟩
    · rw [hw2, List.mem_append, List.mem_singleton] at ha
      rcases ha with ha | rfl
      · exact Or.inr ⟨a, ha, ha0⟩
      · exact Or.inl ha0
    · rw [← combo_fixed _ _ _ _ _ hP (by rw [hdl, hz']), ← hw2]
      exact hz t ht
  · rintro ⟨K, c, hK, hne, hz⟩
    refine ⟨K ++ [c], by simp [hK, hf], ?_, fun t ht => by rw [combo_fixed _ _ _ _ _ hP (by rw [hK, hz'])]; exact hz t ht⟩
    rcases hne with hc | ⟨k, hk, hk0⟩
    · exact ⟨c, by simp, hc⟩
    · exact ⟨k, by simp [hk], hk0⟩

theorem C60_short_t0s (periods t0s x y : List ℝ) (yerr : Option (List ℝ)) (hl : t0s.length < periods.length) :
    estimateSemiAmplitude periods x y yerr (some t0s) = .error .indexError := by
  unfold estimateSemiAmplitude designFuns
  simp only
  rw [if_pos hl]

theorem chiSquare_exact (x : List ℝ) (m : ℝ → ℝ) (s : List ℝ) : chiSquare (x.zip ((x.map m).zip s)) m = 0 := by
  unfold chiSquare
  apply List.sum_eq_zero
  intro a ha
  rw [List.mem_map] at ha
  obtain ⟨d, hd, rfl⟩ := ha
  obtain ⟨i, hi, rfl⟩ := List.getElem_of_mem hd
  simp

theorem chiSquare_nonneg (data : List (ℝ × ℝ × ℝ)) (m : ℝ → ℝ) : 0 ≤ chiSquare data m := by
  unfold chiSquare
  apply List.sum_nonneg
  intro a ha
  rw [List.mem_map] at ha
  obtain ⟨d, -, rfl⟩ := ha
  positivity

/-- The samples determine the free-phase model: only the zero combination vanishes on all of them. -/
def FreeDetermined (periods x : List ℝ) : Prop :=
  ∀ ab c, ab.length = periods.length → (∀ t ∈ x, rvFree periods ab c t = 0) → c = 0 ∧ ∀ p ∈ ab, p = (0, 0)

/-- The samples determine the fixed-phase model. -/
def FixedDetermined (periods t0s x : List ℝ) : Prop :=
  ∀ K c, K.length = periods.length → (∀ t ∈ x, rvFixed periods t0s K c t = 0) → c = 0 ∧ ∀ k ∈ K, k = 0

theorem C60_free_recovers (periods x : List ℝ) (yerr : Option (List ℝ)) (hP : ∀ P ∈ periods, P ≠ 0)
    (ab : List (ℝ × ℝ)) (c : ℝ) (hab : ab.length = periods.length) (hd : GoodData x (x.map (rvFree periods ab c)) yerr)
    (hdet : FreeDetermined periods x) :
    estimateSemiAmplitude periods x (x.map (rvFree periods ab c)) yerr none = .ok (ab.map fun p => √(p.1 ^ 2 + p.2 ^ 2)) := by
  cases h : estimateSemiAmplitude periods x (x.map (rvFree periods ab c)) yerr none with
  | error e =>
    obtain ⟨-, ab', c', h1, h2, h3⟩ := (C60_free_singular_iff _ _ _ _ hd hP e).1 h
    obtain ⟨q1, q2⟩ := hdet ab' c' h1 h3
    rcases h2 with h2 | ⟨p, hp, h2⟩
    · exact (h2 q1).elim
    · exact (h2 (q2 p hp)).elim
  | ok K =>
    obtain ⟨ab', c', h1, rfl, h3⟩ := C60_free_minimises _ _ _ _ hd hP K h
    by_cases he : (ab, c) = (ab', c')
    · cases he
      rfl
    · have := h3 ab c hab he
      rw [chiSquare_exact] at this
      exact absurd this (not_lt.2 (chiSquare_nonneg _ _))

theorem C60_fixed_recovers (periods t0s x : List ℝ) (yerr : Option (List ℝ)) (hP : ∀ P ∈ periods, P ≠ 0)
    (hl : t0s.length = periods.length) (K : List ℝ) (c : ℝ) (hK : K.length = periods.length)
    (hd : GoodData x (x.map (rvFixed periods t0s K c)) yerr) (hdet : FixedDetermined periods t0s x) :
    estimateSemiAmplitude periods x (x.map (rvFixed periods t0s K c)) yerr (some t0s) = .ok K := by
  cases h : estimateSemiAmplitude periods x (x.map (rvFixed periods t0s K c)) yerr (some t0s) with
  | error e =>
    obtain ⟨-, K', c', h1, h2, h3⟩ := (C60_fixed_singular_iff _ _ _ _ _ hd hP hl e).1 h
    obtain ⟨q1, q2⟩ := hdet K' c' h1 h3
    rcases h2 with h2 | ⟨p, hp, h2⟩
    · exact (h2 q1).elim
    · exact (h2 (q2 p hp)).elim
  | ok K' =>
    obtain ⟨h1, c', h3⟩ := C60_fixed_minimises _ _ _ _ _ hd hP hl K' h
    by_cases he : (K, c) = (K', c')
    · cases he
      rfl
    · have := h3 K c hK he
      rw [chiSquare_exact] at this
      exact absurd this (not_lt.2 (chiSquare_nonneg _ _))

/-- The radial velocity of a circular orbit with semi-amplitude `K`. -/
theorem circular_rv (C : Consts) (A : Args) (o : Orbit) (h : keplerianInit C A = .ok o) (he : o.ecc = none) (hP : o.period ≠ 0)
    (K t : ℝ) : o.radialVelocity C t (some K) = .ok (-K * sin (2 * π * (t - o.t0) / o.period)) := by
  have B := built_of_init h
  have hn : o.n ≠ 0 := by
    rw [B.n_eq]
    have := pi_pos
    positivity
  unfold Orbit.radialVelocity Orbit.trueAnomaly
  simp only [he]
  congr 1
  have e : (o.warp t - o.tref) * o.n = 2 * π * (t - o.t0) / o.period + π / 2 := by
    rw [B.warp_eq, B.tref_eq, B.t0_eq, B.M0_eq, he]
    simp only [M0Of]
    have h2 : ∀ q, q * o.n = 2 * π * q / o.period := by
      intro q
      rw [B.n_eq]
      ring
    have h3 : (t - (o.t_periastron + 0.5 * π / o.n) - (o.t_periastron - (o.t_periastron + 0.5 * π / o.n))) * o.n =
        (t - (o.t_periastron + 0.5 * π / o.n)) * o.n + π / 2 := by
      field_simp
      ring
    rw [h3, h2]
  rw [e, cos_add_pi_div_two]
  ring

theorem sum_signals (C : Consts) (x : List ℝ) (signal : Orbit × ℝ → ℝ → ℝ) (c : ℝ) (os : List (Orbit × ℝ))
    (hos : ∀ p ∈ os, (∃ A, keplerianInit C A = .ok p.1) ∧ p.1.ecc = none ∧ p.1.period ≠ 0)
    (hsig : ∀ p ∈ os, ∀ t ∈ x, p.1.radialVelocity C t (some p.2) = .ok (signal p t)) {t : ℝ} (ht : t ∈ x) :
    (os.map fun p => signal p t).sum + c =
      rvFixed (os.map fun p => p.1.period) (os.map fun p => p.1.t0) (os.map fun p => p.2) c t ∧
    (os.map fun p => signal p t).sum + c =
      rvFree (os.map fun p => p.1.period)
        (os.map fun p => (-p.2 * cos (2 * π * p.1.t0 / p.1.period), p.2 * sin (2 * π * p.1.t0 / p.1.period))) c t := by
  have e : ∀ p ∈ os, signal p t = -p.2 * sin (2 * π * (t - p.1.t0) / p.1.period) := by
    intro p hp
    obtain ⟨⟨A, hA⟩, he, hP⟩ := hos p hp
    have := hsig p hp t ht
    rw [circular_rv C A p.1 hA he hP] at this
    exact (Except.ok.inj this).symm
  clear hos hsig
  induction os with
  | nil => simp [rvFixed, rvFree]
  | cons p os ih =>
    obtain ⟨h1, h2⟩ := ih fun q hq => e q (List.mem_cons_of_mem _ hq)
    have hp := e p List.mem_cons_self
    constructor
    · unfold rvFixed at *
      simp only [List.map_cons, List.sum_cons, List.zip_cons_cons]
      rw [add_assoc, h1, hp]
      ring
    · unfold rvFree at *
      simp only [List.map_cons, List.sum_cons, List.zip_cons_cons]
      rw [add_assoc, h2, hp, mul_sub, sub_div, sin_sub]
      ring

/-- C60. If the data are exactly the sum of the radial velocities of circular `KeplerianOrbit`s (semi-amplitudes `K ≥ 0` in the free-phase
case) and a constant, and the samples determine the model, then the amplitudes come back exactly. -/
theorem C60_recovers_keplerian_signals (C : Consts) (os : List (Orbit × ℝ))
    (hos : ∀ p ∈ os, (∃ A, keplerianInit C A = .ok p.1) ∧ p.1.ecc = none ∧ p.1.period ≠ 0)
    (x : List ℝ) (yerr : Option (List ℝ)) (signal : Orbit × ℝ → ℝ → ℝ) (c : ℝ)
    (hsig : ∀ p ∈ os, ∀ t ∈ x, p.1.radialVelocity C t (some p.2) = .ok (signal p t))
    (hd : GoodData x (x.map fun t => (os.map fun p => signal p t).sum + c) yerr) :
    (FixedDetermined (os.map fun p => p.1.period) (os.map fun p => p.1.t0) x →
      estimateSemiAmplitude (os.map fun p => p.1.period) x (x.map fun t => (os.map fun p => signal p t).sum + c) yerr
        (some (os.map fun p => p.1.t0)) = .ok (os.map fun p => p.2)) ∧
    ((∀ p ∈ os, 0 ≤ p.2) → FreeDetermined (os.map fun p => p.1.period) x →
      estimateSemiAmplitude (os.map fun p => p.1.period) x (x.map fun t => (os.map fun p => signal p t).sum + c) yerr none =
        .ok (os.map fun p => p.2)) := by
  have hP : ∀ P ∈ os.map fun p => p.1.period, P ≠ 0 := by
    intro P h
    rw [List.mem_map] at h
    obtain ⟨p, hp, rfl⟩ := h
    exact (hos p hp).2.2
  constructor
  · intro hdet
    have e : (x.map fun t => (os.map fun p => signal p t).sum + c) =
        x.map (rvFixed (os.map fun p => p.1.period) (os.map fun p => p.1.t0) (os.map fun p => p.2) c) :=
      List.map_congr_left fun t ht => (sum_signals C x signal c os hos hsig ht).1
    rw [e] at hd ⊢
    exact C60_fixed_recovers _ _ x yerr hP (by simp) _ c (by simp) hd hdet
  · intro hK hdet
    have e : (x.map fun t => (os.map fun p => signal p t).sum + c) =
        x.map (rvFree (os.map fun p => p.1.period)
          (os.map fun p => (-p.2 * cos (2 * π * p.1.t0 / p.1.period), p.2 * sin (2 * π * p.1.t0 / p.1.period))) c) :=
      List.map_congr_left fun t ht => (sum_signals C x signal c os hos hsig ht).2
    rw [e] at hd ⊢
    rw [C60_free_recovers _ x yerr hP _ c (by simp) hd hdet, List.map_map]
    congr 1
    refine List.map_congr_left fun p hp => ?_
    simp only [Function.comp]
    rw [← sqrt_sq (hK p hp)]
    congr 1
    rw [sqrt_sq (hK p hp)]
    have := sin_sq_add_cos_sq (2 * π * p.1.t0 / p.1.period)
    linear_combination p.2 ^ 2 * this

/-- Three samples at quarter periods determine the sine, the cosine and the constant; two determine amplitude and constant. -/
theorem demo_determined : FreeDetermined [4] [0, 1, 2] ∧ FixedDetermined [4] [0] [0, 1] := by
  have h1 : 2 * π * 1 / 4 = π / 2 := by ring
  have h2 : 2 * π * 2 / 4 = π := by ring
  constructor
  · intro ab c hl hz
    match ab, hl with
    | [p], _ =>
      have z0 := hz 0 (by simp)
      have z1 := hz 1 (by simp)
      have z2 := hz 2 (by simp)
      simp only [rvFree, List.zip_cons_cons, List.zip_nil_left, List.map_cons, List.map_nil, List.sum_cons, List.sum_nil, mul_zero,
        zero_div, sin_zero, cos_zero, h1, h2, sin_pi_div_two, cos_pi_div_two, sin_pi, cos_pi] at z0 z1 z2
      refine ⟨by linarith, ?_⟩
      intro q hq
      rw [List.mem_singleton] at hq
      subst hq
      exact Prod.ext (by simp only; linarith) (by simp only; linarith)
  · intro K c hl hz
    match K, hl with
    | [k], _ =>
      have z0 := hz 0 (by simp)
      have z1 := hz 1 (by simp)
      simp only [rvFixed, List.zip_cons_cons, List.zip_nil_left, List.map_cons, List.map_nil, List.sum_cons, List.sum_nil, sub_zero,
        mul_zero, zero_div, sin_zero, h1, sin_pi_div_two] at z0 z1
      refine ⟨by linarith, ?_⟩
      intro q hq
      rw [List.mem_singleton] at hq
      subst hq
      linarith

example : GoodData [0, 1, 2] [5, 7, -3] (some [1, 2, 1]) ∧ GoodData [0, 1, 2] [5, 7, -3] none :=
  ⟨⟨rfl, rfl, by simp [errs]⟩, ⟨rfl, rfl, by simp [errs]⟩⟩

example (C : Consts) : ∃ A o, keplerianInit C A = .ok o ∧ o.ecc = none ∧ o.period ≠ 0 ∧
    FreeDetermined [o.period * 4] [0, 1, 2] := by
  obtain ⟨o, h, -, -, hP, -, -, -, he, -⟩ := demoCirc_ok C
  refine ⟨_, o, h, he, by rw [hP]; norm_num, ?_⟩
  rw [hP, one_mul]
  exact demo_determined.1

/-- A singular design: all samples at the same phase. -/
example : ¬ FreeDetermined [1] [0, 0, 0] := by
  intro h
  have := (h [(1, 0)] 0 rfl (by intro t ht; simp at ht; subst ht; simp [rvFree])).2 (1, 0) (by simp)
  simp at this

end Exo
