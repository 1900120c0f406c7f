import Verif.Model.Bls
import Verif.Props.AutocorrEstimator
import Verif.Props.Peaks
import Verif.Lemmas.Interpolated
import Mathlib.Algebra.Order.Archimedean.Basic

/-!
# C63 (and C59 for box least squares)
-/

namespace Exo

/-- What is assumed of `BoxLeastSquares`: coarsening the frequency grid makes it short (at most `1.5 + c / frequency_factor` points), and
unknown keywords are a `TypeError`. -/
structure Bls.Ok (B : Bls) : Prop where
  grid : ∀ t y yerr dur kw, ∃ c : ℝ, ∀ ff, 0 < ff → ∀ r, B.autoperiod t y yerr dur (Kw.set kw "frequency_factor" (some ff)) = .ok r →
    (r.length : ℝ) ≤ 3 / 2 + c / ff
  unknownPeriod : ∀ t y yerr dur (kw : Kw) key, key ∉ blsKeywords → kw key ≠ none →
    ∃ s, B.autoperiod t y yerr dur kw = .error (.typeError s)
  unknownPower : ∀ t y yerr dur (kw : Kw) key, key ∉ blsKeywords → kw key ≠ none →
    ∃ s, B.autopower t y yerr dur kw = .error (.typeError s)

/-- The sampled quantities all have the same length. -/
structure BlsPg.Ok (pg : BlsPg) : Prop where
  power : pg.power.length = pg.period.length
  transit_time : pg.transit_time.length = pg.period.length
  rest : ∀ kv ∈ pg.rest, kv.2.length = pg.period.length

theorem coarsen_terminates {ap : Kw → Except PyErr (List ℝ)} {n : ℕ} (hn : 0 < n) {kw : Kw} {c : ℝ}
    (hc : ∀ ff, 0 < ff → ∀ r, ap (Kw.set kw "frequency_factor" (some ff)) = .ok r → (r.length : ℝ) ≤ 3 / 2 + c / ff) :
    ∀ (k : ℕ) (ff : ℝ), 0 < ff → c / (ff * 2 ^ k) < 1 / 2 → ∃ r, coarsen ap n (k + 1) kw ff = some r := by
  intro k
  induction k with
  | zero =>
    intro ff hff h
    rw [pow_zero, mul_one] at h
    unfold coarsen
    cases hr : ap (Kw.set kw "frequency_factor" (some ff)) with
    | error e => exact ⟨_, rfl⟩
    | ok r =>
      simp only
      have h1 := hc ff hff r hr
      have h2 : (r.length : ℝ) < 2 := by linarith
      have h3 : r.length < 2 := by exact_mod_cast h2
      rw [if_neg (by omega)]
      exact ⟨_, rfl⟩
  | succ k ih =>
    intro ff hff h
    unfold coarsen
    cases hr : ap (Kw.set kw "frequency_factor" (some ff)) with
    | error e => exact ⟨_, rfl⟩
    | ok r =>
      simp only
      split_ifs
      · exact ih (ff * 2) (by positivity) (by rw [show ff * 2 * 2 ^ k = ff * 2 ^ (k + 1) by ring]; exact h)
      · exact ⟨_, rfl⟩

theorem coarsen_result {ap : Kw → Except PyErr (List ℝ)} {n : ℕ} {kw kw' : Kw} : ∀ (fuel : ℕ) (ff : ℝ),
    coarsen ap n fuel kw ff = some (.ok kw') →
    ∃ j : ℕ, kw' = kw.set "frequency_factor" (some (ff * 2 ^ j)) ∧
      (∃ r, ap kw' = .ok r ∧ r.length ≤ n) ∧
      ∀ i < j, ∃ r, ap (kw.set "frequency_factor" (some (ff * 2 ^ i))) = .ok r ∧ n < r.length := by
  intro fuel
  induction fuel with
  | zero => intro ff h; cases h
  | succ fuel ih =>
    intro ff h
    unfold coarsen at h
    cases hr : ap (Kw.set kw "frequency_factor" (some ff)) with
    | error e =>
      rw [hr] at h
      cases h
    | ok r =>
      rw [hr] at h
      simp only at h
      by_cases hl : n < r.length
      · rw [if_pos hl] at h
        obtain ⟨j, h1, h2, h3⟩ := ih (ff * 2) h
        refine ⟨j + 1, by rw [h1]; congr 2; ring, h2, ?_⟩
        intro i hi
        cases i with
        | zero => exact ⟨r, by rw [pow_zero, mul_one]; exact hr, hl⟩
        | succ i =>
          obtain ⟨r', h4, h5⟩ := h3 i (by omega)
          exact ⟨r', by rw [show ff * 2 ^ (i + 1) = ff * 2 * 2 ^ i by ring]; exact h4, h5⟩
      · rw [if_neg hl] at h
        simp only [Option.some.injEq, Except.ok.injEq] at h
        refine ⟨0, by rw [pow_zero, mul_one, h], ⟨r, by rw [← h]; exact hr, not_lt.1 hl⟩, fun i hi => absurd hi (Nat.not_lt_zero _)⟩

theorem exists_halving (c : ℝ) : ∃ k : ℕ, c / (1 * 2 ^ k) < 1 / 2 := by
  obtain ⟨k, hk⟩ := pow_unbounded_of_one_lt (2 * c) (by norm_num : (1 : ℝ) < 2)
  refine ⟨k, ?_⟩
  rw [div_lt_iff₀ (by positivity)]
  linarith

/-! ## C63 -/

/-- C63. The grid-coarsening loop terminates: for every input there is a number of iterations after which the call has returned (a
result or an exception). -/
theorem C63_terminates (B : Bls) (hB : B.Ok) (argsort : List ℝ → List ℕ) (x y : List ℝ) (yerr : Option (List ℝ)) (duration : List ℝ)
    (min_period max_period : Option ℝ) (kw : Kw) :
    ∃ fuel r, blsEstimator B argsort fuel x y yerr duration min_period max_period kw = some r := by
  unfold blsEstimator
  cases href : blsRef x with
  | error e => exact ⟨0, _, rfl⟩
  | ok x_ref =>
    simp only
    have hx : 0 < x.length := by
      cases x with
      | nil => cases href
      | cons a l => simp
    unfold blsKw
    simp only
    cases hff : blsKw0 kw min_period max_period "frequency_factor" with
    | some v => exact ⟨0, _, rfl⟩
    | none =>
      obtain ⟨c, hc⟩ := hB.grid (x.map fun t => t - x_ref) y yerr duration (blsKw0 kw min_period max_period)
      obtain ⟨k, hk⟩ := exists_halving c
      obtain ⟨r, hr⟩ := coarsen_terminates hx hc k 1 one_pos hk
      refine ⟨k + 1, ?_⟩
      simp only
      rw [hr]
      cases r with
      | error e => exact ⟨_, rfl⟩
      | ok kw' => exact ⟨_, rfl⟩

/-- The keyword arguments with which the periodogram of a successful call was computed, and the reference time. -/
theorem blsEstimator_ok {B : Bls} {argsort : List ℝ → List ℕ} {fuel : ℕ} {x y : List ℝ} {yerr : Option (List ℝ)} {duration : List ℝ}
    {min_period max_period : Option ℝ} {kw : Kw} {r : BlsResult}
    (h : blsEstimator B argsort fuel x y yerr duration min_period max_period kw = some (.ok r)) :
    ∃ x_ref kw' pg, blsRef x = .ok x_ref ∧
      blsKw (B.autoperiod (x.map fun t => t - x_ref) y yerr duration) x.length fuel kw min_period max_period = some (.ok kw') ∧
      B.autopower (x.map fun t => t - x_ref) y yerr duration kw' = .ok pg ∧ blsFinish argsort x_ref pg = .ok r := by
  unfold blsEstimator at h
  cases href : blsRef x with
  | error e => rw [href] at h; cases h
  | ok x_ref =>
    rw [href] at h
    simp only at h
    cases hkw : blsKw (B.autoperiod (x.map fun t => t - x_ref) y yerr duration) x.length fuel kw min_period max_period with
    | none => rw [hkw] at h; cases h
    | some q =>
      rw [hkw] at h
      cases q with
      | error e => cases h
      | ok kw' =>
        simp only [Option.some.injEq] at h
        cases hpg : B.autopower (x.map fun t => t - x_ref) y yerr duration kw' with
        | error e => rw [hpg] at h; cases h
        | ok pg =>
          rw [hpg] at h
          exact ⟨x_ref, kw', pg, rfl, hkw, hpg, h⟩

theorem blsFinish_bls {argsort : List ℝ → List ℕ} {x_ref : ℝ} {pg : BlsPg} {r : BlsResult} (h : blsFinish argsort x_ref pg = .ok r) :
    r.bls = { pg with transit_time := pg.transit_time.map fun t => t + x_ref } := by
  unfold blsFinish at h
  simp only at h
  split at h
  · cases h
  · cases h; rfl
  · cases h; rfl
  · split at h
    · cases h
    · cases h; rfl

theorem blsKw0_other (kw : Kw) (a b : Option ℝ) (key : String) (h1 : key ≠ "minimum_period") (h2 : key ≠ "maximum_period") :
    blsKw0 kw a b key = kw key := by
  unfold blsKw0 Kw.set
  rw [if_neg h2, if_neg h1]

theorem blsKw0_min (kw : Kw) (a b : Option ℝ) : blsKw0 kw a b "minimum_period" = some ((kw "minimim_period").getD a) := by
  unfold blsKw0 Kw.set Kw.get
  simp

theorem blsKw0_max (kw : Kw) (a b : Option ℝ) : blsKw0 kw a b "maximum_period" = some ((kw "maximum_period").getD b) := by
  unfold blsKw0 Kw.set Kw.get
  simp

/-- The keywords of the final periodogram are those after lines 360-361, up to the frequency factor. -/
theorem blsKw_ok {ap : Kw → Except PyErr (List ℝ)} {n fuel : ℕ} {kw kw' : Kw} {a b : Option ℝ}
    (h : blsKw ap n fuel kw a b = some (.ok kw')) :
    (∀ key, key ≠ "frequency_factor" → kw' key = blsKw0 kw a b key) ∧
    (∀ v, kw "frequency_factor" = some v → kw' "frequency_factor" = some v) ∧
    (kw "frequency_factor" = none → ∃ j : ℕ, kw' "frequency_factor" = some (some (2 ^ j)) ∧
      (∃ r, ap kw' = .ok r ∧ r.length ≤ n) ∧
      ∀ i < j, ∃ r, ap ((blsKw0 kw a b).set "frequency_factor" (some (2 ^ i))) = .ok r ∧ n < r.length) := by
  have hff := blsKw0_other kw a b "frequency_factor" (by decide) (by decide)
  unfold blsKw at h
  simp only at h
  rw [hff] at h
  cases hk : kw "frequency_factor" with
  | some v =>
    rw [hk] at h
    simp only [Option.some.injEq, Except.ok.injEq] at h
    subst h
    exact ⟨fun _ _ => rfl, fun v' hv => by rw [hff, hk, hv], fun h => by cases h⟩
  | none =>
    rw [hk] at h
    obtain ⟨j, h1, h2, h3⟩ := coarsen_result _ _ h
    refine ⟨fun key hne => ?_, fun v' hv => (by cases hv), fun _ => ⟨j, ?_, h2, ?_⟩⟩
    · rw [h1]
      unfold Kw.set
      rw [if_neg hne]
    · rw [h1]
      unfold Kw.set
      rw [if_pos rfl, one_mul]
    · intro i hi
      obtain ⟨r, h4, h5⟩ := h3 i hi
      exact ⟨r, by rw [one_mul] at h4; exact h4, h5⟩

/-- C63 (partial: a `minimum_period` passed as extra keyword is not honoured, see `C63_minimum_period_keyword_ignored`). In a successful
call the periodogram was computed with the maximum period of the caller — the extra keyword `maximum_period` if present, otherwise the
argument `max_period` — and with the argument `min_period`. -/
theorem C63_period_limits_partial (B : Bls) (hB : B.Ok) (argsort : List ℝ → List ℕ) (fuel : ℕ) (x y : List ℝ) (yerr : Option (List ℝ))
    (duration : List ℝ) (min_period max_period : Option ℝ) (kw : Kw) (r : BlsResult)
    (h : blsEstimator B argsort fuel x y yerr duration min_period max_period kw = some (.ok r)) :
    ∃ off kw' pg, B.autopower (x.map fun t => t - off) y yerr duration kw' = .ok pg ∧ r.bls.period = pg.period ∧ r.bls.power = pg.power ∧
      kw' "minimum_period" = some min_period ∧
      (∀ v, kw "maximum_period" = some v → kw' "maximum_period" = some v) ∧
      (kw "maximum_period" = none → kw' "maximum_period" = some max_period) ∧
      (∀ key, key ≠ "minimum_period" → key ≠ "maximum_period" → key ≠ "frequency_factor" → kw' key = kw key) := by
  obtain ⟨x_ref, kw', pg, -, h1, h2, h3⟩ := blsEstimator_ok h
  obtain ⟨g1, -, -⟩ := blsKw_ok h1
  have hb := blsFinish_bls h3
  refine ⟨_, kw', pg, h2, by rw [hb], by rw [hb], ?_, ?_, ?_, ?_⟩
  · rw [g1 _ (by decide), blsKw0_min]
    cases hk : kw "minimim_period" with
    | none => rfl
    | some v =>
      have e : kw' "minimim_period" ≠ none := by
        rw [g1 _ (by decide), blsKw0_other _ _ _ _ (by decide) (by decide), hk]
        simp
      obtain ⟨s, hs⟩ := hB.unknownPower (x.map fun t => t - x_ref) y yerr duration kw' "minimim_period" (by decide) e
      rw [h2] at hs
      cases hs
  · intro v hv
    rw [g1 _ (by decide), blsKw0_max, hv]
    rfl
  · intro hv
    rw [g1 _ (by decide), blsKw0_max, hv]
    rfl
  · intro key k1 k2 k3
    rw [g1 _ k3, blsKw0_other _ _ _ _ k1 k2]

/-- C63 is false for the lower limit: two calls that differ only in the extra keyword `minimum_period` do the same thing. -/
theorem C63_minimum_period_keyword_ignored (B : Bls) (argsort : List ℝ → List ℕ) (fuel : ℕ) (x y : List ℝ) (yerr : Option (List ℝ))
    (duration : List ℝ) (min_period max_period : Option ℝ) (kw : Kw) (v : Option ℝ) :
    blsEstimator B argsort fuel x y yerr duration min_period max_period (kw.set "minimum_period" v) =
      blsEstimator B argsort fuel x y yerr duration min_period max_period kw := by
  have e : blsKw0 (kw.set "minimum_period" v) min_period max_period = blsKw0 kw min_period max_period := by
    funext key
    by_cases h1 : key = "minimum_period"
    · subst h1
      rw [blsKw0_min, blsKw0_min]
      rfl
    · by_cases h2 : key = "maximum_period"
      · subst h2
        rw [blsKw0_max, blsKw0_max]
        rfl
      · rw [blsKw0_other _ _ _ _ h1 h2, blsKw0_other _ _ _ _ h1 h2]
        unfold Kw.set
        rw [if_neg h1]
  unfold blsEstimator blsKw
  simp only [e]

/-- C63. The frequency factor is the caller's if given; otherwise it is the least power of two for which the grid is not longer than the
data. -/
theorem C63_frequency_factor (B : Bls) (argsort : List ℝ → List ℕ) (fuel : ℕ) (x y : List ℝ) (yerr : Option (List ℝ))
    (duration : List ℝ) (min_period max_period : Option ℝ) (kw : Kw) (r : BlsResult)
    (h : blsEstimator B argsort fuel x y yerr duration min_period max_period kw = some (.ok r)) :
    ∃ off kw' pg, B.autopower (x.map fun t => t - off) y yerr duration kw' = .ok pg ∧ r.bls.period = pg.period ∧
      (∀ v, kw "frequency_factor" = some v → kw' "frequency_factor" = some v) ∧
      (kw "frequency_factor" = none → ∃ j : ℕ, kw' "frequency_factor" = some (some (2 ^ j)) ∧
        (∃ g, B.autoperiod (x.map fun t => t - off) y yerr duration kw' = .ok g ∧ g.length ≤ x.length) ∧
        ∀ i < j, ∃ g, B.autoperiod (x.map fun t => t - off) y yerr duration (kw'.set "frequency_factor" (some (2 ^ i))) = .ok g ∧ x.length < g.length) := by
  obtain ⟨x_ref, kw', pg, -, h1, h2, h3⟩ := blsEstimator_ok h
  obtain ⟨g1, g2, g3⟩ := blsKw_ok h1
  refine ⟨_, kw', pg, h2, by rw [blsFinish_bls h3], g2, fun hn => ?_⟩
  obtain ⟨j, q1, q2, q3⟩ := g3 hn
  refine ⟨j, q1, q2, fun i hi => ?_⟩
  have e : kw'.set "frequency_factor" (some (2 ^ i)) = (blsKw0 kw min_period max_period).set "frequency_factor" (some (2 ^ i)) := by
    funext key
    unfold Kw.set
    by_cases hk : key = "frequency_factor"
    · rw [if_pos hk, if_pos hk]
    · rw [if_neg hk, if_neg hk, g1 key hk]
  rw [e]
  exact q3 i hi

/-- C63. Passing the misspelt keyword that the code looks for is a `TypeError` (or an earlier failure on empty data). -/
theorem C63_misspelt_keyword_fails (B : Bls) (hB : B.Ok) (argsort : List ℝ → List ℕ) (fuel : ℕ) (x y : List ℝ) (yerr : Option (List ℝ))
    (duration : List ℝ) (min_period max_period : Option ℝ) (kw : Kw) (hx : x ≠ []) (hk : kw "minimim_period" ≠ none) (hf : 0 < fuel) :
    ∃ s, blsEstimator B argsort fuel x y yerr duration min_period max_period kw = some (.error (.typeError s)) := by
  obtain ⟨lo, hlo⟩ := exists_npMin hx
  obtain ⟨hi, hhi⟩ := exists_npMax hx
  have href : blsRef x = .ok (0.5 * (lo + hi)) := by
    unfold blsRef
    rw [hlo, hhi]
    rfl
  have hk0 : blsKw0 kw min_period max_period "minimim_period" ≠ none := by
    rw [blsKw0_other _ _ _ _ (by decide) (by decide)]
    exact hk
  unfold blsEstimator
  rw [href]
  simp only
  generalize (x.map fun t => t - 0.5 * (lo + hi)) = xs
  unfold blsKw
  simp only
  cases hff : blsKw0 kw min_period max_period "frequency_factor" with
  | some v =>
    obtain ⟨s, hs⟩ := hB.unknownPower xs y yerr duration _ "minimim_period" (by decide) hk0
    simp only
    rw [hs]
    exact ⟨s, rfl⟩
  | none =>
    have hk1 : (blsKw0 kw min_period max_period).set "frequency_factor" (some 1) "minimim_period" ≠ none := by
      unfold Kw.set
      rw [if_neg (by decide)]
      exact hk0
    obtain ⟨s, hs⟩ := hB.unknownPeriod xs y yerr duration _ "minimim_period" (by decide) hk1
    obtain ⟨f, rfl⟩ : ∃ f, fuel = f + 1 := ⟨fuel - 1, by omega⟩
    simp only [coarsen]
    rw [hs]
    exact ⟨s, rfl⟩

theorem min?_shift (x : List ℝ) (s : ℝ) : (x.map (· + s)).min? = x.min?.map (· + s) := by
  cases h : x.min? with
  | none =>
    rw [List.min?_eq_none_iff] at h
    subst h
    rfl
  | some m =>
    rw [List.min?_eq_some_iff] at h
    rw [Option.map_some, List.min?_eq_some_iff]
    refine ⟨List.mem_map_of_mem h.1, fun b hb => ?_⟩
    rw [List.mem_map] at hb
    obtain ⟨a, ha, rfl⟩ := hb
    have := h.2 a ha
    linarith

theorem max?_shift (x : List ℝ) (s : ℝ) : (x.map (· + s)).max? = x.max?.map (· + s) := by
  cases h : x.max? with
  | none =>
    rw [List.max?_eq_none_iff] at h
    subst h
    rfl
  | some m =>
    rw [List.max?_eq_some_iff] at h
    rw [Option.map_some, List.max?_eq_some_iff]
    refine ⟨List.mem_map_of_mem h.1, fun b hb => ?_⟩
    rw [List.mem_map] at hb
    obtain ⟨a, ha, rfl⟩ := hb
    have := h.2 a ha
    linarith

/-- C63. Reported transit times are those of the periodogram of the centred data plus the offset that was subtracted. -/
theorem C63_times_in_the_user_frame (B : Bls) (argsort : List ℝ → List ℕ) (fuel : ℕ) (x y : List ℝ) (yerr : Option (List ℝ))
    (duration : List ℝ) (min_period max_period : Option ℝ) (kw : Kw) (r : BlsResult)
    (h : blsEstimator B argsort fuel x y yerr duration min_period max_period kw = some (.ok r)) :
    ∃ off kw' pg, B.autopower (x.map fun t => t - off) y yerr duration kw' = .ok pg ∧
      r.bls.transit_time = pg.transit_time.map (fun t => t + off) ∧
      (∃ lo ∈ x, ∃ hi ∈ x, (∀ t ∈ x, lo ≤ t ∧ t ≤ hi) ∧ off = (lo + hi) / 2) := by
  obtain ⟨x_ref, kw', pg, h0, h1, h2, h3⟩ := blsEstimator_ok h
  refine ⟨x_ref, kw', pg, h2, by rw [blsFinish_bls h3], ?_⟩
  unfold blsRef at h0
  obtain ⟨lo, hlo, h0⟩ := bind_ok h0
  obtain ⟨hi, hhi, h0⟩ := bind_ok h0
  cases h0
  refine ⟨lo, (npMin_ok hlo).1, hi, (npMax_ok hhi).1, fun t ht => ⟨(npMin_ok hlo).2 t ht, (npMax_ok hhi).2 t ht⟩, ?_⟩
  ring

/-- Moving the transit times of a result. -/
def BlsPg.shift (pg : BlsPg) (s : ℝ) : BlsPg := { pg with transit_time := pg.transit_time.map (· + s) }

/-- Moving the transit time at the peak. -/
def BlsInfo.shift (i : BlsInfo) (s : ℝ) : BlsInfo := { i with transit_time := i.transit_time + s }

theorem peakInfo_shift (pg : BlsPg) (s : ℝ) (ind : ℕ) : peakInfo (pg.shift s) ind = (peakInfo pg ind).map fun i => i.shift s := by
  unfold peakInfo BlsPg.shift
  simp only
  cases h1 : atIndex pg.period ind with
  | error e => rfl
  | ok a =>
    cases h2 : atIndex pg.power ind with
    | error e => rfl
    | ok b =>
      unfold atIndex
      rw [List.getElem?_map]
      cases h3 : pg.transit_time[ind]? with
      | none => rfl
      | some t =>
        show (_ >>= _) = Except.map _ (_ >>= _)
        cases pg.rest.mapM fun kv => (match kv.2[ind]? with
          | none => Except.error PyErr.indexError
          | some a => Except.ok a).map fun a => (kv.1, a) with
        | error e => rfl
        | ok l => rfl

theorem blsFinish_shift (argsort : List ℝ → List ℕ) (x_ref s : ℝ) (pg : BlsPg) :
    blsFinish argsort (x_ref + s) pg =
      (blsFinish argsort x_ref pg).map fun r => ⟨r.bls.shift s, r.peaks, r.peak_info.map fun i => i.shift s⟩ := by
  have e : ({ pg with transit_time := pg.transit_time.map fun t => t + (x_ref + s) } : BlsPg) =
      BlsPg.shift { pg with transit_time := pg.transit_time.map fun t => t + x_ref } s := by
    unfold BlsPg.shift
    simp only [List.map_map]
    congr 1
    refine List.map_congr_left fun t _ => ?_
    simp only [Function.comp]
    ring
  unfold blsFinish
  rw [e]
  simp only
  rw [show (BlsPg.shift { pg with transit_time := pg.transit_time.map fun t => t + x_ref } s).period = pg.period from rfl,
    show (BlsPg.shift { pg with transit_time := pg.transit_time.map fun t => t + x_ref } s).power = pg.power from rfl]
  cases findPeaks argsort (pg.period.map fun p => 1 / p) pg.power 1 with
  | error e => rfl
  | ok q =>
    cases q with
    | one p => rfl
    | many l =>
      cases l with
      | nil => rfl
      | cons p l =>
        simp only
        rw [peakInfo_shift]
        cases peakInfo { pg with transit_time := pg.transit_time.map fun t => t + x_ref } p.index with
        | error e => rfl
        | ok info => rfl

/-- C63. Moving all observation times by `s` moves the reported transit times by `s` and changes nothing else: neither the periodogram, nor
the peaks, nor the exceptions. -/
theorem C63_shift_equivariant (B : Bls) (argsort : List ℝ → List ℕ) (fuel : ℕ) (x y : List ℝ) (yerr : Option (List ℝ))
    (duration : List ℝ) (min_period max_period : Option ℝ) (kw : Kw) (s : ℝ) :
    blsEstimator B argsort fuel (x.map (· + s)) y yerr duration min_period max_period kw =
      (blsEstimator B argsort fuel x y yerr duration min_period max_period kw).map fun q =>
        q.map fun r => ⟨r.bls.shift s, r.peaks, r.peak_info.map fun i => i.shift s⟩ := by
  unfold blsEstimator
  cases h0 : blsRef x with
  | error e =>
    have : x = [] := by
      by_contra hx
      obtain ⟨lo, hlo⟩ := exists_npMin hx
      obtain ⟨hi, hhi⟩ := exists_npMax hx
      unfold blsRef at h0
      rw [hlo, hhi] at h0
      cases h0
    subst this
    rw [List.map_nil, h0]
    rfl
  | ok x_ref =>
    have href : blsRef (x.map (· + s)) = .ok (x_ref + s) := by
      unfold blsRef npMin npMax at *
      rw [min?_shift, max?_shift]
      cases hmin : x.min? with
      | none => rw [hmin] at h0; cases h0
      | some lo =>
        cases hmax : x.max? with
        | none => rw [hmin, hmax] at h0; cases h0
        | some hi =>
          rw [hmin, hmax] at h0
          cases h0
          show Except.ok (0.5 * ((lo + s) + (hi + s))) = Except.ok (0.5 * (lo + hi) + s)
          congr 1
          ring
    have hxs : ((x.map (· + s)).map fun t => t - (x_ref + s)) = x.map fun t => t - x_ref := by
      rw [List.map_map]
      refine List.map_congr_left fun t _ => ?_
      simp only [Function.comp]
      ring
    rw [href]
    simp only
    rw [hxs, List.length_map]
    cases blsKw (B.autoperiod (x.map fun t => t - x_ref) y yerr duration) x.length fuel kw min_period max_period with
    | none => rfl
    | some q =>
      cases q with
      | error e => rfl
      | ok kw' =>
        simp only
        cases B.autopower (x.map fun t => t - x_ref) y yerr duration kw' with
        | error e => rfl
        | ok pg =>
          simp only [Option.map_some]
          rw [blsFinish_shift]

/-! ## C59 for box least squares -/

theorem atIndex_ok {l : List ℝ} {i : ℕ} {a : ℝ} (h : atIndex l i = .ok a) : l[i]? = some a := by
  unfold atIndex at h
  cases hl : l[i]? with
  | none => rw [hl] at h; cases h
  | some v => rw [hl] at h; cases h; rfl

theorem atIndex_lt {l : List ℝ} {i : ℕ} (h : i < l.length) : atIndex l i = .ok (l.getD i 0) := by
  unfold atIndex
  rw [List.getD_eq_getElem?_getD, List.getElem?_eq_getElem h]
  rfl

/-- C63. On a well-formed periodogram with distinct periods nothing is raised, and `peak_info` is `None` exactly when the power has no
local maximum. -/
theorem C63_peak_info_iff (argsort : List ℝ → List ℕ) (ha : IsArgsort argsort) (x_ref : ℝ) (pg : BlsPg) (hpg : pg.Ok)
    (hnd : (pg.period.map fun p => 1 / p).Nodup) :
    ∃ r, blsFinish argsort x_ref pg = .ok r ∧ r.peaks.length ≤ 1 ∧ (r.peak_info = none ↔ ∀ j, ¬ LocalMax pg.power j) ∧
      (r.peaks = [] ↔ ∀ j, ¬ LocalMax pg.power j) := by
  obtain ⟨js, hH, h1, -⟩ := C57_highest_local_maxima argsort ha (pg.period.map fun p => 1 / p) pg.power (by rw [List.length_map, hpg.power])
    hnd 1
  obtain ⟨ps, h2, h3⟩ := h1 one_ne_zero
  unfold blsFinish
  simp only
  rw [h2]
  cases h3 with
  | nil =>
    refine ⟨_, rfl, by simp, ?_, ?_⟩
    · exact ⟨fun _ j hj => absurd (hH.all (by simp) j hj) (by simp), fun _ => rfl⟩
    · exact ⟨fun _ j hj => absurd (hH.all (by simp) j hj) (by simp), fun _ => rfl⟩
  | @cons j p js' ps' hp ht =>
    have hjs : js' = [] := by
      have := hH.atMost
      simp only [List.length_cons] at this
      exact List.length_eq_zero_iff.1 (by simpa using this)
    subst hjs
    cases ht
    have hj : LocalMax pg.power j := hH.isMax j (by simp)
    have hlt := (C59_index_minus_one_is_the_peak_partial _ _ _ _ hp hj).2
    simp only
    have hinfo : peakInfo { pg with transit_time := pg.transit_time.map fun t => t + x_ref } p.index =
        .ok ⟨pg.period.getD p.index 0, pg.power.getD p.index 0, (pg.transit_time.map fun t => t + x_ref).getD p.index 0,
          pg.rest.map fun kv => (kv.1, kv.2.getD p.index 0)⟩ := by
      unfold peakInfo
      simp only
      rw [atIndex_lt (by rw [← hpg.power]; exact hlt), atIndex_lt hlt,
        atIndex_lt (by rw [List.length_map, hpg.transit_time, ← hpg.power]; exact hlt),
        mapM_ok (fun kv => (kv.1, kv.2.getD p.index 0)) pg.rest _ fun kv hkv => by
          rw [atIndex_lt (by rw [hpg.rest kv hkv, ← hpg.power]; exact hlt)]; rfl]
      rfl
    rw [hinfo]
    refine ⟨_, rfl, by simp, ?_, ?_⟩
    · exact ⟨fun h => absurd h (by simp), fun h => absurd hj (h j)⟩
    · exact ⟨fun h => absurd h (by simp), fun h => absurd hj (h j)⟩

/-- C59 is false for `bls_estimator` too: whenever a peak is found, `peak_info` describes the sample after the highest local maximum, where
the power is strictly lower. -/
theorem C59_bls_peak_info_is_not_the_peak (argsort : List ℝ → List ℕ) (ha : IsArgsort argsort) (x_ref : ℝ) (pg : BlsPg) (hpg : pg.Ok)
    (hnd : (pg.period.map fun p => 1 / p).Nodup) (r : BlsResult) (info : BlsInfo)
    (h : blsFinish argsort x_ref pg = .ok r) (hi : r.peak_info = some info) :
    ∃ j y, LocalMax pg.power j ∧ pg.power[j]? = some y ∧ (∀ k z, LocalMax pg.power k → pg.power[k]? = some z → z ≤ y) ∧
      info.power < y ∧ pg.power[j + 1]? = some info.power ∧ pg.period[j + 1]? = some info.period := by
  obtain ⟨js, hH, h1, -⟩ := C57_highest_local_maxima argsort ha (pg.period.map fun p => 1 / p) pg.power (by rw [List.length_map, hpg.power])
    hnd 1
  obtain ⟨ps, h2, h3⟩ := h1 one_ne_zero
  unfold blsFinish at h
  simp only at h
  rw [h2] at h
  cases h3 with
  | nil =>
    cases h
    cases hi
  | @cons j p js' ps' hp ht =>
    have hjs : js' = [] := by
      have := hH.atMost
      simp only [List.length_cons] at this
      exact List.length_eq_zero_iff.1 (by simpa using this)
    subst hjs
    cases ht
    have hj : LocalMax pg.power j := hH.isMax j (by simp)
    have hidx := peakAt_index hp
    simp only at h
    cases hinfo : peakInfo { pg with transit_time := pg.transit_time.map fun t => t + x_ref } p.index with
    | error e => rw [hinfo] at h; cases h
    | ok info' =>
      rw [hinfo] at h
      cases h
      cases hi
      unfold peakInfo at hinfo
      obtain ⟨P, hP, hinfo⟩ := bind_ok hinfo
      obtain ⟨pw, hpw, hinfo⟩ := bind_ok hinfo
      obtain ⟨tt, htt, hinfo⟩ := bind_ok hinfo
      obtain ⟨rest, hrest, hinfo⟩ := bind_ok hinfo
      cases hinfo
      have hpw' := atIndex_ok hpw
      have hP' := atIndex_ok hP
      rw [hidx] at hpw' hP'
      obtain ⟨a, b, c, g1, g2, g3, g4, g5, g6⟩ := id hj
      refine ⟨j, b, hj, g3, ?_, ?_, hpw', hP'⟩
      · intro k z hk hz
        by_cases hkj : k = j
        · subst hkj
          rw [g3] at hz
          cases hz
          exact le_refl _
        · obtain ⟨u, v, hu, hv, huv⟩ := hH.highest k hk (by simpa using hkj) j (by simp)
          rw [hz] at hu
          rw [g3] at hv
          cases hu
          cases hv
          exact huv
      · rw [g4] at hpw'
        cases hpw'
        exact g6

/-- A periodogram with one peak, at the second of three periods. -/
noncomputable def demoBlsPg : BlsPg := ⟨[1, 2, 4], [0, 1, 1 / 2], [0, 0, 0], [("depth", [0, 1, 0])]⟩

theorem demoBlsPg_max : LocalMax demoBlsPg.power 1 := by
  refine ⟨0, 1, 1 / 2, le_refl _, rfl, rfl, rfl, ?_, ?_⟩ <;> norm_num

theorem demoBlsPg_ok : demoBlsPg.Ok ∧ (demoBlsPg.period.map fun p => 1 / p).Nodup := by
  refine ⟨⟨rfl, rfl, ?_⟩, ?_⟩
  · intro kv hkv
    cases hkv with
    | head => rfl
    | tail _ h => cases h
  · simp only [demoBlsPg, List.map_cons, List.map_nil, List.nodup_cons, List.mem_cons, List.not_mem_nil, or_false, not_or]
    norm_num

example : ∃ argsort r info, IsArgsort argsort ∧ demoBlsPg.Ok ∧ blsFinish argsort 3 demoBlsPg = .ok r ∧ r.peak_info = some info := by
  obtain ⟨argsort, ha⟩ := exists_isArgsort
  obtain ⟨r, h1, -, h2, -⟩ := C63_peak_info_iff argsort ha 3 demoBlsPg demoBlsPg_ok.1 demoBlsPg_ok.2
  cases h : r.peak_info with
  | none => exact absurd demoBlsPg_max (h2.1 h 1)
  | some info => exact ⟨argsort, r, info, ha, demoBlsPg_ok.1, h1, h⟩

/-! ## The assumptions on `BoxLeastSquares` can be met -/

open Classical in
/-- A stand-in for `BoxLeastSquares`: astropy's `autoperiod` and a fixed periodogram; unknown keywords are rejected. -/
noncomputable def demoBls : Bls where
  autoperiod t _ _ dur kw := if ∃ key, key ∉ blsKeywords ∧ kw key ≠ none then .error (.typeError "keyword") else astropyAutoperiod t dur kw
  autopower _ _ _ _ kw := if ∃ key, key ∉ blsKeywords ∧ kw key ≠ none then .error (.typeError "keyword") else .ok demoBlsPg

theorem npRound_le (v : ℝ) : (npRound v : ℝ) ≤ v + 1 / 2 := by
  have h1 := Int.floor_le v
  unfold npRound
  simp only
  split_ifs <;> push_cast <;> linarith

/-- C63. The rounding that astropy uses for the number of periods: `np.round` rounds to the nearest integer, and to the even one of two. -/
theorem C63_np_round (v : ℝ) : |(npRound v : ℝ) - v| ≤ 1 / 2 ∧ (|(npRound v : ℝ) - v| = 1 / 2 → Even (npRound v)) := by
  have h1 := Int.floor_le v
  have h2 := Int.lt_floor_add_one v
  unfold npRound
  simp only
  split_ifs with g1 g2 g3
  · rw [abs_of_nonpos (by linarith)]
    exact ⟨by linarith, fun h => by linarith⟩
  · push_cast
    rw [abs_of_pos (by linarith)]
    exact ⟨by linarith, fun h => by linarith⟩
  · rw [abs_of_nonpos (by linarith)]
    exact ⟨by linarith, fun _ => Int.even_iff.2 g3⟩
  · push_cast
    rw [abs_of_pos (by linarith)]
    exact ⟨by linarith, fun _ => Int.even_iff.2 (by omega)⟩

example : npRound 0.5 = 0 ∧ npRound 1.5 = 2 := by
  constructor <;> norm_num [npRound]

/-- C63. The longest period that astropy tries is the longest of which the required number of transits fits into the observations. -/
theorem C63_longest_period {kw : Kw} {span p : ℝ} (h : autoperiodMax kw span = .ok p) (h0 : kw.get "maximum_period" none = none) :
    1 < (kw.get "minimum_n_transit" (some 3)).getD 3 ∧ ((kw.get "minimum_n_transit" (some 3)).getD 3 - 1) * p = span := by
  unfold autoperiodMax at h
  rw [h0] at h
  simp only at h
  split_ifs at h with h1
  cases h
  have : (kw.get "minimum_n_transit" (some 3)).getD 3 - 1 ≠ 0 := (sub_pos.2 (not_le.1 h1)).ne'
  exact ⟨not_le.1 h1, by field_simp⟩

example : autoperiodMax (fun _ => none) 90 = .ok 45 := by
  norm_num [autoperiodMax, Kw.get]

/-- The grid of astropy's `autoperiod` shrinks as the frequency factor grows. -/
theorem astropyAutoperiod_grid (t dur : List ℝ) (kw : Kw) : ∃ c : ℝ, ∀ ff, 0 < ff → ∀ r,
    astropyAutoperiod t dur (Kw.set kw "frequency_factor" (some ff)) = .ok r → (r.length : ℝ) ≤ 3 / 2 + c / ff := by
  cases h1 : npMax t with
  | error e => exact ⟨0, fun ff _ r h => by unfold astropyAutoperiod at h; rw [h1] at h; cases h⟩
  | ok hi =>
  cases h2 : npMin t with
  | error e => exact ⟨0, fun ff _ r h => by unfold astropyAutoperiod at h; rw [h1, h2] at h; cases h⟩
  | ok lo =>
  cases h3 : npMin dur with
  | error e => exact ⟨0, fun ff _ r h => by unfold astropyAutoperiod at h; rw [h1, h2, h3] at h; cases h⟩
  | ok dmin =>
  cases h4 : npMax dur with
  | error e => exact ⟨0, fun ff _ r h => by unfold astropyAutoperiod at h; rw [h1, h2, h3, h4] at h; cases h⟩
  | ok dmax =>
  have hset : ∀ ff, autoperiodMax (Kw.set kw "frequency_factor" (some ff)) (hi - lo) = autoperiodMax kw (hi - lo) := fun ff => rfl
  cases h5 : autoperiodMax kw (hi - lo) with
  | error e => exact ⟨0, fun ff _ r h => by
      unfold astropyAutoperiod at h; rw [h1, h2, h3, h4] at h; change (autoperiodMax _ (hi - lo) >>= _) = _ at h
      rw [hset, h5] at h; cases h⟩
  | ok maxp =>
  have hmin : ∀ ff, ((Kw.set kw "frequency_factor" (some ff)).get "minimum_period" none) = kw.get "minimum_period" none := fun ff => rfl
  have hff : ∀ ff : ℝ, ((Kw.set kw "frequency_factor" (some ff)).get "frequency_factor" (some 1)).getD 1 = ff := fun ff => rfl
  generalize hmp : (kw.get "minimum_period" none).getD (2 * dmax) = minp
  refine ⟨|(1 / min minp maxp - 1 / max minp maxp) / (dmin / (hi - lo) ^ 2)|, fun ff hpos r h => ?_⟩
  have h' : autoperiodGrid minp maxp (ff * dmin / (hi - lo) ^ 2) = .ok r := by
    rw [← hmp, ← hmin ff]
    conv_lhs => rw [← hff ff]
    unfold astropyAutoperiod at h
    rw [h1, h2, h3, h4] at h
    change (autoperiodMax _ (hi - lo) >>= _) = _ at h
    rw [hset, h5] at h
    exact h
  unfold autoperiodGrid at h'
  split_ifs at h' with g1 g2
  cases h'
  rw [List.length_map, List.length_range]
  generalize hv : (1 / min minp maxp - 1 / max minp maxp) / (ff * dmin / (hi - lo) ^ 2) = v
  have hv' : v ≤ |(1 / min minp maxp - 1 / max minp maxp) / (dmin / (hi - lo) ^ 2)| / ff := by
    refine (le_abs_self v).trans (le_of_eq ?_)
    rw [← hv, mul_div_assoc, ← div_div, abs_div, abs_div, abs_div _ (dmin / _), abs_of_pos hpos]
    ring
  have hn := npRound_le v
  rcases le_total 0 (1 + npRound v) with h0 | h0
  · have : (((1 + npRound v).toNat : ℤ) : ℝ) = ((1 + npRound v : ℤ) : ℝ) := by rw [Int.toNat_of_nonneg h0]
    rw [Int.cast_natCast] at this
    rw [this]
    push_cast
    linarith
  · rw [Int.toNat_of_nonpos h0]
    have : 0 ≤ |(1 / min minp maxp - 1 / max minp maxp) / (dmin / (hi - lo) ^ 2)| / ff := by positivity
    push_cast
    linarith

theorem demoBls_ok : demoBls.Ok where
  grid t y yerr dur kw := by
    obtain ⟨c, hc⟩ := astropyAutoperiod_grid t dur kw
    refine ⟨c, fun ff hff r hr => hc ff hff r ?_⟩
    unfold demoBls at hr
    simp only at hr
    split_ifs at hr
    exact hr
  unknownPeriod t y yerr dur kw key h1 h2 := ⟨_, if_pos ⟨key, h1, h2⟩⟩
  unknownPower t y yerr dur kw key h1 h2 := ⟨_, if_pos ⟨key, h1, h2⟩⟩

/-- A successful call: two observations, a given frequency factor. -/
example : ∃ argsort r, blsEstimator demoBls argsort 0 [0, 10] [1, 1] none [1] none none (fun k => if k = "frequency_factor" then some (some 1) else none) =
    some (.ok r) := by
  obtain ⟨argsort, ha⟩ := exists_isArgsort
  obtain ⟨r, h1, -⟩ := C63_peak_info_iff argsort ha (0.5 * (0 + 10)) demoBlsPg demoBlsPg_ok.1 demoBlsPg_ok.2
  refine ⟨argsort, r, ?_⟩
  have href : blsRef [0, 10] = .ok (0.5 * (0 + 10)) := by
    unfold blsRef
    rw [show npMin [0, 10] = .ok 0 by unfold npMin; simp, show npMax [0, 10] = .ok 10 by unfold npMax; simp]
    rfl
  unfold blsEstimator
  rw [href]
  simp only
  unfold blsKw
  simp only
  rw [blsKw0_other _ _ _ _ (by decide) (by decide), if_pos rfl]
  simp only
  unfold demoBls
  simp only
  rw [if_neg]
  · rw [← h1]
  · rintro ⟨key, hk, hne⟩
    simp only [blsKeywords, List.mem_cons, List.not_mem_nil, or_false, not_or] at hk
    rw [blsKw0_other _ _ _ _ hk.1 hk.2.1, if_neg hk.2.2.2] at hne
    exact hne rfl

end Exo
