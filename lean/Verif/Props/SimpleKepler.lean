import Verif.Props.Depth
import Verif.Props.Duration
import Verif.Props.Simple
import Verif.Lemmas.FluxContinuous
import Mathlib.Analysis.Convex.SpecificFunctions.Deriv
import Mathlib.Topology.UniformSpace.HeineCantor

/-!
# C88: a `SimpleTransitOrbit` and a circular `KeplerianOrbit` with the same duration
-/

namespace Exo
open Real

/-- Both separations in terms of the time `w` since the nearest transit. -/
theorem both_positions {C : Consts} {A : Args} {o : Orbit} (h : keplerianInit C A = .ok o) (hp : o.Physical) {d P b k R : ℝ}
    (hA : A.DurationCirc d P b k R) (hd : 0 < d) (hdP : d ≤ P / 2) (hk : 0 < 1 + k) (hb : |b| < 1 + k) (t : ℝ) :
    0 < P ∧ 0 < R ∧ 0 < π * d / P ∧ π * d / P ≤ π / 2 ∧ 0 < sin (π * d / P) ∧ 0 < R ^ 2 * ((1 + k) ^ 2 - b ^ 2) ∧
    (o.relativePosition C t).x ^ 2 + (o.relativePosition C t).y ^ 2 = (b * R) ^ 2 +
      R ^ 2 * ((1 + k) ^ 2 - b ^ 2) * (sin (2 * π / P * |wrap (t - o.t0) P|) / sin (π * d / P)) ^ 2 ∧
    (0 < (o.relativePosition C t).z ↔ 0 < cos (2 * π / P * |wrap (t - o.t0) P|)) ∧
    ∃ x z, (simpleInit P d o.t0 b R k).relativePosition t = .ok (some x, b * R, z) ∧
      x ^ 2 + (b * R) ^ 2 = (b * R) ^ 2 + R ^ 2 * ((1 + k) ^ 2 - b ^ 2) * (|wrap (t - o.t0) P| / (d / 2)) ^ 2 ∧
      (0 < z ↔ |wrap (t - o.t0) P| < d / 2) := by
  have B := built_of_init h
  obtain ⟨e1, e2, e3, e4, -⟩ := B.durationCirc hA
  have hP : 0 < P := e2 ▸ hp.period_pos
  have hR : 0 < R := e3 ▸ hp.r_star_pos
  have hpi := pi_pos
  obtain ⟨hs, -, key⟩ := B.durationCirc_geom hp hA hd hdP hk hb
  obtain ⟨g1, g2, g3, -⟩ := aorFromDuration_spec hP hd hdP hb.le
  obtain ⟨-, hW⟩ := simple_speed (P := P) (d := d) (t0 := o.t0) (R := R) hk hb
  have hasi : 0 < o.a * o.sin_incl := mul_pos hp.a_pos hs
  obtain ⟨s1, s2⟩ := B.sep_circ hp e1 t
  obtain ⟨j, hj⟩ := wrap_spec (t - o.t0) P
  have hph : o.n * (t - o.t0) = 2 * π / P * wrap (t - o.t0) P + j * (2 * π) := by
    rw [B.n_eq, e2]
    have : 2 * π / P * (t - o.t0) = 2 * π / P * (wrap (t - o.t0) P + j * P) := congrArg _ hj
    rw [this]
    field_simp
  have habs : ∀ x : ℝ, sin (2 * π / P * x) ^ 2 = sin (2 * π / P * |x|) ^ 2 ∧ cos (2 * π / P * x) = cos (2 * π / P * |x|) := by
    intro x
    rcases abs_choice x with h | h <;> rw [h]
    · exact ⟨rfl, rfl⟩
    · rw [mul_neg, cos_neg, sin_neg, neg_sq]; exact ⟨rfl, rfl⟩
  rw [hph, sin_add_int_mul_two_pi, (habs (wrap (t - o.t0) P)).1, e3, e4] at s1
  rw [hph, cos_add_int_mul_two_pi, (habs (wrap (t - o.t0) P)).2] at s2
  refine ⟨hP, hR, g1, g2, g3, by positivity, ?_, ?_, ?_⟩
  · rw [s1, ← key]
    field_simp
  · rw [s2]
    exact ⟨fun hz => pos_of_mul_pos_right hz hasi.le, fun hc => mul_pos hasi hc⟩
  · obtain ⟨v, hv, hv2, -, hpos⟩ := simple_position (P := P) (t0 := o.t0) hd hR hk hb t
    refine ⟨_, _, hpos, ?_, ?_⟩
    · rw [← hv2, div_pow _ (d / 2), sq_abs]
      field_simp
      ring
    · split_ifs with hc
      · simp [hc]
      · simp [hc]

/-- The sine lies above its chord. -/
theorem sin_chord {q u : ℝ} (hq0 : 0 ≤ q) (hq : q ≤ π) (hu0 : 0 ≤ u) (hu1 : u ≤ 1) : u * sin q ≤ sin (u * q) := by
  have := strictConcaveOn_sin_Icc.concaveOn.2 (⟨le_rfl, pi_pos.le⟩ : (0 : ℝ) ∈ Set.Icc 0 π) (⟨hq0, hq⟩ : q ∈ Set.Icc 0 π)
    (sub_nonneg.2 hu1) hu0 (by ring)
  simpa using this

/-- How far the sine is from its argument. -/
theorem div_sin_sq_le {q : ℝ} (h0 : 0 < q) (h1 : q ≤ 1) : (q / sin q) ^ 2 - 1 ≤ q ^ 2 := by
  have h2 := sin_gt_sub_cube h0
  have hy : q ^ 2 ≤ 1 := by nlinarith
  have hy0 : 0 ≤ q ^ 2 := sq_nonneg q
  have hpos : 0 < q - q ^ 3 / 6 := by
    have : q ^ 3 ≤ q := by nlinarith
    linarith
  have h3 : (q / sin q) ^ 2 ≤ (q / (q - q ^ 3 / 6)) ^ 2 := by
    have : 0 < sin q := by linarith
    gcongr
  have h4 : (q / (q - q ^ 3 / 6)) ^ 2 ≤ 1 + q ^ 2 := by
    rw [div_pow, div_le_iff₀ (by positivity)]
    have e : (1 + q ^ 2) * (q - q ^ 3 / 6) ^ 2 - q ^ 2 = q ^ 2 * (q ^ 2 * (2 / 3 - 11 / 36 * q ^ 2 + (q ^ 2) ^ 2 / 36)) := by ring
    have : 0 ≤ 2 / 3 - 11 / 36 * q ^ 2 + (q ^ 2) ^ 2 / 36 := by nlinarith [sq_nonneg (q ^ 2)]
    have : 0 ≤ q ^ 2 * (q ^ 2 * (2 / 3 - 11 / 36 * q ^ 2 + (q ^ 2) ^ 2 / 36)) := by positivity
    linarith
  linarith

/-! ## Positions -/

/-- **C88** (positions): within `duration/2` of a transit the planet of the `SimpleTransitOrbit` is on the sky at least as near to the centre
of the star as that of the `KeplerianOrbit`; at the transit and at the contacts they are equally near; and the squares of the distances
differ by less than `(pi duration / period)²` times the square of half the chord. -/
theorem C88_positions (C : Consts) (A : Args) (o : Orbit) (h : keplerianInit C A = .ok o) (hp : o.Physical) (d P b k R : ℝ)
    (hA : A.DurationCirc d P b k R) (hd : 0 < d) (hdP : d ≤ P / 2) (hk : 0 < 1 + k) (hb : |b| < 1 + k) (t : ℝ) (j : ℤ)
    (ht : |t - (o.t0 + j * P)| ≤ d / 2) :
    ∃ x y z, (simpleInit P d o.t0 b R k).relativePosition t = .ok (some x, y, z) ∧
      (let v := o.relativePosition C t
      x ^ 2 + y ^ 2 ≤ v.x ^ 2 + v.y ^ 2 ∧
      ((t = o.t0 + j * P ∨ |t - (o.t0 + j * P)| = d / 2) → v.x ^ 2 + v.y ^ 2 = x ^ 2 + y ^ 2) ∧
      (π * d ≤ P → v.x ^ 2 + v.y ^ 2 ≤ x ^ 2 + y ^ 2 + R ^ 2 * ((1 + k) ^ 2 - b ^ 2) * (π * d / P) ^ 2)) := by
  obtain ⟨hP, hR, g1, g2, g3, hW, s1, s2, x, z, hpos, hx, -⟩ := both_positions h hp hA hd hdP hk hb t
  have hw : wrap (t - o.t0) P = t - (o.t0 + j * P) := by
    rw [abs_le] at ht
    exact wrap_eq hP (by linarith) (by linarith) j (by ring)
  rw [hw] at s1 hx
  generalize hs : |t - (o.t0 + j * P)| = s at *
  have hs0 : 0 ≤ s := hs ▸ abs_nonneg _
  have hu0 : 0 ≤ s / (d / 2) := by positivity
  have hu1 : s / (d / 2) ≤ 1 := by rw [div_le_one (by positivity)]; exact ht
  have harg : 2 * π / P * s = s / (d / 2) * (π * d / P) := by field_simp
  rw [harg] at s1
  refine ⟨x, b * R, z, hpos, ?_⟩
  simp only
  rw [s1, hx]
  generalize hu : s / (d / 2) = u at *
  generalize hq : π * d / P = q at *
  have hc := sin_chord g1.le (by linarith [pi_pos]) hu0 hu1
  refine ⟨?_, ?_, ?_⟩
  · have : u ≤ sin (u * q) / sin q := by rwa [le_div_iff₀ g3]
    gcongr
  · rintro (h0 | h0)
    · have : s = 0 := by rw [← hs, h0]; simp
      rw [← hu, this]; simp
    · have : u = 1 := by rw [← hu, h0]; field_simp
      rw [this, one_mul, div_self g3.ne']
  · intro hlong
    have hq1 : q ≤ 1 := by rw [← hq, div_le_one hP]; exact hlong
    have h1 : sin (u * q) / sin q ≤ u * (q / sin q) := by
      rw [← mul_div_assoc]
      exact div_le_div_of_nonneg_right (sin_le (by positivity)) g3.le
    have h2 : 0 ≤ sin (u * q) / sin q := by
      have : 0 ≤ u * sin q := by positivity
      exact div_nonneg (by linarith) g3.le
    have h3 : (sin (u * q) / sin q) ^ 2 ≤ u ^ 2 + q ^ 2 := by
      calc (sin (u * q) / sin q) ^ 2 ≤ (u * (q / sin q)) ^ 2 := by gcongr
        _ = u ^ 2 + u ^ 2 * ((q / sin q) ^ 2 - 1) := by ring
        _ ≤ u ^ 2 + u ^ 2 * q ^ 2 := by have := div_sin_sq_le g1 hq1; gcongr
        _ ≤ u ^ 2 + 1 * q ^ 2 := by
          have : u ^ 2 ≤ 1 := by nlinarith
          gcongr
        _ = _ := by ring
    have : R ^ 2 * ((1 + k) ^ 2 - b ^ 2) * (sin (u * q) / sin q) ^ 2 ≤ R ^ 2 * ((1 + k) ^ 2 - b ^ 2) * (u ^ 2 + q ^ 2) := by gcongr
    linarith

/-! ## `in_transit` -/

/-- **C88** (`in_transit`): both orbits report the same times, except those exactly at a contact, which the `KeplerianOrbit` reports and
the `SimpleTransitOrbit` does not, whether it is told the radius or not. -/
theorem C88_in_transit (C : Consts) (cp : ContactOp) (A : Args) (o : Orbit) (h : keplerianInit C A = .ok o) (hp : o.Physical)
    (d P b k R : ℝ) (hA : A.DurationCirc d P b k R) (hd : 0 < d) (hdP : d ≤ P / 2) (hk : 0 ≤ k) (hb : |b| < 1 + k) (ts : List ℝ) :
    ∃ lK lS lS', inTransit cp [(o, k * R)] ts = .ok lK ∧ simpleInTransit [simpleInit P d o.t0 b R k] ts = .ok lS ∧
      simpleInTransit [simpleInit P d o.t0 b R k] ts (some [k * R]) = .ok lS' ∧
      ∀ i, (i ∈ lS' ↔ i ∈ lS) ∧
        (i ∈ lS ↔ i ∈ lK ∧ ¬ ∃ h : i < ts.length, ∃ j : ℤ, |ts[i] - (o.t0 + j * P)| = d / 2) := by
  obtain ⟨hP, hR, -⟩ := both_positions h hp hA hd hdP (by linarith) hb 0
  obtain ⟨lK, k1, k2⟩ := C24_in_transit C cp A o h hp d P b k R hA hd hdP hk hb ts
  obtain ⟨lS, s1, s2⟩ := C27_in_transit_default P d o.t0 b R k hP (by linarith) ts
  obtain ⟨l', r1, -, r2⟩ := C27_in_transit [(simpleInit P d o.t0 b R k, k * R)]
    (by simp only [List.mem_singleton, forall_eq]; exact ⟨P, d, o.t0, b, R, k, rfl, hP, hd, hR, by linarith, hb⟩)
    (by simp only [List.mem_singleton, forall_eq]; positivity) ts
  refine ⟨lK, lS, l', k1, s1, r1, fun i => ⟨?_, ?_⟩⟩
  · rw [r2, s2]
    refine exists_congr fun hi => ?_
    obtain ⟨x, y, z, c1, -, c3, -⟩ := C27_contacts P d o.t0 b R k hP hd (by linarith) hR (by linarith) hb ts[i]
    simp only [List.mem_singleton, exists_eq_left, c1, Except.ok.injEq, Prod.mk.injEq, Option.some.injEq]
    rw [← c3, show R * (1 + k) = R + k * R by ring]
    constructor
    · rintro ⟨x', y', z', ⟨rfl, rfl, rfl⟩, h⟩
      exact h
    · exact fun h => ⟨x, y, z, ⟨rfl, rfl, rfl⟩, h⟩
  · rw [k2, s2]
    constructor
    · rintro ⟨hi, j, hj⟩
      refine ⟨⟨hi, j, hj.le⟩, ?_⟩
      rintro ⟨_, j', hj'⟩
      have e1 := wrap_eq (x := ts[i] - o.t0) (y := ts[i] - (o.t0 + j * P)) hP (by linarith [(abs_lt.1 hj).1]) (by linarith [(abs_lt.1 hj).2]) j (by ring)
      have e2 := wrap_eq (x := ts[i] - o.t0) (y := ts[i] - (o.t0 + j' * P)) hP (by linarith [neg_abs_le (ts[i] - (o.t0 + j' * P))])
        (by linarith [le_abs_self (ts[i] - (o.t0 + j' * P))]) j' (by ring)
      rw [← e2, e1] at hj'
      linarith
    · rintro ⟨⟨hi, j, hj⟩, hn⟩
      exact ⟨hi, j, hj.lt_of_ne fun he => hn ⟨hi, j, he⟩⟩

/-! ## Fluxes -/

/-- The flux of the `SimpleTransitOrbit` and that of the `KeplerianOrbit`. -/
theorem both_fluxes {C : Consts} {A : Args} {o : Orbit} (h : keplerianInit C A = .ok o) (hp : o.Physical) {d P b k R : ℝ}
    (hA : A.DurationCirc d P b k R) (hd : 0 < d) (hdP : d ≤ P / 2) (hk : 0 < 1 + k) (hb : |b| < 1 + k) {u1 u2 : ℝ}
    (hu : PhysicalLaw u1 u2) (t : ℝ) : ∃ x y z, (simpleInit P d o.t0 b R k).relativePosition t = .ok (some x, y, z) ∧
      (|wrap (t - o.t0) P| < d / 2 → 0 < z ∧ 0 < (o.relativePosition C t).z) ∧
      (d / 2 ≤ |wrap (t - o.t0) P| → fluxAt (getCl u1 u2) R (k * R) ⟨x, y, z⟩ = 0 ∧
        fluxAt (getCl u1 u2) R (k * R) (o.relativePosition C t) = 0) := by
  obtain ⟨hP, hR, g1, g2, g3, hW, s1, s2, x, z, hpos, hx, hz⟩ := both_positions h hp hA hd hdP hk hb t
  have hpi := pi_pos
  refine ⟨x, b * R, z, hpos, fun hw => ⟨hz.2 hw, s2.2 ?_⟩, fun hw => ⟨?_, ?_⟩⟩
  · refine cos_pos_of_mem_Ioo ⟨?_, ?_⟩
    · have : 0 ≤ 2 * π / P * |wrap (t - o.t0) P| := by positivity
      linarith
    · calc 2 * π / P * |wrap (t - o.t0) P| < 2 * π / P * (d / 2) := by gcongr
        _ = π * d / P := by field_simp
        _ ≤ π / 2 := g2
  · refine C37_behind _ _ _ _ (div_nonpos_of_nonpos_of_nonneg ?_ hR.le)
    exact not_lt.1 fun h => absurd (hz.1 h) (not_lt.2 hw)
  · by_cases hz' : 0 < (o.relativePosition C t).z
    · have hc := s2.1 hz'
      have hwP : |wrap (t - o.t0) P| ≤ P / 2 := abs_le.2 ⟨wrap_ge hP, (wrap_lt hP).le⟩
      have hle : 2 * π / P * |wrap (t - o.t0) P| ≤ π := by
        calc 2 * π / P * |wrap (t - o.t0) P| ≤ 2 * π / P * (P / 2) := by gcongr
          _ = π := by field_simp
      have hlt : 2 * π / P * |wrap (t - o.t0) P| < π / 2 := by
        by_contra hn
        exact absurd (cos_nonpos_of_pi_div_two_le_of_le (not_lt.1 hn) (by linarith)) (not_le.2 hc)
      have hge : π * d / P ≤ 2 * π / P * |wrap (t - o.t0) P| := by
        calc π * d / P = 2 * π / P * (d / 2) := by field_simp
          _ ≤ _ := by gcongr
      have hsin := sin_le_sin_of_le_of_le_pi_div_two (by linarith) hlt.le hge
      have h1 : (1 : ℝ) ≤ sin (2 * π / P * |wrap (t - o.t0) P|) / sin (π * d / P) := by rwa [le_div_iff₀ g3, one_mul]
      refine C37_apart _ _ _ _ _ hu ?_
      rw [mul_div_cancel_right₀ _ hR.ne', le_div_iff₀ hR]
      refine le_sqrt_of_sq_le ?_
      rw [s1]
      have : R ^ 2 * ((1 + k) ^ 2 - b ^ 2) * 1 ^ 2 ≤
          R ^ 2 * ((1 + k) ^ 2 - b ^ 2) * (sin (2 * π / P * |wrap (t - o.t0) P|) / sin (π * d / P)) ^ 2 := by gcongr
      linarith
    · exact C37_behind _ _ _ _ (div_nonpos_of_nonpos_of_nonneg (not_lt.1 hz') hR.le)

/-- The time since the nearest transit. -/
theorem near_transit {t t0 P : ℝ} {s : ℝ} (h : |wrap (t - t0) P| ≤ s) : ∃ j : ℤ, |t - (t0 + j * P)| ≤ s ∧
    wrap (t - t0) P = t - (t0 + j * P) := by
  obtain ⟨j, hj⟩ := wrap_spec (t - t0) P
  have e : wrap (t - t0) P = t - (t0 + j * P) := by linarith
  exact ⟨j, e ▸ h, e⟩

/-- The flux of the `SimpleTransitOrbit` lies below. -/
theorem simple_deeper {C : Consts} {A : Args} {o : Orbit} (h : keplerianInit C A = .ok o) (hp : o.Physical) {d P b k R : ℝ}
    (hA : A.DurationCirc d P b k R) (hd : 0 < d) (hdP : d ≤ P / 2) (hk : 0 < 1 + k) (hb : |b| < 1 + k) {u1 u2 : ℝ}
    (hu : PhysicalLaw u1 u2) (hdark : DarkensOutwards u1 u2) (t : ℝ) {x y z : ℝ}
    (hs : (simpleInit P d o.t0 b R k).relativePosition t = .ok (some x, y, z)) :
    fluxAt (getCl u1 u2) R (k * R) ⟨x, y, z⟩ ≤ fluxAt (getCl u1 u2) R (k * R) (o.relativePosition C t) := by
  obtain ⟨hP, hR, -⟩ := both_positions h hp hA hd hdP hk hb t
  obtain ⟨x', y', z', e, h1, h2⟩ := both_fluxes h hp hA hd hdP hk hb hu t
  rw [hs] at e
  simp only [Except.ok.injEq, Prod.mk.injEq, Option.some.injEq] at e
  obtain ⟨rfl, rfl, rfl⟩ := e
  rcases lt_or_ge |wrap (t - o.t0) P| (d / 2) with hw | hw
  · obtain ⟨j, hj, -⟩ := near_transit hw.le
    obtain ⟨x', y', z', e, k1, -⟩ := C88_positions C A o h hp d P b k R hA hd hdP hk hb t j hj
    rw [hs] at e
    simp only [Except.ok.injEq, Prod.mk.injEq, Option.some.injEq] at e
    obtain ⟨rfl, rfl, rfl⟩ := e
    exact fluxAt_nearer hu hdark hR _ (fun _ => (h1 hw).1) k1
  · rw [(h2 hw).1, (h2 hw).2]

/-- The position of the planet of a `SimpleTransitOrbit` as the light curves see it. -/
theorem simpleApi_pos (s : SimpleOrbit) (R : ℝ) : ∃ f, (simpleApi [s] R).pos false = .ok f ∧
    ∀ t x y z, s.relativePosition t = .ok (some x, y, z) → f 0 t = ⟨x, y, z⟩ := by
  refine ⟨_, rfl, fun t x y z h => ?_⟩
  simp [h]

/-! ## Light curves -/

/-- A weighted average is monotone. -/
theorem exposureAverage_mono {F G : ℝ → ℝ} (h : ∀ s, F s ≤ G s) {S : List ℝ × List ℝ} (hw : ∀ w ∈ S.2, 0 ≤ w) (t x : ℝ) :
    exposureAverage F t (some (x, S)) ≤ exposureAverage G t (some (x, S)) := by
  obtain ⟨ds, ws⟩ := S
  simp only [exposureAverage] at hw ⊢
  induction ds generalizing ws with
  | nil => simp
  | cons a ds ih =>
    cases ws with
    | nil => simp
    | cons w ws =>
      simp only [List.zipWith_cons_cons, List.sum_cons]
      exact add_le_add (mul_le_mul_of_nonneg_left (h _) (hw w (by simp))) (ih ws fun w' hw' => hw w' (by simp [hw']))

/-- **C88** (light curves): the light curve of the `SimpleTransitOrbit` is nowhere above that of the `KeplerianOrbit`; they agree at the
transits, and both are zero at the contacts and at all times further than `duration/2` from a transit. -/
theorem C88_light_curve (C : Consts) (cp : ContactOp) (A : Args) (o : Orbit) (h : keplerianInit C A = .ok o) (hp : o.Physical)
    (d P b k R : ℝ) (hA : A.DurationCirc d P b k R) (hd : 0 < d) (hdP : d ≤ P / 2) (hk : 0 < 1 + k) (hb : |b| < 1 + k) (u1 u2 : ℝ)
    (hu : PhysicalLaw u1 u2) (hdark : DarkensOutwards u1 u2) (r t : Tensor ℝ) (hr : r.size = 1)
    (hrk : r.get (Tensor.unravel r.shape 0) = k * R) (oversample order : ℤ) :
    ∃ LK LS, (LimbDark.new u1 u2).getLightCurve (some (keplerApi C cp [o] o.r_star)) (some r) (some t) none oversample order
        (some false) = .ok LK ∧
      (LimbDark.new u1 u2).getLightCurve (some (simpleApi [simpleInit P d o.t0 b R k] R)) (some r) (some t) none oversample order
        (some false) = .ok LS ∧ LK.shape = t.shape ++ [1] ∧ LS.shape = t.shape ++ [1] ∧
      ∀ i, InShape i t.shape → LS.get (i ++ [0]) ≤ LK.get (i ++ [0]) ∧
        ((∃ j : ℤ, t.get i = o.t0 + j * P) → LS.get (i ++ [0]) = LK.get (i ++ [0])) ∧
        ((∀ j : ℤ, d / 2 ≤ |t.get i - (o.t0 + j * P)|) → LS.get (i ++ [0]) = 0 ∧ LK.get (i ++ [0]) = 0) := by
  obtain ⟨hP, hR, -⟩ := both_positions h hp hA hd hdP hk hb 0
  have e3 : o.r_star = R := ((built_of_init h).durationCirc hA).2.2.1
  obtain ⟨f, hf, hpos⟩ := simpleApi_pos (simpleInit P d o.t0 b R k) R
  obtain ⟨LK, h1, h2, h3⟩ := C39_values (LimbDark.new u1 u2) (keplerApi C cp [o] o.r_star) false _ rfl r t hr oversample order
  obtain ⟨LS, s1, s2, s3⟩ := C39_values (LimbDark.new u1 u2) (simpleApi [simpleInit P d o.t0 b R k] R) false f hf r t hr oversample order
  refine ⟨LK, LS, h1, s1, h2, s2, fun i hi => ?_⟩
  rw [h3 i 0 hi Nat.one_pos, s3 i 0 hi Nat.one_pos, hrk]
  obtain ⟨x, y, z, e, f1, f2⟩ := both_fluxes h hp hA hd hdP hk hb hu (t.get i)
  rw [hpos _ _ _ _ e]
  change fluxAt (getCl u1 u2) R (k * R) _ ≤ fluxAt (getCl u1 u2) o.r_star (k * R) (o.relativePosition C (t.get i)) ∧
    (_ → fluxAt (getCl u1 u2) R (k * R) _ = fluxAt (getCl u1 u2) o.r_star (k * R) (o.relativePosition C (t.get i))) ∧
    (_ → fluxAt (getCl u1 u2) R (k * R) _ = 0 ∧ fluxAt (getCl u1 u2) o.r_star (k * R) (o.relativePosition C (t.get i)) = 0)
  rw [e3]
  refine ⟨simple_deeper h hp hA hd hdP hk hb hu hdark _ e, ?_, fun hj => ?_⟩
  · rintro ⟨j, hj⟩
    obtain ⟨x', y', z', e', -, k2, -⟩ := C88_positions C A o h hp d P b k R hA hd hdP hk hb (t.get i) j
      (by rw [hj, sub_self, abs_zero]; positivity)
    rw [e] at e'
    simp only [Except.ok.injEq, Prod.mk.injEq, Option.some.injEq] at e'
    obtain ⟨rfl, rfl, rfl⟩ := e'
    have hw : |wrap (t.get i - o.t0) P| < d / 2 := by
      rw [wrap_eq (y := 0) hP (by linarith) (by linarith) j (by rw [hj]; ring), abs_zero]
      positivity
    have hsep := k2 (Or.inl hj)
    exact le_antisymm (fluxAt_nearer hu hdark hR _ (fun _ => (f1 hw).1) hsep.ge)
      (fluxAt_nearer hu hdark hR _ (fun _ => (f1 hw).2) hsep.le)
  · obtain ⟨j, -, hj'⟩ := near_transit (t := t.get i) (t0 := o.t0) (P := P) le_rfl
    exact f2 (hj' ▸ hj j)

/-- **C88** (exposure times): the same with exposure times. -/
theorem C88_light_curve_exposure (C : Consts) (cp : ContactOp) (A : Args) (o : Orbit) (h : keplerianInit C A = .ok o) (hp : o.Physical)
    (d P b k R : ℝ) (hA : A.DurationCirc d P b k R) (hd : 0 < d) (hdP : d ≤ P / 2) (hk : 0 < 1 + k) (hb : |b| < 1 + k) (u1 u2 : ℝ)
    (hu : PhysicalLaw u1 u2) (hdark : DarkensOutwards u1 u2) (r t x : Tensor ℝ) (hr : r.size = 1)
    (hrk : r.get (Tensor.unravel r.shape 0) = k * R) (hx : x.shape = [] ∨ x.shape = t.shape) (oversample order : ℤ)
    (ho : order = 0 ∨ order = 1 ∨ order = 2) (hn : 1 ≤ oversample) :
    ∃ LK LS, (LimbDark.new u1 u2).getLightCurve (some (keplerApi C cp [o] o.r_star)) (some r) (some t) (some x) oversample order
        (some false) = .ok LK ∧
      (LimbDark.new u1 u2).getLightCurve (some (simpleApi [simpleInit P d o.t0 b R k] R)) (some r) (some t) (some x) oversample order
        (some false) = .ok LS ∧ LK.shape = t.shape ++ [1] ∧ LS.shape = t.shape ++ [1] ∧
      ∀ i, InShape i t.shape → LS.get (i ++ [0]) ≤ LK.get (i ++ [0]) := by
  obtain ⟨hP, hR, -⟩ := both_positions h hp hA hd hdP hk hb 0
  have e3 : o.r_star = R := ((built_of_init h).durationCirc hA).2.2.1
  obtain ⟨f, hf, hpos⟩ := simpleApi_pos (simpleInit P d o.t0 b R k) R
  obtain ⟨S, hS, LK, h1, h2, h3⟩ := C39_values_exposure (LimbDark.new u1 u2) (keplerApi C cp [o] o.r_star) false _ rfl r t x hr hx
    oversample order ho hn
  obtain ⟨S', hS', LS, s1, s2, s3⟩ := C39_values_exposure (LimbDark.new u1 u2) (simpleApi [simpleInit P d o.t0 b R k] R) false f hf r t x hr
    hx oversample order ho hn
  obtain ⟨S'', hS'', -, -, -, hw, -⟩ := C38_weights order oversample ho hn
  rw [hS] at hS' hS''
  cases hS'
  cases hS''
  refine ⟨LK, LS, h1, s1, h2, s2, fun i hi => ?_⟩
  rw [h3 i 0 hi Nat.one_pos, s3 i 0 hi Nat.one_pos, hrk]
  refine exposureAverage_mono (fun s => ?_) (fun w hw' => (hw w hw').le) _ _
  obtain ⟨x, y, z, e, -⟩ := both_fluxes h hp hA hd hdP hk hb hu s
  rw [hpos _ _ _ _ e]
  change fluxAt (getCl u1 u2) R (k * R) _ ≤ fluxAt (getCl u1 u2) o.r_star (k * R) (o.relativePosition C s)
  rw [e3]
  exact simple_deeper h hp hA hd hdP hk hb hu hdark _ e

/-! ## Long periods -/

/-- The fluxes approach each other, uniformly in time. -/
theorem fluxes_close {u1 u2 : ℝ} (hu : PhysicalLaw u1 u2) {d b k R : ℝ} (hd : 0 < d) (hk : 0 < 1 + k) (hb : |b| < 1 + k) {ε : ℝ}
    (hε : 0 < ε) : ∃ P0 > 0, ∀ (C : Consts) (A : Args) (o : Orbit) (P : ℝ), P0 ≤ P → keplerianInit C A = .ok o → o.Physical →
      A.DurationCirc d P b k R → d ≤ P / 2 ∧ ∀ t x y z, (simpleInit P d o.t0 b R k).relativePosition t = .ok (some x, y, z) →
        |fluxAt (getCl u1 u2) R (k * R) ⟨x, y, z⟩ - fluxAt (getCl u1 u2) R (k * R) (o.relativePosition C t)| < ε := by
  obtain ⟨Q, hQ, hQc⟩ : ∃ Q : ℝ × ℝ → ℝ, (∀ b k, quadLimbdarkLightCurve (getCl u1 u2) b k = Q (b, k)) ∧ Continuous Q :=
    ⟨_, fun _ _ => rfl, continuous_quadLc (getCl u1 u2)⟩
  have hQ1 : Continuous fun β => Q (β, k) := hQc.comp (by fun_prop)
  have huc := (isCompact_Icc (a := (0 : ℝ)) (b := 2 * (1 + k))).uniformContinuousOn_of_continuous hQ1.continuousOn
  rw [Metric.uniformContinuousOn_iff] at huc
  obtain ⟨δ, hδ, hclose⟩ := huc ε hε
  have hpi := pi_pos
  refine ⟨max (π * d) ((1 + k) * (π * d) / δ + 1) + 2 * d, ?_, fun C A o P hP0 h hp hA => ?_⟩
  · have := le_max_left (π * d) ((1 + k) * (π * d) / δ + 1)
    have : 0 < π * d := by positivity
    linarith
  have hlong : π * d ≤ P := by linarith [le_max_left (π * d) ((1 + k) * (π * d) / δ + 1)]
  have hlong' : (1 + k) * (π * d) / δ < P := by linarith [le_max_right (π * d) ((1 + k) * (π * d) / δ + 1)]
  have hdP : d ≤ P / 2 := by
    have : 0 < π * d := by positivity
    linarith [le_max_left (π * d) ((1 + k) * (π * d) / δ + 1)]
  refine ⟨hdP, fun t x y z hs => ?_⟩
  obtain ⟨hP, hR, -, -, -, hW, -⟩ := both_positions h hp hA hd hdP hk hb t
  obtain ⟨x', y', z', e, f1, f2⟩ := both_fluxes h hp hA hd hdP hk hb hu t
  rw [hs] at e
  simp only [Except.ok.injEq, Prod.mk.injEq, Option.some.injEq] at e
  obtain ⟨rfl, rfl, rfl⟩ := e
  rcases lt_or_ge |wrap (t - o.t0) P| (d / 2) with hw | hw
  swap
  · rw [(f2 hw).1, (f2 hw).2, sub_zero, abs_zero]
    exact hε
  obtain ⟨hz1, hz2⟩ := f1 hw
  have hfl : ∀ v : V3, 0 < v.z → fluxAt (getCl u1 u2) R (k * R) v = Q (√(v.x ^ 2 + v.y ^ 2) / R, k) := by
    intro v hv
    unfold fluxAt computeLightCurve
    simp only [Option.getD_some]
    rw [if_pos (by positivity), hQ, mul_div_cancel_right₀ _ hR.ne']
  rw [hfl _ hz1, hfl _ hz2]
  obtain ⟨j, hj, hjw⟩ := near_transit hw.le
  obtain ⟨x', y', z', e, k1, -, k3⟩ := C88_positions C A o h hp d P b k R hA hd hdP hk hb t j hj
  rw [hs] at e
  simp only [Except.ok.injEq, Prod.mk.injEq, Option.some.injEq] at e
  obtain ⟨rfl, rfl, rfl⟩ := e
  have k4 := k3 hlong
  obtain ⟨x', y', z', e, -, c3, -⟩ := C27_contacts P d o.t0 b R k hP hd (by linarith) hR hk hb t
  rw [hs] at e
  simp only [Except.ok.injEq, Prod.mk.injEq, Option.some.injEq] at e
  obtain ⟨rfl, rfl, rfl⟩ := e
  have c4 := c3.2 ⟨j, hjw ▸ hw⟩
  generalize o.relativePosition C t = v at k1 k4
  simp only at k1 k4 ⊢
  have hq0 : 0 < π * d / P := by positivity
  have hq1 : π * d / P ≤ 1 := by rw [div_le_one hP]; exact hlong
  have hqδ : (1 + k) * (π * d / P) < δ := by
    rw [div_lt_iff₀ hδ] at hlong'
    rw [← mul_div_assoc, div_lt_iff₀ hP]
    linarith
  generalize π * d / P = q at *
  have m1 : √(x ^ 2 + y ^ 2) ≤ √(v.x ^ 2 + v.y ^ 2) := sqrt_le_sqrt k1
  have m2 : √(v.x ^ 2 + v.y ^ 2) ≤ √(x ^ 2 + y ^ 2) + R * ((1 + k) * q) := by
    rw [sqrt_le_left (by positivity)]
    have hsq := sq_sqrt (show 0 ≤ x ^ 2 + y ^ 2 by positivity)
    have hn := sqrt_nonneg (x ^ 2 + y ^ 2)
    have : R ^ 2 * ((1 + k) ^ 2 - b ^ 2) * q ^ 2 ≤ (R * ((1 + k) * q)) ^ 2 := by
      have : 0 ≤ R ^ 2 * b ^ 2 * q ^ 2 := by positivity
      nlinarith
    have : 0 ≤ √(x ^ 2 + y ^ 2) * (R * ((1 + k) * q)) := by positivity
    nlinarith
  have hn := sqrt_nonneg (x ^ 2 + y ^ 2)
  generalize √(x ^ 2 + y ^ 2) = p at *
  generalize √(v.x ^ 2 + v.y ^ 2) = p' at *
  have hkq : (1 + k) * q ≤ 1 + k := by nlinarith
  have := hclose (p / R) ⟨by positivity, ?_⟩ (p' / R) ⟨by have : 0 ≤ p' := by linarith
                                                          positivity, ?_⟩ ?_
  · rwa [Real.dist_eq] at this
  · rw [div_le_iff₀ hR]; nlinarith
  · rw [div_le_iff₀ hR]; nlinarith
  · rw [Real.dist_eq, ← sub_div, abs_div, abs_of_pos hR, div_lt_iff₀ hR, abs_sub_comm, abs_of_nonneg (by linarith)]
    have := mul_lt_mul_of_pos_left hqδ hR
    linarith

/-- **C88** (long periods): the longer the period, the closer are the two light curves, uniformly in time: for given duration, impact
parameter, radii and limb-darkening coefficients and for every tolerance there is a period from which on no two values differ by more. -/
theorem C88_long_period (u1 u2 : ℝ) (hu : PhysicalLaw u1 u2) (d b k R : ℝ) (hd : 0 < d) (hk : 0 < 1 + k) (hb : |b| < 1 + k) (ε : ℝ)
    (hε : 0 < ε) : ∃ P0 > 0, ∀ (C : Consts) (cp : ContactOp) (A : Args) (o : Orbit) (P : ℝ), P0 ≤ P → keplerianInit C A = .ok o →
      o.Physical → A.DurationCirc d P b k R → ∀ (r t : Tensor ℝ), r.size = 1 → r.get (Tensor.unravel r.shape 0) = k * R →
      ∀ oversample order : ℤ, ∃ LK LS,
      (LimbDark.new u1 u2).getLightCurve (some (keplerApi C cp [o] o.r_star)) (some r) (some t) none oversample order
        (some false) = .ok LK ∧
      (LimbDark.new u1 u2).getLightCurve (some (simpleApi [simpleInit P d o.t0 b R k] R)) (some r) (some t) none oversample order
        (some false) = .ok LS ∧ LK.shape = t.shape ++ [1] ∧ LS.shape = t.shape ++ [1] ∧
      ∀ i, InShape i t.shape → |LS.get (i ++ [0]) - LK.get (i ++ [0])| < ε := by
  obtain ⟨P0, hP0, H⟩ := fluxes_close hu hd hk hb (R := R) hε
  refine ⟨P0, hP0, fun C cp A o P hP h hp hA r t hr hrk oversample order => ?_⟩
  obtain ⟨hdP, H⟩ := H C A o P hP h hp hA
  have e3 : o.r_star = R := ((built_of_init h).durationCirc hA).2.2.1
  obtain ⟨f, hf, hpos⟩ := simpleApi_pos (simpleInit P d o.t0 b R k) R
  obtain ⟨LK, h1, h2, h3⟩ := C39_values (LimbDark.new u1 u2) (keplerApi C cp [o] o.r_star) false _ rfl r t hr oversample order
  obtain ⟨LS, s1, s2, s3⟩ := C39_values (LimbDark.new u1 u2) (simpleApi [simpleInit P d o.t0 b R k] R) false f hf r t hr oversample order
  refine ⟨LK, LS, h1, s1, h2, s2, fun i hi => ?_⟩
  rw [h3 i 0 hi Nat.one_pos, s3 i 0 hi Nat.one_pos, hrk]
  obtain ⟨x, y, z, e, -⟩ := both_fluxes h hp hA hd hdP hk hb hu (t.get i)
  rw [hpos _ _ _ _ e]
  change |fluxAt (getCl u1 u2) R (k * R) _ - fluxAt (getCl u1 u2) o.r_star (k * R) (o.relativePosition C (t.get i))| < ε
  rw [e3]
  exact H _ _ _ _ e

/-! ### Examples -/

/-- Hypotheses of all of the above: `demoDuration` (`period=1, duration=0.1, b=0.3, ror=0.1, r_star=1, t0=2`). -/
example (C : Consts) : ∃ o, keplerianInit C demoDuration = .ok o ∧ o.Physical ∧ demoDuration.DurationCirc (1 / 10) 1 (3 / 10) (1 / 10) 1 ∧
    (0 : ℝ) < 1 / 10 ∧ (1 / 10 : ℝ) ≤ 1 / 2 ∧ |(3 / 10 : ℝ)| < 1 + 1 / 10 ∧ PhysicalLaw 0.3 0.2 ∧ DarkensOutwards 0.3 0.2 := by
  obtain ⟨o, h1, h2, h3⟩ := demoDuration_ok C
  exact ⟨o, h1, h2, h3, by norm_num, by norm_num, by rw [abs_of_pos] <;> norm_num,
    physicalLaw_of_kipping (by norm_num) (by norm_num), (darkensOutwards_iff _ _).2 ⟨by norm_num, by norm_num⟩⟩

end Exo
