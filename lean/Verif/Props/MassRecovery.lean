import Mathlib.Analysis.Convex.SpecificFunctions.Basic
import Mathlib.Analysis.Real.Pi.Bounds
import Verif.Props.MinimumMass
import Verif.Props.Constants
import Verif.Props.Anomaly
import Verif.Spec.MassRecovery

/-!
# C135: minimum masses from the velocities of an orbit
-/

namespace Exo
open Real

theorem cube_root_unique {x y : ℝ} (hx : 0 ≤ x) (h : x ^ 3 = y) : x = y ^ (1 / 3 : ℝ) := by
  rw [← h, ← rpow_natCast, ← rpow_mul hx]
  norm_num

/-- The semi-amplitude in m/s of a circular orbit. -/
theorem semiAmplitude_year (S : Astropy) (C : Consts) (hC : C.From S) (A : Args) (o : Orbit) (h : keplerianInit C A = .ok o)
    (hp : o.Physical) (he : o.ecc = none) :
    semiAmplitude C o C.mPerS = S.unitSpeed * o.minimumMass / ((o.m_star + o.m_planet) ^ (2 / 3 : ℝ) * (o.period / 365.25) ^ (1 / 3 : ℝ)) := by
  have l1 := (C01_third_law_and_density C A o h hp).1
  obtain ⟨k1, -⟩ := From.facts hC
  have h2 := S.R_sun_pos
  have h3 := S.M_sun_pos
  have h4 := S.day_pos
  have h5 := S.G_pos
  have hpi := pi_pos
  have hP := hp.period_pos
  have ha := hp.a_pos
  have hM : 0 < o.m_star + o.m_planet := add_pos_of_pos_of_nonneg hp.m_star_pos hp.m_planet_nonneg
  have e0 : o.eccVal = 0 := by unfold Orbit.eccVal; rw [he]
  have hG : S.G * S.M_sun * S.day ^ 2 = C.G * S.R_sun ^ 3 := by
    rw [← k1]
    field_simp
  have key : 2 * π / o.period * o.a * (S.R_sun / S.day) =
      S.unitSpeed * (o.m_star + o.m_planet) ^ (1 / 3 : ℝ) / (o.period / 365.25) ^ (1 / 3 : ℝ) := by
    unfold Astropy.unitSpeed
    rw [← mul_rpow (by positivity) hM.le, ← div_rpow (by positivity) (by positivity)]
    apply cube_root_unique (by positivity)
    have l1' : C.G * (o.m_star + o.m_planet) = 4 * π ^ 2 * o.a ^ 3 / o.period ^ 2 := by
      rw [l1]; field_simp
    have l2 : S.G * S.M_sun * (o.m_star + o.m_planet) = 4 * π ^ 2 * o.a ^ 3 / o.period ^ 2 * S.R_sun ^ 3 / S.day ^ 2 := by
      rw [← l1', eq_div_iff (by positivity)]
      linear_combination (o.m_star + o.m_planet) * hG
    rw [show 2 * π * S.G * S.M_sun / (365.25 * S.day) * (o.m_star + o.m_planet) / (o.period / 365.25) =
      2 * π * (S.G * S.M_sun * (o.m_star + o.m_planet)) / (S.day * o.period) by field_simp, l2]
    field_simp
    norm_num
  have e23 : (o.m_star + o.m_planet) ^ (2 / 3 : ℝ) * (o.m_star + o.m_planet) ^ (1 / 3 : ℝ) = o.m_star + o.m_planet := by
    rw [← rpow_add hM]; norm_num
  have hM1 : 0 < (o.m_star + o.m_planet) ^ (1 / 3 : ℝ) := rpow_pos_of_pos hM _
  have hM2 : 0 < (o.m_star + o.m_planet) ^ (2 / 3 : ℝ) := rpow_pos_of_pos hM _
  have hP1 : 0 < (o.period / 365.25) ^ (1 / 3 : ℝ) := rpow_pos_of_pos (by positivity) _
  have hs : C.rSunPerDay.scale / C.mPerS.scale = S.R_sun / S.day := by
    simp only [Consts.rSunPerDay, Consts.mPerS, hC.rSun, hC.day, hC.mPerS, div_one]
  unfold semiAmplitude Orbit.minimumMass
  rw [e0, hs]
  have : 2 * π / o.period * (o.a * o.m_planet / (o.m_star + o.m_planet)) * o.sin_incl / √(1 - 0 ^ 2) * (S.R_sun / S.day) =
      2 * π / o.period * o.a * (S.R_sun / S.day) * (o.m_planet * o.sin_incl) / (o.m_star + o.m_planet) := by
    norm_num
    ring
  rw [this, key]
  generalize (o.m_star + o.m_planet) ^ (1 / 3 : ℝ) = u at *
  generalize (o.m_star + o.m_planet) ^ (2 / 3 : ℝ) = v at *
  generalize (o.period / 365.25) ^ (1 / 3 : ℝ) = w at *
  rw [← e23]
  field_simp

/-- **C135** (what the estimate is): from the noiseless velocities of planets on circular orbits, at times that determine the fit, the
estimate with stellar mass `M` is `m sin i` times `(2π G M_sun / yr)^(1/3) / 28.4329` and `(M / m_total)^(2/3)`: with the times of
transit, and without them if no planet moves backwards (`sin i ≥ 0`). -/
theorem C135_estimate (S : Astropy) (C : Consts) (hC : C.From S) (os : List Orbit)
    (hos : ∀ o ∈ os, (∃ A, keplerianInit C A = .ok o) ∧ o.Physical ∧ o.ecc = none) (x y : List ℝ) (yerr : Option (List ℝ)) (c : ℝ)
    (hy : NoiselessVelocities C os c x y) (hd : GoodData x y yerr) (M : ℝ) (hM : 0 ≤ M) :
    (FixedDetermined (os.map fun o => o.period) (os.map fun o => o.t0) x →
      estimateMinimumMass (os.map fun o => o.period) x y yerr (some (os.map fun o => o.t0)) M =
        .ok (os.map fun o => S.unitSpeed / 28.4329 * (M / (o.m_star + o.m_planet)) ^ (2 / 3 : ℝ) * o.minimumMass)) ∧
    ((∀ o ∈ os, 0 ≤ o.sin_incl) → FreeDetermined (os.map fun o => o.period) x →
      estimateMinimumMass (os.map fun o => o.period) x y yerr none M =
        .ok (os.map fun o => S.unitSpeed / 28.4329 * (M / (o.m_star + o.m_planet)) ^ (2 / 3 : ℝ) * o.minimumMass)) := by
  obtain ⟨rv, hrv, rfl⟩ := hy
  have hlist : ∀ (g : Orbit → ℝ), ((os.map fun o => (o, semiAmplitude C o C.mPerS)).map fun p => g p.1) = os.map g := by
    intro g; rw [List.map_map]; rfl
  have hsum : ∀ t, (((os.map fun o => (o, semiAmplitude C o C.mPerS)).map fun p => rv p.1 t).sum) = (os.map fun o => rv o t).sum := by
    intro t; rw [hlist fun o => rv o t]
  have hK : ((os.map fun o => (o, semiAmplitude C o C.mPerS)).map fun p => p.2) = os.map fun o => semiAmplitude C o C.mPerS := by
    rw [List.map_map]; rfl
  have main := C60_recovers_keplerian_signals C (os.map fun o => (o, semiAmplitude C o C.mPerS))
    (by
      intro p hp
      obtain ⟨o, ho, rfl⟩ := List.mem_map.1 hp
      obtain ⟨h1, h2, h3⟩ := hos o ho
      exact ⟨h1, h3, h2.period_pos.ne'⟩) x yerr (fun p t => rv p.1 t) c
    (by
      intro p hp t ht
      obtain ⟨o, ho, rfl⟩ := List.mem_map.1 hp
      obtain ⟨⟨A, h1⟩, h2, h3⟩ := hos o ho
      obtain ⟨f1, -, f3, -⟩ := C15_forms_agree C A o h1 h2 t C.mPerS rfl
      rw [← hrv o ho t ht, f3, f1])
    (by simpa only [hsum] using hd)
  simp only [hsum, hK, hlist (fun o => o.period), hlist (fun o => o.t0)] at main
  have masses : List.zipWith (fun m P => m * (P / 365.25) ^ (1 / 3 : ℝ))
      ((os.map fun o => semiAmplitude C o C.mPerS).map fun k => k / 28.4329 * M ^ (2 / 3 : ℝ)) (os.map fun o => o.period) =
      os.map fun o => S.unitSpeed / 28.4329 * (M / (o.m_star + o.m_planet)) ^ (2 / 3 : ℝ) * o.minimumMass := by
    rw [List.map_map, List.zipWith_map, List.zipWith_self]
    refine List.map_congr_left fun o ho => ?_
    obtain ⟨⟨A, h1⟩, h2, h3⟩ := hos o ho
    have hT : 0 < o.m_star + o.m_planet := add_pos_of_pos_of_nonneg h2.m_star_pos h2.m_planet_nonneg
    have hP := h2.period_pos
    have p1 : 0 < (o.period / 365.25) ^ (1 / 3 : ℝ) := rpow_pos_of_pos (by positivity) _
    have p2 : 0 < (o.m_star + o.m_planet) ^ (2 / 3 : ℝ) := rpow_pos_of_pos hT _
    simp only [Function.comp]
    rw [semiAmplitude_year S C hC A o h1 h2 h3, div_rpow hM hT.le]
    generalize (o.period / 365.25) ^ (1 / 3 : ℝ) = w at *
    generalize (o.m_star + o.m_planet) ^ (2 / 3 : ℝ) = v at *
    field_simp
  constructor
  · intro hdet
    unfold estimateMinimumMass
    rw [main.1 hdet]
    simp only [Except.map, masses]
  · intro hs hdet
    have hpos : ∀ p ∈ os.map fun o => (o, semiAmplitude C o C.mPerS), 0 ≤ p.2 := by
      intro p hp
      obtain ⟨o, ho, rfl⟩ := List.mem_map.1 hp
      obtain ⟨-, h2, -⟩ := hos o ho
      have := hs o ho
      have := h2.m_planet_nonneg
      have := h2.m_star_pos
      have := h2.a_pos
      have := h2.period_pos
      have := C.rSunPerDay.pos
      have := C.mPerS.pos
      have := pi_pos
      simp only [semiAmplitude]
      positivity
    unfold estimateMinimumMass
    rw [main.2 hpos hdet]
    simp only [Except.map, masses]

/-- The number 28.4329 m/s of the code is the semi-amplitude due to Jupiter's mass to two parts in 100000. -/
theorem jupiter_speed : 0.99998 < astropy5.unitSpeed / 28.4329 * jupiterMass ∧ astropy5.unitSpeed / 28.4329 * jupiterMass < 1 := by
  have h0 : 0 ≤ 2 * π * astropy5.G * astropy5.M_sun / (365.25 * astropy5.day) := by
    have := pi_pos
    have := astropy5.G_pos
    have := astropy5.M_sun_pos
    have := astropy5.day_pos
    positivity
  have hc : astropy5.unitSpeed ^ 3 = 2 * π * astropy5.G * astropy5.M_sun / (365.25 * astropy5.day) := by
    unfold Astropy.unitSpeed
    rw [← rpow_natCast, ← rpow_mul h0]
    norm_num
  have hu : 0 ≤ astropy5.unitSpeed := rpow_nonneg h0 _
  have hpi1 := pi_gt_d6
  have hpi2 := pi_lt_d6
  have hm : 0 < jupiterMass := by unfold jupiterMass; norm_num
  have hcube : (astropy5.unitSpeed / 28.4329 * jupiterMass) ^ 3 =
      2 * π * astropy5.G * astropy5.M_sun / (365.25 * astropy5.day) * jupiterMass ^ 3 / 28.4329 ^ 3 := by
    rw [← hc]; ring
  constructor
  · refine lt_of_pow_lt_pow_left₀ 3 (by positivity) ?_
    rw [hcube]
    simp only [astropy5, jupiterMass]
    rw [show (2 : ℝ) * π * 6.6743e-11 * 1.988409870698051e30 / (365.25 * 86400) * (1.8981245973360505e27 / 1.988409870698051e30) ^ 3 / 28.4329 ^ 3 =
      π * (2 * 6.6743e-11 * 1.988409870698051e30 / (365.25 * 86400) * (1.8981245973360505e27 / 1.988409870698051e30) ^ 3 / 28.4329 ^ 3) by ring]
    refine lt_of_lt_of_le ?_ (mul_le_mul_of_nonneg_right hpi1.le (by norm_num))
    norm_num
  · refine lt_of_pow_lt_pow_left₀ 3 (by positivity) ?_
    rw [hcube]
    simp only [astropy5, jupiterMass]
    rw [show (2 : ℝ) * π * 6.6743e-11 * 1.988409870698051e30 / (365.25 * 86400) * (1.8981245973360505e27 / 1.988409870698051e30) ^ 3 / 28.4329 ^ 3 =
      π * (2 * 6.6743e-11 * 1.988409870698051e30 / (365.25 * 86400) * (1.8981245973360505e27 / 1.988409870698051e30) ^ 3 / 28.4329 ^ 3) by ring]
    refine lt_of_le_of_lt (mul_le_mul_of_nonneg_right hpi2.le (by norm_num)) ?_
    norm_num

/-- The two thirds power of the share of the star in the total mass. -/
theorem share_bounds {s m : ℝ} (hs : 0 < s) (hm : 0 ≤ m) :
    1 - 2 / 3 * (m / s) ≤ (s / (s + m)) ^ (2 / 3 : ℝ) ∧ (s / (s + m)) ^ (2 / 3 : ℝ) ≤ 1 := by
  have hT : 0 < s + m := by positivity
  constructor
  · have h1 : (s / (s + m)) = (1 + m / s)⁻¹ := by field_simp
    have hq : 0 ≤ m / s := by positivity
    have h2 : (1 + m / s) ^ (2 / 3 : ℝ) ≤ 1 + 2 / 3 * (m / s) :=
      rpow_one_add_le_one_add_mul_self (by linarith) (by norm_num) (by norm_num)
    have h3 : 0 < (1 + m / s) ^ (2 / 3 : ℝ) := rpow_pos_of_pos (by positivity) _
    rw [h1, inv_rpow (by positivity)]
    refine le_trans ?_ (inv_anti₀ h3 h2)
    rw [← one_div, le_div_iff₀ (by positivity)]
    nlinarith [sq_nonneg (m / s)]
  · exact rpow_le_one (by positivity) (by rw [div_le_one hT]; linarith) (by norm_num)

/-- How far a factor `k s` with `k` and `s` slightly below one changes a number. -/
theorem near_one {k s q m : ℝ} (k1 : 0.99998 < k) (k2 : k < 1) (s1 : 1 - q ≤ s) (s2 : s ≤ 1) (s0 : 0 < s) :
    |k * s * m - m| ≤ (2e-5 + q) * |m| ∧ (m ≠ 0 → |k * s * m| < |m|) := by
  have h1 : |k * s - 1| ≤ 2e-5 + q := by
    rw [abs_le]
    constructor <;> nlinarith
  constructor
  · rw [show k * s * m - m = (k * s - 1) * m by ring, abs_mul]
    exact mul_le_mul_of_nonneg_right h1 (abs_nonneg m)
  · intro hm
    have h3 : k * s < 1 := by nlinarith
    have h4 : 0 < k * s := by nlinarith
    rw [abs_mul, abs_of_pos h4]
    nlinarith [abs_pos.2 hm]

/-- The planets of one star: circular orbits around a star of mass `M`. -/
structure CircularSystem (C : Consts) (M : ℝ) (os : List Orbit) : Prop where
  built : ∀ o ∈ os, ∃ A, keplerianInit C A = .ok o
  physical : ∀ o ∈ os, o.Physical
  circular : ∀ o ∈ os, o.ecc = none
  star : ∀ o ∈ os, o.m_star = M

/-- **C135** (accuracy): for planets on circular orbits around a star of the given mass the estimate, converted to solar masses, differs from
`m sin i` by at most two parts in 100000 plus two thirds of the mass ratio, and never exceeds it; with or without times of transit.
Full recovery is false, see `C135_counterexample`. -/
theorem C135_partial (C : Consts) (hC : C.From astropy5) (M : ℝ) (os : List Orbit) (hos : CircularSystem C M os) (x y : List ℝ)
    (yerr : Option (List ℝ)) (c : ℝ) (hy : NoiselessVelocities C os c x y) (hd : GoodData x y yerr) :
    ∃ est : Orbit → ℝ,
      (FixedDetermined (os.map fun o => o.period) (os.map fun o => o.t0) x →
        estimateMinimumMass (os.map fun o => o.period) x y yerr (some (os.map fun o => o.t0)) M = .ok (os.map est)) ∧
      ((∀ o ∈ os, 0 ≤ o.sin_incl) → FreeDetermined (os.map fun o => o.period) x →
        estimateMinimumMass (os.map fun o => o.period) x y yerr none M = .ok (os.map est)) ∧
      ∀ o ∈ os, |est o * jupiterMass - o.minimumMass| ≤ (2e-5 + 2 / 3 * (o.m_planet / M)) * |o.minimumMass| ∧
        (o.minimumMass ≠ 0 → |est o * jupiterMass| < |o.minimumMass|) := by
  rcases os.eq_nil_or_concat with rfl | ⟨l, o1, rfl⟩
  · obtain ⟨e1, e2⟩ := C135_estimate astropy5 C hC [] (by simp) x y yerr c hy hd 0 le_rfl
    refine ⟨fun _ => 0, fun h => ?_, fun h1 h2 => ?_, by simp⟩
    · have := e1 h
      unfold estimateMinimumMass at this ⊢
      cases hK : estimateSemiAmplitude [] x y yerr (some []) with
      | error e => simp only [List.map_nil, hK, Except.map] at this; cases this
      | ok K => simp [hK, Except.map]
    · have := e2 h1 h2
      unfold estimateMinimumMass at this ⊢
      cases hK : estimateSemiAmplitude [] x y yerr none with
      | error e => simp only [List.map_nil, hK, Except.map] at this; cases this
      | ok K => simp [hK, Except.map]
  · have ho1 : o1 ∈ l.concat o1 := by simp
    have hM : 0 < M := by
      rw [← hos.star o1 ho1]
      exact (hos.physical o1 ho1).m_star_pos
    obtain ⟨e1, e2⟩ := C135_estimate astropy5 C hC (l.concat o1) (fun o ho => ⟨hos.built o ho, hos.physical o ho, hos.circular o ho⟩) x y yerr c
      hy hd M hM.le
    refine ⟨_, e1, e2, fun o ho => ?_⟩
    have hp := hos.physical o ho
    obtain ⟨s1, s2⟩ := share_bounds hM hp.m_planet_nonneg
    have s0 : 0 < (M / (M + o.m_planet)) ^ (2 / 3 : ℝ) := by
      have := hp.m_planet_nonneg
      exact rpow_pos_of_pos (by positivity) _
    have := near_one (m := o.minimumMass) jupiter_speed.1 jupiter_speed.2 s1 s2 s0
    rw [hos.star o ho]
    rwa [show astropy5.unitSpeed / 28.4329 * (M / (M + o.m_planet)) ^ (2 / 3 : ℝ) * o.minimumMass * jupiterMass =
      astropy5.unitSpeed / 28.4329 * jupiterMass * (M / (M + o.m_planet)) ^ (2 / 3 : ℝ) * o.minimumMass by ring]

/-- **C135** (light planets): for planets of at most one per cent of the mass of the star the estimate is right to one per cent. -/
theorem C135_light_planets (C : Consts) (hC : C.From astropy5) (M : ℝ) (os : List Orbit) (hos : CircularSystem C M os)
    (hl : ∀ o ∈ os, o.m_planet ≤ M / 100) (x y : List ℝ) (yerr : Option (List ℝ)) (c : ℝ) (hy : NoiselessVelocities C os c x y)
    (hd : GoodData x y yerr) (hs : ∀ o ∈ os, 0 ≤ o.sin_incl) (hdet : FreeDetermined (os.map fun o => o.period) x) :
    ∃ est : Orbit → ℝ, estimateMinimumMass (os.map fun o => o.period) x y yerr none M = .ok (os.map est) ∧
      ∀ o ∈ os, |est o * jupiterMass - o.minimumMass| ≤ 0.01 * o.minimumMass := by
  obtain ⟨est, -, h2, h3⟩ := C135_partial C hC M os hos x y yerr c hy hd
  refine ⟨est, h2 hs hdet, fun o ho => ((h3 o ho).1.trans ?_)⟩
  have hp := hos.physical o ho
  have hM : 0 < M := by
    rw [← hos.star o ho]
    exact hp.m_star_pos
  have hm : 0 ≤ o.minimumMass := mul_nonneg hp.m_planet_nonneg (hs o ho)
  rw [abs_of_nonneg hm]
  refine mul_le_mul_of_nonneg_right ?_ hm
  have : o.m_planet / M ≤ 1 / 100 := by
    rw [div_le_iff₀ hM]
    linarith [hl o ho]
  norm_num
  linarith

/-- `KeplerianOrbit(period=4, m_star=1, r_star=1, m_planet=m)`. -/
noncomputable def demoTwins (m : ℝ) : Args :=
  { period := some (4 : ℝ), m_star := some (1 : ℝ), r_star := some (1 : ℝ), m_planet := some m }

theorem demoTwins_ok (C : Consts) {m : ℝ} (hm : 0 ≤ m) : ∃ o, keplerianInit C (demoTwins m) = .ok o ∧ o.Physical ∧
    o.period = 4 ∧ o.t0 = 0 ∧ o.m_star = 1 ∧ o.m_planet = m ∧ o.sin_incl = 1 ∧ o.ecc = none := by
  have hG := C.G_pos
  have hg := C.gccPerSun_pos
  have hpi := pi_pos
  refine ⟨_, rfl, ⟨?_, ?_, ?_, ?_, ?_, ?_, ?_, ?_, ?_, ?_⟩, ?_, ?_, ?_, ?_, ?_, ?_⟩ <;>
    simp <;> try positivity
  rw [show (0.5 : ℝ) * π = π / 2 by ring]
  exact sin_pi_div_two

/-- There are noiseless data for every system. -/
theorem noiseless_exists (C : Consts) (M : ℝ) (os : List Orbit) (hos : CircularSystem C M os) (c : ℝ) (x : List ℝ) :
    ∃ y, NoiselessVelocities C os c x y ∧ GoodData x y none := by
  have h : ∀ (o : Orbit) (t : ℝ), ∃ v, o ∈ os → o.radialVelocity C t none = .ok v := by
    intro o t
    by_cases ho : o ∈ os
    · obtain ⟨A, hA⟩ := hos.built o ho
      obtain ⟨-, f2, f3, -⟩ := C15_forms_agree C A o hA (hos.physical o ho) t C.mPerS rfl
      exact ⟨_, fun _ => f3.trans f2⟩
    · exact ⟨0, fun h => absurd h ho⟩
  choose rv hrv using h
  exact ⟨_, ⟨rv, fun o ho t _ => hrv o t ho, rfl⟩, by simp, by simp [errs], by simp [errs]⟩

/-- **C135** is false in general: the mass of the planet is neglected in the total mass, and from the noiseless velocities of two equal masses
seen edge-on the estimate is less than two thirds of the mass. -/
theorem C135_counterexample (C : Consts) (hC : C.From astropy5) : ∃ o y m, keplerianInit C (demoTwins 1) = .ok o ∧ o.Physical ∧
    o.minimumMass = 1 ∧ NoiselessVelocities C [o] 0 [0, 1, 2] y ∧
    estimateMinimumMass [o.period] [0, 1, 2] y none none o.m_star = .ok [m] ∧ m * jupiterMass < 0.64 * o.minimumMass := by
  obtain ⟨o, h, hp, h1, h2, h3, h4, h5, h6⟩ := demoTwins_ok C (m := 1) zero_le_one
  have hos : CircularSystem C 1 [o] := ⟨by simp only [List.mem_singleton, forall_eq]; exact ⟨_, h⟩, by simpa using hp, by simpa using h6, by simpa using h3⟩
  obtain ⟨y, hy, hd⟩ := noiseless_exists C 1 [o] hos 0 [0, 1, 2]
  have hmm : o.minimumMass = 1 := by unfold Orbit.minimumMass; rw [h4, h5, mul_one]
  have hdet : FreeDetermined ([o].map fun o => o.period) [0, 1, 2] := by
    simp only [List.map_cons, List.map_nil, h1]
    exact demo_determined.1
  have := (C135_estimate astropy5 C hC [o] (by simpa using ⟨⟨_, h⟩, hp, h6⟩) [0, 1, 2] y none 0 hy hd 1 zero_le_one).2
    (by simp [h5]) hdet
  refine ⟨o, y, _, h, hp, hmm, hy, by rw [h3]; exact this, ?_⟩
  beta_reduce
  rw [hmm, h3, h4]
  obtain ⟨j1, j2⟩ := jupiter_speed
  have hr : (1 / (1 + 1) : ℝ) ^ (2 / 3 : ℝ) < 0.64 := by
    refine lt_of_pow_lt_pow_left₀ 3 (by norm_num) ?_
    rw [← rpow_natCast, ← rpow_mul (by norm_num)]
    norm_num
  have hr0 : 0 < (1 / (1 + 1) : ℝ) ^ (2 / 3 : ℝ) := rpow_pos_of_pos (by norm_num) _
  nlinarith

/-- Hypotheses of the theorems: Jupiter around the Sun in four days, observed three times. -/
example : ∃ (C : Consts) (o : Orbit) (y : List ℝ), C.From astropy5 ∧ CircularSystem C 1 [o] ∧ 0 < o.m_planet ∧ o.m_planet ≤ 1 / 100 ∧
    0 ≤ o.sin_incl ∧ 0 < o.minimumMass ∧ NoiselessVelocities C [o] 5 [0, 1, 2] y ∧ GoodData [0, 1, 2] y none ∧
    FreeDetermined ([o].map fun o => o.period) [0, 1, 2] := by
  obtain ⟨C, hC⟩ := C74_exists astropy5
  obtain ⟨o, h, hp, h1, h2, h3, h4, h5, h6⟩ := demoTwins_ok C (m := 0.001) (by norm_num)
  have hos : CircularSystem C 1 [o] := ⟨by simp only [List.mem_singleton, forall_eq]; exact ⟨_, h⟩, by simpa using hp, by simpa using h6, by simpa using h3⟩
  obtain ⟨y, hy, hd⟩ := noiseless_exists C 1 [o] hos 5 [0, 1, 2]
  refine ⟨C, o, y, hC, hos, by rw [h4]; norm_num, by rw [h4]; norm_num, by rw [h5]; norm_num, ?_, hy, hd, ?_⟩
  · unfold Orbit.minimumMass
    rw [h4, h5]
    norm_num
  · simp only [List.map_cons, List.map_nil, h1]
    exact demo_determined.1

end Exo
