import Verif.Model.RoundedSimple
import Verif.Spec.RoundedSimple
import Verif.Props.Rounding

/-!
# C138: rounding in simple transits
-/

namespace Exo
open Real Classical

/-- The code's `dt` is the phase. -/
theorem dt_eq_phase (P D t0 b R k t : ℝ) (hP : 0 < P) : (simpleInit P D t0 b R k).dt t = chordPhase P t0 t := by
  unfold SimpleOrbit.dt simpleInit pymod chordPhase
  simp only
  have : (t - (t0 - 0.5 * P)) / P = (t - t0) / P + 1 / 2 := by field_simp; ring
  rw [this]; ring

theorem phase_abs_le {P : ℝ} (hP : 0 < P) (t0 t : ℝ) : |chordPhase P t0 t| ≤ P / 2 := by
  have h1 := pymod_nonneg (x := t - (t0 - 0.5 * P)) hP
  have h2 := pymod_lt (x := t - (t0 - 0.5 * P)) hP
  rw [← dt_eq_phase P 1 t0 0 1 0 t hP]
  simp only [SimpleOrbit.dt, simpleInit]
  rw [abs_le]; constructor <;> linarith

/-- Without rounding the code draws the chord. -/
theorem C138_exact (P D t0 b R k t : ℝ) (hP : 0 < P) (hR : 0 ≤ R) (hb : |b| ≤ 1 + k) :
    (simpleInit P D t0 b R k).relativePosition t = .ok (some (chordPosition P D t0 b R k t).x, (chordPosition P D t0 b R k t).y,
      (chordPosition P D t0 b R k t).z) := by
  have hx2 : 0 ≤ (1 + k) ^ 2 - b ^ 2 := by nlinarith [abs_nonneg b, sq_abs b]
  have hn : ¬ R ^ 2 * ((1 + k) ^ 2 - b ^ 2) < 0 := not_lt.2 (by positivity)
  have hs : (simpleInit P D t0 b R k).speed = some (2 * (R * √((1 + k) ^ 2 - b ^ 2)) / D) := by
    simp only [simpleInit, if_neg hn]
    rw [sqrt_mul (sq_nonneg R), sqrt_sq hR]
  simp only [SimpleOrbit.relativePosition, Bool.false_eq_true, if_false, hs, Option.map_some, dt_eq_phase _ _ _ _ _ _ _ hP, chordPosition]
  have e1 : (simpleInit P D t0 b R k).b_norm + 0 = b * R := by simp [simpleInit]
  have e2 : (0.5 : ℝ) * (simpleInit P D t0 b R k).duration = D / 2 := by simp only [simpleInit]; ring
  rw [e1, e2]
  by_cases h : |chordPhase P t0 t| < D / 2 <;> simp [h] <;> norm_num

namespace Rounding
variable (ρ : Rounding)

theorem mod_err {P : ℝ} (hP : 0 < P) (x : ℝ) : |ρ.mod x P - pymod x P| ≤ ρ.u * P := by
  have hu := ρ.u_nonneg
  have hz : (0 : ℝ) ≤ ρ.u * P := by positivity
  unfold Rounding.mod
  split_ifs with h0 h1
  · simpa using hz
  · have : pymod x P = 0 := by
      obtain ⟨j, hj⟩ := pymod_spec (-x) P
      exact pymod_eq hP le_rfl hP (-j) (by push_cast; linarith)
    rw [this]; simpa using hz
  · have h2 : pymod x P = P - pymod (-x) P := by
      obtain ⟨j, hj⟩ := pymod_spec (-x) P
      have h3 := pymod_nonneg (x := -x) hP
      have h4 := pymod_lt (x := -x) hP
      have h5 : 0 < pymod (-x) P := lt_of_le_of_ne h3 (Ne.symm h1)
      exact pymod_eq hP (by linarith) (by linarith) (-j - 1) (by push_cast; linarith)
    rw [h2]
    refine (ρ.rnd_err _).trans (mul_le_mul_of_nonneg_left ?_ hu)
    rw [← h2, abs_of_nonneg (pymod_nonneg hP)]
    exact (pymod_lt hP).le

/-- The rounded phase is, within `3 u P`, the exact phase at a time near the requested one. -/
theorem simpleDt_err (P D t0 b R k : ℝ) (hP : 0 < P) (t : ℝ) : ∃ t', |t' - t| ≤ ρ.u * (2 * |t0| + |t - t0| + 2 * P) ∧
    |ρ.simpleDt (simpleInit P D t0 b R k) t - chordPhase P t0 t'| ≤ 2.1 * (ρ.u * P) := by
  have hu := ρ.u_nonneg
  have hu1 := ρ.u_le
  have hsq := ρ.sq_u_le
  set o := simpleInit P D t0 b R k with ho
  have oP : o.period = P := rfl
  have ot : o.t0 = t0 := rfl
  have huP : 0 ≤ ρ.u * P := by positivity
  have hut : 0 ≤ ρ.u * |t0| := by positivity
  have hud : 0 ≤ ρ.u * |t - t0| := by positivity
  have hH : |ρ.halfPeriod o - P / 2| ≤ ρ.u * P / 2 := by
    have := ρ.rnd_err (0.5 * P)
    rw [abs_of_pos (by positivity : 0 < 0.5 * P)] at this
    unfold halfPeriod
    rw [oP]
    calc |ρ.rnd (0.5 * P) - P / 2| = |ρ.rnd (0.5 * P) - 0.5 * P| := by ring_nf
      _ ≤ _ := this
      _ = _ := by ring
  have hRf : |ρ.refTime o - (t0 - P / 2)| ≤ ρ.u * |t0| + 1.01 * (ρ.u * P) := by
    have h1 : |(t0 - ρ.halfPeriod o) - (t0 - P / 2)| ≤ ρ.u * P / 2 := by
      rw [show (t0 - ρ.halfPeriod o) - (t0 - P / 2) = -(ρ.halfPeriod o - P / 2) by ring, abs_neg]; exact hH
    have h2 := ρ.near h1
    have h3 : |t0 - P / 2| ≤ |t0| + P / 2 := by
      refine (abs_sub _ _).trans (le_of_eq ?_)
      rw [abs_of_pos (by positivity : 0 < P / 2)]
    have h4 := mul_le_mul_of_nonneg_left h3 hu
    have h5 : ρ.u * (ρ.u * P) ≤ 1 / 1000 * (ρ.u * P) := mul_le_mul_of_nonneg_right hu1 huP
    unfold refTime
    rw [ot]
    refine h2.trans ?_
    linarith
  have hX : |ρ.rnd (t - ρ.refTime o) - (t - (t0 - P / 2))| ≤ ρ.u * (2 * |t0| + |t - t0| + 2 * P) := by
    have h1 : |(t - ρ.refTime o) - (t - (t0 - P / 2))| ≤ ρ.u * |t0| + 1.01 * (ρ.u * P) := by
      rw [show (t - ρ.refTime o) - (t - (t0 - P / 2)) = -(ρ.refTime o - (t0 - P / 2)) by ring, abs_neg]; exact hRf
    have h2 := ρ.near h1
    have h3 : |t - (t0 - P / 2)| ≤ |t - t0| + P / 2 := by
      rw [show t - (t0 - P / 2) = (t - t0) + P / 2 by ring]
      refine (abs_add_le _ _).trans (le_of_eq ?_)
      rw [abs_of_pos (by positivity : 0 < P / 2)]
    have h4 := mul_le_mul_of_nonneg_left h3 hu
    have h5 : ρ.u * (ρ.u * P) ≤ 1 / 1000 * (ρ.u * P) := mul_le_mul_of_nonneg_right hu1 huP
    have h6 : ρ.u * (ρ.u * |t0|) ≤ 1 / 1000 * (ρ.u * |t0|) := mul_le_mul_of_nonneg_right hu1 hut
    refine h2.trans ?_
    linarith
  set x := ρ.rnd (t - ρ.refTime o) with hx
  refine ⟨x + (t0 - P / 2), ?_, ?_⟩
  · rw [show x + (t0 - P / 2) - t = x - (t - (t0 - P / 2)) by ring]; exact hX
  · have hph : chordPhase P t0 (x + (t0 - P / 2)) = pymod x P - P / 2 := by
      rw [← dt_eq_phase P D t0 b R k _ hP]
      simp only [SimpleOrbit.dt, simpleInit]
      rw [show x + (t0 - P / 2) - (t0 - 0.5 * P) = x by ring]; ring
    have hle := phase_abs_le hP t0 (x + (t0 - P / 2))
    rw [hph] at hle ⊢
    have hm := ρ.mod_err hP x
    have h1 : |(ρ.mod x P - ρ.halfPeriod o) - (pymod x P - P / 2)| ≤ 1.5 * (ρ.u * P) := by
      rw [show (ρ.mod x P - ρ.halfPeriod o) - (pymod x P - P / 2) = (ρ.mod x P - pymod x P) - (ρ.halfPeriod o - P / 2) by ring]
      refine (abs_sub _ _).trans ((add_le_add hm hH).trans (le_of_eq ?_))
      ring
    have h2 := ρ.near h1
    have h4 := mul_le_mul_of_nonneg_left hle hu
    have h5 : ρ.u * (ρ.u * P) ≤ 1 / 1000 * (ρ.u * P) := mul_le_mul_of_nonneg_right hu1 huP
    unfold simpleDt
    rw [oP]
    refine h2.trans ?_
    linarith

end Rounding

/-- The speed of the planet along the chord. -/
theorem chord_speed (P D t0 b R k : ℝ) (hR : 0 ≤ R) (hb : |b| ≤ 1 + k) :
    (simpleInit P D t0 b R k).speed = some (2 * (R * √((1 + k) ^ 2 - b ^ 2)) / D) := by
  have hx2 : 0 ≤ (1 + k) ^ 2 - b ^ 2 := by nlinarith [abs_nonneg b, sq_abs b]
  have hn : ¬ R ^ 2 * ((1 + k) ^ 2 - b ^ 2) < 0 := not_lt.2 (by positivity)
  simp only [simpleInit, if_neg hn]
  rw [sqrt_mul (sq_nonneg R), sqrt_sq hR]

/-- **C138 (positions).** The rounded position is close to the chord at a time close to the requested one, and on the same side of the star
unless that time is within a few roundings of first or last contact. -/
theorem C138_position (P D t0 b R k v : ℝ) (hP : 0 < P) (hD : 0 < D) (hR : 0 < R) (hb : |b| ≤ 1 + k)
    (hv : (simpleInit P D t0 b R k).speed = some v) (ρ : Rounding) (t : ℝ) :
    ∃ t', |t' - t| ≤ ρ.u * (2 * |t0| + |t - t0| + 2 * P) ∧
      |(ρ.simplePosition (simpleInit P D t0 b R k) v t).x - (chordPosition P D t0 b R k t').x| ≤ 3 * (ρ.u * (v * P)) ∧
      |(ρ.simplePosition (simpleInit P D t0 b R k) v t).y - (chordPosition P D t0 b R k t').y| ≤ ρ.u * (|b| * R) ∧
      (ρ.u * (3 * P + D / 2) < abs (|chordPhase P t0 t'| - D / 2) →
        (ρ.simplePosition (simpleInit P D t0 b R k) v t).z = (chordPosition P D t0 b R k t').z) := by
  have hu := ρ.u_nonneg
  have hu1 := ρ.u_le
  obtain ⟨t', ht, hd⟩ := ρ.simpleDt_err P D t0 b R k hP t
  have hle := phase_abs_le hP t0 t'
  rw [chord_speed P D t0 b R k hR.le hb, Option.some_inj] at hv
  have hv0 : 0 ≤ v := by rw [← hv]; positivity
  have huP : 0 ≤ ρ.u * P := by positivity
  have huvP : 0 ≤ ρ.u * (v * P) := by positivity
  refine ⟨t', ht, ?_, ?_, ?_⟩
  · simp only [Rounding.simplePosition, chordPosition, hv]
    have h1 : |v * ρ.simpleDt (simpleInit P D t0 b R k) t - v * chordPhase P t0 t'| ≤ 2.1 * (ρ.u * (v * P)) := by
      rw [← mul_sub, abs_mul, abs_of_nonneg hv0]
      refine (mul_le_mul_of_nonneg_left hd hv0).trans (le_of_eq ?_)
      ring
    have h2 := ρ.near h1
    have h3 : |v * chordPhase P t0 t'| ≤ v * P / 2 := by
      rw [abs_mul, abs_of_nonneg hv0]
      exact (mul_le_mul_of_nonneg_left hle hv0).trans (le_of_eq (by ring))
    have h4 := mul_le_mul_of_nonneg_left h3 hu
    have h5 : ρ.u * (ρ.u * (v * P)) ≤ 1 / 1000 * (ρ.u * (v * P)) := mul_le_mul_of_nonneg_right hu1 huvP
    refine h2.trans ?_
    linarith
  · simp only [Rounding.simplePosition, chordPosition]
    have h1 := ρ.rnd_err (b * R)
    rwa [abs_mul b R, abs_of_pos hR] at h1
  · intro hfar
    simp only [Rounding.simplePosition, chordPosition]
    have e : (simpleInit P D t0 b R k).duration = D := rfl
    rw [e]
    have h1 := ρ.rnd_err (0.5 * D)
    rw [abs_of_pos (by positivity : 0 < 0.5 * D)] at h1
    have h2 := (abs_abs_sub_abs_le (ρ.simpleDt (simpleInit P D t0 b R k) t) (chordPhase P t0 t')).trans hd
    generalize ρ.simpleDt (simpleInit P D t0 b R k) t = d at *
    generalize ρ.rnd (0.5 * D) = w at *
    have a1 := abs_le.1 h1
    have a2 := abs_le.1 h2
    rcases lt_abs.1 hfar with h3 | h3
    · rw [if_neg (by linarith), if_neg (by linarith)]
    · rw [if_pos (by linarith), if_pos (by linarith)]

theorem sum_sq_bound {x y X Y : ℝ} (h1 : x ^ 2 ≤ (3 * X) ^ 2) (h2 : y ^ 2 ≤ Y ^ 2) (h3 : 0 ≤ X * Y) : x ^ 2 + y ^ 2 ≤ (3 * (X + Y)) ^ 2 := by
  nlinarith [sq_nonneg Y]

/-- The rounded flux at a position near `q`, on the same side of the star or near contact. -/
theorem flux_near (ρ : Rounding) {R k S : ℝ} (hR : 0 < R) (hk : 0 < k) (hS0 : 0 < S) (u1 u2 B E : ℝ) (hl : PhysicalLaw u1 u2)
    (hB : NotBrighterThan u1 u2 B) (ld : ℝ → ℝ → ℝ) (hld : ∀ b k, 0 ≤ b → 0 < k → |ld b k - quadLimbdarkLightCurve (getCl u1 u2) b k| ≤ E)
    (p q : V3) (htri : |√(p.x ^ 2 + p.y ^ 2) - √(q.x ^ 2 + q.y ^ 2)| ≤ 3 * (ρ.u * S)) (hsS : √(q.x ^ 2 + q.y ^ 2) ≤ S)
    (hcase : p.z = q.z ∨ |√(q.x ^ 2 + q.y ^ 2) - (1 + k) * R| ≤ 3 * (ρ.u * S)) :
    |ρ.flux ld R (k * R) p - fluxAt (getCl u1 u2) R (k * R) q| ≤
      E + ρ.u * (15 * (S / R) * stripLight u1 u2 B k + 3 * (B * k ^ 2 / (1 - u1 / 3 - u2 / 6))) := by
  have hu := ρ.u_nonneg
  have hu1 := ρ.u_le
  have hB0 : 0 ≤ B := (hl.1 0 le_rfl zero_le_one).trans (hB 0 le_rfl zero_le_one)
  have hL : 0 ≤ stripLight u1 u2 B k := by
    have := hl.pos
    unfold stripLight
    rw [← fluxFrom_disc]
    positivity
  have hDD : 0 < 1 - u1 / 3 - u2 / 6 := hl.2
  have hsp : √(p.x ^ 2 + p.y ^ 2) ≤ 1.003 * S := by
    have := (abs_le.1 htri).2
    have : ρ.u * S ≤ 1 / 1000 * S := mul_le_mul_of_nonneg_right hu1 hS0.le
    linarith
  have hsep := ρ.separation_err p.x p.y hR
  unfold Rounding.flux
  simp only
  set b' := ρ.rnd (ρ.rnd √(ρ.rnd (ρ.rnd (p.x ^ 2) + ρ.rnd (p.y ^ 2))) / R) with hb'
  have hSR : 0 ≤ ρ.u * (S / R) := by positivity
  have hbe : |b' - √(q.x ^ 2 + q.y ^ 2) / R| ≤ 8 * (ρ.u * (S / R)) := by
    have h1 : |√(p.x ^ 2 + p.y ^ 2) / R - √(q.x ^ 2 + q.y ^ 2) / R| ≤ 3 * (ρ.u * (S / R)) := by
      rw [← sub_div, abs_div, abs_of_pos hR, ← mul_div_assoc, ← mul_div_assoc]
      exact div_le_div_of_nonneg_right htri hR.le
    have h2 : √(p.x ^ 2 + p.y ^ 2) / R ≤ 1.003 * (S / R) := by
      rw [← mul_div_assoc]
      exact div_le_div_of_nonneg_right hsp hR.le
    have h3 := mul_le_mul_of_nonneg_left h2 hu
    have h5 := abs_sub_le b' (√(p.x ^ 2 + p.y ^ 2) / R) (√(q.x ^ 2 + q.y ^ 2) / R)
    linarith
  have hb0 : 0 ≤ b' := by
    have h1 : 0 ≤ √(p.x ^ 2 + p.y ^ 2) / R := by positivity
    have h2 := (abs_le.1 hsep).1
    have h3 : 4.1 * ρ.u * (√(p.x ^ 2 + p.y ^ 2) / R) ≤ 4.1 * (1 / 1000) * (√(p.x ^ 2 + p.y ^ 2) / R) :=
      mul_le_mul_of_nonneg_right (by linarith) h1
    linarith
  have hkR : k * R / R = k := by field_simp
  rw [hkR]
  have hke := ρ.rnd_err k
  rw [abs_of_pos hk] at hke
  have hk' := (ρ.rnd_pos k).2 hk
  set k' := ρ.rnd k with hkd
  have hE : 0 ≤ E := (abs_nonneg _).trans (hld 0 1 le_rfl one_pos)
  have step1 : |(if 0 < ρ.rnd (p.z / R) then ld b' k' else 0) - computeLightCurve (getCl u1 u2) b' k' (some p.z)| ≤ E := by
    have hiff : 0 < ρ.rnd (p.z / R) ↔ 0 < p.z := by rw [ρ.rnd_pos, div_pos_iff_of_pos_right hR]
    unfold computeLightCurve
    simp only [Option.getD_some, gt_iff_lt, hiff]
    split_ifs
    · exact hld b' k' hb0 hk'
    · simpa using hE
  have hzz : fluxAt (getCl u1 u2) R (k * R) q = computeLightCurve (getCl u1 u2) (√(q.x ^ 2 + q.y ^ 2) / R) k (some q.z) := by
    unfold fluxAt computeLightCurve
    simp only [Option.getD_some, gt_iff_lt, div_pos_iff_of_pos_right hR, hkR]
  rw [hzz]
  refine (abs_sub_le _ _ _).trans (add_le_add step1 ?_)
  have hq0 : 0 ≤ √(q.x ^ 2 + q.y ^ 2) / R := by positivity
  have h1 := C115_radius u1 u2 B hl hB b' k' k hk'.le hk.le (some p.z)
  have h3 : |k' ^ 2 - k ^ 2| ≤ 3 * ρ.u * k ^ 2 := by
    rw [show k' ^ 2 - k ^ 2 = (k' - k) * (k' + k) by ring, abs_mul, abs_of_pos (by positivity : 0 < k' + k)]
    have h4 : k' + k ≤ 3 * k := by
      have := (abs_le.1 hke).2
      have : ρ.u * k ≤ 1 / 1000 * k := mul_le_mul_of_nonneg_right hu1 hk.le
      linarith
    calc |k' - k| * (k' + k) ≤ ρ.u * k * (3 * k) := mul_le_mul hke h4 (by positivity) (by positivity)
      _ = _ := by ring
  have h4 : B * |k' ^ 2 - k ^ 2| / (1 - u1 / 3 - u2 / 6) ≤ ρ.u * (3 * (B * k ^ 2 / (1 - u1 / 3 - u2 / 6))) := by
    rw [show ρ.u * (3 * (B * k ^ 2 / (1 - u1 / 3 - u2 / 6))) = B * (3 * ρ.u * k ^ 2) / (1 - u1 / 3 - u2 / 6) by ring]
    exact div_le_div_of_nonneg_right (mul_le_mul_of_nonneg_left h3 hB0) hDD.le
  have hLS : 0 ≤ stripLight u1 u2 B k * (ρ.u * (S / R)) := by positivity
  refine (abs_sub_le _ (computeLightCurve (getCl u1 u2) b' k (some p.z)) _).trans ?_
  have hmain : |computeLightCurve (getCl u1 u2) b' k (some p.z) - computeLightCurve (getCl u1 u2) (√(q.x ^ 2 + q.y ^ 2) / R) k (some q.z)| ≤
      stripLight u1 u2 B k * (15 * (ρ.u * (S / R))) := by
    rcases hcase with hsame | hedge
    · rw [hsame]
      refine (C115_distance u1 u2 B hl hB b' (√(q.x ^ 2 + q.y ^ 2) / R) k hk hb0 hq0 (some q.z)).trans
        (mul_le_mul_of_nonneg_left ?_ hL)
      linarith
    · have hq1 : |√(q.x ^ 2 + q.y ^ 2) / R - (1 + k)| ≤ 3 * (ρ.u * (S / R)) := by
        rw [show √(q.x ^ 2 + q.y ^ 2) / R - (1 + k) = (√(q.x ^ 2 + q.y ^ 2) - (1 + k) * R) / R by field_simp, abs_div, abs_of_pos hR,
          ← mul_div_assoc, ← mul_div_assoc]
        exact div_le_div_of_nonneg_right hedge hR.le
      have hb1 : |b' - (1 + k)| ≤ 11 * (ρ.u * (S / R)) := by
        refine (abs_sub_le _ (√(q.x ^ 2 + q.y ^ 2) / R) _).trans ?_
        linarith
      have c1 := C115_distance u1 u2 B hl hB b' (1 + k) k hk hb0 (by positivity) (some p.z)
      have c2 := C115_distance u1 u2 B hl hB (√(q.x ^ 2 + q.y ^ 2) / R) (1 + k) k hk hq0 (by positivity) (some q.z)
      rw [C37_apart u1 u2 _ _ _ hl le_rfl, sub_zero] at c1 c2
      refine (abs_sub _ _).trans ((add_le_add (c1.trans (mul_le_mul_of_nonneg_left hb1 hL))
        (c2.trans (mul_le_mul_of_nonneg_left hq1 hL))).trans ?_)
      linarith
  refine (add_le_add (h1.trans h4) hmain).trans (le_of_eq ?_)
  ring

/-- **C138 (light curves).** The rounded flux of a simple transit, for a planet of the radius for which the duration was given, is the exact flux at a
time close to the requested one, within the error `E` of the compiled operation and a few units `u`; also at the contacts, where rounding may
move the planet behind the star. -/
theorem C138_flux (P D t0 b R k v : ℝ) (hP : 0 < P) (hD : 0 < D) (hR : 0 < R) (hk : 0 < k) (hb : |b| ≤ 1 + k)
    (hv : (simpleInit P D t0 b R k).speed = some v) (ρ : Rounding) (u1 u2 B E : ℝ) (hl : PhysicalLaw u1 u2) (hB : NotBrighterThan u1 u2 B)
    (ld : ℝ → ℝ → ℝ) (hld : ∀ b k, 0 ≤ b → 0 < k → |ld b k - quadLimbdarkLightCurve (getCl u1 u2) b k| ≤ E) (t : ℝ) :
    ∃ t', |t' - t| ≤ ρ.u * (2 * |t0| + |t - t0| + 2 * P) ∧
      |ρ.flux ld R (k * R) (ρ.simplePosition (simpleInit P D t0 b R k) v t) -
          fluxAt (getCl u1 u2) R (k * R) (chordPosition P D t0 b R k t')| ≤
        E + ρ.u * (15 * (v * P / R + (1 + k)) * stripLight u1 u2 B k + 3 * (B * k ^ 2 / (1 - u1 / 3 - u2 / 6))) := by
  obtain ⟨t', ht, hx, hy, hz⟩ := C138_position P D t0 b R k v hP hD hR hb hv ρ t
  refine ⟨t', ht, ?_⟩
  have hu := ρ.u_nonneg
  have hu1 := ρ.u_le
  have hv' := hv
  rw [chord_speed P D t0 b R k hR.le hb, Option.some_inj] at hv'
  have hv0 : 0 ≤ v := by rw [← hv']; positivity
  set w := √((1 + k) ^ 2 - b ^ 2) with hw
  have hx2 : 0 ≤ (1 + k) ^ 2 - b ^ 2 := by nlinarith [abs_nonneg b, sq_abs b]
  have hw2 : w ^ 2 = (1 + k) ^ 2 - b ^ 2 := sq_sqrt hx2
  have hw0 : 0 ≤ w := sqrt_nonneg _
  have hwk : w ≤ 1 + k := by nlinarith [sq_nonneg b]
  have hvD : v * (D / 2) = R * w := by rw [← hv']; field_simp
  -- the scale of the chord
  set S := v * P + (1 + k) * R with hS
  have hS0 : 0 < S := by positivity
  have huS : 0 ≤ ρ.u * S := by positivity
  have huk : 0 ≤ ρ.u * ((1 + k) * R) := by positivity
  have hle := phase_abs_le hP t0 t'
  have qx : (chordPosition P D t0 b R k t').x = v * chordPhase P t0 t' := by simp only [chordPosition, ← hw, hv']
  have qy : (chordPosition P D t0 b R k t').y = b * R := rfl
  have hedge : ¬ (ρ.u * (3 * P + D / 2) < abs (|chordPhase P t0 t'| - D / 2)) →
      |√((chordPosition P D t0 b R k t').x ^ 2 + (chordPosition P D t0 b R k t').y ^ 2) - (1 + k) * R| ≤ 3 * (ρ.u * S) := by
    intro hn
    have h1 := not_lt.1 hn
    have e1 : √((R * w) ^ 2 + (b * R) ^ 2) = (1 + k) * R := by
      rw [show (R * w) ^ 2 + (b * R) ^ 2 = ((1 + k) * R) ^ 2 by linear_combination R ^ 2 * hw2]
      exact sqrt_sq (by positivity)
    have h2 := plane_triangle (v * |chordPhase P t0 t'|) (b * R) (R * w) (b * R)
    rw [e1, sub_self, show (v * |chordPhase P t0 t'| - R * w) ^ 2 + 0 ^ 2 = (v * |chordPhase P t0 t'| - R * w) ^ 2 by ring, sqrt_sq_eq_abs,
      ← hvD, ← mul_sub, abs_mul, abs_of_nonneg hv0, mul_pow, sq_abs, ← mul_pow] at h2
    rw [qx, qy]
    refine h2.trans ((mul_le_mul_of_nonneg_left h1 hv0).trans ?_)
    have h3 : ρ.u * (v * (D / 2)) ≤ ρ.u * ((1 + k) * R) := by
      rw [hvD]
      refine mul_le_mul_of_nonneg_left ?_ hu
      rw [mul_comm (1 + k)]
      exact mul_le_mul_of_nonneg_left hwk hR.le
    rw [hS]
    linarith
  have hsS : √((chordPosition P D t0 b R k t').x ^ 2 + (chordPosition P D t0 b R k t').y ^ 2) ≤ S := by
    rw [qx, qy]
    refine sqrt_le_iff.2 ⟨hS0.le, ?_⟩
    have h1 : (v * chordPhase P t0 t') ^ 2 ≤ (v * P) ^ 2 := by
      refine sq_le_sq' ?_ ?_ <;> nlinarith [(abs_le.1 hle).1, (abs_le.1 hle).2]
    have h2 : (b * R) ^ 2 ≤ ((1 + k) * R) ^ 2 := by
      rw [mul_pow, mul_pow]
      exact mul_le_mul_of_nonneg_right (by nlinarith) (sq_nonneg R)
    have h3 : 0 ≤ v * P * ((1 + k) * R) := by positivity
    rw [hS]
    nlinarith
  have hyS : ρ.u * (|b| * R) ≤ ρ.u * ((1 + k) * R) := mul_le_mul_of_nonneg_left (mul_le_mul_of_nonneg_right hb hR.le) hu
  have huvP : 0 ≤ ρ.u * (v * P) := by positivity
  generalize chordPosition P D t0 b R k t' = q at *
  generalize ρ.simplePosition (simpleInit P D t0 b R k) v t = p at *
  have htri : |√(p.x ^ 2 + p.y ^ 2) - √(q.x ^ 2 + q.y ^ 2)| ≤ 3 * (ρ.u * S) := by
    refine (plane_triangle _ _ _ _).trans (sqrt_le_iff.2 ⟨by positivity, ?_⟩)
    have h1 := sq_le_sq' (by linarith [(abs_le.1 hx).1]) (abs_le.1 hx).2
    have h2' := hy.trans hyS
    have h2 := sq_le_sq' (by linarith [(abs_le.1 h2').1]) (abs_le.1 h2').2
    have h3 : 0 ≤ ρ.u * (v * P) * (ρ.u * ((1 + k) * R)) := by positivity
    rw [hS, mul_add]
    exact sum_sq_bound h1 h2 h3
  have hSk : v * P / R + (1 + k) = S / R := by rw [hS]; field_simp
  rw [hSk]
  refine flux_near ρ hR hk hS0 u1 u2 B E hl hB ld hld p q htri hsS ?_
  by_cases hfar : ρ.u * (3 * P + D / 2) < abs (|chordPhase P t0 t'| - D / 2)
  · exact Or.inl (hz hfar)
  · exact Or.inr (hedge hfar)

/-- No middle of a transit is nearer than the one the phase refers to. -/
theorem phase_nearest {P : ℝ} (hP : 0 < P) (t0 t : ℝ) (j : ℤ) : |chordPhase P t0 t| ≤ |t - t0 - P * j| := by
  have h := phase_abs_le hP t0 t
  have e : t - t0 - P * j = chordPhase P t0 t + P * ((⌊(t - t0) / P + 1 / 2⌋ - j : ℤ) : ℝ) := by
    unfold chordPhase; push_cast; ring
  rw [e]
  generalize (⌊(t - t0) / P + 1 / 2⌋ - j : ℤ) = m
  generalize chordPhase P t0 t = φ at *
  have h1 := abs_le.1 h
  rcases lt_trichotomy m 0 with hm | rfl | hm
  · have : (m : ℝ) ≤ -1 := by exact_mod_cast Int.le_sub_one_of_lt hm
    have h2 : P * (m : ℝ) ≤ -P := by nlinarith
    rw [abs_of_nonpos (by linarith : φ + P * (m : ℝ) ≤ 0)]
    linarith
  · simp
  · have : (1 : ℝ) ≤ m := by exact_mod_cast hm
    have h2 : P ≤ P * (m : ℝ) := by nlinarith
    exact h.trans ((by linarith : P / 2 ≤ φ + P * (m : ℝ)).trans (le_abs_self _))

/-- The time to the nearest transit changes no faster than time. -/
theorem phase_lipschitz {P : ℝ} (hP : 0 < P) (t0 t t' : ℝ) : abs (|chordPhase P t0 t| - |chordPhase P t0 t'|) ≤ |t - t'| := by
  have key : ∀ t t', |chordPhase P t0 t| ≤ |t - t'| + |chordPhase P t0 t'| := fun t t' => by
    refine (phase_nearest hP t0 t ⌊(t' - t0) / P + 1 / 2⌋).trans ?_
    rw [show t - t0 - P * (⌊(t' - t0) / P + 1 / 2⌋ : ℝ) = (t - t') + chordPhase P t0 t' by unfold chordPhase; ring]
    exact abs_add_le _ _
  have h1 := key t t'
  have h2 := key t' t
  rw [abs_sub_comm t' t] at h2
  rw [abs_le]; constructor <;> linarith

/-- **C138 (exact light curves).** How fast the light curve of a simple transit changes, for a planet of the radius for which the duration was given. -/
theorem C138_time (P D t0 b R k v : ℝ) (hP : 0 < P) (hD : 0 < D) (hR : 0 < R) (hk : 0 < k) (hb : |b| ≤ 1 + k)
    (hv : (simpleInit P D t0 b R k).speed = some v) (u1 u2 B : ℝ) (hl : PhysicalLaw u1 u2) (hB : NotBrighterThan u1 u2 B) (t t' : ℝ) :
    |fluxAt (getCl u1 u2) R (k * R) (chordPosition P D t0 b R k t) - fluxAt (getCl u1 u2) R (k * R) (chordPosition P D t0 b R k t')| ≤
      stripLight u1 u2 B k * (v / R) * |t - t'| := by
  have hL : 0 ≤ stripLight u1 u2 B k := by
    have := hl.pos
    have hB0 : 0 ≤ B := (hl.1 0 le_rfl zero_le_one).trans (hB 0 le_rfl zero_le_one)
    unfold stripLight
    rw [← fluxFrom_disc]
    positivity
  rw [chord_speed P D t0 b R k hR.le hb, Option.some_inj] at hv
  have hv0 : 0 ≤ v := by rw [← hv]; positivity
  have hx2 : 0 ≤ (1 + k) ^ 2 - b ^ 2 := by nlinarith [abs_nonneg b, sq_abs b]
  have hkR : k * R / R = k := by field_simp
  -- in front of the star or beyond the contacts
  have hflux : ∀ t, fluxAt (getCl u1 u2) R (k * R) (chordPosition P D t0 b R k t) =
      computeLightCurve (getCl u1 u2) (√((v * |chordPhase P t0 t|) ^ 2 + (b * R) ^ 2) / R) k (some 1) := by
    intro t
    have e : (v * |chordPhase P t0 t|) ^ 2 = (v * chordPhase P t0 t) ^ 2 := by rw [mul_pow, sq_abs, ← mul_pow]
    unfold fluxAt
    simp only [chordPosition, hv, hkR, e]
    split_ifs with h
    · unfold computeLightCurve
      simp only [Option.getD_some, gt_iff_lt, one_div, inv_pos, hR, zero_lt_one]
    · have hfar : 1 + k ≤ √((v * chordPhase P t0 t) ^ 2 + (b * R) ^ 2) / R := by
        rw [le_div_iff₀ hR]
        apply le_sqrt_of_sq_le
        have h1 : v * (D / 2) ≤ v * |chordPhase P t0 t| := mul_le_mul_of_nonneg_left (not_lt.1 h) hv0
        have h2 : v * (D / 2) = R * √((1 + k) ^ 2 - b ^ 2) := by rw [← hv]; field_simp
        have h3 : (v * (D / 2)) ^ 2 ≤ (v * |chordPhase P t0 t|) ^ 2 := pow_le_pow_left₀ (by positivity) h1 2
        rw [h2, mul_pow, sq_sqrt hx2, e] at h3
        linarith
      rw [C37_apart u1 u2 _ _ _ hl hfar, C37_apart u1 u2 _ _ _ hl hfar]
  rw [hflux, hflux]
  refine (C115_distance u1 u2 B hl hB _ _ k hk (by positivity) (by positivity) (some 1)).trans ?_
  rw [mul_assoc]
  refine mul_le_mul_of_nonneg_left ?_ hL
  rw [← sub_div, abs_div, abs_of_pos hR, div_mul_eq_mul_div]
  refine div_le_div_of_nonneg_right ?_ hR.le
  refine (plane_triangle _ _ _ _).trans ?_
  rw [sub_self, show ∀ z : ℝ, z ^ 2 + 0 ^ 2 = z ^ 2 from fun z => by ring, sqrt_sq_eq_abs, ← mul_sub, abs_mul, abs_of_nonneg hv0]
  exact mul_le_mul_of_nonneg_left (phase_lipschitz hP t0 t t') hv0

/-- **C138 (light curves, at the requested time).** -/
theorem C138_light_curve (P D t0 b R k v : ℝ) (hP : 0 < P) (hD : 0 < D) (hR : 0 < R) (hk : 0 < k) (hb : |b| ≤ 1 + k)
    (hv : (simpleInit P D t0 b R k).speed = some v) (ρ : Rounding) (u1 u2 B E : ℝ) (hl : PhysicalLaw u1 u2) (hB : NotBrighterThan u1 u2 B)
    (ld : ℝ → ℝ → ℝ) (hld : ∀ b k, 0 ≤ b → 0 < k → |ld b k - quadLimbdarkLightCurve (getCl u1 u2) b k| ≤ E) (t : ℝ) :
    |ρ.flux ld R (k * R) (ρ.simplePosition (simpleInit P D t0 b R k) v t) -
        fluxAt (getCl u1 u2) R (k * R) (chordPosition P D t0 b R k t)| ≤
      E + ρ.u * (15 * (v * P / R + (1 + k)) * stripLight u1 u2 B k + 3 * (B * k ^ 2 / (1 - u1 / 3 - u2 / 6)) +
        stripLight u1 u2 B k * (v / R) * (2 * |t0| + |t - t0| + 2 * P)) := by
  obtain ⟨t', ht, hf⟩ := C138_flux P D t0 b R k v hP hD hR hk hb hv ρ u1 u2 B E hl hB ld hld t
  have h1 := C138_time P D t0 b R k v hP hD hR hk hb hv u1 u2 B hl hB t' t
  have hv' := hv
  rw [chord_speed P D t0 b R k hR.le hb, Option.some_inj] at hv'
  have hv0 : 0 ≤ v := by rw [← hv']; positivity
  have hL : 0 ≤ stripLight u1 u2 B k := by
    have := hl.pos
    have hB0 : 0 ≤ B := (hl.1 0 le_rfl zero_le_one).trans (hB 0 le_rfl zero_le_one)
    unfold stripLight
    rw [← fluxFrom_disc]
    positivity
  have h2 := mul_le_mul_of_nonneg_left ht (by positivity : 0 ≤ stripLight u1 u2 B k * (v / R))
  refine (abs_sub_le _ _ _).trans ((add_le_add hf (h1.trans h2)).trans (le_of_eq ?_))
  ring

/-- The hypotheses hold for a transit of three hours every three days: in double precision, with an exact compiled operation, the flux is that at a
time less than a microsecond away, within `10⁻¹²`, for ten thousand days. -/
example (t : ℝ) (ht : |t| ≤ 10000) : ∃ v, (simpleInit 3 0.125 0 0.4 1 0.1).speed = some v ∧ ∃ t', |t' - t| ≤ 1e-11 ∧
    |doubles.flux (quadLimbdarkLightCurve (getCl 0.3 0.2)) 1 (0.1 * 1) (doubles.simplePosition (simpleInit 3 0.125 0 0.4 1 0.1) v t) -
      fluxAt (getCl 0.3 0.2) 1 (0.1 * 1) (chordPosition 3 0.125 0 0.4 1 0.1 t')| ≤ 1e-12 := by
  have hb : |(0.4 : ℝ)| ≤ 1 + 0.1 := by norm_num [abs_of_pos]
  have hs := chord_speed 3 0.125 0 0.4 1 0.1 zero_le_one hb
  refine ⟨_, hs, ?_⟩
  obtain ⟨t', h1, h2⟩ := C138_flux 3 0.125 0 0.4 1 0.1 _ (by norm_num) (by norm_num) one_pos (by norm_num) hb hs doubles 0.3 0.2 1 0
    (physicalLaw_of_kipping (by norm_num) (by norm_num))
    (C115_centre_brightest _ _ ((darkensOutwards_iff _ _).2 ⟨by norm_num, by norm_num⟩))
    (quadLimbdarkLightCurve (getCl 0.3 0.2)) (fun b k _ _ => by simp) t
  have hu : doubles.u = 2⁻¹ ^ 53 := rfl
  refine ⟨t', h1.trans ?_, h2.trans ?_⟩
  · rw [hu, sub_zero, abs_zero]
    have : (2⁻¹ ^ 53 : ℝ) * (2 * 0 + |t| + 2 * 3) ≤ 2⁻¹ ^ 53 * (2 * 0 + 10000 + 2 * 3) :=
      mul_le_mul_of_nonneg_left (by linarith) (by positivity)
    exact this.trans (by norm_num)
  · have hstrip : stripLight 0.3 0.2 1 0.1 ≤ 1 := by
      have := pi_gt_d2
      unfold stripLight
      rw [div_le_one (mul_pos pi_pos (by norm_num))]
      nlinarith
    have hw : √((1 + 0.1 : ℝ) ^ 2 - 0.4 ^ 2) ≤ 1.1 := sqrt_le_iff.2 ⟨by norm_num, by norm_num⟩
    have hw0 : (0 : ℝ) ≤ √((1 + 0.1 : ℝ) ^ 2 - 0.4 ^ 2) := sqrt_nonneg _
    rw [hu, zero_add]
    clear h1 h2
    generalize √((1 + 0.1 : ℝ) ^ 2 - 0.4 ^ 2) = w at *
    have h5 : 15 * (2 * (1 * w) / 0.125 * 3 / 1 + (1 + 0.1)) * stripLight 0.3 0.2 1 0.1 ≤ 900 := by
      refine (mul_le_of_le_one_right (by positivity) hstrip).trans ?_
      rw [show 2 * (1 * w) / 0.125 * 3 / 1 = 48 * w by rw [div_one, one_mul, div_mul_eq_mul_div, div_eq_iff (by norm_num)]; ring]
      linarith
    have h6 : 3 * (1 * (0.1 : ℝ) ^ 2 / (1 - 0.3 / 3 - 0.2 / 6)) ≤ 1 := by norm_num
    calc _ ≤ (2⁻¹ ^ 53 : ℝ) * (900 + 1) := mul_le_mul_of_nonneg_left (add_le_add h5 h6) (by positivity)
      _ ≤ _ := by norm_num

/-- **C138 (`in_transit`).** The rounded decision whether a time is in transit is the exact one, except within a few roundings of the elapsed time, of the
epoch and of the period from the first and last contact (widened by the exposure time). -/
theorem C138_in_transit (P D t0 b R k : ℝ) (hP : 0 < P) (hD : 0 < D) (texp : Option ℝ) (he : ∀ e, texp = some e → 0 ≤ e) (ρ : Rounding) (t : ℝ)
    (hfar : ρ.u * (2 * |t0| + |t - t0| + 5 * P + 3 * (D / 2 + texp.getD 0 / 2)) < abs (|chordPhase P t0 t| - (D / 2 + texp.getD 0 / 2))) :
    ρ.simpleMask (simpleInit P D t0 b R k) texp t ↔ |chordPhase P t0 t| < D / 2 + texp.getD 0 / 2 := by
  have hu := ρ.u_nonneg
  obtain ⟨t', ht, hd⟩ := ρ.simpleDt_err P D t0 b R k hP t
  have hl := phase_lipschitz hP t0 t' t
  have h2 := (abs_abs_sub_abs_le (ρ.simpleDt (simpleInit P D t0 b R k) t) (chordPhase P t0 t')).trans hd
  have hdur : (simpleInit P D t0 b R k).duration = D := rfl
  have huP : 0 ≤ ρ.u * P := by positivity
  have h1 := ρ.rnd_err (0.5 * D)
  rw [abs_of_pos (by positivity : 0 < 0.5 * D)] at h1
  obtain ⟨w, hw, hwe⟩ : ∃ w, (ρ.simpleMask (simpleInit P D t0 b R k) texp t ↔ |ρ.simpleDt (simpleInit P D t0 b R k) t| < w) ∧
      |w - (D / 2 + texp.getD 0 / 2)| ≤ 3 * (ρ.u * (D / 2 + texp.getD 0 / 2)) := by
    have huD : 0 ≤ ρ.u * D := by positivity
    cases texp with
    | none =>
      refine ⟨_, Iff.rfl, ?_⟩
      simp only [hdur, Option.getD_none]
      rw [show D / 2 + 0 / 2 = 0.5 * D by ring]
      exact h1.trans (by linarith)
    | some e =>
      have he0 := he e rfl
      refine ⟨_, Iff.rfl, ?_⟩
      simp only [hdur, Option.getD_some]
      rw [show D / 2 + e / 2 = 0.5 * D + 0.5 * e by ring]
      have h3 := ρ.rnd_err (0.5 * e)
      rw [abs_of_nonneg (by positivity : 0 ≤ 0.5 * e)] at h3
      have h4 : |ρ.rnd (0.5 * D) + ρ.rnd (0.5 * e) - (0.5 * D + 0.5 * e)| ≤ ρ.u * (0.5 * D + 0.5 * e) := by
        rw [add_sub_add_comm]
        exact (abs_add_le _ _).trans (by linarith)
      have h5 := ρ.near h4
      have hw0 : 0 ≤ 0.5 * D + 0.5 * e := by positivity
      rw [abs_of_nonneg hw0] at h5
      have h6 := mul_le_mul_of_nonneg_right ρ.sq_u_le hw0
      have h7 := mul_nonneg hu hw0
      linarith
  rw [hw]
  generalize ρ.simpleDt (simpleInit P D t0 b R k) t = d at *
  generalize D / 2 + texp.getD 0 / 2 = W at *
  have a1 := abs_le.1 hwe
  have a2 := abs_le.1 h2
  have a3 := abs_le.1 hl
  rcases lt_abs.1 hfar with h3 | h3
  · constructor <;> intro h <;> exfalso <;> linarith
  · constructor <;> intro _ <;> linarith

/-- A planet with a period of three days and transits of three hours, observed for 27 years in double precision with exposures of half an hour: the
decision can only be wrong within a microsecond (`10⁻¹¹` days) from the contacts. -/
example (t : ℝ) (ht : |t| ≤ 10000) (hfar : 1e-11 < abs (|chordPhase 3 0 t| - (0.125 / 2 + (some 0.02 : Option ℝ).getD 0 / 2))) :
    doubles.simpleMask (simpleInit 3 0.125 0 0.4 1 0.1) (some 0.02) t ↔ |chordPhase 3 0 t| < 0.125 / 2 + 0.02 / 2 := by
  refine C138_in_transit 3 0.125 0 0.4 1 0.1 (by norm_num) (by norm_num) (some 0.02) (fun e he => ?_) doubles t (lt_of_le_of_lt ?_ hfar)
  · rw [← Option.some.inj he]; norm_num
  · have hu : doubles.u = 2⁻¹ ^ 53 := rfl
    rw [hu, sub_zero, abs_zero, Option.getD_some]
    have : (2⁻¹ ^ 53 : ℝ) * (2 * 0 + |t| + 5 * 3 + 3 * (0.125 / 2 + 0.02 / 2)) ≤ 2⁻¹ ^ 53 * (2 * 0 + 10000 + 5 * 3 + 3 * (0.125 / 2 + 0.02 / 2)) :=
      mul_le_mul_of_nonneg_left (by linarith) (by positivity)
    exact this.trans (by norm_num)

end Exo
