import Verif.Model.DurToEcc
import Mathlib.Analysis.SpecialFunctions.Sqrt
import Mathlib.Analysis.Calculus.Deriv.Inv
import Mathlib.Analysis.Calculus.Deriv.Pow
import Mathlib.Analysis.Calculus.Deriv.Add
import Mathlib.Analysis.SpecialFunctions.Pow.Real
import Mathlib.Tactic.FieldSimp
import Mathlib.Tactic.Ring
import Mathlib.Tactic.Linarith
import Mathlib.Tactic.Positivity

/-!
# C68: eccentricity from the transit duration
-/

namespace Exo
open Real

/-- The duration of a transit relative to that of a circular orbit, at argument of periastron with sine `s` (Winn 2010, eq. 16). -/
noncomputable def durationRatio (s e : ℝ) : ℝ := √(1 - e ^ 2) / (1 + e * s)

/-- C68 (partial: the formulas; the function that contains them cannot be called, see `C68_call_always_fails`). The two candidates are
exactly the eccentricities with the given relative duration. -/
theorem C68_candidates_are_the_solutions_partial (s u e : ℝ) (hs : -1 ≤ s) (_hs' : s ≤ 1) (hu : 0 < u) (he : 0 ≤ e) (he' : e < 1) :
    durationRatio s e = u ↔
      0 ≤ (s ^ 2 - 1) * u ^ 2 + 1 ∧ (e = durEccE1 s u - durEccE2 s u ∨ e = durEccE1 s u + durEccE2 s u) := by
  have hpos : 0 < 1 + e * s := by nlinarith
  have hk : 0 < (s * u) ^ 2 + 1 := by positivity
  have h1e : 0 ≤ 1 - e ^ 2 := by nlinarith
  have step1 : durationRatio s e = u ↔ (((s * u) ^ 2 + 1) * e + s * u ^ 2) ^ 2 = (s ^ 2 - 1) * u ^ 2 + 1 := by
    unfold durationRatio
    rw [div_eq_iff hpos.ne']
    constructor
    · intro h
      have h2 : 1 - e ^ 2 = (u * (1 + e * s)) ^ 2 := by rw [← h, sq_sqrt h1e]
      linear_combination (-((s * u) ^ 2 + 1)) * h2
    · intro h
      have h3 : ((s * u) ^ 2 + 1) * (1 - e ^ 2 - (u * (1 + e * s)) ^ 2) = 0 := by linear_combination -h
      have h2 : 1 - e ^ 2 = (u * (1 + e * s)) ^ 2 := by
        rcases mul_eq_zero.1 h3 with h | h
        · exact absurd h hk.ne'
        · linarith
      rw [h2, sqrt_sq (by positivity)]
  have step2 : (((s * u) ^ 2 + 1) * e + s * u ^ 2) ^ 2 = (s ^ 2 - 1) * u ^ 2 + 1 ↔
      0 ≤ (s ^ 2 - 1) * u ^ 2 + 1 ∧ (((s * u) ^ 2 + 1) * e + s * u ^ 2 = -√((s ^ 2 - 1) * u ^ 2 + 1) ∨
        ((s * u) ^ 2 + 1) * e + s * u ^ 2 = √((s ^ 2 - 1) * u ^ 2 + 1)) := by
    constructor
    · intro h
      have h0 : 0 ≤ (s ^ 2 - 1) * u ^ 2 + 1 := h ▸ sq_nonneg _
      refine ⟨h0, ?_⟩
      rw [← sq_sqrt h0] at h
      exact (sq_eq_sq_iff_eq_or_eq_neg.1 h).symm
    · rintro ⟨h0, h | h⟩ <;> rw [h]
      · rw [neg_sq, sq_sqrt h0]
      · rw [sq_sqrt h0]
  rw [step1, step2]
  refine and_congr_right fun _ => or_congr ?_ ?_
  · unfold durEccE1 durEccE2
    rw [← sub_div, eq_div_iff hk.ne']
    constructor <;> intro h <;> linarith
  · unfold durEccE1 durEccE2
    rw [← add_div, eq_div_iff hk.ne']
    constructor <;> intro h <;> linarith

/-- A case with hypotheses met: a duration ratio of 1/√3 is that of an eccentricity of 1/2 with periastron transit. -/
example : durationRatio 1 (1 / 2) = √(3 / 4) / (3 / 2) := by
  unfold durationRatio; norm_num

/-- The time a planet takes to cross the chord of the stellar disc at impact parameter `b` (in stellar radii), moving in a straight line
with its orbital speed at conjunction: chord `2 r √((1+k)² - b²)`, sky-plane speed `2π a / P · (1 + e sin ω) / √(1 - e²)`. -/
noncomputable def chordTime (period a r_star ror b s e : ℝ) : ℝ :=
  (2 * r_star * √((1 + ror) ^ 2 - b ^ 2)) / (2 * π * a / period * (1 + e * s) / √(1 - e ^ 2))

/-- C68 (partial: for given consistent inputs; the call that should compute them always fails). The candidates are exactly the
eccentricities for which the planet crosses the disc in the given time. -/
theorem C68_candidates_have_the_duration_partial (A : DurEccArgs) (I : Inputs) (e : ℝ) (hP : 0 < I.period) (ha : 0 < I.a)
    (hr : 0 < I.r_star) (hb : A.b ^ 2 < (1 + A.ror) ^ 2) (hd : 0 < A.duration) (he : 0 ≤ e) (he' : e < 1) :
    chordTime I.period I.a I.r_star A.ror A.b (sin A.omega) e = A.duration ↔
      A.duration ^ 2 * cos A.omega ^ 2 ≤ chordTime I.period I.a I.r_star A.ror A.b 0 0 ^ 2 ∧
        (e = (durEccCandidates A I).1 ∨ e = (durEccCandidates A I).2) := by
  have hq : 0 < √((1 + A.ror) ^ 2 - A.b ^ 2) := sqrt_pos.2 (by linarith)
  have hc : 0 < durEccConst I.period I.r_star A.ror A.b I.a := by
    unfold durEccConst
    have := pi_pos
    positivity
  have h1e : 0 < √(1 - e ^ 2) := sqrt_pos.2 (by nlinarith)
  have h0 : chordTime I.period I.a I.r_star A.ror A.b 0 0 = durEccConst I.period I.r_star A.ror A.b I.a := by
    unfold chordTime durEccConst
    have := pi_pos
    norm_num
    field_simp
  have hT : chordTime I.period I.a I.r_star A.ror A.b (sin A.omega) e =
      durEccConst I.period I.r_star A.ror A.b I.a * durationRatio (sin A.omega) e := by
    unfold chordTime durEccConst durationRatio
    have := pi_pos
    by_cases hz : 1 + e * sin A.omega = 0
    · simp [hz]
    · field_simp
  rw [h0, hT, mul_comm, ← eq_div_iff hc.ne', C68_candidates_are_the_solutions_partial _ _ _ (neg_one_le_sin _) (sin_le_one _) (div_pos hd hc) he he']
  refine and_congr ?_ Iff.rfl
  rw [cos_sq', div_pow]
  have hc2 : 0 < durEccConst I.period I.r_star A.ror A.b I.a ^ 2 := by positivity
  generalize durEccConst I.period I.r_star A.ror A.b I.a ^ 2 = c at hc2
  rw [show (sin A.omega ^ 2 - 1) * (A.duration ^ 2 / c) + 1 = (c - A.duration ^ 2 * (1 - sin A.omega ^ 2)) / c by field_simp; ring,
    le_div_iff₀ hc2, zero_mul, sub_nonneg]

/-- A case with the hypotheses met: if the duration is that of a circular orbit, zero is one of the candidates. -/
example (A : DurEccArgs) (hA : A = { duration := chordTime 10 20 1 0.1 0.2 0 0, ror := 0.1, b := 0.2, omega := 0 }) :
    0 = (durEccCandidates A ⟨20, 10, 1, 1, 1, 0⟩).1 ∨ 0 = (durEccCandidates A ⟨20, 10, 1, 1, 1, 0⟩).2 := by
  have hd : 0 < chordTime 10 20 1 0.1 0.2 0 0 := by
    unfold chordTime
    have := pi_pos
    have h : 0 < √((1 + 0.1 : ℝ) ^ 2 - 0.2 ^ 2) := sqrt_pos.2 (by norm_num)
    have h' : 0 < √(1 - (0 : ℝ) ^ 2) := sqrt_pos.2 (by norm_num)
    positivity
  refine ((C68_candidates_have_the_duration_partial A ⟨20, 10, 1, 1, 1, 0⟩ 0 (by norm_num) (by norm_num) (by norm_num) ?_ ?_ le_rfl
    one_pos).1 ?_).2
  · subst hA; norm_num
  · subst hA; exact hd
  · subst hA; simp [chordTime]

/-- C68. The acceptance test `1/u > umax_inv` (dur_to_ecc.py:85,97; here with `≥`, the boundary case is a double root): there is a
solution iff the duration is at most the longest possible one. -/
theorem C68_solvable_iff (s u : ℝ) (hs : -1 < s) (hs' : s ≤ 1) (hu : 0 < u) :
    (∃ e, 0 ≤ e ∧ e < 1 ∧ durationRatio s e = u) ↔ durEccUmaxInv s ≤ 1 / u := by
  have hk : 0 < (s * u) ^ 2 + 1 := by positivity
  constructor
  · rintro ⟨e, he, he', rfl⟩
    have hpos : 0 < 1 + e * s := by nlinarith
    have h1e : 0 < 1 - e ^ 2 := by nlinarith
    have hsq : 0 < √(1 - e ^ 2) := sqrt_pos.2 h1e
    unfold durEccUmaxInv durationRatio
    rw [one_div_div, le_div_iff₀ hsq]
    split_ifs with h
    · rw [← sqrt_mul (by nlinarith)]
      rw [sqrt_le_left hpos.le]
      nlinarith [sq_nonneg (s + e)]
    · have h0 : 0 ≤ s := not_lt.1 h
      have : √(1 - e ^ 2) ≤ 1 := by
        rw [sqrt_le_one]
        nlinarith
      nlinarith [mul_nonneg he h0]
  · intro h
    rw [le_div_iff₀ hu] at h
    have key : 0 ≤ (s ^ 2 - 1) * u ^ 2 + 1 ∧ 0 ≤ -s * u ^ 2 + √((s ^ 2 - 1) * u ^ 2 + 1) ∧ 0 < 1 + (s * u) ^ 2 + s * u ^ 2 := by
      unfold durEccUmaxInv at h
      split_ifs at h with h0
      · have hc : 0 ≤ 1 - s ^ 2 := by nlinarith
        have h2 : (1 - s ^ 2) * u ^ 2 ≤ 1 := by
          have : (√(1 - s ^ 2) * u) ^ 2 ≤ 1 ^ 2 := by
            apply pow_le_pow_left₀ (by positivity) h
          rw [mul_pow, sq_sqrt hc] at this
          linarith
        refine ⟨by linarith, ?_, ?_⟩
        · have : 0 ≤ -s * u ^ 2 := by nlinarith [sq_nonneg u]
          have := sqrt_nonneg ((s ^ 2 - 1) * u ^ 2 + 1)
          linarith
        · have h3 : 0 < (1 - s) * (1 + (s * u) ^ 2 + s * u ^ 2) := by
            have e : (1 - s) * (1 + (s * u) ^ 2 + s * u ^ 2) = (1 - s) + s * ((1 - s ^ 2) * u ^ 2) := by ring
            rw [e]
            nlinarith
          have h1s : 0 < 1 - s := by linarith
          exact pos_of_mul_pos_right h3 h1s.le
      · have h0 : 0 ≤ s := not_lt.1 h0
        have hu1 : u ≤ 1 := by linarith
        have hu2 : u ^ 2 ≤ 1 := by nlinarith
        have hD : (s * u ^ 2) ^ 2 ≤ (s ^ 2 - 1) * u ^ 2 + 1 := by
          have : 0 ≤ (1 - u ^ 2) * (1 + s ^ 2 * u ^ 2) := mul_nonneg (by linarith) (by positivity)
          nlinarith
        refine ⟨le_trans (sq_nonneg _) hD, ?_, by positivity⟩
        have := le_sqrt_of_sq_le hD
        linarith
    obtain ⟨k1, k2, k3⟩ := key
    refine ⟨durEccE1 s u + durEccE2 s u, ?_, ?_, ?_⟩
    · unfold durEccE1 durEccE2
      rw [← add_div]
      exact div_nonneg k2 hk.le
    · unfold durEccE1 durEccE2
      rw [← add_div, div_lt_one hk]
      have : √((s ^ 2 - 1) * u ^ 2 + 1) < 1 + (s * u) ^ 2 + s * u ^ 2 := by
        rw [sqrt_lt' k3]
        have h1 : 0 < (s + 1) ^ 2 * u ^ 2 * (1 + s ^ 2 * u ^ 2) := by
          have : 0 < s + 1 := by linarith
          positivity
        nlinarith
      linarith
    · refine (C68_candidates_are_the_solutions_partial s u _ hs.le hs' hu ?_ ?_).2 ⟨k1, Or.inr rfl⟩
      · unfold durEccE1 durEccE2
        rw [← add_div]
        exact div_nonneg k2 hk.le
      · unfold durEccE1 durEccE2
        rw [← add_div, div_lt_one hk]
        have : √((s ^ 2 - 1) * u ^ 2 + 1) < 1 + (s * u) ^ 2 + s * u ^ 2 := by
          rw [sqrt_lt' k3]
          have h1 : 0 < (s + 1) ^ 2 * u ^ 2 * (1 + s ^ 2 * u ^ 2) := by
            have : 0 < s + 1 := by linarith
            positivity
          nlinarith
        linarith

/-- An apastron-side case where the transit is longer than on a circular orbit. -/
example : durEccUmaxInv (-0.8) ≤ 1 / (1.5 : ℝ) := by
  unfold durEccUmaxInv
  rw [if_pos (by norm_num), sqrt_le_left (by norm_num)]
  norm_num

/-- C68. The Jacobian is that of the inverse of the map from eccentricity to duration. -/
theorem C68_jacobian (s const e : ℝ) (hs : -1 ≤ s) (_hs' : s ≤ 1) (hc : 0 < const) (he : 0 ≤ e) (he' : e < 1) (hse : s + e ≠ 0) :
    ∃ d, HasDerivAt (fun e => const * durationRatio s e) d e ∧ exp (durEccLogJac s const e) = |d|⁻¹ := by
  have hpos : 0 < 1 + e * s := by nlinarith
  have h1e : 0 < 1 - e ^ 2 := by nlinarith
  have hsq : 0 < √(1 - e ^ 2) := sqrt_pos.2 h1e
  have hss : √(1 - e ^ 2) ^ 2 = 1 - e ^ 2 := sq_sqrt h1e.le
  refine ⟨-(const * (s + e) / (√(1 - e ^ 2) * (1 + e * s) ^ 2)), ?_, ?_⟩
  · have d1 : HasDerivAt (fun e : ℝ => √(1 - e ^ 2)) (-(2 * e) / (2 * √(1 - e ^ 2))) e := by
      have := ((hasDerivAt_pow 2 e).const_sub 1).sqrt h1e.ne'
      convert this using 1
      simp
    have d2 : HasDerivAt (fun e : ℝ => 1 + e * s) s e := by
      have := ((hasDerivAt_id e).mul_const s).const_add 1
      simpa using this
    have := (d1.div d2 hpos.ne').const_mul const
    have e1 : -(2 * e) / (2 * √(1 - e ^ 2)) * (1 + e * s) - √(1 - e ^ 2) * s = -(s + e) / √(1 - e ^ 2) := by
      field_simp
      rw [hss]
      ring
    rw [e1] at this
    have e2 : const * (-(s + e) / √(1 - e ^ 2) / (1 + e * s) ^ 2) = -(const * (s + e) / (√(1 - e ^ 2) * (1 + e * s) ^ 2)) := by
      field_simp
    rw [e2] at this
    exact this
  · unfold durEccLogJac
    rw [exp_sub, exp_sub, exp_add, exp_log hc, exp_log (abs_pos.2 hse), abs_neg, abs_div, abs_mul, abs_of_pos hc,
      abs_of_pos (mul_pos hsq (pow_pos hpos 2)), inv_div]
    have e1 : exp (0.5 * log (1 - e ^ 2)) = √(1 - e ^ 2) := by
      rw [sqrt_eq_rpow, rpow_def_of_pos h1e]
      congr 1
      ring
    have e2 : exp (2 * log (s * e + 1)) = (1 + e * s) ^ 2 := by
      have : 0 < s * e + 1 := by nlinarith
      rw [two_mul, exp_add, exp_log this]
      ring
    rw [e1, e2, div_div, mul_comm const]

example : (-0.3 : ℝ) + 0.5 ≠ 0 := by norm_num

/-- C68 is false of the function: it passes eight positional arguments to a function with six parameters, so every call ends in a
`TypeError`. -/
theorem C68_call_always_fails (C : Consts) (A : DurEccArgs) : ∃ msg, durationToEccentricity C A = .error (.typeError msg) :=
  ⟨_, rfl⟩

/-- In particular a call with sensible arguments does not succeed. -/
theorem C68_counterexample (C : Consts) : ∀ r, durationToEccentricity C
    { duration := 0.1, ror := 0.1, period := some (10 : ℝ), r_star := some (1 : ℝ), m_star := some (1 : ℝ), omega := 0 } ≠ .ok r := by
  intro r h
  cases h

end Exo
