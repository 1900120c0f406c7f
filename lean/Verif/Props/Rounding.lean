import Verif.Model.Rounded
import Verif.Props.Rates
import Verif.Spec.Doubles

/-!
# C117: rounding
-/

namespace Exo
open Real

namespace Rounding
variable (ρ : Rounding)

/-- One more rounding. -/
theorem near {x y e : ℝ} (h : |x - y| ≤ e) : |ρ.rnd x - y| ≤ e + ρ.u * (|y| + e) := by
  have h1 := ρ.rnd_err x
  have h2 : |x| ≤ |y| + e := by
    have := abs_sub_abs_le_abs_sub x y
    linarith
  calc |ρ.rnd x - y| = |(ρ.rnd x - x) + (x - y)| := by ring_nf
    _ ≤ |ρ.rnd x - x| + |x - y| := abs_add_le _ _
    _ ≤ ρ.u * (|y| + e) + e := add_le_add (h1.trans (mul_le_mul_of_nonneg_left h2 ρ.u_nonneg)) h
    _ = _ := by ring

theorem sq_u_le : ρ.u * ρ.u ≤ ρ.u / 1000 := by
  have := mul_le_mul_of_nonneg_left ρ.u_le ρ.u_nonneg
  linarith

theorem n_err {P : ℝ} (hP : 0 < P) : |ρ.n P - 2 * π / P| ≤ 4 * ρ.u * (2 * π / P) := by
  have hu := ρ.u_nonneg
  have hpi := pi_pos
  have h1 : |2 * ρ.piF - 2 * π| ≤ ρ.u * (2 * π) := by
    rw [← mul_sub, abs_mul, abs_two]
    linarith [ρ.pi_err]
  have h2 := ρ.near h1
  rw [abs_of_pos (show (0 : ℝ) < 2 * π by positivity)] at h2
  have h3 : |ρ.rnd (2 * ρ.piF) / P - 2 * π / P| ≤ (2 * ρ.u + ρ.u * ρ.u) * (2 * π / P) := by
    rw [← sub_div, abs_div, abs_of_pos hP, ← mul_div_assoc]
    apply div_le_div_of_nonneg_right _ hP.le
    linarith
  have hn : 0 < 2 * π / P := by positivity
  have h4 := ρ.near h3
  rw [abs_of_pos hn] at h4
  refine h4.trans ?_
  have h5 := ρ.sq_u_le
  have h6 : ρ.u * (ρ.u * ρ.u) ≤ ρ.u * (ρ.u / 1000) := mul_le_mul_of_nonneg_left h5 hu
  have h7 : (2 * ρ.u + ρ.u * ρ.u) + ρ.u * (1 + (2 * ρ.u + ρ.u * ρ.u)) ≤ 4 * ρ.u := by linarith
  calc _ = ((2 * ρ.u + ρ.u * ρ.u) + ρ.u * (1 + (2 * ρ.u + ρ.u * ρ.u))) * (2 * π / P) := by ring
    _ ≤ _ := mul_le_mul_of_nonneg_right h7 hn.le

/-- `M0 / n` -/
theorem quarter_err {P : ℝ} (hP : 0 < P) : |ρ.rnd (ρ.rnd (0.5 * ρ.piF) / ρ.n P) - P / 4| ≤ 9 * ρ.u * (P / 4) := by
  have hu := ρ.u_nonneg
  have hu1 := ρ.u_le
  have hpi := pi_pos
  have h5 := ρ.sq_u_le
  have h1 : |0.5 * ρ.piF - π / 2| ≤ ρ.u * (π / 2) := by
    rw [show 0.5 * ρ.piF - π / 2 = 0.5 * (ρ.piF - π) by ring, abs_mul, abs_of_pos (by norm_num : (0 : ℝ) < 0.5)]
    linarith [ρ.pi_err]
  have h2 := ρ.near h1
  rw [abs_of_pos (show (0 : ℝ) < π / 2 by positivity)] at h2
  have h2' : |ρ.rnd (0.5 * ρ.piF) - π / 2| ≤ 2.01 * ρ.u * (π / 2) := by
    refine h2.trans ?_
    have : (ρ.u + ρ.u * (1 + ρ.u)) ≤ 2.01 * ρ.u := by linarith
    calc _ = (ρ.u + ρ.u * (1 + ρ.u)) * (π / 2) := by ring
      _ ≤ _ := mul_le_mul_of_nonneg_right this (by positivity)
  have hn := ρ.n_err hP
  set n := 2 * π / P with hnd
  have hn0 : 0 < n := by positivity
  have hq : π / 2 / n = P / 4 := by rw [hnd]; field_simp; norm_num
  have hnl : n * (1 - 4 * ρ.u) ≤ ρ.n P := by
    have := (abs_le.1 hn).1
    linarith
  have hnl' : 0.996 * n ≤ ρ.n P := by
    refine le_trans ?_ hnl
    rw [mul_comm]
    exact mul_le_mul_of_nonneg_left (by linarith) hn0.le
  have hnp : 0 < ρ.n P := lt_of_lt_of_le (by positivity) hnl'
  generalize hMM : ρ.rnd (0.5 * ρ.piF) = MM at h2'
  have h3 : |MM / ρ.n P - P / 4| ≤ 7 * ρ.u * (P / 4) := by
    rw [show MM / ρ.n P - P / 4 = (MM - (P / 4) * ρ.n P) / ρ.n P by field_simp, abs_div, abs_of_pos hnp, div_le_iff₀ hnp]
    have e1 : MM - P / 4 * ρ.n P = (MM - π / 2) - P / 4 * (ρ.n P - n) := by
      rw [← hq]; field_simp; ring
    have e2 : |P / 4 * (ρ.n P - n)| ≤ 4 * ρ.u * (π / 2) := by
      rw [abs_mul, abs_of_pos (by positivity : (0 : ℝ) < P / 4)]
      calc P / 4 * |ρ.n P - n| ≤ P / 4 * (4 * ρ.u * n) := mul_le_mul_of_nonneg_left hn (by positivity)
        _ = 4 * ρ.u * (π / 2) := by rw [← hq]; field_simp
    rw [e1]
    refine (abs_sub _ _).trans ((add_le_add h2' e2).trans ?_)
    have e3 : P / 4 * n = π / 2 := by rw [← hq]; field_simp
    calc 2.01 * ρ.u * (π / 2) + 4 * ρ.u * (π / 2) = 6.01 * ρ.u * (P / 4 * n) := by rw [e3]; ring
      _ ≤ 7 * ρ.u * (P / 4) * (0.996 * n) := by
        have : 0 ≤ ρ.u * (P / 4 * n) := by positivity
        linarith
      _ ≤ _ := mul_le_mul_of_nonneg_left hnl' (by positivity)
  have h4 := ρ.near h3
  rw [abs_of_pos (by positivity : (0 : ℝ) < P / 4)] at h4
  refine h4.trans ?_
  have : 7 * ρ.u + ρ.u * (1 + 7 * ρ.u) ≤ 9 * ρ.u := by linarith
  calc _ = (7 * ρ.u + ρ.u * (1 + 7 * ρ.u)) * (P / 4) := by ring
    _ ≤ _ := mul_le_mul_of_nonneg_right this (by positivity)

theorem tref_err {P : ℝ} (hP : 0 < P) (t0 : ℝ) : |ρ.tref t0 P - -(P / 4)| ≤ ρ.u * (1.01 * |t0| + 12 * (P / 4)) := by
  have hu := ρ.u_nonneg
  have hu1 := ρ.u_le
  have h0 := ρ.quarter_err hP
  unfold tref
  simp only
  generalize ρ.rnd (ρ.rnd (0.5 * ρ.piF) / ρ.n P) = q at h0
  have hQ : 0 < P / 4 := by positivity
  generalize P / 4 = Q at *
  have h1 : |t0 - q - (t0 - Q)| ≤ 9 * ρ.u * Q := by
    rw [show t0 - q - (t0 - Q) = -(q - Q) by ring, abs_neg]; exact h0
  have h2 := ρ.near h1
  have h3 : |t0 - Q| ≤ |t0| + Q := (abs_sub _ _).trans (by rw [abs_of_pos hQ])
  have hα : 0 ≤ ρ.u * |t0| := by positivity
  have hγ : 0 ≤ ρ.u * Q := by positivity
  have hα' : ρ.u * (ρ.u * |t0|) ≤ ρ.u * |t0| / 1000 := by
    have := mul_le_mul_of_nonneg_right hu1 hα; linarith
  have hγ' : ρ.u * (ρ.u * Q) ≤ ρ.u * Q / 1000 := by
    have := mul_le_mul_of_nonneg_right hu1 hγ; linarith
  have h4 : |ρ.rnd (t0 - q) - t0 - -Q| ≤ ρ.u * |t0| + 10.01 * (ρ.u * Q) := by
    rw [show ρ.rnd (t0 - q) - t0 - -Q = ρ.rnd (t0 - q) - (t0 - Q) by ring]
    have := mul_le_mul_of_nonneg_left h3 hu
    linarith
  have h5 := ρ.near h4
  rw [abs_neg, abs_of_pos hQ] at h5
  linarith

theorem meanAnomaly_err {P : ℝ} (hP : 0 < P) (t0 t : ℝ) :
    |ρ.meanAnomaly t0 P t - (t - t0 - -(P / 4)) * (2 * π / P)| ≤ ρ.u * (2 * |t0| + 8 * |t - t0| + 5 * P) * (2 * π / P) := by
  have hu := ρ.u_nonneg
  have hu1 := ρ.u_le
  have hn := ρ.n_err hP
  have ht := ρ.tref_err hP t0
  have hn0 : 0 < 2 * π / P := by have := pi_pos; positivity
  unfold meanAnomaly
  rw [show 5 * P = 20 * (P / 4) by ring]
  have hQ : 0 < P / 4 := by positivity
  generalize P / 4 = Q at *
  generalize 2 * π / P = n at *
  have hα : 0 ≤ ρ.u * |t0| := by positivity
  have hβ : 0 ≤ ρ.u * |t - t0| := by positivity
  have hγ : 0 ≤ ρ.u * Q := by positivity
  have hα' : ρ.u * (ρ.u * |t0|) ≤ ρ.u * |t0| / 1000 := by
    have := mul_le_mul_of_nonneg_right hu1 hα; linarith
  have hβ' : ρ.u * (ρ.u * |t - t0|) ≤ ρ.u * |t - t0| / 1000 := by
    have := mul_le_mul_of_nonneg_right hu1 hβ; linarith
  have hγ' : ρ.u * (ρ.u * Q) ≤ ρ.u * Q / 1000 := by
    have := mul_le_mul_of_nonneg_right hu1 hγ; linarith
  have h1 := ρ.rnd_err (t - t0)
  have h2 : |ρ.rnd (t - t0) - ρ.tref t0 P - (t - t0 - -Q)| ≤ ρ.u * |t - t0| + ρ.u * (1.01 * |t0| + 12 * Q) := by
    rw [show ρ.rnd (t - t0) - ρ.tref t0 P - (t - t0 - -Q) = (ρ.rnd (t - t0) - (t - t0)) - (ρ.tref t0 P - -Q) by ring]
    exact (abs_sub _ _).trans (add_le_add h1 ht)
  have hs : |t - t0 - -Q| ≤ |t - t0| + Q := (abs_sub _ _).trans (by rw [abs_neg, abs_of_pos hQ])
  have h3 : |ρ.rnd (ρ.rnd (t - t0) - ρ.tref t0 P) - (t - t0 - -Q)| ≤ 2.01 * (ρ.u * |t - t0|) + 1.02 * (ρ.u * |t0|) + 13.1 * (ρ.u * Q) := by
    have := mul_le_mul_of_nonneg_left hs hu
    linarith [ρ.near h2]
  generalize ρ.rnd (ρ.rnd (t - t0) - ρ.tref t0 P) = e at *
  generalize ρ.n P = nn at *
  have hnn : |nn| ≤ 1.004 * n := by
    have h := abs_sub_abs_le_abs_sub nn n
    rw [abs_of_pos hn0] at h
    have : 4 * ρ.u * n ≤ 4 * (1 / 1000) * n := mul_le_mul_of_nonneg_right (by linarith) hn0.le
    linarith
  have h4 : |e * nn - (t - t0 - -Q) * n| ≤ (6.03 * (ρ.u * |t - t0|) + 1.03 * (ρ.u * |t0|) + 17.2 * (ρ.u * Q)) * n := by
    rw [show e * nn - (t - t0 - -Q) * n = (e - (t - t0 - -Q)) * nn + (t - t0 - -Q) * (nn - n) by ring]
    refine (abs_add_le _ _).trans ?_
    rw [abs_mul, abs_mul]
    have a1 := mul_le_mul h3 hnn (abs_nonneg _) (by positivity)
    have a2 := mul_le_mul hs hn (abs_nonneg _) (by positivity)
    refine (add_le_add a1 a2).trans ?_
    have b1 : 0 ≤ ρ.u * |t - t0| * n := by positivity
    have b2 : 0 ≤ ρ.u * |t0| * n := by positivity
    have b3 : 0 ≤ ρ.u * Q * n := by positivity
    linarith
  have h5 := ρ.near h4
  refine h5.trans ?_
  rw [abs_mul, abs_of_pos hn0]
  have c := mul_le_mul_of_nonneg_left (mul_le_mul_of_nonneg_right hs hn0.le) hu
  have c1 := mul_le_mul_of_nonneg_right hα' hn0.le
  have c2 := mul_le_mul_of_nonneg_right hβ' hn0.le
  have c3 := mul_le_mul_of_nonneg_right hγ' hn0.le
  have b1 : 0 ≤ ρ.u * |t - t0| * n := by positivity
  have b2 : 0 ≤ ρ.u * |t0| * n := by positivity
  have b3 : 0 ≤ ρ.u * Q * n := by positivity
  linarith


/-! ## Positions -/

/-- A rounded product with a cosine or sine. -/
theorem trig_err {a v w : ℝ} (ha : 0 ≤ a) (hv : |v - w| ≤ 2 * ρ.u) (hw : |w| ≤ 1) : |ρ.rnd (-a * v) - -a * w| ≤ 4 * ρ.u * a := by
  have hu := ρ.u_nonneg
  have h1 : |-a * v - -a * w| ≤ 2 * ρ.u * a := by
    rw [← mul_sub, abs_mul, abs_neg, abs_of_nonneg ha, mul_comm]
    exact mul_le_mul_of_nonneg_right hv ha
  have h2 := ρ.near h1
  have h3 : |-a * w| ≤ a := by
    rw [abs_mul, abs_neg, abs_of_nonneg ha]
    exact mul_le_of_le_one_right ha hw
  have h4 := mul_le_mul_of_nonneg_left h3 hu
  have h5 := mul_le_mul_of_nonneg_right ρ.sq_u_le ha
  have h6 : 0 ≤ ρ.u * a := by positivity
  linarith

/-- A rounded product of such a product with a number of absolute value at most one. -/
theorem tilt_err {a c y z : ℝ} (ha : 0 ≤ a) (hc : |c| ≤ 1) (hy : |y - z| ≤ 4 * ρ.u * a) (hz : |z| ≤ a) :
    |ρ.rnd (c * y) - c * z| ≤ 6 * ρ.u * a := by
  have hu := ρ.u_nonneg
  have h1 : |c * y - c * z| ≤ 4 * ρ.u * a := by
    rw [← mul_sub, abs_mul]
    exact (mul_le_of_le_one_left (abs_nonneg _) hc).trans hy
  have h2 := ρ.near h1
  have h3 : |c * z| ≤ a := by
    rw [abs_mul]
    exact (mul_le_of_le_one_left (abs_nonneg _) hc).trans hz
  have h4 := mul_le_mul_of_nonneg_left h3 hu
  have h5 := mul_le_mul_of_nonneg_right ρ.sq_u_le ha
  have h6 : 0 ≤ ρ.u * a := by positivity
  linarith

end Rounding

/-- The coordinates of a circular orbit in terms of the mean anomaly. -/
theorem circular_coordinates {C : Consts} {A : Args} {o : Orbit} (h : keplerianInit C A = .ok o) (hp : o.Physical) (he : o.ecc = none)
    (hO : o.Omega = none) (t : ℝ) :
    o.relativePosition C t = ⟨-o.a * cos ((t - o.t0 - -(o.period / 4)) * (2 * π / o.period)),
      o.cos_incl * (-o.a * sin ((t - o.t0 - -(o.period / 4)) * (2 * π / o.period))),
      -o.sin_incl * (-o.a * sin ((t - o.t0 - -(o.period / 4)) * (2 * π / o.period)))⟩ := by
  have B := built_of_init h
  have hP := hp.period_pos
  have hpi := pi_pos
  have htr : o.tref = -(o.period / 4) := by
    rw [B.tref_eq, B.t0_eq, B.M0_eq, B.n_eq, he, M0Of]
    field_simp
    ring
  simp only [Orbit.relativePosition, Orbit.position, Orbit.positionNow, Orbit.rotate, Orbit.trueAnomaly, Orbit.radius, he, hO, htr, B.n_eq,
    B.warp_eq, Bool.false_eq_true, if_false]

/-- **C117 (positions).** The rounded position is, within `6 u a` (and `4 u a` across the node line), the exact position at a time that
differs from the requested one by at most `u (2 |t0| + 8 |t - t0| + 5 P)`. -/
theorem C117_position (C : Consts) (A : Args) (o : Orbit) (h : keplerianInit C A = .ok o) (hp : o.Physical) (he : o.ecc = none)
    (hO : o.Omega = none) (ρ : Rounding) (t : ℝ) :
    ∃ t', |t' - t| ≤ ρ.u * (2 * |o.t0| + 8 * |t - o.t0| + 5 * o.period) ∧
      |(ρ.position o t).x - (o.relativePosition C t').x| ≤ 4 * ρ.u * o.a ∧
      |(ρ.position o t).y - (o.relativePosition C t').y| ≤ 6 * ρ.u * o.a ∧
      |(ρ.position o t).z - (o.relativePosition C t').z| ≤ 6 * ρ.u * o.a := by
  have B := built_of_init h
  have hP := hp.period_pos
  have ha := hp.a_pos.le
  have hn : 0 < 2 * π / o.period := by have := pi_pos; positivity
  have hM := ρ.meanAnomaly_err hP o.t0 t
  set n := 2 * π / o.period with hnd
  set M := ρ.meanAnomaly o.t0 o.period t with hMd
  refine ⟨o.t0 + -(o.period / 4) + M / n, ?_, ?_⟩
  · have e : (o.t0 + -(o.period / 4) + M / n - t) * n = M - (t - o.t0 - -(o.period / 4)) * n := by field_simp; ring
    rw [← mul_le_mul_iff_left₀ hn, ← abs_of_pos hn, ← abs_mul, abs_of_pos hn, e]
    exact hM
  · have e : (o.t0 + -(o.period / 4) + M / n - o.t0 - -(o.period / 4)) * n = M := by field_simp; ring
    rw [circular_coordinates h hp he hO, ← hnd, e]
    have hc := ρ.trig_err ha (ρ.cos_err M) (abs_cos_le_one M)
    have hs := ρ.trig_err ha (ρ.sin_err M) (abs_sin_le_one M)
    have hsa : |-o.a * sin M| ≤ o.a := by
      rw [abs_mul, abs_neg, abs_of_nonneg ha]
      exact mul_le_of_le_one_right ha (abs_sin_le_one M)
    have hi := B.incl_sq hp
    have h1 : |o.cos_incl| ≤ 1 := abs_le_of_sq_le_sq (by nlinarith [sq_nonneg o.sin_incl]) zero_le_one
    have h2 : |-o.sin_incl| ≤ 1 := by
      rw [abs_neg]
      exact abs_le_of_sq_le_sq (by nlinarith [sq_nonneg o.cos_incl]) zero_le_one
    exact ⟨hc, ρ.tilt_err ha h1 hs hsa, ρ.tilt_err ha h2 hs hsa⟩

/-! ## Light curves -/

namespace Rounding
variable (ρ : Rounding)

theorem rnd_pos (x : ℝ) : 0 < ρ.rnd x ↔ 0 < x := by
  have h := ρ.rnd_err x
  have hu := ρ.u_le
  have hu0 := ρ.u_nonneg
  constructor
  · intro h1
    by_contra h2
    rw [abs_of_nonpos (not_lt.1 h2)] at h
    have := (abs_le.1 h).2
    have h3 : ρ.u * -x ≤ 1 / 1000 * -x := mul_le_mul_of_nonneg_right hu (by linarith)
    linarith
  · intro h1
    rw [abs_of_pos h1] at h
    have := (abs_le.1 h).1
    have h3 : ρ.u * x ≤ 1 / 1000 * x := mul_le_mul_of_nonneg_right hu h1.le
    linarith

/-- The rounded separation. -/
theorem separation_err (x y : ℝ) {R : ℝ} (hR : 0 < R) :
    |ρ.rnd (ρ.rnd √(ρ.rnd (ρ.rnd (x ^ 2) + ρ.rnd (y ^ 2))) / R) - √(x ^ 2 + y ^ 2) / R| ≤ 4.1 * ρ.u * (√(x ^ 2 + y ^ 2) / R) := by
  have hu := ρ.u_nonneg
  have hu1 := ρ.u_le
  have h1 := ρ.rnd_err (x ^ 2)
  have h2 := ρ.rnd_err (y ^ 2)
  rw [abs_of_nonneg (sq_nonneg x)] at h1
  rw [abs_of_nonneg (sq_nonneg y)] at h2
  have h3 : |ρ.rnd (x ^ 2) + ρ.rnd (y ^ 2) - (x ^ 2 + y ^ 2)| ≤ ρ.u * (x ^ 2 + y ^ 2) := by
    rw [show ρ.rnd (x ^ 2) + ρ.rnd (y ^ 2) - (x ^ 2 + y ^ 2) = (ρ.rnd (x ^ 2) - x ^ 2) + (ρ.rnd (y ^ 2) - y ^ 2) by ring, mul_add]
    exact (abs_add_le _ _).trans (add_le_add h1 h2)
  have hS0 : 0 ≤ x ^ 2 + y ^ 2 := by positivity
  have h4 := ρ.near h3
  rw [abs_of_nonneg hS0] at h4
  generalize ρ.rnd (ρ.rnd (x ^ 2) + ρ.rnd (y ^ 2)) = S at h4
  obtain ⟨s, hs0, hs⟩ : ∃ s, 0 ≤ s ∧ x ^ 2 + y ^ 2 = s ^ 2 := ⟨_, sqrt_nonneg _, (sq_sqrt hS0).symm⟩
  rw [hs] at h4 ⊢
  rw [sqrt_sq hs0]
  have h5 : |S - s ^ 2| ≤ 2.01 * ρ.u * s ^ 2 := by
    have h6 : ρ.u * (ρ.u * s ^ 2) ≤ ρ.u * s ^ 2 / 1000 := by
      have := mul_le_mul_of_nonneg_right hu1 (by positivity : 0 ≤ ρ.u * s ^ 2); linarith
    have : 0 ≤ ρ.u * s ^ 2 := by positivity
    linarith
  have hSn : 0 ≤ S := by
    have h7 := (abs_le.1 h5).1
    have h8 : 2.01 * ρ.u * s ^ 2 ≤ 2.01 * (1 / 1000) * s ^ 2 := mul_le_mul_of_nonneg_right (by linarith) (by positivity)
    nlinarith [sq_nonneg s]
  have h6 : |√S - s| ≤ 2.01 * ρ.u * s := by
    rcases hs0.eq_or_lt with h0 | hpos
    · rw [← h0] at h5 ⊢
      have : S = 0 := by simpa using h5
      simp [this]
    · have e : (√S - s) * (√S + s) = S - s ^ 2 := by
        have := sq_sqrt hSn
        linear_combination this
      have hq := sqrt_nonneg S
      have h9 : |√S - s| * s ≤ |S - s ^ 2| := by
        rw [← e, abs_mul, abs_of_nonneg (by positivity : 0 ≤ √S + s)]
        exact mul_le_mul_of_nonneg_left (by linarith) (abs_nonneg _)
      have h10 : |√S - s| * s ≤ 2.01 * ρ.u * s * s := by linarith
      exact le_of_mul_le_mul_right h10 hpos
  have h7 := ρ.near h6
  rw [abs_of_nonneg hs0] at h7
  have hγ' : ρ.u * (ρ.u * s) ≤ ρ.u * s / 1000 := by
    have := mul_le_mul_of_nonneg_right hu1 (by positivity : 0 ≤ ρ.u * s); linarith
  have hγ : 0 ≤ ρ.u * s := by positivity
  have h8 : |ρ.rnd √S / R - s / R| ≤ 3.02 * ρ.u * (s / R) := by
    rw [← sub_div, abs_div, abs_of_pos hR, ← mul_div_assoc]
    apply div_le_div_of_nonneg_right _ hR.le
    linarith
  have h9 := ρ.near h8
  have hsR : 0 ≤ s / R := by positivity
  rw [abs_of_nonneg hsR] at h9
  have hδ' : ρ.u * (ρ.u * (s / R)) ≤ ρ.u * (s / R) / 1000 := by
    have := mul_le_mul_of_nonneg_right hu1 (by positivity : 0 ≤ ρ.u * (s / R)); linarith
  have hδ : 0 ≤ ρ.u * (s / R) := by positivity
  linarith

end Rounding

theorem plane_triangle (x y x' y' : ℝ) : |√(x ^ 2 + y ^ 2) - √(x' ^ 2 + y' ^ 2)| ≤ √((x - x') ^ 2 + (y - y') ^ 2) := by
  have h := abs_norm_sub_norm_le (⟨x, y⟩ : ℂ) ⟨x', y'⟩
  simpa [Complex.norm_eq_sqrt_sq_add_sq] using h

/-- **C117 (light curves).** The rounded flux of a circular orbit is the exact flux at a time that differs from the requested one by at most
`u (2 |t0| + 8 |t - t0| + 5 P)`, within the error `E` of the compiled operation and a few units `u` times the scale of the orbit. No condition on
the line of sight is needed: where rounding changes the sign of the height the planet is far from the star. -/
theorem C117_flux (C : Consts) (A : Args) (o : Orbit) (h : keplerianInit C A = .ok o) (hp : o.Physical) (he : o.ecc = none)
    (hO : o.Omega = none) (ρ : Rounding) (u1 u2 B r E : ℝ) (hl : PhysicalLaw u1 u2) (hB : NotBrighterThan u1 u2 B) (hr : 0 < r)
    (ha : 2 * (o.r_star + r) ≤ o.a) (ld : ℝ → ℝ → ℝ)
    (hld : ∀ b k, 0 ≤ b → 0 < k → |ld b k - quadLimbdarkLightCurve (getCl u1 u2) b k| ≤ E) (t : ℝ) :
    ∃ t', |t' - t| ≤ ρ.u * (2 * |o.t0| + 8 * |t - o.t0| + 5 * o.period) ∧
      |ρ.flux ld o.r_star r (ρ.position o t) - fluxAt (getCl u1 u2) o.r_star r (o.relativePosition C t')| ≤
        E + ρ.u * (13 * (o.a / o.r_star) * stripLight u1 u2 B (r / o.r_star) + 3 * (B * (r / o.r_star) ^ 2 / (1 - u1 / 3 - u2 / 6))) := by
  obtain ⟨t', ht, hx, hy, hz⟩ := C117_position C A o h hp he hO ρ t
  refine ⟨t', ht, ?_⟩
  have BB := built_of_init h
  have hR := hp.r_star_pos
  have ha0 := hp.a_pos
  have hu := ρ.u_nonneg
  have hu1 := ρ.u_le
  have hB0 : 0 ≤ B := (hl.1 0 le_rfl zero_le_one).trans (hB 0 le_rfl zero_le_one)
  have hL : 0 ≤ stripLight u1 u2 B (r / o.r_star) := by
    have := hl.pos
    unfold stripLight
    rw [← fluxFrom_disc]
    positivity
  have hD : 0 < 1 - u1 / 3 - u2 / 6 := hl.2
  -- the exact separation
  have hsq : (o.relativePosition C t').x ^ 2 + (o.relativePosition C t').y ^ 2 = o.a ^ 2 - (o.relativePosition C t').z ^ 2 := by
    rw [circular_coordinates h hp he hO]
    simp only
    generalize (t' - o.t0 - -(o.period / 4)) * (2 * π / o.period) = M
    linear_combination o.a ^ 2 * sin_sq_add_cos_sq M + o.a ^ 2 * sin M ^ 2 * BB.incl_sq hp
  generalize o.relativePosition C t' = q at *
  generalize ρ.position o t = p at *
  have hsa : √(q.x ^ 2 + q.y ^ 2) ≤ o.a := by
    rw [hsq]
    refine (sqrt_le_sqrt (by nlinarith [sq_nonneg q.z])).trans (sqrt_sq ha0.le).le
  have hua : 0 ≤ ρ.u * o.a := by positivity
  have htri : |√(p.x ^ 2 + p.y ^ 2) - √(q.x ^ 2 + q.y ^ 2)| ≤ 8 * (ρ.u * o.a) := by
    refine (plane_triangle _ _ _ _).trans (sqrt_le_iff.2 ⟨by positivity, ?_⟩)
    have h1 := sq_le_sq' (by linarith [(abs_le.1 hx).1]) (abs_le.1 hx).2
    have h2 := sq_le_sq' (by linarith [(abs_le.1 hy).1]) (abs_le.1 hy).2
    nlinarith
  have hsp : √(p.x ^ 2 + p.y ^ 2) ≤ 1.008 * o.a := by
    have := (abs_le.1 htri).2
    have : ρ.u * o.a ≤ 1 / 1000 * o.a := mul_le_mul_of_nonneg_right hu1 ha0.le
    linarith
  have hsep := ρ.separation_err p.x p.y hR
  unfold Rounding.flux
  simp only
  set b' := ρ.rnd (ρ.rnd √(ρ.rnd (ρ.rnd (p.x ^ 2) + ρ.rnd (p.y ^ 2))) / o.r_star) with hb'
  have hbe : |b' - √(q.x ^ 2 + q.y ^ 2) / o.r_star| ≤ 13 * (ρ.u * (o.a / o.r_star)) := by
    have h1 : |√(p.x ^ 2 + p.y ^ 2) / o.r_star - √(q.x ^ 2 + q.y ^ 2) / o.r_star| ≤ 8 * (ρ.u * (o.a / o.r_star)) := by
      rw [← sub_div, abs_div, abs_of_pos hR, ← mul_div_assoc, ← mul_div_assoc]
      exact div_le_div_of_nonneg_right htri hR.le
    have h2 : √(p.x ^ 2 + p.y ^ 2) / o.r_star ≤ 1.008 * (o.a / o.r_star) := by
      rw [← mul_div_assoc]
      exact div_le_div_of_nonneg_right hsp hR.le
    have h3 := mul_le_mul_of_nonneg_left h2 hu
    have h4 : 0 ≤ ρ.u * (o.a / o.r_star) := by positivity
    have h5 := abs_sub_le b' (√(p.x ^ 2 + p.y ^ 2) / o.r_star) (√(q.x ^ 2 + q.y ^ 2) / o.r_star)
    linarith
  have hb0 : 0 ≤ b' := by
    have h1 : 0 ≤ √(p.x ^ 2 + p.y ^ 2) / o.r_star := by positivity
    have h2 := (abs_le.1 hsep).1
    have h3 : 4.1 * ρ.u * (√(p.x ^ 2 + p.y ^ 2) / o.r_star) ≤ 4.1 * (1 / 1000) * (√(p.x ^ 2 + p.y ^ 2) / o.r_star) :=
      mul_le_mul_of_nonneg_right (by linarith) h1
    linarith
  have hk0 : 0 < r / o.r_star := by positivity
  have hke := ρ.rnd_err (r / o.r_star)
  rw [abs_of_pos hk0] at hke
  have hk' := (ρ.rnd_pos (r / o.r_star)).2 hk0
  set k := r / o.r_star with hk
  set k' := ρ.rnd k with hkd
  -- the compiled operation
  have hE : 0 ≤ E := (abs_nonneg _).trans (hld 0 1 le_rfl one_pos)
  have step1 : |(if 0 < ρ.rnd (p.z / o.r_star) then ld b' k' else 0) - computeLightCurve (getCl u1 u2) b' k' (some p.z)| ≤ E := by
    have hiff : 0 < ρ.rnd (p.z / o.r_star) ↔ 0 < p.z := by rw [ρ.rnd_pos, div_pos_iff_of_pos_right hR]
    unfold computeLightCurve
    simp only [Option.getD_some, gt_iff_lt, hiff]
    split_ifs
    · exact hld b' k' hb0 hk'
    · simpa using hE
  have hzz : fluxAt (getCl u1 u2) o.r_star r q = computeLightCurve (getCl u1 u2) (√(q.x ^ 2 + q.y ^ 2) / o.r_star) k (some q.z) := by
    unfold fluxAt computeLightCurve
    simp only [Option.getD_some, gt_iff_lt, div_pos_iff_of_pos_right hR]
    rfl
  rw [hzz]
  refine (abs_sub_le _ _ _).trans (add_le_add step1 ?_)
  have hbound : 0 ≤ ρ.u * (13 * (o.a / o.r_star) * stripLight u1 u2 B k + 3 * (B * k ^ 2 / (1 - u1 / 3 - u2 / 6))) := by positivity
  by_cases hsame : (0 < p.z ↔ 0 < q.z)
  · have hlos : computeLightCurve (getCl u1 u2) (√(q.x ^ 2 + q.y ^ 2) / o.r_star) k (some q.z) =
        computeLightCurve (getCl u1 u2) (√(q.x ^ 2 + q.y ^ 2) / o.r_star) k (some p.z) := by
      unfold computeLightCurve
      simp only [Option.getD_some, gt_iff_lt, hsame]
    rw [hlos]
    have h1 := C115_radius u1 u2 B hl hB b' k' k hk'.le hk0.le (some p.z)
    have h2 := C115_distance u1 u2 B hl hB b' (√(q.x ^ 2 + q.y ^ 2) / o.r_star) k hk0 hb0 (by positivity) (some p.z)
    have h3 : |k' ^ 2 - k ^ 2| ≤ 3 * ρ.u * k ^ 2 := by
      rw [show k' ^ 2 - k ^ 2 = (k' - k) * (k' + k) by ring, abs_mul, abs_of_pos (by positivity : 0 < k' + k)]
      have h4 : k' + k ≤ 3 * k := by
        have := (abs_le.1 hke).2
        have : ρ.u * k ≤ 1 / 1000 * k := mul_le_mul_of_nonneg_right hu1 hk0.le
        linarith
      calc |k' - k| * (k' + k) ≤ ρ.u * k * (3 * k) := mul_le_mul hke h4 (by positivity) (by positivity)
        _ = _ := by ring
    have h4 : B * |k' ^ 2 - k ^ 2| / (1 - u1 / 3 - u2 / 6) ≤ ρ.u * (3 * (B * k ^ 2 / (1 - u1 / 3 - u2 / 6))) := by
      rw [show ρ.u * (3 * (B * k ^ 2 / (1 - u1 / 3 - u2 / 6))) = B * (3 * ρ.u * k ^ 2) / (1 - u1 / 3 - u2 / 6) by ring]
      exact div_le_div_of_nonneg_right (mul_le_mul_of_nonneg_left h3 hB0) hD.le
    have h5 := mul_le_mul_of_nonneg_left hbe hL
    refine (abs_sub_le _ _ _).trans ((add_le_add (h1.trans h4) (h2.trans h5)).trans (le_of_eq ?_))
    ring
  · have hzs : |q.z| ≤ 6 * ρ.u * o.a := by
      have h1 := abs_le.1 hz
      rw [abs_le]
      rcases lt_or_ge 0 p.z with hp0 | hp0
      · have hq0 : q.z ≤ 0 := by
          by_contra hq
          exact hsame ⟨fun _ => not_le.1 hq, fun _ => hp0⟩
        constructor <;> linarith
      · have hq0 : 0 < q.z := by
          by_contra hq
          exact hsame ⟨fun h => absurd h (not_lt.2 hp0), fun h => absurd h hq⟩
        constructor <;> linarith
    have hfar : 0.99 * o.a ≤ √(q.x ^ 2 + q.y ^ 2) := by
      rw [hsq]
      apply le_sqrt_of_sq_le
      have h1 : |q.z| ≤ 0.006 * o.a := hzs.trans (by
        have : ρ.u * o.a ≤ 1 / 1000 * o.a := mul_le_mul_of_nonneg_right hu1 ha0.le
        linarith)
      have h2 : q.z ^ 2 ≤ (0.006 * o.a) ^ 2 := sq_le_sq' (by linarith [(abs_le.1 h1).1]) (abs_le.1 h1).2
      nlinarith [sq_nonneg o.a]
    have hq : 1.98 * (1 + k) ≤ √(q.x ^ 2 + q.y ^ 2) / o.r_star := by
      rw [le_div_iff₀ hR, hk, show 1.98 * (1 + r / o.r_star) * o.r_star = 1.98 * (o.r_star + r) by field_simp]
      linarith
    have hb1 : 1.9 * (1 + k) ≤ b' := by
      have h1 := (abs_le.1 hbe).1
      have h2 : ρ.u * (o.a / o.r_star) ≤ 1 / 1000 * (o.a / o.r_star) := mul_le_mul_of_nonneg_right hu1 (by positivity)
      have h3 : 0.99 * (o.a / o.r_star) ≤ √(q.x ^ 2 + q.y ^ 2) / o.r_star := by
        rw [← mul_div_assoc]
        exact div_le_div_of_nonneg_right hfar hR.le
      have h4 : 2 * (1 + k) ≤ o.a / o.r_star := by
        rw [le_div_iff₀ hR, hk, show 2 * (1 + r / o.r_star) * o.r_star = 2 * (o.r_star + r) by field_simp]
        exact ha
      linarith
    have hk1 : k' ≤ 1.001 * k := by
      have := (abs_le.1 hke).2
      have : ρ.u * k ≤ 1 / 1000 * k := mul_le_mul_of_nonneg_right hu1 hk0.le
      linarith
    rw [C37_apart u1 u2 _ _ _ hl (by linarith), C37_apart u1 u2 _ _ _ hl (by linarith), sub_zero, abs_zero]
    exact hbound

/-- **C117 (light curves, at the requested time).** -/
theorem C117_light_curve (C : Consts) (A : Args) (o : Orbit) (h : keplerianInit C A = .ok o) (hp : o.Physical) (he : o.ecc = none)
    (hO : o.Omega = none) (ρ : Rounding) (u1 u2 B r E : ℝ) (hl : PhysicalLaw u1 u2) (hB : NotBrighterThan u1 u2 B) (hr : 0 < r)
    (ha : 2 * (o.r_star + r) ≤ o.a) (ld : ℝ → ℝ → ℝ)
    (hld : ∀ b k, 0 ≤ b → 0 < k → |ld b k - quadLimbdarkLightCurve (getCl u1 u2) b k| ≤ E) (t : ℝ) :
    |ρ.flux ld o.r_star r (ρ.position o t) - fluxAt (getCl u1 u2) o.r_star r (o.relativePosition C t)| ≤
      E + ρ.u * (13 * (o.a / o.r_star) * stripLight u1 u2 B (r / o.r_star) + 3 * (B * (r / o.r_star) ^ 2 / (1 - u1 / 3 - u2 / 6)) +
        o.fluxRate u1 u2 B r * (2 * |o.t0| + 8 * |t - o.t0| + 5 * o.period)) := by
  obtain ⟨t', ht, hf⟩ := C117_flux C A o h hp he hO ρ u1 u2 B r E hl hB hr ha ld hld t
  have hR := hp.r_star_pos
  have h1 := C115_time C A o h hp u1 u2 B r hl hB hr (by
    have : o.eccVal = 0 := by simp [Orbit.eccVal, he]
    rw [this]; linarith) t' t
  have h2 := mul_le_mul_of_nonneg_left ht (fluxRate_nonneg h hp hl hB hr.le)
  refine (abs_sub_le _ _ _).trans ((add_le_add hf (h1.trans h2)).trans (le_of_eq ?_))
  ring

/-- The hypotheses hold for `KeplerianOrbit(a=10, period=1)` and a planet of a tenth of the radius of the star: in double precision, with an exact
compiled operation, the light curve is off by less than 10⁻¹⁰ for ten thousand days. -/
example (C : Consts) : ∃ o, keplerianInit C plainArgs = .ok o ∧ ∀ t, |t| ≤ 10000 →
    |doubles.flux (quadLimbdarkLightCurve (getCl 0.3 0.2)) o.r_star 0.1 (doubles.position o t) -
      fluxAt (getCl 0.3 0.2) o.r_star 0.1 (o.relativePosition C t)| ≤ 1e-10 := by
  obtain ⟨o, ho, hp, hP, ha, he, hs, ht⟩ := plainArgs_ok C
  have hR : o.r_star = 1 := by
    obtain ⟨o', h', hb'⟩ : ∃ o', keplerianInit C plainArgs = .ok o' ∧ o'.r_star = 1 := ⟨_, rfl, by simp⟩
    rw [ho] at h'; cases h'; exact hb'
  have hO : o.Omega = none := by
    obtain ⟨o', h', hb'⟩ : ∃ o', keplerianInit C plainArgs = .ok o' ∧ o'.Omega = none := ⟨_, rfl, by simp [plainArgs]⟩
    rw [ho] at h'; cases h'; exact hb'
  have hev : o.eccVal = 0 := by simp [Orbit.eccVal, he]
  have hpi := pi_gt_d2
  have hrate : o.fluxRate 0.3 0.2 1 0.1 ≤ 5 := by
    have h1 : o.fluxRate 0.3 0.2 1 0.1 = 4 / (1 - 0.3 / 3 - 0.2 / 6) := by
      have := pi_pos.ne'
      simp only [Orbit.fluxRate, Orbit.topSpeed, stripLight, hR, hP, ha, hev]
      norm_num
      field_simp
      norm_num
    rw [h1]; norm_num
  have hstrip : stripLight 0.3 0.2 1 (0.1 / 1) ≤ 1 := by
    unfold stripLight
    rw [div_le_one (mul_pos pi_pos (by norm_num))]
    nlinarith
  refine ⟨o, ho, fun t htt => ?_⟩
  have h := C117_light_curve C plainArgs o ho hp he hO doubles 0.3 0.2 1 0.1 0 (physicalLaw_of_kipping (by norm_num) (by norm_num))
    (C115_centre_brightest _ _ ((darkensOutwards_iff _ _).2 ⟨by norm_num, by norm_num⟩)) (by norm_num) (by rw [hR, ha]; norm_num)
    (quadLimbdarkLightCurve (getCl 0.3 0.2)) (fun b k _ _ => by simp) t
  refine h.trans ?_
  rw [ht, hP, ha, hR, sub_zero, abs_zero]
  have hr0 := fluxRate_nonneg ho hp (u1 := 0.3) (u2 := 0.2) (B := 1) (r := 0.1) (physicalLaw_of_kipping (by norm_num) (by norm_num))
    (C115_centre_brightest _ _ ((darkensOutwards_iff _ _).2 ⟨by norm_num, by norm_num⟩)) (by norm_num)
  have h1 : o.fluxRate 0.3 0.2 1 0.1 * (2 * 0 + 8 * |t| + 5 * 1) ≤ 5 * (8 * 10000 + 5) :=
    mul_le_mul hrate (by linarith) (by positivity) (by norm_num)
  have h2 : doubles.u = 2⁻¹ ^ 53 := rfl
  rw [h2, zero_add]
  have h3 : 13 * (10 / 1) * stripLight 0.3 0.2 1 (0.1 / 1) + 3 * (1 * (0.1 / 1) ^ 2 / (1 - 0.3 / 3 - 0.2 / 6)) +
      o.fluxRate 0.3 0.2 1 0.1 * (2 * 0 + 8 * |t| + 5 * 1) ≤ 401000 := by
    have : (3 * (1 * (0.1 / 1) ^ 2 / (1 - 0.3 / 3 - 0.2 / 6)) : ℝ) ≤ 1 := by norm_num
    linarith
  calc _ ≤ 2⁻¹ ^ 53 * (401000 : ℝ) := mul_le_mul_of_nonneg_left h3 (by positivity)
    _ ≤ _ := by norm_num

end Exo
