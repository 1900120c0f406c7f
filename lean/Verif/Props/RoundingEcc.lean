import Verif.Model.RoundedEcc
import Verif.Props.Rounding
import Verif.Spec.RoundedEcc

/-!
# C120: rounding on any orbit
-/

namespace Exo
open Real

namespace Rounding
variable (ρ : Rounding)

/-! ## The mean anomaly -/

/-- The rounded mean anomaly for any epoch. -/
theorem mean_err {P : ℝ} (hP : 0 < P) {T w τ d : ℝ} (hd : |T + w - τ| ≤ d) (t : ℝ) :
    |ρ.meanAnomalyAt (T, w) P t - (t - τ) * (2 * π / P)| ≤ (1.02 * d + 7.1 * (ρ.u * |t - T|) + 6.1 * (ρ.u * |w|)) * (2 * π / P) := by
  have hu := ρ.u_nonneg
  have hu1 := ρ.u_le
  have hn := ρ.n_err hP
  have hn0 : 0 < 2 * π / P := by have := pi_pos; positivity
  have hd0 : 0 ≤ d := (abs_nonneg _).trans hd
  unfold meanAnomalyAt
  generalize 2 * π / P = n at *
  simp only
  have h1 := ρ.rnd_err (t - T)
  have hs : |t - τ| ≤ |t - T| + |w| + d := by
    have e : t - τ = (t - T) + (T + w - τ) - w := by ring
    have h2 := abs_sub ((t - T) + (T + w - τ)) w
    have h3 := abs_add_le (t - T) (T + w - τ)
    rw [e]; linarith
  have h2 : |ρ.rnd (t - T) - w - (t - τ)| ≤ ρ.u * |t - T| + d := by
    rw [show ρ.rnd (t - T) - w - (t - τ) = (ρ.rnd (t - T) - (t - T)) - (T + w - τ) by ring]
    exact (abs_sub _ _).trans (add_le_add h1 hd)
  have hs0 := abs_nonneg (t - T)
  have hv0 := abs_nonneg w
  generalize |t - T| = s at *
  generalize |w| = v at *
  have hus : 0 ≤ ρ.u * s := by positivity
  have huv : 0 ≤ ρ.u * v := by positivity
  have hud : 0 ≤ ρ.u * d := by positivity
  have hud' : ρ.u * d ≤ d / 1000 := by have := mul_le_mul_of_nonneg_right hu1 hd0; linarith
  have hus' : ρ.u * (ρ.u * s) ≤ ρ.u * s / 1000 := by have := mul_le_mul_of_nonneg_right hu1 hus; linarith
  have huv' : ρ.u * (ρ.u * v) ≤ ρ.u * v / 1000 := by have := mul_le_mul_of_nonneg_right hu1 huv; linarith
  have hudd : ρ.u * (ρ.u * d) ≤ d / 1000 := by have := mul_le_mul_of_nonneg_right hu1 hud; linarith
  have hy := mul_le_mul_of_nonneg_left hs hu
  have h3 : |ρ.rnd (ρ.rnd (t - T) - w) - (t - τ)| ≤ 2.01 * (ρ.u * s) + ρ.u * v + 1.003 * d := by linarith [ρ.near h2]
  generalize ρ.rnd (ρ.rnd (t - T) - w) = e at *
  generalize ρ.n P = nn at *
  have hnn : |nn| ≤ 1.004 * n := by
    have h := abs_sub_abs_le_abs_sub nn n
    rw [abs_of_pos hn0] at h
    have : 4 * ρ.u * n ≤ 4 * (1 / 1000) * n := mul_le_mul_of_nonneg_right (by linarith) hn0.le
    linarith
  have b1 : 0 ≤ ρ.u * s * n := by positivity
  have b2 : 0 ≤ ρ.u * v * n := by positivity
  have b3 : 0 ≤ d * n := by positivity
  have b4 := mul_le_mul_of_nonneg_right hud' hn0.le
  have h4 : |e * nn - (t - τ) * n| ≤ (6.03 * (ρ.u * s) + 5.01 * (ρ.u * v) + 1.012 * d) * n := by
    rw [show e * nn - (t - τ) * n = (e - (t - τ)) * nn + (t - τ) * (nn - n) by ring]
    refine (abs_add_le _ _).trans ?_
    rw [abs_mul, abs_mul]
    have a1 := mul_le_mul h3 hnn (abs_nonneg _) (by positivity)
    have a2 := mul_le_mul hs hn (abs_nonneg _) (by positivity)
    refine (add_le_add a1 a2).trans ?_
    linarith
  have h5 := ρ.near h4
  refine h5.trans ?_
  rw [abs_mul, abs_of_pos hn0]
  have c := mul_le_mul_of_nonneg_right hy hn0.le
  have c1 := mul_le_mul_of_nonneg_right hus' hn0.le
  have c2 := mul_le_mul_of_nonneg_right huv' hn0.le
  linarith

/-- `M0 / n` -/
theorem phase_err {P : ℝ} (hP : 0 < P) {m M0 μ : ℝ} (hm : |m - M0| ≤ μ) :
    |ρ.rnd (m / ρ.n P) - M0 / (2 * π / P)| ≤ 1.01 * (μ / (2 * π / P)) + 5.1 * (ρ.u * |M0 / (2 * π / P)|) := by
  have hu := ρ.u_nonneg
  have hu1 := ρ.u_le
  have hn := ρ.n_err hP
  have hn0 : 0 < 2 * π / P := by have := pi_pos; positivity
  have hμ : 0 ≤ μ := (abs_nonneg _).trans hm
  generalize 2 * π / P = n at *
  generalize ρ.n P = nn at *
  obtain ⟨Q, rfl⟩ : ∃ Q, M0 = Q * n := ⟨M0 / n, by field_simp⟩
  obtain ⟨ν, rfl⟩ : ∃ ν, μ = ν * n := ⟨μ / n, by field_simp⟩
  have hν : 0 ≤ ν := nonneg_of_mul_nonneg_left hμ hn0
  rw [mul_div_cancel_right₀ _ hn0.ne', mul_div_cancel_right₀ _ hn0.ne']
  have hnl' : 0.996 * n ≤ nn := by
    have := (abs_le.1 hn).1
    have : 4 * ρ.u * n ≤ 4 * (1 / 1000) * n := mul_le_mul_of_nonneg_right (by linarith) hn0.le
    linarith
  have hnp : 0 < nn := lt_of_lt_of_le (by positivity) hnl'
  have h3 : |m / nn - Q| ≤ 1.005 * ν + 4.03 * (ρ.u * |Q|) := by
    rw [show m / nn - Q = (m - Q * nn) / nn by field_simp, abs_div, abs_of_pos hnp, div_le_iff₀ hnp]
    have e1 : m - Q * nn = (m - Q * n) - Q * (nn - n) := by ring
    have e2 : |Q * (nn - n)| ≤ 4 * (ρ.u * |Q| * n) := by
      rw [abs_mul]
      calc |Q| * |nn - n| ≤ |Q| * (4 * ρ.u * n) := mul_le_mul_of_nonneg_left hn (abs_nonneg _)
        _ = _ := by ring
    rw [e1]
    refine (abs_sub _ _).trans ((add_le_add hm e2).trans ?_)
    have e3 : 0 ≤ ρ.u * |Q| * n := by positivity
    have e4 : 0 ≤ 1.005 * ν + 4.03 * (ρ.u * |Q|) := by positivity
    refine le_trans ?_ (mul_le_mul_of_nonneg_left hnl' e4)
    linarith
  have h4 := ρ.near h3
  have hq : 0 ≤ ρ.u * |Q| := by positivity
  have huQ : ρ.u * (ρ.u * |Q|) ≤ ρ.u * |Q| / 1000 := by have := mul_le_mul_of_nonneg_right hu1 hq; linarith
  have huν : ρ.u * ν ≤ ν / 1000 := by have := mul_le_mul_of_nonneg_right hu1 hν; linarith
  linarith

/-- The computed epoch, with `t0` given or with `t_periastron` given. -/
theorem meanAnomalyAny_err {o : Orbit} (hP : 0 < o.period) (hn : o.n = 2 * π / o.period) (ht : o.t_periastron = o.t0 - o.M0 / o.n)
    (htr : o.tref = o.t_periastron - o.t0) (tp : Bool) {m μ : ℝ} (hm : |m - o.M0| ≤ μ) (t : ℝ) :
    |ρ.meanAnomalyAny tp m o t - (t - o.t0 - o.tref) * o.n| ≤
      (ρ.u * (2 * |o.t0| + 8 * |t - o.t0| + 20 * |o.tref|) + 2 * (μ / o.n)) * o.n := by
  have hu := ρ.u_nonneg
  have hu1 := ρ.u_le
  have hq := ρ.phase_err hP hm
  rw [hn] at ht ⊢
  have hn0 : 0 < 2 * π / o.period := by have := pi_pos; positivity
  have hμ : 0 ≤ μ / (2 * π / o.period) := div_nonneg ((abs_nonneg _).trans hm) hn0.le
  unfold meanAnomalyAny epoch
  generalize ρ.rnd (m / ρ.n o.period) = q at *
  generalize o.M0 / (2 * π / o.period) = Q at *
  generalize μ / (2 * π / o.period) = ν at *
  have hQ : o.tref = -Q := by rw [htr, ht]; ring
  rw [hQ, abs_neg]
  rw [show t - o.t0 - -Q = t - o.t_periastron by rw [ht]; ring]
  have hQ0 := abs_nonneg Q
  have hT0 := abs_nonneg o.t0
  have hS0 := abs_nonneg (t - o.t0)
  have huQ : 0 ≤ ρ.u * |Q| := by positivity
  have huT : 0 ≤ ρ.u * |o.t0| := by positivity
  have huS : 0 ≤ ρ.u * |t - o.t0| := by positivity
  have huQ' : ρ.u * (ρ.u * |Q|) ≤ ρ.u * |Q| / 1000 := by have := mul_le_mul_of_nonneg_right hu1 huQ; linarith
  have huT' : ρ.u * (ρ.u * |o.t0|) ≤ ρ.u * |o.t0| / 1000 := by have := mul_le_mul_of_nonneg_right hu1 huT; linarith
  have huν : ρ.u * ν ≤ ν / 1000 := by have := mul_le_mul_of_nonneg_right hu1 hμ; linarith
  have huν0 : 0 ≤ ρ.u * ν := by positivity
  have huν' : ρ.u * (ρ.u * ν) ≤ ν / 1000 := by have := mul_le_mul_of_nonneg_right hu1 huν0; linarith
  cases tp
  · simp only [Bool.false_eq_true, if_false]
    have h1 : |o.t0 - q - (o.t0 - Q)| ≤ 1.01 * ν + 5.1 * (ρ.u * |Q|) := by
      rw [show o.t0 - q - (o.t0 - Q) = -(q - Q) by ring, abs_neg]; exact hq
    have h2 := ρ.near h1
    have h3 := mul_le_mul_of_nonneg_left (abs_sub o.t0 Q) hu
    have h4 : |ρ.rnd (o.t0 - q) - o.t0 - -Q| ≤ 1.012 * ν + ρ.u * |o.t0| + 6.2 * (ρ.u * |Q|) := by
      rw [show ρ.rnd (o.t0 - q) - o.t0 - -Q = ρ.rnd (o.t0 - q) - (o.t0 - Q) by ring]
      linarith
    have h5 := ρ.near h4
    rw [abs_neg] at h5
    have h6 : |ρ.rnd (ρ.rnd (o.t0 - q) - o.t0) - -Q| ≤ 1.02 * ν + 1.01 * (ρ.u * |o.t0|) + 7.3 * (ρ.u * |Q|) := by linarith
    generalize ρ.rnd (ρ.rnd (o.t0 - q) - o.t0) = w at *
    have h7 : |o.t0 + w - o.t_periastron| ≤ 1.02 * ν + 1.01 * (ρ.u * |o.t0|) + 7.3 * (ρ.u * |Q|) := by
      rw [show o.t0 + w - o.t_periastron = w - -Q by rw [ht]; ring]; exact h6
    have hw : |w| ≤ |Q| + (1.02 * ν + 1.01 * (ρ.u * |o.t0|) + 7.3 * (ρ.u * |Q|)) := by
      have := abs_sub_abs_le_abs_sub w (-Q)
      rw [abs_neg] at this
      linarith
    have huw := mul_le_mul_of_nonneg_left hw hu
    refine (ρ.mean_err hP h7 t).trans (mul_le_mul_of_nonneg_right ?_ hn0.le)
    linarith
  · simp only [if_true]
    have hTP := abs_sub o.t0 Q
    have h1 : |o.t_periastron + q - o.t0| ≤ 1.01 * ν + 5.1 * (ρ.u * |Q|) := by
      rw [show o.t_periastron + q - o.t0 = q - Q by rw [ht]; ring]; exact hq
    have h2 := ρ.near h1
    have h3 : |ρ.rnd (o.t_periastron + q) - o.t0| ≤ 1.02 * ν + ρ.u * |o.t0| + 5.2 * (ρ.u * |Q|) := by linarith
    generalize ρ.rnd (o.t_periastron + q) = T at *
    have h4 := ρ.rnd_err (o.t_periastron - T)
    have h5 : |o.t_periastron - T| ≤ |Q| + (1.02 * ν + ρ.u * |o.t0| + 5.2 * (ρ.u * |Q|)) := by
      rw [show o.t_periastron - T = -Q - (T - o.t0) by rw [ht]; ring]
      have := abs_sub (-Q) (T - o.t0)
      rw [abs_neg] at this
      linarith
    have hu5 := mul_le_mul_of_nonneg_left h5 hu
    have hu5' := mul_le_mul_of_nonneg_left hu5 hu
    have hw : |ρ.rnd (o.t_periastron - T)| ≤ |o.t_periastron - T| + ρ.u * |o.t_periastron - T| := by
      have := abs_sub_abs_le_abs_sub (ρ.rnd (o.t_periastron - T)) (o.t_periastron - T)
      linarith
    have huw := mul_le_mul_of_nonneg_left hw hu
    have h6 : |T + ρ.rnd (o.t_periastron - T) - o.t_periastron| ≤ ρ.u * |o.t_periastron - T| := by
      rw [show T + ρ.rnd (o.t_periastron - T) - o.t_periastron = ρ.rnd (o.t_periastron - T) - (o.t_periastron - T) by ring]
      exact h4
    have hs : |t - T| ≤ |t - o.t0| + (1.02 * ν + ρ.u * |o.t0| + 5.2 * (ρ.u * |Q|)) := by
      have := abs_sub (t - o.t0) (T - o.t0)
      rw [show t - o.t0 - (T - o.t0) = t - T by ring] at this
      linarith
    have hus := mul_le_mul_of_nonneg_left hs hu
    refine (ρ.mean_err hP h6 t).trans (mul_le_mul_of_nonneg_right ?_ hn0.le)
    have huQ'' : ρ.u * (ρ.u * (ρ.u * |Q|)) ≤ ρ.u * |Q| / 1000 := by
      have h := mul_le_mul_of_nonneg_left huQ' hu
      linarith
    have huT'' : ρ.u * (ρ.u * (ρ.u * |o.t0|)) ≤ ρ.u * |o.t0| / 1000 := by
      have h := mul_le_mul_of_nonneg_left huT' hu
      linarith
    linarith

/-! ## Positions -/

/-- A rounded product with a factor of absolute value at most one. -/
theorem prod_err {δ R c c0 y y0 ε k : ℝ} (hδ : ρ.u ≤ δ) (hδ1 : δ ≤ 1 / 1000) (hR : 0 ≤ R) (hk : k ≤ 60) (hk0 : 0 ≤ k) (hε0 : 0 ≤ ε) (hε : ε ≤ 2)
    (hc0 : |c0| ≤ 1) (hc : |c - c0| ≤ ε * δ) (hy0 : |y0| ≤ R) (hy : |y - y0| ≤ k * δ * R) :
    |ρ.rnd (c * y) - c0 * y0| ≤ (k + 1.1 * ε + 1.1) * δ * R := by
  have hu := ρ.u_nonneg
  have hδ0 : 0 ≤ δ := hu.trans hδ
  have hkδ : k * δ ≤ 0.06 := by nlinarith
  have hyR : |y| ≤ 1.06 * R := by
    have h1 := abs_sub_abs_le_abs_sub y y0
    have h2 := mul_le_mul_of_nonneg_right hkδ hR
    linarith
  have h1 : |c * y - c0 * y0| ≤ (1.06 * ε + k) * δ * R := by
    rw [show c * y - c0 * y0 = (c - c0) * y + c0 * (y - y0) by ring]
    refine (abs_add_le _ _).trans ?_
    rw [abs_mul, abs_mul]
    have a1 := mul_le_mul hc hyR (abs_nonneg _) (by positivity)
    have a2 := mul_le_mul hc0 hy (abs_nonneg _) zero_le_one
    linarith
  have h2 := ρ.near h1
  have h3 : |c0 * y0| ≤ R := by
    rw [abs_mul]
    exact (mul_le_of_le_one_left (abs_nonneg _) hc0).trans hy0
  have hA : (1.06 * ε + k) * δ * R ≤ 0.07 * R := by
    apply mul_le_mul_of_nonneg_right _ hR
    nlinarith
  have h4 : ρ.u * (|c0 * y0| + (1.06 * ε + k) * δ * R) ≤ δ * (1.07 * R) :=
    mul_le_mul hδ (by linarith) (by positivity) hδ0
  have h5 : 0 ≤ ε * δ * R := by positivity
  have h6 : 0 ≤ δ * R := by positivity
  linarith

/-- A rounded sum. -/
theorem sum_err {δ R x x0 y y0 k l : ℝ} (hδ : ρ.u ≤ δ) (hδ1 : δ ≤ 1 / 1000) (hR : 0 ≤ R) (hkl : k + l ≤ 100) (hkl0 : 0 ≤ k + l)
    (hx : |x - x0| ≤ k * δ * R) (hy : |y - y0| ≤ l * δ * R) (h0 : |x0 + y0| ≤ R) :
    |ρ.rnd (x + y) - (x0 + y0)| ≤ (k + l + 1.1) * δ * R := by
  have hu := ρ.u_nonneg
  have hδ0 : 0 ≤ δ := hu.trans hδ
  have h1 : |x + y - (x0 + y0)| ≤ (k + l) * δ * R := by
    rw [show x + y - (x0 + y0) = (x - x0) + (y - y0) by ring]
    refine (abs_add_le _ _).trans ?_
    linarith
  have h2 := ρ.near h1
  have hA : (k + l) * δ * R ≤ 0.1 * R := by
    apply mul_le_mul_of_nonneg_right _ hR
    nlinarith
  have h4 : ρ.u * (|x0 + y0| + (k + l) * δ * R) ≤ δ * (1.1 * R) :=
    mul_le_mul hδ (by linarith) (by positivity) hδ0
  linarith

/-- A rounded difference. -/
theorem diff_err {δ R x x0 y y0 k l : ℝ} (hδ : ρ.u ≤ δ) (hδ1 : δ ≤ 1 / 1000) (hR : 0 ≤ R) (hkl : k + l ≤ 100) (hkl0 : 0 ≤ k + l)
    (hx : |x - x0| ≤ k * δ * R) (hy : |y - y0| ≤ l * δ * R) (h0 : |x0 - y0| ≤ R) :
    |ρ.rnd (x - y) - (x0 - y0)| ≤ (k + l + 1.1) * δ * R := by
  have h := ρ.sum_err (x := x) (x0 := x0) (y := -y) (y0 := -y0) hδ hδ1 hR hkl hkl0 hx
    (by rw [show -y - -y0 = -(y - y0) by ring, abs_neg]; exact hy) (by simpa [sub_eq_add_neg] using h0)
  simpa [sub_eq_add_neg] using h

/-- The rounded distance. -/
theorem radius_err {a e c c' η δ : ℝ} (he0 : 0 ≤ e) (he : e < 1) (hη : 0 ≤ η) (hδ : δ = (ρ.u + η) / (1 - e)) (hδ1 : δ ≤ 1 / 1000)
    (hc : |c| ≤ 1) (hcc : |c' - c| ≤ η) :
    |ρ.rnd (ρ.rnd (a * ρ.rnd (1 - ρ.rnd (e ^ 2))) / ρ.rnd (1 + ρ.rnd (e * c'))) - a * (1 - e ^ 2) / (1 + e * c)| ≤
      6.2 * δ * |a * (1 - e ^ 2) / (1 + e * c)| := by
  have hu := ρ.u_nonneg
  have h1e : 0 < 1 - e := by linarith
  have hδe : ρ.u + η = δ * (1 - e) := by rw [hδ]; field_simp
  have hδ0 : 0 ≤ δ := by rw [hδ]; positivity
  have hδ2 : δ * (1 - e) ≤ δ := mul_le_of_le_one_right hδ0 (by linarith)
  have huδ : ρ.u ≤ δ := by linarith
  have hηδ : η ≤ δ := by linarith
  have huu : ρ.u * ρ.u ≤ ρ.u / 1000 := ρ.sq_u_le
  -- the numerator
  have hN0 : 1 - e ≤ 1 - e ^ 2 := by nlinarith
  have hNp : 0 < 1 - e ^ 2 := by linarith
  have hsq : e ^ 2 ≤ 1 := by nlinarith
  have n1 : |1 - ρ.rnd (e ^ 2) - (1 - e ^ 2)| ≤ ρ.u * e ^ 2 := by
    rw [show 1 - ρ.rnd (e ^ 2) - (1 - e ^ 2) = -(ρ.rnd (e ^ 2) - e ^ 2) by ring, abs_neg]
    have := ρ.rnd_err (e ^ 2)
    rwa [abs_of_nonneg (sq_nonneg e)] at this
  have n2 : |ρ.rnd (1 - ρ.rnd (e ^ 2)) - (1 - e ^ 2)| ≤ 1.001 * ρ.u := by
    have h := ρ.near n1
    rw [abs_of_pos hNp] at h
    have h2 : ρ.u * (ρ.u * e ^ 2) ≤ ρ.u / 1000 := by
      have : ρ.u * e ^ 2 ≤ ρ.u := mul_le_of_le_one_right hu hsq
      have := mul_le_mul_of_nonneg_left this hu
      linarith
    linarith
  have n3 : |ρ.rnd (1 - ρ.rnd (e ^ 2)) - (1 - e ^ 2)| ≤ 1.001 * δ * (1 - e ^ 2) := by
    have h1 := mul_le_mul_of_nonneg_left hN0 hδ0
    linarith
  generalize ρ.rnd (1 - ρ.rnd (e ^ 2)) = N at *
  generalize 1 - e ^ 2 = N0 at *
  have n4 : |a * N - a * N0| ≤ 1.001 * δ * |a * N0| := by
    rw [← mul_sub, abs_mul, abs_mul, abs_of_pos hNp]
    have := mul_le_mul_of_nonneg_left n3 (abs_nonneg a)
    linarith
  have n5 : |ρ.rnd (a * N) - a * N0| ≤ 2.01 * δ * |a * N0| := by
    have h := ρ.near n4
    have h2 : ρ.u * (|a * N0| + 1.001 * δ * |a * N0|) ≤ δ * (1.002 * |a * N0|) := by
      refine mul_le_mul huδ ?_ (by positivity) hδ0
      have : δ * |a * N0| ≤ 1 / 1000 * |a * N0| := mul_le_mul_of_nonneg_right hδ1 (abs_nonneg _)
      linarith [abs_nonneg (a * N0)]
    have h3 : 0 ≤ δ * |a * N0| := by positivity
    linarith
  generalize ρ.rnd (a * N) = A at *
  -- the denominator
  have hec : |e * c| ≤ 1 := by
    rw [abs_mul, abs_of_nonneg he0]
    exact (mul_le_of_le_one_right he0 hc).trans he.le
  have hD0 : 1 - e ≤ 1 + e * c := by nlinarith [(abs_le.1 hc).1]
  have hD2 : 1 + e * c ≤ 2 := by linarith [(abs_le.1 hec).2]
  have d1 : |e * c' - e * c| ≤ η := by
    rw [← mul_sub, abs_mul, abs_of_nonneg he0]
    exact (mul_le_of_le_one_left (abs_nonneg _) he.le).trans hcc
  have huη : ρ.u * η ≤ ρ.u / 1000 := by
    have := mul_le_mul_of_nonneg_left (hηδ.trans hδ1) hu
    linarith
  have d2 : |1 + ρ.rnd (e * c') - (1 + e * c)| ≤ η + 1.001 * ρ.u := by
    rw [show 1 + ρ.rnd (e * c') - (1 + e * c) = ρ.rnd (e * c') - e * c by ring]
    have h := ρ.near d1
    have := mul_le_mul_of_nonneg_left hec hu
    linarith
  have hDp : 0 < 1 + e * c := by linarith
  have d3 : |ρ.rnd (1 + ρ.rnd (e * c')) - (1 + e * c)| ≤ η + 3.01 * ρ.u := by
    have h := ρ.near d2
    rw [abs_of_pos hDp] at h
    have := mul_le_mul_of_nonneg_left hD2 hu
    linarith
  have d4 : |ρ.rnd (1 + ρ.rnd (e * c')) - (1 + e * c)| ≤ 3.01 * δ * (1 + e * c) := by
    have h1 := mul_le_mul_of_nonneg_left hD0 hδ0
    linarith
  generalize ρ.rnd (1 + ρ.rnd (e * c')) = D at *
  generalize 1 + e * c = D0 at *
  -- the quotient
  have hDl : 0.996 * D0 ≤ D := by
    have := (abs_le.1 d4).1
    have : δ * D0 ≤ 1 / 1000 * D0 := mul_le_mul_of_nonneg_right hδ1 hDp.le
    linarith
  have hDpos : 0 < D := lt_of_lt_of_le (by positivity) hDl
  have hr0 : |a * N0 / D0| * D0 = |a * N0| := by
    rw [abs_div, abs_of_pos hDp]; field_simp
  have q1 : |A / D - a * N0 / D0| ≤ 5.1 * δ * |a * N0 / D0| := by
    rw [show A / D - a * N0 / D0 = (A - a * N0 / D0 * D) / D by field_simp, abs_div, abs_of_pos hDpos, div_le_iff₀ hDpos]
    have e1 : A - a * N0 / D0 * D = (A - a * N0) - a * N0 / D0 * (D - D0) := by field_simp; ring
    have e2 : |a * N0 / D0 * (D - D0)| ≤ 3.01 * δ * |a * N0| := by
      rw [abs_mul]
      have := mul_le_mul_of_nonneg_left d4 (abs_nonneg (a * N0 / D0))
      calc _ ≤ _ := this
        _ = 3.01 * δ * (|a * N0 / D0| * D0) := by ring
        _ = _ := by rw [hr0]
    rw [e1]
    refine (abs_sub _ _).trans ((add_le_add n5 e2).trans ?_)
    have e3 : 0 ≤ 5.1 * δ * |a * N0 / D0| := by positivity
    refine le_trans ?_ (mul_le_mul_of_nonneg_left hDl e3)
    rw [show 5.1 * δ * |a * N0 / D0| * (0.996 * D0) = 5.1 * 0.996 * δ * (|a * N0 / D0| * D0) by ring, hr0]
    have : 0 ≤ δ * |a * N0| := by positivity
    linarith
  have h := ρ.near q1
  have h2 : ρ.u * (|a * N0 / D0| + 5.1 * δ * |a * N0 / D0|) ≤ δ * (1.006 * |a * N0 / D0|) := by
    refine mul_le_mul huδ ?_ (by positivity) hδ0
    have : δ * |a * N0 / D0| ≤ 1 / 1000 * |a * N0 / D0| := mul_le_mul_of_nonneg_right hδ1 (abs_nonneg _)
    linarith [abs_nonneg (a * N0 / D0)]
  have h3 : 0 ≤ δ * |a * N0 / D0| := by positivity
  linarith

/-- The rounded rotation into the frame of the observer. -/
theorem rotate_err {o : Orbit} (hp : o.Physical) (hi : o.sin_incl ^ 2 + o.cos_incl ^ 2 = 1) {x y x' y' R δ : ℝ} (hδ : ρ.u ≤ δ)
    (hδ1 : δ ≤ 1 / 1000) (hR : 0 ≤ R) (hxy : x ^ 2 + y ^ 2 = R ^ 2) (hx : |x' - x| ≤ 8.4 * δ * R) (hy : |y' - y| ≤ 8.4 * δ * R) :
    |(ρ.rotateAny o x' y').x - (o.rotate x y).x| ≤ o.roundingFactor * δ * R ∧
    |(ρ.rotateAny o x' y').y - (o.rotate x y).y| ≤ o.roundingFactor * δ * R ∧
    |(ρ.rotateAny o x' y').z - (o.rotate x y).z| ≤ 22 * δ * R := by
  have hδ0 : 0 ≤ δ := ρ.u_nonneg.trans hδ
  have hδR : 0 ≤ δ * R := by positivity
  have bound : ∀ {v w : ℝ}, v ^ 2 + w ^ 2 = R ^ 2 → |v| ≤ R ∧ |w| ≤ R := fun {v w} h =>
    ⟨abs_le_of_sq_le_sq (by nlinarith [sq_nonneg w]) hR, abs_le_of_sq_le_sq (by nlinarith [sq_nonneg v]) hR⟩
  have unit : ∀ {v w : ℝ}, v ^ 2 + w ^ 2 = 1 → |v| ≤ 1 ∧ |w| ≤ 1 := fun {v w} h =>
    ⟨abs_le_of_sq_le_sq (by nlinarith [sq_nonneg w]) zero_le_one, abs_le_of_sq_le_sq (by nlinarith [sq_nonneg v]) zero_le_one⟩
  have exact0 : ∀ c : ℝ, |c - c| ≤ 0 * δ := fun c => by simp
  obtain ⟨hs1, hc1⟩ := unit hi
  have hs1' : |-o.sin_incl| ≤ 1 := by rwa [abs_neg]
  -- 1) by omega
  obtain ⟨x1, y1, x1', y1', hxy1, hx1, hy1, e1, e2⟩ : ∃ x1 y1 x1' y1' : ℝ, x1 ^ 2 + y1 ^ 2 = R ^ 2 ∧ |x1' - x1| ≤ 20.1 * δ * R ∧
      |y1' - y1| ≤ 20.1 * δ * R ∧
      o.rotate x y = (match o.Omega with
        | none => ⟨x1, o.cos_incl * y1, -o.sin_incl * y1⟩
        | some W => ⟨cos W * x1 - sin W * (o.cos_incl * y1), sin W * x1 + cos W * (o.cos_incl * y1), -o.sin_incl * y1⟩) ∧
      ρ.rotateAny o x' y' = (match o.Omega with
        | none => ⟨x1', ρ.rnd (o.cos_incl * y1'), ρ.rnd (-o.sin_incl * y1')⟩
        | some W => ⟨ρ.rnd (ρ.rnd (ρ.cosF W * x1') - ρ.rnd (ρ.sinF W * ρ.rnd (o.cos_incl * y1'))),
            ρ.rnd (ρ.rnd (ρ.sinF W * x1') + ρ.rnd (ρ.cosF W * ρ.rnd (o.cos_incl * y1'))), ρ.rnd (-o.sin_incl * y1')⟩) := by
    cases he : o.ecc with
    | none =>
      refine ⟨x, y, x', y', hxy, by linarith, by linarith, ?_, ?_⟩
      · simp only [Orbit.rotate, he]; cases o.Omega <;> rfl
      · simp only [rotateAny, he]; cases o.Omega <;> rfl
    | some p =>
      have hw := hp.omega_unit p he
      obtain ⟨hsw, hcw⟩ := unit hw
      obtain ⟨bx, by'⟩ := bound hxy
      have h1 : (p.cos_omega * x - p.sin_omega * y) ^ 2 + (p.sin_omega * x + p.cos_omega * y) ^ 2 = R ^ 2 := by
        linear_combination hxy + (x ^ 2 + y ^ 2) * hw
      obtain ⟨b1, b2⟩ := bound h1
      have p1 := ρ.prod_err hδ hδ1 hR (by norm_num) (by norm_num) le_rfl (by norm_num) hcw (exact0 _) bx hx
      have p2 := ρ.prod_err hδ hδ1 hR (by norm_num) (by norm_num) le_rfl (by norm_num) hsw (exact0 _) by' hy
      have p3 := ρ.prod_err hδ hδ1 hR (by norm_num) (by norm_num) le_rfl (by norm_num) hsw (exact0 _) bx hx
      have p4 := ρ.prod_err hδ hδ1 hR (by norm_num) (by norm_num) le_rfl (by norm_num) hcw (exact0 _) by' hy
      refine ⟨_, _, _, _, h1, (ρ.diff_err hδ hδ1 hR (by norm_num) (by norm_num) p1 p2 b1).trans (by linarith),
        (ρ.sum_err hδ hδ1 hR (by norm_num) (by norm_num) p3 p4 b2).trans (by linarith), ?_, ?_⟩
      · simp only [Orbit.rotate, he]; cases o.Omega <;> rfl
      · simp only [rotateAny, he]; cases o.Omega <;> rfl
  rw [e1, e2]
  obtain ⟨bx1, by1⟩ := bound hxy1
  -- 2) by the inclination
  have y2 := ρ.prod_err hδ hδ1 hR (by norm_num) (by norm_num) le_rfl (by norm_num) hc1 (exact0 _) by1 hy1
  have z2 := ρ.prod_err hδ hδ1 hR (by norm_num) (by norm_num) le_rfl (by norm_num) hs1' (exact0 _) by1 hy1
  have hz : |ρ.rnd (-o.sin_incl * y1') - -o.sin_incl * y1| ≤ 22 * δ * R := z2.trans (by linarith)
  -- 3) by Omega
  cases hO : o.Omega with
  | none =>
    simp only [Orbit.roundingFactor, hO]
    exact ⟨by linarith, by linarith, hz⟩
  | some W =>
    simp only [Orbit.roundingFactor, hO]
    have by2 : |o.cos_incl * y1| ≤ R := by
      rw [abs_mul]
      exact (mul_le_of_le_one_left (abs_nonneg _) hc1).trans by1
    have hW := sin_sq_add_cos_sq W
    have hle : (o.cos_incl * y1) ^ 2 ≤ y1 ^ 2 := by
      rw [mul_pow]
      exact mul_le_of_le_one_left (sq_nonneg _) (by nlinarith [sq_nonneg o.sin_incl])
    have hsum : (cos W * x1 - sin W * (o.cos_incl * y1)) ^ 2 + (sin W * x1 + cos W * (o.cos_incl * y1)) ^ 2 ≤ R ^ 2 := by
      have : (cos W * x1 - sin W * (o.cos_incl * y1)) ^ 2 + (sin W * x1 + cos W * (o.cos_incl * y1)) ^ 2 = x1 ^ 2 + (o.cos_incl * y1) ^ 2 := by
        linear_combination (x1 ^ 2 + (o.cos_incl * y1) ^ 2) * hW
      linarith
    have b1 : |cos W * x1 - sin W * (o.cos_incl * y1)| ≤ R :=
      abs_le_of_sq_le_sq (by nlinarith [sq_nonneg (sin W * x1 + cos W * (o.cos_incl * y1))]) hR
    have b2 : |sin W * x1 + cos W * (o.cos_incl * y1)| ≤ R :=
      abs_le_of_sq_le_sq (by nlinarith [sq_nonneg (cos W * x1 - sin W * (o.cos_incl * y1))]) hR
    have hcF : |ρ.cosF W - cos W| ≤ 2 * δ := (ρ.cos_err W).trans (by linarith)
    have hsF : |ρ.sinF W - sin W| ≤ 2 * δ := (ρ.sin_err W).trans (by linarith)
    have p1 := ρ.prod_err hδ hδ1 hR (by norm_num) (by norm_num) (by norm_num) le_rfl (abs_cos_le_one W) hcF bx1 hx1
    have p2 := ρ.prod_err hδ hδ1 hR (by norm_num) (by norm_num) (by norm_num) le_rfl (abs_sin_le_one W) hsF by2 y2
    have p3 := ρ.prod_err hδ hδ1 hR (by norm_num) (by norm_num) (by norm_num) le_rfl (abs_sin_le_one W) hsF bx1 hx1
    have p4 := ρ.prod_err hδ hδ1 hR (by norm_num) (by norm_num) (by norm_num) le_rfl (abs_cos_le_one W) hcF by2 y2
    exact ⟨(ρ.diff_err hδ hδ1 hR (by norm_num) (by norm_num) p1 p2 b1).trans (by linarith),
      (ρ.sum_err hδ hδ1 hR (by norm_num) (by norm_num) p3 p4 b2).trans (by linarith), hz⟩

/-- The rounded position, given the mean anomaly. -/
theorem positionFrom_err {C : Consts} {A : Args} {o : Orbit} (h : keplerianInit C A = .ok o) (hp : o.Physical) {kep : ℝ → ℝ → ℝ × ℝ} {η δ : ℝ}
    (hη : 0 ≤ η) (hδ : δ = (ρ.u + η) / (1 - o.eccVal)) (hδ1 : δ ≤ 1 / 1000) {M t : ℝ} (hM : (t - o.t0 - o.tref) * o.n = M)
    (hk : o.ecc ≠ none → KeplerWithin kep η o.eccVal M) :
    |(ρ.positionFrom kep o M).x - (o.relativePosition C t).x| ≤ o.roundingFactor * δ * (o.relativePosition C t).norm ∧
    |(ρ.positionFrom kep o M).y - (o.relativePosition C t).y| ≤ o.roundingFactor * δ * (o.relativePosition C t).norm ∧
    |(ρ.positionFrom kep o M).z - (o.relativePosition C t).z| ≤ 22 * δ * (o.relativePosition C t).norm := by
  have B := built_of_init h
  have hu := ρ.u_nonneg
  have he0 := hp.eccOk.nonneg
  have he1 := hp.eccOk.lt_one
  have h1e : 0 < 1 - o.eccVal := by linarith
  have hδe : ρ.u + η = δ * (1 - o.eccVal) := by rw [hδ]; field_simp
  have hδ0 : 0 ≤ δ := by rw [hδ]; positivity
  have hδ2 : δ * (1 - o.eccVal) ≤ δ := mul_le_of_le_one_right hδ0 (by linarith)
  have huδ : ρ.u ≤ δ := by linarith
  have hηδ : η ≤ δ := by linarith
  have hf : o.trueAnomaly t = keplerOp M o.eccVal := by
    rw [Orbit.trueAnomaly_eq, Orbit.meanAnom, B.warp_eq, hM]
  have hsc := keplerOp_sq he0 he1 M
  have hrel : o.relativePosition C t = o.rotate (o.radius (-o.a) (keplerOp M o.eccVal).2 * (keplerOp M o.eccVal).2)
      (o.radius (-o.a) (keplerOp M o.eccVal).2 * (keplerOp M o.eccVal).1) := by
    simp only [Orbit.relativePosition, Orbit.position, Orbit.positionNow, hf, Bool.false_eq_true, if_false]
  have hs1 : |(keplerOp M o.eccVal).1| ≤ 1 := abs_le_of_sq_le_sq (by nlinarith [sq_nonneg (keplerOp M o.eccVal).2]) zero_le_one
  have hc1 : |(keplerOp M o.eccVal).2| ≤ 1 := abs_le_of_sq_le_sq (by nlinarith [sq_nonneg (keplerOp M o.eccVal).1]) zero_le_one
  have hnorm : (o.relativePosition C t).norm = |o.radius (-o.a) (keplerOp M o.eccVal).2| := by
    rw [V3.norm, hrel, Orbit.rotate_normSq hp (B.incl_sq hp), ← sqrt_sq_eq_abs]
    congr 1
    linear_combination (o.radius (-o.a) (keplerOp M o.eccVal).2) ^ 2 * hsc
  rw [hnorm, hrel]
  unfold positionFrom
  simp only
  set s := (keplerOp M o.eccVal).1 with hsd
  set c := (keplerOp M o.eccVal).2 with hcd
  set r := o.radius (-o.a) c with hrd
  have hRn := abs_nonneg r
  have hxy : (r * c) ^ 2 + (r * s) ^ 2 = |r| ^ 2 := by
    rw [sq_abs]
    linear_combination r ^ 2 * hsc
  obtain ⟨h1, h2⟩ : |ρ.rnd (ρ.radiusAny o (-o.a) (ρ.anomalyAny kep o M).2 * (ρ.anomalyAny kep o M).2) - r * c| ≤ 8.4 * δ * |r| ∧
      |ρ.rnd (ρ.radiusAny o (-o.a) (ρ.anomalyAny kep o M).2 * (ρ.anomalyAny kep o M).1) - r * s| ≤ 8.4 * δ * |r| := by
    have hδR : 0 ≤ δ * |r| := by positivity
    cases he : o.ecc with
    | none =>
      have hev : o.eccVal = 0 := by simp [Orbit.eccVal, he]
      have hs : s = sin M := by rw [hsd, hev, keplerOp_zero_ecc]
      have hc : c = cos M := by rw [hcd, hev, keplerOp_zero_ecc]
      have hr : r = -o.a := by simp [hrd, Orbit.radius, he]
      have hcF : |ρ.cosF M - c| ≤ 2 * δ := by rw [hc]; exact (ρ.cos_err M).trans (by linarith)
      have hsF : |ρ.sinF M - s| ≤ 2 * δ := by rw [hs]; exact (ρ.sin_err M).trans (by linarith)
      simp only [radiusAny, anomalyAny, he, ← hr]
      have q1 := ρ.prod_err (k := 0) (y := r) huδ hδ1 hRn (by norm_num) le_rfl (by norm_num) le_rfl hc1 hcF le_rfl (by simp)
      have q2 := ρ.prod_err (k := 0) (y := r) huδ hδ1 hRn (by norm_num) le_rfl (by norm_num) le_rfl hs1 hsF le_rfl (by simp)
      rw [mul_comm r, mul_comm r, mul_comm r, mul_comm r]
      exact ⟨q1.trans (by linarith), q2.trans (by linarith)⟩
    | some p =>
      have hev : o.eccVal = p.ecc := by simp [Orbit.eccVal, he]
      obtain ⟨EE, hE, k1, k2⟩ := hk (by simp [he])
      rw [← eccAnomaly_unique he0 he1 hE] at k1 k2
      change |_ - (keplerOp M o.eccVal).1| ≤ η at k1
      change |_ - (keplerOp M o.eccVal).2| ≤ η at k2
      rw [← hsd, hev] at k1
      rw [← hcd, hev] at k2
      simp only [radiusAny, anomalyAny, he]
      have hr : r = -o.a * (1 - p.ecc ^ 2) / (1 + p.ecc * c) := by simp only [hrd, Orbit.radius, he]
      have hrad := ρ.radius_err (a := -o.a) (c := c) (c' := (kep M p.ecc).2) (hev ▸ he0) (hev ▸ he1) hη (hev ▸ hδ) hδ1 hc1 k2
      rw [← hr] at hrad
      have q1 := ρ.prod_err (ε := 1) huδ hδ1 hRn (by norm_num) (by norm_num) (by norm_num) (by norm_num) hc1 (k2.trans (by linarith)) le_rfl hrad
      have q2 := ρ.prod_err (ε := 1) huδ hδ1 hRn (by norm_num) (by norm_num) (by norm_num) (by norm_num) hs1 (k1.trans (by linarith)) le_rfl hrad
      rw [mul_comm r, mul_comm r, mul_comm _ (kep M p.ecc).2, mul_comm _ (kep M p.ecc).1]
      exact ⟨q1.trans (by linarith), q2.trans (by linarith)⟩
  exact ρ.rotate_err hp (B.incl_sq hp) huδ hδ1 hRn hxy h1 h2

/-! ## The mean anomaly at transit -/

/-- The `arctan2` of a quotient that is slightly off. -/
theorem arctan_rel {x y κ : ℝ} (hκ0 : 0 ≤ κ) (hκ : κ ≤ 1 / 2) (h : |y - x| ≤ κ * |x|) : |arctan y - arctan x| ≤ κ := by
  have hxy : (1 - κ) * x ^ 2 ≤ y * x := by
    have h1 : |(y - x) * x| ≤ κ * |x| * |x| := by
      rw [abs_mul]
      exact mul_le_mul_of_nonneg_right h (abs_nonneg _)
    have h2 := (abs_le.1 h1).1
    have h3 : |x| * |x| = x ^ 2 := by rw [← sq, sq_abs]
    have h4 : κ * |x| * |x| = κ * x ^ 2 := by rw [mul_assoc, h3]
    nlinarith
  have hpos : 0 ≤ y * x := by nlinarith [sq_nonneg x]
  have e : arctan y - arctan x = arctan ((y - x) / (1 + y * x)) := by
    rw [sub_eq_add_neg, ← arctan_neg, arctan_add (by nlinarith)]
    congr 1
    ring
  have habs : ∀ z : ℝ, |arctan z| ≤ |z| := by
    have hpos : ∀ z : ℝ, 0 ≤ z → |arctan z| ≤ |z| := by
      intro z hz
      rw [abs_of_nonneg hz, abs_of_nonneg (arctan_nonneg.2 hz)]
      have := le_tan (arctan_nonneg.2 hz) (arctan_lt_pi_div_two z)
      rwa [tan_arctan] at this
    intro z
    rcases le_total 0 z with hz | hz
    · exact hpos z hz
    · have := hpos (-z) (by linarith)
      rwa [arctan_neg, abs_neg, abs_neg] at this
  rw [e]
  refine (habs _).trans ?_
  have hd : 0 < 1 + y * x := by linarith
  rw [abs_div, abs_of_pos hd, div_le_iff₀ hd]
  refine h.trans (mul_le_mul_of_nonneg_left ?_ hκ0)
  have h5 : |x| ≤ 1 + (1 - κ) * x ^ 2 := by
    rw [← sq_abs]
    nlinarith [sq_nonneg (|x| - 1), abs_nonneg x, sq_nonneg (|x|)]
  linarith

theorem arctan2_of_pos {y x : ℝ} (hx : 0 < x) : arctan2 y x = arctan (y / x) := by
  have h1 : |Complex.arg ⟨x, y⟩| < π / 2 := Complex.abs_arg_lt_pi_div_two_iff.2 (Or.inl hx)
  have h2 := Complex.tan_arg ⟨x, y⟩
  simp only at h2
  rw [arctan2, ← h2, arctan_tan (abs_lt.1 h1).1 (abs_lt.1 h1).2]

/-- A rounded square root. -/
theorem sqrt_err {x x' : ℝ} (hx : 0 ≤ x) (h : |x' - x| ≤ ρ.u * x) : |ρ.rnd √x' - √x| ≤ 2.01 * ρ.u * √x := by
  have hu := ρ.u_nonneg
  have hu1 := ρ.u_le
  have hx' : 0 ≤ x' := by
    have := (abs_le.1 h).1
    have : ρ.u * x ≤ 1 / 1000 * x := mul_le_mul_of_nonneg_right hu1 hx
    linarith
  have h1 : |√x' - √x| ≤ ρ.u * √x := by
    rcases hx.eq_or_lt with h0 | hpos
    · rw [← h0] at h ⊢
      have : x' = 0 := by simpa using h
      simp [this]
    · have hs : 0 < √x := sqrt_pos.2 hpos
      have e : (√x' - √x) * (√x' + √x) = x' - x := by
        linear_combination sq_sqrt hx' - sq_sqrt hx
      have hq := sqrt_nonneg x'
      have h9 : |√x' - √x| * √x ≤ |x' - x| := by
        rw [← e, abs_mul, abs_of_nonneg (by positivity : 0 ≤ √x' + √x)]
        exact mul_le_mul_of_nonneg_left (by linarith) (abs_nonneg _)
      have h10 : |√x' - √x| * √x ≤ ρ.u * √x * √x := by
        have := mul_self_sqrt hx
        nlinarith
      exact le_of_mul_le_mul_right h10 hs
  have h2 := ρ.near h1
  have hs := sqrt_nonneg x
  rw [abs_of_nonneg hs] at h2
  have h3 := mul_le_mul_of_nonneg_right ρ.sq_u_le hs
  have h4 : 0 ≤ ρ.u * √x := by positivity
  linarith

/-- A rounded product of two numbers with small relative errors. -/
theorem rel_prod {x x' y y' k l : ℝ} (hk : 0 ≤ k) (hl : 0 ≤ l) (hk3 : k ≤ 3) (hl3 : l ≤ 3) (hx : |x' - x| ≤ k * ρ.u * |x|)
    (hy : |y' - y| ≤ l * ρ.u * |y|) : |ρ.rnd (x' * y') - x * y| ≤ (k + l + 1.1) * ρ.u * |x * y| := by
  have hu := ρ.u_nonneg
  have hu1 := ρ.u_le
  have h1 : |x' * y' - x * y| ≤ (k + l + 0.01) * ρ.u * |x * y| := by
    rw [show x' * y' - x * y = (x' - x) * (y' - y) + (x' - x) * y + x * (y' - y) by ring]
    refine (abs_add_le _ _).trans ((add_le_add (abs_add_le _ _) le_rfl).trans ?_)
    rw [abs_mul, abs_mul, abs_mul, abs_mul]
    have a1 := mul_le_mul hx hy (abs_nonneg _) (by positivity)
    have a2 := mul_le_mul_of_nonneg_right hx (abs_nonneg y)
    have a3 := mul_le_mul_of_nonneg_left hy (abs_nonneg x)
    have a4 : k * l * (ρ.u * ρ.u) ≤ 9 * (ρ.u / 1000) :=
      mul_le_mul (by nlinarith) ρ.sq_u_le (by positivity) (by norm_num)
    have a5 := mul_le_mul_of_nonneg_right a4 (by positivity : 0 ≤ |x| * |y|)
    have a6 : 0 ≤ ρ.u * (|x| * |y|) := by positivity
    linarith
  have h2 := ρ.near h1
  have a4 : (k + l + 0.01) * ρ.u ≤ 0.01 := by nlinarith
  have a5 := mul_le_mul_of_nonneg_right a4 (abs_nonneg (x * y))
  have a6 := mul_le_mul_of_nonneg_left a5 hu
  have a7 : 0 ≤ ρ.u * |x * y| := by positivity
  linarith

/-- The stored mean anomaly at transit of an eccentric orbit. -/
theorem m0Ecc_err {p : EccParams} (he0 : 0 ≤ p.ecc) (he1 : p.ecc < 1) (hw : p.sin_omega ^ 2 + p.cos_omega ^ 2 = 1) {atan2F : ℝ → ℝ → ℝ}
    (hat : ∀ y x, |atan2F y x - arctan2 y x| ≤ 4 * ρ.u) :
    |ρ.m0Ecc atan2F p - M0Of (some p)| ≤ 59 * ρ.u ∧ |M0Of (some p)| ≤ π := by
  have hu := ρ.u_nonneg
  have hu1 := ρ.u_le
  have hsq := ρ.sq_u_le
  have hs1 : -1 ≤ p.sin_omega := by nlinarith [sq_nonneg p.cos_omega]
  unfold m0Ecc M0Of
  simp only
  -- the arguments of `arctan2`
  have a1 : |ρ.rnd √(ρ.rnd (1 - p.ecc)) - √(1 - p.ecc)| ≤ 2.01 * ρ.u * |√(1 - p.ecc)| := by
    rw [abs_of_nonneg (sqrt_nonneg _)]
    have h := ρ.rnd_err (1 - p.ecc)
    rw [abs_of_pos (by linarith : 0 < 1 - p.ecc)] at h
    exact ρ.sqrt_err (by linarith) h
  have a2 : |ρ.rnd √(ρ.rnd (1 + p.ecc)) - √(1 + p.ecc)| ≤ 2.01 * ρ.u * |√(1 + p.ecc)| := by
    rw [abs_of_nonneg (sqrt_nonneg _)]
    have h := ρ.rnd_err (1 + p.ecc)
    rw [abs_of_pos (by linarith : 0 < 1 + p.ecc)] at h
    exact ρ.sqrt_err (by linarith) h
  have a3 : |ρ.rnd (1 + p.sin_omega) - (1 + p.sin_omega)| ≤ 1 * ρ.u * |1 + p.sin_omega| := by
    rw [one_mul]; exact ρ.rnd_err _
  have b1 := ρ.rel_prod (by norm_num) le_rfl (by norm_num) (by norm_num) a1 (show |p.cos_omega - p.cos_omega| ≤ 0 * ρ.u * |p.cos_omega| by simp)
  have b2 := ρ.rel_prod (by norm_num) (by norm_num) (by norm_num) (by norm_num) a2 a3
  have hβ : 0 ≤ √(1 + p.ecc) * (1 + p.sin_omega) := mul_nonneg (sqrt_nonneg _) (by linarith)
  have hzero : √(1 + p.ecc) * (1 + p.sin_omega) = 0 → √(1 - p.ecc) * p.cos_omega = 0 := by
    intro h
    have h1 : 0 < √(1 + p.ecc) := sqrt_pos.2 (by linarith)
    have h2 : p.sin_omega = -1 := by
      rcases mul_eq_zero.1 h with h | h
      · exact absurd h h1.ne'
      · linarith
    have h3 : p.cos_omega = 0 := by
      rw [h2] at hw
      nlinarith
    rw [h3, mul_zero]
  generalize √(1 - p.ecc) * p.cos_omega = α at *
  generalize √(1 + p.ecc) * (1 + p.sin_omega) = β at *
  generalize ρ.rnd (ρ.rnd √(ρ.rnd (1 - p.ecc)) * p.cos_omega) = α' at *
  generalize ρ.rnd (ρ.rnd √(ρ.rnd (1 + p.ecc)) * ρ.rnd (1 + p.sin_omega)) = β' at *
  have key : |arctan2 α' β' - arctan2 α β| ≤ 7.5 * ρ.u ∧ |arctan2 α β| ≤ π / 2 := by
    rcases hβ.eq_or_lt with h0 | hpos
    · have h1 := hzero h0.symm
      rw [h1] at b1
      rw [← h0] at b2
      have hα' : α' = 0 := by simpa using b1
      have hβ' : β' = 0 := by simpa using b2
      rw [hα', hβ', h1, ← h0]
      refine ⟨by simp; positivity, ?_⟩
      have : arctan2 0 0 = 0 := by
        unfold arctan2
        exact Complex.arg_zero
      rw [this, abs_zero]
      positivity
    · rw [abs_of_pos hpos] at b2
      have hβ2 : 0.99 * β ≤ β' := by
        have := (abs_le.1 b2).1
        have : ρ.u * β ≤ 1 / 1000 * β := mul_le_mul_of_nonneg_right hu1 hpos.le
        linarith
      have hβ' : 0 < β' := lt_of_lt_of_le (by positivity) hβ2
      rw [arctan2_of_pos hβ', arctan2_of_pos hpos]
      refine ⟨arctan_rel (by positivity) (by linarith) ?_, (abs_lt.2 ⟨neg_pi_div_two_lt_arctan _, arctan_lt_pi_div_two _⟩).le⟩
      have hr0 : |α / β| * β = |α| := by
        rw [abs_div, abs_of_pos hpos]; field_simp
      rw [show α' / β' - α / β = (α' - α / β * β') / β' by field_simp, abs_div, abs_of_pos hβ', div_le_iff₀ hβ']
      have e1 : α' - α / β * β' = (α' - α) - α / β * (β' - β) := by field_simp; ring
      have e2 : |α / β * (β' - β)| ≤ (2.01 + 1 + 1.1) * ρ.u * |α| := by
        rw [abs_mul]
        have := mul_le_mul_of_nonneg_left b2 (abs_nonneg (α / β))
        calc _ ≤ _ := this
          _ = (2.01 + 1 + 1.1) * ρ.u * (|α / β| * β) := by ring
          _ = _ := by rw [hr0]
      rw [e1]
      refine (abs_sub _ _).trans ((add_le_add b1 e2).trans ?_)
      have e3 : 0 ≤ 7.5 * ρ.u * |α / β| := by positivity
      refine le_trans ?_ (mul_le_mul_of_nonneg_left hβ2 e3)
      rw [show 7.5 * ρ.u * |α / β| * (0.99 * β) = 7.5 * 0.99 * ρ.u * (|α / β| * β) by ring, hr0]
      have : 0 ≤ ρ.u * |α| := by positivity
      linarith
  obtain ⟨hθ, hθ0⟩ := key
  have hF := hat α' β'
  generalize arctan2 α' β' = θ' at *
  generalize arctan2 α β = θ at *
  generalize atan2F α' β' = φ at *
  have hpi := pi_lt_d2
  have hE0 : |2 * θ| ≤ π := by rw [abs_mul, abs_two]; linarith
  have c1 : |2 * φ - 2 * θ| ≤ 23 * ρ.u := by
    rw [← mul_sub, abs_mul, abs_two]
    have := abs_sub_le φ θ' θ
    linarith
  have c2 : |ρ.rnd (2 * φ) - 2 * θ| ≤ 26.2 * ρ.u := by
    have h := ρ.near c1
    have := mul_le_mul_of_nonneg_left hE0 hu
    have := mul_le_mul_of_nonneg_left hpi.le hu
    linarith
  generalize ρ.rnd (2 * φ) = E' at *
  generalize 2 * θ = E at *
  have c3 : |ρ.sinF E' - sin E| ≤ 28.2 * ρ.u := by
    have h1 := ρ.sin_err E'
    have h2 : |sin E' - sin E| ≤ |E' - E| := by
      have := Real.abs_sin_sub_sin_le E' E
      exact this
    have := abs_sub_le (ρ.sinF E') (sin E') (sin E)
    linarith
  have c4 : |p.ecc * ρ.sinF E' - p.ecc * sin E| ≤ 28.2 * ρ.u := by
    rw [← mul_sub, abs_mul, abs_of_nonneg he0]
    exact (mul_le_of_le_one_left (abs_nonneg _) he1.le).trans c3
  have hes : |p.ecc * sin E| ≤ 1 := by
    rw [abs_mul, abs_of_nonneg he0]
    exact (mul_le_of_le_one_left (abs_nonneg _) he1.le).trans (abs_sin_le_one E)
  have hM : |E - p.ecc * sin E| ≤ π := by
    have key : ∀ x, 0 ≤ x → x ≤ π → |x - p.ecc * sin x| ≤ π := by
      intro x hx0 hx1
      have h1 := sin_le hx0
      have h2 := sin_nonneg_of_nonneg_of_le_pi hx0 hx1
      have h3 : p.ecc * sin x ≤ sin x := mul_le_of_le_one_left h2 he1.le
      have h4 : 0 ≤ p.ecc * sin x := by positivity
      rw [abs_of_nonneg (by linarith)]
      linarith
    rcases le_total 0 E with h | h
    · exact key E h (by rwa [abs_of_nonneg h] at hE0)
    · have := key (-E) (by linarith) (by rwa [abs_of_nonpos h] at hE0)
      rw [sin_neg, ← abs_neg] at this
      convert this using 2
      ring
  refine ⟨?_, hM⟩
  have c5 : |ρ.rnd (p.ecc * ρ.sinF E') - p.ecc * sin E| ≤ 29.3 * ρ.u := by
    have h := ρ.near c4
    have := mul_le_mul_of_nonneg_left hes hu
    linarith
  have c6 : |E' - ρ.rnd (p.ecc * ρ.sinF E') - (E - p.ecc * sin E)| ≤ 55.5 * ρ.u := by
    rw [show E' - ρ.rnd (p.ecc * ρ.sinF E') - (E - p.ecc * sin E) = (E' - E) - (ρ.rnd (p.ecc * ρ.sinF E') - p.ecc * sin E) by ring]
    exact (abs_sub _ _).trans (by linarith)
  have h := ρ.near c6
  have := mul_le_mul_of_nonneg_left hM hu
  have := mul_le_mul_of_nonneg_left hpi.le hu
  linarith

/-- The stored mean anomaly at transit, and the phase of the transit. -/
theorem m0_err {C : Consts} {A : Args} {o : Orbit} (h : keplerianInit C A = .ok o) (hp : o.Physical) {atan2F : ℝ → ℝ → ℝ}
    (hat : ∀ y x, |atan2F y x - arctan2 y x| ≤ 4 * ρ.u) : |ρ.m0 atan2F o - o.M0| ≤ 59 * ρ.u ∧ |o.M0| ≤ π := by
  have B := built_of_init h
  have hu := ρ.u_nonneg
  rw [B.M0_eq]
  unfold m0
  cases he : o.ecc with
  | none =>
    have hpi := pi_pos
    have hpi2 := pi_lt_d2
    have h1 : |0.5 * ρ.piF - 0.5 * π| ≤ ρ.u * (0.5 * π) := by
      rw [← mul_sub, abs_mul, abs_of_pos (by norm_num : (0 : ℝ) < 0.5)]
      linarith [ρ.pi_err]
    have h2 := ρ.near h1
    rw [abs_of_pos (show (0 : ℝ) < 0.5 * π by positivity)] at h2
    have h3 := mul_le_mul_of_nonneg_right ρ.sq_u_le hpi.le
    have h4 := mul_le_mul_of_nonneg_left hpi2.le hu
    simp only [M0Of]
    refine ⟨by linarith, ?_⟩
    rw [abs_of_pos (by positivity)]
    linarith
  | some p => exact ρ.m0Ecc_err (hp.ecc_nonneg p he) (hp.ecc_lt_one p he) (hp.omega_unit p he) hat

end Rounding

/-- **C120 (positions).** For any orbit, circular or eccentric, with `t0` or `t_periastron`, with or without `Omega`: if the compiled solver is off
by at most `η` at the mean anomaly that it is given, the rounded position is, within 22 (with `Omega`: 49) times `(u + η) / (1 - e)` times the
distance, the exact position at a time that differs from the requested one by at most `u (2 |t0| + 8 |t - t0| + 29 P)`. -/
theorem C120_position (C : Consts) (A : Args) (o : Orbit) (h : keplerianInit C A = .ok o) (hp : o.Physical) (ρ : Rounding)
    (kep : ℝ → ℝ → ℝ × ℝ) (η : ℝ) (hη : 0 ≤ η) (hδ : (ρ.u + η) / (1 - o.eccVal) ≤ 1 / 1000) (atan2F : ℝ → ℝ → ℝ)
    (hat : ∀ y x, |atan2F y x - arctan2 y x| ≤ 4 * ρ.u) (t : ℝ)
    (hk : o.ecc ≠ none → KeplerWithin kep η o.eccVal (ρ.computedMeanAnomaly atan2F A o t)) :
    ∃ t', |t' - t| ≤ ρ.u * (2 * |o.t0| + 8 * |t - o.t0| + 29 * o.period) ∧
      |(ρ.computedPosition kep atan2F A o t).x - (o.relativePosition C t').x| ≤
        o.roundingFactor * ((ρ.u + η) / (1 - o.eccVal)) * (o.relativePosition C t').norm ∧
      |(ρ.computedPosition kep atan2F A o t).y - (o.relativePosition C t').y| ≤
        o.roundingFactor * ((ρ.u + η) / (1 - o.eccVal)) * (o.relativePosition C t').norm ∧
      |(ρ.computedPosition kep atan2F A o t).z - (o.relativePosition C t').z| ≤
        22 * ((ρ.u + η) / (1 - o.eccVal)) * (o.relativePosition C t').norm := by
  have B := built_of_init h
  have hP := hp.period_pos
  have hu := ρ.u_nonneg
  have hpi := pi_pos
  have hn : 0 < o.n := by rw [B.n_eq]; positivity
  obtain ⟨hm, hM0⟩ := ρ.m0_err h hp hat
  have htp : o.t_periastron = o.t0 - o.M0 / o.n := by linarith [timeBlock_eq B.time_block]
  have hM := ρ.meanAnomalyAny_err hP B.n_eq htp B.tref_eq A.t_periastron.isSome hm t
  have htr : |o.tref| ≤ o.period / 2 := by
    have e : o.tref = -(o.M0 / o.n) := by rw [B.tref_eq, htp]; ring
    rw [e, abs_neg, abs_div, abs_of_pos hn, div_le_iff₀ hn, B.n_eq]
    refine hM0.trans (le_of_eq ?_)
    field_simp
  have hν : 2 * (59 * ρ.u / o.n) ≤ 19 * (ρ.u * o.period) := by
    rw [← mul_div_assoc, div_le_iff₀ hn, B.n_eq]
    have e : 19 * (ρ.u * o.period) * (2 * π / o.period) = 38 * π * ρ.u := by field_simp; ring
    rw [e]
    have := pi_gt_d2
    nlinarith
  change |ρ.computedMeanAnomaly atan2F A o t - _| ≤ _ at hM
  have hpos : ρ.computedPosition kep atan2F A o t = ρ.positionFrom kep o (ρ.computedMeanAnomaly atan2F A o t) := rfl
  rw [hpos]
  generalize ρ.computedMeanAnomaly atan2F A o t = M at *
  refine ⟨o.t0 + o.tref + M / o.n, ?_, ρ.positionFrom_err h hp hη rfl hδ (by field_simp; ring) hk⟩
  have e : (o.t0 + o.tref + M / o.n - t) * o.n = M - (t - o.t0 - o.tref) * o.n := by field_simp; ring
  rw [← mul_le_mul_iff_left₀ hn, ← abs_of_pos hn, ← abs_mul, abs_of_pos hn, e]
  refine hM.trans (mul_le_mul_of_nonneg_right ?_ hn.le)
  have := mul_le_mul_of_nonneg_left htr hu
  linarith

/-! ## Light curves -/

/-- The rounded flux of a planet that is seen close to where it is. Where the sign of its height is wrong, it is far from the star. -/
theorem Rounding.flux_near (ρ : Rounding) {u1 u2 B r R E ε d : ℝ} (hl : PhysicalLaw u1 u2) (hB : NotBrighterThan u1 u2 B) (hr : 0 < r) (hR : 0 < R)
    {ld : ℝ → ℝ → ℝ} (hld : ∀ b k, 0 ≤ b → 0 < k → |ld b k - quadLimbdarkLightCurve (getCl u1 u2) b k| ≤ E) {p q : V3}
    (hd : 2 * (R + r) ≤ d) (hq : q.x ^ 2 + q.y ^ 2 + q.z ^ 2 = d ^ 2) (hε : ε ≤ 0.06) (hε0 : 0 ≤ ε)
    (hx : |p.x - q.x| ≤ ε * d) (hy : |p.y - q.y| ≤ ε * d) (hz : |p.z - q.z| ≤ ε * d) :
    |ρ.flux ld R r p - fluxAt (getCl u1 u2) R r q| ≤
      E + (1.42 * ε + 5 * ρ.u) * (d / R) * stripLight u1 u2 B (r / R) + 3 * ρ.u * (B * (r / R) ^ 2 / (1 - u1 / 3 - u2 / 6)) := by
  have hu := ρ.u_nonneg
  have hu1 := ρ.u_le
  have hd0 : 0 < d := by linarith
  have hB0 : 0 ≤ B := (hl.1 0 le_rfl zero_le_one).trans (hB 0 le_rfl zero_le_one)
  have hL : 0 ≤ stripLight u1 u2 B (r / R) := by
    have := hl.pos
    unfold stripLight
    rw [← fluxFrom_disc]
    positivity
  have hD : 0 < 1 - u1 / 3 - u2 / 6 := hl.2
  have hsq : q.x ^ 2 + q.y ^ 2 = d ^ 2 - q.z ^ 2 := by linarith
  have hεd0 : 0 ≤ ε * d := by positivity
  have hεd : ε * d ≤ 0.06 * d := mul_le_mul_of_nonneg_right hε hd0.le
  have hsa : √(q.x ^ 2 + q.y ^ 2) ≤ d := by
    rw [hsq]
    refine (sqrt_le_sqrt (by nlinarith [sq_nonneg q.z])).trans (sqrt_sq hd0.le).le
  have htri : |√(p.x ^ 2 + p.y ^ 2) - √(q.x ^ 2 + q.y ^ 2)| ≤ 1.415 * (ε * d) := by
    refine (plane_triangle _ _ _ _).trans (sqrt_le_iff.2 ⟨by positivity, ?_⟩)
    have h1 := sq_le_sq' (by linarith [(abs_le.1 hx).1]) (abs_le.1 hx).2
    have h2 := sq_le_sq' (by linarith [(abs_le.1 hy).1]) (abs_le.1 hy).2
    nlinarith
  have hsp : √(p.x ^ 2 + p.y ^ 2) ≤ 1.09 * d := by
    have := (abs_le.1 htri).2
    linarith
  have hsep := ρ.separation_err p.x p.y hR
  unfold Rounding.flux
  simp only
  set b' := ρ.rnd (ρ.rnd √(ρ.rnd (ρ.rnd (p.x ^ 2) + ρ.rnd (p.y ^ 2))) / R) with hb'
  have hbe : |b' - √(q.x ^ 2 + q.y ^ 2) / R| ≤ (1.42 * ε + 5 * ρ.u) * (d / R) := by
    have h1 : |√(p.x ^ 2 + p.y ^ 2) / R - √(q.x ^ 2 + q.y ^ 2) / R| ≤ 1.415 * (ε * (d / R)) := by
      rw [← sub_div, abs_div, abs_of_pos hR, ← mul_div_assoc, ← mul_div_assoc]
      exact div_le_div_of_nonneg_right htri hR.le
    have h2 : √(p.x ^ 2 + p.y ^ 2) / R ≤ 1.09 * (d / R) := by
      rw [← mul_div_assoc]
      exact div_le_div_of_nonneg_right hsp hR.le
    have h3 := mul_le_mul_of_nonneg_left h2 hu
    have h4 : 0 ≤ ρ.u * (d / R) := by positivity
    have h4' : 0 ≤ ε * (d / R) := by positivity
    have h5 := abs_sub_le b' (√(p.x ^ 2 + p.y ^ 2) / R) (√(q.x ^ 2 + q.y ^ 2) / R)
    linarith
  have hb0 : 0 ≤ b' := by
    have h1 : 0 ≤ √(p.x ^ 2 + p.y ^ 2) / R := by positivity
    have h2 := (abs_le.1 hsep).1
    have h3 : 4.1 * ρ.u * (√(p.x ^ 2 + p.y ^ 2) / R) ≤ 4.1 * (1 / 1000) * (√(p.x ^ 2 + p.y ^ 2) / R) :=
      mul_le_mul_of_nonneg_right (by linarith) h1
    linarith
  have hk0 : 0 < r / R := by positivity
  have hke := ρ.rnd_err (r / R)
  rw [abs_of_pos hk0] at hke
  have hk' := (ρ.rnd_pos (r / R)).2 hk0
  set k := r / R with hk
  set k' := ρ.rnd k with hkd
  -- the compiled operation
  have hE : 0 ≤ E := (abs_nonneg _).trans (hld 0 1 le_rfl one_pos)
  have step1 : |(if 0 < ρ.rnd (p.z / R) then ld b' k' else 0) - computeLightCurve (getCl u1 u2) b' k' (some p.z)| ≤ E := by
    have hiff : 0 < ρ.rnd (p.z / R) ↔ 0 < p.z := by rw [ρ.rnd_pos, div_pos_iff_of_pos_right hR]
    unfold computeLightCurve
    simp only [Option.getD_some, gt_iff_lt, hiff]
    split_ifs
    · exact hld b' k' hb0 hk'
    · simpa using hE
  have hzz : fluxAt (getCl u1 u2) R r q = computeLightCurve (getCl u1 u2) (√(q.x ^ 2 + q.y ^ 2) / R) k (some q.z) := by
    unfold fluxAt computeLightCurve
    simp only [Option.getD_some, gt_iff_lt, div_pos_iff_of_pos_right hR]
    rfl
  rw [hzz, add_assoc]
  refine (abs_sub_le _ _ _).trans (add_le_add step1 ?_)
  have hbound : 0 ≤ (1.42 * ε + 5 * ρ.u) * (d / R) * stripLight u1 u2 B k + 3 * ρ.u * (B * k ^ 2 / (1 - u1 / 3 - u2 / 6)) := by positivity
  by_cases hsame : (0 < p.z ↔ 0 < q.z)
  · have hlos : computeLightCurve (getCl u1 u2) (√(q.x ^ 2 + q.y ^ 2) / R) k (some q.z) =
        computeLightCurve (getCl u1 u2) (√(q.x ^ 2 + q.y ^ 2) / R) k (some p.z) := by
      unfold computeLightCurve
      simp only [Option.getD_some, gt_iff_lt, hsame]
    rw [hlos]
    have h1 := C115_radius u1 u2 B hl hB b' k' k hk'.le hk0.le (some p.z)
    have h2 := C115_distance u1 u2 B hl hB b' (√(q.x ^ 2 + q.y ^ 2) / R) k hk0 hb0 (by positivity) (some p.z)
    have h3 : |k' ^ 2 - k ^ 2| ≤ 3 * ρ.u * k ^ 2 := by
      rw [show k' ^ 2 - k ^ 2 = (k' - k) * (k' + k) by ring, abs_mul, abs_of_pos (by positivity : 0 < k' + k)]
      have h4 : k' + k ≤ 3 * k := by
        have := (abs_le.1 hke).2
        have : ρ.u * k ≤ 1 / 1000 * k := mul_le_mul_of_nonneg_right hu1 hk0.le
        linarith
      calc |k' - k| * (k' + k) ≤ ρ.u * k * (3 * k) := mul_le_mul hke h4 (by positivity) (by positivity)
        _ = _ := by ring
    have h4 : B * |k' ^ 2 - k ^ 2| / (1 - u1 / 3 - u2 / 6) ≤ 3 * ρ.u * (B * k ^ 2 / (1 - u1 / 3 - u2 / 6)) := by
      rw [show 3 * ρ.u * (B * k ^ 2 / (1 - u1 / 3 - u2 / 6)) = B * (3 * ρ.u * k ^ 2) / (1 - u1 / 3 - u2 / 6) by ring]
      exact div_le_div_of_nonneg_right (mul_le_mul_of_nonneg_left h3 hB0) hD.le
    have h5 := mul_le_mul_of_nonneg_left hbe hL
    refine (abs_sub_le _ _ _).trans ((add_le_add (h1.trans h4) (h2.trans h5)).trans (le_of_eq ?_))
    ring
  · have hzs : |q.z| ≤ ε * d := by
      have h1 := abs_le.1 hz
      rw [abs_le]
      rcases lt_or_ge 0 p.z with hp0 | hp0
      · have hq0 : q.z ≤ 0 := by
          by_contra hq
          exact hsame ⟨fun _ => not_le.1 hq, fun _ => hp0⟩
        constructor <;> linarith
      · have hq0 : 0 < q.z := by
          by_contra hq
          exact hsame ⟨fun h => absurd h (not_lt.2 hp0), fun h => absurd h hq⟩
        constructor <;> linarith
    have hfar : 0.99 * d ≤ √(q.x ^ 2 + q.y ^ 2) := by
      rw [hsq]
      apply le_sqrt_of_sq_le
      have h1 : |q.z| ≤ 0.06 * d := hzs.trans hεd
      have h2 : q.z ^ 2 ≤ (0.06 * d) ^ 2 := sq_le_sq' (by linarith [(abs_le.1 h1).1]) (abs_le.1 h1).2
      nlinarith [sq_nonneg d]
    have hdk : 2 * (1 + k) ≤ d / R := by
      rw [le_div_iff₀ hR, hk, show 2 * (1 + r / R) * R = 2 * (R + r) by field_simp]
      exact hd
    have hfar' : 0.99 * (d / R) ≤ √(q.x ^ 2 + q.y ^ 2) / R := by
      rw [← mul_div_assoc]
      exact div_le_div_of_nonneg_right hfar hR.le
    have hb1 : 1.7 * (1 + k) ≤ b' := by
      have h1 := (abs_le.1 hbe).1
      have h2 : (1.42 * ε + 5 * ρ.u) * (d / R) ≤ 0.1 * (d / R) := mul_le_mul_of_nonneg_right (by linarith) (by positivity)
      linarith
    have hk1 : k' ≤ 1.001 * k := by
      have := (abs_le.1 hke).2
      have : ρ.u * k ≤ 1 / 1000 * k := mul_le_mul_of_nonneg_right hu1 hk0.le
      linarith
    rw [C37_apart u1 u2 _ _ _ hl (by linarith), C37_apart u1 u2 _ _ _ hl (by linarith), sub_zero, abs_zero]
    exact hbound

/-- **C120 (light curves).** The rounded flux of a planet on any orbit is the exact flux at a time that differs from the requested one by at most
`u (2 |t0| + 8 |t - t0| + 29 P)`, within the error `E` of the compiled light curve and a multiple of `(u + η) / (1 - e)` that depends on the scale of
the orbit. -/
theorem C120_flux (C : Consts) (A : Args) (o : Orbit) (h : keplerianInit C A = .ok o) (hp : o.Physical) (ρ : Rounding)
    (kep : ℝ → ℝ → ℝ × ℝ) (η : ℝ) (hη : 0 ≤ η) (hδ : (ρ.u + η) / (1 - o.eccVal) ≤ 1 / 1000) (atan2F : ℝ → ℝ → ℝ)
    (hat : ∀ y x, |atan2F y x - arctan2 y x| ≤ 4 * ρ.u) (u1 u2 B r E : ℝ) (hl : PhysicalLaw u1 u2) (hB : NotBrighterThan u1 u2 B) (hr : 0 < r)
    (ha : 2 * (o.r_star + r) ≤ o.a * (1 - o.eccVal)) (ld : ℝ → ℝ → ℝ)
    (hld : ∀ b k, 0 ≤ b → 0 < k → |ld b k - quadLimbdarkLightCurve (getCl u1 u2) b k| ≤ E) (t : ℝ)
    (hk : o.ecc ≠ none → KeplerWithin kep η o.eccVal (ρ.computedMeanAnomaly atan2F A o t)) :
    ∃ t', |t' - t| ≤ ρ.u * (2 * |o.t0| + 8 * |t - o.t0| + 29 * o.period) ∧
      |ρ.flux ld o.r_star r (ρ.computedPosition kep atan2F A o t) - fluxAt (getCl u1 u2) o.r_star r (o.relativePosition C t')| ≤
        E + (1.42 * o.roundingFactor + 5) * ((ρ.u + η) / (1 - o.eccVal)) * (o.a * (1 + o.eccVal) / o.r_star) * stripLight u1 u2 B (r / o.r_star) +
          3 * ρ.u * (B * (r / o.r_star) ^ 2 / (1 - u1 / 3 - u2 / 6)) := by
  obtain ⟨t', ht, hx, hy, hz⟩ := C120_position C A o h hp ρ kep η hη hδ atan2F hat t hk
  refine ⟨t', ht, ?_⟩
  obtain ⟨hlo, hhi⟩ := (C13_distance_bounds C A o h hp).1 t'
  have hR := hp.r_star_pos
  have hu := ρ.u_nonneg
  have he0 := hp.eccOk.nonneg
  have he1 := hp.eccOk.lt_one
  have h1e : 0 < 1 - o.eccVal := by linarith
  have hF : 22 ≤ o.roundingFactor ∧ o.roundingFactor ≤ 49 := by
    unfold Orbit.roundingFactor
    cases o.Omega <;> norm_num
  have hδ0 : 0 ≤ (ρ.u + η) / (1 - o.eccVal) := by positivity
  have huδ : ρ.u ≤ (ρ.u + η) / (1 - o.eccVal) := by
    rw [le_div_iff₀ h1e]
    have : ρ.u * (1 - o.eccVal) ≤ ρ.u := mul_le_of_le_one_right hu (by linarith)
    linarith
  generalize (ρ.u + η) / (1 - o.eccVal) = δ at *
  have hq : (o.relativePosition C t').x ^ 2 + (o.relativePosition C t').y ^ 2 + (o.relativePosition C t').z ^ 2 =
      (o.relativePosition C t').norm ^ 2 := by
    rw [V3.norm, sq_sqrt (by unfold V3.normSq; positivity)]
    rfl
  have hn0 : 0 ≤ (o.relativePosition C t').norm := sqrt_nonneg _
  have hmain := ρ.flux_near (ε := o.roundingFactor * δ) hl hB hr hR hld (ha.trans hlo) hq (by nlinarith) (mul_nonneg (by linarith) hδ0) hx hy
    (hz.trans (mul_le_mul_of_nonneg_right (mul_le_mul_of_nonneg_right hF.1 hδ0) hn0))
  refine hmain.trans ?_
  have hL : 0 ≤ stripLight u1 u2 B (r / o.r_star) := by
    have hB0 : 0 ≤ B := (hl.1 0 le_rfl zero_le_one).trans (hB 0 le_rfl zero_le_one)
    have := hl.pos
    unfold stripLight
    rw [← fluxFrom_disc]
    positivity
  have hc : (1.42 * (o.roundingFactor * δ) + 5 * ρ.u) * ((o.relativePosition C t').norm / o.r_star) ≤
      (1.42 * o.roundingFactor + 5) * δ * (o.a * (1 + o.eccVal) / o.r_star) := by
    refine mul_le_mul (by linarith) (div_le_div_of_nonneg_right hhi hR.le) (by positivity) ?_
    have : 0 ≤ o.roundingFactor := by linarith
    positivity
  have := mul_le_mul_of_nonneg_right hc hL
  linarith

/-- **C120 (light curves, at the requested time).** -/
theorem C120_light_curve (C : Consts) (A : Args) (o : Orbit) (h : keplerianInit C A = .ok o) (hp : o.Physical) (ρ : Rounding)
    (kep : ℝ → ℝ → ℝ × ℝ) (η : ℝ) (hη : 0 ≤ η) (hδ : (ρ.u + η) / (1 - o.eccVal) ≤ 1 / 1000) (atan2F : ℝ → ℝ → ℝ)
    (hat : ∀ y x, |atan2F y x - arctan2 y x| ≤ 4 * ρ.u) (u1 u2 B r E : ℝ) (hl : PhysicalLaw u1 u2) (hB : NotBrighterThan u1 u2 B) (hr : 0 < r)
    (ha : 2 * (o.r_star + r) ≤ o.a * (1 - o.eccVal)) (ld : ℝ → ℝ → ℝ)
    (hld : ∀ b k, 0 ≤ b → 0 < k → |ld b k - quadLimbdarkLightCurve (getCl u1 u2) b k| ≤ E) (t : ℝ)
    (hk : o.ecc ≠ none → KeplerWithin kep η o.eccVal (ρ.computedMeanAnomaly atan2F A o t)) :
    |ρ.flux ld o.r_star r (ρ.computedPosition kep atan2F A o t) - fluxAt (getCl u1 u2) o.r_star r (o.relativePosition C t)| ≤
      E + (1.42 * o.roundingFactor + 5) * ((ρ.u + η) / (1 - o.eccVal)) * (o.a * (1 + o.eccVal) / o.r_star) * stripLight u1 u2 B (r / o.r_star) +
        3 * ρ.u * (B * (r / o.r_star) ^ 2 / (1 - u1 / 3 - u2 / 6)) +
        o.fluxRate u1 u2 B r * (ρ.u * (2 * |o.t0| + 8 * |t - o.t0| + 29 * o.period)) := by
  obtain ⟨t', ht, hf⟩ := C120_flux C A o h hp ρ kep η hη hδ atan2F hat u1 u2 B r E hl hB hr ha ld hld t hk
  have hR := hp.r_star_pos
  have h1 := C115_time C A o h hp u1 u2 B r hl hB hr (by linarith) t' t
  have h2 := mul_le_mul_of_nonneg_left ht (fluxRate_nonneg h hp hl hB hr.le)
  exact (abs_sub_le _ _ _).trans (add_le_add hf (h1.trans h2))

/-- Doubles with a correctly rounded `arctan2`. -/
theorem doubles_arctan2 (y x : ℝ) : |roundDouble (arctan2 y x) - arctan2 y x| ≤ 4 * doubles.u := by
  refine (roundDouble_err _).trans ?_
  have h : |arctan2 y x| ≤ π := Complex.abs_arg_le_pi _
  have := pi_le_four
  change 2⁻¹ ^ 53 * _ ≤ 4 * 2⁻¹ ^ 53
  rw [mul_comm]
  exact mul_le_mul_of_nonneg_right (h.trans this) (by positivity)

/-- A correctly rounded solver of Kepler's equation is off by at most 2⁻⁵³. -/
theorem doubles_kepler {e : ℝ} (he0 : 0 ≤ e) (he1 : e < 1) (M : ℝ) :
    KeplerWithin (fun M e => (roundDouble (keplerOp M e).1, roundDouble (keplerOp M e).2)) (2⁻¹ ^ 53) e M := by
  have hsc := keplerOp_sq he0 he1 M
  have h : ∀ x : ℝ, |x| ≤ 1 → |roundDouble x - x| ≤ 2⁻¹ ^ 53 := fun x hx =>
    (roundDouble_err x).trans (mul_le_of_le_one_right (by positivity) hx)
  exact ⟨eccAnomaly e M, keplerMap_eccAnomaly he0 M,
    h (keplerOp M e).1 (abs_le_of_sq_le_sq (by nlinarith [sq_nonneg (keplerOp M e).2]) zero_le_one),
    h (keplerOp M e).2 (abs_le_of_sq_le_sq (by nlinarith [sq_nonneg (keplerOp M e).1]) zero_le_one)⟩

/-- The hypotheses hold for `KeplerianOrbit(a=10, period=1, b=0.5, ecc=0.5, omega=0, Omega=1, t0=3)` and a planet of a tenth of the radius of the
star: in double precision, with correctly rounded compiled operations, the light curve is off by less than 10⁻¹¹ for a thousand days. -/
example (C : Consts) : ∃ o, keplerianInit C demoEcc = .ok o ∧ ∀ t, |t| ≤ 1000 →
    |doubles.flux (quadLimbdarkLightCurve (getCl 0.3 0.2)) o.r_star 0.1
        (doubles.computedPosition (fun M e => (roundDouble (keplerOp M e).1, roundDouble (keplerOp M e).2))
          (fun y x => roundDouble (arctan2 y x)) demoEcc o t) -
      fluxAt (getCl 0.3 0.2) o.r_star 0.1 (o.relativePosition C t)| ≤ 1e-11 := by
  obtain ⟨o, ho, hp, ha, hP, hR, -, ht0, -, hO, p, hec, hev', -⟩ := demoEcc_ok C
  have hev : o.eccVal = 1 / 2 := by simp [Orbit.eccVal, hec, hev']
  have hpi := pi_gt_d2
  have hl : PhysicalLaw 0.3 0.2 := physicalLaw_of_kipping (by norm_num) (by norm_num)
  have hB : NotBrighterThan 0.3 0.2 1 := C115_centre_brightest _ _ ((darkensOutwards_iff _ _).2 ⟨by norm_num, by norm_num⟩)
  have hrate : o.fluxRate 0.3 0.2 1 0.1 ≤ 8 := by
    have h1 : o.fluxRate 0.3 0.2 1 0.1 = 4 / (1 - 0.3 / 3 - 0.2 / 6) * √3 := by
      have := pi_pos.ne'
      simp only [Orbit.fluxRate, Orbit.topSpeed, stripLight, hR, hP, ha, hev]
      rw [show ((1 + 1 / 2) / (1 - 1 / 2) : ℝ) = 3 by norm_num]
      generalize √3 = w
      norm_num
      field_simp
      ring
    have h2 : √3 ≤ 1.7333 := by
      rw [sqrt_le_left (by norm_num)]; norm_num
    rw [h1]
    calc _ ≤ 4 / (1 - 0.3 / 3 - 0.2 / 6) * 1.7333 := mul_le_mul_of_nonneg_left h2 (by norm_num)
      _ ≤ _ := by norm_num
  have hstrip : stripLight 0.3 0.2 1 (0.1 / 1) ≤ 1 := by
    unfold stripLight
    rw [div_le_one (mul_pos pi_pos (by norm_num))]
    nlinarith
  have hu : doubles.u = 2⁻¹ ^ 53 := rfl
  refine ⟨o, ho, fun t htt => ?_⟩
  have h := C120_light_curve C demoEcc o ho hp doubles (fun M e => (roundDouble (keplerOp M e).1, roundDouble (keplerOp M e).2)) (2⁻¹ ^ 53)
    (by positivity) (by rw [hev, hu]; norm_num) (fun y x => roundDouble (arctan2 y x)) doubles_arctan2 0.3 0.2 1 0.1 0 hl hB (by norm_num)
    (by rw [hR, ha, hev]; norm_num) (quadLimbdarkLightCurve (getCl 0.3 0.2)) (fun b k _ _ => by simp) t
    (fun _ => doubles_kepler (by rw [hev]; norm_num) (by rw [hev]; norm_num) _)
  refine h.trans ?_
  rw [ht0, hP, ha, hR, hev, hu]
  have hF : o.roundingFactor = 49 := by simp [Orbit.roundingFactor, hO]
  have hr0 := fluxRate_nonneg ho hp (u1 := 0.3) (u2 := 0.2) (B := 1) (r := 0.1) hl hB (by norm_num)
  have h3 : |t - 3| ≤ 1003 := by
    have := abs_sub t 3
    rw [abs_of_pos (by norm_num : (0 : ℝ) < 3)] at this
    linarith
  have h1 : o.fluxRate 0.3 0.2 1 0.1 * (2⁻¹ ^ 53 * (2 * |3| + 8 * |t - 3| + 29 * 1)) ≤ 8 * (2⁻¹ ^ 53 * 8059) :=
    mul_le_mul hrate (mul_le_mul_of_nonneg_left (by rw [abs_of_pos (by norm_num : (0 : ℝ) < 3)]; linarith) (by positivity)) (by positivity)
      (by norm_num)
  rw [hF]
  have h2 : (1.42 * 49 + 5) * ((2⁻¹ ^ 53 + 2⁻¹ ^ 53) / (1 - 1 / 2)) * (10 * (1 + 1 / 2) / 1) * stripLight 0.3 0.2 1 (0.1 / 1) ≤
      (1.42 * 49 + 5) * ((2⁻¹ ^ 53 + 2⁻¹ ^ 53) / (1 - 1 / 2)) * (10 * (1 + 1 / 2) / 1) * (1 : ℝ) :=
    mul_le_mul_of_nonneg_left hstrip (by norm_num)
  refine (add_le_add (add_le_add (add_le_add le_rfl h2) le_rfl) h1).trans ?_
  norm_num

/-! ## The bounds are of the right size -/

/-- **C120 (the drift is real).** With arithmetic that always rounds up, the mean anomaly of a circular orbit with `t0 = 0` runs ahead of the
exact one by at least `6 u t` in time (the bound has `8 u t`). -/
theorem C120_drift (C : Consts) (A : Args) (o : Orbit) (h : keplerianInit C A = .ok o) (hp : o.Physical) (he : o.ecc = none) (ht0 : o.t0 = 0)
    (hA : A.t_periastron = none) (u : ℝ) (hu : 0 ≤ u) (hu1 : u ≤ 1 / 1000) (atan2F : ℝ → ℝ → ℝ) (t : ℝ) (ht : 0 ≤ t) :
    6 * u * t * o.n ≤ (upwards u hu hu1).computedMeanAnomaly atan2F A o t - (t - o.t0 - o.tref) * o.n := by
  have B := built_of_init h
  have hP := hp.period_pos
  have hpi := pi_pos
  have hn : 0 < 2 * π / o.period := by positivity
  have htr : o.tref = -(o.period / 4) := by
    have := timeBlock_eq B.time_block
    rw [B.tref_eq, this, B.M0_eq, B.n_eq, he, M0Of]
    field_simp
    ring
  rw [htr, ht0, B.n_eq]
  simp only [Rounding.computedMeanAnomaly, Rounding.meanAnomalyAny, Rounding.meanAnomalyAt, Rounding.epoch, Rounding.m0, Rounding.n, he, hA, ht0,
    Option.isSome_none, Bool.false_eq_true, if_false, upwards]
  have e1 : (1 + u) * ((1 + u) * ((1 + u) * (t - 0) - (1 + u) * ((1 + u) * (0 - (1 + u) * ((1 + u) * (0.5 * ((1 + u) * π)) /
      ((1 + u) * ((1 + u) * (2 * ((1 + u) * π)) / o.period)))) - 0)) * ((1 + u) * ((1 + u) * (2 * ((1 + u) * π)) / o.period))) =
      ((1 + u) ^ 6 * t + (1 + u) ^ 7 * (o.period / 4)) * (2 * π / o.period) := by
    have : (1 + u) ≠ 0 := by positivity
    field_simp
    ring
  rw [e1]
  have h6 : 1 + 6 * u ≤ (1 + u) ^ 6 := by
    have := one_add_mul_le_pow (a := u) (by linarith) 6
    norm_num at this
    linarith
  have h7 : 1 ≤ (1 + u) ^ 7 := one_le_pow₀ (by linarith)
  have h8 := mul_le_mul_of_nonneg_right h6 ht
  have h9 := mul_le_mul_of_nonneg_right h7 (by positivity : 0 ≤ o.period / 4)
  have := mul_le_mul_of_nonneg_right (show 6 * u * t + (t - 0 - -(o.period / 4)) ≤ (1 + u) ^ 6 * t + (1 + u) ^ 7 * (o.period / 4) by linarith) hn.le
  linarith

/-- `KeplerianOrbit(a=10, period=1)` after a thousand days. -/
example (C : Consts) : ∃ o, keplerianInit C plainArgs = .ok o ∧
    6 * 1e-16 * 1000 * o.n ≤ (upwards 1e-16 (by norm_num) (by norm_num)).computedMeanAnomaly arctan2 plainArgs o 1000 - (1000 - o.t0 - o.tref) * o.n := by
  obtain ⟨o, ho, hp, hP, ha, he, hs, ht⟩ := plainArgs_ok C
  exact ⟨o, ho, C120_drift C plainArgs o ho hp he ht rfl _ _ _ _ 1000 (by norm_num)⟩

/-- **C120 (the factor `1 / (1 - e)` is real).** With the same arithmetic and an exact solver, the distance at periastron is too small by about
`u e² / (1 - e²)` of itself. -/
theorem C120_amplified (o : Orbit) (p : EccParams) (he : o.ecc = some p) (he0 : 0 ≤ p.ecc) (he1 : p.ecc < 1) (u : ℝ) (hu : 0 ≤ u)
    (hu1 : u ≤ 1 / 1000) (a : ℝ) (ha : 0 < a) (hs : u * p.ecc ^ 2 ≤ 1 - p.ecc ^ 2) :
    (upwards u hu hu1).radiusAny o a 1 ≤ (1 + u) ^ 2 * (1 - u * p.ecc ^ 2 / (1 - p.ecc ^ 2)) * (a * (1 - p.ecc)) := by
  simp only [Rounding.radiusAny, he, upwards, mul_one]
  generalize p.ecc = e at *
  have h1 : 0 < 1 - e ^ 2 := by nlinarith
  have e1 : (1 + u) * ((1 + u) * (a * ((1 + u) * (1 - (1 + u) * e ^ 2))) / ((1 + u) * (1 + (1 + u) * e))) =
      (1 + u) ^ 2 * (a * (1 - e ^ 2 - u * e ^ 2)) / (1 + (1 + u) * e) := by
    have : (1 + u) ≠ 0 := by positivity
    have : 1 + (1 + u) * e ≠ 0 := by positivity
    field_simp
    ring
  have e2 : (1 + u) ^ 2 * (1 - u * e ^ 2 / (1 - e ^ 2)) * (a * (1 - e)) = (1 + u) ^ 2 * (a * (1 - e ^ 2 - u * e ^ 2)) / (1 + e) := by
    have : 1 + e ≠ 0 := by positivity
    have h2 := h1.ne'
    field_simp
    ring
  rw [e1, e2]
  apply div_le_div_of_nonneg_left _ (by positivity) (by nlinarith)
  have : 0 ≤ 1 - e ^ 2 - u * e ^ 2 := by linarith
  positivity

/-- On an orbit with `e = 0.999` the distance at periastron is off by more than 400 units `u`. -/
example (C : Consts) (o : Orbit) (p : EccParams) (he : o.ecc = some p) (hp : p.ecc = 0.999) :
    (upwards 1e-16 (by norm_num) (by norm_num)).radiusAny o 10 1 ≤ (1 - 400 * 1e-16) * (10 * (1 - p.ecc)) := by
  refine (C120_amplified o p he (by rw [hp]; norm_num) (by rw [hp]; norm_num) 1e-16 (by norm_num) (by norm_num) 10 (by norm_num)
    (by rw [hp]; norm_num)).trans ?_
  rw [hp]
  norm_num

end Exo
