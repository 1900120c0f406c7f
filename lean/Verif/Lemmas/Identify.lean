import Verif.Props.Averages
import Verif.Spec.Identifiability

/-!
# Recovering an orbit from its motion
-/

namespace Exo
open Real

/-- The largest and the smallest value of `N / (1 - e cos E)^k` give `e` and `N`. -/
theorem ecc_of_extremes {N N' e e' : ℝ} {k : ℕ} (hk : k ≠ 0) (hN : 0 < N) (hN' : 0 < N') (h0 : 0 ≤ e) (h1 : e < 1) (h0' : 0 ≤ e')
    (h1' : e' < 1) (hmax : N / (1 - e) ^ k = N' / (1 - e') ^ k) (hmin : N / (1 + e) ^ k = N' / (1 + e') ^ k) : e = e' ∧ N = N' := by
  have p1 : 0 < (1 - e) ^ k := pow_pos (by linarith) k
  have p2 : 0 < (1 - e') ^ k := pow_pos (by linarith) k
  have p3 : 0 < (1 + e) ^ k := pow_pos (by linarith) k
  have p4 : 0 < (1 + e') ^ k := pow_pos (by linarith) k
  rw [div_eq_div_iff p1.ne' p2.ne'] at hmax
  rw [div_eq_div_iff p3.ne' p4.ne'] at hmin
  have h : ((1 - e') * (1 + e)) ^ k = ((1 - e) * (1 + e')) ^ k := by
    rw [mul_pow, mul_pow]
    have hNN : N * N' ≠ 0 := (mul_pos hN hN').ne'
    apply mul_left_cancel₀ hNN
    linear_combination N' * (1 + e) ^ k * hmax - N' * (1 - e) ^ k * hmin
  have h2 : (1 - e') * (1 + e) = (1 - e) * (1 + e') :=
    (pow_left_inj₀ (by nlinarith) (by nlinarith) hk).1 h
  have he : e = e' := by linarith
  refine ⟨he, ?_⟩
  rw [he] at hmax
  exact mul_right_cancel₀ p2.ne' hmax

theorem clock_range {o : Orbit} (hp : o.Physical) {N : ℝ} (hN : 0 < N) (k : ℕ) (t : ℝ) :
    N / (1 + o.eccVal) ^ k ≤ N / (1 - o.eccVal * cos (o.E t)) ^ k ∧ N / (1 - o.eccVal * cos (o.E t)) ^ k ≤ N / (1 - o.eccVal) ^ k := by
  have h0 := hp.eccOk.nonneg
  have h1 := hp.eccOk.lt_one
  have hd := hp.eccOk.dpos t
  have c1 := cos_le_one (o.E t)
  have c2 := neg_one_le_cos (o.E t)
  constructor
  · exact div_le_div_of_nonneg_left hN.le (pow_pos hd k) (pow_le_pow_left₀ hd.le (by nlinarith) k)
  · exact div_le_div_of_nonneg_left hN.le (pow_pos (by linarith) k) (pow_le_pow_left₀ (by linarith) (by nlinarith) k)

theorem clocks_agree {C C' : Consts} {A A' : Args} {o o' : Orbit} (B : Built C A o) (hp : o.Physical) (B' : Built C' A' o')
    (hp' : o'.Physical) {N N' : ℝ} {k : ℕ} (hk : k ≠ 0) (hN : 0 < N) (hN' : 0 < N')
    (h : ∀ t, N / (1 - o.eccVal * cos (o.E t)) ^ k = N' / (1 - o'.eccVal * cos (o'.E t)) ^ k) :
    o.eccVal = o'.eccVal ∧ N = N' ∧ (0 < o.eccVal → cos (o'.E o.t_periastron) = 1) := by
  have ep := h o.t_periastron
  have ea := h (o.t_periastron + o.period / 2)
  have ep' := h o'.t_periastron
  have ea' := h (o'.t_periastron + o'.period / 2)
  have r1 := (clock_range hp' hN' k o.t_periastron).2
  have r2 := (clock_range hp' hN' k (o.t_periastron + o.period / 2)).1
  have r3 := (clock_range hp hN k o'.t_periastron).2
  have r4 := (clock_range hp hN k (o'.t_periastron + o'.period / 2)).1
  rw [B.E_periastron hp, cos_zero, mul_one] at ep
  rw [B'.E_periastron hp', cos_zero, mul_one] at ep'
  rw [B.E_apastron hp, cos_pi, mul_neg_one, sub_neg_eq_add] at ea
  rw [B'.E_apastron hp', cos_pi, mul_neg_one, sub_neg_eq_add] at ea'
  obtain ⟨he, hNN⟩ := ecc_of_extremes hk hN hN' hp.eccOk.nonneg hp.eccOk.lt_one hp'.eccOk.nonneg hp'.eccOk.lt_one
    (by linarith : N / (1 - o.eccVal) ^ k = N' / (1 - o'.eccVal) ^ k) (by linarith)
  refine ⟨he, hNN, fun hpos => ?_⟩
  have hd := hp'.eccOk.dpos o.t_periastron
  have h1 := hp.eccOk.lt_one
  rw [← hNN, ← he, div_eq_div_iff (pow_pos (by linarith) k).ne' (pow_pos (by rw [he]; exact hd) k).ne'] at ep
  have h2 := (pow_left_inj₀ (by rw [he]; exact hd.le) (by linarith) hk).1 (mul_left_cancel₀ hN.ne' ep)
  nlinarith

/-- Where the eccentric anomaly is a full number of turns, there is a periastron passage. -/
theorem periastra_of_cos {C : Consts} {A : Args} {o : Orbit} (B : Built C A o) (hp : o.Physical) {t : ℝ} (h : cos (o.E t) = 1) :
    ∃ k : ℤ, t = o.t_periastron + k * o.period := by
  obtain ⟨k, hk⟩ := (cos_eq_one_iff _).1 h
  refine ⟨k, ?_⟩
  have h1 := keplerMap_eccAnomaly hp.eccOk.nonneg (o.meanAnom t)
  change keplerMap o.eccVal (o.E t) = _ at h1
  have hs : sin (k * (2 * π)) = 0 := by
    have := sin_add_int_mul_two_pi 0 k
    rwa [zero_add, sin_zero] at this
  rw [← hk, keplerMap, hs, mul_zero, sub_zero, B.meanAnom_eq, ← B.n_mul_period hp] at h1
  have hn := (B.n_pos hp).ne'
  have : o.n * (k * o.period) = o.n * (t - o.t_periastron) := by linarith
  linarith [mul_left_cancel₀ hn this]

/-- Orbits with the same period, eccentricity and periastron passages run together. -/
theorem E_shift {C C' : Consts} {A A' : Args} {o o' : Orbit} (B : Built C A o) (hp : o.Physical) (B' : Built C' A' o')
    (he : o.eccVal = o'.eccVal) (hP : o.period = o'.period) {k : ℤ} (hk : o'.t_periastron = o.t_periastron + k * o.period) (t : ℝ) :
    o.E t = o'.E t + k * (2 * π) := by
  have hn : o.n = o'.n := by rw [B.n_eq, B'.n_eq, hP]
  unfold Orbit.E
  rw [← eccAnomaly_add_two_pi_mul (he ▸ hp.eccOk.nonneg) (he ▸ hp.eccOk.lt_one), he]
  congr 1
  rw [B.meanAnom_eq, B'.meanAnom_eq, hk, ← B.n_mul_period hp, hn]
  ring

end Exo
