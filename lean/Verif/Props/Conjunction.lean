import Verif.Spec.Conjunction
import Verif.Props.Geometry
import Verif.Props.LightDelay
import Mathlib.Algebra.Order.ToIntervalMod

/-!
# C94: conjunctions
-/

namespace Exo
open Real

/-- Two angles with the same sine and cosine differ by full turns. -/
theorem angle_eq_of_cos_sin {x y : ℝ} (hc : cos x = cos y) (hs : sin x = sin y) : ∃ k : ℤ, x = y + k * (2 * π) := by
  have h : cos (x - y) = 1 := by
    rw [cos_sub, hc, hs]
    linear_combination cos_sq_add_sin_sq y
  obtain ⟨k, hk⟩ := (cos_eq_one_iff (x - y)).1 h
  exact ⟨k, by linarith⟩

/-- Every point of the unit circle is at an angle in `[0, 2π)`. -/
theorem exists_angle {c s : ℝ} (h : c ^ 2 + s ^ 2 = 1) : ∃ θ, 0 ≤ θ ∧ θ < 2 * π ∧ cos θ = c ∧ sin θ = s := by
  have hn : ‖(⟨c, s⟩ : ℂ)‖ = 1 := by
    have : ‖(⟨c, s⟩ : ℂ)‖ ^ 2 = 1 := by rw [Complex.sq_norm, Complex.normSq_mk]; linarith
    nlinarith [norm_nonneg (⟨c, s⟩ : ℂ)]
  have hz : (⟨c, s⟩ : ℂ) ≠ 0 := by
    intro hz
    rw [hz] at hn
    simp at hn
  have hc : cos (Complex.arg ⟨c, s⟩) = c := by rw [Complex.cos_arg hz, hn, div_one]
  have hs : sin (Complex.arg ⟨c, s⟩) = s := by rw [Complex.sin_arg, hn, div_one]
  have hp := two_pi_pos
  have hm := toIcoMod_mem_Ico hp 0 (Complex.arg ⟨c, s⟩)
  have e := toIcoMod_add_toIcoDiv_zsmul hp 0 (Complex.arg ⟨c, s⟩)
  rw [zero_add] at hm
  rw [zsmul_eq_mul] at e
  refine ⟨_, hm.1, hm.2, ?_, ?_⟩
  · rw [← cos_add_int_mul_two_pi _ (toIcoDiv hp 0 (Complex.arg ⟨c, s⟩)), e, hc]
  · rw [← sin_add_int_mul_two_pi _ (toIcoDiv hp 0 (Complex.arg ⟨c, s⟩)), e, hs]

namespace Built
variable {C : Consts} {A : Args} {o : Orbit} (B : Built C A o)
include B

theorem E_eq_iff (hp : o.Physical) (t : ℝ) (x : ℝ) (k : ℤ) :
    o.E t = x + k * (2 * π) ↔ t = o.t_periastron + keplerMap o.eccVal x / o.n + k * o.period := by
  have hn := (B.n_pos hp).ne'
  have hnP := B.n_mul_period hp
  have h1 : o.E t = x + k * (2 * π) ↔ o.meanAnom t = keplerMap o.eccVal x + k * (2 * π) := by
    constructor
    · intro h
      have := keplerMap_eccAnomaly hp.eccOk.nonneg (e := o.eccVal) (o.meanAnom t)
      rw [← this]
      change keplerMap o.eccVal (o.E t) = _
      rw [h]
      unfold keplerMap
      rw [sin_add_int_mul_two_pi]
      ring
    · intro h
      unfold Orbit.E
      rw [h, eccAnomaly_add_two_pi_mul hp.eccOk.nonneg hp.eccOk.lt_one, eccAnomaly_keplerMap hp.eccOk.nonneg hp.eccOk.lt_one]
  rw [h1, B.meanAnom_eq, ← hnP]
  constructor
  · intro h
    field_simp
    linarith
  · intro h
    rw [h]
    field_simp
    ring

/-- The planet is on the meridian, on the side `σ`, iff the eccentric anomaly has these sine and cosine. -/
theorem meridian_iff (hp : o.Physical) (t : ℝ) (σ : ℝ) (hσ : σ ^ 2 = 1) :
    (o.cw * (o.a * (cos (o.E t) - o.eccVal)) - o.sw * (o.a * (o.se * sin (o.E t))) = 0 ∧
      0 < σ * (o.sw * (o.a * (cos (o.E t) - o.eccVal)) + o.cw * (o.a * (o.se * sin (o.E t))))) ↔
    (cos (o.E t) = (σ * o.sw + o.eccVal) / (1 + o.eccVal * (σ * o.sw)) ∧ sin (o.E t) = o.se * (σ * o.cw) / (1 + o.eccVal * (σ * o.sw))) := by
  have ha := hp.a_pos
  have hse := hp.eccOk.se_pos
  have hs2 := hp.eccOk.se_sq
  have h1 := hp.omega_sq
  have he0 := hp.eccOk.nonneg
  have he1 := hp.eccOk.lt_one
  have hd := hp.eccOk.dpos t
  have h2 := sin_sq_add_cos_sq (o.E t)
  generalize cos (o.E t) = c at *
  generalize sin (o.E t) = s at *
  generalize o.eccVal = e at *
  generalize o.se = q at *
  generalize o.a = a at *
  generalize o.sw = sw at *
  generalize o.cw = cw at *
  have hd2 : 0 < 1 + e * (σ * sw) := by
    have h3 : (σ * sw) ^ 2 ≤ 1 := by rw [mul_pow, hσ]; nlinarith [sq_nonneg cw]
    have h4 : -1 ≤ σ * sw := by nlinarith
    nlinarith
  rw [eq_div_iff hd2.ne', eq_div_iff hd2.ne']
  constructor
  · rintro ⟨hu, hw⟩
    have hu' : cw * (c - e) - sw * (q * s) = 0 := by
      have : a * (cw * (c - e) - sw * (q * s)) = 0 := by linarith
      exact (mul_eq_zero.1 this).resolve_left ha.ne'
    have hw' : 0 < σ * (sw * (c - e) + cw * (q * s)) := by
      have : 0 < a * (σ * (sw * (c - e) + cw * (q * s))) := by linarith
      exact (mul_pos_iff_of_pos_left ha).1 this
    have hsq : (sw * (c - e) + cw * (q * s)) ^ 2 = (1 - e * c) ^ 2 := by
      have : (sw * (c - e) + cw * (q * s)) ^ 2 + (cw * (c - e) - sw * (q * s)) ^ 2 = (sw ^ 2 + cw ^ 2) * ((c - e) ^ 2 + (q * s) ^ 2) := by ring
      rw [hu', h1, mul_pow, hs2] at this
      linear_combination this + (1 - e ^ 2) * h2
    have hw2 : σ * (sw * (c - e) + cw * (q * s)) = 1 - e * c := by
      have : (σ * (sw * (c - e) + cw * (q * s))) ^ 2 = (1 - e * c) ^ 2 := by rw [mul_pow, hσ, one_mul, hsq]
      exact (pow_left_inj₀ hw'.le hd.le two_ne_zero).1 this
    have hX : c - e = σ * sw * (1 - e * c) := by
      rw [← hw2]
      linear_combination (-(c - e)) * h1 + cw * hu' - sw * (sw * (c - e) + cw * (q * s)) * hσ
    have hY : q * s = σ * cw * (1 - e * c) := by
      rw [← hw2]
      linear_combination (-(q * s)) * h1 - sw * hu' - cw * (sw * (c - e) + cw * (q * s)) * hσ
    have hc : c * (1 + e * (σ * sw)) = σ * sw + e := by linear_combination hX
    refine ⟨hc, ?_⟩
    have : q * (s * (1 + e * (σ * sw)) - q * (σ * cw)) = 0 := by
      linear_combination (1 + e * (σ * sw)) * hY - σ * cw * e * hc - σ * cw * hs2
    linarith [(mul_eq_zero.1 this).resolve_left hse.ne']
  · rintro ⟨hc, hs⟩
    have hX : (c - e) = σ * sw * (1 - e * c) := by linear_combination hc
    have hY : q * s = σ * cw * (1 - e * c) := by
      have : (1 + e * (σ * sw)) * (q * s - σ * cw * (1 - e * c)) = 0 := by
        linear_combination q * hs + σ * cw * e * hc + σ * cw * hs2
      linarith [(mul_eq_zero.1 this).resolve_left hd2.ne']
    constructor
    · rw [show cw * (a * (c - e)) - sw * (a * (q * s)) = a * (cw * (c - e) - sw * (q * s)) by ring, hX, hY]
      ring
    · have e1 : σ * (sw * (a * (c - e)) + cw * (a * (q * s))) = a * (1 - e * c) := by
        rw [hX, hY]
        linear_combination a * (1 - e * c) * (σ ^ 2 * h1 + hσ)
      rw [e1]
      exact mul_pos ha hd

theorem inferior_iff (hp : o.Physical) (hi : 0 < o.sin_incl) (t : ℝ) : InferiorConjunction C o t ↔
    (cos (o.E t) = (1 * o.sw + o.eccVal) / (1 + o.eccVal * (1 * o.sw)) ∧ sin (o.E t) = o.se * (1 * o.cw) / (1 + o.eccVal * (1 * o.sw))) := by
  rw [← B.meridian_iff hp t 1 (by norm_num)]
  have hpos : o.relativePosition C t = o.rotate (-o.a * (cos (o.E t) - o.eccVal)) (-o.a * (o.se * sin (o.E t))) :=
    Orbit.positionNow_eq hp.eccOk C (-o.a) t
  unfold InferiorConjunction OnMeridian
  rw [hpos, Orbit.rotate_eq, show o.Omega.getD 0 = o.nodeAngle from rfl, ← o.cW_eq, ← o.sW_eq]
  simp only
  have hW := o.Omega_sq
  refine and_congr ?_ ?_
  · rw [← neg_eq_zero]
    refine Eq.congr ?_ rfl
    linear_combination (o.cw * (o.a * (cos (o.E t) - o.eccVal)) - o.sw * (o.a * (o.se * sin (o.E t)))) * hW
  · rw [show -o.sin_incl * (o.sw * (-o.a * (cos (o.E t) - o.eccVal)) + o.cw * (-o.a * (o.se * sin (o.E t)))) =
      o.sin_incl * (1 * (o.sw * (o.a * (cos (o.E t) - o.eccVal)) + o.cw * (o.a * (o.se * sin (o.E t))))) by ring]
    exact mul_pos_iff_of_pos_left hi

theorem superior_iff (hp : o.Physical) (hi : 0 < o.sin_incl) (t : ℝ) : SuperiorConjunction C o t ↔
    (cos (o.E t) = (-1 * o.sw + o.eccVal) / (1 + o.eccVal * (-1 * o.sw)) ∧ sin (o.E t) = o.se * (-1 * o.cw) / (1 + o.eccVal * (-1 * o.sw))) := by
  rw [← B.meridian_iff hp t (-1) (by norm_num)]
  have hpos : o.relativePosition C t = o.rotate (-o.a * (cos (o.E t) - o.eccVal)) (-o.a * (o.se * sin (o.E t))) :=
    Orbit.positionNow_eq hp.eccOk C (-o.a) t
  unfold SuperiorConjunction OnMeridian
  rw [hpos, Orbit.rotate_eq, show o.Omega.getD 0 = o.nodeAngle from rfl, ← o.cW_eq, ← o.sW_eq]
  simp only
  have hW := o.Omega_sq
  refine and_congr ?_ ?_
  · rw [← neg_eq_zero]
    refine Eq.congr ?_ rfl
    linear_combination (o.cw * (o.a * (cos (o.E t) - o.eccVal)) - o.sw * (o.a * (o.se * sin (o.E t)))) * hW
  · rw [show -o.sin_incl * (o.sw * (-o.a * (cos (o.E t) - o.eccVal)) + o.cw * (-o.a * (o.se * sin (o.E t)))) =
      -(o.sin_incl * (-1 * (o.sw * (o.a * (cos (o.E t) - o.eccVal)) + o.cw * (o.a * (o.se * sin (o.E t)))))) by ring, neg_lt_zero]
    exact mul_pos_iff_of_pos_left hi

end Built

/-- **C94** (inferior conjunctions, away from `sin ω = -1`): the planet is between the star and the observer, on the meridian, at `t0` and whole
numbers of periods before and after, and at no other time. -/
theorem C94_inferior_partial (C : Consts) (A : Args) (o : Orbit) (h : keplerianInit C A = .ok o) (hp : o.Physical) (hr : o.Regular)
    (hi : 0 < o.sin_incl) (t : ℝ) : InferiorConjunction C o t ↔ ∃ k : ℤ, t = o.t0 + k * o.period := by
  have B := built_of_init h
  have hE := B.E_t0 hp hr.sw_ne
  constructor
  · intro ht
    rw [B.inferior_iff hp hi, one_mul, one_mul, ← hE.1, ← hE.2] at ht
    obtain ⟨k, hk⟩ := angle_eq_of_cos_sin ht.1 ht.2
    refine ⟨k, ?_⟩
    have h1 := (B.E_eq_iff hp t _ k).1 hk
    have h2 := (B.E_eq_iff hp o.t0 (o.E o.t0) 0).1 (by simp)
    rw [h1]
    simp only [Int.cast_zero, zero_mul, add_zero] at h2
    rw [← h2]
  · rintro ⟨k, rfl⟩
    have := C06_t0_is_transit_partial C A o h hp hr hi k
    exact this

/-- The angle, seen from the centre of the orbit's auxiliary circle, from inferior to superior conjunction. -/
theorem secondary_angle {e q s c : ℝ} (he0 : 0 ≤ e) (he1 : e < 1) (hq : q ^ 2 = 1 - e ^ 2) (hq0 : 0 < q) (hsc : s ^ 2 + c ^ 2 = 1) :
    ∃ θ, 0 < θ ∧ θ < 2 * π ∧ cos θ = -(1 - e ^ 2 - e ^ 2 * c ^ 2) / (1 - e ^ 2 * s ^ 2) ∧ sin θ = -(2 * e * q * c) / (1 - e ^ 2 * s ^ 2) := by
  have hs1 : s ^ 2 ≤ 1 := by nlinarith [sq_nonneg c]
  have he2 : e ^ 2 < 1 := by nlinarith
  have hd : 0 < 1 - e ^ 2 * s ^ 2 := by nlinarith [sq_nonneg e, sq_nonneg s]
  obtain ⟨θ, h1, h2, h3, h4⟩ := exists_angle (c := -(1 - e ^ 2 - e ^ 2 * c ^ 2) / (1 - e ^ 2 * s ^ 2)) (s := -(2 * e * q * c) / (1 - e ^ 2 * s ^ 2)) (by
    rw [div_pow, div_pow, ← add_div, div_eq_one_iff_eq (pow_ne_zero 2 hd.ne')]
    have hs : s ^ 2 = 1 - c ^ 2 := by linarith
    have : (-(2 * e * q * c)) ^ 2 = 4 * e ^ 2 * (1 - e ^ 2) * c ^ 2 := by rw [← hq]; ring
    rw [this, hs]
    ring)
  refine ⟨θ, lt_of_le_of_ne h1 ?_, h2, h3, h4⟩
  rintro rfl
  rw [cos_zero, eq_div_iff hd.ne'] at h3
  nlinarith

/-- **C94** (superior conjunctions, away from `sin ω = -1`): once in every period the planet is behind the star on the meridian, the fraction
`(θ - sin θ) / 2π` of a period after inferior conjunction, where `θ` is given by the eccentricity and `ω`: more than half a period exactly if
`e cos ω > 0`, half a period exactly if `e cos ω = 0`. -/
theorem C94_superior_partial (C : Consts) (A : Args) (o : Orbit) (h : keplerianInit C A = .ok o) (hp : o.Physical) (hr : o.Regular)
    (hi : 0 < o.sin_incl) : ∃ θ, 0 < θ ∧ θ < 2 * π ∧
      cos θ = -(1 - o.eccVal ^ 2 - o.eccVal ^ 2 * o.cosOmega ^ 2) / (1 - o.eccVal ^ 2 * o.sinOmega ^ 2) ∧
      sin θ = -(2 * o.eccVal * √(1 - o.eccVal ^ 2) * o.cosOmega) / (1 - o.eccVal ^ 2 * o.sinOmega ^ 2) ∧
      (∀ t, SuperiorConjunction C o t ↔ ∃ k : ℤ, t = o.t0 + (k + (θ - sin θ) / (2 * π)) * o.period) ∧
      0 < (θ - sin θ) / (2 * π) ∧ (θ - sin θ) / (2 * π) < 1 ∧
      (1 / 2 < (θ - sin θ) / (2 * π) ↔ 0 < o.eccVal * o.cosOmega) ∧ ((θ - sin θ) / (2 * π) = 1 / 2 ↔ o.eccVal * o.cosOmega = 0) := by
  have B := built_of_init h
  have hE := B.E_t0 hp hr.sw_ne
  have he0 := hp.eccOk.nonneg
  have he1 := hp.eccOk.lt_one
  have hq := hp.eccOk.se_sq
  have hq0 := hp.eccOk.se_pos
  have hsc := hp.omega_sq
  have hn := B.n_pos hp
  have hnP := B.n_mul_period hp
  have hpi := pi_pos
  obtain ⟨θ, h1, h2, h3, h4⟩ := secondary_angle he0 he1 hq hq0 hsc
  have hs1 : o.sw ^ 2 ≤ 1 := by nlinarith [sq_nonneg o.cw]
  have he2 : o.eccVal ^ 2 < 1 := by nlinarith
  have hd : 0 < 1 - o.eccVal ^ 2 * o.sw ^ 2 := by nlinarith [sq_nonneg o.eccVal, sq_nonneg o.sw]
  have hdp : 0 < 1 + o.eccVal * o.sw := B.one_add_esw_pos hp
  have hdm : 0 < 1 - o.eccVal * o.sw := by nlinarith
  have hfac : 1 - o.eccVal ^ 2 * o.sw ^ 2 = (1 + o.eccVal * o.sw) * (1 - o.eccVal * o.sw) := by ring
  have hcw : o.cw ^ 2 = 1 - o.sw ^ 2 := by linarith
  -- the eccentric anomaly at superior conjunction
  have hcos : cos (o.E o.t0 + θ) = (-1 * o.sw + o.eccVal) / (1 + o.eccVal * (-1 * o.sw)) := by
    rw [cos_add, hE.1, hE.2, h3, h4, hfac, show 1 + o.eccVal * (-1 * o.sw) = 1 - o.eccVal * o.sw by ring, div_mul_div_comm, div_mul_div_comm,
      ← sub_div, div_eq_div_iff (by positivity) hdm.ne']
    have e : (o.sw + o.eccVal) * -(1 - o.eccVal ^ 2 - o.eccVal ^ 2 * o.cw ^ 2) - o.se * o.cw * -(2 * o.eccVal * o.se * o.cw) =
        (o.sw + o.eccVal) * -(1 - o.eccVal ^ 2 - o.eccVal ^ 2 * (1 - o.sw ^ 2)) + 2 * o.eccVal * (1 - o.eccVal ^ 2) * (1 - o.sw ^ 2) := by
      rw [← hcw, ← hq]
      ring
    rw [e]
    ring
  have hsin : sin (o.E o.t0 + θ) = o.se * (-1 * o.cw) / (1 + o.eccVal * (-1 * o.sw)) := by
    rw [sin_add, hE.1, hE.2, h3, h4, hfac, show 1 + o.eccVal * (-1 * o.sw) = 1 - o.eccVal * o.sw by ring]
    rw [hcw]
    field_simp
    ring
  have hM : keplerMap o.eccVal (o.E o.t0 + θ) = keplerMap o.eccVal (o.E o.t0) + (θ - sin θ) := by
    unfold keplerMap
    rw [hsin, hE.2, h4, hfac, show 1 + o.eccVal * (-1 * o.sw) = 1 - o.eccVal * o.sw by ring]
    field_simp
    ring
  have ht0 := (B.E_eq_iff hp o.t0 (o.E o.t0) 0).1 (by simp)
  simp only [Int.cast_zero, zero_mul, add_zero] at ht0
  have hsl : sin θ < θ := sin_lt h1
  have hsl2 : θ - sin θ < 2 * π := by
    have := sin_lt (sub_pos.2 h2)
    rw [sin_two_pi_sub] at this
    linarith
  -- position relative to half a turn
  have hhalf : (π < θ - sin θ ↔ sin θ < 0) ∧ (θ - sin θ = π ↔ sin θ = 0) := by
    rcases lt_trichotomy θ π with hlt | heq | hgt
    · have hpos := sin_pos_of_pos_of_lt_pi h1 hlt
      exact ⟨⟨fun hh => by linarith, fun hh => by linarith⟩, ⟨fun hh => by linarith, fun hh => by linarith⟩⟩
    · rw [heq, sin_pi]
      simp
    · have hneg : sin θ < 0 := by
        have := sin_pos_of_pos_of_lt_pi (x := 2 * π - θ) (by linarith) (by linarith)
        rw [sin_two_pi_sub] at this
        linarith
      exact ⟨⟨fun _ => hneg, fun _ => by linarith⟩, ⟨fun hh => by linarith, fun hh => by linarith⟩⟩
  have hsgn : (sin θ < 0 ↔ 0 < o.eccVal * o.cw) ∧ (sin θ = 0 ↔ o.eccVal * o.cw = 0) := by
    rw [h4]
    constructor
    · rw [div_neg_iff]
      constructor
      · rintro (⟨-, hh⟩ | ⟨hh, -⟩)
        · linarith
        · have : 0 < 2 * o.se * (o.eccVal * o.cw) := by linarith
          exact (mul_pos_iff_of_pos_left (by positivity)).1 this
      · intro hh
        right
        refine ⟨?_, hd⟩
        have : 0 < 2 * o.se * (o.eccVal * o.cw) := by positivity
        linarith
    · rw [div_eq_zero_iff]
      constructor
      · rintro (hh | hh)
        · have : 2 * o.se * (o.eccVal * o.cw) = 0 := by linarith
          exact (mul_eq_zero.1 this).resolve_left (by positivity)
        · exact absurd hh hd.ne'
      · intro hh
        left
        have : 2 * o.eccVal * o.se * o.cw = 2 * o.se * (o.eccVal * o.cw) := by ring
        rw [this, hh]
        simp
  refine ⟨θ, h1, h2, h3, h4, fun t => ?_, by apply div_pos <;> linarith, by rw [div_lt_one (by positivity)]; exact hsl2, ?_, ?_⟩
  · rw [B.superior_iff hp hi, ← hcos, ← hsin]
    have key : ∀ k : ℤ, (o.E t = o.E o.t0 + θ + k * (2 * π)) ↔ t = o.t0 + (k + (θ - sin θ) / (2 * π)) * o.period := by
      intro k
      rw [B.E_eq_iff hp, hM]
      have : o.t_periastron + (keplerMap o.eccVal (o.E o.t0) + (θ - sin θ)) / o.n + k * o.period =
          o.t0 + (k + (θ - sin θ) / (2 * π)) * o.period := by
        conv_rhs => rw [ht0, ← hnP]
        have hP := hp.period_pos.ne'
        field_simp
        ring
      rw [this]
    constructor
    · rintro ⟨hc, hs⟩
      obtain ⟨k, hk⟩ := angle_eq_of_cos_sin hc hs
      exact ⟨k, (key k).1 hk⟩
    · rintro ⟨k, hk⟩
      rw [(key k).2 hk, cos_add_int_mul_two_pi, sin_add_int_mul_two_pi]
      exact ⟨rfl, rfl⟩
  · rw [show o.cosOmega = o.cw from rfl, ← hsgn.1, ← hhalf.1, lt_div_iff₀ (by positivity)]
    constructor <;> intro hh <;> linarith
  · rw [show o.cosOmega = o.cw from rfl, ← hsgn.2, ← hhalf.2, div_eq_iff (by positivity)]
    constructor <;> intro hh <;> linarith

/-- **C94** (circular orbits): superior conjunction is half a period after inferior conjunction. -/
theorem C94_circular (C : Consts) (A : Args) (o : Orbit) (h : keplerianInit C A = .ok o) (hp : o.Physical) (hc : o.ecc = none)
    (hi : 0 < o.sin_incl) (t : ℝ) : (InferiorConjunction C o t ↔ ∃ k : ℤ, t = o.t0 + k * o.period) ∧
      (SuperiorConjunction C o t ↔ ∃ k : ℤ, t = o.t0 + (k + 1 / 2) * o.period) := by
  have hr : o.Regular := by
    intro p hp'
    rw [hc] at hp'
    cases hp'
  refine ⟨C94_inferior_partial C A o h hp hr hi t, ?_⟩
  obtain ⟨θ, -, -, -, -, h1, -, -, -, h2⟩ := C94_superior_partial C A o h hp hr hi
  rw [h1, h2.2 (by simp [Orbit.eccVal, hc])]

/-- **C94** (the flipped orbit): the transits of the orbit that secondary-eclipse light curves use for the companion are the superior
conjunctions of the planet. -/
theorem C94_flip_partial (C : Consts) (A : Args) (o : Orbit) (h : keplerianInit C A = .ok o) (hp : o.Physical) (r : ℝ) :
    ∃ o', o.flip C r = .ok o' ∧ (∀ t, SuperiorConjunction C o t ↔ InferiorConjunction C o' t) ∧
      (∀ t, InferiorConjunction C o t ↔ SuperiorConjunction C o' t) ∧
      (o'.Physical → o'.Regular → 0 < o'.sin_incl → ∀ t, SuperiorConjunction C o t ↔ ∃ k : ℤ, t = o'.t0 + k * o.period) := by
  obtain ⟨o', h1, -, -, -, -, hP, h2⟩ := C20_flip C A o h hp r
  have hO : o'.Omega = o.Omega := by
    have := (built_of_init h1).Omega_eq
    rw [this]
    unfold Orbit.flipArgs
    cases o.ecc <;> cases o.Omega <;> rfl
  have hs : ∀ t, SuperiorConjunction C o t ↔ InferiorConjunction C o' t := by
    intro t
    unfold SuperiorConjunction InferiorConjunction OnMeridian
    rw [(h2 t none).2.2.1, hO]
    simp only [V3.smul]
    refine and_congr ⟨fun hh => by linarith, fun hh => by linarith⟩ ⟨fun hh => by linarith, fun hh => by linarith⟩
  refine ⟨o', h1, hs, fun t => ?_, fun hp' hr' hi' t => ?_⟩
  · unfold SuperiorConjunction InferiorConjunction OnMeridian
    rw [(h2 t none).2.2.1, hO]
    simp only [V3.smul]
    refine and_congr ⟨fun hh => by linarith, fun hh => by linarith⟩ ⟨fun hh => by linarith, fun hh => by linarith⟩
  · rw [hs, C94_inferior_partial C _ o' h1 hp' hr' hi', hP]

/-- **C94 is false for `sin ω = -1`**: `t0` is then a superior conjunction. -/
theorem C94_singular_counterexample (C : Consts) : ∃ A o, keplerianInit C A = .ok o ∧ o.Physical ∧ 0 < o.sin_incl ∧
    SuperiorConjunction C o o.t0 ∧ ¬InferiorConjunction C o o.t0 := by
  obtain ⟨o, h, hp, ha, hP, hr, hb, ht, hci, hO, -⟩ := singular_ok C
  have hs : 0 < o.sin_incl := by
    have B := built_of_init h
    rw [B.sin_incl_eq]
    have : o.incl = arccos o.cos_incl := by
      cases h; rfl
    rw [this, sin_arccos, hci]
    apply sqrt_pos.2; norm_num
  refine ⟨_, o, h, hp, hs, ⟨?_, ?_⟩, fun hc => ?_⟩
  · unfold OnMeridian
    rw [singular_relativePosition C o h, hO]
    simp
  · rw [singular_relativePosition C o h]
    simp only
    linarith
  · have := hc.2
    rw [singular_relativePosition C o h] at this
    simp only at this
    linarith

/-- Hypotheses of C94, with `e cos ω > 0`: the secondary eclipse is late. -/
example (C : Consts) : ∃ o, keplerianInit C demoEcc = .ok o ∧ o.Physical ∧ o.Regular ∧ 0 < o.sin_incl ∧ 0 < o.eccVal * o.cosOmega := by
  obtain ⟨o, h, hp, -, -, -, -, -, -, -, p, hpe, he, -, h8, h9⟩ := demoEcc_ok C
  refine ⟨o, h, hp, ?_, ?_, ?_⟩
  · intro p' hp'
    rw [hpe] at hp'
    cases hp'
    rw [h8]; norm_num
  · cases h
    simp only
    rw [sin_arccos]
    apply sqrt_pos.2
    simp [inclFactorOf]
    norm_num
  · unfold Orbit.eccVal Orbit.cosOmega
    simp only [hpe, he, h9]
    norm_num

end Exo
