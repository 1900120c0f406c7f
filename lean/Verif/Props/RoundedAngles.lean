import Verif.Model.RoundedAngles
import Verif.Props.RoundingEcc

/-!
# C142: rounding in separations and position angles
-/

namespace Exo
open Real

namespace Rounding
variable (ρ : Rounding)

/-- The rounded hypotenuse. -/
theorem hypot_err (x y : ℝ) : |ρ.rnd √(ρ.rnd (ρ.rnd (x ^ 2) + ρ.rnd (y ^ 2))) - √(x ^ 2 + y ^ 2)| ≤ 3.1 * ρ.u * √(x ^ 2 + y ^ 2) := by
  have hu := ρ.u_nonneg
  have hu1 := ρ.u_le
  have hx := ρ.rnd_err (x ^ 2)
  have hy := ρ.rnd_err (y ^ 2)
  rw [abs_of_nonneg (sq_nonneg x)] at hx
  rw [abs_of_nonneg (sq_nonneg y)] at hy
  have h1 : |ρ.rnd (x ^ 2) + ρ.rnd (y ^ 2) - (x ^ 2 + y ^ 2)| ≤ ρ.u * (x ^ 2 + y ^ 2) := by
    rw [show ρ.rnd (x ^ 2) + ρ.rnd (y ^ 2) - (x ^ 2 + y ^ 2) = (ρ.rnd (x ^ 2) - x ^ 2) + (ρ.rnd (y ^ 2) - y ^ 2) by ring]
    exact (abs_add_le _ _).trans (by linarith)
  have h2 := ρ.near h1
  have hs0 : 0 ≤ x ^ 2 + y ^ 2 := by positivity
  generalize x ^ 2 + y ^ 2 = s at *
  generalize ρ.rnd (ρ.rnd (x ^ 2) + ρ.rnd (y ^ 2)) = s' at *
  rw [abs_of_nonneg hs0] at h2
  have h3 : |s' - s| ≤ 2.001 * ρ.u * s := by
    have := mul_le_mul_of_nonneg_right ρ.sq_u_le hs0
    linarith
  have hs' : 0 ≤ s' := by
    have := (abs_le.1 h3).1
    have : ρ.u * s ≤ 1 / 1000 * s := mul_le_mul_of_nonneg_right hu1 hs0
    linarith
  have hq := sqrt_nonneg s
  have h4 : |√s' - √s| ≤ 2.001 * ρ.u * √s := by
    rcases hs0.eq_or_lt with h0 | hpos
    · rw [← h0] at h3 ⊢
      have : s' = 0 := by simpa using h3
      simp [this]
    · have hs : 0 < √s := sqrt_pos.2 hpos
      have e : (√s' - √s) * (√s' + √s) = s' - s := by
        linear_combination sq_sqrt hs' - sq_sqrt hs0
      have hq' := sqrt_nonneg s'
      have h9 : |√s' - √s| * √s ≤ |s' - s| := by
        rw [← e, abs_mul, abs_of_nonneg (by positivity : 0 ≤ √s' + √s)]
        exact mul_le_mul_of_nonneg_left (by linarith) (abs_nonneg _)
      refine le_of_mul_le_mul_right ((h9.trans h3).trans (le_of_eq ?_)) hs
      rw [mul_assoc _ (√s), mul_self_sqrt hs0]
  have h5 := ρ.near h4
  rw [abs_of_nonneg hq] at h5
  have := mul_le_mul_of_nonneg_right ρ.sq_u_le hq
  have h6 : 0 ≤ ρ.u * √s := by positivity
  linarith

/-- Separation and position angle of a slightly displaced point. -/
theorem angles_near {atan2F : ℝ → ℝ → ℝ} (hat : ∀ y x, |atan2F y x - arctan2 y x| ≤ 4 * ρ.u) {p q : V3} {ε d : ℝ} (hd : 0 ≤ d) (hε0 : 0 ≤ ε)
    (hε : ε ≤ 0.06) (hq : √(q.x ^ 2 + q.y ^ 2) ≤ d) (hx : |p.x - q.x| ≤ ε * d) (hy : |p.y - q.y| ≤ ε * d) :
    |(ρ.anglesOf atan2F p).1 - √(q.x ^ 2 + q.y ^ 2)| ≤ (1.42 * ε + 4 * ρ.u) * d ∧
    |√(q.x ^ 2 + q.y ^ 2) * cos (ρ.anglesOf atan2F p).2 - q.x| ≤ (2.42 * ε + 5 * ρ.u) * d ∧
    |√(q.x ^ 2 + q.y ^ 2) * sin (ρ.anglesOf atan2F p).2 - q.y| ≤ (2.42 * ε + 5 * ρ.u) * d := by
  have hu := ρ.u_nonneg
  have hεd0 : 0 ≤ ε * d := by positivity
  have hud : 0 ≤ ρ.u * d := by positivity
  have hεd : ε * d ≤ 0.06 * d := mul_le_mul_of_nonneg_right hε hd
  have htri : |√(p.x ^ 2 + p.y ^ 2) - √(q.x ^ 2 + q.y ^ 2)| ≤ 1.415 * (ε * d) := by
    refine (plane_triangle _ _ _ _).trans (sqrt_le_iff.2 ⟨by positivity, ?_⟩)
    have h1 := sq_le_sq' (by linarith [(abs_le.1 hx).1]) (abs_le.1 hx).2
    have h2 := sq_le_sq' (by linarith [(abs_le.1 hy).1]) (abs_le.1 hy).2
    nlinarith
  have hsp : √(p.x ^ 2 + p.y ^ 2) ≤ 1.09 * d := by
    have := (abs_le.1 htri).2
    linarith
  have hh := ρ.hypot_err p.x p.y
  have hF := hat p.y p.x
  have hcos : √(p.x ^ 2 + p.y ^ 2) * cos (arctan2 p.y p.x) = p.x ∧ √(p.x ^ 2 + p.y ^ 2) * sin (arctan2 p.y p.x) = p.y := by
    have hn : ‖(⟨p.x, p.y⟩ : ℂ)‖ = √(p.x ^ 2 + p.y ^ 2) := by
      rw [Complex.norm_def, Complex.normSq_mk]; congr 1; ring
    have h1 := Complex.norm_mul_cos_arg ⟨p.x, p.y⟩
    have h2 := Complex.norm_mul_sin_arg ⟨p.x, p.y⟩
    rw [hn] at h1 h2
    exact ⟨h1, h2⟩
  unfold anglesOf
  simp only
  generalize ρ.rnd √(ρ.rnd (ρ.rnd (p.x ^ 2) + ρ.rnd (p.y ^ 2))) = b at *
  generalize atan2F p.y p.x = φ at *
  generalize arctan2 p.y p.x = θ at *
  have hr0 := sqrt_nonneg (p.x ^ 2 + p.y ^ 2)
  generalize √(p.x ^ 2 + p.y ^ 2) = r at *
  generalize √(q.x ^ 2 + q.y ^ 2) = s at *
  have hur := mul_le_mul_of_nonneg_left hsp hu
  have turn : ∀ c c' x x0 : ℝ, r * c = x → |c' - c| ≤ |φ - θ| → |c'| ≤ 1 → |x - x0| ≤ ε * d → |s * c' - x0| ≤ (2.42 * ε + 5 * ρ.u) * d := by
    intro c c' x x0 hc hcc hc1 hxx
    have e : s * c' - x0 = (s - r) * c' + r * (c' - c) + (x - x0) := by rw [← hc]; ring
    have a1 : |(s - r) * c'| ≤ 1.415 * (ε * d) := by
      rw [abs_mul, abs_sub_comm s r]
      exact (mul_le_of_le_one_right (abs_nonneg _) hc1).trans htri
    have a2 : |r * (c' - c)| ≤ 1.09 * d * (4 * ρ.u) := by
      rw [abs_mul, abs_of_nonneg hr0]
      exact mul_le_mul hsp (hcc.trans hF) (abs_nonneg _) (by positivity)
    rw [e]
    refine (abs_add_le _ _).trans ((add_le_add (abs_add_le _ _) hxx).trans ?_)
    linarith
  refine ⟨?_, turn (cos θ) (cos φ) p.x q.x hcos.1 (Real.abs_cos_sub_cos_le φ θ) (abs_cos_le_one φ) hx,
    turn (sin θ) (sin φ) p.y q.y hcos.2 (Real.abs_sin_sub_sin_le φ θ) (abs_sin_le_one φ) hy⟩
  have := abs_sub_le b r s
  linarith

end Rounding

/-- **C142.** The rounded separation and position angle: at a time that differs from the requested one by at most `u (2 |t0| + 8 |t - t0| + 29 P)`, the
separation is right up to `(32 (u + η) / (1 - e) + 4 u)` (with `Omega`: 70 instead of 32) of the distance from the star in space, and the planet is
that close (54 and 119) to the direction of the position angle. Around a conjunction the angle itself may be anything. -/
theorem C142_angles (C : Consts) (A : Args) (o : Orbit) (h : keplerianInit C A = .ok o) (hp : o.Physical) (ρ : Rounding)
    (kep : ℝ → ℝ → ℝ × ℝ) (η : ℝ) (hη : 0 ≤ η) (hδ : (ρ.u + η) / (1 - o.eccVal) ≤ 1 / 1000) (atan2F : ℝ → ℝ → ℝ)
    (hat : ∀ y x, |atan2F y x - arctan2 y x| ≤ 4 * ρ.u) (t : ℝ)
    (hk : o.ecc ≠ none → KeplerWithin kep η o.eccVal (ρ.computedMeanAnomaly atan2F A o t)) :
    ∃ t', |t' - t| ≤ ρ.u * (2 * |o.t0| + 8 * |t - o.t0| + 29 * o.period) ∧
      |(ρ.computedAngles kep atan2F A o t).1 - (o.relativeAngles C t').1| ≤
        (1.42 * (o.roundingFactor * ((ρ.u + η) / (1 - o.eccVal))) + 4 * ρ.u) * (o.relativePosition C t').norm ∧
      |(o.relativeAngles C t').1 * cos (ρ.computedAngles kep atan2F A o t).2 - (o.relativePosition C t').x| ≤
        (2.42 * (o.roundingFactor * ((ρ.u + η) / (1 - o.eccVal))) + 5 * ρ.u) * (o.relativePosition C t').norm ∧
      |(o.relativeAngles C t').1 * sin (ρ.computedAngles kep atan2F A o t).2 - (o.relativePosition C t').y| ≤
        (2.42 * (o.roundingFactor * ((ρ.u + η) / (1 - o.eccVal))) + 5 * ρ.u) * (o.relativePosition C t').norm := by
  obtain ⟨t', h1, h2, h3, -⟩ := C120_position C A o h hp ρ kep η hη hδ atan2F hat t hk
  have he1 := hp.eccOk.lt_one
  have hu := ρ.u_nonneg
  have hδ0 : 0 ≤ (ρ.u + η) / (1 - o.eccVal) := div_nonneg (by linarith) (by linarith)
  have hF : 0 ≤ o.roundingFactor ∧ o.roundingFactor ≤ 49 := by
    unfold Orbit.roundingFactor; split <;> constructor <;> norm_num
  have hang : (o.relativeAngles C t').1 = √((o.relativePosition C t').x ^ 2 + (o.relativePosition C t').y ^ 2) := rfl
  refine ⟨t', h1, ?_⟩
  rw [hang]
  refine ρ.angles_near hat (sqrt_nonneg _) (mul_nonneg hF.1 hδ0) ?_ (sqrt_le_sqrt ?_) h2 h3
  · have := mul_le_mul hF.2 hδ hδ0 (by norm_num)
    linarith
  · unfold V3.normSq
    nlinarith [sq_nonneg (o.relativePosition C t').z]

/-- The hypotheses hold for `KeplerianOrbit(a=10, period=1, b=0.5, ecc=0.5, omega=0, Omega=1, t0=3)` in double precision with correctly rounded
compiled operations: the separation is off by less than `4·10⁻¹⁴` of the distance, at a time off by less than `10⁻¹²` days. -/
example (C : Consts) : ∃ o, keplerianInit C demoEcc = .ok o ∧ o.ecc ≠ none ∧ ∀ t, |t| ≤ 1000 → ∃ t', |t' - t| ≤ 1e-12 ∧
    |(doubles.computedAngles (fun M e => (roundDouble (keplerOp M e).1, roundDouble (keplerOp M e).2)) (fun y x => roundDouble (arctan2 y x))
      demoEcc o t).1 - (o.relativeAngles C t').1| ≤ 4e-14 * (o.relativePosition C t').norm := by
  obtain ⟨o, ho, hp, ha, hP, hR, -, ht0, -, hO, p, hec, hev', -⟩ := demoEcc_ok C
  have hev : o.eccVal = 1 / 2 := by simp [Orbit.eccVal, hec, hev']
  have hu : doubles.u = 2⁻¹ ^ 53 := rfl
  refine ⟨o, ho, by simp [hec], fun t htt => ?_⟩
  obtain ⟨t', h1, h3, -⟩ := C142_angles C demoEcc o ho hp doubles (fun M e => (roundDouble (keplerOp M e).1, roundDouble (keplerOp M e).2))
    (2⁻¹ ^ 53) (by positivity) (by rw [hu, hev]; norm_num) (fun y x => roundDouble (arctan2 y x)) doubles_arctan2 t
    (fun _ => doubles_kepler (by rw [hev]; norm_num) (by rw [hev]; norm_num) _)
  refine ⟨t', h1.trans ?_, h3.trans (mul_le_mul_of_nonneg_right ?_ (sqrt_nonneg _))⟩
  · have h4 : |t - 3| ≤ 1003 := by
      have := abs_sub t 3
      rw [abs_of_pos (by norm_num : (0 : ℝ) < 3)] at this
      linarith
    rw [ht0, hP, hu, abs_of_pos (by norm_num : (0 : ℝ) < 3)]
    calc (2⁻¹ ^ 53 : ℝ) * (2 * 3 + 8 * |t - 3| + 29 * 1) ≤ 2⁻¹ ^ 53 * (2 * 3 + 8 * 1003 + 29 * 1) :=
          mul_le_mul_of_nonneg_left (by linarith) (by positivity)
      _ ≤ _ := by norm_num
  · have hF : o.roundingFactor = 49 := by simp [Orbit.roundingFactor, hO]
    rw [hF, hu, hev]; norm_num

end Exo
