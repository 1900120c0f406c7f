import Verif.Model.RoundedAttributes
import Verif.Props.RoundedAcceleration

/-!
# C143: rounding in the derived attributes
-/

namespace Exo
open Real

namespace Rounding
variable (ρ : Rounding)

/-- The rounded `sqrt(1 - ecc**2)`. -/
theorem sqrtOme2_err {e δ : ℝ} (he0 : 0 ≤ e) (he : e < 1) (hδ : δ = ρ.u / (1 - e)) (hδ1 : δ ≤ 1 / 2000) :
    |ρ.rnd √(ρ.rnd (1 - ρ.rnd (e ^ 2))) - √(1 - e ^ 2)| ≤ 2.2 * δ * |√(1 - e ^ 2)| := by
  have hu := ρ.u_nonneg
  have h1e : 0 < 1 - e := by linarith
  have hδe : ρ.u = δ * (1 - e) := by rw [hδ]; field_simp
  have hδ0 : 0 ≤ δ := by rw [hδ]; positivity
  have hδ2 : δ * (1 - e) ≤ δ := mul_le_of_le_one_right hδ0 (by linarith)
  have huδ : ρ.u ≤ δ := by linarith
  have hN0 : 1 - e ≤ 1 - e ^ 2 := by nlinarith
  have hNp : 0 < 1 - e ^ 2 := by linarith
  have hsq : e ^ 2 ≤ 1 := by nlinarith
  have n1 : |1 - ρ.rnd (e ^ 2) - (1 - e ^ 2)| ≤ ρ.u * e ^ 2 := by
    rw [show 1 - ρ.rnd (e ^ 2) - (1 - e ^ 2) = -(ρ.rnd (e ^ 2) - e ^ 2) by ring, abs_neg]
    have := ρ.rnd_err (e ^ 2)
    rwa [abs_of_nonneg (sq_nonneg e)] at this
  have n3 : |ρ.rnd (1 - ρ.rnd (e ^ 2)) - (1 - e ^ 2)| ≤ 1.001 * δ * (1 - e ^ 2) := by
    have h := ρ.near n1
    rw [abs_of_pos hNp] at h
    have h2 : ρ.u * (ρ.u * e ^ 2) ≤ ρ.u / 1000 := by
      have : ρ.u * e ^ 2 ≤ ρ.u := mul_le_of_le_one_right hu hsq
      have := mul_le_mul_of_nonneg_left this hu
      linarith [ρ.sq_u_le]
    have h1 := mul_le_mul_of_nonneg_left hN0 hδ0
    linarith
  generalize ρ.rnd (1 - ρ.rnd (e ^ 2)) = s' at *
  generalize 1 - e ^ 2 = s at *
  have hs' : 0 ≤ s' := by
    have := (abs_le.1 n3).1
    have : δ * s ≤ 1 / 2000 * s := mul_le_mul_of_nonneg_right hδ1 hNp.le
    linarith
  have hs : 0 < √s := sqrt_pos.2 hNp
  have h4 : |√s' - √s| ≤ 1.001 * δ * √s := by
    have e : (√s' - √s) * (√s' + √s) = s' - s := by
      linear_combination sq_sqrt hs' - sq_sqrt hNp.le
    have hq' := sqrt_nonneg s'
    have h9 : |√s' - √s| * √s ≤ |s' - s| := by
      rw [← e, abs_mul, abs_of_nonneg (by positivity : 0 ≤ √s' + √s)]
      exact mul_le_mul_of_nonneg_left (by linarith) (abs_nonneg _)
    refine le_of_mul_le_mul_right ((h9.trans n3).trans (le_of_eq ?_)) hs
    rw [mul_assoc _ (√s), mul_self_sqrt hNp.le]
  have h5 := ρ.near h4
  rw [abs_of_pos hs] at h5 ⊢
  have h6 : ρ.u * (√s + 1.001 * δ * √s) ≤ δ * (1.002 * √s) := by
    refine mul_le_mul huδ ?_ (by positivity) hδ0
    have := mul_le_mul_of_nonneg_right hδ1 hs.le
    linarith
  have h7 : 0 ≤ δ * √s := by positivity
  linarith

end Rounding

/-- **C143.** The attributes that the constructor derives from the masses, the semi-major axis, the period and the eccentricity: the total mass and the mean
motion are right up to one and four roundings, the semi-major axes of the two bodies up to 3.2, and the velocity scale up to `10.5 / (1 - e)`. -/
theorem C143_attributes (C : Consts) (A : Args) (o : Orbit) (h : keplerianInit C A = .ok o) (hp : o.Physical) (ρ : Rounding)
    (hδ : ρ.u / (1 - o.eccVal) ≤ 1 / 2000) :
    |ρ.mTotal o - o.m_total| ≤ ρ.u * |o.m_total| ∧ |ρ.n o.period - o.n| ≤ 4 * ρ.u * |o.n| ∧
    |ρ.aStar o - o.a_star| ≤ 3.2 * ρ.u * |o.a_star| ∧ |ρ.aPlanet o - o.a_planet| ≤ 3.2 * ρ.u * |o.a_planet| ∧
    |ρ.scaleK0 o - o.K0| ≤ 10.5 * (ρ.u / (1 - o.eccVal)) * |o.K0| := by
  have B := built_of_init h
  have hu := ρ.u_nonneg
  have he0 := hp.eccOk.nonneg
  have he1 := hp.eccOk.lt_one
  have hmt := (B.m_total_pos hp).ne'
  have huδ : ρ.u ≤ ρ.u / (1 - o.eccVal) := by
    rw [le_div_iff₀ (by linarith)]
    nlinarith
  have hu2 : ρ.u ≤ 1 / 2000 := huδ.trans hδ
  have hδ0 : 0 ≤ ρ.u / (1 - o.eccVal) := hu.trans huδ
  have m1 : |ρ.mTotal o - o.m_total| ≤ ρ.u * |o.m_total| := by
    rw [B.m_total_eq]; exact ρ.rnd_err _
  have n1 : |ρ.n o.period - o.n| ≤ 4 * ρ.u * |o.n| := by
    rw [abs_of_pos (B.n_pos hp), B.n_eq]; exact ρ.n_err hp.period_pos
  have quot : ∀ x y : ℝ, |ρ.rnd (ρ.rnd (x * y) / ρ.mTotal o) - x * y / o.m_total| ≤ 3.2 * ρ.u * |x * y / o.m_total| := fun x y => by
    have q := ρ.rel_div (k := 1) (l := 1) le_rfl hu2 zero_le_one zero_le_one (by norm_num) (by norm_num) hmt
      (by rw [one_mul]; exact ρ.rnd_err (x * y)) (by rw [one_mul]; exact m1)
    refine q.trans (mul_le_mul_of_nonneg_right (mul_le_mul_of_nonneg_right (by norm_num) hu) (abs_nonneg _))
  refine ⟨m1, n1, ?_, ?_, ?_⟩
  · rw [B.a_star_eq]; exact quot _ _
  · rw [B.a_planet_eq]; exact quot _ _
  · have p1 := ρ.rel_mul (y := o.a) (y' := o.a) (l := 0) le_rfl hu2 (by norm_num) le_rfl (by norm_num) (by norm_num) n1 (by simp)
    have p2 := ρ.rel_div (l := 1) le_rfl hu2 (by norm_num) zero_le_one (by norm_num) (by norm_num) hmt p1 (by rw [one_mul]; exact m1)
    rw [B.K0_eq]
    cases he : o.ecc with
    | none =>
      simp only [Rounding.scaleK0, he, K0Of]
      refine p2.trans (mul_le_mul_of_nonneg_right ?_ (abs_nonneg _))
      linarith
    | some p =>
      have hev : o.eccVal = p.ecc := by simp [Orbit.eccVal, he]
      simp only [Rounding.scaleK0, he, K0Of]
      rw [hev] at he0 he1 hδ huδ hδ0 ⊢
      have s1 := ρ.sqrtOme2_err he0 he1 rfl hδ
      have hs : √(1 - p.ecc ^ 2) ≠ 0 := (sqrt_pos.2 (by nlinarith)).ne'
      have p3 := p2.trans (mul_le_mul_of_nonneg_right (mul_le_mul_of_nonneg_left huδ (by norm_num)) (abs_nonneg _))
      have p4 := ρ.rel_div huδ hδ (by norm_num) (by norm_num) (by norm_num) (by norm_num) hs p3 s1
      refine p4.trans (mul_le_mul_of_nonneg_right (mul_le_mul_of_nonneg_right (by norm_num) hδ0) (abs_nonneg _))

/-- The hypotheses hold for `KeplerianOrbit(a=10, period=1, b=0.5, ecc=0.5, omega=0, Omega=1, t0=3)` in double precision: the velocity scale is off by less
than `3·10⁻¹⁵` of itself. -/
example (C : Consts) : ∃ o, keplerianInit C demoEcc = .ok o ∧ o.ecc ≠ none ∧ |doubles.scaleK0 o - o.K0| ≤ 3e-15 * |o.K0| := by
  obtain ⟨o, ho, hp, -, -, -, -, -, -, -, p, hec, hev', -⟩ := demoEcc_ok C
  have hev : o.eccVal = 1 / 2 := by simp [Orbit.eccVal, hec, hev']
  have hu : doubles.u = 2⁻¹ ^ 53 := rfl
  obtain ⟨-, -, -, -, h5⟩ := C143_attributes C demoEcc o ho hp doubles (by rw [hu, hev]; norm_num)
  refine ⟨o, ho, by simp [hec], h5.trans (mul_le_mul_of_nonneg_right ?_ (abs_nonneg _))⟩
  rw [hu, hev]; norm_num

end Exo
