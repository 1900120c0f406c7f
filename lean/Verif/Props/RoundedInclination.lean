import Verif.Model.RoundedInclination
import Verif.Props.RoundedAttributes

/-!
# C144: rounding between impact parameter and inclination
-/

namespace Exo
open Real

namespace Rounding
variable (ρ : Rounding)

/-- The rounded `(1 + ecc * sin_omega) / (1 - ecc**2)`. -/
theorem inclFactor_err {e s δ : ℝ} (he0 : 0 ≤ e) (he : e < 1) (hs : |s| ≤ 1) (hδ : δ = ρ.u / (1 - e)) (hδ1 : δ ≤ 1 / 2000) :
    |ρ.rnd (ρ.rnd (1 + ρ.rnd (e * s)) / ρ.rnd (1 - ρ.rnd (e ^ 2))) - (1 + e * s) / (1 - e ^ 2)| ≤
      4.2 * δ * |(1 + e * s) / (1 - e ^ 2)| := by
  have hu := ρ.u_nonneg
  have h1e : 0 < 1 - e := by linarith
  have hδe : ρ.u = δ * (1 - e) := by rw [hδ]; field_simp
  have hδ0 : 0 ≤ δ := by rw [hδ]; positivity
  have hδ2 : δ * (1 - e) ≤ δ := mul_le_of_le_one_right hδ0 (by linarith)
  have huδ : ρ.u ≤ δ := by linarith
  have hN0 : 1 - e ≤ 1 - e ^ 2 := by nlinarith
  have hsq : e ^ 2 ≤ 1 := by nlinarith
  have hes : |e * s| ≤ e := by
    rw [abs_mul, abs_of_nonneg he0]; exact mul_le_of_le_one_right he0 hs
  have hS0 : 1 - e ≤ 1 + e * s := by linarith [(abs_le.1 hes).1]
  have small : ∀ q : ℝ, |q| ≤ 1 → ρ.u * (ρ.u * |q|) ≤ ρ.u / 1000 := fun q hq => by
    have := mul_le_mul_of_nonneg_left (mul_le_of_le_one_right hu hq) hu
    linarith [ρ.sq_u_le]
  have n3 : |ρ.rnd (1 - ρ.rnd (e ^ 2)) - (1 - e ^ 2)| ≤ 1.001 * δ * |1 - e ^ 2| := by
    have n1 : |1 - ρ.rnd (e ^ 2) - (1 - e ^ 2)| ≤ ρ.u * |e ^ 2| := by
      rw [show 1 - ρ.rnd (e ^ 2) - (1 - e ^ 2) = -(ρ.rnd (e ^ 2) - e ^ 2) by ring, abs_neg]
      exact ρ.rnd_err _
    have h := ρ.near n1
    have h2 := small (e ^ 2) (by rw [abs_of_nonneg (sq_nonneg e)]; exact hsq)
    have h1 := mul_le_mul_of_nonneg_left hN0 hδ0
    rw [abs_of_pos (by linarith : 0 < 1 - e ^ 2)] at h ⊢
    rw [abs_of_nonneg (sq_nonneg e)] at h h2
    linarith
  have m3 : |ρ.rnd (1 + ρ.rnd (e * s)) - (1 + e * s)| ≤ 2.002 * δ * |1 + e * s| := by
    have n1 : |1 + ρ.rnd (e * s) - (1 + e * s)| ≤ ρ.u * |e * s| := by
      rw [show 1 + ρ.rnd (e * s) - (1 + e * s) = ρ.rnd (e * s) - e * s by ring]
      exact ρ.rnd_err _
    have h := ρ.near n1
    have h2 := small (e * s) (by linarith)
    have h1 := mul_le_mul_of_nonneg_left hS0 hδ0
    have h3 : ρ.u * |e * s| ≤ ρ.u := mul_le_of_le_one_right hu (by linarith)
    rw [abs_of_pos (by linarith : 0 < 1 + e * s)] at h ⊢
    have h4 : ρ.u * (1 + e * s) ≤ δ * (1 + e * s) := mul_le_mul_of_nonneg_right huδ (by linarith)
    linarith
  refine (ρ.rel_div huδ hδ1 (by norm_num) (by norm_num) (by norm_num) (by norm_num) (by linarith : 0 < 1 - e ^ 2).ne' m3 n3).trans
    (mul_le_mul_of_nonneg_right (mul_le_mul_of_nonneg_right ?_ hδ0) (abs_nonneg _))
  norm_num

/-- The rounded quotient of a rounded cosine and a number with a small relative error. -/
theorem cosF_div_err {i D D' δ : ℝ} (huδ : ρ.u ≤ δ) (hδ1 : δ ≤ 1 / 2000) (hD : 0 < D) (hD' : |D' - D| ≤ 6.4 * δ * D) :
    |ρ.rnd (ρ.cosF i / D') - cos i / D| ≤ 7.6 * δ * |cos i / D| + 2.1 * ρ.u / D := by
  have hu := ρ.u_nonneg
  have hδ0 : 0 ≤ δ := hu.trans huδ
  have hc := ρ.cos_err i
  have hDD : 6.4 * δ * D ≤ 0.0032 * D := mul_le_mul_of_nonneg_right (by linarith) hD.le
  have hlo : 0.9968 * D ≤ D' := by linarith [(abs_le.1 hD').1]
  have hp : 0 < D' := lt_of_lt_of_le (by positivity) hlo
  have h1 : |ρ.cosF i / D' - cos i / D| ≤ 6.43 * δ * |cos i / D| + 2.01 * ρ.u / D := by
    rw [show ρ.cosF i / D' - cos i / D = ((ρ.cosF i - cos i) - cos i / D * (D' - D)) / D' by field_simp; ring, abs_div, abs_of_pos hp,
      div_le_iff₀ hp]
    have a1 : |cos i / D * (D' - D)| ≤ |cos i / D| * (6.4 * δ * D) := by
      rw [abs_mul]; exact mul_le_mul_of_nonneg_left hD' (abs_nonneg _)
    refine (abs_sub _ _).trans ((add_le_add hc a1).trans ?_)
    have e3 : 0 ≤ 6.43 * δ * |cos i / D| + 2.01 * ρ.u / D := by positivity
    refine le_trans ?_ (mul_le_mul_of_nonneg_left hlo e3)
    have e4 : (6.43 * δ * |cos i / D| + 2.01 * ρ.u / D) * (0.9968 * D) = 6.43 * 0.9968 * (δ * |cos i / D| * D) + 2.01 * 0.9968 * ρ.u := by
      field_simp
    rw [e4]
    have e5 : 0 ≤ δ * |cos i / D| * D := by positivity
    linarith
  have h2 := ρ.near h1
  have hq : 0 ≤ ρ.u / D := by positivity
  have hQ := abs_nonneg (cos i / D)
  have b1 : 6.43 * δ * |cos i / D| ≤ 0.004 * |cos i / D| := mul_le_mul_of_nonneg_right (by linarith) hQ
  have b2 : ρ.u * |cos i / D| ≤ δ * |cos i / D| := mul_le_mul_of_nonneg_right huδ hQ
  have b3 : ρ.u * (ρ.u / D) ≤ 1 / 1000 * (ρ.u / D) := mul_le_mul_of_nonneg_right ρ.u_le hq
  have b4 : ρ.u * (6.43 * δ * |cos i / D|) ≤ ρ.u * (0.004 * |cos i / D|) := mul_le_mul_of_nonneg_left b1 hu
  rw [show 2.01 * ρ.u / D = 2.01 * (ρ.u / D) by ring] at h2
  rw [show 2.1 * ρ.u / D = 2.1 * (ρ.u / D) by ring]
  have b5 : 0 ≤ δ * |cos i / D| := by positivity
  linarith

end Rounding

/-- **C144.** The factor between the impact parameter and the cosine of the inclination is right up to `6.4 / (1 - e)` roundings and the cosine that the
constructor computes from a given impact parameter up to `7.5 / (1 - e)`. The impact parameter that it computes from a given inclination is off by as much and
by the error of the cosine, which counts `1 / dcosidb` times: that is `a / R` times on a circular orbit. -/
theorem C144_inclination (C : Consts) (A : Args) (o : Orbit) (h : keplerianInit C A = .ok o) (hp : o.Physical) (ρ : Rounding)
    (hδ : ρ.u / (1 - o.eccVal) ≤ 1 / 2000) :
    0 < o.dcosidb ∧ |ρ.dcosidb o - o.dcosidb| ≤ 6.4 * (ρ.u / (1 - o.eccVal)) * o.dcosidb ∧
    |ρ.cosIncl o - o.cos_incl| ≤ 7.5 * (ρ.u / (1 - o.eccVal)) * |o.cos_incl| ∧
    |ρ.impact o - o.b| ≤ 7.6 * (ρ.u / (1 - o.eccVal)) * |o.b| + 2.1 * ρ.u / o.dcosidb := by
  have B := built_of_init h
  have hu := ρ.u_nonneg
  have he0 := hp.eccOk.nonneg
  have he1 := hp.eccOk.lt_one
  have huδ : ρ.u ≤ ρ.u / (1 - o.eccVal) := by
    rw [le_div_iff₀ (by linarith)]
    nlinarith
  have hδ0 : 0 ≤ ρ.u / (1 - o.eccVal) := hu.trans huδ
  have hF : 0 < inclFactorOf o.ecc ∧
      |ρ.inclFactor o - inclFactorOf o.ecc| ≤ 4.2 * (ρ.u / (1 - o.eccVal)) * |inclFactorOf o.ecc| := by
    cases he : o.ecc with
    | none =>
      simp only [Rounding.inclFactor, inclFactorOf, he]
      rw [sub_self, abs_zero, abs_one]
      exact ⟨one_pos, by positivity⟩
    | some p =>
      have hev : o.eccVal = p.ecc := by simp [Orbit.eccVal, he]
      have hw := hp.omega_unit p he
      have hs : |p.sin_omega| ≤ 1 := abs_le_one_iff_mul_self_le_one.2 (by nlinarith [sq_nonneg p.cos_omega])
      simp only [Rounding.inclFactor, inclFactorOf, he]
      rw [hev] at he0 he1 hδ ⊢
      refine ⟨div_pos ?_ (by nlinarith), ρ.inclFactor_err he0 he1 hs rfl hδ⟩
      have := (abs_le.1 hs).1
      nlinarith
  obtain ⟨hF0, hF1⟩ := hF
  have hD : 0 < o.dcosidb := by
    rw [B.dcosidb_eq]; exact div_pos (mul_pos hF0 hp.r_star_pos) hp.a_pos
  have p1 := ρ.rel_mul (y := o.r_star) (y' := o.r_star) (l := 0) huδ hδ (by norm_num) le_rfl (by norm_num) (by norm_num) hF1 (by simp)
  have p2 := ρ.rel_div (y := o.a) (y' := o.a) (l := 0) huδ hδ (by norm_num) le_rfl (by norm_num) (by norm_num) hp.a_pos.ne' p1 (by simp)
  rw [← B.dcosidb_eq] at p2
  have p3 : |ρ.dcosidb o - o.dcosidb| ≤ 6.4 * (ρ.u / (1 - o.eccVal)) * |o.dcosidb| :=
    p2.trans (mul_le_mul_of_nonneg_right (mul_le_mul_of_nonneg_right (by norm_num) hδ0) (abs_nonneg _))
  have p4 := ρ.rel_mul (y := o.b) (y' := o.b) (l := 0) huδ hδ (by norm_num) le_rfl (by norm_num) (by norm_num) p3 (by simp)
  rw [abs_of_pos hD] at p3
  refine ⟨hD, p3, ?_, ?_⟩
  · rw [B.cos_incl_b hp]
    exact p4.trans (mul_le_mul_of_nonneg_right (mul_le_mul_of_nonneg_right (by norm_num) hδ0) (abs_nonneg _))
  · have hb : o.b = cos o.incl / o.dcosidb := by
      rw [← B.cos_incl_eq hp.cos_incl_abs, B.cos_incl_b hp]; field_simp
    rw [hb]
    exact ρ.cosF_div_err huδ hδ hD p3

/-- The hypotheses hold for `KeplerianOrbit(a=10, period=1, b=0.5, ecc=0.5, omega=0, Omega=1, t0=3)` in double precision: the impact parameter recovered from
the inclination is off by less than `3·10⁻¹⁵`. -/
example (C : Consts) : ∃ o, keplerianInit C demoEcc = .ok o ∧ o.ecc ≠ none ∧ o.b = 1 / 2 ∧ |doubles.impact o - o.b| ≤ 3e-15 := by
  obtain ⟨o, ho, hp, ha, -, hr, hb, -, -, -, p, hec, hev', -, hs, -⟩ := demoEcc_ok C
  have hev : o.eccVal = 1 / 2 := by simp [Orbit.eccVal, hec, hev']
  have hu : doubles.u = 2⁻¹ ^ 53 := rfl
  obtain ⟨-, -, -, h4⟩ := C144_inclination C demoEcc o ho hp doubles (by rw [hu, hev]; norm_num)
  have hd : o.dcosidb = 2 / 15 := by
    rw [(built_of_init ho).dcosidb_eq, hec, ha, hr]; simp only [inclFactorOf, hev', hs]; norm_num
  refine ⟨o, ho, by simp [hec], hb, h4.trans ?_⟩
  rw [hu, hev, hb, hd]; norm_num [abs_of_pos]

/-- The last term of `C144_inclination` cannot be avoided: an arithmetic that rounds nothing but the cosine, within its specification, moves the impact parameter
by `2 u / dcosidb`. -/
theorem C144_attained (C : Consts) (A : Args) (o : Orbit) (h : keplerianInit C A = .ok o) (hp : o.Physical) (u : ℝ) (hu : 0 ≤ u) (hu1 : u ≤ 1 / 1000) :
    ∃ ρ : Rounding, ρ.u = u ∧ ρ.impact o - o.b = 2 * u / o.dcosidb := by
  have B := built_of_init h
  refine ⟨⟨u, id, π, sin, fun x => cos x + 2 * u, hu, hu1, fun x => ?_, ?_, fun x => ?_, fun x => ?_⟩, rfl, ?_⟩
  · rw [id, sub_self, abs_zero]; positivity
  · rw [sub_self, abs_zero]; have := pi_pos; positivity
  · rw [sub_self, abs_zero]; positivity
  · rw [add_sub_cancel_left, abs_of_nonneg (by positivity)]
  · set ρ : Rounding := ⟨u, id, π, sin, fun x => cos x + 2 * u, hu, hu1, _, _, _, _⟩
    have hD : 0 < o.dcosidb := (C144_inclination C A o h hp ⟨0, id, π, sin, cos, le_rfl, by norm_num, by simp, by simp, by simp, by simp⟩ (by simp)).1
    have e : ρ.dcosidb o = o.dcosidb := by
      rw [B.dcosidb_eq]
      unfold Rounding.dcosidb Rounding.inclFactor inclFactorOf
      cases o.ecc <;> rfl
    have hb : o.b = cos o.incl / o.dcosidb := by
      rw [← B.cos_incl_eq hp.cos_incl_abs, B.cos_incl_b hp]; field_simp
    have e2 : ρ.impact o = (cos o.incl + 2 * u) / o.dcosidb := by rw [← e]; rfl
    rw [e2, hb]; ring

/-- With `u = 10⁻³` the impact parameter of `KeplerianOrbit(a=10, period=1, b=0.5, ecc=0.5, omega=0, Omega=1, t0=3)` moves by 0.015. -/
example (C : Consts) : ∃ o, keplerianInit C demoEcc = .ok o ∧ ∃ ρ : Rounding, ρ.u = 1 / 1000 ∧ ρ.impact o - o.b = 0.015 := by
  obtain ⟨o, ho, hp, ha, -, hr, hb, -, -, -, p, hec, hev', -, hs, -⟩ := demoEcc_ok C
  have hd : o.dcosidb = 2 / 15 := by
    rw [(built_of_init ho).dcosidb_eq, hec, ha, hr]; simp only [inclFactorOf, hev', hs]; norm_num
  obtain ⟨ρ, h1, h2⟩ := C144_attained C demoEcc o ho hp (1 / 1000) (by norm_num) le_rfl
  refine ⟨o, ho, ρ, h1, ?_⟩
  rw [h2, hd]; norm_num

end Exo
