import Verif.Lemmas.Kepler
import Verif.Lemmas.Init
import Verif.Spec.Motion
import Mathlib.Tactic.LinearCombination

/-!
# The motion in terms of the eccentric anomaly, for circular and eccentric orbits at once
-/

namespace Exo
open Real

namespace Orbit
variable (o : Orbit)

/-- `cos ω` (1 on circular orbits) -/
noncomputable def cw : ℝ := match o.ecc with | none => 1 | some p => p.cos_omega
/-- `sin ω` (0 on circular orbits) -/
noncomputable def sw : ℝ := match o.ecc with | none => 0 | some p => p.sin_omega
/-- `cos Ω` (1 if there is no `Omega`) -/
noncomputable def cW : ℝ := match o.Omega with | none => 1 | some W => cos W
/-- `sin Ω` (0 if there is no `Omega`) -/
noncomputable def sW : ℝ := match o.Omega with | none => 0 | some W => sin W

/-- Mean anomaly used by the code. -/
noncomputable def meanAnom (t : ℝ) : ℝ := (o.warp t - o.tref) * o.n

/-- Eccentric anomaly. -/
noncomputable def E (t : ℝ) : ℝ := eccAnomaly o.eccVal (o.meanAnom t)

/-- `√(1 - e²)` -/
noncomputable def se : ℝ := √(1 - o.eccVal ^ 2)

theorem trueAnomaly_eq (t : ℝ) : o.trueAnomaly t = keplerOp (o.meanAnom t) o.eccVal := by
  unfold trueAnomaly eccVal meanAnom
  cases o.ecc with
  | none => simp [keplerOp_zero_ecc]
  | some p => rfl

theorem rotate_eq (x y : ℝ) : o.rotate x y =
    ⟨o.cW * (o.cw * x - o.sw * y) - o.sW * (o.cos_incl * (o.sw * x + o.cw * y)),
     o.sW * (o.cw * x - o.sw * y) + o.cW * (o.cos_incl * (o.sw * x + o.cw * y)),
     -o.sin_incl * (o.sw * x + o.cw * y)⟩ := by
  unfold rotate cw sw cW sW
  cases o.ecc <;> cases o.Omega <;> simp

theorem radius_eq (a c : ℝ) : o.radius a c = a * (1 - o.eccVal ^ 2) / (1 + o.eccVal * c) := by
  unfold radius eccVal
  cases o.ecc <;> simp

theorem velocity_eq (m t : ℝ) : o.velocity m t =
    o.rotate (-(o.K0 * m) * (o.trueAnomaly t).1) (o.K0 * m * ((o.trueAnomaly t).2 + o.eccVal)) := by
  unfold velocity eccVal
  cases h : o.ecc <;> simp

theorem acceleration_eq (a m t : ℝ) : o.acceleration a m t =
    o.rotate (-(o.K0 * m) ^ 2 * (1 + o.eccVal * (o.trueAnomaly t).2) ^ 2 / (a * (1 - o.eccVal ^ 2)) * (o.trueAnomaly t).2)
      (-(o.K0 * m) ^ 2 * (1 + o.eccVal * (o.trueAnomaly t).2) ^ 2 / (a * (1 - o.eccVal ^ 2)) * (o.trueAnomaly t).1) := by
  unfold acceleration eccVal
  cases h : o.ecc with
  | none => simp
  | some p =>
    simp only
    have : ∀ x : ℝ, x / (a * (p.ecc ^ 2 - 1)) = -x / (a * (1 - p.ecc ^ 2)) := by
      intro x
      rw [show a * (p.ecc ^ 2 - 1) = -(a * (1 - p.ecc ^ 2)) by ring, div_neg, neg_div]
    rw [this]
    ring_nf

/-- The eccentricity is admissible. -/
structure EccOk (o : Orbit) : Prop where
  nonneg : 0 ≤ o.eccVal
  lt_one : o.eccVal < 1

variable {o}

theorem Physical.eccOk (hp : o.Physical) : o.EccOk := by
  constructor
  · unfold eccVal
    cases h : o.ecc with
    | none => exact le_rfl
    | some p => exact hp.ecc_nonneg p h
  · unfold eccVal
    cases h : o.ecc with
    | none => exact zero_lt_one
    | some p => exact hp.ecc_lt_one p h

theorem Physical.omega_sq (hp : o.Physical) : o.sw ^ 2 + o.cw ^ 2 = 1 := by
  unfold sw cw
  cases h : o.ecc with
  | none => norm_num
  | some p => exact hp.omega_unit p h

theorem Omega_sq : o.sW ^ 2 + o.cW ^ 2 = 1 := by
  unfold sW cW
  cases h : o.Omega with
  | none => norm_num
  | some p => exact sin_sq_add_cos_sq _

section
variable (he : o.EccOk)
include he

theorem EccOk.dpos (t : ℝ) : 0 < 1 - o.eccVal * cos (o.E t) := one_sub_mul_cos_pos he.nonneg he.lt_one _

theorem EccOk.ome2_pos : 0 < 1 - o.eccVal ^ 2 := one_sub_sq_pos he.nonneg he.lt_one

theorem EccOk.se_pos : 0 < o.se := sqrt_pos.2 he.ome2_pos

theorem EccOk.se_sq : o.se ^ 2 = 1 - o.eccVal ^ 2 := sq_sqrt he.ome2_pos.le

omit he in
theorem sinf_eq (t : ℝ) : (o.trueAnomaly t).1 = o.se * sin (o.E t) / (1 - o.eccVal * cos (o.E t)) := by
  rw [trueAnomaly_eq]; rfl

omit he in
theorem cosf_eq (t : ℝ) :
    (o.trueAnomaly t).2 = (cos (o.E t) - o.eccVal) / (1 - o.eccVal * cos (o.E t)) := by
  rw [trueAnomaly_eq]; rfl

theorem radius_anom (a t : ℝ) : o.radius a (o.trueAnomaly t).2 = a * (1 - o.eccVal * cos (o.E t)) := by
  have h := he.dpos t
  have h1 := he.ome2_pos.ne'
  rw [radius_eq, trueAnomaly_eq, one_add_mul_cosf he.nonneg he.lt_one]
  change a * (1 - o.eccVal ^ 2) / ((1 - o.eccVal ^ 2) / (1 - o.eccVal * cos (o.E t))) = _
  field_simp

/-- Position in the orbital plane: `x = a (cos E - e)`, `y = a √(1-e²) sin E`. -/
theorem positionNow_eq (C : Consts) (a t : ℝ) : o.positionNow C a t none =
    o.rotate (a * (cos (o.E t) - o.eccVal)) (a * (o.se * sin (o.E t))) := by
  have h := (he.dpos t).ne'
  unfold positionNow
  simp only
  rw [radius_anom he, cosf_eq, sinf_eq]
  congr 1 <;> field_simp

theorem velocity_anom (m t : ℝ) : o.velocity m t =
    o.rotate (-(o.K0 * m) * o.se * sin (o.E t) / (1 - o.eccVal * cos (o.E t)))
      (o.K0 * m * (1 - o.eccVal ^ 2) * cos (o.E t) / (1 - o.eccVal * cos (o.E t))) := by
  have h := (he.dpos t).ne'
  rw [velocity_eq, cosf_eq, sinf_eq]
  congr 1
  · field_simp
  · rw [div_add' _ _ _ h, mul_div_assoc']
    congr 1; ring

theorem acceleration_anom (a m t : ℝ) : o.acceleration a m t =
    o.rotate (-(o.K0 * m) ^ 2 * (1 - o.eccVal ^ 2) / a * (cos (o.E t) - o.eccVal) / (1 - o.eccVal * cos (o.E t)) ^ 3)
      (-(o.K0 * m) ^ 2 * (1 - o.eccVal ^ 2) / a * (o.se * sin (o.E t)) / (1 - o.eccVal * cos (o.E t)) ^ 3) := by
  have h := (he.dpos t).ne'
  have h1 := he.ome2_pos.ne'
  rw [acceleration_eq]
  have h2 : 1 + o.eccVal * (o.trueAnomaly t).2 = (1 - o.eccVal ^ 2) / (1 - o.eccVal * cos (o.E t)) := by
    rw [trueAnomaly_eq]; exact one_add_mul_cosf he.nonneg he.lt_one _
  rw [h2, cosf_eq, sinf_eq]
  by_cases ha : a = 0
  · simp [ha]
  · congr 1 <;> field_simp

end

/-- Rotating a differentiable plane motion. -/
theorem hasVelocityAt_rotate {x y : ℝ → ℝ} {x' y' t : ℝ} (hx : HasDerivAt x x' t) (hy : HasDerivAt y y' t) :
    HasVelocityAt (fun s => o.rotate (x s) (y s)) (o.rotate x' y') t := by
  simp only [HasVelocityAt, rotate_eq]
  have h1 : HasDerivAt (fun s => o.cw * x s - o.sw * y s) (o.cw * x' - o.sw * y') t :=
    (hx.const_mul _).sub (hy.const_mul _)
  have h2 : HasDerivAt (fun s => o.sw * x s + o.cw * y s) (o.sw * x' + o.cw * y') t :=
    (hx.const_mul _).add (hy.const_mul _)
  exact ⟨(h1.const_mul _).sub ((h2.const_mul _).const_mul _), (h1.const_mul _).add ((h2.const_mul _).const_mul _),
    h2.const_mul _⟩

/-- The code's velocity is the derivative of the code's position when amplitudes match. -/
theorem hasVelocityAt_position (he : o.EccOk) (C : Consts) {a m : ℝ} (hw : ∀ t, HasDerivAt o.warp 1 t)
    (hK : o.K0 * m * o.se = o.n * a) (t : ℝ) :
    HasVelocityAt (fun s => o.positionNow C a s none) (o.velocity m t) t := by
  have hd := (he.dpos t).ne'
  have hM : HasDerivAt o.meanAnom o.n t := by
    have := ((hw t).sub_const o.tref).mul_const o.n
    rw [one_mul] at this
    exact this
  have hE : HasDerivAt o.E ((1 - o.eccVal * cos (o.E t))⁻¹ * o.n) t :=
    (hasDerivAt_eccAnomaly he.nonneg he.lt_one (o.meanAnom t)).comp t hM
  have hx : HasDerivAt (fun s => a * (cos (o.E s) - o.eccVal))
      (a * (-sin (o.E t) * ((1 - o.eccVal * cos (o.E t))⁻¹ * o.n))) t :=
    ((hE.cos).sub_const _).const_mul a
  have hy : HasDerivAt (fun s => a * (o.se * sin (o.E s)))
      (a * (o.se * (cos (o.E t) * ((1 - o.eccVal * cos (o.E t))⁻¹ * o.n)))) t :=
    ((hE.sin).const_mul _).const_mul a
  have := hasVelocityAt_rotate (o := o) hx hy
  simp only [positionNow_eq he]
  rw [velocity_anom he]
  convert this using 2
  · rw [show -(o.K0 * m) * o.se = -(o.K0 * m * o.se) by ring, hK]; field_simp
  · rw [← he.se_sq, show o.K0 * m * o.se ^ 2 = (o.K0 * m * o.se) * o.se by ring, hK]; field_simp

/-- The code's acceleration is the derivative of the code's velocity when amplitudes match. -/
theorem hasVelocityAt_velocity (he : o.EccOk) {a m : ℝ} (ha : a ≠ 0) (hw : ∀ t, HasDerivAt o.warp 1 t)
    (hK : o.K0 * m * o.se = o.n * a) (t : ℝ) :
    HasVelocityAt (fun s => o.velocity m s) (o.acceleration a m t) t := by
  have hd := (he.dpos t).ne'
  have hM : HasDerivAt o.meanAnom o.n t := by
    have := ((hw t).sub_const o.tref).mul_const o.n
    rw [one_mul] at this
    exact this
  have hE : HasDerivAt o.E ((1 - o.eccVal * cos (o.E t))⁻¹ * o.n) t :=
    (hasDerivAt_eccAnomaly he.nonneg he.lt_one (o.meanAnom t)).comp t hM
  have hden : HasDerivAt (fun s => 1 - o.eccVal * cos (o.E s))
      (-(o.eccVal * (-sin (o.E t) * ((1 - o.eccVal * cos (o.E t))⁻¹ * o.n)))) t :=
    ((hE.cos).const_mul _).const_sub 1
  have hx := ((hE.sin).const_mul (-(o.K0 * m) * o.se)).div hden hd
  have hy := ((hE.cos).const_mul (o.K0 * m * (1 - o.eccVal ^ 2))).div hden hd
  have := hasVelocityAt_rotate (o := o) hx hy
  simp only [velocity_anom he]
  rw [acceleration_anom he]
  have hs := sin_sq_add_cos_sq (o.E t)
  have hse := he.se_sq
  have hn : o.n = o.K0 * m * o.se / a := by field_simp; linarith
  rw [hn] at this
  have e1 : -(o.K0 * m) ^ 2 * (1 - o.eccVal ^ 2) / a * (cos (o.E t) - o.eccVal) / (1 - o.eccVal * cos (o.E t)) ^ 3 =
      (-(o.K0 * m) * o.se * (cos (o.E t) * ((1 - o.eccVal * cos (o.E t))⁻¹ * (o.K0 * m * o.se / a))) *
            (1 - o.eccVal * cos (o.E t)) -
          -(o.K0 * m) * o.se * sin (o.E t) *
            -(o.eccVal * (-sin (o.E t) * ((1 - o.eccVal * cos (o.E t))⁻¹ * (o.K0 * m * o.se / a))))) /
        (1 - o.eccVal * cos (o.E t)) ^ 2 := by
    field_simp
    linear_combination (o.K0 ^ 2 * m ^ 2) * ((cos (o.E t) - o.eccVal) * hse - o.eccVal * o.se ^ 2 * hs)
  have e2 : -(o.K0 * m) ^ 2 * (1 - o.eccVal ^ 2) / a * (o.se * sin (o.E t)) / (1 - o.eccVal * cos (o.E t)) ^ 3 =
      (o.K0 * m * (1 - o.eccVal ^ 2) * (-sin (o.E t) * ((1 - o.eccVal * cos (o.E t))⁻¹ * (o.K0 * m * o.se / a))) *
            (1 - o.eccVal * cos (o.E t)) -
          o.K0 * m * (1 - o.eccVal ^ 2) * cos (o.E t) *
            -(o.eccVal * (-sin (o.E t) * ((1 - o.eccVal * cos (o.E t))⁻¹ * (o.K0 * m * o.se / a))))) /
        (1 - o.eccVal * cos (o.E t)) ^ 2 := by
    field_simp
    ring
  rw [e1, e2]
  exact this

theorem rotate_normSq (hp : o.Physical) (hi : o.sin_incl ^ 2 + o.cos_incl ^ 2 = 1) (x y : ℝ) :
    (o.rotate x y).normSq = x ^ 2 + y ^ 2 := by
  have h1 := hp.omega_sq
  have h2 := o.Omega_sq
  rw [rotate_eq]
  unfold V3.normSq
  simp only
  have e1 : ∀ u v : ℝ, (o.cW * u - o.sW * v) ^ 2 + (o.sW * u + o.cW * v) ^ 2 = u ^ 2 + v ^ 2 := by
    intro u v
    linear_combination (u ^ 2 + v ^ 2) * h2
  rw [e1]
  have e2 : ∀ w : ℝ, (o.cos_incl * w) ^ 2 + (-o.sin_incl * w) ^ 2 = w ^ 2 := by
    intro w; linear_combination w ^ 2 * hi
  rw [add_assoc, e2]
  linear_combination (x ^ 2 + y ^ 2) * h1

theorem rotate_smul (c x y : ℝ) : o.rotate (c * x) (c * y) = (o.rotate x y).smul c := by
  simp only [rotate_eq, V3.smul]
  congr 1 <;> ring

end Orbit
end Exo
