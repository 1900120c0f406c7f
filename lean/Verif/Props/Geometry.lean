import Verif.Lemmas.Motion2
import Verif.Lemmas.Demo

/-!
# C05-C07: impact parameter, reference transit, periastron
-/

namespace Exo
open Real

/-- Position angle of the node, `0` if `Omega` was not given. -/
def Orbit.nodeAngle (o : Orbit) : ℝ := o.Omega.getD 0

/-- The code's transit-phase formula is singular exactly when `sin ω = -1`. -/
def Orbit.Regular (o : Orbit) : Prop := ∀ p, o.ecc = some p → p.sin_omega ≠ -1

theorem Orbit.Regular.sw_ne {o : Orbit} (h : o.Regular) : o.sw ≠ -1 := by
  unfold Orbit.sw
  cases h' : o.ecc with
  | none => norm_num
  | some p => exact h p h'

theorem Orbit.cW_eq (o : Orbit) : o.cW = cos o.nodeAngle := by
  unfold Orbit.cW Orbit.nodeAngle; cases o.Omega <;> simp
theorem Orbit.sW_eq (o : Orbit) : o.sW = sin o.nodeAngle := by
  unfold Orbit.sW Orbit.nodeAngle; cases o.Omega <;> simp

/-! ## C05 -/

/-- **C05** (`b` and `incl` are two views of the same orbit). Replacing `b` by the reported `incl` rebuilds exactly the
same orbit; in particular `b`, `incl`, `cos_incl` agree. -/
theorem C05_b_to_incl (C : Consts) (A : Args) (o : Orbit) (h : keplerianInit C A = .ok o) (hp : o.Physical)
    (hd : A.duration = none) : keplerianInit C { A with b := none, incl := some (o.incl : Q) } = .ok o := by
  have B := built_of_init h
  have hdur : durationBlock A = .ok ⟨A.a, A.r_star, none, none⟩ := by
    unfold durationBlock; rw [hd]; cases A.ecc <;> rfl
  refine init_congr h rfl rfl ?_ rfl rfl rfl rfl ?_ B.time_block
  · rw [hdur]; unfold durationBlock; simp only [hd]; cases A.ecc <;> rfl
  · intro D hD
    rw [hdur] at hD
    cases hD
    have hk : o.dcosidb ≠ 0 := by
      rw [B.dcosidb_eq, B.inclFactor_eq]
      have := (B.one_add_esw_pos hp).ne'
      have := hp.eccOk.ome2_pos.ne'
      have := hp.r_star_pos.ne'
      have := hp.a_pos.ne'
      positivity
    have h1 := B.cos_incl_b hp
    have h2 := B.cos_incl_eq hp.cos_incl_abs
    have h3 : cos o.incl / o.dcosidb = o.b := by rw [← h2, h1]; field_simp
    simp [inclBlock, h3, h2]

/-- **C05**, converse: replacing `incl ∈ [0, π]` by the reported `b` rebuilds exactly the same orbit. -/
theorem C05_incl_to_b (C : Consts) (A : Args) (o : Orbit) (h : keplerianInit C A = .ok o) (hp : o.Physical)
    (hd : A.duration = none) (h0 : 0 ≤ o.incl) (h1 : o.incl ≤ π) :
    keplerianInit C { A with b := some (o.b : Q), incl := none } = .ok o := by
  have B := built_of_init h
  have hdur : durationBlock A = .ok ⟨A.a, A.r_star, none, none⟩ := by
    unfold durationBlock; rw [hd]; cases A.ecc <;> rfl
  refine init_congr h rfl rfl ?_ rfl rfl rfl rfl ?_ B.time_block
  · rw [hdur]; unfold durationBlock; simp only [hd]; cases A.ecc <;> rfl
  · intro D hD
    rw [hdur] at hD
    cases hD
    have h3 := B.cos_incl_b hp
    have h2 := B.cos_incl_eq hp.cos_incl_abs
    have h4 : arccos (o.dcosidb * o.b) = o.incl := by rw [← h3, h2, arccos_cos h0 h1]
    simp [inclBlock, h4, h3]

/-- **C05** (projected separation at the reference transit): away from `sin ω = -1` the sky-projected distance between
planet and star at `t0` is exactly `|b| r_star`. Missing: `sin ω = -1`, where it is false
(`C05_singular_counterexample`). -/
theorem C05_separation_at_t0_partial (C : Consts) (A : Args) (o : Orbit) (h : keplerianInit C A = .ok o)
    (hp : o.Physical) (hr : o.Regular) :
    √((o.relativePosition C o.t0).x ^ 2 + (o.relativePosition C o.t0).y ^ 2) = |o.b| * o.r_star := by
  have B := built_of_init h
  rw [B.relativePosition_t0 hp hr.sw_ne]
  simp only
  have := o.Omega_sq
  rw [show (o.sW * (o.b * o.r_star)) ^ 2 + (-o.cW * (o.b * o.r_star)) ^ 2 = (o.b * o.r_star) ^ 2 by
    linear_combination (o.b * o.r_star) ^ 2 * this, sqrt_sq_eq_abs, abs_mul, abs_of_pos hp.r_star_pos]

example (C : Consts) : ∃ A o, keplerianInit C A = .ok o ∧ o.Physical ∧ o.Regular ∧ A.duration = none ∧ o.b ≠ 0 ∧
    o.ecc.isSome ∧ 0 ≤ o.incl ∧ o.incl ≤ π := by
  obtain ⟨o, h, hp, -, -, -, h5, -, -, -, p, hpe, -, -, h8, -⟩ := demoEcc_ok C
  refine ⟨demoEcc, o, h, hp, ?_, rfl, by rw [h5]; norm_num, by rw [hpe]; rfl, ?_⟩
  · intro p' hp'
    rw [hpe] at hp'
    cases hp'
    rw [h8]; norm_num
  · cases h
    exact ⟨arccos_nonneg _, arccos_le_pi _⟩

/-- `KeplerianOrbit(a=10, period=1, b=0.5, ecc=0.5, sin_omega=-1, cos_omega=0)`: the singular case. -/
noncomputable def singularArgs : Args :=
  { a := some (10 : ℝ), period := some (1 : ℝ), b := some (1 / 2 : ℝ), ecc := some (1 / 2 : ℝ),
    sin_omega := some ((-1 : ℝ) : Q), cos_omega := some (0 : ℝ) }

theorem singular_ok (C : Consts) : ∃ o, keplerianInit C singularArgs = .ok o ∧ o.Physical ∧
    o.a = 10 ∧ o.period = 1 ∧ o.r_star = 1 ∧ o.b = 1 / 2 ∧ o.t0 = 0 ∧ o.cos_incl = 1 / 30 ∧ o.Omega = none ∧
    o.M0 = 0 ∧
    ∃ p, o.ecc = some p ∧ p.ecc = 1 / 2 ∧ p.sin_omega = -1 ∧ p.cos_omega = 0 := by
  have hG := C.G_pos
  have hg := C.gccPerSun_pos
  have hpi := pi_pos
  have h0 : Complex.arg { re := 0, im := 0 } = 0 := Complex.arg_zero
  refine ⟨_, rfl, ⟨?_, ?_, ?_, ?_, ?_, ?_, ?_, ?_, ?_, ?_⟩, ?_, ?_, ?_, ?_, ?_, ?_, ?_, ?_, ⟨_, rfl, ?_, ?_, ?_⟩⟩ <;>
    simp [inclFactorOf, M0Of, arctan2, h0] <;> try positivity
  · norm_num
  · rw [abs_of_nonneg] <;> norm_num
  · norm_num
  · simp [singularArgs]

theorem singular_relativePosition (C : Consts) (o : Orbit) (h : keplerianInit C singularArgs = .ok o) :
    o.relativePosition C o.t0 = ⟨0, 1 / 6, -o.sin_incl * 5⟩ := by
  obtain ⟨o', h', hp, ha, hP, hr, hb, ht, hci, hO, hM, p, hpe, he, hs, hc⟩ := singular_ok C
  rw [h] at h'
  cases h'
  have B := built_of_init h
  have hE : o.E o.t0 = 0 := by
    unfold Orbit.E
    apply eccAnomaly_unique hp.eccOk.nonneg hp.eccOk.lt_one
    rw [B.meanAnom_eq, B.t0_eq, add_sub_cancel_left, hM]; simp [keplerMap]
  change o.positionNow C (-o.a) o.t0 none = _
  rw [Orbit.positionNow_eq hp.eccOk, Orbit.rotate_eq, hE]
  simp [Orbit.sW, Orbit.cW, hO, Orbit.sw, Orbit.cw, hpe, hs, hc, Orbit.eccVal, he, ha, hci]
  constructor <;> norm_num

/-- **C05 is false for `sin ω = -1`**: there the separation at `t0` is not `|b| r_star`. -/
theorem C05_singular_counterexample (C : Consts) : ∃ A o, keplerianInit C A = .ok o ∧ o.Physical ∧
    √((o.relativePosition C o.t0).x ^ 2 + (o.relativePosition C o.t0).y ^ 2) ≠ |o.b| * o.r_star := by
  obtain ⟨o, h, hp, ha, hP, hr, hb, -⟩ := singular_ok C
  refine ⟨_, o, h, hp, ?_⟩
  rw [singular_relativePosition C o h, hb, hr]
  simp only
  rw [show ((0 : ℝ) ^ 2 + (1 / 6) ^ 2) = (1 / 6) ^ 2 by norm_num, sqrt_sq (by norm_num), abs_of_nonneg (by norm_num)]
  norm_num

/-! ## C06 -/

/-- **C06** (`t0 + k·period` is a transit), away from `sin ω = -1`: the planet is at conjunction (its coordinate along
the node direction vanishes) and in front of the star. The excluded case is false, see `C06_singular_counterexample`. -/
theorem C06_t0_is_transit_partial (C : Consts) (A : Args) (o : Orbit) (h : keplerianInit C A = .ok o)
    (hp : o.Physical) (hr : o.Regular) (hi : 0 < o.sin_incl) (k : ℤ) :
    (o.relativePosition C (o.t0 + k * o.period)).x * cos o.nodeAngle +
      (o.relativePosition C (o.t0 + k * o.period)).y * sin o.nodeAngle = 0 ∧
    0 < (o.relativePosition C (o.t0 + k * o.period)).z := by
  have B := built_of_init h
  have e : o.relativePosition C (o.t0 + k * o.period) = o.relativePosition C o.t0 := by
    change o.positionNow C (-o.a) (o.t0 + k * o.period) none = o.positionNow C (-o.a) o.t0 none
    unfold Orbit.positionNow
    rw [B.trueAnomaly_add_period hp]
  rw [e, B.relativePosition_t0 hp hr.sw_ne, o.cW_eq, o.sW_eq]
  simp only
  refine ⟨by ring, mul_pos hi (div_pos (mul_pos hp.a_pos hp.eccOk.ome2_pos) (B.one_add_esw_pos hp))⟩

example (C : Consts) : ∃ A o, keplerianInit C A = .ok o ∧ o.Physical ∧ o.Regular ∧ 0 < o.sin_incl ∧ o.ecc.isSome := by
  obtain ⟨o, h, hp, -, -, -, -, -, -, -, p, hpe, -, -, h8, -⟩ := demoEcc_ok C
  refine ⟨demoEcc, o, h, hp, ?_, ?_, by rw [hpe]; rfl⟩
  · intro p' hp'
    rw [hpe] at hp'
    cases hp'
    rw [h8]; norm_num
  · cases h
    simp only
    rw [sin_arccos]
    apply sqrt_pos.2
    simp [inclFactorOf]
    norm_num

/-- **C06 is false for `sin ω = -1`**: `KeplerianOrbit(a=10, period=1, b=0.5, ecc=0.5, sin_omega=-1, cos_omega=0)` has the
planet *behind* the star at `t0`. -/
theorem C06_singular_counterexample (C : Consts) : ∃ A o, keplerianInit C A = .ok o ∧ o.Physical ∧ 0 < o.sin_incl ∧
    (o.relativePosition C o.t0).z < 0 := by
  obtain ⟨o, h, hp, ha, hP, hr, hb, ht, hci, -⟩ := singular_ok C
  have hs : 0 < o.sin_incl := by
    have B := built_of_init h
    rw [B.sin_incl_eq]
    have : o.incl = arccos o.cos_incl := by
      cases h; rfl
    rw [this, sin_arccos, hci]
    apply sqrt_pos.2; norm_num
  refine ⟨_, o, h, hp, hs, ?_⟩
  rw [singular_relativePosition C o h]
  simp only
  linarith

/-! ## C07 -/

/-- **C07** (`t0` and `t_periastron` are interchangeable): rebuilding with the reported `t_periastron` instead of `t0`, or
with the reported `t0` instead of `t_periastron`, gives exactly the same orbit (hence the same positions at all
times). -/
theorem C07_interchangeable (C : Consts) (A : Args) (o : Orbit) (h : keplerianInit C A = .ok o) :
    keplerianInit C { A with t0 := none, t_periastron := some (o.t_periastron : Q) } = .ok o ∧
    keplerianInit C { A with t0 := some (o.t0 : Q), t_periastron := none } = .ok o := by
  have B := built_of_init h
  obtain ⟨mp, rho, D, -, -, hD, -, hi, -⟩ := B.inputs
  constructor
  · refine init_congr h rfl rfl rfl rfl rfl rfl rfl ?_ ?_
    · intro D' hD'
      rw [hD] at hD'; cases hD'
      exact hi
    · simp [timeBlock, B.t0_eq]
  · refine init_congr h rfl rfl rfl rfl rfl rfl rfl ?_ ?_
    · intro D' hD'
      rw [hD] at hD'; cases hD'
      exact hi
    · simp [timeBlock, B.t0_eq]

theorem relativePosition_normSq {C : Consts} {A : Args} {o : Orbit} (B : Built C A o) (hp : o.Physical) (t : ℝ) :
    (o.relativePosition C t).normSq = (o.a * (1 - o.eccVal * cos (o.E t))) ^ 2 := by
  change (o.positionNow C (-o.a) t none).normSq = _
  rw [Orbit.positionNow_eq hp.eccOk, Orbit.rotate_normSq hp (B.incl_sq hp)]
  have h1 := hp.eccOk.se_sq
  have h2 := sin_sq_add_cos_sq (o.E t)
  linear_combination o.a ^ 2 * sin (o.E t) ^ 2 * h1 + o.a ^ 2 * (1 - o.eccVal ^ 2) * h2

theorem relativePosition_norm {C : Consts} {A : Args} {o : Orbit} (B : Built C A o) (hp : o.Physical) (t : ℝ) :
    (o.relativePosition C t).norm = o.a * (1 - o.eccVal * cos (o.E t)) := by
  unfold V3.norm
  rw [relativePosition_normSq B hp, sqrt_sq (mul_nonneg hp.a_pos.le (hp.eccOk.dpos t).le)]

/-- **C07** (`t_periastron` is the periastron passage): the distance then is `a (1 - e)` and no time has a smaller one. -/
theorem C07_periastron (C : Consts) (A : Args) (o : Orbit) (h : keplerianInit C A = .ok o) (hp : o.Physical) :
    (o.relativePosition C o.t_periastron).norm = o.a * (1 - o.eccVal) ∧
    ∀ t, (o.relativePosition C o.t_periastron).norm ≤ (o.relativePosition C t).norm := by
  have B := built_of_init h
  have h1 : (o.relativePosition C o.t_periastron).norm = o.a * (1 - o.eccVal) := by
    rw [relativePosition_norm B hp, B.E_periastron hp]; simp
  refine ⟨h1, fun t => ?_⟩
  rw [h1, relativePosition_norm B hp]
  have := mul_le_mul_of_nonneg_left (cos_le_one (o.E t)) hp.eccOk.nonneg
  exact mul_le_mul_of_nonneg_left (by linarith) hp.a_pos.le

example (C : Consts) : ∃ A o, keplerianInit C A = .ok o ∧ o.Physical ∧ 0 < o.eccVal := by
  obtain ⟨o, h, hp, -, -, -, -, -, -, -, p, hpe, he, -⟩ := demoEcc_ok C
  exact ⟨demoEcc, o, h, hp, by rw [Orbit.eccVal, hpe]; simp [he]⟩

end Exo
