import Verif.Lemmas.InTransit
import Verif.Lemmas.Accept

/-!
# Orbits built from a transit duration
-/

namespace Exo
open Real

/-- Bare (unlabelled) keyword values of a circular orbit with a duration: `duration=d`, `period=P`, `b=b`, `ror=k` (`0` if
absent), `r_star=R` (`1` if absent). -/
structure Args.DurationCirc (A : Args) (d P b k R : ℝ) : Prop where
  ecc : A.ecc = none
  duration : A.duration = some (d : Q)
  period : A.period = some (P : Q)
  b : A.b = some (b : Q)
  ror : A.ror = some (k : Q) ∨ (A.ror = none ∧ k = 0)
  r_star : A.r_star = some (R : Q) ∨ (A.r_star = none ∧ R = 1)

theorem Built.durationCirc {C : Consts} {A : Args} {o : Orbit} (B : Built C A o) {d P b k R : ℝ}
    (h : A.DurationCirc d P b k R) :
    o.ecc = none ∧ o.period = P ∧ o.r_star = R ∧ o.b = b ∧ o.a = R * (aorFromDuration d P b (some k)).1 ∧
    o.cos_incl = o.dcosidb * b ∧ o.incl = arccos (o.dcosidb * b) ∧
    o.m_star = 4 * π * π * o.a ^ 3 / (C.G * P ^ 2) - o.m_planet ∧
    o.rho_star = o.m_star / (4 * π * R ^ 3 / 3) * C.gccPerSun ∧
    o.durJac = durJacOf C ⟨o.a, o.period, o.rho_star, o.r_star, o.m_star, o.m_planet⟩
      (some (aorFromDuration d P b (some k)).2) := by
  obtain ⟨mp, rho, D, h1, h2, hD, hI, hi, hJ⟩ := B.inputs
  have hk : aorFromDuration d P b (A.ror.map Q.val) = aorFromDuration d P b (some k) := by
    rcases h.ror with h3 | ⟨h3, rfl⟩ <;> rw [h3] <;> rfl
  have hR : A.r_star.getD ⟨1, none⟩ = (R : Q) := by
    rcases h.r_star with h3 | ⟨h3, rfl⟩ <;> rw [h3] <;> rfl
  have hDD : D = ⟨some ((R * (aorFromDuration d P b (some k)).1 : ℝ) : Q), some (R : Q), none,
      some (aorFromDuration d P b (some k)).2⟩ := by
    unfold durationBlock at hD
    rw [h.ecc, h.duration, h.period, h.b] at hD
    simp only [hR] at hD
    change Except.ok _ = _ at hD
    cases hD
    rw [← hk]
  subst hDD
  have hecc : o.ecc = none := by
    have := B.ecc_eq
    unfold eccBlock at this
    rw [h.ecc] at this
    simpa using this.symm
  unfold consistentInputs at hI
  rw [h.period] at hI
  rw [if_neg (by simp)] at hI
  split at hI
  · cases hI
  rename_i mp? hmp
  change impliedInputs C _ _ _ _ _ _ = _ at hI
  unfold impliedInputs at hI
  split at hI
  · cases hI
  change Except.ok _ = _ at hI
  simp only [Except.ok.injEq, Inputs.mk.injEq] at hI
  obtain ⟨i1, i2, i3, i4, i5, i6⟩ := hI
  unfold inclBlock at hi
  rw [h.b] at hi
  simp only at hi
  split at hi
  · cases hi
  simp only [Except.ok.injEq, Prod.mk.injEq] at hi
  obtain ⟨j1, j2, j3⟩ := hi
  refine ⟨hecc, i2.symm, i4.symm, j1.symm, i1.symm, j2.symm, j3.symm, ?_, ?_, hJ⟩
  · rw [← i5, ← i1, ← i6]
  · rw [← i3, ← i5]; rfl

/-- The geometry of `get_aor_from_transit_duration`. -/
theorem aorFromDuration_spec {d P b k : ℝ} (hP : 0 < P) (hd : 0 < d) (hdP : d ≤ P / 2)
    (hb : |b| ≤ 1 + k) :
    0 < π * d / P ∧ π * d / P ≤ π / 2 ∧ 0 < sin (π * d / P) ∧
    1 + k ≤ (aorFromDuration d P b (some k)).1 ∧
    (aorFromDuration d P b (some k)).1 ^ 2 * sin (π * d / P) ^ 2 = (1 + k) ^ 2 - b ^ 2 * cos (π * d / P) ^ 2 := by
  have hpi := pi_pos
  have h0 : 0 < π * d / P := by positivity
  have h1 : π * d / P ≤ π / 2 := by
    rw [div_le_iff₀ hP]; nlinarith
  have hs : 0 < sin (π * d / P) := sin_pos_of_pos_of_lt_pi h0 (by linarith)
  have hb2 : b ^ 2 ≤ (1 + k) ^ 2 := by
    rw [← sq_abs b]; exact pow_le_pow_left₀ (abs_nonneg _) hb 2
  have hsc := sin_sq_add_cos_sq (π * d / P)
  have hnum : 0 ≤ (1 + k) ^ 2 - b ^ 2 * cos (π * d / P) ^ 2 := by
    have := cos_sq_le_one (π * d / P)
    nlinarith [sq_nonneg b, sq_nonneg (cos (π * d / P))]
  have hsq : (aorFromDuration d P b (some k)).1 ^ 2 * sin (π * d / P) ^ 2 =
      (1 + k) ^ 2 - b ^ 2 * cos (π * d / P) ^ 2 := by
    simp only [aorFromDuration, Option.getD_some]
    rw [div_pow, sq_sqrt hnum, div_mul_cancel₀ _ (by positivity)]
  refine ⟨h0, h1, hs, ?_, hsq⟩
  have hnn : 0 ≤ (aorFromDuration d P b (some k)).1 := by
    simp only [aorFromDuration, Option.getD_some]
    positivity
  refine le_of_sq_le_sq ?_ hnn
  refine le_of_mul_le_mul_right ?_ (pow_pos hs 2)
  rw [hsq]
  nlinarith [sq_nonneg (cos (π * d / P))]

theorem Built.durationCirc_geom {C : Consts} {A : Args} {o : Orbit} (B : Built C A o) (hp : o.Physical)
    {d P b k R : ℝ} (h : A.DurationCirc d P b k R) (hd : 0 < d) (hdP : d ≤ P / 2) (hk : 0 < 1 + k) (hb : |b| < 1 + k) :
    0 < o.sin_incl ∧ R * (1 + k) ≤ o.a ∧
    (o.a * o.sin_incl) ^ 2 * sin (π * d / P) ^ 2 = R ^ 2 * ((1 + k) ^ 2 - b ^ 2) := by
  obtain ⟨e1, e2, e3, e4, e5, e6, e7, -⟩ := B.durationCirc h
  have hP : 0 < P := e2 ▸ hp.period_pos
  have hR : 0 < R := e3 ▸ hp.r_star_pos
  obtain ⟨g1, g2, g3, g4, g5⟩ := aorFromDuration_spec hP hd hdP hb.le
  have hrel := B.sin_incl_rel hp e1
  rw [e3, e4] at hrel
  have hb2 : b ^ 2 < (1 + k) ^ 2 := by
    rw [← sq_abs b]; exact pow_lt_pow_left₀ hb (abs_nonneg _) (by norm_num)
  have key : (o.a * o.sin_incl) ^ 2 * sin (π * d / P) ^ 2 = R ^ 2 * ((1 + k) ^ 2 - b ^ 2) := by
    have hsc := sin_sq_add_cos_sq (π * d / P)
    have : (o.a * o.sin_incl) ^ 2 = R ^ 2 * (aorFromDuration d P b (some k)).1 ^ 2 - (b * R) ^ 2 := by
      rw [← mul_pow R, ← e5]; linarith
    rw [this]
    linear_combination R ^ 2 * g5 - R ^ 2 * b ^ 2 * hsc
  refine ⟨?_, ?_, key⟩
  · have h0 : 0 ≤ o.sin_incl := by
      rw [B.sin_incl_eq, e7]
      exact sin_nonneg_of_nonneg_of_le_pi (arccos_nonneg _) (arccos_le_pi _)
    rcases h0.eq_or_lt with h1 | h1
    · rw [← h1] at key
      have : 0 < R ^ 2 * ((1 + k) ^ 2 - b ^ 2) := by
        have : 0 < (1 + k) ^ 2 - b ^ 2 := by linarith
        positivity
      rw [← key] at this
      simp at this
    · exact h1
  · rw [e5]; exact mul_le_mul_of_nonneg_left g4 hR.le

/-- Physical arguments give a physical orbit (the planet must weigh less than the implied total). -/
theorem Built.durationCirc_physical {C : Consts} {A : Args} {o : Orbit} (B : Built C A o)
    {d P b k R : ℝ} (h : A.DurationCirc d P b k R) (hP : 0 < P) (hR : 0 < R) (hd : 0 < d) (hdP : d ≤ P / 2)
    (hk : 0 < 1 + k) (hb : |b| ≤ 1 + k) (hm0 : 0 ≤ o.m_planet)
    (hm : o.m_planet < 4 * π * π * o.a ^ 3 / (C.G * P ^ 2)) : o.Physical := by
  obtain ⟨e1, e2, e3, e4, e5, e6, e7, e8, e9, -⟩ := B.durationCirc h
  obtain ⟨g1, g2, g3, g4, g5⟩ := aorFromDuration_spec hP hd hdP hb
  have hpi := pi_pos
  have hg := C.gccPerSun_pos
  have ha : 0 < o.a := by rw [e5]; nlinarith
  have hms : 0 < o.m_star := by rw [e8]; linarith
  refine ⟨e2 ▸ hP, ha, hms, hm0, e3 ▸ hR, ?_, ?_, ?_, ?_, ?_⟩
  · rw [e9]; positivity
  · rw [e1]; intro p hp; cases hp
  · rw [e1]; intro p hp; cases hp
  · rw [e1]; intro p hp; cases hp
  · rw [e6, B.dcosidb_eq, e1, inclFactorOf, e3, one_mul, abs_mul, abs_of_pos (by positivity), e5,
      div_mul_eq_div_div, div_self hR.ne', div_mul_eq_mul_div, one_mul, div_le_one (by linarith)]
    linarith

end Exo
