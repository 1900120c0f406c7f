import Verif.Props.Duration
import Verif.Props.LimbDark
import Verif.Props.VelocityFit
import Verif.Props.Astrometry
import Mathlib.MeasureTheory.Function.JacobianOneDim
import Mathlib.MeasureTheory.Integral.IntervalIntegral.Periodic
import Mathlib.MeasureTheory.Measure.Haar.Unique
import Mathlib.Analysis.SpecialFunctions.Trigonometric.Inverse

/-!
# C109: the Jacobians turn priors into priors
-/

namespace Exo
open Real MeasureTheory Set
open scoped ENNReal

/-- Change of variables. -/
theorem reparam {f f' : ℝ → ℝ} {S T : Set ℝ} (hS : MeasurableSet S) (hd : ∀ x ∈ S, HasDerivAt f (f' x) x) (hinj : InjOn f S)
    (hT : f '' S = T) (φ : ℝ → ℝ≥0∞) : ∫⁻ x in S, φ (f x) * ENNReal.ofReal |f' x| = ∫⁻ y in T, φ y := by
  rw [← hT, lintegral_image_eq_lintegral_abs_deriv_mul hS (fun x hx => (hd x hx).hasDerivWithinAt) hinj]
  simp only [mul_comm]

section
variable {P b k : ℝ} (hP : 0 < P) (hb : |b| < 1 + k)
include hP hb

theorem aor_sin {d : ℝ} (hd : d ∈ Ioo 0 (P / 2)) :
    0 < sin (π * d / P) ∧ sin (π * d / P) < 1 ∧ 1 + k ≤ (aorFromDuration d P b (some k)).1 ∧
      ((aorFromDuration d P b (some k)).1 ^ 2 - b ^ 2) * sin (π * d / P) ^ 2 = (1 + k) ^ 2 - b ^ 2 := by
  obtain ⟨g1, -, g3, g4, g5⟩ := aorFromDuration_spec hP hd.1 hd.2.le hb.le
  have hlt : π * d / P < π / 2 := by
    rw [div_lt_iff₀ hP]
    nlinarith [hd.2, pi_pos]
  refine ⟨g3, ?_, g4, ?_⟩
  · rw [← sin_pi_div_two]
    exact sin_lt_sin_of_lt_of_le_pi_div_two (by linarith [pi_pos]) le_rfl hlt
  · linear_combination g5 - b ^ 2 * sin_sq_add_cos_sq (π * d / P)

theorem aor_image : (fun d => (aorFromDuration d P b (some k)).1) '' Ioo 0 (P / 2) = Ioi (1 + k) := by
  have hpi := pi_pos
  have h0 := abs_nonneg b
  have hb2 : b ^ 2 < (1 + k) ^ 2 := by
    rw [← sq_abs b]; exact pow_lt_pow_left₀ hb h0 two_ne_zero
  ext y
  constructor
  · rintro ⟨d, hd, rfl⟩
    obtain ⟨h1, h2, h3, h4⟩ := aor_sin hP hb hd
    have hs2 : sin (π * d / P) ^ 2 < 1 := by nlinarith
    have hpos : 0 < (aorFromDuration d P b (some k)).1 ^ 2 - b ^ 2 := by
      have : (1 + k) ^ 2 ≤ (aorFromDuration d P b (some k)).1 ^ 2 := pow_le_pow_left₀ (by linarith) h3 2
      linarith
    have : (1 + k) ^ 2 < (aorFromDuration d P b (some k)).1 ^ 2 := by nlinarith
    exact lt_of_pow_lt_pow_left₀ 2 (by linarith) this
  · intro hy
    have hy' : 1 + k < y := hy
    have hyb : (1 + k) ^ 2 < y ^ 2 := pow_lt_pow_left₀ hy' (by linarith) two_ne_zero
    set x := √(((1 + k) ^ 2 - b ^ 2) / (y ^ 2 - b ^ 2)) with hx
    have hq : 0 < ((1 + k) ^ 2 - b ^ 2) / (y ^ 2 - b ^ 2) := div_pos (by linarith) (by linarith)
    have hx0 : 0 < x := sqrt_pos.2 hq
    have hx1 : x < 1 := by
      rw [hx, sqrt_lt' one_pos, one_pow, div_lt_one (by linarith)]
      linarith
    have hd : P / π * arcsin x ∈ Ioo 0 (P / 2) := by
      refine ⟨mul_pos (div_pos hP hpi) (arcsin_pos.2 hx0), ?_⟩
      have := arcsin_lt_pi_div_two.2 hx1
      rw [div_mul_eq_mul_div, div_lt_div_iff₀ hpi two_pos]
      nlinarith
    have hs : sin (π * (P / π * arcsin x) / P) = x := by
      rw [show π * (P / π * arcsin x) / P = arcsin x by field_simp, sin_arcsin (by linarith) hx1.le]
    refine ⟨_, hd, ?_⟩
    obtain ⟨-, -, h3, h4⟩ := aor_sin hP hb hd
    rw [hs, hx, sq_sqrt hq.le] at h4
    have hne : (1 + k) ^ 2 - b ^ 2 ≠ 0 := by linarith
    have hne' : y ^ 2 - b ^ 2 ≠ 0 := by linarith
    have h5 : (aorFromDuration (P / π * arcsin x) P b (some k)).1 ^ 2 = y ^ 2 := by
      rw [mul_div_assoc', div_eq_iff hne', mul_comm] at h4
      have := mul_left_cancel₀ hne h4
      linarith
    exact (pow_left_inj₀ (by linarith) (by linarith) two_ne_zero).1 h5

theorem aor_injOn : InjOn (fun d => (aorFromDuration d P b (some k)).1) (Ioo 0 (P / 2)) := by
  intro d hd d' hd' h
  have hpi := pi_pos
  have hb2 : b ^ 2 < (1 + k) ^ 2 := by
    rw [← sq_abs b]; exact pow_lt_pow_left₀ hb (abs_nonneg b) two_ne_zero
  obtain ⟨h1, h2, h3, h4⟩ := aor_sin hP hb hd
  obtain ⟨h1', h2', h3', h4'⟩ := aor_sin hP hb hd'
  simp only at h
  rw [← h] at h4'
  have hne : (aorFromDuration d P b (some k)).1 ^ 2 - b ^ 2 ≠ 0 := by
    intro h0
    rw [h0, zero_mul] at h4
    linarith
  have hs : sin (π * d / P) ^ 2 = sin (π * d' / P) ^ 2 := mul_left_cancel₀ hne (h4.trans h4'.symm)
  have hs' := (pow_left_inj₀ h1.le h1'.le two_ne_zero).1 hs
  have hm : ∀ {x}, x ∈ Ioo 0 (P / 2) → π * x / P ∈ Icc (-(π / 2)) (π / 2) := by
    intro x hx
    refine ⟨?_, ?_⟩
    · have : 0 < π * x / P := div_pos (mul_pos hpi hx.1) hP
      linarith
    · rw [div_le_iff₀ hP]
      nlinarith [hx.2]
  have := injOn_sin (hm hd) (hm hd') hs'
  field_simp at this
  exact this

theorem aor_deriv {d : ℝ} (hd : d ∈ Ioo 0 (P / 2)) :
    HasDerivAt (fun d => (aorFromDuration d P b (some k)).1) (aorFromDuration d P b (some k)).2 d ∧
      (aorFromDuration d P b (some k)).2 < 0 := by
  have hpi := pi_pos
  have hb2 : b ^ 2 < (1 + k) ^ 2 := by
    rw [← sq_abs b]; exact pow_lt_pow_left₀ hb (abs_nonneg b) two_ne_zero
  obtain ⟨h1, h2, h3, h4⟩ := aor_sin hP hb hd
  have hn : b ^ 2 * cos (π * d / P) ^ 2 < (1 + k) ^ 2 := by
    have := cos_sq_le_one (π * d / P)
    nlinarith [sq_nonneg b]
  refine ⟨C25_aor_derivative d P b (some k) hP h1.ne' (by simpa using hn), ?_⟩
  have hc : 0 < cos (π * d / P) := by
    refine cos_pos_of_mem_Ioo ⟨?_, ?_⟩
    · have : 0 < π * d / P := div_pos (mul_pos hpi hd.1) hP
      linarith
    · rw [div_lt_iff₀ hP]
      nlinarith [hd.2]
  have hq : 0 < √((1 + k) ^ 2 - b ^ 2 * cos (π * d / P) ^ 2) := sqrt_pos.2 (by linarith)
  simp only [aorFromDuration, Option.getD_some]
  refine div_neg_of_neg_of_pos ?_ (by positivity)
  exact mul_neg_of_pos_of_neg (by positivity) (by linarith)

end

/-- The density of the star around which a planet of mass `m` has period `P` on an orbit of semi-major axis `a`, in g/cm³. -/
noncomputable def densityFor (C : Consts) (P R m a : ℝ) : ℝ := (4 * π * π * a ^ 3 / (C.G * P ^ 2) - m) / (4 * π * R ^ 3 / 3) * C.gccPerSun

theorem densityFor_strictMono (C : Consts) {P R : ℝ} (m : ℝ) (hP : 0 < P) (hR : 0 < R) : StrictMonoOn (densityFor C P R m) (Ici 0) := by
  intro x hx y hy hxy
  have hG := C.G_pos
  have hg := C.gccPerSun_pos
  have hpi := pi_pos
  have h3 : x ^ 3 < y ^ 3 := pow_lt_pow_left₀ hxy hx (by norm_num)
  unfold densityFor
  have hk : 0 < 4 * π * π / (C.G * P ^ 2) := by positivity
  have : 4 * π * π * x ^ 3 / (C.G * P ^ 2) < 4 * π * π * y ^ 3 / (C.G * P ^ 2) := by
    rw [mul_div_right_comm (4 * π * π), mul_div_right_comm (4 * π * π)]
    exact mul_lt_mul_of_pos_left h3 hk
  refine mul_lt_mul_of_pos_right ?_ hg
  exact div_lt_div_of_pos_right (by linarith) (by positivity)

theorem densityFor_image (C : Consts) {P R : ℝ} (m : ℝ) (hP : 0 < P) (hR : 0 < R) {a₀ : ℝ} (ha : 0 ≤ a₀) :
    densityFor C P R m '' Ioi a₀ = Ioi (densityFor C P R m a₀) := by
  have hG := C.G_pos
  have hg := C.gccPerSun_pos
  have hpi := pi_pos
  ext ρ
  constructor
  · rintro ⟨a, h, rfl⟩
    exact densityFor_strictMono C m hP hR ha (le_trans ha (le_of_lt h)) h
  · intro h
    set q := (ρ / C.gccPerSun * (4 * π * R ^ 3 / 3) + m) * (C.G * P ^ 2) / (4 * π * π) with hq
    have hval : ∀ a, a ^ 3 = q → densityFor C P R m a = ρ := by
      intro a ha3
      unfold densityFor
      rw [ha3, hq]
      field_simp
      ring
    have h0 : a₀ ^ 3 < q := by
      have h' : densityFor C P R m a₀ < ρ := h
      unfold densityFor at h'
      rw [← lt_div_iff₀ hg, div_lt_iff₀ (by positivity), sub_lt_iff_lt_add, div_lt_iff₀ (by positivity)] at h'
      rw [hq, lt_div_iff₀ (by positivity)]
      linarith
    have hq0 : 0 ≤ q := le_trans (pow_nonneg ha 3) h0.le
    have hc : (q ^ ((1 : ℝ) / 3)) ^ 3 = q := by
      rw [← rpow_natCast, ← rpow_mul hq0]
      norm_num
    refine ⟨q ^ ((1 : ℝ) / 3), ?_, hval _ hc⟩
    refine lt_of_pow_lt_pow_left₀ 3 (rpow_nonneg hq0 _) ?_
    rw [hc]
    exact h0

/-- The planet mass does not depend on the duration. -/
theorem m_planet_fixed {C : Consts} {A : Args} {o : ℝ → Orbit}
    (h : ∀ x : ℝ, keplerianInit C { A with duration := some (x : Q) } = .ok (o x)) (x d : ℝ) : (o x).m_planet = (o d).m_planet := by
  have hh : ∀ y, ∃ mp, applyUnitKw A.m_planet A.m_planet_units = .ok mp ∧ ∃ v, toUnitOpt mp C.mSun = .ok v ∧
      (o y).m_planet = v.getD 0 := by
    intro y
    obtain ⟨mp, rho, D, h1, h2, hD, hI, -⟩ := (built_of_init (h y)).inputs
    refine ⟨mp, h1, ?_⟩
    unfold consistentInputs at hI
    split at hI; · cases hI
    split at hI; · cases hI
    rename_i v hv
    refine ⟨v, hv, ?_⟩
    split at hI; · cases hI
    split at hI; · cases hI
    split at hI
    · unfold impliedInputs at hI
      split at hI; · cases hI
      split at hI; · cases hI
      simp only [Except.ok.injEq, Inputs.mk.injEq] at hI
      exact hI.2.2.2.2.2.symm
    · unfold finishInputs at hI
      split at hI; · cases hI
      split at hI; · cases hI
      split at hI; · cases hI
      split at hI; · cases hI
      split at hI; · cases hI
      split at hI
      · simp only [Except.ok.injEq, Inputs.mk.injEq] at hI
        exact hI.2.2.2.2.2.symm
      · simp only [Except.ok.injEq, Inputs.mk.injEq] at hI
        exact hI.2.2.2.2.2.symm
      · cases hI
  obtain ⟨mp, h1, v, h2, h3⟩ := hh x
  obtain ⟨mp', h1', v', h2', h3'⟩ := hh d
  rw [h1] at h1'; cases h1'
  rw [h2] at h2'; cases h2'
  rw [h3, h3']

/-- **C109** (durations): if a circular orbit is parametrised with its transit duration and the absolute value of
`jacobians["duration"]["a"]` is a factor of the density, the semi-major axis has the distribution that was asked for; the same for
`jacobians["duration"]["rho_star"]` and the stellar density. All semi-major axes at which the planet is clear of the star are reached,
each by one duration below half a period. The Jacobians themselves are negative, so that their logarithms are NaN. -/
theorem C109_duration (C : Consts) (A : Args) (o : ℝ → Orbit) (P b k R : ℝ)
    (hA : ∀ x : ℝ, ({ A with duration := some (x : Q) } : Args).DurationCirc x P b k R)
    (h : ∀ x : ℝ, keplerianInit C { A with duration := some (x : Q) } = .ok (o x)) (hp : ∀ d ∈ Ioo 0 (P / 2), (o d).Physical)
    (hP : 0 < P) (hR : 0 < R) (hb : |b| < 1 + k) (φ : ℝ → ℝ≥0∞) :
    ∃ J : ℝ → DurationJac, (∀ d ∈ Ioo 0 (P / 2), (o d).durJac = some (J d) ∧ (J d).a < 0 ∧ (J d).rho_star < 0) ∧
      ∫⁻ d in Ioo 0 (P / 2), φ (o d).a * ENNReal.ofReal |(J d).a| = ∫⁻ a in Ioi (R * (1 + k)), φ a ∧
      ∫⁻ d in Ioo 0 (P / 2), φ (o d).rho_star * ENNReal.ofReal |(J d).rho_star| =
        ∫⁻ ρ in Ioi (densityFor C P R (o (P / 4)).m_planet (R * (1 + k))), φ ρ := by
  have B : ∀ x, _ := fun x => (built_of_init (h x)).durationCirc (hA x)
  have hG := C.G_pos
  have hg := C.gccPerSun_pos
  have hpi := pi_pos
  have h0 := abs_nonneg b
  set m := (o (P / 4)).m_planet
  have ha : ∀ d, (o d).a = R * (aorFromDuration d P b (some k)).1 := fun d => (B d).2.2.2.2.1
  have hrho : ∀ d, (o d).rho_star = densityFor C P R m (o d).a := by
    intro d
    obtain ⟨-, -, -, -, -, -, -, f8, f9, -⟩ := B d
    rw [f9, f8, m_planet_fixed h d (P / 4)]
    rfl
  have hapos : ∀ d ∈ Ioo 0 (P / 2), 0 < (o d).a := fun d hd => (hp d hd).a_pos
  have hJ : ∀ d, ∃ J, d ∈ Ioo 0 (P / 2) → (o d).durJac = some J ∧ HasDerivAt (fun x => (o x).a) J.a d ∧
      HasDerivAt (fun x => (o x).rho_star) J.rho_star d ∧ J.a < 0 ∧ J.rho_star < 0 := by
    intro d
    by_cases hd : d ∈ Ioo 0 (P / 2)
    · have hb2 : b ^ 2 < (1 + k) ^ 2 := by
        rw [← sq_abs b]; exact pow_lt_pow_left₀ hb h0 two_ne_zero
      have hcos : b ^ 2 * cos (π * d / P) ^ 2 < (1 + k) ^ 2 := by
        have := cos_sq_le_one (π * d / P)
        nlinarith [sq_nonneg b]
      obtain ⟨J, j1, j2, j3, -⟩ := C25_jacobians_duration_partial C A o P b k R d hA h (hp d hd) (aor_sin hP hb hd).1.ne' hcos
      refine ⟨J, fun _ => ⟨j1, j2, j3, ?_⟩⟩
      obtain ⟨e1, e2, e3, -, -, -, -, -, -, e10⟩ := B d
      rw [e10] at j1
      have hneg := (aor_deriv hP hb hd).2
      have ha' := hapos d hd
      have := Option.some.inj j1
      rw [← this]
      simp only [e2, e3]
      refine ⟨mul_neg_of_pos_of_neg hR hneg, div_neg_of_neg_of_pos ?_ (by positivity)⟩
      refine mul_neg_of_neg_of_pos (mul_neg_of_pos_of_neg ?_ hneg) hg
      positivity
    · exact ⟨⟨0, 0, 0, 0⟩, fun h => absurd h hd⟩
  choose J hJ using hJ
  refine ⟨J, fun d hd => ⟨(hJ d hd).1, (hJ d hd).2.2.2⟩, ?_, ?_⟩
  · refine reparam measurableSet_Ioo (fun d hd => (hJ d hd).2.1) ?_ ?_ φ
    · intro d hd d' hd' hdd
      simp only [ha] at hdd
      exact aor_injOn hP hb hd hd' (mul_left_cancel₀ hR.ne' hdd)
    · have e : (fun x => (o x).a) = (fun y => R * y) ∘ fun d => (aorFromDuration d P b (some k)).1 := funext ha
      rw [e, image_comp, aor_image hP hb]
      exact image_mul_left_Ioi hR _
  · refine reparam measurableSet_Ioo (fun d hd => (hJ d hd).2.2.1) ?_ ?_ φ
    · intro d hd d' hd' hdd
      simp only [hrho] at hdd
      have := (densityFor_strictMono C m hP hR).injOn (hapos d hd).le (hapos d' hd').le hdd
      rw [ha, ha] at this
      exact aor_injOn hP hb hd hd' (mul_left_cancel₀ hR.ne' this)
    · have e : (fun x => (o x).rho_star) = densityFor C P R m ∘ (fun y => R * y) ∘ fun d => (aorFromDuration d P b (some k)).1 :=
        funext fun d => by rw [hrho, ha]; rfl
      rw [e, image_comp, image_comp, aor_image hP hb, image_mul_left_Ioi hR,
        densityFor_image C m hP hR (mul_nonneg hR.le (by linarith))]

/-- `KeplerianOrbit(period=1, duration=x, b=0, m_planet=0)` for all durations below half a period. -/
example (C : Consts) : ∃ (A : Args) (o : ℝ → Orbit),
    (∀ x : ℝ, ({ A with duration := some (x : Q) } : Args).DurationCirc x 1 0 0 1) ∧
    (∀ x : ℝ, keplerianInit C { A with duration := some (x : Q) } = .ok (o x)) ∧ (∀ d ∈ Ioo (0 : ℝ) (1 / 2), (o d).Physical) ∧
    |(0 : ℝ)| < 1 + 0 := by
  obtain ⟨o, ho, hom, hD⟩ := durFamily_ok C 0
  refine ⟨durFamily 0 0, o, hD, ho, fun d hd => ?_, by norm_num⟩
  obtain ⟨g1, g2, g3, g4, g5⟩ := aorFromDuration_spec (d := d) (P := 1) (b := 0) (k := 0) one_pos hd.1 hd.2.le (by norm_num)
  have B := built_of_init (ho d)
  have ha : 0 < (o d).a := by rw [(B.durationCirc (hD d)).2.2.2.2.1]; linarith
  have hG := C.G_pos
  exact B.durationCirc_physical (hD d) one_pos one_pos hd.1 hd.2.le (by norm_num) (by norm_num) (hom d).ge
    (by rw [hom]; positivity)

theorem Built.dcosidb_pos {C : Consts} {A : Args} {o : Orbit} (B : Built C A o) (hp : o.Physical) : 0 < o.dcosidb := by
  have ha := hp.a_pos
  have hr := hp.r_star_pos
  have hf : 0 < inclFactorOf o.ecc := by
    unfold inclFactorOf
    split
    · exact one_pos
    · rename_i p he
      have h0 := hp.ecc_nonneg p he
      have h1 := hp.ecc_lt_one p he
      have hu := hp.omega_unit p he
      have hs : -1 ≤ p.sin_omega := by nlinarith [sq_nonneg p.cos_omega]
      exact div_pos (by nlinarith) (by nlinarith)
  rw [B.dcosidb_eq]
  positivity

/-- **C109** (impact parameters): for orbits without a duration, the absolute value of `jacobians["b"]["cos_incl"]` turns a density for
`cos i` into one for the impact parameter. -/
theorem C109_impact (C : Consts) (A : Args) (o : ℝ → Orbit) (hA : ¬ A.CircDuration)
    (h : ∀ x : ℝ, keplerianInit C { A with b := some (x : Q) } = .ok (o x)) (hp : (o 0).Physical) (φ : ℝ → ℝ≥0∞) :
    ∫⁻ b, φ (o b).cos_incl * ENNReal.ofReal |(o b).dcosidb| = ∫⁻ c, φ c := by
  have key : ∀ x, (o x).dcosidb = (o 0).dcosidb ∧ (o x).cos_incl = (o 0).dcosidb * x := by
    intro x
    have Bx := built_of_init (h x)
    have Bb := built_of_init (h 0)
    obtain ⟨mp, rho, D, h1, h2, hD, hI, hi, -⟩ := Bx.inputs
    obtain ⟨mp', rho', D', h1', h2', hD', hI', -⟩ := Bb.inputs
    rw [h1] at h1'; cases h1'
    rw [h2] at h2'; cases h2'
    rw [durationBlock_not_circ (by exact hA)] at hD hD'
    cases hD
    cases hD'
    simp only at hI hI'
    rw [hI] at hI'
    simp only [Except.ok.injEq, Inputs.mk.injEq] at hI'
    have he : (o x).ecc = (o 0).ecc := by
      have e1 := Bx.ecc_eq
      have e2 := Bb.ecc_eq
      unfold eccBlock at e1 e2
      simp only at e1 e2
      rw [e1] at e2
      exact Except.ok.inj e2
    have hd : (o x).dcosidb = (o 0).dcosidb := by
      rw [Bx.dcosidb_eq, Bb.dcosidb_eq, he, hI'.1, hI'.2.2.2.1]
    refine ⟨hd, ?_⟩
    unfold inclBlock at hi
    simp only at hi
    split at hi
    · cases hi
    · simp only [Except.ok.injEq, Prod.mk.injEq] at hi
      rw [← hi.2.1, hd]
  have hc := (built_of_init (h 0)).dcosidb_pos hp
  have hder : ∀ x ∈ (univ : Set ℝ), HasDerivAt (fun x => (o x).cos_incl) (o x).dcosidb x :=
    fun x _ => C25_dcosidb_partial C A o x hA h
  have := reparam MeasurableSet.univ hder (T := univ) ?_ ?_ φ
  · simpa using this
  · intro x _ y _ hxy
    simp only [key] at hxy
    exact mul_left_cancel₀ hc.ne' hxy
  · rw [image_univ]
    refine Set.eq_univ_of_forall fun y => ⟨y / (o 0).dcosidb, ?_⟩
    simp only [key]
    field_simp

/-- `KeplerianOrbit(a=10, period=1, b=x, ecc=0.5, omega=0, Omega=1, t0=3)` for all impact parameters. -/
example (C : Consts) : ∃ o : ℝ → Orbit, ¬ demoEcc.CircDuration ∧
    (∀ x : ℝ, keplerianInit C { demoEcc with b := some (x : Q) } = .ok (o x)) ∧ (o 0).Physical := by
  have hG := C.G_pos
  have hg := C.gccPerSun_pos
  have hpi := pi_pos
  choose o ho using fun x : ℝ => show ∃ o : Orbit, keplerianInit C { demoEcc with b := some (x : Q) } = .ok o ∧
      (x = 0 → o.Physical) from by
    refine ⟨_, rfl, fun hx => ⟨?_, ?_, ?_, ?_, ?_, ?_, ?_, ?_, ?_, ?_⟩⟩ <;> simp [inclFactorOf, hx] <;> try positivity
    norm_num
  refine ⟨o, ?_, fun x => (ho x).1, (ho 0).2 rfl⟩
  simp [Args.CircDuration, demoEcc]

/-- **C109** (depths): the Jacobian of `get_ror_from_approx_transit_depth` turns a density for the radius ratio into one for the approximate
transit depth. -/
theorem C109_depth (u1 u2 b : ℝ) (hb : |b| < 1) (hf : 0 < quadLaw u1 u2 √(1 - b ^ 2)) (h0 : 0 < ∫ p in starDisc, quadLaw u1 u2 (muAt p))
    (φ : ℝ → ℝ≥0∞) :
    ∫⁻ δ in Ioi 0, φ ((LimbDark.new u1 u2).rorFromDepth δ b).1 * ENNReal.ofReal |((LimbDark.new u1 u2).rorFromDepth δ b).2| =
      ∫⁻ r in Ioi 0, φ r := by
  have hpi := pi_pos
  have e0 : (∫ p in starDisc, quadLaw u1 u2 (muAt p)) / π = 1 - 2 * u1 / 6 - 2 * u2 / 12 := by
    rw [C36_disc_integral]; field_simp; ring
  have hf0 : 0 < 1 - 2 * u1 / 6 - 2 * u2 / 12 := by rw [← e0]; positivity
  refine reparam measurableSet_Ioi (fun δ hδ => C41_jacobian u1 u2 δ b hb hδ hf h0) ?_ ?_ φ
  · intro δ hδ δ' hδ' h
    have h1 := ((C41_inverse u1 u2 δ b _ hb hδ hf h0).1 rfl).2
    have h2 := ((C41_inverse u1 u2 δ' b _ hb hδ' hf h0).1 rfl).2
    simp only at h
    rw [← h1, h, h2]
  · ext r
    constructor
    · rintro ⟨δ, hδ, rfl⟩
      obtain ⟨g1, g2⟩ := (C41_inverse u1 u2 δ b _ hb hδ hf h0).1 rfl
      refine lt_of_le_of_ne g1 fun hz => ?_
      rw [← hz] at g2
      simp only [ne_eq, OfNat.ofNat_ne_zero, not_false_eq_true, zero_pow, zero_mul, zero_div] at g2
      exact absurd g2 (ne_of_lt hδ)
    · intro hr
      have hr' : 0 < r := hr
      have hδ : 0 < r ^ 2 * quadLaw u1 u2 √(1 - b ^ 2) / ((∫ p in starDisc, quadLaw u1 u2 (muAt p)) / π) := by positivity
      exact ⟨_, hδ, (C41_inverse u1 u2 _ b r hb hδ hf h0).2 ⟨hr'.le, rfl⟩⟩

/-! ## Sums and differences of angles -/

instance : Fact (0 < 2 * π) := ⟨two_pi_pos⟩

/-- The hypotheses hold for `u = (0.3, 0.2)` and all positions on the star. -/
example (b : ℝ) (hb : |b| < 1) : 0 < quadLaw 0.3 0.2 √(1 - b ^ 2) ∧ 0 < ∫ p in starDisc, quadLaw 0.3 0.2 (muAt p) := by
  refine ⟨?_, ?_⟩
  · unfold quadLaw
    have h1 := sqrt_nonneg (1 - b ^ 2 : ℝ)
    have h2 : √(1 - b ^ 2 : ℝ) ≤ 1 := by rw [sqrt_le_left zero_le_one]; nlinarith [sq_nonneg b]
    nlinarith
  · rw [C36_disc_integral]
    exact mul_pos pi_pos (by norm_num)

/-- Sum and difference of two independent uniform angles are independent uniform angles. -/
theorem torus_preserving : MeasurePreserving (fun x : AddCircle (2 * π) × AddCircle (2 * π) => (x.1 - x.2, x.1 + x.2))
    (volume.prod volume) (volume.prod volume) := by
  let f : AddCircle (2 * π) × AddCircle (2 * π) →+ AddCircle (2 * π) × AddCircle (2 * π) :=
    { toFun := fun x => (x.1 - x.2, x.1 + x.2)
      map_zero' := by simp
      map_add' := fun x y => by
        ext
        · simp only [Prod.fst_add, Prod.snd_add]; abel
        · simp only [Prod.fst_add, Prod.snd_add]; abel }
  have hsurj : Function.Surjective f := by
    rintro ⟨u, v⟩
    obtain ⟨a, rfl⟩ := QuotientAddGroup.mk_surjective u
    obtain ⟨b, rfl⟩ := QuotientAddGroup.mk_surjective v
    refine ⟨(((a + b) / 2 : ℝ), ((b - a) / 2 : ℝ)), ?_⟩
    show (((((a + b) / 2 : ℝ) : AddCircle (2 * π)) - (((b - a) / 2 : ℝ) : AddCircle (2 * π)),
      (((a + b) / 2 : ℝ) : AddCircle (2 * π)) + (((b - a) / 2 : ℝ) : AddCircle (2 * π))) : AddCircle (2 * π) × AddCircle (2 * π)) = _
    rw [← AddCircle.coe_sub, ← AddCircle.coe_add, show (a + b) / 2 - (b - a) / 2 = a by ring, show (a + b) / 2 + (b - a) / 2 = b by ring]
  have hcont : Continuous f := (continuous_fst.sub continuous_snd).prodMk (continuous_fst.add continuous_snd)
  exact AddMonoidHom.measurePreserving (f := f) hcont hsurj rfl

/-- The same for the angles in `(-π, π]` that the package samples. -/
theorem uniform_angles {φ : ℝ → ℝ → ℝ≥0∞} (hφ : Measurable (Function.uncurry φ)) (h1 : ∀ x y, φ (x + 2 * π) y = φ x y)
    (h2 : ∀ x y, φ x (y + 2 * π) = φ x y) :
    ∫⁻ p in Ioc (-π) π, ∫⁻ m in Ioc (-π) π, φ (p - m) (p + m) = ∫⁻ w in Ioc (-π) π, ∫⁻ W in Ioc (-π) π, φ w W := by
  have hpi : -π + 2 * π = π := by ring
  -- the function on the torus
  let Φ : AddCircle (2 * π) × AddCircle (2 * π) → ℝ≥0∞ := fun x => φ (AddCircle.equivIoc (2 * π) (-π) x.1) (AddCircle.equivIoc (2 * π) (-π) x.2)
  have hΦ : Measurable Φ := by
    have hm : Measurable fun x : AddCircle (2 * π) => ((AddCircle.equivIoc (2 * π) (-π) x : Ioc (-π) (-π + 2 * π)) : ℝ) :=
      measurable_subtype_coe.comp (AddCircle.measurableEquivIoc (2 * π) (-π)).measurable
    exact hφ.comp ((hm.comp measurable_fst).prodMk (hm.comp measurable_snd))
  have hΦ' : Measurable fun x : AddCircle (2 * π) × AddCircle (2 * π) => Φ (x.1 - x.2, x.1 + x.2) := hΦ.comp torus_preserving.measurable
  have hval : ∀ x y : ℝ, Φ (x, y) = φ x y := by
    intro x y
    have hcoe : ∀ z : ℝ, ((AddCircle.equivIoc (2 * π) (-π) (z : AddCircle (2 * π)) : Ioc (-π) (-π + 2 * π)) : ℝ) =
        z - toIocDiv two_pi_pos (-π) z • (2 * π) := fun z => rfl
    have p1 : ∀ y, Function.Periodic (fun x => φ x y) (2 * π) := fun y x => h1 x y
    have p2 : ∀ x, Function.Periodic (fun y => φ x y) (2 * π) := fun x y => h2 x y
    show φ _ _ = _
    rw [hcoe, hcoe, (p1 _).sub_zsmul_eq, (p2 _).sub_zsmul_eq]
  have hmk := AddCircle.measurePreserving_mk (2 * π) (-π)
  rw [hpi] at hmk
  have hmk2 := hmk.prod hmk
  have e1 : ∫⁻ p in Ioc (-π) π, ∫⁻ m in Ioc (-π) π, φ (p - m) (p + m) = ∫⁻ x, Φ (x.1 - x.2, x.1 + x.2) ∂(volume.prod volume) := by
    rw [← hmk2.lintegral_comp (f := fun x : AddCircle (2 * π) × AddCircle (2 * π) => Φ (x.1 - x.2, x.1 + x.2)) hΦ', lintegral_prod]
    · refine lintegral_congr fun p => lintegral_congr fun m => ?_
      rw [← hval]
      rfl
    · exact (hΦ'.comp hmk2.measurable).aemeasurable
  have e2 : ∫⁻ w in Ioc (-π) π, ∫⁻ W in Ioc (-π) π, φ w W = ∫⁻ x, Φ x ∂(volume.prod volume) := by
    rw [← hmk2.lintegral_comp hΦ, lintegral_prod]
    · refine lintegral_congr fun p => lintegral_congr fun m => ?_
      rw [← hval]
      rfl
    · exact (hΦ.comp hmk2.measurable).aemeasurable
  rw [e1, e2, ← torus_preserving.lintegral_comp hΦ]

/-- **C109** (the astrometry tutorial): the tutorial samples two independent uniform angles and takes their difference for the argument of
periastron and their sum for the position angle of the node. For all likelihoods of separations and position angles, this is the same as
sampling the argument of periastron and the position angle of the node uniformly. -/
theorem C109_astrometry (C : Consts) (logP logA tperi : ℝ) {e ci : ℝ} (h0 : 0 ≤ e) (h1 : e < 1) (c0 : -1 ≤ ci) (c1 : ci ≤ 1) :
    ∃ o o' : ℝ → ℝ → Orbit, (∀ plus minus, keplerianInit C (astroArgs logP logA e tperi plus minus ci) = .ok (o plus minus)) ∧
      (∀ w W : ℝ, keplerianInit C
        { a := some (exp logA : ℝ), period := some (exp logP : ℝ), t_periastron := some (tperi : ℝ), incl := some (arccos ci : ℝ),
          ecc := some (e : ℝ), omega := some (w : ℝ), Omega := some (W : ℝ) } = .ok (o' w W)) ∧
      ∀ (n : ℕ) (t : Fin n → ℝ) (L : (Fin n → ℝ × ℝ) → ℝ≥0∞), Measurable L →
        ∫⁻ plus in Ioc (-π) π, ∫⁻ minus in Ioc (-π) π, L (fun i => (o plus minus).relativeAngles C (t i)) =
          ∫⁻ w in Ioc (-π) π, ∫⁻ W in Ioc (-π) π, L fun i => (o' w W).relativeAngles C (t i) := by
  choose o ho using fun plus minus => astroArgs_ok C logP logA tperi plus minus h0 h1 c0 c1
  refine ⟨o, fun w W => o ((w + W) / 2) ((W - w) / 2), fun p m => (ho p m).1, fun w W => ?_, fun n ts L hL => ?_⟩
  · have := (ho ((w + W) / 2) ((W - w) / 2)).1
    rw [← this]
    unfold astroArgs
    rw [show (w + W) / 2 - (W - w) / 2 = w by ring, show (w + W) / 2 + (W - w) / 2 = W by ring]
  · have same : ∀ p m p' m', cos (p' - m') = cos (p - m) → sin (p' - m') = sin (p - m) → cos (p' + m') = cos (p + m) →
        sin (p' + m') = sin (p + m) → (fun t => (o p' m').relativeAngles C t) = fun t => (o p m).relativeAngles C t := by
      intro p m p' m' k1 k2 k3 k4
      obtain ⟨a, hp, a1, a2, a3, a4, a5, -, a6, a7, a8⟩ := ho p m
      obtain ⟨b, hp', b1, b2, b3, b4, b5, -, b6, b7, b8⟩ := ho p' m'
      have := (C103_half_turn a hp b hp' (b1.trans a1.symm) (b3.trans a3.symm) (b2.trans a2.symm) (b5.trans a5.symm)
        ⟨0, by rw [b4, a4]; simp⟩).1 ⟨1, Or.inl rfl, by rw [b6, a6, k1]; ring, by rw [b7, a7, k2]; ring,
          by rw [b8, a8]; simp only [Option.getD_some]; rw [k3]; ring, by rw [b8, a8]; simp only [Option.getD_some]; rw [k4]; ring⟩
      exact funext fun t => (this t).symm
    have hmeas : ∀ t, Measurable fun x : ℝ × ℝ => (o ((x.1 + x.2) / 2) ((x.2 - x.1) / 2)).relativeAngles C t := by
      intro t
      have hE : ∀ p m, (o p m).E t = (o 0 0).E t := by
        intro p m
        obtain ⟨a, hp, a1, a2, a3, a4, -⟩ := ho p m
        obtain ⟨b, hp', b1, b2, b3, b4, -⟩ := ho 0 0
        have := E_shift (k := 0) (built_of_init a) hp (built_of_init b) (a3.trans b3.symm) (a1.trans b1.symm) (by rw [b4, a4]; simp) t
        simpa using this
      have hpos : ∀ p m, ((o p m).relativePosition C t).x = -exp logA *
            ((cos (p + m) * cos (p - m) - sin (p + m) * (ci * sin (p - m))) * (cos ((o 0 0).E t) - e) +
              (-(cos (p + m) * sin (p - m)) - sin (p + m) * (ci * cos (p - m))) * (√(1 - e ^ 2) * sin ((o 0 0).E t))) ∧
          ((o p m).relativePosition C t).y = -exp logA *
            ((sin (p + m) * cos (p - m) + cos (p + m) * (ci * sin (p - m))) * (cos ((o 0 0).E t) - e) +
              (-(sin (p + m) * sin (p - m)) + cos (p + m) * (ci * cos (p - m))) * (√(1 - e ^ 2) * sin ((o 0 0).E t))) := by
        intro p m
        obtain ⟨a, hp, a1, a2, a3, a4, a5, -, a6, a7, a8⟩ := ho p m
        obtain ⟨x1, x2⟩ := sky_position (C := C) hp t
        have w1 : (o p m).cw = cos (p - m) := a6
        have w2 : (o p m).sw = sin (p - m) := a7
        have W1 : (o p m).cW = cos (p + m) := by unfold Orbit.cW; rw [a8]
        have W2 : (o p m).sW = sin (p + m) := by unfold Orbit.sW; rw [a8]
        rw [x1, x2, hE p m, a2, a3]
        unfold Orbit.p1 Orbit.p2 Orbit.q1 Orbit.q2 Orbit.se
        rw [w1, w2, W1, W2, a3, a5]
        exact ⟨rfl, rfl⟩
      have hx : Measurable fun x : ℝ × ℝ => ((o ((x.1 + x.2) / 2) ((x.2 - x.1) / 2)).relativePosition C t).x := by
        simp only [(hpos _ _).1]
        fun_prop
      have hy : Measurable fun x : ℝ × ℝ => ((o ((x.1 + x.2) / 2) ((x.2 - x.1) / 2)).relativePosition C t).y := by
        simp only [(hpos _ _).2]
        fun_prop
      have hz : Measurable fun x : ℝ × ℝ => (⟨((o ((x.1 + x.2) / 2) ((x.2 - x.1) / 2)).relativePosition C t).x,
          ((o ((x.1 + x.2) / 2) ((x.2 - x.1) / 2)).relativePosition C t).y⟩ : ℂ) :=
        Complex.measurableEquivRealProd.symm.measurable.comp (hx.prodMk hy)
      exact (((hx.pow_const 2).add (hy.pow_const 2)).sqrt).prodMk (Complex.measurable_arg.comp hz)
    have hL' : Measurable (Function.uncurry fun w W => L fun i => (o ((w + W) / 2) ((W - w) / 2)).relativeAngles C (ts i)) :=
      hL.comp (measurable_pi_iff.2 fun i => hmeas (ts i))
    have hper := uniform_angles hL' ?_ ?_
    · rw [← hper]
      refine lintegral_congr fun p => lintegral_congr fun m => ?_
      rw [show (p - m + (p + m)) / 2 = p by ring, show (p + m - (p - m)) / 2 = m by ring]
    · intro x y
      congr 1
      refine funext fun i => congrFun (same _ _ _ _ ?_ ?_ ?_ ?_) (ts i)
      · rw [show (x + 2 * π + y) / 2 - (y - (x + 2 * π)) / 2 = (x + y) / 2 - (y - x) / 2 + 2 * π by ring, cos_add_two_pi]
      · rw [show (x + 2 * π + y) / 2 - (y - (x + 2 * π)) / 2 = (x + y) / 2 - (y - x) / 2 + 2 * π by ring, sin_add_two_pi]
      · rw [show (x + 2 * π + y) / 2 + (y - (x + 2 * π)) / 2 = (x + y) / 2 + (y - x) / 2 by ring]
      · rw [show (x + 2 * π + y) / 2 + (y - (x + 2 * π)) / 2 = (x + y) / 2 + (y - x) / 2 by ring]
    · intro x y
      congr 1
      refine funext fun i => congrFun (same _ _ _ _ ?_ ?_ ?_ ?_) (ts i)
      · rw [show (x + (y + 2 * π)) / 2 - (y + 2 * π - x) / 2 = (x + y) / 2 - (y - x) / 2 by ring]
      · rw [show (x + (y + 2 * π)) / 2 - (y + 2 * π - x) / 2 = (x + y) / 2 - (y - x) / 2 by ring]
      · rw [show (x + (y + 2 * π)) / 2 + (y + 2 * π - x) / 2 = (x + y) / 2 + (y - x) / 2 + 2 * π by ring, cos_add_two_pi]
      · rw [show (x + (y + 2 * π)) / 2 + (y + 2 * π - x) / 2 = (x + y) / 2 + (y - x) / 2 + 2 * π by ring, sin_add_two_pi]

/-- A likelihood that depends on the astrometry: one measurement of the position angle. -/
example : Measurable fun y : Fin 1 → ℝ × ℝ => ENNReal.ofReal (exp (-(thetaDiff (y 0).2 1) ^ 2)) := by
  unfold thetaDiff arctan2
  have hz : Measurable fun y : Fin 1 → ℝ × ℝ => (⟨cos ((y 0).2 - 1), sin ((y 0).2 - 1)⟩ : ℂ) :=
    Complex.measurableEquivRealProd.symm.measurable.comp (f := fun y : Fin 1 → ℝ × ℝ => (cos ((y 0).2 - 1), sin ((y 0).2 - 1)))
      (by fun_prop)
  exact (((Complex.measurable_arg.comp hz).pow_const 2).neg.exp).ennreal_ofReal

/-- **C109** (the radial-velocity tutorial): for all likelihoods of radial velocities, sampling two independent uniform angles and taking
their difference for the argument of periastron and their sum for the phase of periastron is the same as sampling the argument of periastron
uniformly and the time of periastron uniformly over a period. -/
theorem C109_velocities (C : Consts) (logP K : ℝ) {e : ℝ} (h0 : 0 ≤ e) (h1 : e < 1) :
    ∃ (o o' : ℝ → ℝ → Orbit) (v v' : ℝ → ℝ → ℝ → ℝ), (∀ plus minus, keplerianInit C (rvTutorialArgs logP e plus minus) = .ok (o plus minus)) ∧
      (∀ w ph : ℝ, keplerianInit C
        { period := some (exp logP : ℝ), t_periastron := some (exp logP * ph / (2 * π) : ℝ), ecc := some (e : ℝ), omega := some (w : ℝ) } =
          .ok (o' w ph)) ∧
      (∀ plus minus t, (o plus minus).radialVelocity C t (some K) = .ok (v plus minus t)) ∧
      (∀ w ph t, (o' w ph).radialVelocity C t (some K) = .ok (v' w ph t)) ∧
      ∀ (n : ℕ) (t : Fin n → ℝ) (L : (Fin n → ℝ) → ℝ≥0∞), Measurable L →
        ∫⁻ plus in Ioc (-π) π, ∫⁻ minus in Ioc (-π) π, L (fun i => v plus minus (t i)) =
          ∫⁻ w in Ioc (-π) π, ∫⁻ ph in Ioc (-π) π, L fun i => v' w ph (t i) := by
  choose o ho using fun plus minus => rvTutorialArgs_ok C logP plus minus h0 h1
  set v : ℝ → ℝ → ℝ → ℝ := fun p m t => K * ((o p m).latCos t + (o p m).eccVal * (o p m).cw) with hv
  refine ⟨o, fun w W => o ((w + W) / 2) ((W - w) / 2), v, fun w W => v ((w + W) / 2) ((W - w) / 2), fun p m => (ho p m).1, fun w W => ?_,
    fun p m t => rv_eq C _ t K, fun w W t => rv_eq C _ t K, fun n ts L hL => ?_⟩
  · have := (ho ((w + W) / 2) ((W - w) / 2)).1
    rw [← this]
    unfold rvTutorialArgs
    rw [show (w + W) / 2 - (W - w) / 2 = w by ring, show (w + W) / 2 + (W - w) / 2 = W by ring]
  · have hP := exp_pos logP
    have same : ∀ p m p' m', cos (p' - m') = cos (p - m) → sin (p' - m') = sin (p - m) → (∃ k : ℤ, p' + m' = p + m + k * (2 * π)) →
        v p' m' = v p m := by
      intro p m p' m' k1 k2 k3
      obtain ⟨k, hk⟩ := k3
      obtain ⟨a, hp, a1, a2, a3, a4, a5⟩ := ho p m
      obtain ⟨b, hp', b1, b2, b3, b4, b5⟩ := ho p' m'
      have hk' : (o p' m').t_periastron = (o p m).t_periastron + k * (o p m).period := by
        rw [b3, a3, a1, hk]
        field_simp
      have h5 : (o p' m').cw = (o p m).cw := (b4.trans k1).trans a4.symm
      have h6 : (o p' m').sw = (o p m).sw := (b5.trans k2).trans a5.symm
      have h3 : (o p' m').eccVal = (o p m).eccVal := b2.trans a2.symm
      have hse : (o p' m').se = (o p m).se := by unfold Orbit.se; rw [h3]
      funext t
      have hE := E_shift (built_of_init a) hp (built_of_init b) h3.symm (a1.trans b1.symm) hk' t
      simp only [hv]
      unfold Orbit.latCos
      rw [Orbit.cosf_eq, Orbit.cosf_eq, Orbit.sinf_eq, Orbit.sinf_eq, hE, cos_add_int_mul_two_pi, sin_add_int_mul_two_pi, h3, h5, h6, hse]
    have hmeas : ∀ t, Measurable fun x : ℝ × ℝ => v ((x.1 + x.2) / 2) ((x.2 - x.1) / 2) t := by
      intro t
      have hE : ∀ p m, (o p m).E t = eccAnomaly e ((t - exp logP * (p + m) / (2 * π)) * (2 * π / exp logP)) := by
        intro p m
        obtain ⟨a, hp, a1, a2, a3, -⟩ := ho p m
        unfold Orbit.E
        rw [(built_of_init a).meanAnom_eq, (built_of_init a).n_eq, a1, a2, a3]
      have hcE : Continuous fun x : ℝ × ℝ => (o ((x.1 + x.2) / 2) ((x.2 - x.1) / 2)).E t := by
        simp only [hE]
        exact (eccAnomaly_continuous h0 h1).comp (by fun_prop)
      have hw1 : ∀ p m, (o p m).cw = cos (p - m) := fun p m => (ho p m).2.2.2.2.2.1
      have hw2 : ∀ p m, (o p m).sw = sin (p - m) := fun p m => (ho p m).2.2.2.2.2.2
      have hee : ∀ p m, (o p m).eccVal = e := fun p m => (ho p m).2.2.2.1
      simp only [hv, Orbit.latCos, Orbit.cosf_eq, Orbit.sinf_eq, hw1, hw2, hee, Orbit.se]
      have hmE := hcE.measurable
      fun_prop
    have hL' : Measurable (Function.uncurry fun w W => L fun i => v ((w + W) / 2) ((W - w) / 2) (ts i)) :=
      hL.comp (measurable_pi_iff.2 fun i => hmeas (ts i))
    have hper := uniform_angles hL' ?_ ?_
    · rw [← hper]
      refine lintegral_congr fun p => lintegral_congr fun m => ?_
      rw [show (p - m + (p + m)) / 2 = p by ring, show (p + m - (p - m)) / 2 = m by ring]
    · intro x y
      congr 1
      refine funext fun i => congrFun (same _ _ _ _ ?_ ?_ ⟨0, ?_⟩) (ts i)
      · rw [show (x + 2 * π + y) / 2 - (y - (x + 2 * π)) / 2 = (x + y) / 2 - (y - x) / 2 + 2 * π by ring, cos_add_two_pi]
      · rw [show (x + 2 * π + y) / 2 - (y - (x + 2 * π)) / 2 = (x + y) / 2 - (y - x) / 2 + 2 * π by ring, sin_add_two_pi]
      · push_cast; ring
    · intro x y
      congr 1
      refine funext fun i => congrFun (same _ _ _ _ ?_ ?_ ⟨1, ?_⟩) (ts i)
      · rw [show (x + (y + 2 * π)) / 2 - (y + 2 * π - x) / 2 = (x + y) / 2 - (y - x) / 2 by ring]
      · rw [show (x + (y + 2 * π)) / 2 - (y + 2 * π - x) / 2 = (x + y) / 2 - (y - x) / 2 by ring]
      · push_cast; ring

/-- A likelihood that depends on the velocities: two normal measurements. -/
example : Measurable fun y : Fin 2 → ℝ => ENNReal.ofReal (exp (-(y 0 - 1) ^ 2) * exp (-(y 1 - 2) ^ 2)) := by fun_prop

end Exo
