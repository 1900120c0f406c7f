import Verif.Spec.Constants
import Verif.Props.Inputs
import Verif.Lemmas.Demo

/-!
# C74: the constants are consistent, and the orbit obeys the laws of motion in SI
-/

namespace Exo
open Real

/-- **C74**: the module computes its constants (no conversion fails), and each is the SI value expressed in the unit its name says. -/
theorem C74_constants (S : Astropy) : ∃ K, constants (some S) = .ok K ∧
    K.G_grav * (S.R_sun ^ 3 / (S.M_sun * S.day ^ 2)) = S.G ∧
    K.gcc_per_sun * 1000 = S.M_sun / S.R_sun ^ 3 ∧
    K.au_per_R_sun * S.au = S.R_sun ∧
    K.c_light * (S.R_sun / S.day) = S.c ∧
    0 < K.day_per_yr_over_2pi ∧ S.G * S.M_sun * (K.day_per_yr_over_2pi * S.day) ^ 2 = S.au ^ 3 := by
  have h1 := S.au_pos
  have h2 := S.R_sun_pos
  have h3 := S.M_sun_pos
  have h4 := S.day_pos
  have h5 := S.G_pos
  refine ⟨⟨S.G / (S.R_sun ^ 3 / S.M_sun / S.day ^ 2), S.M_sun / S.R_sun ^ 3 / ((1 / 1000) / (1 / 100) ^ 3), S.R_sun / S.au,
    1 / √(S.G / (S.au ^ 3 / (S.M_sun * S.day ^ 2)) * 1), S.c / (S.R_sun / S.day)⟩, ?_, ?_, ?_, ?_, ?_, ?_, ?_⟩
  · simp [constants, constantsTry, AUnit.to, AUnit.pow, AUnit.div, AUnit.mul, Astropy.qG, Astropy.qC, Astropy.uAu, Astropy.uRsun,
      Astropy.uMsun, Astropy.uDay, uGcc, bind, Except.bind]
  · field_simp
  · field_simp; norm_num
  · field_simp
  · field_simp
  · positivity
  · dsimp only
    rw [mul_one, mul_pow, one_div, inv_pow, sq_sqrt (by positivity)]
    field_simp

/-- **C74** (arithmetic of units): converting between a product or quotient and what it stands for always succeeds, with factor one. -/
theorem C74_units (u v : AUnit) (n : ℕ) :
    ((u.div v).mul v).to u = .ok 1 ∧ ((u.mul v).div v).to u = .ok 1 ∧ (u.mul v).to (v.mul u) = .ok 1 ∧
    (u.pow (n + 1)).to ((u.pow n).mul u) = .ok 1 ∧ uGcc.to ⟨1000, ⟨-3, 1, 0⟩, by norm_num⟩ = .ok 1 := by
  have hu := u.pos
  have hv := v.pos
  refine ⟨?_, ?_, ?_, ?_, ?_⟩
  · unfold AUnit.to
    rw [if_pos (by simp [AUnit.div, AUnit.mul])]
    simp only [AUnit.div, AUnit.mul]
    congr 1; field_simp
  · unfold AUnit.to
    rw [if_pos (by simp [AUnit.div, AUnit.mul])]
    simp only [AUnit.div, AUnit.mul]
    congr 1; field_simp
  · unfold AUnit.to
    rw [if_pos (by simp [AUnit.mul, add_comm])]
    simp only [AUnit.mul]
    congr 1; field_simp
  · unfold AUnit.to
    rw [if_pos (by simp [AUnit.mul, AUnit.pow, add_mul])]
    simp only [AUnit.mul, AUnit.pow]
    congr 1; field_simp; ring
  · unfold AUnit.to
    rw [if_pos (by simp [uGcc, AUnit.div, AUnit.pow])]
    simp only [uGcc, AUnit.div, AUnit.pow]
    norm_num

/-- **C74** (mutual consistency): the three constants that contain the gravitational constant or the astronomical unit agree, also
after the fall-back (to twelve digits). -/
theorem C74_relation (S : Option Astropy) (K : RawConsts) (h : constants S = .ok K) :
    |K.G_grav * K.au_per_R_sun ^ 3 * K.day_per_yr_over_2pi ^ 2 - 1| < 1e-12 ∧
    (S ≠ none → K.G_grav * K.au_per_R_sun ^ 3 * K.day_per_yr_over_2pi ^ 2 = 1) := by
  cases S with
  | none =>
    cases h
    refine ⟨?_, fun h => absurd rfl h⟩
    unfold constantsFallback
    rw [abs_lt]
    constructor <;> norm_num
  | some S =>
    obtain ⟨K', hK', k1, -, k3, -, k5, k6⟩ := C74_constants S
    rw [h] at hK'
    cases hK'
    have h1 := S.au_pos
    have h2 := S.R_sun_pos
    have h3 := S.M_sun_pos
    have h4 := S.day_pos
    have h5 := S.G_pos
    have e : K.G_grav * K.au_per_R_sun ^ 3 * K.day_per_yr_over_2pi ^ 2 = 1 := by
      rw [← k1, ← k3] at k6
      have hn : S.au ^ 3 ≠ 0 := by positivity
      have hR : K.au_per_R_sun ≠ 0 := by
        intro h0
        rw [h0, zero_mul] at k3
        exact h2.ne k3
      field_simp at k6
      linarith
    exact ⟨by rw [e]; norm_num, fun _ => e⟩

/-- There are such constants (hypothesis of the theorems below). -/
theorem C74_exists (S : Astropy) : ∃ C : Consts, C.From S := by
  obtain ⟨K, hK, k1, k2, k3, k4, k5, k6⟩ := C74_constants S
  have h1 := S.au_pos
  have h2 := S.R_sun_pos
  have h3 := S.M_sun_pos
  have h4 := S.day_pos
  have h5 := S.G_pos
  have h6 := S.c_pos
  have pos : ∀ {x y z : ℝ}, x * y = z → 0 < y → 0 < z → 0 < x := fun h hy hz => pos_of_mul_pos_left (h ▸ hz) hy.le
  refine ⟨⟨K.G_grav, K.c_light, K.au_per_R_sun, S.R_sun, S.M_sun, S.day, 1000, 1, pos k1 (by positivity) h5,
    pos k4 (by positivity) h6, pos k3 h1 h2, h2, h3, h4, by norm_num, one_pos⟩, ⟨K.day_per_yr_over_2pi, ?_⟩, rfl, rfl, rfl, rfl, rfl⟩
  rw [hK]
  have : K.gcc_per_sun = S.M_sun / S.R_sun ^ 3 / 1000 := by rw [← k2]; ring
  show _ = Except.ok (RawConsts.mk K.G_grav (S.M_sun / S.R_sun ^ 3 / 1000) K.au_per_R_sun K.day_per_yr_over_2pi K.c_light)
  rw [← this]

theorem From.facts {C : Consts} {S : Astropy} (h : C.From S) :
    C.G * (S.R_sun ^ 3 / (S.M_sun * S.day ^ 2)) = S.G ∧ C.gccPerSun * 1000 = S.M_sun / S.R_sun ^ 3 ∧
      C.c * (S.R_sun / S.day) = S.c ∧ C.auPerRsun * S.au = S.R_sun := by
  obtain ⟨d, hd⟩ := h.computed
  obtain ⟨K, hK, k1, k2, k3, k4, -⟩ := C74_constants S
  rw [hd] at hK
  cases hK
  exact ⟨k1, k2, k4, k3⟩

/-- **C74** (Kepler's third law and the density, in SI): metres, kilograms and seconds. -/
theorem C74_third_law_SI (S : Astropy) (C : Consts) (hC : C.From S) (A : Args) (o : Orbit) (h : keplerianInit C A = .ok o)
    (hp : o.Physical) :
    4 * π ^ 2 * (o.a * S.R_sun) ^ 3 = S.G * ((o.m_star + o.m_planet) * S.M_sun) * (o.period * S.day) ^ 2 ∧
    o.rho_star * 1000 * (4 / 3 * π * (o.r_star * S.R_sun) ^ 3) = o.m_star * S.M_sun := by
  obtain ⟨l1, l2⟩ := C01_third_law_and_density C A o h hp
  obtain ⟨k1, k2, -⟩ := From.facts hC
  have h2 := S.R_sun_pos
  have h3 := S.M_sun_pos
  have h4 := S.day_pos
  have h5 := hp.r_star_pos
  have hpi := pi_pos
  constructor
  · rw [mul_pow, ← mul_assoc, l1, ← k1]
    field_simp
  · rw [l2]
    have : C.gccPerSun * (3 * o.m_star / (4 * π * o.r_star ^ 3)) * 1000 * (4 / 3 * π * (o.r_star * S.R_sun) ^ 3) =
        (C.gccPerSun * 1000) * (o.m_star * S.R_sun ^ 3) := by
      field_simp
    rw [this, k2]
    field_simp

/-- **C74** (arguments in any unit): with `period`, `m_star` and `m_planet` in whatever units, the semi-major axis in metres is that of
Kepler's third law in SI. -/
theorem C74_any_units (S : Astropy) (C : Consts) (hC : C.From S) (A : Args) (o : Orbit) (P M m : Q) (h : keplerianInit C A = .ok o)
    (hp : o.Physical) (hm : A.m_planet_units = none) (hrho : A.rho_star_units = none) (hP : A.period = some P)
    (hM : A.m_star = some M) (hmp : A.m_planet = some m) :
    4 * π ^ 2 * (o.a * S.R_sun) ^ 3 = S.G * (M.si S.uMsun + m.si S.uMsun) * (P.si S.uDay) ^ 2 := by
  obtain ⟨a1, -, a2, a3, -⟩ := C01_supplied_values_partial C A o h hp hm hrho
  have si : ∀ (q : Q) (u v : AUnit), u.scale = v.scale → q.inUnit u * v.scale = q.si v := by
    intro q u v huv
    have := v.pos
    unfold Q.inUnit Q.si
    cases q.unit with
    | none => rfl
    | some b => simp only [Option.getD_some]; rw [huv]; field_simp
  rw [(C74_third_law_SI S C hC A o h hp).1, a1 P hP, a2 M hM, a3 m hmp, add_mul]
  have e1 := si P C.day S.uDay hC.day
  have e2 := si M C.mSun S.uMsun hC.mSun
  have e3 := si m C.mSun S.uMsun hC.mSun
  rw [← e1, ← e2, ← e3]
  rfl

/-- **C74** (the year): a massless planet at one astronomical unit from the Sun has the period `2 π day_per_yr_over_2pi`. -/
theorem C74_year (S : Astropy) (C : Consts) (hC : C.From S) (K : RawConsts) (hK : constants (some S) = .ok K) :
    ∃ o, keplerianInit C { a := some (⟨1, some S.uAu⟩ : Q), m_star := some (1 : ℝ), r_star := some (1 : ℝ) } = .ok o ∧
      o.period = 2 * π * K.day_per_yr_over_2pi := by
  obtain ⟨k1, k2, k3, k4⟩ := From.facts hC
  obtain ⟨K', hK', -, -, -, -, k5, k6⟩ := C74_constants S
  rw [hK] at hK'
  cases hK'
  have h1 := S.au_pos
  have h2 := S.R_sun_pos
  have h3 := S.M_sun_pos
  have h4 := S.day_pos
  have h5 := S.G_pos
  have hG := C.G_pos
  have hto : S.uAu.to C.rSun = .ok (S.au / S.R_sun) := by
    unfold AUnit.to
    rw [if_pos (by rfl)]
    simp [Astropy.uAu, Consts.rSun, hC.rSun]
  obtain ⟨o, ho, hper⟩ : ∃ o, keplerianInit C { a := some (⟨1, some S.uAu⟩ : Q), m_star := some (1 : ℝ), r_star := some (1 : ℝ) } =
      .ok o ∧ o.period = 2 * π * (1 * (S.au / S.R_sun)) ^ (3 / 2 : ℝ) / √(C.G * (1 + 0)) := by
    simp [keplerianInit, applyUnitKw, durationBlock, consistentInputs, toUnitOpt, toUnitVal, toUnit, hto, finishInputs, stellarParams,
      rhoStarVal, eccBlock, inclBlock, timeBlock, defaultR, defaultM]
  refine ⟨o, ho, ?_⟩
  have hsq : (S.au / S.R_sun) ^ (3 / 2 : ℝ) = √((S.au / S.R_sun) ^ 3) := by
    rw [sqrt_eq_rpow, ← rpow_natCast, ← rpow_mul (by positivity)]
    norm_num
  rw [hper, one_mul, add_zero, mul_one, hsq, mul_div_assoc, ← sqrt_div (by positivity)]
  congr 1
  rw [sqrt_eq_iff_mul_self_eq (by positivity) k5.le]
  rw [← k1] at k6
  field_simp at k6 ⊢
  linarith

/-- The values of astropy 5. -/
noncomputable def astropy5 : Astropy where
  au := 149597870700
  R_sun := 695700000
  M_sun := 1.988409870698051e30
  day := 86400
  G := 6.6743e-11
  c := 299792458
  au_pos := by norm_num
  R_sun_pos := by norm_num
  M_sun_pos := by norm_num
  day_pos := by norm_num
  G_pos := by norm_num
  c_pos := by norm_num

/-- **C74** (the numbers written into the module are those of astropy): the fall-back constants agree with the computed ones to
twelve digits. -/
theorem C74_fallback : ∃ K, constants (some astropy5) = .ok K ∧
    |K.G_grav - constantsFallback.G_grav| < 1e-9 ∧ |K.gcc_per_sun - constantsFallback.gcc_per_sun| < 1e-12 ∧
    |K.au_per_R_sun - constantsFallback.au_per_R_sun| < 1e-14 ∧ |K.c_light - constantsFallback.c_light| < 1e-8 := by
  obtain ⟨K, hK, k1, k2, k3, k4, -⟩ := C74_constants astropy5
  refine ⟨K, hK, ?_⟩
  simp only [astropy5] at k1 k2 k3 k4
  rw [← eq_div_iff (by norm_num)] at k1 k2 k3 k4
  rw [k1, k2, k3, k4]
  unfold constantsFallback
  simp only [abs_lt]
  norm_num

/-- Hypotheses of the SI theorems: there are constants and there is an orbit. -/
example : ∃ (C : Consts) (A : Args) (o : Orbit), C.From astropy5 ∧ keplerianInit C A = .ok o ∧ o.Physical ∧ 0 < o.m_planet := by
  obtain ⟨C, hC⟩ := C74_exists astropy5
  obtain ⟨o, h, hp, -, -, -, h5, -⟩ := demoMass_ok C
  exact ⟨C, demoMass, o, hC, h, hp, by rw [h5]; norm_num⟩

/-- Hypotheses of `C74_any_units`: a period in hours. -/
example : ∃ (C : Consts) (o : Orbit) (P : Q), C.From astropy5 ∧
    keplerianInit C { period := some P, m_star := some (1 : ℝ), r_star := some (1 : ℝ), m_planet := some (0 : ℝ) } = .ok o ∧
    P.si astropy5.uDay = 36000 := by
  obtain ⟨C, hC⟩ := C74_exists astropy5
  refine ⟨C, _, ⟨10, some ⟨3600, ⟨0, 0, 1⟩, by norm_num⟩⟩, hC, rfl, ?_⟩
  norm_num [Q.si]

end Exo
