import Verif.Lemmas.Duration
import Verif.Props.InTransit
import Mathlib.Analysis.Calculus.Deriv.Pow
import Mathlib.Analysis.SpecialFunctions.Sqrt

/-!
# C24-C26: orbits parameterised by the transit duration
-/

namespace Exo
open Real

/-! ## C24 -/

/-- **C24** (contacts): for a circular orbit built from `duration = d ≤ P/2`, `b`, `ror = k`, `r_star = R`, at `d/2` before and
after `t0` (and all repetitions) the sky separation is exactly `R (1 + k)`, with the planet in front. -/
theorem C24_contacts (C : Consts) (A : Args) (o : Orbit) (h : keplerianInit C A = .ok o) (hp : o.Physical)
    (d P b k R : ℝ) (hA : A.DurationCirc d P b k R) (hd : 0 < d) (hdP : d ≤ P / 2) (hk : 0 < 1 + k) (hb : |b| < 1 + k)
    (σ : ℝ) (hσ : σ = 1 ∨ σ = -1) (j : ℤ) :
    √((o.relativePosition C (o.t0 + σ * (d / 2) + j * P)).x ^ 2 +
      (o.relativePosition C (o.t0 + σ * (d / 2) + j * P)).y ^ 2) = R * (1 + k) ∧
    0 ≤ (o.relativePosition C (o.t0 + σ * (d / 2) + j * P)).z := by
  have B := built_of_init h
  obtain ⟨e1, e2, e3, e4, e5, -⟩ := B.durationCirc hA
  have hP : 0 < P := e2 ▸ hp.period_pos
  have hR : 0 < R := e3 ▸ hp.r_star_pos
  obtain ⟨hs, -, key⟩ := B.durationCirc_geom hp hA hd hdP hk hb
  obtain ⟨g1, g2, g3, -⟩ := aorFromDuration_spec hP hd hdP hb.le
  obtain ⟨s1, s2⟩ := B.sep_circ hp e1 (o.t0 + σ * (d / 2) + j * P)
  have hph : o.n * (o.t0 + σ * (d / 2) + j * P - o.t0) = σ * (π * d / P) + j * (2 * π) := by
    rw [B.n_eq, e2]; field_simp; ring
  have hsin : sin (σ * (π * d / P) + j * (2 * π)) ^ 2 = sin (π * d / P) ^ 2 := by
    rw [sin_add_int_mul_two_pi]
    rcases hσ with rfl | rfl <;> simp
  have hcos : cos (σ * (π * d / P) + j * (2 * π)) = cos (π * d / P) := by
    rw [cos_add_int_mul_two_pi]
    rcases hσ with rfl | rfl <;> simp
  rw [hph] at s1 s2
  rw [hsin, key, e3, e4] at s1
  rw [hcos] at s2
  constructor
  · rw [s1, show (b * R) ^ 2 + R ^ 2 * ((1 + k) ^ 2 - b ^ 2) = (R * (1 + k)) ^ 2 by ring]
    exact sqrt_sq (by positivity)
  · rw [s2]
    have := cos_nonneg_of_neg_pi_div_two_le_of_le (x := π * d / P) (by linarith [pi_pos]) g2
    have := hp.a_pos
    positivity

/-- **C24** (`in_transit`): with `r = ror * r_star`, exactly the times within `duration/2` of a transit centre `t0 + j P` are
in transit. -/
theorem C24_in_transit (C : Consts) (cp : ContactOp) (A : Args) (o : Orbit) (h : keplerianInit C A = .ok o)
    (hp : o.Physical) (d P b k R : ℝ) (hA : A.DurationCirc d P b k R) (hd : 0 < d) (hdP : d ≤ P / 2) (hk : 0 ≤ k)
    (hb : |b| < 1 + k) (ts : List ℝ) :
    ∃ l, inTransit cp [(o, k * R)] ts = .ok l ∧
      ∀ i, i ∈ l ↔ ∃ h : i < ts.length, ∃ j : ℤ, |ts[i] - (o.t0 + j * P)| ≤ d / 2 := by
  have B := built_of_init h
  obtain ⟨e1, e2, e3, e4, e5, -⟩ := B.durationCirc hA
  have hP : 0 < P := e2 ▸ hp.period_pos
  have hR : 0 < R := e3 ▸ hp.r_star_pos
  have hpi := pi_pos
  have hk1 : 0 < 1 + k := by linarith
  obtain ⟨hs, hout, key⟩ := B.durationCirc_geom hp hA hd hdP hk1 hb
  obtain ⟨g1, g2, g3, -⟩ := aorFromDuration_spec hP hd hdP hb.le
  have hb2 : b ^ 2 < (1 + k) ^ 2 := by
    rw [← sq_abs b]; exact pow_lt_pow_left₀ hb (abs_nonneg _) (by norm_num)
  have hap := hp.a_pos
  have hasi : 0 < o.a * o.sin_incl := by positivity
  have hfac : R / (o.a * o.sin_incl) * √((1 + k) ^ 2 - b ^ 2) = sin (π * d / P) := by
    have h1 : √((1 + k) ^ 2 - b ^ 2) = o.a * o.sin_incl * sin (π * d / P) / R := by
      rw [sqrt_eq_iff_mul_self_eq (by linarith) (by positivity), ← sq, div_pow, mul_pow (o.a * o.sin_incl), key]
      field_simp
    rw [h1]
    field_simp [hs.ne']
  have hhd : o.halfDuration (k * R) = some (d / 2) := by
    unfold Orbit.halfDuration
    simp only [e3, e4, e2]
    rw [show k * R / R = k by field_simp, hfac, if_neg]
    · rw [arcsin_sin (by linarith) g2]
      congr 1
      field_simp
      ring
    · push Not
      exact ⟨by linarith, hasi.ne', abs_sin_le_one _⟩
  have hw : o.transitWindow cp (k * R) = (some (-(d / 2), d / 2), 0) := by
    unfold Orbit.transitWindow; simp only [e1, hhd]
  obtain ⟨l, hl, -, hm⟩ := inTransit_eq cp [(o, k * R)] ts .none trivial
  refine ⟨l, hl, fun i => ?_⟩
  rw [hm]
  refine exists_congr fun hi => ?_
  have hwm := wrap_mem_iff (x := o.warp ts[i]) (s := -(d / 2)) (e := d / 2) hP (by linarith) (by linarith)
  have hst : o.sinceTransit ts[i] = wrap (o.warp ts[i]) P := by rw [Orbit.sinceTransit_eq, e2]
  simp only [List.mem_singleton, exists_eq_left, hw, ne_eq, not_true_eq_false, false_or, Option.some.injEq,
    exists_eq_left', Texp.half, sub_zero, add_zero, hst, abs_le]
  rw [hwm]
  simp only [InPeriodicWindow, B.warp_eq]
  refine exists_congr fun j => ?_
  constructor <;> rintro ⟨a1, a2⟩ <;> exact ⟨by linarith, by linarith⟩

/-- `KeplerianOrbit(period=1, duration=0.1, b=0.3, ror=0.1, r_star=1, t0=2)` meets the hypotheses. -/
noncomputable def demoDuration : Args :=
  { period := some (1 : ℝ), duration := some (1 / 10 : ℝ), b := some (3 / 10 : ℝ), ror := some (1 / 10 : ℝ),
    r_star := some (1 : ℝ), t0 := some (2 : ℝ) }

theorem demoDuration_ok (C : Consts) : ∃ o, keplerianInit C demoDuration = .ok o ∧ o.Physical ∧
    demoDuration.DurationCirc (1 / 10) 1 (3 / 10) (1 / 10) 1 := by
  have hD : demoDuration.DurationCirc (1 / 10) 1 (3 / 10) (1 / 10) 1 := ⟨rfl, rfl, rfl, rfl, Or.inl rfl, Or.inl rfl⟩
  obtain ⟨o, ho, hm⟩ : ∃ o, keplerianInit C demoDuration = .ok o ∧ o.m_planet = 0 := ⟨_, rfl, rfl⟩
  have B := built_of_init ho
  have hb : |(3 / 10 : ℝ)| ≤ 1 + 1 / 10 := by rw [abs_of_nonneg] <;> norm_num
  obtain ⟨-, -, -, g4, -⟩ := aorFromDuration_spec (d := 1 / 10) (P := 1) (b := 3 / 10) (k := 1 / 10) (by norm_num)
    (by norm_num) (by norm_num) hb
  refine ⟨o, ho, B.durationCirc_physical hD (by norm_num) (by norm_num) (by norm_num) (by norm_num) (by norm_num) hb
    hm.ge ?_, hD⟩
  have ha : 0 < o.a := by
    rw [(B.durationCirc hD).2.2.2.2.1]; linarith
  have hG := C.G_pos
  have hpi := pi_pos
  rw [hm]; positivity

/-! ## C25 -/

/-- **C25** (`get_aor_from_transit_duration`): the second value returned is the derivative of the first with respect to
`duration`, wherever the first is defined (`sin φ ≠ 0`) and positive. -/
theorem C25_aor_derivative (d P b : ℝ) (ror : Option ℝ) (hP : 0 < P) (hs : sin (π * d / P) ≠ 0)
    (hb : b ^ 2 * cos (π * d / P) ^ 2 < (1 + ror.getD 0) ^ 2) :
    HasDerivAt (fun x => (aorFromDuration x P b ror).1) (aorFromDuration d P b ror).2 d := by
  have hph : HasDerivAt (fun x : ℝ => π * x / P) (π / P) d := by
    simpa using ((hasDerivAt_id d).const_mul π).div_const P
  have hsin := hph.sin
  have hcos := hph.cos
  have hn : 0 < (1 + ror.getD 0) ^ 2 - b ^ 2 * cos (π * d / P) ^ 2 := by linarith
  have hnum := (((hcos.fun_pow 2).const_mul (b ^ 2)).const_sub ((1 + ror.getD 0) ^ 2)).sqrt hn.ne'
  have := hnum.fun_div hsin hs
  unfold aorFromDuration
  simp only
  refine this.congr_deriv ?_
  have hq := sqrt_pos.2 hn
  have hq2 := sq_sqrt hn.le
  set q := √((1 + ror.getD 0) ^ 2 - b ^ 2 * cos (π * d / P) ^ 2) with hqd
  set s := sin (π * d / P)
  set c := cos (π * d / P)
  have hsc : s ^ 2 + c ^ 2 = 1 := sin_sq_add_cos_sq _
  symm
  field_simp
  rw [hq2, show s ^ 2 = 1 - c ^ 2 by linarith]
  push_cast
  ring

/-- Hypotheses of `C25_aor_derivative` at `d = 0.1, P = 1, b = 0.3, ror = 0.1`. -/
example : sin (π * (1 / 10) / 1) ≠ 0 ∧ (3 / 10 : ℝ) ^ 2 * cos (π * (1 / 10) / 1) ^ 2 < (1 + (some (1 / 10 : ℝ)).getD 0) ^ 2 := by
  obtain ⟨-, -, g3, -⟩ := aorFromDuration_spec (d := 1 / 10) (P := 1) (b := 3 / 10) (k := 1 / 10) (by norm_num)
    (by norm_num) (by norm_num) (by rw [abs_of_nonneg] <;> norm_num)
  refine ⟨g3.ne', ?_⟩
  have := cos_sq_le_one (π * (1 / 10) / 1)
  simp only [Option.getD_some]
  nlinarith

/-- **C25** (`orbit.jacobians["duration"]`): `a` and `rho_star` always; `a_star` and `a_planet` for a massless planet. The
orbits `o x` are those built with `duration = x`, everything else fixed. Missing: `a_star` and `a_planet` for a massive
planet, where the code forgets that the total mass varies with the duration (`C25_a_star_counterexample`). -/
theorem C25_jacobians_duration_partial (C : Consts) (A : Args) (o : ℝ → Orbit) (P b k R d : ℝ)
    (hA : ∀ x : ℝ, ({ A with duration := some (x : Q) } : Args).DurationCirc x P b k R)
    (h : ∀ x : ℝ, keplerianInit C { A with duration := some (x : Q) } = .ok (o x)) (hp : (o d).Physical)
    (hs : sin (π * d / P) ≠ 0) (hb : b ^ 2 * cos (π * d / P) ^ 2 < (1 + k) ^ 2) :
    ∃ J, (o d).durJac = some J ∧
      HasDerivAt (fun x => (o x).a) J.a d ∧ HasDerivAt (fun x => (o x).rho_star) J.rho_star d ∧
      ((o d).m_planet = 0 →
        HasDerivAt (fun x => (o x).a_star) J.a_star d ∧ HasDerivAt (fun x => (o x).a_planet) J.a_planet d) := by
  have B : ∀ x, _ := fun x => (built_of_init (h x)).durationCirc (hA x)
  obtain ⟨e1, e2, e3, e4, e5, e6, e7, e8, e9, e10⟩ := B d
  have hP : 0 < P := e2 ▸ hp.period_pos
  have hR : 0 < R := e3 ▸ hp.r_star_pos
  have hG := C.G_pos
  have hpi := pi_pos
  have hda : HasDerivAt (fun x => (o x).a) (R * (aorFromDuration d P b (some k)).2) d := by
    have := (C25_aor_derivative d P b (some k) hP hs (by simpa using hb)).const_mul R
    rw [show (fun x => (o x).a) = fun x => R * (aorFromDuration x P b (some k)).1 from
      funext fun x => (B x).2.2.2.2.1]
    exact this
  -- the planet mass does not depend on the duration
  have hmp : ∀ x, (o x).m_planet = (o d).m_planet := by
    intro x
    have hh : ∀ y, ∃ mp, applyUnitKw A.m_planet A.m_planet_units = .ok mp ∧ ∃ v, toUnitOpt mp C.mSun = .ok v ∧
        (o y).m_planet = v.getD 0 := by
      intro y
      obtain ⟨mp, rho, D, h1, h2, hD, hI, -⟩ := (built_of_init (h y)).inputs
      refine ⟨mp, h1, ?_⟩
      unfold consistentInputs at hI
      split at hI; · cases hI
      split at hI; · cases hI
      rename_i v hv
      refine ⟨v, hv, ?_⟩
      split at hI; · cases hI
      split at hI; · cases hI
      split at hI
      · unfold impliedInputs at hI
        split at hI; · cases hI
        split at hI; · cases hI
        simp only [Except.ok.injEq, Inputs.mk.injEq] at hI
        exact hI.2.2.2.2.2.symm
      · unfold finishInputs at hI
        split at hI; · cases hI
        split at hI; · cases hI
        split at hI; · cases hI
        split at hI; · cases hI
        split at hI; · cases hI
        split at hI
        · simp only [Except.ok.injEq, Inputs.mk.injEq] at hI
          exact hI.2.2.2.2.2.symm
        · simp only [Except.ok.injEq, Inputs.mk.injEq] at hI
          exact hI.2.2.2.2.2.symm
        · cases hI
    obtain ⟨mp, h1, v, h2, h3⟩ := hh x
    obtain ⟨mp', h1', v', h2', h3'⟩ := hh d
    rw [h1] at h1'; cases h1'
    rw [h2] at h2'; cases h2'
    rw [h3, h3']
  refine ⟨_, e10, ?_, ?_, ?_⟩
  · simpa [e3] using hda
  · -- density
    have hrho : (fun x => (o x).rho_star) = fun x =>
        (4 * π * π * (o x).a ^ 3 / (C.G * P ^ 2) - (o d).m_planet) / (4 * π * R ^ 3 / 3) * C.gccPerSun := by
      funext x
      obtain ⟨-, -, -, -, -, -, -, f8, f9, -⟩ := B x
      rw [f9, f8, hmp]
    rw [hrho]
    have := ((((((hda.fun_pow 3).const_mul (4 * π * π)).div_const (C.G * P ^ 2)).sub_const
      ((o d).m_planet)).div_const (4 * π * R ^ 3 / 3)).mul_const C.gccPerSun)
    refine this.congr_deriv ?_
    simp only [e2, e3]
    field_simp
    push_cast
    ring
  · intro hm0
    have hm : ∀ x, (o x).m_planet = 0 := fun x => (hmp x).trans hm0
    constructor
    · have : (fun x => (o x).a_star) = fun _ => 0 := by
        funext x
        rw [(built_of_init (h x)).a_star_eq, hm x]; simp
      rw [this]
      simp only [hm d, mul_zero, zero_div]
      exact hasDerivAt_const d 0
    · have hms : ∀ x, (o x).a ≠ 0 → (o x).m_star ≠ 0 := by
        intro x hx
        obtain ⟨-, -, -, -, -, -, -, f8, -⟩ := B x
        rw [f8, hm x, sub_zero]
        positivity
      have : (fun x => -(o x).a) =ᶠ[nhds d] fun x => (o x).a_planet := by
        filter_upwards [hda.continuousAt.eventually_ne hp.a_pos.ne'] with x hx
        rw [(built_of_init (h x)).a_planet_eq, (built_of_init (h x)).m_total_eq, hm x, add_zero,
          mul_div_cancel_right₀ _ (hms x hx)]
      refine HasDerivAt.congr_of_eventuallyEq ?_ this.symm
      simp only [hm d, add_zero, e3]
      rw [mul_div_cancel_right₀ _ (hms d hp.a_pos.ne')]
      exact hda.neg

/-- The family of orbits `KeplerianOrbit(period=1, duration=x, b=0, m_planet=m)`. -/
noncomputable def durFamily (m : ℝ) (x : ℝ) : Args :=
  { period := some (1 : ℝ), duration := some (x : ℝ), b := some (0 : ℝ), m_planet := some (m : ℝ) }

theorem durFamily_ok (C : Consts) (m : ℝ) : ∃ o : ℝ → Orbit, (∀ x, keplerianInit C (durFamily m x) = .ok (o x)) ∧
    (∀ x, (o x).m_planet = m) ∧ (∀ x, (durFamily m x).DurationCirc x 1 0 0 1) := by
  choose o ho using fun x => show ∃ o, keplerianInit C (durFamily m x) = .ok o ∧ o.m_planet = m from ⟨_, rfl, rfl⟩
  exact ⟨o, fun x => (ho x).1, fun x => (ho x).2, fun x => ⟨rfl, rfl, rfl, rfl, Or.inr ⟨rfl, rfl⟩, Or.inr ⟨rfl, rfl⟩⟩⟩

theorem durFamily_physical (C : Consts) (m : ℝ) (hm0 : 0 ≤ m) (hm : m < 4 * π * π / C.G) (o : Orbit)
    (h : keplerianInit C (durFamily m (1 / 4)) = .ok o) (hom : o.m_planet = m)
    (hD : (durFamily m (1 / 4)).DurationCirc (1 / 4) 1 0 0 1) : o.Physical ∧ 1 ≤ o.a := by
  have B := built_of_init h
  obtain ⟨-, -, -, g4, -⟩ := aorFromDuration_spec (d := 1 / 4) (P := 1) (b := 0) (k := 0) (by norm_num)
    (by norm_num) (by norm_num) (by norm_num)
  have ha : 1 ≤ o.a := by
    rw [(B.durationCirc hD).2.2.2.2.1]; linarith
  have hG := C.G_pos
  have hpi := pi_pos
  refine ⟨B.durationCirc_physical hD (by norm_num) (by norm_num) (by norm_num) (by norm_num) (by norm_num) (by norm_num)
    (hom ▸ hm0) ?_, ha⟩
  rw [hom]
  refine hm.trans_le ?_
  rw [one_pow, mul_one]
  refine div_le_div_of_nonneg_right ?_ hG.le
  have : 1 ≤ o.a ^ 3 := one_le_pow₀ ha
  nlinarith [mul_pos hpi hpi]

/-- Hypotheses of `C25_jacobians_duration_partial`, with a massless and with a massive planet. -/
example (C : Consts) (m : ℝ) (hm0 : 0 ≤ m) (hm : m < 4 * π * π / C.G) : ∃ (A : Args) (o : ℝ → Orbit),
    (∀ x : ℝ, ({ A with duration := some (x : Q) } : Args).DurationCirc x 1 0 0 1) ∧
    (∀ x : ℝ, keplerianInit C { A with duration := some (x : Q) } = .ok (o x)) ∧ (o (1 / 4)).Physical ∧
    (o (1 / 4)).m_planet = m ∧ sin (π * (1 / 4) / 1) ≠ 0 ∧ (0 : ℝ) ^ 2 * cos (π * (1 / 4) / 1) ^ 2 < (1 + 0) ^ 2 := by
  obtain ⟨o, ho, hom, hD⟩ := durFamily_ok C m
  obtain ⟨-, -, g3, -, -⟩ := aorFromDuration_spec (d := 1 / 4) (P := 1) (b := 0) (k := 0) (by norm_num)
    (by norm_num) (by norm_num) (by norm_num)
  exact ⟨durFamily m 0, o, hD, ho, (durFamily_physical C m hm0 hm _ (ho _) (hom _) (hD _)).1, hom _, g3.ne',
    by norm_num⟩

/-- **C25 is false for massive planets**: for `KeplerianOrbit(period=1, duration=0.25, b=0, m_planet=m)` (any positive mass
below `4π²/G`, half a solar-type total) `jacobians["duration"]["a_star"]` and `["a_planet"]` are not the derivatives: the
implied total mass depends on the duration, the code treats the mass ratio as constant. -/
theorem C25_a_star_counterexample (C : Consts) (m : ℝ) (hm0 : 0 < m) (hm : m < 4 * π * π / C.G) :
    ∃ o : ℝ → Orbit, (∀ x, keplerianInit C (durFamily m x) = .ok (o x)) ∧ (o (1 / 4)).Physical ∧
      ∃ J, (o (1 / 4)).durJac = some J ∧ ¬ HasDerivAt (fun x => (o x).a_star) J.a_star (1 / 4) ∧
        ¬ HasDerivAt (fun x => (o x).a_planet) J.a_planet (1 / 4) := by
  obtain ⟨o, ho, hom, hD⟩ := durFamily_ok C m
  obtain ⟨hp, ha1⟩ := durFamily_physical C m hm0.le hm _ (ho _) (hom _) (hD _)
  have hG := C.G_pos
  have hpi := pi_pos
  obtain ⟨-, -, g3, -, -⟩ := aorFromDuration_spec (d := 1 / 4) (P := 1) (b := 0) (k := 0) (by norm_num)
    (by norm_num) (by norm_num) (by norm_num)
  have B : ∀ x, _ := fun x => (built_of_init (ho x)).durationCirc (hD x)
  obtain ⟨e1, e2, e3, e4, e5, e6, e7, e8, e9, e10⟩ := B (1 / 4)
  set g := (aorFromDuration (1 / 4) 1 0 (some 0)).2 with hg
  have hda : HasDerivAt (fun x => (o x).a) g (1 / 4) := by
    rw [show (fun x => (o x).a) = fun x => (aorFromDuration x 1 0 (some 0)).1 from
      funext fun x => by rw [(B x).2.2.2.2.1, one_mul]]
    exact C25_aor_derivative (1 / 4) 1 0 (some 0) one_pos g3.ne' (by norm_num)
  have hg0 : g < 0 := by
    rw [hg]
    simp only [aorFromDuration, Option.getD_some]
    have hc : 0 < cos (π * (1 / 4) / 1) := cos_pos_of_mem_Ioo ⟨by linarith, by linarith⟩
    refine div_neg_of_neg_of_pos ?_ (by norm_num; exact pow_pos (by simpa using g3) 2)
    nlinarith [mul_pos hpi hc]
  have hmt : ∀ x, (o x).m_total = 4 * π * π / C.G * (o x).a ^ 3 := by
    intro x
    obtain ⟨-, -, -, -, -, -, -, f8, -⟩ := B x
    rw [(built_of_init (ho x)).m_total_eq, f8]; ring
  set K := 4 * π * π / C.G with hK
  have hK0 : 0 < K := by positivity
  have hev : ∀ᶠ x in nhds (1 / 4 : ℝ), (o x).a ≠ 0 := hda.continuousAt.eventually_ne hp.a_pos.ne'
  have ha0 := hp.a_pos
  -- a_star = m / (K a²)
  have hs : HasDerivAt (fun x => (o x).a_star) (-2 * (g * m / (K * (o (1 / 4)).a ^ 3))) (1 / 4) := by
    have h1 := ((hda.fun_pow 2).const_mul K).fun_inv (by positivity) |>.const_mul m
    refine HasDerivAt.congr_of_eventuallyEq (h1.congr_deriv ?_) ?_
    · have hc := ha0.ne'
      field_simp
      push_cast
      ring
    · filter_upwards [hev] with x hx
      rw [(built_of_init (ho x)).a_star_eq, hmt, hom]
      field_simp
  have hpl : HasDerivAt (fun x => (o x).a_planet) (-g + -2 * (g * m / (K * (o (1 / 4)).a ^ 3))) (1 / 4) := by
    refine HasDerivAt.congr_of_eventuallyEq (hda.neg.add hs) ?_
    filter_upwards [hev] with x hx
    have hmtx : (o x).m_total ≠ 0 := by rw [hmt]; positivity
    simp only [Pi.add_apply, Pi.neg_apply]
    rw [(built_of_init (ho x)).a_planet_eq, (built_of_init (ho x)).a_star_eq]
    have : (o x).m_star = (o x).m_total - (o x).m_planet := by rw [(built_of_init (ho x)).m_total_eq]; ring
    rw [this]
    field_simp
    ring
  have hq : g * m / (K * (o (1 / 4)).a ^ 3) ≠ 0 := by
    have : g * m ≠ 0 := mul_ne_zero hg0.ne hm0.ne'
    positivity
  have hmt4 : (o (1 / 4)).m_star + (o (1 / 4)).m_planet = K * (o (1 / 4)).a ^ 3 := by
    rw [← (built_of_init (ho _)).m_total_eq, hmt]
  refine ⟨o, ho, hp, _, e10, ?_, ?_⟩
  · intro hcon
    have := hcon.unique hs
    simp only [e3, one_mul] at this
    rw [hmt4, hom] at this
    exact hq (by linarith)
  · intro hcon
    have := hcon.unique hpl
    have hms : (o (1 / 4)).m_star = K * (o (1 / 4)).a ^ 3 - m := by rw [← hmt4, hom]; ring
    simp only [e3, one_mul] at this
    rw [hmt4, hms] at this
    have h2 : -g * (K * (o (1 / 4)).a ^ 3 - m) / (K * (o (1 / 4)).a ^ 3) = -g + g * m / (K * (o (1 / 4)).a ^ 3) := by
      field_simp
      ring
    rw [h2] at this
    exact hq (by linarith)

/-- **C25** (`orbit.jacobians["b"]["cos_incl"]`): it is the derivative of `cos_incl` with respect to `b` for every orbit
that is not parameterised by a duration. Missing: circular orbits with a duration, where `a` also depends on `b`
(`C25_dcosidb_counterexample`). -/
theorem C25_dcosidb_partial (C : Consts) (A : Args) (o : ℝ → Orbit) (b : ℝ) (hA : ¬ A.CircDuration)
    (h : ∀ x : ℝ, keplerianInit C { A with b := some (x : Q) } = .ok (o x)) :
    HasDerivAt (fun x => (o x).cos_incl) (o b).dcosidb b := by
  have key : ∀ x, (o x).cos_incl = (o b).dcosidb * x := by
    intro x
    have Bx := built_of_init (h x)
    have Bb := built_of_init (h b)
    obtain ⟨mp, rho, D, h1, h2, hD, hI, hi, -⟩ := Bx.inputs
    obtain ⟨mp', rho', D', h1', h2', hD', hI', -⟩ := Bb.inputs
    rw [h1] at h1'; cases h1'
    rw [h2] at h2'; cases h2'
    rw [durationBlock_not_circ (by exact hA)] at hD hD'
    cases hD
    cases hD'
    simp only at hI hI'
    rw [hI] at hI'
    simp only [Except.ok.injEq, Inputs.mk.injEq] at hI'
    have he : (o x).ecc = (o b).ecc := by
      have e1 := Bx.ecc_eq
      have e2 := Bb.ecc_eq
      unfold eccBlock at e1 e2
      simp only at e1 e2
      rw [e1] at e2
      exact Except.ok.inj e2
    have hd : (o x).dcosidb = (o b).dcosidb := by
      rw [Bx.dcosidb_eq, Bb.dcosidb_eq, he, hI'.1, hI'.2.2.2.1]
    unfold inclBlock at hi
    simp only at hi
    split at hi
    · cases hi
    · simp only [Except.ok.injEq, Prod.mk.injEq] at hi
      rw [← hi.2.1, hd]
  rw [show (fun x => (o x).cos_incl) = fun x => (o b).dcosidb * x from funext key]
  simpa using (hasDerivAt_id b).const_mul (o b).dcosidb

example (C : Consts) : ∃ (A : Args) (o : ℝ → Orbit), ¬ A.CircDuration ∧
    (∀ x : ℝ, keplerianInit C { A with b := some (x : Q) } = .ok (o x)) ∧ A.ecc.isSome := by
  choose o ho using fun x : ℝ => show ∃ o, keplerianInit C { demoEcc with b := some (x : Q) } = .ok o from ⟨_, rfl⟩
  exact ⟨demoEcc, o, by simp [Args.CircDuration, demoEcc], ho, rfl⟩

/-- **C25 is false for `jacobians["b"]["cos_incl"]` on circular orbits with a duration**: for
`KeplerianOrbit(period=1, duration=0.25, b=0.5)`, `cos_incl(b) = b / sqrt(2 - b²)`. -/
theorem C25_dcosidb_counterexample (C : Consts) : ∃ o : ℝ → Orbit,
    (∀ x : ℝ, keplerianInit C { period := some (1 : ℝ), duration := some (1 / 4 : ℝ), b := some (x : ℝ) } = .ok (o x)) ∧
    (o (1 / 2)).Physical ∧ ¬ HasDerivAt (fun x => (o x).cos_incl) (o (1 / 2)).dcosidb (1 / 2) := by
  choose o ho using fun x : ℝ => show ∃ o, keplerianInit C
    { period := some (1 : ℝ), duration := some (1 / 4 : ℝ), b := some (x : ℝ) } = .ok o ∧ o.m_planet = 0 from ⟨_, rfl, rfl⟩
  have hD : ∀ x : ℝ, ({ period := some (1 : ℝ), duration := some (1 / 4 : ℝ), b := some (x : ℝ) } : Args).DurationCirc
      (1 / 4) 1 x 0 1 := fun x => ⟨rfl, rfl, rfl, rfl, Or.inr ⟨rfl, rfl⟩, Or.inr ⟨rfl, rfl⟩⟩
  have B : ∀ x, _ := fun x => (built_of_init (ho x).1).durationCirc (hD x)
  have hpi := pi_pos
  have hG := C.G_pos
  have hsq : ∀ x : ℝ, |x| ≤ 1 → 1 ≤ (o x).a ∧ (o x).a ^ 2 = 2 - x ^ 2 := by
    intro x hx
    obtain ⟨-, -, -, g4, g5⟩ := aorFromDuration_spec (d := 1 / 4) (P := 1) (b := x) (k := 0) (by norm_num)
      (by norm_num) (by norm_num) (by simpa using hx)
    rw [show π * (1 / 4) / 1 = π / 4 by ring, sin_pi_div_four, cos_pi_div_four, div_pow, sq_sqrt (by norm_num)] at g5
    rw [(B x).2.2.2.2.1, one_mul]
    exact ⟨by linarith, by linarith⟩
  have hci : ∀ x : ℝ, (o x).dcosidb = 1 / (o x).a ∧ (o x).cos_incl = x / (o x).a := by
    intro x
    have h1 : (o x).dcosidb = 1 / (o x).a := by
      rw [(built_of_init (ho x).1).dcosidb_eq, (B x).1, (B x).2.2.1, inclFactorOf]; simp
    exact ⟨h1, by rw [(B x).2.2.2.2.2.1, h1]; ring⟩
  have h12 : |(1 / 2 : ℝ)| ≤ 1 := by rw [abs_of_nonneg] <;> norm_num
  obtain ⟨ha, ha2⟩ := hsq (1 / 2) h12
  refine ⟨o, fun x => (ho x).1, ?_, ?_⟩
  · refine (built_of_init (ho (1 / 2)).1).durationCirc_physical (hD _) (by norm_num) (by norm_num) (by norm_num)
      (by norm_num) (by norm_num) (by simpa using h12) (ho _).2.ge ?_
    rw [(ho _).2]; positivity
  · intro hcon
    have h1 := hcon.fun_pow 2
    have h2 : HasDerivAt (fun x : ℝ => x ^ 2 / (2 - x ^ 2)) (32 / 49) (1 / 2) := by
      have hx : HasDerivAt (fun x : ℝ => x ^ 2) (2 * (1 / 2) ^ (2 - 1)) (1 / 2) := hasDerivAt_pow 2 (1 / 2 : ℝ)
      refine (hx.fun_div (hx.const_sub 2) (by norm_num)).congr_deriv ?_
      norm_num
    have h3 : (fun x : ℝ => (o x).cos_incl ^ 2) =ᶠ[nhds (1 / 2)] fun x => x ^ 2 / (2 - x ^ 2) := by
      filter_upwards [Ioo_mem_nhds (show (0 : ℝ) < 1 / 2 by norm_num) (show (1 / 2 : ℝ) < 1 by norm_num)] with x hx
      rw [(hci x).2, div_pow, (hsq x (by rw [abs_of_pos hx.1]; exact hx.2.le)).2]
    have h4 := h1.unique (h2.congr_of_eventuallyEq h3)
    rw [(hci _).1, (hci _).2] at h4
    have h5 : (1 / 2 / (o (1 / 2)).a) * (1 / (o (1 / 2)).a) = 1 / 2 / (o (1 / 2)).a ^ 2 := by
      rw [div_mul_div_comm, sq, mul_one]
    norm_num at h4
    have h6 : 2 * (1 / 2 / (o (1 / 2)).a) * (1 / (o (1 / 2)).a) = 4 / 7 := by
      rw [mul_assoc, h5, ha2]; norm_num
    norm_num at h6
    linarith

/-! ## C26 -/

/-- **C26** (impact parameter from a duration on an eccentric orbit), for `ror` absent or zero and a massless planet. `c` is
the left-hand side of the claim; the hypotheses say that a solution exists (the quotient under the root is not negative and
is not `0/0`) and that the orbit is not seen exactly face on. Missing: non-zero `ror` (ignored by the code,
`C26_ror_counterexample`) and massive planets (the code uses `a_planet` for `a`, `C26_mass_counterexample`). -/
theorem C26_b_from_duration_partial (C : Consts) (A : Args) (o : Orbit) (h : keplerianInit C A = .ok o) (hp : o.Physical)
    (e : Q) (dq : Q) (he : A.ecc = some e) (hd : A.duration = some dq)
    (hm : o.m_planet = 0) (p : EccParams) (hpe : o.ecc = some p)
    (F c : ℝ) (hF : F = (1 + p.ecc * p.sin_omega) / (1 - p.ecc ^ 2)) (hc : c = sin (π * dq.inUnit C.day * F / o.period))
    (hc0 : 0 ≤ c) (hex : 0 ≤ ((o.a / o.r_star) ^ 2 * c ^ 2 - 1) / (c ^ 2 * F ^ 2 - 1)) (hne : c ^ 2 * F ^ 2 ≠ 1)
    (hsi : 0 < o.sin_incl) :
    c = o.r_star * √(1 - o.b ^ 2) / (o.a * o.sin_incl) := by
  have B := built_of_init h
  have hR := hp.r_star_pos
  have ha := hp.a_pos
  have hms := hp.m_star_pos
  have he2 : 0 < 1 - p.ecc ^ 2 := by
    nlinarith [hp.ecc_nonneg p hpe, hp.ecc_lt_one p hpe]
  have hapl : o.a_planet = -o.a := by
    rw [B.a_planet_eq, B.m_total_eq, hm, add_zero, mul_div_cancel_right₀ _ hms.ne']
  obtain ⟨mp, rho, D, -, -, hD, -, hi, -⟩ := B.inputs
  rw [durationBlock_not_circ (by simp [Args.CircDuration, he])] at hD
  cases hD
  have hb : o.b = bFromDuration p (dq.inUnit C.day) o.period o.a_planet o.r_star := by
    unfold inclBlock at hi
    simp only [hd, hpe] at hi
    rcases hb : A.b with _ | bq
    · rcases hin : A.incl with _ | iq
      · simp only [hb, hin] at hi
        rcases ht : toUnitVal dq C.day with er | dv
        · rw [ht] at hi; cases hi
        · rw [ht] at hi
          simp only [Except.ok.injEq, Prod.mk.injEq] at hi
          rw [toUnitVal_eq_ok] at ht
          rw [← hi.1, ht.2]
      · simp [hb, hin] at hi
    · simp [hb] at hi
  have hb2 : o.b ^ 2 * (c ^ 2 * F ^ 2 - 1) = (o.a / o.r_star) ^ 2 * c ^ 2 - 1 := by
    have hcF : c = sin (π * dq.inUnit C.day * ((1 + p.ecc * p.sin_omega) / (1 - p.ecc ^ 2)) / o.period) := by
      rw [hc, hF]
    have hden : c * c * (p.ecc * p.sin_omega) ^ 2 + 2 * (c * c) * (p.ecc * p.sin_omega) + c * c - p.ecc ^ 4 +
        2 * p.ecc ^ 2 - 1 = (c ^ 2 * F ^ 2 - 1) * (1 - p.ecc ^ 2) ^ 2 := by
      rw [hF]; field_simp; ring
    rw [hb, bFromDuration]
    rw [← hcF, hden, hapl, mul_pow, sq_sqrt]
    · have : c ^ 2 * F ^ 2 - 1 ≠ 0 := sub_ne_zero.2 hne
      field_simp
    · rw [div_mul_eq_div_div]
      refine div_nonneg ?_ (sq_nonneg _)
      rw [show (-o.a / o.r_star) ^ 2 * (c * c) = (o.a / o.r_star) ^ 2 * c ^ 2 by ring]
      exact hex
  have hcos : o.cos_incl = F * o.r_star / o.a * o.b := by
    rw [B.cos_incl_b hp, B.dcosidb_eq, hpe, inclFactorOf, hF]
  have hinc := B.incl_sq hp
  have hasi : 0 < o.a * o.sin_incl := by positivity
  have key : (c * (o.a * o.sin_incl)) ^ 2 = o.r_star ^ 2 * (1 - o.b ^ 2) := by
    have h1 : o.sin_incl ^ 2 = 1 - (F * o.r_star / o.a * o.b) ^ 2 := by rw [← hcos]; linarith
    rw [mul_pow, mul_pow o.a, h1]
    have h2 : (o.a / o.r_star) ^ 2 * c ^ 2 = 1 + o.b ^ 2 * (c ^ 2 * F ^ 2 - 1) := by linarith
    have h3 : o.a ^ 2 * c ^ 2 = o.r_star ^ 2 * (1 + o.b ^ 2 * (c ^ 2 * F ^ 2 - 1)) := by
      rw [← h2]; field_simp
    have h4 : o.a ^ 2 * (F * o.r_star / o.a * o.b) ^ 2 = F ^ 2 * o.r_star ^ 2 * o.b ^ 2 := by field_simp
    linear_combination h3 - c ^ 2 * h4
  have hb1 : 0 ≤ 1 - o.b ^ 2 := by
    by_contra hcon
    push Not at hcon
    nlinarith [sq_nonneg (c * (o.a * o.sin_incl)), mul_pos hR hR]
  rw [eq_div_iff hasi.ne']
  rw [← sqrt_sq (show 0 ≤ c * (o.a * o.sin_incl) by positivity), key, sqrt_mul (sq_nonneg _), sqrt_sq hR.le]

/-- `KeplerianOrbit(a=1.5, period=1, ecc=0.5, sin_omega=1, cos_omega=0, duration=1/8, ror=k, m_planet=m)`. -/
noncomputable def demoEccDur (k m : ℝ) : Args :=
  { a := some (3 / 2 : ℝ), period := some (1 : ℝ), ecc := some (1 / 2 : ℝ), sin_omega := some (1 : ℝ),
    cos_omega := some (0 : ℝ), duration := some (1 / 8 : ℝ), ror := some (k : ℝ), m_planet := some (m : ℝ) }

/-- The left-hand side `c` of C26 for `demoEccDur`. -/
theorem demoEccDur_c : sin (π * (1 / 8 : ℝ) * ((1 + 1 / 2 * 1) / (1 - (1 / 2) ^ 2)) / 1) ^ 2 = 1 / 2 ∧
    0 < sin (π * (1 / 8 : ℝ) * ((1 + 1 / 2 * 1) / (1 - (1 / 2) ^ 2)) / 1) := by
  rw [show π * (1 / 8 : ℝ) * ((1 + 1 / 2 * 1) / (1 - (1 / 2) ^ 2)) / 1 = π / 4 by ring, sin_pi_div_four, div_pow,
    sq_sqrt (by norm_num)]
  exact ⟨by norm_num, by positivity⟩

theorem demoEccDur_ok (C : Consts) (k μ : ℝ) (hμ0 : 0 ≤ μ) (hμ1 : 2 ≤ (3 / 2 * (1 - μ)) ^ 2) (hμ : μ < 1) :
    ∃ o, keplerianInit C (demoEccDur k (μ * (4 * π * π * (3 / 2) ^ 3 / C.G))) = .ok o ∧ o.Physical ∧
    o.a = 3 / 2 ∧ o.r_star = 1 ∧ o.period = 1 ∧ o.m_planet = μ * (4 * π * π * (3 / 2) ^ 3 / C.G) ∧
    o.b ^ 2 = (3 / 2 * (1 - μ)) ^ 2 / 2 - 1 ∧ 0 < o.sin_incl ∧ o.sin_incl ^ 2 = 1 - 16 / 9 * o.b ^ 2 ∧
    o.ecc = some ⟨1 / 2, arctan2 1 0, 0, 1⟩ := by
  have hG := C.G_pos
  have hg := C.gccPerSun_pos
  have hpi := pi_pos
  obtain ⟨o, ho, h1, h2, h3, h4, h5, h6, h7, h8⟩ : ∃ o, keplerianInit C (demoEccDur k (μ * (4 * π * π * (3 / 2) ^ 3 / C.G))) = .ok o ∧
    o.a = 3 / 2 ∧ o.r_star = 1 ∧ o.period = 1 ∧ o.m_planet = μ * (4 * π * π * (3 / 2) ^ 3 / C.G) ∧
    o.m_star = 4 * π * π * (3 / 2) ^ 3 / (C.G * 1 ^ 2) - μ * (4 * π * π * (3 / 2) ^ 3 / C.G) ∧
    o.rho_star = o.m_star / (4 * π * 1 ^ 3 / 3) * C.gccPerSun ∧
    o.ecc = some ⟨1 / 2, arctan2 1 0, 0, 1⟩ ∧
    o.b = bFromDuration ⟨1 / 2, arctan2 1 0, 0, 1⟩ (1 / 8) 1 o.a_planet 1 ∧ o.cos_incl = o.dcosidb * o.b ∧
    o.incl = arccos (o.dcosidb * o.b) := ⟨_, rfl, rfl, rfl, rfl, rfl, rfl, rfl, rfl, rfl, rfl, rfl⟩
  obtain ⟨h8, h9, h10⟩ := h8
  have B := built_of_init ho
  have hms : o.m_star = (1 - μ) * (4 * π * π * (3 / 2) ^ 3 / C.G) := by rw [h5]; ring
  have hM : 0 < 4 * π * π * (3 / 2) ^ 3 / C.G := by positivity
  have hapl : o.a_planet = -(3 / 2 * (1 - μ)) := by
    rw [B.a_planet_eq, B.m_total_eq, h4, hms, h1]
    field_simp
    ring
  obtain ⟨c1, c2⟩ := demoEccDur_c
  have hb2 : o.b ^ 2 = (3 / 2 * (1 - μ)) ^ 2 / 2 - 1 := by
    rw [h8, bFromDuration, hapl]
    simp only
    set c := sin (π * (1 / 8 : ℝ) * ((1 + 1 / 2 * 1) / (1 - (1 / 2) ^ 2)) / 1)
    rw [show c * c = 1 / 2 by rw [← c1]; ring, mul_pow, sq_sqrt]
    · ring
    · refine div_nonneg ?_ (by norm_num)
      linarith
  have hdc : o.dcosidb = 4 / 3 := by
    rw [B.dcosidb_eq, h7, h1, h2, inclFactorOf]; norm_num
  have hci2 : o.cos_incl ^ 2 = 16 / 9 * o.b ^ 2 := by rw [h9, hdc]; ring
  have hb3 : o.b ^ 2 ≤ 1 / 8 := by
    rw [hb2]
    nlinarith
  have hci1 : |o.cos_incl| ≤ 1 := by
    rw [← sq_le_one_iff_abs_le_one]; linarith
  have hp : o.Physical := by
    refine ⟨by rw [h3]; norm_num, by rw [h1]; norm_num, ?_, ?_, by rw [h2]; norm_num, ?_, ?_, ?_, ?_, hci1⟩
    · rw [hms]; exact mul_pos (by linarith) hM
    · rw [h4]; positivity
    · rw [h6, hms]
      have : 0 < 1 - μ := by linarith
      positivity
    all_goals
      intro p hpe
      rw [h7] at hpe
      cases hpe
      norm_num
  have hsi2 := B.incl_sq hp
  have hsi0 : 0 ≤ o.sin_incl := by
    rw [B.sin_incl_eq, h10]
    exact sin_nonneg_of_nonneg_of_le_pi (arccos_nonneg _) (arccos_le_pi _)
  refine ⟨o, ho, hp, h1, h2, h3, h4, hb2, ?_, by linarith, h7⟩
  rcases hsi0.eq_or_lt with h0 | h0
  · rw [← h0] at hsi2; exfalso; linarith
  · exact h0

/-- The hypotheses of `C26_b_from_duration_partial` are met by a non-trivial eccentric orbit (`e = 1/2`, `b² = 1/8`). -/
example (C : Consts) : ∃ A o p, keplerianInit C A = .ok o ∧ o.Physical ∧ A.ecc.isSome ∧ A.duration = some ((1 / 8 : ℝ) : Q) ∧
    o.m_planet = 0 ∧ o.ecc = some p ∧ 0 < p.ecc ∧ 0 < o.b ^ 2 ∧ 0 < o.sin_incl ∧
    (let F := (1 + p.ecc * p.sin_omega) / (1 - p.ecc ^ 2)
     let c := sin (π * ((1 / 8 : ℝ) : Q).inUnit C.day * F / o.period)
     0 ≤ c ∧ 0 ≤ ((o.a / o.r_star) ^ 2 * c ^ 2 - 1) / (c ^ 2 * F ^ 2 - 1) ∧ c ^ 2 * F ^ 2 ≠ 1) := by
  obtain ⟨o, ho, hp, h1, h2, h3, h4, h5, h6, h7, h8⟩ := demoEccDur_ok C 0 0 le_rfl (by norm_num) (by norm_num)
  refine ⟨_, o, _, ho, hp, rfl, rfl, by rw [h4]; simp, h8, by norm_num, by rw [h5]; norm_num, h6, ?_⟩
  obtain ⟨c1, c2⟩ := demoEccDur_c
  simp only [Q.inUnit, h1, h2, h3]
  rw [c1]
  exact ⟨c2.le, by norm_num, by norm_num⟩

/-- **C26 is false with a radius ratio**: for `KeplerianOrbit(a=1.5, period=1, ecc=0.5, sin_omega=1, cos_omega=0,
duration=1/8, ror=k)` with any `k > 0` the promised relation fails (the code ignores `ror`). -/
theorem C26_ror_counterexample (C : Consts) (k : ℝ) (hk : 0 < k) : ∃ o, keplerianInit C (demoEccDur k 0) = .ok o ∧
    o.Physical ∧ o.m_planet = 0 ∧
    sin (π * (1 / 8 : ℝ) * ((1 + 1 / 2 * 1) / (1 - (1 / 2) ^ 2)) / o.period) ≠
      o.r_star * √((1 + k) ^ 2 - o.b ^ 2) / (o.a * o.sin_incl) := by
  obtain ⟨o, ho, hp, h1, h2, h3, h4, h5, h6, h7, h8⟩ := demoEccDur_ok C k 0 le_rfl (by norm_num) (by norm_num)
  rw [zero_mul] at ho h4
  refine ⟨o, ho, hp, h4, ?_⟩
  obtain ⟨c1, c2⟩ := demoEccDur_c
  rw [h3, h1, h2]
  intro hcon
  have h9 := congrArg (fun x : ℝ => x ^ 2) hcon
  beta_reduce at h9
  rw [c1, div_pow, mul_pow, mul_pow, sq_sqrt (by rw [h5]; nlinarith), h7, h5] at h9
  norm_num at h9
  nlinarith

/-- **C26 is false for massive planets**: same orbit with a planet of 1/30 of the total mass. -/
theorem C26_mass_counterexample (C : Consts) : ∃ m o, keplerianInit C (demoEccDur 0 m) = .ok o ∧ o.Physical ∧
    sin (π * (1 / 8 : ℝ) * ((1 + 1 / 2 * 1) / (1 - (1 / 2) ^ 2)) / o.period) ≠
      o.r_star * √((1 + 0) ^ 2 - o.b ^ 2) / (o.a * o.sin_incl) := by
  obtain ⟨o, ho, hp, h1, h2, h3, h4, h5, h6, h7, h8⟩ := demoEccDur_ok C 0 (1 / 30) (by norm_num) (by norm_num) (by norm_num)
  refine ⟨_, o, ho, hp, ?_⟩
  obtain ⟨c1, c2⟩ := demoEccDur_c
  rw [h3, h1, h2]
  intro hcon
  have h9 := congrArg (fun x : ℝ => x ^ 2) hcon
  beta_reduce at h9
  rw [c1, div_pow, mul_pow, mul_pow, sq_sqrt (by rw [h5]; norm_num), h7, h5] at h9
  norm_num at h9

end Exo
