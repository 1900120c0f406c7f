import Verif.Spec.BackpropAstro
import Verif.Props.BackpropRv
import Verif.Props.BackpropDist

/-!
# C130: gradients of astrometric positions as the compiled graph computes them
-/

namespace Exo
open Real Function Topology

variable {C : Consts} {m : AstroMode} {op : FlOp} {L : ℝ → ℝ → ℝ} {q : AstroPar → ℝ}

theorem AstroMode.args_ok (C : Consts) (m : AstroMode) (q : AstroPar → ℝ) : ∃ o, keplerianInit C (m.args q) = .ok o := by
  obtain ⟨s, r, n, p⟩ := m
  cases s <;> cases r <;> cases n <;> exact ⟨_, rfl⟩

theorem astro_real {o : Orbit} (h : keplerianInit C (m.args q) = .ok o) (L : ℝ → ℝ → ℝ) (t : ℝ) :
    o.relativePosition C t (m.px q) = ⟨(m.xG C t).real L q, (m.yG C t).real L q, (m.zG C t).real L q⟩ := by
  obtain ⟨s, r, n, p⟩ := m
  cases s <;> cases r <;> cases n <;> cases p <;> (obtain rfl := Except.ok.inj h; rfl)

theorem angles_real {o : Orbit} (h : keplerianInit C (m.args q) = .ok o) (L : ℝ → ℝ → ℝ) (t : ℝ) :
    o.relativeAngles C t (m.px q) = ((m.rhoG C t).real L q, (m.thetaG C t).real L q) := by
  have := astro_real h L t
  simp only [Orbit.relativePosition] at this
  simp only [Orbit.relativeAngles, this]
  rfl

/-! ## Regularity -/

/-- The arguments that the anomaly depends on. -/
noncomputable def anomalyPar : KepPar → Graph AstroPar
  | .a => .const 1
  | .r_star => .const 1
  | .r => .const 1
  | .b => .const 0
  | p => .input (.kep p)

theorem anomalyPar_possible (hq : m.Possible q) : m.shape.Possible fun p => (anomalyPar p).real L q := by
  refine ⟨one_pos, hq.period, one_pos, one_pos, hq.ecc, fun hm => ?_⟩
  have := hq.omega hm
  obtain ⟨s, r, n, p⟩ := m
  cases s <;> exact this

theorem anomalyPar_regular (p : KepPar) : (anomalyPar p).Regular L op q := by cases p <;> trivial

theorem astroAnomaly_regular (hq : m.Possible q) (t : ℝ) : (m.anomalyG t).Regular L op q := by
  have hp := anomalyPar_possible (L := L) hq
  have hP := anomalyPar_regular (L := L) (op := op) (q := q)
  have hn : (KepMode.nG AstroMode.parG).Regular L op q := ⟨⟨trivial, trivial⟩, trivial, hq.period.ne'⟩
  have hM : (m.shape.M0G AstroMode.parG).Regular L op q := by
    have := M0G_regular hP hp
    obtain ⟨s, r, n, p⟩ := m
    cases s <;> exact this
  have hd : m.delayG.Regular L op q := by
    refine ⟨hM, hn, ?_⟩
    simp only [KepMode.nG, AstroMode.parG, Graph.real]
    have := pi_pos
    have := hq.period
    positivity
  obtain ⟨s, r, n, p⟩ := m
  cases r with
  | t0 => exact ⟨⟨⟨trivial, trivial⟩, ⟨trivial, hd⟩, trivial⟩, hn⟩
  | t_periastron => exact ⟨⟨⟨trivial, trivial, hd⟩, trivial, trivial, hd⟩, hn⟩

theorem astroPlane_regular (hk : op.ExactKepler) (hq : m.Possible q) (t : ℝ) : (m.x1G C t).Regular L op q ∧ (m.y1G C t).Regular L op q := by
  have hA := astroAnomaly_regular (L := L) (op := op) hq t
  have hf : (m.sinfG t).Regular L op q ∧ (m.cosfG t).Regular L op q := by
    obtain ⟨s, r, n, p⟩ := m
    cases s with
    | circular => exact ⟨hA, hA⟩
    | angle =>
      obtain ⟨h1, h2⟩ := pairs_of_ecc hk (hq.ecc nofun).1 (hq.ecc nofun).2 ((AstroMode.anomalyG ⟨.angle, r, n, p⟩ t).real L q)
      exact ⟨⟨hA, trivial, h1⟩, ⟨hA, trivial, h2⟩⟩
    | sincos =>
      obtain ⟨h1, h2⟩ := pairs_of_ecc hk (hq.ecc nofun).1 (hq.ecc nofun).2 ((AstroMode.anomalyG ⟨.sincos, r, n, p⟩ t).real L q)
      exact ⟨⟨hA, trivial, h1⟩, ⟨hA, trivial, h2⟩⟩
  have hd : (m.distanceG t).Regular L op q := by
    obtain ⟨s, r, n, p⟩ := m
    cases s with
    | circular => trivial
    | angle => exact ⟨⟨trivial, trivial, trivial⟩, ⟨trivial, trivial, hf.2⟩, (keplerOp_conic (hq.ecc nofun).1 (hq.ecc nofun).2 _).ne'⟩
    | sincos => exact ⟨⟨trivial, trivial, trivial⟩, ⟨trivial, trivial, hf.2⟩, (keplerOp_conic (hq.ecc nofun).1 (hq.ecc nofun).2 _).ne'⟩
  have hr : (m.radiusG C t).Regular L op q := by
    obtain ⟨s, r, n, p⟩ := m
    cases p with
    | false => exact hd
    | true => exact ⟨⟨hd, trivial⟩, trivial⟩
  obtain ⟨hs, hc⟩ := hf
  have hw := omega_regular (m := m.shape) (P := AstroMode.parG) (L := L) (op := op) (x := q) fun _ => trivial
  obtain ⟨s, r, n, p⟩ := m
  cases s with
  | circular => exact ⟨⟨hr, hc⟩, ⟨hr, hs⟩⟩
  | angle => exact ⟨⟨⟨hw.1, hr, hc⟩, hw.2, hr, hs⟩, ⟨⟨hw.2, hr, hc⟩, hw.1, hr, hs⟩⟩
  | sincos => exact ⟨⟨⟨hw.1, hr, hc⟩, hw.2, hr, hs⟩, ⟨⟨hw.2, hr, hc⟩, hw.1, hr, hs⟩⟩

theorem astro_regular (hk : op.ExactKepler) (hq : m.Possible q) (t : ℝ) :
    (m.xG C t).Regular L op q ∧ (m.yG C t).Regular L op q ∧ (m.zG C t).Regular L op q := by
  obtain ⟨hx, hy⟩ := astroPlane_regular (C := C) (L := L) hk hq t
  have h2 : (m.y2G C t).Regular L op q := ⟨trivial, hy⟩
  obtain ⟨s, r, n, p⟩ := m
  cases n with
  | false => exact ⟨hx, h2, trivial, hy⟩
  | true => exact ⟨⟨⟨trivial, hx⟩, trivial, h2⟩, ⟨⟨trivial, hx⟩, trivial, h2⟩, trivial, hy⟩

variable {o : (AstroPar → ℝ) → Orbit}

/-! ## What holds -/

/-- **C130 (positions).** With exact operations the three coordinates of `get_relative_position` of an orbit with a given inclination, with or without `Omega` and a parallax, and their computed
derivatives with respect to all parameters are the true ones, also for orbits that are seen face-on or edge-on, if `0 ≤ e < 1` and `sin ω > -1`. -/
theorem C130_position_partial (hk : op.ExactKepler) (hq : m.Possible q) (ho : ∀ q, keplerianInit C (m.args q) = .ok (o q)) (t : ℝ) :
    GradientRight op (m.xG C t) (fun q => ((o q).relativePosition C t (m.px q)).x) q ∧
    GradientRight op (m.yG C t) (fun q => ((o q).relativePosition C t (m.px q)).y) q ∧
    GradientRight op (m.zG C t) (fun q => ((o q).relativePosition C t (m.px q)).z) q := by
  obtain ⟨hx, hy, hz⟩ := astro_regular (C := C) (L := fun _ _ => 0) hk hq t
  exact ⟨.of_regular hx fun q => by rw [astro_real (ho q) (fun _ _ => 0) t], .of_regular hy fun q => by rw [astro_real (ho q) (fun _ _ => 0) t],
    .of_regular hz fun q => by rw [astro_real (ho q) (fun _ _ => 0) t]⟩

theorem separation_real (ho : ∀ q, keplerianInit C (m.args q) = .ok (o q)) (L : ℝ → ℝ → ℝ) (t : ℝ) (q : AstroPar → ℝ) : m.separation C o t q = (m.rhoG C t).real L q := by
  rw [AstroMode.separation, angles_real (ho q) L t]

theorem positionAngle_real (ho : ∀ q, keplerianInit C (m.args q) = .ok (o q)) (L : ℝ → ℝ → ℝ) (t : ℝ) (q : AstroPar → ℝ) : m.positionAngle C o t q = (m.thetaG C t).real L q := by
  rw [AstroMode.positionAngle, angles_real (ho q) L t]

/-- **C130 (separations).** The separation and its computed derivatives are the true ones where it is not zero. -/
theorem C130_separation_partial (hk : op.ExactKepler) (hq : m.Possible q) (ho : ∀ q, keplerianInit C (m.args q) = .ok (o q)) (t : ℝ) (h0 : m.separation C o t q ≠ 0) :
    GradientRight op (m.rhoG C t) (m.separation C o t) q := by
  obtain ⟨hx, hy, -⟩ := astro_regular (C := C) (L := fun _ _ => 0) hk hq t
  refine .of_regular ⟨⟨hx, hy⟩, ?_⟩ (separation_real ho (fun _ _ => 0) t)
  rw [separation_real ho (fun _ _ => 0) t q] at h0
  exact sqrt_pos.1 (lt_of_le_of_ne (sqrt_nonneg _) h0.symm)

theorem arctan2_lt_pi {x y : ℝ} (h : arctan2 y x ≠ π) : 0 ≤ x ∨ y ≠ 0 := by
  by_contra hn
  push Not at hn
  exact h (Complex.arg_eq_pi_iff.2 hn)

theorem separation_ne (ho : ∀ q, keplerianInit C (m.args q) = .ok (o q)) (L : ℝ → ℝ → ℝ) {t : ℝ} {q : AstroPar → ℝ} (h0 : m.separation C o t q ≠ 0) :
    (m.xG C t).real L q ≠ 0 ∨ (m.yG C t).real L q ≠ 0 := by
  by_contra hn
  push Not at hn
  apply h0
  rw [separation_real ho L t q, AstroMode.rhoG]
  simp only [Graph.real, hn]
  simp

/-- **C130 (position angles).** The position angle and its computed derivatives are the true ones where the separation is not zero and the angle is not `π`. -/
theorem C130_angle_partial (hk : op.ExactKepler) (hq : m.Possible q) (ho : ∀ q, keplerianInit C (m.args q) = .ok (o q)) (t : ℝ) (h0 : m.separation C o t q ≠ 0)
    (hπ : m.positionAngle C o t q ≠ π) : GradientRight op (m.thetaG C t) (m.positionAngle C o t) q := by
  obtain ⟨hx, hy, -⟩ := astro_regular (C := C) (L := fun _ _ => 0) hk hq t
  refine .of_regular ⟨hy, hx, ?_⟩ (positionAngle_real ho (fun _ _ => 0) t)
  rw [positionAngle_real ho (fun _ _ => 0) t q] at hπ
  have := separation_ne ho (fun _ _ => 0) h0
  rcases arctan2_lt_pi hπ with h | h
  · by_cases hy : (m.yG C t).real (fun _ _ => 0) q = 0
    · exact .inl (lt_of_le_of_ne h (this.resolve_right (not_not.2 hy)).symm)
    · exact .inr hy
  · exact .inr h

theorem wrapped_eq (x : ℝ) : wrapped x = arctan2 (sin x) (cos x) := by
  have : (⟨cos x, sin x⟩ : ℂ) = Complex.cos x + Complex.sin x * Complex.I := by
    apply Complex.ext <;> simp [Complex.cos_ofReal_re, Complex.sin_ofReal_re]
  rw [arctan2, this, Complex.arg_cos_add_sin_mul_I_eq_toIocMod]
  rfl

theorem arctan2_same {ι : Type} [DecidableEq ι] {G H : Graph ι} {env : ι → Fl} {x : ℝ} (h2 : G.value op env = .fin 0) (h1 : H.value op env = .fin x) (hx : x < 0) :
    SameGraph op env (.arctan2 G H) (.add (.arctan2 (.neg G) (.neg H)) (.const π)) := by
  have a1 : arctan2 0 x = π := by rw [arctan2, Complex.arg_eq_pi_iff]; exact ⟨hx, rfl⟩
  have a2 : arctan2 0 (-x) = 0 := by rw [arctan2, Complex.arg_eq_zero_iff]; exact ⟨(neg_pos.2 hx).le, rfl⟩
  refine ⟨?_, fun g => funext fun j => ?_⟩
  · simp only [Graph.value, h1, h2, Fl.fin_neg, neg_zero, Fl.arctan2_fin, Fl.fin_add, a1, a2, zero_add]
  · have hd : (0 : ℝ) ^ 2 + x ^ 2 ≠ 0 := by have := hx.ne; positivity
    have a0 : ∀ y : Fl, y + .fin 0 = y := by
      rintro (y | y | _)
      · rw [Fl.fin_add, add_zero]
      · rfl
      · rfl
    have e1 : g * Fl.fin x / (Fl.fin 0 ^ 2 + Fl.fin x ^ 2) = -(g * -Fl.fin x / ((-Fl.fin 0) ^ 2 + (-Fl.fin x) ^ 2)) := by
      simp only [Fl.fin_neg, Fl.fin_pow, Fl.fin_add, neg_zero, neg_sq]
      rcases g with g | s | _
      · rw [Fl.fin_mul, Fl.fin_mul, Fl.fin_div hd, Fl.fin_div hd, Fl.fin_neg]; congr 1; ring
      · change Fl.div (Fl.mul (.inf s) (.fin x)) _ = Fl.neg (Fl.div (Fl.mul (.inf s) (.fin (-x))) _)
        simp only [Fl.mul, if_neg hx.ne, if_neg (neg_ne_zero.2 hx.ne), Fl.div, Fl.neg, decide_eq_true hx, decide_eq_false (not_lt.2 (neg_pos.2 hx).le)]
        cases s <;> simp
      · rfl
    have e2 : g * -Fl.fin 0 / (Fl.fin 0 ^ 2 + Fl.fin x ^ 2) = -(g * -(-Fl.fin 0) / ((-Fl.fin 0) ^ 2 + (-Fl.fin x) ^ 2)) := by
      simp only [Fl.fin_neg, Fl.fin_pow, Fl.fin_add, neg_zero, neg_sq]
      rcases g with g | s | _
      · rw [Fl.fin_mul, Fl.fin_div hd, Fl.fin_neg]; congr 1; simp
      · change Fl.div (Fl.mul (.inf s) (.fin 0)) _ = Fl.neg (Fl.div (Fl.mul (.inf s) (.fin 0)) _)
        simp only [Fl.mul, if_true, Fl.div, Fl.neg]
      · rfl
    simp only [Graph.back, Graph.value, h1, h2, a0]
    rw [e1, e2]

theorem wrapped_regular {ι : Type} {D : Graph ι} {q : ι → ℝ} (h : D.Regular L op q) (hr : wrapped (D.real L q) ≠ π) : (Graph.arctan2 (.sin D) (.cos D)).Regular L op q := by
  rw [wrapped_eq] at hr
  refine ⟨h, h, ?_⟩
  simp only [Graph.real]
  rcases arctan2_lt_pi hr with h | h
  · by_cases hs : sin (D.real L q) = 0
    · refine .inl (lt_of_le_of_ne h fun hc => ?_)
      have := sin_sq_add_cos_sq (D.real L q)
      rw [hs, ← hc] at this
      norm_num at this
    · exact .inr hs
  · exact .inr h

/-- **C130 (residuals of position angles).** The residual of a position angle, wrapped as in the tutorial, is the angle between `-π` and `π` that differs from `theta - theta_obs` by whole turns; it
and its computed derivatives are the true ones where the separation is not zero and the residual is not `π`, also where the position angle itself jumps from `π` to `-π`. -/
theorem C130_residual_partial (hk : op.ExactKepler) (hq : m.Possible q) (ho : ∀ q, keplerianInit C (m.args q) = .ok (o q)) (t obs : ℝ) (h0 : m.separation C o t q ≠ 0)
    (hr : wrapped (m.positionAngle C o t q - obs) ≠ π) : GradientRight op (m.residualG C t obs) (fun q => wrapped (m.positionAngle C o t q - obs)) q := by
  set L : ℝ → ℝ → ℝ := fun _ _ => 0
  obtain ⟨hx, hy, -⟩ := astro_regular (C := C) (L := L) hk hq t
  have hf : ∀ q, wrapped (m.positionAngle C o t q - obs) = (m.residualG C t obs).real L q := fun q => by
    rw [wrapped_eq, positionAngle_real ho L t q]; rfl
  have hne := separation_ne ho L h0
  by_cases hcut : 0 < (m.xG C t).real L q ∨ (m.yG C t).real L q ≠ 0
  · have hθ : (m.thetaG C t).Regular L op q := ⟨hy, hx, hcut⟩
    refine .of_regular (L := L) (wrapped_regular (D := .sub (m.thetaG C t) (.const obs)) ⟨hθ, trivial⟩ ?_) hf
    rw [positionAngle_real ho L t q] at hr
    exact hr
  · push Not at hcut
    have hX : (m.xG C t).real L q < 0 := lt_of_le_of_ne hcut.1 (hne.resolve_right (not_not.2 hcut.2))
    set T : Graph AstroPar := .add (.arctan2 (.neg (m.yG C t)) (.neg (m.xG C t))) (.const π) with hT
    set D : Graph AstroPar := .sub T (.const obs) with hD
    set R : Graph AstroPar := .arctan2 (.sin D) (.cos D) with hR
    have hTr : T.Regular L op q := ⟨⟨hy, hx, .inl (by simpa only [Graph.real] using neg_pos.2 hX)⟩, trivial⟩
    have hreal : ∀ q, (m.xG C t).real L q ≠ 0 → wrapped (m.positionAngle C o t q - obs) = R.real L q := by
      intro q hxq
      obtain ⟨c, s⟩ := cos_sin_opposite (x := (m.xG C t).real L q) (y := (m.yG C t).real L q) (.inl hxq)
      rw [wrapped_eq, positionAngle_real ho L t q]
      simp only [hR, hD, hT, AstroMode.thetaG, Graph.real, sin_sub, cos_sub]
      rw [c, s]
    have hRr : R.Regular L op q := by
      refine wrapped_regular (D := D) ⟨hTr, trivial⟩ ?_
      rw [wrapped_eq]
      rw [hreal q hX.ne] at hr
      exact hr
    have hsame : SameGraph op (fun i => .fin (q i)) (m.residualG C t obs) R := by
      have h1 := arctan2_same (op := op) (env := fun i => .fin (q i)) (G := m.yG C t) (H := m.xG C t) (by rw [(C118_backprop op L q _ hy).1, hcut.2]) (C118_backprop op L q _ hx).1 hX
      have h2 : SameGraph op (fun i => .fin (q i)) (.sub (m.thetaG C t) (.const obs)) D := h1.sub (.refl _)
      exact h2.sin.arctan2 h2.cos
    obtain ⟨b1, b2⟩ := C118_backprop op L q _ hRr
    refine ⟨by beta_reduce; rw [hsame.1, b1, hreal q hX.ne], fun j => ?_⟩
    obtain ⟨E, hE, hg⟩ := b2 j
    obtain ⟨D', hD', -⟩ := (C118_backprop op L q _ hx).2 j
    refine ⟨E, hE.congr_of_eventuallyEq ?_, fun g => by rw [hsame.2, hg]⟩
    have hev : ∀ᶠ s in 𝓝 (q j), (m.xG C t).real L (update q j s) < 0 := hD'.continuousAt.eventually_lt continuousAt_const (by rw [update_eq_self]; exact hX)
    exact hev.mono fun s hs => hreal _ hs.ne

/-! ## Light curves -/

theorem astroStar_real {o : Orbit} (h : keplerianInit C (m.argsWithStar q) = .ok o) (L : ℝ → ℝ → ℝ) (t : ℝ) :
    o.relativePosition C t = ⟨(AstroMode.xG C { m with scaled := false } t).real L q, (AstroMode.yG C { m with scaled := false } t).real L q,
      (AstroMode.zG C { m with scaled := false } t).real L q⟩ := by
  obtain ⟨s, r, n, p⟩ := m
  cases s <;> cases r <;> cases n <;> (obtain rfl := Except.ok.inj h; rfl)

theorem astroFlux_regular {ι : Type} {X Y Z R r : Graph ι} {x : ι → ℝ} {u1 u2 : ℝ} (hl : PhysicalLaw u1 u2) (hop : op.Exact u1 u2) (hL : L = quadLimbdarkLightCurve (getCl u1 u2))
    (hX : X.Regular L op x) (hY : Y.Regular L op x) (hZ : Z.Regular L op x) (hR : R.Regular L op x) (hr : r.Regular L op x) (hR0 : 0 < R.real L x) (hr0 : 0 < r.real L x)
    (hc : X.real L x ≠ 0 ∨ Y.real L x ≠ 0) (hz : Clear (R.real L x) (r.real L x) ⟨X.real L x, Y.real L x, Z.real L x⟩) : (fluxGraph X Y Z R r).Regular L op x := by
  have hd : 0 < X.real L x ^ 2 + Y.real L x ^ 2 := by rcases hc with h | h <;> positivity
  refine ⟨⟨hZ, hR, hR0.ne'⟩, ⟨⟨⟨⟨hX, hY⟩, hd⟩, hR, hR0.ne'⟩, ⟨hr, hR, hR0.ne'⟩, ?_⟩, hz.imp (fun h => div_ne_zero h hR0.ne') fun h => limbDark_vanishes hl hX hY hR hr hL hR0 h⟩
  subst hL
  simp only [Graph.real]
  refine ⟨hop.value _ _, ?_⟩
  have hb := div_pos (sqrt_pos.2 hd) hR0
  have hkk := div_pos hr0 hR0
  have h := (C106_gradient hl hkk (fun h => hb.ne' h.1) one_pos).hasFDerivAt
  refine ⟨_, _, ?_, fun g => hop.back g _ _ hb hkk⟩
  convert h using 1
  · funext q; simp [computeLightCurve]
  · ext <;> simp

/-- **C130 (light curves).** The light curve of an orbit with a given inclination, with or without `Omega`, and its computed derivatives with respect to all parameters are the true ones, unless the
planet is exactly in front of (or behind) the centre of the star or grazes it in the plane of the sky; the orbit may be seen face-on (compare C121). -/
theorem C130_light_curve_partial {u1 u2 : ℝ} (hl : PhysicalLaw u1 u2) (hop : op.Exact u1 u2) (hk : op.ExactKepler) (hq : m.Possible q) (hR : 0 < q (.kep .r_star)) (hr : 0 < q (.kep .r))
    (ho : ∀ q, keplerianInit C (m.argsWithStar q) = .ok (o q)) (t : ℝ) (hc : ((o q).relativePosition C t).x ≠ 0 ∨ ((o q).relativePosition C t).y ≠ 0)
    (hz : Clear (q (.kep .r_star)) (q (.kep .r)) ((o q).relativePosition C t)) :
    GradientRight op (m.lightCurveG C t) (fun q => fluxAt (getCl u1 u2) (q (.kep .r_star)) (q (.kep .r)) ((o q).relativePosition C t)) q := by
  set L := quadLimbdarkLightCurve (getCl u1 u2) with hL
  rw [astroStar_real (ho q) L t] at hc hz
  obtain ⟨hX, hY, hZ⟩ := astro_regular (C := C) (L := L) (m := { m with scaled := false }) hk ⟨hq.period, hq.ecc, hq.omega⟩ t
  refine .of_regular (L := L) (astroFlux_regular hl hop hL hX hY hZ trivial trivial hR hr hc hz) fun q => ?_
  rw [astroStar_real (ho q) L t]
  simp only [AstroMode.lightCurveG, AstroMode.parG, fluxGraph, Graph.real, fluxAt, computeLightCurve, Option.getD_some, gt_iff_lt]
  congr!

/-! ## Where the planet and the star coincide -/

/-- The parameters that the separation is proportional to, and the angles. -/
def AstroMode.Direct (m : AstroMode) (j : AstroPar) : Prop := j = .kep .a ∨ j = .incl ∨ (m.node = true ∧ j = .Omega) ∨ (m.scaled = true ∧ j = .parallax)

theorem astro_back_nan {env : AstroPar → Fl} {j : AstroPar} (hj : m.Direct j) (t : ℝ) : (m.yG C t).back op env .nan j = .nan := by
  obtain ⟨s, r, n, p⟩ := m
  have hr : j = .kep .a ∨ (p = true ∧ j = .parallax) → ∀ w : Fl, w = .nan → (AstroMode.radiusG C ⟨s, r, n, p⟩ t).back op env w j = .nan := by
    rintro (rfl | ⟨rfl, rfl⟩) w rfl
    · cases p <;> cases s <;> simp [AstroMode.radiusG, AstroMode.distanceG, AstroMode.parG, Graph.back]
    · simp [AstroMode.radiusG, Graph.back]
  have hy : j = .kep .a ∨ (p = true ∧ j = .parallax) → ∀ w : Fl, w = .nan → (AstroMode.y1G C ⟨s, r, n, p⟩ t).back op env w j = .nan := by
    rintro h w rfl
    cases s <;> simp [AstroMode.y1G, Graph.back, hr h]
  have h2 : j = .kep .a ∨ j = .incl ∨ (p = true ∧ j = .parallax) → ∀ w : Fl, w = .nan → (AstroMode.y2G C ⟨s, r, n, p⟩ t).back op env w j = .nan := by
    rintro h w rfl
    rcases h with h | rfl | h
    · simp [AstroMode.y2G, Graph.back, hy (.inl h)]
    · simp [AstroMode.y2G, Graph.back]
    · simp [AstroMode.y2G, Graph.back, hy (.inr h)]
  rcases hj with h | h | ⟨rfl, rfl⟩ | h
  · cases n <;> simp [AstroMode.yG, Graph.back, h2 (.inl h)]
  · cases n <;> simp [AstroMode.yG, Graph.back, h2 (.inr (.inl h))]
  · simp [AstroMode.yG, Graph.back]
  · cases n <;> simp [AstroMode.yG, Graph.back, h2 (.inr (.inr h))]

theorem update_a (s : ℝ) (t : ℝ) : q (.kep .a) * (m.xG C t).real L (update q (.kep .a) s) = s * (m.xG C t).real L q ∧
    q (.kep .a) * (m.yG C t).real L (update q (.kep .a) s) = s * (m.yG C t).real L q := by
  obtain ⟨sh, r, n, p⟩ := m
  cases sh <;> cases r <;> cases n <;> cases p <;>
    simp [AstroMode.xG, AstroMode.yG, AstroMode.y2G, AstroMode.x1G, AstroMode.y1G, AstroMode.radiusG, AstroMode.distanceG, AstroMode.parG, AstroMode.sinfG, AstroMode.cosfG, AstroMode.anomalyG,
      AstroMode.t0G, AstroMode.tPeriG, AstroMode.delayG, KepMode.nG, KepMode.M0G, KepMode.E0G, KepMode.cosOmegaG, KepMode.sinOmegaG, KepMode.ome2G, Graph.real] <;>
    exact ⟨by ring, by ring⟩

/-- **C130 (where the separation is zero).** There the separation has a derivative with respect to the semi-major axis, namely zero; the computed derivatives with respect to the semi-major axis,
the inclination, `Omega` and the parallax are NaN, whatever is computed from the separation afterwards. -/
theorem C130_conjunction (hk : op.ExactKepler) (hq : m.Possible q) (ha : q (.kep .a) ≠ 0) (ho : ∀ q, keplerianInit C (m.args q) = .ok (o q)) (t : ℝ) (h0 : m.separation C o t q = 0) :
    HasDerivAt (fun s => m.separation C o t (update q (.kep .a) s)) 0 (q (.kep .a)) ∧
    ∀ (g : Fl) (j : AstroPar), j = .kep .a ∨ j = .incl ∨ (m.node = true ∧ j = .Omega) ∨ (m.scaled = true ∧ j = .parallax) →
      (m.rhoG C t).back op (fun i => .fin (q i)) g j = .nan := by
  set L : ℝ → ℝ → ℝ := fun _ _ => 0
  obtain ⟨hx, hy, -⟩ := astro_regular (C := C) (L := L) hk hq t
  rw [separation_real ho L t q, AstroMode.rhoG] at h0
  simp only [Graph.real] at h0
  have h1 := (sqrt_eq_zero (by positivity)).1 h0
  have hX : (m.xG C t).real L q = 0 := by nlinarith [sq_nonneg ((m.xG C t).real L q), sq_nonneg ((m.yG C t).real L q)]
  have hY : (m.yG C t).real L q = 0 := by nlinarith [sq_nonneg ((m.xG C t).real L q), sq_nonneg ((m.yG C t).real L q)]
  constructor
  · have : (fun s => m.separation C o t (update q (.kep .a) s)) = fun _ => 0 := by
      funext s
      obtain ⟨e1, e2⟩ := update_a (C := C) (m := m) (L := L) (q := q) s t
      rw [hX, mul_zero] at e1
      rw [hY, mul_zero] at e2
      rw [separation_real ho L t, AstroMode.rhoG]
      simp only [Graph.real, (mul_eq_zero.1 e1).resolve_left ha, (mul_eq_zero.1 e2).resolve_left ha]
      simp
    rw [this]
    exact hasDerivAt_const _ _
  · intro g j hj
    have vX : (m.xG C t).value op (fun i => .fin (q i)) = .fin 0 := by rw [(C118_backprop op L q _ hx).1, hX]
    have vY : (m.yG C t).value op (fun i => .fin (q i)) = .fin 0 := by rw [(C118_backprop op L q _ hy).1, hY]
    have e : (Fl.fin 0 ^ 2 + Fl.fin 0 ^ 2 : Fl).sqrt = .fin 0 := by simp [Fl.sqrt_fin]
    rw [AstroMode.rhoG, Graph.back, Graph.back, Graph.back, Graph.back]
    simp only [Graph.value, vX, vY, e]
    rw [nan_of_zero, astro_back_nan hj, Fl.add_nan]

/-! ## Where the position angle is `π` -/

/-- **C130 (where the position angle is `π`).** There it jumps as a function of `Omega`; the computed derivatives are numbers nevertheless. -/
theorem C130_cut (hk : op.ExactKepler) (hq : m.Possible q) (hn : m.node = true) (ho : ∀ q, keplerianInit C (m.args q) = .ok (o q)) (t : ℝ) (hπ : m.positionAngle C o t q = π) :
    ¬ ContinuousAt (fun s => m.positionAngle C o t (update q .Omega s)) (q .Omega) ∧
    ∀ j, ∃ D : ℝ, ∀ g : ℝ, (m.thetaG C t).back op (fun i => .fin (q i)) (.fin g) j = .fin (g * D) := by
  set L : ℝ → ℝ → ℝ := fun _ _ => 0
  obtain ⟨hx, hy, -⟩ := astro_regular (C := C) (L := L) hk hq t
  rw [positionAngle_real ho L t q] at hπ
  obtain ⟨hX, hY⟩ := Complex.arg_eq_pi_iff.1 hπ
  simp only at hX hY
  constructor
  · intro hc
    have hrot : ∀ δ : ℝ, (m.yG C t).real L (update q .Omega (q .Omega + δ)) = (m.xG C t).real L q * sin δ := by
      intro δ
      obtain ⟨sh, r, n, p⟩ := m
      simp only at hn
      subst hn
      have u1 : (AstroMode.x1G C ⟨sh, r, true, p⟩ t).real L (update q .Omega (q .Omega + δ)) = (AstroMode.x1G C ⟨sh, r, true, p⟩ t).real L q := by
        cases sh <;> cases r <;> cases p <;>
          simp [AstroMode.x1G, AstroMode.radiusG, AstroMode.distanceG, AstroMode.parG, AstroMode.sinfG, AstroMode.cosfG, AstroMode.anomalyG,
            AstroMode.t0G, AstroMode.tPeriG, AstroMode.delayG, KepMode.nG, KepMode.M0G, KepMode.E0G, KepMode.cosOmegaG, KepMode.sinOmegaG, KepMode.ome2G, Graph.real]
      have u2 : (AstroMode.y2G C ⟨sh, r, true, p⟩ t).real L (update q .Omega (q .Omega + δ)) = (AstroMode.y2G C ⟨sh, r, true, p⟩ t).real L q := by
        cases sh <;> cases r <;> cases p <;>
          simp [AstroMode.y2G, AstroMode.y1G, AstroMode.radiusG, AstroMode.distanceG, AstroMode.parG, AstroMode.sinfG, AstroMode.cosfG, AstroMode.anomalyG,
            AstroMode.t0G, AstroMode.tPeriG, AstroMode.delayG, KepMode.nG, KepMode.M0G, KepMode.E0G, KepMode.cosOmegaG, KepMode.sinOmegaG, KepMode.ome2G, Graph.real]
      simp only [AstroMode.yG, AstroMode.xG, Graph.real, u1, u2, update_self, sin_add, cos_add] at hY ⊢
      linear_combination (cos δ) * hY
    have hneg : ∀ δ : ℝ, 0 < δ → δ < π → m.positionAngle C o t (update q .Omega (q .Omega + δ)) < 0 := by
      intro δ h1 h2
      rw [positionAngle_real ho L t]
      refine Complex.arg_neg_iff.2 ?_
      change (m.yG C t).real L _ < 0
      rw [hrot]
      exact mul_neg_of_neg_of_pos hX (sin_pos_of_pos_of_lt_pi h1 h2)
    have hpos : 0 < m.positionAngle C o t (update q .Omega (q .Omega)) := by
      rw [update_eq_self, positionAngle_real ho L t]
      exact hπ ▸ pi_pos
    have hev : ∀ᶠ s in 𝓝 (q .Omega), 0 < m.positionAngle C o t (update q .Omega s) := continuousAt_const.eventually_lt hc hpos
    obtain ⟨ε, hε, hb⟩ := Metric.eventually_nhds_iff.1 hev
    have hδ : 0 < min (ε / 2) 1 := by positivity
    have h1 := hb (y := q .Omega + min (ε / 2) 1) (by
      rw [dist_eq_norm, add_sub_cancel_left, norm_of_nonneg hδ.le]
      exact (min_le_left _ _).trans_lt (by linarith))
    exact absurd (hneg _ hδ ((min_le_right _ _).trans_lt (by linarith [pi_gt_three]))) h1.not_gt
  · intro j
    have hTr : (Graph.add (.arctan2 (.neg (m.yG C t)) (.neg (m.xG C t))) (.const π)).Regular L op q :=
      ⟨⟨hy, hx, .inl (by simpa only [Graph.real] using neg_pos.2 hX)⟩, trivial⟩
    obtain ⟨D, -, hg⟩ := (C118_backprop op L q _ hTr).2 j
    refine ⟨D, fun g => ?_⟩
    rw [AstroMode.thetaG, (arctan2_same (op := op) (env := fun i => .fin (q i)) (by rw [(C118_backprop op L q _ hy).1, hY]) (C118_backprop op L q _ hx).1 hX).2, hg]

/-! ## Examples -/

/-- A circle of radius one with a period of one day and a transit at time zero. -/
noncomputable def demoAstro (i Ω : ℝ) : AstroPar → ℝ
  | .kep .a => 1
  | .kep .period => 1
  | .kep .ecc => 0.3
  | .kep .sin_omega => 1
  | .kep .r_star => 2
  | .kep .r => 0.1
  | .incl => i
  | .Omega => Ω
  | .parallax => 1
  | _ => 0

/-- Two ways to give it. -/
def demoMode (node : Bool) : AstroMode := ⟨.circular, .t0, node, false⟩

theorem demoAstro_possible (m : AstroMode) (i Ω : ℝ) : m.Possible (demoAstro i Ω) := by
  refine ⟨by norm_num [demoAstro], fun _ => by norm_num [demoAstro], fun h => ?_⟩
  obtain ⟨s, r, n, p⟩ := m
  cases s
  · exact absurd rfl h
  · simp [KepMode.sinOmega, demoAstro]
  · norm_num [KepMode.sinOmega, demoAstro]

theorem demoAstro_plane (C : Consts) (node : Bool) (i Ω : ℝ) (L : ℝ → ℝ → ℝ) :
    ((demoMode node).x1G C 0).real L (demoAstro i Ω) = 0 ∧ ((demoMode node).y2G C 0).real L (demoAstro i Ω) = -cos i := by
  have h : ((demoMode node).anomalyG 0).real L (demoAstro i Ω) = π / 2 := by
    simp only [AstroMode.anomalyG, AstroMode.t0G, AstroMode.tPeriG, AstroMode.delayG, demoMode, KepMode.M0G, KepMode.nG, AstroMode.parG, demoAstro, Graph.real]
    have := pi_ne_zero
    field_simp
    norm_num
  constructor
  · change -1 * cos (((demoMode node).anomalyG 0).real L (demoAstro i Ω)) = 0
    rw [h]; simp
  · change cos i * (-1 * sin (((demoMode node).anomalyG 0).real L (demoAstro i Ω))) = -cos i
    rw [h]; simp

/-- Concrete violation of C130: an edge-on circle at the time of transit. The separation has a derivative with respect to the semi-major axis, zero; the computed one is NaN. -/
theorem C130_counterexample (C : Consts) (o : (AstroPar → ℝ) → Orbit) (ho : ∀ q, keplerianInit C ((demoMode false).args q) = .ok (o q)) (hk : op.ExactKepler) :
    ∃ q : AstroPar → ℝ, (demoMode false).Possible q ∧ q (.kep .a) = 1 ∧ q .incl = π / 2 ∧ HasDerivAt (fun s => (demoMode false).separation C o 0 (update q (.kep .a) s)) 0 1 ∧
      ∀ g, ((demoMode false).rhoG C 0).back op (fun i => .fin (q i)) g (.kep .a) = .nan := by
  have h0 : (demoMode false).separation C o 0 (demoAstro (π / 2) 0) = 0 := by
    obtain ⟨h1, h2⟩ := demoAstro_plane C false (π / 2) 0 (fun _ _ => 0)
    rw [separation_real ho (fun _ _ => 0)]
    change √(((demoMode false).x1G C 0).real _ _ ^ 2 + ((demoMode false).y2G C 0).real _ _ ^ 2) = 0
    rw [h1, h2]; simp
  obtain ⟨h1, h2⟩ := C130_conjunction hk (demoAstro_possible (demoMode false) (π / 2) 0) (by simp [demoAstro]) ho 0 h0
  exact ⟨_, demoAstro_possible _ _ _, rfl, rfl, h1, fun g => h2 g _ (.inl rfl)⟩

theorem demoAstro_angles (ho : ∀ q, keplerianInit C ((demoMode true).args q) = .ok (o q)) (Ω : ℝ) :
    (demoMode true).separation C o 0 (demoAstro 0 Ω) = 1 ∧ (demoMode true).positionAngle C o 0 (demoAstro 0 Ω) = arctan2 (-cos Ω) (sin Ω) := by
  obtain ⟨h1, h2⟩ := demoAstro_plane C true 0 Ω (fun _ _ => 0)
  have hx : ((demoMode true).xG C 0).real (fun _ _ => 0) (demoAstro 0 Ω) = sin Ω := by
    change cos Ω * ((demoMode true).x1G C 0).real _ _ - sin Ω * ((demoMode true).y2G C 0).real _ _ = sin Ω
    rw [h1, h2]; simp
  have hy : ((demoMode true).yG C 0).real (fun _ _ => 0) (demoAstro 0 Ω) = -cos Ω := by
    change sin Ω * ((demoMode true).x1G C 0).real _ _ + cos Ω * ((demoMode true).y2G C 0).real _ _ = -cos Ω
    rw [h1, h2]; simp
  constructor
  · rw [separation_real ho (fun _ _ => 0), AstroMode.rhoG]
    simp only [Graph.real, hx, hy, neg_sq, sin_sq_add_cos_sq, sqrt_one]
  · rw [positionAngle_real ho (fun _ _ => 0), AstroMode.thetaG]
    simp only [Graph.real, hx, hy]

/-- The hypotheses of `C130_separation_partial` and `C130_angle_partial` can be met: a face-on circle. -/
example (ho : ∀ q, keplerianInit C ((demoMode true).args q) = .ok (o q)) : GradientRight (exactOp 0 0) ((demoMode true).rhoG C 0) ((demoMode true).separation C o 0) (demoAstro 0 (π / 2)) ∧
    GradientRight (exactOp 0 0) ((demoMode true).thetaG C 0) ((demoMode true).positionAngle C o 0) (demoAstro 0 (π / 2)) := by
  obtain ⟨h1, h2⟩ := demoAstro_angles ho (π / 2)
  refine ⟨C130_separation_partial (exactOp_exact 0 0).2 (demoAstro_possible _ _ _) ho 0 (by rw [h1]; exact one_ne_zero),
    C130_angle_partial (exactOp_exact 0 0).2 (demoAstro_possible _ _ _) ho 0 (by rw [h1]; exact one_ne_zero) ?_⟩
  have : arctan2 0 1 = 0 := by rw [arctan2, Complex.arg_eq_zero_iff]; exact ⟨zero_le_one, rfl⟩
  rw [h2, cos_pi_div_two, sin_pi_div_two, neg_zero, this]
  exact pi_ne_zero.symm

theorem demoAstro_pi (ho : ∀ q, keplerianInit C ((demoMode true).args q) = .ok (o q)) : (demoMode true).positionAngle C o 0 (demoAstro 0 (-(π / 2))) = π := by
  rw [(demoAstro_angles ho _).2, cos_neg, sin_neg, cos_pi_div_two, sin_pi_div_two, neg_zero, arctan2, Complex.arg_eq_pi_iff]
  exact ⟨by norm_num, rfl⟩

/-- The hypotheses of `C130_cut` can be met: a face-on circle with `Omega = -π/2`; and so can those of `C130_residual_partial`, with an observed angle of three. -/
example (ho : ∀ q, keplerianInit C ((demoMode true).args q) = .ok (o q)) :
    ¬ ContinuousAt (fun s => (demoMode true).positionAngle C o 0 (update (demoAstro 0 (-(π / 2))) .Omega s)) (-(π / 2)) ∧
    GradientRight (exactOp 0 0) ((demoMode true).residualG C 0 3) (fun q => wrapped ((demoMode true).positionAngle C o 0 q - 3)) (demoAstro 0 (-(π / 2))) := by
  have hπ := demoAstro_pi ho
  refine ⟨(C130_cut (exactOp_exact 0 0).2 (demoAstro_possible _ _ _) rfl ho 0 hπ).1,
    C130_residual_partial (exactOp_exact 0 0).2 (demoAstro_possible _ _ _) ho 0 3 (by rw [(demoAstro_angles ho _).1]; exact one_ne_zero) ?_⟩
  rw [hπ, wrapped, (toIocMod_eq_self two_pi_pos).2 ⟨by linarith [pi_gt_three], by linarith [pi_gt_three]⟩]
  norm_num

/-- The hypotheses of `C130_light_curve_partial` can be met: a circle that is inclined by one radian, at the
time of transit. -/
example (ho : ∀ q, keplerianInit C ((demoMode true).argsWithStar q) = .ok (o q)) :
    GradientRight (exactOp 0 0) ((demoMode true).lightCurveG C 0) (fun q => fluxAt (getCl 0 0) (q (.kep .r_star)) (q (.kep .r)) ((o q).relativePosition C 0)) (demoAstro 1 0) := by
  obtain ⟨h1, h2⟩ := demoAstro_plane C true 1 0 (fun _ _ => 0)
  have hp := astroStar_real (ho (demoAstro 1 0)) (fun _ _ => 0) 0
  have hc1 := cos_one_pos
  have hy : ((o (demoAstro 1 0)).relativePosition C 0).y ≠ 0 := by
    rw [hp]
    change sin 0 * ((demoMode true).x1G C 0).real _ _ + cos 0 * ((demoMode true).y2G C 0).real _ _ ≠ 0
    rw [h1, h2]; simp [hc1.ne']
  have hz : ((o (demoAstro 1 0)).relativePosition C 0).z ≠ 0 := by
    rw [hp]
    have : cos 1 * ((demoMode true).y1G C 0).real (fun _ _ => 0) (demoAstro 1 0) = -cos 1 := h2
    change -sin 1 * ((demoMode true).y1G C 0).real _ _ ≠ 0
    have e : ((demoMode true).y1G C 0).real (fun _ _ => 0) (demoAstro 1 0) = -1 := by
      apply mul_left_cancel₀ hc1.ne'
      rw [this]; ring
    rw [e]
    simp [(sin_pos_of_pos_of_lt_pi one_pos (by linarith [pi_gt_three])).ne']
  exact C130_light_curve_partial ⟨fun μ _ _ => by unfold quadLaw; norm_num, by norm_num⟩ (exactOp_exact 0 0).1 (exactOp_exact 0 0).2 (demoAstro_possible _ _ _) (by norm_num [demoAstro]) (by norm_num [demoAstro]) ho 0 (.inr hy) (.inl hz)

/-- The orbits exist, eccentric ones too. -/
example (C : Consts) (m : AstroMode) (t : ℝ) : ∃ o : (AstroPar → ℝ) → Orbit, (∀ q, keplerianInit C (m.args q) = .ok (o q)) ∧
    GradientRight (exactOp 0 0) (m.xG C t) (fun q => ((o q).relativePosition C t (m.px q)).x) (demoAstro 1 2) := by
  choose o ho using AstroMode.args_ok C m
  exact ⟨o, ho, (C130_position_partial (exactOp_exact 0 0).2 (demoAstro_possible _ _ _) ho t).1⟩

end Exo
