import Verif.Spec.BackpropSecondary
import Verif.Props.BackpropRv
import Verif.Props.Secondary

/-!
# C127: gradients of light curves with secondary eclipses as the compiled graph computes them
-/

namespace Exo
open Real Function Topology

variable {C : Consts} {m : KepMode} {q : SecPar → ℝ} {op op1 op2 : FlOp} {L : ℝ → ℝ → ℝ}

/-! ## The graph stands for the model -/

theorem flip_ok {o : Orbit} (h : keplerianInit C (m.args (SecPar.orbit q)) = .ok o) (r : ℝ) : ∃ o2, o.flip C r = .ok o2 := by
  cases m <;> (obtain rfl := Except.ok.inj h; exact ⟨_, rfl⟩)

theorem flipGraph_real {o o2 : Orbit} (h : keplerianInit C (m.args (SecPar.orbit q)) = .ok o) (h2 : o.flip C (q (.kep .r)) = .ok o2) (L : ℝ → ℝ → ℝ) (t : ℝ) :
    o2.relativePosition C t = ⟨(m.flipMode.x1Of (m.flipPar C) (m.flipAnomalyG C t)).real L q,
      cos (m.inclG.real L q) * (m.flipMode.y1Of (m.flipPar C) (m.flipAnomalyG C t)).real L q,
      -sin (m.inclG.real L q) * (m.flipMode.y1Of (m.flipPar C) (m.flipAnomalyG C t)).real L q⟩ ∧
    o2.r_star = q (.kep .r) ∧ o2.a = (m.flipPar C .a).real L q ∧ o.cos_incl = (m.cosInclG KepMode.secPar).real L q := by
  cases m <;> (obtain rfl := Except.ok.inj h; obtain rfl := Except.ok.inj h2; exact ⟨rfl, rfl, rfl, rfl⟩)

theorem primaryGraph_real {o : Orbit} (h : keplerianInit C (m.args (SecPar.orbit q)) = .ok o) (L : ℝ → ℝ → ℝ) (t : ℝ) :
    o.relativePosition C t = ⟨(m.x1G KepMode.secPar (.sub (.const t) (KepMode.secPar .t0))).real L q, (m.yG KepMode.secPar (.sub (.const t) (KepMode.secPar .t0))).real L q,
      (m.zG KepMode.secPar (.sub (.const t) (KepMode.secPar .t0))).real L q⟩ := by
  cases m <;> (obtain rfl := Except.ok.inj h; rfl)

/-! ## The flipped orbit -/

theorem secPar_regular (p : KepPar) : (KepMode.secPar p).Regular L op q := trivial

theorem secPar_possible (hq : m.Possible (SecPar.orbit q)) : m.Possible fun p => (KepMode.secPar p).real L q := hq

theorem secClock_regular (t : ℝ) : (Graph.sub (.const t) (KepMode.secPar .t0)).Regular L op q := ⟨trivial, trivial⟩

theorem omegaG_regular (h : m = .sincos → 0 < q (.kep .cos_omega) ∨ q (.kep .sin_omega) ≠ 0) : m.omegaG.Regular L op q := by
  cases m with
  | sincos => exact ⟨trivial, trivial, h rfl⟩
  | circular => trivial
  | angle => trivial

theorem impliedMass_regular (hq : m.Possible (SecPar.orbit q)) : (KepMode.impliedMassG C).Regular L op q ∧ 0 < (KepMode.impliedMassG C).real L q := by
  have hG := C.G_pos
  have hpi := pi_pos
  have h1 : 0 < q (.kep .a) := hq.a
  have h2 : 0 < q (.kep .period) := hq.period
  refine ⟨⟨⟨⟨⟨⟨trivial, trivial⟩, trivial⟩, trivial⟩, ⟨trivial, trivial⟩, ?_⟩, trivial⟩, ?_⟩
  · simp only [KepMode.secPar, Graph.real]; positivity
  · simp only [KepMode.impliedMassG, KepMode.secPar, Graph.real, sub_zero]; positivity

theorem flipPar_regular (hq : m.Possible (SecPar.orbit q)) (hw : m = .sincos → 0 < q (.kep .cos_omega) ∨ q (.kep .sin_omega) ≠ 0) (p : KepPar) :
    (m.flipPar C p).Regular L op q := by
  have hm := impliedMass_regular (C := C) (L := L) (op := op) hq
  have hG := C.G_pos
  have hpi := pi_pos
  have h2 : 0 < q (.kep .period) := hq.period
  have h3 := hm.2
  cases p with
  | a =>
    refine ⟨⟨⟨⟨trivial, trivial, hm.1⟩, trivial⟩, ⟨trivial, trivial⟩, ?_⟩, ?_⟩
    · simp only [Graph.real]; positivity
    · simp only [Graph.real, KepMode.secPar, zero_add] at h3 ⊢; positivity
  | omega => exact ⟨omegaG_regular hw, trivial⟩
  | period => trivial
  | t0 => trivial
  | b => trivial
  | r_star => trivial
  | ecc => trivial
  | sin_omega => trivial
  | cos_omega => trivial
  | r => trivial

/-- The semi-major axis of the flipped orbit is that of the orbit. -/
theorem flipPar_axis (hq : m.Possible (SecPar.orbit q)) : (m.flipPar C .a).real L q = q (.kep .a) := by
  have hG := C.G_pos.ne'
  have hpi := pi_pos.ne'
  have h1 : 0 < q (.kep .a) := hq.a
  have h2 : q (.kep .period) ≠ 0 := (show 0 < q (.kep .period) from hq.period).ne'
  simp only [KepMode.flipPar, KepMode.impliedMassG, KepMode.secPar, Graph.real, sub_zero, zero_add]
  rw [show C.G * (4 * π * π * q (.kep .a) ^ 3 / (C.G * q (.kep .period) ^ 2)) * q (.kep .period) ^ 2 / (4 * π ^ 2) = q (.kep .a) ^ 3 by field_simp,
    ← rpow_natCast, ← rpow_mul h1.le]
  norm_num

theorem flipMode_circular : m.flipMode = .circular ↔ m = .circular := by cases m <;> simp [KepMode.flipMode]

/-- The attributes of the flipped orbit are those of an orbit. -/
theorem flipPar_possible (hq : m.Visible q) : m.flipMode.Possible fun p => (m.flipPar C p).real L q := by
  have h := hq.possible
  refine ⟨?_, h.period, h.r, h.r_star, fun hm => h.ecc fun h' => hm (flipMode_circular.2 h'), fun hm => ?_⟩
  · show 0 < (m.flipPar C .a).real L q
    rw [flipPar_axis h]; exact h.a
  · cases m with
    | circular => exact absurd rfl hm
    | angle =>
      have := hq.omega rfl
      simp only [KepMode.sinOmega, KepMode.flipMode, KepMode.flipPar, KepMode.omegaG, KepMode.secPar, Graph.real, sin_sub_pi]
      linarith
    | sincos =>
      have := (hq.omega' rfl).1
      simp only [KepMode.sinOmega, KepMode.flipMode, KepMode.flipPar, KepMode.omegaG, KepMode.secPar, Graph.real, sin_sub_pi]
      linarith

section plane
variable {ι : Type} {P : KepPar → Graph ι} {A : Graph ι} {x : ι → ℝ}

theorem planeOf_regular (hk : op.ExactKepler) (hP : ∀ p, (P p).Regular L op x) (hA : A.Regular L op x) (he : m ≠ .circular → 0 ≤ (P .ecc).real L x ∧ (P .ecc).real L x < 1) :
    (m.x1Of P A).Regular L op x ∧ (m.y1Of P A).Regular L op x := by
  have hw := omega_regular (m := m) hP
  have key : m ≠ .circular → (Graph.keplerSin A (P .ecc)).Regular L op x ∧ (Graph.keplerCos A (P .ecc)).Regular L op x ∧ 0 < 1 + (P .ecc).real L x * (keplerOp (A.real L x) ((P .ecc).real L x)).2 := by
    intro hm
    obtain ⟨h0, h1⟩ := he hm
    obtain ⟨p1, p2⟩ := pairs_of_ecc hk h0 h1 (A.real L x)
    exact ⟨⟨hA, hP _, p1⟩, ⟨hA, hP _, p2⟩, keplerOp_conic h0 h1 _⟩
  cases m with
  | circular => exact ⟨⟨hP _, hA⟩, ⟨hP _, hA⟩⟩
  | angle =>
    obtain ⟨hs, hc, hp⟩ := key nofun
    have hr : (KepMode.angle.radiusOf P A).Regular L op x := ⟨⟨hP _, trivial, hP _⟩, ⟨trivial, hP _, hc⟩, hp.ne'⟩
    exact ⟨⟨⟨hw.1, hr, hc⟩, hw.2, hr, hs⟩, ⟨⟨hw.2, hr, hc⟩, hw.1, hr, hs⟩⟩
  | sincos =>
    obtain ⟨hs, hc, hp⟩ := key nofun
    have hr : (KepMode.sincos.radiusOf P A).Regular L op x := ⟨⟨hP _, trivial, hP _⟩, ⟨trivial, hP _, hc⟩, hp.ne'⟩
    exact ⟨⟨⟨hw.1, hr, hc⟩, hw.2, hr, hs⟩, ⟨⟨hw.2, hr, hc⟩, hw.1, hr, hs⟩⟩

end plane

theorem tPeri_regular (hq : m.Possible (SecPar.orbit q)) : m.flipPeriG.Regular L op q := by
  have hn := nG_regular (L := L) (op := op) (m := m) secPar_regular (secPar_possible hq)
  have hne : (KepMode.nG KepMode.secPar).real L q ≠ 0 := by
    have h2 : 0 < q (.kep .period) := hq.period
    have hpi := pi_pos
    simp only [KepMode.nG, KepMode.secPar, Graph.real]; positivity
  have h : m.tPeriG.Regular L op q := ⟨trivial, M0G_regular secPar_regular (secPar_possible hq), hn, hne⟩
  cases m with
  | circular => exact ⟨h, trivial, trivial⟩
  | angle => exact h
  | sincos => exact h

theorem flipAnomaly_regular (hq : m.Visible q) (t : ℝ) : (m.flipAnomalyG C t).Regular L op q := by
  have hP := flipPar_regular (C := C) (L := L) (op := op) hq.possible fun h => (hq.omega' h).2
  have hf := flipPar_possible (C := C) (L := L) hq
  have hn := nG_regular hP hf
  have hne : (KepMode.nG (m.flipPar C)).real L q ≠ 0 := by
    have h2 := hf.period
    have hpi := pi_pos
    simp only [KepMode.nG, Graph.real]; positivity
  have hp := tPeri_regular (L := L) (op := op) hq.possible
  have ht : (m.flipT0G C).Regular L op q := ⟨hp, M0G_regular hP hf, hn, hne⟩
  exact ⟨⟨⟨trivial, ht⟩, hp, ht⟩, hn⟩

/-! ## Light curves from positions -/

section flux
variable {ι : Type} {X Y Z R r : Graph ι} {x : ι → ℝ} {u1 u2 : ℝ}

theorem fluxGraph_real (u1 u2 : ℝ) : (fluxGraph X Y Z R r).real (quadLimbdarkLightCurve (getCl u1 u2)) x =
    fluxAt (getCl u1 u2) (R.real (quadLimbdarkLightCurve (getCl u1 u2)) x) (r.real (quadLimbdarkLightCurve (getCl u1 u2)) x)
      ⟨X.real (quadLimbdarkLightCurve (getCl u1 u2)) x, Y.real (quadLimbdarkLightCurve (getCl u1 u2)) x, Z.real (quadLimbdarkLightCurve (getCl u1 u2)) x⟩ := by
  simp only [fluxGraph, Graph.real, fluxAt, computeLightCurve, Option.getD_some, gt_iff_lt]
  congr!

theorem fluxGraph_regular (hl : PhysicalLaw u1 u2) (hop : op.Exact u1 u2) (hL : L = quadLimbdarkLightCurve (getCl u1 u2)) (hX : X.Regular L op x) (hY : Y.Regular L op x)
    (hZ : Z.Regular L op x) (hR : R.Regular L op x) (hr : r.Regular L op x) (hR0 : 0 < R.real L x) (hr0 : 0 < r.real L x)
    (hc : X.real L x ≠ 0 ∨ Y.real L x ≠ 0) (hz : Clear (R.real L x) (r.real L x) ⟨X.real L x, Y.real L x, Z.real L x⟩) : (fluxGraph X Y Z R r).Regular L op x := by
  subst hL
  have hc' : 0 < X.real (quadLimbdarkLightCurve (getCl u1 u2)) x ^ 2 + Y.real (quadLimbdarkLightCurve (getCl u1 u2)) x ^ 2 := by rcases hc with h | h <;> positivity
  refine ⟨⟨hZ, hR, hR0.ne'⟩, ⟨⟨⟨⟨hX, hY⟩, hc'⟩, hR, hR0.ne'⟩, ⟨hr, hR, hR0.ne'⟩, ?_⟩,
    hz.imp (fun h => div_ne_zero h hR0.ne') fun h => limbDark_vanishes hl hX hY hR hr rfl hR0 h⟩
  simp only [Graph.real]
  refine ⟨hop.value _ _, ?_⟩
  have hb := div_pos (sqrt_pos.2 hc') hR0
  have hkk := div_pos hr0 hR0
  have h := (C106_gradient hl hkk (fun h => hb.ne' h.1) one_pos).hasFDerivAt
  refine ⟨_, _, ?_, fun g => hop.back g _ _ hb hkk⟩
  convert h using 1
  · funext q; simp [computeLightCurve]
  · ext <;> simp

/-- The flux has derivatives with respect to all parameters also where the planet is exactly in front of the centre of the star, unless it is as large as the star. -/
theorem fluxGraph_differentiable [DecidableEq ι] (hl : PhysicalLaw u1 u2) (hX : X.Regular L op x) (hY : Y.Regular L op x) (hZ : Z.Regular L op x) (hR : R.Regular L op x) (hr : r.Regular L op x)
    (hR0 : 0 < R.real L x) (hr0 : 0 < r.real L x) (hne : ¬(X.real L x = 0 ∧ Y.real L x = 0 ∧ r.real L x = R.real L x)) (hz : Z.real L x ≠ 0) (j : ι) :
    ∃ D, HasDerivAt (fun s => fluxAt (getCl u1 u2) (R.real L (update x j s)) (r.real L (update x j s))
      ⟨X.real L (update x j s), Y.real L (update x j s), Z.real L (update x j s)⟩) D (x j) := by
  obtain ⟨dX, hdX, -⟩ := (C118_backprop op L x _ hX).2 j
  obtain ⟨dY, hdY, -⟩ := (C118_backprop op L x _ hY).2 j
  obtain ⟨dZ, hdZ, -⟩ := (C118_backprop op L x _ hZ).2 j
  obtain ⟨A, hA, -⟩ := (C118_backprop op L x _ hR).2 j
  obtain ⟨B, hB, -⟩ := (C118_backprop op L x _ hr).2 j
  set z0 := Z.real L x with hz0
  set F : ℝ × ℝ × ℝ × ℝ → ℝ := fun p => fluxAt (getCl u1 u2) p.2.2.1 p.2.2.2 ⟨p.1, p.2.1, z0⟩ with hF
  have hFd : ContDiffAt ℝ 1 F (X.real L x, Y.real L x, R.real L x, r.real L x) :=
    fluxAt_contDiffAt (E := ℝ × ℝ × ℝ × ℝ) (v := fun p => ⟨p.1, p.2.1, z0⟩) (R := fun p => p.2.2.1) (r := fun p => p.2.2.2) (u1 := fun _ => u1)
      (u2 := fun _ => u2) hl.pos.ne' contDiffAt_const contDiffAt_const hR0 (by fun_prop) (by fun_prop) (by fun_prop) continuousAt_const
      (by fun_prop) hr0 (fun h => hne ⟨h.1, h.2.1, h.2.2.1⟩) (Or.inl hz)
  have hFf := (hFd.differentiableAt one_ne_zero).hasFDerivAt
  have hcurve : HasDerivAt (fun s => (X.real L (update x j s), Y.real L (update x j s), R.real L (update x j s), r.real L (update x j s)))
      (dX, dY, A, B) (x j) := hdX.prodMk (hdY.prodMk (hA.prodMk hB))
  have hFf' : HasFDerivAt F (fderiv ℝ F (X.real L x, Y.real L x, R.real L x, r.real L x))
      ((fun s => (X.real L (update x j s), Y.real L (update x j s), R.real L (update x j s), r.real L (update x j s))) (x j)) := by
    simpa using hFf
  refine ⟨_, (hFf'.comp_hasDerivAt (x j) hcurve).congr_of_eventuallyEq ?_⟩
  have hRc : ∀ᶠ s in 𝓝 (x j), 0 < R.real L (update x j s) := hA.continuousAt.eventually (lt_mem_nhds (by simpa using hR0))
  have hzc : ∀ᶠ s in 𝓝 (x j), (0 < Z.real L (update x j s) ↔ 0 < z0) := by
    rcases lt_or_gt_of_ne hz with h | h
    · filter_upwards [hdZ.continuousAt.eventually_lt continuousAt_const (by simpa using h)] with s hs
      exact ⟨fun h' => absurd h' hs.le.not_gt, fun h' => absurd h' h.le.not_gt⟩
    · filter_upwards [hdZ.continuousAt.eventually (lt_mem_nhds (a := 0) (by simpa using h))] with s hs
      exact ⟨fun _ => h, fun _ => hs⟩
  filter_upwards [hRc, hzc] with s hs hsz
  simp only [hF, comp_apply, fluxAt, computeLightCurve, Option.getD_some, gt_iff_lt]
  simp only [div_pos_iff_of_pos_right hs, hsz]

end flux

/-! ## Both light curves together -/

/-- **C127 (the function is that of the rest of the model).** At every time `get_light_curve` of the model returns the function whose derivatives the following theorems are about. -/
theorem C127_model (cp : ContactOp) {o o2 : Orbit} (l : SecondaryEclipse) (r t : Tensor ℝ) (ρ : ℝ) (hr : r.shape = [] ∨ r.shape = [1]) (hρ : r.toList.headD 0 = ρ)
    (h2 : o.flip C ρ = .ok o2) (hs : 0 ≤ l.surface_brightness_ratio) (oversample order : ℤ) :
    ∃ F, l.getLightCurve C cp [o] o.r_star r t none oversample order (some false) = .ok F ∧ F.shape = t.shape ++ [1] ∧
      ∀ i, InShape i t.shape → F.get (i ++ [0]) = togetherFlux l.primary.c l.secondary.c l.surface_brightness_ratio ρ o.r_star (o.relativePosition C (t.get i)) (o2.relativePosition C (t.get i)) := by
  subst hρ
  obtain ⟨hr0, hr1⟩ := toList_one r hr
  obtain ⟨lc1, g1, g2, g3⟩ := C39_kepler C cp l.primary [o] o.r_star false r t hr1 oversample order
  obtain ⟨lc2, k1, k2, k3⟩ := C39_kepler C cp l.secondary [o2] (r.toList.headD 0) false (Tensor.scalar o.r_star) t rfl oversample order
  obtain ⟨a, b, c, c1, c2, c3, c4, c5⟩ := combine_spec r lc1 lc2 t.shape (fun r => l.surface_brightness_ratio * (r / o.r_star) ^ 2) hr g2 k2
  refine ⟨c, ?_, c4, fun i hi => ?_⟩
  · unfold SecondaryEclipse.getLightCurve
    simp only [bind, Except.bind, flipAll_single C o o2 r hr h2, g1, k1, c1, c2, c3]
  · rw [c5 i hi, g3 i 0 (by norm_num) hi, k3 i 0 (by norm_num) hi, hr0]
    simp only [List.getElem_cons_zero, Tensor.scalar, togetherFlux, totalChange]
    have hq : 0 ≤ l.surface_brightness_ratio * (r.toList.headD 0 / o.r_star) ^ 2 := by positivity
    generalize l.surface_brightness_ratio * (r.toList.headD 0 / o.r_star) ^ 2 = q at hq
    have h2 : 1 + q ≠ 0 := by positivity
    field_simp
    ring

/-- What the last lines start from. -/
def secIn (q : SecPar → ℝ) (a b : ℝ) : SecIn → ℝ
  | .par p => q p
  | .lc1 => a
  | .lc2 => b

/-- `flux_ratio` as a real number. -/
noncomputable def secRatio (q : SecPar → ℝ) : ℝ := q .surface_brightness_ratio * (q (.kep .r) / q (.kep .r_star)) ^ 2

theorem secIn_update (a b x : ℝ) (j : SecPar) : update (secIn q a b) (.par j) x = secIn (update q j x) a b := by
  funext i
  cases i with
  | par p =>
    by_cases h : p = j
    · subst h; simp [secIn]
    · rw [update_of_ne (by simpa using h)]; simp [secIn, update_of_ne h]
  | lc1 => rfl
  | lc2 => rfl

theorem secIn_update_lc1 (a b x : ℝ) : update (secIn q a b) .lc1 x = secIn q x b := by
  funext i; cases i <;> simp [secIn, update]

theorem secIn_update_lc2 (a b x : ℝ) : update (secIn q a b) .lc2 x = secIn q a x := by
  funext i; cases i <;> simp [secIn, update]

theorem combineG_real (a b : ℝ) : KepMode.combineG.real L (secIn q a b) = (a + secRatio q * b) / (1 + secRatio q) := rfl

theorem secRatio_hasDerivAt (hR : q (.kep .r_star) ≠ 0) (j : SecPar) : ∃ D, HasDerivAt (fun x => secRatio (update q j x)) D (q j) := by
  obtain ⟨D, hD, -⟩ := (C118_backprop (exactOp 0 0) (fun _ _ => 0) (secIn q 0 0) KepMode.ratioG ⟨trivial, trivial, trivial, hR⟩).2 (.par j)
  simp only [secIn_update] at hD
  exact ⟨D, hD⟩

/-- The chain rule for the last lines. -/
theorem combine_gradient {f1 f2 : (SecPar → ℝ) → ℝ} (hR : q (.kep .r_star) ≠ 0) (hs : 0 ≤ q .surface_brightness_ratio) {j : SecPar} {D1 D2 : ℝ}
    (h1 : HasDerivAt (fun x => f1 (update q j x)) D1 (q j)) (h2 : HasDerivAt (fun x => f2 (update q j x)) D2 (q j)) :
    ∃ E E1 E2, HasDerivAt (fun x => totalChange 1 (secRatio (update q j x)) (f1 (update q j x)) (f2 (update q j x))) (E + (E1 * D1 + E2 * D2)) (q j) ∧ ∀ g : ℝ,
      KepMode.combineG.back op1 (fun i => .fin (secIn q (f1 q) (f2 q) i)) (.fin g) (.par j) = .fin (g * E) ∧
      KepMode.combineG.back op1 (fun i => .fin (secIn q (f1 q) (f2 q) i)) (.fin g) .lc1 = .fin (g * E1) ∧
      KepMode.combineG.back op1 (fun i => .fin (secIn q (f1 q) (f2 q) i)) (.fin g) .lc2 = .fin (g * E2) := by
  have hq : 0 ≤ secRatio q := mul_nonneg hs (sq_nonneg _)
  have hne : 1 + secRatio q ≠ 0 := by positivity
  have hreg : KepMode.combineG.Regular (fun _ _ => 0) op1 (secIn q (f1 q) (f2 q)) :=
    ⟨⟨trivial, ⟨trivial, trivial, trivial, hR⟩, trivial⟩, ⟨trivial, trivial, trivial, trivial, hR⟩, hne⟩
  have hB := (C118_backprop op1 (fun _ _ => 0) _ _ hreg).2
  obtain ⟨E, hE, bE⟩ := hB (.par j)
  obtain ⟨E1, hE1, bE1⟩ := hB .lc1
  obtain ⟨E2, hE2, bE2⟩ := hB .lc2
  obtain ⟨K, hK⟩ := secRatio_hasDerivAt hR j
  simp only [secIn_update, secIn_update_lc1, secIn_update_lc2, combineG_real] at hE hE1 hE2
  have hne' : 1 + secRatio (update q j (q j)) ≠ 0 := by rwa [update_eq_self]
  have e := hE.unique (((hK.mul_const (f2 q)).const_add (f1 q)).div (hK.const_add 1) hne')
  have e1 := hE1.unique (((hasDerivAt_id _).add_const (secRatio q * f2 q)).div_const (1 + secRatio q))
  have e2 := hE2.unique ((((hasDerivAt_id _).const_mul (secRatio q)).const_add (f1 q)).div_const (1 + secRatio q))
  refine ⟨E, E1, E2, ?_, fun g => ⟨bE g, bE1 g, bE2 g⟩⟩
  have h := ((((h1.const_add 1).const_mul 1).add (hK.mul (h2.const_add 1))).div (hK.const_add 1) hne').sub_const 1
  refine h.congr_deriv ?_
  rw [e, e1, e2]
  simp only [update_eq_self, Pi.add_apply, Pi.mul_apply]
  field_simp
  ring

section laws
variable {u1 u2 v1 v2 : ℝ}

theorem eclipseOf_regular (hk : op.ExactKepler) (hq : m.Possible (SecPar.orbit q)) (hw : m = .sincos → 0 < q (.kep .cos_omega) ∨ q (.kep .sin_omega) ≠ 0)
    (hi : |(m.cosInclG KepMode.secPar).real L q| < 1) {A : Graph SecPar} (hA : A.Regular L op q) :
    (m.flipMode.x1Of (m.flipPar C) A).Regular L op q ∧ (Graph.mul (.cos m.inclG) (m.flipMode.y1Of (m.flipPar C) A)).Regular L op q ∧
      (Graph.mul (.neg (.sin m.inclG)) (m.flipMode.y1Of (m.flipPar C) A)).Regular L op q := by
  obtain ⟨hx, hy⟩ := planeOf_regular (m := m.flipMode) hk (flipPar_regular (C := C) hq hw) hA fun hm => hq.ecc fun h' => hm (flipMode_circular.2 h')
  have hin : m.inclG.Regular L op q := ⟨cosInclG_regular secPar_regular (secPar_possible hq), hi⟩
  exact ⟨hx, ⟨hin, hy⟩, hin, hy⟩

/-- **C127 (what holds).** With exact operations the light curve of a star and a planet that both shine, and its computed derivatives with respect to all parameters, also the surface
brightness ratio, are the true ones, unless the planet is exactly in front of (or behind) the centre of the star or grazes it in the plane of the sky, or the orbit is seen face-on, or is
eccentric with `sin ω = ±1`. -/
theorem C127_light_curve_partial (hu : PhysicalLaw u1 u2) (hv : PhysicalLaw v1 v2) (hop1 : op1.Exact u1 u2) (hk1 : op1.ExactKepler) (hop2 : op2.Exact v1 v2)
    (hk2 : op2.ExactKepler) (hq : m.Visible q) (o o2 : (SecPar → ℝ) → Orbit) (ho : ∀ q, keplerianInit C (m.args (SecPar.orbit q)) = .ok (o q))
    (ho2 : ∀ q, (o q).flip C (q (.kep .r)) = .ok (o2 q)) (t : ℝ) (hi : |(o q).cos_incl| < 1)
    (hc : ((o q).relativePosition C t).x ≠ 0 ∨ ((o q).relativePosition C t).y ≠ 0) (hz : Clear (q (.kep .r_star)) (q (.kep .r)) ((o q).relativePosition C t))
    (hc2 : ((o2 q).relativePosition C t).x ≠ 0 ∨ ((o2 q).relativePosition C t).y ≠ 0) (hz2 : Clear (q (.kep .r)) (q (.kep .r_star)) ((o2 q).relativePosition C t)) :
    m.secValue C op1 op2 (fun i => .fin (q i)) t = .fin (togetherFlux (getCl u1 u2) (getCl v1 v2) (q .surface_brightness_ratio) (q (.kep .r)) (q (.kep .r_star))
        ((o q).relativePosition C t) ((o2 q).relativePosition C t)) ∧
    ∀ j, ∃ D, HasDerivAt (fun x => togetherFlux (getCl u1 u2) (getCl v1 v2) (update q j x .surface_brightness_ratio) (update q j x (.kep .r)) (update q j x (.kep .r_star))
        ((o (update q j x)).relativePosition C t) ((o2 (update q j x)).relativePosition C t)) D (q j) ∧
      ∀ g : ℝ, m.secBack C op1 op2 (fun i => .fin (q i)) t (.fin g) j = .fin (g * D) := by
  set L1 := quadLimbdarkLightCurve (getCl u1 u2) with hL1
  set L2 := quadLimbdarkLightCurve (getCl v1 v2) with hL2
  have hp := hq.possible
  have p1 := fun q => primaryGraph_real (ho q) L1 t
  have p2 := fun q => flipGraph_real (ho q) (ho2 q) L2 t
  have hi1 : |(m.cosInclG KepMode.secPar).real L1 q| < 1 := by
    have := (flipGraph_real (ho q) (ho2 q) L1 t).2.2.2
    rwa [this] at hi
  have hi2 : |(m.cosInclG KepMode.secPar).real L2 q| < 1 := by rwa [(p2 q).2.2.2] at hi
  rw [p1 q] at hc hz
  rw [(p2 q).1] at hc2 hz2
  have r1 : (m.primaryG t).Regular L1 op1 q := lightCurve_regular hu hop1 hk1 secPar_regular (secClock_regular t) (secPar_possible hp) hi1 hc hz
  obtain ⟨rx, ry, rz⟩ := eclipseOf_regular (C := C) hk2 hp (fun h => (hq.omega' h).2) hi2 (flipAnomaly_regular (C := C) (op := op2) hq t)
  have r2 : (m.eclipseG C t).Regular L2 op2 q := fluxGraph_regular hv hop2 rfl rx ry rz trivial trivial hp.r hp.r_star hc2 hz2
  have e1 : ∀ q, (m.primaryG t).real L1 q = fluxAt (getCl u1 u2) (q (.kep .r_star)) (q (.kep .r)) ((o q).relativePosition C t) := fun q => by
    rw [p1 q]; exact lightCurveOf_real u1 u2
  have e2 : ∀ q, (m.eclipseG C t).real L2 q = fluxAt (getCl v1 v2) (q (.kep .r)) (q (.kep .r_star)) ((o2 q).relativePosition C t) := fun q => by
    rw [(p2 q).1]; exact fluxGraph_real v1 v2
  obtain ⟨w1, b1⟩ := C118_backprop op1 L1 q _ r1
  obtain ⟨w2, b2⟩ := C118_backprop op2 L2 q _ r2
  have henv : KepMode.secEnv C m op1 op2 (fun i => .fin (q i)) t = fun i => .fin (secIn q ((m.primaryG t).real L1 q) ((m.eclipseG C t).real L2 q) i) := by
    funext i
    cases i with
    | par p => rfl
    | lc1 => exact w1
    | lc2 => exact w2
  have hR : q (.kep .r_star) ≠ 0 := (show 0 < q (.kep .r_star) from hp.r_star).ne'
  refine ⟨?_, fun j => ?_⟩
  · have hrat : 0 ≤ secRatio q := mul_nonneg hq.surface (sq_nonneg _)
    have hne : 1 + secRatio q ≠ 0 := by positivity
    have hreg : KepMode.combineG.Regular (fun _ _ => 0) op1 (secIn q ((m.primaryG t).real L1 q) ((m.eclipseG C t).real L2 q)) :=
      ⟨⟨trivial, ⟨trivial, trivial, trivial, hR⟩, trivial⟩, ⟨trivial, trivial, trivial, trivial, hR⟩, hne⟩
    rw [KepMode.secValue, henv, (C118_backprop op1 (fun _ _ => 0) _ _ hreg).1, combineG_real, togetherFlux, ← e1, ← e2, totalChange]
    show _ = Fl.fin ((1 * (1 + _) + secRatio q * (1 + _)) / (1 + secRatio q) - 1)
    congr 1
    field_simp
    ring
  · obtain ⟨D1, hD1, g1⟩ := b1 j
    obtain ⟨D2, hD2, g2⟩ := b2 j
    obtain ⟨E, E1, E2, hE, hb⟩ := combine_gradient (op1 := op1) (f1 := fun q => (m.primaryG t).real L1 q) (f2 := fun q => (m.eclipseG C t).real L2 q) hR hq.surface hD1 hD2
    refine ⟨E + (E1 * D1 + E2 * D2), ?_, fun g => ?_⟩
    · simp only [e1, e2] at hE
      exact hE
    · obtain ⟨hb0, hb1, hb2⟩ := hb g
      rw [KepMode.secBack, henv, hb0, hb1, hb2, g1, g2, Fl.fin_add, Fl.fin_add]
      congr 1
      ring

/-- **C127 (the derivatives exist).** The flux has derivatives with respect to all parameters for every argument of periastron and also where the planet is exactly in front of the centre of
the star or behind it, unless it is as large as the star. -/
theorem C127_differentiable (hu : PhysicalLaw u1 u2) (hv : PhysicalLaw v1 v2) (hp : m.Possible (SecPar.orbit q)) (hs : 0 ≤ q .surface_brightness_ratio)
    (hw : m = .sincos → 0 < q (.kep .cos_omega) ∨ q (.kep .sin_omega) ≠ 0) (hsize : q (.kep .r) ≠ q (.kep .r_star)) (o o2 : (SecPar → ℝ) → Orbit)
    (ho : ∀ q, keplerianInit C (m.args (SecPar.orbit q)) = .ok (o q)) (ho2 : ∀ q, (o q).flip C (q (.kep .r)) = .ok (o2 q)) (t : ℝ) (hi : |(o q).cos_incl| < 1)
    (hz : ((o q).relativePosition C t).z ≠ 0) (hz2 : ((o2 q).relativePosition C t).z ≠ 0) (j : SecPar) :
    ∃ D, HasDerivAt (fun x => togetherFlux (getCl u1 u2) (getCl v1 v2) (update q j x .surface_brightness_ratio) (update q j x (.kep .r)) (update q j x (.kep .r_star))
        ((o (update q j x)).relativePosition C t) ((o2 (update q j x)).relativePosition C t)) D (q j) := by
  set L : ℝ → ℝ → ℝ := fun _ _ => 0
  have hk := (exactOp_exact 0 0).2
  have p1 := fun q => primaryGraph_real (ho q) L t
  have p2 := fun q => flipGraph_real (ho q) (ho2 q) L t
  rw [(p2 q).2.2.2] at hi
  have hR : q (.kep .r_star) ≠ 0 := (show 0 < q (.kep .r_star) from hp.r_star).ne'
  obtain ⟨D1, hD1⟩ := lightCurveOf_differentiable (u1 := u1) (u2 := u2) hu hk (secPar_regular (L := L)) (secClock_regular t) (secPar_possible hp) hi
    (fun h => hsize h.2.2) (by rw [p1 q] at hz; exact hz) j
  set A : Graph SecPar := .mul (.sub (.const t) m.flipPeriG) (KepMode.nG (m.flipPar C)) with hA
  have hAr : A.Regular L (exactOp 0 0) q := ⟨⟨trivial, tPeri_regular hp⟩, ⟨trivial, trivial⟩, trivial, (show 0 < q (.kep .period) from hp.period).ne'⟩
  have hAe : ∀ q, (m.flipAnomalyG C t).real L q = A.real L q := by
    intro q
    simp only [KepMode.flipAnomalyG, Graph.real, hA]
    ring
  have hxy : ∀ q, (m.flipMode.x1Of (m.flipPar C) (m.flipAnomalyG C t)).real L q = (m.flipMode.x1Of (m.flipPar C) A).real L q ∧
      (m.flipMode.y1Of (m.flipPar C) (m.flipAnomalyG C t)).real L q = (m.flipMode.y1Of (m.flipPar C) A).real L q := by
    intro q
    have := hAe q
    cases m <;> simp only [KepMode.flipMode, KepMode.x1Of, KepMode.y1Of, KepMode.radiusOf, KepMode.cosfOf, KepMode.sinfOf, Graph.real, this] <;> exact ⟨trivial, trivial⟩
  obtain ⟨rx, ry, rz⟩ := eclipseOf_regular (C := C) hk hp hw hi hAr
  obtain ⟨D2, hD2⟩ := fluxGraph_differentiable (u1 := v1) (u2 := v2) (R := m.flipPar C .r_star) (r := m.flipPar C .r) hv rx ry rz trivial trivial hp.r hp.r_star (fun h => hsize h.2.2.symm)
    (by rw [(p2 q).1] at hz2; simpa only [Graph.real, (hxy q).2] using hz2) j
  obtain ⟨E, E1, E2, hE, -⟩ := combine_gradient (op1 := exactOp 0 0) (f1 := fun q => fluxAt (getCl u1 u2) (q (.kep .r_star)) (q (.kep .r)) ((o q).relativePosition C t))
    (f2 := fun q => fluxAt (getCl v1 v2) (q (.kep .r)) (q (.kep .r_star)) ((o2 q).relativePosition C t)) hR hs (j := j) (D1 := D1) (D2 := D2)
    (by simp only [p1]; exact hD1) (by simp only [(p2 _).1, hxy]; exact hD2)
  exact ⟨_, hE⟩

end laws

/-- **C127 (what exact arithmetic does at `sin ω = 1`).** For an eccentric orbit with `sin ω = 1`, which is an angle like any other for the transit (C121), the computed derivatives with respect to
the eccentricity and the argument of periastron are NaN, whatever the compiled operations and their derivatives, and whatever is computed from the light curve afterwards: `_flip` subtracts `π`
from `omega`, and `E0` of the flipped orbit is `arctan2(0, 0)`. -/
theorem C127_upwards {ω : ℝ} (hm : m ≠ .circular) (hω : m.omegaG.real (fun _ _ => 0) q = ω) (hsin : sin ω = 1) (he : 0 ≤ q (.kep .ecc)) (he1 : q (.kep .ecc) ≤ 1) (t : ℝ) (g : Fl) {j : SecPar}
    (hj : j = .kep .ecc ∨ (m = .angle ∧ j = .kep .omega) ∨ (m = .sincos ∧ (j = .kep .sin_omega ∨ j = .kep .cos_omega))) :
    m.secBack C op1 op2 (fun i => .fin (q i)) t g j = .nan := by
  have hcos : cos ω = 0 := by nlinarith [sin_sq_add_cos_sq ω]
  have hfm : m.flipMode = .angle := by cases m <;> first | exact absurd rfl hm | rfl
  have hv : (m.flipPar C .omega).value op2 (fun i => .fin (q i)) = .fin (ω - π) := by
    subst hω
    cases m <;> first | exact absurd rfl hm | rfl
  have hE : ∀ w : Fl, (KepMode.angle.E0G (m.flipPar C)).back op2 (fun i => .fin (q i)) w j = .nan := by
    intro w
    have hx : (Graph.mul (.sqrt (.sub (.const 1) (m.flipPar C .ecc))) (KepMode.angle.cosOmegaG (m.flipPar C))).value op2 (fun i => .fin (q i)) = .fin 0 := by
      simp only [Graph.value, KepMode.cosOmegaG, hv, Fl.cos_fin, cos_sub_pi, hcos, neg_zero]
      rw [show (m.flipPar C .ecc).value op2 (fun i => .fin (q i)) = .fin (q (.kep .ecc)) from rfl, Fl.fin_sub, Fl.sqrt_fin (by linarith), Fl.fin_mul, mul_zero]
    have hy : (Graph.mul (.sqrt (.add (.const 1) (m.flipPar C .ecc))) (.add (.const 1) (KepMode.angle.sinOmegaG (m.flipPar C)))).value op2 (fun i => .fin (q i)) = .fin 0 := by
      simp only [Graph.value, KepMode.sinOmegaG, hv, Fl.sin_fin, sin_sub_pi, hsin]
      rw [show (m.flipPar C .ecc).value op2 (fun i => .fin (q i)) = .fin (q (.kep .ecc)) from rfl, Fl.fin_add, Fl.fin_add, Fl.sqrt_fin (by linarith), Fl.fin_mul, add_neg_cancel, mul_zero]
    rw [KepMode.E0G, Graph.back, Graph.back, Graph.back]
    rw [hx, hy]
    rw [show (Fl.fin 0 ^ 2 + Fl.fin 0 ^ 2 : Fl) = .fin 0 by simp, show (-Fl.fin 0 : Fl) = .fin 0 by simp, zero_over_zero]
    rcases hj with rfl | ⟨rfl, rfl⟩ | ⟨rfl, rfl | rfl⟩ <;>
      simp [Graph.back, KepMode.cosOmegaG, KepMode.sinOmegaG, KepMode.flipPar, KepMode.secPar, KepMode.omegaG]
  have hT : ∀ w : Fl, (m.flipT0G C).back op2 (fun i => .fin (q i)) w j = .nan := by
    intro w
    simp [KepMode.flipT0G, hfm, KepMode.M0G, Graph.back, hE]
  have hA : ∀ w : Fl, (m.flipAnomalyG C t).back op2 (fun i => .fin (q i)) w j = .nan := by
    intro w
    simp [KepMode.flipAnomalyG, Graph.back, hT]
  have hx : ∀ w : Fl, (m.flipMode.x1Of (m.flipPar C) (m.flipAnomalyG C t)).back op2 (fun i => .fin (q i)) w j = .nan := by
    intro w
    simp [hfm, KepMode.x1Of, KepMode.sinfOf, Graph.back, hA]
  simp [KepMode.secBack, KepMode.eclipseG, KepMode.eclipseOf, fluxGraph, Graph.back, hx]

/-- **C127 (what exact arithmetic does at the centre).** When the planet is exactly in front of the centre of the star, or exactly behind it, in the middle of the eclipse, the computed derivatives
with respect to `a`, `b` and `r_star` are NaN. -/
theorem C127_centre (hk : op1.ExactKepler) (hq : m.Possible (SecPar.orbit q)) {o : Orbit} (h : keplerianInit C (m.args (SecPar.orbit q)) = .ok o) (t : ℝ)
    (hx : (o.relativePosition C t).x = 0) (hy : (o.relativePosition C t).y = 0) (g : Fl) {j : SecPar} (hj : j = .kep .a ∨ j = .kep .b ∨ j = .kep .r_star) :
    m.secBack C op1 op2 (fun i => .fin (q i)) t g j = .nan := by
  set L : ℝ → ℝ → ℝ := fun _ _ => 0
  have hp := primaryGraph_real h L t
  rw [hp] at hx hy
  have key := lightCurveOf_centre (L := L) hk secPar_regular (secClock_regular t) (secPar_possible hq) hx hy (j := j) (by
    rcases hj with rfl | rfl | rfl
    · cases m <;> simp [KepMode.x1G, KepMode.radiusG, Graph.back, KepMode.secPar]
    · simp [KepMode.yG, KepMode.cosInclG, Graph.back, KepMode.secPar]
    · simp [KepMode.yG, KepMode.cosInclG, Graph.back, KepMode.secPar])
  simp [KepMode.secBack, KepMode.primaryG, key]

/-! ## Examples -/

/-- The orbits of `demoKep` with a planet of a tenth of the surface brightness of the star, and the given argument of periastron. -/
noncomputable def demoSec (b ω : ℝ) : SecPar → ℝ
  | .kep .omega => ω
  | .kep .sin_omega => sin ω
  | .kep .cos_omega => cos ω
  | .kep p => demoKep b 1 p
  | .surface_brightness_ratio => 0.1

theorem demoSec_possible {b ω : ℝ} (hω : -1 < sin ω) : m.Possible (SecPar.orbit (demoSec b ω)) := by
  refine ⟨by norm_num [SecPar.orbit, demoSec, demoKep], by norm_num [SecPar.orbit, demoSec, demoKep], by norm_num [SecPar.orbit, demoSec, demoKep],
    by norm_num [SecPar.orbit, demoSec, demoKep], fun _ => by norm_num [SecPar.orbit, demoSec, demoKep], fun hm => ?_⟩
  cases m <;> simpa [KepMode.sinOmega, SecPar.orbit, demoSec] using hω

/-- The orbit of `demoSec` is physical, so that the flipped orbit is its mirror image (C20). -/
theorem demoSec_physical {b ω : ℝ} {o : Orbit} (h : keplerianInit C (m.args (SecPar.orbit (demoSec b ω))) = .ok o) (hi : |o.cos_incl| ≤ 1) : o.Physical := by
  have hG := C.G_pos
  have hpi := pi_pos
  have hm : 0 < o.m_star := by
    have : o.m_star = 4 * π * π * 10 ^ 3 / (C.G * 10 ^ 2) - 0 := by cases m <;> (obtain rfl := Except.ok.inj h; rfl)
    rw [this, sub_zero]; positivity
  have hR : o.r_star = 1 := by cases m <;> (obtain rfl := Except.ok.inj h; rfl)
  have hP : o.period = 10 := by cases m <;> (obtain rfl := Except.ok.inj h; rfl)
  have ha : o.a = 10 := by cases m <;> (obtain rfl := Except.ok.inj h; rfl)
  have hmp : o.m_planet = 0 := by cases m <;> (obtain rfl := Except.ok.inj h; rfl)
  have hrho : 0 < o.rho_star := by
    have : o.rho_star = (4 * π * π * 10 ^ 3 / (C.G * 10 ^ 2) - 0) / (4 * π * 1 ^ 3 / 3) * C.gccPerSun := by cases m <;> (obtain rfl := Except.ok.inj h; rfl)
    have hg := C.gccPerSun_pos
    rw [this, sub_zero]; positivity
  refine ⟨by rw [hP]; norm_num, by rw [ha]; norm_num, hm, hmp.ge, by rw [hR]; norm_num, hrho, ?_, ?_, ?_, hi⟩
  · intro p hp
    cases m with
    | circular => obtain rfl := Except.ok.inj h; cases hp
    | angle => obtain rfl := Except.ok.inj h; cases hp; norm_num [SecPar.orbit, demoSec, demoKep]
    | sincos => obtain rfl := Except.ok.inj h; cases hp; norm_num [SecPar.orbit, demoSec, demoKep]
  · intro p hp
    cases m with
    | circular => obtain rfl := Except.ok.inj h; cases hp
    | angle => obtain rfl := Except.ok.inj h; cases hp; norm_num [SecPar.orbit, demoSec, demoKep]
    | sincos => obtain rfl := Except.ok.inj h; cases hp; norm_num [SecPar.orbit, demoSec, demoKep]
  · intro p hp
    cases m with
    | circular => obtain rfl := Except.ok.inj h; cases hp
    | angle => obtain rfl := Except.ok.inj h; cases hp; simp
    | sincos => obtain rfl := Except.ok.inj h; cases hp; simp [SecPar.orbit, demoSec]

theorem demoSec_mirror {b ω : ℝ} {o o2 : Orbit} (h : keplerianInit C (m.args (SecPar.orbit (demoSec b ω))) = .ok o) (hi : |o.cos_incl| ≤ 1)
    (h2 : o.flip C 0.1 = .ok o2) (t : ℝ) : o2.relativePosition C t = (o.relativePosition C t).smul (-1) := by
  obtain ⟨o', ho', -, -, -, -, -, hrel⟩ := C20_flip C _ o h (demoSec_physical h hi) 0.1
  obtain rfl := Except.ok.inj (h2.symm.trans ho')
  exact (hrel t none).2.2.1

theorem demoSec_orbit (b : ℝ) : SecPar.orbit (demoSec b (π / 2)) = demoKep b 1 := by
  funext p
  cases p <;> simp [SecPar.orbit, demoSec, demoKep]

/-- Concrete violation of C127: an orbit with `ecc=0.3`, `sin_omega=1`, `cos_omega=0` and `b=0.5` in the middle of the transit. The flux has derivatives with respect to all parameters, and for the
transit alone they are computed right (C121); computed with exact arithmetic for the light curve of both bodies, those with respect to the eccentricity and the argument of periastron are NaN. -/
theorem C127_counterexample {u1 u2 v1 v2 : ℝ} (hu : PhysicalLaw u1 u2) (hv : PhysicalLaw v1 v2) (C : Consts) (o o2 : (SecPar → ℝ) → Orbit)
    (ho : ∀ q, keplerianInit C (KepMode.sincos.args (SecPar.orbit q)) = .ok (o q)) (ho2 : ∀ q, (o q).flip C (q (.kep .r)) = .ok (o2 q)) :
    ∃ q : SecPar → ℝ, KepMode.sincos.Possible (SecPar.orbit q) ∧ q (.kep .sin_omega) = 1 ∧ q (.kep .cos_omega) = 0 ∧
      (∀ j, ∃ D, HasDerivAt (fun x => togetherFlux (getCl u1 u2) (getCl v1 v2) (update q j x .surface_brightness_ratio) (update q j x (.kep .r)) (update q j x (.kep .r_star))
        ((o (update q j x)).relativePosition C 0) ((o2 (update q j x)).relativePosition C 0)) D (q j)) ∧
      ∀ (op1 op2 : FlOp) (g : Fl) (j : SecPar), j = .kep .ecc ∨ j = .kep .sin_omega ∨ j = .kep .cos_omega →
        KepMode.sincos.secBack C op1 op2 (fun i => .fin (q i)) 0 g j = .nan := by
  have h := ho (demoSec 0.5 (π / 2))
  have hpos : -1 < sin (π / 2) := by rw [sin_pi_div_two]; norm_num
  obtain ⟨-, hz, hi⟩ := offsetKep_position (C := C) (o (demoSec 0.5 (π / 2))) (by rw [← demoSec_orbit]; exact h)
  have hi' : |(o (demoSec 0.5 (π / 2))).cos_incl| < 1 := by rw [hi, abs_of_pos (by norm_num)]; norm_num
  have hs : demoSec 0.5 (π / 2) (.kep .sin_omega) = 1 := sin_pi_div_two
  have hc : demoSec 0.5 (π / 2) (.kep .cos_omega) = 0 := cos_pi_div_two
  refine ⟨demoSec 0.5 (π / 2), demoSec_possible hpos, hs, hc, fun j => ?_, fun op1 op2 g j hj => ?_⟩
  · refine C127_differentiable hu hv (demoSec_possible hpos) (by norm_num [demoSec]) (fun _ => Or.inr (by rw [hs]; norm_num)) (by norm_num [demoSec, demoKep]) o o2 ho ho2 0 hi' hz.ne' ?_ j
    have := demoSec_mirror h hi'.le (ho2 (demoSec 0.5 (π / 2))) 0
    rw [this]
    simp only [V3.smul]
    exact (show -1 * ((o (demoSec 0.5 (π / 2))).relativePosition C 0).z < 0 by linarith).ne
  · refine C127_upwards (m := .sincos) (q := demoSec 0.5 (π / 2)) (ω := arctan2 1 0) nofun (by simp only [KepMode.omegaG, KepMode.secPar, Graph.real, hs, hc]) ?_ (by norm_num [demoSec, demoKep]) (by norm_num [demoSec, demoKep]) 0 g ?_
    · exact (arctan2_cos_sin (by norm_num)).2
    · rcases hj with rfl | rfl | rfl <;> simp

theorem eclipse_position {o : Orbit} (h : keplerianInit C (KepMode.circular.args (SecPar.orbit (demoSec 0.5 0))) = .ok o) :
    (o.relativePosition C 5).y = 0.5 ∧ (o.relativePosition C 5).z < 0 ∧ o.cos_incl = 0.05 := by
  have hp := primaryGraph_real h (fun _ _ => 0) 5
  have hM : (KepMode.circular.anomalyG KepMode.secPar (.sub (.const 5) (KepMode.secPar .t0))).real (fun _ _ => 0) (demoSec 0.5 0) = π / 2 + π := by
    simp only [KepMode.anomalyG, KepMode.secPar, KepMode.M0G, KepMode.nG, Graph.real, demoSec, demoKep]
    have := pi_pos.ne'
    field_simp
    norm_num
  have hci : o.cos_incl = (KepMode.circular.cosInclG KepMode.secPar).real (fun _ _ => 0) (demoSec 0.5 0) := by obtain rfl := Except.ok.inj h; rfl
  rw [hp, hci]
  simp only [KepMode.yG, KepMode.zG, KepMode.y1G, KepMode.sinfG, KepMode.radiusG, KepMode.sinInclG, KepMode.cosInclG, KepMode.inclFactorG, Graph.real, hM, sin_add_pi, sin_pi_div_two]
  simp only [KepMode.secPar, Graph.real, demoSec, demoKep]
  refine ⟨by norm_num, ?_, by norm_num⟩
  have : 0 < sin (arccos (1 * 1 / 10 * 0.5)) := by
    rw [sin_arccos]
    exact sqrt_pos.2 (by norm_num)
  linarith

/-- The hypotheses of `C127_light_curve_partial` can be met: in the middle of the eclipse of a planet with `b = 0.5` on a circular orbit, with different limb darkening of star and planet. -/
example (o o2 : (SecPar → ℝ) → Orbit) (ho : ∀ q, keplerianInit C (KepMode.circular.args (SecPar.orbit q)) = .ok (o q)) (ho2 : ∀ q, (o q).flip C (q (.kep .r)) = .ok (o2 q))
    (hu : PhysicalLaw 0.3 0.2) (hv : PhysicalLaw 0 0) :
    ∀ j, ∃ D, HasDerivAt (fun x => togetherFlux (getCl 0.3 0.2) (getCl 0 0) (update (demoSec 0.5 0) j x .surface_brightness_ratio) (update (demoSec 0.5 0) j x (.kep .r))
      (update (demoSec 0.5 0) j x (.kep .r_star)) ((o (update (demoSec 0.5 0) j x)).relativePosition C 5) ((o2 (update (demoSec 0.5 0) j x)).relativePosition C 5)) D (demoSec 0.5 0 j) ∧
      ∀ g : ℝ, KepMode.circular.secBack C (exactOp 0.3 0.2) (exactOp 0 0) (fun i => .fin (demoSec 0.5 0 i)) 5 (.fin g) j = .fin (g * D) := by
  obtain ⟨hy, hz, hi⟩ := eclipse_position (ho (demoSec 0.5 0))
  have hi' : |(o (demoSec 0.5 0)).cos_incl| < 1 := by rw [hi, abs_of_pos (by norm_num)]; norm_num
  have hm := demoSec_mirror (ho (demoSec 0.5 0)) hi'.le (ho2 (demoSec 0.5 0)) 5
  refine (C127_light_curve_partial (m := .circular) hu hv (exactOp_exact _ _).1 (exactOp_exact _ _).2 (exactOp_exact _ _).1 (exactOp_exact _ _).2
    ⟨demoSec_possible (by simp), by norm_num [demoSec], nofun, nofun⟩ o o2 ho ho2 5 hi' (Or.inr (by rw [hy]; norm_num)) (Or.inl hz.ne) ?_ ?_).2
  · rw [hm]; exact Or.inr (by simp only [V3.smul, hy]; norm_num)
  · rw [hm]; exact Or.inl (by simp only [V3.smul]; exact (by linarith : (0 : ℝ) < -1 * _).ne')

/-- The hypotheses of `C127_centre` can be met: `b = 0` in the middle of the transit. -/
example {o : Orbit} (h : keplerianInit C (KepMode.circular.args (SecPar.orbit (demoSec 0 (π / 2)))) = .ok o) (op2 : FlOp) :
    KepMode.circular.secBack C (exactOp 0.3 0.2) op2 (fun i => .fin (demoSec 0 (π / 2) i)) 0 (.fin 1) (.kep .a) = .nan := by
  have hp := (centralKep_position (C := C) o (by rw [← demoSec_orbit]; exact h)).1
  exact C127_centre (exactOp_exact _ _).2 (demoSec_possible (by rw [sin_pi_div_two]; norm_num)) h 0 (by rw [hp]) (by rw [hp]) _ (Or.inl rfl)

end Exo
