import Verif.Spec.BackpropRv
import Verif.Props.BackpropStar

/-!
# C125: gradients of radial velocities as the compiled graph computes them
-/

namespace Exo
open Real Function Topology

variable {C : Consts} {m : KepMode} {op : FlOp} {L : ℝ → ℝ → ℝ}

theorem GradientRight.of_regular {ι : Type} [DecidableEq ι] {G : Graph ι} {f : (ι → ℝ) → ℝ} {q : ι → ℝ} (h : G.Regular L op q) (hf : ∀ q, f q = G.real L q) :
    GradientRight op G f q := by
  obtain ⟨h1, h2⟩ := C118_backprop op L q _ h
  refine ⟨h1.trans (congrArg Fl.fin (hf q).symm), fun j => ?_⟩
  obtain ⟨D, hD, hg⟩ := h2 j
  exact ⟨D, by simpa only [hf] using hD, hg⟩

/-! ## From the masses -/

section
variable {s : StarMode} {q : StarPar → ℝ}

theorem rvG_real {o : Orbit} (h : keplerianInit C (s.args m q) = .ok o) {units : Option AUnit} {conv : ℝ} (hu : C.rSunPerDay.to (units.getD C.mPerS) = .ok conv)
    (L : ℝ → ℝ → ℝ) (t : ℝ) : o.radialVelocity C t none units = .ok ((s.rvG C m conv t).real L q) := by
  simp only [Orbit.radialVelocity, hu]
  cases s <;> cases m <;> (obtain rfl := Except.ok.inj h; rfl)

/-- **C125 (what holds, from the masses).** With exact operations the radial velocity in any unit and its computed derivatives with respect to all parameters, also the masses, are the
true ones, unless the orbit is seen face-on. -/
theorem C125_masses_partial (hk : op.ExactKepler) (hq : s.Possible m q) (o : (StarPar → ℝ) → Orbit) (ho : ∀ q, keplerianInit C (s.args m q) = .ok (o q))
    {units : Option AUnit} {conv : ℝ} (hu : C.rSunPerDay.to (units.getD C.mPerS) = .ok conv) (t : ℝ) (f : (StarPar → ℝ) → ℝ)
    (hf : ∀ q, (o q).radialVelocity C t none units = .ok (f q)) (hi : |(o q).cos_incl| < 1) : GradientRight op (s.rvG C m conv t) f q := by
  set L : ℝ → ℝ → ℝ := fun _ _ => 0
  rw [(starGraph_real (ho q) L t).2.1] at hi
  refine GradientRight.of_regular (L := L) ?_ fun q => Except.ok.inj ((hf q).symm.trans (rvG_real (ho q) hu L t))
  have hP := starPar_regular (C := C) (L := L) (op := op) hq
  have hp := starPar_possible (C := C) (L := L) hq
  have hm := mStarG_regular (C := C) (L := L) (op := op) hq
  have hn := nG_regular hP hp
  obtain ⟨hs, hc⟩ := anomaly_regular hk hP (starClock_regular t) hp
  have hK1 : (Graph.div (.mul (KepMode.nG (s.parG C)) (s.aG C)) (s.mTotalG C)).Regular L op q := ⟨⟨hn, hP .a⟩, ⟨hm.1, trivial⟩, hm.2.ne'⟩
  have hw := omega_regular (m := m) hP
  refine ⟨trivial, ⟨cosInclG_regular hP hp, hi⟩, ?_⟩
  have ho2 := fun h => ome2_pos hp h
  cases m with
  | circular => exact ⟨⟨hK1, trivial⟩, hc⟩
  | angle =>
    have hK : (s.K0G C .angle).Regular L op q := ⟨hK1, ⟨⟨trivial, trivial⟩, ho2 nofun⟩, (sqrt_pos.2 (ho2 nofun)).ne'⟩
    exact ⟨⟨hw.2, ⟨hK, trivial⟩, hs⟩, hw.1, ⟨hK, trivial⟩, hc, trivial⟩
  | sincos =>
    have hK : (s.K0G C .sincos).Regular L op q := ⟨hK1, ⟨⟨trivial, trivial⟩, ho2 nofun⟩, (sqrt_pos.2 (ho2 nofun)).ne'⟩
    exact ⟨⟨hw.2, ⟨hK, trivial⟩, hs⟩, hw.1, ⟨hK, trivial⟩, hc, trivial⟩

end

/-! ## From the semi-amplitude -/

section
variable {s : RvMode} {q : RvPar → ℝ}

theorem RvMode.args_ok (C : Consts) (s : RvMode) (m : KepMode) (q : RvPar → ℝ) : ∃ o, keplerianInit C (s.args m q) = .ok o := by
  cases s <;> cases m <;> exact ⟨_, rfl⟩

theorem rvKG_real {o : Orbit} (h : keplerianInit C (s.args m q) = .ok o) (L : ℝ → ℝ → ℝ) (t : ℝ) :
    o.radialVelocity C t (some (q .K)) none = .ok ((s.rvG m t).real L q) := by
  cases s <;> cases m <;> (obtain rfl := Except.ok.inj h; rfl)

theorem pairs_of_ecc (hk : op.ExactKepler) {e : ℝ} (h0 : 0 ≤ e) (h1 : e < 1) (M : ℝ) :
    ExactPair (fun M e => (op.kepler M e).1) op.backSin (fun M e => (keplerOp M e).1) M e ∧ ExactPair (fun M e => (op.kepler M e).2) op.backCos (fun M e => (keplerOp M e).2) M e := by
  have hv := hk.value.exact M _ h0 h1
  obtain ⟨d1, d2⟩ := C121_kepler h0 h1 M
  exact ⟨⟨by simp only [hv], _, _, d1, fun g => hk.backSin g M _ h0 h1⟩, ⟨by simp only [hv], _, _, d2, fun g => hk.backCos g M _ h0 h1⟩⟩

/-- The radial velocity of an orbit with the mean anomaly `A`. -/
noncomputable def rvOfAnomaly (m : KepMode) (A : Graph RvPar) : Graph RvPar := match m with
  | .circular => .mul (.input .K) (.cos A)
  | m => .mul (.input .K) (.add (.sub (.mul (m.cosOmegaG RvMode.parG) (.keplerCos A (.input (.kep .ecc)))) (.mul (m.sinOmegaG RvMode.parG) (.keplerSin A (.input (.kep .ecc)))))
      (.mul (.input (.kep .ecc)) (m.cosOmegaG RvMode.parG)))

theorem rvOfAnomaly_regular (hk : op.ExactKepler) (he : m ≠ .circular → 0 ≤ q (.kep .ecc) ∧ q (.kep .ecc) < 1) {A : Graph RvPar} (hA : A.Regular L op q) :
    (rvOfAnomaly m A).Regular L op q := by
  have hw := omega_regular (m := m) (P := RvMode.parG) (L := L) (op := op) (x := q) fun _ => trivial
  cases m with
  | circular => exact ⟨trivial, hA⟩
  | angle =>
    obtain ⟨h1, h2⟩ := pairs_of_ecc hk (he nofun).1 (he nofun).2 (A.real L q)
    exact ⟨trivial, ⟨⟨hw.1, hA, trivial, h2⟩, hw.2, hA, trivial, h1⟩, trivial, hw.1⟩
  | sincos =>
    obtain ⟨h1, h2⟩ := pairs_of_ecc hk (he nofun).1 (he nofun).2 (A.real L q)
    exact ⟨trivial, ⟨⟨hw.1, hA, trivial, h2⟩, hw.2, hA, trivial, h1⟩, trivial, hw.1⟩

theorem rvG_eq (t : ℝ) : s.rvG m t = rvOfAnomaly m (s.anomalyG m t) := by cases m <;> rfl

theorem rvAnomaly_regular (hq : RvMode.Possible m q) (t : ℝ) : (s.anomalyG m t).Regular L op q := by
  have hn : (KepMode.nG RvMode.parG).Regular L op q := ⟨⟨trivial, trivial⟩, trivial, hq.period.ne'⟩
  have hM : (m.M0G RvMode.parG).Regular L op q := by
    have key : m ≠ .circular → (m.E0G RvMode.parG).Regular L op q := by
      intro hm
      obtain ⟨h0, h1⟩ := hq.ecc hm
      have hw := hq.omega hm
      have hr := omega_regular (m := m) (P := RvMode.parG) (L := L) (op := op) (x := q) fun _ => trivial
      refine ⟨trivial, ⟨⟨⟨trivial, trivial⟩, ?_⟩, hr.1⟩, ⟨⟨⟨trivial, trivial⟩, ?_⟩, trivial, hr.2⟩, Or.inl ?_⟩
      · simp only [Graph.real, RvMode.parG]; linarith
      · simp only [Graph.real, RvMode.parG]; linarith
      · simp only [Graph.real, sinOmegaG_real]
        exact mul_pos (sqrt_pos.2 (by simp only [RvMode.parG, Graph.real]; linarith)) (by simp only [RvMode.parG, Graph.real]; linarith)
    cases m with
    | circular => exact ⟨trivial, trivial⟩
    | angle => exact ⟨key nofun, trivial, key nofun⟩
    | sincos => exact ⟨key nofun, trivial, key nofun⟩
  have hd : (RvMode.delayG m).Regular L op q := by
    refine ⟨hM, hn, ?_⟩
    simp only [KepMode.nG, RvMode.parG, Graph.real]
    have := pi_pos
    have := hq.period
    positivity
  cases s with
  | t0 => exact ⟨⟨⟨trivial, trivial⟩, ⟨trivial, hd⟩, trivial⟩, hn⟩
  | t_periastron => exact ⟨⟨⟨trivial, trivial, hd⟩, trivial, trivial, hd⟩, hn⟩

/-- **C125 (what holds, from the semi-amplitude).** With exact operations `get_radial_velocity(t, K=K)`, for a given time of transit or of periastron, and its computed derivatives with
respect to all parameters are the true ones, if `sin ω > -1`. -/
theorem C125_amplitude_partial (hk : op.ExactKepler) (hq : RvMode.Possible m q) (o : (RvPar → ℝ) → Orbit) (ho : ∀ q, keplerianInit C (s.args m q) = .ok (o q)) (t : ℝ)
    (f : (RvPar → ℝ) → ℝ) (hf : ∀ q, (o q).radialVelocity C t (some (q .K)) none = .ok (f q)) : GradientRight op (s.rvG m t) f q := by
  refine GradientRight.of_regular (L := fun _ _ => 0) ?_ fun q => Except.ok.inj ((hf q).symm.trans (rvKG_real (ho q) _ t))
  rw [rvG_eq]
  exact rvOfAnomaly_regular hk hq.ecc (rvAnomaly_regular hq t)

/-- **C125 (the velocity does not need the time of transit).** For a given time of periastron the radial velocity has derivatives with respect to all parameters, whatever the argument
of periastron. -/
theorem C125_differentiable (hP : 0 < q (.kep .period)) (he : m ≠ .circular → 0 ≤ q (.kep .ecc) ∧ q (.kep .ecc) < 1) (o : (RvPar → ℝ) → Orbit)
    (ho : ∀ q, keplerianInit C (RvMode.t_periastron.args m q) = .ok (o q)) (t : ℝ) (f : (RvPar → ℝ) → ℝ)
    (hf : ∀ q, (o q).radialVelocity C t (some (q .K)) none = .ok (f q)) (j : RvPar) : ∃ D, HasDerivAt (fun x => f (update q j x)) D (q j) := by
  set L : ℝ → ℝ → ℝ := fun _ _ => 0
  set A : Graph RvPar := .mul (.sub (.const t) (.input .t_periastron)) (KepMode.nG RvMode.parG) with hA
  have hreg : (rvOfAnomaly m A).Regular L (exactOp 0 0) q :=
    rvOfAnomaly_regular (exactOp_exact 0 0).2 he ⟨⟨trivial, trivial⟩, ⟨trivial, trivial⟩, trivial, hP.ne'⟩
  have e : ∀ q, f q = (rvOfAnomaly m A).real L q := by
    intro q
    rw [Except.ok.inj ((hf q).symm.trans (rvKG_real (ho q) L t)), rvG_eq]
    have : (RvMode.t_periastron.anomalyG m t).real L q = A.real L q := by
      simp only [RvMode.anomalyG, RvMode.t0G, RvMode.tPeriG, Graph.real, hA]
      ring
    cases m <;> simp only [rvOfAnomaly, Graph.real, this]
  obtain ⟨D, hD, -⟩ := (C118_backprop _ L q _ hreg).2 j
  exact ⟨D, by simpa only [e] using hD⟩

/-- **C125 (what the code does at `sin ω = -1`).** With `sin_omega=-1` and `cos_omega=0` the computed derivatives of the radial velocity with respect to the eccentricity and the two
components are NaN, also for a given time of periastron, whatever the compiled operations and their derivatives, and whatever is computed from the velocity afterwards. -/
theorem C125_downwards (hs : q (.kep .sin_omega) = -1) (hc : q (.kep .cos_omega) = 0) (he : 0 ≤ q (.kep .ecc)) (he1 : q (.kep .ecc) ≤ 1) (t : ℝ) (g : Fl) {j : RvPar}
    (hj : j = .kep .ecc ∨ j = .kep .sin_omega ∨ j = .kep .cos_omega) : (s.rvG .sincos t).back op (fun i => .fin (q i)) g j = .nan := by
  have hE : ∀ w : Fl, (KepMode.sincos.E0G RvMode.parG).back op (fun i => .fin (q i)) w j = .nan := by
    intro w
    have hx : (Graph.mul (.sqrt (.sub (.const 1) (RvMode.parG .ecc))) (KepMode.sincos.cosOmegaG RvMode.parG)).value op (fun i => .fin (q i)) = .fin 0 := by
      simp only [Graph.value, KepMode.cosOmegaG, RvMode.parG, Fl.fin_sub, Fl.sqrt_fin (show (0 : ℝ) ≤ 1 - q (.kep .ecc) by linarith), hc, Fl.fin_mul, mul_zero]
    have hy : (Graph.mul (.sqrt (.add (.const 1) (RvMode.parG .ecc))) (.add (.const 1) (KepMode.sincos.sinOmegaG RvMode.parG))).value op (fun i => .fin (q i)) = .fin 0 := by
      simp only [Graph.value, KepMode.sinOmegaG, RvMode.parG, Fl.fin_add, Fl.sqrt_fin (show (0 : ℝ) ≤ 1 + q (.kep .ecc) by linarith), hs, Fl.fin_mul, add_neg_cancel, mul_zero]
    rw [KepMode.E0G, Graph.back, Graph.back, Graph.back]
    rw [hx, hy]
    rw [show (Fl.fin 0 ^ 2 + Fl.fin 0 ^ 2 : Fl) = .fin 0 by simp, show (-Fl.fin 0 : Fl) = .fin 0 by simp, zero_over_zero]
    rcases hj with rfl | rfl | rfl <;> simp [Graph.back, KepMode.cosOmegaG, KepMode.sinOmegaG, RvMode.parG]
  have hd : ∀ w : Fl, (RvMode.delayG .sincos).back op (fun i => .fin (q i)) w j = .nan := by
    intro w
    simp [RvMode.delayG, KepMode.M0G, Graph.back, hE]
  have hA : ∀ w : Fl, (s.anomalyG .sincos t).back op (fun i => .fin (q i)) w j = .nan := by
    intro w
    cases s <;> simp [RvMode.anomalyG, RvMode.t0G, RvMode.tPeriG, Graph.back, hd]
  simp [RvMode.rvG, Graph.back, hA]

/-! ## Examples -/

/-- `ecc = 0.3`, `K = 1` and a period of ten days, with the given `sin_omega`. -/
noncomputable def demoRv (sw : ℝ) : RvPar → ℝ
  | .kep p => demoKep 0 sw p
  | .t_periastron => 0
  | .K => 1

theorem demoRv_possible (m : KepMode) : RvMode.Possible m (demoRv 1) :=
  have h := demoKep_possible m 0
  ⟨h.period, h.ecc, h.omega⟩

/-- Concrete violation of C125: `KeplerianOrbit(period=10, t_periastron=0, ecc=0.3, sin_omega=-1, cos_omega=0).get_radial_velocity(t, K=1)` has derivatives with respect to all parameters at
every time; the computed ones with respect to the eccentricity and the components of `ω` are NaN. -/
theorem C125_counterexample (C : Consts) (o : (RvPar → ℝ) → Orbit) (ho : ∀ q, keplerianInit C (RvMode.t_periastron.args .sincos q) = .ok (o q)) (t : ℝ) (f : (RvPar → ℝ) → ℝ)
    (hf : ∀ q, (o q).radialVelocity C t (some (q .K)) none = .ok (f q)) : ∃ q : RvPar → ℝ, q (.kep .sin_omega) ^ 2 + q (.kep .cos_omega) ^ 2 = 1 ∧ q (.kep .ecc) = 0.3 ∧
    (∀ j, ∃ D, HasDerivAt (fun x => f (update q j x)) D (q j)) ∧ ∀ (op : FlOp) (g : Fl) (j : RvPar), j = .kep .ecc ∨ j = .kep .sin_omega ∨ j = .kep .cos_omega →
      (RvMode.t_periastron.rvG .sincos t).back op (fun i => .fin (q i)) g j = .nan := by
  refine ⟨demoRv (-1), by norm_num [demoRv, demoKep], rfl, fun j => C125_differentiable (by norm_num [demoRv, demoKep]) (fun _ => by norm_num [demoRv, demoKep]) o ho t f hf j,
    fun op g j hj => C125_downwards rfl rfl (by norm_num [demoRv, demoKep]) (by norm_num [demoRv, demoKep]) t g hj⟩

/-- The hypotheses of `C125_amplitude_partial` can be met. -/
example (o : (RvPar → ℝ) → Orbit) (ho : ∀ q, keplerianInit C (s.args .sincos q) = .ok (o q)) (t : ℝ) (f : (RvPar → ℝ) → ℝ)
    (hf : ∀ q, (o q).radialVelocity C t (some (q .K)) none = .ok (f q)) : GradientRight (exactOp 0 0) (s.rvG .sincos t) f (demoRv 1) :=
  C125_amplitude_partial (exactOp_exact 0 0).2 (demoRv_possible _) o ho t f hf

/-- The hypotheses of `C125_masses_partial` can be met, with each combination of arguments. -/
example (s : StarMode) (o : (StarPar → ℝ) → Orbit) (ho : ∀ q, keplerianInit C (s.args .circular q) = .ok (o q)) {conv : ℝ} (hu : C.rSunPerDay.to C.mPerS = .ok conv) (t : ℝ)
    (f : (StarPar → ℝ) → ℝ) (hf : ∀ q, (o q).radialVelocity C t none none = .ok (f q)) : GradientRight (exactOp 0 0) (s.rvG C .circular conv t) f (demoStar 0) :=
  C125_masses_partial (units := none) (exactOp_exact 0 0).2 (demoStar_possible _ _ _) o ho hu t f hf (by rw [(starTransit (ho _)).2.1]; norm_num)

end
end Exo
