import Verif.Spec.BackpropExposure
import Verif.Props.BackpropKepler
import Verif.Props.LightCurve2
import Verif.Props.InTransit2

/-!
# C123: gradients of light curves with an exposure time as the compiled graph computes them
-/

namespace Exo
open Real Function Topology

variable {m : KepMode} {q : ExpPar → ℝ} {op : FlOp} {L : ℝ → ℝ → ℝ}

/-! ## The graph stands for the model -/

theorem foldl_add_real {ι : Type} (x : ι → ℝ) : ∀ (l : List (Graph ι)) (a : Graph ι), (l.foldl Graph.add a).real L x = a.real L x + (l.map fun g => g.real L x).sum
  | [], a => by simp
  | b :: l, a => by rw [List.foldl_cons, foldl_add_real x l, List.map_cons, List.sum_cons, ← add_assoc]; rfl

theorem foldl_add_regular {ι : Type} {x : ι → ℝ} : ∀ (l : List (Graph ι)) (a : Graph ι), a.Regular L op x → (∀ g ∈ l, g.Regular L op x) → (l.foldl Graph.add a).Regular L op x
  | [], _, ha, _ => ha
  | b :: l, _, ha, hl => foldl_add_regular l _ ⟨ha, hl b List.mem_cons_self⟩ fun g hg => hl g (List.mem_cons_of_mem _ hg)

theorem sampleG_real (t d w : ℝ) : (Exposure.sampleG m t d w).real L q = w * (m.lightCurveG (t + q .texp * d)).real L (ExpPar.orbit q) := by
  cases m <;> rfl

theorem averageG_real (S : List ℝ × List ℝ) (t : ℝ) : (Exposure.averageG m S t).real L q = applyStencil S fun u => (m.lightCurveG (t + q .texp * u)).real L (ExpPar.orbit q) := by
  rw [Exposure.averageG, foldl_add_real, List.map_zipWith, applyStencil]
  simp only [sampleG_real]
  simp [Graph.real]

section
variable {C : Consts} {u1 u2 : ℝ} {o : (KepPar → ℝ) → Orbit}

theorem averageFlux_real (ho : ∀ q, keplerianInit C (m.args q) = .ok (o q)) (S : List ℝ × List ℝ) (t : ℝ) (q : ExpPar → ℝ) :
    averageFlux u1 u2 C o S t q = (Exposure.averageG m S t).real (quadLimbdarkLightCurve (getCl u1 u2)) q := by
  rw [averageG_real]
  refine congrArg (applyStencil S) (funext fun u => ?_)
  beta_reduce
  rw [(keplerGraph_real (ho _) (quadLimbdarkLightCurve (getCl u1 u2)) _).1]
  exact (lightCurveOf_real u1 u2).symm

/-- **C123 (the graph is that of the model).** Without `use_in_transit` and with exact operations the value of the graph is an entry of the result of `get_light_curve`. -/
theorem C123_value (cp : ContactOp) (ho : ∀ q, keplerianInit C (m.args q) = .ok (o q)) {order oversample : ℤ} (horder : order = 0 ∨ order = 1 ∨ order = 2) (hn : 1 ≤ oversample)
    (ts : List ℝ) (q : ExpPar → ℝ) : ∃ S, stencil order oversample = .ok S ∧
    ∃ L, (LimbDark.new u1 u2).getLightCurve (some (keplerApi C cp [o (ExpPar.orbit q)] (q (.kep .r_star)))) (some (.scalar (q (.kep .r)))) (some (.ofList ts 0)) (some (.scalar (q .texp)))
      oversample order (some false) = .ok L ∧ L.shape = [ts.length, 1] ∧ ∀ (i : ℕ) (h : i < ts.length), L.get [i, 0] = (Exposure.averageG m S ts[i]).real (quadLimbdarkLightCurve (getCl u1 u2)) q := by
  obtain ⟨S, hS, L, hL, hsh, hv⟩ := C39_values_exposure (LimbDark.new u1 u2) (keplerApi C cp [o (ExpPar.orbit q)] (q (.kep .r_star))) false _ rfl (.scalar (q (.kep .r))) (.ofList ts 0)
    (.scalar (q .texp)) rfl (Or.inl rfl) oversample order horder hn
  refine ⟨S, hS, L, hL, hsh, fun i h => ?_⟩
  have := hv [i] 0 (by simp [InShape, Tensor.ofList, h]) Nat.one_pos
  rw [← averageFlux_real ho]
  refine this.trans ?_
  have ht : (Tensor.ofList ts 0).get [i] = ts[i] := by simp [Tensor.ofList, h]
  rw [ht]
  rfl

theorem args_r_star {q : KepPar → ℝ} {o : Orbit} (h : keplerianInit C (m.args q) = .ok o) : o.r_star = q .r_star := by
  cases m <;> (obtain rfl := Except.ok.inj h; rfl)

/-- **C123 (what holds).** With exact operations the light curve averaged over an exposure, for every `order` and `oversample`, and its computed derivatives with respect to all parameters of the
orbit, the radius of the planet and the exposure time are the true ones, unless at one of the samples the planet is exactly in front of (or behind) the centre of the star or grazes it in the plane
of the sky, or the orbit is seen face-on. -/
theorem C123_exposure_partial (hl : PhysicalLaw u1 u2) (hop : op.Exact u1 u2) (hk : op.ExactKepler) (hq : m.Possible (ExpPar.orbit q))
    (ho : ∀ q, keplerianInit C (m.args q) = .ok (o q)) (S : List ℝ × List ℝ) (t : ℝ)
    (hi : |(o (ExpPar.orbit q)).cos_incl| < 1) (hc : ∀ d ∈ S.1, OffCentre C (o (ExpPar.orbit q)) (q (.kep .r)) (t + q .texp * d)) :
    GradientRight op (Exposure.averageG m S t) (averageFlux u1 u2 C o S t) q := by
  set L := quadLimbdarkLightCurve (getCl u1 u2) with hL
  have hreg : (Exposure.averageG m S t).Regular L op q := by
    refine foldl_add_regular _ _ trivial fun g hg => ?_
    obtain ⟨k, hk', rfl⟩ := List.mem_iff_getElem.1 hg
    have hk1 : k < S.1.length := by rw [List.length_zipWith] at hk'; omega
    rw [List.getElem_zipWith]
    have hd := hc _ (List.getElem_mem hk1)
    obtain ⟨hp, hci⟩ := keplerGraph_real (ho (ExpPar.orbit q)) L (t + q .texp * S.1[k])
    rw [hci] at hi
    have hR : (o (ExpPar.orbit q)).r_star = q (.kep .r_star) := args_r_star (ho _)
    unfold OffCentre at hd
    rw [hp, hR] at hd
    refine ⟨trivial, lightCurve_regular hl hop hk (fun _ => trivial) ⟨⟨trivial, trivial, trivial⟩, trivial⟩ ?_ ?_ ?_ ?_⟩
    · exact hq
    · cases m <;> exact hi
    · cases m <;> exact hd.1
    · cases m <;> exact hd.2
  obtain ⟨g1, g2⟩ := C118_backprop op L q _ hreg
  refine ⟨g1.trans (congrArg Fl.fin (averageFlux_real ho S t q).symm), fun j => ?_⟩
  obtain ⟨D, hD, hg⟩ := g2 j
  exact ⟨D, by simpa only [averageFlux_real ho] using hD, hg⟩

theorem list_sum_nonpos : ∀ {l : List ℝ}, (∀ x ∈ l, x ≤ 0) → l.sum ≤ 0
  | [], _ => by simp
  | x :: l, h => by
    rw [List.sum_cons]
    exact add_nonpos (h x List.mem_cons_self) (list_sum_nonpos fun y hy => h y (List.mem_cons_of_mem _ hy))

theorem applyStencil_nonpos {S : List ℝ × List ℝ} (hw : ∀ w ∈ S.2, 0 ≤ w) {f : ℝ → ℝ} (hf : ∀ u, f u ≤ 0) : applyStencil S f ≤ 0 := by
  unfold applyStencil
  refine list_sum_nonpos fun x hx => ?_
  obtain ⟨k, hk, rfl⟩ := List.mem_iff_getElem.1 hx
  rw [List.getElem_zipWith]
  exact mul_nonpos_of_nonneg_of_nonpos (hw _ (List.getElem_mem _)) (hf _)

theorem applyStencil_zero {S : List ℝ × List ℝ} {f : ℝ → ℝ} (hf : ∀ u ∈ S.1, f u = 0) : applyStencil S f = 0 := by
  unfold applyStencil
  refine List.sum_eq_zero fun x hx => ?_
  obtain ⟨k, hk, rfl⟩ := List.mem_iff_getElem.1 hx
  rw [List.getElem_zipWith, hf _ (List.getElem_mem _), mul_zero]

/-- **C123 (what holds with `use_in_transit`).** The entries of the light curve that `in_transit` skips are zero with derivatives zero, which are the true ones, if the solver of the
contact points is right and, for a circular orbit, the planet stays outside the star. -/
theorem C123_use_in_transit_partial (cp : ContactOp) (hl : PhysicalLaw u1 u2) (hop : op.Exact u1 u2) (hk : op.ExactKepler) (hq : m.Possible (ExpPar.orbit q))
    (ho : ∀ q, keplerianInit C (m.args q) = .ok (o q)) {order oversample : ℤ} (hn : 1 ≤ oversample) {S : List ℝ × List ℝ} (hS : stencil order oversample = .ok S)
    (hx : 0 ≤ q .texp) (hT : Tractable C cp (o (ExpPar.orbit q)) (q (.kep .r)) (q .texp)) {ts : List ℝ} {inds : List ℕ}
    (hin : inTransit cp [(o (ExpPar.orbit q), q (.kep .r))] ts (.scalar (q .texp)) = .ok inds) {i : ℕ} (h : i < ts.length)
    (hi : |(o (ExpPar.orbit q)).cos_incl| < 1) (hc : ∀ d ∈ S.1, OffCentre C (o (ExpPar.orbit q)) (q (.kep .r)) (ts[i] + q .texp * d)) :
    GradientRight op (Exposure.selectedG inds i (Exposure.averageG m S ts[i])) (averageFlux u1 u2 C o S ts[i]) q := by
  have hgr := C123_exposure_partial hl hop hk hq ho S ts[i] hi hc
  unfold Exposure.selectedG
  split_ifs with hs
  · exact hgr
  have horder : order = 0 ∨ order = 1 ∨ order = 2 := by
    by_contra hne
    push Not at hne
    exact absurd (hS.symm.trans (C38_bad_order order oversample hn hne)) nofun
  have hR : (o (ExpPar.orbit q)).r_star = q (.kep .r_star) := args_r_star (ho _)
  obtain ⟨S', hS', -, -, hoff, hw, -⟩ := C38_weights order oversample horder hn
  obtain rfl : S' = S := Except.ok.inj (hS'.symm.trans hS)
  obtain ⟨l, hl', hm⟩ := C22_exposure C cp [(o (ExpPar.orbit q), q (.kep .r))] (q .texp) hx (by simpa using hT) ts
  obtain rfl : l = inds := Except.ok.inj (hl'.symm.trans hin)
  have hzero : averageFlux u1 u2 C o S' ts[i] q = 0 := by
    refine applyStencil_zero fun u hu => fluxAt_zero hl.pos.ne' hq.r_star ?_
    rintro ⟨h1, h2⟩
    refine hs ((hm i).2 ⟨h, _, List.mem_singleton_self _, q .texp * u, ?_, ?_⟩)
    · rw [abs_mul, abs_of_nonneg hx]
      have : |u| ≤ 1 / 2 := abs_le.2 (hoff u hu)
      nlinarith
    · exact ⟨h1, by rw [hR]; exact h2.le⟩
  refine ⟨by rw [hzero]; rfl, fun j => ?_⟩
  obtain ⟨D, hD, -⟩ := hgr.2 j
  have hmax : IsLocalMax (fun s => averageFlux u1 u2 C o S' ts[i] (update q j s)) (q j) := by
    refine Filter.Eventually.of_forall fun s => ?_
    simp only [update_eq_self, hzero]
    exact applyStencil_nonpos (fun w hw' => (hw w hw').le) fun u => (C37_range _ _ _ _ _ hl).2
  have h0 := hmax.hasDerivAt_eq_zero hD
  exact ⟨D, hD, fun g => by rw [h0]; simp [Graph.back]⟩

/-! ## The centre of the star -/

/-- Where the planet is exactly in front of (or behind) the centre of the star, the derivatives that go through its position are NaN. -/
theorem lightCurveOf_centre {ι : Type} [DecidableEq ι] {P : KepPar → Graph ι} {w : Graph ι} {x : ι → ℝ} (hk : op.ExactKepler) (hP : ∀ p, (P p).Regular L op x) (hw : w.Regular L op x)
    (hq : m.Possible fun p => (P p).real L x) (hx : (m.x1G P w).real L x = 0) (hy : (m.yG P w).real L x = 0) {j : ι}
    (h : (m.x1G P w).back op (fun i => .fin (x i)) .nan j + (m.yG P w).back op (fun i => .fin (x i)) .nan j = .nan) (g : Fl) :
    (m.lightCurveOf P w).back op (fun i => .fin (x i)) g j = .nan := by
  obtain ⟨rx, ry⟩ := plane_regular (L := L) hk hP hw hq
  have vx := (C118_backprop op L x _ rx).1
  have vy := (C118_backprop op L x (m.yG P w) ⟨cosInclG_regular hP hq, ry⟩).1
  rw [hx] at vx
  rw [hy] at vy
  have hs : ((Fl.fin 0 ^ 2 + Fl.fin 0 ^ 2 : Fl)).sqrt = .fin 0 := by simp [Fl.sqrt]
  simp only [KepMode.lightCurveOf, fluxGraph, Graph.back, Graph.value, vx, vy, hs]
  rw [nan_of_zero, h]
  simp

theorem foldl_add_nan {ι : Type} [DecidableEq ι] {env : ι → Fl} {v : Fl} {j : ι} : ∀ (l : List (Graph ι)) (a : Graph ι),
    (a.back op env v j = .nan ∨ ∃ g ∈ l, g.back op env v j = .nan) → (l.foldl Graph.add a).back op env v j = .nan
  | [], a, h => by simpa using h
  | b :: l, a, h => by
    refine foldl_add_nan l _ ?_
    rcases h with h | ⟨g, hg, h⟩
    · exact Or.inl (by simp [Graph.back, h])
    · rcases List.mem_cons.1 hg with rfl | hg
      · exact Or.inl (by simp [Graph.back, h])
      · exact Or.inr ⟨g, hg, h⟩

/-- **C123 (what exact arithmetic does at the centre).** If at one of the samples of the exposure the planet is exactly in front of the centre of the star (or behind it), the computed derivatives
of the average are NaN; for circular orbits also that with respect to the exposure time. -/
theorem C123_centre (hk : op.ExactKepler) (hq : m.Possible (ExpPar.orbit q)) {o : Orbit} (h : keplerianInit C (m.args (ExpPar.orbit q)) = .ok o)
    {order oversample : ℤ} (horder : order = 0 ∨ order = 1 ∨ order = 2) (hn : 1 ≤ oversample) {S : List ℝ × List ℝ} (hS : stencil order oversample = .ok S) {t d : ℝ} (hd : d ∈ S.1)
    (hx : (o.relativePosition C (t + q .texp * d)).x = 0) (hy : (o.relativePosition C (t + q .texp * d)).y = 0) (g : Fl) {j : ExpPar}
    (hj : j = .kep .a ∨ j = .kep .b ∨ j = .kep .r_star ∨ (m = .circular ∧ (j = .kep .period ∨ j = .kep .t0 ∨ j = .texp))) :
    (Exposure.averageG m S t).back op (fun i => .fin (q i)) g j = .nan := by
  set L : ℝ → ℝ → ℝ := fun _ _ => 0
  obtain ⟨hp, -⟩ := keplerGraph_real h L (t + q .texp * d)
  rw [hp] at hx hy
  obtain ⟨S', hS', -, hlen, -⟩ := C38_weights order oversample horder hn
  obtain rfl : S' = S := Except.ok.inj (hS'.symm.trans hS)
  obtain ⟨k, hk1, rfl⟩ := List.mem_iff_getElem.1 hd
  have hk2 : k < S'.2.length := by rw [hlen]; exact hk1
  refine foldl_add_nan _ _ (Or.inr ⟨_, List.getElem_mem (n := k) (by rw [List.length_zipWith]; exact lt_min hk1 hk2), ?_⟩)
  rw [List.getElem_zipWith]
  have key : (m.x1G (fun p => .input (.kep p)) (Exposure.clock t S'.1[k])).back op (fun i => .fin (q i)) .nan j +
      (m.yG (fun p => .input (.kep p)) (Exposure.clock t S'.1[k])).back op (fun i => .fin (q i)) .nan j = .nan := by
    rcases hj with rfl | rfl | rfl | ⟨rfl, rfl | rfl | rfl⟩
    · cases m <;> simp [KepMode.x1G, KepMode.radiusG, Graph.back]
    · simp [KepMode.yG, KepMode.cosInclG, Graph.back]
    · simp [KepMode.yG, KepMode.cosInclG, Graph.back]
    · simp [KepMode.x1G, KepMode.cosfG, KepMode.anomalyG, Exposure.clock, KepMode.nG, Graph.back]
    · simp [KepMode.x1G, KepMode.cosfG, KepMode.anomalyG, Exposure.clock, KepMode.nG, Graph.back]
    · simp [KepMode.x1G, KepMode.cosfG, KepMode.anomalyG, Exposure.clock, KepMode.nG, Graph.back]
  have hnan := lightCurveOf_centre (L := L) hk (P := fun p => .input (.kep p)) (w := Exposure.clock t S'.1[k]) (x := q) (fun _ => trivial)
    ⟨⟨trivial, trivial, trivial⟩, trivial⟩ hq (by cases m <;> exact hx) (by cases m <;> exact hy) key
  simp [Exposure.sampleG, Graph.back, hnan]

/-! ## Examples -/

/-- The orbits of `demoKep` with an exposure time. -/
noncomputable def demoExp (b : ℝ) : ExpPar → ℝ
  | .kep p => demoKep b 1 p
  | .texp => 0.1

theorem demoExp_position {b : ℝ} {o : Orbit} (h : keplerianInit C (KepMode.circular.args (ExpPar.orbit (demoExp b))) = .ok o) (t : ℝ) :
    o.relativePosition C t = ⟨10 * sin (π / 5 * t), -b * cos (π / 5 * t), 10 * sin (arccos (b / 10)) * cos (π / 5 * t)⟩ ∧ o.cos_incl = b / 10 := by
  obtain ⟨hp, hci⟩ := keplerGraph_real h (fun _ _ => 0) t
  have hM : (KepMode.circular.anomalyG .input (KepMode.clock t)).real (fun _ _ => 0) (ExpPar.orbit (demoExp b)) = π / 5 * t + π / 2 := by
    simp only [KepMode.anomalyG, KepMode.clock, KepMode.M0G, KepMode.nG, Graph.real, ExpPar.orbit, demoExp, demoKep]
    have := pi_pos.ne'
    field_simp
    norm_num
    ring
  rw [hp, hci]
  simp only [KepMode.x1G, KepMode.yG, KepMode.zG, KepMode.y1G, KepMode.cosfG, KepMode.sinfG, KepMode.radiusG, KepMode.sinInclG, KepMode.cosInclG,
    KepMode.inclFactorG, Graph.real, hM, sin_add_pi_div_two, cos_add_pi_div_two]
  simp only [ExpPar.orbit, demoExp, demoKep]
  rw [show (1 * 1 / 10 * b : ℝ) = b / 10 by ring]
  refine ⟨?_, rfl⟩
  congr 1 <;> ring

theorem demoExp_offCentre {o : Orbit} (h : keplerianInit C (KepMode.circular.args (ExpPar.orbit (demoExp 0.5))) = .ok o) {r t : ℝ} (ht : |t| < 2.5) : OffCentre C o r t := by
  have ha := abs_lt.1 ht
  have hcos : 0 < cos (π / 5 * t) := by
    apply cos_pos_of_mem_Ioo
    constructor <;> nlinarith [pi_pos]
  unfold OffCentre
  rw [(demoExp_position h _).1, sin_arccos]
  exact ⟨Or.inr (mul_neg_of_neg_of_pos (by norm_num) hcos).ne, Or.inl (mul_pos (mul_pos (by norm_num) (sqrt_pos.2 (by norm_num))) hcos).ne'⟩

/-- The hypotheses of `C123_exposure_partial` can be met: `b = 0.5`, in the middle of the transit, seven samples. -/
example (ho : ∀ q, keplerianInit C (KepMode.circular.args q) = .ok (o q)) (hl : PhysicalLaw 0.3 0.2) :
    ∃ S, stencil 0 7 = .ok S ∧ GradientRight (exactOp 0.3 0.2) (Exposure.averageG .circular S 0) (averageFlux 0.3 0.2 C o S 0) (demoExp 0.5) := by
  obtain ⟨S, hS, -, -, hoff, -⟩ := C38_weights 0 7 (Or.inl rfl) (by norm_num)
  refine ⟨S, hS, C123_exposure_partial hl (exactOp_exact _ _).1 (exactOp_exact _ _).2 (demoKep_possible _ _) ho S 0 ?_ fun d hd => ?_⟩
  · rw [(demoExp_position (ho _) 0).2]
    norm_num
  · have := hoff d hd
    exact demoExp_offCentre (ho _) (by simp only [demoExp]; rw [abs_lt]; constructor <;> linarith)

theorem demoExp_tractable (cp : ContactOp) (x : ℝ) {o : Orbit} (h : keplerianInit C (KepMode.circular.args (ExpPar.orbit (demoExp 0.5))) = .ok o) :
    Tractable C cp o (demoExp 0.5 (.kep .r)) x := by
  have hG := C.G_pos
  have hg := C.gccPerSun_pos
  have hpi := pi_pos
  have hi := (demoExp_position h 0).2
  have hs : 0 < o.sin_incl := by
    have : o.sin_incl = sin (arccos o.cos_incl) := by obtain rfl := Except.ok.inj h; rfl
    rw [this, hi, sin_arccos]
    exact sqrt_pos.2 (by norm_num)
  refine ⟨⟨_, h⟩, ?_, by norm_num [demoExp, demoKep], ?_⟩
  · have hc : |o.cos_incl| ≤ 1 := by rw [hi]; norm_num
    obtain rfl := Except.ok.inj h
    refine ⟨?_, ?_, ?_, ?_, ?_, ?_, ?_, ?_, ?_, hc⟩ <;> simp [ExpPar.orbit, demoExp, demoKep] <;> try positivity
  · have he : o.ecc = none := by obtain rfl := Except.ok.inj h; rfl
    have ha : o.a = 10 := by obtain rfl := Except.ok.inj h; rfl
    have hR : o.r_star = 1 := by obtain rfl := Except.ok.inj h; rfl
    rw [he]
    exact ⟨hs, by rw [ha, hR]; norm_num [demoExp, demoKep]⟩

/-- The hypotheses of `C123_use_in_transit_partial` can be met: two exposures, one in the transit and one not. -/
example (cp : ContactOp) (ho : ∀ q, keplerianInit C (KepMode.circular.args q) = .ok (o q)) (hl : PhysicalLaw 0.3 0.2) {inds : List ℕ}
    (h : inTransit cp [(o (ExpPar.orbit (demoExp 0.5)), 0.1)] [0, 2] (.scalar 0.1) = .ok inds) : ∃ S, stencil 0 7 = .ok S ∧ ∀ i, (hi : i < 2) →
    GradientRight (exactOp 0.3 0.2) (Exposure.selectedG inds i (Exposure.averageG .circular S ([0, 2][i]'hi))) (averageFlux 0.3 0.2 C o S ([0, 2][i]'hi)) (demoExp 0.5) := by
  obtain ⟨S, hS, -, -, hoff, -⟩ := C38_weights 0 7 (Or.inl rfl) (by norm_num)
  refine ⟨S, hS, fun i hi => C123_use_in_transit_partial cp hl (exactOp_exact _ _).1 (exactOp_exact _ _).2 (demoKep_possible _ _) ho (by norm_num) hS (by norm_num [demoExp])
    (demoExp_tractable cp _ (ho _)) h hi ?_ fun d hd => demoExp_offCentre (ho _) ?_⟩
  · rw [(demoExp_position (ho _) 0).2]
    norm_num
  · have := hoff d hd
    interval_cases i <;> simp only [demoExp, List.getElem_cons_zero, List.getElem_cons_succ] <;> rw [abs_lt] <;> constructor <;> linarith

/-- Concrete violation of C123: `KeplerianOrbit(a=10, period=10, t0=0, b=0, r_star=1)` at `t = 0` with `texp=0.1, oversample=1`: the average has derivatives with respect to all parameters, those
computed with exact operations are NaN, also that with respect to the exposure time, which is zero. -/
theorem C123_counterexample (hl : PhysicalLaw u1 u2) (ho : ∀ q, keplerianInit C (KepMode.circular.args q) = .ok (o q)) :
    ∃ q : ExpPar → ℝ, ∃ S, stencil 0 1 = .ok S ∧ KepMode.circular.Possible (ExpPar.orbit q) ∧ q .texp = 0.1 ∧
    (∀ j, ∃ D, HasDerivAt (fun s => averageFlux u1 u2 C o S 0 (update q j s)) D (q j)) ∧ HasDerivAt (fun s => averageFlux u1 u2 C o S 0 (update q .texp s)) 0 (q .texp) ∧
    ∀ op : FlOp, op.ExactKepler → ∀ (g : Fl) (j : ExpPar), j = .kep .a ∨ j = .kep .period ∨ j = .kep .t0 ∨ j = .kep .b ∨ j = .kep .r_star ∨ j = .texp →
      (Exposure.averageG .circular S 0).back op (fun i => .fin (q i)) g j = .nan := by
  have hS : stencil 0 1 = .ok ([0], [1]) := by
    have := stencil_zero (oversample := 1) (m := 0) rfl
    rw [this]
    norm_num [midOffset]
  have hpos := demoExp_position (b := 0) (ho _) 0
  have hf : ∀ q, averageFlux u1 u2 C o ([0], [1]) 0 q = fluxAt (getCl u1 u2) (q (.kep .r_star)) (q (.kep .r)) ((o (ExpPar.orbit q)).relativePosition C 0) := by
    intro q
    simp [averageFlux, exposureAverage]
  have htexp : HasDerivAt (fun s => averageFlux u1 u2 C o ([0], [1]) 0 (update (demoExp 0) .texp s)) 0 (demoExp 0 .texp) := by
    have e : (fun s => averageFlux u1 u2 C o ([0], [1]) 0 (update (demoExp 0) .texp s)) = fun _ => averageFlux u1 u2 C o ([0], [1]) 0 (demoExp 0) := by
      funext s
      rw [hf, hf]
      rfl
    rw [e]
    exact hasDerivAt_const _ _
  refine ⟨demoExp 0, _, hS, demoKep_possible _ _, rfl, fun j => ?_, htexp, fun op hk g j hj => ?_⟩
  · cases j with
    | texp => exact ⟨0, htexp⟩
    | kep p =>
      obtain ⟨D, hD⟩ := C121_differentiable (q := ExpPar.orbit (demoExp 0)) hl (demoKep_possible _ _) o ho 0 (by rw [hpos.2]; norm_num)
        (by rintro ⟨-, -, h⟩; norm_num [ExpPar.orbit, demoExp, demoKep] at h) (by rw [hpos.1]; norm_num) p
      refine ⟨D, ?_⟩
      have e : ∀ s, ExpPar.orbit (update (demoExp 0) (.kep p) s) = update (ExpPar.orbit (demoExp 0)) p s := by
        intro s
        funext p'
        by_cases h : p' = p
        · subst h; simp [ExpPar.orbit]
        · simp [ExpPar.orbit, h]
      simp only [hf, e]
      simp only [← e] at hD ⊢
      exact hD
  · refine C123_centre hk (demoKep_possible _ _) (ho (ExpPar.orbit (demoExp 0))) (Or.inl rfl) (by norm_num) hS (List.mem_singleton_self 0) ?_ ?_ g ?_
    · rw [(demoExp_position (ho _) _).1]; simp
    · rw [(demoExp_position (ho _) _).1]; simp
    · rcases hj with rfl | rfl | rfl | rfl | rfl | rfl <;> simp

end
end Exo
