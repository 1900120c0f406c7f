import Verif.Spec.BackpropInterp
import Verif.Props.BackpropExposure
import Verif.Props.BackpropStar
import Verif.Props.Interpolated

/-!
# C128: gradients of interpolated light curves as the compiled graph computes them
-/

namespace Exo
open Real Function Topology

variable {m : KepMode} {q : KepPar → ℝ} {op : FlOp} {L : ℝ → ℝ → ℝ} {C : Consts} {n : ℕ} {u1 u2 t : ℝ} {o : (KepPar → ℝ) → Orbit} {F : (KepPar → ℝ) → ℝ} {cp : ContactOp}

/-! ## The graph stands for the model -/

theorem dxG_real (n : ℕ) (q : KepPar → ℝ) : (Interp.dxG n).real L q = q .period / (n + 1) := by
  simp [Interp.dxG, Interp.mxG, Interp.mnG, Graph.real]

theorem xpG_real (n k : ℕ) (q : KepPar → ℝ) : (Interp.xpG n k).real L q = nodeTime q n (k - 1) := by
  have h := dxG_real (L := L) n q
  simp only [Interp.xpG, Graph.real, h, nodeTime, Interp.mnG]
  push_cast
  ring

theorem cellG_real (n : ℕ) (t : ℝ) (q : KepPar → ℝ) : (Interp.cellG n t).real L q = pymod (t - q .t0) (q .period) / (q .period / (n + 1)) := by
  have h := dxG_real (L := L) n q
  simp [Interp.cellG, Interp.xG, Interp.mnG, Graph.real, h]

/-- Outside of the grid the index is not used. -/
theorem cell_range (hP : 0 < q .period) : 0 ≤ (Interp.cellG n t).real L q ∧ (Interp.cellG n t).real L q < n + 1 := by
  rw [cellG_real]
  have hn : (0 : ℝ) < n + 1 := by positivity
  have h1 := pymod_nonneg (x := t - q .t0) hP
  have h2 := pymod_lt (x := t - q .t0) hP
  refine ⟨by positivity, ?_⟩
  rw [div_lt_iff₀ (by positivity), mul_div_cancel₀ _ hn.ne']
  exact h2

theorem index_real {l : ℕ} (f : ℕ → Graph KepPar) {x : Graph KepPar} (h0 : 0 ≤ x.real L q) (h1 : x.real L q < l) :
    (Graph.index (fun i : Fin l => f i) x).real L q = (f ⌊x.real L q⌋.toNat).real L q := by
  have h : ⌊x.real L q⌋.toNat < l := by
    have h2 : ⌊x.real L q⌋ < (l : ℤ) := Int.floor_lt.2 (by exact_mod_cast h1)
    have h3 := Int.floor_nonneg.2 h0
    omega
  simp only [Graph.real, dif_pos (And.intro h0 h)]

/-- The base light curve. -/
noncomputable def baseFlux (u1 u2 : ℝ) (C : Consts) (o : (KepPar → ℝ) → Orbit) (q : KepPar → ℝ) (s : ℝ) : ℝ :=
  fluxAt (getCl u1 u2) (q .r_star) (q .r) ((o q).relativePosition C s)

theorem ypG_real (ho : ∀ q, keplerianInit C (m.args q) = .ok (o q)) (k : ℕ) (q : KepPar → ℝ) :
    (Interp.ypG m n k).real (quadLimbdarkLightCurve (getCl u1 u2)) q = baseFlux u1 u2 C o q (nodeTime q n (k - 1)) := by
  have h : (Interp.ypG m n k).real (quadLimbdarkLightCurve (getCl u1 u2)) q = (m.lightCurveG (nodeTime q n (k - 1))).real (quadLimbdarkLightCurve (getCl u1 u2)) q := by
    rw [← xpG_real (L := quadLimbdarkLightCurve (getCl u1 u2))]
    cases m <;> rfl
  rw [h, baseFlux, (keplerGraph_real (ho q) (quadLimbdarkLightCurve (getCl u1 u2)) _).1]
  exact lightCurveOf_real u1 u2

theorem interpG_real (ho : ∀ q, keplerianInit C (m.args q) = .ok (o q)) (hP : 0 < q .period) :
    (Interp.interpG m n t).real (quadLimbdarkLightCurve (getCl u1 u2)) q = interpolant (baseFlux u1 u2 C o q) (q .t0) (q .period) (q .period / (n + 1)) t := by
  set L := quadLimbdarkLightCurve (getCl u1 u2) with hL
  obtain ⟨h0, h1⟩ := cell_range (L := L) (n := n) (t := t) hP
  have hn : (0 : ℝ) < n + 1 := by positivity
  have hx : (Interp.x0G n t).real L q = (Interp.cellG n t).real L q - ⌊(Interp.cellG n t).real L q⌋ := by
    have hi := index_real (L := L) (l := n + 4) (fun k => Interp.xpG n (k + 1)) h0 (by push_cast; linarith)
    have hd := dxG_real (L := L) n q
    have hxg : (Interp.xG t).real L q = pymod (t - q .t0) (q .period) + q .t0 := rfl
    have hf : ((⌊(Interp.cellG n t).real L q⌋.toNat : ℤ) : ℝ) = ⌊(Interp.cellG n t).real L q⌋ := by
      rw [Int.toNat_of_nonneg (Int.floor_nonneg.2 h0)]
    have hi' : (Graph.index (fun i : Fin (n + 4) => Interp.xpG n (i + 1)) (Interp.cellG n t)).real L q = nodeTime q n ⌊(Interp.cellG n t).real L q⌋ := by
      rw [hi, xpG_real]
      simp only [nodeTime]
      rw [← hf]
      push_cast
      ring
    rw [Interp.x0G, Graph.real, Graph.real, hd, hi', hxg, nodeTime]
    have hc := cellG_real (L := L) n t q
    have : pymod (t - q .t0) (q .period) = (Interp.cellG n t).real L q * (q .period / (n + 1)) := by
      rw [hc]; field_simp
    rw [this]
    field_simp
    ring
  have hk : ∀ f : ℕ → Graph KepPar, (Graph.index (fun i : Fin (n + 2) => f i) (Interp.cellG n t)).real L q = (f ⌊(Interp.cellG n t).real L q⌋.toNat).real L q :=
    fun f => index_real f h0 (by push_cast; linarith)
  have hy : ∀ k : ℕ, (Interp.ypG m n k).real L q = baseFlux u1 u2 C o q (q .t0 + ((k - 1 : ℤ) : ℝ) * (q .period / (n + 1))) := fun k => ypG_real ho k q
  rw [interpolant, ← cellG_real (L := L)]
  generalize hc : (Interp.cellG n t).real L q = c at *
  simp only [Interp.interpG, Graph.real.eq_3, Graph.real.eq_5, Graph.real.eq_8, hk, hx]
  obtain ⟨i, hi⟩ : ∃ i : ℕ, ⌊c⌋ = i := ⟨⌊c⌋.toNat, (Int.toNat_of_nonneg (Int.floor_nonneg.2 h0)).symm⟩
  rw [hi, Int.toNat_natCast]
  simp only [Interp.a0G, Interp.a1G, Interp.a2G, Interp.a3G, Graph.real.eq_2, Graph.real.eq_3, Graph.real.eq_4, Graph.real.eq_5, Graph.real.eq_6, Graph.real.eq_7, hy, cellValue]
  have e0 : ((i : ℕ) - 1 : ℤ) = (i : ℤ) - 1 := rfl
  have e1 : ((i + 1 : ℕ) - 1 : ℤ) = (i : ℤ) := by push_cast; ring
  have e2 : ((i + 2 : ℕ) - 1 : ℤ) = (i : ℤ) + 1 := by push_cast; ring
  have e3 : ((i + 3 : ℕ) - 1 : ℤ) = (i : ℤ) + 2 := by push_cast; ring
  rw [e1, e2, e3]

/-- **C128 (the graph stands for the model).** -/
theorem interpolatedFlux_eq (ho : ∀ q, keplerianInit C (m.args q) = .ok (o q)) (hF : InterpolatedFlux C cp u1 u2 n o t F) (hP : 0 < q .period) :
    F q = interpolant (baseFlux u1 u2 C o q) (q .t0) (q .period) (q .period / (n + 1)) t := by
  obtain ⟨Lc, h1, h2⟩ := hF q hP
  have hR := args_r_star (ho q)
  have ht : (o q).t0 = q .t0 := by
    have := ho q
    generalize o q = o' at this
    cases m <;> (obtain rfl := Except.ok.inj this; rfl)
  have hp : (o q).period = q .period := by
    have := ho q
    generalize o q = o' at this
    cases m <;> (obtain rfl := Except.ok.inj this; rfl)
  have hbase := C43_base (LimbDark.new u1 u2) (keplerApi C cp [o q] (o q).r_star) false _ rfl (Tensor.scalar (q .r)) rfl 7 0
  rw [ht, hp] at h1
  unfold interpolatedLightCurve at h1
  simp only [numPlanets, le_refl, if_true] at h1
  rw [interpColumn_eq hbase Nat.one_pos n hP [t]] at h1
  simp only [Except.ok.injEq] at h1
  subst h1
  rw [← h2]
  simp only [List.map_cons, List.map_nil, List.headD_cons, List.getD_cons_zero, Nat.cast_add, Nat.cast_one]
  unfold baseFlux
  rw [← hR]
  rfl

/-! ## What holds -/

theorem dxG_regular : (Interp.dxG n).Regular L op q := ⟨⟨⟨trivial, trivial⟩, trivial⟩, trivial, by simp only [Graph.real]; positivity⟩

theorem xpG_regular (k : ℕ) : (Interp.xpG n k).Regular L op q := ⟨⟨trivial, dxG_regular⟩, trivial, dxG_regular⟩

/-- The time is not one of the grid. -/
theorem cellG_regular (hP : 0 < q .period) (ht : ∀ k : ℤ, t ≠ nodeTime q n k) :
    (Interp.xG t).Regular L op q ∧ (Interp.cellG n t).Regular L op q ∧ 0 < (Interp.cellG n t).real L q ∧ ∀ k : ℤ, (Interp.cellG n t).real L q ≠ k := by
  have hn : (0 : ℝ) < n + 1 := by positivity
  have hx : (Interp.xG t).Regular L op q := by
    refine ⟨⟨⟨trivial, trivial⟩, trivial, hP.ne', fun k h => ht (k * (n + 1)) ?_⟩, trivial⟩
    simp only [Graph.real] at h
    rw [nodeTime]
    push_cast
    rw [mul_assoc, mul_div_cancel₀ _ hn.ne']
    linarith
  have hk : ∀ k : ℤ, (Interp.cellG n t).real L q ≠ k := by
    intro k h
    rw [cellG_real, div_eq_iff (by positivity)] at h
    obtain ⟨i, hi⟩ := pymod_spec (t - q .t0) (q .period)
    refine ht (k + i * (n + 1)) ?_
    rw [nodeTime]
    push_cast
    rw [add_mul, mul_assoc, mul_div_cancel₀ _ hn.ne']
    linarith
  refine ⟨hx, ⟨⟨hx, trivial⟩, dxG_regular, ?_⟩, lt_of_le_of_ne (cell_range hP).1 fun h => hk 0 (by rw [← h]; simp), hk⟩
  rw [dxG_real]
  positivity

theorem interpG_regular (hP : 0 < q .period) (ht : ∀ k : ℤ, t ≠ nodeTime q n k) (hy : ∀ k < n + 5, (Interp.ypG m n k).Regular L op q) : (Interp.interpG m n t).Regular L op q := by
  obtain ⟨hx, hc, h0, hk⟩ := cellG_regular (L := L) (op := op) hP ht
  have h1 := (cell_range (L := L) (n := n) (t := t) hP).2
  have hi : ∀ (l : ℕ) (f : ℕ → Graph KepPar), n + 2 ≤ l → (∀ i < l, (f i).Regular L op q) → (Graph.index (fun i : Fin l => f i) (Interp.cellG n t)).Regular L op q := by
    intro l f hl hf
    refine ⟨fun i => hf i i.2, hc, h0, h1.trans ?_, hk⟩
    have : ((n + 2 : ℕ) : ℝ) ≤ l := by exact_mod_cast hl
    push_cast at this
    linarith
  have hx0 : (Interp.x0G n t).Regular L op q := by
    refine ⟨⟨hx, hi (n + 4) (fun k => Interp.xpG n (k + 1)) (by omega) fun i _ => xpG_regular _⟩, dxG_regular, ?_⟩
    rw [dxG_real]
    positivity
  have h3 : (3 : ℝ) ≠ 0 := by norm_num
  have h6 : (6 : ℝ) ≠ 0 := by norm_num
  refine ⟨⟨⟨hi _ (fun k => Interp.a0G m n k) le_rfl fun i h => hy _ (by omega), hi _ (fun k => Interp.a1G m n k) le_rfl fun i h => ?_, hx0⟩,
    hi _ (fun k => Interp.a2G m n k) le_rfl fun i h => ?_, hx0⟩, hi _ (fun k => Interp.a3G m n k) le_rfl fun i h => ?_, hx0⟩
  · exact ⟨⟨⟨⟨hy _ (by omega), trivial, h3⟩, trivial, hy _ (by omega)⟩, hy _ (by omega)⟩, hy _ (by omega), trivial, h6⟩
  · exact ⟨⟨trivial, hy _ (by omega), hy _ (by omega)⟩, hy _ (by omega)⟩
  · exact ⟨trivial, ⟨hy _ (by omega), hy _ (by omega)⟩, ⟨hy _ (by omega), hy _ (by omega)⟩, trivial, h3⟩

theorem nodeClock_regular (k : ℕ) : (Graph.sub (Interp.xpG n k) (.input .t0)).Regular L op q := ⟨xpG_regular k, trivial⟩

theorem node_real (ho : keplerianInit C (m.args q) = .ok (o q)) (L : ℝ → ℝ → ℝ) (k : ℕ) :
    (o q).relativePosition C (nodeTime q n (k - 1)) = ⟨(m.x1G .input (.sub (Interp.xpG n k) (.input .t0))).real L q, (m.yG .input (.sub (Interp.xpG n k) (.input .t0))).real L q,
      (m.zG .input (.sub (Interp.xpG n k) (.input .t0))).real L q⟩ := by
  rw [(keplerGraph_real ho L _).1, ← xpG_real (L := L)]
  cases m <;> rfl

/-- The derivatives agree where the period is positive. -/
theorem interpolated_derivative (ho : ∀ q, keplerianInit C (m.args q) = .ok (o q)) (hF : InterpolatedFlux C cp u1 u2 n o t F) (hP : 0 < q .period) {j : KepPar} {D : ℝ}
    (hD : HasDerivAt (fun s => (Interp.interpG m n t).real (quadLimbdarkLightCurve (getCl u1 u2)) (update q j s)) D (q j)) :
    HasDerivAt (fun s => F (update q j s)) D (q j) := by
  refine hD.congr_of_eventuallyEq ?_
  have hc : ContinuousAt (fun s => update q j s .period) (q j) := by
    have : Continuous (fun s => update q j s) := continuous_const.update j continuous_id
    exact ((continuous_apply KepPar.period).comp this).continuousAt
  filter_upwards [hc.eventually (lt_mem_nhds (a := 0) (by simpa using hP))] with s hs
  rw [interpolatedFlux_eq ho hF hs, interpG_real ho hs]

/-- **C128 (what holds).** With exact operations an interpolated light curve and its computed derivatives with respect to all parameters are the true ones, unless the time is one of the grid,
or at one of the times of the grid the planet is exactly in front of (or behind) the centre of the star or grazes it in the plane of the sky, or the orbit is seen face-on. -/
theorem C128_interpolated_partial (hl : PhysicalLaw u1 u2) (hop : op.Exact u1 u2) (hk : op.ExactKepler) (hq : m.Possible q) (ho : ∀ q, keplerianInit C (m.args q) = .ok (o q))
    (hF : InterpolatedFlux C cp u1 u2 n o t F) (hi : |(o q).cos_incl| < 1) (ht : ∀ k : ℤ, t ≠ nodeTime q n k)
    (hc : ∀ k : ℤ, -1 ≤ k → k ≤ n + 3 → OffCentre C (o q) (q .r) (nodeTime q n k)) : GradientRight op (Interp.interpG m n t) F q := by
  set L := quadLimbdarkLightCurve (getCl u1 u2) with hL
  rw [(keplerGraph_real (ho q) L 0).2] at hi
  have hreg : (Interp.interpG m n t).Regular L op q := by
    refine interpG_regular hq.period ht fun k hk' => ?_
    have h := hc (k - 1) (by omega) (by omega)
    unfold OffCentre at h
    rw [node_real (ho q) L k, args_r_star (ho q)] at h
    exact lightCurve_regular hl hop hk input_regular (nodeClock_regular k) hq hi h.1 h.2
  obtain ⟨g1, g2⟩ := C118_backprop op L q _ hreg
  refine ⟨g1.trans (congrArg Fl.fin ?_), fun j => ?_⟩
  · rw [interpolatedFlux_eq ho hF hq.period, interpG_real ho hq.period]
  · obtain ⟨D, hD, hg⟩ := g2 j
    exact ⟨D, interpolated_derivative ho hF hq.period hD, hg⟩

/-- The positions of a circular orbit. -/
theorem circular_position {o : Orbit} (h : keplerianInit C (KepMode.circular.args q) = .ok o) (hP : q .period ≠ 0) (s : ℝ) :
    o.relativePosition C s = ⟨q .a * sin (2 * π / q .period * (s - q .t0)), -(o.cos_incl * (q .a * cos (2 * π / q .period * (s - q .t0)))),
      sin (arccos o.cos_incl) * (q .a * cos (2 * π / q .period * (s - q .t0)))⟩ ∧ o.cos_incl = q .r_star / q .a * q .b := by
  obtain ⟨hp, hci⟩ := keplerGraph_real h (fun _ _ => 0) s
  have hM : (KepMode.circular.anomalyG .input (KepMode.clock s)).real (fun _ _ => 0) q = 2 * π / q .period * (s - q .t0) + π / 2 := by
    simp only [KepMode.anomalyG, KepMode.clock, KepMode.M0G, KepMode.nG, Graph.real]
    have := pi_pos.ne'
    field_simp
    norm_num
    ring
  rw [hp, hci]
  simp only [KepMode.x1G, KepMode.yG, KepMode.zG, KepMode.y1G, KepMode.cosfG, KepMode.sinfG, KepMode.radiusG, KepMode.sinInclG, KepMode.cosInclG,
    KepMode.inclFactorG, Graph.real, hM, sin_add_pi_div_two, cos_add_pi_div_two, one_mul]
  refine ⟨?_, trivial⟩
  congr 1 <;> ring

/-- **C128 (circular orbits).** For a circular orbit outside of the star all that is needed is that the transit is not central, and the time not one of the grid. -/
theorem C128_circular_partial (hl : PhysicalLaw u1 u2) (hop : op.Exact u1 u2) (hk : op.ExactKepler) (hq : KepMode.circular.Possible q)
    (ho : ∀ q, keplerianInit C (KepMode.circular.args q) = .ok (o q)) (hF : InterpolatedFlux C cp u1 u2 n o t F) (hi : |(o q).cos_incl| < 1) (hb : q .b ≠ 0)
    (ha : q .r_star + q .r < q .a) (ht : ∀ k : ℤ, t ≠ nodeTime q n k) : GradientRight op (Interp.interpG .circular n t) F q := by
  refine C128_interpolated_partial hl hop hk hq ho hF hi ht fun k _ _ => ?_
  obtain ⟨hp, hci⟩ := circular_position (ho q) hq.period.ne' (nodeTime q n k)
  have ha0 := hq.a
  have hc0 : (o q).cos_incl ≠ 0 := by
    rw [hci]
    exact mul_ne_zero (div_pos hq.r_star ha0).ne' hb
  have hs0 : sin (arccos (o q).cos_incl) ≠ 0 := by
    rw [sin_arccos]
    have := (sq_lt_one_iff_abs_lt_one _).2 hi
    exact (sqrt_pos.2 (by linarith)).ne'
  unfold OffCentre Clear
  rw [hp, args_r_star (ho q)]
  set φ := 2 * π / q .period * (nodeTime q n k - q .t0)
  by_cases hcos : cos φ = 0
  · have hsin : sin φ ^ 2 = 1 := by have := sin_sq_add_cos_sq φ; rw [hcos] at this; linarith
    have hne : sin φ ≠ 0 := fun h => by rw [h] at hsin; norm_num at hsin
    refine ⟨Or.inl (mul_ne_zero ha0.ne' hne), Or.inr ?_⟩
    simp only [hcos]
    rw [show (q .a * sin φ) ^ 2 + (-((o q).cos_incl * (q .a * 0))) ^ 2 = q .a ^ 2 by rw [mul_pow, hsin]; ring, sqrt_sq ha0.le]
    exact ha
  · exact ⟨Or.inr (neg_ne_zero.2 (mul_ne_zero hc0 (mul_ne_zero ha0.ne' hcos))), Or.inl (mul_ne_zero hs0 (mul_ne_zero ha0.ne' hcos))⟩

/-! ## Central transits -/

theorem sum_nan : ∀ {l : List Fl} {a : Fl}, (a = .nan ∨ .nan ∈ l) → l.foldl (· + ·) a = .nan
  | [], a, h => by simpa using h
  | b :: l, a, h => by
    refine sum_nan (l := l) ?_
    rcases h with rfl | h
    · exact Or.inl (by simp)
    · rcases List.mem_cons.1 h with h | h
      · exact Or.inl (by simp [← h])
      · exact Or.inr h

/-- **C128 (what exact arithmetic does with central transits).** If at one of the times of the grid the planet is exactly in front of the centre of the star (or behind it), the computed derivatives of the
interpolated light curve are NaN at *all* times, far away from the transit as well. -/
theorem C128_centre (hk : op.ExactKepler) (hq : m.Possible q) {o : Orbit} (h : keplerianInit C (m.args q) = .ok o) {k : ℤ} (hk0 : 0 ≤ k) (hkn : k ≤ n + 1)
    (hx : (o.relativePosition C (nodeTime q n k)).x = 0) (hy : (o.relativePosition C (nodeTime q n k)).y = 0) (t : ℝ) (g : Fl) {j : KepPar}
    (hj : j = .a ∨ j = .b ∨ j = .r_star ∨ (m = .circular ∧ (j = .period ∨ j = .t0))) :
    (Interp.interpG m n t).back op (fun i => .fin (q i)) g j = .nan := by
  set L : ℝ → ℝ → ℝ := fun _ _ => 0
  obtain ⟨i, rfl⟩ := Int.eq_ofNat_of_zero_le hk0
  have hi : i < n + 2 := by omega
  have hpos := node_real (o := fun _ => o) (n := n) h L (i + 1)
  have e : (((i + 1 : ℕ) : ℤ) - 1) = (i : ℤ) := by push_cast; ring
  rw [e] at hpos
  rw [hpos] at hx hy
  have key : (m.x1G .input (.sub (Interp.xpG n (i + 1)) (.input .t0))).back op (fun i => .fin (q i)) .nan j +
      (m.yG .input (.sub (Interp.xpG n (i + 1)) (.input .t0))).back op (fun i => .fin (q i)) .nan j = .nan := by
    rcases hj with rfl | rfl | rfl | ⟨rfl, rfl | rfl⟩
    · cases m <;> simp [KepMode.x1G, KepMode.radiusG, Graph.back]
    · simp [KepMode.yG, KepMode.cosInclG, Graph.back]
    · simp [KepMode.yG, KepMode.cosInclG, Graph.back]
    · simp [KepMode.x1G, KepMode.cosfG, KepMode.anomalyG, KepMode.nG, Graph.back]
    · simp [KepMode.x1G, KepMode.cosfG, KepMode.anomalyG, Graph.back]
  have hnan := lightCurveOf_centre (L := L) hk (P := .input) (x := q) input_regular (nodeClock_regular (n := n) (i + 1)) hq hx hy key
  have h0 : ∀ g : Fl, (Graph.index (fun i : Fin (n + 2) => Interp.a0G m n i) (Interp.cellG n t)).back op (fun i => .fin (q i)) g j = .nan := by
    intro g
    simp only [Graph.back, Fl.sum]
    refine sum_nan (Or.inr (List.mem_map.2 ⟨⟨i, hi⟩, List.mem_finRange _, ?_⟩))
    simp only [Interp.a0G, Interp.ypG]
    exact hnan _
  simp only [Interp.interpG, Graph.back.eq_3, h0, Fl.nan_add]

/-- For circular orbits this is every orbit with impact parameter zero. -/
theorem C128_central (hk : op.ExactKepler) (hq : KepMode.circular.Possible q) {o : Orbit} (h : keplerianInit C (KepMode.circular.args q) = .ok o) (hb : q .b = 0) (n : ℕ) (t : ℝ) (g : Fl)
    {j : KepPar} (hj : j = .a ∨ j = .b ∨ j = .r_star ∨ j = .period ∨ j = .t0) : (Interp.interpG .circular n t).back op (fun i => .fin (q i)) g j = .nan := by
  obtain ⟨hp, hci⟩ := circular_position h hq.period.ne' (nodeTime q n 0)
  rw [hb, mul_zero] at hci
  refine C128_centre hk hq h le_rfl (by omega) ?_ ?_ t g (by tauto)
  · rw [hp]; simp [nodeTime]
  · rw [hp, hci]; simp

/-! ## The light curve is differentiable -/

theorem floor_locally {f : ℝ → ℝ} {x : ℝ} (hf : ContinuousAt f x) (h : ∀ k : ℤ, f x ≠ k) : ∀ᶠ s in 𝓝 x, ⌊f s⌋ = ⌊f x⌋ := by
  have h1 : (⌊f x⌋ : ℝ) < f x := lt_of_le_of_ne (Int.floor_le _) fun e => h _ e.symm
  filter_upwards [hf.eventually (lt_mem_nhds h1), hf.eventually (gt_mem_nhds (Int.lt_floor_add_one (f x)))] with s hs1 hs2
  exact Int.floor_eq_iff.2 ⟨hs1.le, hs2⟩

/-- **C128 (the light curve is differentiable).** Between the times of the grid an interpolated light curve has derivatives with respect to all parameters, also for central transits, unless at one of the times
of the grid the planet is in the plane of the sky, or has the radius of the star and is exactly in front of it. -/
theorem C128_differentiable (hl : PhysicalLaw u1 u2) (hq : m.Possible q) (ho : ∀ q, keplerianInit C (m.args q) = .ok (o q)) (hF : InterpolatedFlux C cp u1 u2 n o t F)
    (hi : |(o q).cos_incl| < 1) (ht : ∀ k : ℤ, t ≠ nodeTime q n k) (hz : ∀ k : ℤ, ((o q).relativePosition C (nodeTime q n k)).z ≠ 0) (hr : q .r ≠ q .r_star) (j : KepPar) :
    ∃ D, HasDerivAt (fun s => F (update q j s)) D (q j) := by
  set L := quadLimbdarkLightCurve (getCl u1 u2) with hL
  obtain ⟨hop, hk⟩ := exactOp_exact u1 u2
  set op := exactOp u1 u2
  rw [(keplerGraph_real (ho q) L 0).2] at hi
  have hy : ∀ k : ℕ, ∃ D, HasDerivAt (fun s => (Interp.ypG m n k).real L (update q j s)) D (q j) := by
    intro k
    have hzk := hz (k - 1)
    rw [node_real (ho q) L k] at hzk
    obtain ⟨D, hD⟩ := lightCurveOf_differentiable (L := L) (u1 := u1) (u2 := u2) hl hk input_regular (nodeClock_regular (n := n) k) hq hi (fun h => hr h.2.2) hzk j
    refine ⟨D, ?_⟩
    have e : ∀ q, (Interp.ypG m n k).real L q = fluxAt (getCl u1 u2) (q .r_star) (q .r) ⟨(m.x1G .input (.sub (Interp.xpG n k) (.input .t0))).real L q,
        (m.yG .input (.sub (Interp.xpG n k) (.input .t0))).real L q, (m.zG .input (.sub (Interp.xpG n k) (.input .t0))).real L q⟩ := fun q => lightCurveOf_real u1 u2
    simp only [e]
    exact hD
  obtain ⟨hxr, hcr, h0, hne⟩ := cellG_regular (L := L) (op := op) hq.period ht
  obtain ⟨c', hc', -⟩ := (C118_backprop op L q _ hcr).2 j
  have hfl := floor_locally hc'.continuousAt (by simpa using hne)
  rw [update_eq_self] at hfl
  set i := ⌊(Interp.cellG n t).real L q⌋.toNat with hi'
  obtain ⟨D0, hD0⟩ := hy i
  obtain ⟨D1, hD1⟩ := hy (i + 1)
  obtain ⟨D2, hD2⟩ := hy (i + 2)
  obtain ⟨D3, hD3⟩ := hy (i + 3)
  have hx0 := hc'.sub_const (⌊(Interp.cellG n t).real L q⌋ : ℝ)
  have hbig := ((hD1.add ((((hD0.neg.div_const 3).sub (hD1.const_mul 0.5)).add hD2).sub (hD3.div_const 6) |>.mul hx0)).add
    ((((hD0.add hD2).const_mul 0.5).sub hD1).mul (hx0.pow 2))).add ((((hD1.sub hD2).add ((hD3.sub hD0).div_const 3)).const_mul 0.5).mul (hx0.pow 3))
  refine ⟨_, interpolated_derivative ho hF hq.period (hbig.congr_of_eventuallyEq ?_)⟩
  have hc : ContinuousAt (fun s => update q j s .period) (q j) := by
    have : Continuous (fun s => update q j s) := continuous_const.update j continuous_id
    exact ((continuous_apply KepPar.period).comp this).continuousAt
  filter_upwards [hfl, hc.eventually (lt_mem_nhds (a := 0) (by simpa using hq.period))] with s hs hP
  obtain ⟨h1, h2⟩ := cell_range (L := L) (n := n) (t := t) hP
  rw [interpG_real ho hP, interpolant, ← cellG_real (L := L), hs]
  simp only [Pi.add_apply, Pi.mul_apply, Pi.sub_apply, Pi.pow_apply, Pi.neg_apply, hL, ypG_real ho]
  have hii : ((i : ℕ) : ℤ) = ⌊(Interp.cellG n t).real L q⌋ := Int.toNat_of_nonneg (Int.floor_nonneg.2 h0.le)
  rw [← hii]
  have e1 : ((i + 1 : ℕ) - 1 : ℤ) = (i : ℤ) := by push_cast; ring
  have e2 : ((i + 2 : ℕ) - 1 : ℤ) = (i : ℤ) + 1 := by push_cast; ring
  have e3 : ((i + 3 : ℕ) - 1 : ℤ) = (i : ℤ) + 2 := by push_cast; ring
  simp only [cellValue, nodeTime, e1, e2, e3]

theorem odd_grid_cos {n : ℕ} (hn : Even n) (k : ℤ) : cos (2 * π / 10 * (k * (10 / (n + 1)))) ≠ 0 := by
  intro h
  obtain ⟨i, hi⟩ := Real.cos_eq_zero_iff.1 h
  obtain ⟨l, rfl⟩ := hn
  have hl : (0 : ℝ) < l + l + 1 := by positivity
  have hpi := pi_pos.ne'
  push_cast at hi
  field_simp at hi
  have h2 : 2 * k * 2 = (2 * i + 1) * (l + l + 1) := by
    have : ((2 * k * 2 : ℤ) : ℝ) = ((2 * i + 1) * (l + l + 1) : ℤ) := by
      push_cast
      linarith
    exact_mod_cast this
  have : (2 * (2 * k) : ℤ) = 2 * (2 * i * l + i + l) + 1 := by linarith
  omega

/-- Concrete violation of C128: for `KeplerianOrbit(a=10, period=10, t0=0, b=0, r_star=1)` and an even `num_phase`, the interpolated light curve has derivatives with respect to all parameters at all times
between those of the grid; computed with exact operations, those with respect to all parameters of the orbit are NaN at *all* times. -/
theorem C128_counterexample (hl : PhysicalLaw u1 u2) (ho : ∀ q, keplerianInit C (KepMode.circular.args q) = .ok (o q)) : ∃ q : KepPar → ℝ, KepMode.circular.Possible q ∧ q .b = 0 ∧
    ∀ n : ℕ, Even n → ∀ t, (∀ F, InterpolatedFlux C cp u1 u2 n o t F → (∀ k : ℤ, t ≠ nodeTime q n k) → ∀ j, ∃ D, HasDerivAt (fun s => F (update q j s)) D (q j)) ∧
    ∀ op : FlOp, op.ExactKepler → ∀ (g : Fl) (j : KepPar), j = .a ∨ j = .b ∨ j = .r_star ∨ j = .period ∨ j = .t0 →
      (Interp.interpG .circular n t).back op (fun i => .fin (q i)) g j = .nan := by
  have hq := demoKep_possible .circular 0
  refine ⟨demoKep 0 1, hq, rfl, fun n hn t => ⟨fun F hF ht j => ?_, fun op hk g j hj => C128_central hk hq (ho _) rfl n t g hj⟩⟩
  have hci := (circular_position (ho (demoKep 0 1)) hq.period.ne' 0).2
  have hc0 : (o (demoKep 0 1)).cos_incl = 0 := by rw [hci]; simp [demoKep]
  refine C128_differentiable hl hq ho hF (by rw [hc0]; norm_num) ht (fun k => ?_) (by norm_num [demoKep]) j
  rw [(circular_position (ho (demoKep 0 1)) hq.period.ne' _).1, hc0]
  have := odd_grid_cos hn k
  simpa [nodeTime, demoKep] using this

/-! ## The light curve of these theorems exists -/

/-- The interpolated light curve without the tensors. -/
theorem C128_exists (cp : ContactOp) (u1 u2 : ℝ) (n : ℕ) (ho : ∀ q, keplerianInit C (m.args q) = .ok (o q)) (t : ℝ) : ∃ F, InterpolatedFlux C cp u1 u2 n o t F := by
  refine ⟨fun q => interpolant (baseFlux u1 u2 C o q) (q .t0) (q .period) (q .period / (n + 1)) t, fun q hP => ?_⟩
  have hR := args_r_star (ho q)
  have ht : (o q).t0 = q .t0 := by
    have := ho q
    generalize o q = o' at this
    cases m <;> (obtain rfl := Except.ok.inj this; rfl)
  have hp : (o q).period = q .period := by
    have := ho q
    generalize o q = o' at this
    cases m <;> (obtain rfl := Except.ok.inj this; rfl)
  have hbase := C43_base (LimbDark.new u1 u2) (keplerApi C cp [o q] (o q).r_star) false _ rfl (Tensor.scalar (q .r)) rfl 7 0
  rw [ht, hp]
  unfold interpolatedLightCurve
  simp only [numPlanets, le_refl, if_true]
  rw [interpColumn_eq hbase Nat.one_pos n hP [t]]
  refine ⟨_, rfl, ?_⟩
  simp only [List.map_cons, List.map_nil, List.headD_cons, List.getD_cons_zero, Nat.cast_add, Nat.cast_one]
  unfold baseFlux
  rw [← hR]
  rfl

/-! ## Examples -/

/-- The hypotheses of `C128_interpolated_partial` and `C128_circular_partial` can be met: `b = 0.5`, 100 phases, at a time in the transit that is not one of the grid. -/
example (cp : ContactOp) (ho : ∀ q, keplerianInit C (KepMode.circular.args q) = .ok (o q)) (hl : PhysicalLaw 0.3 0.2) : ∃ F, InterpolatedFlux C cp 0.3 0.2 100 o (5 / 101) F ∧
    GradientRight (exactOp 0.3 0.2) (Interp.interpG .circular 100 (5 / 101)) F (demoKep 0.5 1) := by
  obtain ⟨F, hF⟩ := C128_exists cp 0.3 0.2 100 ho (5 / 101)
  refine ⟨F, hF, C128_circular_partial hl (exactOp_exact _ _).1 (exactOp_exact _ _).2 (demoKep_possible _ _) ho hF ?_ (by norm_num [demoKep]) (by norm_num [demoKep]) fun k h => ?_⟩
  · rw [(circular_position (ho (demoKep 0.5 1)) (by norm_num [demoKep]) 0).2]
    norm_num [demoKep]
  · simp only [nodeTime, demoKep] at h
    push_cast at h
    have h2 : (2 * k : ℤ) = 1 := by
      have : ((2 * k : ℤ) : ℝ) = 1 := by push_cast; linarith
      exact_mod_cast this
    omega

/-- The hypotheses of `C128_central` can be met: four days after the transit of an orbit with `b = 0`. -/
example {o : Orbit} (h : keplerianInit C (KepMode.circular.args (demoKep 0 1)) = .ok o) : (Interp.interpG .circular 100 4).back (exactOp 0.3 0.2) (fun i => .fin (demoKep 0 1 i)) (.fin 1) .a = .nan :=
  C128_central (exactOp_exact _ _).2 (demoKep_possible _ _) h rfl 100 4 (.fin 1) (Or.inl rfl)

end Exo
