import Verif.Model.Tutorials
import Verif.Spec.Tutorials
import Verif.Props.Depth
import Verif.Props.EccentricityVector
import Verif.Props.Physical

/-!
# C100: the models of the tutorials are valid wherever their priors allow
-/

namespace Exo
open Real MeasureTheory Set

/-! ## When a transit can be seen -/

theorem BrightLaw.physical {u1 u2 : ℝ} (h : BrightLaw u1 u2) : PhysicalLaw u1 u2 := by
  refine ⟨fun μ h0 h1 => (h μ h0 h1).le, ?_⟩
  have a0 := h 0 le_rfl zero_le_one
  have a1 := h 1 zero_le_one le_rfl
  have a2 := h (1 / 2) (by norm_num) (by norm_num)
  have a3 := h (2 / 3) (by norm_num) (by norm_num)
  unfold quadLaw at a0 a1 a2 a3
  nlinarith

theorem fluxFrom_pos {u1 u2 : ℝ} (h : BrightLaw u1 u2) {b r : ℝ} (h0 : 0 ≤ b) (hr : 0 < r) (hb : b < 1 + r) :
    0 < fluxFrom u1 u2 (starDisc ∩ bodyDisc b r) := by
  unfold fluxFrom
  rw [setIntegral_pos_iff_support_of_nonneg_ae
    (Filter.Eventually.of_forall fun p => (h _ (muAt_nonneg p) (muAt_le_one p)).le)
    (integrableOn_disc (continuous_law u1 u2) inter_subset_left)]
  have hsub : {p : ℝ × ℝ | p.1 ^ 2 + p.2 ^ 2 < 1} ∩ {p | (p.1 - b) ^ 2 + p.2 ^ 2 < r ^ 2} ⊆
      Function.support (fun p => quadLaw u1 u2 (muAt p)) ∩ (starDisc ∩ bodyDisc b r) := by
    rintro p ⟨p1, p2⟩
    exact ⟨(h _ (muAt_nonneg p) (muAt_le_one p)).ne', show p.1 ^ 2 + p.2 ^ 2 ≤ 1 from le_of_lt p1, (sqrt_le_left hr.le).2 (le_of_lt p2)⟩
  refine lt_of_lt_of_le ?_ (measure_mono hsub)
  refine IsOpen.measure_pos _ ((isOpen_lt (by fun_prop) (by fun_prop)).inter (isOpen_lt (by fun_prop) (by fun_prop))) ?_
  obtain ⟨x, hx1, hx2⟩ := exists_between (show max (-1) (b - r) < min 1 (b + r) by
    rw [max_lt_iff, lt_min_iff, lt_min_iff]
    exact ⟨⟨by norm_num, by linarith⟩, by linarith, by linarith⟩)
  rw [max_lt_iff] at hx1
  rw [lt_min_iff] at hx2
  refine ⟨(x, 0), ?_, ?_⟩
  · show x ^ 2 + 0 ^ 2 < 1
    nlinarith
  · show (x - b) ^ 2 + 0 ^ 2 < r ^ 2
    nlinarith

/-- **C100** (when a transit can be seen): a body in front of a star that shines everywhere dims it exactly if the impact parameter is
smaller than the sum of the radii, the upper limit that `impact_parameter` uses. -/
theorem C100_visible (u1 u2 b r z : ℝ) (h : BrightLaw u1 u2) (h0 : 0 ≤ b) (hr : 0 < r) (hz : 0 < z) :
    computeLightCurve (getCl u1 u2) b r (some z) < 0 ↔ b < 1 + r := by
  constructor
  · intro hlt
    by_contra hc
    rw [C37_apart u1 u2 b r (some z) h.physical (not_lt.1 hc)] at hlt
    exact lt_irrefl _ hlt
  · intro hb
    unfold computeLightCurve
    simp only [Option.getD_some]
    rw [if_pos hz, quadLc_covered u1 u2 b r h.physical.pos.ne', neg_lt_zero]
    exact div_pos (fluxFrom_pos h h0 hr hb) h.physical.pos

/-- The limb-darkening prior only gives stars that shine everywhere. -/
theorem brightLaw_of_triangle {u1 u2 : ℝ} (h : (u1, u2) ∈ physicalTriangle) : BrightLaw u1 u2 := by
  obtain ⟨h1, h2, h3⟩ := h
  simp only at h1 h2 h3
  intro μ m0 m1
  unfold quadLaw
  rcases le_or_gt 0 u2 with h4 | h4
  · nlinarith [mul_nonneg h4 m0, mul_nonneg h2.le m0, mul_nonneg h4 (mul_nonneg m0 (sub_nonneg.2 m1))]
  · nlinarith [mul_nonneg h2.le m0, mul_nonneg h3.le m0, mul_nonneg (neg_pos.2 h4).le m0, sq_nonneg (1 - μ),
      mul_nonneg (neg_pos.2 h4).le (sq_nonneg μ)]

/-! ## The orbit -/

theorem tutorial_orbit (C : Consts) {P : ℝ} (hP : 0 < P) (T b : ℝ) :
    ∃ o, keplerianInit C { period := some (P : Q), t0 := some (T : Q), b := some (b : Q) } = .ok o ∧ o.period = P ∧ o.t0 = T ∧ o.b = b ∧
      o.r_star = 1 ∧ o.ecc = none ∧ 4 * π ^ 2 * o.a ^ 3 = C.G * P ^ 2 ∧ 0 < o.a ∧ o.cos_incl = b / o.a ∧
      o.sin_incl = √(1 - o.cos_incl ^ 2) ∧ (|o.cos_incl| ≤ 1 → o.Physical) := by
  have hG := C.G_pos
  have hg := C.gccPerSun_pos
  have hpi := pi_pos
  refine ⟨_, rfl, ?_, ?_, ?_, ?_, ?_, ?_, ?_, ?_, ?_, fun hc => ⟨?_, ?_, ?_, ?_, ?_, ?_, ?_, ?_, ?_, hc⟩⟩
  all_goals simp [inclFactorOf, sin_arccos]
  · have h0 : 0 ≤ C.G * P ^ 2 / (4 * π ^ 2) := by positivity
    have h1 : ((C.G * P ^ 2 / (4 * π ^ 2)) ^ (3⁻¹ : ℝ)) ^ 3 = C.G * P ^ 2 / (4 * π ^ 2) := by
      rw [← rpow_natCast ((C.G * P ^ 2 / (4 * π ^ 2)) ^ (3⁻¹ : ℝ)) 3, ← rpow_mul h0]
      norm_num
    rw [h1]
    field_simp
  · positivity
  · ring
  all_goals positivity

/-! ## The transit model -/

theorem visited_append {r s : List Reg} {σ : State} (h : Visited (r ++ s) σ) : Visited r σ ∧ Visited s σ := by
  obtain ⟨h1, h2⟩ := h
  rw [jointDensity_append] at h1
  exact ⟨⟨left_ne_zero_of_mul h1, fun n d kw hm => h2 n d kw (List.mem_append_left _ hm)⟩,
    ⟨right_ne_zero_of_mul h1, fun n d kw hm => h2 n d kw (List.mem_append_right _ hm)⟩⟩

/-- The variables registered before `u` and between `u` and `b`. -/
noncomputable def transitPre (N : ℤ) : List Reg :=
  [pmVar .normal "mean" [("mu", Val.ofReal 0), ("sigma", Val.ofReal 1)], pmVar .normal "t0" [("mu", Val.ofReal 4.35), ("sigma", Val.ofReal 1)],
    pmVar .normal "t1" [("mu", Val.ofReal 33.2), ("sigma", Val.ofReal 1)],
    .deterministic "period" (fun σ => [(σ "t1" - σ "t0") / N])]

noncomputable def transitMid (muR : ℝ) : List Reg :=
  [pmVar .normal "log_r" [("mu", Val.ofReal muR), ("sigma", Val.ofReal 2)], .deterministic "r" (fun σ => [exp (σ "log_r")])]

theorem transitModel_ok {bk : Backend} {N : ℤ} {muR : ℝ} {m : TransitModel} (h : transitModel bk N muR = .ok m) :
    ∃ rsU rsB, m.regs = transitPre N ++ rsU ++ transitMid muR ++ rsB ∧
      quadLimbDark bk "u" [("initval", .seq [fun _ => 0.3, fun _ => 0.2])] = .ok (rsU, m.u1, m.u2) ∧
      impactParameter bk "b" m.r [("initval", Val.ofReal 0.35)] = .ok (rsB, m.b) ∧ m.r = (fun σ : State => exp (σ "log_r")) ∧
      m.t0 = (fun σ : State => σ "t0") ∧ m.period = (fun σ : State => (σ "t1" - σ "t0") / N) := by
  unfold transitModel at h
  simp only [bind, Except.bind] at h
  split at h
  · cases h
  · rename_i v hv
    obtain ⟨rsU, u1, u2⟩ := v
    simp only at h
    split at h
    · cases h
    · rename_i w hw
      obtain ⟨rsB, b⟩ := w
      have := Except.ok.inj h
      subst this
      exact ⟨rsU, rsB, rfl, hv, hw, rfl, rfl, rfl⟩

/-- The impact parameter is inside its limits in every visited state. -/
theorem impact_interior {b : Backend} {name : String} {ror : State → ℝ} {K : Kwargs} {rs : List Reg} {v : State → ℝ}
    (h : impactParameter b name ror K = .ok (rs, v)) {σ : State} (hr : 0 < 1 + ror σ) (hσ : Visited rs σ) :
    0 < v σ ∧ v σ < 1 + ror σ := by
  obtain ⟨bh, -, rfl, rfl⟩ := impactParameter_ok b name ror h
  have h1 := (limKw_interior ..).1 (hσ.2 ("__" ++ name ++ "_impact_parameter") _ _ (List.Mem.head _))
  exact ⟨mul_pos h1.1 hr, by nlinarith [h1.2]⟩

/-- **C100** (transit model, what holds): in every state that the priors allow, with the reference transits in order and an orbit that
clears the star by the size of the planet, the orbit is physical, the light curve exists and lies in `[-1, 0]`, both reference times
and all times in between by whole periods are transits that can be seen and are the deepest points, and half a period later there is
no transit. Missing: the priors also allow planets too large for their orbit (`C100_no_inclination_counterexample`). -/
theorem C100_transit_partial (C : Consts) (cp : ContactOp) (bk : Backend) (N : ℤ) (hN : 0 < N) (muR : ℝ) (m : TransitModel)
    (h : transitModel bk N muR = .ok m) (σ : State) (hσ : Visited m.regs σ) (ht : σ "t0" < σ "t1")
    (hs : 4 * π ^ 2 * (1 + exp (σ "log_r")) ^ 3 ≤ C.G * ((σ "t1" - σ "t0") / N) ^ 2) (t : List ℝ) :
    ∃ o L, keplerianInit C (m.args σ) = .ok o ∧ o.Physical ∧ m.lightCurve C cp σ t = .ok L ∧ L.shape = [t.length, 1] ∧
      σ "t1" = σ "t0" + N * m.period σ ∧
      (∀ i < t.length, -1 ≤ L.get [i, 0] ∧ L.get [i, 0] ≤ 0) ∧
      (∀ i < t.length, (∃ k : ℤ, t[i]! = σ "t0" + k * m.period σ) → L.get [i, 0] < 0 ∧ ∀ j < t.length, L.get [i, 0] ≤ L.get [j, 0]) ∧
      (∀ i < t.length, (∃ k : ℤ, |t[i]! - (σ "t0" + (k + 1 / 2) * m.period σ)| ≤ m.period σ / 4) → L.get [i, 0] = 0) := by
  obtain ⟨rsU, rsB, hregs, hU, hB, hr, ht0, hper⟩ := transitModel_ok h
  rw [hregs] at hσ
  obtain ⟨hσ1, hσB⟩ := visited_append hσ
  obtain ⟨hσ2, -⟩ := visited_append hσ1
  obtain ⟨-, hσU⟩ := visited_append hσ2
  have hbright := brightLaw_of_triangle (C49_support bk "u" hU σ hσU)
  obtain ⟨hphys, hdark⟩ := C87_prior bk "u" hU σ hσU
  have hrpos : 0 < m.r σ := by rw [hr]; exact exp_pos _
  obtain ⟨hb0, hb1⟩ := impact_interior hB (σ := σ) (by linarith) hσB
  have hNr : (0 : ℝ) < N := by exact_mod_cast hN
  have hP : 0 < m.period σ := by rw [hper]; exact div_pos (by linarith) hNr
  obtain ⟨o, ho, oP, ot, ob, oR, oe, oa, oa0, oc, os, oph⟩ := tutorial_orbit C hP (m.t0 σ) (m.b σ)
  have ha : 1 + m.r σ ≤ o.a := by
    have hpi := pi_pos
    have h1 : (1 + m.r σ) ^ 3 ≤ o.a ^ 3 := by
      have : 4 * π ^ 2 * (1 + m.r σ) ^ 3 ≤ 4 * π ^ 2 * o.a ^ 3 := by
        rw [oa, hr, hper]; exact hs
      exact le_of_mul_le_mul_left this (by positivity)
    exact le_of_pow_le_pow_left₀ (by norm_num) oa0.le h1
  have hci : |o.cos_incl| < 1 := by
    rw [oc, abs_of_pos (div_pos hb0 oa0), div_lt_one oa0]
    linarith
  have hp := oph hci.le
  have hsi : 0 < o.sin_incl := by
    rw [os]
    refine sqrt_pos.2 ?_
    have := sq_lt_one_iff_abs_lt_one o.cos_incl |>.2 hci
    linarith
  have hB' := built_of_init ho
  have hT : Tractable C cp o (m.r σ) := by
    refine ⟨⟨_, ho⟩, hp, hrpos.le, ?_⟩
    rw [oe]
    exact ⟨hsi, by rw [oR]; exact ha⟩
  obtain ⟨L, L', e1, e2, e3, e4⟩ := C40_kepler_partial C cp (m.u1 σ) (m.u2 σ) hphys.pos.ne' [o] (Tensor.scalar (m.r σ)) t o.r_star rfl
    (by simp) none (by simp) (by
      intro q hq
      have hq' : q ∈ [(o, m.r σ)] := hq
      have := List.mem_singleton.1 hq'
      subst this
      exact hT) 7 0 (.inl rfl) (by norm_num)
  obtain ⟨L'', f1, f2, f3⟩ := C39_values (LimbDark.new (m.u1 σ) (m.u2 σ)) (keplerApi C cp [o] o.r_star) false _ rfl
    (Tensor.scalar (m.r σ)) (Tensor.ofList t 0) rfl 7 0
  have hLL : L' = L'' := by
    have : (none : Option ℝ).map Tensor.scalar = none := rfl
    rw [this] at e2
    rw [f1] at e2
    exact (Except.ok.inj e2).symm
  subst hLL
  have hshape : L.shape = [t.length, 1] := by rw [e3, f2]; rfl
  have hget : ∀ i, (hi : i < t.length) → L.get [i, 0] = fluxAt (getCl (m.u1 σ) (m.u2 σ)) 1 (m.r σ) (o.relativePosition C t[i]!) := by
    intro i hi
    have hin : InShape [i] (Tensor.ofList t (0 : ℝ)).shape := .cons hi .nil
    rw [e4 [i, 0] (by rw [hshape]; exact .cons hi (.cons Nat.one_pos .nil))]
    have hti : (Tensor.ofList t (0 : ℝ)).get [i] = t[i]! := by
      simp [Tensor.ofList, hi]
    have := f3 [i] 0 hin Nat.one_pos
    rw [hti] at this
    rw [← oR]
    exact this
  have hn : o.n = 2 * π / m.period σ := by rw [hB'.n_eq, oP]
  have ht0' : o.t0 = σ "t0" := by rw [ot, ht0]
  have hpos : ∀ s, (o.relativePosition C s).x ^ 2 + (o.relativePosition C s).y ^ 2 =
      m.b σ ^ 2 + (o.a * o.sin_incl) ^ 2 * sin (2 * π / m.period σ * (s - σ "t0")) ^ 2 ∧
      (o.relativePosition C s).z = o.a * o.sin_incl * cos (2 * π / m.period σ * (s - σ "t0")) := by
    intro s
    have := hB'.sep_circ hp oe s
    rw [ob, oR, mul_one, hn, ht0'] at this
    exact this
  have hflux : ∀ s, (∃ k : ℤ, s = σ "t0" + k * m.period σ) →
      (fluxAt (getCl (m.u1 σ) (m.u2 σ)) 1 (m.r σ) (o.relativePosition C s) < 0 ∧ ∀ s',
        fluxAt (getCl (m.u1 σ) (m.u2 σ)) 1 (m.r σ) (o.relativePosition C s) ≤
        fluxAt (getCl (m.u1 σ) (m.u2 σ)) 1 (m.r σ) (o.relativePosition C s')) := by
    rintro s ⟨k, rfl⟩
    obtain ⟨p1, p2⟩ := hpos (σ "t0" + k * m.period σ)
    have e : 2 * π / m.period σ * (σ "t0" + k * m.period σ - σ "t0") = k * (2 * π) := by
      have := hP.ne'
      field_simp
      ring
    have hsin : sin (k * (2 * π)) = 0 := by
      rw [show (k : ℝ) * (2 * π) = ((2 * k : ℤ) : ℝ) * π by push_cast; ring]
      exact sin_int_mul_pi _
    rw [e, hsin] at p1
    rw [e, cos_int_mul_two_pi, mul_one] at p2
    have hz : 0 < (o.relativePosition C (σ "t0" + k * m.period σ)).z := by rw [p2]; exact mul_pos oa0 hsi
    refine ⟨?_, fun s' => ?_⟩
    · unfold fluxAt
      rw [div_one, div_one, div_one, C100_visible _ _ _ _ _ hbright (sqrt_nonneg _) hrpos hz, p1]
      rw [show m.b σ ^ 2 + (o.a * o.sin_incl) ^ 2 * 0 ^ 2 = m.b σ ^ 2 by ring, sqrt_sq hb0.le]
      exact hb1
    · refine fluxAt_nearer hphys hdark one_pos _ (fun _ => hz) ?_
      obtain ⟨q1, -⟩ := hpos s'
      rw [p1, q1]
      nlinarith [mul_nonneg (sq_nonneg (o.a * o.sin_incl)) (sq_nonneg (sin (2 * π / m.period σ * (s' - σ "t0"))))]
  refine ⟨o, L, ho, hp, ?_, hshape, ?_, fun i hi => ?_, fun i hi hk => ?_, fun i hi hk => ?_⟩
  · unfold TransitModel.lightCurve
    have ha' : keplerianInit C (m.args σ) = .ok o := ho
    rw [ha']
    simp only
    rw [C40_default]
    exact e1
  · rw [hper]
    field_simp
    ring
  · rw [hget i hi]
    exact C37_range _ _ _ _ _ hphys
  · obtain ⟨g1, g2⟩ := hflux _ hk
    exact ⟨by rw [hget i hi]; exact g1, fun j hj => by rw [hget i hi, hget j hj]; exact g2 _⟩
  · rw [hget i hi]
    obtain ⟨k, hk⟩ := hk
    refine C37_behind _ _ _ _ ?_
    rw [div_one, (hpos _).2]
    refine mul_nonpos_of_nonneg_of_nonpos (mul_pos oa0 hsi).le ?_
    have e : 2 * π / m.period σ * (t[i]! - σ "t0") =
        2 * π / m.period σ * (t[i]! - (σ "t0" + (k + 1 / 2) * m.period σ)) + π + k * (2 * π) := by
      have := hP.ne'
      field_simp
      ring
    rw [e, cos_add_int_mul_two_pi, cos_add_pi, neg_nonpos]
    have hpi := pi_pos
    have h2 : |2 * π / m.period σ * (t[i]! - (σ "t0" + (k + 1 / 2) * m.period σ))| ≤ π / 2 := by
      rw [abs_mul, abs_of_pos (by positivity)]
      calc 2 * π / m.period σ * |t[i]! - (σ "t0" + (k + 1 / 2) * m.period σ)| ≤ 2 * π / m.period σ * (m.period σ / 4) := by gcongr
        _ = π / 2 := by have := hP.ne'; field_simp; ring
    rw [abs_le] at h2
    exact cos_nonneg_of_mem_Icc ⟨by linarith [h2.1], h2.2⟩

theorem normal_factor (n : String) (mu : ℝ) {sd : ℝ} (hs : 0 < sd) (σ : State) :
    (pmVar .normal n [("mu", Val.ofReal mu), ("sigma", Val.ofReal sd)]).factor σ ≠ 0 := by
  have : (pmVar .normal n [("mu", Val.ofReal mu), ("sigma", Val.ofReal sd)]).factor σ = ENNReal.ofReal (normalPdf mu sd (σ n)) := rfl
  rw [this]
  refine (ENNReal.ofReal_pos.2 ?_).ne'
  unfold normalPdf
  positivity

/-- The states that the priors allow. -/
theorem transit_visited {bk : Backend} {N : ℤ} {muR : ℝ} {m : TransitModel} (h : transitModel bk N muR = .ok m) {σ : State}
    (h1 : 0 < σ "__u_q1" ∧ σ "__u_q1" < 1) (h2 : 0 < σ "__u_q2" ∧ σ "__u_q2" < 1)
    (h3 : 0 < σ "__b_impact_parameter" ∧ σ "__b_impact_parameter" < 1) : Visited m.regs σ := by
  obtain ⟨rsU, rsB, hregs, hU, hB, -⟩ := transitModel_ok h
  obtain ⟨v1, v2, -, -, rfl, -⟩ := quadLimbDark_ok bk "u" hU
  obtain ⟨bh, -, rfl, -⟩ := impactParameter_ok bk "b" _ hB
  rw [hregs]
  have n1 : "__" ++ "u" ++ "_q1" = "__u_q1" := by decide
  have n2 : "__" ++ "u" ++ "_q2" = "__u_q2" := by decide
  have n3 : "__" ++ "b" ++ "_impact_parameter" = "__b_impact_parameter" := by decide
  have hu : ∀ x : ℝ, 0 < x ∧ x < 1 → ENNReal.ofReal (uniformPdf 0 1 x) ≠ 0 := by
    intro x hx
    unfold uniformPdf
    rw [if_pos ⟨hx.1.le, hx.2.le⟩]
    simp
  constructor
  · rw [jointDensity_append, jointDensity_append, jointDensity_append, quadLimbDark_density, impactParameter_density, n1, n2, n3]
    refine mul_ne_zero (mul_ne_zero (mul_ne_zero ?_ (mul_ne_zero (hu _ h1) (hu _ h2))) ?_) (hu _ h3)
    · rw [transitPre, jointDensity_cons, jointDensity_cons, jointDensity_cons, jointDensity_cons, jointDensity_nil]
      exact mul_ne_zero (normal_factor _ _ one_pos σ) (mul_ne_zero (normal_factor _ _ one_pos σ)
        (mul_ne_zero (normal_factor _ _ one_pos σ) (mul_ne_zero one_ne_zero one_ne_zero)))
    · rw [transitMid, jointDensity_cons, jointDensity_cons, jointDensity_nil]
      exact mul_ne_zero (normal_factor _ _ two_pos σ) (mul_ne_zero one_ne_zero one_ne_zero)
  · intro n d kw hm
    simp only [transitPre, transitMid, pmVar, List.mem_append, List.mem_cons, List.not_mem_nil, or_false, Reg.free.injEq, reduceCtorEq] at hm
    rcases hm with (((⟨rfl, rfl, -⟩ | ⟨rfl, rfl, -⟩ | ⟨rfl, rfl, -⟩) | (⟨rfl, rfl, -⟩ | ⟨rfl, rfl, -⟩)) | ⟨rfl, rfl, -⟩) | ⟨rfl, rfl, -⟩
    · trivial
    · trivial
    · trivial
    · rw [limKw_interior, n1]; exact h1
    · rw [limKw_interior, n2]; exact h2
    · trivial
    · rw [limKw_interior, n3]; exact h3

/-- **C100** fails for the tutorial's prior of the radius: it allows planets that are larger than their orbit, for which the
inclination does not exist (the code computes `arccos` of a number greater than one, which is NaN). -/
theorem C100_no_inclination_counterexample (C : Consts) (bk : Backend) (muR : ℝ) : ∃ m σ o, transitModel bk 4 muR = .ok m ∧
    Visited m.regs σ ∧ σ "t0" < σ "t1" ∧ keplerianInit C (m.args σ) = .ok o ∧ 1 < o.cos_incl := by
  obtain ⟨m, h⟩ : ∃ m, transitModel bk 4 muR = .ok m := by cases bk <;> exact ⟨_, rfl⟩
  have hG := C.G_pos
  have hpi := pi_pos
  set g := C.G / (4 * π ^ 2) with hg
  have hg0 : 0 < g := by positivity
  let σ : State := fun n => if n = "log_r" then log (2 * (g + 1)) else if n = "t1" then 4 else if n = "t0" then 0 else 1 / 2
  have hhalf : ∀ n, n ≠ "log_r" → n ≠ "t1" → n ≠ "t0" → 0 < σ n ∧ σ n < 1 := by
    intro n a1 a2 a3
    simp only [σ, if_neg a1, if_neg a2, if_neg a3]
    norm_num
  have hv := transit_visited h (σ := σ) (hhalf _ (by decide) (by decide) (by decide)) (hhalf _ (by decide) (by decide) (by decide))
    (hhalf _ (by decide) (by decide) (by decide))
  obtain ⟨rsU, rsB, hregs, hU, hB, hr, ht0, hper⟩ := transitModel_ok h
  have s1 : σ "t0" = 0 := by simp [σ]
  have s2 : σ "t1" = 4 := by simp [σ]
  have s3 : σ "log_r" = log (2 * (g + 1)) := by simp [σ]
  have hP : m.period σ = 1 := by rw [hper]; simp only [s1, s2]; norm_num
  have hb : m.b σ = g + 3 / 2 := by
    obtain ⟨bh, -, -, hb⟩ := impactParameter_ok bk "b" _ hB
    rw [hb, hr]
    simp only [s3, exp_log (show 0 < 2 * (g + 1) by positivity)]
    have : σ ("__" ++ "b" ++ "_impact_parameter") = 1 / 2 := by
      simp only [σ]
      rw [if_neg (by decide), if_neg (by decide), if_neg (by decide)]
    rw [this]
    ring
  obtain ⟨o, ho, -, -, -, -, -, oa, oa0, oc, -⟩ := tutorial_orbit C (P := m.period σ) (by rw [hP]; exact one_pos) (m.t0 σ) (m.b σ)
  refine ⟨m, σ, o, h, hv, by rw [s1, s2]; norm_num, ho, ?_⟩
  rw [oc, lt_div_iff₀ oa0, one_mul, hb]
  have h3 : o.a ^ 3 = g := by
    rw [hP] at oa
    rw [hg]
    field_simp
    linarith
  by_contra hc
  push Not at hc
  have : (g + 3 / 2) ^ 3 ≤ o.a ^ 3 := pow_le_pow_left₀ (by positivity) hc 3
  rw [h3] at this
  nlinarith [sq_nonneg g, pow_pos hg0 3]

/-! ## The radial-velocity model -/

/-- **C100** (radial-velocity model): in every state that the prior of eccentricity and argument of periastron allows, the velocity
that the tutorial writes out with `get_true_anomaly` is the one of a `KeplerianOrbit` with the same eccentricity, argument of
periastron and semi-amplitude, whose periastron passage is at the time that the tutorial calls `t0`; and the phase plot shows one
period of it. -/
theorem C100_rv (C : Consts) (bk : Backend) (nx ny : String) {K : Kwargs} {rs : List Reg} {x y : State → ℝ}
    (h : unitDisk bk nx ny K = .ok (rs, x, y)) (σ : State) (hσ : Visited rs σ) (logP logK phi : ℝ) {e w : ℝ}
    (hew : eccVector x y σ = (e, w)) :
    ∃ o, keplerianInit C (rvArgs logP phi e w) = .ok o ∧ o.Physical ∧
      (∀ t, o.radialVelocity C t (some (exp logK)) = .ok (tutorialRv logK e w (tutorialMeanAnomaly logP phi w t))) ∧
      ∀ phase, o.radialVelocity C (phase * exp logP) (some (exp logK)) = .ok (tutorialRv logK e w (2 * π * phase - (phi + w))) := by
  have hr := C98_range bk nx ny h σ hσ
  rw [hew] at hr
  obtain ⟨⟨h0, h1⟩, -⟩ := hr
  simp only at h0 h1
  have hG := C.G_pos
  have hg := C.gccPerSun_pos
  have hpi := pi_pos
  have hexp := exp_pos logP
  obtain ⟨o, ho, hphys, hecc, hn, htp⟩ : ∃ o, keplerianInit C (rvArgs logP phi e w) = .ok o ∧
      o.Physical ∧ o.ecc = some ⟨e, w, cos w, sin w⟩ ∧ o.n = 2 * π / exp logP ∧
      o.t_periastron = (phi + w) / (2 * π * exp (-logP)) := by
    refine ⟨_, rfl, ⟨?_, ?_, ?_, ?_, ?_, ?_, ?_, ?_, ?_, ?_⟩, ?_, ?_, ?_⟩
    all_goals simp [inclFactorOf]
    all_goals first | positivity | assumption | skip
  have B := built_of_init ho
  have hM : ∀ t, o.meanAnom t = tutorialMeanAnomaly logP phi w t := by
    intro t
    rw [B.meanAnom_eq, hn, htp, tutorialMeanAnomaly, exp_neg]
    field_simp
  have hv : ∀ t, o.radialVelocity C t (some (exp logK)) = .ok (tutorialRv logK e w (tutorialMeanAnomaly logP phi w t)) := by
    intro t
    obtain ⟨c1, c2⟩ := arctan2_cos_sin (keplerOp_sq h0 h1 (tutorialMeanAnomaly logP phi w t))
    have hf : o.trueAnomaly t = keplerOp (tutorialMeanAnomaly logP phi w t) e := by
      rw [Orbit.trueAnomaly_eq, hM]
      simp [Orbit.eccVal, hecc]
    simp only [Orbit.radialVelocity, hecc, hf, tutorialRv, getTrueAnomaly, c1, c2]
    congr 1
    ring
  refine ⟨o, ho, hphys, hv, fun phase => ?_⟩
  rw [hv, tutorialMeanAnomaly, exp_neg]
  congr 2
  field_simp

/-- **C100** (the parameterization of the eccentricity): the two variables are `√e cos ω` and `√e sin ω`, in this order. -/
theorem C100_components (x y : State → ℝ) (σ : State) {e w : ℝ} (hew : eccVector x y σ = (e, w)) :
    x σ = √e * cos w ∧ y σ = √e * sin w := by
  have h1 : x σ ^ 2 + y σ ^ 2 = e := congrArg Prod.fst hew
  have h2 : Complex.arg ⟨x σ, y σ⟩ = w := congrArg Prod.snd hew
  have hn : ‖(⟨x σ, y σ⟩ : ℂ)‖ = √e := by
    rw [← h1, Complex.norm_def, Complex.normSq_mk]
    congr 1
    ring
  rw [← h2, ← hn]
  constructor
  · exact (Complex.norm_mul_cos_arg ⟨x σ, y σ⟩).symm
  · exact (Complex.norm_mul_sin_arg ⟨x σ, y σ⟩).symm

/-- The comment in the tutorial (`docs/tutorials/intro-to-pymc.md:259-261`) says that the first variable is `√e sin ω`; this is false. -/
theorem C100_comment_counterexample (bk : Backend) : ∃ rs x y σ, unitDisk bk "h" "k" [] = .ok (rs, x, y) ∧ Visited rs σ ∧
    x σ ≠ √(eccVector x y σ).1 * sin (eccVector x y σ).2 := by
  let σ : State := fun n => if n = "h" then 1 / 2 else 0
  have s1 : σ "h" = 1 / 2 := by simp [σ]
  have s2 : σ ("__" ++ "k" ++ "_unit_disk") = 0 := if_neg (by decide)
  refine ⟨_, _, _, σ, unitDisk_eq bk "h" "k" [], ⟨?_, ?_⟩, ?_⟩
  · rw [unitDisk_density, s1, s2]
    simp only [uniformPdf]
    norm_num
  · intro n d kw hm
    simp only [pmVar, List.mem_cons, Reg.free.injEq, reduceCtorEq, List.not_mem_nil, or_false] at hm
    rcases hm with ⟨rfl, rfl, -⟩ | ⟨rfl, rfl, -⟩
    · rw [limKw_interior, s1]; norm_num
    · rw [limKw_interior, s2]; norm_num
  · intro hx
    have := hx.trans (C100_components (fun σ => σ "h") (fun σ => σ ("__" ++ "k" ++ "_unit_disk") * √(1 - σ "h" ^ 2)) σ
      (e := (eccVector _ _ _).1) (w := (eccVector _ _ _).2) rfl).2.symm
    simp only [s1, s2] at this
    norm_num at this

/-! ## The hypotheses can be met -/

/-- Transits at 0 and 40 days, a planet of radius one tenth, on an orbit of ten days. -/
example (C : Consts) (bk : Backend) (hC : 6 ≤ C.G) : ∃ m σ, transitModel bk 4 (log 0.04) = .ok m ∧ Visited m.regs σ ∧ σ "t0" < σ "t1" ∧
    4 * π ^ 2 * (1 + exp (σ "log_r")) ^ 3 ≤ C.G * ((σ "t1" - σ "t0") / (4 : ℤ)) ^ 2 := by
  obtain ⟨m, h⟩ : ∃ m, transitModel bk 4 (log 0.04) = .ok m := by cases bk <;> exact ⟨_, rfl⟩
  let σ : State := fun n => if n = "log_r" then log 0.1 else if n = "t1" then 40 else if n = "t0" then 0 else 1 / 2
  have hhalf : ∀ n, n ≠ "log_r" → n ≠ "t1" → n ≠ "t0" → 0 < σ n ∧ σ n < 1 := by
    intro n a1 a2 a3
    simp only [σ, if_neg a1, if_neg a2, if_neg a3]
    norm_num
  have s1 : σ "t0" = 0 := by simp [σ]
  have s2 : σ "t1" = 40 := by simp [σ]
  have s3 : exp (σ "log_r") = 0.1 := by
    have : σ "log_r" = log 0.1 := by simp only [σ, if_true]
    rw [this, exp_log (by norm_num)]
  refine ⟨m, σ, h, transit_visited h (hhalf _ (by decide) (by decide) (by decide)) (hhalf _ (by decide) (by decide) (by decide))
    (hhalf _ (by decide) (by decide) (by decide)), by rw [s1, s2]; norm_num, ?_⟩
  have hp : π ^ 2 ≤ 16 := by nlinarith [pi_pos, pi_le_four]
  rw [s1, s2, s3]
  norm_num
  nlinarith

example (bk : Backend) : ∃ rs x y, unitDisk bk "h" "k" [] = .ok (rs, x, y) ∧ Visited rs (fun _ => 1 / 2) ∧
    (eccVector x y (fun _ => 1 / 2)).1 ≠ 0 := by
  refine ⟨_, _, _, unitDisk_eq bk "h" "k" [], ⟨?_, ?_⟩, ?_⟩
  · rw [unitDisk_density]
    simp only [uniformPdf]
    norm_num
  · intro n d kw hm
    simp only [pmVar, List.mem_cons, Reg.free.injEq, reduceCtorEq, List.not_mem_nil, or_false] at hm
    rcases hm with ⟨rfl, rfl, -⟩ | ⟨rfl, rfl, -⟩
    · rw [limKw_interior]; norm_num
    · rw [limKw_interior]; norm_num
  · refine ne_of_gt ?_
    show (0 : ℝ) < (1 / 2) ^ 2 + _ ^ 2
    positivity

/-- A star that shines everywhere. -/
example : BrightLaw 0.3 0.2 := by
  intro μ h0 h1
  unfold quadLaw
  nlinarith

end Exo
