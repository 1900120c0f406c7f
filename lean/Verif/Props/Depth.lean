import Verif.Lemmas.Depth
import Verif.Props.LimbDark
import Verif.Props.LightCurve
import Verif.Props.InTransit
import Verif.Props.Distributions

/-!
# C87: a planet nearer to the centre of the star covers more light
-/

namespace Exo
open Real MeasureTheory Set

/-! ## The flux -/

/-- **C87** (flux): the deeper, the nearer the planet is to the centre of the star. -/
theorem C87_nearer (u1 u2 b b' r : ℝ) (los : Option ℝ) (h : PhysicalLaw u1 u2) (hd : DarkensOutwards u1 u2) (h0 : 0 ≤ b) (hb : b ≤ b') :
    computeLightCurve (getCl u1 u2) b r los ≤ computeLightCurve (getCl u1 u2) b' r los := by
  unfold computeLightCurve
  simp only
  split_ifs
  · rw [quadLc_covered u1 u2 b r h.pos.ne', quadLc_covered u1 u2 b' r h.pos.ne', neg_le_neg_iff]
    exact div_le_div_of_nonneg_right (fluxFrom_antitone h hd h0 hb r) h.pos.le
  · exact le_rfl

/-- The condition on the coefficients. -/
theorem darkensOutwards_iff (u1 u2 : ℝ) : DarkensOutwards u1 u2 ↔ 0 ≤ u1 ∧ 0 ≤ u1 + 2 * u2 := by
  constructor
  · intro h
    have key : ∀ x, 0 ≤ x → x < 1 → 0 ≤ (u1 + u2 * (1 - x)) * (1 - x) ∧ 0 ≤ (u1 + u2 * (2 - x)) * x := by
      intro x h0 h1
      have k1 := h ⟨h0, h1.le⟩ ⟨zero_le_one, le_rfl⟩ h1.le
      have k2 := h ⟨le_rfl, zero_le_one⟩ ⟨h0, h1.le⟩ h0
      unfold quadLaw at k1 k2
      constructor <;> nlinarith
    constructor
    · by_contra hn
      push Not at hn
      have hs : ∃ x, 0 ≤ x ∧ x < 1 ∧ u1 + u2 * (1 - x) < 0 := by
        have hu : 0 < |u2| + 1 := by positivity
        refine ⟨1 - min 1 (-u1 / (2 * (|u2| + 1))), ?_, ?_, ?_⟩
        · have := min_le_left 1 (-u1 / (2 * (|u2| + 1)))
          linarith
        · have : 0 < min 1 (-u1 / (2 * (|u2| + 1))) := lt_min one_pos (div_pos (by linarith) (by linarith))
          linarith
        · have h1 := min_le_right 1 (-u1 / (2 * (|u2| + 1)))
          have h2 : 0 < min 1 (-u1 / (2 * (|u2| + 1))) := lt_min one_pos (div_pos (by linarith) (by linarith))
          generalize min 1 (-u1 / (2 * (|u2| + 1))) = y at h1 h2
          rw [le_div_iff₀ (by linarith)] at h1
          have := le_abs_self u2
          nlinarith
      obtain ⟨x, a1, a2, a3⟩ := hs
      have := (key x a1 a2).1
      nlinarith
    · by_contra hn
      push Not at hn
      have hs : ∃ x, 0 < x ∧ x < 1 ∧ u1 + u2 * (2 - x) < 0 := by
        have hu : 0 < |u2| + 1 := by positivity
        have hpos : 0 < min (1 / 2) (-(u1 + 2 * u2) / (2 * (|u2| + 1))) := lt_min (by norm_num) (div_pos (by linarith) (by linarith))
        refine ⟨min (1 / 2) (-(u1 + 2 * u2) / (2 * (|u2| + 1))), hpos, ?_, ?_⟩
        · have := min_le_left (1 / 2) (-(u1 + 2 * u2) / (2 * (|u2| + 1)))
          linarith
        · have h1 := min_le_right (1 / 2) (-(u1 + 2 * u2) / (2 * (|u2| + 1)))
          generalize min (1 / 2) (-(u1 + 2 * u2) / (2 * (|u2| + 1))) = y at h1 hpos
          rw [le_div_iff₀ (by linarith)] at h1
          have := neg_abs_le u2
          nlinarith
      obtain ⟨x, a1, a2, a3⟩ := hs
      have := (key x a1.le a2).2
      nlinarith
  · rintro ⟨h1, h2⟩ x ⟨hx0, hx1⟩ y ⟨hy0, hy1⟩ hxy
    unfold quadLaw
    nlinarith [mul_nonneg (sub_nonneg.2 hxy) h1, mul_nonneg (sub_nonneg.2 hxy) h2, mul_nonneg (mul_nonneg (sub_nonneg.2 hxy) h1) hx0,
      mul_nonneg (mul_nonneg (sub_nonneg.2 hxy) h1) hy0, mul_nonneg (mul_nonneg (sub_nonneg.2 hxy) h2) (sub_nonneg.2 hx1),
      mul_nonneg (mul_nonneg (sub_nonneg.2 hxy) h2) (sub_nonneg.2 hy1)]

/-- **C87** (prior): the coefficients that `quad_limb_dark` draws meet the hypotheses. -/
theorem C87_prior (b : Backend) (name : String) {K : Kwargs} {rs : List Reg} {u1 u2 : State → ℝ}
    (h : quadLimbDark b name K = .ok (rs, u1, u2)) (σ : State) (hσ : Visited rs σ) :
    PhysicalLaw (u1 σ) (u2 σ) ∧ DarkensOutwards (u1 σ) (u2 σ) := by
  obtain ⟨h1, h2, h3⟩ := C49_support b name h σ hσ
  simp only at h1 h2 h3
  exact ⟨physicalLaw_of_kipping h1.le h3.le, (darkensOutwards_iff _ _).2 ⟨h2.le, h3.le⟩⟩

/-- The same for positions: nearer on the sky, and in front whenever the other is. -/
theorem fluxAt_nearer {u1 u2 : ℝ} (h : PhysicalLaw u1 u2) (hd : DarkensOutwards u1 u2) {R : ℝ} (hR : 0 < R) (r : ℝ) {v v' : V3}
    (hz : 0 < v'.z → 0 < v.z) (hv : v.x ^ 2 + v.y ^ 2 ≤ v'.x ^ 2 + v'.y ^ 2) :
    fluxAt (getCl u1 u2) R r v ≤ fluxAt (getCl u1 u2) R r v' := by
  unfold fluxAt
  by_cases hz' : 0 < v'.z
  · have e : ∀ {z : ℝ} (b : ℝ), 0 < z → computeLightCurve (getCl u1 u2) b (r / R) (some (z / R)) =
        computeLightCurve (getCl u1 u2) b (r / R) none := by
      intro z b hz
      have : 0 < z / R := div_pos hz hR
      simp [computeLightCurve, this]
    rw [e _ hz', e _ (hz hz')]
    exact C87_nearer u1 u2 _ _ _ none h hd (by positivity) (div_le_div_of_nonneg_right (sqrt_le_sqrt hv) hR.le)
  · rw [C37_behind _ _ _ _ (div_nonpos_of_nonpos_of_nonneg (not_lt.1 hz') hR.le)]
    exact (C37_range u1 u2 _ _ _ h).2

/-! ## Light curves -/

/-- **C87** (light curves): of two times at which planet `p` is in front of the star, the one at which it is nearer to the centre on the sky
has the lower flux. For every kind of orbit. -/
theorem C87_light_curve (u1 u2 : ℝ) (h : PhysicalLaw u1 u2) (hd : DarkensOutwards u1 u2) (o : OrbitApi) (hR : 0 < o.r_star) (ld : Bool)
    (f : ℕ → ℝ → V3) (hf : o.pos ld = .ok f) (r t : Tensor ℝ) (hr : r.size = o.np) (oversample order : ℤ) :
    ∃ L, (LimbDark.new u1 u2).getLightCurve (some o) (some r) (some t) none oversample order (some false) ld = .ok L ∧
      L.shape = t.shape ++ [o.np] ∧
      ∀ i j p, InShape i t.shape → InShape j t.shape → p < o.np → 0 < (f p (t.get i)).z →
        (f p (t.get i)).x ^ 2 + (f p (t.get i)).y ^ 2 ≤ (f p (t.get j)).x ^ 2 + (f p (t.get j)).y ^ 2 →
        L.get (i ++ [p]) ≤ L.get (j ++ [p]) := by
  obtain ⟨L, h1, h2, h3⟩ := C39_values (LimbDark.new u1 u2) o ld f hf r t hr oversample order
  refine ⟨L, h1, h2, fun i j p hi hj hp hz hv => ?_⟩
  rw [h3 i p hi hp, h3 j p hj hp]
  exact fluxAt_nearer h hd hR _ (fun _ => hz) hv

/-- On a circular orbit. -/
theorem circular_nearer {C : Consts} {A : Args} {o : Orbit} (ho : keplerianInit C A = .ok o) (hp : o.Physical) (hc : o.ecc = none)
    (hi : 0 ≤ o.sin_incl) {s s' : ℝ} (hs : |s - o.t0| ≤ |s' - o.t0|) (hs' : |s' - o.t0| ≤ o.period / 2) :
    let v := o.relativePosition C s
    let v' := o.relativePosition C s'
    (0 < v'.z → 0 < v.z) ∧ (0 < v'.z → v.x ^ 2 + v.y ^ 2 ≤ v'.x ^ 2 + v'.y ^ 2) := by
  have B := built_of_init ho
  obtain ⟨h1, h2⟩ := B.sep_circ hp hc s
  obtain ⟨h3, h4⟩ := B.sep_circ hp hc s'
  simp only
  rw [h1, h2, h3, h4]
  have hP := hp.period_pos
  have hn : 0 < o.n := by rw [B.n_eq]; have := pi_pos; positivity
  have e : ∀ x : ℝ, cos (o.n * x) = cos (o.n * |x|) ∧ sin (o.n * x) ^ 2 = sin (o.n * |x|) ^ 2 := by
    intro x
    rcases abs_choice x with h | h <;> rw [h]
    · exact ⟨rfl, rfl⟩
    · rw [mul_neg, cos_neg, sin_neg, neg_sq]; exact ⟨rfl, rfl⟩
  have hle : o.n * |s' - o.t0| ≤ π := by
    calc o.n * |s' - o.t0| ≤ o.n * (o.period / 2) := by gcongr
      _ = π := by rw [B.n_eq]; field_simp
  rw [(e (s - o.t0)).1, (e (s - o.t0)).2, (e (s' - o.t0)).1, (e (s' - o.t0)).2]
  have key : 0 < o.a * o.sin_incl * cos (o.n * |s' - o.t0|) → 0 < o.a * o.sin_incl ∧ 0 < cos (o.n * |s' - o.t0|) := by
    intro hz
    have h0 : 0 ≤ o.a * o.sin_incl := mul_nonneg hp.a_pos.le hi
    have h5 : 0 < o.a * o.sin_incl := h0.lt_of_ne (by rintro h; rw [← h, zero_mul] at hz; exact lt_irrefl _ hz)
    exact ⟨h5, pos_of_mul_pos_right hz h0⟩
  have hsmall : 0 < cos (o.n * |s' - o.t0|) → o.n * |s' - o.t0| < π / 2 := by
    intro h
    by_contra hn'
    exact absurd (cos_nonpos_of_pi_div_two_le_of_le (not_lt.1 hn') (by linarith [pi_pos])) (not_le.2 h)
  have hmn : o.n * |s - o.t0| ≤ o.n * |s' - o.t0| := by gcongr
  have hn0 : 0 ≤ o.n * |s - o.t0| := by positivity
  constructor
  · intro hz
    obtain ⟨k1, k2⟩ := key hz
    exact mul_pos k1 (cos_pos_of_mem_Ioo ⟨by linarith [pi_pos], by linarith [hsmall k2]⟩)
  · intro hz
    obtain ⟨k1, k2⟩ := key hz
    have k3 := hsmall k2
    have k4 : sin (o.n * |s - o.t0|) ≤ sin (o.n * |s' - o.t0|) := sin_le_sin_of_le_of_le_pi_div_two (by linarith [pi_pos]) k3.le hmn
    have k5 : 0 ≤ sin (o.n * |s - o.t0|) := sin_nonneg_of_nonneg_of_le_pi hn0 (by linarith [pi_pos])
    gcongr

/-- **C87** (shape of a transit): on a circular orbit the flux does not increase before the transit and does not decrease after it, over the
whole period: the light curve at a time nearer to the transit is not above that at a time further away. -/
theorem C87_circular (C : Consts) (A : Args) (o : Orbit) (ho : keplerianInit C A = .ok o) (hp : o.Physical) (hc : o.ecc = none)
    (hi : 0 ≤ o.sin_incl) (u1 u2 : ℝ) (h : PhysicalLaw u1 u2) (hd : DarkensOutwards u1 u2) (cp : ContactOp) (r t : Tensor ℝ)
    (hr : r.size = 1) (oversample order : ℤ) :
    ∃ L, (LimbDark.new u1 u2).getLightCurve (some (keplerApi C cp [o] o.r_star)) (some r) (some t) none oversample order (some false) =
        .ok L ∧ L.shape = t.shape ++ [1] ∧
      (∀ i j, InShape i t.shape → InShape j t.shape → |t.get i - o.t0| ≤ |t.get j - o.t0| → |t.get j - o.t0| ≤ o.period / 2 →
        L.get (i ++ [0]) ≤ L.get (j ++ [0])) ∧
      (∀ i j, InShape i t.shape → InShape j t.shape → (∃ k : ℤ, t.get i = o.t0 + k * o.period) → L.get (i ++ [0]) ≤ L.get (j ++ [0])) := by
  obtain ⟨L, h1, h2, h3⟩ := C39_values (LimbDark.new u1 u2) (keplerApi C cp [o] o.r_star) false _ rfl r t hr oversample order
  refine ⟨L, h1, h2, fun i j hI hJ hij hj => ?_, fun i j hI hJ hk => ?_⟩
  · rw [h3 i 0 hI Nat.one_pos, h3 j 0 hJ Nat.one_pos]
    obtain ⟨k1, k2⟩ := circular_nearer (C := C) ho hp hc hi hij hj
    by_cases hz : 0 < (o.relativePosition C (t.get j)).z
    · exact fluxAt_nearer h hd hp.r_star_pos _ k1 (k2 hz)
    · refine le_trans (C37_range u1 u2 _ _ _ h).2 (le_of_eq ?_)
      exact (C37_behind _ _ _ _ (div_nonpos_of_nonpos_of_nonneg (not_lt.1 hz) hp.r_star_pos.le)).symm
  · rw [h3 i 0 hI Nat.one_pos, h3 j 0 hJ Nat.one_pos]
    obtain ⟨k, hk⟩ := hk
    have B := built_of_init ho
    obtain ⟨a1, a2⟩ := B.sep_circ hp hc (t.get i)
    obtain ⟨a3, a4⟩ := B.sep_circ hp hc (t.get j)
    have e : o.n * (t.get i - o.t0) = k * (2 * π) := by
      rw [hk, B.n_eq]
      have := hp.period_pos.ne'
      field_simp
      ring
    have hsin : sin (k * (2 * π)) = 0 := by
      rw [show (k : ℝ) * (2 * π) = ((2 * k : ℤ) : ℝ) * π by push_cast; ring]
      exact sin_int_mul_pi _
    rw [e, cos_int_mul_two_pi, mul_one] at a2
    rw [e, hsin] at a1
    refine fluxAt_nearer h hd hp.r_star_pos _ (fun hz => ?_) ?_
    · change 0 < (o.relativePosition C (t.get i)).z
      change 0 < (o.relativePosition C (t.get j)).z at hz
      rw [a2]
      rw [a4] at hz
      have h0 : 0 ≤ o.a * o.sin_incl := mul_nonneg hp.a_pos.le hi
      exact h0.lt_of_ne (by rintro h; rw [← h, zero_mul] at hz; exact lt_irrefl _ hz)
    · change (o.relativePosition C (t.get i)).x ^ 2 + (o.relativePosition C (t.get i)).y ^ 2 ≤
        (o.relativePosition C (t.get j)).x ^ 2 + (o.relativePosition C (t.get j)).y ^ 2
      rw [a1, a3]
      have : 0 ≤ (o.a * o.sin_incl) ^ 2 * sin (o.n * (t.get j - o.t0)) ^ 2 := by positivity
      linarith

/-- **C87** (impact parameter): the transit of a circular orbit is the deeper, the smaller the impact parameter. -/
theorem C87_impact (C : Consts) (A A' : Args) (o o' : Orbit) (ho : keplerianInit C A = .ok o) (ho' : keplerianInit C A' = .ok o')
    (hp : o.Physical) (hp' : o'.Physical) (hc : o.ecc = none) (hc' : o'.ecc = none) (hi : 0 < o.sin_incl)
    (hR : o.r_star = o'.r_star) (hb : |o.b| ≤ |o'.b|) (u1 u2 r : ℝ) (h : PhysicalLaw u1 u2) (hd : DarkensOutwards u1 u2) :
    fluxAt (getCl u1 u2) o.r_star r (o.relativePosition C o.t0) ≤ fluxAt (getCl u1 u2) o'.r_star r (o'.relativePosition C o'.t0) := by
  obtain ⟨a1, a2⟩ := (built_of_init ho).sep_circ hp hc o.t0
  obtain ⟨a3, a4⟩ := (built_of_init ho').sep_circ hp' hc' o'.t0
  simp only [sub_self, mul_zero, sin_zero, cos_zero, mul_one, ne_eq, OfNat.ofNat_ne_zero, not_false_eq_true, zero_pow, add_zero] at a1 a2 a3 a4
  rw [← hR]
  refine fluxAt_nearer h hd hp.r_star_pos _ (fun _ => ?_) ?_
  · rw [a2]; exact mul_pos hp.a_pos hi
  · rw [a1, a3, ← hR, mul_pow, mul_pow]
    have := sq_le_sq.2 hb
    gcongr

/-! ## A star that is brighter at the limb -/

/-- **C87 is false for a star that is brighter at the limb** (`u1 = -1`, `u2 = 0`: the intensity is positive everywhere, and such
coefficients are accepted): a small planet near the limb covers more light than the same planet at the centre. -/
theorem C87_limb_brightened_counterexample : PhysicalLaw (-1) 0 ∧ ¬ DarkensOutwards (-1) 0 ∧
    computeLightCurve (LimbDark.new (-1) 0).c (9 / 10) (1 / 20) (some 1) < computeLightCurve (LimbDark.new (-1) 0).c 0 (1 / 20) (some 1) := by
  have hphys : PhysicalLaw (-1) 0 := by
    constructor
    · intro μ h0 h1
      unfold quadLaw
      linarith
    · norm_num
  refine ⟨hphys, fun h => ?_, ?_⟩
  · have := ((darkensOutwards_iff _ _).1 h).1
    norm_num at this
  · have hlaw : ∀ p, quadLaw (-1) 0 (muAt p) = 2 - muAt p := fun p => by unfold quadLaw; ring
    have hs0 : starDisc ∩ bodyDisc 0 (1 / 20) = bodyDisc 0 (1 / 20) :=
      inter_eq_self_of_subset_right (bodyDisc_subset (by norm_num))
    have hs9 : starDisc ∩ bodyDisc (9 / 10) (1 / 20) = bodyDisc (9 / 10) (1 / 20) :=
      inter_eq_self_of_subset_right (bodyDisc_subset (by rw [abs_of_pos] <;> norm_num))
    have hint : ∀ b : ℝ, |b| + 1 / 20 ≤ 1 → IntegrableOn (fun p => quadLaw (-1) 0 (muAt p)) (bodyDisc b (1 / 20)) := fun b hb =>
      integrableOn_disc (continuous_law _ _) (bodyDisc_subset hb)
    have hfin : ∀ b : ℝ, |b| + 1 / 20 ≤ 1 → volume (bodyDisc b (1 / 20)) ≠ ⊤ := fun b hb =>
      ((measure_mono (bodyDisc_subset hb)).trans_lt isCompact_starDisc.measure_lt_top).ne
    have hb0 : |(0 : ℝ)| + 1 / 20 ≤ 1 := by norm_num
    have hb9 : |(9 / 10 : ℝ)| + 1 / 20 ≤ 1 := by rw [abs_of_pos] <;> norm_num
    have k0 : fluxFrom (-1) 0 (bodyDisc 0 (1 / 20)) ≤ 11 / 10 * (π * (1 / 20) ^ 2) := by
      have := setIntegral_mono_on (hint 0 hb0) (integrableOn_const (hfin 0 hb0) (C := (11 / 10 : ℝ)))
        (measurableSet_bodyDisc _ _) (fun p hp => ?_)
      · rw [setIntegral_const, volume_bodyDisc (by norm_num), smul_eq_mul] at this
        unfold fluxFrom
        linarith
      · rw [mem_bodyDisc (by norm_num)] at hp
        rw [hlaw]
        have : 9 / 10 ≤ muAt p := by
          unfold muAt
          exact le_sqrt_of_sq_le (by nlinarith)
        linarith
    have k9 : 14 / 10 * (π * (1 / 20) ^ 2) ≤ fluxFrom (-1) 0 (bodyDisc (9 / 10) (1 / 20)) := by
      have := setIntegral_mono_on (integrableOn_const (hfin _ hb9) (C := (14 / 10 : ℝ))) (hint _ hb9)
        (measurableSet_bodyDisc _ _) (fun p hp => ?_)
      · rw [setIntegral_const, volume_bodyDisc (by norm_num), smul_eq_mul] at this
        unfold fluxFrom
        linarith
      · rw [mem_bodyDisc (by norm_num)] at hp
        rw [hlaw]
        have h1 : 17 / 20 ≤ p.1 := by
          have := abs_le_of_sq_le_sq' (show (p.1 - 9 / 10) ^ 2 ≤ (1 / 20) ^ 2 by nlinarith [sq_nonneg p.2]) (by norm_num)
          linarith [this.1]
        have : muAt p ≤ 6 / 10 := by
          unfold muAt
          rw [sqrt_le_left (by norm_num)]
          nlinarith [sq_nonneg p.2]
        linarith
    unfold LimbDark.new computeLightCurve
    simp only [Option.getD_some, one_pos, gt_iff_lt, if_true]
    rw [quadLc_covered _ _ _ _ hphys.pos.ne', quadLc_covered _ _ _ _ hphys.pos.ne', hs0, hs9, neg_lt_neg_iff]
    refine div_lt_div_of_pos_right ?_ hphys.pos
    have := pi_pos
    nlinarith

/-! ### Examples -/

/-- Hypotheses of `C87_nearer` and `C87_light_curve`: the sun-like coefficients `(0.3, 0.2)`. -/
example : PhysicalLaw 0.3 0.2 ∧ DarkensOutwards 0.3 0.2 :=
  ⟨physicalLaw_of_kipping (by norm_num) (by norm_num), (darkensOutwards_iff _ _).2 ⟨by norm_num, by norm_num⟩⟩

/-- Hypotheses of `C87_circular` and `C87_impact`. -/
example (C : Consts) : ∃ o, keplerianInit C demoCirc = .ok o ∧ o.Physical ∧ o.ecc = none ∧ 0 < o.sin_incl ∧ o.b = 1 / 2 := by
  obtain ⟨o, h1, h2, h3, h4, -, -, -, -, h5⟩ := demoCirc_transits C
  exact ⟨o, h1, h2, h3, h4, h5⟩

/-- A transit that is strictly deeper at the centre than outside it. -/
example : computeLightCurve (getCl 0 0) 0 (1 / 10) (some 1) < computeLightCurve (getCl 0 0) 2 (1 / 10) (some 1) := by
  rw [C37_uniform 0 (1 / 10) 1 (by norm_num) (by norm_num) one_pos,
    C37_apart 0 0 2 (1 / 10) _ (physicalLaw_of_kipping (by norm_num) (by norm_num)) (by norm_num)]
  norm_num

end Exo
