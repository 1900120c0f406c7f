import Verif.Props.Emission
import Verif.Props.Averages
import Verif.Spec.Parameters

/-!
# C112: light-delayed positions jump where the code switches formulas
-/

namespace Exo
open Real Filter Topology Set

section
variable {C : Consts} {A : Args} {o : Orbit} (B : Built C A o) (hp : o.Physical)
include B hp

theorem relPos_continuous : ∀ t, ContinuousVAt (fun s => o.relativePosition C s) t := fun t => by
  obtain ⟨h1, h2, h3⟩ := Orbit.hasVelocityAt_position hp.eccOk C B.hasDerivAt_warp (B.K_rel hp) t
  exact ⟨h1.continuousAt, h2.continuousAt, h3.continuousAt⟩

theorem relVz_continuous : Continuous fun s => (o.relativeVelocity s).z := continuous_iff_continuousAt.2 fun t =>
  (Orbit.hasVelocityAt_velocity hp.eccOk (neg_ne_zero.2 hp.a_pos.ne') B.hasDerivAt_warp (B.K_rel hp) t).2.2.continuousAt

theorem relPz_continuous : Continuous fun s => (o.relativePosition C s).z := continuous_iff_continuousAt.2 fun t =>
  (relPos_continuous B hp t).2.2

theorem relAz_eq (t : ℝ) : (o.relativeAcceleration t).z = -(o.n ^ 2) / (1 - o.eccVal * cos (o.E t)) ^ 3 * (o.relativePosition C t).z := by
  have h1 : o.retardedAz C (-o.a) t = (o.relativeAcceleration t).z :=
    retardedAz_eq B hp _ _ t (neg_ne_zero.2 hp.a_pos.ne') (B.K_rel hp)
  rw [← h1, Built.az_form B hp (neg_ne_zero.2 hp.a_pos.ne')]
  rfl

theorem relAz_continuous : Continuous fun s => (o.relativeAcceleration s).z := by
  have hE := B.continuous_E hp
  have hz := relPz_continuous B hp
  simp only [relAz_eq B hp]
  refine Continuous.mul (Continuous.div continuous_const (by fun_prop) fun t => ?_) hz
  exact pow_ne_zero 3 (hp.eccOk.dpos t).ne'

/-- The position of the code. -/
theorem delayed_eq (hslow : 3 * o.topSpeed o.a ≤ C.c) (t : ℝ) :
    0 < C.c - (o.relativeVelocity t).z ∧
    0 < (C.c - (o.relativeVelocity t).z) ^ 2 + 2 * (o.relativeAcceleration t).z * (o.relativePosition C t).z ∧
    ∃ d, o.delay C (-o.a) t = d ∧ o.relativePosition C t none true = o.relativePosition C (t - d) ∧
      d = if |(o.relativeAcceleration t).z| < 1.0e-10 then -(o.relativePosition C t).z / (C.c - (o.relativeVelocity t).z)
        else -(2 * (o.relativePosition C t).z) / (C.c - (o.relativeVelocity t).z +
          √((C.c - (o.relativeVelocity t).z) ^ 2 + 2 * (o.relativeAcceleration t).z * (o.relativePosition C t).z)) := by
  have ha := neg_ne_zero.2 hp.a_pos.ne'
  have habs : |-o.a| = o.a := by rw [abs_neg, abs_of_pos hp.a_pos]
  have hV : o.retardedVz (-o.a) t = -(o.relativeVelocity t).z := retardedVz_eq B hp _ _ t (B.K_rel hp)
  have hW : o.retardedAz C (-o.a) t = (o.relativeAcceleration t).z := retardedAz_eq B hp _ _ t ha (B.K_rel hp)
  obtain ⟨hpos, hroot⟩ := Built.root_exists B hp ha (B.K_rel hp) (by rwa [habs]) t
  rw [hW] at hroot
  refine ⟨hpos, hroot, _, rfl, rfl, ?_⟩
  rw [sub_eq_add_neg] at hpos
  have := delay_eq_div C o (-o.a) t (o.relativePosition C t).z _ _ rfl hV hW hpos (by rw [← sub_eq_add_neg]; exact hroot.le)
  rw [this, ← sub_eq_add_neg]

theorem delay_continuousAt (hslow : 3 * o.topSpeed o.a ≤ C.c) {t : ℝ} (ht : |(o.relativeAcceleration t).z| ≠ 1.0e-10) :
    ContinuousAt (fun s => o.delay C (-o.a) s) t := by
  have hz := relPz_continuous B hp
  have hv := relVz_continuous B hp
  have hw := relAz_continuous B hp
  rcases lt_or_gt_of_ne ht with hlt | hgt
  · have hev : ∀ᶠ s in 𝓝 t, |(o.relativeAcceleration s).z| < 1.0e-10 := hw.abs.continuousAt.eventually_lt continuousAt_const hlt
    have : ContinuousAt (fun s => -(o.relativePosition C s).z / (C.c - (o.relativeVelocity s).z)) t :=
      (hz.neg.continuousAt).div ((continuous_const.sub hv).continuousAt) (delayed_eq B hp hslow t).1.ne'
    refine this.congr ?_
    filter_upwards [hev] with s hs
    obtain ⟨d, hd, -, h⟩ := (delayed_eq B hp hslow s).2.2
    rw [hd, h, if_pos hs]
  · have hev : ∀ᶠ s in 𝓝 t, 1.0e-10 < |(o.relativeAcceleration s).z| := continuousAt_const.eventually_lt hw.abs.continuousAt hgt
    have hc1 : Continuous fun s => C.c - (o.relativeVelocity s).z := continuous_const.sub hv
    have hden : 0 < C.c - (o.relativeVelocity t).z +
        √((C.c - (o.relativeVelocity t).z) ^ 2 + 2 * (o.relativeAcceleration t).z * (o.relativePosition C t).z) := by
      have := (delayed_eq B hp hslow t).1
      positivity
    have : ContinuousAt (fun s => -(2 * (o.relativePosition C s).z) / (C.c - (o.relativeVelocity s).z +
          √((C.c - (o.relativeVelocity s).z) ^ 2 + 2 * (o.relativeAcceleration s).z * (o.relativePosition C s).z))) t :=
      ((continuous_const.mul hz).neg.continuousAt).div
        (hc1.add (((hc1.pow 2).add ((continuous_const.mul hw).mul hz)).sqrt)).continuousAt hden.ne'
    refine this.congr ?_
    filter_upwards [hev] with s hs
    obtain ⟨d, hd, -, h⟩ := (delayed_eq B hp hslow s).2.2
    rw [hd, h, if_neg (not_lt.2 hs.le)]

theorem continuousVAt_comp {f : ℝ → ℝ} {t : ℝ} (hf : ContinuousAt f t) : ContinuousVAt (fun s => o.relativePosition C (f s)) t := by
  obtain ⟨h1, h2, h3⟩ := relPos_continuous B hp (f t)
  exact ⟨ContinuousAt.comp (f := f) h1 hf, ContinuousAt.comp (f := f) h2 hf, ContinuousAt.comp (f := f) h3 hf⟩

/-- Within less than a period the planet is never twice in the same place. -/
theorem relPos_injective {u w : ℝ} (hpos : o.relativePosition C u = o.relativePosition C w) (huw : |u - w| < o.period) : u = w := by
  have ha := hp.a_pos
  have hse := hp.eccOk.se_pos
  have key : ∀ x y x' y', o.rotate x y = o.rotate x' y' → x = x' ∧ y = y' := by
    intro x y x' y' h
    have h0 : (o.rotate (x - x') (y - y')).normSq = 0 := by
      have e : o.rotate (x - x') (y - y') = V3.sub (o.rotate x y) (o.rotate x' y') := by
        rw [Orbit.rotate_eq, Orbit.rotate_eq, Orbit.rotate_eq]
        simp only [V3.sub]
        congr 1 <;> ring
      rw [e, h]
      simp [V3.sub, V3.normSq]
    rw [Orbit.rotate_normSq hp (B.incl_sq hp)] at h0
    constructor <;> nlinarith [sq_nonneg (x - x'), sq_nonneg (y - y')]
  have h : o.positionNow C (-o.a) u none = o.positionNow C (-o.a) w none := hpos
  rw [Orbit.positionNow_eq hp.eccOk, Orbit.positionNow_eq hp.eccOk] at h
  obtain ⟨h1, h2⟩ := key _ _ _ _ h
  have hcos : cos (o.E u) = cos (o.E w) := by
    have := mul_left_cancel₀ (neg_ne_zero.2 ha.ne') h1
    linarith
  have hsin : sin (o.E u) = sin (o.E w) := by
    have := mul_left_cancel₀ (neg_ne_zero.2 ha.ne') h2
    exact mul_left_cancel₀ hse.ne' this
  obtain ⟨k, hk⟩ : ∃ k : ℤ, o.E u = o.E w + k * (2 * π) := by
    have := Real.Angle.angle_eq_iff_two_pi_dvd_sub.1 (Real.Angle.cos_sin_inj hcos hsin)
    obtain ⟨k, hk⟩ := this
    exact ⟨k, by linarith⟩
  have hM : ∀ s, o.E s - o.eccVal * sin (o.E s) = o.meanAnom s := fun s => keplerMap_eccAnomaly hp.eccOk.nonneg (o.meanAnom s)
  have h3 : o.n * (u - w) = k * (2 * π) := by
    have hu := hM u
    have hw := hM w
    rw [hsin, hk] at hu
    rw [B.meanAnom_eq] at hu hw
    linarith
  have hnP := B.n_mul_period hp
  have hn := B.n_pos hp
  have h4 : u - w = k * o.period := by
    apply mul_left_cancel₀ hn.ne'
    rw [h3, ← hnP]
    ring
  have hk0 : k = 0 := by
    rw [h4, abs_mul, abs_of_pos hp.period_pos] at huw
    have : |(k : ℝ)| < 1 := by
      by_contra hc
      push Not at hc
      nlinarith [hp.period_pos]
    have : |k| < 1 := by exact_mod_cast this
    exact Int.abs_lt_one_iff.1 this
  rw [hk0] at h4
  simp at h4
  linarith

/-- Somewhere the planet crosses the plane of the sky through the star. -/
theorem exists_az_zero : ∃ t, (o.relativeAcceleration t).z = 0 := by
  have ha := hp.a_pos
  have he0 := hp.eccOk.nonneg
  have he1 := hp.eccOk.lt_one
  have hn := B.n_pos hp
  have hE : ∀ x s, x - o.eccVal * sin x = o.meanAnom s → o.E s = x := by
    intro x s hs
    apply (keplerMap_strictMono he0 he1).injective
    unfold Orbit.E
    rw [keplerMap_eccAnomaly he0, ← hs]
    rfl
  have hz : ∀ s, (o.relativePosition C s).z =
      o.a * o.sin_incl * (o.sw * (cos (o.E s) - o.eccVal) + o.cw * (o.se * sin (o.E s))) := by
    intro s
    change (o.positionNow C (-o.a) s none).z = _
    rw [Orbit.positionNow_eq hp.eccOk, Orbit.rotate_eq]
    simp only
    ring
  have h0 : (o.relativePosition C o.t_periastron).z = o.a * o.sin_incl * o.sw * (1 - o.eccVal) := by
    rw [hz, hE 0 _ (by rw [B.meanAnom_eq]; simp), cos_zero, sin_zero]
    ring
  have h1 : (o.relativePosition C (o.t_periastron + π / o.n)).z = -(o.a * o.sin_incl * o.sw * (1 + o.eccVal)) := by
    rw [hz, hE π _ (by rw [B.meanAnom_eq, sin_pi]; field_simp; ring), cos_pi, sin_pi]
    ring
  have hex : ∃ t, (o.relativePosition C t).z = 0 := by
    have hcont := relPz_continuous B hp
    rcases le_total 0 (o.a * o.sin_incl * o.sw) with hs | hs
    · exact mem_range_of_exists_le_of_exists_ge hcont ⟨_, by rw [h1]; nlinarith⟩ ⟨_, by rw [h0]; nlinarith⟩
    · exact mem_range_of_exists_le_of_exists_ge hcont ⟨_, by rw [h0]; nlinarith⟩ ⟨_, by rw [h1]; nlinarith⟩
  obtain ⟨t, ht⟩ := hex
  exact ⟨t, by rw [relAz_eq B hp, ht, mul_zero]⟩

/-- The first time the acceleration along the line of sight leaves the range of the first formula. -/
theorem exists_switch {t₂ : ℝ} (ht₂ : 1.0e-10 ≤ |(o.relativeAcceleration t₂).z|) :
    ∃ t, |(o.relativeAcceleration t).z| = 1.0e-10 ∧ ∃ᶠ s in 𝓝 t, |(o.relativeAcceleration s).z| < 1.0e-10 := by
  have hw := (relAz_continuous B hp).abs
  set S := {s | |(o.relativeAcceleration s).z| < 1.0e-10} with hS
  have hopen : IsOpen S := isOpen_lt hw continuous_const
  obtain ⟨t₀, ht₀⟩ := exists_az_zero B hp
  have hSne : S.Nonempty := ⟨t₀, by simp [hS, ht₀]; norm_num⟩
  have hSu : S ≠ univ := fun hu => not_lt.2 ht₂ (show t₂ ∈ S from hu ▸ mem_univ t₂)
  have hncl : ¬ IsClosed S := fun hcl => by
    rcases isClopen_iff.1 ⟨hcl, hopen⟩ with h | h
    · exact hSne.ne_empty h
    · exact hSu h
  obtain ⟨t, htc, htS⟩ : ∃ t, t ∈ closure S ∧ t ∉ S := by
    by_contra hno
    push Not at hno
    exact hncl (isClosed_of_closure_subset hno)
  have hge : 1.0e-10 ≤ |(o.relativeAcceleration t).z| := not_lt.1 htS
  have hle : |(o.relativeAcceleration t).z| ≤ 1.0e-10 :=
    closure_minimal (fun s hs => le_of_lt hs) (isClosed_le hw continuous_const) htc
  exact ⟨t, le_antisymm hle hge, mem_closure_iff_frequently.1 htc⟩

/-- At a switch the two formulas disagree, by less than a period. -/
theorem switch_differs (hslow : 3 * o.topSpeed o.a ≤ C.c) {t : ℝ} (ht : |(o.relativeAcceleration t).z| = 1.0e-10) (d₁ : ℝ)
    (hd₁ : d₁ = -(o.relativePosition C t).z / (C.c - (o.relativeVelocity t).z)) :
    o.delay C (-o.a) t ≠ d₁ ∧ |o.delay C (-o.a) t - d₁| < o.period ∧
    |o.delay C (-o.a) t - d₁| ≤ 3 / 4 * 1.0e-10 / C.c * o.delay C (-o.a) t ^ 2 := by
  have hc := C.c_pos
  have ha := neg_ne_zero.2 hp.a_pos.ne'
  have hV : o.retardedVz (-o.a) t = -(o.relativeVelocity t).z := retardedVz_eq B hp _ _ t (B.K_rel hp)
  have hW : o.retardedAz C (-o.a) t = (o.relativeAcceleration t).z := retardedAz_eq B hp _ _ t ha (B.K_rel hp)
  obtain ⟨hpos, hroot, -⟩ := delayed_eq B hp hslow t
  have hsol := (delay_solves C o (-o.a) t 0 (o.relativePosition C t).z _ _ rfl hV hW).2 ht.ge (by linarith)
  have hd1 : d₁ * (C.c - (o.relativeVelocity t).z) = -(o.relativePosition C t).z := by rw [hd₁]; exact div_mul_cancel₀ _ hpos.ne'
  set d := o.delay C (-o.a) t with hd
  have hdiff : (d - d₁) * (C.c - (o.relativeVelocity t).z) = 1 / 2 * (o.relativeAcceleration t).z * d ^ 2 := by linarith
  have hAz : (o.relativeAcceleration t).z ≠ 0 := by
    intro h0
    rw [h0, abs_zero] at ht
    norm_num at ht
  have hz0 : (o.relativePosition C t).z ≠ 0 := by
    intro h0
    apply hAz
    rw [relAz_eq B hp, h0, mul_zero]
  have hd0 : d ≠ 0 := by
    intro h0
    rw [h0] at hsol
    apply hz0
    linarith
  have hv : |(o.relativeVelocity t).z| ≤ o.topSpeed o.a := by
    have := Built.vz_le B hp (B.K_rel hp) t
    rwa [abs_neg, abs_of_pos hp.a_pos] at this
  have hcv : 2 / 3 * C.c ≤ C.c - (o.relativeVelocity t).z := by linarith [(abs_le.1 hv).2]
  have habs : |d - d₁| * (C.c - (o.relativeVelocity t).z) = 1 / 2 * 1.0e-10 * d ^ 2 := by
    have h1 : |d - d₁| * |C.c - (o.relativeVelocity t).z| = 1 / 2 * 1.0e-10 * d ^ 2 := by
      rw [← abs_mul, hdiff, abs_mul, abs_mul, ht, abs_of_nonneg (sq_nonneg d), abs_of_pos (show (0 : ℝ) < 1 / 2 by norm_num)]
    rwa [abs_of_pos hpos] at h1
  have hV0 := Built.topSpeed_nonneg B hp hp.a_pos.le
  refine ⟨fun heq => ?_, ?_, ?_⟩
  · rw [heq, sub_self, zero_mul] at hdiff
    have h3 : (o.relativeAcceleration t).z * d ^ 2 = 0 := by rw [heq]; linarith
    rcases mul_eq_zero.1 h3 with h | h
    · exact hAz h
    · exact hd0 (pow_eq_zero_iff (by norm_num) |>.1 h)
  · -- both delays have the sign of `-z` and lie between `|z| / (c - ż)` and twice that
    have hb := delay_bounds C o (-o.a) t (o.relativePosition C t).z _ _ rfl hV hW (by linarith) (by rw [← sub_eq_add_neg]; exact hroot.le)
      (by rw [← hW]; exact az_mul_z B hp _ t)
    rw [← sub_eq_add_neg, ← hd] at hb
    obtain ⟨b1, b2, -, b4, b5⟩ := hb
    have hle : |d - d₁| ≤ |(o.relativePosition C t).z| / (C.c - (o.relativeVelocity t).z) := by
      set q := |(o.relativePosition C t).z| / (C.c - (o.relativeVelocity t).z) with hq
      have b5' : |d| ≤ 2 * q := by rw [hq, ← mul_div_assoc]; exact b5
      rcases lt_or_gt_of_ne hz0 with hs | hs
      · have e : d₁ = q := by rw [hd₁, hq, abs_of_neg hs]
        have hdp := b2 hs
        rw [abs_of_pos hdp] at b4 b5'
        rw [e, abs_le]
        constructor <;> linarith
      · have e : d₁ = -q := by rw [hd₁, hq, abs_of_pos hs, neg_div]
        have hdp := b1 hs
        rw [abs_of_neg hdp] at b4 b5'
        rw [e, abs_le]
        constructor <;> linarith
    refine hle.trans_lt ?_
    rw [div_lt_iff₀ hpos]
    have hzle : |(o.relativePosition C t).z| ≤ o.a * (1 + o.eccVal) := by
      have h1 := Built.z_sq_le B hp (-o.a) t
      have h2 : 1 - o.eccVal * cos (o.E t) ≤ 1 + o.eccVal := by
        have := mul_le_mul_of_nonneg_left (neg_one_le_cos (o.E t)) hp.eccOk.nonneg
        linarith
      have h3 := hp.eccOk.dpos t
      refine abs_le_of_sq_le_sq ?_ (mul_nonneg hp.a_pos.le (by linarith [hp.eccOk.nonneg]))
      refine (show (o.relativePosition C t).z ^ 2 ≤ _ from h1).trans ?_
      rw [neg_sq, mul_pow]
      exact mul_le_mul_of_nonneg_left (pow_le_pow_left₀ h3.le h2 2) (sq_nonneg _)
    have hVlow : o.n * (o.a * (1 + o.eccVal)) ≤ o.topSpeed o.a := by
      have hn := B.n_pos hp
      have h0 := hp.eccOk.nonneg
      have h1 := Built.one_sub_ecc_pos B hp
      have ha' := hp.a_pos
      refine abs_le_of_sq_le_sq' ?_ hV0 |>.2
      rw [Built.topSpeed_sq B hp, ← mul_assoc, mul_pow]
      refine mul_le_mul_of_nonneg_left ?_ (sq_nonneg _)
      rw [le_div_iff₀ h1]
      nlinarith [mul_nonneg h0 h0, mul_nonneg (mul_nonneg h0 h0) h0]
    have hnP := B.n_mul_period hp
    have hn := B.n_pos hp
    have hPpos := hp.period_pos
    have h6 : o.n * |(o.relativePosition C t).z| ≤ C.c / 3 := by nlinarith
    have h7 : C.c / 3 < o.n * (o.period * (C.c - (o.relativeVelocity t).z)) := by
      rw [← mul_assoc, hnP]
      have := pi_gt_three
      nlinarith
    exact lt_of_mul_lt_mul_left (h6.trans_lt h7) hn.le
  · rw [show 3 / 4 * 1.0e-10 / C.c * d ^ 2 = 3 / 4 * 1.0e-10 * d ^ 2 / C.c by ring, le_div_iff₀ hc]
    nlinarith [abs_nonneg (d - d₁)]

end

/-- **C112** where the code does not switch formulas: with `light_delay=True` the position is a continuous function of the time at all times
at which the acceleration along the line of sight is not `1e-10` (the full claim is continuity at all times, see `C112_continuous_iff`). -/
theorem C112_continuous_partial (C : Consts) (A : Args) (o : Orbit) (h : keplerianInit C A = .ok o) (hp : o.Physical)
    (hslow : 3 * o.topSpeed o.a ≤ C.c) (t : ℝ) (ht : |(o.relativeAcceleration t).z| ≠ 1.0e-10) :
    ContinuousVAt (fun s => o.relativePosition C s none true) t := by
  have B := built_of_init h
  exact continuousVAt_comp B hp (continuousAt_id.sub (delay_continuousAt B hp hslow ht))

/-- **C112** (all switches jump): at a time at which the acceleration along the line of sight is `1e-10`, with smaller values at times
arbitrarily close, the position jumps. -/
theorem C112_jump (C : Consts) (A : Args) (o : Orbit) (h : keplerianInit C A = .ok o) (hp : o.Physical)
    (hslow : 3 * o.topSpeed o.a ≤ C.c) (t : ℝ) (ht : |(o.relativeAcceleration t).z| = 1.0e-10)
    (hnear : ∃ᶠ s in 𝓝 t, |(o.relativeAcceleration s).z| < 1.0e-10) :
    ¬ ContinuousVAt (fun s => o.relativePosition C s none true) t := by
  intro hcont
  have B := built_of_init h
  set S := {s | |(o.relativeAcceleration s).z| < 1.0e-10} with hS
  have hne : (𝓝[S] t).NeBot := mem_closure_iff_nhdsWithin_neBot.1 (mem_closure_iff_frequently.2 hnear)
  set d₁ : ℝ → ℝ := fun s => -(o.relativePosition C s).z / (C.c - (o.relativeVelocity s).z) with hd₁
  have hd₁c : ContinuousAt d₁ t :=
    ((relPz_continuous B hp).neg.continuousAt).div ((continuous_const.sub (relVz_continuous B hp)).continuousAt)
      (delayed_eq B hp hslow t).1.ne'
  have hg := continuousVAt_comp B hp (continuousAt_id.sub hd₁c)
  have heq : (fun s => o.relativePosition C s none true) =ᶠ[𝓝[S] t] fun s => o.relativePosition C (s - d₁ s) := by
    filter_upwards [self_mem_nhdsWithin] with s hs
    obtain ⟨d, -, h1, h2⟩ := (delayed_eq B hp hslow s).2.2
    have hs : |(o.relativeAcceleration s).z| < 1.0e-10 := hs
    rw [h1, h2, if_pos hs]
  have lim : ∀ pr : V3 → ℝ, ContinuousAt (fun s => pr (o.relativePosition C s none true)) t →
      ContinuousAt (fun s => pr (o.relativePosition C (s - d₁ s))) t →
      pr (o.relativePosition C t none true) = pr (o.relativePosition C (t - d₁ t)) := by
    intro pr h1 h2
    have e : (fun s => pr (o.relativePosition C s none true)) =ᶠ[𝓝[S] t] fun s => pr (o.relativePosition C (s - d₁ s)) :=
      heq.mono fun s hs => congrArg pr hs
    exact tendsto_nhds_unique_of_eventuallyEq (h1.tendsto.mono_left nhdsWithin_le_nhds) (h2.tendsto.mono_left nhdsWithin_le_nhds) e
  have hpos : o.relativePosition C (t - o.delay C (-o.a) t) = o.relativePosition C (t - d₁ t) :=
    V3.ext (lim V3.x hcont.1 hg.1) (lim V3.y hcont.2.1 hg.2.1) (lim V3.z hcont.2.2 hg.2.2)
  obtain ⟨h1, h2, -⟩ := switch_differs B hp hslow ht (d₁ t) rfl
  have := relPos_injective B hp hpos (by
    rwa [show t - o.delay C (-o.a) t - (t - d₁ t) = -(o.delay C (-o.a) t - d₁ t) by ring, abs_neg])
  exact h1 (by linarith)

/-- **C112** (which orbits): the light-delayed position is continuous in time exactly when the acceleration along the line of sight never
reaches `1e-10` solar radii per day², so for no transiting planet. -/
theorem C112_continuous_iff (C : Consts) (A : Args) (o : Orbit) (h : keplerianInit C A = .ok o) (hp : o.Physical)
    (hslow : 3 * o.topSpeed o.a ≤ C.c) :
    (∀ t, ContinuousVAt (fun s => o.relativePosition C s none true) t) ↔ ∀ t, |(o.relativeAcceleration t).z| < 1.0e-10 := by
  have B := built_of_init h
  constructor
  · intro hall
    by_contra hcon
    push Not at hcon
    obtain ⟨t₂, ht₂⟩ := hcon
    obtain ⟨t, h1, h2⟩ := exists_switch B hp ht₂
    exact C112_jump C A o h hp hslow t h1 h2 (hall t)
  · intro hall t
    exact C112_continuous_partial C A o h hp hslow t (hall t).ne

/-- **C112** (how large the jumps are): at a switch the two formulas for the time at which the planet is shown differ by at most
`¾ 10⁻¹⁰ d² / c`, where `d` is the delay. -/
theorem C112_jump_size (C : Consts) (A : Args) (o : Orbit) (h : keplerianInit C A = .ok o) (hp : o.Physical)
    (hslow : 3 * o.topSpeed o.a ≤ C.c) (t : ℝ) (ht : |(o.relativeAcceleration t).z| = 1.0e-10) (d₁ : ℝ)
    (hd₁ : C.c * d₁ = -((o.relativePosition C t).z - (o.relativeVelocity t).z * d₁)) :
    ∃ d, o.relativePosition C t none true = o.relativePosition C (t - d) ∧ d ≠ d₁ ∧ |d - d₁| ≤ 3 / 4 * 1.0e-10 / C.c * d ^ 2 := by
  have B := built_of_init h
  have hpos := (delayed_eq B hp hslow t).1
  obtain ⟨h1, -, h3⟩ := switch_differs B hp hslow ht d₁ (by rw [eq_div_iff hpos.ne']; linarith)
  exact ⟨_, rfl, h1, h3⟩

/-! ## A concrete orbit -/

/-- `KeplerianOrbit(a=10, period=1)` meets the hypotheses of the theorems above, and reaches the switch. -/
theorem plain_switches (C : Consts) (hc : 200 ≤ C.c) : ∃ o, keplerianInit C plainArgs = .ok o ∧ o.Physical ∧ 3 * o.topSpeed o.a ≤ C.c ∧
    1.0e-10 ≤ |(o.relativeAcceleration o.t0).z| := by
  obtain ⟨o, h, hp, hP, ha, he, hs, -⟩ := plainArgs_ok C
  have B := built_of_init h
  have h3 := pi_gt_d2
  have h4 := pi_lt_d2
  have hev : o.eccVal = 0 := by simp [Orbit.eccVal, he]
  have hr : o.Regular := by simp [Orbit.Regular, he]
  have ha0 : -o.a ≠ 0 := neg_ne_zero.2 hp.a_pos.ne'
  have hW : o.retardedAz C (-o.a) o.t0 = (o.relativeAcceleration o.t0).z := retardedAz_eq B hp _ _ _ ha0 (B.K_rel hp)
  refine ⟨o, h, hp, ?_, ?_⟩
  · unfold Orbit.topSpeed
    rw [hev, hP, ha]
    simp
    linarith
  · rw [← hW, (Built.circular_forms B hp hr hev (-o.a) o.t0).2.2.2 ha0, B.n_eq, hP, ha, hs]
    simp only [sub_self, mul_zero, cos_zero]
    rw [abs_of_nonpos (by nlinarith [sq_nonneg π])]
    norm_num
    nlinarith

/-- **C112 is false of the code**: the light-delayed position of `KeplerianOrbit(a=10, period=1)` is not continuous in time. -/
theorem C112_counterexample (C : Consts) (hc : 200 ≤ C.c) : ∃ o t, keplerianInit C plainArgs = .ok o ∧ o.Physical ∧
    |(o.relativeAcceleration t).z| = 1.0e-10 ∧ ¬ ContinuousVAt (fun s => o.relativePosition C s none true) t := by
  obtain ⟨o, h, hp, hslow, hbig⟩ := plain_switches C hc
  have hno : ¬ ∀ t, ContinuousVAt (fun s => o.relativePosition C s none true) t := fun hall =>
    not_lt.2 hbig ((C112_continuous_iff C plainArgs o h hp hslow).1 hall o.t0)
  push Not at hno
  obtain ⟨t, ht⟩ := hno
  refine ⟨o, t, h, hp, ?_, ht⟩
  by_contra hne
  exact ht (C112_continuous_partial C plainArgs o h hp hslow t hne)

/-- `C112_continuous_partial` applies to that orbit at mid-transit and whenever the planet is in the plane of the sky. -/
example (C : Consts) (hc : 200 ≤ C.c) : ∃ o t, keplerianInit C plainArgs = .ok o ∧ o.Physical ∧ 3 * o.topSpeed o.a ≤ C.c ∧
    |(o.relativeAcceleration t).z| ≠ 1.0e-10 := by
  obtain ⟨o, h, hp, hslow, -⟩ := plain_switches C hc
  obtain ⟨t, ht⟩ := exists_az_zero (built_of_init h) hp
  exact ⟨o, t, h, hp, hslow, by rw [ht, abs_zero]; norm_num⟩

/-- The hypotheses of `C112_jump` and `C112_jump_size` are met somewhere on that orbit. -/
example (C : Consts) (hc : 200 ≤ C.c) : ∃ o t d₁, keplerianInit C plainArgs = .ok o ∧ o.Physical ∧ 3 * o.topSpeed o.a ≤ C.c ∧
    |(o.relativeAcceleration t).z| = 1.0e-10 ∧ (∃ᶠ s in 𝓝 t, |(o.relativeAcceleration s).z| < 1.0e-10) ∧
    C.c * d₁ = -((o.relativePosition C t).z - (o.relativeVelocity t).z * d₁) := by
  obtain ⟨o, h, hp, hslow, hbig⟩ := plain_switches C hc
  have B := built_of_init h
  obtain ⟨t, h1, h2⟩ := exists_switch B hp hbig
  have hpos := (delayed_eq B hp hslow t).1
  refine ⟨o, t, -(o.relativePosition C t).z / (C.c - (o.relativeVelocity t).z), h, hp, hslow, h1, h2, ?_⟩
  have := div_mul_cancel₀ (-(o.relativePosition C t).z) hpos.ne'
  linear_combination this

end Exo
