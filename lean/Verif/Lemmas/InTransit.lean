import Verif.Model.InTransit
import Verif.Spec.Transit
import Verif.Lemmas.Motion2
import Mathlib.Data.List.GetD

/-!
# Lemmas on `in_transit`
-/

namespace Exo
open Real

theorem pymod_nonneg {x p : ℝ} (hp : 0 < p) : 0 ≤ pymod x p := by
  unfold pymod
  have := Int.floor_le (x / p)
  rw [le_div_iff₀ hp] at this
  linarith

theorem pymod_lt {x p : ℝ} (hp : 0 < p) : pymod x p < p := by
  unfold pymod
  have := Int.lt_floor_add_one (x / p)
  rw [div_lt_iff₀ hp] at this
  linarith

theorem pymod_eq {x p y : ℝ} (hp : 0 < p) (h0 : 0 ≤ y) (h1 : y < p) (k : ℤ) (h : x = y + k * p) : pymod x p = y := by
  unfold pymod
  have hk : ⌊x / p⌋ = k := by
    rw [Int.floor_eq_iff]
    constructor
    · rw [le_div_iff₀ hp]; linarith
    · rw [div_lt_iff₀ hp]; linarith
  rw [hk]; linarith

theorem pymod_spec (x p : ℝ) : ∃ k : ℤ, x = pymod x p + k * p := ⟨⌊x / p⌋, by unfold pymod; ring⟩

theorem pymod_add_int {x p : ℝ} (hp : 0 < p) (k : ℤ) : pymod (x + k * p) p = pymod x p := by
  obtain ⟨j, hj⟩ := pymod_spec x p
  refine pymod_eq hp (pymod_nonneg hp) (pymod_lt hp) (j + k) ?_
  push_cast
  linarith

/-- Wrapping into `[-p/2, p/2)`. -/
noncomputable def wrap (x p : ℝ) : ℝ := pymod (x + 0.5 * p) p - 0.5 * p

theorem wrap_ge {x p : ℝ} (hp : 0 < p) : -(p / 2) ≤ wrap x p := by
  have := pymod_nonneg (x := x + 0.5 * p) hp
  unfold wrap; linarith
theorem wrap_lt {x p : ℝ} (hp : 0 < p) : wrap x p < p / 2 := by
  have := pymod_lt (x := x + 0.5 * p) hp
  unfold wrap; linarith
theorem wrap_spec (x p : ℝ) : ∃ k : ℤ, x = wrap x p + k * p := by
  obtain ⟨k, hk⟩ := pymod_spec (x + 0.5 * p) p
  exact ⟨k, by unfold wrap; linarith⟩
theorem wrap_eq {x p y : ℝ} (hp : 0 < p) (h0 : -(p / 2) ≤ y) (h1 : y < p / 2) (k : ℤ) (h : x = y + k * p) :
    wrap x p = y := by
  have : pymod (x + 0.5 * p) p = y + 0.5 * p :=
    pymod_eq hp (by linarith) (by linarith) k (by linarith)
  unfold wrap; linarith
theorem wrap_add_int {x p : ℝ} (hp : 0 < p) (k : ℤ) : wrap (x + k * p) p = wrap x p := by
  unfold wrap
  rw [show x + k * p + 0.5 * p = (x + 0.5 * p) + k * p by ring, pymod_add_int hp]

theorem Orbit.sinceTransit_eq (o : Orbit) (t : ℝ) : o.sinceTransit t = wrap (o.warp t) o.period := rfl

/-- A window inside one half period on both sides contains the wrapped time iff the time is in the periodic window. -/
theorem wrap_mem_iff {x p s e : ℝ} (hp : 0 < p) (hs : -(p / 2) ≤ s) (he : e < p / 2) :
    (s ≤ wrap x p ∧ wrap x p ≤ e) ↔ InPeriodicWindow p s e x := by
  obtain ⟨k, hk⟩ := wrap_spec x p
  constructor
  · rintro ⟨h1, h2⟩
    exact ⟨k, by linarith, by linarith⟩
  · rintro ⟨j, h1, h2⟩
    have : wrap x p = x - j * p := wrap_eq hp (by linarith) (by linarith) j (by ring)
    rw [this]
    exact ⟨by linarith, by linarith⟩

/-- In any case the wrapped time is in the window when the time is in the periodic window, provided the window
covers the whole period as soon as it sticks out. -/
theorem wrap_mem_symm {x p e : ℝ} (hp : 0 < p) :
    InPeriodicWindow p (-e) e x → (-e ≤ wrap x p ∧ wrap x p ≤ e) := by
  intro h
  by_cases he : e < p / 2
  · exact (wrap_mem_iff hp (by linarith) he).2 h
  · exact ⟨by linarith [wrap_ge (x := x) hp], by linarith [wrap_lt (x := x) hp]⟩

/-! ## Geometry of a circular orbit -/

theorem Built.sep_circ {C : Consts} {A : Args} {o : Orbit} (B : Built C A o) (hp : o.Physical) (hc : o.ecc = none)
    (t : ℝ) :
    (o.relativePosition C t).x ^ 2 + (o.relativePosition C t).y ^ 2 =
      (o.b * o.r_star) ^ 2 + (o.a * o.sin_incl) ^ 2 * sin (o.n * (t - o.t0)) ^ 2 ∧
    (o.relativePosition C t).z = o.a * o.sin_incl * cos (o.n * (t - o.t0)) := by
  have hev : o.eccVal = 0 := by simp [Orbit.eccVal, hc]
  have hcw : o.cw = 1 := by simp [Orbit.cw, hc]
  have hsw : o.sw = 0 := by simp [Orbit.sw, hc]
  have hse : o.se = 1 := by simp [Orbit.se, hev]
  have hM0 : o.M0 = π / 2 := by rw [B.M0_eq, hc, M0Of]; ring
  have hn := (B.n_pos hp).ne'
  have hM : o.meanAnom t = o.n * (t - o.t0) + π / 2 := by
    rw [B.meanAnom_eq, B.t0_eq, hM0]; field_simp; ring
  have hE : o.E t = o.n * (t - o.t0) + π / 2 := by
    unfold Orbit.E; rw [hev, eccAnomaly_zero_ecc, hM]
  have hpos : o.relativePosition C t = o.rotate (-o.a * (cos (o.E t) - o.eccVal)) (-o.a * (o.se * sin (o.E t))) :=
    Orbit.positionNow_eq hp.eccOk C (-o.a) t
  have hW := o.Omega_sq
  have hi := B.incl_sq hp
  have hb : o.a * o.cos_incl = o.b * o.r_star := by
    rw [B.cos_incl_b hp, B.dcosidb_eq, hc, inclFactorOf]
    have := hp.a_pos.ne'
    field_simp
  rw [hpos, Orbit.rotate_eq, hE, hev, hcw, hsw, hse, cos_add_pi_div_two, sin_add_pi_div_two]
  simp only
  set φ := o.n * (t - o.t0)
  have hφ := sin_sq_add_cos_sq φ
  constructor
  · rw [← hb]
    linear_combination (o.a ^ 2 * sin φ ^ 2 + o.a ^ 2 * o.cos_incl ^ 2 * cos φ ^ 2) * hW +
      o.a ^ 2 * o.cos_incl ^ 2 * hφ - o.a ^ 2 * sin φ ^ 2 * hi
  · ring

theorem Built.sin_incl_rel {C : Consts} {A : Args} {o : Orbit} (B : Built C A o) (hp : o.Physical) (hc : o.ecc = none) :
    (o.a * o.sin_incl) ^ 2 + (o.b * o.r_star) ^ 2 = o.a ^ 2 := by
  have hi := B.incl_sq hp
  have hb : o.a * o.cos_incl = o.b * o.r_star := by
    rw [B.cos_incl_b hp, B.dcosidb_eq, hc, inclFactorOf]
    have := hp.a_pos.ne'
    field_simp
  rw [← hb]
  linear_combination o.a ^ 2 * hi

/-- `|θ| ≤ arcsin s` iff `cos θ ≥ 0` and `|sin θ| ≤ s`, for `θ ∈ [-π, π)`. -/
theorem abs_le_arcsin_iff {θ s : ℝ} (h0 : -π ≤ θ) (h1 : θ < π) (hs0 : 0 ≤ s) (hs1 : s ≤ 1) :
    (-arcsin s ≤ θ ∧ θ ≤ arcsin s) ↔ (0 ≤ cos θ ∧ sin θ ^ 2 ≤ s ^ 2) := by
  have hpi := pi_pos
  have ha := arcsin_le_pi_div_two s
  constructor
  · rintro ⟨h2, h3⟩
    refine ⟨cos_nonneg_of_neg_pi_div_two_le_of_le (by linarith) (by linarith), ?_⟩
    have h4 : sin θ ≤ s := by
      rw [← sin_arcsin (by linarith) hs1]
      exact sin_le_sin_of_le_of_le_pi_div_two (by linarith) ha h3
    have h5 : -s ≤ sin θ := by
      rw [← sin_arcsin (by linarith : -1 ≤ s) hs1, ← sin_neg]
      exact sin_le_sin_of_le_of_le_pi_div_two (by linarith) (by linarith) h2
    nlinarith
  · rintro ⟨hc, hs⟩
    have hθ : -(π / 2) ≤ θ ∧ θ ≤ π / 2 := by
      constructor
      · by_contra hcon
        push Not at hcon
        have := cos_neg_of_pi_div_two_lt_of_lt (x := -θ) (by linarith) (by linarith)
        rw [cos_neg] at this
        linarith
      · by_contra hcon
        push Not at hcon
        have := cos_neg_of_pi_div_two_lt_of_lt hcon (by linarith)
        linarith
    have h6 := abs_le_of_sq_le_sq' hs hs0
    constructor
    · rw [← arcsin_neg, ← arcsin_sin hθ.1 hθ.2]
      exact monotone_arcsin h6.1
    · rw [← arcsin_sin hθ.1 hθ.2]
      exact monotone_arcsin h6.2

/-- Wrapping the time commutes with the phase. -/
theorem Built.phase_wrap {C : Consts} {A : Args} {o : Orbit} (B : Built C A o) (hp : o.Physical) (t : ℝ) :
    cos (o.n * (t - o.t0)) = cos (o.n * o.sinceTransit t) ∧ sin (o.n * (t - o.t0)) = sin (o.n * o.sinceTransit t) := by
  obtain ⟨k, hk⟩ := wrap_spec (o.warp t) o.period
  rw [B.warp_eq] at hk
  have hnP := B.n_mul_period hp
  have : o.n * (t - o.t0) = o.n * o.sinceTransit t + k * (2 * π) := by
    rw [hk, Orbit.sinceTransit_eq, B.warp_eq, ← hnP]; ring
  rw [this, cos_add_int_mul_two_pi, sin_add_int_mul_two_pi]
  exact ⟨rfl, rfl⟩

/-- The code's half duration and the geometry (circular orbits). -/
theorem Built.overlap_circ {C : Consts} {A : Args} {o : Orbit} (B : Built C A o) (hp : o.Physical) (hc : o.ecc = none)
    (hsi : 0 < o.sin_incl) (r : ℝ) (hr : 0 ≤ r) (ha : o.r_star + r ≤ o.a) :
    (|o.b| > 1 + r / o.r_star → o.halfDuration r = none ∧ ∀ t, ¬ Overlaps C o r t) ∧
    (|o.b| ≤ 1 + r / o.r_star → ∃ h, o.halfDuration r = some h ∧ 0 ≤ h ∧ h ≤ o.period / 4 ∧
      ∀ t, Overlaps C o r t ↔ (-h ≤ o.sinceTransit t ∧ o.sinceTransit t ≤ h)) := by
  have hR := hp.r_star_pos
  have hap := hp.a_pos
  have hP := hp.period_pos
  have hpi := pi_pos
  have hk0 : 0 ≤ r / o.r_star := by positivity
  have hL : o.r_star + r = o.r_star * (1 + r / o.r_star) := by field_simp
  have hLn : 0 ≤ o.r_star + r := by positivity
  have hasi : 0 < o.a * o.sin_incl := by positivity
  have hrel := B.sin_incl_rel hp hc
  have hOv : ∀ t, Overlaps C o r t ↔ (0 ≤ cos (o.n * (t - o.t0)) ∧
      (o.b * o.r_star) ^ 2 + (o.a * o.sin_incl) ^ 2 * sin (o.n * (t - o.t0)) ^ 2 ≤ (o.r_star + r) ^ 2) := by
    intro t
    obtain ⟨h1, h2⟩ := B.sep_circ hp hc t
    unfold Overlaps
    rw [h1, h2]
    refine and_congr ?_ ?_
    · constructor
      · intro h; exact nonneg_of_mul_nonneg_right h hasi
      · intro h; positivity
    · rw [sqrt_le_left hLn]
  constructor
  · intro hb
    have hb2 : (1 + r / o.r_star) ^ 2 < o.b ^ 2 := by
      rw [← sq_abs o.b]; exact pow_lt_pow_left₀ hb (by positivity) (by norm_num)
    constructor
    · unfold Orbit.halfDuration
      simp only
      rw [if_pos]
      left; linarith
    · intro t ht
      have h1 := ((hOv t).1 ht).2
      have h2 : (o.r_star + r) ^ 2 < (o.b * o.r_star) ^ 2 := by
        rw [hL, mul_pow, mul_pow, mul_comm]
        exact mul_lt_mul_of_pos_right hb2 (by positivity)
      have h3 : 0 ≤ (o.a * o.sin_incl) ^ 2 * sin (o.n * (t - o.t0)) ^ 2 := by positivity
      linarith
  · intro hb
    have hb2 : o.b ^ 2 ≤ (1 + r / o.r_star) ^ 2 := by
      rw [← sq_abs o.b]; exact pow_le_pow_left₀ (abs_nonneg _) hb 2
    set arg := (1 + r / o.r_star) ^ 2 - o.b ^ 2 with harg
    have harg0 : 0 ≤ arg := by linarith
    set s := o.r_star / (o.a * o.sin_incl) * √arg with hs
    have hs0 : 0 ≤ s := by positivity
    have hs2 : (o.a * o.sin_incl) ^ 2 * s ^ 2 = (o.r_star + r) ^ 2 - (o.b * o.r_star) ^ 2 := by
      rw [hs, mul_pow (o.r_star / _), sq_sqrt harg0, harg, hL]
      field_simp
    have hs1 : s ≤ 1 := by
      have h1 : (o.a * o.sin_incl) ^ 2 * s ^ 2 ≤ (o.a * o.sin_incl) ^ 2 * 1 := by
        rw [hs2]
        have : (o.r_star + r) ^ 2 ≤ o.a ^ 2 := pow_le_pow_left₀ hLn ha 2
        linarith
      have h2 : s ^ 2 ≤ 1 := le_of_mul_le_mul_left h1 (by positivity)
      nlinarith
    have hhd : o.halfDuration r = some (0.5 * o.period * arcsin s / π) := by
      unfold Orbit.halfDuration
      simp only
      rw [if_neg]
      push Not
      exact ⟨harg0, hasi.ne', by rw [abs_of_nonneg hs0]; exact hs1⟩
    have has0 : 0 ≤ arcsin s := arcsin_nonneg.2 hs0
    refine ⟨_, hhd, by positivity, ?_, ?_⟩
    · rw [div_le_iff₀ hpi]
      have := arcsin_le_pi_div_two s
      nlinarith
    · intro t
      rw [hOv, (B.phase_wrap hp t).1, (B.phase_wrap hp t).2]
      have hn := B.n_pos hp
      have hnP := B.n_mul_period hp
      have hw0 := wrap_ge (x := o.warp t) hP
      have hw1 := wrap_lt (x := o.warp t) hP
      rw [← Orbit.sinceTransit_eq] at hw0 hw1
      set dt := o.sinceTransit t
      have hθ0 : -π ≤ o.n * dt := by nlinarith
      have hθ1 : o.n * dt < π := by nlinarith
      have key := abs_le_arcsin_iff hθ0 hθ1 hs0 hs1
      have e1 : (o.b * o.r_star) ^ 2 + (o.a * o.sin_incl) ^ 2 * sin (o.n * dt) ^ 2 ≤ (o.r_star + r) ^ 2 ↔
          sin (o.n * dt) ^ 2 ≤ s ^ 2 := by
        constructor
        · intro h
          have : (o.a * o.sin_incl) ^ 2 * sin (o.n * dt) ^ 2 ≤ (o.a * o.sin_incl) ^ 2 * s ^ 2 := by linarith
          exact le_of_mul_le_mul_left this (by positivity)
        · intro h
          have : (o.a * o.sin_incl) ^ 2 * sin (o.n * dt) ^ 2 ≤ (o.a * o.sin_incl) ^ 2 * s ^ 2 :=
            mul_le_mul_of_nonneg_left h (by positivity)
          linarith
      rw [e1, ← key]
      have e2 : o.n * (0.5 * o.period * arcsin s / π) = arcsin s := by
        rw [show o.n * (0.5 * o.period * arcsin s / π) = (o.n * o.period) * (0.5 * arcsin s / π) by ring, hnP]
        field_simp; ring
      constructor
      · rintro ⟨h1, h2⟩
        constructor
        · refine le_of_mul_le_mul_left ?_ hn
          rw [mul_neg, e2]; exact h1
        · refine le_of_mul_le_mul_left ?_ hn
          rw [e2]; exact h2
      · rintro ⟨h1, h2⟩
        have h3 := mul_le_mul_of_nonneg_left h1 hn.le
        have h4 := mul_le_mul_of_nonneg_left h2 hn.le
        rw [mul_neg, e2] at h3
        rw [e2] at h4
        exact ⟨h3, h4⟩

/-! ## Membership -/

theorem bcast_map {α β γ δ : Type} (f : α → β → γ) (g : δ → α) (h : δ → β) (l : List δ) :
    bcast f (l.map g) (l.map h) = .ok (l.map (fun x => f (g x) (h x))) := by
  unfold bcast
  rw [if_pos (by simp)]
  congr 1
  induction l with
  | nil => rfl
  | cons a l ih => simp [ih]

/-- The effective half exposure (scalar exposure times). -/
noncomputable def Texp.half : Texp → ℝ
  | .scalar x => 0.5 * x
  | _ => 0

/-- No exposure time or a scalar one. -/
def Texp.Scalar : Texp → Prop
  | .vector _ => False
  | _ => True

/-- The window of a planet after widening. -/
noncomputable def widened (w : Option (ℝ × ℝ)) (texp : Texp) : Option (ℝ × ℝ) :=
  w.map (fun w => (w.1 - texp.half, w.2 + texp.half))

theorem inTransit_eq (cp : ContactOp) (planets : List (Orbit × ℝ)) (ts : List ℝ) (texp : Texp) (hs : texp.Scalar) :
    ∃ l, inTransit cp planets ts texp = .ok l ∧ l.Pairwise (· < ·) ∧ ∀ i, i ∈ l ↔ ∃ h : i < ts.length,
      (∃ p ∈ planets, (p.1.transitWindow cp p.2).2 ≠ 0) ∨
      (∃ p ∈ planets, ∃ w, (p.1.transitWindow cp p.2).1 = some w ∧
        w.1 - texp.half ≤ p.1.sinceTransit ts[i] ∧ p.1.sinceTransit ts[i] ≤ w.2 + texp.half) := by
  have hw : widenAll ((planets.map (fun p => p.1.transitWindow cp p.2)).map Prod.fst) texp =
      .ok (planets.map (fun p => widened (p.1.transitWindow cp p.2).1 texp)) := by
    rcases texp with _ | x | v
    · simp only [widenAll, List.map_map]
      congr 1
      refine List.map_congr_left fun p _ => ?_
      simp only [Function.comp, widened, Texp.half]
      cases (p.1.transitWindow cp p.2).1 <;> simp
    · simp only [widenAll, List.map_map]
      rfl
    · exact absurd hs id
  have hmask : ∀ p : Orbit × ℝ, ∀ t, inWindow (p.1.sinceTransit t) (widened (p.1.transitWindow cp p.2).1 texp) = true ↔
      ∃ w, (p.1.transitWindow cp p.2).1 = some w ∧
        w.1 - texp.half ≤ p.1.sinceTransit t ∧ p.1.sinceTransit t ≤ w.2 + texp.half := by
    intro p t
    rcases (p.1.transitWindow cp p.2).1 with _ | w <;> simp [inWindow, widened]
  unfold inTransit
  simp only [Bool.false_eq_true, if_false, hw]
  have hb1 := bcast_map (fun (_ : Orbit × ℝ) (_ : Option (ℝ × ℝ)) => ()) (fun p : Orbit × ℝ => p)
    (fun p : Orbit × ℝ => widened (p.1.transitWindow cp p.2).1 texp) planets
  rw [List.map_id'] at hb1
  rw [hb1]
  simp only [bcast_map]
  by_cases hall : ((planets.map (fun p => p.1.transitWindow cp p.2)).all fun x => decide (x.2 = 0)) = true
  · rw [if_pos hall]
    refine ⟨_, rfl, List.pairwise_lt_range.filter _, fun i => ?_⟩
    have hz : ¬ ∃ p ∈ planets, (p.1.transitWindow cp p.2).2 ≠ 0 := by
      rintro ⟨p, hp, hne⟩
      rw [List.all_eq_true] at hall
      have := hall _ (List.mem_map.2 ⟨p, hp, rfl⟩)
      exact hne (of_decide_eq_true this)
    rw [List.mem_filter, List.mem_range]
    constructor
    · rintro ⟨hi, hm⟩
      refine ⟨hi, Or.inr ?_⟩
      rw [List.getD_eq_getElem _ _ (by simpa using hi)] at hm
      simp only [List.getElem_map, List.any_map, List.any_eq_true, Function.comp, id] at hm
      obtain ⟨p, hp, hin⟩ := hm
      exact ⟨p, hp, (hmask p _).1 hin⟩
    · rintro ⟨hi, h | ⟨p, hp, hin⟩⟩
      · exact absurd h hz
      · refine ⟨hi, ?_⟩
        rw [List.getD_eq_getElem _ _ (by simpa using hi)]
        simp only [List.getElem_map, List.any_map, List.any_eq_true, Function.comp, id]
        exact ⟨p, hp, (hmask p _).2 hin⟩
  · rw [if_neg hall]
    refine ⟨_, rfl, List.pairwise_lt_range, fun i => ?_⟩
    have hz : ∃ p ∈ planets, (p.1.transitWindow cp p.2).2 ≠ 0 := by
      by_contra hcon
      push Not at hcon
      apply hall
      rw [List.all_eq_true]
      intro x hx
      obtain ⟨p, hp, rfl⟩ := List.mem_map.1 hx
      exact decide_eq_true (hcon p hp)
    rw [List.mem_range]
    exact ⟨fun hi => ⟨hi, Or.inl hz⟩, fun ⟨hi, _⟩ => hi⟩

end Exo
