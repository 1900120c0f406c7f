import Verif.Lemmas.InTransit
import Verif.Props.LightDelay

/-!
# C21-C23 and the `in_transit` part of C12
-/

namespace Exo
open Real

/-! ## Vocabulary -/

/-- The compiled contact-point solver did its job for this planet: no failure flag, and its two mean anomalies are (up to
whole turns) those of the first contact `s1` and last contact `s2` of the transit at `t0`; between the contacts (and their
periodic repetitions), and only there, the discs overlap. The transit is shorter than half a period on either side. -/
structure ContactsCorrect (C : Consts) (o : Orbit) (r : ℝ) (c : Contact) (s1 s2 : ℝ) : Prop where
  flag : c.flag = 0
  left : ∃ k : ℤ, c.left = o.n * (s1 - o.t_periastron) + k * (2 * π)
  right : ∃ k : ℤ, c.right = o.n * (s2 - o.t_periastron) + k * (2 * π)
  first_ge : o.t0 - o.period / 2 ≤ s1
  first_le : s1 ≤ o.t0
  last_ge : o.t0 ≤ s2
  last_lt : s2 < o.t0 + o.period / 2
  exact : ∀ t, Overlaps C o r t ↔ InPeriodicWindow o.period s1 s2 t

/-- The call to the compiled op that `in_transit` makes for a planet on an eccentric orbit (`keplerian.py:744-752`). -/
def contactCall (cp : ContactOp) (o : Orbit) (p : EccParams) (r : ℝ) : Contact :=
  cp o.a p.ecc p.cos_omega p.sin_omega o.cos_incl o.sin_incl (o.r_star + r)

/-- A planet for which exactness is claimed: on a circular orbit, outside the star and not exactly face-on; or on an
eccentric orbit for which the compiled solver is right and transit plus exposure time `x` fit into half a period on
either side of `t0`. -/
def Tractable (C : Consts) (cp : ContactOp) (o : Orbit) (r : ℝ) (x : ℝ := 0) : Prop :=
  (∃ A, keplerianInit C A = .ok o) ∧ o.Physical ∧ 0 ≤ r ∧
  match o.ecc with
  | none => 0 < o.sin_incl ∧ o.r_star + r ≤ o.a
  | some p => ∃ s1 s2, ContactsCorrect C o r (contactCall cp o p r) s1 s2 ∧
      o.t0 - o.period / 2 ≤ s1 - x / 2 ∧ s2 + x / 2 < o.t0 + o.period / 2

/-! ## Helper: the window computed by the code -/

/-- The window computed by the code is the set of overlap times. -/
structure Resolved (C : Consts) (cp : ContactOp) (o : Orbit) (r : ℝ) (w : Option (ℝ × ℝ)) : Prop where
  window : o.transitWindow cp r = (w, 0)
  within : ∀ s e, w = some (s, e) → -(o.period / 2) ≤ s ∧ s ≤ 0 ∧ 0 ≤ e ∧ e < o.period / 2
  overlap : ∀ t, Overlaps C o r t ↔ ∃ s e, w = some (s, e) ∧ s ≤ o.sinceTransit t ∧ o.sinceTransit t ≤ e

theorem Tractable.resolved {C : Consts} {cp : ContactOp} {o : Orbit} {r x : ℝ} (h : Tractable C cp o r x) :
    ∃ w, Resolved C cp o r w ∧ ∀ s e, w = some (s, e) → s = -e ∨
      (-(o.period / 2) ≤ s - x / 2 ∧ e + x / 2 < o.period / 2) := by
  obtain ⟨⟨A, hA⟩, hp, hr, hm⟩ := h
  have B := built_of_init hA
  have hP := hp.period_pos
  rcases hc : o.ecc with _ | p
  · rw [hc] at hm
    obtain ⟨hsi, ha⟩ := hm
    obtain ⟨h1, h2⟩ := B.overlap_circ hp hc hsi r hr ha
    by_cases hb : |o.b| ≤ 1 + r / o.r_star
    · obtain ⟨d, hd, hd0, hd4, hov⟩ := h2 hb
      refine ⟨some (-d, d), ⟨?_, ?_, ?_⟩, ?_⟩
      · unfold Orbit.transitWindow; rw [hc]; simp only [hd]
      · intro s e he
        simp only [Option.some.injEq, Prod.mk.injEq] at he
        obtain ⟨rfl, rfl⟩ := he
        exact ⟨by linarith, by linarith, hd0, by linarith⟩
      · intro t
        rw [hov]
        constructor
        · intro hh; exact ⟨_, _, rfl, hh⟩
        · rintro ⟨s, e, he, hh⟩
          simp only [Option.some.injEq, Prod.mk.injEq] at he
          obtain ⟨rfl, rfl⟩ := he
          exact hh
      · intro s e he
        simp only [Option.some.injEq, Prod.mk.injEq] at he
        left
        rw [← he.1, ← he.2]
    · obtain ⟨hd, hov⟩ := h1 (not_le.1 hb)
      refine ⟨none, ⟨?_, ?_, ?_⟩, ?_⟩
      · unfold Orbit.transitWindow; rw [hc]; simp only [hd]
      · intro s e he; cases he
      · intro t
        constructor
        · intro hh; exact absurd hh (hov t)
        · rintro ⟨s, e, he, hh⟩; cases he
      · intro s e he; cases he
  · rw [hc] at hm
    obtain ⟨s1, s2, K, hx1, hx2⟩ := hm
    have hn := B.n_pos hp
    have hnP := B.n_mul_period hp
    have ht0 := B.t0_eq
    have conv : ∀ (m s : ℝ), (∃ k : ℤ, m = o.n * (s - o.t_periastron) + k * (2 * π)) →
        ∃ k : ℤ, (m - o.M0) / o.n = (s - o.t0) + k * o.period := by
      rintro m s ⟨k, hk⟩
      refine ⟨k, ?_⟩
      rw [div_eq_iff hn.ne', hk, ht0, ← hnP]
      field_simp
      ring
    obtain ⟨k1, hk1⟩ := conv _ _ K.left
    obtain ⟨k2, hk2⟩ := conv _ _ K.right
    have w1 : wrap (((contactCall cp o p r).left - o.M0) / o.n) o.period = s1 - o.t0 :=
      wrap_eq hP (by linarith [K.first_ge]) (by linarith [K.first_le]) k1 hk1
    have w2 : wrap (((contactCall cp o p r).right - o.M0) / o.n) o.period = s2 - o.t0 :=
      wrap_eq hP (by linarith [K.last_ge]) (by linarith [K.last_lt]) k2 hk2
    have hwin : o.transitWindow cp r = (some (s1 - o.t0, s2 - o.t0), 0) := by
      unfold Orbit.transitWindow
      rw [hc]
      change (some (_, _), (contactCall cp o p r).flag) = _
      rw [K.flag]
      change (some ((if wrap (((contactCall cp o p r).left - o.M0) / o.n) o.period > 0 then _ else _),
        (if wrap (((contactCall cp o p r).right - o.M0) / o.n) o.period < 0 then _ else _)), (0 : ℤ)) = _
      rw [w1, w2, if_neg (by linarith [K.first_le]), if_neg (by linarith [K.last_ge])]
      change (some (wrap (((contactCall cp o p r).left - o.M0) / o.n) o.period,
        wrap (((contactCall cp o p r).right - o.M0) / o.n) o.period), (0 : ℤ)) = _
      rw [w1, w2]
    refine ⟨some (s1 - o.t0, s2 - o.t0), ⟨hwin, ?_, ?_⟩, ?_⟩
    · intro s e he
      simp only [Option.some.injEq, Prod.mk.injEq] at he
      obtain ⟨rfl, rfl⟩ := he
      exact ⟨by linarith [K.first_ge], by linarith [K.first_le], by linarith [K.last_ge], by linarith [K.last_lt]⟩
    · intro t
      have h1 : Overlaps C o r t ↔ (s1 - o.t0 ≤ o.sinceTransit t ∧ o.sinceTransit t ≤ s2 - o.t0) := by
        rw [K.exact, Orbit.sinceTransit_eq, wrap_mem_iff hP (by linarith [K.first_ge]) (by linarith [K.last_lt]),
          B.warp_eq]
        constructor
        · rintro ⟨k, a1, a2⟩; exact ⟨k, by linarith, by linarith⟩
        · rintro ⟨k, a1, a2⟩; exact ⟨k, by linarith, by linarith⟩
      rw [h1]
      constructor
      · intro hh; exact ⟨_, _, rfl, hh⟩
      · rintro ⟨s, e, he, hh⟩
        simp only [Option.some.injEq, Prod.mk.injEq] at he
        obtain ⟨rfl, rfl⟩ := he
        exact hh
    · intro s e he
      simp only [Option.some.injEq, Prod.mk.injEq] at he
      obtain ⟨rfl, rfl⟩ := he
      right
      exact ⟨by linarith, by linarith⟩

theorem Resolved.unique {C : Consts} {cp : ContactOp} {o : Orbit} {r : ℝ} {w w' : Option (ℝ × ℝ)}
    (h : Resolved C cp o r w) (h' : Resolved C cp o r w') : w = w' := by
  have := h.window
  rw [h'.window] at this
  cases this
  rfl

theorem inTransit_exact (C : Consts) (cp : ContactOp) (planets : List (Orbit × ℝ))
    (hT : ∀ q ∈ planets, Tractable C cp q.1 q.2) (ts : List ℝ) :
    ∃ l, inTransit cp planets ts = .ok l ∧
      ∀ i, i ∈ l ↔ ∃ h : i < ts.length, ∃ q ∈ planets, Overlaps C q.1 q.2 ts[i] := by
  obtain ⟨l, hl, -, hmem⟩ := inTransit_eq cp planets ts .none trivial
  refine ⟨l, hl, fun i => ?_⟩
  rw [hmem]
  refine exists_congr fun hi => ?_
  simp only [Texp.half, sub_zero, add_zero]
  constructor
  · rintro (⟨q, hq, hf⟩ | ⟨q, hq, w, hw, h1, h2⟩)
    · obtain ⟨w, hR, -⟩ := (hT q hq).resolved
      rw [hR.window] at hf
      exact absurd rfl hf
    · obtain ⟨w', hR, -⟩ := (hT q hq).resolved
      rw [hR.window] at hw
      exact ⟨q, hq, (hR.overlap _).2 ⟨w.1, w.2, hw, h1, h2⟩⟩
  · rintro ⟨q, hq, ho⟩
    obtain ⟨w', hR, -⟩ := (hT q hq).resolved
    obtain ⟨s, e, hw, h1, h2⟩ := (hR.overlap _).1 ho
    exact Or.inr ⟨q, hq, (s, e), by rw [hR.window]; exact hw, h1, h2⟩

/-- With a scalar exposure time: exactly the exposures during which some planet overlaps the disc are returned. -/
theorem inTransit_exposure (C : Consts) (cp : ContactOp) (planets : List (Orbit × ℝ)) (x : ℝ) (hx : 0 ≤ x)
    (hT : ∀ q ∈ planets, Tractable C cp q.1 q.2 x) (ts : List ℝ) :
    ∃ l, inTransit cp planets ts (.scalar x) = .ok l ∧
      ∀ i, i ∈ l ↔ ∃ h : i < ts.length, ∃ q ∈ planets, ∃ u, -(x / 2) ≤ u ∧ u ≤ x / 2 ∧ Overlaps C q.1 q.2 (ts[i] + u) := by
  obtain ⟨l, hl, -, hmem⟩ := inTransit_eq cp planets ts (.scalar x) trivial
  refine ⟨l, hl, fun i => ?_⟩
  rw [hmem]
  refine exists_congr fun hi => ?_
  have hhalf : (Texp.scalar x).half = x / 2 := by simp only [Texp.half]; ring
  rw [hhalf]
  constructor
  · rintro (⟨q, hq, hf⟩ | ⟨q, hq, w, hw, h1, h2⟩)
    · obtain ⟨w, hR, -⟩ := (hT q hq).resolved
      rw [hR.window] at hf
      exact absurd rfl hf
    · obtain ⟨w', hR, -⟩ := (hT q hq).resolved
      rw [hR.window] at hw
      obtain ⟨⟨A, hA⟩, hp, -⟩ := hT q hq
      have B := built_of_init hA
      have hP := hp.period_pos
      obtain ⟨a1, a2, a3, a4⟩ := hR.within w.1 w.2 hw
      -- move the time into the window
      obtain ⟨u, hu1, hu2, hu3, hu4⟩ : ∃ u, -(x / 2) ≤ u ∧ u ≤ x / 2 ∧ w.1 ≤ q.1.sinceTransit ts[i] + u ∧
          q.1.sinceTransit ts[i] + u ≤ w.2 := by
        by_cases c1 : q.1.sinceTransit ts[i] < w.1
        · exact ⟨w.1 - q.1.sinceTransit ts[i], by linarith, by linarith, by linarith, by linarith⟩
        · by_cases c2 : w.2 < q.1.sinceTransit ts[i]
          · exact ⟨w.2 - q.1.sinceTransit ts[i], by linarith, by linarith, by linarith, by linarith⟩
          · exact ⟨0, by linarith, by linarith, by linarith, by linarith⟩
      refine ⟨q, hq, u, hu1, hu2, (hR.overlap _).2 ⟨w.1, w.2, hw, ?_⟩⟩
      obtain ⟨k, hk⟩ := wrap_spec (q.1.warp ts[i]) q.1.period
      have : q.1.sinceTransit (ts[i] + u) = q.1.sinceTransit ts[i] + u := by
        rw [Orbit.sinceTransit_eq]
        refine wrap_eq hP (by linarith) (by linarith) k ?_
        rw [← Orbit.sinceTransit_eq, B.warp_eq] at hk
        rw [B.warp_eq]
        linarith
      rw [this]
      exact ⟨hu3, hu4⟩
  · rintro ⟨q, hq, u, hu1, hu2, ho⟩
    obtain ⟨w, hR, hsym⟩ := (hT q hq).resolved
    obtain ⟨⟨A, hA⟩, hp, -⟩ := hT q hq
    have B := built_of_init hA
    have hP := hp.period_pos
    obtain ⟨s, e, hw, h1, h2⟩ := (hR.overlap _).1 ho
    refine Or.inr ⟨q, hq, (s, e), by rw [hR.window]; exact hw, ?_⟩
    obtain ⟨k, hk⟩ := wrap_spec (q.1.warp (ts[i] + u)) q.1.period
    rw [← Orbit.sinceTransit_eq, B.warp_eq] at hk
    have hin : InPeriodicWindow q.1.period (s - x / 2) (e + x / 2) (q.1.warp ts[i]) := by
      refine ⟨k, ?_, ?_⟩ <;> rw [B.warp_eq] <;> linarith
    rw [Orbit.sinceTransit_eq]
    rcases hsym s e hw with rfl | ⟨b1, b2⟩
    · have := wrap_mem_symm (e := e + x / 2) hP (by rw [show -(e + x / 2) = -e - x / 2 by ring]; exact hin)
      exact ⟨by linarith [this.1], this.2⟩
    · exact (wrap_mem_iff hP b1 b2).2 hin

/-! ## C21 -/

/-- **C21** (exact on circular orbits): if every planet is on a circular orbit, outside the star (`r_star + r ≤ a`) and not
seen exactly face-on, then `i` is returned iff some planet overlaps the stellar disc from the front at time `t[i]`.
(`0 ≤ z` in `Overlaps` may be replaced by `0 < z` when `r_star + r < a`, `C21_strictly_in_front`.) -/
theorem C21_exact_circular (C : Consts) (cp : ContactOp) (planets : List (Orbit × ℝ))
    (hbuilt : ∀ q ∈ planets, ∃ A, keplerianInit C A = .ok q.1) (hphys : ∀ q ∈ planets, q.1.Physical)
    (hcirc : ∀ q ∈ planets, q.1.ecc = none) (hface : ∀ q ∈ planets, 0 < q.1.sin_incl)
    (hr : ∀ q ∈ planets, 0 ≤ q.2) (hout : ∀ q ∈ planets, q.1.r_star + q.2 ≤ q.1.a) (ts : List ℝ) :
    ∃ l, inTransit cp planets ts = .ok l ∧
      ∀ i, i ∈ l ↔ ∃ h : i < ts.length, ∃ q ∈ planets,
        0 ≤ (q.1.relativePosition C ts[i]).z ∧
        √((q.1.relativePosition C ts[i]).x ^ 2 + (q.1.relativePosition C ts[i]).y ^ 2) ≤ q.1.r_star + q.2 := by
  refine inTransit_exact C cp planets (fun q hq => ⟨hbuilt q hq, hphys q hq, hr q hq, ?_⟩) ts
  rw [hcirc q hq]
  exact ⟨hface q hq, hout q hq⟩

/-- **C21**, remark: outside the star "in front" is strict. -/
theorem C21_strictly_in_front (C : Consts) (A : Args) (o : Orbit) (h : keplerianInit C A = .ok o) (hp : o.Physical)
    (hc : o.ecc = none) (r t : ℝ) (hr : 0 ≤ r) (ha : o.r_star + r < o.a) (ho : Overlaps C o r t) :
    0 < (o.relativePosition C t).z := by
  have B := built_of_init h
  rcases ho.1.eq_or_lt with h0 | h0
  · exfalso
    have h1 := B.sep_circ hp hc t
    have h2 := B.sin_incl_rel hp hc
    rw [h1.2] at h0
    have h3 := ho.2
    have hR := hp.r_star_pos
    have hap := hp.a_pos
    rw [sqrt_le_left (by positivity), h1.1] at h3
    have h4 := sin_sq_add_cos_sq (o.n * (t - o.t0))
    have h5 : (o.a * o.sin_incl) ^ 2 * cos (o.n * (t - o.t0)) ^ 2 = 0 := by
      rw [← mul_pow, ← h0]; ring
    have h6 : (o.b * o.r_star) ^ 2 + (o.a * o.sin_incl) ^ 2 * sin (o.n * (t - o.t0)) ^ 2 = o.a ^ 2 := by
      linear_combination h2 + (o.a * o.sin_incl) ^ 2 * h4 - h5
    rw [h6] at h3
    nlinarith
  · exact h0

/-- **C21** (grazing limit): a planet whose impact parameter exceeds `1 + r/r_star` is never reported. -/
theorem C21_never_beyond_limb (cp : ContactOp) (o : Orbit) (hc : o.ecc = none) (r : ℝ)
    (hb : (1 + r / o.r_star) ^ 2 < o.b ^ 2) (ts : List ℝ) (texp : Texp) (hs : texp.Scalar) :
    inTransit cp [(o, r)] ts texp = .ok [] := by
  have hw : o.transitWindow cp r = (none, 0) := by
    unfold Orbit.transitWindow Orbit.halfDuration
    rw [hc]
    simp only
    rw [if_pos (Or.inl (by linarith))]
  obtain ⟨l, hl, -, hmem⟩ := inTransit_eq cp [(o, r)] ts texp hs
  rw [hl]
  congr 1
  apply List.eq_nil_iff_forall_not_mem.2
  intro i hi
  obtain ⟨-, ⟨q, hq, hf⟩ | ⟨q, hq, w, hw', -⟩⟩ := (hmem i).1 hi
  · simp only [List.mem_singleton] at hq
    subst hq
    rw [hw] at hf
    exact hf rfl
  · simp only [List.mem_singleton] at hq
    subst hq
    rw [hw] at hw'
    cases hw'

/-- Hypotheses of C21 are met by `demoCirc` with radius 0.1. -/
theorem demoCirc_transits (C : Consts) : ∃ o, keplerianInit C demoCirc = .ok o ∧ o.Physical ∧ o.ecc = none ∧
    0 < o.sin_incl ∧ o.a = 10 ∧ o.r_star = 1 ∧ o.period = 1 ∧ o.t0 = 0 ∧ o.b = 1 / 2 := by
  obtain ⟨o, h, hp, ha, hP, hR, hb, ht, he, hm⟩ := demoCirc_ok C
  have B := built_of_init h
  refine ⟨o, h, hp, he, ?_, ha, hR, hP, ht, hb⟩
  have h1 := B.sin_incl_rel hp he
  have h2 : 0 ≤ o.sin_incl := by
    obtain ⟨mp, rho, D, -, -, hD, -, hi, -⟩ := B.inputs
    unfold durationBlock demoCirc at hD
    simp at hD
    subst hD
    unfold inclBlock demoCirc at hi
    simp at hi
    rw [B.sin_incl_eq, ← hi.2.2]
    exact sin_nonneg_of_nonneg_of_le_pi (arccos_nonneg _) (arccos_le_pi _)
  rw [ha, hb, hR] at h1
  rcases h2.eq_or_lt with h3 | h3
  · rw [← h3] at h1; norm_num at h1
  · exact h3

example (C : Consts) : ∃ o, keplerianInit C demoCirc = .ok o ∧ o.Physical ∧ o.ecc = none ∧ 0 < o.sin_incl ∧
    o.r_star + 1 / 10 ≤ o.a := by
  obtain ⟨o, h, hp, he, hs, ha, hR, -⟩ := demoCirc_transits C
  exact ⟨o, h, hp, he, hs, by rw [ha, hR]; norm_num⟩

/-! ## C22 -/

/-- **C22** (exact on eccentric orbits, given correct contact points): if for every planet the compiled solver returns
the two contacts, whatever multiples of `2π` it adds, `i` is returned iff `t[i]` lies between first and last contact of
some transit of some planet, which is when the discs overlap. -/
theorem C22_exact_eccentric (C : Consts) (cp : ContactOp) (planets : List (Orbit × ℝ)) (s1 s2 : Orbit × ℝ → ℝ)
    (hbuilt : ∀ q ∈ planets, ∃ A, keplerianInit C A = .ok q.1) (hphys : ∀ q ∈ planets, q.1.Physical)
    (hr : ∀ q ∈ planets, 0 ≤ q.2)
    (hcp : ∀ q ∈ planets, ∃ p, q.1.ecc = some p ∧
      ContactsCorrect C q.1 q.2 (contactCall cp q.1 p q.2) (s1 q) (s2 q)) (ts : List ℝ) :
    ∃ l, inTransit cp planets ts = .ok l ∧
      (∀ i, i ∈ l ↔ ∃ h : i < ts.length, ∃ q ∈ planets, ∃ k : ℤ,
        s1 q + k * q.1.period ≤ ts[i] ∧ ts[i] ≤ s2 q + k * q.1.period) ∧
      (∀ i, i ∈ l ↔ ∃ h : i < ts.length, ∃ q ∈ planets, Overlaps C q.1 q.2 ts[i]) := by
  have hT : ∀ q ∈ planets, Tractable C cp q.1 q.2 := by
    intro q hq
    obtain ⟨p, hp, hK⟩ := hcp q hq
    refine ⟨hbuilt q hq, hphys q hq, hr q hq, ?_⟩
    rw [hp]
    exact ⟨_, _, hK, by linarith [hK.first_ge], by linarith [hK.last_lt]⟩
  obtain ⟨l, hl, hmem⟩ := inTransit_exact C cp planets hT ts
  refine ⟨l, hl, fun i => ?_, hmem⟩
  rw [hmem]
  refine exists_congr fun hi => exists_congr fun q => and_congr_right fun hq => ?_
  obtain ⟨p, hp, hK⟩ := hcp q hq
  exact hK.exact _

/-- **C22** (failure flag): if the solver flags a failure for any planet, every timestamp is returned. -/
theorem C22_flag_returns_everything (cp : ContactOp) (planets : List (Orbit × ℝ)) (ts : List ℝ) (texp : Texp)
    (hs : texp.Scalar) (q : Orbit × ℝ) (hq : q ∈ planets) (p : EccParams) (hp : q.1.ecc = some p)
    (hf : (contactCall cp q.1 p q.2).flag ≠ 0) : inTransit cp planets ts texp = .ok (List.range ts.length) := by
  obtain ⟨l, hl, hsorted, hmem⟩ := inTransit_eq cp planets ts texp hs
  have hw : (q.1.transitWindow cp q.2).2 ≠ 0 := by
    unfold Orbit.transitWindow
    rw [hp]
    exact hf
  rw [hl]
  congr 1
  refine List.Perm.eq_of_pairwise (le := (· < ·)) ?_ hsorted List.pairwise_lt_range ?_
  · intro a b _ _ h1 h2; omega
  · rw [List.perm_ext_iff_of_nodup (hsorted.imp (fun h => Nat.ne_of_lt h)) List.nodup_range]
    intro i
    rw [hmem, List.mem_range]
    exact ⟨fun ⟨hi, _⟩ => hi, fun hi => ⟨hi, Or.inl ⟨q, hq, hw⟩⟩⟩

/-! A concrete eccentric planet with correct contact points. -/

/-- `KeplerianOrbit(a=10, period=1, ecc=0.5, omega=π/2)` -/
noncomputable def apsidalArgs : Args :=
  { a := some (10 : ℝ), period := some (1 : ℝ), ecc := some (1 / 2 : ℝ), omega := some (π / 2 : ℝ) }

theorem apsidalArgs_ok (C : Consts) : ∃ o, keplerianInit C apsidalArgs = .ok o ∧ o.Physical ∧ o.period = 1 ∧ o.a = 10 ∧
    o.r_star = 1 ∧ o.ecc = some ⟨1 / 2, π / 2, 0, 1⟩ ∧ o.sin_incl = 1 ∧ o.cos_incl = 0 ∧ o.t0 = 0 ∧
    o.t_periastron = 0 ∧ o.Omega = none := by
  have hG := C.G_pos
  have hg := C.gccPerSun_pos
  have hpi := pi_pos
  have h0 : ∀ x : ℝ, 0 < x → arctan2 0 x = 0 := by
    intro x hx
    have : (⟨x, 0⟩ : ℂ) = (x : ℂ) := rfl
    rw [arctan2, this, Complex.arg_ofReal_of_nonneg hx.le]
  refine ⟨_, rfl, ⟨?_, ?_, ?_, ?_, ?_, ?_, ?_, ?_, ?_, ?_⟩, ?_, ?_, ?_, ?_, ?_, ?_, ?_, ?_, ?_⟩ <;> simp <;>
    try positivity
  · norm_num
  · rw [show (0.5 * π : ℝ) = π / 2 by ring, sin_pi_div_two]
  · simp only [M0Of]
    rw [mul_zero, h0 _ (by positivity)]
    simp
  · simp [apsidalArgs]

/-- There is a contact-point solver that is right for this planet with radius 0.1 (`ContactsCorrect` is satisfiable on a
genuinely eccentric orbit); it is allowed to add whole turns. -/
theorem contactsCorrect_example (C : Consts) (j : ℤ) : ∃ o p M s, keplerianInit C apsidalArgs = .ok o ∧ o.Physical ∧
    o.ecc = some p ∧ p.ecc = 1 / 2 ∧ ContactsCorrect C o (1 / 10) ⟨-M + j * (2 * π), M, 0⟩ (-s) s := by
  obtain ⟨o, h, hp, hP, ha, hR, he, hsi, hci, ht0, htp, hOm⟩ := apsidalArgs_ok C
  have B := built_of_init h
  have hpi := pi_pos
  have hn : o.n = 2 * π := by rw [B.n_eq, hP, div_one]
  have hev : o.eccVal = 1 / 2 := by simp [Orbit.eccVal, he]
  have hcw : o.cw = 0 := by simp [Orbit.cw, he]
  have hsw : o.sw = 1 := by simp [Orbit.sw, he]
  have hse2 : o.se ^ 2 = 3 / 4 := by rw [hp.eccOk.se_sq, hev]; norm_num
  have hse := hp.eccOk.se_pos
  have hcW : o.cW = 1 := by simp [Orbit.cW, hOm]
  have hsW : o.sW = 0 := by simp [Orbit.sW, hOm]
  set σ := 11 / (100 * o.se) with hσ
  have hσ0 : 0 < σ := by positivity
  have hσ2 : σ ^ 2 = 121 / 7500 := by
    rw [hσ, div_pow, mul_pow, hse2]; norm_num
  have hσ1 : σ ≤ 1 := by nlinarith
  set Es := arcsin σ with hEs
  have hEs0 : 0 ≤ Es := arcsin_nonneg.2 hσ0.le
  have hEs1 : Es ≤ π / 2 := arcsin_le_pi_div_two σ
  have hmono := keplerMap_strictMono (e := 1 / 2) (by norm_num) (by norm_num)
  set M := keplerMap (1 / 2) Es with hM
  have hMneg : keplerMap (1 / 2) (-Es) = -M := by rw [hM]; unfold keplerMap; rw [sin_neg]; ring
  have hM0 : 0 ≤ M := by
    have : keplerMap (1 / 2) 0 ≤ M := hmono.monotone hEs0
    simpa [keplerMap] using this
  have hM1 : M < π := by
    have h1 : M ≤ keplerMap (1 / 2) (π / 2) := hmono.monotone hEs1
    have h2 : keplerMap (1 / 2) (π / 2) = π / 2 - 1 / 2 := by simp [keplerMap]
    linarith
  -- the overlap condition in terms of the eccentric anomaly
  have hov : ∀ t, Overlaps C o (1 / 10) t ↔ (1 / 2 ≤ cos (o.E t) ∧ sin (o.E t) ^ 2 ≤ σ ^ 2) := by
    intro t
    have hpos : o.relativePosition C t = o.rotate (-o.a * (cos (o.E t) - o.eccVal)) (-o.a * (o.se * sin (o.E t))) :=
      Orbit.positionNow_eq hp.eccOk C (-o.a) t
    unfold Overlaps
    rw [hpos, Orbit.rotate_eq, hcw, hsw, hcW, hsW, hsi, hci, ha, hR, hev]
    simp only
    refine and_congr ?_ ?_
    · constructor <;> intro hh <;> linarith
    · rw [sqrt_le_left (by norm_num), hσ2]
      constructor
      · intro hh
        have : (10 : ℝ) ^ 2 * (o.se ^ 2 * sin (o.E t) ^ 2) ≤ (11 / 10) ^ 2 := by
          refine le_trans (le_of_eq ?_) (le_trans hh (le_of_eq ?_)) <;> ring
        rw [hse2] at this
        linarith
      · intro hh
        have : (10 : ℝ) ^ 2 * (o.se ^ 2 * sin (o.E t) ^ 2) ≤ (11 / 10) ^ 2 := by
          rw [hse2]; linarith
        refine le_trans (le_of_eq ?_) (le_trans this (le_of_eq ?_)) <;> ring
  have hEt : ∀ t, keplerMap (1 / 2) (o.E t) = 2 * π * t := by
    intro t
    have : o.E t = eccAnomaly o.eccVal (o.meanAnom t) := rfl
    rw [this, hev, keplerMap_eccAnomaly (by norm_num), B.meanAnom_eq, htp, hn]; ring
  have hshift : ∀ (x : ℝ) (k : ℤ), keplerMap (1 / 2) (x - k * (2 * π)) = keplerMap (1 / 2) x - k * (2 * π) := by
    intro x k; unfold keplerMap; rw [sin_sub_int_mul_two_pi]; ring
  refine ⟨o, _, M, M / (2 * π), h, hp, he, rfl, ⟨rfl, ⟨j, ?_⟩, ⟨0, ?_⟩, ?_, ?_, ?_, ?_, ?_⟩⟩
  · rw [hn, htp]; simp only; field_simp; ring
  · rw [hn, htp]; simp only; field_simp; simp
  · rw [ht0, hP]
    have : M / (2 * π) ≤ 1 / 2 := by rw [div_le_iff₀ (by positivity)]; linarith
    linarith
  · rw [ht0]; have : 0 ≤ M / (2 * π) := by positivity
    linarith
  · rw [ht0]; positivity
  · rw [ht0, hP]
    rw [div_lt_iff₀ (by positivity)]; linarith
  · intro t
    rw [hov, hP]
    have key : ∀ k : ℤ, (-(M / (2 * π)) + k * 1 ≤ t ∧ t ≤ M / (2 * π) + k * 1) ↔
        (-Es ≤ o.E t - k * (2 * π) ∧ o.E t - k * (2 * π) ≤ Es) := by
      intro k
      have e1 : keplerMap (1 / 2) (o.E t - k * (2 * π)) = 2 * π * (t - k) := by rw [hshift, hEt]; ring
      rw [← hmono.le_iff_le (a := -Es), ← hmono.le_iff_le (b := Es), hMneg, e1, ← hM]
      have e2 : M = 2 * π * (M / (2 * π)) := by field_simp
      have h2pi : 0 < 2 * π := by positivity
      constructor
      · rintro ⟨h1, h2⟩
        constructor <;> rw [e2] <;> nlinarith
      · rintro ⟨h1, h2⟩
        rw [e2] at h1 h2
        rw [← mul_neg] at h1
        have h3 := le_of_mul_le_mul_left h1 h2pi
        have h4 := le_of_mul_le_mul_left h2 h2pi
        constructor <;> linarith
    constructor
    · rintro ⟨h1, h2⟩
      obtain ⟨k, hk⟩ := wrap_spec (o.E t) (2 * π)
      have hw0 := wrap_ge (x := o.E t) (p := 2 * π) (by positivity)
      have hw1 := wrap_lt (x := o.E t) (p := 2 * π) (by positivity)
      refine ⟨k, (key k).2 ?_⟩
      have e : o.E t - k * (2 * π) = wrap (o.E t) (2 * π) := by linarith
      rw [e]
      refine (abs_le_arcsin_iff (by linarith) (by linarith) hσ0.le hσ1).2 ?_
      rw [← e, cos_sub_int_mul_two_pi, sin_sub_int_mul_two_pi]
      exact ⟨by linarith, h2⟩
    · rintro ⟨k, hk⟩
      have h1 := (key k).1 hk
      have h2 := (abs_le_arcsin_iff (by linarith [h1.1]) (by linarith [h1.2]) hσ0.le hσ1).1 h1
      rw [cos_sub_int_mul_two_pi, sin_sub_int_mul_two_pi] at h2
      refine ⟨?_, h2.2⟩
      have h3 := sin_sq_add_cos_sq (o.E t)
      nlinarith [h2.1, h2.2]

end Exo
