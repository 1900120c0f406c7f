import Verif.Props.InTransit

/-!
# C23 and the `in_transit` part of C12; exposure times
-/

namespace Exo
open Real

/-- **C21/C22** with an exposure time: exactly the exposures during which some planet overlaps the disc are returned. -/
theorem C22_exposure (C : Consts) (cp : ContactOp) (planets : List (Orbit × ℝ)) (x : ℝ) (hx : 0 ≤ x)
    (hT : ∀ q ∈ planets, Tractable C cp q.1 q.2 x) (ts : List ℝ) :
    ∃ l, inTransit cp planets ts (.scalar x) = .ok l ∧
      ∀ i, i ∈ l ↔ ∃ h : i < ts.length, ∃ q ∈ planets, ∃ u, |u| ≤ x / 2 ∧ Overlaps C q.1 q.2 (ts[i] + u) := by
  obtain ⟨l, hl, hm⟩ := inTransit_exposure C cp planets x hx hT ts
  refine ⟨l, hl, fun i => ?_⟩
  rw [hm]
  simp only [abs_le, and_assoc]

/-! ## C23 -/

/-- **C23** (shape of the result): whatever the arguments, if `in_transit` returns, the result is strictly increasing and
every entry is a valid index into `t`. -/
theorem C23_sorted_valid (cp : ContactOp) (planets : List (Orbit × ℝ)) (ts : List ℝ) (texp : Texp) (ld : Bool)
    (l : List ℕ) (h : inTransit cp planets ts texp ld = .ok l) :
    l.Pairwise (· < ·) ∧ ∀ i ∈ l, i < ts.length := by
  unfold inTransit at h
  split at h
  · cases h
  simp only at h
  split at h
  · cases h
  split at h
  · cases h
  split at h
  · cases h
    refine ⟨List.pairwise_lt_range.filter _, fun i hi => ?_⟩
    rw [List.mem_filter, List.mem_range] at hi
    exact hi.1
  · cases h
    exact ⟨List.pairwise_lt_range, fun i hi => List.mem_range.1 hi⟩

/-- **C23** (growing with `texp`): a longer scalar exposure time never removes an index; nor does giving one instead of
none. For every orbit, radius and solver. -/
theorem C23_mono_texp (cp : ContactOp) (planets : List (Orbit × ℝ)) (ts : List ℝ) (x y : ℝ) (hxy : x ≤ y) :
    ∃ l l' l'', inTransit cp planets ts (.scalar x) = .ok l ∧ inTransit cp planets ts (.scalar y) = .ok l' ∧
      inTransit cp planets ts .none = .ok l'' ∧ l ⊆ l' ∧ (0 ≤ y → l'' ⊆ l') := by
  obtain ⟨l, hl, -, hm⟩ := inTransit_eq cp planets ts (.scalar x) trivial
  obtain ⟨l', hl', -, hm'⟩ := inTransit_eq cp planets ts (.scalar y) trivial
  obtain ⟨l'', hl'', -, hm''⟩ := inTransit_eq cp planets ts .none trivial
  refine ⟨l, l', l'', hl, hl', hl'', ?_, ?_⟩
  · intro i hi
    rw [hm] at hi
    rw [hm']
    obtain ⟨h, hf | ⟨q, hq, w, hw, h1, h2⟩⟩ := hi
    · exact ⟨h, Or.inl hf⟩
    · simp only [Texp.half] at h1 h2
      exact ⟨h, Or.inr ⟨q, hq, w, hw, by simp only [Texp.half]; linarith, by simp only [Texp.half]; linarith⟩⟩
  · intro hy i hi
    rw [hm''] at hi
    rw [hm']
    obtain ⟨h, hf | ⟨q, hq, w, hw, h1, h2⟩⟩ := hi
    · exact ⟨h, Or.inl hf⟩
    · simp only [Texp.half] at h1 h2
      exact ⟨h, Or.inr ⟨q, hq, w, hw, by simp only [Texp.half]; linarith, by simp only [Texp.half]; linarith⟩⟩

theorem Overlaps.mono {C : Consts} {o : Orbit} {r r' t : ℝ} (hr : r ≤ r') (h : Overlaps C o r t) : Overlaps C o r' t :=
  ⟨h.1, h.2.trans (by linarith)⟩

/-- **C23** (growing with `r`), for planets that stay outside the star (circular) resp. whose contact points are computed
correctly (eccentric). Each entry of `bodies` is an orbit with its smaller and its larger radius. Missing: `r_star + r > a`,
where it is false (`C23_radius_counterexample`). -/
theorem C23_mono_radius_partial (C : Consts) (cp : ContactOp) (bodies : List (Orbit × ℝ × ℝ))
    (hle : ∀ q ∈ bodies, q.2.1 ≤ q.2.2) (hT : ∀ q ∈ bodies, Tractable C cp q.1 q.2.1)
    (hT' : ∀ q ∈ bodies, Tractable C cp q.1 q.2.2) (ts : List ℝ) (texp : Texp) (hs : texp.Scalar) :
    ∃ l l', inTransit cp (bodies.map fun q => (q.1, q.2.1)) ts texp = .ok l ∧
      inTransit cp (bodies.map fun q => (q.1, q.2.2)) ts texp = .ok l' ∧ l ⊆ l' := by
  obtain ⟨l, hl, -, hm⟩ := inTransit_eq cp (bodies.map fun q => (q.1, q.2.1)) ts texp hs
  obtain ⟨l', hl', -, hm'⟩ := inTransit_eq cp (bodies.map fun q => (q.1, q.2.2)) ts texp hs
  refine ⟨l, l', hl, hl', fun i hi => ?_⟩
  rw [hm] at hi
  rw [hm']
  obtain ⟨h, hf | ⟨q, hq, w, hw, h1, h2⟩⟩ := hi
  · obtain ⟨q, hq, hf⟩ := hf
    obtain ⟨z, hz, rfl⟩ := List.mem_map.1 hq
    obtain ⟨w, hR, -⟩ := (hT z hz).resolved
    simp only [hR.window] at hf
    exact absurd rfl hf
  · obtain ⟨z, hz, rfl⟩ := List.mem_map.1 hq
    obtain ⟨v, hR, -⟩ := (hT z hz).resolved
    obtain ⟨v', hR', -⟩ := (hT' z hz).resolved
    simp only [hR.window] at hw
    subst hw
    obtain ⟨⟨A, hA⟩, hp, -⟩ := hT z hz
    have B := built_of_init hA
    have hP := hp.period_pos
    obtain ⟨a1, a2, a3, a4⟩ := hR.within w.1 w.2 rfl
    -- the ends of the smaller window are overlap times, hence in the larger window
    have hend : ∀ x, w.1 ≤ x → x ≤ w.2 → ∃ s e, v' = some (s, e) ∧ s ≤ x ∧ x ≤ e := by
      intro x hx1 hx2
      have hsx : z.1.sinceTransit (z.1.t0 + x) = x := by
        rw [Orbit.sinceTransit_eq]
        exact wrap_eq hP (by linarith) (by linarith) 0 (by rw [B.warp_eq]; push_cast; ring)
      have ho : Overlaps C z.1 z.2.1 (z.1.t0 + x) :=
        (hR.overlap _).2 ⟨w.1, w.2, rfl, by rw [hsx]; exact hx1, by rw [hsx]; exact hx2⟩
      have ho' := (hR'.overlap _).1 (ho.mono (hle z hz))
      rw [hsx] at ho'
      exact ho'
    obtain ⟨s, e, hv, b1, b2⟩ := hend w.1 le_rfl (by linarith)
    obtain ⟨s', e', hv', c1, c2⟩ := hend w.2 (by linarith) le_rfl
    rw [hv] at hv'
    cases hv'
    refine ⟨h, Or.inr ⟨(z.1, z.2.2), List.mem_map.2 ⟨z, hz, rfl⟩, (s, e), ?_, ?_, ?_⟩⟩
    · simp only [hR'.window, hv]
    · simp only at *; linarith
    · simp only at *; linarith

/-- **C23 is false when the planet does not stay outside the star**: for `KeplerianOrbit(a=10, period=1, b=0.5)` the
mid-transit time is in transit for `r = 0` but not for `r = 9.5` (`arcsin` of a number above 1 is NaN). -/
theorem C23_radius_counterexample (C : Consts) (cp : ContactOp) : ∃ A o, keplerianInit C A = .ok o ∧ o.Physical ∧
    inTransit cp [(o, 0)] [o.t0] = .ok [0] ∧ inTransit cp [(o, 19 / 2)] [o.t0] = .ok [] := by
  obtain ⟨o, h, hp, he, hs, ha, hR, hP, ht, hb⟩ := demoCirc_transits C
  have B := built_of_init h
  refine ⟨_, o, h, hp, ?_, ?_⟩
  · obtain ⟨l, hl, hsort, hm⟩ := inTransit_eq cp [(o, 0)] [o.t0] .none trivial
    rw [hl]
    congr 1
    have h0 : 0 ∈ l := by
      rw [hm]
      obtain ⟨d, hd, hd0, -⟩ := (B.overlap_circ hp he hs 0 le_rfl (by rw [ha, hR]; norm_num)).2
        (by rw [hb, hR, abs_of_nonneg] <;> norm_num)
      refine ⟨by simp, Or.inr ⟨(o, 0), by simp, (-d, d), ?_, ?_⟩⟩
      · unfold Orbit.transitWindow; simp only [he, hd]
      · have : o.sinceTransit o.t0 = 0 :=
          wrap_eq hp.period_pos (by linarith [hp.period_pos]) (by linarith [hp.period_pos]) 0
            (by rw [B.warp_eq]; simp)
        simp only [Texp.half, List.getElem_cons_zero, this]
        constructor <;> linarith
    have hlt : ∀ i ∈ l, i = 0 := by
      intro i hi
      obtain ⟨hh, -⟩ := (hm i).1 hi
      simpa using hh
    rcases l with _ | ⟨a, _ | ⟨b, l⟩⟩
    · cases h0
    · rw [hlt a (by simp)]
    · exfalso
      have h1 := hlt a (by simp)
      have h2 := hlt b (by simp)
      rw [List.pairwise_cons] at hsort
      have := hsort.1 b (by simp)
      omega
  · obtain ⟨l, hl, -, hm⟩ := inTransit_eq cp [(o, 19 / 2)] [o.t0] .none trivial
    rw [hl]
    congr 1
    apply List.eq_nil_iff_forall_not_mem.2
    intro i hi
    have hhd : o.halfDuration (19 / 2) = none := by
      unfold Orbit.halfDuration
      simp only
      rw [if_pos]
      right; right
      have hrel := B.sin_incl_rel hp he
      rw [ha, hb, hR] at hrel ⊢
      have hsi : o.sin_incl ^ 2 = 399 / 400 := by linarith
      have h1 : (1 : ℝ) < (1 / (10 * o.sin_incl) * √((1 + 19 / 2 / 1) ^ 2 - (1 / 2) ^ 2)) ^ 2 := by
        rw [mul_pow, sq_sqrt (by norm_num), div_pow, mul_pow, hsi]; norm_num
      rw [← sq_abs] at h1
      by_contra hcon
      push Not at hcon
      have h0 := abs_nonneg (1 / (10 * o.sin_incl) * √((1 + 19 / 2 / 1) ^ 2 - (1 / 2) ^ 2))
      nlinarith
    have hw : o.transitWindow cp (19 / 2) = (none, 0) := by
      unfold Orbit.transitWindow; simp only [he, hhd]
    obtain ⟨-, ⟨q, hq, hf⟩ | ⟨q, hq, w, hw', -⟩⟩ := (hm i).1 hi
    · simp only [List.mem_singleton] at hq
      subst hq
      rw [hw] at hf
      exact hf rfl
    · simp only [List.mem_singleton] at hq
      subst hq
      rw [hw] at hw'
      cases hw'

/-- Hypotheses of `C23_mono_radius_partial` with two different radii. -/
example (C : Consts) (cp : ContactOp) : ∃ o, Tractable C cp o (1 / 10) ∧ Tractable C cp o (2 / 10) := by
  obtain ⟨o, h, hp, he, hs, ha, hR, -⟩ := demoCirc_transits C
  refine ⟨o, ⟨⟨_, h⟩, hp, by norm_num, ?_⟩, ⟨⟨_, h⟩, hp, by norm_num, ?_⟩⟩ <;> rw [he] <;>
    exact ⟨hs, by rw [ha, hR]; norm_num⟩

/-! ## C12, in-transit membership -/

/-- **C12** (in-transit membership): shifting all timestamps by a whole number of periods does not change the result of
`in_transit` for one planet (any radius, solver and exposure time, scalar or vector). -/
theorem C12_in_transit_periodic (C : Consts) (cp : ContactOp) (A : Args) (o : Orbit) (h : keplerianInit C A = .ok o)
    (hp : o.Physical) (r : ℝ) (ts : List ℝ) (texp : Texp) (ld : Bool) (k : ℤ) :
    inTransit cp [(o, r)] (ts.map (· + k * o.period)) texp ld = inTransit cp [(o, r)] ts texp ld := by
  have B := built_of_init h
  have hs : ∀ t, o.sinceTransit (t + k * o.period) = o.sinceTransit t := by
    intro t
    rw [Orbit.sinceTransit_eq, Orbit.sinceTransit_eq, B.warp_eq, B.warp_eq,
      show t + k * o.period - o.t0 = (t - o.t0) + k * o.period by ring, wrap_add_int hp.period_pos]
  unfold inTransit
  simp only [List.map_cons, List.map_nil, List.map_map, List.length_map, Function.comp_def, hs]

end Exo
