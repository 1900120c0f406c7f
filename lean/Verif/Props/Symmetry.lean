import Verif.Spec.Symmetry
import Verif.Lemmas.Init
import Verif.Lemmas.Kepler
import Verif.Lemmas.Demo
import Verif.Props.LightCurve

/-!
# C83: the orientation of the orbit on the sky cannot be seen in a light curve
-/

namespace Exo
open Real

theorem V3.sameDisc_turn (w : ℝ) (v : V3) : (v.turn w).SameDisc v := by
  refine ⟨?_, rfl⟩
  simp only [V3.turn]
  linear_combination (v.x ^ 2 + v.y ^ 2) * sin_sq_add_cos_sq w

/-! ## Light curves -/

theorem fluxAt_sameDisc {v v' : V3} (h : v.SameDisc v') (c : ℝ × ℝ × ℝ) (R r : ℝ) : fluxAt c R r v = fluxAt c R r v' := by
  unfold fluxAt
  rw [h.1, h.2]

/-- **C83** (light curves): planets that are always at the same distance from the centre of the star on the sky, and in front of it at the
same times, have the same light curves, with or without exposure time. -/
theorem C83_light_curve (C : Consts) (cp cp' : ContactOp) (os os' : List Orbit) (R : ℝ) (ld : Bool)
    (h : List.Forall₂ (fun o o' => ∀ t, (o.relativePosition C t none ld).SameDisc (o'.relativePosition C t none ld)) os os') (l : LimbDark)
    (r t : Tensor ℝ) (hr : r.size = os.length) (texp : Option (Tensor ℝ)) (hx : ∀ x, texp = some x → x.shape = [] ∨ x.shape = t.shape)
    (oversample order : ℤ) (ho : order = 0 ∨ order = 1 ∨ order = 2) (hn : 1 ≤ oversample) :
    ∃ L L', l.getLightCurve (some (keplerApi C cp os R)) (some r) (some t) texp oversample order (some false) ld = .ok L ∧
      l.getLightCurve (some (keplerApi C cp' os' R)) (some r) (some t) texp oversample order (some false) ld = .ok L' ∧
      L.shape = t.shape ++ [os.length] ∧ L'.shape = L.shape ∧
      ∀ i p, InShape i t.shape → p < os.length → L.get (i ++ [p]) = L'.get (i ++ [p]) := by
  have hlen := h.length_eq
  have key : ∀ p < os.length, ∀ s, fluxAt l.c R (r.get (Tensor.unravel r.shape p)) (match os[p]? with
        | some o => o.relativePosition C s none ld
        | none => ⟨0, 0, 0⟩) = fluxAt l.c R (r.get (Tensor.unravel r.shape p)) (match os'[p]? with
        | some o => o.relativePosition C s none ld
        | none => ⟨0, 0, 0⟩) := by
    intro p hp s
    have hp' : p < os'.length := hlen ▸ hp
    simp only [List.getElem?_eq_getElem hp, List.getElem?_eq_getElem hp']
    exact fluxAt_sameDisc (List.forall₂_iff_get.1 h |>.2 p hp hp' s) _ _ _
  cases texp with
  | none =>
    obtain ⟨L, h1, h2, h3⟩ := C39_values l (keplerApi C cp os R) ld _ rfl r t hr oversample order
    obtain ⟨L', g1, g2, g3⟩ := C39_values l (keplerApi C cp' os' R) ld _ rfl r t (by rw [hr, hlen]; rfl) oversample order
    refine ⟨L, L', h1, g1, h2, by rw [h2, g2]; simp [keplerApi, hlen], fun i p hi hp => ?_⟩
    rw [h3 i p hi hp, g3 i p hi (by rw [hlen] at hp; exact hp)]
    exact key p hp _
  | some x =>
    obtain ⟨S, hS, L, h1, h2, h3⟩ := C39_values_exposure l (keplerApi C cp os R) ld _ rfl r t x hr (hx x rfl) oversample order ho hn
    obtain ⟨S', hS', L', g1, g2, g3⟩ := C39_values_exposure l (keplerApi C cp' os' R) ld _ rfl r t x (by rw [hr, hlen]; rfl) (hx x rfl)
      oversample order ho hn
    rw [hS] at hS'
    cases hS'
    refine ⟨L, L', h1, g1, h2, by rw [h2, g2]; simp [keplerApi, hlen], fun i p hi hp => ?_⟩
    rw [h3 i p hi hp, g3 i p hi (by rw [hlen] at hp; exact hp)]
    exact congrArg (fun F => exposureAverage F (t.get i) (some (texpAt x i, S))) (funext fun s => key p hp s)

/-! ## The position angle of the node -/

theorem keplerianInit_Omega (C : Consts) (A : Args) (W : Option Q) :
    keplerianInit C { A with Omega := W } = (keplerianInit C A).map fun o => { o with Omega := W.map Q.val } := by
  unfold keplerianInit
  have e1 : durationBlock { A with Omega := W } = durationBlock A := rfl
  have e2 : eccBlock { A with Omega := W } = eccBlock A := rfl
  have e3 : inclBlock C { A with Omega := W } = inclBlock C A := rfl
  have e4 : timeBlock { A with Omega := W } = timeBlock A := rfl
  simp only [e1, e2, e3, e4]
  repeat' split
  all_goals rfl

theorem rotate_turn (o : Orbit) (w x y : ℝ) :
    Orbit.rotate { o with Omega := some w } x y = (Orbit.rotate { o with Omega := none } x y).turn w := rfl

theorem position_turn (o : Orbit) (C : Consts) (w a t : ℝ) (px : Option ℝ) (ld : Bool) :
    Orbit.position { o with Omega := some w } C a t px ld = (Orbit.position { o with Omega := none } C a t px ld).turn w := by
  have now : ∀ t px, Orbit.positionNow { o with Omega := some w } C a t px = (Orbit.positionNow { o with Omega := none } C a t px).turn w :=
    fun t px => rfl
  have hd : Orbit.delay { o with Omega := some w } C a t = Orbit.delay { o with Omega := none } C a t := rfl
  unfold Orbit.position Orbit.retardedPosition
  rw [hd, now, now]
  split <;> rfl

theorem position_disc (p : Orbit) (C : Consts) (V : Option ℝ) (a t : ℝ) (px : Option ℝ) (ld : Bool) :
    (Orbit.position { p with Omega := V } C a t px ld).SameDisc (Orbit.position { p with Omega := none } C a t px ld) := by
  cases V with
  | none => exact ⟨rfl, rfl⟩
  | some v => rw [position_turn]; exact V3.sameDisc_turn _ _

/-- **C83** (`Omega`): `Omega` turns the positions, velocities and accelerations on the sky by that angle, with or without light delay, and
leaves the distances along the line of sight, the radial velocities and the transit windows alone. -/
theorem C83_node (C : Consts) (A : Args) (w : Q) (o : Orbit) (h : keplerianInit C { A with Omega := none } = .ok o) :
    ∃ o', keplerianInit C { A with Omega := some w } = .ok o' ∧ ∀ t px ld,
      o'.relativePosition C t px ld = (o.relativePosition C t px ld).turn w.val ∧
      o'.planetPosition C t px ld = (o.planetPosition C t px ld).turn w.val ∧
      o'.starPosition C t px ld = (o.starPosition C t px ld).turn w.val ∧
      o'.planetVelocity t = (o.planetVelocity t).turn w.val ∧
      o'.starVelocity t = (o.starVelocity t).turn w.val ∧
      (∀ K u, o'.radialVelocity C t K u = o.radialVelocity C t K u) ∧
      (∀ cp r, o'.transitWindow cp r = o.transitWindow cp r) := by
  have hN : o.Omega = none := by
    have := (built_of_init h).Omega_eq
    simpa using this
  have ho : o = { o with Omega := none } := by
    cases o
    simp only at hN
    subst hN
    rfl
  have e := keplerianInit_Omega C { A with Omega := none } (some w)
  rw [h] at e
  refine ⟨_, e, fun t px ld => ?_⟩
  have pos : ∀ a, Orbit.position { o with Omega := some w.val } C a t px ld = (o.position C a t px ld).turn w.val := by
    intro a
    rw [position_turn, ← ho]
  have vel : ∀ m, Orbit.velocity { o with Omega := some w.val } m t = (o.velocity m t).turn w.val := by
    intro m
    have : Orbit.velocity { o with Omega := some w.val } m t = (Orbit.velocity { o with Omega := none } m t).turn w.val := by
      unfold Orbit.velocity
      simp only
      split <;> rfl
    rw [this, ← ho]
  refine ⟨pos _, pos _, pos _, vel _, vel _, fun K u => ?_, fun cp r => rfl⟩
  cases K with
  | some K => rfl
  | none =>
    have hz : (Orbit.velocity { o with Omega := some w.val } o.m_planet t).z = (o.velocity o.m_planet t).z := by
      rw [vel]
      rfl
    unfold Orbit.radialVelocity Orbit.starVelocity
    simp only [Option.map_some]
    rw [hz]

/-- **C83** (`Omega`, light curves): for any two values of `Omega`, also none. -/
theorem C83_node_disc (C : Consts) (A : Args) (W : Option Q) (o : Orbit) (h : keplerianInit C A = .ok o) :
    ∃ o', keplerianInit C { A with Omega := W } = .ok o' ∧
      ∀ t px ld, (o'.relativePosition C t px ld).SameDisc (o.relativePosition C t px ld) := by
  have e := keplerianInit_Omega C A W
  rw [h] at e
  refine ⟨_, e, fun t px ld => ?_⟩
  have h1 := position_disc o C (W.map Q.val) (-o.a) t px ld
  have h2 := position_disc o C o.Omega (-o.a) t px ld
  exact ⟨h1.1.trans h2.1.symm, h1.2.trans h2.2.symm⟩

/-! ## The sign of the impact parameter -/

theorem keplerianInit_flip (C : Consts) (A : Args) (b : Q) (hb : A.b = some b) (o : Orbit) (h : keplerianInit C A = .ok o) :
    keplerianInit C { A with b := some ⟨-b.val, b.unit⟩ } =
      .ok { o with b := -o.b, cos_incl := -o.cos_incl, incl := π - o.incl } := by
  unfold keplerianInit at h ⊢
  have e1 : durationBlock { A with b := some ⟨-b.val, b.unit⟩ } = durationBlock A := by
    unfold durationBlock
    simp only [hb, aorFromDuration, neg_sq]
  have e2 : eccBlock { A with b := some ⟨-b.val, b.unit⟩ } = eccBlock A := rfl
  have e4 : timeBlock { A with b := some ⟨-b.val, b.unit⟩ } = timeBlock A := rfl
  simp only [e1, e2, e4]
  split at h; · cases h
  split at h; · cases h
  split at h; · cases h
  split at h; · cases h
  simp only at h
  split at h; · cases h
  rename_i D _ _ I _ _ ecc _
  unfold inclBlock at h ⊢
  simp only [hb] at h ⊢
  by_cases hc : A.incl.isSome ∨ D.duration.isSome
  · rw [if_pos hc] at h; cases h
  · rw [if_neg hc] at h ⊢
    simp only at h ⊢
    split at h; · cases h
    simp only [Except.ok.injEq] at h
    subst h
    simp only [mul_neg, arccos_neg, sin_pi_sub]

theorem mirror_position (C : Consts) (o : Orbit) (b' i' : ℝ) (t : ℝ) (px : Option ℝ) (ld : Bool) :
    (Orbit.relativePosition { o with b := b', cos_incl := -o.cos_incl, incl := i' } C t px ld).SameDisc (o.relativePosition C t px ld) ∧
    (o.Omega = none → Orbit.relativePosition { o with b := b', cos_incl := -o.cos_incl, incl := i' } C t px ld =
      (o.relativePosition C t px ld).flipY) := by
  have hrot : ∀ x y, Orbit.rotate { o with b := b', cos_incl := -o.cos_incl, incl := i', Omega := none } x y =
      (Orbit.rotate { o with Omega := none } x y).flipY := by
    intro x y
    simp only [Orbit.rotate, V3.flipY]
    congr 1
    ring
  have now : ∀ a t px, Orbit.positionNow { o with b := b', cos_incl := -o.cos_incl, incl := i', Omega := none } C a t px =
      (Orbit.positionNow { o with Omega := none } C a t px).flipY := fun a t px => hrot _ _
  have hd : ∀ a t, Orbit.delay { o with b := b', cos_incl := -o.cos_incl, incl := i', Omega := none } C a t =
      Orbit.delay { o with Omega := none } C a t := by
    intro a t
    unfold Orbit.delay Orbit.retardedAz
    simp only [now]
    rfl
  have pos : ∀ a, Orbit.position { o with b := b', cos_incl := -o.cos_incl, incl := i', Omega := none } C a t px ld =
      (Orbit.position { o with Omega := none } C a t px ld).flipY := by
    intro a
    unfold Orbit.position Orbit.retardedPosition
    rw [hd, now, now]
    split <;> rfl
  have flip : ∀ v : V3, v.flipY.SameDisc v := fun v => ⟨by simp [V3.flipY], rfl⟩
  constructor
  · have h1 := position_disc { o with b := b', cos_incl := -o.cos_incl, incl := i' } C o.Omega (-o.a) t px ld
    have h2 := position_disc o C o.Omega (-o.a) t px ld
    have h3 := flip (Orbit.position { o with Omega := none } C (-o.a) t px ld)
    rw [← pos] at h3
    exact ⟨h1.1.trans (h3.1.trans h2.1.symm), h1.2.trans (h3.2.trans h2.2.symm)⟩
  · intro hN
    have ho : o = { o with Omega := none } := by
      cases o
      simp only at hN
      subst hN
      rfl
    have := pos (-o.a)
    rw [← ho] at this
    rw [← show (Orbit.position { o with b := b', cos_incl := -o.cos_incl, incl := i' } C (-o.a) t px ld) =
      (Orbit.position { o with b := b', cos_incl := -o.cos_incl, incl := i', Omega := none } C (-o.a) t px ld) by
        rw [hN]] at this
    exact this

/-- **C83** (sign of `b`): changing the sign of the impact parameter reflects the sky, when the line of nodes is the `x` axis; in general the
distance on the sky and along the line of sight stay what they are. -/
theorem C83_mirror (C : Consts) (A : Args) (b : Q) (hb : A.b = some b) (o : Orbit) (h : keplerianInit C A = .ok o) :
    ∃ o', keplerianInit C { A with b := some ⟨-b.val, b.unit⟩ } = .ok o' ∧ o'.b = -o.b ∧ o'.incl = π - o.incl ∧
      ∀ t px ld, (o'.relativePosition C t px ld).SameDisc (o.relativePosition C t px ld) ∧
        (o.Omega = none → o'.relativePosition C t px ld = (o.relativePosition C t px ld).flipY) :=
  ⟨_, keplerianInit_flip C A b hb o h, rfl, rfl, fun t px ld => mirror_position C o _ _ t px ld⟩

theorem keplerianInit_flip_incl (C : Consts) (A : Args) (i : Q) (hi : A.incl = some i) (o : Orbit) (h : keplerianInit C A = .ok o) :
    keplerianInit C { A with incl := some ⟨π - i.val, i.unit⟩ } =
      .ok { o with b := -o.b, cos_incl := -o.cos_incl, incl := π - o.incl } := by
  unfold keplerianInit at h ⊢
  have e1 : durationBlock { A with incl := some ⟨π - i.val, i.unit⟩ } = durationBlock A := rfl
  have e2 : eccBlock { A with incl := some ⟨π - i.val, i.unit⟩ } = eccBlock A := rfl
  have e4 : timeBlock { A with incl := some ⟨π - i.val, i.unit⟩ } = timeBlock A := rfl
  simp only [e1, e2, e4]
  split at h; · cases h
  split at h; · cases h
  split at h; · cases h
  split at h; · cases h
  simp only at h
  split at h; · cases h
  rename_i D _ _ I _ _ ecc _
  unfold inclBlock at h ⊢
  cases hb : A.b with
  | some b => simp only [hb, hi, Option.isSome_some, true_or, if_true] at h; cases h
  | none =>
    simp only [hb, hi] at h ⊢
    by_cases hc : D.duration.isSome
    · rw [if_pos hc] at h; cases h
    · rw [if_neg hc] at h ⊢
      simp only at h ⊢
      split at h; · cases h
      simp only [Except.ok.injEq] at h
      subst h
      simp only [cos_pi_sub, neg_div, sin_pi_sub]

/-- **C83** (inclination): an inclination `i` and its supplement `pi - i` cannot be told apart by a light curve. -/
theorem C83_mirror_incl (C : Consts) (A : Args) (i : Q) (hi : A.incl = some i) (o : Orbit) (h : keplerianInit C A = .ok o) :
    ∃ o', keplerianInit C { A with incl := some ⟨π - i.val, i.unit⟩ } = .ok o' ∧ o'.b = -o.b ∧ o'.incl = π - o.incl ∧
      ∀ t px ld, (o'.relativePosition C t px ld).SameDisc (o.relativePosition C t px ld) ∧
        (o.Omega = none → o'.relativePosition C t px ld = (o.relativePosition C t px ld).flipY) :=
  ⟨_, keplerianInit_flip_incl C A i hi o h, rfl, rfl, fun t px ld => mirror_position C o _ _ t px ld⟩

/-! ## Reversal of time -/

theorem keplerOp_neg {e : ℝ} (h0 : 0 ≤ e) (h1 : e < 1) (M : ℝ) : keplerOp (-M) e = (-(keplerOp M e).1, (keplerOp M e).2) := by
  simp only [keplerOp, eccAnomaly_neg h0 h1, sin_neg, cos_neg]
  congr 1
  ring

theorem arctan2_neg_of_nonneg {x y : ℝ} (hx : 0 ≤ x) (h : 0 < x ∨ y = 0) : arctan2 (-y) x = -arctan2 y x := by
  unfold arctan2
  rcases h with h | rfl
  · have : (⟨x, -y⟩ : ℂ) = (starRingEnd ℂ) ⟨x, y⟩ := rfl
    rw [this, Complex.arg_conj, if_neg]
    intro hpi
    have := Complex.arg_eq_pi_iff.1 hpi
    simp at this
    linarith
  · simp only [neg_zero]
    have : Complex.arg ⟨x, 0⟩ = 0 := Complex.arg_ofReal_of_nonneg hx
    rw [this, neg_zero]

theorem M0Of_reverse (e w w' : ℝ) (he0 : 0 ≤ e) (s c : ℝ) (hs : s ^ 2 + c ^ 2 = 1) :
    M0Of (some ⟨e, w', -c, s⟩) = -M0Of (some ⟨e, w, c, s⟩) := by
  simp only [M0Of]
  have h1 : 0 ≤ 1 + s := by nlinarith [sq_nonneg c]
  have e1 : 0 < √(1 + e) := sqrt_pos.2 (by linarith)
  have key : arctan2 (√(1 - e) * -c) (√(1 + e) * (1 + s)) = -arctan2 (√(1 - e) * c) (√(1 + e) * (1 + s)) := by
    rw [mul_neg]
    refine arctan2_neg_of_nonneg (by positivity) ?_
    rcases h1.lt_or_eq with h | h
    · left; positivity
    · right
      have : c ^ 2 = 0 := by nlinarith
      rw [pow_eq_zero_iff (two_ne_zero)] at this
      rw [this, mul_zero]
  rw [key, mul_neg, sin_neg]
  ring

/-- The orbit that is run through backwards: `omega` replaced by `pi - omega`. -/
noncomputable def Orbit.reversed (o : Orbit) (e w : ℝ) : Orbit :=
  { o with
    ecc := some ⟨e, π - w, cos (π - w), sin (π - w)⟩
    M0 := -o.M0
    t_periastron := o.t0 + o.M0 / o.n
    tref := o.t0 + o.M0 / o.n - o.t0 }

/-- **C83** (reversal of time): with `omega` replaced by `pi - omega`, the planet runs through its orbit backwards and mirrored: at time `x`
before the transit it is where it was at time `x` after the transit, with `x` reversed on the sky. The light curves are reversed in time.
(Without light delay, which is not symmetric.) -/
theorem C83_reverse (C : Consts) (A : Args) (e w : Q) (he : A.ecc = some e) (hw : A.omega = some w) (t0 : Q) (ht : A.t0 = some t0)
    (o : Orbit) (h : keplerianInit C A = .ok o) (h0 : 0 ≤ e.val) (h1 : e.val < 1) :
    ∃ o', keplerianInit C { A with omega := some ⟨π - w.val, w.unit⟩ } = .ok o' ∧
      ∀ x px, (o'.relativePosition C (t0.val - x) px).SameDisc (o.relativePosition C (t0.val + x) px) ∧
        (A.Omega = none → o'.relativePosition C (t0.val - x) px = (o.relativePosition C (t0.val + x) px).flipX) := by
  have hinit : keplerianInit C { A with omega := some ⟨π - w.val, w.unit⟩ } =
      .ok (o.reversed e.val w.val) ∧
      o.ecc = some ⟨e.val, w.val, cos w.val, sin w.val⟩ ∧ o.tref = o.t0 - o.M0 / o.n - o.t0 ∧ o.t0 = t0.val ∧ (o.n = 2 * π / o.period) ∧
      o.warp = fun t => t - o.t0 := by
    unfold keplerianInit at h ⊢
    have e1 : durationBlock { A with omega := some ⟨π - w.val, w.unit⟩ } = durationBlock A := rfl
    simp only [e1]
    split at h; · cases h
    split at h; · cases h
    split at h; · cases h
    split at h; · cases h
    simp only at h
    unfold eccBlock at h ⊢
    simp only [he, hw] at h ⊢
    by_cases hsc : A.sin_omega.isSome ∧ A.cos_omega.isSome
    · rw [if_pos hsc] at h; cases h
    · rw [if_neg hsc] at h ⊢
      simp only at h ⊢
      have hM := M0Of_reverse e.val w.val (π - w.val) h0 (sin w.val) (cos w.val) (sin_sq_add_cos_sq _)
      have hinc : ∀ (d : Option Q) (P ap R dc : ℝ),
          inclBlock C { A with omega := some ⟨π - w.val, w.unit⟩ } d (some ⟨e.val, π - w.val, cos (π - w.val), sin (π - w.val)⟩) P ap R dc =
          inclBlock C A d (some ⟨e.val, w.val, cos w.val, sin w.val⟩) P ap R dc := by
        intro d P ap R dc
        unfold inclBlock bFromDuration
        simp only [sin_pi_sub]
      have hfac : inclFactorOf (some ⟨e.val, π - w.val, cos (π - w.val), sin (π - w.val)⟩) =
          inclFactorOf (some ⟨e.val, w.val, cos w.val, sin w.val⟩) := by
        simp only [inclFactorOf, sin_pi_sub]
      rw [hfac]
      simp only [he] at hinc
      simp only [hinc]
      split at h; · cases h
      unfold timeBlock at h ⊢
      simp only [ht] at h ⊢
      cases htp : A.t_periastron with
      | some tp => rw [htp] at h; simp at h
      | none =>
        rw [htp] at h
        simp only [Except.ok.injEq] at h ⊢
        subst h
        refine ⟨?_, rfl, rfl, rfl, rfl, rfl⟩
        have hM' : M0Of (some ⟨e.val, π - w.val, cos (π - w.val), sin (π - w.val)⟩) =
            -M0Of (some ⟨e.val, w.val, cos w.val, sin w.val⟩) := by
          rw [← hM]
          simp only [sin_pi_sub, cos_pi_sub]
        rw [hM']
        simp only [Orbit.reversed, neg_div, sub_neg_eq_add, K0Of]
  obtain ⟨hi, hecc, htref, ht0, hn, hwarp⟩ := hinit
  refine ⟨_, hi, fun x px => ?_⟩
  have hf : (o.reversed e.val w.val).trueAnomaly (t0.val - x) =
      (-(o.trueAnomaly (t0.val + x)).1, (o.trueAnomaly (t0.val + x)).2) := by
    simp only [Orbit.trueAnomaly, Orbit.reversed, hecc, hwarp, htref]
    rw [← keplerOp_neg h0 h1, ht0]
    congr 1
    ring
  have now : Orbit.positionNow { o.reversed e.val w.val with Omega := none } C (-o.a) (t0.val - x) px =
      (Orbit.positionNow { o with Omega := none } C (-o.a) (t0.val + x) px).flipX := by
    have f1 : Orbit.trueAnomaly { o.reversed e.val w.val with Omega := none } (t0.val - x) = _ := hf
    have f2 : Orbit.trueAnomaly { o with Omega := none } (t0.val + x) = o.trueAnomaly (t0.val + x) := rfl
    simp only [Orbit.positionNow, f1, f2]
    simp only [Orbit.reversed, Orbit.rotate, Orbit.radius, hecc, V3.flipX, sin_pi_sub, cos_pi_sub]
    congr 1 <;> ring
  constructor
  · have h1 := position_disc (o.reversed e.val w.val) C o.Omega (-o.a) (t0.val - x) px false
    have h2 := position_disc o C o.Omega (-o.a) (t0.val + x) px false
    have h3 : (Orbit.positionNow { o.reversed e.val w.val with Omega := none } C (-o.a) (t0.val - x) px).SameDisc
        (Orbit.positionNow { o with Omega := none } C (-o.a) (t0.val + x) px) := by
      rw [now]
      exact ⟨by simp [V3.flipX], rfl⟩
    exact ⟨h1.1.trans (h3.1.trans h2.1.symm), h1.2.trans (h3.2.trans h2.2.symm)⟩
  · intro hN
    have hON : o.Omega = none := by
      have := (built_of_init h).Omega_eq
      simpa [hN] using this
    have g1 : { o.reversed e.val w.val with Omega := none } = o.reversed e.val w.val := by
      simp only [Orbit.reversed, hON]
    have g2 : { o with Omega := none } = o := by
      cases o
      simp only at hON
      subst hON
      rfl
    rw [g1, g2] at now
    exact now

theorem exposureAverage_reverse (F G : ℝ → ℝ) (c : ℝ) (hG : ∀ s, G (2 * c - s) = F s) (t x : ℝ) (S : List ℝ × List ℝ)
    (hlen : S.1.length = S.2.length) (h1 : S.1.reverse = S.1.map fun d => -d) (h2 : S.2.reverse = S.2) :
    exposureAverage G (2 * c - t) (some (x, S)) = exposureAverage F t (some (x, S)) := by
  simp only [exposureAverage]
  have e : (List.zipWith (fun d w => w * F (t + x * d)) S.1 S.2).reverse = List.zipWith (fun d w => w * G (2 * c - t + x * d)) S.1 S.2 := by
    rw [List.reverse_zipWith hlen, h1, h2, List.zipWith_map_left]
    congr 1
    funext d w
    rw [← hG]
    congr 2
    ring
  rw [← e, List.sum_reverse]

/-- **C83** (reversal of time, light curves): the light curve of the orbit with `pi - omega`, at the times mirrored at the time of transit, is
the light curve of the orbit with `omega`, with or without exposure time. (With `oversample = 1` and order 1 or 2 the exposure is not centred,
see `C38_single_point_counterexample`.) -/
theorem C83_reverse_light_curve (C : Consts) (A : Args) (e w : Q) (he : A.ecc = some e) (hw : A.omega = some w) (t0 : Q)
    (ht : A.t0 = some t0) (o : Orbit) (h : keplerianInit C A = .ok o) (h0 : 0 ≤ e.val) (h1 : e.val < 1) (cp cp' : ContactOp) (R : ℝ)
    (l : LimbDark) (r t t' : Tensor ℝ) (hr : r.size = 1) (hs : t'.shape = t.shape)
    (htt : ∀ i, InShape i t.shape → t'.get i = 2 * t0.val - t.get i)
    (texp : Option (Tensor ℝ)) (hx : ∀ x, texp = some x → x.shape = [] ∨ x.shape = t.shape)
    (oversample order : ℤ) (ho : order = 0 ∨ order = 1 ∨ order = 2) (hn : 1 ≤ oversample) (hc : order = 0 ∨ 2 ≤ oversample) :
    ∃ o', keplerianInit C { A with omega := some ⟨π - w.val, w.unit⟩ } = .ok o' ∧
    ∃ L L', l.getLightCurve (some (keplerApi C cp [o] R)) (some r) (some t) texp oversample order (some false) = .ok L ∧
      l.getLightCurve (some (keplerApi C cp' [o'] R)) (some r) (some t') texp oversample order (some false) = .ok L' ∧
      L.shape = t.shape ++ [1] ∧ L'.shape = L.shape ∧
      ∀ i, InShape i t.shape → L'.get (i ++ [0]) = L.get (i ++ [0]) := by
  obtain ⟨o', ho', hpos⟩ := C83_reverse C A e w he hw t0 ht o h h0 h1
  refine ⟨o', ho', ?_⟩
  have key : ∀ ρ s, fluxAt l.c R ρ (o'.relativePosition C (2 * t0.val - s) none) = fluxAt l.c R ρ (o.relativePosition C s none) := by
    intro ρ s
    have := (hpos (s - t0.val) none).1
    rw [show t0.val - (s - t0.val) = 2 * t0.val - s by ring, show t0.val + (s - t0.val) = s by ring] at this
    exact fluxAt_sameDisc this _ _ _
  cases texp with
  | none =>
    obtain ⟨L, h1, h2, h3⟩ := C39_values l (keplerApi C cp [o] R) false _ rfl r t hr oversample order
    obtain ⟨L', g1, g2, g3⟩ := C39_values l (keplerApi C cp' [o'] R) false _ rfl r t' hr oversample order
    refine ⟨L, L', h1, g1, h2, by rw [h2, g2, hs]; rfl, fun i hi => ?_⟩
    rw [h3 i 0 hi Nat.one_pos, g3 i 0 (hs ▸ hi) Nat.one_pos, htt i hi]
    exact key _ _
  | some x =>
    obtain ⟨S, hS, L, h1, h2, h3⟩ := C39_values_exposure l (keplerApi C cp [o] R) false _ rfl r t x hr (hx x rfl) oversample order ho hn
    obtain ⟨S', hS', L', g1, g2, g3⟩ := C39_values_exposure l (keplerApi C cp' [o'] R) false _ rfl r t' x hr (hs ▸ hx x rfl)
      oversample order ho hn
    rw [hS] at hS'
    cases hS'
    obtain ⟨S', hS', k1, k2⟩ := C38_symmetric_partial order oversample ho hn hc
    rw [hS] at hS'
    cases hS'
    obtain ⟨S', hS', -, hlen, -⟩ := C38_weights order oversample ho hn
    rw [hS] at hS'
    cases hS'
    refine ⟨L, L', h1, g1, h2, by rw [h2, g2, hs]; rfl, fun i hi => ?_⟩
    rw [h3 i 0 hi Nat.one_pos, g3 i 0 (hs ▸ hi) Nat.one_pos, htt i hi]
    exact exposureAverage_reverse _ _ t0.val (fun s => key _ s) _ _ S hlen.symm k1 k2

/-! ### Examples -/

/-- Hypotheses of `C83_node`, `C83_node_disc`, `C83_mirror`, `C83_reverse` and `C83_reverse_light_curve`: an inclined eccentric orbit. -/
example (C : Consts) : ∃ o, keplerianInit C
    { period := some ⟨10, none⟩, t0 := some ⟨3, none⟩, b := some ⟨1 / 2, none⟩, ecc := some ⟨1 / 2, none⟩, omega := some ⟨1, none⟩ } = .ok o ∧
    o.b = 1 / 2 ∧ o.Omega = none := ⟨_, rfl, rfl, rfl⟩

/-- Hypotheses of `C83_mirror_incl`. -/
example (C : Consts) : ∃ o, keplerianInit C { period := some ⟨10, none⟩, incl := some ⟨1, none⟩ } = .ok o ∧ o.incl = 1 := ⟨_, rfl, rfl⟩

/-- `C83_light_curve` for two planets, the first turned on the sky, the second with the sign of `b` reversed, with light delay: different
orbits, same light curves. -/
example (C : Consts) (cp : ContactOp) (R : ℝ) (l : LimbDark) (t : Tensor ℝ) : ∃ p p' q q' : Orbit,
    keplerianInit C { period := some ⟨10, none⟩, b := some ⟨1 / 2, none⟩ } = .ok p ∧
    keplerianInit C { period := some ⟨10, none⟩, b := some ⟨1 / 2, none⟩, Omega := some ⟨1, none⟩ } = .ok p' ∧
    keplerianInit C { period := some ⟨25, none⟩, b := some ⟨1 / 3, none⟩ } = .ok q ∧
    keplerianInit C { period := some ⟨25, none⟩, b := some ⟨-(1 / 3), none⟩ } = .ok q' ∧ p.Omega ≠ p'.Omega ∧ q.b ≠ q'.b ∧
    ∃ L L', l.getLightCurve (some (keplerApi C cp [p, q] R)) (some (Tensor.ofList [1 / 10, 1 / 20] 0)) (some t) none 7 0 (some false) true =
        .ok L ∧
      l.getLightCurve (some (keplerApi C cp [p', q'] R)) (some (Tensor.ofList [1 / 10, 1 / 20] 0)) (some t) none 7 0 (some false) true =
        .ok L' ∧
      ∀ i k, InShape i t.shape → k < 2 → L.get (i ++ [k]) = L'.get (i ++ [k]) := by
  obtain ⟨p', hp', hd⟩ := C83_node_disc C { period := some ⟨10, none⟩, b := some ⟨1 / 2, none⟩ } (some ⟨1, none⟩) _ rfl
  obtain ⟨q', hq', hb, -, hm⟩ := C83_mirror C { period := some ⟨25, none⟩, b := some ⟨1 / 3, none⟩ } _ rfl _ rfl
  refine ⟨_, p', _, q', rfl, hp', rfl, hq', ?_, ?_, ?_⟩
  · have := (built_of_init hp').Omega_eq
    rw [this]
    simp
  · rw [hb]
    norm_num
  · obtain ⟨L, L', h1, h2, -, -, h3⟩ := C83_light_curve C cp cp [_, _] [p', q'] R true
      (.cons (fun t => ⟨(hd t none true).1.symm, (hd t none true).2.symm⟩)
        (.cons (fun t => ⟨(hm t none true).1.1.symm, (hm t none true).1.2.symm⟩) .nil)) l (Tensor.ofList [1 / 10, 1 / 20] 0) t rfl none
      (by simp) 7 0 (by simp) (by norm_num)
    exact ⟨L, L', h1, h2, h3⟩

end Exo
