import Verif.Lemmas.FluxContinuous
import Verif.Props.Kinematics
import Verif.Props.Interpolated
import Verif.Props.Simple
import Verif.Props.TtvInTransit
import Mathlib.Topology.Algebra.Order.Floor

/-!
# C80: light curves are continuous
-/

namespace Exo
open Real Filter Topology

/-! ## The flux -/

/-- The flux is continuous where the body is clearly in front of or behind the star, or off its disc. -/
theorem fluxAt_continuousAt {X : Type} [TopologicalSpace X] {v : X → V3} {r : X → ℝ} {u1 u2 R : ℝ} {q : X}
    (hlaw : (∫ p in starDisc, quadLaw u1 u2 (muAt p)) ≠ 0) (hR : 0 < R) (hx : ContinuousAt (fun s => (v s).x) q)
    (hy : ContinuousAt (fun s => (v s).y) q) (hz : ContinuousAt (fun s => (v s).z) q) (hr : ContinuousAt r q)
    (h : (v q).z ≠ 0 ∨ R + r q < √((v q).x ^ 2 + (v q).y ^ 2)) :
    ContinuousAt (fun s => fluxAt (getCl u1 u2) R (r s) (v s)) q := by
  have hd : ContinuousAt (fun s => √((v s).x ^ 2 + (v s).y ^ 2)) q := ((hx.pow 2).add (hy.pow 2)).sqrt
  obtain ⟨Q, hQ, hQc⟩ : ∃ Q : ℝ × ℝ → ℝ, (∀ b k, quadLimbdarkLightCurve (getCl u1 u2) b k = Q (b, k)) ∧ Continuous Q :=
    ⟨_, fun _ _ => rfl, continuous_quadLc (getCl u1 u2)⟩
  have hq : ContinuousAt (fun s => Q (√((v s).x ^ 2 + (v s).y ^ 2) / R, r s / R)) q :=
    hQc.continuousAt.comp ((hd.div_const R).prodMk (hr.div_const R))
  rcases h with h | h
  · rcases lt_or_gt_of_ne h with h | h
    · have h0 : ∀ s, (v s).z < 0 → fluxAt (getCl u1 u2) R (r s) (v s) = 0 := fun s hs =>
        C37_behind _ _ _ _ (div_nonpos_of_nonpos_of_nonneg hs.le hR.le)
      generalize getCl u1 u2 = c at h0
      refine (continuousAt_const (y := (0 : ℝ))).congr ?_
      filter_upwards [hz.eventually_lt continuousAt_const h] with s hs
      exact (h0 s hs).symm
    · have h0 : ∀ s, 0 < (v s).z → fluxAt (getCl u1 u2) R (r s) (v s) = Q (√((v s).x ^ 2 + (v s).y ^ 2) / R, r s / R) := by
        intro s hs
        unfold fluxAt computeLightCurve
        simp only [Option.getD_some]
        rw [if_pos (by positivity), hQ]
      refine hq.congr ?_
      filter_upwards [continuousAt_const.eventually_lt hz h] with s hs
      exact (h0 s hs).symm
  · have h0 : ∀ s, R + r s < √((v s).x ^ 2 + (v s).y ^ 2) → fluxAt (getCl u1 u2) R (r s) (v s) = 0 := fun s hs =>
      fluxAt_zero hlaw hR (fun hc => absurd hc.2 (not_lt.2 hs.le))
    refine (continuousAt_const (y := (0 : ℝ))).congr ?_
    filter_upwards [(continuousAt_const.add hr).eventually_lt hd h] with s hs
    exact (h0 s hs).symm

/-- A function with a clock that refers every time to the nearest entry of a list is continuous if the jumps of the clock cannot be seen. -/
theorem continuous_nearest {f g : ℝ → ℝ} {l : List ℝ} (hf : Continuous f)
    (hg : ∀ t, ∃ s, IsNearest l t s ∧ g t = f (t - s))
    (hj : ∀ s ∈ l, ∀ s' ∈ l, ∀ t, (∀ u ∈ l, |t - s| ≤ |t - u|) → (∀ u ∈ l, |t - s'| ≤ |t - u|) → f (t - s) = f (t - s')) :
    Continuous g := by
  rw [continuous_iff_continuousAt]
  intro t
  rw [Metric.continuousAt_iff']
  intro ε hε
  obtain ⟨s0, hs0, hg0⟩ := hg t
  have h1 : ∀ s ∈ l, ∀ᶠ x in 𝓝 t, dist (f (x - s)) (f (t - s)) < ε := fun s _ =>
    Metric.continuousAt_iff'.1 ((hf.comp (continuous_id.sub continuous_const)).continuousAt (x := t)) ε hε
  have h2 : ∀ s ∈ l, ∀ᶠ x in 𝓝 t, |t - s0| < |t - s| → |x - s0| < |x - s| := fun s _ => by
    by_cases h : |t - s0| < |t - s|
    · have a : Continuous fun x : ℝ => |x - s0| := (continuous_id.sub continuous_const).abs
      have b : Continuous fun x : ℝ => |x - s| := (continuous_id.sub continuous_const).abs
      exact (a.continuousAt.eventually_lt b.continuousAt h).mono fun x hx _ => hx
    · exact Eventually.of_forall fun x hx => absurd hx h
  have h1' : ∀ᶠ x in 𝓝 t, ∀ s ∈ l, dist (f (x - s)) (f (t - s)) < ε := by
    have := (Filter.eventually_all_finite (l.toFinset.finite_toSet)).2 (fun s hs => h1 s (by simpa using hs))
    exact this.mono fun x hx s hs => hx s (by simpa using hs)
  have h2' : ∀ᶠ x in 𝓝 t, ∀ s ∈ l, |t - s0| < |t - s| → |x - s0| < |x - s| := by
    have := (Filter.eventually_all_finite (l.toFinset.finite_toSet)).2 (fun s hs => h2 s (by simpa using hs))
    exact this.mono fun x hx s hs => hx s (by simpa using hs)
  filter_upwards [h1', h2'] with x hx1 hx2
  obtain ⟨s, hs, hgx⟩ := hg x
  have hmin : |t - s| ≤ |t - s0| := by
    by_contra hc
    have := hx2 s hs.1 (lt_of_not_ge hc)
    exact absurd (hs.2 s0 hs0.1).1 (not_le.2 this)
  have e : f (t - s) = f (t - s0) :=
    hj s hs.1 s0 hs0.1 t (fun u hu => hmin.trans (hs0.2 u hu).1) (fun u hu => (hs0.2 u hu).1)
  rw [hgx, hg0, ← e]
  exact hx1 s hs.1

/-- For increasing entries: the jumps are in the middle between successive entries, and the function is continuous exactly if none of
them can be seen. -/
theorem continuous_nearest_iff {f g : ℝ → ℝ} {l : List ℝ} (hf : Continuous f) (hl : l.Pairwise (· < ·))
    (hg : ∀ t, ∃ s, IsNearest l t s ∧ g t = f (t - s)) :
    Continuous g ↔ ∀ (k : ℕ) (a b : ℝ), l[k]? = some a → l[k + 1]? = some b → f ((b - a) / 2) = f (-((b - a) / 2)) := by
  have mono : ∀ {i j : ℕ} (hi : i < l.length) (hj : j < l.length), i ≤ j → l[i] ≤ l[j] := by
    intro i j hi hj hij
    rcases hij.eq_or_lt with rfl | h
    · exact le_rfl
    · exact (List.pairwise_iff_getElem.1 hl i j hi hj h).le
  have strict : ∀ {i j : ℕ} (hi : i < l.length) (hj : j < l.length), i < j → l[i] < l[j] :=
    fun hi hj hij => List.pairwise_iff_getElem.1 hl _ _ hi hj hij
  constructor
  · intro hc k a b ha hb
    obtain ⟨hk, rfl⟩ := List.getElem?_eq_some_iff.1 ha
    obtain ⟨hk1, rfl⟩ := List.getElem?_eq_some_iff.1 hb
    have hab := strict hk hk1 (Nat.lt_succ_self k)
    set a := l[k] with hadef
    set b := l[k + 1] with hbdef
    have split : ∀ u ∈ l, u ≤ a ∨ b ≤ u := by
      intro u hu
      obtain ⟨i, hi, rfl⟩ := List.mem_iff_getElem.1 hu
      rcases Nat.lt_or_ge k i with h | h
      · exact Or.inr (mono hk1 hi h)
      · exact Or.inl (mono hi hk h)
    have hm : IsNearest l ((a + b) / 2) a := by
      refine ⟨List.getElem_mem hk, fun u hu => ?_⟩
      rw [abs_of_nonneg (by linarith : 0 ≤ (a + b) / 2 - a)]
      rcases split u hu with h | h
      · rw [abs_of_nonneg (by linarith)]
        exact ⟨by linarith, fun e => by linarith⟩
      · rw [abs_of_nonpos (by linarith)]
        exact ⟨by linarith, fun e => by linarith⟩
    have hn : ∀ t, (a + b) / 2 < t → t < b → IsNearest l t b := by
      intro t h1 h2
      refine ⟨List.getElem_mem hk1, fun u hu => ?_⟩
      rw [abs_of_nonpos (by linarith : t - b ≤ 0)]
      rcases split u hu with h | h
      · rw [abs_of_nonneg (by linarith)]
        exact ⟨by linarith, fun e => by linarith⟩
      · rw [abs_of_nonpos (by linarith)]
        exact ⟨by linarith, fun e => by linarith⟩
    have gm : g ((a + b) / 2) = f ((b - a) / 2) := by
      obtain ⟨s, hs, e⟩ := hg ((a + b) / 2)
      rw [e, hs.unique hm]
      congr 1; ring
    have ht : Tendsto g (𝓝[>] ((a + b) / 2)) (𝓝 (f (-((b - a) / 2)))) := by
      have h1 : Tendsto (fun t => f (t - b)) (𝓝[>] ((a + b) / 2)) (𝓝 (f ((a + b) / 2 - b))) :=
        ((hf.comp (continuous_id.sub continuous_const)).tendsto _).mono_left nhdsWithin_le_nhds
      rw [show (a + b) / 2 - b = -((b - a) / 2) by ring] at h1
      refine h1.congr' ?_
      have : Set.Ioo ((a + b) / 2) b ∈ 𝓝[>] ((a + b) / 2) := Ioo_mem_nhdsGT (by linarith)
      filter_upwards [this] with t ht
      obtain ⟨s, hs, e⟩ := hg t
      rw [e, hs.unique (hn t ht.1 ht.2)]
    rw [← gm]
    exact tendsto_nhds_unique ((hc.tendsto _).mono_left nhdsWithin_le_nhds) ht
  · intro hj
    have key : ∀ i j (hi : i < l.length) (hjl : j < l.length), i < j → ∀ t, (∀ u ∈ l, |t - l[i]| ≤ |t - u|) →
        (∀ u ∈ l, |t - l[j]| ≤ |t - u|) → f (t - l[i]) = f (t - l[j]) := by
      intro i j hi hjl hij t h1 h2
      have hlt := strict hi hjl hij
      have e : |t - l[i]| = |t - l[j]| := le_antisymm (h1 _ (List.getElem_mem _)) (h2 _ (List.getElem_mem _))
      have et : t = (l[i] + l[j]) / 2 := by
        rcases abs_eq_abs.1 e with h | h <;> linarith
      have hij1 : j = i + 1 := by
        by_contra hne
        have b1 := strict hi (j := i + 1) (by omega) (by omega)
        have b2 := strict (i := i + 1) (by omega) hjl (by omega)
        have := h1 l[i + 1] (List.getElem_mem _)
        rw [et, abs_of_nonneg (by linarith : 0 ≤ (l[i] + l[j]) / 2 - l[i])] at this
        rcases abs_cases ((l[i] + l[j]) / 2 - l[i + 1]) with ⟨h, _⟩ | ⟨h, _⟩ <;> rw [h] at this <;> linarith
      subst hij1
      have := hj i l[i] l[i + 1] (List.getElem?_eq_getElem _) (List.getElem?_eq_getElem _)
      rw [et, show (l[i] + l[i + 1]) / 2 - l[i] = (l[i + 1] - l[i]) / 2 by ring,
        show (l[i] + l[i + 1]) / 2 - l[i + 1] = -((l[i + 1] - l[i]) / 2) by ring]
      exact this
    refine continuous_nearest hf hg fun s hs s' hs' t h1 h2 => ?_
    obtain ⟨i, hi, rfl⟩ := List.mem_iff_getElem.1 hs
    obtain ⟨j, hjl, rfl⟩ := List.mem_iff_getElem.1 hs'
    rcases lt_trichotomy i j with h | rfl | h
    · exact key i j hi hjl h t h1 h2
    · rfl
    · exact (key j i hjl hi h t h2 h1).symm

/-- The square of the wrapped time is continuous. -/
theorem continuous_wrap_sq {P : ℝ} (hP : 0 < P) : Continuous fun x => wrap x P ^ 2 := by
  have e : (fun x => wrap x P ^ 2) = ((fun y => (P * y - P / 2) ^ 2) ∘ Int.fract) ∘ (fun x => x / P + 1 / 2) := by
    funext x
    simp only [Function.comp, wrap, pymod, Int.fract]
    have : (x + 0.5 * P) / P = x / P + 1 / 2 := by field_simp; ring
    rw [this]
    congr 1
    field_simp
    ring
  rw [e]
  refine Continuous.comp ?_ (by fun_prop)
  exact ContinuousOn.comp_fract'' (by fun_prop) (by ring)

theorem exposureAverage_continuous {F : ℝ → ℝ} (hF : Continuous F) (E : Option (ℝ × List ℝ × List ℝ)) :
    Continuous fun t => exposureAverage F t E := by
  rcases E with _ | ⟨x, ds, ws⟩
  · exact hF
  · simp only [exposureAverage]
    induction ds generalizing ws with
    | nil => simpa using continuous_const
    | cons d ds ih =>
      cases ws with
      | nil => simpa using continuous_const
      | cons w ws =>
        simp only [List.zipWith_cons_cons, List.sum_cons]
        have := ih ws
        fun_prop

/-! ## C80 -/

/-- **C80** (the flux): the flux of a body in front of the star is a jointly continuous function of its distance from the centre of the
star and its radius, both in units of the stellar radius; for any coefficients. -/
theorem C80_flux (c : ℝ × ℝ × ℝ) : Continuous fun q : ℝ × ℝ => computeLightCurve c q.1 q.2 none := by
  have : (fun q : ℝ × ℝ => computeLightCurve c q.1 q.2 none) = fun q => quadLimbdarkLightCurve c q.1 q.2 := by
    funext q; simp [computeLightCurve]
  rw [this]
  exact continuous_quadLc c

theorem kepler_continuousAt {C : Consts} {A : Args} {o : Orbit} (h : keplerianInit C A = .ok o) (hp : o.Physical) {u1 u2 : ℝ}
    (hlaw : (∫ p in starDisc, quadLaw u1 u2 (muAt p)) ≠ 0) {r : ℝ} (hr : o.r_star + r < o.a * (1 - o.eccVal)) (t : ℝ) :
    ContinuousAt (fun q : ℝ × ℝ => fluxAt (getCl u1 u2) o.r_star q.2 (o.relativePosition C q.1)) (t, r) := by
  obtain ⟨-, -, h1, h2, h3⟩ := C08_velocity_is_derivative C A o h hp t
  have key : ∀ {g : ℝ → ℝ} {d : ℝ}, HasDerivAt g d t → ContinuousAt (fun q : ℝ × ℝ => g q.1) (t, r) := fun hg =>
    ContinuousAt.comp' (x := ((t, r) : ℝ × ℝ)) hg.continuousAt continuousAt_fst
  refine fluxAt_continuousAt hlaw hp.r_star_pos (key h1) (key h2) (key h3) continuousAt_snd ?_
  by_cases hz : (o.relativePosition C t).z = 0
  · right
    have := ((C13_distance_bounds C A o h hp).1 t).1
    unfold V3.norm V3.normSq at this
    rw [hz] at this
    simp only
    calc o.r_star + r < o.a * (1 - o.eccVal) := hr
      _ ≤ _ := this
      _ = _ := by congr 1; ring
  · exact Or.inl hz

/-- **C80** (Keplerian orbits): as long as the body does not touch the star, the light curve is jointly continuous in time and in the
radius of the body. -/
theorem C80_kepler_time_radius (C : Consts) (A : Args) (o : Orbit) (h : keplerianInit C A = .ok o) (hp : o.Physical) (u1 u2 : ℝ)
    (hlaw : (∫ p in starDisc, quadLaw u1 u2 (muAt p)) ≠ 0) :
    ContinuousOn (fun q : ℝ × ℝ => fluxAt (getCl u1 u2) o.r_star q.2 (o.relativePosition C q.1))
      {q | o.r_star + q.2 < o.a * (1 - o.eccVal)} :=
  fun q hq => (kepler_continuousAt h hp hlaw hq q.1).continuousWithinAt

theorem kepler_continuous {C : Consts} {A : Args} {o : Orbit} (h : keplerianInit C A = .ok o) (hp : o.Physical) {u1 u2 : ℝ}
    (hlaw : (∫ p in starDisc, quadLaw u1 u2 (muAt p)) ≠ 0) {r : ℝ} (hr : o.r_star + r < o.a * (1 - o.eccVal)) :
    Continuous fun t => fluxAt (getCl u1 u2) o.r_star r (o.relativePosition C t) :=
  continuous_iff_continuousAt.2 fun t =>
    (kepler_continuousAt h hp hlaw hr t).comp (f := fun t => (t, r)) (continuousAt_id.prodMk continuousAt_const)

/-- **C80** (`get_light_curve`): for planets on Keplerian orbits that do not touch the star, with or without exposure time, column `p` of
what `get_light_curve` returns is a continuous function of time. -/
theorem C80_kepler (C : Consts) (cp : ContactOp) (orbits : List Orbit) (R : ℝ) (hR : ∀ o ∈ orbits, o.r_star = R)
    (hb : ∀ o ∈ orbits, ∃ A, keplerianInit C A = .ok o) (hp : ∀ o ∈ orbits, o.Physical) (u1 u2 : ℝ)
    (hlaw : (∫ p in starDisc, quadLaw u1 u2 (muAt p)) ≠ 0) (r : Tensor ℝ) (hr : r.size = orbits.length)
    (ha : ∀ p (h : p < orbits.length), R + r.get (Tensor.unravel r.shape p) < orbits[p].a * (1 - orbits[p].eccVal))
    (texp : Option ℝ) (oversample order : ℤ) (ho : order = 0 ∨ order = 1 ∨ order = 2) (hn : 1 ≤ oversample) :
    ∃ F : ℕ → ℝ → ℝ, (∀ p < orbits.length, Continuous (F p)) ∧ ∀ t : Tensor ℝ, ∃ L,
      (LimbDark.new u1 u2).getLightCurve (some (keplerApi C cp orbits R)) (some r) (some t) (texp.map Tensor.scalar) oversample order
        (some false) = .ok L ∧ L.shape = t.shape ++ [orbits.length] ∧
      ∀ i p, InShape i t.shape → p < orbits.length → L.get (i ++ [p]) = F p (t.get i) := by
  let f : ℕ → ℝ → ℝ := fun p s => match orbits[p]? with
    | some o => fluxAt (getCl u1 u2) R (r.get (Tensor.unravel r.shape p)) (o.relativePosition C s)
    | none => 0
  have hf : ∀ p < orbits.length, Continuous (f p) := by
    intro p hpl
    simp only [f, List.getElem?_eq_getElem hpl]
    have hmem := List.getElem_mem hpl
    obtain ⟨A, hA⟩ := hb _ hmem
    have := kepler_continuous hA (hp _ hmem) hlaw (r := r.get (Tensor.unravel r.shape p)) (by rw [hR _ hmem]; exact ha p hpl)
    rwa [hR _ hmem] at this
  rcases texp with _ | x
  · refine ⟨f, hf, fun t => ?_⟩
    obtain ⟨L, h1, h2, h3⟩ := C39_kepler C cp (LimbDark.new u1 u2) orbits R false r t hr oversample order
    refine ⟨L, h1, h2, fun i p hi hpl => ?_⟩
    rw [h3 i p hpl hi]
    simp only [f, List.getElem?_eq_getElem hpl]
    rfl
  · obtain ⟨S, hS, -⟩ := C38_weights order oversample ho hn
    refine ⟨fun p t => exposureAverage (f p) t (some (x, S)), fun p hpl => exposureAverage_continuous (hf p hpl) _, fun t => ?_⟩
    obtain ⟨S', hS', L, h1, h2, h3⟩ := C39_values_exposure (LimbDark.new u1 u2) (keplerApi C cp orbits R) false _ rfl r t
      (Tensor.scalar x) hr (Or.inl rfl) oversample order ho hn
    rw [hS] at hS'
    cases hS'
    refine ⟨L, h1, h2, fun i p hi hpl => ?_⟩
    rw [h3 i p hi hpl]
    have e : texpAt (Tensor.scalar x) i = x := by simp [texpAt, Tensor.scalar]
    rw [e]
    congr 1
    funext s
    simp only [f, keplerApi, List.getElem?_eq_getElem hpl]
    rfl

/-! ### Transit-timing variations -/

theorem Ttv.relativePosition_eq (C : Consts) (T : Ttv) (t : ℝ) :
    T.orbit.relativePosition C t = T.kepler.relativePosition C (T.orbit.warp t + T.orbit.t0) := by
  have hf : T.orbit.trueAnomaly t = T.kepler.trueAnomaly (T.orbit.warp t + T.orbit.t0) := by
    unfold Orbit.trueAnomaly
    simp only [Ttv.kepler, add_sub_cancel_right]
  simp only [Orbit.relativePosition, Orbit.position, Orbit.positionNow, hf, Bool.false_eq_true, if_false]
  rfl

/-- **C80** (transit-timing variations): the clock of a `TTVOrbit` jumps in the middle between successive transits. The light curve is
continuous exactly if the planet causes the same flux half the gap after a transit as half the gap before the next one. (The
gap may have any length; after a gap longer than expected the orbit is seen again from where it was.) -/
theorem C80_ttv (C : Consts) (K : TtvArgs) (T : Ttv) (h : ttvInit C K = .ok (some T))
    (hinc : T.all_transit_times.Pairwise (· < ·)) (hP : 0 < T.ttv_period) (hn : T.transit_inds.Nodup) (hp : T.kepler.Physical)
    (u1 u2 r : ℝ) (hlaw : (∫ p in starDisc, quadLaw u1 u2 (muAt p)) ≠ 0)
    (hr : T.orbit.r_star + r < T.orbit.a * (1 - T.orbit.eccVal)) :
    Continuous (fun t => fluxAt (getCl u1 u2) T.orbit.r_star r (T.orbit.relativePosition C t)) ↔
      ∀ (k : ℕ) (a b : ℝ), T.all_transit_times[k]? = some a → T.all_transit_times[k + 1]? = some b →
        fluxAt (getCl u1 u2) T.orbit.r_star r (T.kepler.relativePosition C (T.orbit.t0 + (b - a) / 2)) =
        fluxAt (getCl u1 u2) T.orbit.r_star r (T.kepler.relativePosition C (T.orbit.t0 - (b - a) / 2)) := by
  obtain ⟨⟨A, hA⟩, -⟩ := C31_labelled C K T h hinc hP hn
  have hc := kepler_continuous hA hp hlaw (r := r) hr
  have e : T.kepler.r_star = T.orbit.r_star := rfl
  rw [e] at hc
  obtain ⟨F, hF⟩ : ∃ F : V3 → ℝ, ∀ v, fluxAt (getCl u1 u2) T.orbit.r_star r v = F v := ⟨_, fun _ => rfl⟩
  simp only [hF] at hc ⊢
  have := continuous_nearest_iff (f := fun w => F (T.kepler.relativePosition C (w + T.orbit.t0)))
    (g := fun t => F (T.orbit.relativePosition C t)) (l := T.all_transit_times)
    (hc.comp (continuous_id.add continuous_const)) hinc (fun t => by
      obtain ⟨s, hs, hw⟩ := C30_nearest C K T h hinc hP t
      exact ⟨s, hs, by rw [T.relativePosition_eq, hw]⟩)
  rw [this]
  simp only [neg_add_eq_sub, add_comm (_ / 2) T.orbit.t0]

/-- On a circular orbit the transit is symmetric about its middle. -/
theorem flux_symmetric {C : Consts} {A : Args} {o : Orbit} (h : keplerianInit C A = .ok o) (hp : o.Physical) (hc : o.ecc = none)
    (c : ℝ × ℝ × ℝ) (R r x : ℝ) :
    fluxAt c R r (o.relativePosition C (o.t0 + x)) = fluxAt c R r (o.relativePosition C (o.t0 - x)) := by
  have B := built_of_init h
  obtain ⟨h1, h2⟩ := B.sep_circ hp hc (o.t0 + x)
  obtain ⟨h3, h4⟩ := B.sep_circ hp hc (o.t0 - x)
  have e1 : o.n * (o.t0 + x - o.t0) = o.n * x := by ring
  have e2 : o.n * (o.t0 - x - o.t0) = -(o.n * x) := by ring
  unfold fluxAt
  rw [h1, h2, h3, h4, e1, e2, sin_neg, cos_neg, neg_sq]

/-- **C80** (transit-timing variations, circular orbits): the jumps of the clock cannot be seen, whatever the transit times. -/
theorem C80_ttv_circular (C : Consts) (K : TtvArgs) (T : Ttv) (h : ttvInit C K = .ok (some T))
    (hinc : T.all_transit_times.Pairwise (· < ·)) (hP : 0 < T.ttv_period) (hn : T.transit_inds.Nodup) (hp : T.kepler.Physical)
    (hc : T.orbit.ecc = none) (u1 u2 r : ℝ) (hlaw : (∫ p in starDisc, quadLaw u1 u2 (muAt p)) ≠ 0)
    (hr : T.orbit.r_star + r < T.orbit.a) :
    Continuous fun t => fluxAt (getCl u1 u2) T.orbit.r_star r (T.orbit.relativePosition C t) := by
  obtain ⟨⟨A, hA⟩, -⟩ := C31_labelled C K T h hinc hP hn
  have he : T.orbit.eccVal = 0 := by simp [Orbit.eccVal, hc]
  refine (C80_ttv C K T h hinc hP hn hp u1 u2 r hlaw (by rw [he]; linarith)).2 fun k a b _ _ => ?_
  exact flux_symmetric hA hp hc _ _ _ _

/-! ### `SimpleTransitOrbit` -/

/-- **C80** (`SimpleTransitOrbit`): the light curve of a body that is not larger than the `ror` of the orbit is continuous. -/
theorem C80_simple_partial (P d t0 b R k : ℝ) (hP : 0 < P) (hd : 0 < d) (hR : 0 < R) (hk : 0 < 1 + k) (hb : |b| < 1 + k)
    (u1 u2 r : ℝ) (hlaw : (∫ p in starDisc, quadLaw u1 u2 (muAt p)) ≠ 0) (hr : r ≤ k * R) (oversample order : ℤ) :
    ∃ F : ℝ → ℝ, Continuous F ∧ ∀ t : Tensor ℝ, ∃ L,
      (LimbDark.new u1 u2).getLightCurve (some (simpleApi [simpleInit P d t0 b R k] R)) (some (Tensor.scalar r)) (some t) none
        oversample order (some false) = .ok L ∧ L.shape = t.shape ++ [1] ∧
      ∀ i, InShape i t.shape → L.get (i ++ [0]) = F (t.get i) := by
  obtain ⟨v, hv, hv2, hs, -⟩ := simple_position (P := P) (d := d) (t0 := t0) hd hR hk hb 0
  obtain ⟨Q, hQ, hQc⟩ : ∃ Q : ℝ × ℝ → ℝ, (∀ b k, quadLimbdarkLightCurve (getCl u1 u2) b k = Q (b, k)) ∧ Continuous Q :=
    ⟨_, fun _ _ => rfl, continuous_quadLc (getCl u1 u2)⟩
  have hQ0 : ∀ D, 1 + r / R ≤ D → Q (D, r / R) = 0 := fun D hD => by rw [← hQ]; exact C36_unocculted u1 u2 _ _ hlaw hD
  refine ⟨fun t => Q (√(v ^ 2 * wrap (t - t0) P ^ 2 + (b * R) ^ 2) / R, r / R), ?_, fun t => ?_⟩
  · have hw : Continuous fun t => wrap (t - t0) P ^ 2 := (continuous_wrap_sq hP).comp (continuous_id.sub continuous_const)
    exact hQc.comp (((((continuous_const.mul hw).add continuous_const).sqrt).div_const R).prodMk continuous_const)
  · obtain ⟨L, h1, h2, h3⟩ := C39_simple (LimbDark.new u1 u2) [simpleInit P d t0 b R k] R (Tensor.scalar r) t rfl oversample order
    refine ⟨L, h1, h2, fun i hi => ?_⟩
    obtain ⟨v', -, -, hs', hpos⟩ := simple_position (P := P) (t0 := t0) hd hR hk hb (t.get i)
    rw [hs] at hs'
    cases hs'
    refine (h3 i 0 (by simp) _ _ _ hi hpos).trans ?_
    set w := wrap (t.get i - t0) P
    have hrr : (Tensor.scalar r).get (Tensor.unravel (Tensor.scalar r).shape 0) = r := rfl
    rw [hrr]
    unfold fluxAt computeLightCurve
    simp only [Option.getD_some]
    change (if _ then quadLimbdarkLightCurve (getCl u1 u2) _ _ else 0) = _
    rw [hQ, mul_pow]
    by_cases hw : |w| < d / 2
    · rw [if_pos hw, if_pos (by positivity)]
    · rw [if_neg hw, if_neg (by rw [gt_iff_lt, not_lt]; exact div_nonpos_of_nonpos_of_nonneg (by norm_num) hR.le)]
      refine (hQ0 _ ?_).symm
      rw [show 1 + r / R = (R + r) / R by field_simp]
      refine div_le_div_of_nonneg_right ?_ hR.le
      rcases le_or_gt (R + r) 0 with hneg | hpos
      · exact hneg.trans (sqrt_nonneg _)
      refine le_sqrt_of_sq_le ?_
      have hw2 : (d / 2) ^ 2 ≤ w ^ 2 := by
        rw [← sq_abs w]; exact pow_le_pow_left₀ (by positivity) (not_lt.1 hw) 2
      have h4 : (v * d / 2) ^ 2 ≤ v ^ 2 * w ^ 2 := by
        rw [show (v * d / 2) ^ 2 = v ^ 2 * (d / 2) ^ 2 by ring]
        exact mul_le_mul_of_nonneg_left hw2 (sq_nonneg v)
      have h5 : (R + r) ^ 2 ≤ (R * (1 + k)) ^ 2 := pow_le_pow_left₀ hpos.le (by nlinarith) 2
      nlinarith

/-- A body of radius 1/10 at the limb of a uniform star of radius 1 covers some of it. -/
theorem limb_covered : quadLimbdarkLightCurve (getCl 0 0) 1 (1 / 10) < 0 := by
  have hlaw : PhysicalLaw 0 0 := physicalLaw_of_kipping (by norm_num) (by norm_num)
  have h1 : bodyDisc (19 / 20) (1 / 20) ⊆ starDisc ∩ bodyDisc 1 (1 / 10) := by
    refine Set.subset_inter (bodyDisc_subset (by rw [abs_of_nonneg] <;> norm_num)) ?_
    rintro ⟨x, y⟩ h
    rw [mem_bodyDisc (by norm_num)] at h ⊢
    simp only at h ⊢
    have hx : x - 19 / 20 ≤ 1 / 20 := by nlinarith [sq_nonneg y]
    have hx' : -(1 / 20) ≤ x - 19 / 20 := by nlinarith [sq_nonneg y]
    nlinarith
  have h2 := fluxFrom_mono hlaw h1 Set.inter_subset_left
  have h3 : fluxFrom 0 0 (bodyDisc (19 / 20) (1 / 20)) = π * (1 / 20) ^ 2 := by
    rw [← volume_bodyDisc (b := 19 / 20) (by norm_num)]
    simp [fluxFrom, quadLaw, MeasureTheory.setIntegral_const]
  rw [quadLc_covered 0 0 1 (1 / 10) hlaw.pos.ne', neg_lt_zero]
  have := pi_pos
  have h4 : 0 < fluxFrom 0 0 (starDisc ∩ bodyDisc 1 (1 / 10)) := by
    refine lt_of_lt_of_le ?_ h2
    rw [h3]; positivity
  have := hlaw.pos
  positivity

/-- **C80 is false for a `SimpleTransitOrbit` and a body larger than its `ror`** — also when `ror` is omitted: with
`SimpleTransitOrbit(period=10, duration=1)` and `r=0.1` the light of a uniform star jumps when the centre of the planet crosses the
limb, because `z` changes sign there. -/
theorem C80_simple_counterexample (oversample order : ℤ) : ¬ ∃ F : ℝ → ℝ, Continuous F ∧ ∀ t : Tensor ℝ, ∃ L,
      (LimbDark.new 0 0).getLightCurve (some (simpleApi [simpleInit 10 1] 1)) (some (Tensor.scalar (1 / 10))) (some t) none
        oversample order (some false) = .ok L ∧ L.shape = t.shape ++ [1] ∧
      ∀ i, InShape i t.shape → L.get (i ++ [0]) = F (t.get i) := by
  rintro ⟨F, hF, hL⟩
  obtain ⟨Q, hQ, hQc⟩ : ∃ Q : ℝ × ℝ → ℝ, (∀ b k, quadLimbdarkLightCurve (getCl 0 0) b k = Q (b, k)) ∧ Continuous Q :=
    ⟨_, fun _ _ => rfl, continuous_quadLc (getCl 0 0)⟩
  have hval : ∀ t : ℝ, |t| < 5 → F t = if |t| < 1 / 2 then Q (2 * |t|, 1 / 10) else 0 := by
    intro t ht
    obtain ⟨L, h1, -, h3⟩ := hL (Tensor.scalar t)
    obtain ⟨L', h1', -, h3'⟩ := C39_simple (LimbDark.new 0 0) [simpleInit 10 1] 1 (Tensor.scalar (1 / 10)) (Tensor.scalar t) rfl
      oversample order
    rw [h1] at h1'
    cases h1'
    obtain ⟨v, hv, hv2, -, hpos⟩ := simple_position (P := 10) (d := 1) (t0 := 0) (b := 0) (R := 1) (k := 0) one_pos one_pos
      (by norm_num) (by norm_num) t
    have hv' : v = 2 := by
      have : v ^ 2 = 2 ^ 2 := by linarith
      exact (pow_left_inj₀ hv.le (by norm_num) two_ne_zero).1 this
    have hwr : wrap (t - 0) 10 = t := by
      rw [abs_lt] at ht
      exact wrap_eq (by norm_num) (by linarith) (by linarith) 0 (by push_cast; ring)
    rw [hwr, hv'] at hpos
    have hi : InShape [] (Tensor.scalar t).shape := by simp [InShape, Tensor.scalar]
    have e := h3' [] 0 (by simp) _ _ _ hi hpos
    rw [h3 [] hi] at e
    refine (show F t = F ((Tensor.scalar t).get []) from rfl).trans (e.trans ?_)
    have hrr : (Tensor.scalar (1 / 10 : ℝ)).get (Tensor.unravel (Tensor.scalar (1 / 10 : ℝ)).shape 0) = 1 / 10 := rfl
    rw [hrr]
    unfold fluxAt computeLightCurve
    simp only [Option.getD_some]
    change (if _ then quadLimbdarkLightCurve (getCl 0 0) _ _ else 0) = _
    rw [hQ]
    by_cases hw : |t| < 1 / 2
    · rw [if_pos hw, if_pos hw, if_pos (by norm_num), div_one, div_one]
      congr 2
      rw [zero_mul, show (2 * t) ^ 2 + 0 ^ 2 = (2 * t) ^ 2 by ring, sqrt_sq_eq_abs, abs_mul]
      norm_num
    · rw [if_neg hw, if_neg hw, if_neg (by norm_num)]
  have h0 : F (1 / 2) = 0 := by
    rw [hval _ (by rw [abs_of_pos] <;> norm_num), if_neg (by rw [abs_of_pos] <;> norm_num)]
  have h1 : Tendsto F (𝓝[<] (1 / 2)) (𝓝 (Q (1, 1 / 10))) := by
    have hc : Continuous fun t : ℝ => Q (2 * |t|, 1 / 10) :=
      hQc.comp ((continuous_const.mul continuous_abs).prodMk continuous_const)
    have h2 := (hc.tendsto (1 / 2)).mono_left (nhdsWithin_le_nhds (s := Set.Iio (1 / 2)))
    rw [show 2 * |(1 / 2 : ℝ)| = 1 by rw [abs_of_pos] <;> norm_num] at h2
    refine h2.congr' ?_
    have : Set.Ioo (0 : ℝ) (1 / 2) ∈ 𝓝[<] (1 / 2 : ℝ) := Ioo_mem_nhdsLT (by norm_num)
    filter_upwards [this] with t ht
    rw [hval t (by rw [abs_of_pos ht.1]; linarith [ht.2]), if_pos (by rw [abs_of_pos ht.1]; exact ht.2)]
  have h2 := tendsto_nhds_unique ((hF.tendsto (1 / 2)).mono_left nhdsWithin_le_nhds) h1
  rw [h0] at h2
  have := limb_covered
  rw [hQ, ← h2] at this
  exact lt_irrefl _ this

/-! ### Orbits that touch the star -/

/-- `KeplerianOrbit(a=0.5, period=1, b=0)`: an orbit inside the star. -/
noncomputable def demoInside : Args := { a := some (1 / 2 : ℝ), period := some (1 : ℝ), b := some (0 : ℝ) }

theorem demoInside_ok (C : Consts) : ∃ o, keplerianInit C demoInside = .ok o ∧ o.Physical ∧
    o.a = 1 / 2 ∧ o.period = 1 ∧ o.r_star = 1 ∧ o.b = 0 ∧ o.t0 = 0 ∧ o.ecc = none ∧ o.sin_incl = 1 := by
  have hG := C.G_pos
  have hg := C.gccPerSun_pos
  have hpi := pi_pos
  refine ⟨_, rfl, ⟨?_, ?_, ?_, ?_, ?_, ?_, ?_, ?_, ?_, ?_⟩, ?_, ?_, ?_, ?_, ?_, ?_, ?_⟩ <;>
    simp [inclFactorOf, demoInside] <;> try positivity

/-- **C80 is false for an orbit that touches the star**: the planet would appear in front of the star at once. With
`KeplerianOrbit(a=0.5, period=1, b=0)` and `r=0.1` the light of a uniform star jumps at a quarter of the period. -/
theorem C80_inside_counterexample (C : Consts) : ∃ o, keplerianInit C demoInside = .ok o ∧ o.Physical ∧
    ¬ Continuous fun t => fluxAt (getCl 0 0) o.r_star (1 / 10) (o.relativePosition C t) := by
  obtain ⟨o, ho, hp, ha, hP, hR, hb, ht0, hc, hs⟩ := demoInside_ok C
  refine ⟨o, ho, hp, fun hcont => ?_⟩
  have B := built_of_init ho
  have hn : o.n = 2 * π := by
    have := B.n_mul_period hp
    rwa [hP, mul_one] at this
  have hpi := pi_pos
  obtain ⟨Q, hQ, hQc⟩ : ∃ Q : ℝ × ℝ → ℝ, (∀ b k, quadLimbdarkLightCurve (getCl 0 0) b k = Q (b, k)) ∧ Continuous Q :=
    ⟨_, fun _ _ => rfl, continuous_quadLc (getCl 0 0)⟩
  have hval : ∀ t, 0 ≤ t → t ≤ 1 / 4 → fluxAt (getCl 0 0) o.r_star (1 / 10) (o.relativePosition C t) =
      if t < 1 / 4 then Q (1 / 2 * sin (2 * π * t), 1 / 10) else 0 := by
    intro t h0 h1
    obtain ⟨e1, e2⟩ := B.sep_circ hp hc t
    unfold fluxAt computeLightCurve
    simp only [Option.getD_some]
    rw [e1, e2, ha, hR, hb, ht0, hs, hn, sub_zero, hQ, zero_mul, div_one, div_one, div_one, mul_one]
    rw [show (0 : ℝ) ^ 2 + (1 / 2) ^ 2 * sin (2 * π * t) ^ 2 = (1 / 2 * sin (2 * π * t)) ^ 2 by ring,
      sqrt_sq (mul_nonneg (by norm_num) (sin_nonneg_of_nonneg_of_le_pi (by positivity) (by nlinarith)))]
    refine if_congr ?_ rfl rfl
    constructor
    · intro h
      by_contra hlt
      have : t = 1 / 4 := le_antisymm h1 (not_lt.1 hlt)
      rw [this, show 2 * π * (1 / 4) = π / 2 by ring, cos_pi_div_two, mul_zero] at h
      exact lt_irrefl _ h
    · intro h
      exact mul_pos (by norm_num) (cos_pos_of_mem_Ioo ⟨by nlinarith, by nlinarith⟩)
  generalize hG : (fun t => fluxAt (getCl 0 0) o.r_star (1 / 10) (o.relativePosition C t)) = G at hcont
  have hval' : ∀ t, 0 ≤ t → t ≤ 1 / 4 → G t = if t < 1 / 4 then Q (1 / 2 * sin (2 * π * t), 1 / 10) else 0 := by
    intro t h0 h1
    rw [← hval t h0 h1, ← hG]
  have h0 : G (1 / 4) = 0 := by
    rw [hval' _ (by norm_num) le_rfl, if_neg (lt_irrefl _)]
  have h1 : Tendsto G (𝓝[<] (1 / 4)) (𝓝 (Q (1 / 2, 1 / 10))) := by
    have hc : Continuous fun t : ℝ => Q (1 / 2 * sin (2 * π * t), 1 / 10) :=
      hQc.comp ((by fun_prop : Continuous fun t : ℝ => 1 / 2 * sin (2 * π * t)).prodMk continuous_const)
    have h2 := (hc.tendsto (1 / 4)).mono_left (nhdsWithin_le_nhds (s := Set.Iio (1 / 4)))
    rw [show 2 * π * (1 / 4) = π / 2 by ring, sin_pi_div_two, mul_one] at h2
    refine h2.congr' ?_
    have : Set.Ioo (0 : ℝ) (1 / 4) ∈ 𝓝[<] (1 / 4 : ℝ) := Ioo_mem_nhdsLT (by norm_num)
    filter_upwards [this] with t ht
    rw [hval' t ht.1.le ht.2.le, if_pos ht.2]
  have h2 := tendsto_nhds_unique ((hcont.tendsto (1 / 4)).mono_left nhdsWithin_le_nhds) h1
  rw [h0, ← hQ] at h2
  have h3 := C37_uniform (1 / 2) (1 / 10) 1 (by norm_num) (by rw [abs_of_pos] <;> norm_num) one_pos
  unfold computeLightCurve at h3
  simp only [Option.getD_some, gt_iff_lt, zero_lt_one, if_true] at h3
  rw [h3] at h2
  norm_num at h2

/-! ### Examples -/

/-- Hypotheses of `C80_kepler`: an eccentric orbit, a body of a tenth of the radius of the star. -/
example (C : Consts) : ∃ A o, keplerianInit C A = .ok o ∧ o.Physical ∧ o.eccVal = 1 / 2 ∧ o.r_star + 1 / 10 < o.a * (1 - o.eccVal) := by
  obtain ⟨o, h, hp, ha, -, hR, -, -, -, -, p, he, hev, -⟩ := demoEcc_ok C
  have : o.eccVal = 1 / 2 := by simp [Orbit.eccVal, he, hev]
  exact ⟨_, o, h, hp, this, by rw [hR, ha, this]; norm_num⟩

/-- Hypotheses of `C80_ttv`: transits 0 and 2 with a missing one in between. -/
example (C : Consts) : ∃ K T, ttvInit C K = .ok (some T) ∧ T.all_transit_times.Pairwise (· < ·) ∧ 0 < T.ttv_period ∧
    T.transit_inds.Nodup ∧ T.kepler.Physical := by
  obtain ⟨T, h, -, -, hp, hi, -, -, ha, hk⟩ := demoTtv_ok C
  refine ⟨_, T, h, ?_, ?_, ?_, hk⟩
  · rw [ha]; norm_num
  · rw [hp]; norm_num
  · rw [hi]; decide

end Exo
