import Verif.Props.LightCurve

/-!
# C40: `use_in_transit`, exposure times per datum, `SimpleTransitOrbit`, counterexamples
-/

namespace Exo
open Real

/-! ## One planet, one exposure time per datum -/

theorem bcast_single {α β γ : Type} (f : α → β → γ) (x : α) (v : List β) : bcast f [x] v = .ok (v.map (f x)) := by
  unfold bcast
  rcases v with _ | ⟨a, _ | ⟨b, v⟩⟩ <;> simp

/-- With one planet the windows for all exposure times are searched at every time. -/
theorem inTransit_vector_single (cp : ContactOp) (o : Orbit) (r : ℝ) (ts v : List ℝ) :
    ∃ l, inTransit cp [(o, r)] ts (.vector v) = .ok l ∧ (∀ i ∈ l, i < ts.length) ∧
      ∀ x ∈ v, ∀ ls, inTransit cp [(o, r)] ts (.scalar x) = .ok ls → ∀ i ∈ ls, i ∈ l := by
  have hw : widenAll ([(o, r)].map (fun p : Orbit × ℝ => p.1.transitWindow cp p.2) |>.map Prod.fst) (.vector v) =
      .ok (v.map (widen (o.transitWindow cp r).1)) := bcast_single _ _ _
  unfold inTransit
  simp only [Bool.false_eq_true, if_false, hw]
  simp only [bcast_single, List.map_cons, List.map_nil]
  have hw' : ∀ x, widenAll [(o.transitWindow cp r).1] (.scalar x) = .ok [widen (o.transitWindow cp r).1 x] := fun x => rfl
  simp only [hw', bcast_single, List.map_cons, List.map_nil]
  by_cases hall : ([o.transitWindow cp r].all fun x => decide (x.2 = 0)) = true
  · rw [if_pos hall]
    refine ⟨_, rfl, fun i hi => by simpa using (List.mem_filter.1 hi).1, fun x hx ls hls i hi => ?_⟩
    rw [if_pos hall] at hls
    cases hls
    rw [List.mem_filter] at hi ⊢
    refine ⟨hi.1, ?_⟩
    have hi' : i < ts.length := by simpa using hi.1
    have := hi.2
    rw [List.getD_eq_getElem _ _ (by simpa using hi')] at this ⊢
    simp only [List.getElem_map, List.any_cons, List.any_nil, Bool.or_false, id] at this ⊢
    rw [List.any_eq_true]
    exact ⟨_, List.mem_map.2 ⟨_, List.mem_map.2 ⟨x, hx, rfl⟩, rfl⟩, this⟩
  · rw [if_neg hall]
    refine ⟨_, rfl, fun i hi => by simpa using hi, fun x hx ls hls i hi => ?_⟩
    rw [if_neg hall] at hls
    cases hls
    exact hi

/-- **C40** for one planet on a Keplerian orbit with one exposure time per datum. -/
theorem C40_kepler_single_partial (C : Consts) (cp : ContactOp) (u1 u2 : ℝ)
    (hlaw : (∫ p in starDisc, quadLaw u1 u2 (muAt p)) ≠ 0) (o : Orbit) (rs : Tensor ℝ) (r : ℝ)
    (hrs : rs.toList = [r]) (ts v : List ℝ)
    (hv : v.length = ts.length) (hx : ∀ x ∈ v, 0 ≤ x) (hT : ∀ x ∈ v, Tractable C cp o r x) (oversample order : ℤ)
    (ho : order = 0 ∨ order = 1 ∨ order = 2) (hn : 1 ≤ oversample) :
    ∃ L L', (LimbDark.new u1 u2).getLightCurve (some (keplerApi C cp [o] o.r_star)) (some rs)
        (some (Tensor.ofList ts 0)) (some (Tensor.ofList v 0)) oversample order (some true) = .ok L ∧
      (LimbDark.new u1 u2).getLightCurve (some (keplerApi C cp [o] o.r_star)) (some rs)
        (some (Tensor.ofList ts 0)) (some (Tensor.ofList v 0)) oversample order (some false) = .ok L' ∧ L.Same L' := by
  obtain ⟨rt, hr1, hr2, hr3, hr4⟩ := reshape_toList rs
  have hsize : rs.size = 1 := by have := congrArg List.length hrs; simpa [Tensor.toList] using this
  rw [hrs] at hr3 hr4
  rw [hsize] at hr2
  obtain ⟨S, hS, -, hSlen, hoff, -⟩ := C38_weights order oversample ho hn
  obtain ⟨inds, hl, hval, hsub⟩ := inTransit_vector_single cp o r ts v
  refine integrated_rows (LimbDark.new u1 u2) (keplerApi C cp [o] o.r_star) rt (Tensor.ofList ts 0) ts.length rfl oversample
    order _ rfl hr2 _ ?_ inds ?_ hval ?_ _ hr1
  · intro x hx'
    cases hx'
    exact ⟨Or.inr (by simp [Tensor.ofList, hv]), S, hS, hSlen, hoff⟩
  · unfold OrbitApi.inTransitT
    rw [if_neg (by simp [Tensor.ofList])]
    have hsh : (Tensor.ofList v (0 : ℝ)).shape = [v.length] := rfl
    have hk : ∀ te, (keplerApi C cp [o] o.r_star).inTransit ts [r] te false = inTransit cp [(o, r)] ts te false := by
      intro te
      unfold keplerApi
      rfl
    simp only [hsh, ofList_toList, hr4, hk]
    exact hl
  · intro i hi hni p hp u hu1 hu2
    have hp0 : p = 0 := by simpa [keplerApi] using hp
    subst hp0
    have hiv : i < v.length := by rw [hv]; exact hi
    have hmv := List.getElem_mem hiv
    obtain ⟨ls, hls, hm⟩ := C22_exposure C cp [(o, r)] v[i] (hx _ hmv) (by simpa using hT _ hmv) ts
    have hni' : i ∉ ls := fun h => hni (hsub _ hmv _ hls _ h)
    have hR0 : 0 < o.r_star := (hT _ hmv).2.1.r_star_pos
    have hr' : rt.get [0] = r := by rw [hr3 0 (by rw [hsize]; norm_num)]; rfl
    have hx0 : texpOr0 (some (Tensor.ofList v 0)) [i] = v[i] := by
      simp [texpOr0, texpAt, Tensor.ofList, hiv]
    have ht : (Tensor.ofList ts 0).get [i] = ts[i] := by simp [Tensor.ofList, hi]
    rw [hr', hx0, ht]
    simp only [List.getElem?_cons_zero]
    refine fluxAt_zero hlaw hR0 ?_
    rintro ⟨h1, h2⟩
    apply hni'
    rw [hm]
    refine ⟨hi, _, List.mem_singleton_self _, v[i] * u, ?_, ⟨h1, h2.le⟩⟩
    rw [abs_mul, abs_of_nonneg (hx _ hmv)]
    have : |u| ≤ 1 / 2 := abs_le.2 ⟨hu1, hu2⟩
    nlinarith [hx _ hmv]

/-! ## `SimpleTransitOrbit` -/

theorem wrap_nearest {x p : ℝ} (hp : 0 < p) (m : ℤ) : |wrap x p| ≤ |x - m * p| := by
  obtain ⟨k, hk⟩ := wrap_spec x p
  have h1 := wrap_ge (x := x) hp
  have h2 := wrap_lt (x := x) hp
  have e : x - m * p = wrap x p + ((k - m : ℤ) : ℝ) * p := by push_cast; linarith
  rw [e]
  rcases lt_trichotomy (k - m) 0 with h | h | h
  · have h3 : ((k - m : ℤ) : ℝ) ≤ -1 := by exact_mod_cast (by omega : k - m ≤ -1)
    rw [abs_of_nonpos (by nlinarith : wrap x p + ((k - m : ℤ) : ℝ) * p ≤ 0), abs_le]
    constructor <;> nlinarith
  · rw [h]; simp
  · have h3 : (1 : ℝ) ≤ ((k - m : ℤ) : ℝ) := by exact_mod_cast (by omega : 1 ≤ k - m)
    rw [abs_of_nonneg (by nlinarith : 0 ≤ wrap x p + ((k - m : ℤ) : ℝ) * p), abs_le]
    constructor <;> nlinarith

theorem wrap_lipschitz {x u p : ℝ} (hp : 0 < p) : |wrap x p| ≤ |wrap (x + u) p| + |u| := by
  obtain ⟨k, hk⟩ := wrap_spec (x + u) p
  have h1 := wrap_nearest (x := x) hp k
  have h2 : x - k * p = wrap (x + u) p - u := by linarith
  rw [h2] at h1
  exact h1.trans (abs_sub _ _)

theorem simpleInTransit_mem (planets : List (SimpleOrbit × ℝ)) (ts : List ℝ) (texp : Option ℝ) :
    ∃ l, simpleInTransit (planets.map Prod.fst) ts (some (planets.map Prod.snd)) (texpArg texp) = .ok l ∧
      ∀ i, i ∈ l ↔ ∃ h : i < ts.length, ∃ q ∈ planets,
        ((q.1.tolOf q.2).add (0.5 * texp.getD 0)).gt |q.1.dt ts[i]| = true := by
  have hadd : addTexp (planets.map (fun q => q.1.tolOf q.2)) (texpArg texp) =
      .ok (planets.map (fun q => (q.1.tolOf q.2).add (0.5 * texp.getD 0))) := by
    rcases texp with _ | x
    · simp only [texpArg, addTexp, Option.getD_none, mul_zero]
      congr 1
      refine List.map_congr_left fun q _ => ?_
      cases q.1.tolOf q.2 <;> simp [Tol.add]
    · simp only [texpArg, addTexp, List.map_map]
      rfl
  have hb1 := bcast_map (fun (_ : SimpleOrbit) (_ : Tol) => ()) (fun p : SimpleOrbit × ℝ => p.1)
    (fun q : SimpleOrbit × ℝ => (q.1.tolOf q.2).add (0.5 * texp.getD 0)) planets
  unfold simpleInTransit
  simp only [Bool.false_eq_true, if_false, bcast_map, hadd, hb1]
  refine ⟨_, rfl, fun i => ?_⟩
  rw [List.mem_filter, List.mem_range]
  simp only [List.map_map, bcast_map]
  constructor
  · rintro ⟨hi, hm⟩
    rw [List.getD_eq_getElem _ _ hi] at hm
    simp only [List.any_map, List.any_eq_true, Function.comp, id] at hm
    obtain ⟨q, hq, hin⟩ := hm
    exact ⟨hi, q, hq, hin⟩
  · rintro ⟨hi, q, hq, hin⟩
    refine ⟨hi, ?_⟩
    rw [List.getD_eq_getElem _ _ hi]
    simp only [List.any_map, List.any_eq_true, Function.comp, id]
    exact ⟨q, hq, hin⟩

/-- A `SimpleTransitOrbit` outside its (widened) window is off the disc at every time of the exposure. -/
theorem simple_off_disc {o : SimpleOrbit} (hd : SimpleDomain o) {r x t u : ℝ} (hr : 0 ≤ r) (hx : 0 ≤ x) (hu : |u| ≤ 1 / 2)
    (h : ¬ ((o.tolOf r).add (0.5 * x)).gt |o.dt t| = true) :
    ∃ a b z, o.relativePosition (t + x * u) = .ok (some a, b, z) ∧ o.r_star + r ≤ √(a ^ 2 + b ^ 2) := by
  obtain ⟨P, d, t0, b, R, k, rfl, hP, hd, hR, hk, hb⟩ := hd.built
  obtain ⟨v, hv, hv2, hs, hpos⟩ := simple_position (P := P) (t0 := t0) hd hR hk hb (t + x * u)
  refine ⟨_, _, _, hpos, ?_⟩
  have e1 : (simpleInit P d t0 b R k).r_star = R := rfl
  have e2 : (simpleInit P d t0 b R k).b_norm = b * R := rfl
  rw [e1]
  apply le_sqrt_of_sq_le
  rw [SimpleOrbit.dt_eq] at h
  unfold SimpleOrbit.tolOf at h
  simp only [hs, e1, e2] at h
  by_cases hX : (r + R) ^ 2 - (b * R) ^ 2 < 0
  · nlinarith [sq_nonneg (v * wrap (t + x * u - t0) P)]
  · rw [if_neg hX, if_neg hv.ne'] at h
    push Not at hX
    simp only [Tol.add, Tol.gt, decide_eq_true_eq, not_lt] at h
    have h1 := wrap_lipschitz (x := t - t0) (u := x * u) hP
    rw [abs_mul, abs_of_nonneg hx, show t - t0 + x * u = t + x * u - t0 by ring] at h1
    have h2 : √((r + R) ^ 2 - (b * R) ^ 2) / v ≤ |wrap (t + x * u - t0) P| := by nlinarith
    rw [div_le_iff₀ hv] at h2
    have h3 := pow_le_pow_left₀ (sqrt_nonneg _) h2 2
    rw [sq_sqrt hX, mul_pow |wrap (t + x * u - t0) P|, sq_abs] at h3
    nlinarith

/-- **C40** for `SimpleTransitOrbit`: any number of planets in the documented domain, no or one common exposure time. -/
theorem C40_simple_partial (u1 u2 : ℝ) (hlaw : (∫ p in starDisc, quadLaw u1 u2 (muAt p)) ≠ 0)
    (orbits : List SimpleOrbit) (rs : Tensor ℝ) (ts : List ℝ) (R : ℝ) (hsize : rs.size = orbits.length)
    (hR : ∀ o ∈ orbits, o.r_star = R) (hdom : ∀ o ∈ orbits, SimpleDomain o) (hr : ∀ r ∈ rs.toList, 0 ≤ r)
    (texp : Option ℝ) (hx : ∀ x, texp = some x → 0 ≤ x) (oversample order : ℤ)
    (ho : order = 0 ∨ order = 1 ∨ order = 2) (hn : 1 ≤ oversample) :
    ∃ L L', (LimbDark.new u1 u2).getLightCurve (some (simpleApi orbits R)) (some rs)
        (some (Tensor.ofList ts 0)) (texp.map Tensor.scalar) oversample order (some true) = .ok L ∧
      (LimbDark.new u1 u2).getLightCurve (some (simpleApi orbits R)) (some rs)
        (some (Tensor.ofList ts 0)) (texp.map Tensor.scalar) oversample order (some false) = .ok L' ∧ L.Same L' := by
  obtain ⟨r, hr1, hr2, hr3, hr4⟩ := reshape_toList rs
  have hlen : rs.toList.length = orbits.length := by rw [← hsize]; simp [Tensor.toList]
  obtain ⟨S, hS, -, hSlen, hoff, -⟩ := C38_weights order oversample ho hn
  obtain ⟨inds, hl, hm⟩ := simpleInTransit_mem (orbits.zip rs.toList) ts texp
  rw [List.map_fst_zip (by omega), List.map_snd_zip (by omega)] at hl
  have hx0 : 0 ≤ texp.getD 0 := by
    rcases texp with _ | x0
    · simp
    · exact hx x0 rfl
  refine integrated_rows (LimbDark.new u1 u2) (simpleApi orbits R) r (Tensor.ofList ts 0) ts.length rfl oversample order
    _ rfl (by rw [hr2, hsize]; rfl) _ ?_ inds ?_ (fun i hi => ((hm i).1 hi).1) ?_ _ hr1
  · intro x hx'
    rcases texp with _ | x0
    · cases hx'
    · simp only [Option.map_some, Option.some.injEq] at hx'
      subst hx'
      exact ⟨Or.inl rfl, S, hS, hSlen, hoff⟩
  · unfold OrbitApi.inTransitT
    rw [if_neg (by simp [Tensor.ofList])]
    rcases texp with _ | x0
    · simp only [Option.map_none, ofList_toList, hr4]
      exact hl
    · simp only [Option.map_some, Tensor.scalar, ofList_toList, hr4]
      exact hl
  · intro i hi hni p hp u hu1 hu2
    have hp' : p < orbits.length := hp
    have hmem : (orbits[p], rs.toList[p]) ∈ orbits.zip rs.toList := by
      rw [List.mem_iff_getElem]
      exact ⟨p, by simp [hlen, hp'], by simp⟩
    have hmo := List.getElem_mem hp'
    have hRp : orbits[p].r_star = R := hR _ hmo
    have hR0 : 0 < R := by
      rw [← hRp]
      obtain ⟨P, d, t0, b, R', k, h', hP, hd, hR', hk, hb⟩ := (hdom _ hmo).built
      rw [h']; exact hR'
    have hr' : r.get [p] = rs.toList[p] := by rw [hr3 p (by rw [hsize]; exact hp'), List.getD_eq_getElem]
    have hxe : texpOr0 (texp.map Tensor.scalar) [i] = texp.getD 0 := by
      rcases texp with _ | x0
      · rfl
      · simp [texpOr0, texpAt, Tensor.scalar]
    have ht : (Tensor.ofList ts 0).get [i] = ts[i] := by simp [Tensor.ofList, hi]
    have hno : ¬ ((orbits[p].tolOf rs.toList[p]).add (0.5 * texp.getD 0)).gt |orbits[p].dt ts[i]| = true := by
      intro hcon
      exact hni ((hm i).2 ⟨hi, _, hmem, hcon⟩)
    obtain ⟨a, b, z, h1, h2⟩ := simple_off_disc (hdom _ hmo) (hr _ (List.getElem_mem _)) hx0 (abs_le.2 ⟨hu1, hu2⟩) hno
    rw [hr', hxe, ht]
    simp only [List.getElem?_eq_getElem hp', h1]
    refine fluxAt_zero hlaw hR0 ?_
    rintro ⟨-, h3⟩
    simp only [Option.getD_some] at h3
    change √(a ^ 2 + b ^ 2) < R + rs.toList[p] at h3
    rw [hRp] at h2
    linarith

/-- Hypotheses of `C40_simple_partial`: two different planets, a dozen-minute-like exposure. -/
example : (∫ p in starDisc, quadLaw 0.3 0.2 (muAt p)) ≠ 0 ∧ (∀ o ∈ [simpleInit 1 0.1 0 0.5 1 0.1, simpleInit 3 0.2 1 0 1 0.05],
    SimpleDomain o ∧ o.r_star = 1) := by
  constructor
  · rw [C36_disc_integral]
    have := pi_pos
    have : π * (1 - 0.3 / 3 - 0.2 / 6) > 0 := by apply mul_pos this; norm_num
    exact this.ne'
  · intro o ho
    simp only [List.mem_cons, List.not_mem_nil, or_false] at ho
    rcases ho with rfl | rfl
    · exact ⟨⟨_, _, _, _, _, _, rfl, by norm_num, by norm_num, by norm_num, by norm_num,
        by rw [abs_of_nonneg] <;> norm_num⟩, rfl⟩
    · exact ⟨⟨_, _, _, _, _, _, rfl, by norm_num, by norm_num, by norm_num, by norm_num,
        by rw [abs_of_nonneg] <;> norm_num⟩, rfl⟩

/-- Hypotheses of `C40_kepler_partial` and `C40_kepler_single_partial`. -/
example (C : Consts) (cp : ContactOp) : ∃ o, Tractable C cp o 0.1 0.02 ∧ Tractable C cp o 0.1 0.3 ∧ o.r_star = 1 := by
  obtain ⟨o, h, hp, he, hs, ha, hR, -⟩ := demoCirc_transits C
  refine ⟨o, ⟨⟨_, h⟩, hp, by norm_num, ?_⟩, ⟨⟨_, h⟩, hp, by norm_num, ?_⟩, hR⟩ <;> rw [he] <;>
    exact ⟨hs, by rw [ha, hR]; norm_num⟩

/-! ## Counterexamples -/

/-- **C40 is false** for several planets and one exposure time per datum: with three data and two planets the two shapes do not
broadcast and `use_in_transit=True` raises, while `use_in_transit=False` succeeds. -/
theorem C40_vector_texp_counterexample (C : Consts) (cp : ContactOp) (l : LimbDark) (o : Orbit) :
    (l.getLightCurve (some (keplerApi C cp [o, o] o.r_star)) (some (Tensor.ofList [0.1, 0.1] 0))
      (some (Tensor.ofList [1, 2, 3] 0)) (some (Tensor.ofList [0.1, 0.1, 0.1] 0)) 7 0 (some true) =
        .error .shapeMismatch) ∧
    ∃ L, l.getLightCurve (some (keplerApi C cp [o, o] o.r_star)) (some (Tensor.ofList [0.1, 0.1] 0))
      (some (Tensor.ofList [1, 2, 3] 0)) (some (Tensor.ofList [0.1, 0.1, 0.1] 0)) 7 0 (some false) = .ok L := by
  constructor
  · obtain ⟨r, hr1, hr2, hr3, hr4⟩ := reshape_toList (Tensor.ofList [0.1, 0.1] 0)
    rw [show (Tensor.ofList [0.1, 0.1] (0 : ℝ)).size = 2 by simp [Tensor.ofList, Tensor.size]] at hr2
    rw [ofList_toList] at hr4
    obtain ⟨M, h4, -⟩ := padAdd_zero (r := r.map (fun _ => 0)) (n := 2) (by simp [Tensor.map, hr2]) (Tensor.ofList [1, 2, 3] 0)
    unfold LimbDark.getLightCurve lightCurveWith
    simp only [Option.getD_some, if_true, bind, Except.bind, hr1, h4]
    have : (keplerApi C cp [o, o] o.r_star).inTransitT (Tensor.ofList [1, 2, 3] 0) r
        (some (Tensor.ofList [0.1, 0.1, 0.1] 0)) false = .error .shapeMismatch := by
      unfold OrbitApi.inTransitT
      rw [if_neg (by simp [Tensor.ofList])]
      have hsh : (Tensor.ofList [0.1, 0.1, 0.1] (0 : ℝ)).shape = [3] := rfl
      simp only [hsh, ofList_toList, hr4]
      rfl
    rw [this]
  · obtain ⟨S, -, L, h, -⟩ := C39_values_exposure l (keplerApi C cp [o, o] o.r_star) false _ rfl (Tensor.ofList [0.1, 0.1] 0)
      (Tensor.ofList [1, 2, 3] 0) (Tensor.ofList [0.1, 0.1, 0.1] 0) (by simp [Tensor.ofList, Tensor.size, keplerApi])
      (Or.inr rfl) 7 0 (Or.inl rfl) (by norm_num)
    exact ⟨L, h⟩

/-- `KeplerianOrbit(a=10, period=1, b=5)`: no transits. -/
noncomputable def demoMiss : Args := { a := some (10 : ℝ), period := some (1 : ℝ), b := some (5 : ℝ) }

theorem demoMiss_ok (C : Consts) : ∃ o, keplerianInit C demoMiss = .ok o ∧ o.Physical ∧ o.r_star = 1 ∧ o.b = 5 ∧ o.ecc = none := by
  have hG := C.G_pos
  have hg := C.gccPerSun_pos
  have hpi := pi_pos
  refine ⟨_, rfl, ⟨?_, ?_, ?_, ?_, ?_, ?_, ?_, ?_, ?_, ?_⟩, ?_, ?_, ?_⟩ <;>
    simp [inclFactorOf] <;> try positivity
  norm_num

/-- **C40 is false, silently**, when the number of data equals the number of planets: the exposure times are then assigned to
the planets. Two planets, the second without transits; both data at `t = 0.3`, the first instantaneous, the second with exposure
time `0.9`, which covers the transit of the first planet at `t = 0`. With `use_in_transit=True` the result for that datum
and planet is `0`, with `use_in_transit=False` it is negative. -/
theorem C40_silent_counterexample (C : Consts) (cp : ContactOp) : ∃ o o' L L', keplerianInit C demoCirc = .ok o ∧
    keplerianInit C demoMiss = .ok o' ∧
    (LimbDark.new 0 0).getLightCurve (some (keplerApi C cp [o, o'] 1)) (some (Tensor.ofList [0.1, 0.1] 0))
      (some (Tensor.ofList [0.3, 0.3] 0)) (some (Tensor.ofList [0, 0.9] 0)) 3 0 (some true) = .ok L ∧
    (LimbDark.new 0 0).getLightCurve (some (keplerApi C cp [o, o'] 1)) (some (Tensor.ofList [0.1, 0.1] 0))
      (some (Tensor.ofList [0.3, 0.3] 0)) (some (Tensor.ofList [0, 0.9] 0)) 3 0 (some false) = .ok L' ∧
    L.get [1, 0] = 0 ∧ L'.get [1, 0] < 0 := by
  obtain ⟨o, h, hp, he, hs, ha, hR, hP, ht0, hb⟩ := demoCirc_transits C
  obtain ⟨o', h', hp', hR', hb', he'⟩ := demoMiss_ok C
  have B := built_of_init h
  obtain ⟨r, hr1, hr2, hr3, hr4⟩ := reshape_toList (Tensor.ofList [0.1, 0.1] 0)
  rw [show (Tensor.ofList [0.1, 0.1] (0 : ℝ)).size = 2 by simp [Tensor.ofList, Tensor.size]] at hr2
  rw [ofList_toList] at hr4
  obtain ⟨S, hS, hSn, hSlen, hoff, hw, -⟩ := C38_weights 0 3 (Or.inl rfl) (by norm_num)
  -- the windows
  have hmiss : o'.transitWindow cp 0.1 = (none, 0) := by
    unfold Orbit.transitWindow
    have : o'.halfDuration 0.1 = none := by
      unfold Orbit.halfDuration
      simp only
      rw [if_pos]
      left
      rw [hb', hR']; norm_num
    simp only [he', this]
  obtain ⟨d, hd, hd0, hd4, -⟩ := (B.overlap_circ hp he hs 0.1 (by norm_num) (by rw [ha, hR]; norm_num)).2
    (by rw [hb, hR, abs_of_nonneg] <;> norm_num)
  have hwin : o.transitWindow cp 0.1 = (some (-d, d), 0) := by
    unfold Orbit.transitWindow; simp only [he, hd]
  have hdt : o.sinceTransit 0.3 = 0.3 :=
    wrap_eq hp.period_pos (by rw [hP]; norm_num) (by rw [hP]; norm_num) 0 (by rw [B.warp_eq, ht0]; simp)
  rw [hP] at hd4
  have hin : (keplerApi C cp [o, o'] 1).inTransitT (Tensor.ofList [0.3, 0.3] 0) r (some (Tensor.ofList [0, 0.9] 0)) false =
      .ok [] := by
    unfold OrbitApi.inTransitT
    rw [if_neg (by simp [Tensor.ofList])]
    have hsh : (Tensor.ofList [0, 0.9] (0 : ℝ)).shape = [2] := rfl
    simp only [hsh, ofList_toList, hr4]
    have : inTransit cp [(o, 0.1), (o', 0.1)] [0.3, 0.3] (.vector [0, 0.9]) = .ok [] := by
      unfold inTransit
      simp only [Bool.false_eq_true, if_false, List.map_cons, List.map_nil, hmiss, hwin, widenAll, bcast, List.length_cons,
        List.length_nil, if_true, List.zipWith_cons_cons, List.zipWith_nil_right, widen, Option.map_none, Option.map_some,
        hdt, inWindow, List.any_cons, List.any_nil, Bool.or_false, id]
      have : ¬ ((0.3 : ℝ) ≥ -d - 0.5 * 0 ∧ (0.3 : ℝ) ≤ d + 0.5 * 0) := by
        rintro ⟨-, h2⟩
        norm_num at h2
        linarith
      simp only [this, decide_false, Bool.false_or]
      simp [List.range_succ]
    exact this
  obtain ⟨L, L', h1, h2, h3, h4, h5⟩ := selected_rows (LimbDark.new 0 0) (keplerApi C cp [o, o'] 1) r
    (Tensor.ofList [0.3, 0.3] 0) 2 rfl 3 0 _ rfl hr2 (some (Tensor.ofList [0, 0.9] 0))
    (fun x hx => by cases hx; exact ⟨Or.inr rfl, S, hS, hSlen, hoff⟩) [] hin (by simp) _ hr1
  refine ⟨o, o', L, L', h, h', h1, h2, ?_, ?_⟩
  · rw [h5 1 0 (by norm_num) (by simp [keplerApi])]; simp
  · obtain ⟨S', hS', L'', g1, g2, g3⟩ := C39_values_exposure (LimbDark.new 0 0) (keplerApi C cp [o, o'] 1) false _ rfl
      (Tensor.ofList [0.1, 0.1] 0) (Tensor.ofList [0.3, 0.3] 0) (Tensor.ofList [0, 0.9] 0)
      (by simp [Tensor.ofList, Tensor.size, keplerApi]) (Or.inr rfl) 3 0 (Or.inl rfl) (by norm_num)
    rw [h2] at g1
    cases g1
    have := g3 [1] 0 (inShape_singleton.2 (by norm_num)) (by simp [keplerApi])
    refine lt_of_eq_of_lt this ?_
    clear g3 this
    obtain ⟨n, S'', hS'', hn1, hn2, hn3, hmid⟩ := C38_midpoint 3 (by norm_num)
    rw [hS'] at hS''
    cases hS''
    have hn : n = 3 := by omega
    subst hn
    have hx1 : texpAt (Tensor.ofList [0, 0.9] 0) [1] = 0.9 := by simp [texpAt, Tensor.ofList]
    have ht1 : (Tensor.ofList [0.3, 0.3] (0 : ℝ)).get [1] = 0.3 := by simp [Tensor.ofList]
    have hr1' : (Tensor.ofList [0.1, 0.1] (0 : ℝ)).get (Tensor.unravel (Tensor.ofList [0.1, 0.1] (0 : ℝ)).shape 0) = 0.1 := by
      simp [Tensor.ofList, Tensor.unravel]
    rw [hx1, ht1, hr1']
    simp only [List.getElem?_cons_zero]
    have hform : ∀ F : ℝ → ℝ, exposureAverage F 0.3 (some (0.9, S')) = applyStencil S' (fun u => F (0.3 + 0.9 * u)) := by
      intro F; rfl
    rw [hform, hmid, Finset.sum_range_succ, Finset.sum_range_succ, Finset.sum_range_one]
    have hlaw : PhysicalLaw 0 0 := ⟨fun μ _ _ => by unfold quadLaw; norm_num, by norm_num⟩
    have hle : ∀ v, fluxAt (LimbDark.new 0 0).c (keplerApi C cp [o, o'] 1).r_star 0.1 v ≤ 0 := fun v =>
      (C37_range 0 0 _ _ _ hlaw).2
    have h0 : (0.3 + 0.9 * (-(1 / 2) + (2 * ((0 : ℕ) : ℝ) + 1) / (2 * ((3 : ℕ) : ℝ)))) = 0 := by norm_num
    have hlt : fluxAt (LimbDark.new 0 0).c (keplerApi C cp [o, o'] 1).r_star 0.1 (o.relativePosition C 0 none false) < 0 := by
      obtain ⟨e1, e2⟩ := B.sep_circ hp he 0
      unfold fluxAt
      change (o.relativePosition C 0 none false).x ^ 2 + (o.relativePosition C 0 none false).y ^ 2 = _ at e1
      change (o.relativePosition C 0 none false).z = _ at e2
      rw [e1, e2, ht0, hb, hR, ha]
      simp only [sub_zero, mul_zero, sin_zero, cos_zero]
      have hk : (keplerApi C cp [o, o'] 1).r_star = 1 := rfl
      rw [hk]
      have h12 : √((1 / 2 * 1) ^ 2 + (10 * o.sin_incl) ^ 2 * 0 ^ 2) = 1 / 2 := by
        rw [show ((1 / 2 * 1 : ℝ) ^ 2 + (10 * o.sin_incl) ^ 2 * 0 ^ 2) = (1 / 2) ^ 2 by norm_num, sqrt_sq (by norm_num)]
      rw [h12]
      refine lt_of_eq_of_lt (C37_uniform (1 / 2 / 1) (0.1 / 1) _ (by norm_num) (by rw [abs_of_nonneg] <;> norm_num)
        (by positivity)) (by norm_num)
    rw [h0]
    have q1 := hle (o.relativePosition C (0.3 + 0.9 * (-(1 / 2) + (2 * ((1 : ℕ) : ℝ) + 1) / (2 * ((3 : ℕ) : ℝ)))) none false)
    have q2 := hle (o.relativePosition C (0.3 + 0.9 * (-(1 / 2) + (2 * ((2 : ℕ) : ℝ) + 1) / (2 * ((3 : ℕ) : ℝ)))) none false)
    refine div_neg_of_neg_of_pos ?_ (by norm_num)
    linarith

end Exo
