import Verif.Lemmas.LightCurve2

/-!
# C39, C40, C44: `get_light_curve`
-/

namespace Exo
open Real

/-! ## C39 -/

/-- **C39** (no exposure time): for any shape of the times (scalar included), any orbit-like object with `np` planets, and as
many radii: the result has shape `t.shape + (np,)` and its entry `(i, p)` is the flux of planet `p` at time `t[i]`. -/
theorem C39_values (l : LimbDark) (o : OrbitApi) (ld : Bool) (f : ℕ → ℝ → V3) (hf : o.pos ld = .ok f) (r t : Tensor ℝ)
    (hr : r.size = o.np) (oversample order : ℤ) :
    ∃ L, l.getLightCurve (some o) (some r) (some t) none oversample order (some false) ld = .ok L ∧
      L.shape = t.shape ++ [o.np] ∧
      ∀ i p, InShape i t.shape → p < o.np →
        L.get (i ++ [p]) = fluxAt l.c o.r_star (r.get (Tensor.unravel r.shape p)) (f p (t.get i)) := by
  obtain ⟨y, h1, h2, h3⟩ := Tensor.reshape_flat r
  obtain ⟨L, h4, h5, h6⟩ := (integrated_spec l o y t oversample order ld f hf (by rw [h2, hr])).1
  refine ⟨L, ?_, h5, fun i p hi hp => by rw [h6 i p hi hp, h3]⟩
  unfold LimbDark.getLightCurve lightCurveWith
  simp only [Option.getD_some, Bool.false_eq_true, if_false, bind, Except.bind, h1, h4]

/-- **C39** (exposure time, scalar or one per time): entry `(i, p)` is the weighted average of the flux of planet `p` over the
sub-exposures of `t[i]`. -/
theorem C39_values_exposure (l : LimbDark) (o : OrbitApi) (ld : Bool) (f : ℕ → ℝ → V3) (hf : o.pos ld = .ok f)
    (r t x : Tensor ℝ) (hr : r.size = o.np) (hx : x.shape = [] ∨ x.shape = t.shape) (oversample order : ℤ)
    (ho : order = 0 ∨ order = 1 ∨ order = 2) (hn : 1 ≤ oversample) :
    ∃ S, stencil order oversample = .ok S ∧
    ∃ L, l.getLightCurve (some o) (some r) (some t) (some x) oversample order (some false) ld = .ok L ∧
      L.shape = t.shape ++ [o.np] ∧
      ∀ i p, InShape i t.shape → p < o.np →
        L.get (i ++ [p]) = exposureAverage (fun s => fluxAt l.c o.r_star (r.get (Tensor.unravel r.shape p)) (f p s))
          (t.get i) (some (texpAt x i, S)) := by
  obtain ⟨S, hS, -, hlen, -⟩ := C38_weights order oversample ho hn
  refine ⟨S, hS, ?_⟩
  obtain ⟨y, h1, h2, h3⟩ := Tensor.reshape_flat r
  obtain ⟨L, h4, h5, h6⟩ := (integrated_spec l o y t oversample order ld f hf (by rw [h2, hr])).2 x S hx hS hlen
  refine ⟨L, ?_, h5, fun i p hi hp => by rw [h6 i p hi hp, h3]; rfl⟩
  unfold LimbDark.getLightCurve lightCurveWith
  simp only [Option.getD_some, Bool.false_eq_true, if_false, bind, Except.bind, h1, h4]

/-- **C39** for a `KeplerianOrbit`: the positions are the ones `get_relative_position` gives for the planet. -/
theorem C39_kepler (C : Consts) (cp : ContactOp) (l : LimbDark) (orbits : List Orbit) (R : ℝ) (ld : Bool) (r t : Tensor ℝ)
    (hr : r.size = orbits.length) (oversample order : ℤ) :
    ∃ L, l.getLightCurve (some (keplerApi C cp orbits R)) (some r) (some t) none oversample order (some false) ld = .ok L ∧
      L.shape = t.shape ++ [orbits.length] ∧
      ∀ i p (hp : p < orbits.length), InShape i t.shape →
        L.get (i ++ [p]) = fluxAt l.c R (r.get (Tensor.unravel r.shape p)) (orbits[p].relativePosition C (t.get i) none ld) := by
  obtain ⟨L, h1, h2, h3⟩ := C39_values l (keplerApi C cp orbits R) ld _ rfl r t hr oversample order
  refine ⟨L, h1, h2, fun i p hp hi => ?_⟩
  rw [h3 i p hi hp]
  simp [keplerApi, hp]

/-- **C39** (`SimpleTransitOrbit`): the same. -/
theorem C39_simple (l : LimbDark) (orbits : List SimpleOrbit) (R : ℝ) (r t : Tensor ℝ)
    (hr : r.size = orbits.length) (oversample order : ℤ) :
    ∃ L, l.getLightCurve (some (simpleApi orbits R)) (some r) (some t) none oversample order (some false) = .ok L ∧
      L.shape = t.shape ++ [orbits.length] ∧
      ∀ i p (hp : p < orbits.length) x y z, InShape i t.shape → orbits[p].relativePosition (t.get i) = .ok (some x, y, z) →
        L.get (i ++ [p]) = fluxAt l.c R (r.get (Tensor.unravel r.shape p)) ⟨x, y, z⟩ := by
  obtain ⟨L, h1, h2, h3⟩ := C39_values l (simpleApi orbits R) false _ rfl r t hr oversample order
  refine ⟨L, h1, h2, fun i p hp x y z hi hpos => ?_⟩
  rw [h3 i p hi hp]
  simp [hp, hpos, simpleApi]

/-- **C39** (shape with `use_in_transit`): whenever the call succeeds, the result has shape `t.shape + (number of radii,)`. -/
theorem C39_shape_in_transit (l : LimbDark) (o : OrbitApi) (ld : Bool) (r t L : Tensor ℝ) (texp : Option (Tensor ℝ))
    (oversample order : ℤ)
    (h : l.getLightCurve (some o) (some r) (some t) texp oversample order (some true) ld = .ok L) :
    L.shape = t.shape ++ [r.size] := by
  obtain ⟨y, h1, h2, h3⟩ := Tensor.reshape_flat r
  obtain ⟨M, h4, h5⟩ := padAdd_zero (r := y.map (fun _ => 0)) (n := r.size) (by simp [Tensor.map, h2]) t
  unfold LimbDark.getLightCurve lightCurveWith at h
  simp only [Option.getD_some, if_true, bind, Except.bind, h1, h4] at h
  split at h
  · cases h
  split at h
  · cases h
  split at h
  · cases h
  split at h
  · cases h
  unfold Tensor.setRows at h
  split at h
  · cases h
  · split at h
    · split at h
      · cases h; rw [← h5]
      · cases h
    · cases h

/-- **C39** (radii): a number of radii different from the number of planets is an error (as soon as there are times); in
particular one radius is not silently used for several planets. -/
theorem C39_radius_count (l : LimbDark) (o : OrbitApi) (ld : Bool) (f : ℕ → ℝ → V3) (hf : o.pos ld = .ok f) (r t : Tensor ℝ)
    (hr : r.size ≠ o.np) (ht : t.size ≠ 0) (oversample order : ℤ) :
    l.getLightCurve (some o) (some r) (some t) none oversample order (some false) ld =
      .error (.valueError "cannot reshape") := by
  obtain ⟨y, h1, h2, h3⟩ := Tensor.reshape_flat r
  obtain ⟨G, h4, h5⟩ := padAdd_zero h2 t
  unfold LimbDark.getLightCurve lightCurveWith
  simp only [Option.getD_some, Bool.false_eq_true, if_false, bind, Except.bind, h1, LimbDark.integrated, integratedWith, h4]
  exact lightCurveAt_mismatch l o t G ld f hf _ h5 hr ht

/-- **C39** is false for a scalar time with the default arguments: `in_transit` is called and indexes `t.shape[0]`. -/
theorem C39_scalar_time_counterexample (l : LimbDark) (o : OrbitApi) (r : Tensor ℝ) (t : ℝ) :
    l.getLightCurve (some o) (some r) (some (Tensor.scalar t)) = .error .indexError := by
  obtain ⟨y, h1, h2, h3⟩ := Tensor.reshape_flat r
  obtain ⟨M, h4, h5⟩ := padAdd_zero (r := y.map (fun _ => 0)) (n := r.size) (by simp [Tensor.map, h2]) (Tensor.scalar t)
  unfold LimbDark.getLightCurve lightCurveWith
  simp only [Option.getD_none, Bool.not_false, if_true, bind, Except.bind, h1, h4]
  unfold OrbitApi.inTransitT
  simp [Tensor.scalar]

/-- A two-planet system, a 2 × 1 array of times and radii given as a 2-vector: the hypotheses are met, and the result has shape
`(2, 1, 2)`. -/
example (C : Consts) (cp : ContactOp) (o o' : Orbit) : ∃ L, (LimbDark.new 0.3 0.2).getLightCurve
    (some (keplerApi C cp [o, o'] 1)) (some (Tensor.ofList [0.1, 0.05] 0)) (some ⟨[2, 1], fun idx => idx.headD 0⟩) none 7 0
    (some false) = .ok L ∧ L.shape = [2, 1, 2] := by
  obtain ⟨L, h1, h2, -⟩ := C39_kepler C cp (LimbDark.new 0.3 0.2) [o, o'] 1 false (Tensor.ofList [0.1, 0.05] 0)
    ⟨[2, 1], fun idx => idx.headD 0⟩ (by simp [Tensor.ofList, Tensor.size]) 7 0
  exact ⟨L, h1, h2⟩

/-! ## C44 -/

/-- **C44**: a missing `orbit`, `r` or `t` is reported with `ValueError` (in this order), whatever the other arguments are. -/
theorem C44_missing (l : LimbDark) (orbit : Option OrbitApi) (r t : Option (Tensor ℝ)) (texp : Option (Tensor ℝ))
    (oversample order : ℤ) (u : Option Bool) (ld : Bool) :
    (orbit = none → l.getLightCurve orbit r t texp oversample order u ld =
      .error (.valueError "missing required argument 'orbit'")) ∧
    (orbit ≠ none → r = none → l.getLightCurve orbit r t texp oversample order u ld =
      .error (.valueError "missing required argument 'r'")) ∧
    (orbit ≠ none → r ≠ none → t = none → l.getLightCurve orbit r t texp oversample order u ld =
      .error (.valueError "missing required argument 't'")) := by
  refine ⟨?_, ?_, ?_⟩
  · rintro rfl; rfl
  · intro h1 h2
    obtain ⟨o, rfl⟩ := Option.ne_none_iff_exists'.1 h1
    subst h2; rfl
  · intro h1 h2 h3
    obtain ⟨o, rfl⟩ := Option.ne_none_iff_exists'.1 h1
    obtain ⟨r, rfl⟩ := Option.ne_none_iff_exists'.1 h2
    subst h3; rfl

/-- **C44** (converse): when all three are given, none of these three errors is raised. -/
theorem C44_present (l : LimbDark) (o : OrbitApi) (r t : Tensor ℝ) (oversample order : ℤ) (ld : Bool)
    (f : ℕ → ℝ → V3) (hf : o.pos ld = .ok f) (hr : r.size = o.np) :
    ∃ L, l.getLightCurve (some o) (some r) (some t) none oversample order (some false) ld = .ok L := by
  obtain ⟨L, h, -⟩ := C39_values l o ld f hf r t hr oversample order
  exact ⟨L, h⟩

/-! ## C40 -/

/-- No flux is lost when the body is behind the star or off its disc. -/
theorem fluxAt_zero {u1 u2 R r : ℝ} {v : V3} (h : (∫ p in starDisc, quadLaw u1 u2 (muAt p)) ≠ 0) (hR : 0 < R)
    (hv : ¬ (0 ≤ v.z ∧ √(v.x ^ 2 + v.y ^ 2) < R + r)) : fluxAt (getCl u1 u2) R r v = 0 := by
  unfold fluxAt
  by_cases hz : 0 ≤ v.z
  · have h1 : R + r ≤ √(v.x ^ 2 + v.y ^ 2) := by
      by_contra hc
      exact hv ⟨hz, lt_of_not_ge hc⟩
    have h2 : 1 + r / R ≤ √(v.x ^ 2 + v.y ^ 2) / R := by
      rw [show 1 + r / R = (R + r) / R by field_simp]
      exact div_le_div_of_nonneg_right h1 hR.le
    unfold computeLightCurve
    simp only
    rw [C36_unocculted u1 u2 _ _ h h2, ite_self]
  · exact C37_behind _ _ _ _ (div_nonpos_of_nonpos_of_nonneg (by linarith) hR.le)

theorem reshape_toList (R : Tensor ℝ) : ∃ r, R.reshape [R.size] = .ok r ∧
    r.shape = [R.size] ∧ (∀ k < R.size, r.get [k] = R.toList.getD k 0) ∧ r.toList = R.toList := by
  obtain ⟨y, h1, h2, h3⟩ := Tensor.reshape_flat R
  refine ⟨y, h1, h2, fun k hk => ?_, ?_⟩
  · rw [h3]; simp [Tensor.toList, hk]
  · rw [Tensor.toList_vec h2]
    simp only [h3]
    rfl

theorem ofList_toList (ts : List ℝ) : (Tensor.ofList ts 0).toList = ts := by
  rw [Tensor.toList_vec (n := ts.length) rfl]
  apply List.ext_getElem
  · simp
  · intro i h4 h5
    simp [Tensor.ofList, h5]

theorem bcast_zip {α β : Type} (u : List α) (v : List β) (h : v.length = u.length) :
    bcast (fun a b => (a, b)) u v = .ok (u.zip v) := by
  unfold bcast; rw [if_pos h.symm]; rfl

/-- **C40** (default): leaving out `use_in_transit` means `True` without and `False` with light-travel delay. -/
theorem C40_default (l : LimbDark) (o : Option OrbitApi) (r t : Option (Tensor ℝ)) (texp : Option (Tensor ℝ))
    (oversample order : ℤ) (ld : Bool) :
    l.getLightCurve o r t texp oversample order none ld = l.getLightCurve o r t texp oversample order (some (!ld)) ld := by
  unfold LimbDark.getLightCurve lightCurveWith; rfl

/-- The texp argument that `in_transit` sees. -/
def texpArg : Option ℝ → Texp
  | none => .none
  | some x => .scalar x

/-- **C40** for Keplerian orbits: no exposure time or one exposure time for all data. Missing: one exposure time per datum with
several planets, where it is false (`C40_vector_texp_counterexample`, `C40_silent_counterexample`); with one planet see
`C40_kepler_single_partial`. Each planet must be `Tractable`: circular orbit outside the star, or eccentric with
correct contact points and transit plus exposure shorter than half a period on each side. The radii may be an array of any
shape with one entry per planet. -/
theorem C40_kepler_partial (C : Consts) (cp : ContactOp) (u1 u2 : ℝ) (hlaw : (∫ p in starDisc, quadLaw u1 u2 (muAt p)) ≠ 0)
    (orbits : List Orbit) (rs : Tensor ℝ) (ts : List ℝ) (R : ℝ) (hsize : rs.size = orbits.length) (hR : ∀ o ∈ orbits, o.r_star = R)
    (texp : Option ℝ) (hx : ∀ x, texp = some x → 0 ≤ x)
    (hT : ∀ q ∈ orbits.zip rs.toList, Tractable C cp q.1 q.2 (texp.getD 0)) (oversample order : ℤ)
    (ho : order = 0 ∨ order = 1 ∨ order = 2) (hn : 1 ≤ oversample) :
    ∃ L L', (LimbDark.new u1 u2).getLightCurve (some (keplerApi C cp orbits R)) (some rs)
        (some (Tensor.ofList ts 0)) (texp.map Tensor.scalar) oversample order (some true) = .ok L ∧
      (LimbDark.new u1 u2).getLightCurve (some (keplerApi C cp orbits R)) (some rs)
        (some (Tensor.ofList ts 0)) (texp.map Tensor.scalar) oversample order (some false) = .ok L' ∧ L.Same L' := by
  obtain ⟨r, hr1, hr2, hr3, hr4⟩ := reshape_toList rs
  have hlen : rs.toList.length = orbits.length := by rw [← hsize]; simp [Tensor.toList]
  obtain ⟨S, hS, -, hSlen, hoff, -⟩ := C38_weights order oversample ho hn
  -- membership
  obtain ⟨inds, hl, hm⟩ : ∃ inds, inTransit cp (orbits.zip rs.toList) ts (texpArg texp) = .ok inds ∧
      ∀ i, i ∈ inds ↔ ∃ h : i < ts.length, ∃ q ∈ orbits.zip rs.toList, ∃ u, |u| ≤ texp.getD 0 / 2 ∧ Overlaps C q.1 q.2 (ts[i] + u) := by
    rcases texp with _ | x
    · obtain ⟨l, h1, h2⟩ := inTransit_exact C cp (orbits.zip rs.toList) hT ts
      refine ⟨l, h1, fun i => ?_⟩
      rw [h2]
      refine exists_congr fun hi => exists_congr fun q => and_congr_right fun hq => ?_
      simp only [Option.getD_none, zero_div]
      constructor
      · intro h; exact ⟨0, by simp, by simpa using h⟩
      · rintro ⟨u, hu, h⟩
        have : u = 0 := abs_nonpos_iff.1 hu
        subst this; simpa using h
    · exact C22_exposure C cp (orbits.zip rs.toList) x (hx x rfl) hT ts
  refine integrated_rows (LimbDark.new u1 u2) (keplerApi C cp orbits R) r (Tensor.ofList ts 0) ts.length rfl oversample order
    _ rfl (by rw [hr2, hsize]; rfl) _ ?_ inds ?_ ?_ ?_ _ hr1
  · intro x hx'
    rcases texp with _ | x0
    · cases hx'
    · simp only [Option.map_some, Option.some.injEq] at hx'
      subst hx'
      exact ⟨Or.inl rfl, S, hS, hSlen, hoff⟩
  · unfold OrbitApi.inTransitT
    rw [if_neg (by simp [Tensor.ofList])]
    have hk : ∀ te, (keplerApi C cp orbits R).inTransit ts rs.toList te false = inTransit cp (orbits.zip rs.toList) ts te false := by
      intro te
      unfold keplerApi
      simp only [bcast_zip orbits rs.toList hlen]
    rcases texp with _ | x0
    · simp only [Option.map_none, ofList_toList, hr4, hk]
      exact hl
    · simp only [Option.map_some, Tensor.scalar, ofList_toList, hr4, hk]
      exact hl
  · intro i hi
    exact ((hm i).1 hi).1
  · intro i hi hni p hp u hu1 hu2
    have hp' : p < orbits.length := hp
    have hmem : (orbits[p], rs.toList[p]) ∈ orbits.zip rs.toList := by
      rw [List.mem_iff_getElem]
      exact ⟨p, by simp [hlen, hp'], by simp⟩
    have hTp := hT _ hmem
    have hRp : orbits[p].r_star = R := hR _ (List.getElem_mem hp')
    have hR0 : 0 < R := by rw [← hRp]; exact hTp.2.1.r_star_pos
    have hr' : r.get [p] = rs.toList[p] := by rw [hr3 p (by rw [hsize]; exact hp'), List.getD_eq_getElem]
    have hx0 : texpOr0 (texp.map Tensor.scalar) [i] = texp.getD 0 := by
      rcases texp with _ | x0
      · rfl
      · simp [texpOr0, texpAt, Tensor.scalar]
    have ht : (Tensor.ofList ts 0).get [i] = ts[i] := by simp [Tensor.ofList, hi]
    rw [hr', hx0, ht]
    simp only [List.getElem?_eq_getElem hp']
    refine fluxAt_zero hlaw hR0 ?_
    rintro ⟨h1, h2⟩
    apply hni
    rw [hm]
    refine ⟨hi, _, hmem, texp.getD 0 * u, ?_, ?_⟩
    · have hx0 : 0 ≤ texp.getD 0 := by
        rcases texp with _ | x0
        · simp
        · exact hx x0 rfl
      rw [abs_mul, abs_of_nonneg hx0]
      have : |u| ≤ 1 / 2 := abs_le.2 ⟨hu1, hu2⟩
      nlinarith
    · exact ⟨h1, by rw [hRp]; exact h2.le⟩

end Exo
