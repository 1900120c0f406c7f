import Verif.Lemmas.Translate
import Verif.Model.Secondary
import Verif.Model.Interpolated

/-!
# Translations of time: light curves
-/

namespace Exo
open Real

/-- What a light curve needs to know: `o'` is `o`, `d` days later. -/
structure OrbitApi.Later (d : ℝ) (o o' : OrbitApi) : Prop where
  np : o'.np = o.np
  r_star : o'.r_star = o.r_star
  pos : ∀ ld, (∃ e, o.pos ld = .error e ∧ o'.pos ld = .error e) ∨
    ∃ f f', o.pos ld = .ok f ∧ o'.pos ld = .ok f' ∧ ∀ p t, f' p (t + d) = f p t
  inTransit : ∀ ts r texp ld, o'.inTransit (Exo.later d ts) r texp ld = o.inTransit ts r texp ld

theorem zipB_later (d : ℝ) (t y : Tensor ℝ) :
    ((t.later d).padright 1).zipB (· + ·) y = ((t.padright 1).zipB (· + ·) y).map (Tensor.later d) := by
  unfold Tensor.zipB
  change (match bcastShape (t.padright 1).shape y.shape with | .error e => _ | .ok s => _) = _
  rcases bcastShape (t.padright 1).shape y.shape with e | s
  · rfl
  · simp only [Except.map, Except.ok.injEq, Tensor.later, Tensor.map, Tensor.mk.injEq, true_and]
    funext idx
    show (t.padright 1).bget idx + d + y.bget idx = _
    ring

theorem padAdd_later (d : ℝ) (r x : Tensor ℝ) : padAdd r (x.later d) = padAdd r x := rfl

theorem ndim_later (d : ℝ) (t : Tensor ℝ) : (t.later d).ndim = t.ndim := rfl

theorem integratedWith_later (d : ℝ) (f f' : Tensor ℝ → Tensor ℝ → Bool → Except PyErr (Tensor ℝ)) (ld : Bool)
    (hl : ∀ x y, f' (x.later d) y ld = f x y ld) (r t : Tensor ℝ) (texp : Option (Tensor ℝ)) (oversample order : ℤ) :
    integratedWith f' r (t.later d) texp oversample order ld = integratedWith f r t texp oversample order ld := by
  rcases texp with _ | x
  · show (padAdd r (t.later d) >>= fun g => f' (t.later d) g ld) = (padAdd r t >>= fun g => f t g ld)
    simp only [padAdd_later, hl]
  · unfold integratedWith
    simp only [zipB_later, ndim_later]
    refine bind_congr fun q => bind_congr fun y => ?_
    generalize (t.padright 1).zipB (· + ·) y = tg
    rcases tg with e | tg
    · rfl
    · show (padAdd r (tg.later d) >>= _) = (padAdd r tg >>= _)
      simp only [padAdd_later, hl]

section
variable {d : ℝ} {o o' : OrbitApi} (h : OrbitApi.Later d o o')
include h

theorem OrbitApi.Later.relPos (t : Tensor ℝ) (ld : Bool) : o'.relPos (t.later d) ld = o.relPos t ld := by
  unfold OrbitApi.relPos
  rcases h.pos ld with ⟨e, h1, h2⟩ | ⟨f, f', h1, h2, h3⟩
  · rw [h1, h2]
  · rw [h1, h2, h.np]
    simp only [Tensor.later, Tensor.map, h3]

theorem OrbitApi.Later.inTransitT (t r : Tensor ℝ) (texp : Option (Tensor ℝ)) (ld : Bool) :
    o'.inTransitT (t.later d) r texp ld = o.inTransitT t r texp ld := by
  have e : (t.later d).toList = Exo.later d t.toList := by
    simp [Tensor.later, Tensor.toList, Exo.later, Tensor.map, Tensor.size]
  unfold OrbitApi.inTransitT
  simp only [e, h.inTransit]
  rfl

theorem OrbitApi.Later.lightCurveAt (l : LimbDark) (tgrid rgrid : Tensor ℝ) (ld : Bool) :
    l.lightCurveAt o' (tgrid.later d) rgrid ld = l.lightCurveAt o tgrid rgrid ld := by
  unfold LimbDark.lightCurveAt
  rw [h.relPos, h.r_star]

theorem OrbitApi.Later.integrated (l : LimbDark) (r t : Tensor ℝ) (texp : Option (Tensor ℝ)) (oversample order : ℤ) (ld : Bool) :
    l.integrated o' r (t.later d) texp oversample order ld = l.integrated o r t texp oversample order ld :=
  integratedWith_later d _ _ ld (fun x y => h.lightCurveAt l x y ld) r t texp oversample order

theorem OrbitApi.Later.getLightCurve (l : LimbDark) (r t : Tensor ℝ) (texp : Option (Tensor ℝ)) (oversample order : ℤ)
    (u : Option Bool) (ld : Bool) :
    l.getLightCurve (some o') (some r) (some (t.later d)) texp oversample order u ld =
      l.getLightCurve (some o) (some r) (some t) texp oversample order u ld := by
  have hp : ∀ r x : Tensor ℝ, padAdd r (x.later d) = padAdd r x := fun _ _ => rfl
  have ht : ∀ inds, (t.later d).takeRows inds = (t.takeRows inds).map (Tensor.later d) := by
    intro inds
    unfold Tensor.takeRows
    change (match t.shape with | [] => _ | n :: s => _) = _
    rcases t.shape with _ | ⟨n, s⟩
    · rfl
    · simp only
      split <;> rfl
  unfold LimbDark.getLightCurve lightCurveWith
  simp only [hp, h.inTransitT, ht, h.integrated]
  split
  · simp only [bind, Except.bind]
    rcases r.reshape [r.size] with e | r'
    · rfl
    simp only
    rcases padAdd (r'.map fun _ => 0) t with e | m
    · rfl
    simp only
    rcases o.inTransitT t r' texp ld with e | inds
    · rfl
    simp only
    rcases t.takeRows inds with e | t'
    · rfl
    simp only [Except.map, h.integrated]
  · rfl

end

theorem keplerApi_later (C : Consts) (cp : ContactOp) (orbits : List Orbit) (r_star d : ℝ) :
    OrbitApi.Later d (keplerApi C cp orbits r_star) (keplerApi C cp (orbits.map (·.moved d)) r_star) where
  np := by simp [keplerApi]
  r_star := rfl
  pos ld := by
    refine Or.inr ⟨_, _, rfl, rfl, fun p t => ?_⟩
    rw [List.getElem?_map]
    rcases orbits[p]? with _ | o
    · rfl
    · exact moved_position _ _ _ _ _ _ _
  inTransit ts r texp ld := by
    simp only [keplerApi]
    rw [bcast_map_left, bcast_map_out (fun (o : Orbit) (r : ℝ) => (o, r)) (fun p => (p.1.moved d, p.2))]
    rcases bcast (fun (o : Orbit) (r : ℝ) => (o, r)) orbits r with e | l
    · rfl
    · exact inTransit_moved cp l d ts texp ld

theorem flip_moved (C : Consts) (o : Orbit) (d r : ℝ) : (o.moved d).flip C r = (o.flip C r).map (·.moved d) := by
  unfold Orbit.flip
  rw [← keplerianInit_moved]
  congr 1
  unfold Orbit.flipArgs
  rcases h : o.ecc with _ | p
  · simp only [Orbit.moved, h, Args.moved, Option.map, Q.plus, Args.mk.injEq, Option.some.injEq, Q.mk.injEq, and_true, true_and]
    ring
  · simp only [Orbit.moved, h, Args.moved, Option.map, Q.plus]

theorem mapM_map_ok {α : Type} (g : α → α) (l : List (Except PyErr α)) :
    (l.map fun x => x.map g).mapM id = (l.mapM id).map (List.map g) := by
  induction l with
  | nil => rfl
  | cons x l ih =>
    simp only [List.map_cons, List.mapM_cons, ih]
    rcases x with e | x
    · rfl
    · rcases l.mapM id with e | l' <;> rfl

theorem flipAll_moved (C : Consts) (orbits : List Orbit) (r : List ℝ) (d : ℝ) :
    flipAll C (orbits.map (·.moved d)) r = (flipAll C orbits r).map (List.map (·.moved d)) := by
  unfold flipAll
  rw [bcast_map_left]
  simp only [flip_moved]
  rw [bcast_map_out (fun (o : Orbit) r => o.flip C r) (fun x => x.map (·.moved d))]
  rcases bcast (fun (o : Orbit) r => o.flip C r) orbits r with e | l
  · rfl
  · exact mapM_map_ok _ l

theorem secondary_moved (C : Consts) (cp : ContactOp) (l : SecondaryEclipse) (orbits : List Orbit) (r_star d : ℝ) (r t : Tensor ℝ)
    (texp : Option (Tensor ℝ)) (oversample order : ℤ) (u : Option Bool) (ld : Bool) :
    l.getLightCurve C cp (orbits.map (·.moved d)) r_star r (t.later d) texp oversample order u ld =
      l.getLightCurve C cp orbits r_star r t texp oversample order u ld := by
  unfold SecondaryEclipse.getLightCurve
  rw [flipAll_moved]
  rcases flipAll C orbits r.toList with e | o2
  · rfl
  · simp only [Except.map, bind, Except.bind, (keplerApi_later C cp orbits r_star d).getLightCurve,
      (keplerApi_later C cp o2 (r.toList.headD 0) d).getLightCurve]

/-! ## `SimpleTransitOrbit` -/

/-- `SimpleTransitOrbit(..., t0 + d)`. -/
noncomputable def SimpleOrbit.moved (o : SimpleOrbit) (d : ℝ) : SimpleOrbit := { o with t0 := o.t0 + d, ref_time := o.ref_time + d }

theorem simpleInit_moved (P D t0 b R k d : ℝ) : simpleInit P D (t0 + d) b R k = (simpleInit P D t0 b R k).moved d := by
  simp only [simpleInit, SimpleOrbit.moved, SimpleOrbit.mk.injEq, true_and]
  ring

theorem simple_dt_moved (o : SimpleOrbit) (d t : ℝ) : (o.moved d).dt (t + d) = o.dt t := by
  unfold SimpleOrbit.dt
  simp only [SimpleOrbit.moved]
  rw [add_sub_add_right_eq_sub]

theorem simple_position_moved (o : SimpleOrbit) (d t : ℝ) (ld : Bool) :
    (o.moved d).relativePosition (t + d) ld = o.relativePosition t ld := by
  unfold SimpleOrbit.relativePosition
  rw [simple_dt_moved]
  rfl

theorem simpleInTransit_moved (planets : List SimpleOrbit) (d : ℝ) (ts : List ℝ) (r : Option (List ℝ)) (texp : Texp) (ld : Bool) :
    simpleInTransit (planets.map (·.moved d)) (later d ts) r texp ld = simpleInTransit planets ts r texp ld := by
  have h1 : (planets.map (·.moved d)).map (fun o => Tol.fin (0.5 * o.duration)) = planets.map (fun o => Tol.fin (0.5 * o.duration)) := by
    rw [List.map_map]; rfl
  have h2 : ∀ t, (planets.map (·.moved d)).map (fun o => o.dt (t + d)) = planets.map (fun o => o.dt t) := by
    intro t
    rw [List.map_map]
    exact List.map_congr_left fun p _ => simple_dt_moved _ _ _
  have h3 : ∀ i, i < ts.length → (later d ts).getD i 0 = ts.getD i 0 + d := by
    intro i hi
    simp [later, hi]
  unfold simpleInTransit
  simp only [h1, bcast_map_left (fun _ _ => ()) (SimpleOrbit.moved · d) planets, bcast_map_left _ (SimpleOrbit.moved · d) planets]
  have h4 : ∀ (o : SimpleOrbit) (r : ℝ), (o.moved d).tolOf r = o.tolOf r := fun _ _ => rfl
  simp only [h4]
  split
  · rfl
  split
  · rfl
  split
  · rfl
  split
  · rfl
  simp only [Except.ok.injEq]
  rw [show (later d ts).length = ts.length by simp [later]]
  refine List.filter_congr fun i hi => ?_
  rw [h3 i (List.mem_range.1 hi), h2]

theorem simpleApi_later (orbits : List SimpleOrbit) (r_star d : ℝ) :
    OrbitApi.Later d (simpleApi orbits r_star) (simpleApi (orbits.map (·.moved d)) r_star) where
  np := by simp [simpleApi]
  r_star := rfl
  pos ld := by
    cases ld
    · refine Or.inr ⟨_, _, rfl, rfl, fun p t => ?_⟩
      simp only [List.getElem?_map]
      rcases orbits[p]? with _ | o
      · rfl
      · simp only [Option.map, simple_position_moved]
    · exact Or.inl ⟨_, rfl, rfl⟩
  inTransit ts r texp ld := simpleInTransit_moved orbits d ts (some r) texp ld

/-! ## `InterpolatedLightCurve` -/

theorem arange_later (a b c d : ℝ) : arange (a + d) (b + d) c = later d (arange a b c) := by
  unfold arange later
  rw [List.map_map, show b + d - (a + d) = b - a by ring]
  refine List.map_congr_left fun k _ => ?_
  simp only [Function.comp]
  ring

theorem pyIndex_later (v : List ℝ) (d : ℝ) (i : ℤ) : pyIndex (later d v) i = (pyIndex v i).map (· + d) := by
  unfold pyIndex later
  simp only [List.length_map, List.getElem?_map]
  generalize (if i < 0 then i + (v.length : ℤ) else i) = j
  split
  · rfl
  · rcases v[j.toNat]? with _ | x <;> rfl

theorem interpAt_later (n : ℕ) (x xmin xmax dx d : ℝ) (f f' : List ℝ → Except PyErr (Tensor ℝ)) (hf : ∀ ts, f' (later d ts) = f ts) :
    interpAt n (x + d) (xmin + d) (xmax + d) dx f' = interpAt n x xmin xmax dx f := by
  unfold interpAt
  have e1 : arange (xmin + d - dx) (xmax + d + 2.5 * dx) dx = later d (arange (xmin - dx) (xmax + 2.5 * dx) dx) := by
    rw [← arange_later]; congr 1 <;> ring
  simp only [e1, hf, pyIndex_later, show x + d - (xmin + d) = x - xmin by ring]
  rcases f (arange (xmin - dx) (xmax + 2.5 * dx) dx) with e | yp
  · rfl
  simp only [bind, Except.bind]
  rcases column yp n with e | col
  · rfl
  simp only
  rcases pyIndex (arange (xmin - dx) (xmax + 2.5 * dx) dx) (⌊(x - xmin) / dx⌋ + 1) with e | xg
  · rfl
  simp only [Except.map, show x + d - (xg + d) = x - xg by ring]

theorem interpColumn_later (num_phase : ℤ) (f f' : List ℝ → Except PyErr (Tensor ℝ)) (d : ℝ) (hf : ∀ ts, f' (later d ts) = f ts)
    (n : ℕ) (t0 P : ℝ) (ts : List ℝ) : interpColumn num_phase f' n (t0 + d) P (later d ts) = interpColumn num_phase f n t0 P ts := by
  unfold interpColumn later
  simp only
  rw [List.mapM_map]
  congr 1
  funext t
  simp only [Function.comp]
  rw [show t + d - (t0 + d) = t - t0 by ring, show pymod (t - t0) P + (t0 + d) = pymod (t - t0) P + t0 + d by ring,
    show t0 + d + P = t0 + P + d by ring, show t0 + P + d - (t0 + d) = t0 + P - t0 by ring]
  exact interpAt_later _ _ _ _ _ _ _ _ hf

theorem interpolated_later (num_phase : ℤ) (num_planets : Option ℤ) (test_value : Option ℕ) (orbits : List (ℝ × ℝ)) (d : ℝ)
    (f f' : List ℝ → Except PyErr (Tensor ℝ)) (hf : ∀ ts, f' (later d ts) = f ts) (ts : List ℝ) :
    interpolatedLightCurve num_phase num_planets test_value (orbits.map fun q => (q.1 + d, q.2)) f' (later d ts) =
      interpolatedLightCurve num_phase num_planets test_value orbits f ts := by
  have h1 : (later d ts).length = ts.length := by simp [later]
  have h2 : ∀ n, planetColumn num_phase (orbits.map fun q => (q.1 + d, q.2)) f' (later d ts) n = planetColumn num_phase orbits f ts n := by
    intro n
    unfold planetColumn
    rw [List.getElem?_map]
    rcases orbits[n]? with _ | ⟨t0, P⟩
    · rfl
    · exact interpColumn_later _ _ _ _ hf _ _ _ _
  unfold interpolatedLightCurve
  rcases numPlanets num_planets test_value with e | np
  · rfl
  simp only
  split
  · rcases orbits with _ | ⟨⟨t0, P⟩, _ | ⟨q, l⟩⟩
    · rfl
    · simp only [List.map_cons, List.map_nil, interpColumn_later _ _ _ _ hf, h1]
    · rfl
  · rw [h1, show planetColumn num_phase (orbits.map fun q => (q.1 + d, q.2)) f' (later d ts) = planetColumn num_phase orbits f ts from
      funext h2]

/-! ## `compute_expected_transit_times` -/

theorem expectedTimes1_later (a b P t0 d : ℝ) : expectedTimes1 (a + d) (b + d) P (t0 + d) = later d (expectedTimes1 a b P t0) := by
  unfold expectedTimes1 later
  simp only [add_sub_add_right_eq_sub]
  rw [List.filter_map, List.filter_map, List.map_map]
  have e : ((fun t => decide (a + d ≤ t ∧ t ≤ b + d)) ∘ fun k : ℤ => t0 + d + P * (k : ℝ)) =
      (fun t => decide (a ≤ t ∧ t ≤ b)) ∘ fun k : ℤ => t0 + P * (k : ℝ) := by
    funext k
    simp only [Function.comp, show t0 + d + P * (k : ℝ) = t0 + P * (k : ℝ) + d by ring, add_le_add_iff_right]
  rw [e]
  refine List.map_congr_left fun k _ => ?_
  simp only [Function.comp]
  ring

end Exo
