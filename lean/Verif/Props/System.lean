import Verif.Lemmas.System3

/-!
# C71: a system of planets is the collection of its planets

`KeplerianOrbit` accepts arrays. Whatever mixture of shared arguments and arguments with one entry per planet is passed, the
construction succeeds or fails as it does for each planet alone, and every attribute and every observable has, for planet `p`, the
value of the orbit built from the arguments of planet `p` alone. Together with C01-C20 this gives those properties for systems.
-/

namespace Exo
open Real

theorem Gr.Holds.congr {g : Gr} {np : ℕ} {f f' : ℕ → ℝ} (h : g.Holds np f) (hf : ∀ p < np, f p = f' p) : g.Holds np f' := by
  obtain ⟨T, h1, h2, h3⟩ := h
  exact ⟨T, h1, h2, fun p hp => (h3 p hp).trans (hf p hp)⟩

/-- **C71, errors**: the constructor of a system raises exactly the exception that it raises for each planet alone. -/
theorem C71_same_errors (C : Consts) (A : VArgs) {np : ℕ} (hA : A.FitsPlanets np) (e : PyErr) (p : ℕ) (hp : p < np) :
    keplerianInitV C A = .error e ↔ keplerianInit C (A.ofPlanet p) = .error e := by
  rw [← hA.at_eq [] hp, keplerianInit_at]
  cases keplerianInitV C A <;> simp [Except.map]

/-- **C71, attributes**: a system is constructed exactly when each planet is, and its attributes are the attributes of the planets.
(The list includes `M0`, `K0`, the Jacobians and the optional attributes.) -/
theorem C71_attributes (C : Consts) (A : VArgs) {np : ℕ} (hA : A.FitsPlanets np) (O : VOrbit) (hO : keplerianInitV C A = .ok O) :
    ∃ os : ℕ → Orbit, (∀ p < np, keplerianInit C (A.ofPlanet p) = .ok (os p)) ∧ O.IsSystemOf np os := by
  refine ⟨fun p => O.at [p], ?_, ?_⟩
  · intro p hp
    rw [← hA.at_eq [] hp, keplerianInit_at, hO]
    rfl
  · obtain ⟨g, _⟩ := keplerianInitV_good (S := [np]) (by simpa using hA.good []) hO
    constructor
    case Omega_none => intro h p _; simp [VOrbit.at, h]
    case Omega_some => intro W h; exact ⟨fun p => W.val [p], fun p _ => by simp [VOrbit.at, h], (g.Omega W h).holds⟩
    case ecc_none => intro h p _; simp [VOrbit.at, h]
    case ecc_some =>
      intro E h
      obtain ⟨e1, e2, e3, e4⟩ := g.ecc E h
      exact ⟨fun p => E.at [p], fun p _ => by simp [VOrbit.at, h], e1.holds, e2.holds, e3.holds, e4.holds⟩
    case jac_none => intro h p _; simp [VOrbit.at, h]
    case jac_some =>
      intro J h
      obtain ⟨e1, e2, e3, e4⟩ := g.durJac J h
      exact ⟨fun p => J.at [p], fun p _ => by simp [VOrbit.at, h], e1.holds, e2.holds, e3.holds, e4.holds⟩
    case a => exact g.a.holds
    case period => exact g.period.holds
    case rho_star => exact g.rho_star.holds
    case r_star => exact g.r_star.holds
    case m_star => exact g.m_star.holds
    case m_planet => exact g.m_planet.holds
    case m_total => exact g.m_total.holds
    case n => exact g.n.holds
    case a_star => exact g.a_star.holds
    case a_planet => exact g.a_planet.holds
    case K0 => exact g.K0.holds
    case M0 => exact g.M0.holds
    case dcosidb => exact g.dcosidb.holds
    case b => exact g.b.holds
    case cos_incl => exact g.cos_incl.holds
    case incl => exact g.incl.holds
    case sin_incl => exact g.sin_incl.holds
    case t0 => exact g.t0.holds
    case t_periastron => exact g.t_periastron.holds
    case tref => exact g.tref.holds

section
variable {C : Consts} {A : VArgs} {np : ℕ} {O : VOrbit} {os : ℕ → Orbit}

theorem system_ready (hA : A.FitsPlanets np) (hO : keplerianInitV C A = .ok O)
    (hos : ∀ p < np, keplerianInit C (A.ofPlanet p) = .ok (os p)) (t : Tensor ℝ) : Ready O t np (A.PerPlanet np) os := by
  obtain ⟨g1, g2⟩ := keplerianInitV_good (hA.good t.shape) hO
  refine ⟨g1, ?_, ?_, fun i p hp => system_at hA hO hos i hp⟩
  · rw [VOrbit.shift, keplerianInitV_dts hO]; exact g1.t0
  · rintro ⟨q, hq, hs⟩
    exact ⟨q.val, hs, g2 q hq⟩

/-- **C71, positions**: at every time and for every planet, for every array of times, with and without parallax and light delay. -/
theorem C71_positions (hA : A.FitsPlanets np) (hO : keplerianInitV C A = .ok O)
    (hos : ∀ p < np, keplerianInit C (A.ofPlanet p) = .ok (os p)) (t : Tensor ℝ) (parallax : Option ℝ) (light_delay : Bool) :
    (O.planetPosition C (.leaf t) (parallax.map Gr.num) light_delay).Shows t.shape np (A.PerPlanet np)
      (fun i p => (os p).planetPosition C (t.get i) parallax light_delay) ∧
    (O.starPosition C (.leaf t) (parallax.map Gr.num) light_delay).Shows t.shape np (A.PerPlanet np)
      (fun i p => (os p).starPosition C (t.get i) parallax light_delay) ∧
    (O.relativePosition C (.leaf t) (parallax.map Gr.num) light_delay).Shows t.shape np (A.PerPlanet np)
      (fun i p => (os p).relativePosition C (t.get i) parallax light_delay) :=
  (system_ready hA hO hos t).positions C parallax light_delay fun _ => keplerianInitV_dts hO

/-- **C71, velocities and accelerations.** -/
theorem C71_velocities (hA : A.FitsPlanets np) (hO : keplerianInitV C A = .ok O)
    (hos : ∀ p < np, keplerianInit C (A.ofPlanet p) = .ok (os p)) (t : Tensor ℝ) :
    (O.planetVelocity (.leaf t)).Shows t.shape np (A.PerPlanet np) (fun i p => (os p).planetVelocity (t.get i)) ∧
    (O.starVelocity (.leaf t)).Shows t.shape np (A.PerPlanet np) (fun i p => (os p).starVelocity (t.get i)) ∧
    (O.relativeVelocity (.leaf t)).Shows t.shape np (A.PerPlanet np) (fun i p => (os p).relativeVelocity (t.get i)) ∧
    (O.planetAcceleration (.leaf t)).Shows t.shape np (A.PerPlanet np) (fun i p => (os p).planetAcceleration (t.get i)) ∧
    (O.starAcceleration (.leaf t)).Shows t.shape np (A.PerPlanet np) (fun i p => (os p).starAcceleration (t.get i)) ∧
    (O.relativeAcceleration (.leaf t)).Shows t.shape np (A.PerPlanet np) (fun i p => (os p).relativeAcceleration (t.get i)) :=
  (system_ready hA hO hos t).velocities

/-- **C71, separation and position angle.** -/
theorem C71_relative_angles (hA : A.FitsPlanets np) (hO : keplerianInitV C A = .ok O)
    (hos : ∀ p < np, keplerianInit C (A.ofPlanet p) = .ok (os p)) (t : Tensor ℝ) (parallax : Option ℝ) (light_delay : Bool) :
    (O.relativeAngles C (.leaf t) (parallax.map Gr.num) light_delay).1.Shows t.shape np (A.PerPlanet np)
      (fun i p => ((os p).relativeAngles C (t.get i) parallax light_delay).1) ∧
    (O.relativeAngles C (.leaf t) (parallax.map Gr.num) light_delay).2.Shows t.shape np (A.PerPlanet np)
      (fun i p => ((os p).relativeAngles C (t.get i) parallax light_delay).2) :=
  (system_ready hA hO hos t).angles C parallax light_delay fun _ => keplerianInitV_dts hO

/-- **C71, radial velocities**: with the semi-amplitudes `K` given (an array that fits the system) or computed from the masses; the
conversion to `output_units` fails for the system exactly when it fails for each planet. -/
theorem C71_radial_velocity (hA : A.FitsPlanets np) (hO : keplerianInitV C A = .ok O)
    (hos : ∀ p < np, keplerianInit C (A.ofPlanet p) = .ok (os p)) (t : Tensor ℝ) (K : Option (Tensor ℝ))
    (hK : ∀ k, K = some k → k.FitsPlanets np) (u : Option AUnit) :
    match O.radialVelocity C (.leaf t) (K.map Gr.leaf) u with
    | .error e => ∀ i p, p < np → (os p).radialVelocity C (t.get i) (K.map (·.ofPlanet p)) u = .error e
    | .ok g => ∃ v : List ℕ → ℕ → ℝ, (∀ i p, p < np → (os p).radialVelocity C (t.get i) (K.map (·.ofPlanet p)) u = .ok (v i p)) ∧
        g.Shows t.shape np (A.PerPlanet np) v :=
  (system_ready hA hO hos t).radialVelocity C K hK u

/-- **C71, the usual case**: for a vector of at least two times and at least two planets with their own periods, every such array has
one row per time and one column per planet. -/
theorem C71_rows_and_columns {g : Gr} {N : ℕ} (hN : N ≠ 1) (hnp : np ≠ 1) {full : Prop} (hfull : full) {f : List ℕ → ℕ → ℝ}
    (h : g.Shows [N] np full f) : ∃ T, g.eval = .ok T ∧ T.shape = [N, np] ∧ ∀ i p, i < N → p < np → T.get [i, p] = f [i] p := by
  obtain ⟨T, m, hT, hm, hs, hv⟩ := h
  have hm' : m = np := by rcases hm with h | ⟨_, h⟩; exacts [h, absurd hfull h]
  subst hm'
  refine ⟨T, hT, by rw [hs]; simp [squeezeShape, hN, hnp], fun i p hi hp => ?_⟩
  rw [← hv [i] p (inShape_singleton.2 hi) hp]
  simp [dropUnit, hN, hnp]

/-- **C71, what was left out**: an impact parameter, inclination, eccentricity or reference time that was not given is an array with
one entry for every entry of `a` (`b`, `cos_incl`, `incl`), of `n` (`M0`), of `period` (`t0`). -/
theorem C71_default_shapes (hO : keplerianInitV C A = .ok O) {a n period : Tensor ℝ} (ha : O.a.eval = .ok a) (hn : O.n.eval = .ok n)
    (hp : O.period.eval = .ok period) :
    (A.b = none → A.incl = none → A.duration = none → ∃ b c i, O.b.eval = .ok b ∧ O.cos_incl.eval = .ok c ∧ O.incl.eval = .ok i ∧
      b.shape = a.shape ∧ c.shape = a.shape ∧ i.shape = a.shape ∧
      ∀ idx, InShape idx a.shape → b.get idx = 0 ∧ c.get idx = 0 ∧ i.get idx = π / 2) ∧
    (A.ecc = none → ∃ m, O.M0.eval = .ok m ∧ m.shape = n.shape ∧ ∀ idx, InShape idx n.shape → m.get idx = π / 2) ∧
    (A.t0 = none → A.t_periastron = none → ∃ t, O.t0.eval = .ok t ∧ t.shape = period.shape ∧
      ∀ idx, InShape idx period.shape → t.get idx = 0) := by
  have hz : ∀ (g : Gr) (x : Tensor ℝ), g.eval = .ok x → ∃ i, (((0.5 * π : ℝ) : Gr) + g.zerosLike).eval = .ok i ∧ i.shape = x.shape ∧
      ∀ idx, InShape idx x.shape → i.get idx = π / 2 := by
    intro g x hx
    refine ⟨⟨x.shape, fun idx => (Tensor.scalar (0.5 * π)).bget idx + (x.map fun _ => 0).bget idx⟩, ?_, rfl, fun idx hi => ?_⟩
    · show (Gr.zip _ _ _).eval = _
      simp only [Gr.eval, Gr.num, Gr.zerosLike, hx]
      exact Tensor.zipB_ok (s := x.shape) (by simpa [Tensor.scalar, Tensor.map] using bcastShape_nil_left x.shape)
    · show (Tensor.scalar (0.5 * π)).bget idx + (x.map fun _ => 0).bget idx = _
      rw [Tensor.bget_self (x := x.map fun _ => (0 : ℝ)) hi]
      simp [Tensor.scalar, Tensor.bget, Tensor.map]
      ring
  unfold keplerianInitV at hO
  split at hO; · cases hO
  split at hO; · cases hO
  split at hO; · cases hO
  rename_i D hD
  split at hO; · cases hO
  rename_i I hI0
  dsimp only at hO
  split at hO; · cases hO
  rename_i ecc hE
  split at hO; · cases hO
  rename_i b ci i hI
  split at hO; · cases hO
  rename_i t0 tp hT
  simp only [Except.ok.injEq] at hO
  subst hO
  dsimp only at ha hn hp ⊢
  refine ⟨fun h1 h2 h3 => ?_, fun h1 => ?_, fun h1 h2 => ?_⟩
  · have hd : D.duration = none := by
      unfold durationBlockV at hD
      rcases hA : A.ecc with _ | e <;> simp only [h3, hA, Option.map_none, Except.ok.injEq] at hD <;> rw [← hD]
    obtain ⟨x, hx, hx2, hx3⟩ := hz _ _ ha
    simp only [inclBlockV, h1, h2, hd, Except.ok.injEq, Prod.mk.injEq] at hI
    obtain ⟨rfl, rfl, rfl⟩ := hI
    have e : (I.a.zerosLike).eval = .ok (a.map fun _ => 0) := by simp only [Gr.zerosLike, Gr.eval, ha]
    exact ⟨_, _, x, e, e, hx, rfl, rfl, hx2, fun idx hi => ⟨rfl, rfl, hx3 idx hi⟩⟩
  · have he : ecc = none := by
      unfold eccBlockV at hE
      simp only [h1, Except.ok.injEq] at hE
      exact hE.symm
    subst he
    exact hz _ _ hn
  · simp only [timeBlockV, h1, h2, Except.ok.injEq, Prod.mk.injEq] at hT
    obtain ⟨rfl, -⟩ := hT
    have e : (I.period.zerosLike).eval = .ok (period.map fun _ => 0) := by simp only [Gr.zerosLike, Gr.eval, hp]
    exact ⟨_, e, rfl, fun idx hi => rfl⟩
end

/-! ## The hypotheses are met -/

/-- Two eccentric planets around one star: own periods, eccentricities and transit times, shared `omega`, masses by default. -/
noncomputable def demoSystem : VArgs :=
  { period := some ⟨.ofList [10, 20] 0, none⟩, t0 := some ⟨.ofList [1, 2] 0, none⟩, ecc := some ⟨.ofList [1 / 10, 1 / 5] 0, none⟩,
    omega := some ⟨.scalar (1 / 2), none⟩, b := some ⟨.ofList [1 / 4] 0, none⟩ }

example : demoSystem.FitsPlanets 2 := by
  intro x hx q hq
  subst hq
  simp [demoSystem] at hx
  rcases hx with rfl | rfl | rfl | rfl | rfl | rfl <;> simp [Tensor.FitsPlanets, Tensor.ofList, Tensor.scalar]

example : demoSystem.PerPlanet 2 := ⟨_, Or.inl rfl, rfl⟩

example (C : Consts) : ∃ O, keplerianInitV C demoSystem = .ok O := ⟨_, rfl⟩

example : (demoSystem.ofPlanet 1).period.map Q.val = some 20 ∧ (demoSystem.ofPlanet 1).b.map Q.val = some (1 / 4) := by
  constructor <;> simp [demoSystem, VArgs.ofPlanet, TQ.ofPlanet, Tensor.ofPlanet, Tensor.ofList]

/-- Without the restriction on the shapes the evaluation fails: two periods and three eccentricities. -/
example : ∃ g : Gr, (Gr.leaf (.ofList [10, 20] 0) + Gr.leaf (.ofList [1, 2, 3] 0) : Gr) = g ∧ g.eval = .error .shapeMismatch := by
  refine ⟨_, rfl, ?_⟩
  show (Gr.zip _ _ _).eval = _
  simp [Gr.eval, Tensor.zipB, Tensor.ofList, bcastShape, bcastRev, bcastDim]

end Exo
