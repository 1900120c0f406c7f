import Verif.Model.SystemSecondary
import Verif.Props.System
import Verif.Props.SystemLightCurve
import Verif.Props.Secondary

/-!
# C85: secondary eclipses in systems of several planets
-/

namespace Exo
open Real

section
variable {C : Consts} {A : VArgs} {np : ℕ} {O : VOrbit} {os : ℕ → Orbit}

/-- The graph of the period has a planet axis if the arguments have. -/
theorem period_perPlanet (hA : A.FitsPlanets np) (hP : A.PerPlanet np) (hO : keplerianInitV C A = .ok O) {T : Tensor ℝ}
    (hT : O.period.eval = .ok T) : T.shape = [np] := by
  obtain ⟨q, hq, hs⟩ := hP
  obtain ⟨g, k⟩ := keplerianInitV_good (S := [np]) (by simpa using hA.good []) hO
  obtain ⟨X, Y, hX, hY, hb⟩ := k q hq
  cases hX
  rw [(keplerianInitV_fields hO).2.1] at hY
  obtain ⟨T', hT', hb', -⟩ := g.period
  rw [hT] at hT'
  cases hT'
  have hz : (((2 * π : ℝ) : Gr) / O.period).eval = (Tensor.scalar (2 * π)).zipB (· / ·) T := by
    show Gr.eval (Gr.zip (· / ·) (Gr.num (2 * π)) O.period) = _
    simp only [Gr.eval, hT, Gr.num]
  rw [hz, Tensor.zipB_ok (s := T.shape) (bcastShape_nil_left _)] at hY
  cases hY
  rw [hs] at hb
  exact BLe.antisymm hb' hb

/-- The eccentricity and the argument of periastron have a planet axis if the arguments have. -/
theorem eccShapes (h : A.ContactPerPlanet np) (hO : keplerianInitV C A = .ok O) {E : VEcc} (hE : O.ecc = some E) :
    (∃ T, E.ecc.eval = .ok T ∧ T.shape = [np]) ∧ ∃ T, E.omega.eval = .ok T ∧ T.shape = [np] := by
  have h5 := keplerianInitV_ecc hO
  unfold eccBlockV at h5
  rw [hE] at h5
  repeat' split at h5
  all_goals first | (cases h5; done) | skip
  · simp only [Except.ok.injEq, Option.some.injEq] at h5
    subst h5
    exact ⟨⟨_, rfl, h.ecc _ (by assumption)⟩, _, rfl, h.omega _ (by assumption)⟩
  · simp only [Except.ok.injEq, Option.some.injEq] at h5
    subst h5
    rename_i q1 _ _ s c q2 q3
    refine ⟨⟨_, rfl, h.ecc _ (by assumption)⟩, ?_⟩
    have e : (Gr.arctan2 (.leaf s.val) (.leaf c.val)).eval = .ok ⟨[np], fun idx => arctan2 (s.val.bget idx) (c.val.bget idx)⟩ := by
      show Gr.eval (Gr.zip arctan2 _ _) = _
      simp only [Gr.eval]
      exact Tensor.zipB_ok (by rw [h.sin_omega _ q2, h.cos_omega _ q3]; exact bcastShape_self _)
    exact ⟨_, e, rfl⟩

/-- The arguments of the flipped orbit, for each planet. -/
theorem flipArgs_system (hA : A.FitsPlanets np) (hO : keplerianInitV C A = .ok O)
    (hos : ∀ p < np, keplerianInit C (A.ofPlanet p) = .ok (os p)) (r : Tensor ℝ) (hr : r.FitsPlanets np) :
    ∃ B, O.flipArgs r = .ok B ∧ B.FitsPlanets np ∧ (∀ p < np, B.ofPlanet p = (os p).flipArgs (r.ofPlanet p)) ∧
      (A.PerPlanet np → B.PerPlanet np) ∧ (A.ecc = none → B.ecc = none) ∧
      (A.ContactPerPlanet np → A.PerPlanet np → B.ContactPerPlanet np) := by
  have hR := system_ready hA hO hos (Tensor.scalar 0)
  have g := hR.good
  have hat : ∀ p < np, O.at [p] = os p := fun p hp => hR.at_eq [] p hp
  simp only [Tensor.scalar, List.nil_append] at g
  obtain ⟨P, eP, fP, vP⟩ := g.period.holds
  obtain ⟨I, eI, fI, vI⟩ := g.incl.holds
  obtain ⟨M, eM, fM, vM⟩ := g.m_planet.holds
  obtain ⟨N, eN, fN, vN⟩ := g.m_star.holds
  have hpp : A.PerPlanet np → P.shape = [np] := fun h => period_perPlanet hA h hO eP
  obtain ⟨W, eW, fW, vW⟩ : ∃ W : Option (Tensor ℝ), evalOpt O.Omega = .ok W ∧ (∀ w, W = some w → w.FitsPlanets np) ∧
      ∀ p < np, W.map (fun w => w.ofPlanet p) = (os p).Omega := by
    cases hW : O.Omega with
    | none =>
      refine ⟨none, rfl, by simp, fun p hp => ?_⟩
      rw [← hat p hp]
      simp [VOrbit.at, hW]
    | some w =>
      obtain ⟨w', ew, fw, vw⟩ := (g.Omega w hW).holds
      refine ⟨some w', by simp [evalOpt, ew, Except.map], by intro x hx; cases hx; exact fw, fun p hp => ?_⟩
      rw [← hat p hp]
      simp [VOrbit.at, hW, vw p hp]
  cases hE : O.ecc with
  | none =>
    obtain ⟨Z, eZ, fZ, vZ⟩ := (Gr.good_add g.t_periastron (Gr.good_mul (Gr.good_num [np] (0.5 : ℝ)) g.period)).holds
    refine ⟨{ period := some ⟨P, none⟩, t_periastron := some ⟨Z, none⟩, incl := some ⟨I, none⟩, Omega := W.map (⟨·, none⟩),
              m_star := some ⟨M, none⟩, m_planet := some ⟨N, none⟩, r_star := some ⟨r, none⟩ }, ?_, ?_, ?_, ?_, fun _ => rfl, ?_⟩
    · unfold VOrbit.flipArgs
      simp only [bind, Except.bind, hE, eP, eZ, eI, eW, eM, eN]
    · intro x hx q hq
      subst hq
      cases W <;> simp at hx <;> rcases hx with rfl | rfl | rfl | rfl | rfl | rfl | rfl <;> simp [*]
    · intro p hp
      have e : (os p).ecc = none := by rw [← hat p hp]; simp [VOrbit.at, hE]
      unfold Orbit.flipArgs
      rw [e]
      have hW : (W.map fun w => (⟨w, none⟩ : TQ)).map (TQ.ofPlanet · p) = (os p).Omega.map (fun x => (x : Q)) := by
        rw [← vW p hp]
        cases W <;> rfl
      simp only [VArgs.ofPlanet, hW]
      simp only [TQ.ofPlanet, Option.map_some, Option.map_none, vP p hp, vI p hp, vM p hp, vN p hp, vZ p hp, ← hat p hp]
      rfl
    · intro h
      exact ⟨_, Or.inl rfl, hpp h⟩
    · intro _ h
      exact ⟨by simp, by simp, by simp, by simp, Or.inr ⟨rfl, _, rfl, hpp h⟩⟩
  | some E =>
    obtain ⟨Z, eZ, fZ, vZ⟩ := g.t_periastron.holds
    obtain ⟨X, eX, fX, vX⟩ := (g.ecc E hE).1.holds
    obtain ⟨Y, eY, fY, vY⟩ := (Gr.good_sub (g.ecc E hE).2.1 (Gr.good_num [np] π)).holds
    refine ⟨{ period := some ⟨P, none⟩, t_periastron := some ⟨Z, none⟩, incl := some ⟨I, none⟩, Omega := W.map (⟨·, none⟩),
              m_star := some ⟨M, none⟩, m_planet := some ⟨N, none⟩, r_star := some ⟨r, none⟩, ecc := some ⟨X, none⟩,
              omega := some ⟨Y, none⟩ }, ?_, ?_, ?_, ?_, ?_, ?_⟩
    · unfold VOrbit.flipArgs
      simp only [bind, Except.bind, hE, eP, eZ, eI, eW, eM, eN, eX, eY]
    · intro x hx q hq
      subst hq
      cases W <;> simp at hx <;> rcases hx with rfl | rfl | rfl | rfl | rfl | rfl | rfl | rfl | rfl <;> simp [*]
    · intro p hp
      have e : (os p).ecc = some (E.at [p]) := by rw [← hat p hp]; simp [VOrbit.at, hE]
      unfold Orbit.flipArgs
      rw [e]
      have hW : (W.map fun w => (⟨w, none⟩ : TQ)).map (TQ.ofPlanet · p) = (os p).Omega.map (fun x => (x : Q)) := by
        rw [← vW p hp]
        cases W <;> rfl
      simp only [VArgs.ofPlanet, hW]
      simp only [TQ.ofPlanet, Option.map_some, Option.map_none, vP p hp, vI p hp, vM p hp, vN p hp, vZ p hp, vX p hp, vY p hp,
        ← hat p hp]
      rfl
    · intro h
      exact ⟨_, Or.inl rfl, hpp h⟩
    · intro h
      rw [keplerianInitV_circ hO h] at hE
      cases hE
    · intro h h'
      obtain ⟨k1, k2⟩ := eccShapes h hO hE
      have hY : Y.shape = [np] := by
        obtain ⟨T, hT, sT⟩ := k2
        have hz : (E.omega - (π : Gr)).eval = T.zipB (· - ·) (.scalar π) := by
          show Gr.eval (Gr.zip (· - ·) E.omega (Gr.num π)) = _
          simp only [Gr.eval, hT, Gr.num]
        rw [hz, Tensor.zipB_ok (s := T.shape) (bcastShape_of_ble_right (BLe.nil _))] at eY
        cases eY
        exact sT
      have hX : X.shape = [np] := by
        obtain ⟨T, hT, sT⟩ := k1
        rw [eX] at hT
        cases hT
        exact sT
      exact ⟨by simpa using hX, by simpa using hY, by simp, by simp, Or.inr ⟨rfl, _, rfl, hpp h'⟩⟩

/-- **C85, the flipped orbit**: `_flip` of a system is the system of the flipped orbits of its planets (see C20 for what these are). -/
theorem C85_flip (h0 : 0 < np) (hA : A.FitsPlanets np) (hO : keplerianInitV C A = .ok O)
    (hos : ∀ p < np, keplerianInit C (A.ofPlanet p) = .ok (os p)) (hph : ∀ p < np, (os p).Physical) (r : Tensor ℝ)
    (hr : r.FitsPlanets np) :
    ∃ O' os', O.flip C r = .ok O' ∧ (∀ p < np, (os p).flip C (r.ofPlanet p) = .ok (os' p)) ∧ O'.IsSystemOf np os' := by
  obtain ⟨B, hB, fB, eB, -⟩ := flipArgs_system hA hO hos r hr
  obtain ⟨O', hO'⟩ : ∃ O', keplerianInitV C B = .ok O' := by
    obtain ⟨o', ho', -⟩ := C20_flip C _ _ (hos 0 h0) (hph 0 h0) (r.ofPlanet 0)
    have h := keplerianInit_at [0] C B
    have e : B.at [0] = B.ofPlanet 0 := fB.at_eq [] h0
    unfold Orbit.flip at ho'
    rw [e, eB 0 h0, ho'] at h
    cases hk : keplerianInitV C B with
    | error e => rw [hk] at h; cases h
    | ok O' => exact ⟨O', rfl⟩
  obtain ⟨os', h1, h2⟩ := C71_attributes C B fB O' hO'
  refine ⟨O', os', ?_, fun p hp => ?_, h2⟩
  · unfold VOrbit.flip
    simp only [bind, Except.bind, hB, hO']
  · unfold Orbit.flip
    rw [← eB p hp, h1 p hp]

/-- The same in the form that the light curves need. -/
theorem flip_ready (h0 : 0 < np) (hA : A.FitsPlanets np) (hO : keplerianInitV C A = .ok O)
    (hos : ∀ p < np, keplerianInit C (A.ofPlanet p) = .ok (os p)) (hph : ∀ p < np, (os p).Physical) (r : Tensor ℝ)
    (hr : r.FitsPlanets np) : ∃ B O', O.flip C r = .ok O' ∧ B.FitsPlanets np ∧ (A.PerPlanet np → B.PerPlanet np) ∧
      (A.ecc = none ∨ np = 1 ∨ A.ContactPerPlanet np → A.PerPlanet np ∨ np = 1 → B.ecc = none ∨ np = 1 ∨ B.ContactPerPlanet np) ∧
      keplerianInitV C B = .ok O' ∧ ∃ os' : ℕ → Orbit, (∀ p < np, keplerianInit C (B.ofPlanet p) = .ok (os' p)) ∧
      ∀ p < np, (os p).flip C (r.ofPlanet p) = .ok (os' p) ∧ (os' p).r_star = r.ofPlanet p ∧
        ∀ t, (os' p).relativePosition C t = ((os p).relativePosition C t).smul (-1) := by
  obtain ⟨O', os', h1, h2, -⟩ := C85_flip h0 hA hO hos hph r hr
  obtain ⟨B, hB, fB, eB, kB, kE, kC⟩ := flipArgs_system hA hO hos r hr
  have hO' : keplerianInitV C B = .ok O' := by
    unfold VOrbit.flip at h1
    simpa only [bind, Except.bind, hB] using h1
  refine ⟨B, O', h1, fB, kB, ?_, hO', os', fun p hp => by rw [eB p hp]; exact h2 p hp, fun p hp => ?_⟩
  · rintro (h | h | h) (h' | h')
    all_goals first | exact Or.inl (kE h) | exact Or.inr (Or.inl h') | exact Or.inr (Or.inl h) | exact Or.inr (Or.inr (kC h h'))
  obtain ⟨o', g1, g2, -, -, -, -, g3⟩ := C20_flip C _ _ (hos p hp) (hph p hp) (r.ofPlanet p)
  rw [h2 p hp] at g1
  cases g1
  exact ⟨h2 p hp, g2, fun t => (g3 t none).2.2.1⟩

theorem zipB_fits {x y : Tensor ℝ} (hx : x.FitsPlanets np) (hy : y.FitsPlanets np) (f : ℝ → ℝ → ℝ) :
    ∃ Z, x.zipB f y = .ok Z ∧ Z.FitsPlanets np ∧ ∀ p < np, Z.ofPlanet p = f (x.ofPlanet p) (y.ofPlanet p) := by
  obtain ⟨w, hw, b1, b2, b3⟩ := BLe.sup hx.ble hy.ble
  have hf : Tensor.FitsPlanets np ⟨w, fun idx => f (x.bget idx) (y.bget idx)⟩ := ble_fitsPlanets b3
  refine ⟨_, Tensor.zipB_ok hw, hf, fun p hp => ?_⟩
  rw [← ofPlanet_eq hf [] hp, ← ofPlanet_eq hx [] hp, ← ofPlanet_eq hy [] hp, Tensor.bget_eq]
  have hl : w.length ≤ ([] ++ [p]).length := b3.length
  simp only
  rw [Tensor.bget_clip b1 hl, Tensor.bget_clip b2 hl]

theorem zipB_planet_left {X Y : Tensor ℝ} {s : List ℕ} (hX : X.shape = s ++ [np]) (hY : Y.FitsPlanets np) (f : ℝ → ℝ → ℝ) :
    ∃ Z, Y.zipB f X = .ok Z ∧ Z.shape = s ++ [np] ∧
      ∀ i p, InShape i s → p < np → Z.get (i ++ [p]) = f (Y.ofPlanet p) (X.get (i ++ [p])) := by
  rw [Tensor.zipB_ok (s := s ++ [np]) (by rw [hX]; exact bcastShape_of_ble (ble_append s hY.ble))]
  refine ⟨_, rfl, rfl, fun i p hi hp => ?_⟩
  simp only
  rw [ofPlanet_eq hY i hp, Tensor.bget_self (x := X) (by rw [hX]; exact inShape_snoc hi hp)]

theorem zipB_table {X Y : Tensor ℝ} {s : List ℕ} (hX : X.shape = s ++ [np]) (hY : Y.shape = s ++ [np]) (f : ℝ → ℝ → ℝ) :
    ∃ Z, X.zipB f Y = .ok Z ∧ Z.shape = s ++ [np] ∧
      ∀ i p, InShape i s → p < np → Z.get (i ++ [p]) = f (X.get (i ++ [p])) (Y.get (i ++ [p])) := by
  rw [Tensor.zipB_ok (s := s ++ [np]) (by rw [hX, hY]; exact bcastShape_self _)]
  refine ⟨_, rfl, rfl, fun i p hi hp => ?_⟩
  simp only
  rw [Tensor.bget_self (by rw [hX]; exact inShape_snoc hi hp), Tensor.bget_self (by rw [hY]; exact inShape_snoc hi hp)]

theorem map_fits {x : Tensor ℝ} (hx : x.FitsPlanets np) (f : ℝ → ℝ) :
    (x.map f).FitsPlanets np ∧ ∀ p, (x.map f).ofPlanet p = f (x.ofPlanet p) := by
  refine ⟨hx, fun p => ?_⟩
  unfold Tensor.ofPlanet Tensor.map
  simp only
  split <;> rfl

/-- The last lines of `get_light_curve`. -/
theorem combine_system {r R lc1 lc2 : Tensor ℝ} {s : List ℕ} (σ : ℝ) (hr : r.FitsPlanets np) (hR : R.FitsPlanets np)
    (h1 : lc1.shape = s ++ [np]) (h2 : lc2.shape = s ++ [np]) :
    ∃ k a b c, r.zipB (· / ·) R = .ok k ∧ (k.map (fun k => σ * k ^ 2)).zipB (· * ·) lc2 = .ok a ∧ lc1.zipB (· + ·) a = .ok b ∧
      b.zipB (· / ·) ((k.map (fun k => σ * k ^ 2)).map (1 + ·)) = .ok c ∧ c.shape = s ++ [np] ∧
      ∀ i p, InShape i s → p < np → c.get (i ++ [p]) =
        (lc1.get (i ++ [p]) + σ * (r.ofPlanet p / R.ofPlanet p) ^ 2 * lc2.get (i ++ [p])) /
          (1 + σ * (r.ofPlanet p / R.ofPlanet p) ^ 2) := by
  obtain ⟨k, hk, fk, vk⟩ := zipB_fits hr hR (· / ·)
  obtain ⟨fm, vm⟩ := map_fits fk (fun k => σ * k ^ 2)
  obtain ⟨fn, vn⟩ := map_fits fm (1 + ·)
  obtain ⟨a, ha, sa, va⟩ := zipB_planet_left h2 fm (· * ·)
  obtain ⟨b, hb, sb, vb⟩ := zipB_table h1 sa (· + ·)
  obtain ⟨c, hc, sc, vc⟩ := zipB_planet sb fn (· / ·)
  refine ⟨k, a, b, c, hk, ha, hb, hc, sc, fun i p hi hp => ?_⟩
  rw [vc i p hi hp, vb i p hi hp, va i p hi hp, vn, vm, vk p hp]

theorem totalChange_eq {q F1 d1 d2 : ℝ} (hq : 0 ≤ q) (hF : 0 < F1) :
    (d1 + q * d2) / (1 + q) = totalChange F1 (q * F1) d1 d2 := by
  unfold totalChange
  have h1 : F1 + q * F1 ≠ 0 := by nlinarith
  have h2 : 1 + q ≠ 0 := by positivity
  field_simp
  ring

theorem ofPlanet_unravel {x : Tensor ℝ} (h : x.FitsPlanets np) (hs : x.size = np) {p : ℕ} (hp : p < np) :
    x.get (Tensor.unravel x.shape p) = x.ofPlanet p := by
  rw [← (perPl_of_size h.ble hs).bget hp]
  exact ofPlanet_eq h [] hp

/-- **C85, the values**: entry `(i, p)` is the relative change at time `t[i]` of the total flux of the star and planet `p` of a system
of planets on the orbits that their own arguments give: the planet, with `ratio · (r[p] / r_star[p])²` times the flux of the star,
dims the star, and the star the planet, seen at the opposite position. `R` is the value of the attribute `r_star`. Missing: a stellar
radius that is given once for several planets (`C85_shared_radius_counterexample`). -/
theorem C85_value_partial (cp : ContactOp) (l : SecondaryEclipse) (h0 : 0 < np) (hA : A.FitsPlanets np) (hP : A.PerPlanet np ∨ np = 1)
    (hO : keplerianInitV C A = .ok O) (hos : ∀ p < np, keplerianInit C (A.ofPlanet p) = .ok (os p))
    (hph : ∀ p < np, (os p).Physical) (r R t : Tensor ℝ) (hr : r.FitsPlanets np) (hrs : r.size = np) (hR : O.r_star.eval = .ok R)
    (hRs : R.size = np) (hσ : 0 ≤ l.surface_brightness_ratio) (oversample order : ℤ) :
    ∃ L, l.getLightCurveV C cp O r t none oversample order (some false) = .ok L ∧ L.shape = t.shape ++ [np] ∧
      ∀ i p, InShape i t.shape → p < np → ∀ F1, 0 < F1 → L.get (i ++ [p]) =
        totalChange F1 (l.surface_brightness_ratio * (r.ofPlanet p / (os p).r_star) ^ 2 * F1)
          (fluxAt l.primary.c (os p).r_star (r.ofPlanet p) ((os p).relativePosition C (t.get i)))
          (fluxAt l.secondary.c (r.ofPlanet p) (os p).r_star (((os p).relativePosition C (t.get i)).smul (-1))) := by
  obtain ⟨R', hR', fR, vR⟩ := (system_ready hA hO hos (Tensor.scalar 0)).good.r_star.holds
  rw [hR] at hR'
  cases hR'
  have vR' : ∀ p < np, R.ofPlanet p = (os p).r_star := by
    intro p hp
    rw [vR p hp, ← (system_ready hA hO hos (Tensor.scalar 0)).at_eq [] p hp]
    rfl
  obtain ⟨B, O', hf, fB, kB, -, hO', os', hos', ho'⟩ := flip_ready h0 hA hO hos hph r hr
  obtain ⟨L1, a1, a2, a3⟩ := C75_light_curve_partial l.primary cp hA hP hO hos false r t hrs oversample order
  obtain ⟨L2, b1, b2, b3⟩ := C75_light_curve_partial l.secondary cp fB (hP.imp_left kB) hO' hos' false R t hRs oversample order
  obtain ⟨k, a, b, c, c1, c2, c3, c4, c5, c6⟩ := combine_system l.surface_brightness_ratio hr fR a2 b2
  refine ⟨c, ?_, c5, fun i p hi hp F1 hF1 => ?_⟩
  · unfold SecondaryEclipse.getLightCurveV
    simp only [bind, Except.bind, hf, a1, hR, b1, c1, c2, c3, c4]
  · rw [c6 i p hi hp, a3 i p hi hp, b3 i p hi hp, ofPlanet_unravel hr hrs hp, ofPlanet_unravel fR hRs hp, vR' p hp, (ho' p hp).2.1,
      (ho' p hp).2.2]
    exact totalChange_eq (by positivity) hF1

/-- **C85, exposure times** (one for all times, or one per time): the exposure averages are combined. -/
theorem C85_exposure_partial (cp : ContactOp) (l : SecondaryEclipse) (h0 : 0 < np) (hA : A.FitsPlanets np)
    (hP : A.PerPlanet np ∨ np = 1) (hO : keplerianInitV C A = .ok O) (hos : ∀ p < np, keplerianInit C (A.ofPlanet p) = .ok (os p))
    (hph : ∀ p < np, (os p).Physical) (r R t x : Tensor ℝ) (hr : r.FitsPlanets np) (hrs : r.size = np)
    (hR : O.r_star.eval = .ok R) (hRs : R.size = np) (hx : x.shape = [] ∨ x.shape = t.shape) (hσ : 0 ≤ l.surface_brightness_ratio)
    (oversample order : ℤ) (ho : order = 0 ∨ order = 1 ∨ order = 2) (hn : 1 ≤ oversample) :
    ∃ S, stencil order oversample = .ok S ∧
    ∃ L, l.getLightCurveV C cp O r t (some x) oversample order (some false) = .ok L ∧ L.shape = t.shape ++ [np] ∧
      ∀ i p, InShape i t.shape → p < np → ∀ F1, 0 < F1 → L.get (i ++ [p]) =
        totalChange F1 (l.surface_brightness_ratio * (r.ofPlanet p / (os p).r_star) ^ 2 * F1)
          (exposureAverage (fun s => fluxAt l.primary.c (os p).r_star (r.ofPlanet p) ((os p).relativePosition C s)) (t.get i)
            (some (texpAt x i, S)))
          (exposureAverage (fun s => fluxAt l.secondary.c (r.ofPlanet p) (os p).r_star (((os p).relativePosition C s).smul (-1)))
            (t.get i) (some (texpAt x i, S))) := by
  obtain ⟨R', hR', fR, vR⟩ := (system_ready hA hO hos (Tensor.scalar 0)).good.r_star.holds
  rw [hR] at hR'
  cases hR'
  have vR' : ∀ p < np, R.ofPlanet p = (os p).r_star := by
    intro p hp
    rw [vR p hp, ← (system_ready hA hO hos (Tensor.scalar 0)).at_eq [] p hp]
    rfl
  obtain ⟨B, O', hf, fB, kB, -, hO', os', hos', ho'⟩ := flip_ready h0 hA hO hos hph r hr
  obtain ⟨S, hS, L1, a1, a2, a3⟩ := C75_exposure_partial l.primary cp hA hP hO hos false r t x hrs hx oversample order ho hn
  obtain ⟨S', hS', L2, b1, b2, b3⟩ := C75_exposure_partial l.secondary cp fB (hP.imp_left kB) hO' hos' false R t x hRs hx oversample
    order ho hn
  rw [hS] at hS'
  cases hS'
  obtain ⟨k, a, b, c, c1, c2, c3, c4, c5, c6⟩ := combine_system l.surface_brightness_ratio hr fR a2 b2
  refine ⟨S, hS, c, ?_, c5, fun i p hi hp F1 hF1 => ?_⟩
  · unfold SecondaryEclipse.getLightCurveV
    simp only [bind, Except.bind, hf, a1, hR, b1, c1, c2, c3, c4]
  · rw [c6 i p hi hp, a3 i p hi hp, b3 i p hi hp, ofPlanet_unravel hr hrs hp, ofPlanet_unravel fR hRs hp, vR' p hp, (ho' p hp).2.1]
    simp only [(ho' p hp).2.2]
    exact totalChange_eq (by positivity) hF1

/-- **C85 with `use_in_transit`** (the default): restricting the computation to the times in transit changes nothing, if in front of
the star and behind it each planet is `Tractable` (see C40). -/
theorem C85_use_in_transit_partial (cp : ContactOp) (u1 u2 v1 v2 ratio : ℝ) (hu : PhysicalLaw u1 u2) (hv : PhysicalLaw v1 v2)
    (h0 : 0 < np) (hA : A.FitsPlanets np) (hP : A.PerPlanet np ∨ np = 1) (hO : keplerianInitV C A = .ok O)
    (hos : ∀ p < np, keplerianInit C (A.ofPlanet p) = .ok (os p)) (hsz : A.ecc = none ∨ np = 1 ∨ A.ContactPerPlanet np)
    (r R t : Tensor ℝ) (hr : r.FitsPlanets np) (hrs : r.size = np) (hR : O.r_star.eval = .ok R) (hRs : R.size = np) (N : ℕ)
    (ht : t.shape = [N]) (texp : Option ℝ) (hx : ∀ x, texp = some x → 0 ≤ x)
    (hT : ∀ p < np, Tractable C cp (os p) (r.ofPlanet p) (texp.getD 0))
    (hT' : ∀ p < np, ∀ o', (os p).flip C (r.ofPlanet p) = .ok o' → Tractable C cp o' (os p).r_star (texp.getD 0))
    (oversample order : ℤ) (ho : order = 0 ∨ order = 1 ∨ order = 2) (hn : 1 ≤ oversample) :
    ∃ l L L', SecondaryEclipse.new [u1, u2] [v1, v2] ratio = .ok l ∧
      l.getLightCurveV C cp O r t (texp.map Tensor.scalar) oversample order (some true) = .ok L ∧
      l.getLightCurveV C cp O r t (texp.map Tensor.scalar) oversample order (some false) = .ok L' ∧ L.Same L' := by
  obtain ⟨R', hR', fR, vR⟩ := (system_ready hA hO hos (Tensor.scalar 0)).good.r_star.holds
  rw [hR] at hR'
  cases hR'
  have vR' : ∀ p < np, R.ofPlanet p = (os p).r_star := by
    intro p hp
    rw [vR p hp, ← (system_ready hA hO hos (Tensor.scalar 0)).at_eq [] p hp]
    rfl
  obtain ⟨B, O', hf, fB, kB, kC, hO', os', hos', ho'⟩ := flip_ready h0 hA hO hos (fun p hp => (hT p hp).2.1) r hr
  have hshape : ∀ {l : LimbDark} {A : VArgs} {O : VOrbit} {os : ℕ → Orbit} {r : Tensor ℝ} {L : Tensor ℝ}, A.FitsPlanets np →
      A.PerPlanet np ∨ np = 1 → keplerianInitV C A = .ok O → (∀ p < np, keplerianInit C (A.ofPlanet p) = .ok (os p)) → r.size = np →
      l.getLightCurveV C cp O r t (texp.map Tensor.scalar) oversample order (some false) = .ok L → L.shape = t.shape ++ [np] := by
    intro l A O os r L hA hP hO hos hr hL
    rcases texp with _ | x
    · obtain ⟨L', a1, a2, -⟩ := C75_light_curve_partial l cp hA hP hO hos false r t hr oversample order
      rw [Option.map_none, a1] at hL
      cases hL
      exact a2
    · obtain ⟨-, -, L', a1, a2, -⟩ := C75_exposure_partial l cp hA hP hO hos false r t (.scalar x) hr (Or.inl rfl) oversample order ho hn
      rw [Option.map_some, a1] at hL
      cases hL
      exact a2
  obtain ⟨L1, M1, a1, a2, a3⟩ := C75_use_in_transit_partial cp u1 u2 hu.pos.ne' h0 hA hP hO hos hsz r t hrs N ht texp hx
    (fun p hp => by rw [ofPlanet_unravel hr hrs hp]; exact hT p hp) oversample order ho hn
  obtain ⟨L2, M2, b1, b2, b3⟩ := C75_use_in_transit_partial cp v1 v2 hv.pos.ne' h0 fB (hP.imp_left kB) hO' hos' (kC hsz hP) R t hRs N
    ht texp hx (fun p hp => by rw [ofPlanet_unravel fR hRs hp, vR' p hp]; exact hT' p hp _ (ho' p hp).1) oversample order ho hn
  have t1 := hshape hA hP hO hos hrs a2
  have t2 := hshape fB (hP.imp_left kB) hO' hos' hRs b2
  have s1 : L1.shape = t.shape ++ [np] := by rw [a3.1, t1]
  have s2 : L2.shape = t.shape ++ [np] := by rw [b3.1, t2]
  obtain ⟨k, a, b, c, c1, c2, c3, c4, c5, c6⟩ := combine_system ratio hr fR s1 s2
  obtain ⟨k', a', b', c', d1, d2, d3, d4, d5, d6⟩ := combine_system ratio hr fR t1 t2
  rw [c1] at d1
  cases d1
  refine ⟨_, c, c', rfl, ?_, ?_, by rw [c5, d5], fun idx hidx => ?_⟩
  · unfold SecondaryEclipse.getLightCurveV
    simp only [bind, Except.bind, hf, a1, hR, b1, c1, c2, c3, c4]
  · unfold SecondaryEclipse.getLightCurveV
    simp only [bind, Except.bind, hf, a2, hR, b2, c1, d2, d3, d4]
  · rw [c5] at hidx
    obtain ⟨i, p, rfl, hi, hp⟩ := hidx.snoc_inv
    rw [c6 i p hi hp, d6 i p hi hp, a3.2 _ (by rw [s1]; exact inShape_snoc hi hp), b3.2 _ (by rw [s2]; exact inShape_snoc hi hp)]

/-- With a wrong number of radii the positions cannot be reshaped. -/
theorem radius_count_system (l : LimbDark) (cp : ContactOp) (hA : A.FitsPlanets np) (hP : A.PerPlanet np)
    (hO : keplerianInitV C A = .ok O) (hos : ∀ p < np, keplerianInit C (A.ofPlanet p) = .ok (os p)) (r t : Tensor ℝ)
    (hr : r.size ≠ np) (ht : t.size ≠ 0) (oversample order : ℤ) :
    l.getLightCurveV C cp O r t none oversample order (some false) = .error (.valueError "cannot reshape") := by
  obtain ⟨y, h1, h2, h3⟩ := Tensor.reshape_flat r
  obtain ⟨G, h4, h5⟩ := padAdd_zero h2 t
  obtain ⟨-, -, ⟨X, mx, hX, hmx, tX⟩, ⟨Y, my, hY, hmy, tY⟩, ⟨Z, mz, hZ, hmz, tZ⟩⟩ :=
    (system_ready hA hO hos t).positions C none false (by simp)
  have em : ∀ {m : ℕ}, (m = np ∨ m = 1 ∧ ¬ A.PerPlanet np) → m = np := fun hm => hm.resolve_right fun h => h.2 hP
  rw [em hmx] at tX
  rw [em hmy] at tY
  simp only [Option.map_none] at hX hY hZ
  unfold LimbDark.getLightCurveV lightCurveWith
  simp only [Option.getD_some, Bool.false_eq_true, if_false, bind, Except.bind, h1, integratedWith, h4]
  unfold LimbDark.lightCurveAtV LimbDark.lightCurveAtG
  simp only [bind, Except.bind, hX, hY, hZ]
  rw [Tensor.zipB_ok (s := X.shape) (by rw [tX.1, tY.1]; exact bcastShape_self _)]
  simp only
  have : ¬ X.shape.prod = G.shape.prod := by
    rw [tX.1, h5, Tensor.squeezeShape_prod, List.prod_append, List.prod_append, List.prod_singleton, List.prod_singleton]
    intro h
    exact hr (Nat.eq_of_mul_eq_mul_left (Nat.pos_of_ne_zero ht) h.symm)
  simp only [Tensor.reshape, if_neg this]

/-- **C85 is false when the stellar radius is one number** (in particular when `r_star` is not given, or given as a scalar) and there
are several planets: the call raises as soon as there are times. -/
theorem C85_shared_radius_counterexample (cp : ContactOp) (l : SecondaryEclipse) (h0 : 0 < np) (hA : A.FitsPlanets np)
    (hP : A.PerPlanet np) (hO : keplerianInitV C A = .ok O) (hos : ∀ p < np, keplerianInit C (A.ofPlanet p) = .ok (os p))
    (hph : ∀ p < np, (os p).Physical) (r R t : Tensor ℝ) (hr : r.FitsPlanets np) (hrs : r.size = np) (hR : O.r_star.eval = .ok R)
    (hRs : R.size ≠ np) (ht : t.size ≠ 0) (oversample order : ℤ) :
    l.getLightCurveV C cp O r t none oversample order (some false) = .error (.valueError "cannot reshape") := by
  obtain ⟨B, O', hf, fB, kB, -, hO', os', hos', ho'⟩ := flip_ready h0 hA hO hos hph r hr
  obtain ⟨L1, a1, -⟩ := C75_light_curve_partial l.primary cp hA (Or.inl hP) hO hos false r t hrs oversample order
  have := radius_count_system l.secondary cp fB (kB hP) hO' hos' R t hRs ht oversample order
  unfold SecondaryEclipse.getLightCurveV
  simp only [bind, Except.bind, hf, a1, hR, this]

end

/-! ## Examples -/

/-- Two planets with the periods 3 and 5; the stellar radius is the array `R`. -/
noncomputable def demoDuo (R : Tensor ℝ) : VArgs :=
  { period := some ⟨.ofList [3, 5] 0, none⟩, r_star := some ⟨R, none⟩, incl := some ⟨.scalar (π / 2), none⟩,
    m_star := some ⟨.scalar 1, none⟩ }

theorem demoDuo_fits {R : Tensor ℝ} (hR : R.FitsPlanets 2) : (demoDuo R).FitsPlanets 2 := by
  intro x hx q hq
  subst hq
  simp [demoDuo] at hx
  rcases hx with rfl | rfl | rfl | rfl | rfl <;> first | exact hR | simp [Tensor.FitsPlanets, Tensor.ofList, Tensor.scalar]

theorem demoDuo_ok (C : Consts) (R : Tensor ℝ) (hR : R.FitsPlanets 2) (hpos : ∀ p < 2, 0 < R.ofPlanet p) :
    ∃ (O : VOrbit) (os : ℕ → Orbit), keplerianInitV C (demoDuo R) = .ok O ∧ (∀ p < 2, keplerianInit C ((demoDuo R).ofPlanet p) = .ok (os p)) ∧
      (∀ p < 2, (os p).Physical) ∧ O.r_star.eval = .ok R := by
  obtain ⟨O, hO, hR'⟩ : ∃ O, keplerianInitV C (demoDuo R) = .ok O ∧ O.r_star.eval = .ok R := ⟨_, rfl, rfl⟩
  obtain ⟨os, h1, -⟩ := C71_attributes C _ (demoDuo_fits hR) O hO
  refine ⟨O, os, hO, h1, fun p hp => ?_, hR'⟩
  have h := h1 p hp
  have hG := C.G_pos
  have hg := C.gccPerSun_pos
  have hpi := pi_pos
  have hP : 0 < (Tensor.ofList [(3 : ℝ), 5] 0).ofPlanet p := by
    interval_cases p <;> simp [Tensor.ofPlanet, Tensor.ofList]
  obtain ⟨P, eP⟩ : ∃ P, (Tensor.ofList [(3 : ℝ), 5] 0).ofPlanet p = P := ⟨_, rfl⟩
  obtain ⟨R0, eR⟩ : ∃ R0, R.ofPlanet p = R0 := ⟨_, rfl⟩
  have hR0 : 0 < R0 := by rw [← eR]; exact hpos p hp
  rw [eP] at hP
  have e : (demoDuo R).ofPlanet p = { period := some (P : ℝ), r_star := some (R0 : ℝ), incl := some (π / 2 : ℝ), m_star := some (1 : ℝ) } := by
    simp only [demoDuo, VArgs.ofPlanet, TQ.ofPlanet, Option.map_some, Option.map_none, eP, eR]
    rfl
  rw [e] at h
  generalize os p = o at h
  cases h
  refine ⟨?_, ?_, ?_, ?_, ?_, ?_, ?_, ?_, ?_, ?_⟩ <;> simp <;> try positivity

/-- The hypotheses of `C85_value_partial` are met when each planet has its entry of `r_star`; the second column is that of the second
planet. -/
example (C : Consts) (cp : ContactOp) : ∃ O L, keplerianInitV C (demoDuo (.ofList [1, 1] 0)) = .ok O ∧
    SecondaryEclipse.getLightCurveV ⟨LimbDark.new 0.3 0.2, LimbDark.new 0.1 0, 0.4⟩ C cp O (.ofList [0.1, 0.2] 0) (.ofList [0, 1, 2] 0)
      none 7 0 (some false) = .ok L ∧ L.shape = [3, 2] := by
  obtain ⟨O, os, hO, h1, h2, h3⟩ := demoDuo_ok C (.ofList [1, 1] 0) (by simp [Tensor.FitsPlanets, Tensor.ofList])
    (by intro p hp; interval_cases p <;> simp [Tensor.ofPlanet, Tensor.ofList])
  obtain ⟨L, e1, e2, -⟩ := C85_value_partial (np := 2) cp ⟨LimbDark.new 0.3 0.2, LimbDark.new 0.1 0, 0.4⟩ (by norm_num)
    (demoDuo_fits (by simp [Tensor.FitsPlanets, Tensor.ofList])) (Or.inl ⟨_, Or.inl rfl, rfl⟩) hO h1 h2 (.ofList [0.1, 0.2] 0)
    (.ofList [1, 1] 0) (.ofList [0, 1, 2] 0) (by simp [Tensor.FitsPlanets, Tensor.ofList]) rfl h3 rfl (by norm_num) 7 0
  exact ⟨O, L, hO, e1, e2⟩

/-- Those of `C85_use_in_transit_partial` by two binaries like `demoBinary`, as a system with two planets. -/
noncomputable def demoBinaries (s : ℝ) : VArgs :=
  { period := some ⟨.ofList [1, 1] 0, none⟩, r_star := some ⟨.ofList [s, s] 0, none⟩, incl := some ⟨.scalar (π / 2), none⟩,
    m_star := some ⟨.scalar 1, none⟩, m_planet := some ⟨.scalar 1, none⟩ }

example (C : Consts) (cp : ContactOp) : ∃ (s : ℝ) (O : VOrbit) (os : ℕ → Orbit) (R : Tensor ℝ), 0 < s ∧ (demoBinaries s).FitsPlanets 2 ∧ (demoBinaries s).PerPlanet 2 ∧
    keplerianInitV C (demoBinaries s) = .ok O ∧ (∀ p < 2, keplerianInit C ((demoBinaries s).ofPlanet p) = .ok (os p)) ∧
    (demoBinaries s).ecc = none ∧ O.r_star.eval = .ok R ∧ R.size = 2 ∧
    (∀ p < 2, Tractable C cp (os p) ((Tensor.ofList [s, s] 0).ofPlanet p) 0.1) ∧
    ∀ p < 2, ∀ o', (os p).flip C ((Tensor.ofList [s, s] 0).ofPlanet p) = .ok o' → Tractable C cp o' (os p).r_star 0.1 := by
  obtain ⟨s, o, o', hs, ho, hf, hT, hT'⟩ := demoBinary_tractable C cp
  have e : ∀ p < 2, (demoBinaries s).ofPlanet p = demoBinary s := by
    intro p hp
    interval_cases p <;> rfl
  have e' : ∀ p < 2, (Tensor.ofList [s, s] 0).ofPlanet p = s := by
    intro p hp
    interval_cases p <;> rfl
  refine ⟨s, _, fun _ => o, .ofList [s, s] 0, hs, ?_, ⟨_, Or.inl rfl, rfl⟩, rfl, fun p hp => by rw [e p hp]; exact ho, rfl, rfl, rfl,
    fun p hp => by rw [e' p hp]; exact hT, fun p hp o'' h => ?_⟩
  · intro x hx q hq
    subst hq
    simp [demoBinaries] at hx
    rcases hx with rfl | rfl | rfl | rfl | rfl <;> simp [Tensor.FitsPlanets, Tensor.ofList, Tensor.scalar]
  · rw [e' p hp, hf] at h
    cases h
    exact hT'

/-- Those of `C85_shared_radius_counterexample` when `r_star` is a scalar. -/
example (C : Consts) (cp : ContactOp) (l : SecondaryEclipse) : ∃ O, keplerianInitV C (demoDuo (.scalar 1)) = .ok O ∧
    l.getLightCurveV C cp O (.ofList [0.1, 0.2] 0) (.ofList [0, 1, 2] 0) none 7 0 (some false) =
      .error (.valueError "cannot reshape") := by
  obtain ⟨O, os, hO, h1, h2, h3⟩ := demoDuo_ok C (.scalar 1) (by simp [Tensor.FitsPlanets, Tensor.scalar])
    (by intro p hp; simp [Tensor.ofPlanet, Tensor.scalar])
  exact ⟨O, hO, C85_shared_radius_counterexample (np := 2) cp l (by norm_num)
    (demoDuo_fits (by simp [Tensor.FitsPlanets, Tensor.scalar])) ⟨_, Or.inl rfl, rfl⟩ hO h1 h2 (.ofList [0.1, 0.2] 0)
    (.scalar 1) (.ofList [0, 1, 2] 0) (by simp [Tensor.FitsPlanets, Tensor.ofList]) rfl h3 (by simp [Tensor.size, Tensor.scalar])
    (by simp [Tensor.size, Tensor.ofList]) 7 0⟩

end Exo
