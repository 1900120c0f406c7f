import Verif.Lemmas.System2

/-!
# Systems of several planets: the public methods, for `KeplerianOrbit` and `TTVOrbit`
-/

namespace Exo
open Real

/-- The orbit of planet `p`, read off the system. -/
theorem system_at {C : Consts} {A : VArgs} {O : VOrbit} {np : ℕ} (hA : A.FitsPlanets np) (hO : keplerianInitV C A = .ok O)
    {os : ℕ → Orbit} (hos : ∀ p < np, keplerianInit C (A.ofPlanet p) = .ok (os p)) (i : List ℕ) {p : ℕ} (hp : p < np) :
    O.at (i ++ [p]) = os p := by
  have h := keplerianInit_at (i ++ [p]) C A
  rw [hA.at_eq i hp, hO, hos p hp] at h
  simp only [Except.map] at h
  exact (Except.ok.inj h).symm

/-- Everything that is known about a constructed system, ready for the methods. -/
structure Ready (O : VOrbit) (t : Tensor ℝ) (np : ℕ) (full : Prop) (os : ℕ → Orbit) : Prop where
  good : O.Good (t.shape ++ [np])
  shift : (O.shift (.leaf t)).Good (t.shape ++ [np])
  full : full → ∃ q : Tensor ℝ, q.shape = [np] ∧ (Gr.leaf q).Le O.n
  at_eq : ∀ i p, p < np → O.at (i ++ [p]) = os p

theorem time_good (t : Tensor ℝ) (np : ℕ) : (Gr.leaf t).padright.Good (t.shape ++ [np]) :=
  Gr.good_padright (x := .leaf t) rfl (fun _ hi => (Tensor.bget_self hi).symm) np

theorem shows_vec {np : ℕ} {v : V3G} {t : Tensor ℝ} {full : Prop} {n : Gr} (h : v.Over (t.shape ++ [np]) [(Gr.leaf t).padright, n])
    (hfull : full → ∃ q : Tensor ℝ, q.shape = [np] ∧ (Gr.leaf q).Le n) {f : List ℕ → ℕ → V3}
    (hf : ∀ i p, InShape i t.shape → p < np → v.at (i ++ [p]) = f i p) : v.squeeze.Shows t.shape np full f :=
  ⟨shows_squeeze h.1 hfull fun i p hi hp => congrArg V3.x (hf i p hi hp),
   shows_squeeze h.2.1 hfull fun i p hi hp => congrArg V3.y (hf i p hi hp),
   shows_squeeze h.2.2 hfull fun i p hi hp => congrArg V3.z (hf i p hi hp)⟩

theorem time_val {t : Tensor ℝ} {i : List ℕ} (hi : InShape i t.shape) (p : ℕ) : (Gr.leaf t).val (i ++ [p]).dropLast = t.get i := by
  rw [List.dropLast_concat, Gr.val_leaf, Tensor.bget_self hi]

namespace Ready
variable {C : Consts} {O : VOrbit} {t : Tensor ℝ} {np : ℕ} {full : Prop} {os : ℕ → Orbit}

theorem positions (h : Ready O t np full os) (C : Consts) (parallax : Option ℝ) (light_delay : Bool)
    (hld : light_delay = true → O.dts = none) :
    (O.planetPosition C (.leaf t) (parallax.map Gr.num) light_delay).Shows t.shape np full
      (fun i p => (os p).planetPosition C (t.get i) parallax light_delay) ∧
    (O.starPosition C (.leaf t) (parallax.map Gr.num) light_delay).Shows t.shape np full
      (fun i p => (os p).starPosition C (t.get i) parallax light_delay) ∧
    (O.relativePosition C (.leaf t) (parallax.map Gr.num) light_delay).Shows t.shape np full
      (fun i p => (os p).relativePosition C (t.get i) parallax light_delay) := by
  have gt := time_good t np
  refine ⟨shows_vec (VOrbit.position_over h.good C h.good.a_planet gt h.shift parallax light_delay hld) h.full fun i p hi hp => ?_,
    shows_vec (VOrbit.position_over h.good C h.good.a_star gt h.shift parallax light_delay hld) h.full fun i p hi hp => ?_,
    shows_vec (VOrbit.position_over h.good C (Gr.good_neg h.good.a) gt h.shift parallax light_delay hld) h.full
      fun i p hi hp => ?_⟩ <;>
  · rw [VOrbit.position_at _ _ _ _ _ _ _ hld, time_val hi, ← h.at_eq i p hp]
    rfl

theorem velocities (h : Ready O t np full os) :
    (O.planetVelocity (.leaf t)).Shows t.shape np full (fun i p => (os p).planetVelocity (t.get i)) ∧
    (O.starVelocity (.leaf t)).Shows t.shape np full (fun i p => (os p).starVelocity (t.get i)) ∧
    (O.relativeVelocity (.leaf t)).Shows t.shape np full (fun i p => (os p).relativeVelocity (t.get i)) ∧
    (O.planetAcceleration (.leaf t)).Shows t.shape np full (fun i p => (os p).planetAcceleration (t.get i)) ∧
    (O.starAcceleration (.leaf t)).Shows t.shape np full (fun i p => (os p).starAcceleration (t.get i)) ∧
    (O.relativeAcceleration (.leaf t)).Shows t.shape np full (fun i p => (os p).relativeAcceleration (t.get i)) := by
  have gt := time_good t np
  have g := h.good
  refine ⟨shows_vec (VOrbit.velocity_over g (Gr.good_neg g.m_star) gt h.shift) h.full fun i p hi hp => ?_,
    shows_vec (VOrbit.velocity_over g g.m_planet gt h.shift) h.full fun i p hi hp => ?_,
    shows_vec (VOrbit.velocity_over g (Gr.good_neg g.m_total) gt h.shift) h.full fun i p hi hp => ?_,
    shows_vec (VOrbit.acceleration_over g g.a_planet (Gr.good_neg g.m_star) gt h.shift) h.full fun i p hi hp => ?_,
    shows_vec (VOrbit.acceleration_over g g.a_star g.m_planet gt h.shift) h.full fun i p hi hp => ?_,
    shows_vec (VOrbit.acceleration_over g (Gr.good_neg g.a) (Gr.good_neg g.m_total) gt h.shift) h.full fun i p hi hp => ?_⟩ <;>
  · first
      | rw [VOrbit.velocity_at, time_val hi, ← h.at_eq i p hp]; rfl
      | rw [VOrbit.acceleration_at, time_val hi, ← h.at_eq i p hp]; rfl

theorem angles (h : Ready O t np full os) (C : Consts) (parallax : Option ℝ) (light_delay : Bool)
    (hld : light_delay = true → O.dts = none) :
    (O.relativeAngles C (.leaf t) (parallax.map Gr.num) light_delay).1.Shows t.shape np full
      (fun i p => ((os p).relativeAngles C (t.get i) parallax light_delay).1) ∧
    (O.relativeAngles C (.leaf t) (parallax.map Gr.num) light_delay).2.Shows t.shape np full
      (fun i p => ((os p).relativeAngles C (t.get i) parallax light_delay).2) := by
  have gt := time_good t np
  have g := h.good
  have ho := VOrbit.position_over g C (Gr.good_neg g.a) gt h.shift parallax light_delay hld
  have hv : ∀ i p, InShape i t.shape → p < np →
      (O.position C (-O.a) (.leaf t) (parallax.map Gr.num) light_delay).at (i ++ [p]) =
        (os p).position C (-(os p).a) (t.get i) parallax light_delay := by
    intro i p hi hp
    rw [VOrbit.position_at _ _ _ _ _ _ _ hld, time_val hi, ← h.at_eq i p hp]
    rfl
  refine ⟨shows_squeeze (over_map _ (over_zip_left _ (over_map _ ho.1) (Gr.good_pow 2 ho.2.1.good))) h.full fun i p hi hp => ?_,
    shows_squeeze (over_zip_left _ ho.2.1 ho.1.good) h.full fun i p hi hp => ?_⟩
  · have hw := hv i p hi hp
    have hx := congrArg V3.x hw
    have hy := congrArg V3.y hw
    simp only [V3G.at] at hx hy
    show √((O.position C (-O.a) (.leaf t) (parallax.map Gr.num) light_delay).x.val (i ++ [p]) ^ 2 +
      (O.position C (-O.a) (.leaf t) (parallax.map Gr.num) light_delay).y.val (i ++ [p]) ^ 2) = _
    rw [hx, hy]
    rfl
  · have hw := hv i p hi hp
    have hx := congrArg V3.x hw
    have hy := congrArg V3.y hw
    simp only [V3G.at] at hx hy
    show arctan2 ((O.position C (-O.a) (.leaf t) (parallax.map Gr.num) light_delay).y.val (i ++ [p]))
      ((O.position C (-O.a) (.leaf t) (parallax.map Gr.num) light_delay).x.val (i ++ [p])) = _
    rw [hx, hy]
    rfl

theorem radialVelocity (h : Ready O t np full os) (C : Consts) (K : Option (Tensor ℝ))
    (hK : ∀ k, K = some k → k.FitsPlanets np) (u : Option AUnit) :
    match O.radialVelocity C (.leaf t) (K.map Gr.leaf) u with
    | .error e => ∀ i p, p < np → (os p).radialVelocity C (t.get i) (K.map (·.ofPlanet p)) u = .error e
    | .ok g => ∃ v : List ℕ → ℕ → ℝ, (∀ i p, p < np → (os p).radialVelocity C (t.get i) (K.map (·.ofPlanet p)) u = .ok (v i p)) ∧
        g.Shows t.shape np full v := by
  have gt := time_good t np
  have g := h.good
  cases K with
  | none =>
    simp only [VOrbit.radialVelocity, Orbit.radialVelocity, Option.map_none]
    cases C.rSunPerDay.to (u.getD C.mPerS) with
    | error e => simp
    | ok conv =>
      simp only
      refine ⟨fun i p => -conv * ((os p).starVelocity (t.get i)).z, fun i p _ => rfl, ?_⟩
      exact shows_scale (-conv) h.velocities.2.1.2.2
  | some k =>
    have gk : (Gr.leaf k).Good (t.shape ++ [np]) := Gr.good_leaf (ble_append _ (Tensor.FitsPlanets.ble (hK k rfl)))
    obtain ⟨f1, f2⟩ := VOrbit.trueAnomaly_over (pad := true) g gt h.shift
    have ecc_at : ∀ p < np, (os p).ecc = O.ecc.map (VEcc.at [p]) := by
      intro p hp
      rw [← h.at_eq [] p hp]; rfl
    simp only [VOrbit.radialVelocity, Option.map_some]
    have hkv : ∀ (i : List ℕ) (p : ℕ), p < np → (Gr.leaf k).val (i ++ [p]) = k.ofPlanet p :=
      fun i p hp => ofPlanet_eq (hK k rfl) i hp
    cases he : O.ecc with
    | none =>
      simp only
      refine ⟨fun i p => k.ofPlanet p * ((os p).trueAnomaly (t.get i)).2, fun i p hp => ?_, ?_⟩
      · simp [Orbit.radialVelocity, ecc_at p hp, he]
      · refine shows_squeeze (over_zip_right _ gk f2) h.full fun i p hi hp => ?_
        rw [Gr.val_zip, hkv i p hp, VOrbit.trueAnomaly_at2 _ _ _ _ (Or.inl rfl), VOrbit.timeAt, if_pos rfl, time_val hi, h.at_eq i p hp]
    | some E =>
      obtain ⟨e1, e2, e3, e4⟩ := g.ecc E he
      have e_at : ∀ (i : List ℕ) (p : ℕ), p < np → E.at (i ++ [p]) = E.at [p] := by
        intro i p hp
        have h1 := h.at_eq i p hp
        have h2 := h.at_eq [] p hp
        rw [← h2] at h1
        have := congrArg Orbit.ecc h1
        simp only [VOrbit.at, he, Option.map_some, Option.some.injEq] at this
        exact this
      simp only
      refine ⟨fun i p => k.ofPlanet p * ((E.at [p]).cos_omega * ((os p).trueAnomaly (t.get i)).2 -
          (E.at [p]).sin_omega * ((os p).trueAnomaly (t.get i)).1 + (E.at [p]).ecc * (E.at [p]).cos_omega), fun i p hp => ?_, ?_⟩
      · simp [Orbit.radialVelocity, ecc_at p hp, he]
      · refine shows_squeeze (over_zip_right _ gk (over_zip_left _ (over_zip_left _ (over_zip_right _ e3 f2) (Gr.good_mul e4 f1.good))
          (Gr.good_mul e1 e3))) h.full fun i p hi hp => ?_
        simp only [Gr.val_zip, Gr.val_mul]
        rw [hkv i p hp, VOrbit.trueAnomaly_at2 _ _ _ _ (Or.inl rfl), VOrbit.trueAnomaly_at1 _ _ _ _ (Or.inl rfl), VOrbit.timeAt, if_pos rfl, time_val hi,
          h.at_eq i p hp, ← e_at i p hp]
        rfl

end Ready
end Exo
