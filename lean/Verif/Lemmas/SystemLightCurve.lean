import Verif.Spec.SystemLightCurve
import Verif.Lemmas.System3
import Verif.Lemmas.LightCurve

/-!
# Light curves of systems of several planets
-/

namespace Exo
open Real

theorem unravel_dropUnit {idx s : List ℕ} (h : InShape idx s) :
    Tensor.unravel (squeezeShape s) (Tensor.ravel s idx) = dropUnit s idx := by
  unfold InShape at h
  induction h with
  | nil => rfl
  | @cons a b l₁ l₂ hab hl ih =>
    have hlt := Tensor.ravel_lt (idx := l₁) (s := l₂) hl
    by_cases hb : b = 1
    · subst hb
      have ha : a = 0 := by omega
      subst ha
      simp only [Tensor.ravel, Nat.zero_mul, Nat.zero_add, dropUnit, if_true]
      rw [show squeezeShape (1 :: l₂) = squeezeShape l₂ by simp [squeezeShape], ih]
    · simp only [Tensor.ravel, dropUnit, if_neg hb]
      rw [show squeezeShape (b :: l₂) = b :: squeezeShape l₂ by simp [squeezeShape, hb]]
      simp only [Tensor.unravel, Tensor.squeezeShape_prod]
      rw [Nat.add_comm, Nat.add_mul_div_right _ _ (by omega), Nat.div_eq_of_lt hlt, Nat.add_mul_mod_self_right,
        Nat.mod_eq_of_lt hlt, ih, Nat.zero_add]

/-- Reshaping a squeezed table restores the axes. -/
theorem reshape_table {T : Tensor ℝ} {s : List ℕ} {np : ℕ} {f : List ℕ → ℕ → ℝ} (h : T.IsTable s np np f) :
    ∃ Y, T.reshape (s ++ [np]) = .ok Y ∧ Y.shape = s ++ [np] ∧ ∀ i p, InShape i s → p < np → Y.get (i ++ [p]) = f i p := by
  obtain ⟨h1, h2⟩ := h
  unfold Tensor.reshape
  rw [if_pos (by rw [h1, Tensor.squeezeShape_prod])]
  refine ⟨_, rfl, rfl, fun i p hi hp => ?_⟩
  simp only
  rw [h1, unravel_dropUnit (inShape_snoc hi hp), h2 i p hi hp]

theorem bcastShape_of_ble_right {u v : List ℕ} (h : BLe u v) : bcastShape v u = .ok v := by
  obtain ⟨x, hx, h1, -, h3⟩ := BLe.sup (BLe.refl v) h
  rw [hx, BLe.antisymm h3 h1]

/-- Division of an array over times and planets by an array over planets. -/
theorem zipB_planet {X Y : Tensor ℝ} {s : List ℕ} {np : ℕ} (hX : X.shape = s ++ [np]) (hY : Y.FitsPlanets np) (f : ℝ → ℝ → ℝ) :
    ∃ Z, X.zipB f Y = .ok Z ∧ Z.shape = s ++ [np] ∧
      ∀ i p, InShape i s → p < np → Z.get (i ++ [p]) = f (X.get (i ++ [p])) (Y.ofPlanet p) := by
  rw [Tensor.zipB_ok (s := s ++ [np]) (by rw [hX]; exact bcastShape_of_ble_right (ble_append s hY.ble))]
  refine ⟨_, rfl, rfl, fun i p hi hp => ?_⟩
  simp only
  rw [Tensor.bget_self (by rw [hX]; exact inShape_snoc hi hp), ofPlanet_eq hY i hp]

theorem lightCurveAtG_spec (l : LimbDark) {V : V3G} {Rg : Gr} {s : List ℕ} {np : ℕ} {fx fy fz : Prop} {f : List ℕ → ℕ → V3} {R : ℕ → ℝ}
    (hx : V.x.Shows s np fx (fun i p => (f i p).x)) (hy : V.y.Shows s np fy (fun i p => (f i p).y))
    (hz : V.z.Shows s np fz (fun i p => (f i p).z)) (h1 : fx ∨ np = 1) (h2 : fy ∨ np = 1) (h3 : fz ∨ np = 1) (hR : Rg.Holds np R)
    {G : Tensor ℝ} (hG : G.shape = s ++ [np]) :
    ∃ L, l.lightCurveAtG V Rg G = .ok L ∧ L.shape = s ++ [np] ∧
      ∀ i p, InShape i s → p < np → L.get (i ++ [p]) = fluxAt l.c (R p) (G.get (i ++ [p])) (f i p) := by
  obtain ⟨X, mx, hX, hmx, tX⟩ := hx
  obtain ⟨Y, my, hY, hmy, tY⟩ := hy
  obtain ⟨Z, mz, hZ, hmz, tZ⟩ := hz
  have em : ∀ {full : Prop} {m : ℕ}, (full ∨ np = 1) → (m = np ∨ m = 1 ∧ ¬ full) → m = np := by
    intro full m hfull hm
    rcases hm with h | ⟨h, hn⟩
    · exact h
    · rw [h, hfull.resolve_left hn]
  have e1 := em h1 hmx
  have e2 := em h2 hmy
  have e3 := em h3 hmz
  rw [e1] at tX
  rw [e2] at tY
  rw [e3] at tZ
  -- impact parameter
  obtain ⟨B, hB, tB⟩ : ∃ B, X.zipB (fun x y => √(x ^ 2 + y ^ 2)) Y = .ok B ∧ B.IsTable s np np
      (fun i p => √((f i p).x ^ 2 + (f i p).y ^ 2)) := by
    rw [Tensor.zipB_ok (s := X.shape) (by rw [tX.1, tY.1]; exact bcastShape_self _)]
    refine ⟨_, rfl, tX.1, fun i p hi hp => ?_⟩
    have hi' := dropUnit_inShape (forall₂_of_inShape hi hp (Or.inl rfl : np = np ∨ np = 1))
    simp only
    rw [Tensor.bget_self (by rw [tX.1]; exact hi'), Tensor.bget_self (by rw [tY.1]; exact hi'), tX.2 i p hi hp, tY.2 i p hi hp]
  obtain ⟨B', hB', sB, vB⟩ := reshape_table tB
  obtain ⟨Z', hZ', sZ, vZ⟩ := reshape_table tZ
  obtain ⟨R', hRe, hRf, hRv⟩ := hR
  obtain ⟨b, hb, sb, vb⟩ := zipB_planet sB hRf (· / ·)
  obtain ⟨k, hk, sk, vk⟩ := zipB_planet hG hRf (· / ·)
  obtain ⟨z, hz, sz, vz⟩ := zipB_planet sZ hRf (· / ·)
  unfold LimbDark.lightCurveAtG
  simp only [bind, Except.bind, hX, hY, hZ, hB, hG, hB', hZ', hRe, hb, hk, hz]
  rw [if_pos ⟨by rw [sb, sk], by rw [sz, sk]⟩]
  refine ⟨_, rfl, sk, fun i p hi hp => ?_⟩
  simp only
  rw [vb i p hi hp, vk i p hi hp, vz i p hi hp, vB i p hi hp, vZ i p hi hp, hRv p hp]
  rfl

theorem lightCurveAtV_computes (l : LimbDark) (C : Consts) {O : VOrbit} {np : ℕ} {os : ℕ → Orbit} {full : Prop}
    (hR : ∀ t : Tensor ℝ, Ready O t np full os) (hfull : full ∨ np = 1) (ld : Bool) (hld : ld = true → O.dts = none) :
    Computes (l.lightCurveAtV C O) ld np (fun p r t => fluxAt l.c (os p).r_star r ((os p).relativePosition C t none ld)) := by
  intro tg G hG
  obtain ⟨-, -, hX, hY, hZ⟩ := (hR tg).positions C none ld hld
  simp only [Option.map_none] at hX hY hZ
  obtain ⟨R, hRe, hRf, hRv⟩ := (hR (Tensor.scalar 0)).good.r_star.holds
  have hRv' : O.r_star.Holds np fun p => (os p).r_star := by
    refine ⟨R, hRe, hRf, fun p hp => ?_⟩
    rw [hRv p hp]
    show O.r_star.val [p] = (os p).r_star
    rw [← (hR (Tensor.scalar 0)).at_eq [] p hp]
    rfl
  exact lightCurveAtG_spec l hX hY hZ hfull hfull hfull hRv' hG

/-! ## `in_transit` -/

/-- One entry per planet; for a single planet the axis may be missing. -/
def PerPl {α : Type} (np : ℕ) (x : Tensor α) : Prop := x.shape = [np] ∨ np = 1 ∧ x.shape = []

theorem PerPl.size {α : Type} {np : ℕ} {x : Tensor α} (h : PerPl np x) : x.size = np := by
  rcases h with h | ⟨h1, h⟩ <;> simp [Tensor.size, h, *]

theorem PerPl.ble {α : Type} {np : ℕ} {x : Tensor α} (h : PerPl np x) : BLe x.shape [np] := by
  rcases h with h | ⟨-, h⟩ <;> rw [h]
  · exact BLe.refl _
  · exact BLe.nil _

/-- The shapes below `(np,)`. -/
theorem ble_single {s : List ℕ} {np : ℕ} (h : BLe s [np]) : s = [] ∨ s = [1] ∨ s = [np] :=
  ble_fitsPlanets (x := ⟨s, fun _ => 0⟩) h

theorem perPl_of_size {np : ℕ} {x : Tensor ℝ} (h : BLe x.shape [np]) (hs : x.size = np) : PerPl np x := by
  rcases ble_single h with e | e | e
  · exact Or.inr ⟨by rw [← hs]; simp [Tensor.size, e], e⟩
  · have : np = 1 := by rw [← hs]; simp [Tensor.size, e]
    exact Or.inl (by rw [e, this])
  · exact Or.inl e

theorem perPl_of_between {α β : Type} {np : ℕ} {x : Tensor α} {y : Tensor β} (hx : PerPl np x) (h1 : BLe x.shape y.shape)
    (h2 : BLe y.shape [np]) : PerPl np y := by
  rcases hx with h | ⟨hn, h⟩
  · rw [h] at h1
    exact Or.inl (BLe.antisymm h2 h1)
  · subst hn
    rcases ble_single h2 with e | e | e
    · exact Or.inr ⟨rfl, e⟩
    · exact Or.inl e
    · exact Or.inl e

theorem PerPl.bget {α : Type} {np : ℕ} {x : Tensor α} (h : PerPl np x) {p : ℕ} (hp : p < np) :
    x.bget [p] = x.get (Tensor.unravel x.shape p) := by
  rcases h with h | ⟨hn, h⟩
  · rw [Tensor.bget_self (by rw [h]; exact inShape_singleton.2 hp), h]
    simp [Tensor.unravel]
  · rw [Tensor.bget_scalar h, h]; rfl

theorem PerPl.flatAt {α β : Type} {np : ℕ} {x : Tensor α} {a : Tensor β} (hx : PerPl np x) (ha : PerPl np a) {p : ℕ} (hp : p < np) :
    x.flatAt a.shape (clipIdx a.shape [p]) = x.bget [p] := by
  rw [hx.bget hp]
  unfold Tensor.flatAt
  congr 2
  rcases ha with h | ⟨hn, h⟩
  · rw [h]
    by_cases h1 : np = 1
    · have : p = 0 := by omega
      subst h1; subst this
      simp [clipIdx, Tensor.ravel]
    · simp [clipIdx, Tensor.ravel, h1]
  · have : p = 0 := by omega
    subst this
    rw [h]; simp [clipIdx, Tensor.ravel]

theorem PerPl.toList {α : Type} {np : ℕ} {x : Tensor α} (h : PerPl np x) : x.toList = (List.range np).map (fun p => x.bget [p]) := by
  unfold Tensor.toList
  rw [h.size]
  exact List.map_congr_left fun p hp => (h.bget (List.mem_range.1 hp)).symm

/-- A graph over an array with one entry per planet. -/
theorem over_eval {np : ℕ} {x : Tensor ℝ} {g : Gr} (hx : PerPl np x) (h : Over [np] [.leaf x] g) :
    ∃ T, g.eval = .ok T ∧ PerPl np T ∧ ∀ p < np, T.bget [p] = g.val [p] := by
  obtain ⟨⟨T, hT, hb, hv⟩, hL⟩ := h
  obtain ⟨A, B, hA, hB, hAB⟩ := hL _ List.mem_cons_self
  rw [hT] at hB; cases hB
  cases hA
  exact ⟨T, hT, perPl_of_between hx hAB hb, fun p hp => hv [p] (inShape_singleton.2 hp)⟩

/-- Combining two such arrays. -/
theorem zipB_perPl {α β γ : Type} {np : ℕ} {x : Tensor α} {y : Tensor β} (f : α → β → γ) (hx : PerPl np x) (hy : PerPl np y) :
    ∃ Z, x.zipB f y = .ok Z ∧ PerPl np Z ∧ ∀ p < np, Z.bget [p] = f (x.bget [p]) (y.bget [p]) := by
  obtain ⟨w, hw, b1, b2, b3⟩ := BLe.sup hx.ble hy.ble
  refine ⟨_, Tensor.zipB_ok hw, perPl_of_between hx b1 b3, fun p hp => ?_⟩
  rw [Tensor.bget_eq]
  have hl : w.length ≤ [p].length := b3.length
  simp only
  rw [Tensor.bget_clip b1 hl, Tensor.bget_clip b2 hl]

theorem Gr.Good.full {np : ℕ} {g : Gr} (h : g.Good [np]) (hf : g.Full np) :
    ∃ T, g.eval = .ok T ∧ PerPl np T ∧ ∀ p < np, T.bget [p] = g.val [p] := by
  obtain ⟨T, hT, hb, hv⟩ := h
  obtain ⟨T', hT', hs⟩ := hf
  rw [hT] at hT'; cases hT'
  exact ⟨T, hT, perPl_of_size hb hs, fun p hp => hv [p] (inShape_singleton.2 hp)⟩

theorem Gr.Good.full_of_le {np : ℕ} {g h : Gr} (hh : h.Good [np]) (hf : g.Full np) (hg : g.Good [np]) (hl : g.Le h) :
    ∃ T, h.eval = .ok T ∧ PerPl np T ∧ ∀ p < np, T.bget [p] = h.val [p] := by
  obtain ⟨T, hT, hb, hv⟩ := hh
  obtain ⟨A, hA, hAp, -⟩ := hg.full hf
  obtain ⟨A', B, hA', hB, hAB⟩ := hl
  rw [hA] at hA'; cases hA'
  rw [hT] at hB; cases hB
  exact ⟨T, hT, perPl_of_between hAp hAB hb, fun p hp => hv [p] (inShape_singleton.2 hp)⟩

end Exo
