import Verif.Lemmas.System

/-!
# Systems of several planets: the methods
-/

namespace Exo
open Real

/-! ## Values -/

def V3G.at (v : V3G) (idx : List ℕ) : V3 := ⟨v.x.val idx, v.y.val idx, v.z.val idx⟩

namespace VOrbit
variable (o : VOrbit) (idx : List ℕ)

/-- The time read at an index. -/
def timeAt (t : Gr) (pad : Bool) : ℝ := if pad then t.val idx.dropLast else t.val idx

theorem rotate_at (x y : Gr) : (o.rotate x y).at idx = (o.at idx).rotate (x.val idx) (y.val idx) := by
  unfold VOrbit.rotate Orbit.rotate
  cases he : o.ecc <;> cases hO : o.Omega <;> simp [VOrbit.at, V3G.at, he, hO, VEcc.at]

theorem warpTimes_at (t : Gr) (pad : Bool) (hp : pad = true ∨ o.dts = none) :
    (o.warpTimes t pad).val idx = (o.at idx).warp (timeAt idx t pad) := by
  unfold VOrbit.warpTimes VOrbit.shift timeAt VOrbit.at
  cases hd : o.dts with
  | none => cases pad <;> simp
  | some fs =>
    rcases hp with rfl | hp
    · simp [Gr.val]
    · rw [hd] at hp; cases hp

theorem trueAnomaly_at (t : Gr) (pad : Bool) (hp : pad = true ∨ o.dts = none) :
    ((o.trueAnomaly t pad).1.val idx, (o.trueAnomaly t pad).2.val idx) = (o.at idx).trueAnomaly (timeAt idx t pad) := by
  unfold VOrbit.trueAnomaly Orbit.trueAnomaly
  rw [← warpTimes_at o idx t pad hp]
  cases he : o.ecc <;> simp [VOrbit.at, he, VEcc.at]

theorem trueAnomaly_at1 (t : Gr) (pad : Bool) (hp : pad = true ∨ o.dts = none) :
    (o.trueAnomaly t pad).1.val idx = ((o.at idx).trueAnomaly (timeAt idx t pad)).1 := by
  rw [← trueAnomaly_at o idx t pad hp]
theorem trueAnomaly_at2 (t : Gr) (pad : Bool) (hp : pad = true ∨ o.dts = none) :
    (o.trueAnomaly t pad).2.val idx = ((o.at idx).trueAnomaly (timeAt idx t pad)).2 := by
  rw [← trueAnomaly_at o idx t pad hp]

theorem radius_at (a c : Gr) : (o.radius a c).val idx = (o.at idx).radius (a.val idx) (c.val idx) := by
  unfold VOrbit.radius Orbit.radius
  cases he : o.ecc <;> simp [VOrbit.at, he, VEcc.at]

theorem positionNow_at (C : Consts) (a t : Gr) (parallax : Option ℝ) (pad : Bool) (hp : pad = true ∨ o.dts = none) :
    (o.positionNow C a t (parallax.map Gr.num) pad).at idx = (o.at idx).positionNow C (a.val idx) (timeAt idx t pad) parallax := by
  unfold VOrbit.positionNow Orbit.positionNow
  cases parallax <;> simp [rotate_at, trueAnomaly_at1 o idx t pad hp, trueAnomaly_at2 o idx t pad hp, radius_at]

theorem retardedVz_at (a t : Gr) : (o.retardedVz a t).val idx = (o.at idx).retardedVz (a.val idx) (timeAt idx t true) := by
  unfold VOrbit.retardedVz Orbit.retardedVz
  have he : (o.at idx).ecc = o.ecc.map (VEcc.at idx) := rfl
  have hs : (o.at idx).sin_incl = o.sin_incl.val idx := rfl
  have hp : (o.at idx).period = o.period.val idx := rfl
  rw [he, hs, hp]
  cases o.ecc <;> simp [trueAnomaly_at1, trueAnomaly_at2, VEcc.at]

theorem retardedAz_at (C : Consts) (a t : Gr) :
    (o.retardedAz C a t).val idx = (o.at idx).retardedAz C (a.val idx) (timeAt idx t true) := by
  unfold VOrbit.retardedAz Orbit.retardedAz
  have h := congrArg V3.z (positionNow_at o idx C a t none true (Or.inl rfl))
  simp only [V3G.at, Option.map_none] at h
  have hp : (o.at idx).period = o.period.val idx := rfl
  simp [trueAnomaly_at2, radius_at, h, hp]

theorem delay_at (C : Consts) (a t : Gr) : (o.delay C a t).val idx = (o.at idx).delay C (a.val idx) (timeAt idx t true) := by
  unfold VOrbit.delay Orbit.delay
  have h := congrArg V3.z (positionNow_at o idx C a t none true (Or.inl rfl))
  simp only [V3G.at, Option.map_none] at h
  simp [h, retardedVz_at, retardedAz_at]

theorem position_at (C : Consts) (a t : Gr) (parallax : Option ℝ) (light_delay : Bool) (hld : light_delay = true → o.dts = none) :
    (o.position C a t (parallax.map Gr.num) light_delay).at idx =
      (o.at idx).position C (a.val idx) (t.val idx.dropLast) parallax light_delay := by
  unfold VOrbit.position Orbit.position VOrbit.retardedPosition Orbit.retardedPosition
  cases light_delay
  · exact positionNow_at o idx C a t parallax true (Or.inl rfl)
  · have h := positionNow_at o idx C a (t.padright - o.delay C a t) none false (Or.inr (hld rfl))
    simp only [Option.map_none] at h
    simp only [if_true]
    rw [h]
    simp [timeAt, delay_at]

theorem velocity_at (m t : Gr) : (o.velocity m t).at idx = (o.at idx).velocity (m.val idx) (t.val idx.dropLast) := by
  unfold VOrbit.velocity Orbit.velocity
  have he : (o.at idx).ecc = o.ecc.map (VEcc.at idx) := rfl
  have hk : (o.at idx).K0 = o.K0.val idx := rfl
  rw [he, hk]
  cases o.ecc <;> simp [rotate_at, trueAnomaly_at1, trueAnomaly_at2, timeAt, VEcc.at]

theorem acceleration_at (a m t : Gr) :
    (o.acceleration a m t).at idx = (o.at idx).acceleration (a.val idx) (m.val idx) (t.val idx.dropLast) := by
  unfold VOrbit.acceleration Orbit.acceleration
  have he : (o.at idx).ecc = o.ecc.map (VEcc.at idx) := rfl
  have hk : (o.at idx).K0 = o.K0.val idx := rfl
  rw [he, hk]
  cases o.ecc <;> simp [rotate_at, trueAnomaly_at1, trueAnomaly_at2, timeAt, VEcc.at]

end VOrbit

/-! ## Shapes -/

/-- A broadcast computation whose shape is at least that of every graph in `L`. -/
def Over (S : List ℕ) (L : List Gr) (g : Gr) : Prop := g.Good S ∧ ∀ h ∈ L, h.Le g

section
variable {S : List ℕ} {L : List Gr} {x y : Gr}

theorem Over.good (h : Over S L x) : x.Good S := h.1
theorem over_map (f : ℝ → ℝ) (h : Over S L x) : Over S L (.map f x) :=
  ⟨Gr.good_map f h.1, fun k hk => (h.2 k hk).trans (Gr.le_map f h.1)⟩
theorem over_zip_left (f : ℝ → ℝ → ℝ) (h : Over S L x) (h' : y.Good S) : Over S L (.zip f x y) :=
  ⟨Gr.good_zip f h.1 h', fun k hk => (h.2 k hk).trans (Gr.le_zip_left f h.1 h')⟩
theorem over_zip_right (f : ℝ → ℝ → ℝ) (h : y.Good S) (h' : Over S L x) : Over S L (.zip f y x) :=
  ⟨Gr.good_zip f h h'.1, fun k hk => (h'.2 k hk).trans (Gr.le_zip_right f h h'.1)⟩

end

/-- All three components. -/
def V3G.Over (v : V3G) (S : List ℕ) (L : List Gr) : Prop := Exo.Over S L v.x ∧ Exo.Over S L v.y ∧ Exo.Over S L v.z

namespace VOrbit
variable {o : VOrbit} {S : List ℕ} {L : List Gr}

theorem rotate_over (ho : o.Good S) {x y : Gr} (hx : Exo.Over S L x) (hy : Exo.Over S L y) : (o.rotate x y).Over S L := by
  unfold VOrbit.rotate
  have key : ∀ {x1 y1 : Gr}, Exo.Over S L x1 → Exo.Over S L y1 → V3G.Over (match o.Omega with
      | none => ⟨x1, o.cos_incl * y1, -o.sin_incl * y1⟩
      | some W => ⟨W.cos * x1 - W.sin * (o.cos_incl * y1), W.sin * x1 + W.cos * (o.cos_incl * y1), -o.sin_incl * y1⟩) S L := by
    intro x1 y1 hx hy
    have hy2 : Exo.Over S L (o.cos_incl * y1) := over_zip_right _ ho.cos_incl hy
    have hz : Exo.Over S L (-o.sin_incl * y1) := over_zip_right _ (Gr.good_neg ho.sin_incl) hy
    cases hO : o.Omega with
    | none => exact ⟨hx, hy2, hz⟩
    | some W =>
      have hW := ho.Omega W hO
      exact ⟨over_zip_left _ (over_zip_right _ (Gr.good_cos hW) hx) (Gr.good_mul (Gr.good_sin hW) hy2.good),
        over_zip_left _ (over_zip_right _ (Gr.good_sin hW) hx) (Gr.good_mul (Gr.good_cos hW) hy2.good), hz⟩
  cases he : o.ecc with
  | none => exact key hx hy
  | some p =>
    obtain ⟨g1, g2, g3, g4⟩ := ho.ecc p he
    exact key (over_zip_left _ (over_zip_right _ g3 hx) (Gr.good_mul g4 hy.good))
      (over_zip_left _ (over_zip_right _ g4 hx) (Gr.good_mul g3 hy.good))

/-- The mean anomaly is a broadcast computation over the times and `n`, hence so is the true anomaly. -/
theorem trueAnomaly_over (ho : o.Good S) {t : Gr} {pad : Bool} (ht : (if pad then t.padright else t).Good S)
    (hd : (o.shift t).Good S) :
    Exo.Over S [if pad then t.padright else t, o.n] (o.trueAnomaly t pad).1 ∧
    Exo.Over S [if pad then t.padright else t, o.n] (o.trueAnomaly t pad).2 := by
  have hw : o.warpTimes t pad = (if pad then t.padright else t) - o.shift t := by unfold warpTimes; cases pad <;> rfl
  have g0 : Gr.Good S (o.warpTimes t pad) := by rw [hw]; exact Gr.good_sub ht hd
  have g1 : Gr.Good S (o.warpTimes t pad - o.tref) := Gr.good_sub g0 ho.tref
  have hM : Exo.Over S [if pad then t.padright else t, o.n] ((o.warpTimes t pad - o.tref) * o.n) := by
    refine ⟨Gr.good_mul g1 ho.n, ?_⟩
    intro k hk
    simp only [List.mem_cons, List.not_mem_nil, or_false] at hk
    rcases hk with rfl | rfl
    · refine Gr.Le.trans ?_ ((Gr.le_zip_left _ g0 ho.tref).trans (Gr.le_zip_left _ g1 ho.n))
      rw [hw]
      exact Gr.le_zip_left _ ht hd
    · exact Gr.le_zip_right _ g1 ho.n
  unfold VOrbit.trueAnomaly
  cases he : o.ecc with
  | none => exact ⟨over_map _ hM, over_map _ hM⟩
  | some p =>
    obtain ⟨e1, _⟩ := ho.ecc p he
    have hl : p.ecc.Le ((o.warpTimes t pad - o.tref) * o.n) :=
      (ho.ecc_le p he).trans ((Gr.le_zip_right _ g0 ho.tref).trans (Gr.le_zip_left _ g1 ho.n))
    have key : ∀ f : ℝ → ℝ → ℝ, Exo.Over S [if pad then t.padright else t, o.n]
        (.same f ((o.warpTimes t pad - o.tref) * o.n) (p.ecc + ((o.warpTimes t pad - o.tref) * o.n).zerosLike)) := by
      intro f
      obtain ⟨k1, k2⟩ := Gr.good_same f hM.good e1 hl
      exact ⟨k1, fun k hk => (hM.2 k hk).trans k2⟩
    exact ⟨key _, key _⟩

theorem radius_good (ho : o.Good S) {a c : Gr} (ha : a.Good S) (hc : c.Good S) : (o.radius a c).Good S := by
  unfold VOrbit.radius
  cases he : o.ecc with
  | none => exact ha
  | some p => obtain ⟨g1, g2, g3, g4⟩ := ho.ecc p he; simp only; good

theorem positionNow_over (ho : o.Good S) (C : Consts) {a t : Gr} {pad : Bool} (ha : a.Good S)
    (ht : (if pad then t.padright else t).Good S) (hd : (o.shift t).Good S) (parallax : Option ℝ) :
    (o.positionNow C a t (parallax.map Gr.num) pad).Over S [if pad then t.padright else t, o.n] := by
  obtain ⟨f1, f2⟩ := trueAnomaly_over ho ht hd
  have hr := radius_good ho ha f2.good
  unfold VOrbit.positionNow
  cases parallax with
  | none => exact rotate_over ho (over_zip_right _ hr f2) (over_zip_right _ hr f1)
  | some p =>
    have hr' : Gr.Good S (o.radius a (o.trueAnomaly t pad).2 * Gr.num p * (C.auPerRsun : Gr)) := by good
    exact rotate_over ho (over_zip_right _ hr' f2) (over_zip_right _ hr' f1)

theorem delay_good (ho : o.Good S) (C : Consts) {a t : Gr} (ha : a.Good S) (ht : t.padright.Good S)
    (hd : (o.shift t).Good S) : (o.delay C a t).Good S := by
  obtain ⟨f1, f2⟩ := trueAnomaly_over (pad := true) ho ht hd
  have hz := (positionNow_over (pad := true) ho C ha ht hd none).2.2.good
  have hr := radius_good ho ha f2.good
  have g1 := f1.good
  have g2 := f2.good
  have hp := ho.period
  have hs := ho.sin_incl
  have hv : (o.retardedVz a t).Good S := by
    unfold VOrbit.retardedVz
    cases he : o.ecc with
    | none => simp only; good
    | some p => obtain ⟨e1, e2, e3, e4⟩ := ho.ecc p he; simp only; good
  have hA : (o.retardedAz C a t).Good S := by
    unfold VOrbit.retardedAz
    simp only [Option.map_none] at hz
    simp only
    good
  unfold VOrbit.delay
  simp only [Option.map_none] at hz
  refine (Gr.zip3_spec _ hA ?_ ?_).1 <;> good

theorem position_over (ho : o.Good S) (C : Consts) {a t : Gr} (ha : a.Good S) (ht : t.padright.Good S)
    (hd : (o.shift t).Good S) (parallax : Option ℝ) (light_delay : Bool) (hld : light_delay = true → o.dts = none) :
    (o.position C a t (parallax.map Gr.num) light_delay).Over S [t.padright, o.n] := by
  unfold VOrbit.position
  cases light_delay with
  | false => exact positionNow_over (pad := true) ho C ha ht hd parallax
  | true =>
    have hdl := delay_good ho C ha ht hd
    have hg : Gr.Good S (t.padright - o.delay C a t) := Gr.good_sub ht hdl
    have hs : (o.shift (t.padright - o.delay C a t)).Good S := by rw [shift, hld rfl]; exact ho.t0
    have h := positionNow_over (pad := false) ho C ha hg hs none
    simp only [Bool.false_eq_true, if_false, Option.map_none] at h
    have key : ∀ {g : Gr}, Exo.Over S [t.padright - o.delay C a t, o.n] g → Exo.Over S [t.padright, o.n] g := by
      intro g hg'
      refine ⟨hg'.1, ?_⟩
      intro k hk
      simp only [List.mem_cons, List.not_mem_nil, or_false] at hk
      rcases hk with rfl | rfl
      · exact (Gr.le_zip_left (· - ·) ht hdl).trans (hg'.2 (t.padright - o.delay C a t) (by simp))
      · exact hg'.2 _ (by simp)
    exact ⟨key h.1, key h.2.1, key h.2.2⟩

theorem velocity_over (ho : o.Good S) {m t : Gr} (hm : m.Good S) (ht : t.padright.Good S)
    (hd : (o.shift t).Good S) :
    (o.velocity m t).Over S [t.padright, o.n] := by
  obtain ⟨f1, f2⟩ := trueAnomaly_over (pad := true) ho ht hd
  have hK : Gr.Good S (o.K0 * m) := Gr.good_mul ho.K0 hm
  unfold VOrbit.velocity
  cases he : o.ecc with
  | none => exact rotate_over ho (over_zip_right _ (Gr.good_neg hK) f1) (over_zip_right _ hK f2)
  | some p =>
    obtain ⟨e1, e2, e3, e4⟩ := ho.ecc p he
    exact rotate_over ho (over_zip_right _ (Gr.good_neg hK) f1) (over_zip_right _ hK (over_zip_left _ f2 e1))

theorem acceleration_over (ho : o.Good S) {a m t : Gr} (ha : a.Good S) (hm : m.Good S) (ht : t.padright.Good S)
    (hd : (o.shift t).Good S) :
    (o.acceleration a m t).Over S [t.padright, o.n] := by
  obtain ⟨f1, f2⟩ := trueAnomaly_over (pad := true) ho ht hd
  have hK : Gr.Good S (o.K0 * m) := Gr.good_mul ho.K0 hm
  have g2 := f2.good
  unfold VOrbit.acceleration
  cases he : o.ecc with
  | none =>
    have hf : Gr.Good S (-((o.K0 * m) ^ 2) / a) := by good
    exact rotate_over ho (over_zip_right _ hf f2) (over_zip_right _ hf f1)
  | some p =>
    obtain ⟨e1, e2, e3, e4⟩ := ho.ecc p he
    have hf : Gr.Good S ((o.K0 * m) ^ 2 * (p.ecc * (o.trueAnomaly t).2 + 1) ^ 2 / (a * (p.ecc ^ 2 - 1))) := by good
    exact rotate_over ho (over_zip_right _ hf f2) (over_zip_right _ hf f1)

end VOrbit

/-! ## Squeeze -/

theorem unsqueeze_dropUnit : ∀ {w idx : List ℕ}, w.length = idx.length →
    Tensor.unsqueeze w (dropUnit w idx) = List.zipWith (fun n i => if n = 1 then 0 else i) w idx := by
  intro w
  induction w with
  | nil => intro idx h; simp [Tensor.unsqueeze]
  | cons n w ih =>
    intro idx h
    cases idx with
    | nil => simp at h
    | cons i idx =>
      have h' : w.length = idx.length := by simpa using h
      by_cases hn : n = 1
      · simp [Tensor.unsqueeze, dropUnit, hn, ih h']
      · simp [Tensor.unsqueeze, dropUnit, hn, ih h']

theorem dropUnit_inShape {w idx : List ℕ} (h : List.Forall₂ (fun i n => n = 1 ∨ i < n) idx w) :
    InShape (dropUnit w idx) (squeezeShape w) := by
  induction h with
  | nil => exact .nil
  | @cons i n idx w hi _ ih =>
    by_cases hn : n = 1
    · simpa [dropUnit, squeezeShape, hn] using ih
    · rcases hi with hi | hi
      · exact absurd hi hn
      · have := List.Forall₂.cons hi ih
        simpa [dropUnit, squeezeShape, hn, InShape] using this

theorem forall₂_of_inShape {i s : List ℕ} {p np m : ℕ} (hi : InShape i s) (hp : p < np) (hm : m = np ∨ m = 1) :
    List.Forall₂ (fun i n => n = 1 ∨ i < n) (i ++ [p]) (s ++ [m]) := by
  refine List.rel_append (hi.imp (fun _ _ h => Or.inr h)) (.cons ?_ .nil)
  rcases hm with rfl | rfl
  · exact Or.inr hp
  · exact Or.inl rfl

/-- The public methods: a broadcast computation over the padded times, squeezed. -/
theorem shows_squeeze {t : Tensor ℝ} {np : ℕ} {n g : Gr} {full : Prop} (h : Over (t.shape ++ [np]) [(Gr.leaf t).padright, n] g)
    (hfull : full → ∃ q : Tensor ℝ, q.shape = [np] ∧ (Gr.leaf q).Le n) {f : List ℕ → ℕ → ℝ}
    (hf : ∀ i p, InShape i t.shape → p < np → g.val (i ++ [p]) = f i p) : g.squeeze.Shows t.shape np full f := by
  obtain ⟨⟨T, hT, hb, hv⟩, hL⟩ := h
  have h1 : BLe (t.shape ++ [1]) T.shape := by
    obtain ⟨A, B, hA, hB, hAB⟩ := hL _ (List.mem_cons_self)
    rw [hT] at hB; cases hB
    simp only [Gr.eval] at hA
    cases hA
    simpa [Tensor.padright] using hAB
  have h2 : ∃ m, T.shape = t.shape ++ [m] ∧ (m = np ∨ m = 1 ∧ ¬ full) := by
    rcases ble_between h1 hb with e | e
    · by_cases hfl : full
      · obtain ⟨q, hq, hqn⟩ := hfull hfl
        obtain ⟨A, B, hA, hB, hAB⟩ := hqn.trans (hL n (by simp))
        rw [hT] at hB; cases hB
        cases hA
        rw [hq, e] at hAB
        unfold BLe at hAB
        simp only [List.reverse_append, List.reverse_singleton, List.singleton_append] at hAB
        cases hAB with
        | cons hm _ => exact ⟨1, e, Or.inl (by rcases hm with h | h <;> exact h.symm)⟩
      · exact ⟨1, e, Or.inr ⟨rfl, hfl⟩⟩
    · exact ⟨np, e, Or.inl rfl⟩
  obtain ⟨m, hm, hm'⟩ := h2
  refine ⟨T.squeeze, m, by simp [Gr.eval, hT], hm', ?_, ?_⟩
  · simp [Tensor.squeeze, hm]
  · intro i p hi hp
    rw [← hf i p hi hp, ← hv (i ++ [p]) (inShape_snoc hi hp)]
    simp only [Tensor.squeeze, Tensor.bget_eq, hm]
    have hl : (t.shape ++ [m]).length = (i ++ [p]).length := by simp [hi.length]
    rw [unsqueeze_dropUnit hl]
    unfold clipIdx
    rw [hl, Nat.sub_self, List.drop_zero]

/-- An elementwise function of a squeezed array. -/
theorem shows_scale {g : Gr} {s : List ℕ} {np : ℕ} {full : Prop} {f : List ℕ → ℕ → ℝ} (c : ℝ) (h : g.Shows s np full f) :
    ((c : Gr) * g).Shows s np full (fun i p => c * f i p) := by
  obtain ⟨T, m, hT, hm, hs, hv⟩ := h
  have e : ((c : Gr) * g).eval = .ok ⟨T.shape, fun idx => c * T.bget idx⟩ := by
    show (Gr.zip _ _ _).eval = _
    simp only [Gr.eval, Gr.num, hT]
    rw [Tensor.zipB_ok (s := T.shape) (by simpa [Tensor.scalar] using bcastShape_nil_left T.shape)]
    rfl
  refine ⟨_, m, e, hm, hs, ?_⟩
  intro i p hi hp
  simp only
  rw [Tensor.bget_self, hv i p hi hp]
  rw [hs]
  exact dropUnit_inShape (forall₂_of_inShape hi hp (hm.imp_right And.left))

/-! ## From the vocabulary of the specification -/

theorem Tensor.FitsPlanets.ble {np : ℕ} {x : Tensor ℝ} (h : x.FitsPlanets np) : BLe x.shape [np] := by
  rcases h with h | h | h <;> rw [h]
  · exact BLe.nil _
  · exact .cons (Or.inr rfl) (.nil _)
  · exact BLe.refl _

theorem ble_fitsPlanets {np : ℕ} {x : Tensor ℝ} (h : BLe x.shape [np]) : x.FitsPlanets np := by
  unfold BLe at h
  generalize hw : x.shape.reverse = r at h
  have : x.shape = r.reverse := by rw [← hw, List.reverse_reverse]
  simp only [List.reverse_singleton] at h
  cases h with
  | nil => exact Or.inl this
  | cons hm hr =>
    cases hr
    rcases hm with rfl | rfl
    · exact Or.inr (Or.inr this)
    · exact Or.inr (Or.inl this)

theorem ofPlanet_eq {np : ℕ} {x : Tensor ℝ} (h : x.FitsPlanets np) (i : List ℕ) {p : ℕ} (hp : p < np) : x.bget (i ++ [p]) = x.ofPlanet p := by
  unfold Tensor.ofPlanet
  rcases h with h | h | h
  · rw [Tensor.bget_scalar h]; simp [h]
  · simp [Tensor.bget, h]
  · rw [Tensor.bget_row h i hp]
    by_cases h1 : np = 1
    · subst h1
      have : p = 0 := by omega
      simp [h, this]
    · rw [h]
      split
      · rename_i h2; cases h2
      · rename_i h2; simp at h2; exact absurd h2 h1
      · rfl

theorem VArgs.FitsPlanets.good {np : ℕ} {A : VArgs} (h : A.FitsPlanets np) (s : List ℕ) : A.Good (s ++ [np]) := by
  have key : ∀ x : Option TQ, x ∈ [A.period, A.a, A.t0, A.t_periastron, A.incl, A.b, A.duration, A.ecc, A.omega, A.sin_omega,
      A.cos_omega, A.Omega, A.m_planet, A.m_star, A.r_star, A.rho_star, A.ror] → OTGood (s ++ [np]) x :=
    fun x hx q hq => Gr.good_leaf (ble_append s (Tensor.FitsPlanets.ble (h x hx q hq)))
  constructor <;> exact key _ (by simp)

theorem VArgs.FitsPlanets.at_eq {np : ℕ} {A : VArgs} (h : A.FitsPlanets np) (i : List ℕ) {p : ℕ} (hp : p < np) :
    A.at (i ++ [p]) = A.ofPlanet p := by
  have key : ∀ x : Option TQ, x ∈ [A.period, A.a, A.t0, A.t_periastron, A.incl, A.b, A.duration, A.ecc, A.omega, A.sin_omega,
      A.cos_omega, A.Omega, A.m_planet, A.m_star, A.r_star, A.rho_star, A.ror] → x.map (TQ.at (i ++ [p])) = x.map (TQ.ofPlanet · p) := by
    intro x hx
    cases hq : x with
    | none => rfl
    | some q =>
      simp only [Option.map_some, TQ.at, TQ.ofPlanet]
      rw [ofPlanet_eq (h x hx q hq) i hp]
  unfold VArgs.at VArgs.ofPlanet
  congr 1 <;> exact key _ (by simp)

theorem Gr.Good.holds {g : Gr} {np : ℕ} (h : g.Good [np]) : g.Holds np (fun p => g.val [p]) := by
  obtain ⟨T, hT, hb, hv⟩ := h
  have hf := ble_fitsPlanets hb
  refine ⟨T, hT, hf, fun p hp => ?_⟩
  rw [← ofPlanet_eq hf [] hp]
  exact hv [p] (inShape_singleton.2 hp)

end Exo
