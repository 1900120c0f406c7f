import Verif.Lemmas.TtvSystem2
import Verif.Lemmas.Ttv2

/-!
# Graphs with the same value, graphs without a value, and the last phase of the `TTVOrbit` constructor with any number of lists
-/

namespace Exo
open Real

/-- Two graphs with the same outcome. -/
def Gr.Eqv (g h : Gr) : Prop := g.eval = h.eval

namespace Gr.Eqv
variable {x y x' y' : Gr}

theorem rfl' : x.Eqv x := rfl
theorem map (f : ℝ → ℝ) (h : x.Eqv x') : (Gr.map f x).Eqv (Gr.map f x') := by
  unfold Gr.Eqv at h ⊢
  simp only [Gr.eval, h]
theorem zip (f : ℝ → ℝ → ℝ) (h : x.Eqv x') (k : y.Eqv y') : (Gr.zip f x y).Eqv (Gr.zip f x' y') := by
  unfold Gr.Eqv at h k ⊢
  simp only [Gr.eval, h, k]
theorem same (f : ℝ → ℝ → ℝ) (h : x.Eqv x') (k : y.Eqv y') : (Gr.same f x y).Eqv (Gr.same f x' y') := by
  unfold Gr.Eqv at h k ⊢
  simp only [Gr.eval, h, k]
theorem squeeze (h : x.Eqv x') : x.squeeze.Eqv x'.squeeze := by
  unfold Gr.Eqv at h ⊢
  simp only [Gr.eval, h]
theorem shows (h : x.Eqv x') {s : List ℕ} {np : ℕ} {full : Prop} {f : List ℕ → ℕ → ℝ} (k : x'.Shows s np full f) : x.Shows s np full f := by
  obtain ⟨T, m, e, k1, k2⟩ := k
  exact ⟨T, m, Eq.trans h e, k1, k2⟩
end Gr.Eqv

/-- The same for triples. -/
def V3G.Eqv (v w : V3G) : Prop := v.x.Eqv w.x ∧ v.y.Eqv w.y ∧ v.z.Eqv w.z

theorem V3G.Eqv.shows {v w : V3G} (h : v.Eqv w) {s : List ℕ} {np : ℕ} {full : Prop} {f : List ℕ → ℕ → V3} (k : w.squeeze.Shows s np full f) :
    v.squeeze.Shows s np full f :=
  ⟨h.1.squeeze.shows k.1, h.2.1.squeeze.shows k.2.1, h.2.2.squeeze.shows k.2.2⟩

section
variable (o : VOrbit) (u t : Gr) (hs : (o.shift t).Eqv u)
include hs

/-- For one array of times, a `TTVOrbit` computes what a `KeplerianOrbit` with the looked-up reference times computes. -/
theorem trueAnomaly_eqv : (o.trueAnomaly t).1.Eqv (VOrbit.trueAnomaly { o with dts := none, t0 := u } t).1 ∧
    (o.trueAnomaly t).2.Eqv (VOrbit.trueAnomaly { o with dts := none, t0 := u } t).2 := by
  have hM : ((o.warpTimes t true - o.tref) * o.n).Eqv ((VOrbit.warpTimes { o with dts := none, t0 := u } t true - o.tref) * o.n) :=
    .zip _ (.zip _ (.zip _ .rfl' hs) .rfl') .rfl'
  unfold VOrbit.trueAnomaly
  rcases he : o.ecc with _ | p
  · exact ⟨.map _ hM, .map _ hM⟩
  · exact ⟨.same _ hM (.zip _ .rfl' (.map _ hM)), .same _ hM (.zip _ .rfl' (.map _ hM))⟩

theorem position_eqv (C : Consts) (a : Gr) (px : Option ℝ) : (o.position C a t (px.map Gr.num) false).Eqv
    (VOrbit.position { o with dts := none, t0 := u } C a t (px.map Gr.num) false) := by
  obtain ⟨h1, h2⟩ := trueAnomaly_eqv o u t hs
  have rot : ∀ {x y x' y' : Gr}, x.Eqv x' → y.Eqv y' → (o.rotate x y).Eqv (VOrbit.rotate { o with dts := none, t0 := u } x' y') := by
    intro x y x' y' hx hy
    unfold VOrbit.rotate
    rcases o.ecc with _ | p <;> rcases o.Omega with _ | W
    · exact ⟨hx, .zip _ .rfl' hy, .zip _ .rfl' hy⟩
    · exact ⟨.zip _ (.zip _ .rfl' hx) (.zip _ .rfl' (.zip _ .rfl' hy)), .zip _ (.zip _ .rfl' hx) (.zip _ .rfl' (.zip _ .rfl' hy)), .zip _ .rfl' hy⟩
    · have e1 : (p.cos_omega * x - p.sin_omega * y).Eqv (p.cos_omega * x' - p.sin_omega * y') := .zip _ (.zip _ .rfl' hx) (.zip _ .rfl' hy)
      have e2 : (p.sin_omega * x + p.cos_omega * y).Eqv (p.sin_omega * x' + p.cos_omega * y') := .zip _ (.zip _ .rfl' hx) (.zip _ .rfl' hy)
      exact ⟨e1, .zip _ .rfl' e2, .zip _ .rfl' e2⟩
    · have e1 : (p.cos_omega * x - p.sin_omega * y).Eqv (p.cos_omega * x' - p.sin_omega * y') := .zip _ (.zip _ .rfl' hx) (.zip _ .rfl' hy)
      have e2 : (p.sin_omega * x + p.cos_omega * y).Eqv (p.sin_omega * x' + p.cos_omega * y') := .zip _ (.zip _ .rfl' hx) (.zip _ .rfl' hy)
      exact ⟨.zip _ (.zip _ .rfl' e1) (.zip _ .rfl' (.zip _ .rfl' e2)), .zip _ (.zip _ .rfl' e1) (.zip _ .rfl' (.zip _ .rfl' e2)), .zip _ .rfl' e2⟩
  have hr : ∀ {c c' : Gr}, c.Eqv c' → (o.radius a c).Eqv (VOrbit.radius { o with dts := none, t0 := u } a c') := by
    intro c c' hc
    unfold VOrbit.radius
    rcases o.ecc with _ | p
    · exact .rfl'
    · exact .zip _ .rfl' (.zip _ .rfl' (.zip _ .rfl' hc))
  have hr := hr h2
  unfold VOrbit.position VOrbit.positionNow
  simp only [Bool.false_eq_true, if_false]
  rcases px with _ | p
  · exact rot (.zip _ hr h2) (.zip _ hr h1)
  · exact rot (.zip _ (.zip _ (.zip _ hr .rfl') .rfl') h2) (.zip _ (.zip _ (.zip _ hr .rfl') .rfl') h1)

end

/-! ## Graphs that cannot be evaluated -/

/-- The only exception a graph raises is a shape error. -/
theorem bcastShape_error {u v : List ℕ} {e : PyErr} (h : bcastShape u v = .error e) : e = .shapeMismatch := by
  have key : ∀ (u v : List ℕ) (e : PyErr), bcastRev u v = .error e → e = .shapeMismatch := by
    intro u
    induction u with
    | nil => intro v e h; cases v <;> cases h
    | cons a u ih =>
      intro v e h
      cases v with
      | nil => cases h
      | cons b v =>
        unfold bcastRev at h
        rcases hd : bcastDim a b with e' | d
        · rw [hd] at h
          simp only [Except.error.injEq] at h
          subst h
          unfold bcastDim at hd
          repeat' split at hd
          all_goals cases hd
          rfl
        · rw [hd] at h
          simp only at h
          split at h
          · rename_i hr; cases h; exact ih v _ hr
          · cases h
  unfold bcastShape at h
  rcases hr : bcastRev u.reverse v.reverse with e' | w
  · rw [hr] at h
    have := key _ _ _ hr
    simp_all
  · rw [hr] at h
    simp_all

theorem zipB_error {α β γ : Type} {f : α → β → γ} {x : Tensor α} {y : Tensor β} {e : PyErr} (h : x.zipB f y = .error e) :
    e = .shapeMismatch := by
  unfold Tensor.zipB at h
  split at h
  · rename_i e' h'
    cases h
    exact bcastShape_error h'
  · cases h

theorem Gr.eval_error (g : Gr) {e : PyErr} (h : g.eval = .error e) : e = .shapeMismatch := by
  induction g generalizing e with
  | leaf x => cases h
  | map f x ih =>
    simp only [Gr.eval] at h
    split at h
    · rename_i h'; cases h; exact ih h'
    · cases h
  | zip f x y ihx ihy =>
    simp only [Gr.eval] at h
    split at h
    · rename_i h'; cases h; exact ihx h'
    · split at h
      · rename_i h'; cases h; exact ihy h'
      · exact zipB_error h
  | zip3 f x y z ihx ihy ihz =>
    simp only [Gr.eval] at h
    split at h
    · rename_i h'; cases h; exact ihx h'
    · split at h
      · rename_i h'; cases h; exact ihy h'
      · split at h
        · rename_i h'; cases h; exact ihz h'
        · split at h
          · rename_i h'; cases h; exact zipB_error h'
          · exact zipB_error h
  | same f x y ihx ihy =>
    simp only [Gr.eval] at h
    split at h
    · rename_i h'; cases h; exact ihx h'
    · split at h
      · rename_i h'; cases h; exact ihy h'
      · split at h <;> cases h
        rfl
  | padright x ih =>
    simp only [Gr.eval] at h
    split at h
    · rename_i h'; cases h; exact ih h'
    · cases h
  | squeeze x ih =>
    simp only [Gr.eval] at h
    split at h
    · rename_i h'; cases h; exact ih h'
    · cases h
  | stack fs x ih =>
    simp only [Gr.eval] at h
    split at h
    · rename_i h'; cases h; exact ih h'
    · cases h

/-- The graph has no value. -/
def Gr.Fails (g : Gr) : Prop := ∀ T, g.eval ≠ .ok T

namespace Gr.Fails
variable {x y : Gr}

theorem error (h : x.Fails) : x.eval = .error .shapeMismatch := by
  rcases e : x.eval with k | T
  · rw [Gr.eval_error x e]
  · exact absurd e (h T)
theorem map (f : ℝ → ℝ) (h : x.Fails) : (Gr.map f x).Fails := by
  intro T
  simp [Gr.eval, h.error]
theorem left (f : ℝ → ℝ → ℝ) (h : x.Fails) : (Gr.zip f x y).Fails := by
  intro T
  simp [Gr.eval, h.error]
theorem right (f : ℝ → ℝ → ℝ) (h : y.Fails) : (Gr.zip f x y).Fails := by
  intro T
  simp only [Gr.eval, h.error]
  split <;> simp
theorem same (f : ℝ → ℝ → ℝ) (h : x.Fails) : (Gr.same f x y).Fails := by
  intro T
  simp [Gr.eval, h.error]
theorem squeeze (h : x.Fails) : x.squeeze.Fails := by
  intro T
  simp [Gr.eval, h.error]
end Gr.Fails

/-- Every coordinate is without a value. -/
def V3G.Fails (v : V3G) : Prop := v.x.Fails ∧ v.y.Fails ∧ v.z.Fails

theorem position_fails (o : VOrbit) (t : Gr) (h : (o.warpTimes t true - o.tref).Fails ∨ ((o.warpTimes t true - o.tref) * o.n).Fails)
    (C : Consts) (a : Gr) (px : Option ℝ) : (o.position C a t (px.map Gr.num) false).Fails := by
  have hM : ((o.warpTimes t true - o.tref) * o.n).Fails := h.elim (fun h => .left _ h) id
  obtain ⟨h1, h2⟩ : (o.trueAnomaly t).1.Fails ∧ (o.trueAnomaly t).2.Fails := by
    unfold VOrbit.trueAnomaly
    rcases he : o.ecc with _ | p
    · exact ⟨.map _ hM, .map _ hM⟩
    · exact ⟨.same _ hM, .same _ hM⟩
  have rot : ∀ {x y : Gr}, x.Fails → y.Fails → (o.rotate x y).Fails := by
    intro x y hx hy
    unfold VOrbit.rotate
    rcases o.ecc with _ | p <;> rcases o.Omega with _ | W
    · exact ⟨hx, .right _ hy, .right _ hy⟩
    · exact ⟨.left _ (.right _ hx), .left _ (.right _ hx), .right _ hy⟩
    · exact ⟨.left _ (.right _ hx), .right _ (.left _ (.right _ hx)), .right _ (.left _ (.right _ hx))⟩
    · exact ⟨.left _ (.right _ (.left _ (.right _ hx))), .left _ (.right _ (.left _ (.right _ hx))), .right _ (.left _ (.right _ hx))⟩
  unfold VOrbit.position VOrbit.positionNow
  simp only [Bool.false_eq_true, if_false]
  rcases px with _ | p
  · exact rot (.right _ h2) (.right _ h1)
  · exact rot (.right _ h2) (.right _ h1)

/-! ## The last axis -/

/-- If the graph has a value, its last axis has length `k`. -/
def Gr.EndsIn (g : Gr) (k : ℕ) : Prop := ∀ T, g.eval = .ok T → T.shape.reverse.head? = some k

theorem bcastRev_head {u v w : List ℕ} (h : bcastRev u v = .ok w) {k : ℕ} (hk : k ≠ 1) (hu : u.head? = some k ∨ v.head? = some k) :
    w.head? = some k := by
  cases u with
  | nil =>
    cases v <;> cases h <;> simpa using hu
  | cons a u =>
    cases v with
    | nil => cases h; simpa using hu
    | cons b v =>
      unfold bcastRev at h
      rcases hd : bcastDim a b with e' | d
      · rw [hd] at h; simp at h
      · rw [hd] at h
        simp only at h
        split at h
        · cases h
        · cases h
          simp only [List.head?_cons, Option.some.injEq] at hu ⊢
          unfold bcastDim at hd
          repeat' split at hd
          all_goals cases hd
          all_goals omega

theorem zip_shape {f : ℝ → ℝ → ℝ} {x y : Gr} {T : Tensor ℝ} (h : (Gr.zip f x y).eval = .ok T) :
    ∃ X Y, x.eval = .ok X ∧ y.eval = .ok Y ∧ bcastRev X.shape.reverse Y.shape.reverse = .ok T.shape.reverse := by
  simp only [Gr.eval] at h
  split at h
  · cases h
  · rename_i X hX
    split at h
    · cases h
    · rename_i Y hY
      refine ⟨X, Y, hX, hY, ?_⟩
      unfold Tensor.zipB bcastShape at h
      rcases hr : bcastRev X.shape.reverse Y.shape.reverse with e | w
      · rw [hr] at h; simp [Except.map] at h
      · rw [hr] at h
        simp only [Except.map, Except.ok.injEq] at h
        subst h
        simp

namespace Gr.EndsIn
variable {x y : Gr} {k m : ℕ} (f : ℝ → ℝ → ℝ)

theorem left (hk : k ≠ 1) (h : x.EndsIn k) : (Gr.zip f x y).EndsIn k := by
  intro T hT
  obtain ⟨X, Y, hX, hY, e⟩ := zip_shape hT
  exact bcastRev_head e hk (Or.inl (h X hX))
theorem right (hk : k ≠ 1) (h : y.EndsIn k) : (Gr.zip f x y).EndsIn k := by
  intro T hT
  obtain ⟨X, Y, hX, hY, e⟩ := zip_shape hT
  exact bcastRev_head e hk (Or.inr (h Y hY))
/-- Axes of different lengths, neither of which is one, do not broadcast. -/
theorem clash (hk : k ≠ 1) (hm : m ≠ 1) (hkm : k ≠ m) (h : x.EndsIn k) (h' : y.EndsIn m) : (Gr.zip f x y).Fails := by
  intro T hT
  have a := left (y := y) f hk h T hT
  have b := right (x := x) f hm h' T hT
  rw [a] at b
  exact hkm (Option.some.inj b)
end Gr.EndsIn

/-- A `TTVOrbit` with `k` lists for `np` planets cannot evaluate positions unless `k = 1` or `k = np`. -/
theorem lists_fail (o : VOrbit) {fs : List (ℝ → ℝ)} {np : ℕ} (hn : o.n.EndsIn np) (h1 : fs.length ≠ 1) (h2 : np ≠ 1)
    (h3 : fs.length ≠ np) (t : Tensor ℝ) (C : Consts) (a : Gr) (px : Option ℝ) :
    (VOrbit.position { o with dts := some fs } C a (.leaf t) (px.map Gr.num) false).Fails := by
  refine position_fails _ _ (Or.inr ?_) C a px
  refine Gr.EndsIn.clash _ h1 h2 h3 (.left _ h1 (.right _ h1 ?_)) hn
  intro T hT
  have e : (Gr.stack fs (.leaf t)).eval = .ok T := hT
  simp only [Gr.eval, Except.ok.injEq] at e
  subst e
  simp

/-! ## One list for all planets -/

theorem position_clock (o : Orbit) (C : Consts) (a t : ℝ) (px : Option ℝ) (w w' : ℝ → ℝ) (x : ℝ) (h : w t = w' t) :
    Orbit.position { o with warp := w, t0 := x } C a t px false = Orbit.position { o with warp := w' } C a t px false := by
  have e : Orbit.trueAnomaly { o with warp := w, t0 := x } t = Orbit.trueAnomaly { o with warp := w' } t := by
    unfold Orbit.trueAnomaly
    simp only [h]
  unfold Orbit.position Orbit.positionNow
  simp only [Bool.false_eq_true, if_false, e]
  rfl

theorem one_list {O : VOrbit} {np : ℕ} {S : List ℕ} (t : Tensor ℝ) (hS : S = t.shape ++ [np]) (hO : O.Good S) (hd : O.dts = none) (f : ℝ → ℝ)
    {q : Tensor ℝ} (hq : q.shape = [np]) (hqn : (Gr.leaf q).Le O.n) (C : Consts) {a : Gr} (ha : a.Good S)
    (px : Option ℝ) :
    (VOrbit.position { O with dts := some [f] } C a (.leaf t) (px.map Gr.num) false).squeeze.Shows t.shape np True
      (fun i p => Orbit.position { O.at (i ++ [p]) with warp := fun t => t - f t } C (a.val (i ++ [p])) (t.get i) px false) := by
  subst hS
  set F : Tensor ℝ := ⟨t.shape ++ [1], fun idx => [f].getD (idx.getLastD 0) id (t.get idx.dropLast)⟩ with hF
  have hs : (VOrbit.shift { O with dts := some [f] } (.leaf t)).Eqv (.leaf F) := by
    show (Gr.stack [f] (.leaf t)).eval = _
    simp [Gr.eval, hF]
  have hFg : (Gr.leaf F).Good (t.shape ++ [np]) := Gr.good_leaf (ble_pad t.shape np)
  refine V3G.Eqv.shows (position_eqv _ _ _ hs C a px) ?_
  have hg : VOrbit.Good { O with dts := none, t0 := .leaf F } (t.shape ++ [np]) := by
    cases hO
    constructor <;> assumption
  refine shows_vec (VOrbit.position_over hg C ha (time_good t np) hFg px false (by simp)) (fun _ => ⟨q, hq, hqn⟩) ?_
  intro i p hi hp
  have hFb : F.bget (i ++ [p]) = f (t.get i) := by
    have e : clipIdx (t.shape ++ [1]) (i ++ [p]) = i ++ [0] := by
      unfold clipIdx
      simp only [List.length_append, List.length_singleton, hi.length, Nat.sub_self, List.drop_zero]
      rw [List.zipWith_append (h := hi.length.symm), clip_eq hi]
      rfl
    rw [Tensor.bget_eq, e]
    simp [hF]
  rw [VOrbit.position_at _ _ _ _ _ _ _ (by simp), time_val hi]
  refine position_clock (O.at (i ++ [p])) C _ _ px _ _ (F.bget (i ++ [p])) ?_
  show t.get i - F.bget (i ++ [p]) = _
  rw [hFb]

/-! ## The constructor with any number of lists -/

section
variable {C : Consts} {K : VTtvArgs} {np : ℕ} {l : List (List ℝ)} {O : VOrbit}

theorem ttvInitV_ttvs (hv : K.ttvs = some l) (hi : K.transit_inds = none) (hO : keplerianInitV C K.base = .ok O) {t0 period : Tensor ℝ}
    (he : evalTimes O = .ok (t0, period)) :
    ttvInitV C K = match eachPlanet l.length (timesOf t0 period (l.map fun l => List.range l.length) l) with
      | .error e => .error e
      | .ok times => (ttvFinishV O t0 period period (l.map fun l => List.range l.length) times l).map some := by
  unfold ttvInitV
  rw [hv]
  simp only
  rw [hO]
  simp only
  rw [he, hi]
  rfl

theorem timesOf_lists {t0 period : Tensor ℝ} (h1 : t0.shape = [np]) (h2 : period.shape = [np]) {i : ℕ} (hi : i < np) (hl : i < l.length) :
    timesOf t0 period (l.map fun l => List.range l.length) l i =
      .ok (List.zipWith (fun (k : ℕ) ttv => t0.get [i] + period.get [i] * (k : ℝ) + ttv) (List.range (l.getD i []).length) (l.getD i [])) := by
  rw [timesOf, entry_of_shape h1 hi, entry_of_shape h2 hi, listItem_ok [] (by simpa using hl)]
  simp [hl]

/-- More lists than planets. -/
theorem too_many_lists (hA : K.base.FitsPlanets np) (hP : K.base.PerPlanet np) (ht : ∀ q, K.base.t0 = some q → q.val.shape = [np])
    (hO : keplerianInitV C K.base = .ok O) (hv : K.ttvs = some l) (hi : K.transit_inds = none) (hl : np < l.length) :
    ttvInitV C K = .error .indexError := by
  obtain ⟨t0, period, he, s1, s2, _⟩ := evalTimes_ok hA hO hP ht
  rw [ttvInitV_ttvs hv hi hO he, eachPlanet_error (k := np) (e := .indexError) hl ?_ (fun i hi => ⟨_, timesOf_lists s1 s2 hi (hi.trans hl)⟩)]
  simp [timesOf, Tensor.entry, s1]

/-- At most as many lists as planets. -/
theorem lists_build (hA : K.base.FitsPlanets np) (hP : K.base.PerPlanet np) (ht : ∀ q, K.base.t0 = some q → q.val.shape = [np])
    (hO : keplerianInitV C K.base = .ok O) (hv : K.ttvs = some l) (hi : K.transit_inds = none) (hl : l.length ≤ np)
    (hne : ∀ x ∈ l, x ≠ []) :
    ∃ V fs, ttvInitV C K = .ok (some V) ∧ V.orbit = { O with dts := some fs } ∧ fs.length = l.length ∧
      ∀ p < l.length, ∃ T, ttvInit C (K.ofPlanet p) = .ok (some T) ∧
        V.transit_times[p]? = some T.transit_times ∧ V.ttvs[p]? = some T.ttvs ∧ V.transit_inds[p]? = some T.transit_inds ∧
        V.all_transit_times[p]? = some T.all_transit_times ∧ V.bin_edges[p]? = some T.bin_edges ∧ V.bin_values[p]? = some T.bin_values ∧
        T.orbit = { O.at [p] with warp := fun t => t - fs.getD p id t } := by
  obtain ⟨t0, period, he, s1, s2, hval⟩ := evalTimes_ok hA hO hP ht
  obtain ⟨times, hts⟩ := eachPlanet_exists (n := l.length) (f := timesOf t0 period (l.map fun l => List.range l.length) l)
    (fun i hi => ⟨_, timesOf_lists s1 s2 (hi.trans_le hl) hi⟩)
  obtain ⟨ht1, ht2⟩ := eachPlanet_ok hts
  have hgetD : ∀ p < l.length, times.getD p [] = List.zipWith (fun (k : ℕ) ttv => t0.get [p] + period.get [p] * (k : ℝ) + ttv)
      (List.range (l.getD p []).length) (l.getD p []) := by
    intro p hp
    obtain ⟨x, hx1, hx2⟩ := ht2 p hp
    rw [timesOf_lists s1 s2 (hp.trans_le hl) hp] at hx2
    rw [List.getD_eq_getElem?_getD, hx1]
    exact (Except.ok.inj hx2).symm
  have hind : ∀ p < l.length, (l.map fun l => List.range l.length).getD p [] = List.range (l.getD p []).length := by
    intro p hp
    simp [hp]
  have htts : ∀ p < l.length, ∃ tts, allTransitTimes (t0.get [p]) (period.get [p]) ((l.map fun l => List.range l.length).getD p [])
      (times.getD p []) = .ok tts := by
    intro p hp
    refine allTransitTimes_error ?_
    rw [hind p hp]
    have : l.getD p [] ≠ [] := hne _ (by simp [hp])
    intro h
    rw [List.range_eq_nil] at h
    exact this (List.length_eq_zero_iff.1 h)
  obtain ⟨f1, f2⟩ := ttvFinishV_ok (o := O) (P := period) (inds := l.map fun l => List.range l.length) (times := times) (ttvs := l) hl s1 s2 s2
    (by simp) ht1 rfl
  obtain ⟨V, hV⟩ := f1.2 htts
  obtain ⟨_, v2, v3, v4, fs, v5, v6, v7⟩ := f2 V hV
  refine ⟨V, fs, ?_, v5, v6, fun p hp => ?_⟩
  · rw [ttvInitV_ttvs hv hi hO he, hts]
    simp only [hV]
    rfl
  · obtain ⟨tts, htt⟩ := htts p hp
    obtain ⟨k1, k2, k3, k4⟩ := v7 p hp tts htt
    have hp' := hp.trans_le hl
    have e0 : t0.get [p] = (O.at [p]).t0 := (hval p hp').1
    have e1 : period.get [p] = (O.at [p]).period := (hval p hp').2
    rw [hind p hp, hgetD p hp, e0, e1] at htt
    rw [e1] at k2 k4
    refine ⟨ttvBuild (O.at [p]) (O.at [p]).period (List.range (l.getD p []).length) (List.zipWith (fun (k : ℕ) ttv =>
        (O.at [p]).t0 + (O.at [p]).period * (k : ℝ) + ttv) (List.range (l.getD p []).length) (l.getD p [])) (l.getD p []) tts, ?_, ?_, ?_, ?_,
        k1, k2, k3, ?_⟩
    · unfold ttvInit
      rw [show (K.ofPlanet p).ttvs = some (l.getD p []) by simp [VTtvArgs.ofPlanet, hv],
        show (K.ofPlanet p).transit_inds = none by simp [VTtvArgs.ofPlanet, hi]]
      simp only [Option.getD_none]
      rw [show (K.ofPlanet p).base = K.base.ofPlanet p from rfl, planet_orbits hA hO p hp']
      simp only [List.length_range, ne_eq, not_true_eq_false, if_false]
      exact ttvFinish_ok.2 ⟨tts, htt, rfl⟩
    · rw [v2]
      obtain ⟨x, hx1, hx2⟩ := ht2 p hp
      rw [timesOf_lists s1 s2 hp' hp, e0, e1] at hx2
      rw [hx1, ← Except.ok.inj hx2]
      rfl
    · rw [v3]; simp [ttvBuild, hp]
    · rw [v4]; simp [ttvBuild, hp]
    · unfold ttvBuild
      simp only [k4]

end

end Exo
