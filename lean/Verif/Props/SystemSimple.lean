import Verif.Spec.SystemSimple
import Verif.Props.LightCurve2
import Verif.Props.SystemLightCurve

/-!
# C86: a `SimpleTransitOrbit` with array arguments is the collection of its planets
-/

namespace Exo
open Real

/-! ## Helpers -/

/-- Broadcasting below a common shape. -/
theorem zipB_below {α β γ : Type} {x : Tensor α} {y : Tensor β} {S : List ℕ} (f : α → β → γ) (hx : BLe x.shape S) (hy : BLe y.shape S) :
    ∃ Z, x.zipB f y = .ok Z ∧ BLe Z.shape S ∧ BLe x.shape Z.shape ∧ BLe y.shape Z.shape ∧
      ∀ idx, InShape idx S → Z.bget idx = f (x.bget idx) (y.bget idx) := by
  obtain ⟨w, hw, b1, b2, b3⟩ := BLe.sup hx hy
  refine ⟨_, Tensor.zipB_ok hw, b3, b1, b2, fun idx hi => ?_⟩
  have hl : w.length ≤ idx.length := by rw [hi.length]; exact b3.length
  rw [Tensor.bget_eq]
  simp only
  rw [Tensor.bget_clip b1 hl, Tensor.bget_clip b2 hl]

/-- `shows_squeeze` without a separate witness of the planet axis. -/
theorem shows_self {t : Tensor ℝ} {np : ℕ} {g : Gr} {full : Prop} (h : g.Good (t.shape ++ [np])) (ht : (Gr.leaf t).padright.Le g)
    (hfull : full → ∃ q : Tensor ℝ, q.shape = [np] ∧ (Gr.leaf q).Le g) {f : List ℕ → ℕ → ℝ}
    (hf : ∀ i p, InShape i t.shape → p < np → g.val (i ++ [p]) = f i p) : g.squeeze.Shows t.shape np full f := by
  refine shows_squeeze (n := g) ⟨h, fun k hk => ?_⟩ hfull hf
  simp only [List.mem_cons, List.not_mem_nil, or_false] at hk
  rcases hk with rfl | rfl
  · exact ht
  · exact h.le_refl

/-- The orbit that the constructor builds. -/
theorem simpleInitV_eq {A : VSimpleArgs} {O : VSimple} (h : simpleInitV A = .ok O) :
    ¬ (A.r_star.isList ∨ A.ror.isList ∨ A.b.isList) ∧
    O = { period := .leaf A.period.val, t0 := .leaf A.t0.val, b := .leaf A.b.val, duration := .leaf A.duration.val,
          r_star := .leaf A.r_star.val, b_norm := .leaf A.b.val * .leaf A.r_star.val,
          speed := 2 * ((Gr.leaf A.r_star.val) ^ 2 * ((1 + Gr.leaf A.ror.val) ^ 2 - (Gr.leaf A.b.val) ^ 2)).sqrt / .leaf A.duration.val,
          nan := ((Gr.leaf A.r_star.val) ^ 2 * ((1 + Gr.leaf A.ror.val) ^ 2 - (Gr.leaf A.b.val) ^ 2)).map (fun x => if x < 0 then 1 else 0),
          half_period := ((0.5 : ℝ) : Gr) * .leaf A.period.val, ref_time := .leaf A.t0.val - ((0.5 : ℝ) : Gr) * .leaf A.period.val } := by
  unfold simpleInitV at h
  split at h
  · cases h
  · rename_i hn
    cases h
    exact ⟨hn, rfl⟩

section
variable {A : VSimpleArgs} {O : VSimple} {np : ℕ}

theorem leaf_good {x : Tensor ℝ} (h : x.FitsPlanets np) (s : List ℕ) : (Gr.leaf x).Good (s ++ [np]) :=
  Gr.good_leaf (ble_append s (Tensor.FitsPlanets.ble h))

/-- A leaf in a broadcast computation. -/
theorem leaf_over {x : Tensor ℝ} (h : x.FitsPlanets np) (s : List ℕ) : Over (s ++ [np]) [Gr.leaf x] (Gr.leaf x) :=
  ⟨leaf_good h s, fun k hk => by rw [List.mem_singleton] at hk; rw [hk]; exact (leaf_good h s).le_refl⟩

/-- `dt`, as a broadcast computation over `t`, `period` and `t0`. -/
theorem simple_dt (hO : simpleInitV A = .ok O) (hP : A.period.val.FitsPlanets np) (hT : A.t0.val.FitsPlanets np) (t : Tensor ℝ) :
    Over (t.shape ++ [np]) [(Gr.leaf t).padright, .leaf A.period.val, .leaf A.t0.val] (O.dt (.leaf t)) ∧
    ∀ i p, InShape i t.shape → p < np → (O.dt (.leaf t)).val (i ++ [p]) =
      pymod (t.get i - (A.t0.val.ofPlanet p - 0.5 * A.period.val.ofPlanet p)) (A.period.val.ofPlanet p) - 0.5 * A.period.val.ofPlanet p := by
  obtain ⟨-, rfl⟩ := simpleInitV_eq hO
  have gt := time_good t np
  have gP := leaf_good hP t.shape
  have gT := leaf_good hT t.shape
  have gH : (((0.5 : ℝ) : Gr) * Gr.leaf A.period.val).Good (t.shape ++ [np]) := Gr.good_mul (Gr.good_num _ _) gP
  have gR := Gr.good_sub gT gH
  have g1 := Gr.good_sub gt gR
  have g2 := Gr.good_zip pymod g1 gP
  have g3 := Gr.good_sub g2 gH
  refine ⟨⟨g3, fun k hk => ?_⟩, fun i p hi hp => ?_⟩
  · have l3 := Gr.le_zip_left (· - ·) g2 gH
    simp only [List.mem_cons, List.not_mem_nil, or_false] at hk
    rcases hk with rfl | rfl | rfl
    · exact ((Gr.le_zip_left (· - ·) gt gR).trans (Gr.le_zip_left pymod g1 gP)).trans l3
    · exact (Gr.le_zip_right pymod g1 gP).trans l3
    · exact (((Gr.le_zip_left (· - ·) gT gH).trans (Gr.le_zip_right (· - ·) gt gR)).trans (Gr.le_zip_left pymod g1 gP)).trans l3
  · unfold VSimple.dt
    simp only [Gr.val_sub, Gr.val_zip, Gr.val_mul, Gr.val_num, Gr.val_padright]
    rw [time_val hi, Gr.val_leaf, Gr.val_leaf, ofPlanet_eq hP i hp, ofPlanet_eq hT i hp]

theorem ofPlanet_dt (A : VSimpleArgs) (p : ℕ) (t : ℝ) : (A.ofPlanet p).dt t =
    pymod (t - (A.t0.val.ofPlanet p - 0.5 * A.period.val.ofPlanet p)) (A.period.val.ofPlanet p) - 0.5 * A.period.val.ofPlanet p := rfl

theorem posAt_eq (o : SimpleOrbit) (t : ℝ) : o.posAt t = ⟨(o.speed.getD 0) * o.dt t, o.b_norm + 0,
    (if |o.dt t| < 0.5 * o.duration then 1 else 0) * 1.0 - (1 - (if |o.dt t| < 0.5 * o.duration then 1 else 0)) * 1.0⟩ := by
  unfold SimpleOrbit.posAt SimpleOrbit.relativePosition
  simp only [Bool.false_eq_true, if_false]
  have h1 : (o.speed.map (· * o.dt t)).getD 0 = o.speed.getD 0 * o.dt t := by cases o.speed <;> simp
  rw [h1]
  by_cases h : |o.dt t| < 0.5 * o.duration <;> simp [h]

/-- The third coordinate. -/
theorem simple_z (hO : simpleInitV A = .ok O) (hP : A.period.val.FitsPlanets np) (hT : A.t0.val.FitsPlanets np)
    (hD : A.duration.val.FitsPlanets np) (t : Tensor ℝ) {V : V3G} (hV : O.relativePosition (.leaf t) = .ok V) :
    V.z.Shows t.shape np (A.ZPerPlanet np) (fun i p => ((A.ofPlanet p).posAt (t.get i)).z) := by
  obtain ⟨⟨gdt, ldt⟩, vdt⟩ := simple_dt hO hP hT t
  obtain ⟨-, rfl⟩ := simpleInitV_eq hO
  cases hV
  have gD := leaf_good hD t.shape
  have gh : (((0.5 : ℝ) : Gr) * Gr.leaf A.duration.val).Good (t.shape ++ [np]) := Gr.good_mul (Gr.good_num _ _) gD
  have gm := Gr.good_zip (fun d h => if |d| < h then 1 else 0) gdt gh
  have gm1 := Gr.good_mul gm (Gr.good_num _ (1.0 : ℝ))
  have gn1 := Gr.good_mul (Gr.good_map (fun x => 1 - x) gm) (Gr.good_num _ (1.0 : ℝ))
  have gz := Gr.good_sub gm1 gn1
  have lz := (Gr.le_zip_left (· * ·) gm (Gr.good_num _ (1.0 : ℝ))).trans (Gr.le_zip_left (· - ·) gm1 gn1)
  have ld := (Gr.le_zip_left (fun d h => if |d| < h then 1 else 0) gdt gh).trans lz
  refine shows_self gz ((ldt _ (by simp)).trans ld) ?_ ?_
  · rintro (h | h | h)
    · exact ⟨_, h, (ldt _ (by simp)).trans ld⟩
    · exact ⟨_, h, (ldt _ (by simp)).trans ld⟩
    · exact ⟨_, h, ((Gr.le_zip_right (· * ·) (Gr.good_num _ (0.5 : ℝ)) gD).trans
        (Gr.le_zip_right (fun d h => if |d| < h then 1 else 0) gdt gh)).trans lz⟩
  · intro i p hi hp
    rw [posAt_eq]
    simp only [Gr.val_sub, Gr.val_mul, Gr.val_num, Gr.val_zip, Gr.val, vdt i p hi hp, ofPlanet_eq hD i hp, ofPlanet_dt]
    rfl

/-- The second coordinate. -/
theorem simple_y (hO : simpleInitV A = .ok O) (hP : A.period.val.FitsPlanets np) (hT : A.t0.val.FitsPlanets np)
    (hB : A.b.val.FitsPlanets np) (hR : A.r_star.val.FitsPlanets np) (t : Tensor ℝ) {V : V3G}
    (hV : O.relativePosition (.leaf t) = .ok V) :
    V.y.Shows t.shape np (A.YPerPlanet np) (fun i p => ((A.ofPlanet p).posAt (t.get i)).y) := by
  obtain ⟨⟨gdt, ldt⟩, vdt⟩ := simple_dt hO hP hT t
  obtain ⟨-, rfl⟩ := simpleInitV_eq hO
  cases hV
  have gB := leaf_good hB t.shape
  have gR := leaf_good hR t.shape
  have gn := Gr.good_mul gB gR
  have g0 := Gr.good_zerosLike gdt
  have gy := Gr.good_add gn g0
  have ly := Gr.le_zip_left (· + ·) gn g0
  have ld := (Gr.le_map (fun _ => (0 : ℝ)) gdt).trans (Gr.le_zip_right (· + ·) gn g0)
  refine shows_self gy ((ldt _ (by simp)).trans ld) ?_ ?_
  · rintro (h | h | h | h)
    · exact ⟨_, h, (ldt _ (by simp)).trans ld⟩
    · exact ⟨_, h, (ldt _ (by simp)).trans ld⟩
    · exact ⟨_, h, (Gr.le_zip_left (· * ·) gB gR).trans ly⟩
    · exact ⟨_, h, (Gr.le_zip_right (· * ·) gB gR).trans ly⟩
  · intro i p hi hp
    rw [posAt_eq]
    simp only [Gr.val_add, Gr.val_mul, Gr.val_zerosLike, Gr.val_leaf, ofPlanet_eq hB i hp, ofPlanet_eq hR i hp]
    rfl

/-- The speed. -/
theorem simple_speed_good (hO : simpleInitV A = .ok O) (hA : A.FitsPlanets np) (s : List ℕ) :
    Over (s ++ [np]) [.leaf A.r_star.val, .leaf A.ror.val, .leaf A.b.val, .leaf A.duration.val] O.speed ∧ O.nan.Good (s ++ [np]) ∧
    ∀ i, ∀ p < np, O.speed.val (i ++ [p]) = (A.ofPlanet p).speed.getD 0 ∧
      O.nan.val (i ++ [p]) = if (A.ofPlanet p).speed = none then 1 else 0 := by
  obtain ⟨-, rfl⟩ := simpleInitV_eq hO
  have gR := leaf_good hA.r_star s
  have gK := leaf_good hA.ror s
  have gB := leaf_good hA.b s
  have gD := leaf_good hA.duration s
  have g1 : (1 + Gr.leaf A.ror.val).Good (s ++ [np]) := Gr.good_add (Gr.good_ofNat 1) gK
  have g2 := Gr.good_sub (Gr.good_pow 2 g1) (Gr.good_pow 2 gB)
  have g3 := Gr.good_mul (Gr.good_pow 2 gR) g2
  have g4 := Gr.good_mul (Gr.good_ofNat 2) (Gr.good_sqrt g3)
  have g5 := Gr.good_div g4 gD
  have l5 := ((Gr.le_map (fun v : ℝ => √v) g3).trans (Gr.le_zip_right (· * ·) (Gr.good_ofNat 2) (Gr.good_sqrt g3))).trans
    (Gr.le_zip_left (· / ·) g4 gD)
  have l2 := (Gr.le_zip_right (· * ·) (Gr.good_pow 2 gR) g2).trans l5
  refine ⟨⟨g5, fun k hk => ?_⟩, Gr.good_map _ g3, fun i p hp => ?_⟩
  · simp only [List.mem_cons, List.not_mem_nil, or_false] at hk
    rcases hk with rfl | rfl | rfl | rfl
    · exact ((Gr.le_map (· ^ 2) gR).trans (Gr.le_zip_left (· * ·) (Gr.good_pow 2 gR) g2)).trans l5
    · exact (((Gr.le_zip_right (· + ·) (Gr.good_ofNat 1) gK).trans (Gr.le_map (· ^ 2) g1)).trans
        (Gr.le_zip_left (· - ·) (Gr.good_pow 2 g1) (Gr.good_pow 2 gB))).trans l2
    · exact ((Gr.le_map (· ^ 2) gB).trans (Gr.le_zip_right (· - ·) (Gr.good_pow 2 g1) (Gr.good_pow 2 gB))).trans l2
    · exact Gr.le_zip_right (· / ·) g4 gD
  · have es : (A.ofPlanet p).speed = if A.r_star.val.ofPlanet p ^ 2 * ((1 + A.ror.val.ofPlanet p) ^ 2 - A.b.val.ofPlanet p ^ 2) < 0 then none
        else some (2 * √(A.r_star.val.ofPlanet p ^ 2 * ((1 + A.ror.val.ofPlanet p) ^ 2 - A.b.val.ofPlanet p ^ 2)) / A.duration.val.ofPlanet p) :=
      rfl
    simp only [Gr.val_div, Gr.val_mul, Gr.val_sub, Gr.val_pow, Gr.val_add, Gr.val_one, Gr.val_two, Gr.val_sqrt, Gr.val,
      ofPlanet_eq hA.duration i hp, ofPlanet_eq hA.r_star i hp, ofPlanet_eq hA.ror i hp, ofPlanet_eq hA.b i hp]
    rw [es]
    generalize A.r_star.val.ofPlanet p ^ 2 * ((1 + A.ror.val.ofPlanet p) ^ 2 - A.b.val.ofPlanet p ^ 2) = X
    by_cases h : X < 0
    · simp [h, sqrt_eq_zero_of_nonpos h.le]
    · simp [h]

/-- The first coordinate. -/
theorem simple_x (hO : simpleInitV A = .ok O) (hA : A.FitsPlanets np) (t : Tensor ℝ) {V : V3G}
    (hV : O.relativePosition (.leaf t) = .ok V) :
    V.x.Shows t.shape np (A.XPerPlanet np) (fun i p => ((A.ofPlanet p).posAt (t.get i)).x) := by
  obtain ⟨⟨gdt, ldt⟩, vdt⟩ := simple_dt hO hA.period hA.t0 t
  obtain ⟨⟨gs, ls⟩, -, vs⟩ := simple_speed_good hO hA t.shape
  cases hV
  have gx := Gr.good_mul gs gdt
  have l1 := Gr.le_zip_left (· * ·) gs gdt
  have l2 := Gr.le_zip_right (· * ·) gs gdt
  refine shows_self gx ((ldt _ (by simp)).trans l2) ?_ ?_
  · rintro (h | h | h | h | h | h)
    · exact ⟨_, h, (ldt _ (by simp)).trans l2⟩
    · exact ⟨_, h, (ldt _ (by simp)).trans l2⟩
    · exact ⟨_, h, (ls _ (by simp)).trans l1⟩
    · exact ⟨_, h, (ls _ (by simp)).trans l1⟩
    · exact ⟨_, h, (ls _ (by simp)).trans l1⟩
    · exact ⟨_, h, (ls _ (by simp)).trans l1⟩
  · intro i p hi hp
    rw [posAt_eq]
    simp only [Gr.val_mul, vdt i p hi hp, (vs i p hp).1, ofPlanet_dt]

/-- **C86, the attributes**: the attributes of the orbit hold, planet by planet, those of the orbits of the single planets; the speed is
NaN for the same planets. -/
theorem C86_attributes (hA : A.FitsPlanets np) (hO : simpleInitV A = .ok O) : O.IsSystemOf np A.ofPlanet := by
  obtain ⟨⟨gs, -⟩, gn, vs⟩ := simple_speed_good hO hA []
  have e := (simpleInitV_eq hO).2
  have gP := leaf_good hA.period []
  have gT := leaf_good hA.t0 []
  have gB := leaf_good hA.b []
  have gD := leaf_good hA.duration []
  have gR := leaf_good hA.r_star []
  have gH : (((0.5 : ℝ) : Gr) * Gr.leaf A.period.val).Good ([] ++ [np]) := Gr.good_mul (Gr.good_num _ _) gP
  have key : ∀ {g : Gr} {f : ℕ → ℝ}, g.Good ([] ++ [np]) → (∀ p < np, g.val [p] = f p) → g.Holds np f := by
    intro g f hg hf
    obtain ⟨T, h1, h2, h3⟩ := Gr.Good.holds (np := np) hg
    exact ⟨T, h1, h2, fun p hp => (h3 p hp).trans (hf p hp)⟩
  have o1 : ∀ p < np, A.period.val.bget [p] = A.period.val.ofPlanet p := fun p hp => ofPlanet_eq hA.period [] hp
  have o2 : ∀ p < np, A.t0.val.bget [p] = A.t0.val.ofPlanet p := fun p hp => ofPlanet_eq hA.t0 [] hp
  have o3 : ∀ p < np, A.b.val.bget [p] = A.b.val.ofPlanet p := fun p hp => ofPlanet_eq hA.b [] hp
  have o4 : ∀ p < np, A.r_star.val.bget [p] = A.r_star.val.ofPlanet p := fun p hp => ofPlanet_eq hA.r_star [] hp
  refine ⟨?_, ?_, ?_, ?_, ?_, ?_, ?_, ?_, key gn fun p hp => (vs [] p hp).2, ?_⟩
  · rw [e]; exact key gP o1
  · rw [e]; exact key gT o2
  · rw [e]; exact key gB o3
  · rw [e]; exact key gD fun p hp => ofPlanet_eq hA.duration [] hp
  · rw [e]; exact key gR o4
  · rw [e]
    refine key (Gr.good_mul gB gR) fun p hp => ?_
    simp only [Gr.val_mul, Gr.val_leaf, o3 p hp, o4 p hp]
    rfl
  · rw [e]
    refine key gH fun p hp => ?_
    simp only [Gr.val_mul, Gr.val_leaf, Gr.val_num, o1 p hp]
    rfl
  · rw [e]
    refine key (Gr.good_sub gT gH) fun p hp => ?_
    simp only [Gr.val_mul, Gr.val_sub, Gr.val_leaf, Gr.val_num, o1 p hp, o2 p hp]
    rfl
  · refine ⟨_, key gs fun p hp => (vs [] p hp).1, fun p hp w hw => ?_⟩
    simp only [hw, Option.getD_some]

/-- **C86, the positions**: for times with any number of axes, entry `(i, p)` of each coordinate is that of planet `p` alone at time
`t[i]`. A coordinate has a planet axis exactly as some argument that enters it has one, so the three coordinates may have different
shapes. -/
theorem C86_positions (hA : A.FitsPlanets np) (hO : simpleInitV A = .ok O) (t : Tensor ℝ) :
    ∃ V, O.relativePosition (.leaf t) = .ok V ∧ (∀ ld, O.planetPosition (.leaf t) ld = .ok V) ∧
      V.x.Shows t.shape np (A.XPerPlanet np) (fun i p => ((A.ofPlanet p).posAt (t.get i)).x) ∧
      V.y.Shows t.shape np (A.YPerPlanet np) (fun i p => ((A.ofPlanet p).posAt (t.get i)).y) ∧
      V.z.Shows t.shape np (A.ZPerPlanet np) (fun i p => ((A.ofPlanet p).posAt (t.get i)).z) :=
  ⟨_, rfl, fun _ => rfl, simple_x hO hA t rfl, simple_y hO hA.period hA.t0 hA.b hA.r_star t rfl,
    simple_z hO hA.period hA.t0 hA.duration t rfl⟩

/-- **C86, the star**: it rests at the origin, one zero per time, whatever `light_delay` is. -/
theorem C86_star_position (O : VSimple) (t : Tensor ℝ) (ld : Bool) :
    ∃ X Y Z, (O.starPosition (.leaf t) ld).x.eval = .ok X ∧ (O.starPosition (.leaf t) ld).y.eval = .ok Y ∧
      (O.starPosition (.leaf t) ld).z.eval = .ok Z ∧ ∀ T ∈ [X, Y, Z], T.shape = t.shape ∧ ∀ i, InShape i t.shape → T.get i = 0 := by
  refine ⟨t.map fun _ => 0, t.map fun _ => 0, t.map fun _ => 0, rfl, rfl, rfl, fun T hT => ?_⟩
  simp only [List.mem_cons, List.not_mem_nil, or_false, or_self] at hT
  rw [hT]
  exact ⟨rfl, fun _ _ => rfl⟩

/-! ## Light curves -/

theorem VSimpleArgs.PerPlanet.all (h : A.PerPlanet np ∨ np = 1) :
    (A.XPerPlanet np ∨ np = 1) ∧ (A.YPerPlanet np ∨ np = 1) ∧ (A.ZPerPlanet np ∨ np = 1) := by
  unfold VSimpleArgs.PerPlanet at h
  unfold VSimpleArgs.XPerPlanet VSimpleArgs.YPerPlanet VSimpleArgs.ZPerPlanet
  tauto

theorem simple_r_star (hA : A.FitsPlanets np) (hO : simpleInitV A = .ok O) : O.r_star.Holds np fun p => (A.ofPlanet p).r_star :=
  (C86_attributes hA hO).r_star

theorem lightCurveAtS_computes (l : LimbDark) (hA : A.FitsPlanets np) (hP : A.PerPlanet np ∨ np = 1) (hO : simpleInitV A = .ok O) :
    Computes (l.lightCurveAtS O) false np (fun p r t => fluxAt l.c (A.ofPlanet p).r_star r ((A.ofPlanet p).posAt t)) := by
  intro tg G hG
  obtain ⟨V, hV, -, hx, hy, hz⟩ := C86_positions hA hO tg
  obtain ⟨h1, h2, h3⟩ := VSimpleArgs.PerPlanet.all hP
  obtain ⟨L, e1, e2, e3⟩ := lightCurveAtG_spec l (f := fun i p => (A.ofPlanet p).posAt (tg.get i)) hx hy hz h1 h2 h3
    (simple_r_star hA hO) hG
  refine ⟨L, ?_, e2, e3⟩
  unfold LimbDark.lightCurveAtS
  simp only [hV, bind, Except.bind, e1]

theorem posAt_some {o : SimpleOrbit} (h : o.speed ≠ none) (t : ℝ) :
    o.relativePosition t = .ok (some (o.posAt t).x, (o.posAt t).y, (o.posAt t).z) := by
  obtain ⟨v, hv⟩ := Option.ne_none_iff_exists'.1 h
  unfold SimpleOrbit.posAt SimpleOrbit.relativePosition
  simp only [Bool.false_eq_true, if_false, hv, Option.map_some, Option.getD_some]

/-- **C86, the light curve**: without exposure time, and without the restriction to the times in transit, entry `(i, p)` of the light
curve is the flux that planet `p` of the orbit covers at time `t[i]`. Missing: arguments that do not give all three coordinates a planet
axis, see `C86_shared_times_counterexample` and `C86_duration_only_counterexample`. -/
theorem C86_light_curve_partial (l : LimbDark) (hA : A.FitsPlanets np) (hP : A.PerPlanet np ∨ np = 1) (hO : simpleInitV A = .ok O)
    (hv : ∀ p < np, (A.ofPlanet p).speed ≠ none) (r t : Tensor ℝ) (hr : r.size = np) (oversample order : ℤ) :
    ∃ L, l.getLightCurveS O r t none oversample order (some false) = .ok L ∧ L.shape = t.shape ++ [np] ∧
      ∀ i p, InShape i t.shape → p < np → ∃ x y z, (A.ofPlanet p).relativePosition (t.get i) = .ok (some x, y, z) ∧
        L.get (i ++ [p]) = fluxAt l.c (A.r_star.val.ofPlanet p) (r.get (Tensor.unravel r.shape p)) ⟨x, y, z⟩ := by
  obtain ⟨y, h1, h2, h3⟩ := Tensor.reshape_flat r
  obtain ⟨L, h4, h5, h6⟩ := (integratedWith_spec (lightCurveAtS_computes l hA hP hO) y t oversample order (by rw [h2, hr])).1
  refine ⟨L, ?_, h5, fun i p hi hp => ⟨_, _, _, posAt_some (hv p hp) _, ?_⟩⟩
  · unfold LimbDark.getLightCurveS lightCurveWith
    simp only [Option.getD_some, Bool.false_eq_true, if_false, bind, Except.bind, h1, h4]
  · rw [h6 i p hi hp, h3]
    rfl

/-- **C86, exposure times**: one exposure time for all data or one per datum; the averages of the fluxes of the planets. -/
theorem C86_exposure_partial (l : LimbDark) (hA : A.FitsPlanets np) (hP : A.PerPlanet np ∨ np = 1) (hO : simpleInitV A = .ok O)
    (hv : ∀ p < np, (A.ofPlanet p).speed ≠ none) (r t x : Tensor ℝ) (hr : r.size = np)
    (hx : x.shape = [] ∨ x.shape = t.shape) (oversample order : ℤ) (ho : order = 0 ∨ order = 1 ∨ order = 2) (hn : 1 ≤ oversample) :
    ∃ S, stencil order oversample = .ok S ∧
    ∃ L, l.getLightCurveS O r t (some x) oversample order (some false) = .ok L ∧ L.shape = t.shape ++ [np] ∧
      ∀ i p, InShape i t.shape → p < np → ∃ pos : ℝ → V3,
        (∀ s, (A.ofPlanet p).relativePosition s = .ok (some (pos s).x, (pos s).y, (pos s).z)) ∧
        L.get (i ++ [p]) = exposureAverage (fun s => fluxAt l.c (A.r_star.val.ofPlanet p) (r.get (Tensor.unravel r.shape p)) (pos s))
          (t.get i) (some (texpAt x i, S)) := by
  obtain ⟨S, hS, -, hlen, -⟩ := C38_weights order oversample ho hn
  refine ⟨S, hS, ?_⟩
  obtain ⟨y, h1, h2, h3⟩ := Tensor.reshape_flat r
  obtain ⟨L, h4, h5, h6⟩ := (integratedWith_spec (lightCurveAtS_computes l hA hP hO) y t oversample order
    (by rw [h2, hr])).2 x S hx hS hlen
  refine ⟨L, ?_, h5, fun i p hi hp => ⟨_, fun s => posAt_some (hv p hp) s, ?_⟩⟩
  · unfold LimbDark.getLightCurveS lightCurveWith
    simp only [Option.getD_some, Bool.false_eq_true, if_false, bind, Except.bind, h1, h4]
  · rw [h6 i p hi hp, h3]
    rfl

/-! ## `in_transit` -/

/-- The threshold of planet `p`. -/
noncomputable def tolFor (A : VSimpleArgs) (r texp : Option (Tensor ℝ)) (p : ℕ) : Tol :=
  let w := match r with
    | none => Tol.fin (0.5 * A.duration.val.ofPlanet p)
    | some r => (A.ofPlanet p).tolOf (r.ofPlanet p)
  match texp with
  | none => w
  | some x => w.add (0.5 * x.ofPlanet p)

theorem tol_ofKind (o : SimpleOrbit) (r : ℝ) : o.tolOf r =
    Tol.ofKind (if (r + o.r_star) ^ 2 - o.b_norm ^ 2 < 0 ∨ (if o.speed = none then (1 : ℝ) else 0) ≠ 0 then 0
      else if o.speed.getD 0 = 0 then (if (r + o.r_star) ^ 2 - o.b_norm ^ 2 = 0 then 0 else 2) else 1)
      (√((r + o.r_star) ^ 2 - o.b_norm ^ 2) / o.speed.getD 0) := by
  unfold SimpleOrbit.tolOf
  simp only
  generalize (r + o.r_star) ^ 2 - o.b_norm ^ 2 = X
  by_cases h : X < 0
  · simp [h, Tol.ofKind]
  · cases hs : o.speed with
    | none => simp [Tol.ofKind]
    | some v =>
      by_cases h0 : v = 0
      · by_cases hX : X = 0 <;> simp [h, h0, hX, Tol.ofKind]
      · simp [h, h0, Tol.ofKind]

theorem tol_spec (hA : A.FitsPlanets np) (hO : simpleInitV A = .ok O) (r texp : Option (Tensor ℝ))
    (hr : ∀ x, r = some x → x.FitsPlanets np) (hx : ∀ x, texp = some x → x.FitsPlanets np) :
    ∃ W, O.tol r texp = .ok W ∧ BLe W.shape [np] ∧ ∀ p < np, W.bget [p] = tolFor A r texp p := by
  have base : ∃ W, O.tolBase r = .ok W ∧ BLe W.shape [np] ∧ ∀ p < np, W.bget [p] = tolFor A r none p := by
    obtain ⟨⟨gs, -⟩, gn, vs⟩ := simple_speed_good hO hA []
    have e := (simpleInitV_eq hO).2
    cases r with
    | none =>
      have gD := leaf_good hA.duration []
      have gH : (((0.5 : ℝ) : Gr) * O.duration).Good ([] ++ [np]) := by
        rw [e]; exact Gr.good_mul (Gr.good_num _ _) gD
      have eD : O.duration = Gr.leaf A.duration.val := by rw [e]
      obtain ⟨T, hT, hb, hv⟩ := gH
      refine ⟨T.map Tol.fin, by simp only [VSimple.tolBase, hT, bind, Except.bind], hb, fun p hp => ?_⟩
      have h1 := hv [p] (inShape_singleton.2 hp)
      simp only [Gr.val_mul, Gr.val_num, eD, Gr.val_leaf] at h1
      rw [show A.duration.val.bget [p] = A.duration.val.ofPlanet p from ofPlanet_eq hA.duration [] hp] at h1
      show Tol.fin (T.bget [p]) = _
      rw [h1]
      rfl
    | some r =>
      have fr := hr r rfl
      have gr := leaf_good fr []
      have gR : O.r_star.Good ([] ++ [np]) := by rw [e]; exact leaf_good hA.r_star []
      have gB : O.b_norm.Good ([] ++ [np]) := by rw [e]; exact Gr.good_mul (leaf_good hA.b []) (leaf_good hA.r_star [])
      have gX := Gr.good_sub (Gr.good_pow 2 (Gr.good_add gr gR)) (Gr.good_pow 2 gB)
      have vX : ∀ p < np, ((Gr.leaf r + O.r_star) ^ 2 - O.b_norm ^ 2).val [p] =
          (r.ofPlanet p + (A.ofPlanet p).r_star) ^ 2 - (A.ofPlanet p).b_norm ^ 2 := by
        intro p hp
        have o1 : r.bget [p] = r.ofPlanet p := ofPlanet_eq fr [] hp
        have o3 : A.b.val.bget [p] = A.b.val.ofPlanet p := ofPlanet_eq hA.b [] hp
        have o4 : A.r_star.val.bget [p] = A.r_star.val.ofPlanet p := ofPlanet_eq hA.r_star [] hp
        rw [e]
        simp only [Gr.val_sub, Gr.val_pow, Gr.val_add, Gr.val_mul, Gr.val_leaf, o1, o3, o4]
        rfl
      have gK := (Gr.zip3_spec (fun x n v => if x < 0 ∨ n ≠ 0 then (0 : ℝ) else if v = 0 then (if x = 0 then 0 else 2) else 1) gX gn gs).1
      have gV := Gr.good_div (Gr.good_sqrt gX) gs
      obtain ⟨K, hK, bK, vK⟩ := gK
      obtain ⟨V, hV, bV, vV⟩ := gV
      obtain ⟨Z, hZ, bZ, -, -, vZ⟩ := zipB_below Tol.ofKind bK bV
      refine ⟨Z, ?_, bZ, fun p hp => ?_⟩
      · unfold VSimple.tolBase VSimple.tolGraphs
        simp only [bind, Except.bind]
        rw [hK, hV]
        exact hZ
      · have hi : InShape [p] ([] ++ [np]) := inShape_singleton.2 hp
        rw [vZ [p] hi, vK [p] hi, vV [p] hi, Gr.val_zip3, Gr.val_div, Gr.val_sqrt, vX p hp,
          show O.speed.val [p] = (A.ofPlanet p).speed.getD 0 from (vs [] p hp).1,
          show O.nan.val [p] = _ from (vs [] p hp).2]
        exact (tol_ofKind _ _).symm
  obtain ⟨W, hW, bW, vW⟩ := base
  unfold VSimple.tol
  cases texp with
  | none => exact ⟨W, hW, bW, vW⟩
  | some x =>
    obtain ⟨Z, hZ, bZ, -, -, vZ⟩ := zipB_below (fun (w : Tol) x => w.add (0.5 * x)) bW (Tensor.FitsPlanets.ble (hx x rfl))
    refine ⟨Z, ?_, bZ, fun p hp => ?_⟩
    · simp only [bind, Except.bind, hW, hZ]
    · rw [vZ [p] (inShape_singleton.2 hp), vW p hp, show x.bget [p] = x.ofPlanet p from ofPlanet_eq (hx x rfl) [] hp]
      rfl

theorem bget_planet {α : Type} {W : Tensor α} {p : ℕ} (hp : p < np) (h : BLe W.shape [np]) (i : ℕ) : W.bget ([i] ++ [p]) = W.bget [p] := by
  rcases ble_single h with e | e | e
  · rw [Tensor.bget_scalar e, Tensor.bget_scalar e]
  · rw [Tensor.bget_eq, Tensor.bget_eq, e]; rfl
  · exact (Tensor.bget_row e [i] hp).trans (Tensor.bget_row e [] hp).symm

/-- The indices that `in_transit` returns. -/
theorem simpleInTransit_filter (h0 : 0 < np) (hA : A.FitsPlanets np) (hO : simpleInitV A = .ok O) (t : Tensor ℝ) (N : ℕ) (ht : t.shape = [N])
    (r texp : Option (Tensor ℝ)) (hr : ∀ x, r = some x → x.FitsPlanets np) (hx : ∀ x, texp = some x → x.FitsPlanets np) :
    O.inTransit t r texp = .ok ((List.range N).filter fun i => (List.range np).any fun p =>
      (tolFor A r texp p).gt |(A.ofPlanet p).dt (t.get [i])|) := by
  obtain ⟨W, hW, bW, vW⟩ := tol_spec hA hO r texp hr hx
  obtain ⟨⟨⟨D, hD, bD, vD⟩, lD⟩, vdt⟩ := simple_dt hO hA.period hA.t0 t
  have hD1 : BLe (t.shape ++ [1]) D.shape := by
    obtain ⟨X, Y, hX, hY, hb⟩ := lD _ List.mem_cons_self
    rw [hD] at hY; cases hY
    simp only [Gr.eval] at hX
    cases hX
    simpa [Tensor.padright] using hb
  obtain ⟨M, hM, bM, b1, -, vM⟩ := zipB_below (fun d (w : Tol) => w.gt |d|) bD (ble_append t.shape bW)
  have hMs := ble_between (hD1.trans b1) bM
  unfold VSimple.inTransit
  simp only [Bool.false_eq_true, if_false, bind, Except.bind, hD, hW, hM]
  have hsz : t.size = N := by simp [Tensor.size, ht]
  rw [ht] at hMs vM vD vdt
  rw [hsz]
  unfold maskIndices Tensor.anyLast
  have hlast : M.shape.dropLast = [N] := by rcases hMs with h | h <;> rw [h] <;> simp
  simp only
  rw [if_pos hlast]
  congr 1
  refine List.filter_congr fun i hi => ?_
  have hi' := List.mem_range.1 hi
  have key : ∀ p < np, M.bget [i, p] = (tolFor A r texp p).gt |(A.ofPlanet p).dt (t.get [i])| := by
    intro p hp
    have hin : InShape ([i] ++ [p]) ([N] ++ [np]) := inShape_snoc (inShape_singleton.2 hi') hp
    refine (vM _ hin).trans ?_
    rw [vD _ hin, vdt [i] p (inShape_singleton.2 hi') hp, ofPlanet_dt, bget_planet hp bW, vW p hp]
  rw [Bool.eq_iff_iff, List.any_eq_true, List.any_eq_true]
  rcases hMs with h | h
  · have hb : ∀ p, M.bget [i, p] = M.get [i, 0] := by
      intro p
      rw [Tensor.bget_eq, h]
      have : clipIdx ([N] ++ [1]) [i, p] = [i, 0] := by
        by_cases hN : N = 1
        · subst hN
          have : i = 0 := by omega
          simp [clipIdx, this]
        · simp [clipIdx, hN]
      rw [this]
    have hl : M.shape.getLastD 0 = 1 := by rw [h]; rfl
    rw [hl]
    constructor
    · rintro ⟨k, hk, hk'⟩
      have : k = 0 := by simpa using hk
      subst this
      refine ⟨0, List.mem_range.2 h0, ?_⟩
      rw [← key 0 h0, hb]
      exact hk'
    · rintro ⟨p, hp, hp'⟩
      refine ⟨0, by simp, ?_⟩
      rw [← key p (List.mem_range.1 hp), hb] at hp'
      exact hp'
  · have hl : M.shape.getLastD 0 = np := by rw [h]; rfl
    rw [hl]
    refine exists_congr fun p => and_congr_right fun hp => ?_
    have hp' := List.mem_range.1 hp
    rw [← key p hp', Tensor.bget_self (by rw [h]; exact inShape_snoc (inShape_singleton.2 hi') hp')]
    rfl

/-- **C86, `in_transit`**: for a vector of times, with or without radii (one per planet), and without exposure time, with one or with one
per planet, the indices are those of the model with a list of planets. -/
theorem C86_in_transit (h0 : 0 < np) (hA : A.FitsPlanets np) (hO : simpleInitV A = .ok O) (t : Tensor ℝ) (N : ℕ) (ht : t.shape = [N])
    (r texp : Option (Tensor ℝ)) (hr : ∀ x, r = some x → x.shape = [np]) (hx : ∀ x, texp = some x → x.FitsPlanets np) (ld : Bool) :
    O.inTransit t r texp ld = simpleInTransit ((List.range np).map A.ofPlanet) t.toList (r.map Tensor.toList) (texpOf texp) ld := by
  cases ld with
  | true => rfl
  | false =>
    rw [simpleInTransit_filter h0 hA hO t N ht r texp (fun x h => Or.inr (Or.inr (hr x h))) hx]
    have htl : t.toList = (List.range N).map fun i => t.get [i] := Tensor.toList_vec ht
    have base : (match r.map Tensor.toList with
        | none => Except.ok (((List.range np).map A.ofPlanet).map (fun o => Tol.fin (0.5 * o.duration)))
        | some r => bcast (fun o r => o.tolOf r) ((List.range np).map A.ofPlanet) r : Except PyErr (List Tol)) =
        .ok ((List.range np).map fun p => tolFor A r none p) := by
      cases r with
      | none => simp only [Option.map_none, List.map_map]; rfl
      | some r =>
        have e : r.toList = (List.range np).map fun p => r.get [p] := Tensor.toList_vec (hr r rfl)
        have fr : r.FitsPlanets np := Or.inr (Or.inr (hr r rfl))
        simp only [Option.map_some, e]
        rw [bcast_ranges, if_pos rfl]
        congr 1
        refine List.map_congr_left fun p hp => ?_
        have hp' := List.mem_range.1 hp
        show _ = (A.ofPlanet p).tolOf (r.ofPlanet p)
        rw [← ofPlanet_eq fr [] hp', show ([] ++ [p] : List ℕ) = [p] from rfl,
          Tensor.bget_self (by rw [hr r rfl]; exact inShape_singleton.2 hp')]
    have wide : addTexp ((List.range np).map fun p => tolFor A r none p) (texpOf texp) =
        .ok ((List.range np).map fun p => tolFor A r texp p) := by
      cases texp with
      | none => rfl
      | some x =>
        have fx := hx x rfl
        have ev : ∀ m, x.shape = [m] → texpOf (some x) = .vector ((List.range m).map fun k => x.bget [k]) := by
          intro m hm
          unfold texpOf
          simp only [hm]
          exact congrArg Texp.vector (PerPl.toList (np := m) (Or.inl hm))
        have eo : ∀ p < np, x.bget [p] = x.ofPlanet p := fun p hp => ofPlanet_eq fx [] hp
        rcases fx with h | h | h
        · unfold texpOf
          simp only [h, addTexp, List.map_map]
          congr 1
          refine List.map_congr_left fun p hp => ?_
          show (tolFor A r none p).add _ = (tolFor A r none p).add (0.5 * x.ofPlanet p)
          rw [← eo p (List.mem_range.1 hp), Tensor.bget_scalar h]
        · rw [ev 1 h]
          simp only [addTexp]
          rw [bcast_ranges]
          have hx1 : ∀ k, x.bget [k] = x.bget [0] := fun k => by simp [Tensor.bget, h]
          by_cases h1 : np = 1
          · rw [if_pos h1]
            congr 1
            refine List.map_congr_left fun p hp => ?_
            show (tolFor A r none p).add _ = (tolFor A r none p).add (0.5 * x.ofPlanet p)
            rw [← eo p (List.mem_range.1 hp)]
          · rw [if_neg h1, if_neg h1, if_pos rfl]
            congr 1
            refine List.map_congr_left fun p hp => ?_
            show (tolFor A r none p).add _ = (tolFor A r none p).add (0.5 * x.ofPlanet p)
            rw [← eo p (List.mem_range.1 hp), hx1 p]
        · rw [ev np h]
          simp only [addTexp]
          rw [bcast_ranges, if_pos rfl]
          congr 1
          refine List.map_congr_left fun p hp => ?_
          show (tolFor A r none p).add _ = (tolFor A r none p).add (0.5 * x.ofPlanet p)
          rw [← eo p (List.mem_range.1 hp)]
    have fin : ∀ w : ℕ → Tol, ((List.range N).filter fun i => (List.range np).any fun p => (w p).gt |(A.ofPlanet p).dt (t.get [i])|) =
        (List.range t.toList.length).filter fun i =>
          ((List.range np).map fun p => (w p).gt |(A.ofPlanet p).dt (t.toList.getD i 0)|).any id := by
      intro w
      have hlen : t.toList.length = N := by rw [htl]; simp
      rw [hlen]
      refine List.filter_congr fun i hi => ?_
      have hi' := List.mem_range.1 hi
      rw [List.getD_eq_getElem _ _ (by rw [hlen]; exact hi')]
      simp only [htl, List.getElem_map, List.getElem_range, List.any_map, Function.comp_def, id]
    unfold simpleInTransit
    simp only [Bool.false_eq_true, if_false]
    cases r
    · simp only [Option.map_none, Except.ok.injEq] at base ⊢
      rw [base]
      simp only [wide, bcast_ranges, if_true, List.map_map, Function.comp_def]
      exact congrArg Except.ok (fin _)
    · simp only [Option.map_some] at base ⊢
      rw [base]
      simp only [wide, bcast_ranges, if_true, List.map_map, Function.comp_def]
      exact congrArg Except.ok (fin _)

/-- **C86, `use_in_transit`**: for planets in the documented domain with radii `r ≥ 0`, a vector of times, and no exposure time or one
for all data, the restriction to the times in transit changes nothing. -/
theorem C86_use_in_transit_partial (u1 u2 : ℝ) (hlaw : (∫ p in starDisc, quadLaw u1 u2 (muAt p)) ≠ 0) (h0 : 0 < np)
    (hA : A.FitsPlanets np) (hP : A.PerPlanet np ∨ np = 1) (hO : simpleInitV A = .ok O) (hdom : ∀ p < np, SimpleDomain (A.ofPlanet p))
    (r t : Tensor ℝ) (N : ℕ) (ht : t.shape = [N]) (hr : r.size = np) (hr0 : ∀ x ∈ r.toList, 0 ≤ x)
    (texp : Option ℝ) (hx : ∀ x, texp = some x → 0 ≤ x) (oversample order : ℤ)
    (ho : order = 0 ∨ order = 1 ∨ order = 2) (hn : 1 ≤ oversample) :
    ∃ L L', (LimbDark.new u1 u2).getLightCurveS O r t (texp.map Tensor.scalar) oversample order (some true) = .ok L ∧
      (LimbDark.new u1 u2).getLightCurveS O r t (texp.map Tensor.scalar) oversample order (some false) = .ok L' ∧ L.Same L' := by
  obtain ⟨y, h1, h2, h3⟩ := Tensor.reshape_flat r
  rw [hr] at h2
  obtain ⟨S, hS, -, hSlen, hoff, -⟩ := C38_weights order oversample ho hn
  have hy : y.toList = (List.range np).map fun p => y.get [p] := Tensor.toList_vec h2
  have hy0 : ∀ p < np, 0 ≤ y.get [p] := by
    intro p hp
    apply hr0
    rw [h3]
    unfold Tensor.toList
    exact List.mem_map.2 ⟨p, List.mem_range.2 (by rw [hr]; exact hp), rfl⟩
  have htl : t.toList = (List.range N).map fun i => t.get [i] := Tensor.toList_vec ht
  have hlen : t.toList.length = N := by rw [htl]; simp
  have hx0 : 0 ≤ texp.getD 0 := by
    rcases texp with _ | x0
    · simp
    · exact hx x0 rfl
  obtain ⟨inds, hl, hm⟩ := simpleInTransit_mem ((List.range np).map fun p => (A.ofPlanet p, y.get [p])) t.toList texp
  refine integratedWith_rows (lightCurveAtS_computes (LimbDark.new u1 u2) hA hP hO) (fun t r texp ld => O.inTransit t (some r) texp ld)
    y t N ht oversample order h2 _ ?_ inds ?_ ?_ ?_ _ h1
  · intro x hx'
    rcases texp with _ | x0
    · cases hx'
    · simp only [Option.map_some, Option.some.injEq] at hx'
      subst hx'
      exact ⟨Or.inl rfl, S, hS, hSlen, hoff⟩
  · rw [C86_in_transit h0 hA hO t N ht (some y) _ (by rintro x ⟨⟩; exact h2) ?_ false]
    · rw [show texpOf (texp.map Tensor.scalar) = texpArg texp by cases texp <;> rfl, Option.map_some, hy]
      simpa only [List.map_map, Function.comp_def] using hl
    · intro x hx'
      rcases texp with _ | x0
      · cases hx'
      · simp only [Option.map_some, Option.some.injEq] at hx'
        subst hx'
        exact Or.inl rfl
  · intro i hi
    rw [← hlen]
    exact ((hm i).1 hi).1
  · intro i hi hni p hp u hu1 hu2
    have hxe : texpOr0 (texp.map Tensor.scalar) [i] = texp.getD 0 := by
      rcases texp with _ | x0
      · rfl
      · simp [texpOr0, texpAt, Tensor.scalar]
    have htg : t.toList[i]'(by rw [hlen]; exact hi) = t.get [i] := by simp [htl]
    have hno : ¬ (((A.ofPlanet p).tolOf (y.get [p])).add (0.5 * texp.getD 0)).gt |(A.ofPlanet p).dt (t.get [i])| = true := by
      intro hcon
      refine hni ((hm i).2 ⟨by rw [hlen]; exact hi, _, List.mem_map.2 ⟨p, List.mem_range.2 hp, rfl⟩, ?_⟩)
      rw [htg]
      exact hcon
    obtain ⟨a, b, z, g1, g2⟩ := simple_off_disc (hdom p hp) (hy0 p hp) hx0 (abs_le.2 ⟨hu1, hu2⟩) hno
    have hR0 : 0 < (A.ofPlanet p).r_star := by
      obtain ⟨P, d, t0, b, R', k, h', hP, hd, hR', hk, hb⟩ := (hdom p hp).built
      rw [h']; exact hR'
    rw [hxe]
    refine fluxAt_zero hlaw hR0 ?_
    rintro ⟨-, g3⟩
    unfold SimpleOrbit.posAt at g3
    simp only [g1, Option.getD_some] at g3
    linarith

/-! ## What the code refuses, and where it fails -/

/-- **C86, light travel time**: every request for it is refused. -/
theorem C86_light_delay (l : LimbDark) (O : VSimple) (r t : Tensor ℝ) (texp : Option (Tensor ℝ)) :
    O.relativePosition (.leaf t) true = .error (.notImplemented "light travel time delay for simple orbits") ∧
    O.inTransit t (some r) texp true = .error (.notImplemented "light travel time delay for simple orbits") ∧
    l.getLightCurveS O r t none 7 0 none true = .error (.notImplemented "light travel time delay for simple orbits") := by
  refine ⟨rfl, rfl, ?_⟩
  obtain ⟨y, h1, h2, h3⟩ := Tensor.reshape_flat r
  obtain ⟨G, h4, h5⟩ := padAdd_zero h2 t
  unfold LimbDark.getLightCurveS lightCurveWith
  simp only [Option.getD_none, Bool.not_true, Bool.false_eq_true, if_false, bind, Except.bind, h1, integratedWith, h4]
  rfl

/-- **C86 is false for arguments that share the times of transit**: `period`, `t0` and `duration` shared by `np > 1` planets, and `b` or
`r_star` given for each of them. Then `z` has no planet axis, and `get_light_curve` raises for every non-empty array of times. -/
theorem C86_shared_times_counterexample (l : LimbDark) (h1 : np ≠ 1) (hA : A.FitsPlanets np) (hO : simpleInitV A = .ok O)
    (hP : A.period.val.FitsPlanets 1) (hT : A.t0.val.FitsPlanets 1) (hD : A.duration.val.FitsPlanets 1)
    (hB : A.b.val.shape = [np] ∨ A.r_star.val.shape = [np]) (r t : Tensor ℝ) (hr : r.size = np) (ht : t.size ≠ 0)
    (oversample order : ℤ) :
    l.getLightCurveS O r t none oversample order (some false) = .error (.valueError "cannot reshape") := by
  obtain ⟨y, e1, e2, e3⟩ := Tensor.reshape_flat r
  rw [hr] at e2
  obtain ⟨G, e4, e5⟩ := padAdd_zero e2 t
  obtain ⟨V, hV, -, ⟨X, mx, hX, hmx, tX⟩, ⟨Y, my, hY, hmy, tY⟩, -⟩ := C86_positions hA hO t
  obtain ⟨Z, mz, hZ, hmz, tZ⟩ := simple_z hO hP hT hD t hV
  have emx : mx = np := hmx.resolve_right fun h => h.2 (by unfold VSimpleArgs.XPerPlanet; tauto)
  have emy : my = np := hmy.resolve_right fun h => h.2 (by unfold VSimpleArgs.YPerPlanet; tauto)
  have emz : mz = 1 := by rcases hmz with h | ⟨h, -⟩ <;> exact h
  rw [emx] at tX
  rw [emy] at tY
  rw [emz] at tZ
  unfold LimbDark.getLightCurveS lightCurveWith
  simp only [Option.getD_some, Bool.false_eq_true, if_false, bind, Except.bind, e1, integratedWith, e4]
  unfold LimbDark.lightCurveAtS LimbDark.lightCurveAtG
  simp only [bind, Except.bind, hV, hX, hY, hZ]
  rw [Tensor.zipB_ok (s := X.shape) (by rw [tX.1, tY.1]; exact bcastShape_self _)]
  have hXG : X.shape.prod = G.shape.prod := by rw [tX.1, e5, Tensor.squeezeShape_prod]
  have hZG : ¬ Z.shape.prod = G.shape.prod := by
    rw [tZ.1, e5, Tensor.squeezeShape_prod, List.prod_append, List.prod_append, List.prod_singleton, List.prod_singleton]
    intro h
    exact h1 (Nat.eq_of_mul_eq_mul_left (Nat.pos_of_ne_zero ht) h.symm)
  simp only [Tensor.reshape, if_pos hXG, if_neg hZG]

/-- **C86 is false when only `duration` or `ror` is given for each planet**: `y` has no planet axis while `x` has one. Unless the number of times
is `1` or the number of planets, `get_light_curve` raises. -/
theorem C86_duration_only_counterexample (l : LimbDark) (h1 : np ≠ 1) (hA : A.FitsPlanets np) (hO : simpleInitV A = .ok O)
    (hP : A.period.val.FitsPlanets 1) (hT : A.t0.val.FitsPlanets 1) (hB : A.b.val.FitsPlanets 1) (hR : A.r_star.val.FitsPlanets 1)
    (hD : A.duration.val.shape = [np] ∨ A.ror.val.shape = [np]) (r t : Tensor ℝ) (N : ℕ) (hr : r.size = np) (ht : t.shape = [N]) (hN : N ≠ 1) (hN' : N ≠ np)
    (oversample order : ℤ) :
    l.getLightCurveS O r t none oversample order (some false) = .error .shapeMismatch := by
  obtain ⟨y, e1, e2, e3⟩ := Tensor.reshape_flat r
  rw [hr] at e2
  obtain ⟨G, e4, e5⟩ := padAdd_zero e2 t
  obtain ⟨V, hV, -, ⟨X, mx, hX, hmx, tX⟩, -, ⟨Z, mz, hZ, hmz, tZ⟩⟩ := C86_positions hA hO t
  obtain ⟨Y, my, hY, hmy, tY⟩ := simple_y hO hP hT hB hR t hV
  have emx : mx = np := hmx.resolve_right fun h => h.2 (by unfold VSimpleArgs.XPerPlanet; tauto)
  have emy : my = 1 := by rcases hmy with h | ⟨h, -⟩ <;> exact h
  have sX : X.shape = [N, np] := by rw [tX.1, emx, ht]; simp [squeezeShape, hN, h1]
  have sY : Y.shape = [N] := by rw [tY.1, emy, ht]; simp [squeezeShape, hN]
  unfold LimbDark.getLightCurveS lightCurveWith
  simp only [Option.getD_some, Bool.false_eq_true, if_false, bind, Except.bind, e1, integratedWith, e4]
  unfold LimbDark.lightCurveAtS LimbDark.lightCurveAtG
  simp only [bind, Except.bind, hV, hX, hY, hZ]
  have : X.zipB (fun x y => √(x ^ 2 + y ^ 2)) Y = .error .shapeMismatch := by
    unfold Tensor.zipB
    rw [sX, sY]
    simp [bcastShape, bcastRev, bcastDim, hN, h1, Ne.symm hN']
  rw [this]

/-- **C86 is false for Python lists**: `period`, `t0` and `duration` may be lists, `b`, `r_star` and `ror` may not, although the first two
are converted like the others (`simple.py:27`, `29`). -/
theorem C86_list_counterexample (A : VSimpleArgs) :
    (A.b.isList ∨ A.r_star.isList ∨ A.ror.isList → simpleInitV A = .error (.typeError "unsupported operand type(s)")) ∧
    (¬ (A.b.isList ∨ A.r_star.isList ∨ A.ror.isList) → ∃ O, simpleInitV A = .ok O) := by
  constructor
  · intro h
    unfold simpleInitV
    rw [if_pos (by tauto)]
  · intro h
    unfold simpleInitV
    rw [if_neg (by tauto)]
    exact ⟨_, rfl⟩

end

/-! ## The hypotheses are met -/

/-- Two planets with their own periods, times of transit and impact parameters, and one duration. -/
noncomputable def demoSimplePair : VSimpleArgs where
  period := ⟨.ofList [1, 3] 0, true⟩
  duration := ⟨.scalar (1 / 10), false⟩
  t0 := ⟨.ofList [0, 1] 0, true⟩
  b := ⟨.ofList [1 / 2, 0] 0, false⟩

/-- Two planets that share the times of transit. -/
noncomputable def demoSimpleShared : VSimpleArgs where
  period := ⟨.scalar 1, false⟩
  duration := ⟨.scalar (1 / 10), false⟩
  b := ⟨.ofList [1 / 2, 0] 0, false⟩

/-- Two planets that differ in the duration only. -/
noncomputable def demoSimpleDuration : VSimpleArgs where
  period := ⟨.scalar 1, false⟩
  duration := ⟨.ofList [1 / 10, 1 / 5] 0, false⟩

theorem demoSimplePair_fits : demoSimplePair.FitsPlanets 2 := by
  refine ⟨?_, ?_, ?_, ?_, ?_, ?_⟩ <;> simp [Tensor.FitsPlanets, demoSimplePair, Tensor.ofList, Tensor.scalar]

theorem demoSimplePair_ofPlanet : demoSimplePair.ofPlanet 0 = simpleInit 1 (1 / 10) 0 (1 / 2) 1 0 ∧
    demoSimplePair.ofPlanet 1 = simpleInit 3 (1 / 10) 1 0 1 0 := by
  constructor <;> simp [VSimpleArgs.ofPlanet, demoSimplePair, Tensor.ofPlanet, Tensor.ofList, Tensor.scalar]

/-- Hypotheses of `C86_attributes`, `C86_positions`, `C86_light_curve_partial`, `C86_exposure_partial`, `C86_in_transit` and
`C86_use_in_transit_partial`. -/
example : (0 : ℕ) < 2 ∧ demoSimplePair.FitsPlanets 2 ∧ demoSimplePair.PerPlanet 2 ∧ (∃ O, simpleInitV demoSimplePair = .ok O) ∧
    (∀ p < 2, SimpleDomain (demoSimplePair.ofPlanet p) ∧ (demoSimplePair.ofPlanet p).speed ≠ none) ∧
    (∫ p in starDisc, quadLaw 0.3 0.2 (muAt p)) ≠ 0 := by
  obtain ⟨e0, e1⟩ := demoSimplePair_ofPlanet
  refine ⟨by norm_num, demoSimplePair_fits, Or.inl rfl, ?_, ?_, ?_⟩
  · exact (C86_list_counterexample _).2 (by simp [demoSimplePair])
  · intro p hp
    interval_cases p
    · rw [e0]
      refine ⟨⟨_, _, _, _, _, _, rfl, by norm_num, by norm_num, by norm_num, by norm_num, by rw [abs_lt]; norm_num⟩, ?_⟩
      rw [(simple_speed (by norm_num) (by rw [abs_lt]; norm_num)).1]
      simp
    · rw [e1]
      refine ⟨⟨_, _, _, _, _, _, rfl, by norm_num, by norm_num, by norm_num, by norm_num, by rw [abs_lt]; norm_num⟩, ?_⟩
      rw [(simple_speed (by norm_num) (by rw [abs_lt]; norm_num)).1]
      simp
  · rw [C36_disc_integral]
    have := pi_pos
    norm_num

/-- Hypotheses of `C86_shared_times_counterexample`. -/
example : demoSimpleShared.FitsPlanets 2 ∧ (∃ O, simpleInitV demoSimpleShared = .ok O) ∧ demoSimpleShared.period.val.FitsPlanets 1 ∧
    demoSimpleShared.t0.val.FitsPlanets 1 ∧ demoSimpleShared.duration.val.FitsPlanets 1 ∧ demoSimpleShared.b.val.shape = [2] := by
  refine ⟨?_, (C86_list_counterexample _).2 (by simp [demoSimpleShared]), Or.inl rfl, Or.inl rfl, Or.inl rfl, rfl⟩
  refine ⟨?_, ?_, ?_, ?_, ?_, ?_⟩ <;> simp [Tensor.FitsPlanets, demoSimpleShared, Tensor.ofList, Tensor.scalar]

/-- Hypotheses of `C86_duration_only_counterexample`. -/
example : demoSimpleDuration.FitsPlanets 2 ∧ (∃ O, simpleInitV demoSimpleDuration = .ok O) ∧
    demoSimpleDuration.period.val.FitsPlanets 1 ∧ demoSimpleDuration.t0.val.FitsPlanets 1 ∧ demoSimpleDuration.b.val.FitsPlanets 1 ∧
    demoSimpleDuration.r_star.val.FitsPlanets 1 ∧ demoSimpleDuration.duration.val.shape = [2] := by
  refine ⟨?_, (C86_list_counterexample _).2 (by simp [demoSimpleDuration]), Or.inl rfl, Or.inl rfl, Or.inl rfl, Or.inl rfl, rfl⟩
  refine ⟨?_, ?_, ?_, ?_, ?_, ?_⟩ <;> simp [Tensor.FitsPlanets, demoSimpleDuration, Tensor.ofList, Tensor.scalar]

end Exo
