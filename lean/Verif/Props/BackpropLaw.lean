import Verif.Spec.BackpropLaw
import Verif.Props.BackpropDist

/-!
# C131: gradients of light curves with respect to the limb darkening coefficients as the compiled graph computes them
-/

namespace Exo
open Real Function Topology MeasureTheory

variable {op : FlOp} {L : ℝ → ℝ → ℝ} {C : Consts}

/-! ## The solution vector -/

theorem continuous_solutionIntegrand (i : Fin 3) : Continuous (solutionIntegrand i) := by
  have := continuous_muAt
  match i with
  | 0 => exact continuous_const
  | 1 => exact this
  | 2 => show Continuous fun p => 4 * muAt p ^ 2 - 2; fun_prop

theorem solutionEntry_eq (i : Fin 3) (b k : ℝ) : solutionEntry i b k = ∫ p in starDisc \ bodyDisc b k, solutionIntegrand i p := by
  match i with
  | 0 => rfl
  | 1 => rfl
  | 2 => rfl

/-- **C131 (the solution vector).** Apart from the centre of the star (and there too, unless the planet is as large as the star) the entries of the solution vector are differentiable: what
they lose is what the limb of the planet covers. -/
theorem C131_solution (i : Fin 3) {b k : ℝ} (hk : 0 < k) (hne : ¬(b = 0 ∧ k = 1)) :
    HasFDerivAt (fun q : ℝ × ℝ => solutionEntry i q.1 q.2)
      ((-(k * ∫ θ in -π..π, starDisc.indicator (solutionIntegrand i) (b + k * cos θ, k * sin θ) * cos θ)) • ContinuousLinearMap.fst ℝ ℝ ℝ +
        (-(k * ∫ θ in -π..π, starDisc.indicator (solutionIntegrand i) (b + k * cos θ, k * sin θ))) • ContinuousLinearMap.snd ℝ ℝ ℝ) (b, k) := by
  have hg := continuous_solutionIntegrand i
  have h := ((covered_gradient hg hk hne).hasFDerivAt).const_sub (∫ p in starDisc, solutionIntegrand i p)
  have e : (fun q : ℝ × ℝ => solutionEntry i q.1 q.2) = fun q => (∫ p in starDisc, solutionIntegrand i p) - ∫ p in starDisc ∩ bodyDisc q.1 q.2, solutionIntegrand i p := by
    funext q
    have := integral_inter_add_sdiff (μ := volume) (f := solutionIntegrand i) (s := starDisc) (measurableSet_bodyDisc q.1 q.2) (integrableOn_disc hg subset_rfl)
    rw [solutionEntry_eq]
    linarith
  rw [e]
  refine h.congr_fderiv ?_
  ext <;> simp [alongLimb]

/-- The derivatives of exact operations are exact. -/
theorem exactOp_solution (u1 u2 : ℝ) : (exactOp u1 u2).ExactSolution where
  value _ _ _ := rfl
  back i b k hb hk := by
    refine ⟨rfl, _, _, C131_solution i hk fun h => hb.ne' h.1, fun g => ?_⟩
    have := (C131_solution i hk (b := b) fun h => hb.ne' h.1).fderiv
    simp only [exactOp, this]
    simp

/-! ## The coefficients -/

section law
variable {ι : Type} {U1 U2 X Y Z R r : Graph ι} {x : ι → ℝ}

theorem normG_real : (Law.normG U1 U2).real L x = π * (1 - U1.real L x / 3 - U2.real L x / 6) := by
  simp only [Law.normG, Law.c0G, Law.c1G, Graph.real]; ring

theorem clG_regular (h1 : U1.Regular L op x) (h2 : U2.Regular L op x) (hn : 1 - U1.real L x / 3 - U2.real L x / 6 ≠ 0) (i : Fin 3) : (Law.clG U1 U2 i).Regular L op x := by
  have h0 : (Law.c0G U1 U2).Regular L op x := ⟨⟨trivial, h1⟩, trivial, h2⟩
  have h3 : (Law.c1G U1 U2).Regular L op x := ⟨h1, trivial, h2⟩
  have hN : (Law.normG U1 U2).Regular L op x := ⟨trivial, h0, h3, trivial, by norm_num [Graph.real]⟩
  have hN0 : (Law.normG U1 U2).real L x ≠ 0 := by rw [normG_real]; exact mul_ne_zero pi_ne_zero hn
  match i with
  | 0 => exact ⟨h0, hN, hN0⟩
  | 1 => exact ⟨h3, hN, hN0⟩
  | 2 => exact ⟨⟨trivial, h2⟩, hN, hN0⟩

theorem curveG_real {b k : Graph ι} : (Law.curveG U1 U2 b k).real L x = quadLimbdarkLightCurve (getCl (U1.real L x) (U2.real L x)) (b.real L x) (k.real L x) := rfl

theorem lawFluxG_real : (Law.fluxG U1 U2 X Y Z R r).real L x =
    fluxAt (getCl (U1.real L x) (U2.real L x)) (R.real L x) (r.real L x) ⟨X.real L x, Y.real L x, Z.real L x⟩ := by
  simp only [Law.fluxG, Graph.real, curveG_real, fluxAt, computeLightCurve, Option.getD_some, gt_iff_lt]
  congr!

theorem starDisc_bright {u1 u2 : ℝ} (hn : 1 - u1 / 3 - u2 / 6 ≠ 0) : fluxFrom u1 u2 starDisc ≠ 0 := by
  rw [fluxFrom_disc]; exact mul_ne_zero pi_ne_zero hn

/-- Outside of the disc of the star the light curve stays zero when a parameter changes a little. -/
theorem curveG_vanishes (h1 : U1.Regular L op x) (h2 : U2.Regular L op x) (hn : 1 - U1.real L x / 3 - U2.real L x / 6 ≠ 0) (hX : X.Regular L op x) (hY : Y.Regular L op x)
    (hR : R.Regular L op x) (hr : r.Regular L op x) (hR0 : 0 < R.real L x) (h : R.real L x + r.real L x < √(X.real L x ^ 2 + Y.real L x ^ 2)) :
    (Law.curveG U1 U2 (.div (.sqrt (.add (.pow X 2) (.pow Y 2))) R) (.div r R)).VanishesAround L x := by
  classical
  intro j y hy hj
  have e : y = update x j := by
    funext s i
    by_cases hi : i = j
    · subst hi; rw [hj, update_self]
    · rw [hy s i hi, update_of_ne hi]
  subst e
  obtain ⟨_, d1, -⟩ := (C118_backprop op L x _ h1).2 j
  obtain ⟨_, d2, -⟩ := (C118_backprop op L x _ h2).2 j
  obtain ⟨_, dX, -⟩ := (C118_backprop op L x _ hX).2 j
  obtain ⟨_, dY, -⟩ := (C118_backprop op L x _ hY).2 j
  obtain ⟨_, dR, -⟩ := (C118_backprop op L x _ hR).2 j
  obtain ⟨_, dr, -⟩ := (C118_backprop op L x _ hr).2 j
  have c1 := (dR.continuousAt.add dr.continuousAt).eventually_lt ((dX.continuousAt.pow 2).add (dY.continuousAt.pow 2)).sqrt (by simpa using h)
  have c2 := continuousAt_const.eventually_lt dR.continuousAt (show (0 : ℝ) < _ by simpa using hR0)
  have c3 := ((continuousAt_const (y := (1 : ℝ))).sub (d1.continuousAt.div_const 3) |>.sub (d2.continuousAt.div_const 6)).eventually_ne (y := 0) (by simpa using hn)
  filter_upwards [c1, c2, c3] with s h1 h2 h3
  have h1' : R.real L (update x j s) + r.real L (update x j s) < √(X.real L (update x j s) ^ 2 + Y.real L (update x j s) ^ 2) := h1
  have h4 : 1 + r.real L (update x j s) / R.real L (update x j s) ≤ √(X.real L (update x j s) ^ 2 + Y.real L (update x j s) ^ 2) / R.real L (update x j s) := by
    rw [le_div_iff₀ h2, add_mul, div_mul_cancel₀ _ h2.ne', one_mul]
    exact h1'.le
  rw [curveG_real]
  exact C36_unocculted _ _ _ _ (starDisc_bright h3) h4

theorem lawFluxG_regular (hs : op.ExactSolution) (h1 : U1.Regular L op x) (h2 : U2.Regular L op x) (hn : 1 - U1.real L x / 3 - U2.real L x / 6 ≠ 0)
    (hX : X.Regular L op x) (hY : Y.Regular L op x) (hZ : Z.Regular L op x) (hR : R.Regular L op x) (hr : r.Regular L op x) (hR0 : 0 < R.real L x) (hr0 : 0 < r.real L x)
    (hc : X.real L x ≠ 0 ∨ Y.real L x ≠ 0) (hz : Clear (R.real L x) (r.real L x) ⟨X.real L x, Y.real L x, Z.real L x⟩) : (Law.fluxG U1 U2 X Y Z R r).Regular L op x := by
  have hd : 0 < X.real L x ^ 2 + Y.real L x ^ 2 := by rcases hc with h | h <;> positivity
  have hb : (Graph.div (.sqrt (.add (.pow X 2) (.pow Y 2))) R).Regular L op x := ⟨⟨⟨hX, hY⟩, hd⟩, hR, hR0.ne'⟩
  have hk : (Graph.div r R).Regular L op x := ⟨hr, hR, hR0.ne'⟩
  have hsol : ∀ i, (Graph.solution i (Graph.div (.sqrt (.add (.pow X 2) (.pow Y 2))) R) (.div r R)).Regular L op x := fun i =>
    ⟨hb, hk, hs.back i _ _ (div_pos (sqrt_pos.2 hd) hR0) (div_pos hr0 hR0)⟩
  have hcl := clG_regular h1 h2 hn
  exact ⟨⟨hZ, hR, hR0.ne'⟩, ⟨⟨⟨⟨hsol 0, hcl 0⟩, hsol 1, hcl 1⟩, hsol 2, hcl 2⟩, trivial⟩,
    hz.imp (fun h => div_ne_zero h hR0.ne') fun h => curveG_vanishes h1 h2 hn hX hY hR hr hR0 h⟩

end law

/-! ## Light curves of a `KeplerianOrbit` -/

variable {m : KepMode} {q : LawPar → ℝ} {o : (KepPar → ℝ) → Orbit}

/-- **C131 (the graph is that of the rest of the model).** The value of the graph is the flux of the model with NaN and infinities (C116), whatever the parameters. -/
theorem C131_graph (C : Consts) (m : KepMode) (op : FlOp) (q : LawPar → ℝ) (t : ℝ) :
    ∃ o, keplerianInitF C (m.args (LawPar.orbit q)) = .ok o ∧
      (Law.lightCurveG m t).value op (fun i => .fin (q i)) = fluxF (lawValue op.solution (.fin (q .u1)) (.fin (q .u2))) o.r_star (o.relativePosition op.kepler) (q (.kep .r)) t := by
  cases m <;> exact ⟨_, rfl, rfl⟩

theorem lawPosition_real {o : Orbit} (h : keplerianInit C (m.args (LawPar.orbit q)) = .ok o) (L : ℝ → ℝ → ℝ) (t : ℝ) :
    o.relativePosition C t = ⟨(m.x1G Law.parG (Law.clock t)).real L q, (m.yG Law.parG (Law.clock t)).real L q, (m.zG Law.parG (Law.clock t)).real L q⟩ ∧
      o.cos_incl = (m.cosInclG Law.parG).real L q := by
  cases m <;> (obtain rfl := Except.ok.inj h; exact ⟨rfl, rfl⟩)

theorem lawPar_regular (p : KepPar) : (Law.parG p).Regular L op q := trivial

theorem lawClock_regular (t : ℝ) : (Law.clock t).Regular L op q := ⟨trivial, trivial⟩

theorem lawFlux_real (ho : ∀ q, keplerianInit C (m.args q) = .ok (o q)) (t : ℝ) (q : LawPar → ℝ) : lawFlux C o t q = (Law.lightCurveG m t).real L q := by
  rw [lawFlux, (lawPosition_real (ho _) L t).1, Law.lightCurveG, lawFluxG_real]
  rfl

/-- **C131 (what holds).** With exact operations the light curve of a `KeplerianOrbit` and its computed derivatives with respect to all parameters, also the limb darkening coefficients, are
the true ones, unless the planet is exactly in front of (or behind) the centre of the star or grazes it in the plane of the sky, or the orbit is seen face-on. The coefficients need not belong to
a star: only a total brightness of zero is excluded. -/
theorem C131_light_curve_partial (hs : op.ExactSolution) (hk : op.ExactKepler) (hq : m.Possible (LawPar.orbit q)) (hn : 1 - q .u1 / 3 - q .u2 / 6 ≠ 0)
    (ho : ∀ q, keplerianInit C (m.args q) = .ok (o q)) (t : ℝ) (hi : |(o (LawPar.orbit q)).cos_incl| < 1)
    (hc : ((o (LawPar.orbit q)).relativePosition C t).x ≠ 0 ∨ ((o (LawPar.orbit q)).relativePosition C t).y ≠ 0)
    (hz : Clear (q (.kep .r_star)) (q (.kep .r)) ((o (LawPar.orbit q)).relativePosition C t)) :
    GradientRight op (Law.lightCurveG m t) (lawFlux C o t) q := by
  set L : ℝ → ℝ → ℝ := fun _ _ => 0
  obtain ⟨hp, hci⟩ := lawPosition_real (ho (LawPar.orbit q)) L t
  rw [hci] at hi
  rw [hp] at hc hz
  obtain ⟨hX, hY⟩ := plane_regular (L := L) (op := op) (P := Law.parG) (x := q) hk lawPar_regular (lawClock_regular t) hq
  have hcr := cosInclG_regular (L := L) (op := op) (P := Law.parG) (x := q) lawPar_regular hq
  exact .of_regular (L := L) (lawFluxG_regular hs trivial trivial hn hX ⟨hcr, hY⟩ ⟨⟨hcr, hi⟩, hY⟩ trivial trivial hq.r_star hq.r hc hz) fun q => lawFlux_real ho t q

/-! ## The coefficients alone -/

/-- The parameter does not occur in the graph. -/
def Graph.Free {ι : Type} (j : ι) : Graph ι → Prop
  | input i => i ≠ j
  | const _ => True
  | add x y => x.Free j ∧ y.Free j
  | sub x y => x.Free j ∧ y.Free j
  | mul x y => x.Free j ∧ y.Free j
  | div x y => x.Free j ∧ y.Free j
  | neg x => x.Free j
  | pow x _ => x.Free j
  | powr x _ => x.Free j
  | sqrt x => x.Free j
  | sin x => x.Free j
  | cos x => x.Free j
  | arccos x => x.Free j
  | arctan2 x y => x.Free j ∧ y.Free j
  | keplerSin x y => x.Free j ∧ y.Free j
  | keplerCos x y => x.Free j ∧ y.Free j
  | mod x y => x.Free j ∧ y.Free j
  | side x y => x.Free j ∧ y.Free j
  | switch x y => x.Free j ∧ y.Free j
  | ifSmall x _ y z => x.Free j ∧ y.Free j ∧ z.Free j
  | limbDark x y => x.Free j ∧ y.Free j
  | pick edges values x => (∀ i, (edges i).Free j) ∧ (∀ i, (values i).Free j) ∧ x.Free j
  | overwritten x y => x.Free j ∧ y.Free j
  | index values x => (∀ i, (values i).Free j) ∧ x.Free j
  | log x => x.Free j
  | solution _ x y => x.Free j ∧ y.Free j
  | exp x => x.Free j

theorem sum_zero {l : ℕ} {f : Fin l → Fl} (h : ∀ i, f i = .fin 0) : Fl.sum ((List.finRange l).map f) = .fin 0 := by
  have : (List.finRange l).map f = ((List.finRange l).map fun _ => (0 : ℝ)).map Fl.fin := by
    rw [List.map_map]; exact List.map_congr_left fun i _ => h i
  rw [this, Fl.sum_fin]
  simp

/-- A parameter that does not occur gets the derivative zero, whatever NaN or infinity is passed through the graph. -/
theorem free_back {ι : Type} [DecidableEq ι] {env : ι → Fl} {j : ι} (G : Graph ι) (h : G.Free j) : ∀ g, G.back op env g j = .fin 0 := by
  induction G with
  | input i => intro g; simp only [Graph.back, if_neg (show ¬i = j from h)]
  | pick e v x he hv hx => intro g; exact sum_zero fun i => hv i (h.2.1 i) _
  | index v x hv hx => intro g; exact sum_zero fun i => hv i (h.1 i) _
  | const => intro g; rfl
  | side => intro g; rfl
  | ifSmall x c y z hx hy hz => intro g; simp only [Graph.back, hy h.2.1, hz h.2.2, Fl.fin_add, add_zero]
  | switch x y hx hy => intro g; simp only [Graph.back, hy h.2]
  | _ => intro g; simp_all only [Graph.back, Graph.Free, Fl.fin_add, add_zero]

theorem lawPlane_free (t : ℝ) {j : LawPar} (hj : j = .u1 ∨ j = .u2) :
    (m.x1G Law.parG (Law.clock t)).Free j ∧ (m.yG Law.parG (Law.clock t)).Free j := by
  rcases hj with rfl | rfl <;> cases m <;>
    simp [KepMode.x1G, KepMode.yG, KepMode.y1G, KepMode.cosInclG, KepMode.inclFactorG, KepMode.radiusG, KepMode.cosfG, KepMode.sinfG, KepMode.anomalyG, KepMode.M0G, KepMode.E0G, KepMode.nG,
      KepMode.ome2G, KepMode.cosOmegaG, KepMode.sinOmegaG, Law.parG, Law.clock, Graph.Free]

/-- **C131 (the coefficients).** The computed derivatives with respect to the limb darkening coefficients are the true ones also where those with respect to the orbit are not: in front of the
centre of the star, for grazing planets and for orbits seen face-on. The derivatives of the solution vector may be anything. -/
theorem C131_coefficients (hs : ∀ (i : Fin 3) (b k : ℝ), op.solution i (.fin b) (.fin k) = .fin (solutionEntry i b k)) (hk : op.ExactKepler) (hq : m.Possible (LawPar.orbit q))
    (hn : 1 - q .u1 / 3 - q .u2 / 6 ≠ 0) (ho : ∀ q, keplerianInit C (m.args q) = .ok (o q)) (t : ℝ) (hi : |(o (LawPar.orbit q)).cos_incl| ≤ 1) {j : LawPar} (hj : j = .u1 ∨ j = .u2) :
    (Law.lightCurveG m t).value op (fun i => .fin (q i)) = .fin (lawFlux C o t q) ∧
    ∃ D, HasDerivAt (fun s => lawFlux C o t (update q j s)) D (q j) ∧ ∀ g : ℝ, (Law.lightCurveG m t).back op (fun i => .fin (q i)) (.fin g) j = .fin (g * D) := by
  set L : ℝ → ℝ → ℝ := fun _ _ => 0
  obtain ⟨hp, hci⟩ := lawPosition_real (ho (LawPar.orbit q)) L t
  rw [hci] at hi
  obtain ⟨hX, hY⟩ := plane_regular (L := L) (op := op) (P := Law.parG) (x := q) hk lawPar_regular (lawClock_regular t) hq
  have hcr := cosInclG_regular (L := L) (op := op) (P := Law.parG) (x := q) lawPar_regular hq
  have vX := (C118_backprop op L q _ hX).1
  have vY := (C118_backprop op L q (m.yG Law.parG (Law.clock t)) ⟨hcr, hY⟩).1
  have vy := (C118_backprop op L q _ hY).1
  have vc := (C118_backprop op L q _ hcr).1
  have vZ : (m.zG Law.parG (Law.clock t)).value op (fun i => .fin (q i)) = .fin ((m.zG Law.parG (Law.clock t)).real L q) := by
    simp only [KepMode.zG, KepMode.sinInclG, Graph.value, Graph.real, vc, vy, Fl.arccos_fin hi, Fl.sin_fin, Fl.fin_neg, Fl.fin_mul]
  have hR : q (.kep .r_star) ≠ 0 := hq.r_star.ne'
  set X := m.x1G Law.parG (Law.clock t) with eX
  set Y := m.yG Law.parG (Law.clock t) with eY
  set Z := m.zG Law.parG (Law.clock t) with eZ
  have vb : (Graph.div (.sqrt (.add (.pow X 2) (.pow Y 2))) (Law.parG .r_star)).value op (fun i => .fin (q i)) =
      .fin (√(X.real L q ^ 2 + Y.real L q ^ 2) / q (.kep .r_star)) := by
    simp only [Graph.value, vX, vY, Fl.fin_pow, Fl.fin_add, Fl.sqrt_fin (show 0 ≤ X.real L q ^ 2 + Y.real L q ^ 2 by positivity), Law.parG, Fl.fin_div hR]
  have vk : (Graph.div (Law.parG .r) (Law.parG .r_star)).value op (fun i => .fin (q i)) = .fin (q (.kep .r) / q (.kep .r_star)) := by
    simp only [Graph.value, Law.parG, Fl.fin_div hR]
  have hcl := fun i => C118_backprop op L q _ (clG_regular (U1 := .input LawPar.u1) (U2 := .input LawPar.u2) (L := L) (op := op) (x := q) trivial trivial hn i)
  have vz : (Graph.div Z (Law.parG .r_star)).value op (fun i => .fin (q i)) = .fin (Z.real L q / q (.kep .r_star)) := by
    simp only [Graph.value, vZ, Law.parG, Fl.fin_div hR]
  have hgt : (Fl.fin (Z.real L q / q (.kep .r_star))).gt (.fin 0) = decide (0 < Z.real L q / q (.kep .r_star)) := rfl
  set b := √(X.real L q ^ 2 + Y.real L q ^ 2) / q (.kep .r_star) with eb
  set k := q (.kep .r) / q (.kep .r_star) with ek
  obtain ⟨fX, fY⟩ := lawPlane_free (m := m) t hj
  have fR : (Law.parG .r_star).Free j ∧ (Law.parG .r).Free j := by rcases hj with rfl | rfl <;> simp [Law.parG, Graph.Free]
  have fs : ∀ i g, (Graph.solution i (.div (.sqrt (.add (.pow X 2) (.pow Y 2))) (Law.parG .r_star)) (.div (Law.parG .r) (Law.parG .r_star))).back op (fun i => .fin (q i)) g j = .fin 0 :=
    fun i g => free_back (.solution i (.div (.sqrt (.add (.pow X 2) (.pow Y 2))) (Law.parG .r_star)) (.div (Law.parG .r) (Law.parG .r_star))) ⟨⟨⟨fX, fY⟩, fR.1⟩, fR.2, fR.1⟩ g
  have horb : ∀ s, LawPar.orbit (update q j s) = LawPar.orbit q := fun s => by
    funext p; rcases hj with rfl | rfl <;> simp [LawPar.orbit]
  have hflux : ∀ s, lawFlux C o t (update q j s) = if 0 < Z.real L q / q (.kep .r_star) then
      solutionEntry 0 b k * (Law.clG (.input .u1) (.input .u2) 0).real L (update q j s) + solutionEntry 1 b k * (Law.clG (.input .u1) (.input .u2) 1).real L (update q j s) +
        solutionEntry 2 b k * (Law.clG (.input .u1) (.input .u2) 2).real L (update q j s) - 1 else 0 := fun s => by
    have e1 : update q j s (.kep .r_star) = q (.kep .r_star) := congrFun (horb s) .r_star
    have e2 : update q j s (.kep .r) = q (.kep .r) := congrFun (horb s) .r
    rw [lawFlux, horb, hp, e1, e2]
    rfl
  obtain ⟨D0, d0, g0⟩ := (hcl 0).2 j
  obtain ⟨D1, d1, g1⟩ := (hcl 1).2 j
  obtain ⟨D2, d2, g2⟩ := (hcl 2).2 j
  have v0 := (hcl 0).1
  have v1 := (hcl 1).1
  have v2 := (hcl 2).1
  have hq0 := hflux (q j)
  rw [update_eq_self] at hq0
  constructor
  · rw [hq0]
    simp only [Law.lightCurveG, Law.fluxG, Law.curveG]
    rw [Graph.value, ← eX, ← eY, ← eZ, vz, hgt]
    simp only [decide_eq_true_eq]
    split_ifs with h0
    · simp only [Graph.value]
      simp only [Graph.value] at vb vk
      rw [vb, vk, hs, hs, hs]
      rw [v0, v1, v2]
      rfl
    · rfl
  · refine ⟨if 0 < Z.real L q / q (.kep .r_star) then solutionEntry 0 b k * D0 + solutionEntry 1 b k * D1 + solutionEntry 2 b k * D2 else 0, ?_, fun g => ?_⟩
    · simp only [hflux]
      split_ifs with h0
      · exact (((d0.const_mul _).add (d1.const_mul _)).add (d2.const_mul _)).sub_const 1
      · exact hasDerivAt_const _ _
    · have hval : ∀ i, (Graph.solution i (.div (.sqrt (.add (.pow X 2) (.pow Y 2))) (Law.parG .r_star)) (.div (Law.parG .r) (Law.parG .r_star))).value op (fun i => .fin (q i)) =
          .fin (solutionEntry i b k) := fun i => by rw [Graph.value, vb, vk, hs]
      simp only [Law.lightCurveG, Law.fluxG, Law.curveG]
      rw [Graph.back, ← eX, ← eY, ← eZ, vz, hgt]
      rw [Graph.back, Graph.back, Graph.back, Graph.back, Graph.back, Graph.back, Graph.back]
      beta_reduce
      rw [fs, fs, fs, hval, hval, hval]
      simp only [decide_eq_true_eq]
      split_ifs with h0
      · simp only [Fl.fin_mul, g0, g1, g2, Fl.fin_add]
        congr 1
        ring
      · simp only [Fl.fin_mul, g0, g1, g2, Fl.fin_add]
        congr 1
        ring

/-! ## The light curve as one operation -/

theorem getCl_fin {u1 u2 : ℝ} (hn : 1 - u1 / 3 - u2 / 6 ≠ 0) (s : Fin 3 → FlLimbDark) (b k : ℝ) (S : Fin 3 → ℝ) (hS : ∀ i, s i (.fin b) (.fin k) = .fin (S i)) :
    lawValue s (.fin u1) (.fin u2) (.fin b) (.fin k) = .fin (S 0 * (getCl u1 u2).1 + S 1 * (getCl u1 u2).2.1 + S 2 * (getCl u1 u2).2.2 - 1) := by
  have h15 : (1.5 : ℝ) ≠ 0 := by norm_num
  have hN : π * (1 - u1 - 1.5 * u2 + (u1 + 2 * u2) / 1.5) ≠ 0 := by
    have : π * (1 - u1 - 1.5 * u2 + (u1 + 2 * u2) / 1.5) = π * (1 - u1 / 3 - u2 / 6) := by ring
    rw [this]; exact mul_ne_zero pi_ne_zero hn
  simp only [lawValue, hS, Fl.fin_mul, Fl.fin_sub, Fl.fin_add, Fl.fin_div h15, Fl.fin_div hN]
  rfl

/-- **C131 (the assumption of C118-C130).** When the compiled solution vector and its derivatives are exact, so are the light curve put together from it and its derivatives with respect to
the impact parameter and the radius ratio. -/
theorem C131_exact (hs : op.ExactSolution) {u1 u2 : ℝ} (hl : PhysicalLaw u1 u2) : (op.withLaw u1 u2).Exact u1 u2 := by
  have hn : 1 - u1 / 3 - u2 / 6 ≠ 0 := by
    have := hl.pos
    rw [fluxFrom_disc] at this
    exact fun h => by rw [h, mul_zero] at this; exact lt_irrefl _ this
  refine ⟨fun b k => ?_, fun g b k hb hk => ?_⟩
  · exact getCl_fin hn op.solution b k (fun i => solutionEntry i b k) (fun i => hs.value i b k)
  · obtain ⟨-, b0, k0, d0, g0⟩ := hs.back 0 b k hb hk
    obtain ⟨-, b1, k1, d1, g1⟩ := hs.back 1 b k hb hk
    obtain ⟨-, b2, k2, d2, g2⟩ := hs.back 2 b k hb hk
    have h := (C106_gradient hl hk (fun h => hb.ne' h.1) one_pos).hasFDerivAt
    have h' := (((d0.mul_const (getCl u1 u2).1).add (d1.mul_const (getCl u1 u2).2.1)).add (d2.mul_const (getCl u1 u2).2.2)).sub_const 1
    have e : (fun q : ℝ × ℝ => computeLightCurve (getCl u1 u2) q.1 q.2 (some 1)) =
        fun q => solutionEntry 0 q.1 q.2 * (getCl u1 u2).1 + solutionEntry 1 q.1 q.2 * (getCl u1 u2).2.1 + solutionEntry 2 q.1 q.2 * (getCl u1 u2).2.2 - 1 := by
      funext q
      simp only [computeLightCurve, Option.getD_some, gt_iff_lt, one_pos, if_true]
      rfl
    rw [e] at h
    have hu := h.unique h'
    have hu1 := congrArg (fun F : ℝ × ℝ →L[ℝ] ℝ => F (1, 0)) hu
    have hu2 := congrArg (fun F : ℝ × ℝ →L[ℝ] ℝ => F (0, 1)) hu
    simp at hu1 hu2
    simp only [FlOp.withLaw, Fl.fin_mul, g0, g1, g2, Fl.fin_add]
    refine ⟨congrArg _ ?_, congrArg _ ?_⟩
    · linear_combination -g * hu1
    · linear_combination -g * hu2

/-! ## The centre of the star -/

/-- **C131 (the centre).** When the planet is exactly in front of the centre of the star the computed derivatives with respect to the orbit are NaN, as in C121. -/
theorem C131_centre (hk : op.ExactKepler) (hq : m.Possible (LawPar.orbit q)) {o : Orbit} (h : keplerianInit C (m.args (LawPar.orbit q)) = .ok o) (t : ℝ)
    (hx : (o.relativePosition C t).x = 0) (hy : (o.relativePosition C t).y = 0) (g : Fl) {j : KepPar}
    (hj : j = .a ∨ j = .b ∨ j = .r_star ∨ (m = .circular ∧ (j = .period ∨ j = .t0)) ∨ (m ≠ .circular ∧ j = .ecc)) :
    (Law.lightCurveG m t).back op (fun i => .fin (q i)) g (.kep j) = .nan := by
  set L : ℝ → ℝ → ℝ := fun _ _ => 0
  obtain ⟨hp, -⟩ := lawPosition_real h L t
  rw [hp] at hx hy
  simp only at hx hy
  obtain ⟨rx, ry⟩ := plane_regular (L := L) (op := op) (P := Law.parG) (x := q) hk lawPar_regular (lawClock_regular t) hq
  have vx := (C118_backprop op L q _ rx).1
  have vy := (C118_backprop op L q (m.yG Law.parG (Law.clock t)) ⟨cosInclG_regular lawPar_regular hq, ry⟩).1
  rw [hx] at vx
  rw [hy] at vy
  have hs : ((Fl.fin 0 ^ 2 + Fl.fin 0 ^ 2 : Fl)).sqrt = .fin 0 := by simp [Fl.sqrt]
  have key : (m.x1G Law.parG (Law.clock t)).back op (fun i => .fin (q i)) .nan (.kep j) + (m.yG Law.parG (Law.clock t)).back op (fun i => .fin (q i)) .nan (.kep j) = .nan := by
    rcases hj with rfl | rfl | rfl | ⟨rfl, rfl | rfl⟩ | ⟨hm, rfl⟩
    · cases m <;> simp [KepMode.x1G, KepMode.radiusG, Graph.back, Law.parG]
    · simp [KepMode.yG, KepMode.cosInclG, Graph.back, Law.parG]
    · simp [KepMode.yG, KepMode.cosInclG, Graph.back, Law.parG]
    · simp [KepMode.x1G, KepMode.cosfG, KepMode.anomalyG, Law.clock, KepMode.nG, Graph.back, Law.parG]
    · simp [KepMode.x1G, KepMode.cosfG, KepMode.anomalyG, Law.clock, KepMode.nG, Graph.back, Law.parG]
    · cases m <;> simp [KepMode.x1G, KepMode.radiusG, KepMode.ome2G, Graph.back, Law.parG] at hm ⊢
  have hsol : ∀ (i : Fin 3) (w : Fl), (Graph.solution i (.div (.sqrt (.add (.pow (m.x1G Law.parG (Law.clock t)) 2) (.pow (m.yG Law.parG (Law.clock t)) 2))) (Law.parG .r_star))
      (.div (Law.parG .r) (Law.parG .r_star))).back op (fun i => .fin (q i)) w (.kep j) = .nan := fun i w => by
    simp only [Graph.back, Graph.value, vx, vy, hs]
    rw [nan_of_zero, key]
    simp
  simp only [Law.lightCurveG, Law.fluxG, Law.curveG]
  rw [Graph.back, Graph.back, Graph.back, Graph.back, Graph.back, Graph.back, Graph.back]
  beta_reduce
  rw [hsol]
  simp

/-! ## Stars without light -/

theorem not_fin_add {x y : Fl} (h : ∀ v, x ≠ .fin v) : ∀ v, x + y ≠ .fin v := by
  intro v
  cases x with
  | fin x => exact (h x rfl).elim
  | nan => simp
  | inf s =>
    cases y with
    | fin y => exact nofun
    | nan => simp
    | inf s' =>
      show (if s = s' then Fl.inf s else .nan) ≠ _
      split_ifs <;> exact nofun

theorem not_fin_add' {x y : Fl} (h : ∀ v, y ≠ .fin v) : ∀ v, x + y ≠ .fin v := by
  intro v
  cases y with
  | fin y => exact (h y rfl).elim
  | nan => simp
  | inf s =>
    cases x with
    | fin x => exact nofun
    | nan => simp
    | inf s' =>
      show (if s' = s then Fl.inf s' else .nan) ≠ _
      split_ifs <;> exact nofun

theorem not_fin_mul {x y : Fl} (h : ∀ v, y ≠ .fin v) : ∀ v, x * y ≠ .fin v := by
  intro v
  cases y with
  | fin y => exact (h y rfl).elim
  | nan => simp
  | inf s =>
    cases x with
    | fin x =>
      show (if x = 0 then Fl.nan else .inf _) ≠ _
      split_ifs <;> exact nofun
    | nan => simp
    | inf s' => exact nofun

theorem not_fin_div (x : ℝ) : ∀ v, Fl.fin x / Fl.fin 0 ≠ .fin v := by
  intro v
  show (if (0 : ℝ) = 0 then if x = 0 then Fl.nan else .inf _ else _) ≠ _
  rw [if_pos rfl]
  split_ifs <;> exact nofun

/-- **C131 (stars without light).** With coefficients for which the total brightness is zero, `u1 / 3 + u2 / 6 = 1`, the flux of a planet in front of the star is not a number or infinite, also where
it does not cover any of it; behind the star it is zero. -/
theorem C131_dark (hk : op.ExactKepler) (hq : m.Possible (LawPar.orbit q))
    (hn : q .u1 / 3 + q .u2 / 6 = 1) {o : Orbit} (h : keplerianInit C (m.args (LawPar.orbit q)) = .ok o) (t : ℝ) (hi : |o.cos_incl| ≤ 1) :
    (0 < (o.relativePosition C t).z → ∀ v, (Law.lightCurveG m t).value op (fun i => .fin (q i)) ≠ .fin v) ∧
    ((o.relativePosition C t).z ≤ 0 → (Law.lightCurveG m t).value op (fun i => .fin (q i)) = .fin 0) := by
  set L : ℝ → ℝ → ℝ := fun _ _ => 0
  obtain ⟨hp, hci⟩ := lawPosition_real h L t
  rw [hci] at hi
  have hY := (plane_regular (L := L) (op := op) (P := Law.parG) (x := q) hk lawPar_regular (lawClock_regular t) hq).2
  have vy := (C118_backprop op L q _ hY).1
  have vc := (C118_backprop op L q _ (cosInclG_regular (L := L) (op := op) (P := Law.parG) (x := q) lawPar_regular hq)).1
  have vZ : (m.zG Law.parG (Law.clock t)).value op (fun i => .fin (q i)) = .fin ((m.zG Law.parG (Law.clock t)).real L q) := by
    simp only [KepMode.zG, KepMode.sinInclG, Graph.value, Graph.real, vc, vy, Fl.arccos_fin hi, Fl.sin_fin, Fl.fin_neg, Fl.fin_mul]
  have hR : 0 < q (.kep .r_star) := hq.r_star
  rw [hp]
  simp only
  set Z := m.zG Law.parG (Law.clock t) with eZ
  have vz : (Graph.div Z (Law.parG .r_star)).value op (fun i => .fin (q i)) = .fin (Z.real L q / q (.kep .r_star)) := by
    simp only [Graph.value, vZ, Law.parG, Fl.fin_div hR.ne']
  have hgt : (Fl.fin (Z.real L q / q (.kep .r_star))).gt (.fin 0) = decide (0 < Z.real L q / q (.kep .r_star)) := rfl
  have e1 : (Law.lightCurveG m t).value op (fun i => .fin (q i)) = if 0 < Z.real L q / q (.kep .r_star) then
      (Law.curveG (.input .u1) (.input .u2) (.div (.sqrt (.add (.pow (m.x1G Law.parG (Law.clock t)) 2) (.pow (m.yG Law.parG (Law.clock t)) 2))) (Law.parG .r_star))
        (.div (Law.parG .r) (Law.parG .r_star))).value op (fun i => .fin (q i)) else .fin 0 := by
    rw [Law.lightCurveG, Law.fluxG, Graph.value, ← eZ, vz, hgt]
    simp only [decide_eq_true_eq]
  rw [e1]
  refine ⟨fun hz v => ?_, fun hz => ?_⟩
  · rw [if_pos (div_pos hz hR)]
    have h15 : (1.5 : ℝ) ≠ 0 := by norm_num
    have vn : (Law.normG (.input .u1) (.input .u2)).value op (fun i => .fin (q i)) = .fin 0 := by
      simp only [Law.normG, Law.c0G, Law.c1G, Graph.value, Fl.fin_mul, Fl.fin_sub, Fl.fin_add, Fl.fin_div h15]
      congr 1
      rw [mul_eq_zero]
      right
      linear_combination -hn
    have v2 : ∀ v, (Law.clG (.input .u1) (.input .u2) 2).value op (fun i => .fin (q i)) ≠ .fin v := fun v => by
      rw [Law.clG, Graph.value, vn, Law.c2G]
      simp only [Graph.value, Fl.fin_mul]
      exact not_fin_div _ v
    rw [Law.curveG, Graph.value, Graph.value, Graph.value]
    exact not_fin_add (not_fin_add' (not_fin_mul v2)) v
  · rw [if_neg]
    exact not_lt.2 (div_nonpos_of_nonpos_of_nonneg hz hR.le)

/-! ## The tutorial -/

section tutorial
variable {B B' : Backend} {K K' : Kwargs} {rs rs' : List Reg} {u1 u2 bv : State → ℝ} {σ : State} {n : ℝ}

theorem tutorialPosition_real (hb : impactParameter B' "b" (fun σ => Real.exp (σ "log_r")) K' = .ok (rs', bv)) {o : Orbit} (h : keplerianInit C (Tutorial.args n bv σ) = .ok o)
    (L : ℝ → ℝ → ℝ) (t : ℝ) :
    o.relativePosition C t = ⟨(KepMode.circular.x1G (Tutorial.parG C n) (.sub (.const t) (.input "t0"))).real L σ,
      (KepMode.circular.yG (Tutorial.parG C n) (.sub (.const t) (.input "t0"))).real L σ, (KepMode.circular.zG (Tutorial.parG C n) (.sub (.const t) (.input "t0"))).real L σ⟩ ∧
      o.cos_incl = (KepMode.circular.cosInclG (Tutorial.parG C n)).real L σ := by
  obtain ⟨i0, -, -, rfl⟩ := impactParameter_ok B' "b" _ hb
  obtain rfl := Except.ok.inj h
  exact ⟨rfl, rfl⟩

/-- **C131 (the tutorial).** The light curve of the transit model of the tutorial, as a function of the variables of the sampler: its computed value and derivatives with respect to all
of them are right, unless the planet is exactly in front of (or behind) the centre of the star or grazes it in the plane of the sky, or the orbit is not inclined. -/
theorem C131_tutorial_partial (hu : quadLimbDark B "u" K = .ok (rs, u1, u2)) (hb : impactParameter B' "b" (fun σ => Real.exp (σ "log_r")) K' = .ok (rs', bv))
    (hs : op.ExactSolution) (hk : op.ExactKepler) (hσ : Tutorial.Possible n σ) {o : State → Orbit} (ho : ∀ σ, keplerianInit C (Tutorial.args n bv σ) = .ok (o σ)) (t : ℝ)
    (hi : |(o σ).cos_incl| < 1) (hc : ((o σ).relativePosition C t).x ≠ 0 ∨ ((o σ).relativePosition C t).y ≠ 0) (hz : Clear 1 (Real.exp (σ "log_r")) ((o σ).relativePosition C t)) :
    GradientRight op (Tutorial.lightCurveG C n t)
      (fun σ => fluxAt (getCl (u1 σ) (u2 σ)) 1 (Real.exp (σ "log_r")) ((o σ).relativePosition C t) + σ "mean") σ := by
  obtain ⟨i0, i1, -, -, -, rfl, rfl⟩ := quadLimbDark_ok B "u" hu
  set L : ℝ → ℝ → ℝ := fun _ _ => 0
  obtain ⟨hp, hci⟩ := tutorialPosition_real hb (ho σ) L t
  rw [hci] at hi
  rw [hp] at hc hz
  have hG := C.G_pos
  have hpi := pi_pos
  have hn := hσ.n
  have hP : 0 < (σ "t1" - σ "t0") / n := div_pos (sub_pos.2 hσ.order) hn
  have rP : (Tutorial.periodG n).Regular L op σ := ⟨⟨trivial, trivial⟩, trivial, hn.ne'⟩
  have hA : 0 < C.G * (1 + 0) * ((σ "t1" - σ "t0") / n) ^ 2 / (4 * π ^ 2) := by positivity
  have hpar : ∀ p, (Tutorial.parG C n p).Regular L op σ := fun p => by
    cases p
    case a => exact ⟨⟨⟨⟨trivial, trivial, trivial⟩, rP⟩, ⟨trivial, trivial⟩, by simp only [Graph.real]; positivity⟩, hA⟩
    case period => exact rP
    case b => exact ⟨trivial, trivial, trivial⟩
    all_goals trivial
  have hq : KepMode.circular.Possible fun p => (Tutorial.parG C n p).real L σ :=
    ⟨rpow_pos_of_pos hA _, hP, one_pos, exp_pos _, fun h => (h rfl).elim, fun h => (h rfl).elim⟩
  have hw : (Graph.sub (.const t) (.input "t0")).Regular L op σ := ⟨trivial, trivial⟩
  obtain ⟨hX, hY⟩ := plane_regular (L := L) (op := op) hk hpar hw hq
  have hcr := cosInclG_regular (L := L) (op := op) hpar hq
  have r1 : (Helper.u1G "u").Regular L op σ := ⟨⟨trivial, hσ.q1.1⟩, trivial, trivial⟩
  have r2 : (Helper.u2G "u").Regular L op σ := ⟨⟨trivial, hσ.q1.1⟩, trivial, trivial, trivial⟩
  have hnorm : 1 - (Helper.u1G "u").real L σ / 3 - (Helper.u2G "u").real L σ / 6 ≠ 0 := by
    have e : 1 - (Helper.u1G "u").real L σ / 3 - (Helper.u2G "u").real L σ / 6 = 1 - √(σ "__u_q1") * (1 / 6 + σ "__u_q2" / 3) := by
      show 1 - √(σ "__u_q1") * (2 * σ "__u_q2") / 3 - √(σ "__u_q1") * (1 - 2 * σ "__u_q2") / 6 = _
      ring
    have h1 : √(σ "__u_q1") ≤ 1 := sqrt_le_one.2 hσ.q1.2
    have h2 : √(σ "__u_q1") * (1 / 6 + σ "__u_q2" / 3) ≤ 1 * (1 / 2) :=
      mul_le_mul h1 (by have := hσ.q2.2; linarith) (by have := hσ.q2.1; linarith) one_pos.le
    rw [e]
    intro h
    linarith
  refine .of_regular (L := L) (G := Tutorial.lightCurveG C n t) ⟨lawFluxG_regular hs r1 r2 hnorm hX ⟨hcr, hY⟩ ⟨⟨hcr, hi⟩, hY⟩ trivial trivial one_pos (exp_pos _) hc hz, trivial⟩ fun τ => ?_
  rw [(tutorialPosition_real hb (ho τ) L t).1]
  show _ = (Law.fluxG _ _ _ _ _ _ _).real L τ + τ "mean"
  rw [lawFluxG_real]
  rfl

end tutorial

/-! ## Examples -/

/-- The planet of `demoKep` with the given `b` and coefficients. -/
noncomputable def demoLaw (b u1 u2 : ℝ) : LawPar → ℝ
  | .kep p => demoKep b 1 p
  | .u1 => u1
  | .u2 => u2

theorem demoLaw_orbit (b u1 u2 : ℝ) : LawPar.orbit (demoLaw b u1 u2) = demoKep b 1 := rfl

theorem update_orbit (q : LawPar → ℝ) (j : KepPar) (s : ℝ) : LawPar.orbit (update q (.kep j) s) = update (LawPar.orbit q) j s := by
  funext p
  by_cases h : p = j
  · subst h; simp [LawPar.orbit]
  · simp [LawPar.orbit, h]

/-- Concrete violation of C131: for `LimbDarkLightCurve(0.3, 0.2)` and `KeplerianOrbit(a=10, period=10, t0=0, b=0, r_star=1)` at `t = 0` the flux has derivatives with respect to all parameters of the
orbit, the computed ones are NaN; those with respect to `u1` and `u2` are right. -/
theorem C131_counterexample (hl : PhysicalLaw 0.3 0.2) (C : Consts) (o : (KepPar → ℝ) → Orbit) (ho : ∀ q, keplerianInit C (KepMode.circular.args q) = .ok (o q)) :
    ∃ q : LawPar → ℝ, KepMode.circular.Possible (LawPar.orbit q) ∧ q .u1 = 0.3 ∧ q .u2 = 0.2 ∧
    (∀ j, ∃ D, HasDerivAt (fun s => lawFlux C o 0 (update q (.kep j) s)) D (q (.kep j))) ∧
    ∀ op : FlOp, op.ExactKepler → (∀ (g : Fl) (j : KepPar), j = .a ∨ j = .period ∨ j = .t0 ∨ j = .b ∨ j = .r_star →
        (Law.lightCurveG .circular 0).back op (fun i => .fin (q i)) g (.kep j) = .nan) ∧
      (op.ExactSolution → ∀ j, j = .u1 ∨ j = .u2 → ∃ D, HasDerivAt (fun s => lawFlux C o 0 (update q j s)) D (q j) ∧
        ∀ g : ℝ, (Law.lightCurveG .circular 0).back op (fun i => .fin (q i)) (.fin g) j = .fin (g * D)) := by
  obtain ⟨hp, hi⟩ := centralKep_position (C := C) (o (demoKep 0 1)) (ho (demoKep 0 1))
  refine ⟨demoLaw 0 0.3 0.2, demoKep_possible _ _, rfl, rfl, fun j => ?_, fun op hk => ⟨fun g j hj => ?_, fun hs j hj => ?_⟩⟩
  · have := C121_differentiable hl (demoKep_possible _ _) o ho 0 (by rw [hi]; norm_num) (fun h => by norm_num [demoKep] at h) (by rw [hp]; norm_num) j
    obtain ⟨D, hD⟩ := this
    refine ⟨D, ?_⟩
    have e : (fun s => lawFlux C o 0 (update (demoLaw 0 0.3 0.2) (.kep j) s)) = fun s =>
        fluxAt (getCl 0.3 0.2) (update (demoKep 0 1) j s .r_star) (update (demoKep 0 1) j s .r) ((o (update (demoKep 0 1) j s)).relativePosition C 0) := by
      funext s
      have h1 := update_orbit (demoLaw 0 0.3 0.2) j s
      rw [lawFlux, h1, demoLaw_orbit, ← demoLaw_orbit 0 0.3 0.2, ← h1]
      rfl
    rw [e]
    exact hD
  · refine C131_centre hk (demoKep_possible _ _) (ho (demoKep 0 1)) 0 (by rw [hp]) (by rw [hp]) g ?_
    rcases hj with rfl | rfl | rfl | rfl | rfl <;> simp
  · exact (C131_coefficients hs.value hk (q := demoLaw 0 0.3 0.2) (demoKep_possible _ _) (by norm_num [demoLaw]) ho 0
      (by rw [demoLaw_orbit, hi]; norm_num) hj).2

/-- The hypotheses of `C131_light_curve_partial` can be met: an eccentric orbit with `b = 0.5` in the middle of the transit, and coefficients that are brighter at the limb. -/
example (C : Consts) (o : (KepPar → ℝ) → Orbit) (ho : ∀ q, keplerianInit C (KepMode.sincos.args q) = .ok (o q)) :
    GradientRight (exactOp 0 0) (Law.lightCurveG .sincos 0) (lawFlux C o 0) (demoLaw 0.5 (-0.7) 0.2) := by
  obtain ⟨hy, hz, hi⟩ := offsetKep_position (o (demoKep 0.5 1)) (ho (demoKep 0.5 1))
  exact C131_light_curve_partial (q := demoLaw 0.5 (-0.7) 0.2) (exactOp_solution _ _) (exactOp_exact _ _).2 (demoKep_possible _ _) (by norm_num [demoLaw]) ho 0
    (by rw [demoLaw_orbit, hi, abs_of_pos (by norm_num)]; norm_num) (Or.inr (by rw [demoLaw_orbit, hy]; norm_num)) (Or.inl (by rw [demoLaw_orbit]; exact hz.ne'))

/-- The hypotheses of `C131_dark` can be met: `u1 = 2` and `u2 = 2`. -/
example (C : Consts) (o : Orbit) (h : keplerianInit C (KepMode.sincos.args (demoKep 0.5 1)) = .ok o) :
    ∀ v, (Law.lightCurveG .sincos 0).value (exactOp 0 0) (fun i => .fin (demoLaw 0.5 2 2 i)) ≠ .fin v := by
  obtain ⟨hy, hz, hi⟩ := offsetKep_position o h
  exact (C131_dark (q := demoLaw 0.5 2 2) (exactOp_exact _ _).2 (demoKep_possible _ _) (by norm_num [demoLaw]) h 0 (by rw [hi, abs_of_pos (by norm_num)]; norm_num)).1 hz

/-- The hypotheses of `C131_exact` can be met. -/
example (hl : PhysicalLaw 0.3 0.2) : ((exactOp 0 0).withLaw 0.3 0.2).Exact 0.3 0.2 := C131_exact (exactOp_solution 0 0) hl

/-- A state of the sampler: ten days between transits and `b = 0`. -/
noncomputable def demoState : State := fun s =>
  if s = "t1" then 40 else if s = "__u_q1" then 0.25 else if s = "__u_q2" then 0.5 else if s = "log_r" then -2 else if s = "mean" then 0.1 else 0

theorem demoState_values : demoState "t0" = 0 ∧ demoState "t1" = 40 ∧ demoState "__u_q1" = 0.25 ∧ demoState "__u_q2" = 0.5 ∧ demoState "__b_impact_parameter" = 0 := by
  refine ⟨?_, ?_, ?_, ?_, ?_⟩ <;> simp [demoState]

theorem demoTutorial {bv : State → ℝ} {B : Backend} {K : Kwargs} {rs : List Reg} (hb : impactParameter B "b" (fun σ => Real.exp (σ "log_r")) K = .ok (rs, bv)) {o : Orbit}
    (h : keplerianInit C (Tutorial.args 4 bv demoState) = .ok o) :
    o.cos_incl = 0 ∧ (o.relativePosition C 1.25).x ≠ 0 ∧ (o.relativePosition C 1.25).z ≠ 0 := by
  obtain ⟨hp, hci⟩ := tutorialPosition_real hb h (fun _ _ => 0) 1.25
  have hM : (KepMode.circular.anomalyG (Tutorial.parG C 4) (.sub (.const 1.25) (.input "t0"))).real (fun _ _ => 0) demoState = π - π / 4 := by
    simp only [KepMode.anomalyG, KepMode.M0G, KepMode.nG, Graph.real, Tutorial.parG, Tutorial.periodG, demoState_values]
    have := pi_pos.ne'
    field_simp
    norm_num
  have hc : (KepMode.circular.cosInclG (Tutorial.parG C 4)).real (fun _ _ => 0) demoState = 0 := by
    simp [KepMode.cosInclG, Graph.real, Tutorial.parG, Tutorial.bG, demoState_values]
  have hG := C.G_pos
  have hpi := pi_pos
  have ha : 0 < (Tutorial.parG C 4 .a).real (fun _ _ => 0) demoState := by
    have e : (Tutorial.parG C 4 .a).real (fun _ _ => 0) demoState = (C.G * (1 + 0) * ((40 - 0) / 4) ^ 2 / (4 * π ^ 2)) ^ ((1 : ℝ) / 3) := by
      simp [Graph.real, Tutorial.parG, Tutorial.periodG, demoState_values]
    rw [e]
    positivity
  have h2 : (0 : ℝ) < √2 / 2 := by positivity
  rw [hci, hp]
  refine ⟨hc, ?_, ?_⟩
  · simp only [KepMode.x1G, KepMode.cosfG, KepMode.radiusG, Graph.real, hM, cos_pi_sub, cos_pi_div_four]
    have := mul_pos ha h2
    exact fun h => by linarith
  · simp only [KepMode.zG, KepMode.y1G, KepMode.sinfG, KepMode.radiusG, KepMode.sinInclG, Graph.real, hM, hc, arccos_zero, sin_pi_div_two, sin_pi_sub, sin_pi_div_four]
    have := mul_pos ha h2
    exact fun h => by linarith

/-- The hypotheses of `C131_tutorial_partial` can be met: `b = 0`, an eighth of a period after a transit. -/
example {B B' : Backend} {K K' : Kwargs} {rs rs' : List Reg} {u1 u2 bv : State → ℝ} (hu : quadLimbDark B "u" K = .ok (rs, u1, u2))
    (hb : impactParameter B' "b" (fun σ => Real.exp (σ "log_r")) K' = .ok (rs', bv)) {o : State → Orbit} (ho : ∀ σ, keplerianInit C (Tutorial.args 4 bv σ) = .ok (o σ)) :
    GradientRight (exactOp 0 0) (Tutorial.lightCurveG C 4 1.25)
      (fun σ => fluxAt (getCl (u1 σ) (u2 σ)) 1 (Real.exp (σ "log_r")) ((o σ).relativePosition C 1.25) + σ "mean") demoState := by
  obtain ⟨hi, hx, hz⟩ := demoTutorial hb (ho demoState)
  refine C131_tutorial_partial hu hb (exactOp_solution _ _) (exactOp_exact _ _).2 ?_ ho 1.25 (by rw [hi]; norm_num) (Or.inl hx) (Or.inl hz)
  exact ⟨by norm_num, by norm_num [demoState_values], by norm_num [demoState_values], by norm_num [demoState_values]⟩

end Exo
