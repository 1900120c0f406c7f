import Verif.Spec.BackpropDist
import Verif.Props.BackpropRv
import Verif.Props.Distributions
import Verif.Props.RoundingEcc

/-!
# C129: gradients of the variables and potentials of the distribution helpers as the compiled graph computes them
-/

namespace Exo
open Real Function Topology

variable {op : FlOp} {L : ℝ → ℝ → ℝ} {C : Consts} {b : Backend} {K : Kwargs} {rs : List Reg} {nx ny name : String} {x y v : State → ℝ} {σ : State} {u1 u2 : ℝ} {t : ℝ}

/-! ## The helpers -/

theorem ptLog_toReal {z : ℝ} (h : 0 ≤ z) : (ptLog z).toReal = Real.log z := by
  rw [ptLog, ENNReal.log_ofReal]
  split_ifs with h0
  · rw [le_antisymm h0 h]; simp
  · simp

theorem ptLog_finite {z : ℝ} (h : 0 < z) : ptLog z = (Real.log z : ℝ) := by
  rw [ptLog, ENNReal.log_ofReal, if_neg (not_le.2 h)]

theorem normG_regular (h : |σ nx| < 1) : (Helper.normG nx).Regular L op σ := by
  have := (sq_lt_one_iff_abs_lt_one _).2 h
  exact ⟨⟨trivial, trivial⟩, by simp only [Graph.real]; linarith⟩

/-- **C129 (`unit_disk`).** Within the support the values, the potential and their derivatives with respect to the sampled variables are computed right. -/
theorem C129_unit_disk (h : unitDisk b nx ny K = .ok (rs, x, y)) (hx : |σ nx| < 1) :
    GradientRight op (.input nx) x σ ∧ GradientRight op (Helper.diskG nx ny) y σ ∧
      ∃ f, Reg.potential (ny ++ "_jacobian") f ∈ rs ∧ PotentialRight op (Helper.jacobianG nx) f σ := by
  obtain ⟨i0, i1, -, -, rfl, rfl, rfl⟩ := unitDisk_ok b nx ny h
  have hr := normG_regular (L := fun _ _ => 0) (op := op) hx
  refine ⟨GradientRight.of_regular (L := fun _ _ => 0) trivial fun _ => rfl, GradientRight.of_regular (L := fun _ _ => 0) ⟨trivial, hr⟩ fun _ => rfl, _,
    List.Mem.tail _ (List.Mem.tail _ (List.Mem.head _)), ?_⟩
  have hpos := sqrt_pos.2 hr.2
  refine ⟨?_, ?_, GradientRight.of_regular (L := fun _ _ => 0) ⟨hr, hpos⟩ fun σ => ptLog_toReal (sqrt_nonneg _)⟩
  · exact (ptLog_finite hpos).trans_ne (EReal.coe_ne_bot _)
  · exact (ptLog_finite hpos).trans_ne (EReal.coe_ne_top _)

/-- **C129 (`quad_limb_dark`).** -/
theorem C129_quad_limb_dark (h : quadLimbDark b name K = .ok (rs, x, y)) (hq : 0 < σ ("__" ++ name ++ "_q1")) :
    GradientRight op (Helper.u1G name) x σ ∧ GradientRight op (Helper.u2G name) y σ := by
  obtain ⟨i0, i1, -, -, -, rfl, rfl⟩ := quadLimbDark_ok b name h
  exact ⟨GradientRight.of_regular (L := fun _ _ => 0) ⟨⟨trivial, hq⟩, trivial, trivial⟩ fun _ => rfl,
    GradientRight.of_regular (L := fun _ _ => 0) ⟨⟨trivial, hq⟩, trivial, trivial, trivial⟩ fun _ => rfl⟩

/-- **C129 (`impact_parameter`).** -/
theorem C129_impact_parameter {nr : String} (h : impactParameter b name (fun σ => σ nr) K = .ok (rs, v)) : GradientRight op (Helper.impactG name nr) v σ := by
  obtain ⟨i0, -, -, rfl⟩ := impactParameter_ok b name _ h
  exact GradientRight.of_regular (L := fun _ _ => 0) ⟨trivial, trivial, trivial⟩ fun _ => rfl

/-- **C129 (`angle`).** Wherever the angle is differentiable, that is away from ±π and from the origin, its computed derivatives are right; those of the potential are right everywhere apart from
the origin. -/
theorem C129_angle {reg : Option ℝ} (h : angle b name reg K = .ok (rs, v)) :
    (0 < σ ("__" ++ name ++ "_angle2") ∨ σ ("__" ++ name ++ "_angle1") ≠ 0 → GradientRight op (Helper.angleG name) v σ) ∧
      ∀ c, reg = some c → (σ ("__" ++ name ++ "_angle1") ≠ 0 ∨ σ ("__" ++ name ++ "_angle2") ≠ 0) →
        ∃ f, Reg.potential (name ++ "_regularization") f ∈ rs ∧ PotentialRight op (Helper.regularizationG c name) f σ := by
  obtain ⟨iv, -, rfl, rfl⟩ := angle_ok b name reg h
  refine ⟨fun h0 => GradientRight.of_regular (L := fun _ _ => 0) ⟨trivial, trivial, h0⟩ fun _ => rfl, fun c hc h0 => ?_⟩
  subst hc
  refine ⟨_, List.mem_append_left _ (List.mem_append_right _ (List.mem_singleton_self _)), ?_⟩
  have hpos : 0 < σ ("__" ++ name ++ "_angle1") ^ 2 + σ ("__" ++ name ++ "_angle2") ^ 2 := by
    rcases h0 with h0 | h0 <;> positivity
  refine ⟨?_, ?_, GradientRight.of_regular (L := fun _ _ => 0) ⟨trivial, ⟨trivial, trivial⟩, hpos⟩ fun σ => ?_⟩
  · beta_reduce; rw [ptLog_finite hpos, ← EReal.coe_mul]; exact EReal.coe_ne_bot _
  · beta_reduce; rw [ptLog_finite hpos, ← EReal.coe_mul]; exact EReal.coe_ne_top _
  · rw [EReal.toReal_mul, ptLog_toReal (by positivity)]
    rfl

/-! ## Light curves of eccentric orbits -/

variable {flip : Bool}

theorem parG_real (h : unitDisk b nx ny K = .ok (rs, x, y)) (L : ℝ → ℝ → ℝ) (σ : State) :
    (fun p => (Helper.parG (Helper.hkG flip nx ny) p).real L σ) = diskOrbit flip x y σ := by
  obtain ⟨i0, i1, -, -, rfl, rfl, rfl⟩ := unitDisk_ok b nx ny h
  funext p
  cases flip <;> cases p
  case true.ecc => exact add_comm _ _
  all_goals rfl

theorem diskPosition_real (h : unitDisk b nx ny K = .ok (rs, x, y)) {o : Orbit} (ho : keplerianInit C (KepMode.angle.args (diskOrbit flip x y σ)) = .ok o) (L : ℝ → ℝ → ℝ) (t : ℝ) :
    o.relativePosition C t = ⟨(KepMode.angle.x1G (Helper.parG (Helper.hkG flip nx ny)) (.sub (.const t) (.input "t0"))).real L σ,
      (KepMode.angle.yG (Helper.parG (Helper.hkG flip nx ny)) (.sub (.const t) (.input "t0"))).real L σ,
      (KepMode.angle.zG (Helper.parG (Helper.hkG flip nx ny)) (.sub (.const t) (.input "t0"))).real L σ⟩ ∧
    o.cos_incl = (KepMode.angle.cosInclG (Helper.parG (Helper.hkG flip nx ny))).real L σ := by
  rw [← parG_real h L] at ho
  exact keplerGraph_real ho L t

theorem diskFlux_real (h : unitDisk b nx ny K = .ok (rs, x, y)) {o : State → Orbit} (ho : ∀ σ, keplerianInit C (KepMode.angle.args (diskOrbit flip x y σ)) = .ok (o σ)) (t : ℝ) (σ : State) :
    fluxAt (getCl u1 u2) (σ "r_star") (σ "r") ((o σ).relativePosition C t) = (Helper.lightCurveG flip nx ny t).real (quadLimbdarkLightCurve (getCl u1 u2)) σ := by
  rw [(diskPosition_real h (ho σ) (quadLimbdarkLightCurve (getCl u1 u2)) t).1]
  exact (lightCurveOf_real u1 u2).symm

theorem diskG_regular (hx : |σ nx| < 1) : (Helper.diskG nx ny).Regular L op σ := ⟨trivial, normG_regular hx⟩

/-- Two graphs have the same value and the same computed derivatives. -/
def SameGraph {ι : Type} [DecidableEq ι] (op : FlOp) (x : ι → Fl) (G G' : Graph ι) : Prop := G.value op x = G'.value op x ∧ ∀ g, G.back op x g = G'.back op x g

section
variable {ι : Type} [DecidableEq ι] {env : ι → Fl} {G G' H H' : Graph ι}

theorem SameGraph.add (h : SameGraph op env G G') (k : SameGraph op env H H') : SameGraph op env (.add G H) (.add G' H') :=
  ⟨by simp only [Graph.value, h.1, k.1], fun g => by simp only [Graph.back, h.2, k.2]⟩
theorem SameGraph.sub (h : SameGraph op env G G') (k : SameGraph op env H H') : SameGraph op env (.sub G H) (.sub G' H') :=
  ⟨by simp only [Graph.value, h.1, k.1], fun g => by simp only [Graph.back, h.2, k.2]⟩
theorem SameGraph.mul (h : SameGraph op env G G') (k : SameGraph op env H H') : SameGraph op env (.mul G H) (.mul G' H') :=
  ⟨by simp only [Graph.value, h.1, k.1], fun g => by simp only [Graph.back, h.1, k.1, h.2, k.2]⟩
theorem SameGraph.div (h : SameGraph op env G G') (k : SameGraph op env H H') : SameGraph op env (.div G H) (.div G' H') :=
  ⟨by simp only [Graph.value, h.1, k.1], fun g => by simp only [Graph.back, h.1, k.1, h.2, k.2]⟩
theorem SameGraph.neg (h : SameGraph op env G G') : SameGraph op env (.neg G) (.neg G') :=
  ⟨by simp only [Graph.value, h.1], fun g => by simp only [Graph.back, h.2]⟩
theorem SameGraph.pow (h : SameGraph op env G G') (k : ℕ) : SameGraph op env (.pow G k) (.pow G' k) :=
  ⟨by simp only [Graph.value, h.1], fun g => by simp only [Graph.back, h.1, h.2]⟩
theorem SameGraph.sqrt (h : SameGraph op env G G') : SameGraph op env (.sqrt G) (.sqrt G') :=
  ⟨by simp only [Graph.value, h.1], fun g => by simp only [Graph.back, h.1, h.2]⟩
theorem SameGraph.sin (h : SameGraph op env G G') : SameGraph op env (.sin G) (.sin G') :=
  ⟨by simp only [Graph.value, h.1], fun g => by simp only [Graph.back, h.1, h.2]⟩
theorem SameGraph.cos (h : SameGraph op env G G') : SameGraph op env (.cos G) (.cos G') :=
  ⟨by simp only [Graph.value, h.1], fun g => by simp only [Graph.back, h.1, h.2]⟩
theorem SameGraph.arccos (h : SameGraph op env G G') : SameGraph op env (.arccos G) (.arccos G') :=
  ⟨by simp only [Graph.value, h.1], fun g => by simp only [Graph.back, h.1, h.2]⟩
theorem SameGraph.arctan2 (h : SameGraph op env G G') (k : SameGraph op env H H') : SameGraph op env (.arctan2 G H) (.arctan2 G' H') :=
  ⟨by simp only [Graph.value, h.1, k.1], fun g => by simp only [Graph.back, h.1, k.1, h.2, k.2]⟩
theorem SameGraph.keplerSin (h : SameGraph op env G G') (k : SameGraph op env H H') : SameGraph op env (.keplerSin G H) (.keplerSin G' H') :=
  ⟨by simp only [Graph.value, h.1, k.1], fun g => by simp only [Graph.back, h.1, k.1, h.2, k.2]⟩
theorem SameGraph.keplerCos (h : SameGraph op env G G') (k : SameGraph op env H H') : SameGraph op env (.keplerCos G H) (.keplerCos G' H') :=
  ⟨by simp only [Graph.value, h.1, k.1], fun g => by simp only [Graph.back, h.1, k.1, h.2, k.2]⟩
theorem SameGraph.switch (h : SameGraph op env G G') (k : SameGraph op env H H') : SameGraph op env (.switch G H) (.switch G' H') :=
  ⟨by simp only [Graph.value, h.1, k.1], fun g => by simp only [Graph.back, h.1, k.2]⟩
theorem SameGraph.limbDark (h : SameGraph op env G G') (k : SameGraph op env H H') : SameGraph op env (.limbDark G H) (.limbDark G' H') :=
  ⟨by simp only [Graph.value, h.1, k.1], fun g => by simp only [Graph.back, h.1, k.1, h.2, k.2]⟩
theorem SameGraph.refl (G : Graph ι) : SameGraph op env G G := ⟨rfl, fun _ => rfl⟩

theorem SameGraph.lightCurveOf {P P' : KepPar → Graph ι} (h : ∀ p, SameGraph op env (P p) (P' p)) (w : Graph ι) :
    SameGraph op env (KepMode.angle.lightCurveOf P w) (KepMode.angle.lightCurveOf P' w) := by
  have c : ∀ c : ℝ, SameGraph op env (.const c) (.const c) := fun c => .refl _
  have hn : SameGraph op env (KepMode.nG P) (KepMode.nG P') := .div (.refl _) (h _)
  have hs : SameGraph op env (KepMode.angle.sinOmegaG P) (KepMode.angle.sinOmegaG P') := (h _).sin
  have hc : SameGraph op env (KepMode.angle.cosOmegaG P) (KepMode.angle.cosOmegaG P') := (h _).cos
  have hE : SameGraph op env (KepMode.angle.E0G P) (KepMode.angle.E0G P') := .mul (c _) (.arctan2 (.mul ((c _).sub (h _)).sqrt hc) (.mul ((c _).add (h _)).sqrt ((c _).add hs)))
  have hM0 : SameGraph op env (KepMode.angle.M0G P) (KepMode.angle.M0G P') := hE.sub ((h _).mul hE.sin)
  have ho : SameGraph op env (KepMode.ome2G P) (KepMode.ome2G P') := (c _).sub ((h _).pow _)
  have hi : SameGraph op env (KepMode.angle.cosInclG P) (KepMode.angle.cosInclG P') := .mul (.div (.mul (.div ((c _).add ((h _).mul hs)) ho) (h _)) (h _)) (h _)
  have hM : SameGraph op env (KepMode.angle.anomalyG P w) (KepMode.angle.anomalyG P' w) := .mul (.sub (.refl _) (.sub (.sub (h _) (hM0.div hn)) (h _))) hn
  have hsf : SameGraph op env (KepMode.angle.sinfG P w) (KepMode.angle.sinfG P' w) := hM.keplerSin (h _)
  have hcf : SameGraph op env (KepMode.angle.cosfG P w) (KepMode.angle.cosfG P' w) := hM.keplerCos (h _)
  have hr : SameGraph op env (KepMode.angle.radiusG P w) (KepMode.angle.radiusG P' w) := .div ((h _).neg.mul ho) ((c _).add ((h _).mul hcf))
  have hx : SameGraph op env (KepMode.angle.x1G P w) (KepMode.angle.x1G P' w) := .sub (hc.mul (hr.mul hcf)) (hs.mul (hr.mul hsf))
  have hy : SameGraph op env (KepMode.angle.y1G P w) (KepMode.angle.y1G P' w) := .add (hs.mul (hr.mul hcf)) (hc.mul (hr.mul hsf))
  exact .switch (.div (.mul hi.arccos.sin.neg hy) (h _)) (.limbDark (.div (SameGraph.sqrt (.add (hx.pow _) ((hi.mul hy).pow _))) (h _)) ((h _).div (h _)))

end

/-- The argument of periastron, computed from the opposite point of the disc. -/
noncomputable def oppositeG (hk : Graph String × Graph String) : Graph String := .add (.arctan2 (.neg hk.2) (.neg hk.1)) (.const π)

/-- The parameters with the argument of periastron computed from the opposite point. -/
noncomputable def oppositeParG (hk : Graph String × Graph String) : KepPar → Graph String := update (Helper.parG hk) .omega (oppositeG hk)

theorem cos_sin_opposite {x y : ℝ} (h : x ≠ 0 ∨ y ≠ 0) : cos (arctan2 (-y) (-x) + π) = cos (arctan2 y x) ∧ sin (arctan2 (-y) (-x) + π) = sin (arctan2 y x) := by
  have h0 : (⟨x, y⟩ : ℂ) ≠ 0 := by
    intro e
    rcases h with h | h
    · exact h (congrArg Complex.re e)
    · exact h (congrArg Complex.im e)
  have h1 : (⟨-x, -y⟩ : ℂ) = -⟨x, y⟩ := rfl
  rw [cos_add_pi, sin_add_pi, arctan2, arctan2, h1, Complex.cos_arg (neg_ne_zero.2 h0), Complex.sin_arg, Complex.cos_arg h0, Complex.sin_arg, norm_neg]
  simp [neg_div]

theorem opposite_same {hk : Graph String × Graph String} {env : String → Fl} {x : ℝ} (h1 : hk.1.value op env = .fin x) (h2 : hk.2.value op env = .fin 0) (hx : x < 0) (p : KepPar) :
    SameGraph op env (Helper.parG hk p) (oppositeParG hk p) := by
  by_cases hp : p = .omega
  · subst hp
    rw [oppositeParG, update_self]
    have a1 : arctan2 0 x = π := by rw [arctan2, Complex.arg_eq_pi_iff]; exact ⟨hx, rfl⟩
    have a2 : arctan2 0 (-x) = 0 := by rw [arctan2, Complex.arg_eq_zero_iff]; exact ⟨(neg_pos.2 hx).le, rfl⟩
    refine ⟨?_, fun g => funext fun j => ?_⟩
    · simp only [Helper.parG, oppositeG, Graph.value, h1, h2, Fl.fin_neg, neg_zero, Fl.arctan2_fin, Fl.fin_add, a1, a2, zero_add]
    · have hd : (0 : ℝ) ^ 2 + x ^ 2 ≠ 0 := by have := hx.ne; positivity
      have a0 : ∀ y : Fl, y + .fin 0 = y := by
        rintro (y | y | _)
        · rw [Fl.fin_add, add_zero]
        · rfl
        · rfl
      have e1 : g * Fl.fin x / (Fl.fin 0 ^ 2 + Fl.fin x ^ 2) = -(g * -Fl.fin x / ((-Fl.fin 0) ^ 2 + (-Fl.fin x) ^ 2)) := by
        simp only [Fl.fin_neg, Fl.fin_pow, Fl.fin_add, neg_zero, neg_sq]
        rcases g with g | s | _
        · rw [Fl.fin_mul, Fl.fin_mul, Fl.fin_div hd, Fl.fin_div hd, Fl.fin_neg]; congr 1; ring
        · change Fl.div (Fl.mul (.inf s) (.fin x)) _ = Fl.neg (Fl.div (Fl.mul (.inf s) (.fin (-x))) _)
          simp only [Fl.mul, if_neg hx.ne, if_neg (neg_ne_zero.2 hx.ne), Fl.div, Fl.neg, decide_eq_true hx, decide_eq_false (not_lt.2 (neg_pos.2 hx).le)]
          cases s <;> simp
        · rfl
      have e2 : g * -Fl.fin 0 / (Fl.fin 0 ^ 2 + Fl.fin x ^ 2) = -(g * -(-Fl.fin 0) / ((-Fl.fin 0) ^ 2 + (-Fl.fin x) ^ 2)) := by
        simp only [Fl.fin_neg, Fl.fin_pow, Fl.fin_add, neg_zero, neg_sq]
        rcases g with g | s | _
        · rw [Fl.fin_mul, Fl.fin_div hd, Fl.fin_neg]; congr 1; simp
        · change Fl.div (Fl.mul (.inf s) (.fin 0)) _ = Fl.neg (Fl.div (Fl.mul (.inf s) (.fin 0)) _)
          simp only [Fl.mul, if_true, Fl.div, Fl.neg]
        · rfl
      simp only [Helper.parG, oppositeG, Graph.back, Graph.value, h1, h2, a0]
      rw [e1, e2]
  · rw [oppositeParG, update_of_ne hp]
    exact .refl _

theorem opposite_real {hk : Graph String × Graph String} (L : ℝ → ℝ → ℝ) {σ : State} (h : hk.1.real L σ ≠ 0 ∨ hk.2.real L σ ≠ 0) (w : Graph String) :
    (KepMode.angle.x1G (oppositeParG hk) w).real L σ = (KepMode.angle.x1G (Helper.parG hk) w).real L σ ∧
    (KepMode.angle.y1G (oppositeParG hk) w).real L σ = (KepMode.angle.y1G (Helper.parG hk) w).real L σ ∧
    (KepMode.angle.cosInclG (oppositeParG hk)).real L σ = (KepMode.angle.cosInclG (Helper.parG hk)).real L σ ∧
    KepMode.angle.sinOmega (fun p => (oppositeParG hk p).real L σ) = KepMode.angle.sinOmega (fun p => (Helper.parG hk p).real L σ) := by
  obtain ⟨c, s⟩ := cos_sin_opposite h
  have hp : ∀ p, p ≠ .omega → oppositeParG hk p = Helper.parG hk p := fun p hp => update_of_ne hp _ _
  have hc : cos ((oppositeParG hk .omega).real L σ) = cos ((Helper.parG hk .omega).real L σ) := by
    rw [oppositeParG, update_self]; exact c
  have hs : sin ((oppositeParG hk .omega).real L σ) = sin ((Helper.parG hk .omega).real L σ) := by
    rw [oppositeParG, update_self]; exact s
  have e1 := hp .ecc (by simp)
  have e2 := hp .a (by simp)
  have e3 := hp .period (by simp)
  have e4 := hp .t0 (by simp)
  have e5 := hp .b (by simp)
  have e6 := hp .r_star (by simp)
  refine ⟨?_, ?_, ?_, hs⟩
  all_goals simp only [KepMode.x1G, KepMode.y1G, KepMode.cosInclG, KepMode.inclFactorG, KepMode.ome2G, KepMode.radiusG, KepMode.cosfG, KepMode.sinfG, KepMode.anomalyG, KepMode.M0G, KepMode.E0G,
    KepMode.nG, KepMode.cosOmegaG, KepMode.sinOmegaG, Graph.real, e1, e2, e3, e4, e5, e6, hc, hs]

/-- **C129 (what holds for light curves).** With eccentricity and argument of periastron from `unit_disk`, the light curve and its computed derivatives with respect to the sampled variables are the
true ones, unless `omega` is `-π/2`, the eccentricity is zero, the planet is exactly in front of (or behind) the centre of the star or grazes it in the plane of the sky, or the orbit is
seen face-on. Where `omega` jumps from `π` to `-π` they are right as well. -/
theorem C129_light_curve_partial (h : unitDisk b nx ny K = .ok (rs, x, y)) (hl : PhysicalLaw u1 u2) (hop : op.Exact u1 u2) (hk : op.ExactKepler) (hx : |σ nx| < 1)
    (hq : KepMode.angle.Possible (diskOrbit flip x y σ)) (he : 0 < diskOrbit flip x y σ .ecc) {o : State → Orbit}
    (ho : ∀ σ, keplerianInit C (KepMode.angle.args (diskOrbit flip x y σ)) = .ok (o σ)) (t : ℝ) (hi : |(o σ).cos_incl| < 1) (hc : ((o σ).relativePosition C t).x ≠ 0 ∨ ((o σ).relativePosition C t).y ≠ 0)
    (hz : Clear (σ "r_star") (σ "r") ((o σ).relativePosition C t)) :
    GradientRight op (Helper.lightCurveG flip nx ny t) (fun σ => fluxAt (getCl u1 u2) (σ "r_star") (σ "r") ((o σ).relativePosition C t)) σ := by
  set L := quadLimbdarkLightCurve (getCl u1 u2) with hL
  obtain ⟨hp, hci⟩ := diskPosition_real h (ho σ) L t
  rw [hci] at hi
  rw [hp] at hc hz
  rw [← parG_real h L] at hq he
  have h1 : (Helper.hkG flip nx ny).1.Regular L op σ := by
    cases flip
    · trivial
    · exact diskG_regular hx
  have h2 : (Helper.hkG flip nx ny).2.Regular L op σ := by
    cases flip
    · exact diskG_regular hx
    · trivial
  change 0 < (Helper.hkG flip nx ny).1.real L σ ^ 2 + (Helper.hkG flip nx ny).2.real L σ ^ 2 at he
  by_cases hω : 0 < (Helper.hkG flip nx ny).1.real L σ ∨ (Helper.hkG flip nx ny).2.real L σ ≠ 0
  · have hr : ∀ p, (Helper.parG (Helper.hkG flip nx ny) p).Regular L op σ := by
      intro p
      cases p with
      | ecc => exact ⟨h1, h2⟩
      | omega => exact ⟨h2, h1, hω⟩
      | _ => trivial
    exact GradientRight.of_regular (L := L) (lightCurve_regular hl hop hk hr ⟨trivial, trivial⟩ hq hi hc hz) (diskFlux_real h ho t)
  · push Not at hω
    have hX : (Helper.hkG flip nx ny).1.real L σ < 0 := by
      refine lt_of_le_of_ne hω.1 fun h0 => ?_
      rw [hω.2, h0] at he
      simp at he
    generalize hhk : Helper.hkG flip nx ny = hk' at *
    have hr : ∀ p, (oppositeParG hk' p).Regular L op σ := by
      intro p
      cases p with
      | ecc => exact ⟨h1, h2⟩
      | omega => exact ⟨⟨h2, h1, .inl (neg_pos.2 hX)⟩, trivial⟩
      | _ => trivial
    have hreal : ∀ τ : State, hk'.1.real L τ ≠ 0 → fluxAt (getCl u1 u2) (τ "r_star") (τ "r") ((o τ).relativePosition C t) =
        (KepMode.angle.lightCurveOf (oppositeParG hk') (.sub (.const t) (.input "t0"))).real L τ := by
      intro τ hτ
      obtain ⟨r1, r2, r3, -⟩ := opposite_real L (.inl hτ) (.sub (.const t) (.input "t0"))
      have := diskFlux_real (u1 := u1) (u2 := u2) h ho t τ
      rw [Helper.lightCurveG, hhk] at this
      rw [this, lightCurveOf_real, lightCurveOf_real]
      simp only [KepMode.yG, KepMode.zG, KepMode.sinInclG, Graph.real]
      rw [r1, r2, r3]
      rfl
    obtain ⟨r1, r2, r3, r4⟩ := opposite_real L (.inl hX.ne) (.sub (.const t) (.input "t0"))
    have hq' : KepMode.angle.Possible fun p => (oppositeParG hk' p).real L σ := ⟨hq.a, hq.period, hq.r_star, hq.r, hq.ecc, fun hm => by rw [r4]; exact hq.omega hm⟩
    have ry : (KepMode.angle.yG (oppositeParG hk') (.sub (.const t) (.input "t0"))).real L σ = (KepMode.angle.yG (Helper.parG hk') (.sub (.const t) (.input "t0"))).real L σ := by
      simp only [KepMode.yG, Graph.real, r2, r3]
    have rz : (KepMode.angle.zG (oppositeParG hk') (.sub (.const t) (.input "t0"))).real L σ = (KepMode.angle.zG (Helper.parG hk') (.sub (.const t) (.input "t0"))).real L σ := by
      simp only [KepMode.zG, KepMode.sinInclG, Graph.real, r2, r3]
    have hreg := lightCurve_regular hl hop hk hr (w := .sub (.const t) (.input "t0")) ⟨trivial, trivial⟩ hq' (by rw [r3]; exact hi) (by rw [r1, ry]; exact hc) (by rw [r1, ry, rz]; exact hz)
    obtain ⟨b1, b2⟩ := C118_backprop op L σ _ hreg
    have hsame := SameGraph.lightCurveOf (opposite_same (op := op) (env := fun i => .fin (σ i)) (C118_backprop op L σ _ h1).1 (by rw [(C118_backprop op L σ _ h2).1, hω.2]) hX)
      (.sub (.const t) (.input "t0"))
    rw [GradientRight, Helper.lightCurveG, hhk]
    refine ⟨by rw [hsame.1, b1, hreal σ hX.ne], fun j => ?_⟩
    obtain ⟨D, hD, hg⟩ := b2 j
    obtain ⟨D', hD', -⟩ := (C118_backprop op L σ _ h1).2 j
    refine ⟨D, hD.congr_of_eventuallyEq ?_, fun g => by rw [hsame.2, hg]⟩
    have hev : ∀ᶠ s in 𝓝 (σ j), hk'.1.real L (update σ j s) < 0 := hD'.continuousAt.eventually_lt continuousAt_const (by rw [update_eq_self]; exact hX)
    exact hev.mono fun s hs => hreal _ hs.ne

/-! ## Radial velocities of eccentric orbits -/

section
variable {ι κ : Type} [DecidableEq ι] [DecidableEq κ] {f f' : ι → Graph κ}

theorem subst_real (f : ι → Graph κ) (L : ℝ → ℝ → ℝ) (z : κ → ℝ) (G : Graph ι) : (G.subst f).real L z = G.real L fun i => (f i).real L z := by
  induction G with
  | pick e v x he hv hx => simp only [Graph.subst, Graph.real, he, hv, hx]
  | index v x hv hx => simp only [Graph.subst, Graph.real, hv, hx]
  | _ => simp_all only [Graph.subst, Graph.real]

theorem subst_value (f : ι → Graph κ) (env : κ → Fl) (G : Graph ι) : (G.subst f).value op env = G.value op fun i => (f i).value op env := by
  induction G with
  | pick e v x he hv hx => simp only [Graph.subst, Graph.value, he, hv, hx]
  | index v x hv hx => simp only [Graph.subst, Graph.value, hv, hx]
  | _ => simp_all only [Graph.subst, Graph.value]

/-- The graph contains no `switch`. -/
def Graph.NoSwitch {ι : Type} : Graph ι → Prop
  | input _ => True
  | const _ => True
  | add x y => x.NoSwitch ∧ y.NoSwitch
  | sub x y => x.NoSwitch ∧ y.NoSwitch
  | mul x y => x.NoSwitch ∧ y.NoSwitch
  | div x y => x.NoSwitch ∧ y.NoSwitch
  | neg x => x.NoSwitch
  | pow x _ => x.NoSwitch
  | powr x _ => x.NoSwitch
  | sqrt x => x.NoSwitch
  | sin x => x.NoSwitch
  | cos x => x.NoSwitch
  | arccos x => x.NoSwitch
  | arctan2 x y => x.NoSwitch ∧ y.NoSwitch
  | keplerSin x y => x.NoSwitch ∧ y.NoSwitch
  | keplerCos x y => x.NoSwitch ∧ y.NoSwitch
  | mod x y => x.NoSwitch ∧ y.NoSwitch
  | side x y => x.NoSwitch ∧ y.NoSwitch
  | switch _ _ => False
  | ifSmall x _ y z => x.NoSwitch ∧ y.NoSwitch ∧ z.NoSwitch
  | limbDark x y => x.NoSwitch ∧ y.NoSwitch
  | pick edges values x => (∀ i, (edges i).NoSwitch) ∧ (∀ i, (values i).NoSwitch) ∧ x.NoSwitch
  | overwritten x y => x.NoSwitch ∧ y.NoSwitch
  | index values x => (∀ i, (values i).NoSwitch) ∧ x.NoSwitch
  | log x => x.NoSwitch
  | solution _ x y => x.NoSwitch ∧ y.NoSwitch
  | exp x => x.NoSwitch

theorem subst_regular {z : κ → ℝ} (hf : ∀ i, (f i).Regular L op z) {G : Graph ι} (hn : G.NoSwitch) (hG : G.Regular L op fun i => (f i).real L z) : (G.subst f).Regular L op z := by
  induction G with
  | input i => exact hf i
  | pick e v x he hv hx =>
    simp only [Graph.subst, Graph.Regular, subst_real] at hG ⊢
    exact ⟨fun i => he i (hn.1 i) (hG.1 i), fun i => hv i (hn.2.1 i) (hG.2.1 i), hx hn.2.2 hG.2.2.1, hG.2.2.2⟩
  | index v x hv hx =>
    simp only [Graph.subst, Graph.Regular, subst_real] at hG ⊢
    exact ⟨fun i => hv i (hn.1 i) (hG.1 i), hx hn.2 hG.2.1, hG.2.2⟩
  | switch => exact hn.elim
  | _ => simp_all only [Graph.subst, Graph.Regular, Graph.NoSwitch, subst_real, and_self, true_and, not_false_eq_true, ne_eq, implies_true]

theorem SameGraph.subst {env : κ → Fl} (h : ∀ i, SameGraph op env (f i) (f' i)) (G : Graph ι) : SameGraph op env (G.subst f) (G.subst f') := by
  have hv : ∀ G : Graph ι, (G.subst f).value op env = (G.subst f').value op env := fun G => by
    rw [subst_value, subst_value]; congr 1; funext i; exact (h i).1
  refine ⟨hv G, ?_⟩
  induction G with
  | input i => exact (h i).2
  | pick e v x he hv' hx => intro g; simp only [Graph.subst, Graph.back, hv, hv']
  | index v x hv' hx => intro g; simp only [Graph.subst, Graph.back, hv, hv']
  | _ => intro g; simp only [Graph.subst, Graph.back, hv, *]

end

theorem rvParG_real (h : unitDisk b nx ny K = .ok (rs, x, y)) (L : ℝ → ℝ → ℝ) (σ : State) :
    (fun p => (Helper.rvParG (Helper.hkG flip nx ny) p).real L σ) = diskRv flip x y σ := by
  funext p
  cases p with
  | kep p => exact congrFun (parG_real h L σ) p
  | _ => rfl

theorem rv_noSwitch (t : ℝ) : (RvMode.t_periastron.rvG .angle t).NoSwitch := by
  simp [RvMode.rvG, RvMode.anomalyG, RvMode.t0G, RvMode.tPeriG, RvMode.delayG, RvMode.parG, KepMode.M0G, KepMode.E0G, KepMode.nG, KepMode.cosOmegaG, KepMode.sinOmegaG, Graph.NoSwitch]

/-- The arguments with the argument of periastron computed from the opposite point. -/
noncomputable def oppositeRvG (hk : Graph String × Graph String) : RvPar → Graph String := update (Helper.rvParG hk) (.kep .omega) (oppositeG hk)

theorem oppositeRv_real {hk : Graph String × Graph String} (L : ℝ → ℝ → ℝ) {σ : State} (h : hk.1.real L σ ≠ 0 ∨ hk.2.real L σ ≠ 0) (t : ℝ) :
    ((RvMode.t_periastron.rvG .angle t).subst (oppositeRvG hk)).real L σ = ((RvMode.t_periastron.rvG .angle t).subst (Helper.rvParG hk)).real L σ := by
  obtain ⟨c, s⟩ := cos_sin_opposite h
  have hp : ∀ p, p ≠ .kep .omega → oppositeRvG hk p = Helper.rvParG hk p := fun p hp => update_of_ne hp _ _
  have hc : cos ((oppositeRvG hk (.kep .omega)).real L σ) = cos ((Helper.rvParG hk (.kep .omega)).real L σ) := by
    rw [oppositeRvG, update_self]; exact c
  have hs : sin ((oppositeRvG hk (.kep .omega)).real L σ) = sin ((Helper.rvParG hk (.kep .omega)).real L σ) := by
    rw [oppositeRvG, update_self]; exact s
  have e1 := hp (.kep .ecc) (by simp)
  have e2 := hp (.kep .period) (by simp)
  have e3 := hp .K (by simp)
  have e4 := hp .t_periastron (by simp)
  rw [subst_real, subst_real]
  simp only [RvMode.rvG, RvMode.anomalyG, RvMode.t0G, RvMode.tPeriG, RvMode.delayG, RvMode.parG, KepMode.M0G, KepMode.E0G, KepMode.nG, KepMode.cosOmegaG, KepMode.sinOmegaG, Graph.real,
    e1, e2, e3, e4, hc, hs]

/-- **C129 (what holds for radial velocities).** So are the derivatives of the radial velocity of the tutorial, unless `omega` is `-π/2` or the eccentricity is zero. -/
theorem C129_rv_partial (h : unitDisk b nx ny K = .ok (rs, x, y)) (hk : op.ExactKepler) (hx : |σ nx| < 1) (hq : RvMode.Possible .angle (diskRv flip x y σ))
    (he : 0 < diskRv flip x y σ (.kep .ecc)) {o : State → Orbit} (ho : ∀ σ, keplerianInit C (RvMode.t_periastron.args .angle (diskRv flip x y σ)) = .ok (o σ)) (t : ℝ) (f : State → ℝ)
    (hf : ∀ σ, (o σ).radialVelocity C t (some (σ "semiamp")) none = .ok (f σ)) : GradientRight op (Helper.rvG flip nx ny t) f σ := by
  set L : ℝ → ℝ → ℝ := fun _ _ => 0 with hL
  have hreal : ∀ τ, f τ = (Helper.rvG flip nx ny t).real L τ := fun τ => by
    rw [Helper.rvG, subst_real, rvParG_real h]
    exact Except.ok.inj ((hf τ).symm.trans (rvKG_real (ho τ) L t))
  have hG : (RvMode.t_periastron.rvG .angle t).Regular L op (diskRv flip x y σ) := by
    rw [rvG_eq]
    exact rvOfAnomaly_regular hk hq.ecc (rvAnomaly_regular hq t)
  have h1 : (Helper.hkG flip nx ny).1.Regular L op σ := by
    cases flip
    · trivial
    · exact diskG_regular hx
  have h2 : (Helper.hkG flip nx ny).2.Regular L op σ := by
    cases flip
    · exact diskG_regular hx
    · trivial
  rw [← rvParG_real h L] at hq hG he
  change 0 < (Helper.hkG flip nx ny).1.real L σ ^ 2 + (Helper.hkG flip nx ny).2.real L σ ^ 2 at he
  by_cases hω : 0 < (Helper.hkG flip nx ny).1.real L σ ∨ (Helper.hkG flip nx ny).2.real L σ ≠ 0
  · refine GradientRight.of_regular (L := L) (subst_regular (fun p => ?_) (rv_noSwitch t) hG) hreal
    cases p with
    | kep p => cases p with
      | ecc => exact ⟨h1, h2⟩
      | omega => exact ⟨h2, h1, hω⟩
      | _ => trivial
    | _ => trivial
  · push Not at hω
    have hX : (Helper.hkG flip nx ny).1.real L σ < 0 := by
      refine lt_of_le_of_ne hω.1 fun h0 => ?_
      rw [hω.2, h0] at he
      simp at he
    generalize hhk : Helper.hkG flip nx ny = hk' at *
    have hr : ∀ p, (oppositeRvG hk' p).Regular L op σ := by
      intro p
      cases p with
      | kep p => cases p with
        | ecc => exact ⟨h1, h2⟩
        | omega => exact ⟨⟨h2, h1, .inl (neg_pos.2 hX)⟩, trivial⟩
        | _ => trivial
      | _ => trivial
    have hq' : RvMode.Possible .angle fun p => (oppositeRvG hk' p).real L σ := by
      refine ⟨hq.period, hq.ecc, fun hm => ?_⟩
      have := hq.omega hm
      exact lt_of_lt_of_eq this (cos_sin_opposite (.inl hX.ne)).2.symm
    have hG' : (RvMode.t_periastron.rvG .angle t).Regular L op (fun p => (oppositeRvG hk' p).real L σ) := by
      rw [rvG_eq]
      exact rvOfAnomaly_regular hk hq'.ecc (rvAnomaly_regular hq' t)
    obtain ⟨b1, b2⟩ := C118_backprop op L σ _ (subst_regular hr (rv_noSwitch t) hG')
    have hs0 := opposite_same (op := op) (env := fun i => .fin (σ i)) (C118_backprop op L σ _ h1).1 (by rw [(C118_backprop op L σ _ h2).1, hω.2]) hX .omega
    have hsame : SameGraph op (fun i => .fin (σ i)) ((RvMode.t_periastron.rvG .angle t).subst (Helper.rvParG hk')) ((RvMode.t_periastron.rvG .angle t).subst (oppositeRvG hk')) := by
      refine .subst (fun p => ?_) _
      by_cases hp : p = .kep .omega
      · subst hp
        rw [oppositeRvG, update_self]
        rwa [oppositeParG, update_self] at hs0
      · rw [oppositeRvG, update_of_ne hp]
        exact .refl _
    rw [Helper.rvG, hhk] at hreal
    rw [GradientRight, Helper.rvG, hhk]
    refine ⟨by rw [hsame.1, b1, hreal σ, oppositeRv_real L (.inl hX.ne)], fun j => ?_⟩
    obtain ⟨D, hD, hg⟩ := b2 j
    obtain ⟨D', hD', -⟩ := (C118_backprop op L σ _ h1).2 j
    refine ⟨D, hD.congr_of_eventuallyEq ?_, fun g => by rw [hsame.2, hg]⟩
    have hev : ∀ᶠ s in 𝓝 (σ j), hk'.1.real L (update σ j s) < 0 := hD'.continuousAt.eventually_lt continuousAt_const (by rw [update_eq_self]; exact hX)
    exact hev.mono fun s hs => (hreal _).trans (oppositeRv_real L (.inl hs.ne) t).symm

/-! ## The centre of the disc -/

theorem omega_nan (hx : σ nx = 0) (hy : σ ("__" ++ ny ++ "_unit_disk") = 0) {j : String} (hj : j = nx ∨ j = "__" ++ ny ++ "_unit_disk") (g : Fl) :
    (Helper.parG (Helper.hkG flip nx ny) .omega).back op (fun i => .fin (σ i)) g j = .nan := by
  have hn : (Helper.normG nx).value op (fun i => .fin (σ i)) = .fin 1 := by
    simp [Helper.normG, Graph.value, hx, Fl.sqrt]
  have hd : (Helper.diskG nx ny).value op (fun i => .fin (σ i)) = .fin 0 := by
    rw [Helper.diskG, Graph.value, hn, Graph.value, hy, Fl.fin_mul, zero_mul]
  have hv : (Graph.input nx).value op (fun i => .fin (σ i)) = .fin 0 := by rw [Graph.value, hx]
  cases flip
  · rw [Helper.parG, Graph.back, Helper.hkG, hd, hv, show (Fl.fin 0 ^ 2 + Fl.fin 0 ^ 2 : Fl) = .fin 0 by simp, show (-Fl.fin 0 : Fl) = .fin 0 by simp, zero_over_zero]
    rcases hj with rfl | rfl
    · simp [Graph.back]
    · simp [Helper.diskG, Graph.back]
  · rw [Helper.parG, Graph.back, Helper.hkG, hd, hv, show (Fl.fin 0 ^ 2 + Fl.fin 0 ^ 2 : Fl) = .fin 0 by simp, show (-Fl.fin 0 : Fl) = .fin 0 by simp, zero_over_zero]
    rcases hj with rfl | rfl
    · simp [Graph.back]
    · simp [Helper.diskG, Graph.back]

/-- **C129 (what exact arithmetic does at the centre of the disc).** Where both values are zero, the computed derivatives of the light curve and of the radial velocity with respect to them are NaN at all times. -/
theorem C129_origin (hx : σ nx = 0) (hy : σ ("__" ++ ny ++ "_unit_disk") = 0) (t : ℝ) (g : Fl) {j : String} (hj : j = nx ∨ j = "__" ++ ny ++ "_unit_disk") :
    (Helper.lightCurveG flip nx ny t).back op (fun i => .fin (σ i)) g j = .nan ∧ (Helper.rvG flip nx ny t).back op (fun i => .fin (σ i)) g j = .nan := by
  have hω := omega_nan (flip := flip) (op := op) hx hy hj
  have hω' : ∀ g, (Helper.rvParG (Helper.hkG flip nx ny) (.kep .omega)).back op (fun i => .fin (σ i)) g j = .nan := hω
  have ha : ∀ a : Fl, a + .nan = .nan := by rintro (a | a | _) <;> rfl
  constructor
  · simp only [Helper.lightCurveG, KepMode.lightCurveOf, fluxGraph, KepMode.x1G, KepMode.cosOmegaG, Graph.back, hω, Fl.nan_add]
  · simp only [Helper.rvG, RvMode.rvG, RvMode.parG, KepMode.cosOmegaG, Graph.subst, Graph.back, hω', Fl.nan_add, ha]

/-- Without a start value `unit_disk` starts at the centre of the disc. -/
theorem unitDisk_start (h : unitDisk b nx ny K = .ok (rs, x, y)) (h1 : K.mem "initval" = false) (h2 : K.mem "testval" = false) (hn : nx ≠ "__" ++ ny ++ "_unit_disk") (hσ : IsStart b rs σ) :
    σ nx = 0 ∧ σ ("__" ++ ny ++ "_unit_disk") = 0 := by
  obtain ⟨i0, i1, e0, e1, rfl, rfl, rfl⟩ := unitDisk_ok b nx ny h
  have hr : requested K (.seq [fun _ => 0, fun _ => 0]) = .seq [fun _ => 0, fun _ => 0] := by
    rw [requested, Kwargs.get_of_not_mem h1, Kwargs.get_of_not_mem h2]
  rw [hr] at e0 e1
  injection e0 with e0
  injection e1 with e1
  subst e0 e1
  obtain ⟨v, hv, hv2⟩ := hσ nx _ _ (List.Mem.head _)
  rw [startValue_self _ _ _ (limKw_mem ..), limKw_start _ _ _ _ _ (strip_initval _) (strip_testval _)] at hv
  injection hv with hv
  subst hv
  obtain ⟨w, hw, hw2⟩ := hσ ("__" ++ ny ++ "_unit_disk") _ _ (List.Mem.tail _ (List.Mem.head _))
  rw [startValue_ne _ _ hn, startValue_self _ _ _ (limKw_mem ..),
    limKw_start _ _ _ _ _ (strip_initval _) (strip_testval _)] at hw
  injection hw with hw
  subst hw
  simp only [Val.eval, Option.some.injEq] at hv2 hw2
  exact ⟨hv2.symm, by rw [← hw2]; simp⟩

/-- **C129 (where the sampler starts).** Without `initval` and `testval`, as in `docs/tutorials/data-and-models.md:260`, `unit_disk` starts at this point. -/
theorem C129_start (h : unitDisk b nx ny K = .ok (rs, x, y)) (h1 : K.mem "initval" = false) (h2 : K.mem "testval" = false) (hn : nx ≠ "__" ++ ny ++ "_unit_disk") (hσ : IsStart b rs σ) (t : ℝ) (g : Fl)
    {j : String} (hj : j = nx ∨ j = "__" ++ ny ++ "_unit_disk") :
    (Helper.lightCurveG flip nx ny t).back op (fun i => .fin (σ i)) g j = .nan ∧ (Helper.rvG flip nx ny t).back op (fun i => .fin (σ i)) g j = .nan :=
  C129_origin (unitDisk_start h h1 h2 hn hσ).1 (unitDisk_start h h1 h2 hn hσ).2 t g hj

/-! ## The light curve is differentiable at the centre of the disc -/

theorem hasDerivAt_of_sq {d : ℝ → ℝ} (h : ∀ᶠ s in 𝓝 0, |d s| ≤ s ^ 2) : HasDerivAt d 0 0 := by
  have h0 : d 0 = 0 := by simpa using h.self_of_nhds
  rw [hasDerivAt_iff_isLittleO]
  simp only [h0, sub_zero, smul_zero]
  refine Asymptotics.IsBigO.trans_isLittleO (g := fun s : ℝ => s ^ 2) (Asymptotics.IsBigO.of_bound 1 (h.mono fun s hs => ?_)) (Asymptotics.isLittleO_pow_id one_lt_two)
  rw [one_mul, norm_eq_abs, norm_eq_abs, abs_of_nonneg (sq_nonneg s)]
  exact hs

theorem hasDerivAt_glue {f f1 f2 : ℝ → ℝ} (h1 : HasDerivAt f1 0 0) (h2 : HasDerivAt f2 0 0) (e1 : ∀ s, 0 ≤ s → s < 1 → f s = f1 s) (e2 : ∀ s, s < 0 → -1 < s → f s = f2 s)
    (e0 : f1 0 = f2 0) : HasDerivAt f 0 0 := by
  have a1 : HasDerivWithinAt f 0 (Set.Ici 0) 0 := by
    refine h1.hasDerivWithinAt.congr_of_eventuallyEq ?_ (e1 0 le_rfl one_pos)
    filter_upwards [self_mem_nhdsWithin, mem_nhdsWithin_of_mem_nhds (Iio_mem_nhds one_pos)] with s hs hs1
    exact e1 s hs hs1
  have a2 : HasDerivWithinAt f 0 (Set.Iic 0) 0 := by
    have e3 : f 0 = f2 0 := (e1 0 le_rfl one_pos).trans e0
    refine h2.hasDerivWithinAt.congr_of_eventuallyEq ?_ e3
    filter_upwards [self_mem_nhdsWithin, mem_nhdsWithin_of_mem_nhds (Ioi_mem_nhds (neg_lt_zero.2 one_pos))] with s hs hs1
    rcases (show s ≤ 0 from hs).lt_or_eq with h | rfl
    · exact e2 s h hs1
    · exact e3
  have := a1.union a2
  rwa [Set.Ici_union_Iic, hasDerivWithinAt_univ] at this

/-- The mean anomaly at transit for the argument of periastron zero. -/
noncomputable def startAnomaly (e : ℝ) : ℝ := 2 * arctan (√(1 - e) / √(1 + e)) - e * sin (2 * arctan (√(1 - e) / √(1 + e)))

theorem startAnomaly_differentiable : DifferentiableAt ℝ startAnomaly 0 := by
  have h1 : DifferentiableAt ℝ (fun e : ℝ => √(1 - e)) 0 := (differentiableAt_id.const_sub 1).sqrt (by norm_num)
  have h2 : DifferentiableAt ℝ (fun e : ℝ => √(1 + e)) 0 := (differentiableAt_id.const_add 1).sqrt (by norm_num)
  have h3 : DifferentiableAt ℝ (fun e : ℝ => 2 * arctan (√(1 - e) / √(1 + e))) 0 := ((h1.div h2 (by norm_num)).arctan).const_mul 2
  exact h3.sub (differentiableAt_id.mul h3.sin)

theorem startAnomaly_zero : startAnomaly 0 = π / 2 := by
  simp [startAnomaly]; ring

/-- The eccentric anomaly for the eccentricity `s²`. -/
noncomputable def pathAnomaly (m ε s : ℝ) : ℝ := eccAnomaly (s ^ 2) (m + ε * startAnomaly (s ^ 2))

theorem pathAnomaly_zero (m ε : ℝ) : pathAnomaly m ε 0 = m + ε * (π / 2) := by
  rw [pathAnomaly, zero_pow two_ne_zero, eccAnomaly_zero_ecc, startAnomaly_zero]

theorem pathAnomaly_deriv (m ε : ℝ) : HasDerivAt (pathAnomaly m ε) 0 0 := by
  have hs : HasDerivAt (fun s : ℝ => s ^ 2) 0 0 := by simpa using hasDerivAt_pow 2 (0 : ℝ)
  have h1 : HasDerivAt (fun s : ℝ => m + ε * startAnomaly (s ^ 2)) 0 0 := by
    have h0 : HasDerivAt startAnomaly (deriv startAnomaly 0) ((0 : ℝ) ^ 2) := by
      rw [zero_pow two_ne_zero]; exact startAnomaly_differentiable.hasDerivAt
    simpa using ((HasDerivAt.comp (h := fun s : ℝ => s ^ 2) (0 : ℝ) h0 hs).const_mul ε).const_add m
  have h2 : HasDerivAt (fun s => pathAnomaly m ε s - (m + ε * startAnomaly (s ^ 2))) 0 0 := by
    refine hasDerivAt_of_sq (.of_forall fun s => ?_)
    have hk := keplerMap_eccAnomaly (sq_nonneg s) (m + ε * startAnomaly (s ^ 2))
    rw [← pathAnomaly, keplerMap] at hk
    rw [← hk, show pathAnomaly m ε s - (pathAnomaly m ε s - s ^ 2 * sin (pathAnomaly m ε s)) = s ^ 2 * sin (pathAnomaly m ε s) by ring, abs_mul, abs_of_nonneg (sq_nonneg s)]
    exact mul_le_of_le_one_right (sq_nonneg s) (abs_sin_le_one _)
  have h3 := h2.add h1
  rw [add_zero] at h3
  exact h3.congr_of_eventuallyEq (.of_forall fun s => (sub_add_cancel _ _).symm)

/-- Position in the orbital plane. -/
noncomputable def pathX (a m ε s : ℝ) : ℝ := ε * (-a * (cos (pathAnomaly m ε s) - s ^ 2))
/-- Position in the orbital plane. -/
noncomputable def pathY (a m ε s : ℝ) : ℝ := ε * (-a * (√(1 - (s ^ 2) ^ 2) * sin (pathAnomaly m ε s)))

theorem pathX_deriv (a m ε : ℝ) : HasDerivAt (pathX a m ε) 0 0 := by
  have hs : HasDerivAt (fun s : ℝ => s ^ 2) 0 0 := by simpa using hasDerivAt_pow 2 (0 : ℝ)
  exact ((((pathAnomaly_deriv m ε).cos.sub hs).const_mul (-a)).const_mul ε).congr_deriv (by simp)

theorem pathY_deriv (a m ε : ℝ) : HasDerivAt (pathY a m ε) 0 0 := by
  have hs : HasDerivAt (fun s : ℝ => √(1 - (s ^ 2) ^ 2)) 0 0 := by
    have h4 : HasDerivAt (fun s : ℝ => 1 - (s ^ 2) ^ 2) 0 0 := by
      have := (hasDerivAt_pow 4 (0 : ℝ)).const_sub 1
      simp only [← pow_mul]
      simpa using this
    simpa using h4.sqrt (by norm_num)
  exact (((hs.mul (pathAnomaly_deriv m ε).sin).const_mul (-a)).const_mul ε).congr_deriv (by simp)

theorem path_zero (a m : ℝ) : pathX a m 1 0 = pathX a m (-1) 0 ∧ pathY a m 1 0 = pathY a m (-1) 0 := by
  simp [pathX, pathY, pathAnomaly_zero, cos_add, sin_add]

theorem conic_xy {e : ℝ} (a : ℝ) (he0 : 0 ≤ e) (he : e < 1) (M : ℝ) :
    -a * (1 - e ^ 2) / (1 + e * (keplerOp M e).2) * (keplerOp M e).2 = -a * (cos (eccAnomaly e M) - e) ∧
    -a * (1 - e ^ 2) / (1 + e * (keplerOp M e).2) * (keplerOp M e).1 = -a * (√(1 - e ^ 2) * sin (eccAnomaly e M)) := by
  have h1 := (one_sub_mul_cos_pos he0 he (eccAnomaly e M)).ne'
  have h2 := (one_add_mul_cosf_pos he0 he M).ne'
  have h3 : 1 - e ^ 2 ≠ 0 := by nlinarith
  have h4 : 1 + e * (keplerOp M e).2 = (1 - e ^ 2) / (1 - e * cos (eccAnomaly e M)) := by
    simp only [keplerOp]; field_simp; ring
  rw [h4]
  simp only [keplerOp]
  constructor <;> field_simp

/-- Orbits with eccentricity `s²` and argument of periastron zero or `π`. -/
theorem path_real {q : KepPar → ℝ} {s : ℝ} (hP : q .period ≠ 0) (he : q .ecc = s ^ 2) (hω : q .omega = arctan2 0 s) (hs : |s| < 1) (L : ℝ → ℝ → ℝ) (t : ℝ) {ε : ℝ}
    (hε : 0 ≤ s ∧ ε = 1 ∨ s < 0 ∧ ε = -1) :
    (KepMode.angle.x1G .input (KepMode.clock t)).real L q = pathX (q .a) ((t - q .t0) * (2 * π / q .period)) ε s ∧
    (KepMode.angle.y1G .input (KepMode.clock t)).real L q = pathY (q .a) ((t - q .t0) * (2 * π / q .period)) ε s ∧
    (KepMode.angle.cosInclG .input).real L q = 1 / (1 - (s ^ 2) ^ 2) * q .r_star / q .a * q .b := by
  have he0 := sq_nonneg s
  have he1 := (sq_lt_one_iff_abs_lt_one _).2 hs
  have hω' : cos (q .omega) = ε ∧ sin (q .omega) = 0 := by
    rcases hε with ⟨h, rfl⟩ | ⟨h, rfl⟩
    · rw [hω, arctan2, show (⟨s, 0⟩ : ℂ) = (s : ℂ) from rfl, Complex.arg_ofReal_of_nonneg h]; simp
    · rw [hω, arctan2, show (⟨s, 0⟩ : ℂ) = (s : ℂ) from rfl, Complex.arg_ofReal_of_neg h]; simp
  have hε2 : ε = 1 ∨ ε = -1 := hε.imp And.right And.right
  have hE : (KepMode.angle.E0G .input).real L q = ε * (2 * arctan (√(1 - s ^ 2) / √(1 + s ^ 2))) := by
    simp only [KepMode.E0G, KepMode.cosOmegaG, KepMode.sinOmegaG, Graph.real, hω'.1, hω'.2, he, add_zero, mul_one]
    rw [Rounding.arctan2_of_pos (sqrt_pos.2 (by positivity))]
    rcases hε2 with rfl | rfl
    · simp
    · simp [neg_div]
  have hM0 : (KepMode.angle.M0G .input).real L q = ε * startAnomaly (s ^ 2) := by
    simp only [KepMode.M0G, Graph.real, hE, he, startAnomaly]
    rcases hε2 with rfl | rfl
    · simp
    · simp; ring
  have hM : (KepMode.angle.anomalyG .input (KepMode.clock t)).real L q = (t - q .t0) * (2 * π / q .period) + ε * startAnomaly (s ^ 2) := by
    simp only [KepMode.anomalyG, KepMode.clock, KepMode.nG, Graph.real, hM0]
    have := pi_pos.ne'
    field_simp
    ring
  obtain ⟨c1, c2⟩ := conic_xy (q .a) he0 he1 ((t - q .t0) * (2 * π / q .period) + ε * startAnomaly (s ^ 2))
  refine ⟨?_, ?_, ?_⟩
  · simp only [KepMode.x1G, KepMode.cosOmegaG, KepMode.sinOmegaG, KepMode.radiusG, KepMode.cosfG, KepMode.sinfG, KepMode.ome2G, Graph.real, hM, he, hω'.1, hω'.2]
    rw [c1, zero_mul, sub_zero]
    rfl
  · simp only [KepMode.y1G, KepMode.cosOmegaG, KepMode.sinOmegaG, KepMode.radiusG, KepMode.cosfG, KepMode.sinfG, KepMode.ome2G, Graph.real, hM, he, hω'.1, hω'.2]
    rw [c2, zero_mul, zero_add]
    rfl
  · simp only [KepMode.cosInclG, KepMode.inclFactorG, KepMode.sinOmegaG, KepMode.ome2G, Graph.real, he, hω'.2, mul_zero, add_zero]

theorem flux_along {f g h : ℝ → ℝ} {R r : ℝ} (hl : PhysicalLaw u1 u2) (hR : 0 < R) (hr : 0 < r) (hf : HasDerivAt f 0 0) (hg : HasDerivAt g 0 0) (hh : HasDerivAt h 0 0)
    (hne : ¬(f 0 = 0 ∧ g 0 = 0 ∧ r = R)) (hz : Clear R r ⟨f 0, g 0, h 0⟩) : HasDerivAt (fun s => fluxAt (getCl u1 u2) R r ⟨f s, g s, h s⟩) 0 0 := by
  have hc : ContDiffAt ℝ 1 (fun p : ℝ × ℝ × ℝ => fluxAt (getCl u1 u2) R r ⟨p.1, p.2.1, p.2.2⟩) (f 0, g 0, h 0) :=
    fluxAt_contDiffAt (v := fun p : ℝ × ℝ × ℝ => ⟨p.1, p.2.1, p.2.2⟩) (R := fun _ => R) (r := fun _ => r) (u1 := fun _ => u1) (u2 := fun _ => u2) hl.pos.ne'
      contDiffAt_const contDiffAt_const hR contDiffAt_const contDiffAt_fst (contDiffAt_fst.comp _ contDiffAt_snd) (by fun_prop) contDiffAt_const hr
      (fun h => hne ⟨h.1, h.2.1, h.2.2.1⟩) hz
  have hd := (hc.differentiableAt one_ne_zero).hasFDerivAt
  have := HasFDerivAt.comp_hasDerivAt (f := fun s => (f s, g s, h s)) (0 : ℝ) hd (hf.prodMk (hg.prodMk hh))
  exact this.congr_deriv (map_zero _)

/-- The sampled variable along which the argument of periastron is zero or `π`. -/
def radialVar (flip : Bool) (nx ny : String) : String := if flip then "__" ++ ny ++ "_unit_disk" else nx

/-- **C129 (the truth at the centre of the disc).** There the light curve is differentiable with respect to the variable along which `omega` is zero or `π`, and its derivative is zero, unless a planet of the size of the
star is exactly in front of it or the planet grazes the star in the plane of the sky. -/
theorem C129_truth (h : unitDisk b nx ny K = .ok (rs, x, y)) (hl : PhysicalLaw u1 u2) (hn : nx ≠ "__" ++ ny ++ "_unit_disk") (hx : σ nx = 0) (hy : σ ("__" ++ ny ++ "_unit_disk") = 0)
    (hR : 0 < σ "r_star") (hr : 0 < σ "r") (hP : 0 < σ "period") {j : String} (hj : j = radialVar flip nx ny) (hj' : j ∉ ["a", "period", "t0", "b", "r_star", "r"])
    {o : State → Orbit} (ho : ∀ σ, keplerianInit C (KepMode.angle.args (diskOrbit flip x y σ)) = .ok (o σ)) (t : ℝ) (hi : |(o σ).cos_incl| < 1)
    (hne : ¬(((o σ).relativePosition C t).x = 0 ∧ ((o σ).relativePosition C t).y = 0 ∧ σ "r" = σ "r_star")) (hz : Clear (σ "r_star") (σ "r") ((o σ).relativePosition C t)) :
    HasDerivAt (fun s => fluxAt (getCl u1 u2) (update σ j s "r_star") (update σ j s "r") ((o (update σ j s)).relativePosition C t)) 0 (σ j) := by
  have hnx : (0 : ℝ) < 1 := one_pos
  have hσj : σ j = 0 := by
    rw [hj, radialVar]
    cases flip
    · exact hx
    · exact hy
  have hk : ∀ k ∈ ["a", "period", "t0", "b", "r_star", "r"], ∀ s, update σ j s k = σ k := fun k hk s => update_of_ne (fun e : k = j => hj' (e ▸ hk)) _ _
  have hq : ∀ s, diskOrbit flip x y (update σ j s) .ecc = s ^ 2 ∧ diskOrbit flip x y (update σ j s) .omega = arctan2 0 s := by
    obtain ⟨i0, i1, -, -, -, rfl, rfl⟩ := unitDisk_ok b nx ny h
    intro s
    subst hj
    cases flip
    · simp [diskOrbit, eccOf, eccVector, radialVar, update_of_ne hn.symm, hy]
    · simp [diskOrbit, eccOf, eccVector, radialVar, update_of_ne hn, hx]
  set L : ℝ → ℝ → ℝ := fun _ _ => 0
  set m := (t - σ "t0") * (2 * π / σ "period")
  have hpath : ∀ s, |s| < 1 → ∀ ε, (0 ≤ s ∧ ε = 1 ∨ s < 0 ∧ ε = -1) →
      (KepMode.angle.x1G .input (KepMode.clock t)).real L (diskOrbit flip x y (update σ j s)) = pathX (σ "a") m ε s ∧
      (KepMode.angle.y1G .input (KepMode.clock t)).real L (diskOrbit flip x y (update σ j s)) = pathY (σ "a") m ε s ∧
      (KepMode.angle.cosInclG .input).real L (diskOrbit flip x y (update σ j s)) = 1 / (1 - (s ^ 2) ^ 2) * σ "r_star" / σ "a" * σ "b" := by
    intro s hs ε hε
    have e1 : diskOrbit flip x y (update σ j s) .period = σ "period" := hk "period" (by simp) s
    have e2 : diskOrbit flip x y (update σ j s) .a = σ "a" := hk "a" (by simp) s
    have e3 : diskOrbit flip x y (update σ j s) .t0 = σ "t0" := hk "t0" (by simp) s
    have e4 : diskOrbit flip x y (update σ j s) .b = σ "b" := hk "b" (by simp) s
    have e5 : diskOrbit flip x y (update σ j s) .r_star = σ "r_star" := hk "r_star" (by simp) s
    have := path_real (q := diskOrbit flip x y (update σ j s)) (by rw [e1]; exact hP.ne') (hq s).1 (hq s).2 hs L t hε
    rwa [e1, e2, e3, e4, e5] at this
  have hpos : ∀ s, (o (update σ j s)).relativePosition C t = ⟨(KepMode.angle.x1G .input (KepMode.clock t)).real L (diskOrbit flip x y (update σ j s)),
      (KepMode.angle.cosInclG .input).real L (diskOrbit flip x y (update σ j s)) * (KepMode.angle.y1G .input (KepMode.clock t)).real L (diskOrbit flip x y (update σ j s)),
      -sin (arccos ((KepMode.angle.cosInclG .input).real L (diskOrbit flip x y (update σ j s)))) *
        (KepMode.angle.y1G .input (KepMode.clock t)).real L (diskOrbit flip x y (update σ j s))⟩ ∧
      (o (update σ j s)).cos_incl = (KepMode.angle.cosInclG .input).real L (diskOrbit flip x y (update σ j s)) := fun s =>
    keplerGraph_real (ho (update σ j s)) L t
  have hX : HasDerivAt (fun s => (KepMode.angle.x1G .input (KepMode.clock t)).real L (diskOrbit flip x y (update σ j s))) 0 0 :=
    hasDerivAt_glue (pathX_deriv (σ "a") m 1) (pathX_deriv (σ "a") m (-1)) (fun s h0 h1 => (hpath s (abs_lt.2 ⟨by linarith, h1⟩) 1 (.inl ⟨h0, rfl⟩)).1)
      (fun s h0 h1 => (hpath s (abs_lt.2 ⟨h1, by linarith⟩) (-1) (.inr ⟨h0, rfl⟩)).1) (path_zero _ _).1
  have hY : HasDerivAt (fun s => (KepMode.angle.y1G .input (KepMode.clock t)).real L (diskOrbit flip x y (update σ j s))) 0 0 :=
    hasDerivAt_glue (pathY_deriv (σ "a") m 1) (pathY_deriv (σ "a") m (-1)) (fun s h0 h1 => (hpath s (abs_lt.2 ⟨by linarith, h1⟩) 1 (.inl ⟨h0, rfl⟩)).2.1)
      (fun s h0 h1 => (hpath s (abs_lt.2 ⟨h1, by linarith⟩) (-1) (.inr ⟨h0, rfl⟩)).2.1) (path_zero _ _).2
  have hI : HasDerivAt (fun s => (KepMode.angle.cosInclG .input).real L (diskOrbit flip x y (update σ j s))) 0 0 := by
    have h4 : HasDerivAt (fun s : ℝ => 1 - (s ^ 2) ^ 2) 0 0 := by
      have := (hasDerivAt_pow 4 (0 : ℝ)).const_sub 1
      simp only [← pow_mul]
      simpa using this
    have h5 : HasDerivAt (fun s : ℝ => 1 / (1 - (s ^ 2) ^ 2) * σ "r_star" / σ "a" * σ "b") 0 0 :=
      (((((hasDerivAt_const (0 : ℝ) (1 : ℝ)).div h4 (by norm_num)).mul_const _).div_const _).mul_const _).congr_deriv (by simp)
    refine hasDerivAt_glue h5 h5 (fun s h0 h1 => (hpath s (abs_lt.2 ⟨by linarith, h1⟩) 1 (.inl ⟨h0, rfl⟩)).2.2)
      (fun s h0 h1 => (hpath s (abs_lt.2 ⟨h1, by linarith⟩) (-1) (.inr ⟨h0, rfl⟩)).2.2) rfl
  have hσ0 : update σ j 0 = σ := by rw [← hσj, update_eq_self]
  have hi' := hi
  rw [← hσ0, (hpos 0).2] at hi'
  obtain ⟨hi1, hi2⟩ := abs_lt.1 hi'
  have hA : HasDerivAt (fun s => arccos ((KepMode.angle.cosInclG .input).real L (diskOrbit flip x y (update σ j s)))) 0 0 :=
    (HasDerivAt.comp (h₂ := arccos) (0 : ℝ) (hasDerivAt_arccos hi1.ne' hi2.ne) hI).congr_deriv (by simp)
  rw [hσj]
  have hfl := flux_along (R := σ "r_star") (r := σ "r") (f := fun s => ((o (update σ j s)).relativePosition C t).x) (g := fun s => ((o (update σ j s)).relativePosition C t).y)
    (h := fun s => ((o (update σ j s)).relativePosition C t).z) (u1 := u1) (u2 := u2) hl hR hr (by simpa only [(hpos _).1] using hX)
    (by simp only [(hpos _).1]; exact (hI.mul hY).congr_deriv (by simp)) (by simp only [(hpos _).1]; exact (hA.sin.neg.mul hY).congr_deriv (by simp))
    (by rw [hσ0]; exact hne) (by rw [hσ0]; exact hz)
  refine hfl.congr_of_eventuallyEq (.of_forall fun s => ?_)
  beta_reduce
  rw [hk "r_star" (by simp), hk "r" (by simp)]

/-- **C129 (the radial velocity at the centre of the disc).** There the radial velocity of an orbit with a given time of periastron is not even continuous, unless it happens to be zero: the argument of periastron jumps by `π`. -/
theorem C129_rv_jump (h : unitDisk b nx ny K = .ok (rs, x, y)) (hn : nx ≠ "__" ++ ny ++ "_unit_disk") (hx : σ nx = 0) (hy : σ ("__" ++ ny ++ "_unit_disk") = 0)
    {j : String} (hj : j = radialVar flip nx ny) (hj' : j ∉ ["period", "tperi", "semiamp"]) {o : State → Orbit}
    (ho : ∀ σ, keplerianInit C (RvMode.t_periastron.args .angle (diskRv flip x y σ)) = .ok (o σ)) (t : ℝ) (f : State → ℝ)
    (hf : ∀ σ, (o σ).radialVelocity C t (some (σ "semiamp")) none = .ok (f σ)) (h0 : f σ ≠ 0) : ¬ContinuousAt (fun s => f (update σ j s)) (σ j) := by
  have hσj : σ j = 0 := by
    rw [hj, radialVar]
    cases flip
    · exact hx
    · exact hy
  have hσ0 : update σ j 0 = σ := by rw [← hσj, update_eq_self]
  have hk : ∀ k ∈ ["period", "tperi", "semiamp"], ∀ s, update σ j s k = σ k := fun k hk s => update_of_ne (fun e : k = j => hj' (e ▸ hk)) _ _
  have hq : ∀ s, diskOrbit flip x y (update σ j s) .ecc = s ^ 2 ∧ diskOrbit flip x y (update σ j s) .omega = arctan2 0 s := by
    obtain ⟨i0, i1, -, -, -, rfl, rfl⟩ := unitDisk_ok b nx ny h
    intro s
    subst hj
    cases flip
    · simp [diskOrbit, eccOf, eccVector, radialVar, update_of_ne hn.symm, hy]
    · simp [diskOrbit, eccOf, eccVector, radialVar, update_of_ne hn, hx]
  set M := (t - σ "tperi") * (2 * π / σ "period") with hM
  set V : ℝ → ℝ := fun s => σ "semiamp" * ((cos (eccAnomaly (s ^ 2) M) - s ^ 2) / (1 - s ^ 2 * cos (eccAnomaly (s ^ 2) M)) + s ^ 2) with hV
  have hval : ∀ s, f (update σ j s) = cos (arctan2 0 s) * V s := by
    intro s
    have hfs := Except.ok.inj ((hf (update σ j s)).symm.trans (by rw [show update σ j s "semiamp" = diskRv flip x y (update σ j s) .K from rfl]; exact rvKG_real (ho _) (fun _ _ => 0) t))
    have e1 : diskRv flip x y (update σ j s) (.kep .period) = σ "period" := hk "period" (by simp) s
    have e2 : diskRv flip x y (update σ j s) .t_periastron = σ "tperi" := hk "tperi" (by simp) s
    have e3 : diskRv flip x y (update σ j s) .K = σ "semiamp" := hk "semiamp" (by simp) s
    have e4 : diskRv flip x y (update σ j s) (.kep .ecc) = s ^ 2 := (hq s).1
    have e5 : diskRv flip x y (update σ j s) (.kep .omega) = arctan2 0 s := (hq s).2
    have hs : sin (arctan2 0 s) = 0 := by rw [arctan2, Complex.sin_arg]; simp
    rw [hfs]
    simp only [RvMode.rvG, RvMode.anomalyG, RvMode.tPeriG, RvMode.parG, KepMode.nG, KepMode.cosOmegaG, KepMode.sinOmegaG, Graph.real, e1, e2, e3, e4, e5, hs]
    rw [show ∀ a b c : ℝ, a - c - (b - c) = a - b by intros; ring, ← hM, hV]
    simp only [keplerOp]
    ring
  have hE : Filter.Tendsto (fun s : ℝ => eccAnomaly (s ^ 2) M) (𝓝 0) (𝓝 M) := by
    have hd : HasDerivAt (fun s : ℝ => eccAnomaly (s ^ 2) M - M) 0 0 := by
      refine hasDerivAt_of_sq (.of_forall fun s => ?_)
      have hk := keplerMap_eccAnomaly (sq_nonneg s) M
      rw [keplerMap] at hk
      rw [show eccAnomaly (s ^ 2) M - M = s ^ 2 * sin (eccAnomaly (s ^ 2) M) by linarith, abs_mul, abs_of_nonneg (sq_nonneg s)]
      exact mul_le_of_le_one_right (sq_nonneg s) (abs_sin_le_one _)
    have := hd.continuousAt.tendsto
    simp only [ne_eq, OfNat.ofNat_ne_zero, not_false_eq_true, zero_pow, eccAnomaly_zero_ecc, sub_self] at this
    simpa using this.add_const M
  have hVc : Filter.Tendsto V (𝓝 0) (𝓝 (V 0)) := by
    have h2 : Filter.Tendsto (fun s : ℝ => s ^ 2) (𝓝 0) (𝓝 0) := by simpa using (continuous_pow 2).tendsto (0 : ℝ)
    have h3 := (continuous_cos.tendsto M).comp hE
    have h4 := (((h3.sub h2).div ((tendsto_const_nhds (x := (1 : ℝ))).sub (h2.mul h3)) (by simp)).add h2).const_mul (σ "semiamp")
    rw [hV]
    simp only [ne_eq, OfNat.ofNat_ne_zero, not_false_eq_true, zero_pow, eccAnomaly_zero_ecc]
    exact h4
  have hV0 : f σ = V 0 := by
    have := hval 0
    rw [hσ0, show arctan2 0 0 = 0 from Complex.arg_zero, cos_zero, one_mul] at this
    exact this
  rw [hσj]
  intro hc
  have hl : Filter.Tendsto (fun s => f (update σ j s)) (𝓝[<] 0) (𝓝 (V 0)) := by
    have := hc.tendsto.mono_left (nhdsWithin_le_nhds (s := Set.Iio 0))
    rwa [hσ0, hV0] at this
  have hl' : Filter.Tendsto (fun s => f (update σ j s)) (𝓝[<] 0) (𝓝 (-V 0)) := by
    refine ((hVc.neg).mono_left (nhdsWithin_le_nhds (s := Set.Iio 0))).congr' ?_
    filter_upwards [self_mem_nhdsWithin] with s hs
    rw [hval, arctan2, show (⟨s, 0⟩ : ℂ) = (s : ℂ) from rfl, Complex.arg_ofReal_of_neg hs, cos_pi, neg_one_mul]
  have := tendsto_nhds_unique hl hl'
  exact h0 (by rw [hV0]; linarith)

/-- The values of the variables in the examples. -/
noncomputable def demoDisk (h v : ℝ) : State := fun k =>
  if k = "h" then h else if k = "__k_unit_disk" then v else if k = "a" then 10 else if k = "b" then 1 / 2 else if k = "r" then 1 / 10 else if k = "t0" then 0 else 1

theorem demoDisk_position {h : unitDisk b "h" "k" K = .ok (rs, x, y)} {o : Orbit} (ho : keplerianInit C (KepMode.angle.args (diskOrbit flip x y (demoDisk 0 0))) = .ok o) :
    o.relativePosition C 0 = ⟨0, -(1 / 2), sin (arccos (1 / 20)) * 10⟩ ∧ o.cos_incl = 1 / 20 := by
  have hq : diskOrbit flip x y (demoDisk 0 0) .ecc = (0 : ℝ) ^ 2 ∧ diskOrbit flip x y (demoDisk 0 0) .omega = arctan2 0 0 := by
    obtain ⟨i0, i1, -, -, -, rfl, rfl⟩ := unitDisk_ok b "h" "k" h
    cases flip
    · simp [diskOrbit, eccOf, eccVector, demoDisk]
    · simp [diskOrbit, eccOf, eccVector, demoDisk]
  obtain ⟨p1, p2⟩ := keplerGraph_real ho (fun _ _ => 0) 0
  obtain ⟨h1, h2, h3⟩ := path_real (q := diskOrbit flip x y (demoDisk 0 0)) (by simp [diskOrbit, demoDisk]) hq.1 hq.2 (by simp) (fun _ _ => 0) 0 (.inl ⟨le_rfl, rfl⟩)
  have e1 : diskOrbit flip x y (demoDisk 0 0) .a = 10 := by simp [diskOrbit, demoDisk]
  have e2 : diskOrbit flip x y (demoDisk 0 0) .t0 = 0 := by simp [diskOrbit, demoDisk]
  have e3 : diskOrbit flip x y (demoDisk 0 0) .r_star = 1 := by simp [diskOrbit, demoDisk]
  have e4 : diskOrbit flip x y (demoDisk 0 0) .b = 1 / 2 := by simp [diskOrbit, demoDisk]
  rw [e1, e2] at h1 h2
  rw [e1, e3, e4] at h3
  have hc : (1 : ℝ) / (1 - ((0 : ℝ) ^ 2) ^ 2) * 1 / 10 * (1 / 2) = 1 / 20 := by norm_num
  rw [hc] at h3
  refine ⟨?_, p2.trans h3⟩
  rw [p1]
  simp only [KepMode.yG, KepMode.zG, KepMode.sinInclG, Graph.real, h1, h2, h3, pathX, pathY, pathAnomaly_zero]
  norm_num

/-- **C129 (counterexample).** The sampler starts at a point where the light curve is differentiable with respect to one of the two variables of `unit_disk`, with derivative zero, and where exact arithmetic in the
compiled graph yields NaN. -/
theorem C129_gradient_counterexample (b : Backend) (flip : Bool) (C : Consts) (hl : PhysicalLaw u1 u2) :
    ∃ rs x y σ, unitDisk b "h" "k" [] = .ok (rs, x, y) ∧ IsStart b rs σ ∧ ∀ o : State → Orbit, (∀ σ, keplerianInit C (KepMode.angle.args (diskOrbit flip x y σ)) = .ok (o σ)) →
      ∃ j, HasDerivAt (fun s => fluxAt (getCl u1 u2) (update σ j s "r_star") (update σ j s "r") ((o (update σ j s)).relativePosition C 0)) 0 (σ j) ∧
        ∀ op g, (Helper.lightCurveG flip "h" "k" 0).back op (fun i => .fin (σ i)) g j = .nan := by
  have hr : requested [] (.seq [fun _ => 0, fun _ => 0]) = .seq [fun _ => 0, fun _ => 0] := rfl
  obtain ⟨⟨rs, x, y⟩, h⟩ : ∃ r, unitDisk b "h" "k" [] = .ok r := by
    rw [unitDisk_eq, hr]
    exact ⟨_, rfl⟩
  refine ⟨rs, x, y, demoDisk 0 0, h, ?_, fun o ho => ?_⟩
  · obtain ⟨i0, i1, e0, e1, rfl, rfl, rfl⟩ := unitDisk_ok b "h" "k" h
    rw [hr] at e0 e1
    injection e0 with e0
    injection e1 with e1
    subst e0 e1
    have hne : ("h" : String) ≠ "__" ++ "k" ++ "_unit_disk" := by decide
    intro n d kw hm
    simp only [pmVar, List.mem_cons, Reg.free.injEq, reduceCtorEq, List.not_mem_nil, or_false] at hm
    rcases hm with ⟨rfl, -, -⟩ | ⟨rfl, -, -⟩
    · refine ⟨_, startValue_self _ _ _ (limKw_mem ..) _, ?_⟩
      rw [limKw_start _ _ _ _ _ (strip_initval _) (strip_testval _)]
      simp [demoDisk, Val.eval]
    · refine ⟨_, (startValue_ne _ _ hne _ _).trans (startValue_self _ _ _ (limKw_mem ..) _), ?_⟩
      rw [limKw_start _ _ _ _ _ (strip_initval _) (strip_testval _)]
      simp [demoDisk, Val.eval]
  · obtain ⟨p1, p2⟩ := demoDisk_position (h := h) (ho (demoDisk 0 0))
    refine ⟨radialVar flip "h" "k", ?_, fun op g => (C129_origin (by simp [demoDisk]) (by simp [demoDisk]) 0 g (by cases flip <;> simp [radialVar])).1⟩
    refine C129_truth h hl (by decide) (by simp [demoDisk]) (by simp [demoDisk]) (by simp [demoDisk]) (by simp [demoDisk]) (by simp [demoDisk]) rfl (by cases flip <;> decide) ho 0
      (by rw [p2, abs_of_pos (by norm_num)]; norm_num) (by rw [p1]; norm_num) (.inl ?_)
    rw [p1]
    have : 0 < sin (arccos (1 / 20)) := by
      rw [sin_arccos]; exact sqrt_pos.2 (by norm_num)
    positivity

/-- The hypotheses of `C129_light_curve_partial` are satisfiable: an orbit of eccentricity 0.01 in transit. -/
example (h : unitDisk b "h" "k" K = .ok (rs, x, y)) (hl : PhysicalLaw u1 u2) (o : State → Orbit) (ho : ∀ σ, keplerianInit C (KepMode.angle.args (diskOrbit false x y σ)) = .ok (o σ)) :
    GradientRight (exactOp u1 u2) (Helper.lightCurveG false "h" "k" 0) (fun σ => fluxAt (getCl u1 u2) (σ "r_star") (σ "r") ((o σ).relativePosition C 0)) (demoDisk (1 / 10) 0) := by
  set q := diskOrbit false x y (demoDisk (1 / 10) 0) with hqd
  have hq : q .ecc = (1 / 10 : ℝ) ^ 2 ∧ q .omega = arctan2 0 (1 / 10) := by
    obtain ⟨i0, i1, -, -, -, rfl, rfl⟩ := unitDisk_ok b "h" "k" h
    simp [hqd, diskOrbit, eccOf, eccVector, demoDisk]
  have hω : q .omega = 0 := by
    rw [hq.2, arctan2, show (⟨1 / 10, 0⟩ : ℂ) = ((1 / 10 : ℝ) : ℂ) from rfl, Complex.arg_ofReal_of_nonneg (by norm_num)]
  have e1 : q .a = 10 := by simp [hqd, diskOrbit, demoDisk]
  have e2 : q .t0 = 0 := by simp [hqd, diskOrbit, demoDisk]
  have e3 : q .r_star = 1 := by simp [hqd, diskOrbit, demoDisk]
  have e4 : q .b = 1 / 2 := by simp [hqd, diskOrbit, demoDisk]
  have e5 : q .period = 1 := by simp [hqd, diskOrbit, demoDisk]
  have e6 : q .r = 1 / 10 := by simp [hqd, diskOrbit, demoDisk]
  have hP : KepMode.angle.Possible q := by
    refine ⟨by rw [e1]; norm_num, by rw [e5]; norm_num, by rw [e3]; norm_num, by rw [e6]; norm_num, fun _ => by rw [hq.1]; norm_num, fun _ => ?_⟩
    change -1 < sin (q .omega)
    rw [hω]; simp
  obtain ⟨p1, p2⟩ := keplerGraph_real (ho (demoDisk (1 / 10) 0)) (fun _ _ => 0) 0
  obtain ⟨-, h2, h3⟩ := path_real (q := q) (by rw [e5]; norm_num) hq.1 hq.2 (by norm_num [abs_lt]) (fun _ _ => 0) 0 (.inl ⟨by norm_num, rfl⟩)
  rw [e1, e2, e5] at h2
  rw [e1, e3, e4] at h3
  have hA : pathAnomaly ((0 - 0) * (2 * π / 1)) 1 (1 / 10) = 2 * arctan (√(1 - (1 / 10) ^ 2) / √(1 + (1 / 10) ^ 2)) := by
    rw [pathAnomaly]
    exact eccAnomaly_unique (by norm_num) (by norm_num) (by simp only [keplerMap, startAnomaly]; ring)
  have hs : 0 < sin (2 * arctan (√(1 - (1 / 10) ^ 2) / √(1 + (1 / 10) ^ 2))) := by
    have h0 : 0 < √(1 - (1 / 10 : ℝ) ^ 2) / √(1 + (1 / 10) ^ 2) := div_pos (sqrt_pos.2 (by norm_num)) (sqrt_pos.2 (by norm_num))
    have := arctan_pos.2 h0
    have := arctan_lt_pi_div_two (√(1 - (1 / 10) ^ 2) / √(1 + (1 / 10) ^ 2))
    exact sin_pos_of_pos_of_lt_pi (by linarith) (by linarith)
  have hy : pathY 10 ((0 - 0) * (2 * π / 1)) 1 (1 / 10) ≠ 0 := by
    rw [pathY, hA]
    have : 0 < √(1 - ((1 / 10 : ℝ) ^ 2) ^ 2) := sqrt_pos.2 (by norm_num)
    exact mul_ne_zero one_ne_zero (mul_ne_zero (by norm_num) (mul_pos this hs).ne')
  have hp : ((o (demoDisk (1 / 10) 0)).relativePosition C 0).y ≠ 0 ∧ ((o (demoDisk (1 / 10) 0)).relativePosition C 0).z ≠ 0 := by
    rw [p1]
    simp only [KepMode.yG, KepMode.zG, KepMode.sinInclG, Graph.real]
    rw [h2, h3]
    have : 0 < sin (arccos (1 / (1 - ((1 / 10 : ℝ) ^ 2) ^ 2) * 1 / 10 * (1 / 2))) := by
      rw [sin_arccos]; exact sqrt_pos.2 (by norm_num)
    exact ⟨mul_ne_zero (by norm_num) hy, mul_ne_zero (neg_ne_zero.2 this.ne') hy⟩
  refine C129_light_curve_partial h hl (exactOp_exact u1 u2).1 (exactOp_exact u1 u2).2 (by simp only [demoDisk]; norm_num [abs_lt]) hP (by rw [← hqd, hq.1]; norm_num) ho 0 ?_ (.inr hp.1) (.inl hp.2)
  rw [p2, h3, abs_lt]
  norm_num

/-- The hypotheses of the statements for the helpers are satisfiable. -/
example : |demoDisk (1 / 10) (1 / 5) "h"| < 1 ∧ demoDisk (1 / 10) (1 / 5) "h" ≠ 0 := by
  simp only [demoDisk]; norm_num [abs_lt]

/-- The hypotheses of `C129_rv_partial` are satisfiable: the same orbit, at all times. -/
example (h : unitDisk b "h" "k" K = .ok (rs, x, y)) (o : State → Orbit) (ho : ∀ σ, keplerianInit C (RvMode.t_periastron.args .angle (diskRv false x y σ)) = .ok (o σ)) (t : ℝ) (f : State → ℝ)
    (hf : ∀ σ, (o σ).radialVelocity C t (some (σ "semiamp")) none = .ok (f σ)) : GradientRight (exactOp u1 u2) (Helper.rvG false "h" "k" t) f (demoDisk (1 / 10) 0) := by
  have hq : diskOrbit false x y (demoDisk (1 / 10) 0) .ecc = (1 / 10 : ℝ) ^ 2 ∧ diskOrbit false x y (demoDisk (1 / 10) 0) .omega = arctan2 0 (1 / 10) := by
    obtain ⟨i0, i1, -, -, -, rfl, rfl⟩ := unitDisk_ok b "h" "k" h
    simp [diskOrbit, eccOf, eccVector, demoDisk]
  have hω : arctan2 0 (1 / 10) = 0 := by
    rw [arctan2, show (⟨1 / 10, 0⟩ : ℂ) = ((1 / 10 : ℝ) : ℂ) from rfl, Complex.arg_ofReal_of_nonneg (by norm_num)]
  refine C129_rv_partial h (exactOp_exact u1 u2).2 (by simp only [demoDisk]; norm_num [abs_lt]) ⟨?_, fun _ => ?_, fun _ => ?_⟩
    (show 0 < diskOrbit false x y (demoDisk (1 / 10) 0) .ecc by rw [hq.1]; norm_num) ho t f hf
  · simp [diskRv, diskOrbit, demoDisk]
  · change 0 ≤ diskOrbit false x y (demoDisk (1 / 10) 0) .ecc ∧ diskOrbit false x y (demoDisk (1 / 10) 0) .ecc < 1
    rw [hq.1]; norm_num
  · change -1 < sin (diskOrbit false x y (demoDisk (1 / 10) 0) .omega)
    rw [hq.2, hω]; simp

/-- The hypotheses of `C129_rv_jump` are satisfiable: at the centre of the disc, at the time of periastron, the velocity is the semi-amplitude. -/
example (h : unitDisk b "h" "k" K = .ok (rs, x, y)) (o : State → Orbit) (ho : ∀ σ, keplerianInit C (RvMode.t_periastron.args .angle (diskRv flip x y σ)) = .ok (o σ)) (f : State → ℝ)
    (hf : ∀ σ, (o σ).radialVelocity C 1 (some (σ "semiamp")) none = .ok (f σ)) : ¬ContinuousAt (fun s => f (update (demoDisk 0 0) (radialVar flip "h" "k") s)) 0 := by
  have hq : diskOrbit flip x y (demoDisk 0 0) .ecc = 0 ∧ diskOrbit flip x y (demoDisk 0 0) .omega = 0 := by
    obtain ⟨i0, i1, -, -, -, rfl, rfl⟩ := unitDisk_ok b "h" "k" h
    have : arctan2 0 0 = 0 := Complex.arg_zero
    cases flip <;> simp [diskOrbit, eccOf, eccVector, demoDisk, this]
  have hv : f (demoDisk 0 0) = 1 := by
    have hfs := Except.ok.inj ((hf (demoDisk 0 0)).symm.trans (by
      rw [show demoDisk 0 0 "semiamp" = diskRv flip x y (demoDisk 0 0) .K from rfl]; exact rvKG_real (ho _) (fun _ _ => 0) 1))
    have e2 : diskRv flip x y (demoDisk 0 0) .t_periastron = 1 := by simp [diskRv, demoDisk]
    have e3 : diskRv flip x y (demoDisk 0 0) .K = 1 := by simp [diskRv, demoDisk]
    have e4 : diskRv flip x y (demoDisk 0 0) (.kep .ecc) = 0 := hq.1
    have e5 : diskRv flip x y (demoDisk 0 0) (.kep .omega) = 0 := hq.2
    rw [hfs]
    simp only [RvMode.rvG, RvMode.anomalyG, RvMode.tPeriG, RvMode.parG, KepMode.nG, KepMode.cosOmegaG, KepMode.sinOmegaG, Graph.real, e2, e3, e4, e5]
    rw [show ∀ c : ℝ, (1 : ℝ) - c - (1 - c) = 0 by intros; ring]
    simp [keplerOp, eccAnomaly_zero_ecc]
  have h0 : demoDisk 0 0 (radialVar flip "h" "k") = 0 := by cases flip <;> simp [radialVar, demoDisk]
  have := C129_rv_jump (σ := demoDisk 0 0) h (by decide) (by simp [demoDisk]) (by simp [demoDisk]) rfl (by cases flip <;> decide) ho 1 f hf (by rw [hv]; exact one_ne_zero)
  rwa [h0] at this

end Exo
