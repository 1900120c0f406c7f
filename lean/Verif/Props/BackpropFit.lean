import Verif.Spec.BackpropFit
import Verif.Props.BackpropAstro
import Verif.Props.BackpropLaw
import Verif.Props.VelocityFit

/-!
# C132: gradients of log-likelihoods as the compiled graph computes them
-/

namespace Exo
open Real Function

variable {op : FlOp} {L : ℝ → ℝ → ℝ} {C : Consts}

/-! ## Data with normal errors -/

section data
variable {ι : Type} [DecidableEq ι] {q : ι → ℝ}

theorem GradientRight.congr {G : Graph ι} {f f' : (ι → ℝ) → ℝ} (h : GradientRight op G f q) (e : ∀ q, f' q = f q) : GradientRight op G f' q := by
  rwa [show f' = f from funext e]

theorem GradientRight.add {G H : Graph ι} {f h : (ι → ℝ) → ℝ} (hG : GradientRight op G f q) (hH : GradientRight op H h q) :
    GradientRight op (.add G H) (fun q => f q + h q) q := by
  refine ⟨by simp only [Graph.value, hG.1, hH.1, Fl.fin_add], fun j => ?_⟩
  obtain ⟨D, d, e⟩ := hG.2 j
  obtain ⟨D', d', e'⟩ := hH.2 j
  exact ⟨D + D', d.add d', fun g => by simp only [Graph.back, e, e', Fl.fin_add, mul_add]⟩

theorem gradientRight_const (c : ℝ) : GradientRight op (.const c) (fun _ => c) q :=
  ⟨rfl, fun j => ⟨0, hasDerivAt_const _ _, fun g => by simp [Graph.back]⟩⟩

theorem gradientRight_input (i : ι) : GradientRight op (.input i) (fun q => q i) q :=
  .of_regular (L := fun _ _ => 0) trivial fun _ => rfl

theorem GradientRight.sum {α : Type} (G : α → Graph ι) (f : α → (ι → ℝ) → ℝ) {l : List α} (h : ∀ x ∈ l, GradientRight op (G x) (f x) q) :
    GradientRight op (Fit.sumG (l.map G)) (fun q => (l.map fun x => f x q).sum) q := by
  have key : ∀ (l : List α) (A : Graph ι) (a : (ι → ℝ) → ℝ), GradientRight op A a q → (∀ x ∈ l, GradientRight op (G x) (f x) q) →
      GradientRight op ((l.map G).foldl .add A) (fun q => a q + (l.map fun x => f x q).sum) q := by
    intro l
    induction l with
    | nil => intro A a hA _; simpa using hA
    | cons x l ih =>
      intro A a hA hl
      refine (ih _ _ (hA.add (hl x List.mem_cons_self)) fun y hy => hl y (List.mem_cons_of_mem _ hy)).congr fun q => ?_
      simp only [List.map_cons, List.sum_cons]
      ring
  exact (key l _ _ (gradientRight_const 0) h).congr fun q => by simp

theorem log_normalPdf {mu s x : ℝ} (hs : 0 < s) : Real.log (normalPdf mu s x) = -0.5 * ((x - mu) / s) ^ 2 - Real.log (√(2 * π)) - Real.log s := by
  have hp : 0 < √(2 * π) := sqrt_pos.2 (by have := pi_pos; positivity)
  rw [normalPdf, Real.log_div (exp_pos _).ne' (by positivity), Real.log_exp, Real.log_mul hs.ne' hp.ne']
  field_simp
  ring

theorem normalPdf_pos_fit {mu s x : ℝ} (hs : 0 < s) : 0 < normalPdf mu s x := by
  have := pi_pos
  unfold normalPdf
  positivity

theorem GradientRight.normal {V M : Graph ι} {v m : (ι → ℝ) → ℝ} (hV : GradientRight op V v q) (hM : GradientRight op M m q) {s : ℝ} (hs : 0 < s) :
    GradientRight op (Fit.normalG V M (.const s)) (fun q => Real.log (normalPdf (m q) s (v q))) q := by
  have h2 : (0 : ℝ) < 2 * π := by have := pi_pos; positivity
  have hlog : ∀ x : ℝ, 0 < x → (Fl.fin x).log = .fin (Real.log x) := fun x hx => by simp [Fl.log, not_lt.2 hx.le, hx.ne']
  refine GradientRight.congr ?_ fun q => log_normalPdf hs
  refine ⟨?_, fun j => ?_⟩
  · simp only [Fit.normalG, Graph.value, hV.1, hM.1, Fl.fin_sub, Fl.fin_div hs.ne', Fl.fin_pow, Fl.fin_mul, Fl.sqrt_fin h2.le, hlog _ (sqrt_pos.2 h2), hlog _ hs]
  obtain ⟨D, d, e⟩ := hV.2 j
  obtain ⟨D', d', e'⟩ := hM.2 j
  refine ⟨-0.5 * (2 * ((v q - m q) / s) * ((D - D') / s)), ?_, fun g => ?_⟩
  · have := (((((d.sub d').div_const s).pow 2).const_mul (-0.5)).sub_const (Real.log √(2 * π))).sub_const (Real.log s)
    refine this.congr_deriv ?_
    simp
  · have z : ∀ G : Graph ι, G.Free j → ∀ g, G.back op (fun i => .fin (q i)) g j = .fin 0 := fun G h => free_back G h
    rw [Fit.normalG, Graph.back, Graph.back, Graph.back]
    beta_reduce
    rw [z (.log (.const s)) trivial, z (.log (.sqrt (.mul (.const 2) (.const π)))) ⟨trivial, trivial⟩, z (.const (-0.5)) trivial, Graph.back, Graph.back, Graph.back]
    rw [Graph.back]
    simp only [Graph.value, hV.1, hM.1, Fl.fin_sub, Fl.fin_div hs.ne', Fl.fin_pow, Fl.fin_mul, Fl.fin_neg, e, e', Fl.fin_add]
    congr 1
    simp only [Nat.add_one_sub_one, pow_one, Nat.cast_ofNat]
    field_simp
    ring

theorem log_prod {α : Type} (l : List α) {f : α → ℝ} (h : ∀ x ∈ l, 0 < f x) : Real.log (l.map f).prod = (l.map fun x => Real.log (f x)).sum ∧ 0 < (l.map f).prod := by
  induction l with
  | nil => simp
  | cons x l ih =>
    obtain ⟨h1, h2⟩ := ih fun y hy => h y (List.mem_cons_of_mem _ hy)
    have hx := h x List.mem_cons_self
    simp only [List.map_cons, List.prod_cons, List.sum_cons]
    exact ⟨by rw [Real.log_mul hx.ne' h2.ne', h1], mul_pos hx h2⟩

/-- **C132 (data).** Wherever the computed values and derivatives of the model of each datum are right, so are those of the log-likelihood of all data. -/
theorem C132_likelihood {G : ℝ → Graph ι} {f : ℝ → (ι → ℝ) → ℝ} {data : List RvDatum} (he : ∀ d ∈ data, 0 < d.err) (h : ∀ d ∈ data, GradientRight op (G d.t) (f d.t) q) :
    GradientRight op (Fit.likelihoodG G data) (fun q => Real.log (dataDensity (fun t => f t q) data)) q := by
  refine (GradientRight.sum (fun d : RvDatum => Fit.normalG (.const d.obs) (G d.t) (.const d.err)) (fun d q => Real.log (normalPdf (f d.t q) d.err d.obs))
    fun d hd => (gradientRight_const d.obs).normal (h d hd) (he d hd)).congr fun q => ?_
  exact (log_prod data fun d hd => normalPdf_pos_fit (he d hd)).1

/-- **C132 (residuals).** The computed derivative of the log-likelihood is the sum over the data of the residuals, weighted by their variance, times the derivative of the model. -/
theorem C132_residuals {G : ℝ → Graph ι} {f : ℝ → (ι → ℝ) → ℝ} {data : List RvDatum} (he : ∀ d ∈ data, 0 < d.err) (h : ∀ d ∈ data, GradientRight op (G d.t) (f d.t) q)
    {j : ι} {D : ℝ → ℝ} (hD : ∀ d ∈ data, HasDerivAt (fun s => f d.t (update q j s)) (D d.t) (q j)) (g : ℝ) :
    (Fit.likelihoodG G data).back op (fun i => .fin (q i)) (.fin g) j = .fin (g * (data.map fun d => (d.obs - f d.t q) / d.err ^ 2 * D d.t).sum) := by
  obtain ⟨D', hD', hg⟩ := (C132_likelihood he h).2 j
  rw [hg]
  have key : HasDerivAt (fun s => Real.log (dataDensity (fun t => f t (update q j s)) data)) (data.map fun d => (d.obs - f d.t q) / d.err ^ 2 * D d.t).sum (q j) := by
    have e : (fun s => Real.log (dataDensity (fun t => f t (update q j s)) data)) = fun s =>
        (data.map fun d => Real.log (normalPdf (f d.t (update q j s)) d.err d.obs)).sum := by
      funext s; exact (log_prod data fun d hd => normalPdf_pos_fit (he d hd)).1
    rw [e]
    clear e hg hD' h
    induction data with
    | nil => simpa using hasDerivAt_const _ _
    | cons d l ih =>
      simp only [List.map_cons, List.sum_cons]
      refine HasDerivAt.add ?_ (ih (fun d hd => he d (List.mem_cons_of_mem _ hd)) fun d hd => hD d (List.mem_cons_of_mem _ hd))
      have hs := he d List.mem_cons_self
      have h1 := (((((hD d List.mem_cons_self).const_sub d.obs).div_const d.err).pow 2).const_mul (-0.5)).sub_const (Real.log √(2 * π)) |>.sub_const (Real.log d.err)
      have e2 : (fun s => Real.log (normalPdf (f d.t (update q j s)) d.err d.obs)) = fun s =>
          -0.5 * ((d.obs - f d.t (update q j s)) / d.err) ^ 2 - Real.log (√(2 * π)) - Real.log d.err := funext fun s => log_normalPdf hs
      rw [e2]
      refine h1.congr_deriv ?_
      simp
      field_simp
      norm_num
  rw [hD'.unique key]

theorem sumG_nan {l : List (Graph ι)} {A G : Graph ι} {env : ι → Fl} {g : Fl} {j : ι} (h : A.back op env g j = .nan ∨ (G ∈ l ∧ G.back op env g j = .nan)) :
    (l.foldl .add A).back op env g j = .nan := by
  induction l generalizing A with
  | nil =>
    rcases h with h | ⟨h, -⟩
    · exact h
    · simp at h
  | cons x l ih =>
    refine ih ?_
    rcases h with h | ⟨h, h'⟩
    · exact Or.inl (by simp [Graph.back, h])
    · rcases List.mem_cons.1 h with rfl | h
      · exact Or.inl (by simp [Graph.back, h'])
      · exact Or.inr ⟨h, h'⟩

/-- **C132 (one datum).** A single datum for which the derivative of the model is NaN makes that of the log-likelihood NaN, however many others there are, and however small its residual. -/
theorem C132_one_datum {G : ℝ → Graph ι} {data : List RvDatum} {d : RvDatum} (hd : d ∈ data) {env : ι → Fl} {j : ι} (h : ∀ g, (G d.t).back op env g j = .nan) (g : Fl) :
    (Fit.likelihoodG G data).back op env g j = .nan := by
  refine sumG_nan (G := Fit.normalG (.const d.obs) (G d.t) (.const d.err)) (Or.inr ⟨List.mem_map.2 ⟨d, hd, rfl⟩, ?_⟩)
  simp [Fit.normalG, Graph.back, h]

end data

/-! ## Circular orbits -/

theorem circular_clear {ι : Type} {P : KepPar → Graph ι} {w : Graph ι} {x : ι → ℝ} {R r : ℝ} (ha : 0 < (P .a).real L x) (h0 : (KepMode.circular.cosInclG P).real L x ≠ 0)
    (hi : |(KepMode.circular.cosInclG P).real L x| < 1) (hr : R + r < (P .a).real L x) :
    ((KepMode.circular.x1G P w).real L x ≠ 0 ∨ (KepMode.circular.yG P w).real L x ≠ 0) ∧
      Clear R r ⟨(KepMode.circular.x1G P w).real L x, (KepMode.circular.yG P w).real L x, (KepMode.circular.zG P w).real L x⟩ := by
  set M := (KepMode.circular.anomalyG P w).real L x with hM
  have hs0 : sin (arccos ((KepMode.circular.cosInclG P).real L x)) ≠ 0 := by
    rw [sin_arccos]
    have := (sq_lt_one_iff_abs_lt_one _).2 hi
    exact (sqrt_pos.2 (by linarith)).ne'
  have ex : (KepMode.circular.x1G P w).real L x = -(P .a).real L x * cos M := rfl
  have ey : (KepMode.circular.yG P w).real L x = (KepMode.circular.cosInclG P).real L x * (-(P .a).real L x * sin M) := rfl
  have ez : (KepMode.circular.zG P w).real L x = -sin (arccos ((KepMode.circular.cosInclG P).real L x)) * (-(P .a).real L x * sin M) := rfl
  rw [ex, ey, ez]
  unfold Clear
  by_cases hs : sin M = 0
  · have hc : cos M ^ 2 = 1 := by have := sin_sq_add_cos_sq M; rw [hs] at this; linarith
    have hne : cos M ≠ 0 := fun h => by rw [h] at hc; norm_num at hc
    refine ⟨Or.inl (mul_ne_zero (neg_ne_zero.2 ha.ne') hne), Or.inr ?_⟩
    simp only [hs, mul_zero]
    rw [mul_pow, hc, mul_one, neg_sq, zero_pow two_ne_zero, add_zero, sqrt_sq ha.le]
    exact hr
  · have := mul_ne_zero (neg_ne_zero.2 ha.ne') hs
    exact ⟨Or.inr (mul_ne_zero h0 this), Or.inl (mul_ne_zero (neg_ne_zero.2 hs0) this)⟩

/-! ## The transit tutorial -/

section tutorial
variable {B B' : Backend} {K K' : Kwargs} {rs rs' : List Reg} {u1 u2 bv : State → ℝ} {σ : State} {n : ℝ}

/-- **C132 (the transit tutorial).** At all states of the sampler within the support, for which the orbit lies outside of the star, the computed log-density and its derivatives with respect to all variables are
right, whatever the data and the times: the exceptions of C131 cannot occur. -/
theorem C132_transit (hu : quadLimbDark B "u" K = .ok (rs, u1, u2)) (hb : impactParameter B' "b" (fun σ => Real.exp (σ "log_r")) K' = .ok (rs', bv))
    (hs : op.ExactSolution) (hk : op.ExactKepler) (hσ : Tutorial.Possible n σ) (hb0 : 0 < σ "__b_impact_parameter") (hb1 : σ "__b_impact_parameter" ≤ 1)
    {o : State → Orbit} (ho : ∀ σ, keplerianInit C (Tutorial.args n bv σ) = .ok (o σ)) (ha : 1 + Real.exp (σ "log_r") < (o σ).a)
    {data : List RvDatum} (he : ∀ d ∈ data, 0 < d.err) :
    GradientRight op (Tutorial.posteriorG C n data) (fun σ => Real.log (Tutorial.density C u1 u2 o data σ)) σ := by
  set L : ℝ → ℝ → ℝ := fun _ _ => 0
  have hA : (o σ).a = (Tutorial.parG C n .a).real L σ := by
    obtain ⟨i0, -, -, rfl⟩ := impactParameter_ok B' "b" _ hb
    exact (congrArg Orbit.a (Except.ok.inj (ho σ))).symm
  have hr := exp_pos (σ "log_r")
  have ha0 : 0 < (Tutorial.parG C n .a).real L σ := by rw [← hA]; linarith
  have hci : (KepMode.circular.cosInclG (Tutorial.parG C n)).real L σ = σ "__b_impact_parameter" * (1 + Real.exp (σ "log_r")) / (o σ).a := by
    rw [hA]
    show 1 * 1 / (Tutorial.parG C n .a).real L σ * (σ "__b_impact_parameter" * (1 + Real.exp (σ "log_r"))) = _
    ring
  have hlt : σ "__b_impact_parameter" * (1 + Real.exp (σ "log_r")) / (o σ).a < 1 := by
    rw [div_lt_one (by linarith)]
    nlinarith
  have hpos : 0 < σ "__b_impact_parameter" * (1 + Real.exp (σ "log_r")) / (o σ).a := div_pos (by positivity) (by linarith)
  have hdata : ∀ d ∈ data, GradientRight op (Tutorial.lightCurveG C n d.t) (fun σ => Tutorial.flux C u1 u2 o σ d.t) σ := fun d _ => by
    obtain ⟨hp, hci'⟩ := tutorialPosition_real hb (ho σ) L d.t
    have hi : |(KepMode.circular.cosInclG (Tutorial.parG C n)).real L σ| < 1 := by rw [hci, abs_of_pos hpos]; exact hlt
    obtain ⟨h1, h2⟩ := circular_clear (P := Tutorial.parG C n) (w := .sub (.const d.t) (.input "t0")) (R := 1) (r := Real.exp (σ "log_r")) ha0 (by rw [hci]; exact hpos.ne') hi
      (by rw [← hA]; exact ha)
    exact C131_tutorial_partial hu hb hs hk hσ ho d.t (by rw [hci']; exact hi) (by rw [hp]; exact h1) (by rw [hp]; exact h2)
  have hprior : ∀ (s : String) (mu sd : ℝ), 0 < sd → GradientRight op (Fit.normalG (.input s) (.const mu) (.const sd)) (fun σ => Real.log (normalPdf mu sd (σ s))) σ :=
    fun s mu sd hsd => (gradientRight_input s).normal (gradientRight_const mu) hsd
  have h4 := (((((gradientRight_const 0).add (hprior "mean" 0 1 one_pos)).add (hprior "t0" 4.35 1 one_pos)).add (hprior "t1" 33.2 1 one_pos)).add
    (hprior "log_r" (Real.log 0.04) 2 two_pos)).add (C132_likelihood (f := fun t σ => Tutorial.flux C u1 u2 o σ t) he hdata)
  refine GradientRight.congr h4 fun σ => ?_
  have p0 := normalPdf_pos_fit (mu := 0) (x := σ "mean") one_pos
  have p1 := normalPdf_pos_fit (mu := 4.35) (x := σ "t0") one_pos
  have p2 := normalPdf_pos_fit (mu := 33.2) (x := σ "t1") one_pos
  have p3 := normalPdf_pos_fit (mu := Real.log 0.04) (x := σ "log_r") two_pos
  have p4 := (log_prod data (f := fun d => normalPdf (Tutorial.flux C u1 u2 o σ d.t) d.err d.obs) fun d hd => normalPdf_pos_fit (he d hd)).2
  rw [Tutorial.density, Real.log_mul (by positivity) (by unfold dataDensity; exact p4.ne'), Real.log_mul (by positivity) p3.ne', Real.log_mul (by positivity) p2.ne', Real.log_mul p0.ne' p1.ne']
  ring

end tutorial

/-! ## The radial-velocity tutorial -/

/-- The arguments of the tutorial are those of `Verif.Model.BackpropRv`. -/
theorem rvTutorialArgs_eq (σ : State) : rvTutorialArgs (σ "log_period") (σ "ecc") (σ "plus") (σ "minus") = RvMode.t_periastron.args .angle fun p => (RvTutorial.parG p).real L σ := rfl

theorem rvTutorial_density {data : List RvDatum} {σ : State} {v : ℝ}
    (h : rvTutorialLikelihood C data (σ "log_period") (σ "log_semiamp") (σ "ecc") (σ "plus") (σ "minus") (σ "zero_point") (σ "log_jitter") = .ok v) :
    v = dataDensity (fun t => (RvTutorial.modelG t).real L σ) data := by
  obtain ⟨o, ho⟩ := RvMode.args_ok C .t_periastron .angle fun p => (RvTutorial.parG p).real L σ
  unfold rvTutorialLikelihood at h
  rw [rvTutorialArgs_eq (L := L), ho] at h
  have hrv : ∀ d : RvDatum, o.radialVelocity C d.t (some (Real.exp (σ "log_semiamp"))) = .ok (((RvMode.t_periastron.rvG .angle d.t).subst RvTutorial.parG).real L σ) := fun d => by
    rw [subst_real]
    exact rvKG_real ho L d.t
  have h' := Except.ok.inj (((congrArg (fun r : Except PyErr (List ℝ) => do
    let rv ← r
    let _err := data.map fun d : RvDatum => tutorialErr d.err (σ "log_jitter")
    pure (List.zipWith (fun v (d : RvDatum) => normalPdf (σ "zero_point" + v) d.err d.obs) rv data).prod) (mapM_ok _ data _ fun d _ => hrv d)).symm.trans h))
  rw [← h', dataDensity, List.zipWith_map_left, List.zipWith_self]
  rfl

/-- **C132 (the radial-velocity tutorial).** The logarithm of the likelihood of the tutorial and its computed derivatives with respect to all variables are right for `0 ≤ ecc < 1`, unless the argument of periastron `plus - minus` is
`-π/2`. -/
theorem C132_velocity_partial (hk : op.ExactKepler) {σ : State} (h0 : 0 ≤ σ "ecc") (h1 : σ "ecc" < 1) (hw : -1 < sin (σ "plus" - σ "minus")) {data : List RvDatum} (he : ∀ d ∈ data, 0 < d.err)
    {lik : State → ℝ} (hl : ∀ σ, rvTutorialLikelihood C data (σ "log_period") (σ "log_semiamp") (σ "ecc") (σ "plus") (σ "minus") (σ "zero_point") (σ "log_jitter") = .ok (lik σ)) :
    GradientRight op (RvTutorial.likelihoodG data) (fun σ => Real.log (lik σ)) σ := by
  set L : ℝ → ℝ → ℝ := fun _ _ => 0
  have hP : ∀ p, (RvTutorial.parG p).Regular L op σ := fun p => by
    have h2 : (2 : ℝ) * π ≠ 0 := by have := pi_pos; positivity
    match p with
    | .kep .period | .kep .ecc | .K => trivial
    | .kep .omega => exact ⟨trivial, trivial⟩
    | .t_periastron => exact ⟨⟨trivial, trivial, trivial⟩, ⟨trivial, trivial⟩, h2⟩
    | .kep .a | .kep .t0 | .kep .b | .kep .r_star | .kep .sin_omega | .kep .cos_omega | .kep .r => trivial
  have hq : RvMode.Possible .angle fun p => (RvTutorial.parG p).real L σ := ⟨exp_pos _, fun _ => ⟨h0, h1⟩, fun _ => hw⟩
  refine (C132_likelihood (f := fun t σ => (RvTutorial.modelG t).real L σ) he fun d _ => ?_).congr fun σ => by rw [rvTutorial_density (L := L) (hl σ)]
  refine .of_regular (L := L) (G := RvTutorial.modelG d.t) ⟨trivial, subst_regular hP (rv_noSwitch d.t) ?_⟩ fun _ => rfl
  rw [rvG_eq]
  exact rvOfAnomaly_regular hk hq.ecc (rvAnomaly_regular hq d.t)

/-- **C132 (the jitter of the tutorial).** The likelihood of the radial-velocity tutorial does not see `log_jitter` (C104): its computed derivative is zero at all states. -/
theorem C132_jitter (data : List RvDatum) (env : String → Fl) (g : Fl) : (RvTutorial.likelihoodG data).back op env g "log_jitter" = .fin 0 := by
  have key : ∀ (l : List RvDatum) (A : Graph String), A.Free "log_jitter" →
      ((l.map fun d => Fit.normalG (.const d.obs) (RvTutorial.modelG d.t) (.const d.err)).foldl .add A).Free "log_jitter" := by
    intro l
    induction l with
    | nil => intro A h; exact h
    | cons d l ih =>
      intro A h
      refine ih _ ⟨h, ?_⟩
      simp [Fit.normalG, RvTutorial.modelG, RvMode.rvG, RvMode.anomalyG, RvMode.t0G, RvMode.tPeriG, RvMode.delayG, KepMode.M0G, KepMode.E0G, KepMode.nG, KepMode.cosOmegaG, KepMode.sinOmegaG,
        RvMode.parG, Graph.subst, RvTutorial.parG, RvTutorial.periodG, Graph.Free]
  exact free_back _ (key data (.const 0) trivial) g

/-! ## The astrometry tutorial -/

section astro
variable {σ : State} {o : State → Orbit}

theorem astroArgs_eq (σ : State) : astroArgs (σ "log_period") (σ "log_a") (σ "ecc") (σ "tperi") (σ "plus") (σ "minus") (σ "cos_incl") =
    AstroTutorial.mode.args fun p => (AstroTutorial.parG p).real L σ := rfl

theorem astroPar_regular (hi : |σ "cos_incl"| < 1) (p : AstroPar) : (AstroTutorial.parG p).Regular L op σ := by
  match p with
  | .kep .period | .kep .a | .kep .ecc | .t_periastron => trivial
  | .kep .omega | .Omega => exact ⟨trivial, trivial⟩
  | .incl => exact ⟨trivial, hi⟩
  | .kep .t0 | .kep .b | .kep .r_star | .kep .sin_omega | .kep .cos_omega | .kep .r | .parallax => trivial

theorem astro_noSwitch (C : Consts) (t obs : ℝ) : (AstroTutorial.mode.rhoG C t).NoSwitch ∧ (AstroTutorial.mode.residualG C t obs).NoSwitch := by
  simp [AstroTutorial.mode, AstroMode.rhoG, AstroMode.residualG, AstroMode.thetaG, AstroMode.xG, AstroMode.yG, AstroMode.y2G, AstroMode.x1G, AstroMode.y1G, AstroMode.radiusG, AstroMode.distanceG, AstroMode.parG,
    AstroMode.sinfG, AstroMode.cosfG, AstroMode.anomalyG, AstroMode.t0G, AstroMode.tPeriG, AstroMode.delayG, KepMode.nG, KepMode.M0G, KepMode.E0G, KepMode.cosOmegaG, KepMode.sinOmegaG, KepMode.ome2G, Graph.NoSwitch]

/-- A bound orbit that is not seen edge-on never has the separation zero. -/
theorem astro_separated {q : AstroPar → ℝ} (ha : 0 < q (.kep .a)) (h0 : 0 ≤ q (.kep .ecc)) (h1 : q (.kep .ecc) < 1) (hi : cos (q .incl) ≠ 0) (C : Consts) (t : ℝ) :
    0 < (AstroTutorial.mode.xG C t).real L q ^ 2 + (AstroTutorial.mode.yG C t).real L q ^ 2 := by
  set e := q (.kep .ecc)
  set M := (AstroTutorial.mode.anomalyG t).real L q
  set s := (keplerOp M e).1
  set c := (keplerOp M e).2
  have hsc : s ^ 2 + c ^ 2 = 1 := keplerOp_sq h0 h1 M
  set R := -q (.kep .a) * (1 - e ^ 2) / (1 + e * c)
  have hR : R ≠ 0 := by
    have hc : -1 ≤ c := by nlinarith
    have : 0 < 1 + e * c := by nlinarith
    have he : 0 < 1 - e ^ 2 := by nlinarith
    exact div_ne_zero (mul_ne_zero (neg_ne_zero.2 ha.ne') he.ne') this.ne'
  set w := q (.kep .omega)
  set X := cos w * (R * c) - sin w * (R * s)
  set Y := sin w * (R * c) + cos w * (R * s)
  have hXY : X ^ 2 + Y ^ 2 = R ^ 2 := by
    have := sin_sq_add_cos_sq w
    simp only [X, Y]
    linear_combination (R ^ 2 * (s ^ 2 + c ^ 2)) * this + R ^ 2 * hsc
  have ex : (AstroTutorial.mode.xG C t).real L q = cos (q .Omega) * X - sin (q .Omega) * (cos (q .incl) * Y) := rfl
  have ey : (AstroTutorial.mode.yG C t).real L q = sin (q .Omega) * X + cos (q .Omega) * (cos (q .incl) * Y) := rfl
  have hsum : (AstroTutorial.mode.xG C t).real L q ^ 2 + (AstroTutorial.mode.yG C t).real L q ^ 2 = X ^ 2 + (cos (q .incl) * Y) ^ 2 := by
    rw [ex, ey]
    have := sin_sq_add_cos_sq (q .Omega)
    linear_combination (X ^ 2 + (cos (q .incl) * Y) ^ 2) * this
  rw [hsum]
  by_cases hX : X = 0
  · have hY : Y ≠ 0 := fun h => by rw [hX, h] at hXY; exact hR (by nlinarith)
    have := mul_ne_zero hi hY
    positivity
  · positivity

/-- **C132 (the astrometry tutorial).** The logarithm of the likelihood of the tutorial and its computed derivatives with respect to all variables are right within the support (`0 ≤ ecc < 1`, `|cos_incl| < 1`) for orbits not exactly edge-on, unless the
argument of periastron `plus - minus` is `-π/2`, or the position angle at one of the times or its residual is exactly `π`. -/
theorem C132_astrometry_partial (hk : op.ExactKepler) (h0 : 0 ≤ σ "ecc") (h1 : σ "ecc" < 1) (hw : -1 < sin (σ "plus" - σ "minus")) (hi : |σ "cos_incl"| < 1) (hi0 : σ "cos_incl" ≠ 0)
    (ho : ∀ σ, keplerianInit C (astroArgs (σ "log_period") (σ "log_a") (σ "ecc") (σ "tperi") (σ "plus") (σ "minus") (σ "cos_incl")) = .ok (o σ)) {data : List AstroDatum}
    (he : ∀ d ∈ data, 0 < d.rhoErr ∧ 0 < d.thetaErr) (hπ : ∀ d ∈ data, ((o σ).relativeAngles C d.t).2 ≠ π ∧ wrapped (((o σ).relativeAngles C d.t).2 - d.theta) ≠ π) :
    GradientRight op (AstroTutorial.likelihoodG C data) (fun σ => Real.log (astroDensity C (o σ) data)) σ := by
  set L : ℝ → ℝ → ℝ := fun _ _ => 0
  have hP := astroPar_regular (L := L) (op := op) hi
  set q : AstroPar → ℝ := fun p => (AstroTutorial.parG p).real L σ with hq
  have hang : ∀ σ t, (o σ).relativeAngles C t = ((AstroTutorial.rhoG C t).real L σ, Exo.arctan2 ((AstroTutorial.mode.yG C t).real L fun p => (AstroTutorial.parG p).real L σ)
      ((AstroTutorial.mode.xG C t).real L fun p => (AstroTutorial.parG p).real L σ)) := fun σ t => by
    have h := ho σ
    rw [astroArgs_eq (L := L)] at h
    rw [AstroTutorial.rhoG, subst_real]
    exact angles_real h L t
  have hposs : AstroTutorial.mode.Possible q := ⟨exp_pos _, fun _ => ⟨h0, h1⟩, fun _ => hw⟩
  have hci : cos (q .incl) ≠ 0 := by
    have : q .incl = arccos (σ "cos_incl") := rfl
    rw [this, cos_arccos (abs_lt.1 hi).1.le (abs_lt.1 hi).2.le]
    exact hi0
  have hsep := fun t => astro_separated (L := L) (q := q) (exp_pos _) h0 h1 hci C t
  have hdiff : ∀ σ t obs, wrapped (((o σ).relativeAngles C t).2 - obs) = (AstroTutorial.diffG C t obs).real L σ := fun σ t obs => by
    rw [hang, wrapped_eq, AstroTutorial.diffG, subst_real]
    rfl
  have hrho : ∀ d ∈ data, GradientRight op (AstroTutorial.rhoG C d.t) (fun σ => ((o σ).relativeAngles C d.t).1) σ := fun d hd => by
    obtain ⟨hx, hy, -⟩ := astro_regular (C := C) (L := L) hk hposs d.t
    refine .of_regular (L := L) (subst_regular hP (astro_noSwitch C d.t 0).1 ⟨⟨hx, hy⟩, hsep d.t⟩) fun σ => by rw [hang]
  have htheta : ∀ d ∈ data, GradientRight op (AstroTutorial.diffG C d.t d.theta) (fun σ => wrapped (((o σ).relativeAngles C d.t).2 - d.theta)) σ := fun d hd => by
    obtain ⟨hx, hy, -⟩ := astro_regular (C := C) (L := L) hk hposs d.t
    obtain ⟨p1, p2⟩ := hπ d hd
    rw [hang] at p1 p2
    have hcut : 0 < (AstroTutorial.mode.xG C d.t).real L q ∨ (AstroTutorial.mode.yG C d.t).real L q ≠ 0 := by
      rcases arctan2_lt_pi p1 with h | h
      · by_cases hy : (AstroTutorial.mode.yG C d.t).real L q = 0
        · refine .inl (lt_of_le_of_ne h fun hx => ?_)
          have := hsep d.t
          rw [hy, ← hx] at this
          simp at this
        · exact .inr hy
      · exact .inr h
    refine .of_regular (L := L) (subst_regular hP (astro_noSwitch C d.t d.theta).2 ?_) fun σ => hdiff σ d.t d.theta
    exact wrapped_regular (D := .sub (AstroTutorial.mode.thetaG C d.t) (.const d.theta)) ⟨⟨hy, hx, hcut⟩, trivial⟩ p2
  have s1 := GradientRight.sum (fun d : AstroDatum => Fit.normalG (.const d.rho) (AstroTutorial.rhoG C d.t) (.const d.rhoErr)) (fun d σ => Real.log (normalPdf ((o σ).relativeAngles C d.t).1 d.rhoErr d.rho))
    fun d hd => (gradientRight_const d.rho).normal (hrho d hd) (he d hd).1
  have s2 := GradientRight.sum (fun d : AstroDatum => Fit.normalG (.const 0) (AstroTutorial.diffG C d.t d.theta) (.const d.thetaErr))
    (fun d σ => Real.log (normalPdf (wrapped (((o σ).relativeAngles C d.t).2 - d.theta)) d.thetaErr 0)) fun d hd => (gradientRight_const 0).normal (htheta d hd) (he d hd).2
  refine (s1.add s2).congr fun σ => ?_
  obtain ⟨l1, p1⟩ := log_prod data (f := fun d => normalPdf ((o σ).relativeAngles C d.t).1 d.rhoErr d.rho) fun d hd => normalPdf_pos_fit (he d hd).1
  obtain ⟨l2, p2⟩ := log_prod data (f := fun d => normalPdf (wrapped (((o σ).relativeAngles C d.t).2 - d.theta)) d.thetaErr 0) fun d hd => normalPdf_pos_fit (he d hd).2
  rw [astroDensity, Real.log_mul p1.ne' p2.ne', l1, l2]

end astro

/-! ## Several planets -/

section planets
variable {n : ℕ} {m : KepMode} {q : SysPar n → ℝ} {o : (KepPar → ℝ) → Orbit} {t : ℝ}

theorem planetPar_real (i : Fin n) (q : SysPar n → ℝ) (p : KepPar) : (Planets.parG i p).real L q = SysPar.planet q i p := by cases p <;> rfl

theorem planetPar_regular (i : Fin n) (p : KepPar) : (Planets.parG i p).Regular L op q := by cases p <;> trivial

theorem planetPosition_real {i : Fin n} {o : Orbit} (h : keplerianInit C (m.args (SysPar.planet q i)) = .ok o) (L : ℝ → ℝ → ℝ) (t : ℝ) :
    o.relativePosition C t = ⟨(m.x1G (Planets.parG i) (.sub (.const t) (Planets.parG i .t0))).real L q, (m.yG (Planets.parG i) (.sub (.const t) (Planets.parG i .t0))).real L q,
      (m.zG (Planets.parG i) (.sub (.const t) (Planets.parG i .t0))).real L q⟩ ∧ o.cos_incl = (m.cosInclG (Planets.parG i)).real L q := by
  cases m <;> (obtain rfl := Except.ok.inj h; exact ⟨rfl, rfl⟩)

/-- One planet of the system. -/
theorem planet_right (hs : op.ExactSolution) (hk : op.ExactKepler) (hn : 1 - q .u1 / 3 - q .u2 / 6 ≠ 0) (ho : ∀ q, keplerianInit C (m.args q) = .ok (o q)) {i : Fin n}
    (hi : Smooth C m o t q i) : GradientRight op (Planets.planetG m t i) (fun q => planetFlux C o t q i) q := by
  set L : ℝ → ℝ → ℝ := fun _ _ => 0
  obtain ⟨hp, hci⟩ := planetPosition_real (ho (SysPar.planet q i)) L t
  have h1 := hi.inclined
  have h2 := hi.centre
  have h3 := hi.clear
  rw [hci] at h1
  rw [hp] at h2 h3
  have hq : m.Possible fun p => (Planets.parG i p).real L q := by
    rw [show (fun p => (Planets.parG i p).real L q) = SysPar.planet q i from funext fun p => planetPar_real i q p]
    exact hi.possible
  obtain ⟨hX, hY⟩ := plane_regular (L := L) (op := op) (P := Planets.parG i) (w := .sub (.const t) (Planets.parG i .t0)) (x := q) hk (planetPar_regular i) ⟨trivial, trivial⟩ hq
  have hcr := cosInclG_regular (L := L) (op := op) (P := Planets.parG i) (x := q) (planetPar_regular i) hq
  refine .of_regular (L := L) (lawFluxG_regular hs trivial trivial hn hX ⟨hcr, hY⟩ ⟨⟨hcr, h1⟩, hY⟩ trivial trivial hi.possible.r_star hi.possible.r h2 h3) fun q => ?_
  rw [planetFlux, (planetPosition_real (ho (SysPar.planet q i)) L t).1, Planets.planetG, lawFluxG_real]
  rfl

/-- **C132 (several planets).** The light curve of a system and its computed derivatives with respect to all parameters are right unless one of the planets is at one of the points excluded in C131. -/
theorem C132_system_partial (hs : op.ExactSolution) (hk : op.ExactKepler) (hn : 1 - q .u1 / 3 - q .u2 / 6 ≠ 0) (ho : ∀ q, keplerianInit C (m.args q) = .ok (o q))
    (h : ∀ i, Smooth C m o t q i) : GradientRight op (Planets.lightCurveG m t) (systemFlux C o t) q := by
  refine ((GradientRight.sum (Planets.planetG m t) (fun i q => planetFlux C o t q i) fun i _ => planet_right hs hk hn ho (h i)).add (gradientRight_input SysPar.mean)).congr fun q => ?_
  rw [systemFlux, ← List.ofFn_eq_map, List.sum_ofFn]

theorem planet_free {i k : Fin n} (hik : i ≠ k) (p : KepPar) : (Planets.planetG m t k).Free (.own i p) := by
  have hP : ∀ p', (Planets.parG k p').Free (.own i p) := fun p' => by
    cases p' <;> simp [Planets.parG, Graph.Free, hik.symm]
  cases m <;> simp [Planets.planetG, Law.fluxG, Law.curveG, Law.clG, Law.c0G, Law.c1G, Law.c2G, Law.normG, KepMode.x1G, KepMode.yG, KepMode.zG, KepMode.y1G, KepMode.radiusG, KepMode.cosfG, KepMode.sinfG,
    KepMode.anomalyG, KepMode.M0G, KepMode.E0G, KepMode.nG, KepMode.ome2G, KepMode.cosInclG, KepMode.sinInclG, KepMode.inclFactorG, KepMode.cosOmegaG, KepMode.sinOmegaG, Graph.Free, hP]

theorem sumG_only {ι : Type} [DecidableEq ι] {n : ℕ} {G : Fin n → Graph ι} {env : ι → Fl} {g : Fl} {j : ι} {i : Fin n} {D : ℝ} (h0 : ∀ k, k ≠ i → (G k).back op env g j = .fin 0)
    (hi : (G i).back op env g j = .fin D) : (Fit.sumG ((List.finRange n).map G)).back op env g j = .fin D := by
  have key : ∀ (l : List (Fin n)) (A : Graph ι) (a : ℝ), A.back op env g j = .fin a → ((l.map G).foldl .add A).back op env g j = .fin (a + (l.map fun k => if k = i then D else 0).sum) := by
    intro l
    induction l with
    | nil => intro A a h; simpa using h
    | cons k l ih =>
      intro A a h
      rw [List.map_cons, List.foldl_cons, ih _ (a + if k = i then D else 0)]
      · simp only [List.map_cons, List.sum_cons, add_assoc]
      · by_cases hk : k = i
        · subst hk; simp [Graph.back, h, hi]
        · simp [Graph.back, h, h0 k hk, hk]
  have := key (List.finRange n) (.const 0) 0 rfl
  rw [Fit.sumG, this, ← List.ofFn_eq_map, List.sum_ofFn]
  simp

/-- **C132 (the parameters of one planet).** The computed derivatives with respect to the parameters of planet `i` alone are right when *its* light curve can be differentiated: the other planets may be
anywhere, also where their own derivatives are NaN. -/
theorem C132_own (hs : op.ExactSolution) (hk : op.ExactKepler) (hn : 1 - q .u1 / 3 - q .u2 / 6 ≠ 0) (ho : ∀ q, keplerianInit C (m.args q) = .ok (o q)) {i : Fin n}
    (hi : Smooth C m o t q i) (p : KepPar) :
    ∃ D, HasDerivAt (fun s => systemFlux C o t (update q (.own i p) s)) D (q (.own i p)) ∧
      ∀ g : ℝ, (Planets.lightCurveG m t).back op (fun i => .fin (q i)) (.fin g) (.own i p) = .fin (g * D) := by
  obtain ⟨D, hD, hg⟩ := (planet_right hs hk hn ho hi).2 (.own i p)
  refine ⟨D, ?_, fun g => ?_⟩
  · have hother : ∀ k, k ≠ i → ∀ s, SysPar.planet (update q (.own i p) s) k = SysPar.planet q k := fun k hk s => by
      funext p'; cases p' <;> simp [SysPar.planet, hk]
    have e : (fun s => systemFlux C o t (update q (.own i p) s)) = fun s =>
        planetFlux C o t (update q (.own i p) s) i + (∑ k ∈ Finset.univ.erase i, planetFlux C o t q k + q .mean) := by
      funext s
      rw [systemFlux, ← Finset.add_sum_erase _ _ (Finset.mem_univ i), add_assoc]
      congr 2
      refine Finset.sum_congr rfl fun k hk => ?_
      have hki := (Finset.mem_erase.1 hk).1
      simp [planetFlux, hother k hki, hki]
    rw [e]
    exact hD.add_const _
  · have h1 := sumG_only (op := op) (G := Planets.planetG m t) (env := fun i => .fin (q i)) (g := .fin g) (j := .own i p) (i := i) (D := g * D)
      (fun k hk => free_back _ (planet_free hk.symm p) _) (hg g)
    simp [Planets.lightCurveG, Graph.back, h1]

/-- A planet on a circular orbit outside of the star whose transits are not central is never at an excluded point. -/
theorem smooth_circular (ho : ∀ q, keplerianInit C (KepMode.circular.args q) = .ok (o q)) {i : Fin n} (hq : KepMode.circular.Possible (SysPar.planet q i)) (hb : q (.own i .b) ≠ 0)
    (hb1 : |q (.own i .b)| * q .r_star < q (.own i .a)) (ha : q .r_star + q (.own i .r) < q (.own i .a)) (t : ℝ) : Smooth C .circular o t q i := by
  set L : ℝ → ℝ → ℝ := fun _ _ => 0
  obtain ⟨hp, hci⟩ := planetPosition_real (ho (SysPar.planet q i)) L t
  have ha0 : 0 < q (.own i .a) := hq.a
  have hR : 0 < q .r_star := hq.r_star
  have e : (KepMode.circular.cosInclG (Planets.parG i)).real L q = q .r_star / q (.own i .a) * q (.own i .b) := by
    show 1 * q .r_star / q (.own i .a) * q (.own i .b) = _
    rw [one_mul]
  have h0 : (KepMode.circular.cosInclG (Planets.parG i)).real L q ≠ 0 := by rw [e]; exact mul_ne_zero (div_pos hR ha0).ne' hb
  have hi : |(KepMode.circular.cosInclG (Planets.parG i)).real L q| < 1 := by
    rw [e, abs_mul, abs_of_pos (div_pos hR ha0), div_mul_eq_mul_div, div_lt_one ha0, mul_comm]
    exact hb1
  obtain ⟨h1, h2⟩ := circular_clear (P := Planets.parG i) (w := .sub (.const t) (Planets.parG i .t0)) (R := q .r_star) (r := q (.own i .r)) ha0 h0 hi ha
  exact ⟨hq, by rw [hci]; exact hi, by rw [hp]; exact h1, by rw [hp]; exact h2⟩

/-- **C132 (a fit of several planets).** For circular orbits outside of the star with `b ≠ 0` the computed log-likelihood and its derivatives with respect to all parameters are right for all data at all times. -/
theorem C132_circular_partial (hs : op.ExactSolution) (hk : op.ExactKepler) (hn : 1 - q .u1 / 3 - q .u2 / 6 ≠ 0) (ho : ∀ q, keplerianInit C (KepMode.circular.args q) = .ok (o q))
    (hq : ∀ i, KepMode.circular.Possible (SysPar.planet q i)) (hb : ∀ i, q (.own i .b) ≠ 0) (hb1 : ∀ i, |q (.own i .b)| * q .r_star < q (.own i .a))
    (ha : ∀ i, q .r_star + q (.own i .r) < q (.own i .a)) {data : List RvDatum} (he : ∀ d ∈ data, 0 < d.err) :
    GradientRight op (Fit.likelihoodG (Planets.lightCurveG .circular) data) (fun q => Real.log (dataDensity (fun t => systemFlux C o t q) data)) q :=
  C132_likelihood (f := systemFlux C o) he fun d _ => C132_system_partial hs hk hn ho fun i => smooth_circular ho (hq i) (hb i) (hb1 i) (ha i) d.t

theorem fluxG_centre {ι : Type} [DecidableEq ι] {U1 U2 X Y Z R r : Graph ι} {env : ι → Fl} {j : ι} (vx : X.value op env = .fin 0) (vy : Y.value op env = .fin 0)
    (h : X.back op env .nan j + Y.back op env .nan j = .nan) (g : Fl) : (Law.fluxG U1 U2 X Y Z R r).back op env g j = .nan := by
  have hs : ((Fl.fin 0 ^ 2 + Fl.fin 0 ^ 2 : Fl)).sqrt = .fin 0 := by simp [Fl.sqrt]
  have hsol : ∀ (i : Fin 3) (w : Fl), (Graph.solution i (.div (.sqrt (.add (.pow X 2) (.pow Y 2))) R) (.div r R)).back op env w j = .nan := fun i w => by
    simp only [Graph.back, Graph.value, vx, vy, hs]
    rw [nan_of_zero, h]
    simp
  simp only [Law.fluxG, Law.curveG]
  rw [Graph.back, Graph.back, Graph.back, Graph.back, Graph.back, Graph.back, Graph.back]
  beta_reduce
  rw [hsol]
  simp

/-- **C132 (shared parameters).** When one planet is exactly in front of the centre of the star or behind it, the computed derivatives of the light curve of the system with respect to its own `a` and `b`
and to the radius of the star, which all planets share, are NaN. -/
theorem C132_shared (hk : op.ExactKepler) (ho : ∀ q, keplerianInit C (m.args q) = .ok (o q)) {i : Fin n} (hq : m.Possible (SysPar.planet q i))
    (hx : ((o (SysPar.planet q i)).relativePosition C t).x = 0) (hy : ((o (SysPar.planet q i)).relativePosition C t).y = 0) (g : Fl) {j : SysPar n}
    (hj : j = .r_star ∨ j = .own i .a ∨ j = .own i .b) : (Planets.lightCurveG m t).back op (fun i => .fin (q i)) g j = .nan := by
  set L : ℝ → ℝ → ℝ := fun _ _ => 0
  obtain ⟨hp, -⟩ := planetPosition_real (ho (SysPar.planet q i)) L t
  rw [hp] at hx hy
  simp only at hx hy
  have hq' : m.Possible fun p => (Planets.parG i p).real L q := by
    rw [show (fun p => (Planets.parG i p).real L q) = SysPar.planet q i from funext fun p => planetPar_real i q p]
    exact hq
  obtain ⟨rx, ry⟩ := plane_regular (L := L) (op := op) (P := Planets.parG i) (w := .sub (.const t) (Planets.parG i .t0)) (x := q) hk (planetPar_regular i) ⟨trivial, trivial⟩ hq'
  have vx := (C118_backprop op L q _ rx).1
  have vy := (C118_backprop op L q (m.yG (Planets.parG i) (.sub (.const t) (Planets.parG i .t0))) ⟨cosInclG_regular (planetPar_regular i) hq', ry⟩).1
  rw [hx] at vx
  rw [hy] at vy
  have hG : (Planets.planetG m t i).back op (fun i => .fin (q i)) g j = .nan := by
    refine fluxG_centre vx vy ?_ g
    rcases hj with rfl | rfl | rfl
    · simp [KepMode.yG, KepMode.cosInclG, Graph.back, Planets.parG]
    · cases m <;> simp [KepMode.x1G, KepMode.radiusG, Graph.back, Planets.parG]
    · simp [KepMode.yG, KepMode.cosInclG, Graph.back, Planets.parG]
  have := sumG_nan (op := op) (A := .const 0) (l := (List.finRange n).map (Planets.planetG m t)) (Or.inr ⟨List.mem_map.2 ⟨i, List.mem_finRange i, rfl⟩, hG⟩)
  rw [Planets.lightCurveG, Graph.back, Fit.sumG]
  beta_reduce
  rw [this]
  simp

end planets

/-! ## Examples -/

/-- Two planets with the given impact parameters, otherwise as in `demoKep`, of which the first has half a period more. -/
noncomputable def demoSys (b b' : ℝ) : SysPar 2 → ℝ
  | .own 0 .period => 15
  | .own 0 .b => b
  | .own 0 p => demoKep 0 1 p
  | .own 1 p => demoKep b' 1 p
  | .r_star => 1
  | .u1 => 0.3
  | .u2 => 0.2
  | .mean => 0

theorem demoSys_one (b b' : ℝ) : SysPar.planet (demoSys b b') 1 = demoKep b' 1 := by funext p; cases p <;> rfl

theorem demoSys_possible (b b' : ℝ) (i : Fin 2) : KepMode.circular.Possible (SysPar.planet (demoSys b b') i) := by
  match i with
  | 0 => exact ⟨by norm_num [SysPar.planet, demoSys, demoKep], by norm_num [SysPar.planet, demoSys], by norm_num [SysPar.planet, demoSys], by norm_num [SysPar.planet, demoSys, demoKep],
      fun h => (h rfl).elim, fun h => (h rfl).elim⟩
  | 1 => rw [demoSys_one]; exact demoKep_possible _ _

/-- Concrete violation of C132: two planets, the second with `b = 0`, and data of which one was taken exactly at its mid-transit. Whatever the other data, the computed derivatives of the
log-likelihood with respect to the impact parameter of the second planet and to the radius of the star are NaN; those of the light curve with respect to the first planet are right. -/
theorem C132_counterexample (C : Consts) (o : (KepPar → ℝ) → Orbit) (ho : ∀ q, keplerianInit C (KepMode.circular.args q) = .ok (o q)) (op : FlOp) (hk : op.ExactKepler) :
    (∀ (data : List RvDatum) (y s : ℝ), ⟨0, y, s⟩ ∈ data → ∀ (g : Fl) (j : SysPar 2), j = .own 1 .b ∨ j = .r_star →
      (Fit.likelihoodG (Planets.lightCurveG .circular) data).back op (fun i => .fin (demoSys 0.5 0 i)) g j = .nan) ∧
    (op.ExactSolution → ∀ p, ∃ D, HasDerivAt (fun s => systemFlux C o 0 (update (demoSys 0.5 0) (.own 0 p) s)) D (demoSys 0.5 0 (.own 0 p)) ∧
      ∀ g : ℝ, (Planets.lightCurveG .circular 0).back op (fun i => .fin (demoSys 0.5 0 i)) (.fin g) (.own 0 p) = .fin (g * D)) := by
  refine ⟨fun data y s hd g j hj => C132_one_datum (d := ⟨0, y, s⟩) hd (fun g => ?_) g, fun hs p => ?_⟩
  · obtain ⟨hp, -⟩ := centralKep_position (C := C) (o (demoKep 0 1)) (ho (demoKep 0 1))
    refine C132_shared (i := 1) hk ho (demoSys_possible _ _ 1) ?_ ?_ g ?_
    · rw [demoSys_one, hp]
    · rw [demoSys_one, hp]
    · rcases hj with rfl | rfl <;> simp
  · exact C132_own hs hk (by norm_num [demoSys]) ho (smooth_circular ho (demoSys_possible _ _ 0) (by norm_num [demoSys]) (by norm_num [demoSys, demoKep, abs_of_pos]) (by norm_num [demoSys, demoKep]) 0) p

/-- The hypotheses of `C132_circular_partial` can be met, with two data. -/
example (C : Consts) (o : (KepPar → ℝ) → Orbit) (ho : ∀ q, keplerianInit C (KepMode.circular.args q) = .ok (o q)) :
    GradientRight (exactOp 0 0) (Fit.likelihoodG (Planets.lightCurveG .circular) [⟨0, -0.02, 1e-3⟩, ⟨3, 0, 1e-3⟩])
      (fun q => Real.log (dataDensity (fun t => systemFlux C o t q) [⟨0, -0.02, 1e-3⟩, ⟨3, 0, 1e-3⟩])) (demoSys 0.5 0.2) := by
  refine C132_circular_partial (exactOp_solution _ _) (exactOp_exact _ _).2 (by norm_num [demoSys]) ho (demoSys_possible _ _) ?_ ?_ ?_ ?_
  · intro i; match i with
    | 0 => norm_num [demoSys]
    | 1 => norm_num [demoSys, demoKep]
  · intro i; match i with
    | 0 => norm_num [demoSys, demoKep, abs_of_pos]
    | 1 => norm_num [demoSys, demoKep, abs_of_pos]
  · intro i; match i with
    | 0 => norm_num [demoSys, demoKep]
    | 1 => norm_num [demoSys, demoKep]
  · intro d hd
    simp only [List.mem_cons, List.not_mem_nil, or_false] at hd
    rcases hd with rfl | rfl <;> norm_num

/-- The hypotheses of `C132_velocity_partial` can be met. -/
example (C : Consts) {lik : State → ℝ}
    (hl : ∀ σ, rvTutorialLikelihood C [⟨1, 2, 0.5⟩] (σ "log_period") (σ "log_semiamp") (σ "ecc") (σ "plus") (σ "minus") (σ "zero_point") (σ "log_jitter") = .ok (lik σ)) :
    GradientRight (exactOp 0 0) (RvTutorial.likelihoodG [⟨1, 2, 0.5⟩]) (fun σ => Real.log (lik σ)) fun s => if s = "ecc" then 0.01 else 0 := by
  refine C132_velocity_partial (exactOp_exact _ _).2 (by norm_num) (by norm_num) (by simp) ?_ hl
  intro d hd
  simp only [List.mem_cons, List.not_mem_nil, or_false] at hd
  subst hd
  norm_num

/-- A state of the sampler of the transit tutorial: ten days between the transits and `b = 0.35 (1 + r)`. -/
noncomputable def demoState' : State := fun s => if s = "__b_impact_parameter" then 0.35 else demoState s

/-- The hypotheses of `C132_transit` can be met, if ten days mean an orbit outside of the star. -/
example {B B' : Backend} {K K' : Kwargs} {rs rs' : List Reg} {u1 u2 bv : State → ℝ} (hu : quadLimbDark B "u" K = .ok (rs, u1, u2))
    (hb : impactParameter B' "b" (fun σ => Real.exp (σ "log_r")) K' = .ok (rs', bv)) {o : State → Orbit} (ho : ∀ σ, keplerianInit C (Tutorial.args 4 bv σ) = .ok (o σ)) (hG : 4 * π ^ 2 * 8 < C.G * 10 ^ 2) :
    GradientRight (exactOp 0 0) (Tutorial.posteriorG C 4 [⟨0, 0.09, 5e-4⟩]) (fun σ => Real.log (Tutorial.density C u1 u2 o [⟨0, 0.09, 5e-4⟩] σ)) demoState' := by
  have v1 : demoState' "t0" = 0 ∧ demoState' "t1" = 40 ∧ demoState' "__u_q1" = 0.25 ∧ demoState' "__u_q2" = 0.5 ∧ demoState' "__b_impact_parameter" = 0.35 ∧ demoState' "log_r" = -2 := by
    refine ⟨?_, ?_, ?_, ?_, ?_, ?_⟩ <;> simp [demoState', demoState]
  refine C132_transit hu hb (exactOp_solution _ _) (exactOp_exact _ _).2 ⟨by norm_num, by norm_num [v1], by norm_num [v1], by norm_num [v1]⟩ (by norm_num [v1]) (by norm_num [v1]) ho ?_ ?_
  · have hA : (o demoState').a = (C.G * (1 + 0) * ((demoState' "t1" - demoState' "t0") / 4) ^ 2 / (4 * π ^ 2)) ^ ((1 : ℝ) / 3) := by
      obtain ⟨i0, -, -, rfl⟩ := impactParameter_ok B' "b" _ hb
      exact (congrArg Orbit.a (Except.ok.inj (ho demoState'))).symm
    have hpi := pi_pos
    have h8 : (8 : ℝ) ^ ((1 : ℝ) / 3) = 2 := by
      rw [show (8 : ℝ) = 2 ^ (3 : ℝ) by norm_num, ← Real.rpow_mul (by norm_num)]
      norm_num
    have hr : Real.exp (-2) < 1 := by rw [Real.exp_lt_one_iff]; norm_num
    rw [hA, v1.1, v1.2.1, v1.2.2.2.2.2]
    calc 1 + Real.exp (-2) < 2 := by linarith
      _ = (8 : ℝ) ^ ((1 : ℝ) / 3) := h8.symm
      _ ≤ _ := by
        refine Real.rpow_le_rpow (by norm_num) ?_ (by norm_num)
        rw [le_div_iff₀ (by positivity)]
        linarith
  · intro d hd
    simp only [List.mem_cons, List.not_mem_nil, or_false] at hd
    subst hd
    norm_num

/-- A state of the sampler of the astrometry tutorial: periastron at the time zero, `omega = Omega = π / 2`. -/
noncomputable def demoAstroState : State := fun s => if s = "ecc" then 0.3 else if s = "cos_incl" then 0.3 else if s = "plus" then π / 2 else 0

theorem demoAstroState_values : demoAstroState "ecc" = 0.3 ∧ demoAstroState "cos_incl" = 0.3 ∧ demoAstroState "plus" = π / 2 ∧ demoAstroState "minus" = 0 ∧ demoAstroState "tperi" = 0 := by
  refine ⟨?_, ?_, ?_, ?_, ?_⟩ <;> simp [demoAstroState]

theorem demoAstroState_angle {o : Orbit} (h : keplerianInit C (astroArgs (demoAstroState "log_period") (demoAstroState "log_a") (demoAstroState "ecc") (demoAstroState "tperi") (demoAstroState "plus") (demoAstroState "minus")
    (demoAstroState "cos_incl")) = .ok o) : (o.relativeAngles C 0).2 = 0 := by
  set L : ℝ → ℝ → ℝ := fun _ _ => 0
  rw [astroArgs_eq (L := L)] at h
  have ha : o.relativeAngles C 0 = _ := angles_real h L 0
  rw [ha]
  set q : AstroPar → ℝ := fun p => (AstroTutorial.parG p).real L demoAstroState
  obtain ⟨v1, v2, v3, v4, v5⟩ := demoAstroState_values
  have he : q (.kep .ecc) = 0.3 := v1
  have hw : q (.kep .omega) = π / 2 := by show demoAstroState "plus" - demoAstroState "minus" = _; rw [v3, v4, sub_zero]
  have hW : q .Omega = π / 2 := by show demoAstroState "plus" + demoAstroState "minus" = _; rw [v3, v4, add_zero]
  have hi : cos (q .incl) = 0.3 := by
    show cos (arccos (demoAstroState "cos_incl")) = _
    rw [v2, cos_arccos (by norm_num) (by norm_num)]
  have hM : (AstroTutorial.mode.anomalyG 0).real L q = 0 := by
    have : q .t_periastron = 0 := v5
    have e : (AstroTutorial.mode.anomalyG 0).real L q = (0 - AstroTutorial.mode.t0G.real L q - (q .t_periastron - AstroTutorial.mode.t0G.real L q)) * (KepMode.nG AstroMode.parG).real L q := rfl
    rw [e, this]
    ring
  have hK : keplerOp 0 0.3 = (0, 1) := by
    have : eccAnomaly 0.3 0 = 0 := eccAnomaly_unique (by norm_num) (by norm_num) (by simp [keplerMap])
    simp only [keplerOp, this]
    norm_num
  have hc : (AstroTutorial.mode.cosfG 0).real L q = 1 := by
    show (keplerOp ((AstroTutorial.mode.anomalyG 0).real L q) (q (.kep .ecc))).2 = 1
    rw [hM, he, hK]
  have hs : (AstroTutorial.mode.sinfG 0).real L q = 0 := by
    show (keplerOp ((AstroTutorial.mode.anomalyG 0).real L q) (q (.kep .ecc))).1 = 0
    rw [hM, he, hK]
  set R := (AstroTutorial.mode.radiusG C 0).real L q with eR
  have hR : R < 0 := by
    have e : R = -q (.kep .a) * (1 - q (.kep .ecc) ^ 2) / (1 + q (.kep .ecc) * (AstroTutorial.mode.cosfG 0).real L q) := rfl
    have ha : 0 < q (.kep .a) := exp_pos _
    rw [e, hc, he]
    exact div_neg_of_neg_of_pos (by nlinarith) (by norm_num)
  have h1 : (AstroTutorial.mode.x1G C 0).real L q = 0 := by
    show cos (q (.kep .omega)) * (R * (AstroTutorial.mode.cosfG 0).real L q) - sin (q (.kep .omega)) * (R * (AstroTutorial.mode.sinfG 0).real L q) = 0
    rw [hw, hs, cos_pi_div_two]
    ring
  have h2 : (AstroTutorial.mode.y1G C 0).real L q = R := by
    show sin (q (.kep .omega)) * (R * (AstroTutorial.mode.cosfG 0).real L q) + cos (q (.kep .omega)) * (R * (AstroTutorial.mode.sinfG 0).real L q) = R
    rw [hw, hs, hc, sin_pi_div_two]
    ring
  show Exo.arctan2 (sin (q .Omega) * (AstroTutorial.mode.x1G C 0).real L q + cos (q .Omega) * (cos (q .incl) * (AstroTutorial.mode.y1G C 0).real L q))
    (cos (q .Omega) * (AstroTutorial.mode.x1G C 0).real L q - sin (q .Omega) * (cos (q .incl) * (AstroTutorial.mode.y1G C 0).real L q)) = 0
  rw [h1, h2, hW, hi, sin_pi_div_two, cos_pi_div_two, mul_zero, zero_mul, add_zero, zero_mul, zero_sub, one_mul]
  exact Complex.arg_ofReal_of_nonneg (by nlinarith)

/-- The hypotheses of `C132_astrometry_partial` can be met. -/
example {o : State → Orbit}
    (ho : ∀ σ, keplerianInit C (astroArgs (σ "log_period") (σ "log_a") (σ "ecc") (σ "tperi") (σ "plus") (σ "minus") (σ "cos_incl")) = .ok (o σ)) :
    GradientRight (exactOp 0 0) (AstroTutorial.likelihoodG C [⟨0, 0.2, 0, 0.1, 0.1⟩]) (fun σ => Real.log (astroDensity C (o σ) [⟨0, 0.2, 0, 0.1, 0.1⟩])) demoAstroState := by
  obtain ⟨v1, v2, v3, v4, v5⟩ := demoAstroState_values
  refine C132_astrometry_partial (exactOp_exact _ _).2 (by rw [v1]; norm_num) (by rw [v1]; norm_num) (by rw [v3, v4, sub_zero, sin_pi_div_two]; norm_num) (by rw [v2, abs_of_pos] <;> norm_num)
    (by rw [v2]; norm_num) ho ?_ ?_
  · intro d hd
    simp only [List.mem_cons, List.not_mem_nil, or_false] at hd
    subst hd
    norm_num
  · intro d hd
    simp only [List.mem_cons, List.not_mem_nil, or_false] at hd
    subst hd
    simp only [demoAstroState_angle (ho demoAstroState), sub_zero]
    refine ⟨pi_pos.ne, ?_⟩
    rw [wrapped_eq, sin_zero, cos_zero, Exo.arctan2]
    rw [Complex.arg_eq_zero_iff.2 ⟨by norm_num, rfl⟩]
    exact pi_pos.ne

/-- The orbits of the theorems on the tutorials exist for all states, also outside of the support. -/
example (n : ℝ) (bv : State → ℝ) : (∃ o : State → Orbit, ∀ σ, keplerianInit C (Tutorial.args n bv σ) = .ok (o σ)) ∧
    ∃ o : State → Orbit, ∀ σ, keplerianInit C (astroArgs (σ "log_period") (σ "log_a") (σ "ecc") (σ "tperi") (σ "plus") (σ "minus") (σ "cos_incl")) = .ok (o σ) :=
  ⟨⟨_, fun _ => rfl⟩, ⟨_, fun _ => rfl⟩⟩

end Exo
