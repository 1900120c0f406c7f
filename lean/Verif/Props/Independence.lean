import Verif.Props.Names
import Mathlib.Analysis.SpecialFunctions.Gamma.Deriv
import Mathlib.MeasureTheory.Integral.Marginal
import Mathlib.MeasureTheory.Constructions.BorelSpace.Complex

/-!
# C96: several distribution helpers in one model, their laws
-/

namespace Exo
open Kwargs MeasureTheory
open scoped ENNReal

/-! ## Measurability of the densities, and what they depend on -/

theorem measurable_Gamma : Measurable Real.Gamma := by
  have hc : (Set.range fun m : ℕ => -(m : ℝ)).Countable := Set.countable_range _
  have hcl : IsClosed (Set.range fun m : ℕ => -(m : ℝ)) := by
    have : (Set.range fun m : ℕ => -(m : ℝ)) = (fun x : ℝ => -x) ⁻¹' (Set.range fun m : ℕ => (m : ℝ)) := by
      ext x
      constructor
      · rintro ⟨m, rfl⟩; exact ⟨m, by simp⟩
      · rintro ⟨m, hm⟩; exact ⟨m, by simp only at hm ⊢; rw [hm]; simp⟩
    rw [this]
    exact (Nat.isClosedEmbedding_coe_real.isClosed_range).preimage continuous_neg
  have hcont : ContinuousOn Real.Gamma (Set.range fun m : ℕ => -(m : ℝ))ᶜ := by
    intro x hx
    exact (Real.differentiableAt_Gamma fun m hm => hx ⟨m, hm.symm⟩).continuousAt.continuousWithinAt
  refine measurable_of_isOpen fun U hU => ?_
  have e : Real.Gamma ⁻¹' U = (Real.Gamma ⁻¹' U ∩ Set.range fun m : ℕ => -(m : ℝ)) ∪
      ((Set.range fun m : ℕ => -(m : ℝ))ᶜ ∩ Real.Gamma ⁻¹' U) := by
    rw [Set.inter_comm _ (Real.Gamma ⁻¹' U), Set.inter_union_compl]
  rw [e]
  exact (hc.mono Set.inter_subset_right).measurableSet.union (hcont.isOpen_inter_preimage hcl.isOpen_compl hU).measurableSet

/-- The keywords that are parameters of the family. -/
def paramKeys : Family → List String
  | .normal => ["mu", "sigma"]
  | .uniform => ["lower", "upper"]
  | .beta => ["alpha", "beta"]
  | .halfNormal => ["sigma"]
  | .weibull => ["alpha", "beta"]

/-- The family of a distribution. -/
def Dist.fam : Dist → Family
  | .plain f _ => f
  | .truncated f _ _ _ => f
  | .bound f _ _ _ => f

/-- The parameters are measurable functions of the variables in `F`. -/
def ParamsOk (F : Set String) (f : Family) (p : Kwargs) : Prop :=
  ∀ k ∈ paramKeys f, ∀ d, Measurable (fun σ : State => (p.get k .none).toNum d σ) ∧
    DependsOn (fun σ : State => (p.get k .none).toNum d σ) F

theorem pdf_measurable {F : Set String} {p : Kwargs} {f : Family} (hp : ParamsOk F f p) :
    Measurable fun q : State × ℝ => f.pdf p q.1 q.2 := by
  have h : ∀ k ∈ paramKeys f, ∀ d, Measurable fun q : State × ℝ => (p.get k .none).toNum d q.1 :=
    fun k hk d => (hp k hk d).1.comp measurable_fst
  have g := measurable_Gamma
  cases f with
  | normal =>
    have h1 := h "mu" (by decide) 0
    have h2 := h "sigma" (by decide) 1
    simp only [Family.pdf, normalPdf]
    fun_prop
  | uniform =>
    have h1 := h "lower" (by decide) 0
    have h2 := h "upper" (by decide) 1
    simp only [Family.pdf, uniformPdf]
    refine Measurable.ite ?_ (by fun_prop) measurable_const
    exact (measurableSet_le h1 measurable_snd).inter (measurableSet_le measurable_snd h2)
  | beta =>
    have h1 := h "alpha" (by decide) 1
    have h2 := h "beta" (by decide) 1
    simp only [Family.pdf, betaPdf]
    refine Measurable.ite ?_ (by fun_prop) measurable_const
    exact (measurableSet_lt measurable_const measurable_snd).inter (measurableSet_lt measurable_snd measurable_const)
  | halfNormal =>
    have h2 := h "sigma" (by decide) 1
    simp only [Family.pdf, halfNormalPdf]
    refine Measurable.ite ?_ (by fun_prop) measurable_const
    exact measurableSet_le measurable_const measurable_snd
  | weibull =>
    have h1 := h "alpha" (by decide) 1
    have h2 := h "beta" (by decide) 1
    simp only [Family.pdf, weibullPdf]
    refine Measurable.ite ?_ (by fun_prop) measurable_const
    exact measurableSet_le measurable_const measurable_snd

theorem pdf_dependsOn {F : Set String} {p : Kwargs} {f : Family} (hp : ParamsOk F f p) (x : ℝ) :
    DependsOn (fun σ : State => f.pdf p σ x) F := by
  intro σ τ hστ
  have h : ∀ k ∈ paramKeys f, ∀ d, (p.get k .none).toNum d σ = (p.get k .none).toNum d τ := fun k hk d => (hp k hk d).2 hστ
  cases f with
  | normal => simp only [Family.pdf]; rw [h "mu" (by decide), h "sigma" (by decide)]
  | uniform => simp only [Family.pdf]; rw [h "lower" (by decide), h "upper" (by decide)]
  | beta => simp only [Family.pdf]; rw [h "alpha" (by decide), h "beta" (by decide)]
  | halfNormal => simp only [Family.pdf]; rw [h "sigma" (by decide)]
  | weibull => simp only [Family.pdf]; rw [h "alpha" (by decide), h "beta" (by decide)]

theorem measurableSet_inBounds (lo hi : Option ℝ) : MeasurableSet {y : ℝ | InBounds lo hi y} := by
  have : {y : ℝ | InBounds lo hi y} = (lo.elim Set.univ Set.Ici) ∩ (hi.elim Set.univ Set.Iic) := by
    ext y
    cases lo <;> cases hi <;> simp [InBounds]
  rw [this]
  refine MeasurableSet.inter ?_ ?_
  · cases lo <;> simp
  · cases hi <;> simp

theorem density_measurable {F : Set String} {d : Dist} (hp : ParamsOk F d.fam d.params) :
    Measurable fun q : State × ℝ => d.density q.1 q.2 := by
  cases d with
  | plain f p => exact (pdf_measurable hp).ennreal_ofReal
  | truncated f p lo hi =>
    have h1 : Measurable fun q : State × ℝ => ENNReal.ofReal (f.pdf p q.1 q.2) := (pdf_measurable hp).ennreal_ofReal
    have h2 : Measurable fun σ : State => ∫⁻ y in {y | InBounds lo hi y}, ENNReal.ofReal (f.pdf p σ y) :=
      h1.lintegral_prod_right'
    simp only [Dist.density]
    refine Measurable.ite ?_ (h1.div (h2.comp measurable_fst)) measurable_const
    exact measurable_snd (measurableSet_inBounds lo hi)
  | bound f p lo hi =>
    have h1 : Measurable fun q : State × ℝ => ENNReal.ofReal (f.pdf p q.1 q.2) := (pdf_measurable hp).ennreal_ofReal
    simp only [Dist.density]
    refine Measurable.ite ?_ h1 measurable_const
    exact measurable_snd (measurableSet_inBounds lo hi)

theorem density_dependsOn {F : Set String} {d : Dist} (hp : ParamsOk F d.fam d.params) (x : ℝ) :
    DependsOn (fun σ : State => d.density σ x) F := by
  intro σ τ hστ
  have h : ∀ y, d.fam.pdf d.params σ y = d.fam.pdf d.params τ y := fun y => pdf_dependsOn hp y hστ
  cases d with
  | plain f p => simp only [Dist.fam, Dist.params] at h; simp only [Dist.density, h]
  | truncated f p lo hi => simp only [Dist.fam, Dist.params] at h; simp only [Dist.density, h]
  | bound f p lo hi => simp only [Dist.fam, Dist.params] at h; simp only [Dist.density, h]

/-- A parameter that is a number, a variable in `F`, or absent. -/
def ValOk (F : Set String) (v : Val) : Prop := v = .none ∨ (∃ x, v = Val.ofReal x) ∨
  ∃ g : State → ℝ, v = .num g ∧ Measurable g ∧ DependsOn g F

theorem paramsOk_of {F : Set String} {f : Family} {p : Kwargs} (h : ∀ k ∈ paramKeys f, ValOk F (p.get k .none)) :
    ParamsOk F f p := by
  intro k hk d
  rcases h k hk with e | ⟨x, e⟩ | ⟨g, e, h1, h2⟩
  · rw [e]; exact ⟨measurable_const, fun _ _ _ => rfl⟩
  · rw [e]; exact ⟨measurable_const, fun _ _ _ => rfl⟩
  · rw [e]; exact ⟨h1, h2⟩

theorem valOk_var {F : Set String} {n : String} (hn : n ∈ F) : ValOk F (.num fun σ => σ n) :=
  .inr (.inr ⟨_, rfl, measurable_pi_apply n, fun _ _ e => e n hn⟩)

theorem uniform_params (b : Backend) (F : Set String) (lo hi : ℝ) (v : Val) (K : Kwargs) :
    ParamsOk F .uniform (limKw b lo hi v K) := by
  refine paramsOk_of fun k hk => ?_
  simp only [paramKeys, List.mem_cons, List.not_mem_nil, or_false] at hk
  rcases hk with rfl | rfl
  · rw [limKw_lower]; exact .inr (.inl ⟨_, rfl⟩)
  · rw [limKw_upper]; exact .inr (.inl ⟨_, rfl⟩)

/-- The factor of a registration is a measurable function of the variables in `F`. -/
def FactorOk (F : Set String) (r : Reg) : Prop := Measurable (fun σ => r.factor σ) ∧ DependsOn (fun σ => r.factor σ) F

theorem density_at {F : Set String} {n : String} (hn : n ∈ F) {d : Dist} (hp : ParamsOk F d.fam d.params) :
    Measurable (fun σ : State => d.density σ (σ n)) ∧ DependsOn (fun σ : State => d.density σ (σ n)) F := by
  refine ⟨?_, fun σ τ hστ => ?_⟩
  · have hm : Measurable fun σ : State => (σ, σ n) := measurable_id.prodMk (measurable_pi_apply n)
    have h := density_measurable (d := d) (F := F) hp
    have h' := h.comp hm
    exact h'
  · have := density_dependsOn hp (σ n) hστ
    simp only at this ⊢
    rw [this, hστ n hn]

theorem factor_uniform {b : Backend} {F : Set String} {n : String} (hn : n ∈ F) (lo hi : ℝ) (v : Val) (K : Kwargs) :
    FactorOk F (pmVar .uniform n (limKw b lo hi v K)) :=
  density_at hn (d := .plain .uniform (limKw b lo hi v K)) (uniform_params b F lo hi v K)

theorem factor_free {F : Set String} {n : String} (hn : n ∈ F) {d : Dist} (hp : ParamsOk F d.fam d.params) (kw : Kwargs) :
    FactorOk F (.free n d kw) := density_at hn hp

theorem factor_deterministic (F : Set String) (n : String) (f : State → List ℝ) : FactorOk F (.deterministic n f) :=
  ⟨measurable_const, fun _ _ _ => rfl⟩

theorem factor_potential {F : Set String} {n : String} {f : State → EReal} {g : State → ℝ≥0∞} (h : ∀ σ, EReal.exp (f σ) = g σ)
    (hg : Measurable g) (hd : DependsOn g F) : FactorOk F (.potential n f) := by
  have e : (fun σ => (Reg.potential n f).factor σ) = g := funext h
  unfold FactorOk
  rw [e]
  exact ⟨hg, hd⟩

theorem jointDensity_ok {F : Set String} {rs : List Reg} (h : ∀ r ∈ rs, FactorOk F r) :
    Measurable (fun σ => jointDensity rs σ) ∧ DependsOn (fun σ => jointDensity rs σ) F := by
  induction rs with
  | nil => exact ⟨measurable_const, fun _ _ _ => rfl⟩
  | cons r rs ih =>
    have h1 := h r (by simp)
    have h2 := ih fun s hs => h s (by simp [hs])
    simp only [jointDensity_cons]
    exact ⟨h1.1.mul h2.1, fun σ τ e => congrArg₂ (· * ·) (h1.2 e) (h2.2 e)⟩

theorem FactorOk.mono {F G : Set String} {r : Reg} (h : FactorOk F r) (hFG : F ⊆ G) : FactorOk G r :=
  ⟨h.1, fun _ _ e => h.2 fun i hi => e i (hFG hi)⟩

/-! ## The helpers -/

/-- Every registration of `rs` has a factor that depends only on the free variables of `rs`. -/
def Closed (rs : List Reg) : Prop := ∀ r ∈ rs, FactorOk {n | n ∈ freeNames rs} r

theorem angle_closed {b : Backend} {n : String} {reg : Option ℝ} {K : Kwargs} (hK : PlainKwargs K) {rs : List Reg} {v : State → ℝ}
    (h : angle b n reg K = .ok (rs, v)) : Closed rs := by
  obtain ⟨iv, -, rfl, -⟩ := angle_ok b n reg h
  have hfn : freeNames ([pmVar .normal ("__" ++ n ++ "_angle1") (strip K ++ [(b.startKey, .num fun σ => Real.sin (iv σ))]),
        pmVar .normal ("__" ++ n ++ "_angle2") (strip K ++ [(b.startKey, .num fun σ => Real.cos (iv σ))])] ++
        anglePot n reg ++
        [.deterministic n (fun σ => [arctan2 (σ ("__" ++ n ++ "_angle1")) (σ ("__" ++ n ++ "_angle2"))])]) =
      ["__" ++ n ++ "_angle1", "__" ++ n ++ "_angle2"] := by
    have := anglePot_freeNames n reg
    unfold freeNames at this ⊢
    rw [List.filterMap_append, List.filterMap_append, this]
    rfl
  unfold Closed
  rw [hfn]
  have hpar : ∀ (F : Set String) (w : Val), ParamsOk F .normal (strip K ++ [(b.startKey, w)]) := by
    intro F w
    refine paramsOk_of fun k hk => .inl ?_
    refine get_of_not_mem ?_ _
    rw [mem_append]
    have hk' : k ∉ ["initval", "testval", "shape", "dims", "model"] := by
      simp only [paramKeys, List.mem_cons, List.not_mem_nil, or_false] at hk
      rcases hk with rfl | rfl <;> decide
    have h1 : (strip K).mem k = false := mem_strip (plain_not_mem hK hk')
    rw [h1]
    have : b.startKey ≠ k := startKey_ne b (fun e => hk' (by simp [e])) (fun e => hk' (by simp [e]))
    simp [Kwargs.mem, this]
  intro r hr
  simp only [List.mem_append, List.mem_cons, List.not_mem_nil, or_false] at hr
  rcases hr with ((rfl | rfl) | hr) | rfl
  · exact factor_free (by simp) (hpar _ _) _
  · exact factor_free (by simp) (hpar _ _) _
  · cases reg with
    | none => cases hr
    | some c =>
      simp only [anglePot, List.mem_cons, List.not_mem_nil, or_false] at hr
      subst hr
      refine factor_potential (g := fun σ => ENNReal.ofReal (σ ("__" ++ n ++ "_angle1") ^ 2 + σ ("__" ++ n ++ "_angle2") ^ 2) ^ c)
        (fun σ => ?_) ?_ ?_
      · unfold ptLog
        rw [← ENNReal.log_rpow, ENNReal.exp_log]
      · fun_prop
      · intro σ τ e
        simp only
        rw [e _ (show _ ∈ {m | m ∈ ["__" ++ n ++ "_angle1", "__" ++ n ++ "_angle2"]} from by simp),
          e _ (show _ ∈ {m | m ∈ ["__" ++ n ++ "_angle1", "__" ++ n ++ "_angle2"]} from by simp)]
  · exact factor_deterministic ..

theorem unitDisk_closed {b : Backend} {nx ny : String} {K : Kwargs} {rs : List Reg} {x y : State → ℝ}
    (h : unitDisk b nx ny K = .ok (rs, x, y)) : Closed rs := by
  obtain ⟨i0, i1, -, -, rfl, -⟩ := unitDisk_ok b nx ny h
  have hx : nx ∈ {n | n ∈ [nx, "__" ++ ny ++ "_unit_disk"]} := by simp
  intro r hr
  simp only [List.mem_cons, List.not_mem_nil, or_false] at hr
  rcases hr with rfl | rfl | rfl | rfl
  · exact factor_uniform hx _ _ _ _
  · exact factor_uniform (show _ ∈ {n | n ∈ [nx, "__" ++ ny ++ "_unit_disk"]} by simp) _ _ _ _
  · refine factor_potential (g := fun σ => ENNReal.ofReal (Real.sqrt (1 - σ nx ^ 2))) (fun σ => ptLog_exp) ?_ ?_
    · fun_prop
    · intro σ τ e
      simp only
      rw [e nx hx]
  · exact factor_deterministic ..

theorem quadLimbDark_closed {b : Backend} {n : String} {K : Kwargs} {rs : List Reg} {x y : State → ℝ}
    (h : quadLimbDark b n K = .ok (rs, x, y)) : Closed rs := by
  obtain ⟨i0, i1, -, -, rfl, -⟩ := quadLimbDark_ok b n h
  intro r hr
  simp only [List.mem_cons, List.not_mem_nil, or_false] at hr
  rcases hr with rfl | rfl | rfl
  · exact factor_uniform (show _ ∈ {m | m ∈ ["__" ++ n ++ "_q1", "__" ++ n ++ "_q2"]} by simp) _ _ _ _
  · exact factor_uniform (show _ ∈ {m | m ∈ ["__" ++ n ++ "_q1", "__" ++ n ++ "_q2"]} by simp) _ _ _ _
  · exact factor_deterministic ..

theorem impactParameter_closed {b : Backend} {n : String} {ror : State → ℝ} {K : Kwargs} {rs : List Reg} {x : State → ℝ}
    (h : impactParameter b n ror K = .ok (rs, x)) : Closed rs := by
  obtain ⟨i0, -, rfl, -⟩ := impactParameter_ok b n ror h
  intro r hr
  simp only [List.mem_cons, List.not_mem_nil, or_false] at hr
  rcases hr with rfl | rfl
  · exact factor_uniform (show _ ∈ {m | m ∈ ["__" ++ n ++ "_impact_parameter"]} by simp) _ _ _ _
  · exact factor_deterministic ..

theorem hyper_free (b : Backend) (n s : String) (hi : Option ℝ) (mu sd : ℝ) : ∃ d kw, hyper b n s hi mu sd = .free (subName b n s) d kw ∧
    ∀ F, ParamsOk F d.fam d.params := by
  cases b
  · refine ⟨_, _, rfl, fun F => paramsOk_of fun k hk => .inr (.inl ?_)⟩
    simp only [Dist.fam, paramKeys, List.mem_cons, List.not_mem_nil, or_false] at hk
    rcases hk with rfl | rfl
    · exact ⟨mu, rfl⟩
    · exact ⟨sd, rfl⟩
  · refine ⟨_, _, rfl, fun F => paramsOk_of fun k hk => .inr (.inl ?_)⟩
    simp only [Dist.fam, paramKeys, List.mem_cons, List.not_mem_nil, or_false] at hk
    rcases hk with rfl | rfl
    · exact ⟨mu, rfl⟩
    · exact ⟨sd, rfl⟩

theorem kipping13_closed {b : Backend} {n : String} {fixed : Bool} {long : Option Bool} {lower upper : Option ℝ} {K : Kwargs}
    (hK : PlainKwargs K) {rs : List Reg} (h : kipping13 b n fixed long lower upper K = .ok rs) : Closed rs := by
  obtain ⟨r, hr, rfl⟩ := kipping13_ok b n fixed long lower upper h
  have ho : K.mem "observed" = false := plain_not_mem hK (by decide)
  rw [get_of_not_mem ho, del_of_not_mem ho] at hr
  obtain ⟨d, kw, rfl, ha, hb, hd⟩ := kippingLast_free b n hr
  have hfam : d.fam = .beta := by rcases hd with ⟨-, -, hd⟩ | ⟨-, hd⟩ | ⟨-, hd⟩ <;> rw [hd] <;> rfl
  obtain ⟨d1, kw1, e1, p1⟩ := hyper_free b n "alpha" none (kippingParams long).1 (kippingParams long).2.1
  obtain ⟨d2, kw2, e2, p2⟩ := hyper_free b n "beta" none (kippingParams long).2.2.1 (kippingParams long).2.2.2
  cases fixed
  · have eh : (kippingHyper b n false long).1 = [.free (subName b n "alpha") d1 kw1, .free (subName b n "beta") d2 kw2] := by
      rw [← e1, ← e2]; rfl
    have ea : (kippingHyper b n false long).2.1 = .num (fun σ => σ (subName b n "alpha")) := rfl
    have eb : (kippingHyper b n false long).2.2 = .num (fun σ => σ (subName b n "beta")) := rfl
    rw [ea] at ha
    rw [eb] at hb
    unfold Closed
    rw [eh]
    have hf : freeNames ([.free (subName b n "alpha") d1 kw1, .free (subName b n "beta") d2 kw2] ++ [.free n d kw]) =
        [subName b n "alpha", subName b n "beta", n] := rfl
    rw [hf]
    intro r hr
    simp only [List.cons_append, List.nil_append, List.mem_cons, List.not_mem_nil, or_false] at hr
    rcases hr with rfl | rfl | rfl
    · exact factor_free (by simp) (p1 _) _
    · exact factor_free (by simp) (p2 _) _
    · refine factor_free (by simp) ?_ _
      rw [hfam]
      refine paramsOk_of fun k hk => ?_
      simp only [paramKeys, List.mem_cons, List.not_mem_nil, or_false] at hk
      rcases hk with rfl | rfl
      · rw [ha]; exact valOk_var (by simp)
      · rw [hb]; exact valOk_var (by simp)
  · have eh : (kippingHyper b n true long).1 = [] := rfl
    have ea : (kippingHyper b n true long).2.1 = Val.ofReal (kippingParams long).1 := rfl
    have eb : (kippingHyper b n true long).2.2 = Val.ofReal (kippingParams long).2.2.1 := rfl
    rw [ea] at ha
    rw [eb] at hb
    unfold Closed
    rw [eh]
    have hf : freeNames ([] ++ [.free n d kw]) = [n] := rfl
    rw [hf]
    intro r hr
    simp only [List.nil_append, List.mem_cons, List.not_mem_nil, or_false] at hr
    subst hr
    refine factor_free (by simp) ?_ _
    rw [hfam]
    refine paramsOk_of fun k hk => ?_
    simp only [paramKeys, List.mem_cons, List.not_mem_nil, or_false] at hk
    rcases hk with rfl | rfl
    · rw [ha]; exact .inr (.inl ⟨_, rfl⟩)
    · rw [hb]; exact .inr (.inl ⟨_, rfl⟩)

theorem vaneylenEcc_plain {b : Backend} {n : String} {lo hi : ℝ} {K : Kwargs} (hK : PlainKwargs K) {r : Reg} {ecc : State → ℝ}
    (h : vaneylenEcc b n lo hi K = .ok (r, ecc)) : ecc = (fun σ => σ n) ∧ ∃ kw, r = pmVar .uniform n kw ∧
      kw.get "lower" .none = Val.ofReal lo ∧ kw.get "upper" .none = Val.ofReal hi := by
  have ho : K.mem "observed" = false := plain_not_mem hK (by decide)
  unfold vaneylenEcc at h
  simp only [Kwargs.pop, get_of_not_mem ho, del_of_not_mem ho] at h
  cases hm : Kwargs.merge [("lower", Val.ofReal lo), ("upper", Val.ofReal hi)] K with
  | error e => rw [hm] at h; cases h
  | ok kw =>
    rw [hm] at h
    have hkw := merge_ok hm
    injection h with h
    rw [Prod.mk.injEq] at h
    obtain ⟨rfl, rfl⟩ := h
    refine ⟨rfl, kw, rfl, ?_, ?_⟩
    · rw [hkw]; exact get_cons_self ..
    · rw [hkw]; exact (get_cons_ne (by decide) ..).trans (get_cons_self ..)

theorem vaneylen19_closed {b : Backend} {n : String} {fixed multi : Bool} {lower upper : Option ℝ} {K : Kwargs}
    (hK : PlainKwargs K) {rs : List Reg} (h : vaneylen19 b n fixed multi lower upper K = .ok rs) : Closed rs := by
  unfold vaneylen19 at h
  cases he : vaneylenEcc b n (lower.getD 0) (upper.getD 1) K with
  | error e => rw [he] at h; cases h
  | ok re =>
    obtain ⟨r, ecc⟩ := re
    rw [he] at h
    obtain ⟨rfl, kw, rfl, hlo, hhi⟩ := vaneylenEcc_plain hK he
    have h : pmVar .uniform n kw :: (vaneylenHyper b n fixed multi).1 ++ [.potential (subName b n "prior") (fun σ =>
      logaddexp (ptLog (1 - (vaneylenHyper b n fixed multi).2.2.2 σ) +
          (Dist.plain .halfNormal [("sigma", .num (vaneylenHyper b n fixed multi).2.1)]).logp σ (σ n))
        (ptLog ((vaneylenHyper b n fixed multi).2.2.2 σ) + (Dist.plain .weibull [("alpha", Val.ofReal 2),
          ("beta", .num (fun σ => Real.sqrt 2 * (vaneylenHyper b n fixed multi).2.2.1 σ))]).logp σ (σ n)))] = rs := Except.ok.inj h
    -- the mixture, for any parameters
    have mix : ∀ (F : Set String), n ∈ F → ∀ sg sr fr : State → ℝ, (Measurable sg ∧ DependsOn sg F) → (Measurable sr ∧ DependsOn sr F) →
        (Measurable fr ∧ DependsOn fr F) → FactorOk F (.potential (subName b n "prior") (fun σ =>
          logaddexp (ptLog (1 - fr σ) + (Dist.plain .halfNormal [("sigma", .num sg)]).logp σ (σ n))
            (ptLog (fr σ) + (Dist.plain .weibull [("alpha", Val.ofReal 2), ("beta", .num (fun σ => Real.sqrt 2 * sr σ))]).logp σ
              (σ n)))) := by
      intro F hn sg sr fr hsg hsr hfr
      obtain ⟨g1, g2⟩ := density_at (F := F) (n := n) hn (d := .plain .halfNormal [("sigma", .num sg)])
        (paramsOk_of fun k hk => by
          simp only [Dist.fam, paramKeys, List.mem_cons, List.not_mem_nil, or_false] at hk
          subst hk
          exact .inr (.inr ⟨sg, rfl, hsg.1, hsg.2⟩))
      obtain ⟨w1, w2⟩ := density_at (F := F) (n := n) hn
        (d := .plain .weibull [("alpha", Val.ofReal 2), ("beta", .num (fun σ => Real.sqrt 2 * sr σ))])
        (paramsOk_of fun k hk => by
          simp only [Dist.fam, paramKeys, List.mem_cons, List.not_mem_nil, or_false] at hk
          rcases hk with rfl | rfl
          · exact .inr (.inl ⟨2, rfl⟩)
          · refine .inr (.inr ⟨fun σ => Real.sqrt 2 * sr σ, rfl, measurable_const.mul hsr.1, fun σ τ e => ?_⟩)
            simp only
            rw [hsr.2 e])
      have hfm : Measurable fr := hfr.1
      refine factor_potential (g := fun σ => ENNReal.ofReal (1 - fr σ) * (Dist.plain .halfNormal [("sigma", .num sg)]).density σ (σ n) +
        ENNReal.ofReal (fr σ) * (Dist.plain .weibull [("alpha", Val.ofReal 2), ("beta", .num (fun σ => Real.sqrt 2 * sr σ))]).density σ
          (σ n)) (fun σ => ?_) ?_ ?_
      · rw [exp_logaddexp, EReal.exp_add, EReal.exp_add, exp_logp, exp_logp, ptLog_exp, ptLog_exp]
      · exact ((measurable_const.sub hfm).ennreal_ofReal.mul g1).add (hfm.ennreal_ofReal.mul w1)
      · intro σ τ e
        have a1 := hfr.2 e
        have a2 := g2 e
        have a3 := w2 e
        simp only at a2 a3
        show ENNReal.ofReal (1 - fr σ) * _ + ENNReal.ofReal (fr σ) * _ = ENNReal.ofReal (1 - fr τ) * _ + ENNReal.ofReal (fr τ) * _
        rw [a1, a2, a3]
    have hr : ∀ F : Set String, n ∈ F → FactorOk F (pmVar .uniform n kw) := by
      intro F hn
      refine factor_free hn (paramsOk_of fun k hk => ?_) _
      simp only [Dist.fam, Dist.params, paramKeys, List.mem_cons, List.not_mem_nil, or_false] at hk ⊢
      rcases hk with rfl | rfl
      · rw [hlo]; exact .inr (.inl ⟨_, rfl⟩)
      · rw [hhi]; exact .inr (.inl ⟨_, rfl⟩)
    obtain ⟨d1, kw1, e1, p1⟩ := hyper_free b n "sigma_gauss" none 0.049 0.02
    obtain ⟨d2, kw2, e2, p2⟩ := hyper_free b n "sigma_rayleigh" none 0.26 0.05
    obtain ⟨d3, kw3, e3, p3⟩ := hyper_free b n "frac" (some 1) (vaneylenFrac multi).1 (vaneylenFrac multi).2
    subst h
    cases fixed
    · have eh : (vaneylenHyper b n false multi).1 = [.free (subName b n "sigma_gauss") d1 kw1,
          .free (subName b n "sigma_rayleigh") d2 kw2, .free (subName b n "frac") d3 kw3] := by
        rw [← e1, ← e2, ← e3]; rfl
      unfold Closed
      simp only [eh]
      set F : Set String := {m | m ∈ [n, subName b n "sigma_gauss", subName b n "sigma_rayleigh", subName b n "frac"]} with hF
      intro r hrm
      show FactorOk F r
      have var : ∀ m ∈ F, Measurable (fun σ : State => σ m) ∧ DependsOn (fun σ : State => σ m) F := fun m hm =>
        ⟨measurable_pi_apply m, fun _ _ e => e m hm⟩
      simp only [List.cons_append, List.nil_append, List.mem_cons, List.not_mem_nil, or_false] at hrm
      rcases hrm with rfl | rfl | rfl | rfl | rfl
      · exact hr F (by simp [hF])
      · exact factor_free (by simp [hF]) (p1 _) _
      · exact factor_free (by simp [hF]) (p2 _) _
      · exact factor_free (by simp [hF]) (p3 _) _
      · exact mix F (by simp [hF]) _ _ _ (var _ (by simp [hF])) (var _ (by simp [hF])) (var _ (by simp [hF]))
    · have eh : (vaneylenHyper b n true multi).1 = [] := rfl
      unfold Closed
      simp only [eh]
      set F : Set String := {m | m ∈ [n]} with hF
      intro r hrm
      show FactorOk F r
      simp only [List.cons_append, List.nil_append, List.mem_cons, List.not_mem_nil, or_false] at hrm
      rcases hrm with rfl | rfl
      · exact hr F (by simp [hF])
      · exact mix F (by simp [hF]) _ _ _ ⟨measurable_const, fun _ _ _ => rfl⟩ ⟨measurable_const, fun _ _ _ => rfl⟩
          ⟨measurable_const, fun _ _ _ => rfl⟩

theorem run_closed {b : Backend} {h : Helper} (hs : h.SelfContained) {rs : List Reg} (hr : h.run b = .ok rs) : Closed rs := by
  cases h with
  | angle n reg kw => obtain ⟨⟨rs', v⟩, e, rfl⟩ := map_ok hr; exact angle_closed hs e
  | unitDisk nx ny kw => obtain ⟨⟨rs', x, y⟩, e, rfl⟩ := map_ok hr; exact unitDisk_closed e
  | quadLimbDark n kw => obtain ⟨⟨rs', x, y⟩, e, rfl⟩ := map_ok hr; exact quadLimbDark_closed e
  | impactParameter n ror kw => obtain ⟨⟨rs', x⟩, e, rfl⟩ := map_ok hr; exact impactParameter_closed e
  | kipping13 n fixed long lo hi kw => exact kipping13_closed hs hr
  | vaneylen19 n fixed multi lo hi kw => exact vaneylen19_closed hs hr

theorem freeNames_append (r s : List Reg) : freeNames (r ++ s) = freeNames r ++ freeNames s := List.filterMap_append ..

theorem freeNames_sublist (rs : List Reg) : List.Sublist (freeNames rs) (rs.map Reg.key) := by
  induction rs with
  | nil => exact List.Sublist.refl _
  | cons r rs ih =>
    cases r with
    | free n d kw => exact ih.cons₂ _
    | potential n f => exact ih.cons _
    | deterministic n f => exact ih.cons _

theorem closed_append {r s : List Reg} (hr : Closed r) (hs : Closed s) : Closed (r ++ s) := by
  intro x hx
  rw [List.mem_append] at hx
  rcases hx with hx | hx
  · exact (hr x hx).mono fun n hn => by
      rw [Set.mem_setOf_eq, freeNames_append, List.mem_append]; exact .inl hn
  · exact (hs x hx).mono fun n hn => by
      rw [Set.mem_setOf_eq, freeNames_append, List.mem_append]; exact .inr hn

theorem closed_flatten {b : Backend} {hs : List Helper} {rss : List (List Reg)} (hsc : ∀ h ∈ hs, h.SelfContained)
    (hf : List.Forall₂ (fun h rs => h.run b = .ok rs) hs rss) : Closed rss.flatten := by
  induction hf with
  | nil => intro r hr; cases hr
  | cons h1 hf ih =>
    rw [List.flatten_cons]
    exact closed_append (run_closed (hsc _ (by simp)) h1) (ih fun h hh => hsc h (by simp [hh]))

/-! ## Integrals over the variables of two groups -/

theorem lmarginal_mul_left {s : Finset String} {f g : State → ℝ≥0∞} {F : Set String} (hf : DependsOn f F)
    (hF : ∀ n ∈ F, n ∉ s) (hg : Measurable g) :
    lmarginal (fun _ => (volume : Measure ℝ)) s (fun σ => f σ * g σ) = fun σ => f σ * lmarginal (fun _ => volume) s g σ := by
  funext σ
  unfold lmarginal
  refine Eq.trans ?_ (lintegral_const_mul (f σ) (hg.comp measurable_updateFinset))
  refine lintegral_congr fun y => ?_
  show f _ * g _ = f σ * g _
  congr 1
  refine hf fun n hn => ?_
  rw [Function.updateFinset, dif_neg (hF n hn)]

theorem lmarginal_const {s : Finset String} {g : State → ℝ≥0∞} (hg : DependsOn g {n | n ∈ s}) (σ τ : State) :
    lmarginal (fun _ => (volume : Measure ℝ)) s g σ = lmarginal (fun _ => (volume : Measure ℝ)) s g τ := by
  unfold lmarginal
  refine lintegral_congr fun y => hg fun n hn => ?_
  have hn : n ∈ s := hn
  rw [Function.updateFinset, Function.updateFinset, dif_pos hn, dif_pos hn]

theorem indicator_dependsOn {F : Set String} {A : Set State} (hA : DependsOn (fun σ => σ ∈ A) F) :
    DependsOn (fun σ : State => A.indicator (1 : State → ℝ≥0∞) σ) F := by
  intro σ τ e
  have h : (σ ∈ A) = (τ ∈ A) := hA e
  by_cases hs : σ ∈ A
  · have ht : τ ∈ A := h ▸ hs
    simp [Set.indicator, hs, ht]
  · have ht : τ ∉ A := h ▸ hs
    simp [Set.indicator, hs, ht]

theorem mass_append {r s : List Reg} (hr : Closed r) (hs : Closed s) (hd : ∀ n ∈ freeNames r, n ∉ freeNames s) {A B : Set State}
    (hA : EventOf r A) (hB : EventOf s B) : mass (r ++ s) (A ∩ B) = mass r A * mass s B := by
  obtain ⟨mr, dr⟩ := jointDensity_ok hr
  obtain ⟨ms, ds⟩ := jointDensity_ok hs
  have m1 : Measurable fun σ => jointDensity r σ * A.indicator 1 σ := mr.mul (measurable_one.indicator hA.1)
  have m2 : Measurable fun σ => jointDensity s σ * B.indicator 1 σ := ms.mul (measurable_one.indicator hB.1)
  have d1 : DependsOn (fun σ => jointDensity r σ * A.indicator 1 σ) {n | n ∈ freeNames r} := fun σ τ e =>
    congrArg₂ (· * ·) (dr e) (indicator_dependsOn hA.2 e)
  have d2 : DependsOn (fun σ => jointDensity s σ * B.indicator 1 σ) {n | n ∈ freeNames s} := fun σ τ e =>
    congrArg₂ (· * ·) (ds e) (indicator_dependsOn hB.2 e)
  have m12 : Measurable fun σ => (jointDensity r σ * A.indicator 1 σ) * (jointDensity s σ * B.indicator 1 σ) := m1.mul m2
  unfold mass
  have e1 : (fun σ => jointDensity (r ++ s) σ * (A ∩ B).indicator 1 σ) =
      fun σ => (jointDensity r σ * A.indicator 1 σ) * (jointDensity s σ * B.indicator 1 σ) := by
    funext σ
    rw [jointDensity_append, Set.inter_indicator_one, Pi.mul_apply]
    ring
  have hdisj : Disjoint (freeNames r).toFinset (freeNames s).toFinset := by
    rw [Finset.disjoint_left]
    intro n hn hn'
    exact hd n (List.mem_toFinset.1 hn) (List.mem_toFinset.1 hn')
  rw [e1, freeNames_append, List.toFinset_append, lmarginal_union _ _ m12 hdisj,
    lmarginal_mul_left (F := {n | n ∈ freeNames r}) d1 (fun n hn hn' => hd n hn (List.mem_toFinset.1 hn')) m2]
  have e2 : (fun σ => jointDensity r σ * A.indicator 1 σ *
        lmarginal (fun _ => volume) (freeNames s).toFinset (fun σ => jointDensity s σ * B.indicator 1 σ) σ) =
      fun σ => lmarginal (fun _ => volume) (freeNames s).toFinset (fun σ => jointDensity s σ * B.indicator 1 σ) (fun _ => 0) *
        (jointDensity r σ * A.indicator 1 σ) := by
    funext σ
    rw [mul_comm, lmarginal_const (τ := fun _ => 0)]
    intro σ τ e
    exact d2 fun n hn => e n (List.mem_toFinset.2 hn)
  rw [e2, lmarginal_mul_left (F := ∅) (fun _ _ _ => rfl) (by simp) m1, mul_comm]

theorem buildModel_append {b : Backend} {hs1 hs2 : List Helper} {rs : List Reg} (h : buildModel b (hs1 ++ hs2) = .ok rs) :
    ∃ rss1 rss2, List.Forall₂ (fun h rs => h.run b = .ok rs) hs1 rss1 ∧ List.Forall₂ (fun h rs => h.run b = .ok rs) hs2 rss2 ∧
      buildModel b hs1 = .ok rss1.flatten ∧ buildModel b hs2 = .ok rss2.flatten ∧ rs = rss1.flatten ++ rss2.flatten ∧
      (rs.map Reg.key).Nodup := by
  obtain ⟨rss, hf, e, hnd0⟩ := extendModel_ok h
  have hnd := hnd0 (by simp)
  clear hnd0
  rw [List.nil_append] at e
  subst e
  have hsplit : ∃ rss1 rss2, rss = rss1 ++ rss2 ∧ List.Forall₂ (fun h rs => h.run b = .ok rs) hs1 rss1 ∧
      List.Forall₂ (fun h rs => h.run b = .ok rs) hs2 rss2 := by
    clear h hnd
    induction hs1 generalizing rss with
    | nil => exact ⟨[], rss, rfl, .nil, hf⟩
    | cons x hs1 ih =>
      cases hf with
      | cons h1 hf =>
        obtain ⟨a, c, rfl, h2, h3⟩ := ih _ hf
        exact ⟨_ :: a, c, rfl, .cons h1 h2, h3⟩
  obtain ⟨rss1, rss2, rfl, f1, f2⟩ := hsplit
  rw [List.flatten_append] at hnd ⊢
  have hn : (rss1.flatten.map Reg.key).Nodup ∧ (rss2.flatten.map Reg.key).Nodup := by
    rw [List.map_append, List.nodup_append] at hnd
    exact ⟨hnd.1, hnd.2.1⟩
  refine ⟨rss1, rss2, f1, f2, ?_, ?_, rfl, hnd⟩
  · unfold buildModel
    simpa using extendModel_of_nodup (m := []) f1 (by simpa using hn.1)
  · unfold buildModel
    simpa using extendModel_of_nodup (m := []) f2 (by simpa using hn.2)

/-- **C96** (independence): in every script of helpers that runs, the variables of the first calls and those of the later ones are
independent, and have the laws they have in a model of their own: the probability of an event about the first ones together with
an event about the later ones is the product of the two. -/
theorem C96_independent (b : Backend) (hs1 hs2 : List Helper) (hsc : ∀ h ∈ hs1 ++ hs2, h.SelfContained) {rs : List Reg}
    (h : buildModel b (hs1 ++ hs2) = .ok rs) : ∃ rs1 rs2, buildModel b hs1 = .ok rs1 ∧ buildModel b hs2 = .ok rs2 ∧
      rs = rs1 ++ rs2 ∧ ∀ A B, EventOf rs1 A → EventOf rs2 B → mass rs (A ∩ B) = mass rs1 A * mass rs2 B := by
  obtain ⟨rss1, rss2, f1, f2, b1, b2, rfl, hnd⟩ := buildModel_append h
  refine ⟨_, _, b1, b2, rfl, fun A B hA hB => ?_⟩
  refine mass_append (closed_flatten (fun x hx => hsc x (by simp [hx])) f1) (closed_flatten (fun x hx => hsc x (by simp [hx])) f2)
    ?_ hA hB
  intro n hn hn'
  rw [List.map_append, List.nodup_append] at hnd
  exact hnd.2.2 n ((freeNames_sublist _).subset hn) n ((freeNames_sublist _).subset hn') rfl

theorem mass_two {rs : List Reg} {n1 n2 : String} (hn : n1 ≠ n2) (hf : freeNames rs = [n1, n2])
    (hm : Measurable fun σ => jointDensity rs σ) {A : Set State} (hA : MeasurableSet A) :
    mass rs A = law2 rs n1 n2 {p | twoState n1 n2 p ∈ A} := by
  have m1 : Measurable fun σ => jointDensity rs σ * A.indicator 1 σ := hm.mul (measurable_one.indicator hA)
  have mt : Measurable fun p : ℝ × ℝ => twoState n1 n2 p := by
    refine measurable_pi_lambda _ fun n => ?_
    unfold twoState
    by_cases h2 : n = n2
    · subst h2; simp only [Function.update_self]; exact measurable_snd
    · by_cases h1 : n = n1
      · subst h1; simp only [Function.update_of_ne h2, Function.update_self]; exact measurable_fst
      · simp only [Function.update_of_ne h2, Function.update_of_ne h1]; exact measurable_const
  have e1 : mass rs A = ∫⁻ p : ℝ × ℝ, jointDensity rs (twoState n1 n2 p) * A.indicator 1 (twoState n1 n2 p) := by
    have mp : Measurable fun p : ℝ × ℝ => jointDensity rs (twoState n1 n2 p) * A.indicator 1 (twoState n1 n2 p) := m1.comp mt
    rw [Measure.volume_eq_prod, lintegral_prod _ mp.aemeasurable]
    unfold mass
    have hs : (freeNames rs).toFinset = insert n1 {n2} := by rw [hf]; simp
    rw [hs, lmarginal_insert _ m1 (by simpa using hn)]
    simp only [lmarginal_singleton]
    rfl
  rw [e1]
  unfold law2
  have hS : MeasurableSet {p : ℝ × ℝ | twoState n1 n2 p ∈ A} := mt hA
  rw [withDensity_apply _ hS, ← lintegral_indicator hS]
  refine lintegral_congr fun p => ?_
  by_cases hp : twoState n1 n2 p ∈ A
  · rw [Set.indicator_of_mem hp, Set.indicator_of_mem (show p ∈ {p | twoState n1 n2 p ∈ A} from hp)]; simp
  · rw [Set.indicator_of_notMem hp, Set.indicator_of_notMem (show p ∉ {p | twoState n1 n2 p ∈ A} from hp)]; simp

/-- The angle reported under the name `n`. -/
noncomputable def angleOf (n : String) (σ : State) : ℝ := arctan2 (σ ("__" ++ n ++ "_angle1")) (σ ("__" ++ n ++ "_angle2"))

theorem angleOf_measurable (n : String) : Measurable (angleOf n) := by
  have hma : Measurable (fun p : ℝ × ℝ => Complex.arg ⟨p.1, p.2⟩) :=
    Complex.measurable_arg.comp Complex.measurableEquivRealProd.symm.measurable
  have h2 : Measurable fun σ : State => (σ ("__" ++ n ++ "_angle2"), σ ("__" ++ n ++ "_angle1")) :=
    (measurable_pi_apply _).prodMk (measurable_pi_apply _)
  exact hma.comp h2

theorem angle_mass {b : Backend} {n : String} {reg : Option ℝ} (hreg : ∀ c, reg = some c → -1 < c) {K : Kwargs} (hK : PlainKwargs K)
    {rs : List Reg} {v : State → ℝ} (h : angle b n reg K = .ok (rs, v)) : ∃ c : ℝ≥0∞, c ≠ 0 ∧ c ≠ ⊤ ∧ ∀ S, MeasurableSet S →
      EventOf rs {σ | angleOf n σ ∈ S} ∧ mass rs {σ | angleOf n σ ∈ S} = c * volume (S ∩ Set.Ioc (-Real.pi) Real.pi) := by
  have hcl := angle_closed hK h
  obtain ⟨n1, n2, hfn, c, hc0, hct, hu⟩ := C51_uniform b n reg hreg hK h
  obtain ⟨iv, -, hrs, hv⟩ := angle_ok b n reg h
  have hfn' : freeNames rs = ["__" ++ n ++ "_angle1", "__" ++ n ++ "_angle2"] := by
    have := anglePot_freeNames n reg
    rw [hrs]
    unfold freeNames at this ⊢
    rw [List.filterMap_append, List.filterMap_append, this]
    rfl
  rw [hfn'] at hfn
  simp only [List.cons.injEq, and_true] at hfn
  obtain ⟨rfl, rfl⟩ := hfn
  have hv' : v = angleOf n := hv
  rw [hv'] at hu
  refine ⟨c, hc0, hct, fun S hS => ?_⟩
  have hA : MeasurableSet {σ : State | angleOf n σ ∈ S} := angleOf_measurable n hS
  refine ⟨⟨hA, fun σ τ e => ?_⟩, ?_⟩
  · rw [hfn'] at e
    have e1 := e ("__" ++ n ++ "_angle1") (by simp)
    have e2 := e ("__" ++ n ++ "_angle2") (by simp)
    simp only [Set.mem_setOf_eq, angleOf]
    rw [e1, e2]
  · rw [mass_two (angle_names n) hfn' (jointDensity_ok hcl).1 hA]
    have mt : Measurable fun p : ℝ × ℝ => angleOf n (twoState ("__" ++ n ++ "_angle1") ("__" ++ n ++ "_angle2") p) := by
      simp only [angleOf, twoState_fst (angle_names n), twoState_snd]
      have hma : Measurable (fun p : ℝ × ℝ => Complex.arg ⟨p.1, p.2⟩) :=
        Complex.measurable_arg.comp Complex.measurableEquivRealProd.symm.measurable
      exact hma.comp measurable_swap
    have := congrArg (fun μ => μ S) hu
    simp only [Measure.map_apply mt hS, Measure.smul_apply, smul_eq_mul, Measure.restrict_apply hS] at this
    exact this

/-- **C96** (angles): any number of angles in one model are independent and uniform: the reported values are jointly uniform on the
cube `(-π, π]ⁿ`. -/
theorem C96_angles (b : Backend) (as : List (String × Option ℝ × Kwargs)) (hreg : ∀ a ∈ as, ∀ c, a.2.1 = some c → -1 < c)
    (hK : ∀ a ∈ as, PlainKwargs a.2.2) {rs : List Reg} (h : buildModel b (as.map fun a => .angle a.1 a.2.1 a.2.2) = .ok rs) :
    ∃ c : ℝ≥0∞, c ≠ 0 ∧ c ≠ ⊤ ∧ ∀ S : String → Set ℝ, (∀ n, MeasurableSet (S n)) →
      mass rs {σ | ∀ a ∈ as, ∀ l, Reported rs a.1 σ l → ∃ x ∈ S a.1, l = [x]} =
        c * (as.map fun a => volume (S a.1 ∩ Set.Ioc (-Real.pi) Real.pi)).prod := by
  -- what is reported
  have hrep : ∀ (as : List (String × Option ℝ × Kwargs)) (rs : List Reg),
      buildModel b (as.map fun a => .angle a.1 a.2.1 a.2.2) = .ok rs → ∀ (a) (_ : a ∈ as) (σ) (l),
      Reported rs a.1 σ l ↔ l = [angleOf a.1 σ] := by
    intro as rs h a ha σ l
    obtain ⟨rss, hf, rfl, -⟩ := C96_distinct b _ h
    clear h
    have hin : ∀ n f, Reg.deterministic n f ∈ rss.flatten ↔ (∃ a ∈ as, a.1 = n) ∧ f = fun σ => [angleOf n σ] := by
      intro n f
      clear ha
      induction as generalizing rss with
      | nil => cases hf; simp
      | cons a' as ih =>
        cases hf with
        | @cons _ r' _ rss' h1 hf =>
          have ih := ih _ hf
          rw [List.flatten_cons, List.mem_append, ih]
          obtain ⟨⟨rs', v⟩, e, rfl⟩ := map_ok (x := angle b a'.1 a'.2.1 a'.2.2) (f := (·.1)) h1
          obtain ⟨iv, -, rfl, -⟩ := angle_ok b _ _ e
          have hpot : ∀ r ∈ anglePot a'.1 a'.2.1, r ≠ Reg.deterministic n f := by
            intro r hr
            unfold anglePot at hr
            split at hr
            · simp only [List.mem_cons, List.not_mem_nil, or_false] at hr; subst hr; simp
            · cases hr
          simp only [pmVar, List.mem_append, List.mem_cons, reduceCtorEq, List.not_mem_nil, or_false, false_or,
            Reg.deterministic.injEq, exists_eq_or_imp]
          constructor
          · rintro ((hr | ⟨rfl, rfl⟩) | ⟨h2, h3⟩)
            · exact absurd rfl (hpot _ hr)
            · exact ⟨.inl rfl, rfl⟩
            · exact ⟨.inr h2, h3⟩
          · rintro ⟨rfl | h2, h3⟩
            · exact .inl (.inr ⟨rfl, h3⟩)
            · exact .inr ⟨h2, h3⟩
    unfold Reported
    simp only [hin]
    constructor
    · rintro ⟨f, ⟨-, rfl⟩, rfl⟩; rfl
    · rintro rfl; exact ⟨_, ⟨⟨a, ha, rfl⟩, rfl⟩, rfl⟩
  have hset : ∀ (as : List (String × Option ℝ × Kwargs)) (rs : List Reg),
      buildModel b (as.map fun a => .angle a.1 a.2.1 a.2.2) = .ok rs → ∀ S : String → Set ℝ,
      {σ | ∀ a ∈ as, ∀ l, Reported rs a.1 σ l → ∃ x ∈ S a.1, l = [x]} = {σ | ∀ a ∈ as, angleOf a.1 σ ∈ S a.1} := by
    intro as rs h S
    ext σ
    simp only [Set.mem_setOf_eq]
    refine forall₂_congr fun a ha => ?_
    simp only [hrep as rs h a ha, forall_eq, List.cons.injEq, and_true]
    simp
  suffices key : ∃ c : ℝ≥0∞, c ≠ 0 ∧ c ≠ ⊤ ∧ ∀ S : String → Set ℝ, (∀ n, MeasurableSet (S n)) →
      EventOf rs {σ | ∀ a ∈ as, angleOf a.1 σ ∈ S a.1} ∧
      mass rs {σ | ∀ a ∈ as, angleOf a.1 σ ∈ S a.1} = c * (as.map fun a => volume (S a.1 ∩ Set.Ioc (-Real.pi) Real.pi)).prod by
    obtain ⟨c, h0, h1, h2⟩ := key
    refine ⟨c, h0, h1, fun S hS => ?_⟩
    rw [hset as rs h S]
    exact (h2 S hS).2
  clear hrep hset
  induction as generalizing rs with
  | nil =>
    injection h with h
    subst h
    refine ⟨1, one_ne_zero, ENNReal.one_ne_top, fun S _ => ⟨⟨by simp, fun _ _ _ => by simp⟩, ?_⟩⟩
    simp [mass, freeNames, jointDensity_nil]
  | cons a as ih =>
    rw [List.map_cons, ← List.singleton_append] at h
    obtain ⟨rs1, rs2, b1, b2, rfl, hind⟩ := C96_independent b [.angle a.1 a.2.1 a.2.2] (as.map fun a => .angle a.1 a.2.1 a.2.2)
      (by
        intro x hx
        rw [List.singleton_append, List.mem_cons, List.mem_map] at hx
        rcases hx with rfl | ⟨y, hy, rfl⟩
        · exact hK a (by simp)
        · exact hK y (by simp [hy])) h
    obtain ⟨c2, h20, h21, h2⟩ := ih (fun x hx => hreg x (by simp [hx])) (fun x hx => hK x (by simp [hx])) b2
    obtain ⟨rss, hf, rfl, -⟩ := C96_distinct b _ b1
    cases hf with
    | @cons _ r _ rss h1 hf =>
      cases hf
      obtain ⟨⟨rs', v⟩, e, rfl⟩ := map_ok (x := angle b a.1 a.2.1 a.2.2) (f := (·.1)) h1
      obtain ⟨c1, h10, h11, h1'⟩ := angle_mass (hreg a (by simp)) (hK a (by simp)) e
      simp only [List.flatten_cons, List.flatten_nil, List.append_nil] at hind ⊢
      refine ⟨c1 * c2, mul_ne_zero h10 h20, ENNReal.mul_ne_top h11 h21, fun S hS => ?_⟩
      obtain ⟨e1, m1⟩ := h1' (S a.1) (hS _)
      obtain ⟨e2, m2⟩ := h2 S hS
      have hAB : {σ : State | ∀ x ∈ a :: as, angleOf x.1 σ ∈ S x.1} =
          {σ | angleOf a.1 σ ∈ S a.1} ∩ {σ | ∀ x ∈ as, angleOf x.1 σ ∈ S x.1} := by
        ext σ; simp
      rw [hAB]
      refine ⟨⟨e1.1.inter e2.1, fun σ τ hστ => ?_⟩, ?_⟩
      · have s1 : (angleOf a.1 σ ∈ S a.1) = (angleOf a.1 τ ∈ S a.1) := e1.2 fun n hn => hστ n (by
          rw [Set.mem_setOf_eq, freeNames_append, List.mem_append]; exact .inl hn)
        have s2 : (∀ x ∈ as, angleOf x.1 σ ∈ S x.1) = (∀ x ∈ as, angleOf x.1 τ ∈ S x.1) := e2.2 fun n hn => hστ n (by
          rw [Set.mem_setOf_eq, freeNames_append, List.mem_append]; exact .inr hn)
        simp only [Set.mem_inter_iff, Set.mem_setOf_eq]
        rw [s1, s2]
      · rw [hind _ _ e1 e2, m1, m2, List.map_cons, List.prod_cons]
        ring

theorem demo_angles_build (b : Backend) :
    ∃ rs, buildModel b [.angle "omega_b" (some 10) [], .angle "omega_c" none []] = .ok rs := by
  obtain ⟨r1, h1⟩ := angle_runs b "omega_b" (some 10)
  obtain ⟨r2, h2⟩ := angle_runs b "omega_c" none
  have hf : List.Forall₂ (fun h rs => Helper.run b h = .ok rs)
      [Helper.angle "omega_b" (some 10) [], Helper.angle "omega_c" none []] [r1, r2] := .cons h1 (.cons h2 .nil)
  refine ⟨_, extendModel_of_nodup (m := []) hf ?_⟩
  rw [List.nil_append, keys_flatten hf]
  simp only [List.flatMap_cons, List.flatMap_nil, Helper.tags, Option.isSome_some, if_true, List.cons_append, List.nil_append,
    List.append_nil, List.map_cons, List.map_nil, auxName, Option.isSome_none]
  simp

/-- Non-vacuity: two arguments of periastron in one model; for example, both are positive in a quarter of the cases. -/
example (b : Backend) : ∃ rs, buildModel b ([("omega_b", some 10, []), ("omega_c", none, [])].map
    fun a : String × Option ℝ × Kwargs => .angle a.1 a.2.1 a.2.2) = .ok rs ∧
    ∃ c : ℝ≥0∞, c ≠ 0 ∧ c ≠ ⊤ ∧ mass rs {σ | ∀ a ∈ [("omega_b", some (10 : ℝ), ([] : Kwargs)), ("omega_c", none, [])],
      ∀ l, Reported rs a.1 σ l → ∃ x ∈ Set.Ioi (0 : ℝ), l = [x]} =
        c * (ENNReal.ofReal Real.pi * ENNReal.ofReal Real.pi) := by
  obtain ⟨rs, h⟩ := demo_angles_build b
  refine ⟨rs, h, ?_⟩
  obtain ⟨c, h0, h1, hc⟩ := C96_angles b [("omega_b", some (10 : ℝ), ([] : Kwargs)), ("omega_c", none, [])]
    (by
      intro a ha c hc
      simp only [List.mem_cons, List.not_mem_nil, or_false] at ha
      rcases ha with rfl | rfl
      · simp only [Option.some.injEq] at hc; subst hc; norm_num
      · cases hc)
    (by
      intro a ha p hp
      simp only [List.mem_cons, List.not_mem_nil, or_false] at ha
      rcases ha with rfl | rfl <;> cases hp) h
  refine ⟨c, h0, h1, ?_⟩
  rw [hc (fun _ => Set.Ioi 0) fun _ => measurableSet_Ioi]
  have : Set.Ioi (0 : ℝ) ∩ Set.Ioc (-Real.pi) Real.pi = Set.Ioc 0 Real.pi := by
    ext x
    simp only [Set.mem_inter_iff, Set.mem_Ioi, Set.mem_Ioc]
    have := Real.pi_pos
    constructor
    · rintro ⟨h1, -, h2⟩; exact ⟨h1, h2⟩
    · rintro ⟨h1, h2⟩; exact ⟨h1, by linarith, h2⟩
  simp only [this, Real.volume_Ioc, sub_zero, List.map_cons, List.map_nil, List.prod_cons, List.prod_nil, mul_one]

example (b : Backend) : ∃ rs rs1 rs2, buildModel b [.angle "omega_b" (some 10) [], .angle "omega_c" none []] = .ok rs ∧
    (∀ h ∈ [Helper.angle "omega_b" (some 10) [], Helper.angle "omega_c" none []], h.SelfContained) ∧ rs = rs1 ++ rs2 ∧
    EventOf rs1 {σ | 0 < angleOf "omega_b" σ} := by
  obtain ⟨rs, h⟩ := demo_angles_build b
  have hsc : ∀ h ∈ [Helper.angle "omega_b" (some 10) []] ++ [Helper.angle "omega_c" none []], h.SelfContained := by
    intro x hx
    simp only [List.cons_append, List.nil_append, List.mem_cons, List.not_mem_nil, or_false] at hx
    rcases hx with rfl | rfl <;> exact fun p hp => by cases hp
  obtain ⟨rs1, rs2, b1, b2, e, -⟩ := C96_independent b [.angle "omega_b" (some 10) []] [.angle "omega_c" none []] hsc h
  refine ⟨rs, rs1, rs2, h, hsc, e, ?_⟩
  obtain ⟨rss, hf, rfl, -⟩ := C96_distinct b _ b1
  cases hf with
  | @cons _ r _ rss h1 hf =>
    cases hf
    obtain ⟨⟨rs', v⟩, e, rfl⟩ := map_ok (x := angle b "omega_b" (some 10) []) (f := (·.1)) h1
    obtain ⟨c, -, -, hm⟩ := angle_mass (fun c hc => by simp only [Option.some.injEq] at hc; subst hc; norm_num)
      (fun p hp => by cases hp) e
    simpa using (hm (Set.Ioi 0) measurableSet_Ioi).1

end Exo
