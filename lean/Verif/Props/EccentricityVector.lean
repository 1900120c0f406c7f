import Verif.Model.EccentricityVector
import Verif.Spec.EccentricityVector
import Verif.Lemmas.DiscPolar
import Verif.Props.Independence
import Verif.Props.DistributionShapes2

/-!
# C98: eccentricity and argument of periastron from `unit_disk`
-/

namespace Exo
open Kwargs MeasureTheory Set
open scoped ENNReal

theorem setTwo_fst {n1 n2 : String} (h : n1 ≠ n2) (σ : State) (p : ℝ × ℝ) : setTwo σ n1 n2 p n1 = p.1 := by
  unfold setTwo; simp [h]

theorem setTwo_snd (σ : State) (n1 n2 : String) (p : ℝ × ℝ) : setTwo σ n1 n2 p n2 = p.2 := by
  unfold setTwo; simp

theorem setTwo_other {n1 n2 m : String} (h1 : m ≠ n1) (h2 : m ≠ n2) (σ : State) (p : ℝ × ℝ) : setTwo σ n1 n2 p m = σ m := by
  unfold setTwo; simp [h1, h2]

/-- **C98** (geometry): the two numbers are `sqrt(e) cos(omega)` and `sqrt(e) sin(omega)`. -/
theorem C98_components (x y : State → ℝ) (σ : State) :
    Real.sqrt (eccVector x y σ).1 * Real.cos (eccVector x y σ).2 = x σ ∧
    Real.sqrt (eccVector x y σ).1 * Real.sin (eccVector x y σ).2 = y σ := by
  have hn : ‖(⟨x σ, y σ⟩ : ℂ)‖ = Real.sqrt (x σ ^ 2 + y σ ^ 2) := by
    rw [Complex.norm_eq_sqrt_sq_add_sq]
  have h1 := Complex.norm_mul_cos_arg (⟨x σ, y σ⟩ : ℂ)
  have h2 := Complex.norm_mul_sin_arg (⟨x σ, y σ⟩ : ℂ)
  rw [hn] at h1 h2
  exact ⟨h1, h2⟩

/-- **C98** (range): in every state the sampler visits, `0 ≤ e < 1`: an elliptic orbit. -/
theorem C98_range (b : Backend) (nx ny : String) {K : Kwargs} {rs : List Reg} {x y : State → ℝ}
    (h : unitDisk b nx ny K = .ok (rs, x, y)) (σ : State) (hσ : Visited rs σ) : eccVector x y σ ∈ eccBox := by
  have h1 := C48_support b nx ny h σ hσ
  refine ⟨⟨?_, h1⟩, Complex.neg_pi_lt_arg _, Complex.arg_le_pi _⟩
  show 0 ≤ x σ ^ 2 + y σ ^ 2
  positivity

/-- The law of the point in the disc, given the other variables. -/
theorem unitDisk_law2At (b : Backend) (nx ny : String) (hn : nx ≠ "__" ++ ny ++ "_unit_disk") {K : Kwargs} {rs : List Reg}
    {x y : State → ℝ} (h : unitDisk b nx ny K = .ok (rs, x, y)) (σ : State) :
    Measure.map (fun p => (x (setTwo σ nx ("__" ++ ny ++ "_unit_disk") p), y (setTwo σ nx ("__" ++ ny ++ "_unit_disk") p)))
      (law2At rs nx ("__" ++ ny ++ "_unit_disk") σ) = ENNReal.ofReal (1 / 4) • (volume : Measure (ℝ × ℝ)).restrict unitDisc := by
  obtain ⟨i0, i1, -, -, rfl, rfl, rfl⟩ := unitDisk_ok b nx ny h
  unfold law2At
  simp only [unitDisk_density, setTwo_fst hn, setTwo_snd]
  refine disc_uniform (ENNReal.ofReal (1 / 4)) fun p => ?_
  unfold uniformPdf
  by_cases h1 : -1 ≤ p.1 ∧ p.1 ≤ 1 <;> by_cases h2 : -1 ≤ p.2 ∧ p.2 ≤ 1
  · rw [if_pos h1, if_pos h2, Set.indicator_of_mem (Set.mk_mem_prod (Set.mem_Icc.2 h1) (Set.mem_Icc.2 h2)), ← mul_assoc,
      ← ENNReal.ofReal_mul (by norm_num)]
    norm_num
  · rw [if_neg h2, Set.indicator_of_notMem fun hc => h2 hc.2]; simp
  · rw [if_neg h1, Set.indicator_of_notMem fun hc => h1 hc.1]; simp
  · rw [if_neg h1, Set.indicator_of_notMem fun hc => h1 hc.1]; simp

theorem measurable_disk_setTwo {b : Backend} {nx ny : String} (hn : nx ≠ "__" ++ ny ++ "_unit_disk") {K : Kwargs} {rs : List Reg}
    {x y : State → ℝ} (h : unitDisk b nx ny K = .ok (rs, x, y)) (σ : State) :
    Measurable fun p => (x (setTwo σ nx ("__" ++ ny ++ "_unit_disk") p), y (setTwo σ nx ("__" ++ ny ++ "_unit_disk") p)) := by
  obtain ⟨i0, i1, -, -, rfl, rfl, rfl⟩ := unitDisk_ok b nx ny h
  simp only [setTwo_fst hn, setTwo_snd]
  fun_prop

theorem disc_polar' (c : ℝ≥0∞) : Measure.map (fun p : ℝ × ℝ => (p.1 ^ 2 + p.2 ^ 2, arctan2 p.2 p.1))
    (c • (volume : Measure (ℝ × ℝ)).restrict unitDisc) = (c * 2⁻¹) • (volume : Measure (ℝ × ℝ)).restrict eccBox := by
  rw [Measure.map_smul, ← smul_smul]
  exact congrArg (c • ·) disc_polar

/-- The disc is symmetric under exchange of the coordinates. -/
theorem disc_swap : Measure.map Prod.swap ((volume : Measure (ℝ × ℝ)).restrict unitDisc) = volume.restrict unitDisc := by
  have h : MeasurePreserving (Prod.swap : ℝ × ℝ → ℝ × ℝ) volume volume := Measure.measurePreserving_swap
  have hD : MeasurableSet unitDisc := by
    have : Measurable fun q : ℝ × ℝ => q.1 ^ 2 + q.2 ^ 2 := by fun_prop
    exact measurableSet_lt this measurable_const
  have := (h.restrict_preimage hD).map_eq
  have e : Prod.swap ⁻¹' unitDisc = unitDisc := by
    ext q
    show q.2 ^ 2 + q.1 ^ 2 < 1 ↔ q.1 ^ 2 + q.2 ^ 2 < 1
    rw [add_comm]
  rw [e] at this
  exact this

/-- **C98** (prior without more): the eccentricity is uniform on `[0, 1)`, the argument of periastron is uniform on the circle, and they
are independent; also with the roles of the two numbers exchanged, as in the other tutorial. -/
theorem C98_uniform (b : Backend) (nx ny : String) (hn : nx ≠ "__" ++ ny ++ "_unit_disk") {K : Kwargs} {rs : List Reg}
    {x y : State → ℝ} (h : unitDisk b nx ny K = .ok (rs, x, y)) : ∃ n1 n2, freeNames rs = [n1, n2] ∧
    UniformOn (Measure.map (fun p => eccVector x y (twoState n1 n2 p)) (law2 rs n1 n2)) eccBox ∧
    UniformOn (Measure.map (fun p => eccVector y x (twoState n1 n2 p)) (law2 rs n1 n2)) eccBox := by
  have hl := unitDisk_law2At b nx ny hn h (fun _ => 0)
  have hm := measurable_disk_setTwo hn h (fun _ => 0)
  have hf : freeNames rs = [nx, "__" ++ ny ++ "_unit_disk"] := by
    obtain ⟨i0, i1, -, -, rfl, rfl, rfl⟩ := unitDisk_ok b nx ny h
    rfl
  have hc : ENNReal.ofReal (1 / 4) * 2⁻¹ ≠ 0 := by simp
  have hc' : ENNReal.ofReal (1 / 4) * 2⁻¹ ≠ ⊤ := ENNReal.mul_ne_top ENNReal.ofReal_ne_top (by simp)
  have m0 : Measurable fun p : ℝ × ℝ => (p.1 ^ 2 + p.2 ^ 2, arctan2 p.2 p.1) := measurable_eccOmega
  refine ⟨_, _, hf, ⟨_, hc, hc', ?_⟩, ⟨_, hc, hc', ?_⟩⟩
  · rw [← disc_polar', ← hl, Measure.map_map m0 hm]
    rfl
  · have e2 : ENNReal.ofReal (1 / 4) • (volume : Measure (ℝ × ℝ)).restrict unitDisc =
        Measure.map Prod.swap (ENNReal.ofReal (1 / 4) • (volume : Measure (ℝ × ℝ)).restrict unitDisc) := by
      rw [Measure.map_smul, disc_swap]
    rw [← disc_polar', e2, ← hl, Measure.map_map m0 measurable_swap, Measure.map_map (m0.comp measurable_swap) hm]
    rfl

/-- The law of `(e, omega)` when everything else that is registered has a density that depends on `e` only. -/
theorem eccVector_law {b : Backend} {nx ny : String} (hn : nx ≠ "__" ++ ny ++ "_unit_disk") {K : Kwargs} {rs rs' : List Reg}
    {x y : State → ℝ} (h : unitDisk b nx ny K = .ok (rs, x, y)) (σ : State) {g : ℝ → ℝ≥0∞} (hg : Measurable g)
    (hrs : ∀ p, jointDensity rs' (setTwo σ nx ("__" ++ ny ++ "_unit_disk") p) =
      g (eccOf x y (setTwo σ nx ("__" ++ ny ++ "_unit_disk") p))) :
    Measure.map (fun p => eccVector x y (setTwo σ nx ("__" ++ ny ++ "_unit_disk") p))
      (law2At (rs ++ rs') nx ("__" ++ ny ++ "_unit_disk") σ) =
    (8⁻¹ : ℝ≥0∞) • ((volume : Measure (ℝ × ℝ)).restrict eccBox).withDensity fun q => g q.1 := by
  have hl := unitDisk_law2At b nx ny hn h σ
  have hm := measurable_disk_setTwo hn h σ
  have m0 : Measurable fun p : ℝ × ℝ => (p.1 ^ 2 + p.2 ^ 2, arctan2 p.2 p.1) := measurable_eccOmega
  have mF : Measurable fun p => eccVector x y (setTwo σ nx ("__" ++ ny ++ "_unit_disk") p) := m0.comp hm
  have hjm : Measurable fun p => jointDensity rs (setTwo σ nx ("__" ++ ny ++ "_unit_disk") p) := by
    obtain ⟨i0, i1, -, -, rfl, rfl, rfl⟩ := unitDisk_ok b nx ny h
    simp only [unitDisk_density, setTwo_fst hn, setTwo_snd]
    have := measurable_uniformPdf (-1) 1
    fun_prop
  have hg1 : Measurable fun q : ℝ × ℝ => g q.1 := hg.comp measurable_fst
  have e1 : law2At (rs ++ rs') nx ("__" ++ ny ++ "_unit_disk") σ =
      (law2At rs nx ("__" ++ ny ++ "_unit_disk") σ).withDensity
        fun p => (fun q : ℝ × ℝ => g q.1) (eccVector x y (setTwo σ nx ("__" ++ ny ++ "_unit_disk") p)) := by
    unfold law2At
    have hg2 : Measurable fun p => (fun q : ℝ × ℝ => g q.1) (eccVector x y (setTwo σ nx ("__" ++ ny ++ "_unit_disk") p)) :=
      hg1.comp mF
    rw [← withDensity_mul _ hjm hg2]
    congr 1
    funext p
    rw [jointDensity_append, hrs]
    rfl
  rw [e1, map_withDensity_comp mF hg1]
  have e2 : Measure.map (fun p => eccVector x y (setTwo σ nx ("__" ++ ny ++ "_unit_disk") p))
      (law2At rs nx ("__" ++ ny ++ "_unit_disk") σ) = (8⁻¹ : ℝ≥0∞) • (volume : Measure (ℝ × ℝ)).restrict eccBox := by
    have ec : (8⁻¹ : ℝ≥0∞) = ENNReal.ofReal (1 / 4) * 2⁻¹ := by
      rw [show (1 / 4 : ℝ) = 4⁻¹ by norm_num, ENNReal.ofReal_inv_of_pos (by norm_num),
        show ENNReal.ofReal 4 = 4 by norm_num, ← ENNReal.mul_inv (by simp) (by simp)]
      norm_num
    rw [ec, ← disc_polar', ← hl, Measure.map_map m0 hm]
    rfl
  rw [e2, withDensity_smul_measure]

/-! ## With a prior on the eccentricity -/

theorem kippingHyper_ok (b : Backend) (name : String) (fixed : Bool) (long : Option Bool) :
    ∀ r ∈ (kippingHyper b name fixed long).1, FactorOk {n | n ≠ name} r := by
  obtain ⟨d1, kw1, e1, p1⟩ := hyper_free b name "alpha" none (kippingParams long).1 (kippingParams long).2.1
  obtain ⟨d2, kw2, e2, p2⟩ := hyper_free b name "beta" none (kippingParams long).2.2.1 (kippingParams long).2.2.2
  intro r hr
  cases fixed
  · have eh : (kippingHyper b name false long).1 = [.free (subName b name "alpha") d1 kw1, .free (subName b name "beta") d2 kw2] := by
      rw [← e1, ← e2]; rfl
    rw [eh] at hr
    simp only [List.mem_cons, List.not_mem_nil, or_false] at hr
    rcases hr with rfl | rfl
    · exact factor_free (subName_ne b name "alpha") (p1 _) _
    · exact factor_free (subName_ne b name "beta") (p2 _) _
  · cases hr

/-- An observed eccentricity is scored as if it were the value of the free variable. -/
theorem kipping13_observed_density {b : Backend} {name : String} {fixed : Bool} {long : Option Bool} {lower upper : Option ℝ}
    (hb : b = .pymc ∨ lower = none ∧ upper = none) {K : Kwargs} (hK : K.mem "observed" = false) (e : State → ℝ)
    {rs rs' : List Reg} (h : kipping13 b name fixed long lower upper (("observed", .num e) :: K) = .ok rs)
    (h' : kipping13 b name fixed long lower upper K = .ok rs') (σ : State) :
    jointDensity rs σ = jointDensity rs' (Function.update σ name (e σ)) := by
  obtain ⟨d0, kw0, hl, hd⟩ := C52_density b name fixed long lower upper hK h'
  obtain ⟨hs, d, kw, f, rfl, rfl, hf⟩ := C52_observed_partial b name fixed long lower upper hb hK e h h'
  have hd0 : d0 = d := by
    rw [List.getLast?_append] at hl
    simp at hl
    exact hl.1.symm
  subst hd0
  have hhs : hs = (kippingHyper b name fixed long).1 := by
    obtain ⟨r, -, e2⟩ := kipping13_ok b name fixed long lower upper h'
    exact (List.append_inj' e2 rfl).1
  subst hhs
  rw [jointDensity_append, jointDensity_append, jointDensity_cons, jointDensity_cons, jointDensity_nil, jointDensity_nil, hf]
  have e1 := (jointDensity_ok (kippingHyper_ok b name fixed long)).2 (x := σ) (y := Function.update σ name (e σ))
    fun n hn => (Function.update_of_ne hn _ _).symm
  simp only at e1
  rw [e1]
  congr 2
  have e2 : kippingShape b name fixed long (Function.update σ name (e σ)) = kippingShape b name fixed long σ := by
    unfold kippingShape
    rw [Function.update_of_ne (subName_ne b name "alpha"), Function.update_of_ne (subName_ne b name "beta")]
  simp only [Reg.factor]
  rw [hd, hd, e2, Function.update_self]

/-- The hyperparameters of `vaneylen19` are not the eccentricity. -/
theorem vaneylenHyper_ok (b : Backend) (name : String) (fixed multi : Bool) :
    (∀ r ∈ (vaneylenHyper b name fixed multi).1, FactorOk {n | n ≠ name} r) ∧
    ∀ σ τ : State, (∀ n ≠ name, σ n = τ n) → (vaneylenHyper b name fixed multi).2.1 σ = (vaneylenHyper b name fixed multi).2.1 τ ∧
      (vaneylenHyper b name fixed multi).2.2.1 σ = (vaneylenHyper b name fixed multi).2.2.1 τ ∧
      (vaneylenHyper b name fixed multi).2.2.2 σ = (vaneylenHyper b name fixed multi).2.2.2 τ := by
  obtain ⟨d1, kw1, e1, p1⟩ := hyper_free b name "sigma_gauss" none 0.049 0.02
  obtain ⟨d2, kw2, e2, p2⟩ := hyper_free b name "sigma_rayleigh" none 0.26 0.05
  obtain ⟨d3, kw3, e3, p3⟩ := hyper_free b name "frac" (some 1) (vaneylenFrac multi).1 (vaneylenFrac multi).2
  cases fixed
  · refine ⟨fun r hr => ?_, fun σ τ h => ⟨h _ (subName_ne b name _), h _ (subName_ne b name _),
      h _ (subName_ne b name _)⟩⟩
    have eh : (vaneylenHyper b name false multi).1 = [.free (subName b name "sigma_gauss") d1 kw1,
        .free (subName b name "sigma_rayleigh") d2 kw2, .free (subName b name "frac") d3 kw3] := by
      rw [← e1, ← e2, ← e3]; rfl
    rw [eh] at hr
    simp only [List.mem_cons, List.not_mem_nil, or_false] at hr
    rcases hr with rfl | rfl | rfl
    · exact factor_free (subName_ne b name "sigma_gauss") (p1 _) _
    · exact factor_free (subName_ne b name "sigma_rayleigh") (p2 _) _
    · exact factor_free (subName_ne b name "frac") (p3 _) _
  · exact ⟨fun r hr => (by cases hr), fun σ τ _ => ⟨rfl, rfl, rfl⟩⟩

theorem vaneylen19_eq {b : Backend} {name : String} {fixed multi : Bool} {lower upper : Option ℝ} {K : Kwargs} {rs : List Reg}
    (h : vaneylen19 b name fixed multi lower upper K = .ok rs) : ∃ r,
    (∀ σ, r.factor σ = ENNReal.ofReal (uniformPdf (lower.getD 0) (upper.getD 1) (scoredEcc b name K σ))) ∧
    rs = [r] ++ (vaneylenHyper b name fixed multi).1 ++ [.potential (subName b name "prior") (fun σ =>
      logaddexp (ptLog (1 - (vaneylenHyper b name fixed multi).2.2.2 σ) +
          (Dist.plain .halfNormal [("sigma", .num (vaneylenHyper b name fixed multi).2.1)]).logp σ (scoredEcc b name K σ))
        (ptLog ((vaneylenHyper b name fixed multi).2.2.2 σ) + (Dist.plain .weibull [("alpha", Val.ofReal 2),
          ("beta", .num (fun σ => Real.sqrt 2 * (vaneylenHyper b name fixed multi).2.2.1 σ))]).logp σ (scoredEcc b name K σ)))] := by
  unfold vaneylen19 at h
  cases he : vaneylenEcc b name (lower.getD 0) (upper.getD 1) K with
  | error e => rw [he] at h; cases h
  | ok re =>
    obtain ⟨r, ecc⟩ := re
    rw [he] at h
    obtain ⟨rfl, -, hf⟩ := vaneylenEcc_ok b name _ _ he
    exact ⟨r, hf, (Except.ok.inj h).symm⟩

/-- On PyMC, an observed eccentricity is scored as if it were the value of the free variable. -/
theorem vaneylen19_observed_density {name : String} {fixed multi : Bool} {lower upper : Option ℝ}
    {K : Kwargs} (hK : K.mem "observed" = false) (e : State → ℝ)
    {rs rs' : List Reg} (h : vaneylen19 .pymc name fixed multi lower upper (("observed", .num e) :: K) = .ok rs)
    (h' : vaneylen19 .pymc name fixed multi lower upper K = .ok rs') (σ : State) :
    jointDensity rs σ = jointDensity rs' (Function.update σ name (e σ)) := by
  obtain ⟨r, hr, rfl⟩ := vaneylen19_eq h
  obtain ⟨r', hr', rfl⟩ := vaneylen19_eq h'
  have s1 : scoredEcc .pymc name (("observed", .num e) :: K) σ = e σ := by
    unfold scoredEcc
    simp only [get_cons_self]
  have s2 : scoredEcc .pymc name K (Function.update σ name (e σ)) = e σ := by
    unfold scoredEcc
    simp only [get_of_not_mem hK]
    exact Function.update_self ..
  obtain ⟨ok1, ok2⟩ := vaneylenHyper_ok .pymc name fixed multi
  have e1 := (jointDensity_ok ok1).2 (x := σ) (y := Function.update σ name (e σ))
    fun n hn => (Function.update_of_ne hn _ _).symm
  obtain ⟨a1, a2, a3⟩ := ok2 σ (Function.update σ name (e σ)) fun n hn => (Function.update_of_ne hn _ _).symm
  simp only at e1
  have hg : ∀ (sg : State → ℝ) (σ : State) (x : ℝ), (Dist.plain .halfNormal [("sigma", .num sg)]).logp σ x =
      ENNReal.log (ENNReal.ofReal (halfNormalPdf (sg σ) x)) := fun _ _ _ => rfl
  have hw : ∀ (sr : State → ℝ) (σ : State) (x : ℝ), (Dist.plain .weibull [("alpha", Val.ofReal 2), ("beta", .num sr)]).logp σ x =
      ENNReal.log (ENNReal.ofReal (weibullPdf 2 (sr σ) x)) := fun _ _ _ => rfl
  have hp : ∀ (n : String) (f : State → EReal) (σ : State), (Reg.potential n f).factor σ = EReal.exp (f σ) := fun _ _ _ => rfl
  simp only [jointDensity_append, jointDensity_cons, jointDensity_nil, hp, mul_one, hr, hr', s1, s2, ← e1, hg, hw,
    ← a1, ← a2, ← a3]

theorem nodup_disk {b : Backend} {nx ny : String} {K : Kwargs} {rs rs' : List Reg} {x y : State → ℝ}
    (h : unitDisk b nx ny K = .ok (rs, x, y)) (hnd : (freeNames rs ++ freeNames rs').Nodup) :
    freeNames rs = [nx, "__" ++ ny ++ "_unit_disk"] ∧ nx ≠ "__" ++ ny ++ "_unit_disk" ∧
      ∀ m ∈ freeNames rs', m ≠ nx ∧ m ≠ "__" ++ ny ++ "_unit_disk" := by
  obtain ⟨i0, i1, -, -, rfl, -⟩ := unitDisk_ok b nx ny h
  have hf : freeNames [pmVar .uniform nx (limKw b (-1) 1 (.num i0) (strip K)),
        pmVar .uniform ("__" ++ ny ++ "_unit_disk")
          (limKw b (-1) 1 (.num fun σ => i1 σ * Real.sqrt (1 - i0 σ ^ 2)) (strip K)),
        .potential (ny ++ "_jacobian") (fun σ => ptLog (Real.sqrt (1 - σ nx ^ 2))),
        .deterministic ny (fun σ => [σ ("__" ++ ny ++ "_unit_disk") * Real.sqrt (1 - σ nx ^ 2)])] =
      [nx, "__" ++ ny ++ "_unit_disk"] := rfl
  rw [hf] at hnd ⊢
  refine ⟨rfl, ?_, fun m hm => ?_⟩
  · have := (List.nodup_append.1 hnd).1
    intro e
    rw [← e] at this
    simp at this
  · have := (List.nodup_append.1 hnd).2.2
    exact ⟨fun e => this nx (by simp) m hm e.symm, fun e => this _ (by simp) m hm e.symm⟩

/-- From the scores of the observed eccentricity to the law of the eccentricity and the argument of periastron. -/
theorem eccVector_prior {b : Backend} {nx ny name : String} {K : Kwargs} {rs rs' rs0 : List Reg} {x y : State → ℝ}
    (h : unitDisk b nx ny K = .ok (rs, x, y)) (hc : Closed rs0) (hnd : (freeNames rs ++ freeNames rs0).Nodup)
    (hd : ∀ σ, jointDensity rs' σ = jointDensity rs0 (Function.update σ name (eccOf x y σ))) (σ : State) :
    ∃ n1 n2, freeNames rs = [n1, n2] ∧
    Measure.map (fun p => eccVector x y (setTwo σ n1 n2 p)) (law2At (rs ++ rs') n1 n2 σ) =
      (8⁻¹ : ℝ≥0∞) • (volume.restrict eccBox).withDensity fun q => jointDensity rs0 (Function.update σ name q.1) := by
  obtain ⟨hf, hn, hne⟩ := nodup_disk h hnd
  obtain ⟨j1, j2⟩ := jointDensity_ok (rs := rs0) hc
  refine ⟨_, _, hf, eccVector_law hn h σ (g := fun e => jointDensity rs0 (Function.update σ name e)) ?_ fun p => ?_⟩
  · exact j1.comp (measurable_update σ)
  · rw [hd]
    refine j2 fun m hm => ?_
    by_cases hm' : m = name
    · subst hm'
      rw [Function.update_self, Function.update_self]
    · rw [Function.update_of_ne hm', Function.update_of_ne hm', setTwo_other (hne m hm).1 (hne m hm).2]

theorem eccFromDisk_ok {b : Backend} {nx ny : String} {K K' : Kwargs} {prior : Kwargs → Except PyErr (List Reg)} {all : List Reg}
    {x y : State → ℝ} (h : eccFromDisk b nx ny K prior K' = .ok (all, x, y)) : ∃ rs rs', unitDisk b nx ny K = .ok (rs, x, y) ∧
      prior (("observed", .num (eccOf x y)) :: K') = .ok rs' ∧ all = rs ++ rs' := by
  unfold eccFromDisk at h
  cases h1 : unitDisk b nx ny K with
  | error e => rw [h1] at h; cases h
  | ok r =>
    obtain ⟨rs, x', y'⟩ := r
    rw [h1] at h
    simp only at h
    cases h2 : prior (("observed", .num (eccOf x' y')) :: K') with
    | error e => rw [h2] at h; cases h
    | ok rs' =>
      rw [h2] at h
      have := Except.ok.inj h
      simp only [Prod.mk.injEq] at this
      obtain ⟨rfl, rfl, rfl⟩ := this
      exact ⟨rs, rs', rfl, h2, rfl⟩

theorem freeNames_append' (r s : List Reg) : freeNames (r ++ s) = freeNames r ++ freeNames s := List.filterMap_append ..

theorem freeNames_sub_names (rs : List Reg) : ∀ n ∈ freeNames rs, n ∈ rs.map Reg.name := by
  intro n hn
  unfold freeNames at hn
  rw [List.mem_filterMap] at hn
  obtain ⟨r, hr, e⟩ := hn
  cases r with
  | free m d kw =>
    simp only [Option.some.injEq] at e
    exact List.mem_map.2 ⟨_, hr, e⟩
  | potential m f => cases e
  | deterministic m f => cases e

/-- Distinct names in the model with the observed eccentricity. -/
theorem nodup_of_names {b : Backend} {nx ny : String} {K : Kwargs} {rs rs' rs0 : List Reg} {x y : State → ℝ}
    (h : unitDisk b nx ny K = .ok (rs, x, y)) (hnd : ((rs ++ rs').map Reg.name).Nodup) (hnames : ∀ n ∈ freeNames rs0, n ∈ rs'.map Reg.name)
    (hnd0 : (freeNames rs0).Nodup) : (freeNames rs ++ freeNames rs0).Nodup := by
  rw [List.map_append, List.nodup_append] at hnd
  obtain ⟨i0, i1, -, -, rfl, -⟩ := unitDisk_ok b nx ny h
  refine List.nodup_append.2 ⟨?_, hnd0, fun n hn m hm => hnd.2.2 n (freeNames_sub_names _ n hn) m (hnames m hm)⟩
  have h1 : [nx, "__" ++ ny ++ "_unit_disk", ny ++ "_jacobian", ny].Nodup := hnd.1
  have h2 : [nx, "__" ++ ny ++ "_unit_disk"].Sublist [nx, "__" ++ ny ++ "_unit_disk", ny ++ "_jacobian", ny] :=
    .cons_cons _ (.cons_cons _ (List.nil_sublist _))
  exact h1.sublist h2

theorem hyper_names_ne {b : Backend} {name s t : String} (h : s ≠ t) : subName b name s ≠ subName b name t := by
  intro e
  apply h
  cases b
  · simpa [subName] using e
  · simpa [subName] using e

/-- **C98** (Kipping 2013, what holds): on PyMC, and on PyMC3 without limits, `kipping13(…, observed=x**2 + y**2)` gives the
eccentricity the law that a free eccentricity has under the same prior, and leaves the argument of periastron uniform and independent:
for all values of the hyperparameters, the free variables other than the two of `unit_disk`. Missing: PyMC3 with limits
(`C98_kipping13_pymc3_raises`). -/
theorem C98_kipping13_partial (b : Backend) (nx ny name : String) (fixed : Bool) (long : Option Bool) (lower upper : Option ℝ)
    (hb : b = .pymc ∨ lower = none ∧ upper = none) {K K' : Kwargs} (hK' : PlainKwargs K') {all rs0 : List Reg} {x y : State → ℝ}
    (h : eccFromDisk b nx ny K (kipping13 b name fixed long lower upper) K' = .ok (all, x, y))
    (h0 : kipping13 b name fixed long lower upper K' = .ok rs0) (hnd : (all.map Reg.name).Nodup) :
    ∃ n1 n2 hs, freeNames all = n1 :: n2 :: hs ∧ freeNames rs0 = hs ++ [name] ∧ ∀ σ,
      Measure.map (fun p => eccVector x y (setTwo σ n1 n2 p)) (law2At all n1 n2 σ) =
        (8⁻¹ : ℝ≥0∞) • (volume.restrict eccBox).withDensity fun q => jointDensity rs0 (Function.update σ name q.1) := by
  obtain ⟨rs, rs', h1, h2, rfl⟩ := eccFromDisk_ok h
  have ho : K'.mem "observed" = false := plain_not_mem hK' (by decide)
  have hn1 := (C52_registration b name fixed long lower upper h2).1
  have hn0 := (C52_registration b name fixed long lower upper h0).1
  have hsub : ∀ n ∈ freeNames rs0, n ∈ rs'.map Reg.name := by
    intro n hn
    rw [hn1, ← hn0]
    exact freeNames_sub_names _ n hn
  obtain ⟨hs, d, kw, f, e1, e2, -⟩ := C52_observed_partial b name fixed long lower upper hb ho _ h2 h0
  have hf0 : freeNames rs0 = freeNames hs ++ [name] := by rw [e2, freeNames_append']; rfl
  have hf1 : freeNames rs' = freeNames hs := by rw [e1, freeNames_append']; exact List.append_nil _
  have hnd0 : (freeNames rs0).Nodup := by
    have hle : (freeNames rs0).Sublist (rs0.map Reg.name) := by
      rw [e2, freeNames_append', List.map_append]
      refine List.Sublist.append ?_ (List.Sublist.refl _)
      clear e1 e2 hf0 hf1
      induction hs with
      | nil => exact List.Sublist.refl _
      | cons r hs ih =>
        cases r with
        | free m d kw => exact ih.cons_cons m
        | potential m f => exact ih.cons m
        | deterministic m f => exact ih.cons m
    refine List.Nodup.sublist hle ?_
    rw [hn0, ← hn1]
    rw [List.map_append, List.nodup_append] at hnd
    exact hnd.2.1
  have hndf := nodup_of_names h1 hnd hsub hnd0
  obtain ⟨n1, n2, hf, -⟩ := eccVector_prior (name := name) h1 (kipping13_closed hK' h0) hndf
    (kipping13_observed_density hb ho _ h2 h0) fun _ => 0
  refine ⟨n1, n2, freeNames hs, by rw [freeNames_append', hf, hf1]; rfl, hf0, fun σ => ?_⟩
  obtain ⟨m1, m2, hf', e⟩ := eccVector_prior (name := name) h1 (kipping13_closed hK' h0) hndf
    (kipping13_observed_density hb ho _ h2 h0) σ
  rw [hf] at hf'
  injection hf' with a1 a2
  injection a2 with a2
  subst a1 a2
  exact e

/-- **C98** (Van Eylen et al. 2019, what holds): the same on PyMC for `vaneylen19`. Missing: PyMC3 (`C98_vaneylen19_pymc3`). -/
theorem C98_vaneylen19_partial (nx ny name : String) (fixed multi : Bool) (lower upper : Option ℝ)
    {K K' : Kwargs} (hK' : PlainKwargs K') {all rs0 : List Reg} {x y : State → ℝ}
    (h : eccFromDisk .pymc nx ny K (vaneylen19 .pymc name fixed multi lower upper) K' = .ok (all, x, y))
    (h0 : vaneylen19 .pymc name fixed multi lower upper K' = .ok rs0) (hnd : (all.map Reg.name).Nodup) :
    ∃ n1 n2 hs, freeNames all = n1 :: n2 :: hs ∧ freeNames rs0 = name :: hs ∧ ∀ σ,
      Measure.map (fun p => eccVector x y (setTwo σ n1 n2 p)) (law2At all n1 n2 σ) =
        (8⁻¹ : ℝ≥0∞) • (volume.restrict eccBox).withDensity fun q => jointDensity rs0 (Function.update σ name q.1) := by
  obtain ⟨rs, rs', h1, h2, rfl⟩ := eccFromDisk_ok h
  have ho : K'.mem "observed" = false := plain_not_mem hK' (by decide)
  have hd := vaneylen19_observed_density ho _ h2 h0
  -- the registrations of the two calls
  have hreg : ∃ r0 f0 kw0 r1 f1 p, rs0 = .free name f0 kw0 :: (vaneylenHyper .pymc name fixed multi).1 ++ [.potential p r0] ∧
      rs' = .potential name f1 :: (vaneylenHyper .pymc name fixed multi).1 ++ [.potential p r1] := by
    unfold vaneylen19 at h0 h2
    cases he0 : vaneylenEcc .pymc name (lower.getD 0) (upper.getD 1) K' with
    | error e => rw [he0] at h0; cases h0
    | ok re0 =>
      cases he1 : vaneylenEcc .pymc name (lower.getD 0) (upper.getD 1) (("observed", .num (eccOf x y)) :: K') with
      | error e => rw [he1] at h2; cases h2
      | ok re1 =>
        obtain ⟨q0, c0⟩ := re0
        obtain ⟨q1, c1⟩ := re1
        rw [he0] at h0
        rw [he1] at h2
        obtain ⟨-, kw, hq, -⟩ := vaneylenEcc_plain hK' he0
        have hq1 : ∃ f1, q1 = .potential name f1 := by
          unfold vaneylenEcc at he1
          simp only [Kwargs.pop, get_cons_self] at he1
          split at he1
          · cases he1
          · have := Except.ok.inj he1
            simp only [Prod.mk.injEq] at this
            exact ⟨_, this.1.symm⟩
        obtain ⟨f1, hq1⟩ := hq1
        subst hq hq1
        exact ⟨_, _, _, _, _, _, (Except.ok.inj h0).symm, (Except.ok.inj h2).symm⟩
  obtain ⟨r0, f0, kw0, r1, f1, p, e0, e1⟩ := hreg
  have hf0 : freeNames rs0 = name :: freeNames (vaneylenHyper .pymc name fixed multi).1 := by
    rw [e0, freeNames_append']
    exact List.append_nil _
  have hf1 : freeNames rs' = freeNames (vaneylenHyper .pymc name fixed multi).1 := by
    rw [e1, freeNames_append']
    exact List.append_nil _
  have hsub : ∀ n ∈ freeNames rs0, n ∈ rs'.map Reg.name := by
    intro n hn
    rw [hf0] at hn
    rw [e1]
    rcases List.mem_cons.1 hn with rfl | hn
    · exact List.mem_cons_self
    · have := freeNames_sub_names _ n hn
      simp only [List.cons_append, List.map_cons, List.map_append]
      exact List.mem_cons_of_mem _ (List.mem_append_left _ this)
  have hnd0 : (freeNames rs0).Nodup := by
    rw [hf0]
    cases fixed
    · show [name, subName .pymc name "sigma_gauss", subName .pymc name "sigma_rayleigh", subName .pymc name "frac"].Nodup
      have a1 := subName_ne .pymc name "sigma_gauss"
      have a2 := subName_ne .pymc name "sigma_rayleigh"
      have a3 := subName_ne .pymc name "frac"
      have b1 := hyper_names_ne (b := .pymc) (name := name) (s := "sigma_gauss") (t := "sigma_rayleigh") (by decide)
      have b2 := hyper_names_ne (b := .pymc) (name := name) (s := "sigma_gauss") (t := "frac") (by decide)
      have b3 := hyper_names_ne (b := .pymc) (name := name) (s := "sigma_rayleigh") (t := "frac") (by decide)
      simp [a1.symm, a2.symm, a3.symm, b1, b2, b3]
    · show [name].Nodup
      simp
  have hndf := nodup_of_names h1 hnd hsub hnd0
  obtain ⟨n1, n2, hf, -⟩ := eccVector_prior (name := name) h1 (vaneylen19_closed hK' h0) hndf hd fun _ => 0
  refine ⟨n1, n2, _, by rw [freeNames_append', hf, hf1]; rfl, hf0, fun σ => ?_⟩
  obtain ⟨m1, m2, hf', e⟩ := eccVector_prior (name := name) h1 (vaneylen19_closed hK' h0) hndf hd σ
  rw [hf] at hf'
  injection hf' with a1 a2
  injection a2 with a2
  subst a1 a2
  exact e

/-- **C98** (Kipping 2013, published parameters): `(e, omega)` has the density of the Beta law with the published parameters, cut to the
limits, and does not depend on `omega`. -/
theorem C98_kipping13_fixed (b : Backend) (nx ny name : String) (long : Option Bool) (lower upper : Option ℝ)
    (hb : b = .pymc ∨ lower = none ∧ upper = none) {K K' : Kwargs} (hK' : PlainKwargs K') {all : List Reg} {x y : State → ℝ}
    (h : eccFromDisk b nx ny K (kipping13 b name true long lower upper) K' = .ok (all, x, y)) (hnd : (all.map Reg.name).Nodup) :
    ∃ n1 n2 a c, freeNames all = [n1, n2] ∧ (a, c) = (if long = some false then ((0.697 : ℝ), (3.27 : ℝ)) else (1.12, 3.09)) ∧
      Measure.map (fun p => eccVector x y (twoState n1 n2 p)) (law2 all n1 n2) =
        (8⁻¹ : ℝ≥0∞) • (volume.restrict eccBox).withDensity fun q =>
          if lower = none ∧ upper = none then ENNReal.ofReal (betaPdf a c q.1)
          else if lower.getD 0 ≤ q.1 ∧ q.1 ≤ upper.getD 1 then
            ENNReal.ofReal (betaPdf a c q.1) / ∫⁻ y in Icc (lower.getD 0) (upper.getD 1), ENNReal.ofReal (betaPdf a c y)
          else 0 := by
  have ho : K'.mem "observed" = false := plain_not_mem hK' (by decide)
  obtain ⟨rs0, h0⟩ := C52_succeeds b name true long lower upper K' (plain_not_mem hK' (by decide)) (plain_not_mem hK' (by decide))
    (.inr (.inr ho))
  obtain ⟨n1, n2, hs, hf, hf0, hlaw⟩ := C98_kipping13_partial b nx ny name true long lower upper hb hK' h h0 hnd
  obtain ⟨d, kw, hl, hd⟩ := C52_density b name true long lower upper ho h0
  have hlen : rs0 = [.free name d kw] := by
    have := (C52_registration b name true long lower upper h0).1
    have h1 : rs0.length = 1 := by
      have := congrArg List.length this
      simpa using this
    obtain ⟨r, rfl⟩ := List.length_eq_one_iff.1 h1
    simp at hl
    rw [hl]
  subst hlen
  have hs0 : hs = [] := by
    have : [name] = hs ++ [name] := hf0
    have := congrArg List.length this
    simp at this
    exact this
  subst hs0
  refine ⟨n1, n2, (if long = some false then ((0.697 : ℝ), (3.27 : ℝ)) else (1.12, 3.09)).1,
    (if long = some false then ((0.697 : ℝ), (3.27 : ℝ)) else (1.12, 3.09)).2, hf, rfl, ?_⟩
  have := hlaw fun _ => 0
  refine this.trans (congrArg _ (congrArg _ (funext fun q => ?_)))
  rw [jointDensity_cons, jointDensity_nil, mul_one]
  show d.density _ _ = _
  rw [hd, Function.update_self]
  have e : kippingShape b name true long (Function.update (fun _ => 0) name q.1) =
      (if long = some false then ((0.697 : ℝ), (3.27 : ℝ)) else (1.12, 3.09)) := by
    unfold kippingShape; simp
  rw [e]
  by_cases hl : lower = none ∧ upper = none
  · rw [if_pos hl, if_pos hl]
  · rw [if_neg hl, if_neg hl]
    have hbp : b = .pymc := hb.resolve_right hl
    by_cases hq : lower.getD 0 ≤ q.1 ∧ q.1 ≤ upper.getD 1
    · rw [if_pos hq, if_pos hq, if_pos hbp]
    · rw [if_neg hq, if_neg hq]

/-- **C98** (PyMC3 with limits): the model cannot be built. -/
theorem C98_kipping13_pymc3_raises (nx ny name : String) (fixed : Bool) (long : Option Bool) (lower upper : Option ℝ)
    (hlu : ¬(lower = none ∧ upper = none)) (K K' : Kwargs) {r} (hd : unitDisk .pymc3 nx ny K = .ok r) :
    eccFromDisk .pymc3 nx ny K (kipping13 .pymc3 name fixed long lower upper) K' =
      .error (.notImplemented "observed eccentricity with bounds") := by
  obtain ⟨rs, x, y⟩ := r
  unfold eccFromDisk
  rw [hd]
  simp only
  rw [C52_observed_pymc3_raises name fixed long lower upper hlu]

/-- **C98 is violated** on PyMC3 for `vaneylen19`: the eccentricity stays uniform, whatever the values of the other variables, one of
which is an eccentricity that nothing else refers to. -/
theorem C98_vaneylen19_pymc3 (nx ny name : String) (fixed multi : Bool) (lower upper : Option ℝ)
    {K K' : Kwargs} (hK' : PlainKwargs K') {all : List Reg} {x y : State → ℝ}
    (h : eccFromDisk .pymc3 nx ny K (vaneylen19 .pymc3 name fixed multi lower upper) K' = .ok (all, x, y))
    (hnd : (all.map Reg.name).Nodup) : ∃ n1 n2 hs, freeNames all = n1 :: n2 :: name :: hs ∧ ∀ σ, ∃ c : ℝ≥0∞,
      Measure.map (fun p => eccVector x y (setTwo σ n1 n2 p)) (law2At all n1 n2 σ) = c • volume.restrict eccBox := by
  obtain ⟨rs, rs', h1, h2, rfl⟩ := eccFromDisk_ok h
  have ho : K'.mem "observed" = false := plain_not_mem hK' (by decide)
  rw [C53_pymc3_ignores_observed name fixed multi lower upper ho] at h2
  have hc := vaneylen19_closed hK' h2
  obtain ⟨j1, j2⟩ := jointDensity_ok (rs := rs') hc
  have hf' : ∃ hs, freeNames rs' = name :: hs := by
    unfold vaneylen19 at h2
    cases he : vaneylenEcc .pymc3 name (lower.getD 0) (upper.getD 1) K' with
    | error e => rw [he] at h2; cases h2
    | ok re =>
      obtain ⟨q, c⟩ := re
      rw [he] at h2
      obtain ⟨-, kw, hq, -⟩ := vaneylenEcc_plain hK' he
      subst hq
      exact ⟨_, by rw [← Except.ok.inj h2, freeNames_append']; rfl⟩
  obtain ⟨hs, hf'⟩ := hf'
  have hnames := freeNames_sub_names rs'
  rw [List.map_append, List.nodup_append] at hnd
  obtain ⟨i0, i1, -, -, ers, -⟩ := unitDisk_ok .pymc3 nx ny h1
  have hrn : rs.map Reg.name = [nx, "__" ++ ny ++ "_unit_disk", ny ++ "_jacobian", ny] := by rw [ers]; rfl
  have hrf : freeNames rs = [nx, "__" ++ ny ++ "_unit_disk"] := by rw [ers]; rfl
  rw [hrn] at hnd
  have hn : nx ≠ "__" ++ ny ++ "_unit_disk" := by
    have := hnd.1
    intro e
    rw [← e] at this
    simp at this
  refine ⟨nx, "__" ++ ny ++ "_unit_disk", hs, by rw [freeNames_append', hrf, hf']; rfl, fun σ => ⟨8⁻¹ * jointDensity rs' σ, ?_⟩⟩
  rw [eccVector_law (rs' := rs') hn h1 σ (g := fun _ => jointDensity rs' σ) measurable_const fun p => ?_, withDensity_const, smul_smul]
  refine j2 fun m hm => setTwo_other (fun e => ?_) (fun e => ?_) σ p
  · exact hnd.2.2 nx (by simp) m (hnames m hm) e.symm
  · exact hnd.2.2 _ (by simp) m (hnames m hm) e.symm

/-- **C98** (several planets): with `shape=…`, the eccentricities and arguments of periastron of all entries are independent and
uniform. -/
theorem C98_shape (b : Backend) (nx ny : String) (hn : nx ≠ "__" ++ ny ++ "_unit_disk") {K : VKwargs} (hK : K.OthersOnly)
    {vrs : List VReg} {x y : Tensor (VState → ℝ)} (h : unitDiskV b nx ny K = .ok (vrs, x, y)) :
    ∃ n1 n2, freeNamesV vrs = [n1, n2] ∧
      UniformOn (Measure.map (fun p (k : Fin K.dims.prod) =>
          (x.get (Tensor.unravel K.dims k) (entryState K.dims n1 n2 p) ^ 2 + y.get (Tensor.unravel K.dims k) (entryState K.dims n1 n2 p) ^ 2,
            arctan2 (y.get (Tensor.unravel K.dims k) (entryState K.dims n1 n2 p))
              (x.get (Tensor.unravel K.dims k) (entryState K.dims n1 n2 p))))
        (lawV2 vrs K.dims n1 n2)) (Set.univ.pi fun _ => eccBox) := by
  obtain ⟨n1, n2, hf, c, hc0, hct, hc⟩ := C97_unit_disk_uniform b nx ny hn hK h
  refine ⟨n1, n2, hf, ?_⟩
  have m0 : Measurable fun p : ℝ × ℝ => (p.1 ^ 2 + p.2 ^ 2, arctan2 p.2 p.1) := measurable_eccOmega
  have hu := uniformOn_pi (n := K.dims.prod) (fun _ => (volume : Measure (ℝ × ℝ)).restrict unitDisc)
    (fun _ (p : ℝ × ℝ) => (p.1 ^ 2 + p.2 ^ 2, arctan2 p.2 p.1)) (fun _ => m0) (fun _ => eccBox)
    (fun _ => ⟨2⁻¹, by simp, by simp, disc_polar⟩)
  have e1 : (volume : Measure (Fin K.dims.prod → ℝ × ℝ)).restrict (Set.univ.pi fun _ => unitDisc) =
      Measure.pi fun _ => (volume : Measure (ℝ × ℝ)).restrict unitDisc := by
    rw [volume_pi, Measure.restrict_pi_pi]
  rw [← e1] at hu
  obtain ⟨c', h0', ht', hc'⟩ := hu
  refine ⟨c * c', mul_ne_zero hc0 h0', ENNReal.mul_ne_top hct ht', ?_⟩
  have m1 : Measurable fun (q : Fin K.dims.prod → ℝ × ℝ) k => ((q k).1 ^ 2 + (q k).2 ^ 2, arctan2 (q k).2 (q k).1) :=
    measurable_pi_lambda _ fun k => m0.comp (measurable_pi_apply k)
  have hm : AEMeasurable (fun p (k : Fin K.dims.prod) => (x.get (Tensor.unravel K.dims k) (entryState K.dims n1 n2 p),
      y.get (Tensor.unravel K.dims k) (entryState K.dims n1 n2 p))) (lawV2 vrs K.dims n1 n2) := by
    by_contra hne
    rw [Measure.map_of_not_aemeasurable hne] at hc
    have hz := congrArg (fun μ => μ Set.univ) hc
    simp only [Measure.coe_zero, Pi.zero_apply, Measure.smul_apply, smul_eq_mul, Measure.restrict_apply_univ] at hz
    rcases mul_eq_zero.1 hz.symm with hz | hz
    · exact hc0 hz
    · rw [volume_pi, Measure.pi_pi] at hz
      refine Finset.prod_ne_zero_iff.2 (fun _ _ => ?_) hz
      have ho : IsOpen unitDisc := by
        have : Continuous fun q : ℝ × ℝ => q.1 ^ 2 + q.2 ^ 2 := by fun_prop
        exact isOpen_lt this continuous_const
      exact ho.measure_ne_zero volume ⟨0, by show (0 : ℝ) ^ 2 + (0 : ℝ) ^ 2 < 1; norm_num⟩
  rw [← smul_smul, ← hc', ← Measure.map_smul, ← hc, AEMeasurable.map_map_of_aemeasurable m1.aemeasurable hm]
  rfl

/-! ## Start values -/

/-- **C98 is violated** (start values): the tests seed the disc with `sqrt(e0) cos(pi/4), sqrt(e0) sin(pi/4)` so that the eccentricity
starts in the middle of the limits (tests/distributions_test.py:113-121), here `e0 = 1/2` between `9/20` and `11/20`. It starts at `25/64`,
outside the limits, where the density is zero. -/
theorem C98_start_counterexample : ∃ all x y σ,
    eccFromDisk .pymc "x" "y" [("initval", .seq [fun _ => 1 / 2, fun _ => 1 / 2])]
      (kipping13 .pymc "ecc_prior" true none (some (9 / 20)) (some (11 / 20))) [] = .ok (all, x, y) ∧
    (1 / 2 : ℝ) = Real.sqrt (1 / 2) * Real.cos (Real.pi / 4) ∧ (1 / 2 : ℝ) = Real.sqrt (1 / 2) * Real.sin (Real.pi / 4) ∧
    IsStart .pymc all σ ∧ eccOf x y σ = 25 / 64 ∧ jointDensity all σ = 0 := by
  obtain ⟨⟨rs, x, y⟩, h⟩ := unitDisk_succeeds .pymc "x" "y" [] (1 / 2) (1 / 2)
  have hs := diskStart_isStart .pymc (1 / 2) (1 / 2) h
  obtain ⟨h1, h2, -⟩ := C48_start_partial .pymc "x" "y" (by decide) [] (1 / 2) (1 / 2) (by norm_num) h _ hs
  obtain ⟨rs', h'⟩ := C52_succeeds .pymc "ecc_prior" true none (some (9 / 20)) (some (11 / 20))
    [("observed", .num (eccOf x y))] rfl rfl (.inl rfl)
  obtain ⟨rs0, h0⟩ := C52_succeeds .pymc "ecc_prior" true none (some (9 / 20)) (some (11 / 20)) [] rfl rfl (.inl rfl)
  have he : eccOf x y (diskStart (1 / 2) (1 / 2)) = 25 / 64 := by
    unfold eccOf
    rw [h1, h2]
    norm_num
  have hsq : Real.sqrt (1 / 2) = Real.sqrt 2 / 2 := by
    rw [Real.sqrt_div (by norm_num), Real.sqrt_one, div_eq_div_iff (by positivity) (by norm_num)]
    have := Real.mul_self_sqrt (show (0 : ℝ) ≤ 2 by norm_num)
    linarith
  have hsq2 := Real.mul_self_sqrt (show (0 : ℝ) ≤ 2 by norm_num)
  obtain ⟨hs0, d, kw, f, e1, e2, e3⟩ := C52_observed_partial .pymc "ecc_prior" true none (some (9 / 20)) (some (11 / 20)) (.inl rfl)
    (K := []) rfl (eccOf x y) h' h0
  have hs0' : hs0 = [] := by
    have := (C52_registration .pymc "ecc_prior" true none (some (9 / 20)) (some (11 / 20)) h0).1
    rw [e2] at this
    have := congrArg List.length this
    simp at this
    exact this
  subst hs0'
  refine ⟨rs ++ rs', x, y, diskStart (1 / 2) (1 / 2), ?_, ?_, ?_, ?_, he, ?_⟩
  · unfold eccFromDisk
    rw [h]
    simp only
    rw [h']
  · rw [Real.cos_pi_div_four, hsq]; linarith
  · rw [Real.sin_pi_div_four, hsq]; linarith
  · rw [e1]
    intro n d kw hm
    have hm' : Reg.free n d kw ∈ rs := by simpa using hm
    obtain ⟨v, hv, hv'⟩ := hs n d kw hm'
    refine ⟨v, ?_, hv'⟩
    unfold startValue at hv ⊢
    rw [List.findSome?_append, hv]
    rfl
  · obtain ⟨d0, kw0, hl, hd⟩ := C52_density .pymc "ecc_prior" true none (some (9 / 20)) (some (11 / 20)) (K := []) rfl h0
    rw [e2] at hl
    have hdd : d = d0 := by simp at hl; exact hl.1
    rw [jointDensity_append, e1, List.nil_append, jointDensity_cons, e3, he, hdd, hd, if_neg (by simp), if_neg]
    · simp
    · simp only [Option.getD_some]
      norm_num

/-- **C98**: the model is built whenever the two calls succeed. -/
theorem C98_succeeds (b : Backend) (nx ny : String) (K : Kwargs) (a c : ℝ) (prior : Kwargs → Except PyErr (List Reg)) (K' : Kwargs)
    (hp : ∀ e : State → ℝ, ∃ rs', prior (("observed", .num e) :: K') = .ok rs') :
    ∃ rs rs' x y, unitDisk b nx ny (("initval", .seq [fun _ => a, fun _ => c]) :: K) = .ok (rs, x, y) ∧
      prior (("observed", .num (eccOf x y)) :: K') = .ok rs' ∧
      eccFromDisk b nx ny (("initval", .seq [fun _ => a, fun _ => c]) :: K) prior K' = .ok (rs ++ rs', x, y) := by
  obtain ⟨⟨rs, x, y⟩, h⟩ := unitDisk_succeeds b nx ny K a c
  obtain ⟨rs', h'⟩ := hp (eccOf x y)
  refine ⟨rs, rs', x, y, h, h', ?_⟩
  unfold eccFromDisk
  rw [h]
  simp only
  rw [h']

theorem unitDisk_names {b : Backend} {nx ny : String} {K : Kwargs} {rs : List Reg} {x y : State → ℝ}
    (h : unitDisk b nx ny K = .ok (rs, x, y)) : rs.map Reg.name = [nx, "__" ++ ny ++ "_unit_disk", ny ++ "_jacobian", ny] := by
  obtain ⟨i0, i1, -, -, rfl, -⟩ := unitDisk_ok b nx ny h
  rfl

/-- Non-vacuity: the model with free hyperparameters and limits is built on PyMC, with distinct names. -/
example : ∃ K all x y rs0, eccFromDisk .pymc "h" "k" K (kipping13 .pymc "ecc" false (some true) (some (1 / 10)) (some (9 / 10))) [] =
      .ok (all, x, y) ∧ kipping13 .pymc "ecc" false (some true) (some (1 / 10)) (some (9 / 10)) [] = .ok rs0 ∧
    (all.map Reg.name).Nodup := by
  obtain ⟨rs0, h0⟩ := C52_succeeds .pymc "ecc" false (some true) (some (1 / 10)) (some (9 / 10)) [] rfl rfl (.inl rfl)
  obtain ⟨rs, rs', x, y, h1, h2, h3⟩ := C98_succeeds .pymc "h" "k" [] (1 / 100) (1 / 100)
    (kipping13 .pymc "ecc" false (some true) (some (1 / 10)) (some (9 / 10))) [] fun e =>
      C52_succeeds .pymc "ecc" false (some true) (some (1 / 10)) (some (9 / 10)) [("observed", .num e)] rfl rfl (.inl rfl)
  refine ⟨_, _, x, y, rs0, h3, h0, ?_⟩
  rw [List.map_append, unitDisk_names h1, (C52_registration .pymc "ecc" false (some true) (some (1 / 10)) (some (9 / 10)) h2).1]
  decide

/-- Non-vacuity for `vaneylen19`, on both back-ends. -/
example (b : Backend) : ∃ K all x y rs0, eccFromDisk b "h" "k" K (vaneylen19 b "ecc" true false none none) [] =
      .ok (all, x, y) ∧ vaneylen19 b "ecc" true false none none [] = .ok rs0 ∧ (all.map Reg.name).Nodup := by
  obtain ⟨rs0, h0⟩ := C53_succeeds b "ecc" true false none none [] rfl rfl
  obtain ⟨rs, rs', x, y, h1, h2, h3⟩ := C98_succeeds b "h" "k" [] (1 / 100) (1 / 100)
    (vaneylen19 b "ecc" true false none none) [] fun e => C53_succeeds b "ecc" true false none none [("observed", .num e)] rfl rfl
  refine ⟨_, _, x, y, rs0, h3, h0, ?_⟩
  obtain ⟨r, hs, p, e, hr, hp, hh, -⟩ := vaneylen19_factors b "ecc" true false none none h2
  have hhs : hs = [] := by simpa using hh
  subst hhs
  rw [List.map_append, unitDisk_names h1, e]
  simp only [List.cons_append, List.nil_append, List.map_cons, List.map_nil, hr, hp]
  cases b <;> decide

/-- Non-vacuity of the array version: three planets. -/
example (b : Backend) : ∃ r, unitDiskV b "h" "k" { shape := some (.int 3) } = .ok r ∧
    VKwargs.OthersOnly { shape := some (.int 3) } ∧ VKwargs.dims { shape := some (.int 3) } = [3] :=
  ⟨_, rfl, fun _ hp => (by cases hp), rfl⟩

end Exo
