import Verif.Spec.BackpropTtv
import Verif.Props.BackpropKepler
import Verif.Lemmas.TtvLists
import Verif.Lemmas.Ttv2

/-!
# C122: gradients of the light curve of a `TTVOrbit` as the compiled graph computes them
-/

namespace Exo
open Real Function Topology

/-! ## The graph stands for the model -/

section
variable {n : ℕ} {M : TtvMode} {m : KepMode} {inds : Fin n → ℕ} {q : TtvPar n → ℝ} {L : ℝ → ℝ → ℝ}

theorem sumG_real {ι : Type} (l : List (Graph ι)) (x : ι → ℝ) : (TtvMode.sumG l).real L x = (l.map fun g => g.real L x).sum := by
  have : ∀ (l : List (Graph ι)) (a : Graph ι), (l.foldl Graph.add a).real L x = a.real L x + (l.map fun g => g.real L x).sum := by
    intro l
    induction l with
    | nil => intro a; simp
    | cons b l ih => intro a; rw [List.foldl_cons, ih, List.map_cons, List.sum_cons, ← add_assoc]; rfl
  rw [TtvMode.sumG, this]
  simp [Graph.real]

/-- What is left of a list after a sequence of writes. -/
theorem foldl_set_getElem? (k : ℕ) : ∀ (l : List (ℕ × ℝ)) (e : List ℝ),
    (l.foldl (fun l p => l.set p.1 p.2) e)[k]? = e[k]?.map fun v => (l.filter fun p => p.1 = k).foldl (fun _ p => p.2) v
  | [], e => by simp
  | p :: l, e => by
    rw [List.foldl_cons, foldl_set_getElem? k l]
    by_cases h : p.1 = k
    · subst h
      rw [List.filter_cons_of_pos (by simp), List.getElem?_set_self']
      cases e[p.1]? <;> simp
    · rw [List.filter_cons_of_neg (by simpa using h), List.getElem?_set_ne h]

theorem entryG_real (j : ℕ) : (M.entryG inds j).real L q =
    ((List.finRange n).filter fun i => inds i = j).foldl (fun _ i => (M.timeG inds i).real L q) ((M.expectG inds j).real L q) := by
  unfold TtvMode.entryG
  cases (List.finRange n).filter fun i => inds i = j with
  | nil => rfl
  | cons i is =>
    simp only [List.foldl_cons]
    have : ∀ (l : List (Fin n)) (a : Graph (TtvPar n)), (l.foldl (fun x k => Graph.overwritten x (M.timeG inds k)) a).real L q =
        l.foldl (fun _ i => (M.timeG inds i).real L q) (a.real L q) := by
      intro l
      induction l with
      | nil => intro a; rfl
      | cons b l ih => intro a; rw [List.foldl_cons, ih, List.foldl_cons]; rfl
    exact this _ _

theorem allTimesG_real (hn : 0 < n) : allTransitTimes ((M.parG inds .t0).real L q) ((M.parG inds .period).real L q) (List.ofFn inds)
    (List.ofFn fun i => (M.timeG inds i).real L q) = .ok ((M.allTimesG inds).map fun g => g.real L q) := by
  unfold allTransitTimes TtvMode.allTimesG
  cases hm : (List.ofFn inds).max? with
  | none =>
    rw [List.max?_eq_none_iff] at hm
    have := congrArg List.length hm
    simp at this
    omega
  | some k =>
    simp only [Option.getD_some, Except.ok.injEq]
    apply List.ext_getElem?
    intro j
    rw [setSubtensor, foldl_set_getElem?]
    simp only [List.map_map, List.getElem?_map, Option.map_map]
    by_cases hj : j < k + 1
    · simp only [List.getElem?_range hj, Option.map_some, comp_apply, entryG_real]
      rw [List.ofFn_eq_map, List.ofFn_eq_map, List.zip_map', List.filter_map, List.foldl_map]
      rfl
    · rw [List.getElem?_eq_none (by simpa using hj)]
      rfl

theorem getLastD_map {α β : Type} (f : α → β) (l : List α) (d : α) : (l.map f).getLastD (f d) = f (l.getLastD d) := by
  rw [List.getLastD_eq_getLast?, List.getLastD_eq_getLast?, List.getLast?_map]
  cases l.getLast? <;> rfl

theorem headD_map {α β : Type} (f : α → β) (l : List α) (d : α) : (l.map f).headD (f d) = f (l.headD d) := by
  cases l <;> rfl

theorem edgesG_real : (M.edgesG inds).map (fun g => g.real L q) = binEdges ((M.allTimesG inds).map fun g => g.real L q) ((M.ttvPeriodG inds).real L q) := by
  have h1 := getLastD_map (fun g : Graph (TtvPar n) => g.real L q) (M.allTimesG inds) (.const 0)
  have h2 := headD_map (fun g : Graph (TtvPar n) => g.real L q) (M.allTimesG inds) (.const 0)
  unfold TtvMode.edgesG binEdges
  simp only [Graph.real] at h1 h2
  simp only [List.map_append, List.map_cons, List.map_nil, List.map_zipWith, Graph.real, ← List.map_tail, ← List.map_dropLast, List.zipWith_map, h1, h2]

theorem valuesG_real : (M.valuesG inds).map (fun g => g.real L q) = binValues ((M.allTimesG inds).map fun g => g.real L q) := by
  have h1 := getLastD_map (fun g : Graph (TtvPar n) => g.real L q) (M.allTimesG inds) (.const 0)
  have h2 := headD_map (fun g : Graph (TtvPar n) => g.real L q) (M.allTimesG inds) (.const 0)
  unfold TtvMode.valuesG binValues
  simp only [Graph.real] at h1 h2
  simp only [List.map_append, List.map_cons, List.map_nil, h1, h2]

theorem warpG_real (t : ℝ) : (M.warpG inds t).real L q =
    t - modelDt ((M.edgesG inds).map fun g => g.real L q) ((M.valuesG inds).map fun g => g.real L q) t := by
  have hf : ((List.finRange (M.edgesG inds).length).filter fun i => decide (((M.edgesG inds).get i).real L q < t)).length =
      searchsortedLeft ((M.edgesG inds).map fun g => g.real L q) t := by
    rw [searchsortedLeft]
    conv_rhs => rw [← List.map_get_finRange (M.edgesG inds), List.map_map, List.filter_map, List.length_map]
    rfl
  have key : ∀ N, N = searchsortedLeft ((M.edgesG inds).map fun g => g.real L q) t →
      (if h : N < (M.valuesG inds).length then ((M.valuesG inds).get ⟨N, h⟩).real L q else 0) =
        modelDt ((M.edgesG inds).map fun g => g.real L q) ((M.valuesG inds).map fun g => g.real L q) t := by
    rintro N rfl
    rw [modelDt]
    split_ifs with h
    · rw [List.getD_eq_getElem _ _ (by simpa using h)]
      simp
    · rw [List.getD_eq_default _ _ (by simpa using h)]
  exact congrArg (t - ·) (key _ hf)

theorem sumyG_real : (TtvMode.sumyG n).real L q = (List.ofFn fun i => q (.time i)).sum := by
  rw [TtvMode.sumyG, sumG_real, List.map_ofFn]
  rfl

theorem sumxyG_real : (TtvMode.sumxyG inds).real L q = (List.zipWith (fun (i : ℕ) y => (i : ℝ) * y) (List.ofFn inds) (List.ofFn fun i => q (.time i))).sum := by
  rw [TtvMode.sumxyG, sumG_real, List.ofFn_eq_map, List.ofFn_eq_map, List.ofFn_eq_map, List.zipWith_map, List.zipWith_self, List.map_map]
  rfl

theorem linFit_real : linFit (List.ofFn inds) (List.ofFn fun i => q (.time i)) =
    if TtvMode.denom inds = 0 then none else some ((TtvMode.slopeG inds).real L q, (TtvMode.interceptG inds).real L q) := by
  simp only [linFit, TtvMode.slopeG, TtvMode.interceptG, Graph.real, sumyG_real, sumxyG_real, TtvMode.denom, TtvMode.sumx, TtvMode.sumx2, List.length_ofFn]

/-- What the construction says about the graph. -/
theorem ttvGraph_real {C : Consts} {T : Ttv} (h : ttvInit C (M.args m inds q) = .ok (some T)) (L : ℝ → ℝ → ℝ) :
    ∃ o, keplerianInit C (m.args fun p => (M.parG inds p).real L q) = .ok o ∧
      T.orbit = { o with warp := fun t => t - modelDt T.bin_edges T.bin_values t } ∧
      T.bin_edges = (M.edgesG inds).map (fun g => g.real L q) ∧ T.bin_values = (M.valuesG inds).map (fun g => g.real L q) ∧
      o.t0 = (M.parG inds .t0).real L q ∧ o.period = (M.parG inds .period).real L q ∧ (M ≠ .ttvs → TtvMode.denom inds ≠ 0) := by
  obtain ⟨A, o, ho, hD, hc⟩ := ttv_cases h
  have hB := built_of_init ho
  have key : A = (m.args fun p => (M.parG inds p).real L q) ∧ T.transit_inds = List.ofFn inds ∧
      (o.t0 = (M.parG inds .t0).real L q → o.period = (M.parG inds .period).real L q →
        T.transit_times = List.ofFn fun i => (M.timeG inds i).real L q) ∧
      (o.period = (M.parG inds .period).real L q → T.ttv_period = (M.ttvPeriodG inds).real L q) ∧ (M ≠ .ttvs → TtvMode.denom inds ≠ 0) := by
    rcases hc with ⟨h1, h2, h3, h4, h5, h6⟩ | ⟨h1, h2, h3, c, h4, h5, h6, h7⟩
    · cases M with
      | ttvs =>
        have e1 : T.ttvs = List.ofFn fun i => q (.time i) := (Option.some.inj h1).symm
        have e2 : T.transit_inds = List.ofFn inds := h4
        refine ⟨h2, e2, fun p1 p2 => ?_, fun p => h3.trans p, fun h => absurd rfl h⟩
        rw [h6, e1, e2, List.ofFn_eq_map, List.ofFn_eq_map, List.ofFn_eq_map, List.zipWith_map, List.zipWith_self, p1, p2]
        rfl
      | times => cases h1
      | timesPeriod => cases h1
    · have fit : T.transit_inds = List.ofFn inds → T.transit_times = (List.ofFn fun i => q (.time i)) → TtvMode.denom inds ≠ 0 ∧
          T.ttv_period = (TtvMode.slopeG inds).real L q ∧ c = (TtvMode.interceptG inds).real L q := by
        intro e1 e2
        rw [e1, e2, linFit_real (L := L)] at h4
        split_ifs at h4 with hd
        simp only [Option.some.injEq, Prod.mk.injEq] at h4
        exact ⟨hd, h4.1.symm, h4.2.symm⟩
      cases M with
      | ttvs => cases h1
      | times =>
        have e1 : T.transit_times = List.ofFn fun i => q (.time i) := (Option.some.inj h2).symm
        have e2 : T.transit_inds = List.ofFn inds := h3
        obtain ⟨f1, f2, f3⟩ := fit e2 e1
        refine ⟨?_, e2, fun _ _ => e1, fun _ => f2, fun _ => f1⟩
        rw [h5, f2, f3]
        cases m <;> rfl
      | timesPeriod =>
        have e1 : T.transit_times = List.ofFn fun i => q (.time i) := (Option.some.inj h2).symm
        have e2 : T.transit_inds = List.ofFn inds := h3
        obtain ⟨f1, f2, f3⟩ := fit e2 e1
        refine ⟨?_, e2, fun _ _ => e1, fun _ => f2, fun _ => f1⟩
        rw [h5, f2, f3]
        cases m <;> rfl
  obtain ⟨hA, hi, ht, hP, hd⟩ := key
  have p1 : o.t0 = (M.parG inds .t0).real L q := by
    subst hA
    refine hB.t0_given (q := (((M.parG inds .t0).real L q : ℝ) : Q)) ?_
    cases m <;> rfl
  have p2 : o.period = (M.parG inds .period).real L q := by
    subst hA
    refine hB.period_given (q := (((M.parG inds .period).real L q : ℝ) : Q)) ?_
    cases m <;> rfl
  have hn : 0 < n := by
    by_contra h0
    obtain rfl : n = 0 := by omega
    have := hD.all_eq
    rw [hi] at this
    simp [allTransitTimes] at this
  have hall : T.all_transit_times = (M.allTimesG inds).map fun g => g.real L q := by
    have := hD.all_eq
    rw [hi, ht p1 p2, p1, p2, allTimesG_real hn] at this
    exact (Except.ok.inj this).symm
  refine ⟨o, hA ▸ ho, hD.orbit_eq, ?_, ?_, p1, p2, hd⟩
  · rw [hD.edges_eq, hall, hP p2, edgesG_real]
  · rw [hD.values_eq, hall, valuesG_real]

theorem ttvGraph_position {C : Consts} {T : Ttv} (h : ttvInit C (M.args m inds q) = .ok (some T)) (L : ℝ → ℝ → ℝ) (t : ℝ) :
    T.orbit.relativePosition C t = ⟨(m.x1G (M.parG inds) (M.warpG inds t)).real L q, (m.yG (M.parG inds) (M.warpG inds t)).real L q,
      (m.zG (M.parG inds) (M.warpG inds t)).real L q⟩ ∧ T.orbit.cos_incl = (m.cosInclG (M.parG inds)).real L q := by
  obtain ⟨o, ho, hw, he, hv, -⟩ := ttvGraph_real h L
  rw [hw]
  have hc := position_clock o C (-o.a) t none (fun t => t - modelDt T.bin_edges T.bin_values t) (fun _ => (M.warpG inds t).real L q) o.t0
    (by rw [warpG_real, he, hv])
  refine ⟨Eq.trans (b := Orbit.relativePosition { o with warp := fun _ => (M.warpG inds t).real L q } C t) hc ?_, ?_⟩
  · cases m <;> (obtain rfl := Except.ok.inj ho; rfl)
  · cases m <;> (obtain rfl := Except.ok.inj ho; rfl)

theorem kepPars_real {C : Consts} {T : Ttv} (h : ttvInit C (M.args m inds q) = .ok (some T)) (L : ℝ → ℝ → ℝ) :
    T.kepPars q = fun p => (M.parG inds p).real L q := by
  obtain ⟨o, -, hw, -, -, h1, h2, -⟩ := ttvGraph_real h L
  funext p
  have e1 : T.orbit.period = (M.parG inds .period).real L q := by rw [hw]; exact h2
  have e2 : T.orbit.t0 = (M.parG inds .t0).real L q := by rw [hw]; exact h1
  cases p <;> first | exact e1 | exact e2 | (cases M <;> rfl)

/-! ## No operation is at a singular point -/

variable {op : FlOp}

theorem sumG_regular {ι : Type} {x : ι → ℝ} {l : List (Graph ι)} (h : ∀ g ∈ l, g.Regular L op x) : (TtvMode.sumG l).Regular L op x := by
  have : ∀ (l : List (Graph ι)) (a : Graph ι), a.Regular L op x → (∀ g ∈ l, g.Regular L op x) → (l.foldl Graph.add a).Regular L op x := by
    intro l
    induction l with
    | nil => intro a ha _; exact ha
    | cons b l ih => intro a ha hl; exact ih _ ⟨ha, hl b (by simp)⟩ fun g hg => hl g (by simp [hg])
  exact this _ _ trivial h

theorem slopeG_regular (hd : TtvMode.denom inds ≠ 0) : (TtvMode.slopeG inds).Regular L op q ∧ (TtvMode.interceptG inds).Regular L op q := by
  have h1 : (TtvMode.sumyG n).Regular L op q := sumG_regular fun g hg => by
    obtain ⟨i, rfl⟩ := List.mem_ofFn.1 hg
    trivial
  have h2 : (TtvMode.sumxyG inds).Regular L op q := sumG_regular fun g hg => by
    obtain ⟨i, rfl⟩ := List.mem_ofFn.1 hg
    exact ⟨trivial, trivial⟩
  exact ⟨⟨⟨⟨trivial, h2⟩, trivial, h1⟩, trivial, hd⟩, ⟨⟨⟨trivial, h1⟩, trivial, h2⟩, trivial, hd⟩⟩

theorem parG_regular (hd : M ≠ .ttvs → TtvMode.denom inds ≠ 0) (p : KepPar) : (M.parG inds p).Regular L op q := by
  cases M with
  | ttvs => trivial
  | times => cases p <;> first | trivial | exact (slopeG_regular (hd nofun)).1 | exact (slopeG_regular (hd nofun)).2
  | timesPeriod => cases p <;> first | trivial | exact (slopeG_regular (hd nofun)).2

theorem timeG_regular (hd : M ≠ .ttvs → TtvMode.denom inds ≠ 0) (i : Fin n) : (M.timeG inds i).Regular L op q := by
  cases M with
  | ttvs => exact ⟨⟨trivial, trivial, trivial⟩, trivial⟩
  | times => trivial
  | timesPeriod => trivial

theorem ttvPeriodG_regular (hd : M ≠ .ttvs → TtvMode.denom inds ≠ 0) : (M.ttvPeriodG inds).Regular L op q := by
  cases M with
  | ttvs => trivial
  | times => exact (slopeG_regular (hd nofun)).1
  | timesPeriod => exact (slopeG_regular (hd nofun)).1

theorem entryG_regular (hd : M ≠ .ttvs → TtvMode.denom inds ≠ 0) (hi : Injective inds) (j : ℕ) : (M.entryG inds j).Regular L op q := by
  unfold TtvMode.entryG
  cases h : (List.finRange n).filter fun i => inds i = j with
  | nil => exact ⟨parG_regular hd _, parG_regular hd _, trivial⟩
  | cons i is =>
    have hnd : ((List.finRange n).filter fun i => inds i = j).Nodup := (List.nodup_finRange n).filter _
    rw [h, List.nodup_cons] at hnd
    have hall : ∀ k ∈ i :: is, inds k = j := fun k hk => by
      rw [← h] at hk
      simpa using (List.mem_filter.1 hk).2
    cases is with
    | nil => exact timeG_regular hd i
    | cons k ks => exact absurd (hi ((hall i (by simp)).trans (hall k (by simp)).symm)) fun e => hnd.1 (by simp [e])

theorem allTimesG_regular (hd : M ≠ .ttvs → TtvMode.denom inds ≠ 0) (hi : Injective inds) : ∀ g ∈ M.allTimesG inds, g.Regular L op q := by
  intro g hg
  obtain ⟨j, -, rfl⟩ := List.mem_map.1 hg
  exact entryG_regular hd hi j

theorem allTimesG_length : (M.allTimesG inds).length = (List.ofFn inds).max?.getD 0 + 1 := by simp [TtvMode.allTimesG]

theorem endsG_regular (hd : M ≠ .ttvs → TtvMode.denom inds ≠ 0) (hi : Injective inds) :
    ((M.allTimesG inds).headD (.const 0)).Regular L op q ∧ ((M.allTimesG inds).getLastD (.const 0)).Regular L op q := by
  have h := allTimesG_regular (L := L) (op := op) (q := q) hd hi
  have h0 : M.allTimesG inds ≠ [] := List.ne_nil_of_length_pos (by rw [allTimesG_length]; omega)
  constructor
  · cases hl : M.allTimesG inds with
    | nil => exact absurd hl h0
    | cons a l => exact h a (by simp [hl])
  · rw [List.getLastD_eq_getLast?, List.getLast?_eq_getLast_of_ne_nil h0]
    exact h _ (List.getLast_mem h0)

theorem edgesG_regular (hd : M ≠ .ttvs → TtvMode.denom inds ≠ 0) (hi : Injective inds) : ∀ g ∈ M.edgesG inds, g.Regular L op q := by
  have h := allTimesG_regular (L := L) (op := op) (q := q) hd hi
  obtain ⟨h1, h2⟩ := endsG_regular (L := L) (op := op) (q := q) hd hi
  have hp := ttvPeriodG_regular (L := L) (op := op) (q := q) hd
  intro g hg
  simp only [TtvMode.edgesG, List.mem_append, List.mem_singleton] at hg
  rcases hg with (rfl | hg) | rfl
  · exact ⟨h1, trivial, hp⟩
  · obtain ⟨i, hi, rfl⟩ := List.mem_iff_getElem.1 hg
    rw [List.getElem_zipWith]
    exact ⟨trivial, h _ (List.mem_of_mem_tail (List.getElem_mem _)), h _ (List.dropLast_subset _ (List.getElem_mem _))⟩
  · exact ⟨h2, trivial, hp⟩

theorem valuesG_regular (hd : M ≠ .ttvs → TtvMode.denom inds ≠ 0) (hi : Injective inds) : ∀ g ∈ M.valuesG inds, g.Regular L op q := by
  obtain ⟨h1, h2⟩ := endsG_regular (L := L) (op := op) (q := q) hd hi
  intro g hg
  simp only [TtvMode.valuesG, List.mem_append, List.mem_singleton] at hg
  rcases hg with (rfl | hg) | rfl
  · exact h1
  · exact allTimesG_regular hd hi g hg
  · exact h2

theorem binsG_length : (M.edgesG inds).length < (M.valuesG inds).length := by
  simp only [TtvMode.edgesG, TtvMode.valuesG, List.length_append, List.length_zipWith, List.length_tail, List.length_dropLast, List.length_singleton,
    allTimesG_length]
  omega

theorem warpG_regular (hd : M ≠ .ttvs → TtvMode.denom inds ≠ 0) (hi : Injective inds) {t : ℝ}
    (he : ∀ e ∈ (M.edgesG inds).map fun g => g.real L q, e ≠ t) : (M.warpG inds t).Regular L op q :=
  ⟨trivial, fun _ => edgesG_regular hd hi _ (List.get_mem _ _), fun _ => valuesG_regular hd hi _ (List.get_mem _ _), trivial, binsG_length,
    fun _ => he _ (List.mem_map_of_mem (List.get_mem _ _))⟩

/-- **C122 (what holds).** With exact operations and one transit time per label, the light curve of a `TTVOrbit` and its computed derivatives with respect to all transit times (or `ttvs`)
and all other parameters are the true ones, unless the time is exactly half way between two transits, the planet is exactly in front of (or behind) the centre of the star or grazes it in the plane of the sky,
or the orbit is seen face-on. The derivatives include those through the least-squares ephemeris, which all transit times determine. -/
theorem C122_light_curve_partial {C : Consts} {u1 u2 : ℝ} (hl : PhysicalLaw u1 u2) (hop : op.Exact u1 u2) (hk : op.ExactKepler) (hi : Injective inds)
    (T : (TtvPar n → ℝ) → Ttv) (hT : ∀ q, ttvInit C (M.args m inds q) = .ok (some (T q))) (hq : m.Possible ((T q).kepPars q)) (t : ℝ)
    (he : t ∉ (T q).bin_edges) (hI : |(T q).orbit.cos_incl| < 1)
    (hc : ((T q).orbit.relativePosition C t).x ≠ 0 ∨ ((T q).orbit.relativePosition C t).y ≠ 0) (hz : Clear (q (.kep .r_star)) (q (.kep .r)) ((T q).orbit.relativePosition C t)) :
    GradientRight op (M.lightCurveG inds m t) (fun q => fluxAt (getCl u1 u2) (q (.kep .r_star)) (q (.kep .r)) ((T q).orbit.relativePosition C t)) q := by
  set L := quadLimbdarkLightCurve (getCl u1 u2) with hL
  obtain ⟨o, ho, hw, hbe, hbv, h1, h2, hd⟩ := ttvGraph_real (hT q) L
  obtain ⟨hp, hci⟩ := ttvGraph_position (hT q) L t
  rw [kepPars_real (hT q) L] at hq
  rw [hp] at hc hz
  rw [hci] at hI
  have hwr : (M.warpG inds t).Regular L op q := warpG_regular hd hi fun e h h' => he (by rw [hbe, ← h']; exact h)
  have hreg : (M.lightCurveG inds m t).Regular L op q := lightCurve_regular hl hop hk (parG_regular hd) hwr hq hI hc (by cases M <;> exact hz)
  have hreal : ∀ q, fluxAt (getCl u1 u2) (q (.kep .r_star)) (q (.kep .r)) ((T q).orbit.relativePosition C t) = (M.lightCurveG inds m t).real L q := fun q => by
    rw [(ttvGraph_position (hT q) L t).1]
    refine Eq.trans ?_ (lightCurveOf_real u1 u2).symm
    cases M <;> rfl
  obtain ⟨g1, g2⟩ := C118_backprop op L q _ hreg
  refine ⟨g1.trans (congrArg Fl.fin (hreal q).symm), fun j => ?_⟩
  obtain ⟨D, hD, hg⟩ := g2 j
  exact ⟨D, by simpa only [hreal] using hD, hg⟩

/-! ## The centre of the star -/

theorem sumG_back_nan {ι : Type} [DecidableEq ι] {env : ι → Fl} {j : ι} {l : List (Graph ι)} {g : Graph ι} (hg : g ∈ l) (h : g.back op env .nan j = .nan) :
    (TtvMode.sumG l).back op env .nan j = .nan := by
  have : ∀ (l : List (Graph ι)) (a : Graph ι), (a.back op env .nan j = .nan ∨ ∃ g ∈ l, g.back op env .nan j = .nan) → (l.foldl Graph.add a).back op env .nan j = .nan := by
    intro l
    induction l with
    | nil => intro a h; simpa using h
    | cons b l ih =>
      intro a h
      refine ih _ ?_
      rcases h with h | ⟨g, hg, h⟩
      · exact Or.inl (by simp [Graph.back, h])
      · rcases List.mem_cons.1 hg with rfl | hg
        · exact Or.inl (by simp [Graph.back, h])
        · exact Or.inr ⟨g, hg, h⟩
  exact this _ _ (Or.inr ⟨g, hg, h⟩)

theorem slopeG_back_nan (env : TtvPar n → Fl) (i : Fin n) : (TtvMode.slopeG inds).back op env .nan (.time i) = .nan := by
  have : (TtvMode.sumxyG inds).back op env .nan (.time i) = .nan :=
    sumG_back_nan (g := .mul (.const (inds i)) (.input (.time i))) (by simp only [List.mem_ofFn]; exact ⟨i, rfl⟩) (by simp [Graph.back])
  simp [TtvMode.slopeG, Graph.back, this]

/-- **C122 (what exact arithmetic does at the centre).** When the planet is exactly in front of the centre of the star (or behind it), the computed derivatives with respect to the size of the
orbit, `b` and `r_star` are NaN, and if the orbit is circular also those with respect to the period or, when the transit times determine it, with respect to every transit time, also the
times of other transits. -/
theorem C122_centre {C : Consts} (hk : op.ExactKepler) (hi : Injective inds) {T : Ttv} (hT : ttvInit C (M.args m inds q) = .ok (some T)) (hq : m.Possible (T.kepPars q)) {t : ℝ}
    (he : t ∉ T.bin_edges) (hx : (T.orbit.relativePosition C t).x = 0) (hy : (T.orbit.relativePosition C t).y = 0) (g : Fl) {j : TtvPar n}
    (hj : j = .kep .a ∨ j = .kep .b ∨ j = .kep .r_star ∨ (m = .circular ∧ M ≠ .times ∧ j = .kep .period) ∨ (m = .circular ∧ M = .times ∧ ∃ i, j = .time i)) :
    (M.lightCurveG inds m t).back op (fun i => .fin (q i)) g j = .nan := by
  set L : ℝ → ℝ → ℝ := fun _ _ => 0
  obtain ⟨o, -, -, hbe, -, -, -, hd⟩ := ttvGraph_real hT L
  obtain ⟨hp, -⟩ := ttvGraph_position hT L t
  rw [hp] at hx hy
  simp only at hx hy
  rw [kepPars_real hT L] at hq
  have hwr : (M.warpG inds t).Regular L op q := warpG_regular hd hi fun e h h' => he (by rw [hbe, ← h']; exact h)
  obtain ⟨rx, ry⟩ := plane_regular (L := L) hk (parG_regular hd) hwr hq
  have vx := (C118_backprop op L q _ rx).1
  have vy := (C118_backprop op L q (m.yG (M.parG inds) (M.warpG inds t)) ⟨cosInclG_regular (parG_regular hd) hq, ry⟩).1
  rw [hx] at vx
  rw [hy] at vy
  have hs : ((Fl.fin 0 ^ 2 + Fl.fin 0 ^ 2 : Fl)).sqrt = .fin 0 := by simp [Fl.sqrt]
  have key : (m.x1G (M.parG inds) (M.warpG inds t)).back op (fun i => .fin (q i)) .nan j + (m.yG (M.parG inds) (M.warpG inds t)).back op (fun i => .fin (q i)) .nan j = .nan := by
    rcases hj with rfl | rfl | rfl | ⟨rfl, hM, rfl⟩ | ⟨rfl, rfl, i, rfl⟩
    · cases m <;> cases M <;> simp [KepMode.x1G, KepMode.radiusG, TtvMode.parG, Graph.back]
    · cases M <;> simp [KepMode.yG, KepMode.cosInclG, TtvMode.parG, Graph.back]
    · cases M <;> simp [KepMode.yG, KepMode.cosInclG, TtvMode.parG, Graph.back]
    · cases M <;> simp [KepMode.x1G, KepMode.cosfG, KepMode.anomalyG, KepMode.nG, TtvMode.parG, Graph.back] at hM ⊢
    · simp [KepMode.x1G, KepMode.cosfG, KepMode.anomalyG, KepMode.nG, TtvMode.parG, Graph.back, slopeG_back_nan]
  simp only [TtvMode.lightCurveG, KepMode.lightCurveOf, fluxGraph, Graph.back, Graph.value, vx, vy, hs]
  rw [nan_of_zero, key]
  simp

/-! ## Two transit times with the same label -/

/-- The computed derivatives with respect to two parameters are the same. -/
def SameBack {ι : Type} [DecidableEq ι] (op : FlOp) (env : ι → Fl) (i k : ι) (G : Graph ι) : Prop := ∀ g : Fl, G.back op env g i = G.back op env g k

theorem lightCurveOf_same {ι : Type} [DecidableEq ι] {op : FlOp} {env : ι → Fl} {i k : ι} {P : KepPar → Graph ι} {w : Graph ι}
    (hP : ∀ p, SameBack op env i k (P p)) (hw : SameBack op env i k w) : SameBack op env i k (m.lightCurveOf P w) := by
  intro g
  have hP' := fun p g => hP p g
  have hw' := fun g => hw g
  cases m <;> simp only [KepMode.lightCurveOf, fluxGraph, KepMode.x1G, KepMode.yG, KepMode.zG, KepMode.y1G, KepMode.radiusG, KepMode.cosfG, KepMode.sinfG, KepMode.anomalyG,
    KepMode.M0G, KepMode.E0G, KepMode.nG, KepMode.ome2G, KepMode.inclFactorG, KepMode.cosInclG, KepMode.sinInclG, KepMode.cosOmegaG, KepMode.sinOmegaG, Graph.back, hP', hw']

theorem Fl.fin_zero_add (x : Fl) : Fl.fin 0 + x = x := by
  cases x with
  | fin x => rw [Fl.fin_add, zero_add]
  | inf s => rfl
  | nan => rfl

theorem Fl.add_fin_zero (x : Fl) : x + Fl.fin 0 = x := by
  cases x with
  | fin x => rw [Fl.fin_add, add_zero]
  | inf s => rfl
  | nan => rfl

theorem timeG_back (env : TtvPar n → Fl) (i j : Fin n) (g : Fl) : (TtvMode.ttvs.timeG inds j).back op env g (.time i) = if j = i then g else .fin 0 := by
  simp only [TtvMode.timeG, TtvMode.parG, Graph.back, reduceCtorEq, if_false, TtvPar.time.injEq, Fl.fin_add, add_zero, Fl.fin_zero_add]

theorem entryG_same (env : TtvPar n → Fl) {i k : Fin n} (h : inds i = inds k) (j : ℕ) :
    SameBack op env (.time i) (.time k) (TtvMode.ttvs.entryG inds j) := by
  intro g
  have key : ∀ i : Fin n, (TtvMode.ttvs.entryG inds j).back op env g (.time i) = if inds i = j then g else .fin 0 := by
    intro i
    have hfold : ∀ (l : List (Fin n)) (a : Graph (TtvPar n)) (v : Fl), l.Nodup → a.back op env g (.time i) = v → (i ∈ l → v = .fin 0) →
        (l.foldl (fun x k => Graph.overwritten x (TtvMode.ttvs.timeG inds k)) a).back op env g (.time i) = if i ∈ l then g else v := by
      intro l
      induction l with
      | nil => intro a v _ ha _; simpa using ha
      | cons b l ih =>
        intro a v hl ha hv
        rw [List.nodup_cons] at hl
        rw [List.foldl_cons]
        by_cases hb : b = i
        · subst hb
          rw [ih _ g hl.2 (by simp only [Graph.back, ha, timeG_back, if_true, hv (List.mem_cons_self), Fl.fin_zero_add]) fun h => absurd h hl.1]
          simp
        · rw [ih _ v hl.2 (by simp only [Graph.back, ha, timeG_back, if_neg hb, Fl.add_fin_zero]) fun h => hv (by simp [h])]
          simp [Ne.symm hb]
    have hmem : i ∈ ((List.finRange n).filter fun i => inds i = j) ↔ inds i = j := by simp
    have hnd : ((List.finRange n).filter fun i => inds i = j).Nodup := (List.nodup_finRange n).filter _
    unfold TtvMode.entryG
    cases hl : (List.finRange n).filter fun i => inds i = j with
    | nil =>
      rw [hl] at hmem
      rw [if_neg (by rw [← hmem]; simp)]
      simp [TtvMode.expectG, TtvMode.parG, Graph.back]
    | cons a l =>
      rw [hl] at hmem hnd
      rw [List.nodup_cons] at hnd
      simp only
      rw [hfold l _ _ hnd.2 (timeG_back env i a g) fun h => if_neg (by rintro rfl; exact hnd.1 h)]
      by_cases h : inds i = j
      · rw [if_pos h]
        rcases List.mem_cons.1 (hmem.2 h) with rfl | h'
        · simp
        · simp [h']
      · rw [if_neg h, if_neg fun h' => h (hmem.1 (by simp [h'])), if_neg fun h' => h (hmem.1 (by simp [h']))]
  rw [key, key, h]

theorem warpG_same (env : TtvPar n → Fl) {i k : Fin n} (h : inds i = inds k) (t : ℝ) :
    SameBack op env (.time i) (.time k) (TtvMode.ttvs.warpG inds t) := by
  intro g
  have hv : ∀ G ∈ TtvMode.ttvs.valuesG inds, SameBack op env (.time i) (.time k) G := by
    have hall : ∀ G ∈ TtvMode.ttvs.allTimesG inds, SameBack op env (.time i) (.time k) G := by
      intro G hG
      obtain ⟨j, -, rfl⟩ := List.mem_map.1 hG
      exact entryG_same env h j
    have h0 : TtvMode.ttvs.allTimesG inds ≠ [] := List.ne_nil_of_length_pos (by rw [allTimesG_length]; omega)
    intro G hG
    simp only [TtvMode.valuesG, List.mem_append, List.mem_singleton] at hG
    rcases hG with (rfl | hG) | rfl
    · cases hl : TtvMode.ttvs.allTimesG inds with
      | nil => exact absurd hl h0
      | cons a l => exact hall a (by simp [hl])
    · exact hall G hG
    · rw [List.getLastD_eq_getLast?, List.getLast?_eq_getLast_of_ne_nil h0]
      exact hall _ (List.getLast_mem h0)
  have hv' : ∀ (i' : Fin _) (g : Fl), ((TtvMode.ttvs.valuesG inds).get i').back op env g (.time i) = ((TtvMode.ttvs.valuesG inds).get i').back op env g (.time k) :=
    fun i' g => hv _ (List.get_mem _ _) g
  simp only [TtvMode.warpG, Graph.back, hv']

/-- **C122 (what the code does with equal labels).** If two entries of `ttvs` have the same label, only the last one counts, but the computed derivatives with respect to both are the same,
whatever the compiled operations and their derivatives. -/
theorem C122_equal_labels (env : TtvPar n → Fl) {i k : Fin n} (h : inds i = inds k) (t : ℝ) (g : Fl) :
    (TtvMode.ttvs.lightCurveG inds m t).back op env g (.time i) = (TtvMode.ttvs.lightCurveG inds m t).back op env g (.time k) :=
  lightCurveOf_same (fun p g => by simp [TtvMode.parG, Graph.back]) (warpG_same env h t) g

/-- The orbits exist. -/
theorem ttvArgs_ok (C : Consts) (m : KepMode) (hn : 0 < n) (hd : M ≠ .ttvs → TtvMode.denom inds ≠ 0) (q : TtvPar n → ℝ) :
    ∃ T, ttvInit C (M.args m inds q) = .ok (some T) := by
  have h0 : List.ofFn inds ≠ [] := by
    intro h
    have := congrArg List.length h
    simp at this
    omega
  have fin : ∀ (o : Orbit) (P : ℝ) (times ttvs : List ℝ), ∃ T, ttvFinish o P (List.ofFn inds) times ttvs = .ok (some T) := by
    intro o P times ttvs
    obtain ⟨tts, h⟩ := allTransitTimes_error (t0 := o.t0) (P := o.period) (times := times) h0
    simp only [ttvFinish, h]
    exact ⟨_, rfl⟩
  cases M with
  | ttvs =>
    obtain ⟨o, ho⟩ := KepMode.args_ok C m fun p => q (.kep p)
    obtain ⟨T, hT⟩ := fin o o.period _ _
    refine ⟨T, ?_⟩
    simp only [ttvInit, TtvMode.args, ho, Option.getD_some, List.length_ofFn, ne_eq, not_true, if_false]
    exact hT
  | times =>
    obtain ⟨o, ho⟩ := KepMode.args_ok C m fun p => (TtvMode.times.parG inds p).real (fun _ _ => 0) q
    have e : keplerianInit C { (m.args fun p => q (.kep p)) with
        t0 := some (((TtvMode.interceptG inds).real (fun _ _ => 0) q : ℝ) : Q), period := some (((TtvMode.slopeG inds).real (fun _ _ => 0) q : ℝ) : Q) } = .ok o := by
      rw [← ho]
      cases m <;> rfl
    simp only [ttvInit, TtvMode.args, Option.getD_some, List.length_ofFn, ne_eq, not_true, if_false, linFit_real (L := fun _ _ => 0), if_neg (hd nofun)]
    split
    next e' he' => exact absurd (he'.symm.trans e) nofun
    next o' ho' => exact fin _ _ _ _
  | timesPeriod =>
    obtain ⟨o, ho⟩ := KepMode.args_ok C m fun p => (TtvMode.timesPeriod.parG inds p).real (fun _ _ => 0) q
    have e : keplerianInit C { (m.args fun p => q (.kep p)) with
        t0 := some (((TtvMode.interceptG inds).real (fun _ _ => 0) q : ℝ) : Q), period := some ((q (.kep .period) : ℝ) : Q) } = .ok o := by
      rw [← ho]
      cases m <;> rfl
    simp only [ttvInit, TtvMode.args, Option.getD_some, List.length_ofFn, ne_eq, not_true, if_false, linFit_real (L := fun _ _ => 0), if_neg (hd nofun)]
    split
    next e' he' => cases m <;> cases he'.symm.trans e
    next o' ho' => exact fin _ _ _ _

/-! ## The counterexample -/

theorem equalLabels_all : TtvMode.ttvs.allTimesG ![0, 0] = [Graph.overwritten (TtvMode.ttvs.timeG ![0, 0] 0) (TtvMode.ttvs.timeG ![0, 0] 1)] := by
  have h2 : (List.finRange 2).filter (fun i => ![0, 0] i = 0) = [0, 1] := by decide
  simp [TtvMode.allTimesG, TtvMode.entryG, h2]

theorem equalLabels_edges : TtvMode.ttvs.edgesG ![0, 0] = [Graph.sub (Graph.overwritten (TtvMode.ttvs.timeG ![0, 0] 0) (TtvMode.ttvs.timeG ![0, 0] 1)) (.mul (.const 0.5) (TtvMode.ttvs.ttvPeriodG ![0, 0])),
    Graph.add (Graph.overwritten (TtvMode.ttvs.timeG ![0, 0] 0) (TtvMode.ttvs.timeG ![0, 0] 1)) (.mul (.const 0.5) (TtvMode.ttvs.ttvPeriodG ![0, 0]))] := by
  simp [TtvMode.edgesG, equalLabels_all]

theorem equalLabels_values : TtvMode.ttvs.valuesG ![0, 0] = [Graph.overwritten (TtvMode.ttvs.timeG ![0, 0] 0) (TtvMode.ttvs.timeG ![0, 0] 1),
    Graph.overwritten (TtvMode.ttvs.timeG ![0, 0] 0) (TtvMode.ttvs.timeG ![0, 0] 1), Graph.overwritten (TtvMode.ttvs.timeG ![0, 0] 0) (TtvMode.ttvs.timeG ![0, 0] 1)] := by
  simp [TtvMode.valuesG, equalLabels_all]

/-- The planet of `demoKep`, with two entries of `ttvs`. -/
noncomputable def demoTtvPars (b : ℝ) : TtvPar 2 → ℝ
  | .kep p => demoKep b 1 p
  | .time _ => 0

theorem equalLabels_value (env : TtvPar 2 → Fl) (t : ℝ) (ht : env (.kep .t0) = .fin 0) (hP : env (.kep .period) = .fin 10) (h1 : env (.time 1) = .fin 0)
    (h : |t| < 5) : (TtvMode.ttvs.warpG ![0, 0] t).value op env = .fin t ∧
      ∀ g : ℝ, (TtvMode.ttvs.warpG ![0, 0] t).back op env (.fin g) (.time 0) = .fin (-g) := by
  have ha := abs_lt.1 h
  have e := equalLabels_edges
  have e' := equalLabels_values
  have hT : (Graph.overwritten (TtvMode.ttvs.timeG ![0, 0] 0) (TtvMode.ttvs.timeG ![0, 0] 1)).value op env = .fin 0 := by
    simp [Graph.value, TtvMode.timeG, TtvMode.parG, ht, hP, h1]
  have hB : ∀ g : Fl, (Graph.overwritten (TtvMode.ttvs.timeG ![0, 0] 0) (TtvMode.ttvs.timeG ![0, 0] 1)).back op env g (.time 0) = g := by
    intro g
    simp [Graph.back, timeG_back, Fl.add_fin_zero]
  have hpp : (TtvMode.ttvs.ttvPeriodG ![0, 0]).value op env = .fin 10 := by
    simp [TtvMode.ttvPeriodG, TtvMode.parG, Graph.value, hP]
  have key : ∀ (E V : List (Graph (TtvPar 2))) (x lo hi : Graph (TtvPar 2)), E = [lo, hi] → V = [x, x, x] → lo.value op env = .fin (-5) → hi.value op env = .fin 5 →
      x.value op env = .fin 0 → (∀ g : Fl, x.back op env g (.time 0) = g) →
      (Graph.sub (.const t) (.pick E.get V.get (.const t))).value op env = .fin t ∧
      ∀ g : ℝ, (Graph.sub (.const t) (.pick E.get V.get (.const t))).back op env (.fin g) (.time 0) = .fin (-g) := by
    rintro _ _ x lo hi rfl rfl hlo hhi hx hb
    have hN : (List.filter (fun i => Fl.gt (.fin t) (([lo, hi].get i).value op env)) (List.finRange 2)).length = 1 := by
      have h2 : List.finRange 2 = [0, 1] := by decide
      rw [h2]
      simp [hlo, hhi, Fl.gt, ha.1, not_lt.2 ha.2.le]
    constructor
    · have hk : ∀ N : ℕ, N = 1 → (if h : N < [x, x, x].length then ([x, x, x].get ⟨N, h⟩).value op env else .nan) = .fin 0 := by
        rintro N rfl
        simp [hx]
      have := congrArg (fun v => Fl.fin t - v) (hk _ hN)
      simp only [Fl.fin_sub, sub_zero] at this
      exact this
    · intro g
      have h3 : List.finRange 3 = [0, 1, 2] := by decide
      simp only [Graph.back, Graph.value]
      simp only [List.length_cons, List.length_nil] at hN ⊢
      simp only [hN, h3]
      simp [hb, Fl.sum]
  refine key _ _ _ _ _ e e' ?_ ?_ hT hB
  · simp only [Graph.value] at hT ⊢
    simp only [hT, hpp]
    norm_num
  · simp only [Graph.value] at hT ⊢
    simp only [hT, hpp]
    norm_num

/-- Concrete violation of C122: with two entries of `ttvs` for transit `0` the planet's `x` does not depend on the first one at any time, but its computed derivative with respect to it
at `t = 0` is not zero: it is `-2π`, whatever the compiled operations and their derivatives. -/
theorem C122_counterexample (C : Consts) (T : (TtvPar 2 → ℝ) → Ttv) (hT : ∀ q, ttvInit C (TtvMode.ttvs.args .circular ![0, 0] q) = .ok (some (T q))) :
    ∃ q : TtvPar 2 → ℝ, KepMode.circular.Possible ((T q).kepPars q) ∧
    (∀ s t, (T (update q (.time 0) s)).orbit.relativePosition C t = (T q).orbit.relativePosition C t) ∧
    ∀ op : FlOp, (KepMode.circular.x1G (TtvMode.ttvs.parG ![0, 0]) (TtvMode.ttvs.warpG ![0, 0] 0)).back op (fun i => .fin (q i)) (.fin 1) (.time 0) = .fin (-(2 * π)) := by
  refine ⟨demoTtvPars 0.5, ?_, fun s t => ?_, fun op => ?_⟩
  · rw [kepPars_real (hT _) fun _ _ => 0]
    exact demoKep_possible .circular 0.5
  · have hw : (TtvMode.ttvs.warpG ![0, 0] t).real (fun _ _ => 0) (update (demoTtvPars 0.5) (.time 0) s) = (TtvMode.ttvs.warpG ![0, 0] t).real (fun _ _ => 0) (demoTtvPars 0.5) := by
      rw [warpG_real, warpG_real, equalLabels_edges, equalLabels_values]
      simp [Graph.real, TtvMode.timeG, TtvMode.parG, TtvMode.ttvPeriodG, update]
    rw [(ttvGraph_position (hT _) (fun _ _ => 0) t).1, (ttvGraph_position (hT _) (fun _ _ => 0) t).1]
    simp only [KepMode.x1G, KepMode.yG, KepMode.zG, KepMode.y1G, KepMode.cosfG, KepMode.sinfG, KepMode.radiusG, KepMode.sinInclG, KepMode.cosInclG, KepMode.anomalyG, KepMode.M0G,
      KepMode.nG, KepMode.inclFactorG, Graph.real, hw, TtvMode.parG]
    simp [update]
  · obtain ⟨hv, hb⟩ := equalLabels_value (op := op) (fun i => .fin (demoTtvPars 0.5 i)) 0 rfl rfl rfl (by norm_num)
    have h0 : (fun i => Fl.fin (demoTtvPars 0.5 i)) (.kep .t0) = .fin 0 := rfl
    have h1 : (fun i => Fl.fin (demoTtvPars 0.5 i)) (.kep .period) = .fin 10 := rfl
    have h2 : (fun i => Fl.fin (demoTtvPars 0.5 i)) (.kep .a) = .fin 10 := rfl
    generalize (fun i => Fl.fin (demoTtvPars 0.5 i)) = env at hv hb h0 h1 h2 ⊢
    simp only [KepMode.x1G, KepMode.radiusG, KepMode.cosfG, KepMode.anomalyG, KepMode.M0G, KepMode.nG, Graph.back, Graph.value, TtvMode.parG, hv, h0, h1, h2]
    have hn : (Fl.fin (2 * π) / Fl.fin 10 : Fl) = .fin (π / 5) := by
      rw [Fl.fin_div (by norm_num)]
      congr 1
      ring
    have hn' : (Fl.fin (0.5 * π) / Fl.fin (π / 5) : Fl) = .fin 2.5 := by
      rw [Fl.fin_div (by positivity)]
      congr 1
      field_simp
      norm_num
    simp only [Fl.fin_mul, Fl.fin_neg, hn, hn', Fl.fin_sub]
    simp [hb]
    rw [show (2.5 * (π / 5) : ℝ) = π / 2 by ring, sin_pi_div_two]
    ring

/-! ## Examples -/

/-- Two transits, ten days apart. -/
noncomputable def demoTransits (b : ℝ) : TtvPar 2 → ℝ
  | .kep p => demoKep b 1 p
  | .time i => 10 * (i : ℕ)

theorem demoTransits_facts {C : Consts} {b : ℝ} {T : Ttv} (hT : ttvInit C (TtvMode.times.args .circular ![0, 1] (demoTransits b)) = .ok (some T)) :
    T.kepPars (demoTransits b) = demoKep b 1 ∧ T.bin_edges = [-5, 5, 15] ∧ T.orbit.relativePosition C 0 = ⟨0, -b, 10 * sin (arccos (b / 10))⟩ ∧ T.orbit.cos_incl = b / 10 := by
  have hd : TtvMode.denom ![0, 1] = 1 := by norm_num [TtvMode.denom, TtvMode.sumx, TtvMode.sumx2]
  have hsl : (TtvMode.slopeG ![0, 1]).real (fun _ _ => 0) (demoTransits b) = 10 := by
    simp [TtvMode.slopeG, Graph.real, hd, TtvMode.sumxyG, TtvMode.sumyG, sumG_real, TtvMode.sumx, demoTransits]
    norm_num
  have hin : (TtvMode.interceptG ![0, 1]).real (fun _ _ => 0) (demoTransits b) = 0 := by
    simp [TtvMode.interceptG, Graph.real, hd, TtvMode.sumxyG, TtvMode.sumyG, sumG_real, TtvMode.sumx, TtvMode.sumx2, demoTransits]
  have hpar : (fun p => (TtvMode.times.parG ![0, 1] p).real (fun _ _ => 0) (demoTransits b)) = demoKep b 1 := by
    funext p
    cases p <;> first | exact hsl | exact hin | rfl
  have hall : TtvMode.times.allTimesG ![0, 1] = [Graph.input (.time 0), Graph.input (.time 1)] := by
    have h0 : (List.finRange 2).filter (fun i => ![0, 1] i = 0) = [0] := by decide
    have h1 : (List.finRange 2).filter (fun i => ![0, 1] i = 1) = [1] := by decide
    simp [TtvMode.allTimesG, TtvMode.entryG, h0, h1, TtvMode.timeG, List.range_succ]
  obtain ⟨o, -, -, hbe, hbv, -, -, -⟩ := ttvGraph_real hT (fun _ _ => 0)
  have hE : T.bin_edges = [-5, 5, 15] := by
    rw [hbe]
    simp [TtvMode.edgesG, hall, Graph.real, TtvMode.ttvPeriodG, hsl, demoTransits]
    norm_num
  have hV : T.bin_values = [0, 0, 10, 10] := by
    rw [hbv]
    simp [TtvMode.valuesG, hall, Graph.real, demoTransits]
  obtain ⟨hp, hci⟩ := ttvGraph_position hT (fun _ _ => 0) 0
  have hw : (TtvMode.times.warpG ![0, 1] 0).real (fun _ _ => 0) (demoTransits b) = 0 := by
    rw [warpG_real, ← hbe, ← hbv, hE, hV]
    norm_num [modelDt, searchsortedLeft]
  have hc := fun p => congrFun hpar p
  have hM : (KepMode.circular.anomalyG (TtvMode.times.parG ![0, 1]) (TtvMode.times.warpG ![0, 1] 0)).real (fun _ _ => 0) (demoTransits b) = π / 2 := by
    simp only [KepMode.anomalyG, KepMode.M0G, KepMode.nG, Graph.real, hc, hw, demoKep]
    have := pi_pos.ne'
    field_simp
    norm_num
  refine ⟨(kepPars_real hT _).trans hpar, hE, ?_, ?_⟩
  · rw [hp]
    simp only [KepMode.x1G, KepMode.yG, KepMode.zG, KepMode.y1G, KepMode.cosfG, KepMode.sinfG, KepMode.radiusG, KepMode.sinInclG, KepMode.cosInclG,
      KepMode.inclFactorG, Graph.real, hM, hc]
    simp only [demoKep]
    rw [sin_pi_div_two, cos_pi_div_two]
    congr 1
    · ring
    · ring
    · rw [show (1 * 1 / 10 * b : ℝ) = b / 10 by ring]
      ring
  · rw [hci]
    simp only [KepMode.cosInclG, KepMode.inclFactorG, Graph.real, hc, demoKep]
    ring

/-- The hypotheses of `C122_light_curve_partial` can be met: two transits ten days apart, in the middle of the first one. -/
example (C : Consts) (T : (TtvPar 2 → ℝ) → Ttv) (hT : ∀ q, ttvInit C (TtvMode.times.args .circular ![0, 1] q) = .ok (some (T q))) (hl : PhysicalLaw 0.3 0.2) :
    GradientRight (exactOp 0.3 0.2) (TtvMode.times.lightCurveG ![0, 1] .circular 0)
      (fun q => fluxAt (getCl 0.3 0.2) (q (.kep .r_star)) (q (.kep .r)) ((T q).orbit.relativePosition C 0)) (demoTransits 0.5) := by
  obtain ⟨h1, h2, h3, h4⟩ := demoTransits_facts (hT (demoTransits 0.5))
  refine C122_light_curve_partial hl (exactOp_exact _ _).1 (exactOp_exact _ _).2 (by decide) T hT (by rw [h1]; exact demoKep_possible _ _) 0 (by rw [h2]; norm_num)
    (by rw [h4]; norm_num) (Or.inr (by rw [h3]; norm_num)) (Or.inl ?_)
  rw [h3, sin_arccos]
  exact (mul_pos (by norm_num) (sqrt_pos.2 (by norm_num))).ne'

/-- Such orbits exist. -/
example (C : Consts) : ∃ T : (TtvPar 2 → ℝ) → Ttv, ∀ q, ttvInit C (TtvMode.times.args .circular ![0, 1] q) = .ok (some (T q)) :=
  Classical.axiomOfChoice fun q => ttvArgs_ok C .circular (by norm_num) (fun _ => by norm_num [TtvMode.denom, TtvMode.sumx, TtvMode.sumx2]) q

/-- Also those of `C122_counterexample`. -/
example (C : Consts) : ∃ T : (TtvPar 2 → ℝ) → Ttv, ∀ q, ttvInit C (TtvMode.ttvs.args .circular ![0, 0] q) = .ok (some (T q)) :=
  Classical.axiomOfChoice fun q => ttvArgs_ok C .circular (by norm_num) (fun h => absurd rfl h) q

/-- The hypotheses of `C122_centre` can be met: with `b = 0`, the derivative with respect to the time of the second transit is NaN in the middle of the first. -/
example (C : Consts) {T : Ttv} (hT : ttvInit C (TtvMode.times.args .circular ![0, 1] (demoTransits 0)) = .ok (some T)) :
    (TtvMode.times.lightCurveG ![0, 1] .circular 0).back (exactOp 0.3 0.2) (fun i => .fin (demoTransits 0 i)) (.fin 1) (.time 1) = .nan := by
  obtain ⟨h1, h2, h3, h4⟩ := demoTransits_facts hT
  exact C122_centre (exactOp_exact _ _).2 (by decide) hT (by rw [h1]; exact demoKep_possible _ _) (by rw [h2]; norm_num) (by rw [h3]) (by rw [h3]; simp) _ (by simp)

/-- The hypotheses of `C122_equal_labels` can be met. -/
example (op : FlOp) : (TtvMode.ttvs.lightCurveG ![0, 0] .angle 1).back op (fun i => .fin (demoTtvPars 0.5 i)) (.fin 1) (.time 0) =
    (TtvMode.ttvs.lightCurveG ![0, 0] .angle 1).back op (fun i => .fin (demoTtvPars 0.5 i)) (.fin 1) (.time 1) :=
  C122_equal_labels (i := 0) (k := 1) _ rfl _ _

end
end Exo
