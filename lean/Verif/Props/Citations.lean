import Verif.Lemmas.Citations

/-!
# C55, C56: the citation record
-/

namespace Exo

/-- A program with two nested models: an orbit and a light curve for model 1, a prior for model 2 (built twice). -/
def demoCiteProgram : List CiteOp :=
  [.construct .keplerianOrbit none, .enter 1, .construct .keplerianOrbit none, .enter 2, .construct .kipping13 none,
   .construct .secondaryEclipseLightCurve (some 1), .construct .kipping13 none, .leave, .construct .ttvOrbit none, .leave]

/-! ## C55 -/

/-- C55. After any program, for any model for which at least one component with a citation was constructed: the acknowledgement lists,
sorted and without repetition, exactly the fixed citations and those of the components used; the BibTeX text consists of the fixed
entries followed by exactly one entry per work used. -/
theorem C55_lists_exactly_the_components_used (bibtex : String → String) (wrap : String → ℕ → List String) (be : Backend)
    (width : ℕ) (h : List CiteOp) (m : ModelId) (hne : ∃ k, Cited h m k) :
    ∃ cites keys : List String,
      getCitationsForModel bibtex wrap be (some m) width (citeRun bibtex h .init) =
        .ok ("\n".intercalate (wrap (acknowledgement cites) width), "\n".intercalate (fixedBib bibtex be ++ keys.map bibtex)) ∧
      (keys.Nodup ∧ ∀ k, k ∈ keys ↔ Cited h m k) ∧
      (cites.Nodup ∧ cites.Pairwise (· ≤ ·) ∧ ∀ c, c ∈ cites ↔ c ∈ fixedCites be ∨ ∃ k, Cited h m k ∧ c ∈ citesOf k) := by
  obtain ⟨hg, hk⟩ := run_init (bibtex := bibtex) h
  obtain ⟨k0, hk0⟩ := hne
  cases hd : (citeRun bibtex h .init).dict m with
  | none =>
    have := (hk m k0).2 hk0
    rw [hd] at this
    simp [dictKeys] at this
  | some d =>
    have hgd := hg m d hd
    have hkeys : ∀ k, k ∈ d.map (·.1) ↔ Cited h m k := by
      intro k
      rw [← hk m k, hd]
      rfl
    have hcomp : ∀ k ∈ d.map (·.1), k ∈ componentKeys := by
      intro k hk'
      obtain ⟨p, hp, rfl⟩ := List.mem_map.1 hk'
      exact (hgd.entries p hp).1
    refine ⟨sortedStrings (fixedCites be ++ ((d.map (·.1)).map citesOf).flatten), d.map (·.1), get_of_good rfl hd hgd,
      ⟨hgd.nodup, hkeys⟩, ?_, sortedStrings_pairwise _, ?_⟩
    · exact (sortedStrings_perm _).nodup_iff.2 (cites_nodup be hgd.nodup hcomp)
    · intro c
      rw [(sortedStrings_perm _).mem_iff, List.mem_append]
      refine or_congr_right ?_
      rw [List.mem_flatten]
      constructor
      · rintro ⟨l, hl, hc⟩
        obtain ⟨k, hk', rfl⟩ := List.mem_map.1 hl
        exact ⟨k, (hkeys k).1 hk', hc⟩
      · rintro ⟨k, hk', hc⟩
        exact ⟨citesOf k, List.mem_map.2 ⟨k, (hkeys k).2 hk', rfl⟩, hc⟩

/-- The demo program cites astropy and starry for model 1 and kipping13b for model 2, nothing else. -/
example : Cited demoCiteProgram 1 "astropy" ∧ Cited demoCiteProgram 1 "starry" ∧ Cited demoCiteProgram 2 "kipping13b" := by
  refine ⟨⟨.keplerianOrbit, ?_, rfl⟩, ⟨.secondaryEclipseLightCurve, ?_, rfl⟩, ⟨.kipping13, ?_, rfl⟩⟩
  · exact .later _ _ (.afterEnter _ (.context _ _ _ _))
  · exact .later _ _ (.afterEnter _ (.later _ _ (.afterEnter _ (.later _ _ (.explicit _ _ _ _)))))
  · exact .later _ _ (.afterEnter _ (.later _ _ (.afterEnter _ (.context _ _ _ _))))

/-- And the record computed for it. -/
example : ((citeRun id demoCiteProgram .init).dict 1).map (List.map (·.1)) = some ["astropy", "starry"] ∧
    ((citeRun id demoCiteProgram .init).dict 2).map (List.map (·.1)) = some ["kipping13b"] ∧
    (citeRun id demoCiteProgram .init).dict 3 = none := by decide

/-- C55. Repeating, reordering or interleaving constructions does not change the acknowledgement, and changes the BibTeX text only by
the order of the entries: programs that use the same works (for the models asked about) give the same text. -/
theorem C55_order_and_repetition_do_not_matter (bibtex : String → String) (wrap : String → ℕ → List String) (be : Backend)
    (width : ℕ) (h h' : List CiteOp) (m m' : ModelId) (hsame : ∀ k, Cited h m k ↔ Cited h' m' k) :
    ∃ txt bib bib', 
      getCitationsForModel bibtex wrap be (some m) width (citeRun bibtex h .init) = .ok (txt, "\n".intercalate bib) ∧
      getCitationsForModel bibtex wrap be (some m') width (citeRun bibtex h' .init) = .ok (txt, "\n".intercalate bib') ∧
      bib.Perm bib' := by
  by_cases hne : ∃ k, Cited h m k
  · obtain ⟨c, ks, h1, ⟨h2, h3⟩, h4, h5, h6⟩ := C55_lists_exactly_the_components_used bibtex wrap be width h m hne
    have hne' : ∃ k, Cited h' m' k := hne.imp fun k hk => (hsame k).1 hk
    obtain ⟨c', ks', h1', ⟨h2', h3'⟩, h4', h5', h6'⟩ := C55_lists_exactly_the_components_used bibtex wrap be width h' m' hne'
    have hcc : c = c' := by
      refine List.Perm.eq_of_pairwise (le := (· ≤ ·)) (fun _ _ _ _ hab hba => le_antisymm hab hba) h5 h5' ?_
      refine (List.perm_ext_iff_of_nodup h4 h4').2 fun x => ?_
      rw [h6, h6']
      refine or_congr_right (exists_congr fun k => ?_)
      rw [hsame k]
    have hkk : ks.Perm ks' := (List.perm_ext_iff_of_nodup h2 h2').2 fun k => by rw [h3, h3', hsame k]
    subst hcc
    exact ⟨_, _, _, h1, h1', (hkk.map bibtex).append_left _⟩
  · obtain ⟨hg, hk⟩ := run_init (bibtex := bibtex) h
    obtain ⟨hg', hk'⟩ := run_init (bibtex := bibtex) h'
    have e : (citeRun bibtex h .init).dict m = none := by
      cases hd : (citeRun bibtex h .init).dict m with
      | none => rfl
      | some d =>
        exfalso
        obtain ⟨p, l, rfl⟩ := List.exists_cons_of_ne_nil (hg m d hd).ne
        exact hne ⟨p.1, (hk m p.1).1 (by rw [hd]; simp [dictKeys])⟩
    have e' : (citeRun bibtex h' .init).dict m' = none := by
      cases hd : (citeRun bibtex h' .init).dict m' with
      | none => rfl
      | some d =>
        exfalso
        obtain ⟨p, l, rfl⟩ := List.exists_cons_of_ne_nil (hg' m' d hd).ne
        exact hne ⟨p.1, (hsame p.1).2 ((hk' m' p.1).1 (by rw [hd]; simp [dictKeys]))⟩
    exact ⟨"", [], [], get_of_none rfl e, get_of_none rfl e', .refl _⟩

/-- Building the light curve before the orbit, or each of them twice, uses the same works. -/
example (k : String) :
    Cited [.enter 1, .construct .ttvOrbit none, .construct .limbDarkLightCurve none] 1 k ↔
    Cited [.construct .limbDarkLightCurve (some 7), .construct .keplerianOrbit (some 7), .construct .limbDarkLightCurve (some 7)] 7 k := by
  have e1 := (run_init (bibtex := id) [.enter 1, .construct .ttvOrbit none, .construct .limbDarkLightCurve none]).2 1 k
  have e2 := (run_init (bibtex := id) [.construct .limbDarkLightCurve (some 7), .construct .keplerianOrbit (some 7),
    .construct .limbDarkLightCurve (some 7)]).2 7 k
  rw [← e1, ← e2]
  have d1 : dictKeys ((citeRun id [.enter 1, .construct .ttvOrbit none, .construct .limbDarkLightCurve none] .init).dict 1) =
    ["astropy", "starry"] := by decide
  have d2 : dictKeys ((citeRun id [.construct .limbDarkLightCurve (some 7), .construct .keplerianOrbit (some 7),
    .construct .limbDarkLightCurve (some 7)] .init).dict 7) = ["starry", "astropy"] := by decide
  rw [d1, d2]
  simp [or_comm]

/-- The order of the BibTeX entries does follow the order of construction. -/
theorem C55_bibtex_order_counterexample :
    getCitationsForModel id (fun s _ => [s]) .pymc (some 1) 79
        (citeRun id [.construct .keplerianOrbit (some 1), .construct .limbDarkLightCurve (some 1)] .init) ≠
    getCitationsForModel id (fun s _ => [s]) .pymc (some 1) 79
        (citeRun id [.construct .limbDarkLightCurve (some 1), .construct .keplerianOrbit (some 1)] .init) := by
  intro h
  have h2 := congrArg (fun r : Except PyErr (String × String) => match r with | .ok p => p.2 | .error _ => "") h
  revert h2
  decide

/-- C55. Every key used anywhere in the package is in the table, with the citations it documents. -/
theorem C55_keys_exist (bibtex : String → String) (c : Component) (ks : List String) (hks : ks ∈ c.calls) (k : String)
    (hk : k ∈ ks) : c.restsOn = some k ∧ citationsLookup bibtex k = .ok ⟨citesOf k, bibtex k⟩ ∧ citesOf k ≠ [] := by
  cases c <;> simp [Component.calls] at hks <;> subst hks <;> simp at hk <;> subst hk <;> exact ⟨rfl, rfl, by decide⟩

example : ["starry"] ∈ Component.secondaryEclipseLightCurve.calls := by decide

/-- Exactly the priors are random variables that need a model. -/
theorem needsModel_iff {c : Component} : c.needsModel = true ↔ c.IsPrior := by
  cases c <;> simp [Component.needsModel, Component.IsPrior]

/-- C55. No program ever triggers a `KeyError`: the only exception of a construction is the `TypeError` of a distribution built outside
of any model. -/
theorem C55_constructions_never_fail_on_keys (bibtex : String → String) (h : List CiteOp) (op : CiteOp) (e : PyErr)
    (he : (citeStep bibtex (citeRun bibtex h .init) op).2 = .error e) :
    ∃ c : Component, op = .construct c none ∧ c.IsPrior ∧ (citeRun bibtex h .init).stack = [] ∧
      e = .typeError "no model on the context stack" := by
  obtain ⟨hg, -⟩ := run_init (bibtex := bibtex) h
  generalize hw : citeRun bibtex h .init = w at *
  cases op with
  | enter m => simp [citeStep] at he
  | leave => simp [citeStep] at he
  | construct c o =>
    have hok : ∀ m, modelcontext w o = .ok m → False := by
      intro m hm
      rw [step_construct_ok c hm, (runCalls_spec hg c hm).1] at he
      cases he
    cases o with
    | some m => exact (hok m rfl).elim
    | none =>
      cases hs : w.stack with
      | cons m s => exact (hok m (modelcontext_none_cons hs)).elim
      | nil =>
        rw [step_construct_outside c hs] at he
        cases hc : c.needsModel with
        | false => rw [hc] at he; cases he
        | true =>
          rw [hc] at he
          cases he
          exact ⟨c, rfl, needsModel_iff.1 hc, rfl, rfl⟩

example : (citeStep id (citeRun id [.enter 1, .leave] .init) (.construct .vaneylen19 none)).2 =
    .error (.typeError "no model on the context stack") := by decide

/-! ## C56 -/

/-- C56. Registering citations outside of a model changes nothing and raises nothing, whatever the keys. -/
theorem C56_registering_outside_is_silent (bibtex : String → String) (ks : List String) (w : CiteWorld) (hs : w.stack = []) :
    addCitationsToModel bibtex ks none w = (w, .ok ()) := add_outside hs ks

example : (citeRun id demoCiteProgram .init).stack = [] := by decide

/-- C56. Inside a model, registering known keys succeeds; an unknown key is reported as a `KeyError`, after which the record is as if only
the keys before it had been registered. -/
theorem C56_unknown_keys_are_reported (bibtex : String → String) (o : Option ModelId) (w : CiteWorld) (m : ModelId)
    (hm : modelcontext w o = .ok m) (ks : List String) (hks : ∀ k ∈ ks, k ∈ citeKeys.map Prod.fst) :
    (addCitationsToModel bibtex ks o w).2 = .ok () ∧
    ∀ k post, k ∉ citeKeys.map Prod.fst →
      addCitationsToModel bibtex (ks ++ k :: post) o w = ((addCitationsToModel bibtex ks o w).1, .error (.keyError k)) := by
  have known : ∀ k, k ∈ citeKeys.map Prod.fst → ∃ v, citationsLookup bibtex k = .ok v := by
    intro k hk
    obtain ⟨p, hp, rfl⟩ := List.mem_map.1 hk
    unfold citationsLookup
    cases h : citeKeys.find? (fun q => q.1 == p.1) with
    | none => exact absurd (List.find?_eq_none.1 h p hp) (by simp)
    | some q => exact ⟨_, rfl⟩
  have unknown : ∀ k, k ∉ citeKeys.map Prod.fst → citationsLookup bibtex k = .error (.keyError k) := by
    intro k hk
    unfold citationsLookup
    cases h : citeKeys.find? (fun q => q.1 == k) with
    | none => rfl
    | some q =>
      exfalso
      have h1 := List.mem_of_find?_eq_some h
      have h2 := List.find?_some h
      exact hk (List.mem_map.2 ⟨q, h1, by simpa using h2⟩)
  have key : ∀ (ks : List String) (d : CiteDict), (∀ k ∈ ks, k ∈ citeKeys.map Prod.fst) →
      (addLoop bibtex d ks).2 = .ok () ∧ ∀ k post, k ∉ citeKeys.map Prod.fst →
        addLoop bibtex d (ks ++ k :: post) = ((addLoop bibtex d ks).1, .error (.keyError k)) := by
    intro ks
    induction ks with
    | nil =>
      intro d _
      refine ⟨rfl, fun k post hk => ?_⟩
      simp only [List.nil_append, addLoop]
      rw [unknown k hk]
    | cons a ks ih =>
      intro d h
      obtain ⟨v, hv⟩ := known a (h a List.mem_cons_self)
      have := ih (d.set a v) fun k hk => h k (List.mem_cons_of_mem _ hk)
      simp only [List.cons_append, addLoop, hv]
      exact this
  unfold addCitationsToModel
  rw [hm]
  obtain ⟨h1, h2⟩ := key ks ((w.dict m).getD []) hks
  refine ⟨h1, fun k post hk => ?_⟩
  simp only [h2 k post hk]

example : modelcontext ⟨[2], fun _ => none⟩ none = .ok 2 ∧ "starry" ∈ citeKeys.map Prod.fst ∧ "unheard-of" ∉ citeKeys.map Prod.fst := by
  decide

/-- C56 (partial: restricted to orbits and light curves). Constructing them outside of a model changes no record and raises
nothing. The full statement also claims this of the distributions, which need a model: `C56_distribution_outside_counterexample`. -/
theorem C56_construct_outside_partial (bibtex : String → String) (w : CiteWorld) (hs : w.stack = []) (c : Component)
    (hc : ¬c.IsPrior) : citeStep bibtex w (.construct c none) = (w, .ok ()) := by
  rw [step_construct_outside c hs, Bool.eq_false_iff.2 (mt needsModel_iff.1 hc)]; rfl

example : ¬Component.IsPrior .secondaryEclipseLightCurve := by simp [Component.IsPrior]

/-- Distributions raise a `TypeError` outside of a model; the records are still untouched. -/
theorem C56_distribution_outside (bibtex : String → String) (w : CiteWorld) (hs : w.stack = []) (c : Component)
    (hc : c.IsPrior) :
    citeStep bibtex w (.construct c none) = (w, .error (.typeError "no model on the context stack")) := by
  rw [step_construct_outside c hs, needsModel_iff.2 hc]; rfl

theorem C56_distribution_outside_counterexample :
    ∃ c, (citeStep id .init (.construct c none)).2 ≠ .ok () := ⟨.kipping13, by decide⟩

/-- C56. A construction touches at most the record of its own model: the one given, or the innermost open block. -/
theorem C56_models_do_not_share (bibtex : String → String) (h : List CiteOp) (c : Component) (o : Option ModelId) (m : ModelId)
    (ho : o ≠ some m) (hs : o = none → (citeRun bibtex h .init).stack.head? ≠ some m) :
    (citeStep bibtex (citeRun bibtex h .init) (.construct c o)).1.dict m = (citeRun bibtex h .init).dict m := by
  generalize citeRun bibtex h .init = w at *
  have frame1 : ∀ (ks : List String) (w : CiteWorld) (m0 : ModelId), modelcontext w o = .ok m0 → m ≠ m0 →
      (addCitationsToModel bibtex ks o w).1.dict m = w.dict m ∧ (addCitationsToModel bibtex ks o w).1.stack = w.stack := by
    intro ks w m0 hm hne
    unfold addCitationsToModel
    rw [hm]
    exact ⟨if_neg hne, rfl⟩
  have frame : ∀ (l : List (List String)) (w : CiteWorld) (m0 : ModelId), modelcontext w o = .ok m0 → m ≠ m0 →
      (runCalls bibtex o l w).1.dict m = w.dict m := by
    intro l
    induction l with
    | nil => intros; rfl
    | cons ks l ih =>
      intro w m0 hm hne
      obtain ⟨f1, f2⟩ := frame1 ks w m0 hm hne
      unfold runCalls
      generalize hr : addCitationsToModel bibtex ks o w = r at *
      obtain ⟨w', r2⟩ := r
      cases r2 with
      | error e => exact f1
      | ok u =>
        have hm' : modelcontext w' o = .ok m0 := by
          rw [← hm]
          cases o with
          | some _ => rfl
          | none => simp only [modelcontext]; rw [f2]
        exact (ih w' m0 hm' hne).trans f1
  cases o with
  | some m0 =>
    rw [step_construct_ok c (rfl : modelcontext w (some m0) = .ok m0)]
    exact frame _ w m0 rfl fun h => ho (by rw [h])
  | none =>
    cases hst : w.stack with
    | nil => rw [step_construct_outside c hst]
    | cons m0 s =>
      rw [step_construct_ok c (modelcontext_none_cons hst)]
      refine frame _ w m0 (modelcontext_none_cons hst) fun h => ?_
      have := hs rfl
      rw [hst, h] at this
      exact this rfl

/-- In the inner block of model 2, model 1 is not touched. -/
example : (citeRun id [.enter 1, .enter 2] .init).stack.head? ≠ some 1 := by decide

/-- C56. The record of a model depends only on what was constructed for it, whatever happened to other models in between, and a model
with no (citing) component gives two empty strings. -/
theorem C56_unused_model_is_empty (bibtex : String → String) (wrap : String → ℕ → List String) (be : Backend) (width : ℕ)
    (h : List CiteOp) (m : ModelId) (hno : ∀ k, ¬ Cited h m k) :
    getCitationsForModel bibtex wrap be (some m) width (citeRun bibtex h .init) = .ok ("", "") := by
  obtain ⟨hg, hk⟩ := run_init (bibtex := bibtex) h
  refine get_of_none rfl ?_
  cases hd : (citeRun bibtex h .init).dict m with
  | none => rfl
  | some d =>
    exfalso
    obtain ⟨p, l, rfl⟩ := List.exists_cons_of_ne_nil (hg m d hd).ne
    exact hno p.1 ((hk m p.1).1 (by rw [hd]; simp [dictKeys]))

/-- In the demo program nothing is constructed for model 3. -/
example : ∀ k, ¬ Cited demoCiteProgram 3 k := by
  intro k hk
  have := ((run_init (bibtex := id) demoCiteProgram).2 3 k).2 hk
  have e : (citeRun id demoCiteProgram .init).dict 3 = none := by decide
  rw [e] at this
  simp [dictKeys] at this

/-- C56. Asking for the citations outside of a model, without naming one, is a `TypeError` (documented behaviour of
`pm.modelcontext`). -/
theorem C56_get_outside_raises (bibtex : String → String) (wrap : String → ℕ → List String) (be : Backend) (width : ℕ)
    (w : CiteWorld) (hs : w.stack = []) :
    getCitationsForModel bibtex wrap be none width w = .error (.typeError "no model on the context stack") := by
  unfold getCitationsForModel
  rw [modelcontext_none_nil hs]
  rfl

end Exo
