import Verif.Spec.Citations
import Mathlib.Data.List.Sort
import Mathlib.Data.String.Basic

/-!
# Helper lemmas for the citation record
-/

namespace Exo

/-- The keys of an optional dict. -/
def dictKeys (d : Option CiteDict) : List String := (d.getD []).map (·.1)

/-- Keys components use. -/
def componentKeys : List String := ["astropy", "starry", "kipping13", "kipping13b", "vaneylen19"]

/-- Invariant of every `__citations__` dict. -/
structure GoodDict (bibtex : String → String) (d : CiteDict) : Prop where
  nodup : (d.map (·.1)).Nodup
  entries : ∀ p ∈ d, p.1 ∈ componentKeys ∧ p.2 = ⟨citesOf p.1, bibtex p.1⟩
  ne : d ≠ []

theorem lookup_componentKey (bibtex : String → String) {k : String} (hk : k ∈ componentKeys) :
    citationsLookup bibtex k = .ok ⟨citesOf k, bibtex k⟩ := by
  simp only [componentKeys, List.mem_cons, List.not_mem_nil, or_false] at hk
  rcases hk with rfl | rfl | rfl | rfl | rfl <;> rfl

theorem any_key_iff (d : CiteDict) (k : String) : d.any (fun p => p.1 == k) = true ↔ k ∈ d.map (·.1) := by
  simp only [List.any_eq_true, beq_iff_eq, List.mem_map]

theorem set_keys_of_mem {d : CiteDict} {k : String} {v : CiteEntry} (h : k ∈ d.map (·.1)) :
    (d.set k v).map (·.1) = d.map (·.1) := by
  unfold CiteDict.set
  rw [if_pos ((any_key_iff d k).2 h), List.map_map]
  refine List.map_congr_left fun p _ => ?_
  by_cases hp : p.1 = k
  · simp [hp]
  · simp [hp]

theorem set_of_not_mem {d : CiteDict} {k : String} {v : CiteEntry} (h : k ∉ d.map (·.1)) :
    d.set k v = d ++ [(k, v)] := by
  unfold CiteDict.set
  rw [if_neg]
  intro h'
  exact h ((any_key_iff d k).1 h')

theorem mem_set_keys (d : CiteDict) (k : String) (v : CiteEntry) (k' : String) :
    k' ∈ (d.set k v).map (·.1) ↔ k' ∈ d.map (·.1) ∨ k' = k := by
  by_cases h : k ∈ d.map (·.1)
  · rw [set_keys_of_mem h]
    constructor
    · exact Or.inl
    · rintro (h' | rfl)
      · exact h'
      · exact h
  · rw [set_of_not_mem h]
    simp

/-- The invariant without the non-emptiness, for the dict being filled. -/
def PreGood (bibtex : String → String) (d : CiteDict) : Prop := d = [] ∨ GoodDict bibtex d

theorem set_good {bibtex : String → String} {d : CiteDict} {k : String} (hd : PreGood bibtex d) (hk : k ∈ componentKeys) :
    GoodDict bibtex (d.set k ⟨citesOf k, bibtex k⟩) := by
  have hnd : (d.map (·.1)).Nodup := by
    rcases hd with rfl | h
    · simp
    · exact h.nodup
  have hen : ∀ p ∈ d, p.1 ∈ componentKeys ∧ p.2 = ⟨citesOf p.1, bibtex p.1⟩ := by
    rcases hd with rfl | h
    · simp
    · exact h.entries
  by_cases h : k ∈ d.map (·.1)
  · refine ⟨by rw [set_keys_of_mem h]; exact hnd, ?_, ?_⟩
    · intro p hp
      unfold CiteDict.set at hp
      rw [if_pos ((any_key_iff d k).2 h)] at hp
      obtain ⟨q, hq, rfl⟩ := List.mem_map.1 hp
      by_cases hqk : q.1 = k
      · simp only [hqk, beq_self_eq_true, if_true]
        exact ⟨hk, trivial⟩
      · have : (q.1 == k) = false := by simpa using hqk
        simp only [this]
        exact hen q hq
    · intro h0
      have := set_keys_of_mem (v := ⟨citesOf k, bibtex k⟩) h
      rw [h0] at this
      rw [← this] at h
      simp at h
  · rw [set_of_not_mem h]
    refine ⟨?_, ?_, by simp⟩
    · rw [List.map_append, List.nodup_append]
      refine ⟨hnd, by simp, ?_⟩
      intro a ha b hb hab
      have hb' : b = k := by simpa using hb
      exact h (hb' ▸ hab ▸ ha)
    · intro p hp
      rcases List.mem_append.1 hp with hp | hp
      · exact hen p hp
      · have : p = (k, ⟨citesOf k, bibtex k⟩) := by simpa using hp
        subst this
        exact ⟨hk, rfl⟩

/-- All dicts of a world satisfy the invariant. -/
def GoodWorld (bibtex : String → String) (w : CiteWorld) : Prop :=
  ∀ m d, w.dict m = some d → GoodDict bibtex d

theorem goodWorld_init (bibtex : String → String) : GoodWorld bibtex .init := by
  intro m d h
  simp [CiteWorld.init] at h

theorem preGood_getD {bibtex : String → String} {w : CiteWorld} (hw : GoodWorld bibtex w) (m : ModelId) :
    PreGood bibtex ((w.dict m).getD []) := by
  cases h : w.dict m with
  | none => exact Or.inl rfl
  | some d => exact Or.inr (hw m d h)

/-- One call with a single known key for model `m`. -/
theorem add_one {bibtex : String → String} {w : CiteWorld} {k : String} {o : Option ModelId} {m : ModelId}
    (hk : k ∈ componentKeys) (hm : modelcontext w o = .ok m) :
    addCitationsToModel bibtex [k] o w =
      (w.write m (((w.dict m).getD []).set k ⟨citesOf k, bibtex k⟩), .ok ()) := by
  unfold addCitationsToModel
  rw [hm]
  simp only [addLoop, lookup_componentKey bibtex hk]

theorem add_outside {bibtex : String → String} {w : CiteWorld} (hs : w.stack = []) (ks : List String) :
    addCitationsToModel bibtex ks none w = (w, .ok ()) := by
  unfold addCitationsToModel modelcontext
  rw [hs]

theorem modelcontext_write (w : CiteWorld) (m : ModelId) (d : CiteDict) (o : Option ModelId) :
    modelcontext (w.write m d) o = modelcontext w o := by
  cases o <;> rfl

theorem write_good {bibtex : String → String} {w : CiteWorld} (hw : GoodWorld bibtex w) {m : ModelId} {d : CiteDict}
    (hd : GoodDict bibtex d) : GoodWorld bibtex (w.write m d) := by
  intro m' d' h
  unfold CiteWorld.write at h
  by_cases hm : m' = m
  · simp only [hm, if_true] at h
    cases h
    exact hd
  · simp only [hm, if_false] at h
    exact hw m' d' h

/-- The keys of one model after writing the entry of another key. -/
theorem keys_write (w : CiteWorld) (m : ModelId) (k : String) (v : CiteEntry) (m' : ModelId) (k' : String) :
    k' ∈ dictKeys ((w.write m (((w.dict m).getD []).set k v)).dict m') ↔
      k' ∈ dictKeys (w.dict m') ∨ (m' = m ∧ k' = k) := by
  unfold CiteWorld.write dictKeys
  by_cases hm : m' = m
  · subst hm
    simp only [if_true, Option.getD_some, mem_set_keys, true_and]
  · simp only [hm, if_false, false_and, or_false]

/-- Effect of a construction for which a model is found. -/
theorem runCalls_spec {bibtex : String → String} {w : CiteWorld} (hw : GoodWorld bibtex w) (c : Component) {o : Option ModelId}
    {m : ModelId} (hm : modelcontext w o = .ok m) :
    (runCalls bibtex o c.calls w).2 = .ok () ∧ (runCalls bibtex o c.calls w).1.stack = w.stack ∧
    GoodWorld bibtex (runCalls bibtex o c.calls w).1 ∧
    ∀ m' k, k ∈ dictKeys ((runCalls bibtex o c.calls w).1.dict m') ↔
      k ∈ dictKeys (w.dict m') ∨ (m' = m ∧ c.restsOn = some k) := by
  have one : ∀ k0, k0 ∈ componentKeys → c.calls = [[k0]] → c.restsOn = some k0 →
      (runCalls bibtex o c.calls w).2 = .ok () ∧ (runCalls bibtex o c.calls w).1.stack = w.stack ∧
      GoodWorld bibtex (runCalls bibtex o c.calls w).1 ∧
      ∀ m' k, k ∈ dictKeys ((runCalls bibtex o c.calls w).1.dict m') ↔
        k ∈ dictKeys (w.dict m') ∨ (m' = m ∧ c.restsOn = some k) := by
    intro k0 hk0 hc hr
    rw [hc, hr]
    simp only [runCalls, add_one hk0 hm]
    refine ⟨trivial, rfl, write_good hw (set_good (preGood_getD hw m) hk0), ?_⟩
    intro m' k
    rw [keys_write]
    simp only [Option.some.injEq, eq_comm]
  have none' : c.calls = [] → c.restsOn = none →
      (runCalls bibtex o c.calls w).2 = .ok () ∧ (runCalls bibtex o c.calls w).1.stack = w.stack ∧
      GoodWorld bibtex (runCalls bibtex o c.calls w).1 ∧
      ∀ m' k, k ∈ dictKeys ((runCalls bibtex o c.calls w).1.dict m') ↔
        k ∈ dictKeys (w.dict m') ∨ (m' = m ∧ c.restsOn = some k) := by
    intro hc hr
    rw [hc, hr]
    simp only [runCalls]
    exact ⟨trivial, trivial, hw, fun m' k => by simp⟩
  cases c with
  | secondaryEclipseLightCurve =>
    have hk : "starry" ∈ componentKeys := by decide
    have h1 := add_one (bibtex := bibtex) hk hm
    have hm2 : modelcontext (w.write m (((w.dict m).getD []).set "starry" ⟨citesOf "starry", bibtex "starry"⟩)) o = .ok m := by
      rw [modelcontext_write, hm]
    have h2 := add_one (bibtex := bibtex) hk hm2
    have g1 := write_good hw (m := m) (set_good (preGood_getD hw m) hk)
    simp only [Component.calls, runCalls, h1, h2]
    refine ⟨trivial, rfl, write_good g1 (set_good (preGood_getD g1 m) hk), ?_⟩
    intro m' k
    rw [keys_write, keys_write]
    simp only [Component.restsOn, Option.some.injEq, eq_comm (a := k)]
    tauto
  | keplerianOrbit => exact one "astropy" (by decide) rfl rfl
  | ttvOrbit => exact one "astropy" (by decide) rfl rfl
  | limbDarkLightCurve => exact one "starry" (by decide) rfl rfl
  | quadLimbDark => exact one "kipping13" (by decide) rfl rfl
  | kipping13 => exact one "kipping13b" (by decide) rfl rfl
  | vaneylen19 => exact one "vaneylen19" (by decide) rfl rfl
  | simpleTransitOrbit => exact none' rfl rfl
  | interpolatedLightCurve => exact none' rfl rfl
  | angle => exact none' rfl rfl
  | unitDisk => exact none' rfl rfl
  | impactParameter => exact none' rfl rfl

/-- Without a model nothing is recorded. -/
theorem runCalls_outside {bibtex : String → String} {w : CiteWorld} (hs : w.stack = []) (l : List (List String)) :
    runCalls bibtex none l w = (w, .ok ()) := by
  induction l with
  | nil => rfl
  | cons ks l ih => simp only [runCalls, add_outside hs ks, ih]

theorem modelcontext_none_cons {w : CiteWorld} {m : ModelId} {s : List ModelId} (h : w.stack = m :: s) :
    modelcontext w none = .ok m := by
  unfold modelcontext; simp only [h]

theorem modelcontext_none_nil {w : CiteWorld} (h : w.stack = []) :
    modelcontext w none = .error (.typeError "no model on the context stack") := by
  unfold modelcontext; simp only [h]

theorem step_construct_ok {bibtex : String → String} {w : CiteWorld} (c : Component) {o : Option ModelId} {m : ModelId}
    (hm : modelcontext w o = .ok m) : citeStep bibtex w (.construct c o) = runCalls bibtex o c.calls w := by
  simp only [citeStep, hm]
  cases c.needsModel <;> rfl

theorem step_construct_outside {bibtex : String → String} {w : CiteWorld} (c : Component) (hs : w.stack = []) :
    citeStep bibtex w (.construct c none) =
      (w, if c.needsModel then .error (.typeError "no model on the context stack") else .ok ()) := by
  simp only [citeStep, modelcontext_none_nil hs, runCalls_outside hs]
  cases c.needsModel <;> rfl

/-- The record of a whole program. -/
theorem run_spec {bibtex : String → String} (h : List CiteOp) : ∀ (w : CiteWorld), GoodWorld bibtex w →
    GoodWorld bibtex (citeRun bibtex h w) ∧
    ∀ m k, k ∈ dictKeys ((citeRun bibtex h w).dict m) ↔
      k ∈ dictKeys (w.dict m) ∨ ∃ c, Uses h w.stack m c ∧ c.restsOn = some k := by
  induction h with
  | nil =>
    intro w hw
    refine ⟨hw, fun m k => ?_⟩
    constructor
    · exact Or.inl
    · rintro (h | ⟨c, hc, _⟩)
      · exact h
      · cases hc
  | cons op h ih =>
    intro w hw
    cases op with
    | enter m0 =>
      obtain ⟨h1, h2⟩ := ih { w with stack := m0 :: w.stack } hw
      refine ⟨h1, fun m k => (h2 m k).trans ?_⟩
      refine or_congr_right (exists_congr fun c => and_congr_left fun _ => ?_)
      constructor
      · exact Uses.afterEnter m0
      · intro hu
        cases hu with
        | afterEnter _ hu => exact hu
    | leave =>
      obtain ⟨h1, h2⟩ := ih { w with stack := w.stack.tail } hw
      refine ⟨h1, fun m k => (h2 m k).trans ?_⟩
      refine or_congr_right (exists_congr fun c => and_congr_left fun _ => ?_)
      constructor
      · exact Uses.afterLeave
      · intro hu
        cases hu with
        | afterLeave hu => exact hu
    | construct c0 o =>
      have key : ∀ m0, modelcontext w o = .ok m0 →
          (∀ m c, Uses (.construct c0 o :: h) w.stack m c ↔ Uses h w.stack m c ∨ (m = m0 ∧ c = c0)) →
          GoodWorld bibtex (citeRun bibtex (.construct c0 o :: h) w) ∧
          ∀ m k, k ∈ dictKeys ((citeRun bibtex (.construct c0 o :: h) w).dict m) ↔
            k ∈ dictKeys (w.dict m) ∨ ∃ c, Uses (.construct c0 o :: h) w.stack m c ∧ c.restsOn = some k := by
        intro m0 hm hU
        obtain ⟨-, r2, r3, r4⟩ := runCalls_spec hw c0 hm
        obtain ⟨h1, h2⟩ := ih _ r3
        rw [r2] at h2
        have hrun : citeRun bibtex (.construct c0 o :: h) w = citeRun bibtex h (runCalls bibtex o c0.calls w).1 := by
          simp only [citeRun, List.foldl_cons, step_construct_ok c0 hm]
        rw [hrun]
        refine ⟨h1, fun m k => (h2 m k).trans ?_⟩
        rw [r4]
        constructor
        · rintro ((h | ⟨h, h'⟩) | ⟨c, hc, h'⟩)
          · exact Or.inl h
          · exact Or.inr ⟨c0, (hU m c0).2 (Or.inr ⟨h, rfl⟩), h'⟩
          · exact Or.inr ⟨c, (hU m c).2 (Or.inl hc), h'⟩
        · rintro (h | ⟨c, hc, h'⟩)
          · exact Or.inl (Or.inl h)
          · rcases (hU m c).1 hc with h | ⟨h, rfl⟩
            · exact Or.inr ⟨c, h, h'⟩
            · exact Or.inl (Or.inr ⟨h, h'⟩)
      cases o with
      | some m0 =>
        refine key m0 rfl fun m c => ?_
        constructor
        · intro hu
          cases hu with
          | explicit => exact Or.inr ⟨rfl, rfl⟩
          | later _ _ hu => exact Or.inl hu
        · rintro (hu | ⟨rfl, rfl⟩)
          · exact Uses.later _ _ hu
          · exact Uses.explicit _ _ _ _
      | none =>
        cases hs : w.stack with
        | cons m0 s =>
          rw [hs] at key
          refine key m0 (modelcontext_none_cons hs) fun m c => ?_
          constructor
          · intro hu
            cases hu with
            | context => exact Or.inr ⟨rfl, rfl⟩
            | later _ _ hu => exact Or.inl hu
          · rintro (hu | ⟨rfl, rfl⟩)
            · exact Uses.later _ _ hu
            · exact Uses.context _ _ _ _
        | nil =>
          obtain ⟨h1, h2⟩ := ih w hw
          have hrun : citeRun bibtex (.construct c0 none :: h) w = citeRun bibtex h w := by
            simp only [citeRun, List.foldl_cons, step_construct_outside c0 hs]
          rw [hrun]
          rw [hs] at h2
          refine ⟨h1, fun m k => (h2 m k).trans ?_⟩
          refine or_congr_right (exists_congr fun c => and_congr_left fun _ => ?_)
          constructor
          · exact Uses.later _ _
          · intro hu
            cases hu with
            | later _ _ hu => exact hu

/-- The program started from scratch. -/
theorem run_init {bibtex : String → String} (h : List CiteOp) :
    GoodWorld bibtex (citeRun bibtex h .init) ∧
    ∀ m k, k ∈ dictKeys ((citeRun bibtex h .init).dict m) ↔ Cited h m k := by
  obtain ⟨h1, h2⟩ := run_spec h .init (goodWorld_init bibtex)
  refine ⟨h1, fun m k => (h2 m k).trans ?_⟩
  constructor
  · rintro (h | h)
    · simp [CiteWorld.init, dictKeys] at h
    · exact h
  · exact Or.inr

theorem good_cites {bibtex : String → String} {d : CiteDict} (hd : GoodDict bibtex d) :
    d.map (fun p => p.2.cites) = (d.map (·.1)).map citesOf := by
  rw [List.map_map]
  exact List.map_congr_left fun p hp => by rw [(hd.entries p hp).2]; rfl

theorem good_bib {bibtex : String → String} {d : CiteDict} (hd : GoodDict bibtex d) :
    d.map (fun p => p.2.bib) = (d.map (·.1)).map bibtex := by
  rw [List.map_map]
  exact List.map_congr_left fun p hp => by rw [(hd.entries p hp).2]; rfl

/-- The output of `get_citations_for_model` for a good dict. -/
theorem get_of_good {bibtex : String → String} {wrap : String → ℕ → List String} {be : Backend} {width : ℕ} {w : CiteWorld}
    {o : Option ModelId} {m : ModelId} {d : CiteDict} (hm : modelcontext w o = .ok m) (hwd : w.dict m = some d)
    (hd : GoodDict bibtex d) :
    getCitationsForModel bibtex wrap be o width w =
      .ok ("\n".intercalate (wrap (acknowledgement (sortedStrings (fixedCites be ++ ((d.map (·.1)).map citesOf).flatten))) width),
           "\n".intercalate (fixedBib bibtex be ++ (d.map (·.1)).map bibtex)) := by
  unfold getCitationsForModel
  rw [hm]
  show (match w.dict m with | none => _ | some d => _) = _
  rw [hwd, ← good_cites hd, ← good_bib hd]
  cases be <;> rfl

theorem get_of_none {bibtex : String → String} {wrap : String → ℕ → List String} {be : Backend} {width : ℕ} {w : CiteWorld}
    {o : Option ModelId} {m : ModelId} (hm : modelcontext w o = .ok m) (hwd : w.dict m = none) :
    getCitationsForModel bibtex wrap be o width w = .ok ("", "") := by
  unfold getCitationsForModel
  rw [hm]
  show (match w.dict m with | none => _ | some d => _) = _
  rw [hwd]

/-- The citation lists of the keys components use do not overlap, nor with the fixed ones. -/
theorem cites_nodup (be : Backend) {ks : List String} (hn : ks.Nodup) (hk : ∀ k ∈ ks, k ∈ componentKeys) :
    (fixedCites be ++ (ks.map citesOf).flatten).Nodup := by
  have hd : ∀ a ∈ componentKeys, ∀ b ∈ componentKeys, a ≠ b → ∀ x ∈ citesOf a, x ∉ citesOf b := by
    decide
  have hs : ∀ a ∈ componentKeys, (citesOf a).Nodup := by decide
  have hf : ∀ a ∈ componentKeys, ∀ x ∈ fixedCites be, x ∉ citesOf a := by cases be <;> decide
  have hfn : (fixedCites be).Nodup := by cases be <;> decide
  rw [List.nodup_append']
  refine ⟨hfn, ?_, ?_⟩
  · rw [List.nodup_flatten]
    refine ⟨?_, ?_⟩
    · intro l hl
      obtain ⟨a, ha, rfl⟩ := List.mem_map.1 hl
      exact hs a (hk a ha)
    · rw [List.pairwise_map]
      exact hn.imp_of_mem fun ha hb hab x hx hx' => hd _ (hk _ ha) _ (hk _ hb) hab x hx hx'
  · intro x hx hx'
    obtain ⟨l, hl, hxl⟩ := List.mem_flatten.1 hx'
    obtain ⟨a, ha, rfl⟩ := List.mem_map.1 hl
    exact hf a (hk a ha) x hx hxl

theorem sortedStrings_perm (l : List String) : (sortedStrings l).Perm l := List.mergeSort_perm l _

theorem sortedStrings_pairwise (l : List String) : (sortedStrings l).Pairwise (· ≤ ·) := by
  have h := List.pairwise_mergeSort (le := fun a b : String => decide (a ≤ b))
    (fun a b c hab hbc => by
      simp only [decide_eq_true_eq] at *
      exact le_trans hab hbc)
    (fun a b => by
      simp only [Bool.or_eq_true, decide_eq_true_eq]
      exact le_total a b) l
  exact h.imp fun h => by simpa using h

theorem sortedStrings_of_perm {l l' : List String} (h : l.Perm l') : sortedStrings l = sortedStrings l' :=
  List.Perm.eq_of_pairwise (le := (· ≤ ·)) (fun _ _ _ _ hab hba => le_antisymm hab hba) (sortedStrings_pairwise l)
    (sortedStrings_pairwise l') ((sortedStrings_perm l).trans (h.trans (sortedStrings_perm l').symm))

end Exo
