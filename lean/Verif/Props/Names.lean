import Verif.Spec.Names
import Verif.Props.Distributions
import Verif.Props.Eccentricity

/-!
# C96: several distribution helpers in one model, their names
-/

namespace Exo
open Kwargs

theorem Reg.key_eq_name (r : Reg) : r.key = r.name := by cases r <;> rfl

theorem register_ok {m m' : List Reg} {r : Reg} (h : register m r = .ok m') : m' = m ++ [r] ∧ ∀ s ∈ m, s.key ≠ r.key := by
  unfold register at h
  split at h
  · cases h
  · rename_i hm
    injection h with h
    refine ⟨h.symm, fun s hs e => hm ?_⟩
    rw [List.any_eq_true]
    exact ⟨s, hs, by simp [e]⟩

theorem registerAll_ok {m m' rs : List Reg} (h : registerAll m rs = .ok m') :
    m' = m ++ rs ∧ ((m.map Reg.key).Nodup → (m'.map Reg.key).Nodup) := by
  induction rs generalizing m with
  | nil => unfold registerAll at h; injection h with h; subst h; exact ⟨by simp, id⟩
  | cons r rs ih =>
    unfold registerAll at h
    cases h1 : register m r with
    | error e => rw [h1] at h; cases h
    | ok m1 =>
      rw [h1] at h
      obtain ⟨rfl, hne⟩ := register_ok h1
      obtain ⟨rfl, hnd⟩ := ih h
      refine ⟨by simp, fun hm => hnd ?_⟩
      rw [List.map_append, List.nodup_append]
      refine ⟨hm, by simp, ?_⟩
      intro a ha c hc
      rw [List.mem_map] at ha
      obtain ⟨s, hs, rfl⟩ := ha
      simp only [List.map_cons, List.map_nil, List.mem_cons, List.not_mem_nil, or_false] at hc
      subst hc
      exact hne s hs

theorem registerAll_of_nodup {m rs : List Reg} (h : ((m ++ rs).map Reg.key).Nodup) : registerAll m rs = .ok (m ++ rs) := by
  induction rs generalizing m with
  | nil => simp [registerAll]
  | cons r rs ih =>
    unfold registerAll
    have h1 : register m r = .ok (m ++ [r]) := by
      unfold register
      rw [if_neg]
      intro hany
      rw [List.any_eq_true] at hany
      obtain ⟨s, hs, e⟩ := hany
      rw [beq_iff_eq] at e
      rw [List.map_append, List.nodup_append] at h
      exact h.2.2 _ (List.mem_map_of_mem hs) _ (by simp) e
    rw [h1]
    show registerAll (m ++ [r]) rs = _
    have := ih (m := m ++ [r]) (by simpa using h)
    simpa using this

theorem extendModel_ok {b : Backend} {m m' : List Reg} {hs : List Helper} (h : extendModel b m hs = .ok m') :
    ∃ rss, List.Forall₂ (fun h rs => h.run b = .ok rs) hs rss ∧ m' = m ++ rss.flatten ∧
      ((m.map Reg.key).Nodup → (m'.map Reg.key).Nodup) := by
  induction hs generalizing m with
  | nil => unfold extendModel at h; injection h with h; subst h; exact ⟨[], .nil, by simp, id⟩
  | cons x hs ih =>
    unfold extendModel at h
    cases h1 : x.run b with
    | error e => rw [h1] at h; cases h
    | ok rs =>
      rw [h1] at h
      cases h2 : registerAll m rs with
      | error e => simp only [bind, Except.bind, h2] at h; cases h
      | ok m1 =>
        simp only [bind, Except.bind, h2] at h
        obtain ⟨rfl, hnd1⟩ := registerAll_ok h2
        obtain ⟨rss, hf, rfl, hnd⟩ := ih h
        exact ⟨rs :: rss, .cons h1 hf, by simp, fun hm => hnd (hnd1 hm)⟩

theorem extendModel_of_nodup {b : Backend} {m : List Reg} {hs : List Helper} {rss : List (List Reg)}
    (hf : List.Forall₂ (fun h rs => h.run b = .ok rs) hs rss) (hnd : ((m ++ rss.flatten).map Reg.key).Nodup) :
    extendModel b m hs = .ok (m ++ rss.flatten) := by
  induction hf generalizing m with
  | nil => simp [extendModel]
  | @cons x rs hs rss h1 hf ih =>
    unfold extendModel
    have h2 : registerAll m rs = .ok (m ++ rs) := by
      refine registerAll_of_nodup ?_
      rw [List.flatten_cons, ← List.append_assoc, List.map_append, List.nodup_append] at hnd
      exact hnd.1
    simp only [bind, Except.bind, h1, h2]
    have := ih (m := m ++ rs) (by simpa using hnd)
    simpa using this

/-- What a registered name stands for. -/
inductive Aux where
  | self | angle1 | angle2 | regularization | disk | jacobian | q1 | q2 | impact
  | alpha | beta | sigmaGauss | sigmaRayleigh | frac | prior
  deriving DecidableEq

/-- The name of a (possibly auxiliary) variable of the result `n`. -/
def auxName (b : Backend) (n : String) : Aux → String
  | .self => n
  | .angle1 => "__" ++ n ++ "_angle1"
  | .angle2 => "__" ++ n ++ "_angle2"
  | .regularization => n ++ "_regularization"
  | .disk => "__" ++ n ++ "_unit_disk"
  | .jacobian => n ++ "_jacobian"
  | .q1 => "__" ++ n ++ "_q1"
  | .q2 => "__" ++ n ++ "_q2"
  | .impact => "__" ++ n ++ "_impact_parameter"
  | .alpha => subName b n "alpha"
  | .beta => subName b n "beta"
  | .sigmaGauss => subName b n "sigma_gauss"
  | .sigmaRayleigh => subName b n "sigma_rayleigh"
  | .frac => subName b n "frac"
  | .prior => subName b n "prior"

/-- The last two characters, backwards. -/
def auxEnd : Aux → List Char
  | .self => []
  | .angle1 => ['1', 'e']
  | .angle2 => ['2', 'e']
  | .regularization => ['n', 'o']
  | .disk => ['k', 's']
  | .jacobian => ['n', 'a']
  | .q1 => ['1', 'q']
  | .q2 => ['2', 'q']
  | .impact => ['r', 'e']
  | .alpha => ['a', 'h']
  | .beta => ['a', 't']
  | .sigmaGauss => ['s', 's']
  | .sigmaRayleigh => ['h', 'g']
  | .frac => ['c', 'a']
  | .prior => ['r', 'o']

theorem auxName_end (b : Backend) (n : String) {k : Aux} (hk : k ≠ .self) : (auxName b n k).toList.reverse.take 2 = auxEnd k := by
  cases k <;> first | exact absurd rfl hk | skip
  all_goals
    cases b <;>
    simp [auxName, auxEnd, subName, String.toList_append]

theorem auxEnd_inj {k k' : Aux} (h : auxEnd k = auxEnd k') : k = k' := by
  revert h; cases k <;> cases k' <;> decide

theorem string_append_left_cancel {s t u : String} (h : s ++ t = s ++ u) : t = u := by
  have := congrArg String.toList h
  rw [String.toList_append, String.toList_append] at this
  exact String.toList_inj.1 (List.append_cancel_left this)

theorem string_append_right_cancel {s t u : String} (h : s ++ t = u ++ t) : s = u := by
  have := congrArg String.toList h
  rw [String.toList_append, String.toList_append] at this
  exact String.toList_inj.1 (List.append_cancel_right this)

theorem auxName_owner (b : Backend) {n n' : String} (k : Aux) (h : auxName b n k = auxName b n' k) : n = n' := by
  cases k <;> cases b <;> simp only [auxName, subName] at h <;>
    first
    | exact h
    | exact string_append_right_cancel h
    | exact string_append_left_cancel (string_append_right_cancel h)
    | exact string_append_right_cancel (string_append_right_cancel h)

theorem auxName_not_ordinary (b : Backend) (n : String) {k : Aux} (hk : k ≠ .self) : ¬OrdinaryName (auxName b n k) := by
  rintro ⟨h1, h2⟩
  cases k <;> first | exact hk rfl | skip
  · exact h1 (n ++ "_angle1") (by simp [auxName, String.append_assoc])
  · exact h1 (n ++ "_angle2") (by simp [auxName, String.append_assoc])
  · exact h2 "_regularization" (by simp [reservedEndings]) n rfl
  · exact h1 (n ++ "_unit_disk") (by simp [auxName, String.append_assoc])
  · exact h2 "_jacobian" (by simp [reservedEndings]) n rfl
  · exact h1 (n ++ "_q1") (by simp [auxName, String.append_assoc])
  · exact h1 (n ++ "_q2") (by simp [auxName, String.append_assoc])
  · exact h1 (n ++ "_impact_parameter") (by simp [auxName, String.append_assoc])
  · cases b
    · exact h2 "_alpha" (by simp [reservedEndings]) n (by simp only [auxName, subName, String.append_assoc]; rfl)
    · exact h2 "::alpha" (by simp [reservedEndings]) n (by simp only [auxName, subName, String.append_assoc]; rfl)
  · cases b
    · exact h2 "_beta" (by simp [reservedEndings]) n (by simp only [auxName, subName, String.append_assoc]; rfl)
    · exact h2 "::beta" (by simp [reservedEndings]) n (by simp only [auxName, subName, String.append_assoc]; rfl)
  · cases b
    · exact h2 "_sigma_gauss" (by simp [reservedEndings]) n (by simp only [auxName, subName, String.append_assoc]; rfl)
    · exact h2 "::sigma_gauss" (by simp [reservedEndings]) n (by simp only [auxName, subName, String.append_assoc]; rfl)
  · cases b
    · exact h2 "_sigma_rayleigh" (by simp [reservedEndings]) n (by simp only [auxName, subName, String.append_assoc]; rfl)
    · exact h2 "::sigma_rayleigh" (by simp [reservedEndings]) n (by simp only [auxName, subName, String.append_assoc]; rfl)
  · cases b
    · exact h2 "_frac" (by simp [reservedEndings]) n (by simp only [auxName, subName, String.append_assoc]; rfl)
    · exact h2 "::frac" (by simp [reservedEndings]) n (by simp only [auxName, subName, String.append_assoc]; rfl)
  · cases b
    · exact h2 "_prior" (by simp [reservedEndings]) n (by simp only [auxName, subName, String.append_assoc]; rfl)
    · exact h2 "::prior" (by simp [reservedEndings]) n (by simp only [auxName, subName, String.append_assoc]; rfl)

theorem auxName_inj (b : Backend) {n n' : String} {k k' : Aux} (hn : OrdinaryName n) (hn' : OrdinaryName n')
    (h : auxName b n k = auxName b n' k') : n = n' ∧ k = k' := by
  by_cases hk : k = .self
  · by_cases hk' : k' = .self
    · subst hk; subst hk'; exact ⟨h, rfl⟩
    · subst hk
      exact absurd (h ▸ hn : OrdinaryName (auxName b n' k')) (auxName_not_ordinary b n' hk')
  · by_cases hk' : k' = .self
    · subst hk'
      exact absurd (h.symm ▸ hn' : OrdinaryName (auxName b n k)) (auxName_not_ordinary b n hk)
    · have e := auxName_end b n hk
      rw [h, auxName_end b n' hk'] at e
      have := auxEnd_inj e
      subst this
      exact ⟨auxName_owner b _ h, rfl⟩

/-- The names a helper registers, in order, by the result they belong to. -/
def Helper.tags : Helper → List (String × Aux)
  | .angle n reg _ => [(n, .angle1), (n, .angle2)] ++ (if reg.isSome then [(n, .regularization)] else []) ++ [(n, .self)]
  | .unitDisk nx ny _ => [(nx, .self), (ny, .disk), (ny, .jacobian), (ny, .self)]
  | .quadLimbDark n _ => [(n, .q1), (n, .q2), (n, .self)]
  | .impactParameter n _ _ => [(n, .impact), (n, .self)]
  | .kipping13 n fixed _ _ _ _ => (if fixed then [] else [(n, .alpha), (n, .beta)]) ++ [(n, .self)]
  | .vaneylen19 n fixed _ _ _ _ =>
    [(n, .self)] ++ (if fixed then [] else [(n, .sigmaGauss), (n, .sigmaRayleigh), (n, .frac)]) ++ [(n, .prior)]

theorem map_ok {α β : Type} {x : Except PyErr α} {f : α → β} {y : β} (h : x.map f = .ok y) : ∃ a, x = .ok a ∧ y = f a := by
  cases x with
  | error e => cases h
  | ok a => injection h with h; exact ⟨a, rfl, h.symm⟩

/-- The names a call registers. -/
theorem Helper.run_keys {b : Backend} {h : Helper} {rs : List Reg} (hr : h.run b = .ok rs) :
    rs.map Reg.key = h.tags.map (fun t => auxName b t.1 t.2) := by
  cases h with
  | angle n reg kw =>
    obtain ⟨⟨rs', v⟩, e, rfl⟩ := map_ok hr
    obtain ⟨iv, -, rfl, -⟩ := angle_ok b n reg e
    cases reg <;> rfl
  | unitDisk nx ny kw =>
    obtain ⟨⟨rs', x, y⟩, e, rfl⟩ := map_ok hr
    obtain ⟨i0, i1, -, -, rfl, -⟩ := unitDisk_ok b nx ny e
    rfl
  | quadLimbDark n kw =>
    obtain ⟨⟨rs', x, y⟩, e, rfl⟩ := map_ok hr
    obtain ⟨i0, i1, -, -, rfl, -⟩ := quadLimbDark_ok b n e
    rfl
  | impactParameter n ror kw =>
    obtain ⟨⟨rs', x⟩, e, rfl⟩ := map_ok hr
    obtain ⟨i0, -, rfl, -⟩ := impactParameter_ok b n ror e
    rfl
  | kipping13 n fixed long lo hi kw =>
    have e := (C52_registration b n fixed long lo hi hr).1
    have hk : rs.map Reg.key = rs.map Reg.name := List.map_congr_left fun r _ => r.key_eq_name
    rw [hk, e]
    cases fixed <;> rfl
  | vaneylen19 n fixed multi lo hi kw =>
    obtain ⟨r, hyps, p, rfl, h1, h2, h3, -⟩ := vaneylen19_factors b n fixed multi lo hi hr
    have hk : (r :: hyps ++ [p]).map Reg.key = (r :: hyps ++ [p]).map Reg.name := List.map_congr_left fun r _ => r.key_eq_name
    rw [hk]
    simp only [List.map_append, List.map_cons, List.map_nil, h1, h2, h3]
    cases fixed <;> rfl

theorem Helper.tags_owner {h : Helper} {t : String × Aux} (ht : t ∈ h.tags) : t.1 ∈ h.publicNames := by
  cases h <;> simp only [Helper.tags, Helper.publicNames] at ht ⊢
  case angle n reg kw => cases reg <;> simp at ht <;> aesop
  case unitDisk nx ny kw => simp at ht; aesop
  case quadLimbDark n kw => simp at ht; aesop
  case impactParameter n ror kw => simp at ht; aesop
  case kipping13 n fixed long lo hi kw => cases fixed <;> simp at ht <;> aesop
  case vaneylen19 n fixed multi lo hi kw => cases fixed <;> simp at ht <;> aesop

theorem Helper.tags_nodup {h : Helper} (hn : h.publicNames.Nodup) : h.tags.Nodup := by
  cases h <;> simp only [Helper.tags, Helper.publicNames] at hn ⊢
  case angle n reg kw => cases reg <;> simp
  case unitDisk nx ny kw => simp at hn ⊢; exact hn
  case quadLimbDark n kw => simp
  case impactParameter n ror kw => simp
  case kipping13 n fixed long lo hi kw => cases fixed <;> simp
  case vaneylen19 n fixed multi lo hi kw => cases fixed <;> simp

theorem Helper.public_sublist (b : Backend) (h : Helper) :
    List.Sublist h.publicNames (h.tags.map (fun t => auxName b t.1 t.2)) := by
  cases h <;> simp only [Helper.tags, Helper.publicNames]
  case angle n reg kw => cases reg <;> simp [auxName]
  case unitDisk nx ny kw =>
    refine List.Sublist.cons₂ _ (List.Sublist.cons _ (List.Sublist.cons _ (List.Sublist.refl _)))
  case quadLimbDark n kw => simp [auxName]
  case impactParameter n ror kw => simp [auxName]
  case kipping13 n fixed long lo hi kw => cases fixed <;> simp [auxName]
  case vaneylen19 n fixed multi lo hi kw => cases fixed <;> simp [auxName]

theorem keys_flatten {b : Backend} {hs : List Helper} {rss : List (List Reg)}
    (hf : List.Forall₂ (fun h rs => h.run b = .ok rs) hs rss) :
    rss.flatten.map Reg.key = (hs.flatMap Helper.tags).map (fun t => auxName b t.1 t.2) := by
  induction hf with
  | nil => rfl
  | cons h1 hf ih => simp only [List.flatten_cons, List.map_append, List.flatMap_cons, Helper.run_keys h1, ih]

/-- **C96** (what holds): helpers called with pairwise different names, none of which looks like the name of an auxiliary variable,
can be used together in one model: every call registers all its variables, no name is taken twice. Missing from the full statement:
names that look like auxiliary ones (`C96_collision_counterexample`). -/
theorem C96_together_partial (b : Backend) (hs : List Helper) (hok : ∀ h ∈ hs, ∃ rs, h.run b = .ok rs)
    (hnd : (hs.flatMap Helper.publicNames).Nodup) (hord : ∀ n ∈ hs.flatMap Helper.publicNames, OrdinaryName n) :
    ∃ rss, List.Forall₂ (fun h rs => h.run b = .ok rs) hs rss ∧ buildModel b hs = .ok rss.flatten ∧
      (rss.flatten.map Reg.name).Nodup := by
  have hf : ∃ rss, List.Forall₂ (fun h rs => h.run b = .ok rs) hs rss := by
    clear hnd hord
    induction hs with
    | nil => exact ⟨[], .nil⟩
    | cons h hs ih =>
      obtain ⟨rs, h1⟩ := hok h (by simp)
      obtain ⟨rss, h2⟩ := ih fun x hx => hok x (by simp [hx])
      exact ⟨rs :: rss, .cons h1 h2⟩
  obtain ⟨rss, hf⟩ := hf
  have htags : (hs.flatMap Helper.tags).Nodup := by
    rw [List.nodup_flatMap] at hnd ⊢
    refine ⟨fun x hx => Helper.tags_nodup (hnd.1 x hx), hnd.2.imp ?_⟩
    intro x y hxy t ht ht'
    exact hxy (Helper.tags_owner ht) (Helper.tags_owner ht')
  have hkeys : (rss.flatten.map Reg.key).Nodup := by
    rw [keys_flatten hf]
    refine List.Nodup.map_on ?_ htags
    intro t ht t' ht' e
    have ho : ∀ t ∈ hs.flatMap Helper.tags, OrdinaryName t.1 := by
      intro t ht
      rw [List.mem_flatMap] at ht
      obtain ⟨h, hh, ht⟩ := ht
      exact hord _ (List.mem_flatMap.2 ⟨h, hh, Helper.tags_owner ht⟩)
    obtain ⟨e1, e2⟩ := auxName_inj b (ho t ht) (ho t' ht') e
    exact Prod.ext e1 e2
  refine ⟨rss, hf, ?_, ?_⟩
  · have := extendModel_of_nodup (m := []) hf (by simpa using hkeys)
    unfold buildModel
    simpa using this
  · rwa [← List.map_congr_left fun r _ => r.key_eq_name]

/-- **C96** (a script that runs): whenever the calls go through, everything each call registers is there, in order, no two
registrations have the same name, and each name given by the caller is registered. In particular no name was given twice. -/
theorem C96_distinct (b : Backend) (hs : List Helper) {rs : List Reg} (h : buildModel b hs = .ok rs) :
    ∃ rss, List.Forall₂ (fun h rs => h.run b = .ok rs) hs rss ∧ rs = rss.flatten ∧ (rs.map Reg.name).Nodup ∧
      (hs.flatMap Helper.publicNames).Nodup ∧ ∀ n ∈ hs.flatMap Helper.publicNames, n ∈ rs.map Reg.name := by
  obtain ⟨rss, hf, e, hnd⟩ := extendModel_ok h
  have hnd := hnd (by simp)
  rw [List.nil_append] at e
  subst e
  have hsub : ∀ hs : List Helper, List.Sublist (hs.flatMap Helper.publicNames)
      ((hs.flatMap Helper.tags).map (fun t => auxName b t.1 t.2)) := by
    intro hs
    induction hs with
    | nil => simp
    | cons x hs ih =>
      simp only [List.flatMap_cons, List.map_append]
      exact (x.public_sublist b).append ih
  have hs' := hsub hs
  rw [← keys_flatten hf] at hs'
  refine ⟨rss, hf, rfl, ?_, hnd.sublist hs', fun n hn => ?_⟩
  · rwa [← List.map_congr_left fun r _ => r.key_eq_name]
  · rw [← List.map_congr_left fun r _ => r.key_eq_name]
    exact hs'.subset hn

/-- If every call by itself is in order, the only thing that can go wrong is a name that is taken. -/
theorem buildModel_total (b : Backend) (hs : List Helper) (hok : ∀ h ∈ hs, ∃ rs, h.run b = .ok rs) :
    (∃ m', buildModel b hs = .ok m') ∨ buildModel b hs = .error (.valueError "Variable name already exists") := by
  have reg : ∀ (rs m : List Reg), (∃ m', registerAll m rs = .ok m') ∨
      registerAll m rs = .error (.valueError "Variable name already exists") := by
    intro rs
    induction rs with
    | nil => intro m; exact .inl ⟨m, rfl⟩
    | cons r rs ih =>
      intro m
      unfold registerAll
      unfold register
      split
      · exact .inr rfl
      · exact ih _
  have key : ∀ (hs : List Helper) (m : List Reg), (∀ h ∈ hs, ∃ rs, h.run b = .ok rs) →
      (∃ m', extendModel b m hs = .ok m') ∨ extendModel b m hs = .error (.valueError "Variable name already exists") := by
    intro hs
    induction hs with
    | nil => intro m _; exact .inl ⟨m, rfl⟩
    | cons x hs ih =>
      intro m hok
      obtain ⟨rs, h1⟩ := hok x (by simp)
      unfold extendModel
      simp only [bind, Except.bind, h1]
      rcases reg rs m with ⟨m', e⟩ | e
      · simp only [e]
        exact ih m' fun y hy => hok y (by simp [hy])
      · simp only [e]
        exact .inr trivial
  exact key hs [] hok

/-- **C96** (a name given twice): the script raises a `ValueError` if every call by itself is in order. -/
theorem C96_twice (b : Backend) (hs : List Helper) (hok : ∀ h ∈ hs, ∃ rs, h.run b = .ok rs)
    (hdup : ¬(hs.flatMap Helper.publicNames).Nodup) :
    buildModel b hs = .error (.valueError "Variable name already exists") := by
  rcases buildModel_total b hs hok with ⟨m', e⟩ | e
  · obtain ⟨-, -, -, -, hnd, -⟩ := C96_distinct b hs e
    exact absurd hnd hdup
  · exact e

theorem buildModel_collision (b : Backend) (hs : List Helper) (hok : ∀ h ∈ hs, ∃ rs, h.run b = .ok rs)
    (hdup : ¬((hs.flatMap Helper.tags).map (fun t => auxName b t.1 t.2)).Nodup) :
    buildModel b hs = .error (.valueError "Variable name already exists") := by
  rcases buildModel_total b hs hok with ⟨m', e⟩ | e
  · obtain ⟨rss, hf, e', hnd⟩ := extendModel_ok e
    have hnd := hnd (by simp)
    rw [List.nil_append] at e'
    subst e'
    rw [keys_flatten hf] at hnd
    exact absurd hnd hdup
  · exact e

theorem angle_runs (b : Backend) (n : String) (reg : Option ℝ) : ∃ rs, (Helper.angle n reg []).run b = .ok rs := by
  simp only [Helper.run]
  rw [angle_eq]
  exact ⟨_, rfl⟩

/-- **C96**: different names are not enough. `angle("a")` and `angle("a_regularization")` cannot be used in one model, on either
back-end: the first one registers its potential under the name of the second. -/
theorem C96_collision_counterexample (b : Backend) :
    (∀ h ∈ [Helper.angle "a" (some 10) [], Helper.angle "a_regularization" (some 10) []], ∃ rs, h.run b = .ok rs) ∧
    ([Helper.angle "a" (some 10) [], Helper.angle "a_regularization" (some 10) []].flatMap Helper.publicNames).Nodup ∧
    buildModel b [.angle "a" (some 10) [], .angle "a_regularization" (some 10) []] =
      .error (.valueError "Variable name already exists") := by
  have hok : ∀ h ∈ [Helper.angle "a" (some 10) [], Helper.angle "a_regularization" (some 10) []], ∃ rs, h.run b = .ok rs := by
    intro h hh
    simp only [List.mem_cons, List.not_mem_nil, or_false] at hh
    rcases hh with rfl | rfl <;> exact angle_runs ..
  refine ⟨hok, by simp [Helper.publicNames], buildModel_collision b _ hok ?_⟩
  simp only [List.flatMap_cons, List.flatMap_nil, Helper.tags, Option.isSome_some, if_true, List.cons_append, List.nil_append,
    List.append_nil, List.map_cons, List.map_nil, auxName]
  simp

/-- **C96** (the back-ends differ): `kipping13("ecc", fixed=False)` and `angle("ecc_alpha")` go together on PyMC, where a nested
model separates its names by `::`, and not on PyMC3, where it uses `_`. -/
theorem C96_backends_differ :
    (∃ rs, buildModel .pymc [.kipping13 "ecc" false none none none [], .angle "ecc_alpha" (some 10) []] = .ok rs) ∧
    buildModel .pymc3 [.kipping13 "ecc" false none none none [], .angle "ecc_alpha" (some 10) []] =
      .error (.valueError "Variable name already exists") := by
  have hok : ∀ b, ∀ h ∈ [Helper.kipping13 "ecc" false none none none [], Helper.angle "ecc_alpha" (some 10) []],
      ∃ rs, h.run b = .ok rs := by
    intro b h hh
    simp only [List.mem_cons, List.not_mem_nil, or_false] at hh
    rcases hh with rfl | rfl
    · exact C52_succeeds b "ecc" false none none none [] rfl rfl (.inr (.inl ⟨rfl, rfl⟩))
    · exact angle_runs ..
  constructor
  · obtain ⟨r1, h1⟩ := hok .pymc (.kipping13 "ecc" false none none none []) (by simp)
    obtain ⟨r2, h2⟩ := hok .pymc (.angle "ecc_alpha" (some 10) []) (by simp)
    have hf : List.Forall₂ (fun h rs => Helper.run .pymc h = .ok rs)
        [Helper.kipping13 "ecc" false none none none [], Helper.angle "ecc_alpha" (some 10) []] [r1, r2] := .cons h1 (.cons h2 .nil)
    refine ⟨_, extendModel_of_nodup (m := []) hf ?_⟩
    rw [List.nil_append, keys_flatten hf]
    simp only [List.flatMap_cons, List.flatMap_nil, Helper.tags, Option.isSome_some, if_true, List.cons_append, List.nil_append,
      List.append_nil, List.map_cons, List.map_nil, auxName, subName]
    simp
  · refine buildModel_collision .pymc3 _ (hok .pymc3) ?_
    simp only [List.flatMap_cons, List.flatMap_nil, Helper.tags, Option.isSome_some, if_true, List.cons_append, List.nil_append,
      List.append_nil, List.map_cons, List.map_nil, auxName, subName]
    simp

/-- Non-vacuity: the priors of a planet with free eccentricity, in one model on either back-end. -/
example (b : Backend) : ∃ rs, buildModel b [.quadLimbDark "u" [], .impactParameter "b" (fun σ => σ "ror") [],
    .unitDisk "secosw" "sesinw" [], .angle "omega" (some 10) [], .kipping13 "ecc" false none none none []] = .ok rs := by
  have key := fun h1 h2 h3 => (C96_together_partial b [.quadLimbDark "u" [], .impactParameter "b" (fun σ => σ "ror") [],
      .unitDisk "secosw" "sesinw" [], .angle "omega" (some 10) [], .kipping13 "ecc" false none none none []] h1 h2 h3).imp
    fun _ h => h.2.1
  refine (key ?_ ?_ ?_).elim fun rss h => ⟨_, h⟩
  · intro h hh
    simp only [List.mem_cons, List.not_mem_nil, or_false] at hh
    rcases hh with rfl | rfl | rfl | rfl | rfl
    · simp only [Helper.run]; rw [quadLimbDark_eq]; exact ⟨_, rfl⟩
    · simp only [Helper.run]; rw [impactParameter_eq]; exact ⟨_, rfl⟩
    · simp only [Helper.run]; rw [unitDisk_eq]; exact ⟨_, rfl⟩
    · exact angle_runs ..
    · exact C52_succeeds b "ecc" false none none none [] rfl rfl (.inr (.inl ⟨rfl, rfl⟩))
  · simp [Helper.publicNames]
  · have ord : ∀ n : String, n.toList.take 2 ≠ ['_', '_'] →
        (∀ e ∈ reservedEndings, ¬(e.toList.reverse.isPrefixOf n.toList.reverse)) → OrdinaryName n := by
      intro n h1 h2
      constructor
      · rintro s rfl
        exact h1 (by simp [String.toList_append])
      · rintro e he s rfl
        exact h2 e he (by simp [String.toList_append])
    intro n hn
    simp only [Helper.publicNames, List.flatMap_cons, List.flatMap_nil, List.cons_append, List.nil_append, List.append_nil,
      List.mem_cons, List.not_mem_nil, or_false] at hn
    rcases hn with rfl | rfl | rfl | rfl | rfl | rfl <;> exact ord _ (by decide) (by decide)

example (b : Backend) : buildModel b [.angle "a" none [], .quadLimbDark "a" []] =
    .error (.valueError "Variable name already exists") := by
  refine C96_twice b _ ?_ (by simp [Helper.publicNames])
  intro h hh
  simp only [List.mem_cons, List.not_mem_nil, or_false] at hh
  rcases hh with rfl | rfl
  · exact angle_runs ..
  · simp only [Helper.run]; rw [quadLimbDark_eq]; exact ⟨_, rfl⟩

end Exo
