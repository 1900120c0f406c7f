import Verif.Model.Compat

/-!
# C66, C67: back-end selection and deprecated aliases
-/

namespace Exo

/-! ## C66 -/

/-- PyMC3 is to be used: it is forced, or there is no `pymc`. -/
def PyEnv.WantsPyMC3 (E : PyEnv) : Prop := E.force = some "1" ∨ E.has "pymc" = false

/-- The packages that make up each back-end. -/
def Backend.packages : Backend → List String
  | .pymc3 => ["pymc3", "theano", "exoplanet_core.pymc3"]
  | .pymc => ["pymc", "pytensor", "exoplanet_core.pymc"]

/-- The dotted name is one of these packages or lies in one. -/
def Backend.Owns (b : Backend) (name : String) : Prop :=
  ∃ p ∈ b.packages, name = p ∨ ∃ rest, name = p ++ "." ++ rest

/-- The name of the package itself. -/
def Backend.package : Backend → String
  | .pymc3 => "pymc3"
  | .pymc => "pymc"

/-- What must be importable besides the package itself; each entry lists alternatives. -/
def Backend.needs : Backend → List (List String)
  | .pymc3 => [["exoplanet_core.pymc3.ops"], ["theano.function"], ["theano.grad"], ["theano.tensor"], ["theano.ifelse.ifelse"],
      ["theano.assert_op.Assert", "theano.tensor.opt.Assert"], ["theano.gradient.verify_grad"],
      ["theano.config.change_flags", "theano.configparser.change_flags"]]
  | .pymc => [["pytensor"], ["pytensor.function"], ["pytensor.grad"], ["pytensor.tensor"], ["exoplanet_core.pymc.ops"],
      ["pytensor.gradient.verify_grad"], ["pytensor.ifelse.ifelse"], ["pytensor.raise_op.Assert"]]

theorem force_iff (E : PyEnv) : E.force.getD "0" = "1" ↔ E.force = some "1" := by
  cases h : E.force with
  | none => simp
  | some s => simp

theorem select_cases (E : PyEnv) :
    (E.WantsPyMC3 → E.has "pymc3" = true → selectBackend E = .ok ("pymc3", .pymc3)) ∧
    (¬ E.WantsPyMC3 → selectBackend E = .ok ("pymc", .pymc)) ∧
    (E.WantsPyMC3 → E.has "pymc3" = false → ∃ t, selectBackend E = .error (.importError t)) := by
  unfold PyEnv.WantsPyMC3
  rw [← force_iff]
  refine ⟨?_, ?_, ?_⟩
  · intro h h3
    unfold selectBackend PyEnv.import
    by_cases hf : E.force.getD "0" = "1"
    · simp [hf, h3]
    · have hp : E.has "pymc" = false := h.resolve_left hf
      simp [hf, hp, h3]
  · intro h
    push Not at h
    obtain ⟨hf, hp⟩ := h
    have hp : E.has "pymc" = true := by simpa using hp
    unfold selectBackend PyEnv.import
    simp [hf, hp]
  · intro h h3
    unfold selectBackend PyEnv.import
    by_cases hf : E.force.getD "0" = "1"
    · exact ⟨"pymc3", by simp [hf, h3]⟩
    · have hp : E.has "pymc" = false := h.resolve_left hf
      exact ⟨_, by simp [hf, hp, h3]; rfl⟩

/-- C66. The selection, in every environment: PyMC3 if it is forced or `pymc` is missing, else PyMC; an `ImportError` if the selected
package is missing. -/
theorem C66_selection (E : PyEnv) :
    (∀ pm b, selectBackend E = .ok (pm, b) → (b = .pymc3 ↔ E.WantsPyMC3) ∧ pm = b.package ∧ E.has pm = true) ∧
    (∀ e, selectBackend E = .error e → E.WantsPyMC3 ∧ E.has "pymc3" = false) ∧
    (E.WantsPyMC3 → E.has "pymc3" = false → ∃ t, selectBackend E = .error (.importError t)) := by
  obtain ⟨h1, h2, h3⟩ := select_cases E
  by_cases hw : E.WantsPyMC3
  · cases h : E.has "pymc3" with
    | true =>
      have e := h1 hw h
      refine ⟨?_, ?_, fun _ h' => by simp at h'⟩
      · intro pm b hb
        rw [e] at hb
        cases hb
        exact ⟨⟨fun _ => hw, fun _ => rfl⟩, rfl, h⟩
      · intro er
        rw [e]
        simp
    | false =>
      obtain ⟨t, ht⟩ := h3 hw h
      refine ⟨?_, ?_, fun _ _ => ⟨t, ht⟩⟩
      · intro pm b hb
        rw [ht] at hb
        cases hb
      · intro er
        exact fun _ => ⟨hw, rfl⟩
  · have e := h2 hw
    have hp : E.has "pymc" = true := by
      unfold PyEnv.WantsPyMC3 at hw
      push Not at hw
      simpa using hw.2
    refine ⟨?_, ?_, fun h' => (hw h').elim⟩
    · intro pm b hb
      rw [e] at hb
      cases hb
      exact ⟨⟨fun h => (by cases h), fun h => (hw h).elim⟩, rfl, hp⟩
    · intro er
      rw [e]
      simp

/-- Forced PyMC3 with both installed; and a value other than `1` does not force. -/
example : PyEnv.WantsPyMC3 ⟨some "1", fun _ => true⟩ ∧ ¬ PyEnv.WantsPyMC3 ⟨some "yes", fun _ => true⟩ := by
  refine ⟨Or.inl rfl, ?_⟩
  unfold PyEnv.WantsPyMC3
  decide

theorem import_ok {E : PyEnv} {n x : String} (h : E.import n = .ok x) : x = n ∧ E.has n = true := by
  unfold PyEnv.import at h
  cases hn : E.has n with
  | true => rw [hn] at h; cases h; exact ⟨rfl, rfl⟩
  | false => rw [hn] at h; cases h

theorem importOr_ok {E : PyEnv} {a b x : String} (h : importOr E a b = .ok x) : (x = a ∧ E.has a = true) ∨ (x = b ∧ E.has b = true) := by
  unfold importOr at h
  cases ha : E.import a with
  | ok y => rw [ha] at h; cases h; exact Or.inl (import_ok ha)
  | error e => rw [ha] at h; exact Or.inr (import_ok h)

theorem import_of {E : PyEnv} {n : String} (h : E.has n = true) : E.import n = .ok n := by
  unfold PyEnv.import; rw [if_pos h]

theorem import_not {E : PyEnv} {n : String} (h : E.has n = false) : E.import n = .error (.importError n) := by
  unfold PyEnv.import; rw [h]; rfl

theorem owns_inside {b : Backend} {p rest : String} (h : p ∈ b.packages) : b.Owns (p ++ "." ++ rest) := ⟨p, h, Or.inr ⟨rest, rfl⟩⟩

/-- C66. When the module loads, every name it exports belongs to the selected back-end: nothing is mixed. -/
theorem C66_names_match_backend (E : PyEnv) (N : CompatNames) (h : compatModule E = .ok N) :
    (N.backend = .pymc3 ↔ E.WantsPyMC3) ∧ N.pm = N.backend.package ∧
    ∀ n ∈ [N.pm, N.ops, N.function, N.grad, N.tensor, N.ifelse, N.assertOp, N.verifyGrad, N.changeFlags], N.backend.Owns n := by
  unfold compatModule at h
  cases hs : selectBackend E with
  | error e => rw [hs] at h; cases h
  | ok r =>
    obtain ⟨pm, b⟩ := r
    obtain ⟨hb, hpm, -⟩ := (C66_selection E).1 pm b hs
    rw [hs] at h
    simp only [bind, Except.bind] at h
    cases b with
    | pymc3 =>
      simp only at h
      split at h
      · cases h
      split at h
      · cases h
      split at h
      · cases h
      split at h
      · cases h
      split at h
      · cases h
      split at h
      · cases h
      split at h
      · cases h
      split at h
      · cases h
      rename_i _ ops h1 _ fn h2 _ gr h3 _ te h4 _ ie h5 _ as h6 _ vg h7 _ cf h8
      cases h
      refine ⟨hb, hpm, ?_⟩
      have e1 := (import_ok h1).1
      have e2 := (import_ok h2).1
      have e3 := (import_ok h3).1
      have e4 := (import_ok h4).1
      have e5 := (import_ok h5).1
      have e7 := (import_ok h7).1
      have t : "theano" ∈ Backend.pymc3.packages := by decide
      have c : "exoplanet_core.pymc3" ∈ Backend.pymc3.packages := by decide
      intro n hn
      simp only [List.mem_cons, List.not_mem_nil, or_false] at hn
      rcases hn with rfl | rfl | rfl | rfl | rfl | rfl | rfl | rfl | rfl
      · exact ⟨"pymc3", (by decide : "pymc3" ∈ Backend.pymc3.packages), Or.inl hpm⟩
      · exact e1 ▸ ⟨_, c, Or.inr ⟨"ops", by decide⟩⟩
      · exact e2 ▸ ⟨_, t, Or.inr ⟨"function", by decide⟩⟩
      · exact e3 ▸ ⟨_, t, Or.inr ⟨"grad", by decide⟩⟩
      · exact e4 ▸ ⟨_, t, Or.inr ⟨"tensor", by decide⟩⟩
      · exact e5 ▸ ⟨_, t, Or.inr ⟨"ifelse.ifelse", by decide⟩⟩
      · rcases importOr_ok h6 with ⟨e6, -⟩ | ⟨e6, -⟩
        · exact e6 ▸ ⟨_, t, Or.inr ⟨"assert_op.Assert", by decide⟩⟩
        · exact e6 ▸ ⟨_, t, Or.inr ⟨"tensor.opt.Assert", by decide⟩⟩
      · exact e7 ▸ ⟨_, t, Or.inr ⟨"gradient.verify_grad", by decide⟩⟩
      · rcases importOr_ok h8 with ⟨e8, -⟩ | ⟨e8, -⟩
        · exact e8 ▸ ⟨_, t, Or.inr ⟨"config.change_flags", by decide⟩⟩
        · exact e8 ▸ ⟨_, t, Or.inr ⟨"configparser.change_flags", by decide⟩⟩
    | pymc =>
      simp only at h
      split at h
      · cases h
      split at h
      · cases h
      split at h
      · cases h
      split at h
      · cases h
      split at h
      · cases h
      split at h
      · cases h
      split at h
      · cases h
      split at h
      · cases h
      rename_i _ pt h0 _ fn h2 _ gr h3 _ te h4 _ ops h1 _ vg h7 _ ie h5 _ as h6
      cases h
      refine ⟨hb, hpm, ?_⟩
      have e1 := (import_ok h1).1
      have e2 := (import_ok h2).1
      have e3 := (import_ok h3).1
      have e4 := (import_ok h4).1
      have e5 := (import_ok h5).1
      have e6 := (import_ok h6).1
      have e7 := (import_ok h7).1
      have t : "pytensor" ∈ Backend.pymc.packages := by decide
      have c : "exoplanet_core.pymc" ∈ Backend.pymc.packages := by decide
      intro n hn
      simp only [List.mem_cons, List.not_mem_nil, or_false] at hn
      rcases hn with rfl | rfl | rfl | rfl | rfl | rfl | rfl | rfl | rfl
      · exact ⟨"pymc", (by decide : "pymc" ∈ Backend.pymc.packages), Or.inl hpm⟩
      · exact e1 ▸ ⟨_, c, Or.inr ⟨"ops", by decide⟩⟩
      · exact e2 ▸ ⟨_, t, Or.inr ⟨"function", by decide⟩⟩
      · exact e3 ▸ ⟨_, t, Or.inr ⟨"grad", by decide⟩⟩
      · exact e4 ▸ ⟨_, t, Or.inr ⟨"tensor", by decide⟩⟩
      · exact e5 ▸ ⟨_, t, Or.inr ⟨"ifelse.ifelse", by decide⟩⟩
      · exact e6 ▸ ⟨_, t, Or.inr ⟨"raise_op.Assert", by decide⟩⟩
      · exact e7 ▸ ⟨_, t, Or.inr ⟨"gradient.verify_grad", by decide⟩⟩
      · exact ⟨_, t, Or.inr ⟨"config.change_flags", by decide⟩⟩

example : ∃ N, compatModule ⟨none, fun _ => true⟩ = .ok N ∧ N.backend = .pymc := ⟨_, rfl, rfl⟩
example : ∃ N, compatModule ⟨none, fun n => n != "pymc"⟩ = .ok N ∧ N.backend = .pymc3 := ⟨_, rfl, rfl⟩

theorem importE {E : PyEnv} {n : String} {e : PyErr} (h : E.import n = .error e) : e = .importError n ∧ E.has n = false := by
  unfold PyEnv.import at h
  cases hn : E.has n with
  | true => rw [hn] at h; cases h
  | false => rw [hn] at h; cases h; exact ⟨rfl, rfl⟩

theorem importOrE {E : PyEnv} {a b : String} {e : PyErr} (h : importOr E a b = .error e) :
    e = .importError b ∧ E.has a = false ∧ E.has b = false := by
  unfold importOr at h
  cases ha : E.import a with
  | ok y => rw [ha] at h; cases h
  | error e' => rw [ha] at h; exact ⟨(importE h).1, (importE ha).2, (importE h).2⟩

/-- C66. The module fails to load only with an `ImportError`, and only if the selected package, or one of the names needed from the
selected back-end (in all its alternatives), cannot be imported; there is no silent fall-back to the other back-end. -/
theorem C66_failure_is_import_error (E : PyEnv) (e : PyErr) (h : compatModule E = .error e) :
    (∃ t, e = .importError t) ∧
    ((E.WantsPyMC3 ∧ E.has "pymc3" = false) ∨
      (E.WantsPyMC3 ∧ ∃ alts ∈ Backend.pymc3.needs, ∀ n ∈ alts, E.has n = false) ∨
      (¬ E.WantsPyMC3 ∧ ∃ alts ∈ Backend.pymc.needs, ∀ n ∈ alts, E.has n = false)) := by
  have one : ∀ {n : String} {e : PyErr} (b : Backend), E.import n = .error e → [n] ∈ b.needs →
      (∃ t, e = .importError t) ∧ ∃ alts ∈ b.needs, ∀ n ∈ alts, E.has n = false := by
    intro n e b h hb
    refine ⟨⟨n, (importE h).1⟩, [n], hb, ?_⟩
    intro m hm
    rw [List.mem_singleton] at hm
    rw [hm]
    exact (importE h).2
  have two : ∀ {a b' : String} {e : PyErr} (b : Backend), importOr E a b' = .error e → [a, b'] ∈ b.needs →
      (∃ t, e = .importError t) ∧ ∃ alts ∈ b.needs, ∀ n ∈ alts, E.has n = false := by
    intro a b' e b h hb
    refine ⟨⟨b', (importOrE h).1⟩, [a, b'], hb, ?_⟩
    intro m hm
    simp only [List.mem_cons, List.not_mem_nil, or_false] at hm
    rcases hm with rfl | rfl
    · exact (importOrE h).2.1
    · exact (importOrE h).2.2
  unfold compatModule at h
  cases hs : selectBackend E with
  | error e' =>
    rw [hs] at h
    cases h
    obtain ⟨hw, h3⟩ := (C66_selection E).2.1 e hs
    refine ⟨?_, Or.inl ⟨hw, h3⟩⟩
    obtain ⟨t, ht⟩ := (C66_selection E).2.2 hw h3
    rw [hs] at ht
    cases ht
    exact ⟨t, rfl⟩
  | ok r =>
    obtain ⟨pm, b⟩ := r
    obtain ⟨hb, -, -⟩ := (C66_selection E).1 pm b hs
    rw [hs] at h
    simp only [bind, Except.bind] at h
    cases b with
    | pymc3 =>
      have hw := hb.1 rfl
      suffices hh : (∃ t, e = .importError t) ∧ ∃ alts ∈ Backend.pymc3.needs, ∀ n ∈ alts, E.has n = false from
        ⟨hh.1, Or.inr (Or.inl ⟨hw, hh.2⟩)⟩
      simp only at h
      split at h
      · rename_i h'; cases h; exact one _ h' (by decide)
      split at h
      · rename_i h'; cases h; exact one _ h' (by decide)
      split at h
      · rename_i h'; cases h; exact one _ h' (by decide)
      split at h
      · rename_i h'; cases h; exact one _ h' (by decide)
      split at h
      · rename_i h'; cases h; exact one _ h' (by decide)
      split at h
      · rename_i h'; cases h; exact two _ h' (by decide)
      split at h
      · rename_i h'; cases h; exact one _ h' (by decide)
      split at h
      · rename_i h'; cases h; exact two _ h' (by decide)
      cases h
    | pymc =>
      have hw : ¬ E.WantsPyMC3 := fun hw => by cases hb.2 hw
      suffices hh : (∃ t, e = .importError t) ∧ ∃ alts ∈ Backend.pymc.needs, ∀ n ∈ alts, E.has n = false from
        ⟨hh.1, Or.inr (Or.inr ⟨hw, hh.2⟩)⟩
      simp only at h
      split at h
      · rename_i h'; cases h; exact one _ h' (by decide)
      split at h
      · rename_i h'; cases h; exact one _ h' (by decide)
      split at h
      · rename_i h'; cases h; exact one _ h' (by decide)
      split at h
      · rename_i h'; cases h; exact one _ h' (by decide)
      split at h
      · rename_i h'; cases h; exact one _ h' (by decide)
      split at h
      · rename_i h'; cases h; exact one _ h' (by decide)
      split at h
      · rename_i h'; cases h; exact one _ h' (by decide)
      split at h
      · rename_i h'; cases h; exact one _ h' (by decide)
      cases h

/-- PyMC installed without PyTensor: an error, not a fall-back to PyMC3. -/
example : compatModule ⟨none, fun n => n != "pytensor"⟩ = .error (.importError "pytensor") := rfl

/-! ## C67 -/

/-- C67. The deprecated aliases register and return (or raise) what their replacements do, for all arguments, and issue exactly one
warning per call, which names the replacement. -/
theorem C67_aliases (b : Backend) (name : String) (ror : State → ℝ) (kwargs : Kwargs) :
    (ImpactParameter b (name, ror, kwargs)).result = impactParameter b name ror kwargs ∧
    (ImpactParameter b (name, ror, kwargs)).warnings =
      ["'impact_parameter' is deprecated. Use 'exoplanet.distributions.impact_parameter' instead."] ∧
    (QuadLimbDark b (name, kwargs)).result = quadLimbDark b name kwargs ∧
    (QuadLimbDark b (name, kwargs)).warnings =
      ["'quad_limb_dark' is deprecated. Use 'exoplanet.distributions.quad_limb_dark' instead."] :=
  ⟨rfl, by simp only [ImpactParameter, deprecated, quiet, List.cons.injEq, and_true]; decide, rfl,
   by simp only [QuadLimbDark, deprecated, quiet, List.cons.injEq, and_true]; decide⟩

/-- C67. Any number of calls gives that number of warnings. -/
theorem C67_one_warning_per_call (b : Backend) (calls : List (String × Kwargs)) :
    ((calls.map (QuadLimbDark b)).flatMap (·.warnings)).length = calls.length := by
  induction calls with
  | nil => rfl
  | cons c cs ih =>
    simp only [List.map_cons, List.flatMap_cons, List.length_append, ih, List.length_cons]
    have : (QuadLimbDark b c).warnings.length = 1 := rfl
    omega

/-- C67. A vector of two limb-darkening coefficients equals two scalars (with one warning instead of none); anything else than a
vector of length two is rejected. -/
theorem C67_vector_of_coefficients (u : ℝ ⊕ List ℝ) (l : LimbDark) :
    (limbDarkInit u none).result = .ok l ↔
      ∃ a b, u = .inr [a, b] ∧ (limbDarkInit (.inl a) (some b)).result = .ok l := by
  constructor
  · intro h
    rcases u with a | us
    · cases h
    · match us, h with
      | [a, b], h => exact ⟨a, b, rfl, h⟩
      | [], h => cases h
      | [_], h => cases h
      | _ :: _ :: _ :: _, h => cases h
  · rintro ⟨a, b, rfl, h⟩
    exact h

theorem C67_vector_warns_once (u : ℝ ⊕ List ℝ) (a b : ℝ) :
    (limbDarkInit u none).warnings.length = 1 ∧ (limbDarkInit (.inl a) (some b)).warnings = [] := ⟨rfl, rfl⟩

/-- A vector of length two is accepted, one of length three raises. -/
example : (∃ l, (limbDarkInit (.inr [0.3, 0.2]) none).result = .ok l ∧ l.u1 = 0.3 ∧ l.u2 = 0.2) ∧
    (∃ t, (limbDarkInit (.inr [0.3, 0.2, 0.1]) none).result = .error (.assertion t)) := ⟨⟨_, rfl, rfl, rfl⟩, _, rfl⟩

end Exo
