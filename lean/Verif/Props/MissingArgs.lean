import Verif.Spec.MissingArgs
import Verif.Props.Secondary
import Verif.Props.Interpolated

/-!
# C137: missing arguments of `get_light_curve` in the three classes
-/

namespace Exo

theorem mapM_raises {α β : Type} (f : α → Except PyErr β) (e : PyErr) (a : α) (l : List α) (h : f a = .error e) :
    (a :: l).mapM f = .error e := by
  rw [List.mapM_cons, h]; rfl

/-- **C137** (`LimbDarkLightCurve`): the first missing argument is reported. -/
theorem C137_limb_dark (l : LimbDark) (orbit : Option OrbitApi) (r t : Option (Tensor ℝ)) (texp : Option (Tensor ℝ))
    (oversample order : ℤ) (u : Option Bool) (ld : Bool) (a : Required) (h : firstMissing orbit r t = some a) :
    ReportsMissing (liftErr (l.getLightCurve orbit r t texp oversample order u ld)) a := by
  rcases orbit with _ | o
  · simp [firstMissing] at h; subst h; rfl
  rcases r with _ | r
  · simp [firstMissing] at h; subst h; rfl
  rcases t with _ | t
  · simp [firstMissing] at h; subst h; rfl
  simp [firstMissing] at h

/-- **C137** (`SecondaryEclipseLightCurve`): with all arguments the call is the one of C42, so that everything proved there applies. -/
theorem C137_secondary_present (C : Consts) (cp : ContactOp) (l : SecondaryEclipse) (orbits : List Orbit) (r_star : ℝ) (r t : Tensor ℝ)
    (texp : Option (Tensor ℝ)) (oversample order : ℤ) (u : Option Bool) (ld : Bool) :
    l.call C cp (some (orbits, r_star)) (some r) (some t) texp oversample order u ld =
      liftErr (l.getLightCurve C cp orbits r_star r t texp oversample order u ld) := by
  simp only [SecondaryEclipse.call, SecondaryEclipse.getLightCurve, asTensorOpt, bind, Except.bind]
  rcases flipAll C orbits r.toList with e | o2
  · rfl
  simp only [liftErr]
  rcases l.primary.getLightCurve (some (keplerApi C cp orbits r_star)) (some r) (some t) texp oversample order u ld with e | lc1
  · rfl
  simp only
  rcases l.secondary.getLightCurve (some (keplerApi C cp o2 (r.toList.headD 0))) (some (Tensor.scalar r_star)) (some t) texp
    oversample order u ld with e | lc2
  · rfl
  simp only
  rcases (r.map (fun r => l.surface_brightness_ratio * (r / r_star) ^ 2)).zipB (· * ·) lc2 with e | s
  · rfl
  simp only
  rcases lc1.zipB (· + ·) s with e | s
  · rfl
  rfl

/-- **C137** (`SecondaryEclipseLightCurve`, partial): missing times are reported if the orbit can be turned round. -/
theorem C137_secondary_partial (C : Consts) (cp : ContactOp) (l : SecondaryEclipse) (orbits orbits2 : List Orbit) (r_star : ℝ)
    (r : Tensor ℝ) (hflip : flipAll C orbits r.toList = .ok orbits2) (texp : Option (Tensor ℝ)) (oversample order : ℤ)
    (u : Option Bool) (ld : Bool) :
    ReportsMissing (l.call C cp (some (orbits, r_star)) (some r) none texp oversample order u ld) .t := by
  simp only [ReportsMissing, SecondaryEclipse.call, asTensorOpt, bind, Except.bind, hflip, liftErr, LimbDark.getLightCurve, Required.message]

/-- **C137** (`SecondaryEclipseLightCurve`): with an argument missing there is always an exception. -/
theorem C137_secondary_raises (C : Consts) (cp : ContactOp) (l : SecondaryEclipse) (orbit : Option (List Orbit × ℝ))
    (r t : Option (Tensor ℝ)) (texp : Option (Tensor ℝ)) (oversample order : ℤ) (u : Option Bool) (ld : Bool)
    (h : firstMissing orbit r t ≠ none) : Raised (l.call C cp orbit r t texp oversample order u ld) := by
  rcases r with _ | r
  · exact ⟨_, rfl⟩
  rcases orbit with _ | ⟨orbits, r_star⟩
  · exact ⟨_, rfl⟩
  rcases t with _ | t
  · rcases hf : flipAll C orbits r.toList with e | o2
    · exact ⟨.py e, by simp only [SecondaryEclipse.call, asTensorOpt, bind, Except.bind, hf, liftErr]⟩
    · exact ⟨_, C137_secondary_partial C cp l orbits o2 r_star r hf texp oversample order u ld⟩
  · simp [firstMissing] at h

/-- **C137** is false for `SecondaryEclipseLightCurve`: a missing radius fails in the conversion to a tensor, and a missing orbit in the
access to `_flip`, whatever the other arguments are. -/
theorem C137_secondary_counterexample (C : Consts) (cp : ContactOp) (l : SecondaryEclipse) (orbit : Option (List Orbit × ℝ))
    (r : Tensor ℝ) (t : Option (Tensor ℝ)) (texp : Option (Tensor ℝ)) (oversample order : ℤ) (u : Option Bool) (ld : Bool) :
    l.call C cp orbit none t texp oversample order u ld = .error .noneTensor ∧
    l.call C cp none (some r) t texp oversample order u ld = .error (.attributeError "_flip") ∧
    (∀ a, ¬ ReportsMissing (l.call C cp orbit none t texp oversample order u ld) a) ∧
    (∀ a, ¬ ReportsMissing (l.call C cp none (some r) t texp oversample order u ld) a) := by
  refine ⟨rfl, rfl, fun a h => ?_, fun a h => ?_⟩
  · have h' : (Except.error CallErr.noneTensor : Except CallErr (Tensor ℝ)) = .error (.py (.valueError a.message)) := h
    simp at h'
  · have h' : (Except.error (CallErr.attributeError "_flip") : Except CallErr (Tensor ℝ)) = .error (.py (.valueError a.message)) := h
    simp at h'

/-- **C137** (`InterpolatedLightCurve`): with all arguments the call is the one of C43. -/
theorem C137_interpolated_present (l : LimbDark) (num_phase : ℤ) (num_planets : Option ℤ) (o : InterpOrbit) (r : Tensor ℝ)
    (t : List ℝ) (texp : Option (Tensor ℝ)) (oversample order : ℤ) (u : Option Bool) (ld : Bool) :
    interpolatedCall l num_phase num_planets (some o) (some r) (some t) texp oversample order u ld =
      liftErr (interpolatedLightCurve num_phase num_planets o.test_value o.times
        (fun xs => l.getLightCurve (some o.api) (some r) (some (Tensor.ofList xs 0)) texp oversample order u ld) t) := by
  simp only [interpolatedCall, Option.bind_some, bind, Except.bind, asTensorOpt]
  rcases hn : numPlanets num_planets o.test_value with e | np
  · simp only [liftErr, interpolatedLightCurve, hn]
  · simp only [liftErr]
    split_ifs with h
    · obtain ⟨h1, h2⟩ := h
      have h3 : ∃ k, np.toNat = k + 1 := ⟨np.toNat - 1, by omega⟩
      obtain ⟨k, hk⟩ := h3
      simp only [interpolatedLightCurve, hn, if_neg (not_le.2 h1), hk, List.range_succ_eq_map]
      rw [mapM_raises _ .indexError _ _ (by simp [planetColumn, h2])]
    · rfl

/-- **C137** (`InterpolatedLightCurve`, partial): a missing radius is reported for a system with as many planets as the table is
computed for. -/
theorem C137_interpolated_partial (l : LimbDark) (num_phase : ℤ) (num_planets : Option ℤ) (o : InterpOrbit) (t : List ℝ) (ht : t ≠ [])
    (np : ℤ) (hn : numPlanets num_planets o.test_value = .ok np) (ho : o.times ≠ [])
    (h1 : np ≤ 1 → o.times.length = 1) (texp : Option (Tensor ℝ)) (oversample order : ℤ) (u : Option Bool) (ld : Bool) :
    ReportsMissing (interpolatedCall l num_phase num_planets (some o) none (some t) texp oversample order u ld) .r := by
  obtain ⟨x, xs, rfl⟩ := List.exists_cons_of_ne_nil ht
  obtain ⟨⟨t0, p⟩, os, hos⟩ := List.exists_cons_of_ne_nil ho
  have hcol : ∀ n, interpColumn num_phase (fun xs => l.getLightCurve (some o.api) none (some (Tensor.ofList xs 0)) texp oversample order
      u ld) n t0 p (x :: xs) = .error (.valueError "missing required argument 'r'") := fun n => mapM_raises _ _ _ _ rfl
  have key : interpolatedLightCurve num_phase num_planets o.test_value o.times (fun xs => l.getLightCurve (some o.api) none
      (some (Tensor.ofList xs 0)) texp oversample order u ld) (x :: xs) = .error (.valueError "missing required argument 'r'") := by
    unfold interpolatedLightCurve
    rw [hn]
    simp only
    split_ifs with hle
    · have := h1 hle
      rw [hos] at this ⊢
      have : os = [] := by simpa using this
      subst this
      simp only [hcol]
    · obtain ⟨k, hk⟩ : ∃ k, np.toNat = k + 1 := ⟨np.toNat - 1, by omega⟩
      rw [hk, List.range_succ_eq_map, mapM_raises _ (.valueError "missing required argument 'r'") _ _ (by
        simp only [planetColumn, hos, List.getElem?_cons_zero, hcol])]
  simp only [ReportsMissing, interpolatedCall, Option.bind_some, bind, Except.bind, asTensorOpt, hn, liftErr, ho, and_false, if_false, key,
    Required.message]

/-- **C137** is false for `InterpolatedLightCurve`: without the orbit the complaint is that `num_planets` is missing, or, if it is given,
that `None` has no attribute `t0`; without the times the conversion to a tensor fails. -/
theorem C137_interpolated_counterexample (l : LimbDark) (num_phase n : ℤ) (num_planets : Option ℤ) (o : InterpOrbit)
    (ho : o.times ≠ []) (np : ℤ) (hn : numPlanets num_planets o.test_value = .ok np)
    (r : Option (Tensor ℝ)) (t : Option (List ℝ)) (texp : Option (Tensor ℝ)) (oversample order : ℤ) (u : Option Bool) (ld : Bool) :
    interpolatedCall l num_phase none none r t texp oversample order u ld =
      .error (.py (.valueError "Can't compute num_planets, please provide a value")) ∧
    interpolatedCall l num_phase (some n) none r t texp oversample order u ld = .error (.attributeError "t0") ∧
    interpolatedCall l num_phase num_planets (some o) r none texp oversample order u ld = .error .noneTensor := by
  refine ⟨rfl, rfl, ?_⟩
  simp only [interpolatedCall, Option.bind_some, bind, Except.bind, asTensorOpt, hn, liftErr, ho, and_false, if_false]

/-- None of these three is the message naming the missing argument. -/
theorem C137_interpolated_unreported (l : LimbDark) (num_phase n : ℤ) (num_planets : Option ℤ) (o : InterpOrbit)
    (ho : o.times ≠ []) (np : ℤ) (hn : numPlanets num_planets o.test_value = .ok np)
    (r : Option (Tensor ℝ)) (t : Option (List ℝ)) (texp : Option (Tensor ℝ)) (oversample order : ℤ) (u : Option Bool) (ld : Bool) :
    (∀ a, ¬ ReportsMissing (interpolatedCall l num_phase none none r t texp oversample order u ld) a) ∧
    (∀ a, ¬ ReportsMissing (interpolatedCall l num_phase (some n) none r t texp oversample order u ld) a) ∧
    (∀ a, ¬ ReportsMissing (interpolatedCall l num_phase num_planets (some o) r none texp oversample order u ld) a) := by
  obtain ⟨h1, h2, h3⟩ := C137_interpolated_counterexample l num_phase n num_planets o ho np hn r t texp oversample order u ld
  rw [h1, h2, h3]
  refine ⟨fun a h => ?_, fun a h => ?_, fun a h => ?_⟩
  · cases a <;> simp [ReportsMissing, Required.message] at h
  · simp [ReportsMissing] at h
  · simp [ReportsMissing] at h

/-- **C137** (`InterpolatedLightCurve`): with an argument missing there is always an exception (for at least one time). -/
theorem C137_interpolated_raises (l : LimbDark) (num_phase : ℤ) (num_planets : Option ℤ) (orbit : Option InterpOrbit)
    (r : Option (Tensor ℝ)) (t : Option (List ℝ)) (ht : t ≠ some []) (texp : Option (Tensor ℝ)) (oversample order : ℤ)
    (u : Option Bool) (ld : Bool) (h : firstMissing orbit r t ≠ none) :
    Raised (interpolatedCall l num_phase num_planets orbit r t texp oversample order u ld) := by
  rcases orbit with _ | o
  · rcases num_planets with _ | n
    · exact ⟨_, rfl⟩
    · exact ⟨_, rfl⟩
  rcases hn : numPlanets num_planets o.test_value with e | np
  · exact ⟨.py e, by simp only [interpolatedCall, Option.bind_some, bind, Except.bind, hn, liftErr]⟩
  by_cases hi : 1 < np ∧ o.times = []
  · exact ⟨.py .indexError, by simp only [interpolatedCall, Option.bind_some, bind, Except.bind, hn, liftErr, if_pos hi]⟩
  rcases t with _ | t
  · refine ⟨.noneTensor, ?_⟩
    simp only [interpolatedCall, Option.bind_some, bind, Except.bind, hn, liftErr, if_neg hi, asTensorOpt]
  rcases r with _ | r
  · have ht' : t ≠ [] := fun e => ht (by rw [e])
    by_cases h1 : np ≤ 1 ∧ o.times.length ≠ 1
    · refine ⟨.py (.valueError "arange: scalar arguments expected"), ?_⟩
      simp only [interpolatedCall, Option.bind_some, bind, Except.bind, hn, liftErr, if_neg hi, asTensorOpt, interpolatedLightCurve,
        if_pos h1.1]
      rcases hos : o.times with _ | ⟨a, _ | ⟨b, os⟩⟩
      · rfl
      · exact absurd (by rw [hos]; rfl) h1.2
      · rfl
    · have h1' : np ≤ 1 → o.times.length = 1 := fun hle => by by_contra hc; exact h1 ⟨hle, hc⟩
      have ho : o.times ≠ [] := by
        intro e
        rcases le_or_gt np 1 with hle | hlt
        · have := h1' hle; simp [e] at this
        · exact hi ⟨hlt, e⟩
      exact ⟨_, C137_interpolated_partial l num_phase num_planets o t ht' np hn ho h1' texp oversample order u ld⟩
  · simp [firstMissing] at h

/-- Missing times, and a missing radius, that are reported. -/
example (C : Consts) (cp : ContactOp) : ∃ orbits r_star r, ReportsMissing ((SecondaryEclipse.mk (LimbDark.new 0.3 0.2) (LimbDark.new 0.1 0)
    0.5).call C cp (some (orbits, r_star)) (some r) none) .t ∧ orbits.length = 1 ∧ r.shape = [] := by
  obtain ⟨s, o, o', hs, h1, h2, -⟩ := demoBinary_tractable C cp
  refine ⟨[o], 1, Tensor.scalar s, C137_secondary_partial C cp _ [o] [o'] 1 (Tensor.scalar s) ?_ none 7 0 none false, rfl, rfl⟩
  exact flipAll_single C o o' _ (Or.inl rfl) (by
    simpa [Tensor.toList, Tensor.size, Tensor.scalar, Tensor.unravel] using h2)

example (C : Consts) (cp : ContactOp) (o : Orbit) : ReportsMissing (interpolatedCall (LimbDark.new 0.3 0.2) 100 (some 1)
    (some ⟨[(0.5, 3)], none, keplerApi C cp [o] 1⟩) none (some [0.1, 0.2])) .r :=
  C137_interpolated_partial _ _ _ _ _ (by simp) 1 rfl (by simp) (fun _ => rfl) _ _ _ _ _

end Exo
