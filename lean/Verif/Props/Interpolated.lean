import Verif.Lemmas.Interpolated
import Verif.Spec.Interpolated
import Verif.Props.LightCurve

/-!
# C43: interpolated light curves
-/

namespace Exo
open Real

theorem interpolant_folded (g : ℝ → ℝ) (t0 P : ℝ) (N : ℕ) (hN : 0 < N) (hP : 0 < P) :
    FoldedInterpolant (interpolant g t0 P (P / N)) g t0 P N := by
  have hN' : (0 : ℝ) < N := by exact_mod_cast hN
  have hdx : 0 < P / N := by positivity
  have hNdx : N * (P / N) = P := mul_div_cancel₀ _ hN'.ne'
  refine ⟨?_, ?_, ?_, interpolant_continuous g t0 P N hN hP⟩
  · intro j m hm
    have hm' : (m : ℝ) < N := by exact_mod_cast hm
    have e : pymod (t0 + m * (P / N) + j * P - t0) P = m * (P / N) := by
      refine pymod_eq hP (by positivity) ?_ j (by ring)
      calc m * (P / N) < N * (P / N) := mul_lt_mul_of_pos_right hm' hdx
        _ = P := hNdx
    unfold interpolant
    rw [e, mul_div_cancel_right₀ _ hdx.ne', Int.floor_natCast]
    push_cast
    rw [sub_self, cellValue_zero]
    push_cast
    rfl
  · intro t
    obtain ⟨j, hj⟩ := pymod_spec (t - t0) P
    have h0 := pymod_nonneg (x := t - t0) hP
    have h1 := pymod_lt (x := t - t0) hP
    set y := pymod (t - t0) P with hy
    have hi0 : 0 ≤ ⌊y / (P / N)⌋ := Int.floor_nonneg.2 (by positivity)
    have hi1 : ⌊y / (P / N)⌋ < (N : ℤ) := by
      rw [Int.floor_lt]; push_cast; rw [div_lt_iff₀ hdx, hNdx]; exact h1
    obtain ⟨m, hm⟩ : ∃ m : ℕ, ⌊y / (P / N)⌋ = m := ⟨⌊y / (P / N)⌋.toNat, by omega⟩
    have hf := Int.floor_le (y / (P / N))
    have hl := Int.lt_floor_add_one (y / (P / N))
    rw [hm] at hf hl hi1
    push_cast at hf hl
    rw [le_div_iff₀ hdx] at hf
    rw [div_lt_iff₀ hdx] at hl
    refine ⟨j, m, by omega, by linarith, by linarith, fun c0 c1 c2 c3 hc => ?_⟩
    obtain ⟨e0, e1, e2, e3⟩ := hc
    unfold interpolant
    rw [← hy, hm]
    unfold cellValue
    have ex : t - j * P = t0 + y := by linarith
    rw [ex]
    push_cast
    have n0 : t0 + ((m : ℝ) - 1) * (P / N) = t0 + m * (P / N) - P / N := by ring
    have n2 : t0 + ((m : ℝ) + 1) * (P / N) = t0 + m * (P / N) + P / N := by ring
    have n3 : t0 + ((m : ℝ) + 2) * (P / N) = t0 + m * (P / N) + 2 * (P / N) := by ring
    rw [n0, n2, n3, ← e0, ← e1, ← e2, ← e3]
    set s := y / (P / N) - m with hs
    have ey : t0 + y = t0 + m * (P / N) + s * (P / N) := by
      rw [hs, sub_mul, div_mul_cancel₀ _ hdx.ne']; ring
    rw [ey]
    unfold cubic
    ring
  · intro t j
    unfold interpolant
    rw [show t + j * P - t0 = (t - t0) + j * P by ring, pymod_add_int hP]

theorem interpColumn_eq {func : List ℝ → Except PyErr (Tensor ℝ)} {k : ℕ} {f : ℕ → ℝ → ℝ} (hf : Pointwise func k f) {n : ℕ}
    (hn : n < k) (num_phase : ℕ) {t0 P : ℝ} (hP : 0 < P) (ts : List ℝ) :
    interpColumn num_phase func n t0 P ts =
      .ok (ts.map (interpolant (f n) t0 P (P / ((num_phase + 1 : ℕ) : ℝ)))) := by
  unfold interpColumn
  refine mapM_ok _ _ _ fun t _ => ?_
  have e : (t0 + P - t0) / (((num_phase : ℤ) : ℝ) + 1) = P / ((num_phase + 1 : ℕ) : ℝ) := by
    rw [add_sub_cancel_left]; push_cast; rfl
  rw [e]
  have hN : (0 : ℝ) < ((num_phase + 1 : ℕ) : ℝ) := by positivity
  have hNdx : ((num_phase + 1 : ℕ) : ℝ) * (P / ((num_phase + 1 : ℕ) : ℝ)) = P := mul_div_cancel₀ _ hN.ne'
  exact interpAt_eq hf hn (by positivity) (num_phase + 1) (by rw [hNdx]) (pymod_nonneg hP) (by rw [hNdx]; exact pymod_lt hP)

/-! ## C43 -/

/-- **C43** for a base light curve `f` that is evaluated point by point (`C43_base` for `LimbDarkLightCurve`): for any times,
positive periods, `num_phase ≥ 0` and any number of planets, known from `num_planets` or from the test value, the
lookup never leaves the grid (no `IndexError`), the result has one row per time and one column per planet, and column `p` is a
function of time which is the folded cubic interpolant of `f p`: exact at the nodes, exact on cubics, periodic, continuous. -/
theorem C43_interpolant (func : List ℝ → Except PyErr (Tensor ℝ)) (orbits : List (ℝ × ℝ)) (f : ℕ → ℝ → ℝ)
    (hf : Pointwise func orbits.length f) (hP : ∀ q ∈ orbits, 0 < q.2) (hne : orbits ≠ []) (num_phase : ℕ)
    (num_planets : Option ℤ) (test_value : Option ℕ) (hnp : numPlanets num_planets test_value = .ok orbits.length) :
    ∃ F : ℕ → ℝ → ℝ,
      (∀ ts : List ℝ, ∃ L, interpolatedLightCurve num_phase num_planets test_value orbits func ts = .ok L ∧
        L.shape = [ts.length, orbits.length] ∧ ∀ i p (h : i < ts.length), p < orbits.length → L.get [i, p] = F p ts[i]) ∧
      ∀ p (h : p < orbits.length), FoldedInterpolant (F p) (f p) orbits[p].1 orbits[p].2 (num_phase + 1) := by
  refine ⟨fun p => interpolant (f p) (orbits.getD p (0, 1)).1 (orbits.getD p (0, 1)).2
    ((orbits.getD p (0, 1)).2 / ((num_phase + 1 : ℕ) : ℝ)), fun ts => ?_, fun p h => ?_⟩
  · unfold interpolatedLightCurve
    rw [hnp]
    simp only
    by_cases h1 : orbits.length = 1
    · rw [if_pos (by rw [h1]; norm_num)]
      obtain ⟨⟨t0, P⟩, rfl⟩ := List.length_eq_one_iff.1 h1
      simp only
      rw [interpColumn_eq hf (by norm_num) num_phase (hP _ (List.mem_singleton_self _)) ts]
      simp only
      refine ⟨_, rfl, rfl, fun i p hi hp => ?_⟩
      obtain rfl : p = 0 := by simpa using hp
      simp [hi]
    · have h0 : 0 < orbits.length := List.length_pos_iff.2 hne
      rw [if_neg (by omega)]
      have : (List.range (orbits.length : ℤ).toNat).mapM (planetColumn num_phase orbits func ts) =
          .ok ((List.range orbits.length).map (fun p => ts.map (interpolant (f p) (orbits.getD p (0, 1)).1
            (orbits.getD p (0, 1)).2 ((orbits.getD p (0, 1)).2 / ((num_phase + 1 : ℕ) : ℝ))))) := by
        rw [Int.toNat_natCast]
        refine mapM_ok _ _ _ fun n hn => ?_
        rw [List.mem_range] at hn
        unfold planetColumn
        rw [List.getElem?_eq_getElem hn]
        simp only
        rw [interpColumn_eq hf hn num_phase (hP _ (List.getElem_mem hn)) ts, List.getD_eq_getElem _ _ hn]
      rw [this]
      simp only
      refine ⟨_, rfl, by simp, fun i p hi hp => ?_⟩
      simp [hi, hp]
  · simp only
    rw [List.getD_eq_getElem _ _ h]
    exact interpolant_folded (f p) _ _ _ (Nat.succ_pos _) (hP _ (List.getElem_mem h))

/-- **C43** (base light curves): a `LimbDarkLightCurve` with any orbit, `use_in_transit=False` and no exposure time is evaluated
point by point. -/
theorem C43_base (l : LimbDark) (o : OrbitApi) (ld : Bool) (f : ℕ → ℝ → V3) (hf : o.pos ld = .ok f) (r : Tensor ℝ)
    (hr : r.size = o.np) (oversample order : ℤ) :
    Pointwise (fun xs => l.getLightCurve (some o) (some r) (some (Tensor.ofList xs 0)) none oversample order (some false) ld)
      o.np (fun p s => fluxAt l.c o.r_star (r.get (Tensor.unravel r.shape p)) (f p s)) := by
  intro xs
  obtain ⟨L, h1, h2, h3⟩ := C39_values l o ld f hf r (Tensor.ofList xs 0) hr oversample order
  refine ⟨L, h1, h2, fun i p hi hp => ?_⟩
  have := h3 [i] p (inShape_singleton.2 hi) hp
  simpa [Tensor.ofList, hi] using this

/-- **C43** (base light curves, scalar exposure time). -/
theorem C43_base_exposure (l : LimbDark) (o : OrbitApi) (ld : Bool) (f : ℕ → ℝ → V3) (hf : o.pos ld = .ok f) (r : Tensor ℝ)
    (hr : r.size = o.np) (x : ℝ) (oversample order : ℤ) (ho : order = 0 ∨ order = 1 ∨ order = 2) (hn : 1 ≤ oversample) :
    ∃ S, stencil order oversample = .ok S ∧
    Pointwise (fun xs => l.getLightCurve (some o) (some r) (some (Tensor.ofList xs 0)) (some (Tensor.scalar x)) oversample order
        (some false) ld)
      o.np (fun p s => exposureAverage (fun s => fluxAt l.c o.r_star (r.get (Tensor.unravel r.shape p)) (f p s)) s
        (some (x, S))) := by
  obtain ⟨S, hS, -⟩ := C38_weights order oversample ho hn
  refine ⟨S, hS, fun xs => ?_⟩
  obtain ⟨S', hS', L, h1, h2, h3⟩ := C39_values_exposure l o ld f hf r (Tensor.ofList xs 0) (Tensor.scalar x) hr (Or.inl rfl)
    oversample order ho hn
  rw [hS] at hS'
  cases hS'
  refine ⟨L, h1, h2, fun i p hi hp => ?_⟩
  have := h3 [i] p (inShape_singleton.2 hi) hp
  simpa [Tensor.ofList, hi, texpAt, Tensor.scalar] using this

/-- **C43** (unknown number of planets): without `num_planets` and without a test value, `ValueError`. -/
theorem C43_unknown_planets (num_phase : ℤ) (orbits : List (ℝ × ℝ)) (func : List ℝ → Except PyErr (Tensor ℝ)) (t : List ℝ) :
    interpolatedLightCurve num_phase none none orbits func t =
      .error (.valueError "Can't compute num_planets, please provide a value") := rfl

/-- **C43** for a circular Keplerian orbit: the hypothesis of continuity holds, so that the interpolated light curve of a
`KeplerianOrbit` is continuous and exact at the nodes in every period. -/
theorem C43_kepler (C : Consts) (cp : ContactOp) (A : Args) (o : Orbit) (h : keplerianInit C A = .ok o) (hp : o.Physical)
    (l : LimbDark) (r : ℝ) (num_phase : ℕ) (oversample order : ℤ) :
    ∃ F : ℝ → ℝ,
      (∀ ts : List ℝ, ∃ L, interpolatedLightCurve num_phase (some 1) none [(o.t0, o.period)]
        (fun xs => l.getLightCurve (some (keplerApi C cp [o] o.r_star)) (some (Tensor.scalar r)) (some (Tensor.ofList xs 0)) none
          oversample order (some false)) ts = .ok L ∧ L.shape = [ts.length, 1] ∧
        ∀ i (h : i < ts.length), L.get [i, 0] = F ts[i]) ∧
      Continuous F ∧
      ∀ (j : ℤ) (m : ℕ), m ≤ num_phase →
        F (o.t0 + m * (o.period / ((num_phase + 1 : ℕ) : ℝ)) + j * o.period) =
          fluxAt l.c o.r_star r (o.relativePosition C (o.t0 + m * (o.period / ((num_phase + 1 : ℕ) : ℝ)) + j * o.period)) := by
  have B := built_of_init h
  have hbase := C43_base l (keplerApi C cp [o] o.r_star) false _ rfl (Tensor.scalar r) rfl oversample order
  obtain ⟨F, h1, h2⟩ := C43_interpolant _ [(o.t0, o.period)] _ hbase (by simpa using hp.period_pos) (by simp) num_phase
    (some 1) none rfl
  have hF := h2 0 (by norm_num)
  have hper : ∀ t (j : ℤ), o.relativePosition C (t + j * o.period) = o.relativePosition C t := fun t j =>
    (C12_periodic C A o h hp t j none false none none).2.2.1
  refine ⟨F 0, fun ts => ?_, hF.continuous ?_, fun j m hm => ?_⟩
  · obtain ⟨L, g1, g2, g3⟩ := h1 ts
    exact ⟨L, g1, g2, fun i hi => g3 i 0 hi (by norm_num)⟩
  · have e := hper o.t0 1
    push_cast at e
    rw [one_mul] at e
    change fluxAt _ _ _ (o.relativePosition C (o.t0 + o.period)) = fluxAt _ _ _ (o.relativePosition C o.t0)
    rw [e]
  · refine (hF.nodes j m (by omega)).trans ?_
    rw [hper]
    rfl

/-- The hypotheses are met: two planets, 10 phases, a base light curve that is not constant. -/
example : ∃ func : List ℝ → Except PyErr (Tensor ℝ), Pointwise func 2 (fun p s => p + s) ∧
    numPlanets none (some 2) = .ok (([(0, 1), (1, 3)] : List (ℝ × ℝ)).length : ℤ) :=
  ⟨fun xs => .ok ⟨[xs.length, 2], fun idx => (idx.getD 1 0 : ℕ) + xs.getD (idx.getD 0 0) 0⟩,
    fun xs => ⟨_, rfl, rfl, fun i p hi hp => by simp [hi]⟩, rfl⟩

end Exo
