import Verif.Model.FlSimple
import Verif.Lemmas.Fl
import Verif.Props.Simple
import Verif.Props.Impossible
import Verif.Props.TransitFit
import Verif.Spec.SimpleChord
import Verif.Lemmas.FlMotion

/-!
# C116: impossible `SimpleTransitOrbit`s
-/

namespace Exo
open Real

/-! ## Helpers -/

theorem flat_of_behind {r_star : Fl} {pos : ℝ → FlV3} (h : ∀ t, ((pos t).z / r_star).gt (.fin 0) = false) : Flat r_star pos := by
  have hF := flat_of_nan (r_star := r_star) (pos := fun _ => ⟨.nan, .nan, .nan⟩) fun _ => rfl
  have hf : ∀ ld r t, fluxF ld r_star pos r t = fluxF ld r_star (fun _ => ⟨.nan, .nan, .nan⟩) r t := by
    intro ld r t
    simp [fluxF, h]
  intro ld r t texp inds
  rw [← hF ld r t texp inds]
  simp only [lightCurveF, integratedF, hf]

theorem simpleF_dt {P : ℝ} (hP : P ≠ 0) (d t0 b R k t : ℝ) : (simpleInitF P d t0 b R k).dt t = .fin ((simpleInit P d t0 b R k).dt t) := by
  simp [simpleInitF, FlSimple.dt, Fl.mod, hP, SimpleOrbit.dt, simpleInit]

theorem simpleF_near {P : ℝ} (hP : P ≠ 0) (d t0 b R k t : ℝ) :
    (simpleInitF P d t0 b R k).near t = decide (|(simpleInit P d t0 b R k).dt t| < 0.5 * d) := by
  unfold FlSimple.near
  rw [simpleF_dt hP]
  simp [simpleInitF, Fl.abs, Fl.gt]

theorem simpleF_speed {d : ℝ} (hd : d ≠ 0) (P t0 b R k : ℝ) :
    (simpleInitF P d t0 b R k).speed = match (simpleInit P d t0 b R k).speed with | none => .nan | some v => .fin v := by
  simp only [simpleInitF, simpleInit, Fl.fin_add, Fl.fin_pow, Fl.fin_sub, Fl.fin_mul]
  split_ifs with h
  · rw [Fl.sqrt_neg h]; simp
  · rw [Fl.sqrt_fin (not_lt.1 h), Fl.fin_mul, Fl.fin_div hd]


/-- Thresholds as doubles. -/
def Tol.toFl : Tol → Fl
  | .nan => .nan
  | .fin x => .fin x
  | .inf => .inf false

theorem Tol.toFl_gt (w : Tol) (x : ℝ) : Fl.gt w.toFl (.fin x) = w.gt x := by
  cases w <;> rfl

theorem Tol.toFl_add (w : Tol) (x : ℝ) : (w.add x).toFl = w.toFl + .fin x := by
  cases w <;> rfl

theorem simpleF_tolOf {d : ℝ} (hd : d ≠ 0) (P t0 b R k r : ℝ) :
    (simpleInitF P d t0 b R k).tol (some r) none = ((simpleInit P d t0 b R k).tolOf r).toFl := by
  have hs := simpleF_speed hd P t0 b R k
  simp only [FlSimple.tol, SimpleOrbit.tolOf, hs]
  have hx : ((Fl.fin r + (simpleInitF P d t0 b R k).r_star) ^ 2 - (simpleInitF P d t0 b R k).b_norm ^ 2 : Fl) =
      .fin ((r + (simpleInit P d t0 b R k).r_star) ^ 2 - (simpleInit P d t0 b R k).b_norm ^ 2) := by
    simp [simpleInitF, simpleInit]
  rw [hx]
  generalize (r + (simpleInit P d t0 b R k).r_star) ^ 2 - (simpleInit P d t0 b R k).b_norm ^ 2 = x
  cases (simpleInit P d t0 b R k).speed with
  | none => split_ifs <;> simp [Tol.toFl]
  | some v =>
    simp only
    split_ifs with h1 h2 h3
    · rw [Fl.sqrt_neg h1]; simp [Tol.toFl]
    · rw [Fl.sqrt_fin (not_lt.1 h1), h2, h3]
      show Fl.div _ _ = _
      simp [Fl.div, Tol.toFl]
    · rw [Fl.sqrt_fin (not_lt.1 h1), h2]
      show Fl.div _ _ = _
      have : √x ≠ 0 := (sqrt_pos.2 (lt_of_le_of_ne (not_lt.1 h1) (Ne.symm h3))).ne'
      simp [Fl.div, Tol.toFl, this, not_lt.2 (sqrt_nonneg x)]
    · rw [Fl.sqrt_fin (not_lt.1 h1), Fl.fin_div h2]; rfl

/-- **C116 (what holds).** For a positive duration `in_transit` is the same with NaN and infinities, whatever the impact parameter. -/
theorem C116_in_transit (P d t0 b R k : ℝ) (hP : P ≠ 0) (hd : d ≠ 0) (ts : List ℝ) (r texp : Option ℝ) :
    simpleInTransit [simpleInit P d t0 b R k] ts (r.map fun r => [r]) (match texp with | none => .none | some x => .scalar x) =
      .ok ((simpleInitF P d t0 b R k).inTransit ts r texp) := by
  have key : ∀ w : Tol, (simpleInitF P d t0 b R k).tol r texp = w.toFl →
      (List.range ts.length).filter (fun i => w.gt |(simpleInit P d t0 b R k).dt (ts.getD i 0)|) =
        (simpleInitF P d t0 b R k).inTransit ts r texp := by
    intro w hw
    unfold FlSimple.inTransit
    apply List.filter_congr
    intro i _
    rw [simpleF_dt hP, hw, Fl.abs, Tol.toFl_gt]
  have hno : (simpleInitF P d t0 b R k).tol none none = (Tol.fin (0.5 * (simpleInit P d t0 b R k).duration)).toFl := by
    simp [FlSimple.tol, simpleInitF, simpleInit, Tol.toFl]
  have hadd : ∀ (r : Option ℝ) (x : ℝ) (w : Tol), (simpleInitF P d t0 b R k).tol r none = w.toFl →
      (simpleInitF P d t0 b R k).tol r (some x) = (w.add (0.5 * x)).toFl := by
    intro r x w hw
    rw [Tol.toFl_add, ← hw]
    simp only [FlSimple.tol, Fl.fin_mul]
  cases r with
  | none =>
    cases texp with
    | none =>
      rw [← key _ hno]
      simp [simpleInTransit, addTexp, bcast]
    | some x =>
      rw [← key _ (hadd _ x _ hno)]
      simp [simpleInTransit, addTexp, bcast]
  | some r =>
    have hr := simpleF_tolOf hd P t0 b R k r
    cases texp with
    | none =>
      rw [← key _ hr]
      simp [simpleInTransit, addTexp, bcast]
    | some x =>
      rw [← key _ (hadd _ x _ hr)]
      simp [simpleInTransit, addTexp, bcast]

/-- **C116 (what holds).** For every transit of a planet of radius `k` that exists (`|b| < 1 + k`) no operation leaves its domain: the
position is the point of the chord, the flux that of the planet there, and the default selection of times (see `C116_in_transit`) that of the
rest of the model. -/
theorem C116_possible_partial (P d t0 b R k : ℝ) (hP : 0 < P) (hd : 0 < d) (hR : 0 < R) (hk : 0 < 1 + k) (hb : |b| < 1 + k) :
    ∃ v, (v * d / 2) ^ 2 = R ^ 2 * ((1 + k) ^ 2 - b ^ 2) ∧ 0 < v ∧
      (∀ t, (simpleInitF P d t0 b R k).relativePosition t = (simpleChord v P d t0 b R t).toFl ∧
        (simpleInit P d t0 b R k).relativePosition t =
          .ok (some (simpleChord v P d t0 b R t).x, (simpleChord v P d t0 b R t).y, (simpleChord v P d t0 b R t).z)) ∧
      ∀ (ld : FlLimbDark) (c : ℝ × ℝ × ℝ), ld.Ok c → ∀ r t texp,
        integratedF ld (simpleInitF P d t0 b R k).r_star (simpleInitF P d t0 b R k).relativePosition r t texp =
          .fin (exposureAverage (fun t => fluxAt c R r (simpleChord v P d t0 b R t)) t texp) := by
  obtain ⟨v, hv, hv2, hs, -⟩ := simple_position (P := P) (t0 := t0) hd hR hk hb 0
  have hpos : ∀ t, (simpleInitF P d t0 b R k).relativePosition t = (simpleChord v P d t0 b R t).toFl := by
    intro t
    unfold FlSimple.relativePosition
    rw [simpleF_near hP.ne', simpleF_dt hP.ne', simpleF_speed hd.ne', hs, SimpleOrbit.dt_eq]
    simp only [simpleInitF, simpleChord, V3.toFl, Fl.fin_mul, Fl.fin_add, add_zero, show (0.5 : ℝ) * d = d / 2 by ring, decide_eq_true_eq]
    congr 1
    split_ifs <;> rfl
  refine ⟨v, hv2, hv, fun t => ⟨hpos t, ?_⟩, ?_⟩
  · obtain ⟨v', hv', -, hs', h⟩ := simple_position (P := P) (t0 := t0) hd hR hk hb t
    rw [hs] at hs'
    cases hs'
    exact h
  · intro ld c hl r t texp
    rw [show (simpleInitF P d t0 b R k).relativePosition = fun t => (simpleChord v P d t0 b R t).toFl from funext hpos]
    exact integratedF_eq hl hR.ne' r t texp

/-- **C116 (what holds).** A duration that is not positive, or a period of zero, is not rejected: every light curve is exactly zero. -/
theorem C116_flat (P d t0 b R k : ℝ) (hR : 0 < R) (h : d ≤ 0 ∨ P = 0) :
    Flat (simpleInitF P d t0 b R k).r_star (simpleInitF P d t0 b R k).relativePosition := by
  apply flat_of_behind
  intro t
  have hn : (simpleInitF P d t0 b R k).near t = false := by
    by_cases hP : P = 0
    · have : (simpleInitF P d t0 b R k).dt t = .nan := by simp [FlSimple.dt, simpleInitF, Fl.mod, hP]
      unfold FlSimple.near
      rw [this]
      simp [simpleInitF, Fl.abs, Fl.gt]
    · rw [simpleF_near hP]
      simp only [decide_eq_false_iff_not, not_lt]
      have := h.resolve_right hP
      exact le_trans (by linarith) (abs_nonneg _)
  simp only [FlSimple.relativePosition, hn, Bool.false_eq_true, if_false]
  simp only [simpleInitF]
  rw [Fl.fin_div hR.ne']
  simp only [Fl.gt, decide_eq_false_iff_not, not_lt]
  exact div_nonpos_of_nonpos_of_nonneg (by norm_num) hR.le

/-- An impact parameter beyond `1 + ror` has no speed. -/
theorem simpleF_speed_nan {P d t0 b R k : ℝ} (hR : R ≠ 0) (hb : |1 + k| < |b|) : (simpleInitF P d t0 b R k).speed = .nan := by
  have h : (1 + k) ^ 2 < b ^ 2 := sq_lt_sq.2 hb
  have : R ^ 2 * ((1 + k) ^ 2 - b ^ 2) < 0 := mul_neg_of_pos_of_neg (by positivity) (by linarith)
  simp only [simpleInitF, Fl.fin_add, Fl.fin_pow, Fl.fin_sub, Fl.fin_mul]
  rw [Fl.sqrt_neg this]
  simp

/-- **C116 (what the code does).** Beyond `b = 1 + ror` the speed is NaN and `in_transit` selects no time, whatever the radius given to it
and the exposure time: by default (`use_in_transit=True`) the light curve is exactly zero for planets of every size. -/
theorem C116_silent (P d t0 b R k : ℝ) (hR : R ≠ 0) (hb : |1 + k| < |b|) (r : ℝ) (texp : Option ℝ) (ts : List ℝ) :
    (simpleInitF P d t0 b R k).inTransit ts (some r) texp = [] ∧
      ∀ (ld : FlLimbDark) (st : Option (ℝ × List ℝ × List ℝ)),
        lightCurveF ld (simpleInitF P d t0 b R k).r_star (simpleInitF P d t0 b R k).relativePosition r ts st
          (some ((simpleInitF P d t0 b R k).inTransit ts (some r) texp)) = ts.map fun _ => .fin 0 := by
  have hs := simpleF_speed_nan (P := P) (d := d) (t0 := t0) hR hb
  have ht : (simpleInitF P d t0 b R k).tol (some r) texp = .nan := by
    cases texp <;> simp [FlSimple.tol, hs]
  have hi : (simpleInitF P d t0 b R k).inTransit ts (some r) texp = [] := by
    simp [FlSimple.inTransit, ht]
  refine ⟨hi, fun ld st => ?_⟩
  rw [hi]
  simp only [lightCurveF, List.not_mem_nil, if_false]
  apply List.ext_getElem <;> simp

/-- **C116 (what the code does).** The same orbit with `use_in_transit=False` has the flux that the compiled operation gives for a separation
of NaN within half a duration of the transits, and zero elsewhere. -/
theorem C116_nan (P d t0 b R k : ℝ) (hP : 0 < P) (hR : 0 < R) (hb : |1 + k| < |b|) (r t : ℝ) (ld : FlLimbDark) :
    fluxF ld (simpleInitF P d t0 b R k).r_star (simpleInitF P d t0 b R k).relativePosition r t =
      if |wrap (t - t0) P| < d / 2 then ld .nan (.fin (r / R)) else .fin 0 := by
  have hs := simpleF_speed_nan (P := P) (d := d) (t0 := t0) hR.ne' hb
  simp only [fluxF, FlSimple.relativePosition, simpleF_near hP.ne', SimpleOrbit.dt_eq, hs, show (0.5 : ℝ) * d = d / 2 by ring,
    decide_eq_true_eq]
  simp only [simpleInitF]
  split_ifs with h1 h2 h2
  · rw [Fl.fin_div hR.ne', Fl.nan_mul, Fl.nan_pow, Fl.nan_add, Fl.sqrt_nan, Fl.nan_div]
  · rw [Fl.fin_div hR.ne'] at h2
    simp only [Fl.gt, decide_eq_true_eq, not_lt] at h2
    exact absurd (div_pos one_pos hR) (not_lt.2 h2)
  · rw [Fl.fin_div hR.ne'] at h2
    simp only [Fl.gt, decide_eq_true_eq] at h2
    exact absurd (div_neg_of_neg_of_pos (by norm_num : (-1 : ℝ) < 0) hR) (not_lt.2 h2.le)
  · rfl

/-- Concrete violation of C116: `SimpleTransitOrbit(period=10, duration=0.1, b=1.05)`, without `ror`, and a planet of a tenth of the radius of
the star. The discs overlap in the middle of the transit, and with `ror=0.1` the flux is below zero there, for every physical law of limb
darkening; the light curve computed by default is exactly zero at all times. -/
theorem C116_counterexample (u1 u2 : ℝ) (hl : PhysicalLaw u1 u2) (hdk : DarkensOutwards u1 u2) :
    ∃ P d b R r : ℝ, 0 < P ∧ 0 < d ∧ d < P ∧ 0 < R ∧ 0 < r ∧ |b| < 1 + r / R ∧
      (∀ ld : FlLimbDark, ld.Ok (getCl u1 u2) → ∃ F : ℝ, F < 0 ∧
        lightCurveF ld (simpleInitF P d 0 b R (r / R)).r_star (simpleInitF P d 0 b R (r / R)).relativePosition r [0] none
          (some ((simpleInitF P d 0 b R (r / R)).inTransit [0] (some r) none)) = [.fin F]) ∧
      ∀ (ld : FlLimbDark) (ts : List ℝ) (st : Option (ℝ × List ℝ × List ℝ)) (texp : Option ℝ),
        lightCurveF ld (simpleInitF P d 0 b R).r_star (simpleInitF P d 0 b R).relativePosition r ts st
          (some ((simpleInitF P d 0 b R).inTransit ts (some r) texp)) = ts.map fun _ => .fin 0 := by
  refine ⟨10, 0.1, 1.05, 1, 0.1, by norm_num, by norm_num, by norm_num, by norm_num, by norm_num, ?_, ?_, ?_⟩
  · rw [abs_of_pos (by norm_num)]; norm_num
  · intro ld hld
    have hb : |(1.05 : ℝ)| < 1 + 0.1 / 1 := by rw [abs_of_pos (by norm_num)]; norm_num
    obtain ⟨v, hv2, hv, hpos, hF⟩ := C116_possible_partial 10 0.1 0 1.05 1 (0.1 / 1) (by norm_num) (by norm_num) one_pos (by norm_num) hb
    have hw : wrap ((0 : ℝ) - 0) 10 = 0 := by simp [wrap, pymod]; norm_num
    have hin : 0 ∈ (simpleInitF 10 0.1 0 1.05 1 (0.1 / 1)).inTransit [0] (some 0.1) none := by
      obtain ⟨v', hv', -, hs, -⟩ := simple_position (P := 10) (t0 := 0) (d := 0.1) (by norm_num) one_pos (by norm_num) hb 0
      have ht := simpleF_tolOf (d := 0.1) (by norm_num) 10 0 1.05 1 (0.1 / 1) 0.1
      have hx : (0 : ℝ) < (0.1 + (simpleInit 10 0.1 0 1.05 1 (0.1 / 1)).r_star) ^ 2 - (simpleInit 10 0.1 0 1.05 1 (0.1 / 1)).b_norm ^ 2 := by
        simp only [simpleInit]; norm_num
      simp only [SimpleOrbit.tolOf, hs, if_neg (not_lt.2 hx.le), if_neg hv'.ne', Tol.toFl] at ht
      simp only [FlSimple.inTransit, ht, List.mem_filter, List.mem_range, List.length_cons, List.length_nil]
      refine ⟨by norm_num, ?_⟩
      rw [List.getD_cons_zero, simpleF_dt (by norm_num), SimpleOrbit.dt_eq, hw]
      simp only [Fl.abs, Fl.gt, abs_zero, decide_eq_true_eq]
      exact div_pos (sqrt_pos.2 hx) hv'
    refine ⟨fluxAt (getCl u1 u2) 1 0.1 (simpleChord v 10 0.1 0 1.05 1 0), ?_, ?_⟩
    · unfold fluxAt
      rw [flux_neg_iff hl hdk (by norm_num) (by positivity)]
      simp only [simpleChord, hw]
      constructor
      · norm_num
      · rw [mul_zero, zero_pow two_ne_zero, zero_add, mul_one, sqrt_sq (by norm_num)]
        norm_num
    · simp only [lightCurveF, List.mapIdx_cons, List.mapIdx_nil, if_pos hin]
      rw [hF ld _ hld]
      rfl
  · intro ld ts st texp
    exact (C116_silent 10 0.1 0 1.05 1 0 one_ne_zero (by
      rw [abs_of_pos (by norm_num), abs_of_pos (by norm_num)]; norm_num) 0.1 texp ts).2 ld st

/-- The hypotheses of `C116_flat` hold for `SimpleTransitOrbit(period=10, duration=-1)`. -/
example : Flat (simpleInitF 10 (-1)).r_star (simpleInitF 10 (-1)).relativePosition := C116_flat _ _ _ _ _ _ one_pos (Or.inl (by norm_num))

/-- The hypotheses of `C116_nan` hold for `SimpleTransitOrbit(period=10, duration=1, b=2)`: NaN in the middle of the transit with an operation
that gives NaN for NaN, zero a quarter of a period later. -/
example (ld : FlLimbDark) (h : ∀ k, ld .nan k = .nan) :
    fluxF ld (simpleInitF 10 1 0 2).r_star (simpleInitF 10 1 0 2).relativePosition 0.1 0 = .nan ∧
      fluxF ld (simpleInitF 10 1 0 2).r_star (simpleInitF 10 1 0 2).relativePosition 0.1 2.5 = .fin 0 := by
  have hb : |(1 + 0 : ℝ)| < |2| := by norm_num
  have h0 : wrap ((0 : ℝ) - 0) 10 = 0 := by simp [wrap, pymod]; norm_num
  have h1 : wrap ((2.5 : ℝ) - 0) 10 = 2.5 := by
    have : ⌊((2.5 : ℝ) - 0 + 0.5 * 10) / 10⌋ = 0 := by rw [Int.floor_eq_iff]; norm_num
    simp only [wrap, pymod, this]; norm_num
  constructor
  · rw [C116_nan 10 1 0 2 1 0 (by norm_num) one_pos hb 0.1 0 ld, h0, if_pos (by norm_num), h]
  · rw [C116_nan 10 1 0 2 1 0 (by norm_num) one_pos hb 0.1 2.5 ld, h1, if_neg (by rw [abs_of_pos (by norm_num)]; norm_num)]

/-- The law of `C116_counterexample` can be met. -/
example : PhysicalLaw 0.3 0.2 ∧ DarkensOutwards 0.3 0.2 :=
  ⟨physicalLaw_of_kipping (by norm_num) (by norm_num), (darkensOutwards_iff _ _).2 ⟨by norm_num, by norm_num⟩⟩

end Exo
