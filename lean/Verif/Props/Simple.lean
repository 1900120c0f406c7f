import Verif.Model.Simple
import Verif.Lemmas.InTransit
import Mathlib.Data.List.GetD

/-!
# C27, C28: `SimpleTransitOrbit`, refused requests
-/

namespace Exo
open Real

/-! ## Helpers -/

theorem SimpleOrbit.dt_eq {P d t0 b R k : ℝ} (t : ℝ) : (simpleInit P d t0 b R k).dt t = wrap (t - t0) P := by
  simp only [simpleInit, SimpleOrbit.dt, wrap]
  congr 2
  ring

theorem simple_speed {P d t0 b R k : ℝ} (hk : 0 < 1 + k) (hb : |b| < 1 + k) :
    (simpleInit P d t0 b R k).speed = some (2 * √(R ^ 2 * ((1 + k) ^ 2 - b ^ 2)) / d) ∧
    0 < (1 + k) ^ 2 - b ^ 2 := by
  have hb2 : b ^ 2 < (1 + k) ^ 2 := by
    rw [← sq_abs b]; exact pow_lt_pow_left₀ hb (abs_nonneg _) (by norm_num)
  have h0 : 0 < (1 + k) ^ 2 - b ^ 2 := by linarith
  refine ⟨?_, h0⟩
  simp only [simpleInit]
  rw [if_neg (not_lt.2 (by positivity))]

/-- The coordinates in terms of the wrapped time. -/
theorem simple_position {P d t0 b R k : ℝ} (hd : 0 < d) (hR : 0 < R) (hk : 0 < 1 + k) (hb : |b| < 1 + k) (t : ℝ) :
    ∃ v, 0 < v ∧ (v * d / 2) ^ 2 = R ^ 2 * ((1 + k) ^ 2 - b ^ 2) ∧
      (simpleInit P d t0 b R k).speed = some v ∧
      (simpleInit P d t0 b R k).relativePosition t = .ok (some (v * wrap (t - t0) P), b * R,
        if |wrap (t - t0) P| < d / 2 then 1 else -1) := by
  obtain ⟨h1, h2⟩ := simple_speed (P := P) (d := d) (t0 := t0) (R := R) hk hb
  have h3 : 0 < R ^ 2 * ((1 + k) ^ 2 - b ^ 2) := by positivity
  have h4 := sqrt_pos.2 h3
  refine ⟨_, by positivity, ?_, h1, ?_⟩
  · rw [div_mul_cancel₀ _ hd.ne', mul_div_assoc, mul_comm, div_mul_cancel₀ _ two_ne_zero, sq_sqrt h3.le]
  · unfold SimpleOrbit.relativePosition
    simp only [Bool.false_eq_true, if_false, h1, Option.map_some, SimpleOrbit.dt_eq, Except.ok.injEq, Prod.mk.injEq,
      true_and]
    refine ⟨by simp [simpleInit], ?_⟩
    simp only [show (simpleInit P d t0 b R k).duration = d from rfl, show (0.5 : ℝ) * d = d / 2 by ring]
    by_cases h : |wrap (t - t0) P| < d / 2 <;> simp [h] <;> norm_num

/-! ## C27 -/

/-- **C27** (the chord): between half a period before and half a period after the transit centre `t0 + j P` the planet moves on
the chord `y = b r_star` with constant velocity `v`, through `x = 0` at the centre, and `z` is `1` strictly within `duration/2`
of it, `-1` otherwise. -/
theorem C27_chord (P d t0 b R k : ℝ) (hP : 0 < P) (hd : 0 < d) (hR : 0 < R) (hk : 0 < 1 + k) (hb : |b| < 1 + k) :
    ∃ v, 0 < v ∧ ∀ (j : ℤ) (t : ℝ), t0 + j * P - P / 2 ≤ t → t < t0 + j * P + P / 2 →
      (simpleInit P d t0 b R k).relativePosition t =
        .ok (some (v * (t - (t0 + j * P))), b * R, if |t - (t0 + j * P)| < d / 2 then 1 else -1) := by
  obtain ⟨v, hv, -, hs, -⟩ := simple_position (P := P) (d := d) (t0 := t0) hd hR hk hb 0
  refine ⟨v, hv, fun j t h1 h2 => ?_⟩
  obtain ⟨v', -, -, hs', hpos⟩ := simple_position (P := P) (t0 := t0) hd hR hk hb t
  rw [hs] at hs'
  cases hs'
  have hw : wrap (t - t0) P = t - (t0 + j * P) := wrap_eq hP (by linarith) (by linarith) j (by ring)
  rw [hpos, hw]

/-- **C27** (contacts and `z`): for `duration ≤ period` the sky separation of the planet is `r_star (1 + ror)` exactly at
`duration/2` from a transit centre, smaller exactly within, and `z > 0` exactly within. -/
theorem C27_contacts (P d t0 b R k : ℝ) (hP : 0 < P) (hd : 0 < d) (hdP : d < P) (hR : 0 < R) (hk : 0 < 1 + k)
    (hb : |b| < 1 + k) (t : ℝ) : ∃ x y z, (simpleInit P d t0 b R k).relativePosition t = .ok (some x, y, z) ∧
      (√(x ^ 2 + y ^ 2) = R * (1 + k) ↔ ∃ j : ℤ, |t - (t0 + j * P)| = d / 2) ∧
      (√(x ^ 2 + y ^ 2) < R * (1 + k) ↔ ∃ j : ℤ, |t - (t0 + j * P)| < d / 2) ∧
      (0 < z ↔ ∃ j : ℤ, |t - (t0 + j * P)| < d / 2) := by
  obtain ⟨v, hv, hv2, -, hpos⟩ := simple_position (P := P) (t0 := t0) hd hR hk hb t
  obtain ⟨j0, hj0⟩ := wrap_spec (t - t0) P
  have hge := wrap_ge (x := t - t0) hP
  have hlt := wrap_lt (x := t - t0) hP
  set w := wrap (t - t0) P with hw
  have heq : ∀ j : ℤ, |t - (t0 + j * P)| < P / 2 → t - (t0 + j * P) = w := by
    intro j hj
    rw [abs_lt] at hj
    exact (wrap_eq hP (by linarith) (by linarith) j (by ring)).symm
  have hjw : t - (t0 + j0 * P) = w := by linarith
  have hL : 0 < R * (1 + k) := by positivity
  have hvd : 0 < v * d / 2 := by positivity
  have hsep : (v * w) ^ 2 + (b * R) ^ 2 = (R * (1 + k)) ^ 2 + v ^ 2 * (w ^ 2 - (d / 2) ^ 2) := by
    linear_combination hv2
  refine ⟨_, _, _, hpos, ?_, ?_, ?_⟩
  · rw [sqrt_eq_iff_mul_self_eq (by positivity) hL.le, hsep]
    constructor
    · intro h
      refine ⟨j0, ?_⟩
      rw [hjw]
      have h1 : v ^ 2 * (w ^ 2 - (d / 2) ^ 2) = 0 := by linarith
      have h2 : w ^ 2 = (d / 2) ^ 2 := by
        rcases mul_eq_zero.1 h1 with h3 | h3
        · exact absurd h3 (by positivity)
        · linarith
      rw [← abs_of_pos (show 0 < d / 2 by positivity)]
      exact sq_eq_sq_iff_abs_eq_abs _ _ |>.1 h2
    · rintro ⟨j, hj⟩
      rw [heq j (by rw [hj]; linarith)] at hj
      rw [show w ^ 2 = (d / 2) ^ 2 by rw [← sq_abs, hj]]
      ring
  · rw [sqrt_lt' hL, hsep]
    constructor
    · intro h
      refine ⟨j0, ?_⟩
      rw [hjw]
      have h1 : w ^ 2 < (d / 2) ^ 2 := by
        by_contra hcon
        push Not at hcon
        nlinarith [mul_nonneg (sq_nonneg v) (sub_nonneg.2 hcon)]
      exact abs_lt_of_sq_lt_sq h1 (by positivity)
    · rintro ⟨j, hj⟩
      rw [heq j (by linarith)] at hj
      have h1 : w ^ 2 < (d / 2) ^ 2 := by
        rw [← sq_abs]; exact pow_lt_pow_left₀ hj (abs_nonneg _) (by norm_num)
      nlinarith [mul_pos (pow_pos hv 2) (sub_pos.2 h1)]
  · constructor
    · intro h
      refine ⟨j0, ?_⟩
      rw [hjw]
      by_contra hcon
      rw [if_neg hcon] at h
      norm_num at h
    · rintro ⟨j, hj⟩
      rw [heq j (by linarith)] at hj
      rw [if_pos hj]
      norm_num

theorem C27_periodic (P d t0 b R k : ℝ) (hP : 0 < P) (t : ℝ) (j : ℤ) (ld : Bool) :
    (simpleInit P d t0 b R k).relativePosition (t + j * P) ld = (simpleInit P d t0 b R k).relativePosition t ld := by
  unfold SimpleOrbit.relativePosition
  rw [SimpleOrbit.dt_eq, SimpleOrbit.dt_eq, show t + j * P - t0 = (t - t0) + j * P by ring, wrap_add_int hP]

/-- A `SimpleTransitOrbit` in the documented domain. -/
structure SimpleDomain (o : SimpleOrbit) : Prop where
  built : ∃ P d t0 b R k, o = simpleInit P d t0 b R k ∧ 0 < P ∧ 0 < d ∧ 0 < R ∧ 0 < 1 + k ∧ |b| < 1 + k

/-- **C27** (`in_transit`): for any number of planets in the domain with radii `r ≥ 0`, exactly the timestamps at which the
sky separation of some planet is below `r_star + r` are returned. -/
theorem C27_in_transit (planets : List (SimpleOrbit × ℝ)) (hdom : ∀ q ∈ planets, SimpleDomain q.1)
    (hr : ∀ q ∈ planets, 0 ≤ q.2) (ts : List ℝ) :
    ∃ l, simpleInTransit (planets.map Prod.fst) ts (some (planets.map Prod.snd)) = .ok l ∧ l.Pairwise (· < ·) ∧
      ∀ i, i ∈ l ↔ ∃ h : i < ts.length, ∃ q ∈ planets, ∃ x y z,
        q.1.relativePosition ts[i] = .ok (some x, y, z) ∧ √(x ^ 2 + y ^ 2) < q.1.r_star + q.2 := by
  have key : ∀ q ∈ planets, ∀ t, ((q.1.tolOf q.2).gt |q.1.dt t| = true ↔ ∃ x y z,
      q.1.relativePosition t = .ok (some x, y, z) ∧ √(x ^ 2 + y ^ 2) < q.1.r_star + q.2) := by
    intro q hq t
    obtain ⟨P, d, t0, b, R, k, ho, hP, hd, hR, hk, hb⟩ := (hdom q hq).built
    have hr0 := hr q hq
    obtain ⟨v, hv, hv2, hs, hpos⟩ := simple_position (P := P) (t0 := t0) hd hR hk hb t
    rw [ho]
    have e1 : (simpleInit P d t0 b R k).r_star = R := rfl
    have e2 : (simpleInit P d t0 b R k).b_norm = b * R := rfl
    rw [hpos, SimpleOrbit.dt_eq]
    unfold SimpleOrbit.tolOf
    simp only [hs, e1, e2]
    set w := wrap (t - t0) P
    have hsep : (∃ x y z, (Except.ok (some (v * w), b * R, if |w| < d / 2 then 1 else -1) :
        Except PyErr (Option ℝ × ℝ × ℝ)) = .ok (some x, y, z) ∧ √(x ^ 2 + y ^ 2) < R + q.2) ↔
        (v * w) ^ 2 + (b * R) ^ 2 < (q.2 + R) ^ 2 := by
      constructor
      · rintro ⟨x, y, z, hx, hlt⟩
        simp only [Except.ok.injEq, Prod.mk.injEq, Option.some.injEq] at hx
        obtain ⟨rfl, rfl, -⟩ := hx
        rw [sqrt_lt' (by positivity)] at hlt
        linarith
      · intro h
        refine ⟨_, _, _, rfl, ?_⟩
        rw [sqrt_lt' (by positivity)]
        linarith
    rw [hsep]
    by_cases hx : (q.2 + R) ^ 2 - (b * R) ^ 2 < 0
    · rw [if_pos hx]
      simp only [Tol.gt, Bool.false_eq_true, false_iff, not_lt]
      nlinarith [sq_nonneg (v * w)]
    · rw [if_neg hx, if_neg hv.ne']
      push Not at hx
      simp only [Tol.gt, decide_eq_true_eq]
      rw [lt_div_iff₀ hv, lt_sqrt (by positivity), mul_pow, sq_abs]
      constructor <;> intro h <;> nlinarith
  unfold simpleInTransit
  simp only [Bool.false_eq_true, if_false, bcast_map]
  have hb1 := bcast_map (fun (_ : SimpleOrbit) (_ : Tol) => ()) (fun p : SimpleOrbit × ℝ => p.1)
    (fun p : SimpleOrbit × ℝ => p.1.tolOf p.2) planets
  simp only [addTexp, hb1]
  refine ⟨_, rfl, List.pairwise_lt_range.filter _, fun i => ?_⟩
  rw [List.mem_filter, List.mem_range]
  simp only [List.map_map, bcast_map]
  constructor
  · rintro ⟨hi, hm⟩
    rw [List.getD_eq_getElem _ _ hi] at hm
    simp only [List.any_map, List.any_eq_true, Function.comp, id] at hm
    obtain ⟨q, hq, hin⟩ := hm
    exact ⟨hi, q, hq, (key q hq _).1 hin⟩
  · rintro ⟨hi, q, hq, hin⟩
    refine ⟨hi, ?_⟩
    rw [List.getD_eq_getElem _ _ hi]
    simp only [List.any_map, List.any_eq_true, Function.comp, id]
    exact ⟨q, hq, (key q hq _).2 hin⟩

/-- **C27** (`in_transit` without `r`): exactly the timestamps strictly within `duration/2` of a transit centre, i.e. with
`z > 0` (`C27_contacts`). -/
theorem C27_in_transit_default (P d t0 b R k : ℝ) (hP : 0 < P) (hdP : d < P) (ts : List ℝ) :
    ∃ l, simpleInTransit [simpleInit P d t0 b R k] ts = .ok l ∧
      ∀ i, i ∈ l ↔ ∃ h : i < ts.length, ∃ j : ℤ, |ts[i] - (t0 + j * P)| < d / 2 := by
  refine ⟨_, rfl, fun i => ?_⟩
  rw [List.mem_filter, List.mem_range]
  constructor
  · rintro ⟨hi, hm⟩
    rw [List.getD_eq_getElem _ _ hi] at hm
    simp only [bcast, List.map_cons, List.map_nil, List.length_cons, List.length_nil, if_true, List.zipWith_cons_cons,
      List.zipWith_nil_left, List.any_cons, List.any_nil, id, Bool.or_false, Tol.gt, decide_eq_true_eq,
      SimpleOrbit.dt_eq] at hm
    obtain ⟨j, hj⟩ := wrap_spec (ts[i] - t0) P
    refine ⟨hi, j, ?_⟩
    rw [show ts[i] - (t0 + j * P) = wrap (ts[i] - t0) P by linarith]
    have : (simpleInit P d t0 b R k).duration = d := rfl
    rw [this] at hm
    linarith
  · rintro ⟨hi, j, hj⟩
    refine ⟨hi, ?_⟩
    rw [List.getD_eq_getElem _ _ hi]
    simp only [bcast, List.map_cons, List.map_nil, List.length_cons, List.length_nil, if_true, List.zipWith_cons_cons,
      List.zipWith_nil_left, List.any_cons, List.any_nil, id, Bool.or_false, Tol.gt, decide_eq_true_eq,
      SimpleOrbit.dt_eq]
    have : (simpleInit P d t0 b R k).duration = d := rfl
    have h2 := abs_lt.1 hj
    rw [wrap_eq hP (y := ts[i] - (t0 + j * P)) (by linarith) (by linarith) j (by ring), this]
    linarith

/-! ## C23 for `SimpleTransitOrbit.in_transit` -/

/-- **C23** (shape of the result, `SimpleTransitOrbit`): whatever the arguments. -/
theorem C23_simple_sorted_valid (planets : List SimpleOrbit) (ts : List ℝ) (r : Option (List ℝ)) (texp : Texp) (ld : Bool)
    (l : List ℕ) (h : simpleInTransit planets ts r texp ld = .ok l) :
    l.Pairwise (· < ·) ∧ ∀ i ∈ l, i < ts.length := by
  unfold simpleInTransit at h
  split at h
  · cases h
  simp only at h
  split at h
  · cases h
  split at h
  · cases h
  split at h
  · cases h
  cases h
  refine ⟨List.pairwise_lt_range.filter _, fun i hi => ?_⟩
  rw [List.mem_filter, List.mem_range] at hi
  exact hi.1

theorem bcast_map_right {α β γ δ : Type} (f : α → γ → δ) (g : β → γ) (u : List α) (v : List β) :
    bcast f u (v.map g) = bcast (fun a b => f a (g b)) u v := by
  unfold bcast
  simp only [List.length_map, List.zipWith_map_right]
  split
  · rfl
  · rcases u with _ | ⟨a, _ | ⟨a', u⟩⟩ <;> rcases v with _ | ⟨b, _ | ⟨b', v⟩⟩ <;> simp

theorem bcast_isOk {α β γ δ : Type} {f : α → β → γ} (f' : α → β → δ) {u : List α} {v : List β} {m : List γ}
    (h : bcast f u v = .ok m) : ∃ m', bcast f' u v = .ok m' := by
  unfold bcast at h ⊢
  split
  · exact ⟨_, rfl⟩
  · rename_i hl
    rw [if_neg hl] at h
    rcases u with _ | ⟨a, _ | ⟨a', u⟩⟩ <;> rcases v with _ | ⟨b, _ | ⟨b', v⟩⟩ <;> simp at h ⊢

theorem zipWith_any_mono {α β : Type} {f f' : α → β → Bool} (hf : ∀ a b, f a b = true → f' a b = true) (u : List α)
    (v : List β) (h : (List.zipWith f u v).any id = true) : (List.zipWith f' u v).any id = true := by
  induction u generalizing v with
  | nil => simp at h
  | cons a u ih =>
    rcases v with _ | ⟨b, v⟩
    · simp at h
    · simp only [List.zipWith_cons_cons, List.any_cons, id, Bool.or_eq_true] at h ⊢
      rcases h with h | h
      · exact Or.inl (hf _ _ h)
      · exact Or.inr (ih _ h)

theorem bcast_any_mono {α β : Type} {f f' : α → β → Bool} (hf : ∀ a b, f a b = true → f' a b = true) {u : List α}
    {v : List β} {m m' : List Bool} (h : bcast f u v = .ok m) (h' : bcast f' u v = .ok m') (hm : m.any id = true) :
    m'.any id = true := by
  unfold bcast at h h'
  split at h
  · rename_i hl
    rw [if_pos hl] at h'
    cases h; cases h'
    exact zipWith_any_mono hf u v hm
  · rename_i hl
    rw [if_neg hl] at h'
    rcases u with _ | ⟨a, _ | ⟨a', u⟩⟩ <;> rcases v with _ | ⟨b, _ | ⟨b', v⟩⟩ <;>
      simp only [List.length_cons, List.length_nil, Except.ok.injEq, reduceCtorEq, not_true_eq_false] at h h' hl <;>
      subst h h' <;> simp at hm ⊢ <;> tauto

/-- **C23** (growing with `texp`, `SimpleTransitOrbit`): for all planets, radii and timestamps. -/
theorem C23_simple_mono_texp (planets : List SimpleOrbit) (ts : List ℝ) (r : Option (List ℝ)) (x y : ℝ) (hxy : x ≤ y)
    (l : List ℕ) (h : simpleInTransit planets ts r (.scalar x) = .ok l) :
    ∃ l', simpleInTransit planets ts r (.scalar y) = .ok l' ∧ l ⊆ l' := by
  unfold simpleInTransit at h ⊢
  simp only [Bool.false_eq_true, if_false] at h ⊢
  split at h
  · cases h
  rename_i tols htols
  simp only [addTexp, bcast_map_right] at h ⊢
  split at h
  · cases h
  refine ⟨_, rfl, ?_⟩
  simp only [Except.ok.injEq] at h
  subst h
  intro i hi
  rw [List.mem_filter] at hi ⊢
  refine ⟨hi.1, ?_⟩
  have hi2 := hi.2
  rcases h1 : bcast (fun dt (b : Tol) => (b.add (0.5 * x)).gt |dt|) (planets.map fun o => o.dt (ts.getD i 0)) tols
    with e | m
  · rw [h1] at hi2; simp at hi2
  · obtain ⟨m', h2⟩ := bcast_isOk (fun dt (b : Tol) => (b.add (0.5 * y)).gt |dt|) h1
    rw [h1] at hi2
    rw [h2]
    refine bcast_any_mono ?_ h1 h2 hi2
    intro dt b hb
    rcases b with _ | z | _
    · exact hb
    · simp only [Tol.add, Tol.gt, decide_eq_true_eq] at hb ⊢
      linarith
    · rfl

/-- **C23** (growing with `r`, `SimpleTransitOrbit`): each entry of `bodies` is an orbit with its smaller and larger radius. -/
theorem C23_simple_mono_radius (bodies : List (SimpleOrbit × ℝ × ℝ)) (hdom : ∀ q ∈ bodies, SimpleDomain q.1)
    (hr : ∀ q ∈ bodies, 0 ≤ q.2.1 ∧ q.2.1 ≤ q.2.2) (ts : List ℝ) :
    ∃ l l', simpleInTransit (bodies.map (·.1)) ts (some (bodies.map (·.2.1))) = .ok l ∧
      simpleInTransit (bodies.map (·.1)) ts (some (bodies.map (·.2.2))) = .ok l' ∧ l ⊆ l' := by
  obtain ⟨l, hl, -, hm⟩ := C27_in_transit (bodies.map fun q => (q.1, q.2.1))
    (fun q hq => by obtain ⟨z, hz, rfl⟩ := List.mem_map.1 hq; exact hdom z hz)
    (fun q hq => by obtain ⟨z, hz, rfl⟩ := List.mem_map.1 hq; exact (hr z hz).1) ts
  obtain ⟨l', hl', -, hm'⟩ := C27_in_transit (bodies.map fun q => (q.1, q.2.2))
    (fun q hq => by obtain ⟨z, hz, rfl⟩ := List.mem_map.1 hq; exact hdom z hz)
    (fun q hq => by obtain ⟨z, hz, rfl⟩ := List.mem_map.1 hq; exact (hr z hz).1.trans (hr z hz).2) ts
  simp only [List.map_map, Function.comp_def] at hl hl'
  refine ⟨l, l', hl, hl', fun i hi => ?_⟩
  rw [hm] at hi
  rw [hm']
  obtain ⟨h, q, hq, x, y, z, hp, hs⟩ := hi
  obtain ⟨w, hw, rfl⟩ := List.mem_map.1 hq
  exact ⟨h, (w.1, w.2.2), List.mem_map.2 ⟨w, hw, rfl⟩, x, y, z, hp, hs.trans_le (by have := (hr w hw).2; simp only; linarith)⟩

/-- The documented domain is not empty: `SimpleTransitOrbit(period=3, duration=0.2, t0=1, b=0.5, r_star=2, ror=0.1)`. -/
example : SimpleDomain (simpleInit 3 (1 / 5) 1 (1 / 2) 2 (1 / 10)) :=
  ⟨_, _, _, _, _, _, rfl, by norm_num, by norm_num, by norm_num, by norm_num, by rw [abs_of_pos] <;> norm_num⟩

/-! ## C28 -/

/-- **C28**: requesting light delay in `in_transit` (both orbit classes) or in `SimpleTransitOrbit.get_relative_position`, and
any velocity of a `SimpleTransitOrbit`, raises `NotImplementedError`, for all arguments. Missing:
`SimpleTransitOrbit.get_planet_position` and `get_star_position`, which silently ignore the request
(`C28_light_delay_ignored`). -/
theorem C28_refused_partial :
    (∀ cp planets ts texp, ∃ m, inTransit cp planets ts texp true = .error (.notImplemented m)) ∧
    (∀ planets ts r texp, ∃ m, simpleInTransit planets ts r texp true = .error (.notImplemented m)) ∧
    (∀ (o : SimpleOrbit) t, ∃ m, o.relativePosition t true = .error (.notImplemented m)) ∧
    (∀ (o : SimpleOrbit) t, ∃ m, o.planetVelocity t = .error (.notImplemented m)) ∧
    (∀ (o : SimpleOrbit) t, ∃ m, o.starVelocity t = .error (.notImplemented m)) ∧
    (∀ (o : SimpleOrbit) t u, ∃ m, o.radialVelocity t u = .error (.notImplemented m)) :=
  ⟨fun _ _ _ _ => ⟨_, rfl⟩, fun _ _ _ _ => ⟨_, rfl⟩, fun _ _ => ⟨_, rfl⟩, fun _ _ => ⟨_, rfl⟩, fun _ _ => ⟨_, rfl⟩,
    fun _ _ _ => ⟨_, rfl⟩⟩

/-- ... and without the request nothing is refused. -/
theorem C28_supported (o : SimpleOrbit) (t : ℝ) : ∃ p, o.relativePosition t = .ok p := ⟨_, rfl⟩

/-- **C28 is false**: `SimpleTransitOrbit.get_planet_position(t, light_delay=True)` and `get_star_position(t,
light_delay=True)` succeed and return the positions without delay. -/
theorem C28_light_delay_ignored (o : SimpleOrbit) (t : ℝ) :
    (∃ p, o.planetPosition t true = .ok p) ∧ o.planetPosition t true = o.planetPosition t false ∧
    o.starPosition t true = .ok (some 0, 0, 0) := ⟨⟨_, rfl⟩, rfl, rfl⟩

end Exo
