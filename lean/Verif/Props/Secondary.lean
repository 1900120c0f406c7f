import Verif.Model.Secondary
import Verif.Spec.Secondary
import Verif.Props.LightCurve2

/-!
# C42: secondary eclipses
-/

namespace Exo
open Real

/-- The last lines: `(lc1 + flux_ratio * lc2) / (1 + flux_ratio)` for one planet. -/
theorem combine_spec (r lc1 lc2 : Tensor ℝ) (s : List ℕ) (g : ℝ → ℝ) (hr : r.shape = [] ∨ r.shape = [1])
    (h1 : lc1.shape = s ++ [1]) (h2 : lc2.shape = s ++ [1]) :
    ∃ a b c, (r.map g).zipB (· * ·) lc2 = .ok a ∧ lc1.zipB (· + ·) a = .ok b ∧
      b.zipB (· / ·) ((r.map g).map (1 + ·)) = .ok c ∧ c.shape = s ++ [1] ∧
      ∀ i, InShape i s → c.get (i ++ [0]) =
        (lc1.get (i ++ [0]) + g (r.toList.headD 0) * lc2.get (i ++ [0])) / (1 + g (r.toList.headD 0)) := by
  have hrow : bcastShape [1] (s ++ [1]) = .ok (s ++ [1]) := by
    simp [bcastShape, bcastRev, bcastDim_one_left]
  have e1 : bcastShape (r.map g).shape lc2.shape = .ok (s ++ [1]) := by
    rw [h2]
    rcases hr with h | h <;> simp only [Tensor.map, h]
    · exact bcastShape_nil_left _
    · exact hrow
  have e2 : bcastShape (s ++ [1]) ((r.map g).map (1 + ·)).shape = .ok (s ++ [1]) := by
    rcases hr with h | h <;> simp only [Tensor.map, h]
    · simp [bcastShape, bcastRev_nil_right]
    · exact bcastShape_row s 1
  have hv : ∀ (x : Tensor ℝ) (i : List ℕ), (x.shape = [] ∨ x.shape = [1]) → x.bget (i ++ [0]) = x.toList.headD 0 := by
    intro x i hx
    rcases hx with h | h
    · rw [Tensor.bget_scalar h]; simp [Tensor.toList, Tensor.size, h, Tensor.unravel]
    · rw [Tensor.bget_row h i (by norm_num), Tensor.toList_vec h]; simp
  have hm : ∀ f : ℝ → ℝ, (r.map f).toList.headD 0 = f (r.toList.headD 0) := by
    intro f
    rcases hr with h | h <;> simp [Tensor.toList, Tensor.size, h, Tensor.map, Tensor.unravel]
  refine ⟨_, _, _, Tensor.zipB_ok e1, Tensor.zipB_ok (s := s ++ [1]) (by rw [h1]; exact bcastShape_self _),
    Tensor.zipB_ok (s := s ++ [1]) e2, rfl, fun i hi => ?_⟩
  have hi' : InShape (i ++ [0]) (s ++ [1]) := inShape_snoc hi (by norm_num)
  simp only
  rw [hv ((r.map g).map (1 + ·)) i (by simpa [Tensor.map] using hr)]
  rw [Tensor.bget_self (x := ⟨s ++ [1], _⟩) hi']
  simp only
  rw [Tensor.bget_self (x := lc1) (by rw [h1]; exact hi'), Tensor.bget_self (x := ⟨s ++ [1], _⟩) hi']
  simp only
  rw [hv (r.map g) i (by simpa [Tensor.map] using hr), Tensor.bget_self (x := lc2) (by rw [h2]; exact hi')]
  have h3 : (r.map g).map (1 + ·) = r.map (fun x => 1 + g x) := rfl
  rw [h3, hm, hm]

theorem flipAll_single (C : Consts) (o o' : Orbit) (r : Tensor ℝ) (hr : r.shape = [] ∨ r.shape = [1])
    (h : o.flip C (r.toList.headD 0) = .ok o') : flipAll C [o] r.toList = .ok [o'] := by
  have : r.toList = [r.toList.headD 0] := by
    rcases hr with h | h <;> simp [Tensor.toList, Tensor.size, h]
  rw [this]
  generalize r.toList.headD 0 = ρ at h
  unfold flipAll bcast
  simp [h, List.mapM_cons]

theorem toList_one (r : Tensor ℝ) (hr : r.shape = [] ∨ r.shape = [1]) :
    r.get (Tensor.unravel r.shape 0) = r.toList.headD 0 ∧ r.size = 1 := by
  rcases hr with h | h <;> simp [Tensor.toList, Tensor.size, h, Tensor.unravel]

/-! ## C42 -/

/-- **C42** (values): for one companion of radius `ρ` (given as a scalar or a vector of length one) on a physical Keplerian
orbit, any shape of times: the flipped orbit exists, the result has shape `t.shape + (1,)` and is the relative change of the
total flux of two bodies, the companion having `ratio · (ρ/R)²` times the flux of the primary. The primary is dimmed by the
companion, the companion by the primary, seen at the opposite position. -/
theorem C42_value_partial (C : Consts) (cp : ContactOp) (A : Args) (o : Orbit) (h : keplerianInit C A = .ok o) (hp : o.Physical)
    (l : SecondaryEclipse) (r t : Tensor ℝ) (ρ : ℝ) (hr : r.shape = [] ∨ r.shape = [1]) (hρ : r.toList.headD 0 = ρ)
    (hs : 0 ≤ l.surface_brightness_ratio) (oversample order : ℤ) :
    ∃ L, l.getLightCurve C cp [o] o.r_star r t none oversample order (some false) = .ok L ∧ L.shape = t.shape ++ [1] ∧
      ∀ i, InShape i t.shape → ∀ F1, 0 < F1 → L.get (i ++ [0]) =
        totalChange F1 (l.surface_brightness_ratio * (ρ / o.r_star) ^ 2 * F1)
          (fluxAt l.primary.c o.r_star ρ (o.relativePosition C (t.get i)))
          (fluxAt l.secondary.c ρ o.r_star ((o.relativePosition C (t.get i)).smul (-1))) := by
  subst hρ
  obtain ⟨o', ho', hr', -, -, -, -, hrel⟩ := C20_flip C A o h hp (r.toList.headD 0)
  obtain ⟨hr0, hr1⟩ := toList_one r hr
  obtain ⟨lc1, g1, g2, g3⟩ := C39_kepler C cp l.primary [o] o.r_star false r t hr1 oversample order
  obtain ⟨lc2, k1, k2, k3⟩ := C39_kepler C cp l.secondary [o'] (r.toList.headD 0) false (Tensor.scalar o.r_star) t rfl
    oversample order
  obtain ⟨a, b, c, c1, c2, c3, c4, c5⟩ := combine_spec r lc1 lc2 t.shape
    (fun r => l.surface_brightness_ratio * (r / o.r_star) ^ 2) hr g2 k2
  refine ⟨c, ?_, c4, fun i hi F1 hF1 => ?_⟩
  · unfold SecondaryEclipse.getLightCurve
    simp only [bind, Except.bind, flipAll_single C o o' r hr ho', g1, k1, c1, c2, c3]
  · rw [c5 i hi, g3 i 0 (by norm_num) hi, k3 i 0 (by norm_num) hi, hr0]
    simp only [List.getElem_cons_zero]
    have e : o'.relativePosition C (t.get i) none false = (o.relativePosition C (t.get i)).smul (-1) :=
      (hrel (t.get i) none).2.2.1
    rw [e]
    simp only [Tensor.scalar]
    have hq : 0 ≤ l.surface_brightness_ratio * (r.toList.headD 0 / o.r_star) ^ 2 := by positivity
    unfold totalChange
    generalize l.surface_brightness_ratio * (r.toList.headD 0 / o.r_star) ^ 2 = q at hq
    have h1 : F1 + q * F1 ≠ 0 := by nlinarith
    have h2 : 1 + q ≠ 0 := by positivity
    field_simp
    ring

/-- **C42** (values with exposure time, a scalar or one per time): the exposure averages are combined. -/
theorem C42_value_exposure_partial (C : Consts) (cp : ContactOp) (A : Args) (o : Orbit) (h : keplerianInit C A = .ok o)
    (hp : o.Physical) (l : SecondaryEclipse) (r t x : Tensor ℝ) (ρ : ℝ) (hr : r.shape = [] ∨ r.shape = [1])
    (hρ : r.toList.headD 0 = ρ) (hx : x.shape = [] ∨ x.shape = t.shape) (hs : 0 ≤ l.surface_brightness_ratio)
    (oversample order : ℤ) (ho : order = 0 ∨ order = 1 ∨ order = 2) (hn : 1 ≤ oversample) :
    ∃ S, stencil order oversample = .ok S ∧
    ∃ L, l.getLightCurve C cp [o] o.r_star r t (some x) oversample order (some false) = .ok L ∧
      L.shape = t.shape ++ [1] ∧
      ∀ i, InShape i t.shape → ∀ F1, 0 < F1 → L.get (i ++ [0]) =
        totalChange F1 (l.surface_brightness_ratio * (ρ / o.r_star) ^ 2 * F1)
          (exposureAverage (fun s => fluxAt l.primary.c o.r_star ρ (o.relativePosition C s)) (t.get i)
            (some (texpAt x i, S)))
          (exposureAverage (fun s => fluxAt l.secondary.c ρ o.r_star ((o.relativePosition C s).smul (-1))) (t.get i)
            (some (texpAt x i, S))) := by
  subst hρ
  obtain ⟨o', ho', hr', -, -, -, -, hrel⟩ := C20_flip C A o h hp (r.toList.headD 0)
  obtain ⟨hr0, hr1⟩ := toList_one r hr
  obtain ⟨S, hS, lc1, g1, g2, g3⟩ := C39_values_exposure l.primary (keplerApi C cp [o] o.r_star) false _ rfl r t x hr1 hx
    oversample order ho hn
  obtain ⟨S', hS', lc2, k1, k2, k3⟩ := C39_values_exposure l.secondary (keplerApi C cp [o'] (r.toList.headD 0)) false _ rfl
    (Tensor.scalar o.r_star) t x rfl hx oversample order ho hn
  rw [hS] at hS'
  cases hS'
  obtain ⟨a, b, c, c1, c2, c3, c4, c5⟩ := combine_spec r lc1 lc2 t.shape
    (fun r => l.surface_brightness_ratio * (r / o.r_star) ^ 2) hr g2 k2
  refine ⟨S, hS, c, ?_, c4, fun i hi F1 hF1 => ?_⟩
  · unfold SecondaryEclipse.getLightCurve
    simp only [bind, Except.bind, flipAll_single C o o' r hr ho', g1, k1, c1, c2, c3]
  · rw [c5 i hi, g3 i 0 hi (by simp [keplerApi]), k3 i 0 hi (by simp [keplerApi]), hr0]
    have e : ∀ s, o'.relativePosition C s none false = (o.relativePosition C s).smul (-1) := fun s =>
      (hrel s none).2.2.1
    simp only [List.getElem?_cons_zero, e, Tensor.scalar]
    change (_ + _ * exposureAverage (fun s => fluxAt l.secondary.c (r.toList.headD 0) o.r_star _) _ _) / _ = _
    have hq : 0 ≤ l.surface_brightness_ratio * (r.toList.headD 0 / o.r_star) ^ 2 := by positivity
    unfold totalChange
    generalize l.surface_brightness_ratio * (r.toList.headD 0 / o.r_star) ^ 2 = q at hq
    have h1 : F1 + q * F1 ≠ 0 := by nlinarith
    have h2 : 1 + q ≠ 0 := by positivity
    change (exposureAverage (fun s => fluxAt l.primary.c o.r_star (r.toList.headD 0) (o.relativePosition C s)) _ _ + _) / _ = _
    field_simp
    ring

/-- **C42** (dark companion): with surface brightness ratio zero the result is the primary's light curve. -/
theorem C42_dark_partial (C : Consts) (cp : ContactOp) (A : Args) (o : Orbit) (h : keplerianInit C A = .ok o) (hp : o.Physical)
    (l : SecondaryEclipse) (r t : Tensor ℝ) (hr : r.shape = [] ∨ r.shape = [1])
    (hs : l.surface_brightness_ratio = 0) (oversample order : ℤ) :
    ∃ L L', l.getLightCurve C cp [o] o.r_star r t none oversample order (some false) = .ok L ∧
      l.primary.getLightCurve (some (keplerApi C cp [o] o.r_star)) (some r) (some t) none oversample order (some false) = .ok L' ∧
      L.Same L' := by
  obtain ⟨L, h1, h2, h3⟩ := C42_value_partial C cp A o h hp l r t _ hr rfl hs.ge oversample order
  obtain ⟨hr0, hr1⟩ := toList_one r hr
  obtain ⟨L', g1, g2, g3⟩ := C39_kepler C cp l.primary [o] o.r_star false r t hr1 oversample order
  refine ⟨L, L', h1, g1, by rw [h2, g2]; rfl, fun idx hidx => ?_⟩
  rw [h2] at hidx
  obtain ⟨i, k, rfl, hi, hk⟩ := hidx.snoc_inv
  obtain rfl : k = 0 := by omega
  rw [h3 i hi 1 one_pos, g3 i 0 (by norm_num) hi, hs, hr0]
  unfold totalChange
  simp

/-- The relative change of the total flux is between the two relative changes. -/
theorem totalChange_range {F1 F2 d1 d2 : ℝ} (h1 : 0 < F1) (h2 : 0 ≤ F2) (a1 : -1 ≤ d1 ∧ d1 ≤ 0) (a2 : -1 ≤ d2 ∧ d2 ≤ 0) :
    -1 ≤ totalChange F1 F2 d1 d2 ∧ totalChange F1 F2 d1 d2 ≤ 0 := by
  unfold totalChange
  have h3 : 0 < F1 + F2 := by linarith
  constructor
  · have : 0 ≤ (F1 * (1 + d1) + F2 * (1 + d2)) / (F1 + F2) := by
      apply div_nonneg _ h3.le
      have := a1.1; have := a2.1
      have := mul_nonneg h1.le (by linarith : 0 ≤ 1 + d1)
      have := mul_nonneg h2 (by linarith : 0 ≤ 1 + d2)
      linarith
    linarith
  · have : (F1 * (1 + d1) + F2 * (1 + d2)) / (F1 + F2) ≤ 1 := by
      rw [div_le_one h3]
      have := a1.2; have := a2.2
      nlinarith
    linarith

/-- **C42** (range): for physical limb-darkening laws all values are between `-1` and `0`. -/
theorem C42_range_partial (C : Consts) (cp : ContactOp) (A : Args) (o : Orbit) (h : keplerianInit C A = .ok o) (hp : o.Physical)
    (u1 u2 v1 v2 ratio : ℝ) (hu : PhysicalLaw u1 u2) (hv : PhysicalLaw v1 v2) (hs : 0 ≤ ratio) (r t : Tensor ℝ)
    (hr : r.shape = [] ∨ r.shape = [1]) (oversample order : ℤ) :
    ∃ l L, SecondaryEclipse.new [u1, u2] [v1, v2] ratio = .ok l ∧
      l.getLightCurve C cp [o] o.r_star r t none oversample order (some false) = .ok L ∧
      ∀ idx, InShape idx L.shape → -1 ≤ L.get idx ∧ L.get idx ≤ 0 := by
  obtain ⟨L, h1, h2, h3⟩ := C42_value_partial C cp A o h hp ⟨LimbDark.new u1 u2, LimbDark.new v1 v2, ratio⟩ r t _ hr rfl hs
    oversample order
  refine ⟨_, L, rfl, h1, fun idx hidx => ?_⟩
  rw [h2] at hidx
  obtain ⟨i, k, rfl, hi, hk⟩ := hidx.snoc_inv
  obtain rfl : k = 0 := by omega
  rw [h3 i hi 1 one_pos]
  exact totalChange_range one_pos (by positivity) (C37_range u1 u2 _ _ _ hu) (C37_range v1 v2 _ _ _ hv)

/-- The average of numbers in `[-1, 0]` with positive weights of sum one is in `[-1, 0]`. -/
theorem exposureAverage_range {F : ℝ → ℝ} (hF : ∀ s, -1 ≤ F s ∧ F s ≤ 0) {S : List ℝ × List ℝ} (hl : S.2.length = S.1.length)
    (hw : ∀ w ∈ S.2, 0 < w) (hsum : S.2.sum = 1) (t x : ℝ) :
    -1 ≤ exposureAverage F t (some (x, S)) ∧ exposureAverage F t (some (x, S)) ≤ 0 := by
  have key : ∀ (d w : List ℝ), w.length = d.length → (∀ y ∈ w, 0 < y) →
      -w.sum ≤ (List.zipWith (fun d w => w * F (t + x * d)) d w).sum ∧
      (List.zipWith (fun d w => w * F (t + x * d)) d w).sum ≤ 0 := by
    intro d
    induction d with
    | nil => intro w hw _; rw [List.length_nil, List.length_eq_zero_iff] at hw; subst hw; simp
    | cons a d ih =>
      intro w hlen hpos
      rcases w with _ | ⟨b, w⟩
      · simp at hlen
      · obtain ⟨i1, i2⟩ := ih w (by simpa using hlen) (fun y hy => hpos y (by simp [hy]))
        have hb := hpos b (by simp)
        obtain ⟨f1, f2⟩ := hF (t + x * a)
        simp only [List.sum_cons, List.zipWith_cons_cons]
        constructor <;> nlinarith
  obtain ⟨k1, k2⟩ := key S.1 S.2 hl hw
  rw [hsum] at k1
  exact ⟨k1, k2⟩

/-- **C42** (range, with exposure time). -/
theorem C42_range_exposure_partial (C : Consts) (cp : ContactOp) (A : Args) (o : Orbit) (h : keplerianInit C A = .ok o)
    (hp : o.Physical) (u1 u2 v1 v2 ratio : ℝ) (hu : PhysicalLaw u1 u2) (hv : PhysicalLaw v1 v2) (hs : 0 ≤ ratio)
    (r t x : Tensor ℝ) (hr : r.shape = [] ∨ r.shape = [1]) (hx : x.shape = [] ∨ x.shape = t.shape) (oversample order : ℤ)
    (ho : order = 0 ∨ order = 1 ∨ order = 2) (hn : 1 ≤ oversample) :
    ∃ l L, SecondaryEclipse.new [u1, u2] [v1, v2] ratio = .ok l ∧
      l.getLightCurve C cp [o] o.r_star r t (some x) oversample order (some false) = .ok L ∧
      ∀ idx, InShape idx L.shape → -1 ≤ L.get idx ∧ L.get idx ≤ 0 := by
  obtain ⟨S, hS, L, h1, h2, h3⟩ := C42_value_exposure_partial C cp A o h hp ⟨LimbDark.new u1 u2, LimbDark.new v1 v2, ratio⟩ r t x _ hr
    rfl hx hs oversample order ho hn
  obtain ⟨S', hS', -, hSlen, -, hw, hsum⟩ := C38_weights order oversample ho hn
  rw [hS] at hS'
  cases hS'
  refine ⟨_, L, rfl, h1, fun idx hidx => ?_⟩
  rw [h2] at hidx
  obtain ⟨i, k, rfl, hi, hk⟩ := hidx.snoc_inv
  obtain rfl : k = 0 := by omega
  rw [h3 i hi 1 one_pos]
  exact totalChange_range one_pos (by positivity)
    (exposureAverage_range (fun s => C37_range u1 u2 _ _ _ hu) hSlen hw hsum _ _)
    (exposureAverage_range (fun s => C37_range v1 v2 _ _ _ hv) hSlen hw hsum _ _)

/-- **C42** (at most one eclipse): at any relative position at most one of the two bodies is eclipsed by the other. -/
theorem C42_exclusive (c c' : ℝ × ℝ × ℝ) (R r : ℝ) (hR : 0 < R) (hr : 0 < r) (v : V3) :
    fluxAt c R r v = 0 ∨ fluxAt c' r R (v.smul (-1)) = 0 := by
  rcases le_total v.z 0 with h | h
  · left
    exact C37_behind _ _ _ _ (div_nonpos_of_nonpos_of_nonneg h hR.le)
  · right
    refine C37_behind _ _ _ _ (div_nonpos_of_nonpos_of_nonneg ?_ hr.le)
    simp only [V3.smul]; linarith

/-- **C42** (symmetry of the geometry): the companion is eclipsed only where its disc meets the disc of the primary behind it. -/
theorem C42_eclipse_geometry (v1 v2 R r : ℝ) (hv : PhysicalLaw v1 v2) (hr : 0 < r) (v : V3)
    (h : fluxAt (getCl v1 v2) r R (v.smul (-1)) ≠ 0) : v.z < 0 ∧ √(v.x ^ 2 + v.y ^ 2) < R + r := by
  by_contra hcon
  apply h
  refine fluxAt_zero hv.pos.ne' hr ?_
  rintro ⟨h1, h2⟩
  simp only [V3.smul] at h1 h2
  rw [show (-1 * v.x) ^ 2 + (-1 * v.y) ^ 2 = v.x ^ 2 + v.y ^ 2 by ring] at h2
  rcases (show -1 * v.z = 0 ∨ v.z < 0 by rcases (by linarith : v.z ≤ 0).eq_or_lt with h | h; · left; linarith
                                         · right; exact h) with h3 | h3
  · apply h
    refine C37_behind _ _ _ _ ?_
    simp only [V3.smul, h3, zero_div, le_refl]
  · exact hcon ⟨h3, by linarith⟩

/-- **C42 does not extend to systems**: for two or more planets (and the scalar `r_star` that the orbit has) the call raises as
soon as there are times, because the companion's light curve is requested with the single radius `orbit.r_star`. -/
theorem C42_system_counterexample (C : Consts) (cp : ContactOp) (l : SecondaryEclipse) (A B : Args) (o o' : Orbit)
    (h : keplerianInit C A = .ok o) (h' : keplerianInit C B = .ok o') (hp : o.Physical) (hp' : o'.Physical)
    (r1 r2 : ℝ) (t : Tensor ℝ) (ht : t.size ≠ 0) (oversample order : ℤ) :
    l.getLightCurve C cp [o, o'] o.r_star (Tensor.ofList [r1, r2] 0) t none oversample order (some false) =
      .error (.valueError "cannot reshape") := by
  obtain ⟨f, hf, -⟩ := C20_flip C A o h hp r1
  obtain ⟨f', hf', -⟩ := C20_flip C B o' h' hp' r2
  have hfl : flipAll C [o, o'] (Tensor.ofList [r1, r2] (0 : ℝ)).toList = .ok [f, f'] := by
    rw [ofList_toList]
    unfold flipAll bcast
    simp [hf, hf', List.mapM_cons]
    rfl
  obtain ⟨L, g1, -⟩ := C39_kepler C cp l.primary [o, o'] o.r_star false (Tensor.ofList [r1, r2] 0) t
    (by simp [Tensor.ofList, Tensor.size]) oversample order
  have g2 := C39_radius_count l.secondary (keplerApi C cp [f, f'] r1) false _ rfl (Tensor.scalar o.r_star) t
    (by simp [Tensor.scalar, Tensor.size, keplerApi]) ht oversample order
  unfold SecondaryEclipse.getLightCurve
  simp only [bind, Except.bind, hfl, g1]
  rw [ofList_toList]
  simp only [List.headD_cons, g2]

/-- **C42** with the default `use_in_transit`: it changes nothing when both bodies can be found in transit (`Tractable`), without
or with one common exposure time. -/
theorem C42_use_in_transit_partial (C : Consts) (cp : ContactOp) (u1 u2 v1 v2 ratio : ℝ) (hu : PhysicalLaw u1 u2)
    (hv : PhysicalLaw v1 v2) (o o' : Orbit) (r : Tensor ℝ) (ρ : ℝ) (hr : r.shape = [] ∨ r.shape = [1])
    (hρ : r.toList.headD 0 = ρ) (hf : o.flip C ρ = .ok o') (texp : Option ℝ) (hx : ∀ x, texp = some x → 0 ≤ x)
    (hT : Tractable C cp o ρ (texp.getD 0)) (hT' : Tractable C cp o' o.r_star (texp.getD 0)) (ts : List ℝ)
    (oversample order : ℤ) (ho : order = 0 ∨ order = 1 ∨ order = 2) (hn : 1 ≤ oversample) :
    ∃ l L L', SecondaryEclipse.new [u1, u2] [v1, v2] ratio = .ok l ∧
      l.getLightCurve C cp [o] o.r_star r (Tensor.ofList ts 0) (texp.map Tensor.scalar) oversample order (some true) = .ok L ∧
      l.getLightCurve C cp [o] o.r_star r (Tensor.ofList ts 0) (texp.map Tensor.scalar) oversample order (some false) = .ok L' ∧
      L.Same L' := by
  subst hρ
  obtain ⟨hr0, hr1⟩ := toList_one r hr
  have hl : r.toList = [r.toList.headD 0] := by
    rcases hr with h | h <;> simp [Tensor.toList, Tensor.size, h]
  have hrs : o'.r_star = r.toList.headD 0 := by
    obtain ⟨A, hA⟩ := hT.1
    obtain ⟨o'', h1, h2, -⟩ := C20_flip C A o hA hT.2.1 (r.toList.headD 0)
    rw [hf] at h1; cases h1; exact h2
  obtain ⟨L1, M1, a1, a2, a3⟩ := C40_kepler_partial C cp u1 u2 hu.pos.ne' [o] r ts o.r_star hr1 (by simp) texp hx
    (by rw [hl]; simpa using hT) oversample order ho hn
  obtain ⟨L2, M2, b1, b2, b3⟩ := C40_kepler_partial C cp v1 v2 hv.pos.ne' [o'] (Tensor.scalar o.r_star) ts o'.r_star rfl (by simp)
    texp hx (by simpa [Tensor.toList, Tensor.scalar, Tensor.size] using hT') oversample order ho hn
  have s1 := C39_shape_in_transit _ _ _ _ _ _ _ _ _ a1
  have s2 := C39_shape_in_transit _ _ _ _ _ _ _ _ _ b1
  rw [hr1] at s1
  rw [show (Tensor.scalar o.r_star).size = 1 from rfl] at s2
  have t1 : M1.shape = (Tensor.ofList ts (0 : ℝ)).shape ++ [1] := by rw [← a3.1, s1]
  have t2 : M2.shape = (Tensor.ofList ts (0 : ℝ)).shape ++ [1] := by rw [← b3.1, s2]
  obtain ⟨a, b, c, c1, c2, c3, c4, c5⟩ := combine_spec r L1 L2 _ (fun r => ratio * (r / o.r_star) ^ 2) hr s1 s2
  obtain ⟨d, e, f, d1, d2, d3, d4, d5⟩ := combine_spec r M1 M2 _ (fun r => ratio * (r / o.r_star) ^ 2) hr t1 t2
  refine ⟨_, c, f, rfl, ?_, ?_, ?_, ?_⟩
  · unfold SecondaryEclipse.getLightCurve
    simp only [bind, Except.bind, flipAll_single C o o' r hr hf, a1, ← hrs, b1, c1, c2, c3]
  · unfold SecondaryEclipse.getLightCurve
    simp only [bind, Except.bind, flipAll_single C o o' r hr hf, a2, ← hrs, b2, d1, d2, d3]
  · rw [c4, d4]
  · intro idx hidx
    rw [c4] at hidx
    obtain ⟨i, k, rfl, hi, hk⟩ := hidx.snoc_inv
    obtain rfl : k = 0 := by omega
    rw [c5 i hi, d5 i hi, a3.2 _ (by rw [s1]; exact inShape_snoc hi (by norm_num)),
      b3.2 _ (by rw [s2]; exact inShape_snoc hi (by norm_num))]

/-- Two equal stars, each of radius `s`, seen edge-on. -/
noncomputable def demoBinary (s : ℝ) : Args :=
  { period := some (1 : ℝ), m_star := some (1 : ℝ), m_planet := some (1 : ℝ), r_star := some (s : ℝ), incl := some (π / 2 : ℝ) }

/-- The hypotheses of `C42_use_in_transit_partial` are met by `demoBinary`, for stars that do not touch. -/
theorem demoBinary_tractable (C : Consts) (cp : ContactOp) : ∃ s o o', 0 < s ∧ keplerianInit C (demoBinary s) = .ok o ∧ o.flip C s = .ok o' ∧
    Tractable C cp o s 0.1 ∧ Tractable C cp o' o.r_star 0.1 := by
  have hG := C.G_pos
  have hg := C.gccPerSun_pos
  have hpi := pi_pos
  set a : ℝ := (C.G * (1 + 1) * 1 ^ 2 / (4 * π ^ 2)) ^ ((1 : ℝ) / 3) with ha
  have ha0 : 0 < a := by positivity
  have hs : 0 < a / 4 := by positivity
  have phys : ∀ o, keplerianInit C (demoBinary (a / 4)) = .ok o → o.Physical ∧ o.ecc = none ∧ o.sin_incl = 1 ∧
      o.r_star = a / 4 ∧ o.a = a ∧ o.m_planet = 1 := by
    rintro o ⟨⟩
    refine ⟨⟨?_, ?_, ?_, ?_, ?_, ?_, ?_, ?_, ?_, ?_⟩, ?_, ?_, ?_, ?_, ?_⟩ <;> simp <;> try positivity
    norm_num [ha]
  obtain ⟨o, ho⟩ : ∃ o, keplerianInit C (demoBinary (a / 4)) = .ok o := ⟨_, rfl⟩
  obtain ⟨hp, he, hsi, hR, haa, hm⟩ := phys o ho
  obtain ⟨o', hf, hr', hms, hmp, ha', hP, -⟩ := C20_flip C _ o ho hp (a / 4)
  refine ⟨a / 4, o, o', hs, ho, hf, ⟨⟨_, ho⟩, hp, hs.le, ?_⟩, ⟨⟨_, hf⟩, ?_, ?_, ?_⟩⟩
  · rw [he]; exact ⟨by rw [hsi]; norm_num, by rw [hR, haa]; linarith⟩
  · have hf' := hf
    unfold Orbit.flip Orbit.flipArgs at hf'
    simp only [he] at hf'
    cases ho
    cases hf'
    refine ⟨?_, ?_, ?_, ?_, ?_, ?_, ?_, ?_, ?_, ?_⟩ <;> simp <;> try positivity
  · rw [hR]; exact hs.le
  · have h2 : o'.ecc = none ∧ o'.sin_incl = 1 := by
      have hf' := hf
      unfold Orbit.flip Orbit.flipArgs at hf'
      simp only [he] at hf'
      cases ho
      cases hf'
      exact ⟨rfl, by simp⟩
    rw [h2.1]
    exact ⟨by rw [h2.2]; norm_num, by rw [hr', hR, ha', haa]; linarith⟩

/-- The hypotheses are met by an eccentric binary with limb-darkened components. -/
example (C : Consts) : ∃ A o, keplerianInit C A = .ok o ∧ o.Physical ∧ o.ecc ≠ none ∧
    (Tensor.scalar (0.5 : ℝ)).shape = [] ∧ (Tensor.scalar (0.5 : ℝ)).toList.headD 0 = 0.5 ∧ PhysicalLaw 0.3 0.2 := by
  obtain ⟨o, h, hp, -, -, -, -, -, -, -, p, h1, -⟩ := demoEcc_ok C
  exact ⟨_, o, h, hp, by simp [h1], rfl, by simp [Tensor.toList, Tensor.scalar, Tensor.size],
    physicalLaw_of_kipping (by norm_num) (by norm_num)⟩

end Exo
