import Verif.Lemmas.Depth

/-!
# Lemmas for what a light curve determines
-/

namespace Exo
open Real MeasureTheory Set

/-! ## Regularly spaced intervals -/

/-- Intervals of half width `τ` around `c + j P`. -/
def comb (c P τ : ℝ) : Set ℝ := {t | ∃ j : ℤ, |t - (c + j * P)| < τ}

theorem comb_core {c P τ c' P' τ' : ℝ} (hP : 0 < P) (hτ : 0 < τ) (h2 : 2 * τ < P) (hτ' : 0 < τ') (h2' : 2 * τ' < P')
    (h : comb c P τ = comb c' P' τ') : τ' = τ ∧ ∃ j : ℤ, c' = c + j * P := by
  have hend : ∀ {c P τ : ℝ}, 2 * τ < P → ∀ j : ℤ, c + j * P + τ ∉ comb c P τ ∧ c + j * P - τ ∉ comb c P τ := by
    intro c P τ h2 j
    have key : ∀ i : ℤ, ∀ s : ℝ, (s = τ ∨ s = -τ) → ¬|c + j * P + s - (c + i * P)| < τ := by
      intro i s hs hlt
      have e : c + j * P + s - (c + i * P) = ((j - i : ℤ) : ℝ) * P + s := by push_cast; ring
      rw [e, abs_lt] at hlt
      have ht : 0 < τ := by linarith [hlt.1, hlt.2]
      rcases lt_trichotomy (j - i) 0 with h | h | h
      · have : ((j - i : ℤ) : ℝ) ≤ -1 := by exact_mod_cast Int.le_sub_one_of_lt h
        rcases hs with rfl | rfl <;> nlinarith
      · rw [h] at hlt
        rcases hs with rfl | rfl <;> norm_num at hlt
      · have : (1 : ℝ) ≤ ((j - i : ℤ) : ℝ) := by exact_mod_cast h
        rcases hs with rfl | rfl <;> nlinarith
    constructor
    · rintro ⟨i, hi⟩
      exact key i τ (Or.inl rfl) hi
    · rintro ⟨i, hi⟩
      exact key i (-τ) (Or.inr rfl) (by rw [← sub_eq_add_neg]; exact hi)
  have hc' : c' ∈ comb c P τ := by
    rw [h]
    exact ⟨0, by simpa using hτ'⟩
  obtain ⟨j, hj⟩ := hc'
  rw [abs_lt] at hj
  obtain ⟨e1, e2⟩ := hend h2 j
  obtain ⟨f1, f2⟩ := hend h2' 0
  simp only [Int.cast_zero, zero_mul, add_zero] at f1 f2
  have m : ∀ t, |t - (c + j * P)| < τ → t ∈ comb c P τ := fun t ht => ⟨j, ht⟩
  have m' : ∀ t, |t - c'| < τ' → t ∈ comb c' P' τ' := fun t ht => ⟨0, by simpa using ht⟩
  rw [h] at e1 e2
  rw [← h] at f1 f2
  have a1 : c' + τ' ≤ c + j * P + τ := by
    by_contra hlt
    exact e1 (m' _ (abs_lt.2 ⟨by linarith, by linarith⟩))
  have a2 : c + j * P + τ ≤ c' + τ' := by
    by_contra hlt
    exact f1 (m _ (abs_lt.2 ⟨by linarith, by linarith⟩))
  have a3 : c + j * P - τ ≤ c' - τ' := by
    by_contra hlt
    exact e2 (m' _ (abs_lt.2 ⟨by linarith, by linarith⟩))
  have a4 : c' - τ' ≤ c + j * P - τ := by
    by_contra hlt
    exact f2 (m _ (abs_lt.2 ⟨by linarith, by linarith⟩))
  exact ⟨by linarith, j, by linarith⟩

theorem comb_shift (c P τ : ℝ) (i : ℤ) : comb (c + i * P) P τ = comb c P τ := by
  ext t
  constructor
  · rintro ⟨j, hj⟩
    exact ⟨i + j, by push_cast; rw [show c + ((i : ℝ) + j) * P = c + i * P + j * P by ring]; exact hj⟩
  · rintro ⟨j, hj⟩
    exact ⟨j - i, by push_cast; rw [show c + i * P + ((j : ℝ) - i) * P = c + j * P by ring]; exact hj⟩

/-- Regularly spaced intervals determine their spacing, width and phase. -/
theorem comb_agree {c P τ c' P' τ' : ℝ} (hP : 0 < P) (hτ : 0 < τ) (h2 : 2 * τ < P) (hP' : 0 < P') (hτ' : 0 < τ') (h2' : 2 * τ' < P')
    (h : comb c P τ = comb c' P' τ') : τ' = τ ∧ P' = P ∧ ∃ j : ℤ, c' = c + j * P := by
  obtain ⟨h1, j, hj⟩ := comb_core hP hτ h2 hτ' h2' h
  have s1 := comb_shift c' P' τ' 1
  have s2 := comb_shift c P τ 1
  obtain ⟨-, i, hi⟩ := comb_core hP hτ h2 hτ' h2' (h.trans s1.symm)
  obtain ⟨-, k, hk⟩ := comb_core hP' hτ' h2' hτ h2 (h.symm)
  obtain ⟨-, l, hl⟩ := comb_core hP' hτ' h2' hτ h2 (h.symm.trans s2.symm)
  push_cast at hi hl
  have e1 : P' = ((i - j : ℤ) : ℝ) * P := by push_cast; linarith
  have e2 : P = ((l - k : ℤ) : ℝ) * P' := by push_cast; linarith
  have p1 : (0 : ℝ) < ((i - j : ℤ) : ℝ) := by
    by_contra hn
    nlinarith
  have p2 : (0 : ℝ) < ((l - k : ℤ) : ℝ) := by
    by_contra hn
    nlinarith
  have q1 : (1 : ℝ) ≤ ((i - j : ℤ) : ℝ) := by
    have : (0 : ℤ) < i - j := by exact_mod_cast p1
    exact_mod_cast this
  have q2 : (1 : ℝ) ≤ ((l - k : ℤ) : ℝ) := by
    have : (0 : ℤ) < l - k := by exact_mod_cast p2
    exact_mod_cast this
  refine ⟨h1, le_antisymm ?_ ?_, j, hj⟩
  · nlinarith
  · nlinarith

/-! ## A body crossing the limb covers strictly less light the further out it is -/

/-- A law that darkens outwards is positive except perhaps at the limb. -/
theorem law_pos {u1 u2 : ℝ} (h : PhysicalLaw u1 u2) (hd : DarkensOutwards u1 u2) {μ : ℝ} (h0 : 0 < μ) (h1 : μ ≤ 1) : 0 < quadLaw u1 u2 μ := by
  refine (h.1 μ h0.le h1).lt_of_ne fun h2 => ?_
  have hz : ∀ x, 0 ≤ x → x ≤ μ → quadLaw u1 u2 x = 0 := fun x hx hxm =>
    le_antisymm ((hd ⟨hx, hxm.trans h1⟩ ⟨h0.le, h1⟩ hxm).trans h2.ge) (h.1 x hx (hxm.trans h1))
  have a1 := hz 0 le_rfl h0.le
  have a2 := hz (μ / 2) (by linarith) (by linarith)
  have a3 := hz μ h0.le le_rfl
  have a4 := h.1 1 zero_le_one le_rfl
  unfold quadLaw at a1 a2 a3
  have b1 : (u1 + 2 * u2) - u2 * μ = 0 := by
    have : μ * ((u1 + 2 * u2) - u2 * μ) = 0 := by linear_combination a3 - a1
    exact (mul_eq_zero.1 this).resolve_left h0.ne'
  have b2 : (u1 + 2 * u2) - u2 * μ / 2 = 0 := by
    have : μ * ((u1 + 2 * u2) - u2 * μ / 2) = 0 := by linear_combination 2 * a2 - 2 * a1
    exact (mul_eq_zero.1 this).resolve_left h0.ne'
  have b3 : u2 = 0 := by
    have : u2 * μ = 0 := by linarith
    exact (mul_eq_zero.1 this).resolve_right h0.ne'
  have b4 : u1 = 0 := by rw [b3] at b1; linarith
  rw [b3, b4] at a1
  norm_num at a1

/-- The covered flux strictly decreases while the body crosses the limb. -/
theorem fluxFrom_strictAnti {u1 u2 : ℝ} (h : PhysicalLaw u1 u2) (hd : DarkensOutwards u1 u2) {b b' r : ℝ} (hr : 0 < r) (h0 : 0 ≤ b)
    (hb : b < b') (h1 : 1 < b' + r) (h2 : r - 1 < b) (h3 : b < 1 + r) :
    fluxFrom u1 u2 (starDisc ∩ bodyDisc b' r) < fluxFrom u1 u2 (starDisc ∩ bodyDisc b r) := by
  set G := starDisc.indicator fun p => quadLaw u1 u2 (muAt p) with hGdef
  have hG : Integrable G :=
    (integrable_indicator_iff measurableSet_starDisc).2 (integrableOn_disc (continuous_law u1 u2) subset_rfl)
  have hdec := law_decreases h hd
  suffices hs : ∫ p in bodyDisc b' r, G p < ∫ p in bodyDisc b r, G p by
    rw [setIntegral_indicator measurableSet_starDisc, setIntegral_indicator measurableSet_starDisc, inter_comm, inter_comm (bodyDisc b r)] at hs
    exact hs
  have hA := measurableSet_bodyDisc b r
  have hA' := measurableSet_bodyDisc b' r
  set m := (b + b') / 2 with hm
  have e1 := integral_inter_add_sdiff (μ := volume) (f := G) (s := bodyDisc b' r) hA hG.integrableOn
  have e2 := integral_inter_add_sdiff (μ := volume) (f := G) (s := bodyDisc b r) hA' hG.integrableOn
  have hpre : reflectAt m ⁻¹' (bodyDisc b r \ bodyDisc b' r) = bodyDisc b' r \ bodyDisc b r := by
    ext ⟨x, y⟩
    simp only [mem_preimage, mem_sdiff, reflectAt, bodyDisc, mem_ofPred_eq]
    rw [show 2 * m - x - b = -(x - b') by rw [hm]; ring, show 2 * m - x - b' = -(x - b) by rw [hm]; ring, neg_sq, neg_sq]
  have e3 := (reflectAt_measurePreserving m).setIntegral_preimage_emb (reflectAt_measurableEmbedding m) G (bodyDisc b r \ bodyDisc b' r)
  rw [hpre] at e3
  have hGr : Integrable (fun p => G (reflectAt m p)) :=
    (reflectAt_measurePreserving m).integrable_comp_of_integrable hG
  have e4 : 0 < ∫ p in bodyDisc b' r \ bodyDisc b r, (G (reflectAt m p) - G p) := by
    rw [setIntegral_pos_iff_support_of_nonneg_ae]
    · -- an open set of points off the star whose reflections are on the star
      let U : Set (ℝ × ℝ) := {p | (p.1 - b') ^ 2 + p.2 ^ 2 < r ^ 2 ∧ r ^ 2 < (p.1 - b) ^ 2 + p.2 ^ 2 ∧ 1 < p.1 ^ 2 + p.2 ^ 2 ∧
        (2 * m - p.1) ^ 2 + p.2 ^ 2 < 1}
      have hU : IsOpen U := by
        have o1 : IsOpen {p : ℝ × ℝ | (p.1 - b') ^ 2 + p.2 ^ 2 < r ^ 2} := isOpen_lt (by fun_prop) (by fun_prop)
        have o2 : IsOpen {p : ℝ × ℝ | r ^ 2 < (p.1 - b) ^ 2 + p.2 ^ 2} := isOpen_lt (by fun_prop) (by fun_prop)
        have o3 : IsOpen {p : ℝ × ℝ | 1 < p.1 ^ 2 + p.2 ^ 2} := isOpen_lt (by fun_prop) (by fun_prop)
        have o4 : IsOpen {p : ℝ × ℝ | (2 * m - p.1) ^ 2 + p.2 ^ 2 < 1} := isOpen_lt (by fun_prop) (by fun_prop)
        exact o1.inter (o2.inter (o3.inter o4))
      have hne : U.Nonempty := by
        set δ := min (min (b' - b) (2 * r)) (min (b' + r - 1) (min (1 + r - b) (b - (r - 1)))) / 2 with hδ
        have hpos : 0 < δ := by
          rw [hδ]
          refine half_pos (lt_min (lt_min (by linarith) (by linarith)) (lt_min (by linarith) (lt_min (by linarith) (by linarith))))
        have d0 : 2 * δ ≤ min (min (b' - b) (2 * r)) (min (b' + r - 1) (min (1 + r - b) (b - (r - 1)))) := by rw [hδ]; linarith
        obtain ⟨d12, d345⟩ := le_min_iff.1 d0
        obtain ⟨d1, d2⟩ := le_min_iff.1 d12
        obtain ⟨d3, d45⟩ := le_min_iff.1 d345
        obtain ⟨d4, d5⟩ := le_min_iff.1 d45
        refine ⟨(b' + r - δ, 0), ?_, ?_, ?_, ?_⟩
        · simp only; nlinarith
        · simp only; nlinarith
        · simp only; nlinarith
        · simp only
          rw [hm, show 2 * ((b + b') / 2) - (b' + r - δ) = b - r + δ by ring]
          nlinarith
      refine lt_of_lt_of_le (hU.measure_pos volume hne) (measure_mono ?_)
      rintro ⟨x, y⟩ ⟨u1', u2', u3, u4⟩
      simp only at u1' u2' u3 u4
      refine ⟨?_, ?_⟩
      · have hp : ((x, y) : ℝ × ℝ) ∉ starDisc := by simp only [starDisc, mem_ofPred_eq, not_le]; exact u3
        have hq : reflectAt m (x, y) ∈ starDisc := by simp only [starDisc, mem_ofPred_eq, reflectAt]; exact u4.le
        rw [Function.mem_support, hGdef, indicator_of_mem hq, indicator_of_notMem hp, sub_zero]
        refine (law_pos h hd ?_ (muAt_le_one _)).ne'
        unfold muAt
        simp only [reflectAt]
        exact sqrt_pos.2 (by linarith)
      · refine ⟨(mem_bodyDisc hr.le).2 u1'.le, fun hc => ?_⟩
        have := (mem_bodyDisc hr.le).1 hc
        simp only at this
        linarith
    · refine (ae_restrict_iff' (hA'.diff hA)).2 (Filter.Eventually.of_forall fun p hp => sub_nonneg.2 (hdec _ _ ?_))
      obtain ⟨x, y⟩ := p
      simp only [mem_sdiff, bodyDisc, mem_ofPred_eq, not_le] at hp
      have h1 : √((x - b') ^ 2 + y ^ 2) < √((x - b) ^ 2 + y ^ 2) := lt_of_le_of_lt hp.1 hp.2
      have h2 := (sqrt_lt_sqrt_iff (by positivity)).1 h1
      have h3 : m < x := by rw [hm]; nlinarith
      have h4 : 0 ≤ m := by rw [hm]; linarith
      simp only [reflectAt]
      nlinarith
    · exact (hGr.sub hG).integrableOn
  rw [integral_sub hGr.integrableOn hG.integrableOn] at e4
  rw [inter_comm] at e1
  linarith

end Exo
