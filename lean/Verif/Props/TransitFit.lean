import Verif.Lemmas.TransitFit
import Verif.Props.Depth
import Verif.Props.Inputs
import Verif.Props.Simple
import Verif.Spec.LightCurveFit

/-!
# C105: what light curves determine
-/

namespace Exo
open Real Set

/-- The flux as a function of time. -/
noncomputable def fluxOf (C : Consts) (o : Orbit) (r u1 u2 t : ℝ) : ℝ := fluxAt (getCl u1 u2) o.r_star r (o.relativePosition C t)

theorem sameCurves_iff (O O' : OrbitApi) (f f' : ℕ → ℝ → V3) (hf : O.pos false = .ok f) (hf' : O'.pos false = .ok f') (h1 : O.np = 1)
    (h1' : O'.np = 1) (r r' u1 u2 u1' u2' : ℝ) :
    SameLightCurves O O' r r' u1 u2 u1' u2' ↔
      ∀ t, fluxAt (getCl u1 u2) O.r_star r (f 0 t) = fluxAt (getCl u1' u2') O'.r_star r' (f' 0 t) := by
  have key : ∀ (O : OrbitApi) (f : ℕ → ℝ → V3) (_ : O.pos false = .ok f) (_ : O.np = 1) (r u1 u2 : ℝ) (t : Tensor ℝ) (ov od : ℤ), ∃ L,
      (LimbDark.new u1 u2).getLightCurve (some O) (some (Tensor.scalar r)) (some t) none ov od (some false) =
        .ok L ∧ L.shape = t.shape ++ [1] ∧ ∀ i, InShape i t.shape → L.get (i ++ [0]) = fluxAt (getCl u1 u2) O.r_star r (f 0 (t.get i)) := by
    intro O f hf hnp r u1 u2 t ov od
    obtain ⟨L, h1, h2, h3⟩ := C39_values (LimbDark.new u1 u2) O false f hf (Tensor.scalar r) t (by rw [hnp]; rfl) ov od
    exact ⟨L, h1, by rw [h2, hnp], fun i hi => h3 i 0 hi (by rw [hnp]; exact Nat.one_pos)⟩
  constructor
  · intro hs t
    obtain ⟨L, L', k1, k2, -, k3⟩ := hs (Tensor.scalar t) 7 0
    obtain ⟨M, l1, -, l2⟩ := key O f hf h1 r u1 u2 (Tensor.scalar t) 7 0
    obtain ⟨M', m1, -, m2⟩ := key O' f' hf' h1' r' u1' u2' (Tensor.scalar t) 7 0
    rw [k1] at l1
    rw [k2] at m1
    cases l1
    cases m1
    have hin : InShape [] (Tensor.scalar t).shape := List.Forall₂.nil
    have := k3 [] hin
    rw [l2 [] hin, m2 [] hin] at this
    exact this
  · intro hs t ov od
    obtain ⟨M, k1, k3, k2⟩ := key O f hf h1 r u1 u2 t ov od
    obtain ⟨M', l1, l3, l2⟩ := key O' f' hf' h1' r' u1' u2' t ov od
    exact ⟨M, M', k1, l1, k3.trans l3.symm, fun i hi => by rw [k2 i hi, l2 i hi, hs]⟩

theorem sameLightCurves_iff (C : Consts) (cp : ContactOp) (o o' : Orbit) (r r' u1 u2 u1' u2' : ℝ) :
    SameLightCurves (keplerApi C cp [o] o.r_star) (keplerApi C cp [o'] o'.r_star) r r' u1 u2 u1' u2' ↔
      ∀ t, fluxOf C o r u1 u2 t = fluxOf C o' r' u1' u2' t :=
  sameCurves_iff (keplerApi C cp [o] o.r_star) (keplerApi C cp [o'] o'.r_star) (fun _ _ => _) (fun _ _ => _) rfl rfl rfl rfl r r' u1 u2 u1' u2'

/-! ## The flux and the separation -/

section
variable {u1 u2 : ℝ} (hl : PhysicalLaw u1 u2) (hd : DarkensOutwards u1 u2)
include hl hd

/-- Two bodies in front of the star, both crossing the limb, cover the same light only at the same separation. -/
theorem crossing_injective {k b b' z z' : ℝ} (hk : 0 < k) (h1 : |1 - k| < b) (h2 : b < 1 + k) (h1' : |1 - k| < b') (h2' : b' < 1 + k)
    (hz : 0 < z) (hz' : 0 < z') (h : computeLightCurve (getCl u1 u2) b k (some z) = computeLightCurve (getCl u1 u2) b' k (some z')) :
    b = b' := by
  have key : ∀ {b b' z z' : ℝ}, |1 - k| < b → b < 1 + k → |1 - k| < b' → b' < 1 + k → 0 < z → 0 < z' → b < b' →
      computeLightCurve (getCl u1 u2) b k (some z) < computeLightCurve (getCl u1 u2) b' k (some z') := by
    intro b b' z z' h1 h2 h1' h2' hz hz' hlt
    obtain ⟨a1, a2⟩ := abs_lt.1 h1
    obtain ⟨b1, b2⟩ := abs_lt.1 h1'
    unfold computeLightCurve
    simp only [Option.getD_some]
    rw [if_pos hz, if_pos hz', quadLc_covered u1 u2 b k hl.pos.ne', quadLc_covered u1 u2 b' k hl.pos.ne', neg_lt_neg_iff]
    exact div_lt_div_of_pos_right (fluxFrom_strictAnti hl hd hk ((abs_nonneg _).trans h1.le) hlt (by linarith) (by linarith) h2) hl.pos
  rcases lt_trichotomy b b' with hlt | heq | hgt
  · exact absurd h (key h1 h2 h1' h2' hz hz' hlt).ne
  · exact heq
  · exact absurd h (key h1' h2' h1 h2 hz' hz hgt).ne'

/-- The flux is below zero exactly if the body is in front of the star and the discs overlap. -/
theorem flux_neg_iff {k b z : ℝ} (hk : 0 < k) (h0 : 0 ≤ b) : computeLightCurve (getCl u1 u2) b k (some z) < 0 ↔ 0 < z ∧ b < 1 + k := by
  constructor
  · intro h
    constructor
    · by_contra hz
      rw [C37_behind _ _ _ _ (not_lt.1 hz)] at h
      exact lt_irrefl _ h
    · by_contra hb
      rw [C37_apart u1 u2 b k _ hl (not_lt.1 hb)] at h
      exact lt_irrefl _ h
  · rintro ⟨hz, hb⟩
    have hmax : max b |1 - k| < 1 + k := max_lt hb (abs_lt.2 ⟨by linarith, by linarith⟩)
    have h1 : b ≤ max b |1 - k| := le_max_left _ _
    have h2 : |1 - k| ≤ max b |1 - k| := le_max_right _ _
    set c := (max b |1 - k| + (1 + k)) / 2 with hc
    have h3 : |1 - k| < c := by rw [hc]; linarith
    obtain ⟨h4, h5⟩ := abs_lt.1 h3
    refine (C87_nearer u1 u2 b c k (some z) hl hd h0 (by rw [hc]; linarith)).trans_lt ?_
    rw [← C37_apart u1 u2 (1 + k) k (some z) hl le_rfl]
    unfold computeLightCurve
    simp only [Option.getD_some]
    rw [if_pos hz, if_pos hz, quadLc_covered u1 u2 c k hl.pos.ne', quadLc_covered u1 u2 (1 + k) k hl.pos.ne', neg_lt_neg_iff]
    exact div_lt_div_of_pos_right (fluxFrom_strictAnti hl hd hk ((abs_nonneg _).trans h3.le) (by rw [hc]; linarith) (by linarith)
      (by linarith) (by rw [hc]; linarith)) hl.pos

end

/-! ## The times of transit -/

section
variable {C : Consts} {A : Args} {o : Orbit} (h : keplerianInit C A = .ok o) (hp : o.Physical) (hc : o.ecc = none) (hi : 0 < o.sin_incl)
include h hp hc hi

/-- Separation in units of the radius of the star, and the side. -/
theorem sep_scaled (t : ℝ) : (√((o.relativePosition C t).x ^ 2 + (o.relativePosition C t).y ^ 2) / o.r_star) ^ 2 =
      o.b ^ 2 + (o.a * o.sin_incl / o.r_star) ^ 2 * sin (o.n * (t - o.t0)) ^ 2 ∧
    (0 < (o.relativePosition C t).z / o.r_star ↔ 0 < cos (o.n * (t - o.t0))) := by
  obtain ⟨h1, h2⟩ := (built_of_init h).sep_circ hp hc t
  have hR := hp.r_star_pos
  have hai := mul_pos hp.a_pos hi
  constructor
  · rw [div_pow, sq_sqrt (by positivity), h1]
    field_simp
  · rw [h2, div_pos_iff_of_pos_right hR, mul_pos_iff_of_pos_left hai]

/-- The dips are regularly spaced intervals around the transits. -/
theorem dips {r u1 u2 : ℝ} (hl : PhysicalLaw u1 u2) (hd : DarkensOutwards u1 u2) (hr : 0 < r) (hout : o.r_star + r < o.a)
    (hb : |o.b| < 1 + r / o.r_star) :
    ∃ τ, 0 < τ ∧ 2 * τ < o.period ∧ o.n * τ < π / 2 ∧ {t | fluxOf C o r u1 u2 t < 0} = comb o.t0 o.period τ ∧
      o.b ^ 2 + (o.a * o.sin_incl / o.r_star) ^ 2 * sin (o.n * τ) ^ 2 = (1 + r / o.r_star) ^ 2 := by
  have B := built_of_init h
  have hR := hp.r_star_pos
  have hP := hp.period_pos
  have hn := B.n_pos hp
  have hnP := B.n_mul_period hp
  have hpi := pi_pos
  set k := r / o.r_star with hk
  have hkp : 0 < k := div_pos hr hR
  set α := o.a * o.sin_incl / o.r_star with hα
  have hαp : 0 < α := div_pos (mul_pos hp.a_pos hi) hR
  have hrel : α ^ 2 + o.b ^ 2 = (o.a / o.r_star) ^ 2 := by
    have := B.sin_incl_rel hp hc
    rw [hα, div_pow, div_pow, ← this]
    field_simp
  have hbig : 1 + k < o.a / o.r_star := by
    rw [lt_div_iff₀ hR, hk]
    have : (1 + r / o.r_star) * o.r_star = o.r_star + r := by field_simp
    linarith
  have hb2 : o.b ^ 2 < (1 + k) ^ 2 := by rw [← sq_abs o.b]; exact pow_lt_pow_left₀ hb (abs_nonneg _) two_ne_zero
  have hbig2 : (1 + k) ^ 2 < (o.a / o.r_star) ^ 2 := pow_lt_pow_left₀ hbig (by positivity) two_ne_zero
  set s := √((1 + k) ^ 2 - o.b ^ 2) / α with hs
  have hs0 : 0 < s := div_pos (sqrt_pos.2 (by linarith)) hαp
  have hs2 : α ^ 2 * s ^ 2 = (1 + k) ^ 2 - o.b ^ 2 := by
    have e : s ^ 2 = ((1 + k) ^ 2 - o.b ^ 2) / α ^ 2 := by rw [hs, div_pow √_, sq_sqrt (by linarith)]
    rw [e, mul_div_cancel₀ _ (pow_pos hαp 2).ne']
  have hs1 : s < 1 := by
    have : α ^ 2 * s ^ 2 < α ^ 2 * 1 := by rw [hs2]; linarith
    have := lt_of_mul_lt_mul_left this (by positivity)
    nlinarith
  set φ := arcsin s with hφ
  have hφ0 : 0 < φ := arcsin_pos.2 hs0
  have hφ1 : φ < π / 2 := arcsin_lt_pi_div_two.2 hs1
  have hsin : sin φ = s := sin_arcsin (by linarith) hs1.le
  have hnτ : o.n * (φ / o.n) = φ := by field_simp
  refine ⟨φ / o.n, div_pos hφ0 hn, ?_, by rw [hnτ]; exact hφ1, ?_, by rw [hnτ, hsin, hs2]; ring⟩
  · rw [← mul_lt_mul_iff_right₀ hn, show o.n * (2 * (φ / o.n)) = 2 * φ by field_simp, hnP]
    linarith
  · ext t
    have hred : ∀ j : ℤ, cos (o.n * (t - o.t0)) = cos (o.n * |t - (o.t0 + j * o.period)|) ∧
        sin (o.n * (t - o.t0)) ^ 2 = sin (o.n * |t - (o.t0 + j * o.period)|) ^ 2 := by
      intro j
      have e : o.n * (t - o.t0) = o.n * (t - (o.t0 + j * o.period)) + j * (2 * π) := by linear_combination j * hnP
      rw [e, cos_add_int_mul_two_pi, sin_add_int_mul_two_pi]
      rcases abs_choice (t - (o.t0 + j * o.period)) with h | h <;> rw [h]
      · exact ⟨rfl, rfl⟩
      · rw [mul_neg, cos_neg, sin_neg, neg_sq]; exact ⟨rfl, rfl⟩
    have hsep := sep_scaled h hp hc hi t
    have hflux : fluxOf C o r u1 u2 t < 0 ↔ 0 < cos (o.n * (t - o.t0)) ∧ sin (o.n * (t - o.t0)) ^ 2 < s ^ 2 := by
      unfold fluxOf fluxAt
      rw [flux_neg_iff hl hd hkp (by positivity), hsep.2]
      refine and_congr Iff.rfl ?_
      rw [← pow_lt_pow_iff_left₀ (by positivity) (by positivity) two_ne_zero, hsep.1]
      constructor
      · intro hlt
        have : α ^ 2 * sin (o.n * (t - o.t0)) ^ 2 < α ^ 2 * s ^ 2 := by rw [hs2]; linarith
        exact lt_of_mul_lt_mul_left this (by positivity)
      · intro hlt
        have := mul_lt_mul_of_pos_left hlt (pow_pos hαp 2)
        rw [hs2] at this
        linarith
    have hloc : ∀ j : ℤ, o.n * |t - (o.t0 + j * o.period)| ≤ π →
        ((0 < cos (o.n * |t - (o.t0 + j * o.period)|) ∧ sin (o.n * |t - (o.t0 + j * o.period)|) ^ 2 < s ^ 2) ↔
          |t - (o.t0 + j * o.period)| < φ / o.n) := by
      intro j hj
      have h0 : 0 ≤ o.n * |t - (o.t0 + j * o.period)| := by positivity
      rw [lt_div_iff₀ hn, mul_comm _ o.n]
      generalize o.n * |t - (o.t0 + j * o.period)| = x at hj h0
      constructor
      · rintro ⟨hc1, hs3⟩
        have hx : x < π / 2 := by
          by_contra hx
          exact absurd (cos_nonpos_of_pi_div_two_le_of_le (not_lt.1 hx) (by linarith)) (not_le.2 hc1)
        by_contra hx2
        have := sin_le_sin_of_le_of_le_pi_div_two (by linarith) hx.le (not_lt.1 hx2)
        rw [hsin] at this
        nlinarith
      · intro hx
        refine ⟨cos_pos_of_mem_Ioo ⟨by linarith, by linarith⟩, ?_⟩
        have h3 := sin_lt_sin_of_lt_of_le_pi_div_two (by linarith) hφ1.le hx
        rw [hsin] at h3
        exact pow_lt_pow_left₀ h3 (sin_nonneg_of_nonneg_of_le_pi h0 (by linarith)) two_ne_zero
    simp only [mem_ofPred_eq, comb]
    rw [hflux]
    constructor
    · intro hh
      refine ⟨round ((t - o.t0) / o.period), ?_⟩
      have hround := abs_sub_round ((t - o.t0) / o.period)
      generalize round ((t - o.t0) / o.period) = j at hround
      refine (hloc j ?_).1 (by rw [← (hred j).1, ← (hred j).2]; exact hh)
      have e : t - (o.t0 + j * o.period) = ((t - o.t0) / o.period - j) * o.period := by field_simp; ring
      rw [e, abs_mul, abs_of_pos hP]
      calc o.n * (|(t - o.t0) / o.period - j| * o.period) ≤ o.n * (1 / 2 * o.period) := by gcongr
        _ = π := by linear_combination (1 / 2) * hnP
    · rintro ⟨j, hj⟩
      have hle : o.n * |t - (o.t0 + j * o.period)| ≤ π := by
        have := mul_lt_mul_of_pos_left hj hn
        rw [hnτ] at this
        linarith
      rw [(hred j).1, (hred j).2]
      exact (hloc j hle).2 hj

end

/-- **C105** (what a light curve determines): a planet on a circular orbit outside the star, seen in transit. The light curve, with the
radius ratio and limb darkening known, determines the period, the times of transit, the scaled semi-major axis and the size of the impact
parameter. -/
theorem C105_determined {C : Consts} {cp : ContactOp} {A A' : Args} {o o' : Orbit} (h : keplerianInit C A = .ok o) (hp : o.Physical)
    (h' : keplerianInit C A' = .ok o') (hp' : o'.Physical) (hc : o.ecc = none) (hc' : o'.ecc = none) (hi : 0 < o.sin_incl)
    (hi' : 0 < o'.sin_incl) {r r' u1 u2 : ℝ} (hl : PhysicalLaw u1 u2) (hd : DarkensOutwards u1 u2) (hr : 0 < r)
    (hk : r' / o'.r_star = r / o.r_star) (hout : o.r_star + r < o.a) (hout' : o'.r_star + r' < o'.a) (hb : |o.b| < 1 + r / o.r_star)
    (hs : SameLightCurves (keplerApi C cp [o] o.r_star) (keplerApi C cp [o'] o'.r_star) r r' u1 u2 u1 u2) :
    o'.period = o.period ∧ (∃ j : ℤ, o'.t0 = o.t0 + j * o.period) ∧ o'.a / o'.r_star = o.a / o.r_star ∧ |o'.b| = |o.b| := by
  rw [sameLightCurves_iff] at hs
  have B := built_of_init h
  have B' := built_of_init h'
  have hR := hp.r_star_pos
  have hR' := hp'.r_star_pos
  have hr' : 0 < r' := by
    have : 0 < r' / o'.r_star := by rw [hk]; exact div_pos hr hR
    exact (div_pos_iff_of_pos_right hR').1 this
  obtain ⟨τ, hτ, h2τ, hnτ, hset, hcon⟩ := dips (C := C) h hp hc hi hl hd hr hout hb
  have hkp : 0 < r / o.r_star := div_pos hr hR
  have hsets : {t | fluxOf C o' r' u1 u2 t < 0} = {t | fluxOf C o r u1 u2 t < 0} := by
    ext t
    simp only [mem_ofPred_eq, hs t]
  have hb' : |o'.b| < 1 + r' / o'.r_star := by
    have hm : o.t0 ∈ {t | fluxOf C o' r' u1 u2 t < 0} := by
      rw [hsets, hset]
      exact ⟨0, by simpa using hτ⟩
    simp only [mem_ofPred_eq, fluxOf, fluxAt] at hm
    have h1 := ((flux_neg_iff hl hd (div_pos hr' hR') (by positivity)).1 hm).2
    have h2 := (sep_scaled h' hp' hc' hi' o.t0).1
    have h3 : o'.b ^ 2 ≤ (√((o'.relativePosition C o.t0).x ^ 2 + (o'.relativePosition C o.t0).y ^ 2) / o'.r_star) ^ 2 := by
      rw [h2]
      have : 0 ≤ (o'.a * o'.sin_incl / o'.r_star) ^ 2 * sin (o'.n * (o.t0 - o'.t0)) ^ 2 := by positivity
      linarith
    exact (abs_le_of_sq_le_sq h3 (by positivity)).trans_lt h1
  obtain ⟨τ', hτ', h2τ', hnτ', hset', hcon'⟩ := dips (C := C) h' hp' hc' hi' hl hd hr' hout' hb'
  obtain ⟨e1, e2, j, e3⟩ := comb_agree hp.period_pos hτ h2τ hp'.period_pos hτ' h2τ' (by rw [← hset, ← hset', hsets])
  have hnn : o'.n = o.n := by
    have a1 := B.n_mul_period hp
    have a2 := B'.n_mul_period hp'
    rw [e2, ← a1] at a2
    exact mul_right_cancel₀ hp.period_pos.ne' a2
  have hn := B.n_pos hp
  rw [e1, hnn, hk] at hcon'
  refine ⟨e2, ⟨j, e3⟩, ?_⟩
  set k := r / o.r_star with hkdef
  set α := o.a * o.sin_incl / o.r_star with hα
  set α' := o'.a * o'.sin_incl / o'.r_star with hα'
  -- a time just before the last contact
  have hlim : ∀ β α : ℝ, β ^ 2 + α ^ 2 * sin (o.n * τ) ^ 2 = (1 + k) ^ 2 → ∀ᶠ x in nhdsWithin τ (Iio τ),
      |1 - k| ^ 2 < β ^ 2 + α ^ 2 * sin (o.n * x) ^ 2 := by
    intro β α hcon
    have hcont : Continuous fun x => β ^ 2 + α ^ 2 * sin (o.n * x) ^ 2 := by fun_prop
    refine (hcont.tendsto τ).eventually (p := fun y => |1 - k| ^ 2 < y) ?_ |>.filter_mono nhdsWithin_le_nhds
    rw [hcon]
    refine lt_mem_nhds ?_
    rw [sq_abs]
    nlinarith
  have hpos : ∀ᶠ x in nhdsWithin τ (Iio τ), 0 < x := (lt_mem_nhds hτ).filter_mono nhdsWithin_le_nhds
  obtain ⟨x, ⟨⟨hx1, hx2⟩, hx3⟩, hx4⟩ := (((hlim o.b α hcon).and (hlim o'.b α' hcon')).and hpos).and self_mem_nhdsWithin |>.exists
  have hnx : 0 < o.n * x := mul_pos hn hx3
  have hnx2 : o.n * x < o.n * τ := mul_lt_mul_of_pos_left hx4 hn
  have hsinlt : sin (o.n * x) ^ 2 < sin (o.n * τ) ^ 2 :=
    pow_lt_pow_left₀ (sin_lt_sin_of_lt_of_le_pi_div_two (by linarith [pi_pos]) hnτ.le hnx2)
      (sin_nonneg_of_nonneg_of_le_pi hnx.le (by linarith [pi_pos])) two_ne_zero
  have hcospos : 0 < cos (o.n * x) := cos_pos_of_mem_Ioo ⟨by linarith [pi_pos], by linarith⟩
  have f := hs (o.t0 + x)
  have s1 := sep_scaled (C := C) h hp hc hi (o.t0 + x)
  have s2 := sep_scaled (C := C) h' hp' hc' hi' (o.t0 + x)
  have g1 : o.n * (o.t0 + x - o.t0) = o.n * x := by ring
  have g2 : o'.n * (o.t0 + x - o'.t0) = o.n * x - j * (2 * π) := by
    rw [hnn, e3]
    linear_combination -j * (B.n_mul_period hp)
  have g3 : sin (o.n * x - j * (2 * π)) = sin (o.n * x) := by
    have := sin_add_int_mul_two_pi (o.n * x) (-j)
    rw [← this]; congr 1; push_cast; ring
  rw [g1, ← hα] at s1
  rw [g2, cos_sub_int_mul_two_pi, g3, ← hα'] at s2
  unfold fluxOf fluxAt at f
  rw [hk] at f
  set y := √((o.relativePosition C (o.t0 + x)).x ^ 2 + (o.relativePosition C (o.t0 + x)).y ^ 2) / o.r_star with hy
  set y' := √((o'.relativePosition C (o.t0 + x)).x ^ 2 + (o'.relativePosition C (o.t0 + x)).y ^ 2) / o'.r_star with hy'
  have hy0 : 0 ≤ y := by positivity
  have hy0' : 0 ≤ y' := by positivity
  have hlow : ∀ {y β α : ℝ}, 0 ≤ y → y ^ 2 = β ^ 2 + α ^ 2 * sin (o.n * x) ^ 2 → |1 - k| ^ 2 < β ^ 2 + α ^ 2 * sin (o.n * x) ^ 2 → |1 - k| < y := by
    intro y β α h0 h1 h2
    rw [← h1] at h2
    exact lt_of_pow_lt_pow_left₀ 2 h0 h2
  have hhigh : ∀ {y β α : ℝ}, 0 ≤ y → 0 < α → y ^ 2 = β ^ 2 + α ^ 2 * sin (o.n * x) ^ 2 →
      β ^ 2 + α ^ 2 * sin (o.n * τ) ^ 2 = (1 + k) ^ 2 → y < 1 + k := by
    intro y β α h0 hα h1 h2
    have := mul_lt_mul_of_pos_left hsinlt (pow_pos hα 2)
    refine lt_of_pow_lt_pow_left₀ 2 (by positivity) ?_
    linarith
  have hαp : 0 < α := div_pos (mul_pos hp.a_pos hi) hR
  have hαp' : 0 < α' := div_pos (mul_pos hp'.a_pos hi') hR'
  have hyy : y = y' := crossing_injective hl hd hkp (hlow hy0 s1.1 hx1) (hhigh hy0 hαp s1.1 hcon) (hlow hy0' s2.1 hx2)
    (hhigh hy0' hαp' s2.1 hcon') (s1.2.2 hcospos) (s2.2.2 hcospos) f
  have hαα : α' ^ 2 = α ^ 2 := by
    have hdiff : sin (o.n * τ) ^ 2 - sin (o.n * x) ^ 2 ≠ 0 := by linarith
    refine mul_right_cancel₀ hdiff ?_
    have e4 : y ^ 2 = y' ^ 2 := by rw [hyy]
    rw [s1.1, s2.1] at e4
    linear_combination hcon' - hcon + e4
  have hbb : o'.b ^ 2 = o.b ^ 2 := by rw [hαα] at hcon'; linarith
  refine ⟨?_, sq_eq_sq_iff_abs_eq_abs _ _ |>.1 hbb⟩
  have r1 : α ^ 2 + o.b ^ 2 = (o.a / o.r_star) ^ 2 := by
    have := B.sin_incl_rel hp hc
    rw [hα, div_pow, div_pow, ← this]
    field_simp
  have r2 : α' ^ 2 + o'.b ^ 2 = (o'.a / o'.r_star) ^ 2 := by
    have := B'.sin_incl_rel hp' hc'
    rw [hα', div_pow, div_pow, ← this]
    field_simp
  have a0 := hp.a_pos
  have a0' := hp'.a_pos
  exact (pow_left_inj₀ (by positivity) (by positivity) two_ne_zero).1 (by rw [← r1, ← r2, hαα, hbb])

/-- **C105** (complete): nothing else can be read off: two such orbits have the same light curves exactly if these agree. -/
theorem C105_light_curve_iff {C : Consts} {cp : ContactOp} {A A' : Args} {o o' : Orbit} (h : keplerianInit C A = .ok o) (hp : o.Physical)
    (h' : keplerianInit C A' = .ok o') (hp' : o'.Physical) (hc : o.ecc = none) (hc' : o'.ecc = none) (hi : 0 < o.sin_incl)
    (hi' : 0 < o'.sin_incl) {r r' u1 u2 : ℝ} (hl : PhysicalLaw u1 u2) (hd : DarkensOutwards u1 u2) (hr : 0 < r)
    (hk : r' / o'.r_star = r / o.r_star) (hout : o.r_star + r < o.a) (hout' : o'.r_star + r' < o'.a) (hb : |o.b| < 1 + r / o.r_star) :
    SameLightCurves (keplerApi C cp [o] o.r_star) (keplerApi C cp [o'] o'.r_star) r r' u1 u2 u1 u2 ↔
      o'.period = o.period ∧ (∃ j : ℤ, o'.t0 = o.t0 + j * o.period) ∧ o'.a / o'.r_star = o.a / o.r_star ∧ |o'.b| = |o.b| := by
  refine ⟨C105_determined h hp h' hp' hc hc' hi hi' hl hd hr hk hout hout' hb, ?_⟩
  rintro ⟨e1, ⟨j, e2⟩, e3, e4⟩
  rw [sameLightCurves_iff]
  intro t
  have B := built_of_init h
  have B' := built_of_init h'
  have hR := hp.r_star_pos
  have hR' := hp'.r_star_pos
  have hnn : o'.n = o.n := by
    have a1 := B.n_mul_period hp
    have a2 := B'.n_mul_period hp'
    rw [e1, ← a1] at a2
    exact mul_right_cancel₀ hp.period_pos.ne' a2
  have s1 := sep_scaled (C := C) h hp hc hi t
  have s2 := sep_scaled (C := C) h' hp' hc' hi' t
  have g2 : o'.n * (t - o'.t0) = o.n * (t - o.t0) - j * (2 * π) := by
    rw [hnn, e2]
    linear_combination -j * (B.n_mul_period hp)
  have g3 : sin (o.n * (t - o.t0) - j * (2 * π)) = sin (o.n * (t - o.t0)) := by
    have := sin_add_int_mul_two_pi (o.n * (t - o.t0)) (-j)
    rw [← this]; congr 1; push_cast; ring
  rw [g2, cos_sub_int_mul_two_pi, g3] at s2
  have hbb : o'.b ^ 2 = o.b ^ 2 := (sq_eq_sq_iff_abs_eq_abs _ _).2 e4
  have hαα : (o'.a * o'.sin_incl / o'.r_star) ^ 2 = (o.a * o.sin_incl / o.r_star) ^ 2 := by
    have r1 := B.sin_incl_rel hp hc
    have r2 := B'.sin_incl_rel hp' hc'
    have q1 : (o.a * o.sin_incl / o.r_star) ^ 2 = (o.a / o.r_star) ^ 2 - o.b ^ 2 := by
      rw [div_pow, div_pow, ← r1]; field_simp; ring
    have q2 : (o'.a * o'.sin_incl / o'.r_star) ^ 2 = (o'.a / o'.r_star) ^ 2 - o'.b ^ 2 := by
      rw [div_pow, div_pow, ← r2]; field_simp; ring
    rw [q1, q2, e3, hbb]
  have hsep : √((o'.relativePosition C t).x ^ 2 + (o'.relativePosition C t).y ^ 2) / o'.r_star =
      √((o.relativePosition C t).x ^ 2 + (o.relativePosition C t).y ^ 2) / o.r_star := by
    refine (pow_left_inj₀ (by positivity) (by positivity) two_ne_zero).1 ?_
    rw [s1.1, s2.1, hbb, hαα]
  unfold fluxOf fluxAt
  rw [hsep, hk]
  unfold computeLightCurve
  simp only [Option.getD_some]
  have : 0 < (o'.relativePosition C t).z / o'.r_star ↔ 0 < (o.relativePosition C t).z / o.r_star := s2.2.trans s1.2.symm
  by_cases hz : 0 < (o.relativePosition C t).z / o.r_star
  · rw [if_pos hz, if_pos (this.2 hz)]
  · rw [if_neg hz, if_neg (fun h => hz (this.1 h))]

/-- **C105** (density): without mass in the planet, the light curve determines the density of the star. -/
theorem C105_density {C : Consts} {cp : ContactOp} {A A' : Args} {o o' : Orbit} (h : keplerianInit C A = .ok o) (hp : o.Physical)
    (h' : keplerianInit C A' = .ok o') (hp' : o'.Physical) (hc : o.ecc = none) (hc' : o'.ecc = none) (hi : 0 < o.sin_incl)
    (hi' : 0 < o'.sin_incl) {r r' u1 u2 : ℝ} (hl : PhysicalLaw u1 u2) (hd : DarkensOutwards u1 u2) (hr : 0 < r)
    (hk : r' / o'.r_star = r / o.r_star) (hout : o.r_star + r < o.a) (hout' : o'.r_star + r' < o'.a) (hb : |o.b| < 1 + r / o.r_star)
    (hs : SameLightCurves (keplerApi C cp [o] o.r_star) (keplerApi C cp [o'] o'.r_star) r r' u1 u2 u1 u2) :
    o'.rho_star * (1 + o'.m_planet / o'.m_star) = o.rho_star * (1 + o.m_planet / o.m_star) ∧
    (o.m_planet = 0 → o'.m_planet = 0 → o'.rho_star = o.rho_star) := by
  obtain ⟨e1, -, e3, -⟩ := C105_determined h hp h' hp' hc hc' hi hi' hl hd hr hk hout hout' hb hs
  have key : ∀ {A : Args} {o : Orbit}, keplerianInit C A = .ok o → o.Physical →
      o.rho_star * (1 + o.m_planet / o.m_star) = C.gccPerSun * 3 * π / C.G * (o.a / o.r_star) ^ 3 / o.period ^ 2 := by
    intro A o h hp
    obtain ⟨k1, k2⟩ := C01_third_law_and_density C A o h hp
    have hG := C.G_pos
    have hP := hp.period_pos
    have hm := hp.m_star_pos
    have hR := hp.r_star_pos
    have hpi := pi_pos
    rw [k2]
    field_simp
    linear_combination -C.gccPerSun * k1
  have := (key h' hp').trans ((by rw [e1, e3]) : _ = _) |>.trans (key h hp).symm
  refine ⟨this, fun h1 h2 => ?_⟩
  rw [h1, h2] at this
  simpa using this

/-- **C105** (radius ratio): on a star without limb darkening the radius ratio need not be known if the planet is once fully in front of the
star. -/
theorem C105_uniform {C : Consts} {cp : ContactOp} {A A' : Args} {o o' : Orbit} (h : keplerianInit C A = .ok o) (hp : o.Physical)
    (h' : keplerianInit C A' = .ok o') (hp' : o'.Physical) (hc : o.ecc = none) (hc' : o'.ecc = none) (hi : 0 < o.sin_incl)
    (hi' : 0 < o'.sin_incl) {r r' : ℝ} (hr : 0 < r) (hr' : 0 < r') (hout : o.r_star + r < o.a) (hout' : o'.r_star + r' < o'.a)
    (hb : |o.b| + r / o.r_star ≤ 1) (hb' : |o'.b| + r' / o'.r_star ≤ 1) :
    SameLightCurves (keplerApi C cp [o] o.r_star) (keplerApi C cp [o'] o'.r_star) r r' 0 0 0 0 ↔ r' / o'.r_star = r / o.r_star ∧
      o'.period = o.period ∧ (∃ j : ℤ, o'.t0 = o.t0 + j * o.period) ∧ o'.a / o'.r_star = o.a / o.r_star ∧ |o'.b| = |o.b| := by
  have hl : PhysicalLaw 0 0 := ⟨fun μ _ _ => by unfold quadLaw; norm_num, by norm_num⟩
  have hd : DarkensOutwards 0 0 := (darkensOutwards_iff _ _).2 ⟨by norm_num, by norm_num⟩
  have hR := hp.r_star_pos
  have hR' := hp'.r_star_pos
  have hb1 : |o.b| < 1 + r / o.r_star := by have := div_pos hr hR; linarith
  constructor
  · intro hs
    have hk : r' / o'.r_star = r / o.r_star := by
      have hs' := (sameLightCurves_iff C cp o o' r r' 0 0 0 0).1 hs
      have bottom : ∀ {A : Args} {o : Orbit} {r : ℝ}, keplerianInit C A = .ok o → o.Physical → o.ecc = none → 0 < o.sin_incl → 0 < r →
          |o.b| + r / o.r_star ≤ 1 → fluxOf C o r 0 0 o.t0 = -(r / o.r_star) ^ 2 ∧ ∀ t, -(r / o.r_star) ^ 2 ≤ fluxOf C o r 0 0 t := by
        intro A o r h hp hc hi hr hb
        have hR := hp.r_star_pos
        obtain ⟨a1, a2⟩ := sep_scaled (C := C) h hp hc hi o.t0
        simp only [sub_self, mul_zero, sin_zero, cos_zero, zero_lt_one, iff_true, ne_eq, OfNat.ofNat_ne_zero, not_false_eq_true, zero_pow,
          add_zero] at a1 a2
        have a3 : √((o.relativePosition C o.t0).x ^ 2 + (o.relativePosition C o.t0).y ^ 2) / o.r_star = |o.b| := by
          refine (pow_left_inj₀ (by positivity) (abs_nonneg _) two_ne_zero).1 ?_
          rw [a1, sq_abs]
        have e0 : fluxOf C o r 0 0 o.t0 = -(r / o.r_star) ^ 2 := by
          unfold fluxOf fluxAt
          rw [a3, C37_uniform _ _ _ (div_pos hr hR) (by rwa [abs_abs]) a2]
        refine ⟨e0, fun t => ?_⟩
        rw [← e0]
        obtain ⟨b1, b2⟩ := sep_scaled (C := C) h hp hc hi t
        unfold fluxOf
        by_cases hz : 0 < (o.relativePosition C t).z
        · refine fluxAt_nearer hl hd hR _ (fun _ => (div_pos_iff_of_pos_right hR).1 a2) ?_
          have hle : √((o.relativePosition C o.t0).x ^ 2 + (o.relativePosition C o.t0).y ^ 2) / o.r_star ≤
              √((o.relativePosition C t).x ^ 2 + (o.relativePosition C t).y ^ 2) / o.r_star := by
            refine (pow_le_pow_iff_left₀ (by positivity) (by positivity) two_ne_zero).1 ?_
            rw [a1, b1]
            have : 0 ≤ (o.a * o.sin_incl / o.r_star) ^ 2 * sin (o.n * (t - o.t0)) ^ 2 := by positivity
            linarith
          exact (sqrt_le_sqrt_iff (by positivity)).1 ((div_le_div_iff_of_pos_right hR).1 hle)
        · have hz' : fluxAt (getCl 0 0) o.r_star r (o.relativePosition C t) = 0 :=
            C37_behind _ _ _ _ (div_nonpos_of_nonpos_of_nonneg (not_lt.1 hz) hR.le)
          rw [hz']
          exact (C37_range 0 0 _ _ _ hl).2
      obtain ⟨c1, c2⟩ := bottom h hp hc hi hr hb
      obtain ⟨d1, d2⟩ := bottom h' hp' hc' hi' hr' hb'
      have f1 := d2 o.t0
      have f2 := c2 o'.t0
      rw [← hs', c1] at f1
      rw [hs', d1] at f2
      exact (pow_left_inj₀ (div_pos hr' hR').le (div_pos hr hR).le two_ne_zero).1 (by linarith)
    exact ⟨hk, C105_determined h hp h' hp' hc hc' hi hi' hl hd hr hk hout hout' hb1 hs⟩
  · rintro ⟨hk, e⟩
    exact (C105_light_curve_iff h hp h' hp' hc hc' hi hi' hl hd hr hk hout hout' hb1).2 e

/-! ## `SimpleTransitOrbit` -/

/-- Separation in units of the radius of the star during transit `j`, and the side. -/
theorem simple_sep {P d t0 b R k : ℝ} (hP : 0 < P) (hd : 0 < d) (hdP : d < P) (hR : 0 < R) (hk : 0 < 1 + k) (hb : |b| < 1 + k) (t : ℝ) :
    ∃ v : V3, (∀ f, (simpleApi [simpleInit P d t0 b R k] R).pos false = .ok f → f 0 t = v) ∧
      (0 < v.z / R ↔ ∃ j : ℤ, |t - (t0 + j * P)| < d / 2) ∧
      ((√(v.x ^ 2 + v.y ^ 2) / R < 1 + k) ↔ ∃ j : ℤ, |t - (t0 + j * P)| < d / 2) ∧
      ∀ j : ℤ, |t - (t0 + j * P)| < d / 2 →
        (√(v.x ^ 2 + v.y ^ 2) / R) ^ 2 = b ^ 2 + ((1 + k) ^ 2 - b ^ 2) * ((t - (t0 + j * P)) / (d / 2)) ^ 2 := by
  obtain ⟨v, hv, hv2, -, hpos⟩ := simple_position (P := P) (t0 := t0) hd hR hk hb t
  obtain ⟨x, y, z, e, -, e2, e3⟩ := C27_contacts P d t0 b R k hP hd hdP hR hk hb t
  rw [hpos] at e
  have e' := Except.ok.inj e
  simp only [Prod.mk.injEq, Option.some.injEq] at e'
  obtain ⟨rfl, rfl, rfl⟩ := e'
  refine ⟨⟨v * wrap (t - t0) P, b * R, if |wrap (t - t0) P| < d / 2 then 1 else -1⟩, fun f hf => ?_, ?_, ?_, fun j hj => ?_⟩
  · have := Except.ok.inj hf
    rw [← this]
    simp only [List.getElem?_cons_zero, hpos, Option.getD_some]
  · rw [div_pos_iff_of_pos_right hR]
    exact e3
  · rw [div_lt_iff₀ hR, mul_comm (1 + k)]
    exact e2
  · obtain ⟨h1, h2⟩ := abs_lt.1 hj
    have hw : wrap (t - t0) P = t - (t0 + j * P) := wrap_eq hP (by linarith) (by linarith) j (by ring)
    simp only
    rw [hw, div_pow, sq_sqrt (by positivity)]
    generalize t - (t0 + j * P) = x
    field_simp
    field_simp at hv2
    linear_combination x ^ 2 * hv2

/-- **C105** (`SimpleTransitOrbit`): its light curve determines period, times of transit, duration and the size of the impact parameter
if radius ratio and limb darkening are known, and nothing else. -/
theorem C105_simple {P d t0 b R k P' d' t0' b' R' u1 u2 : ℝ} (hl : PhysicalLaw u1 u2) (hdark : DarkensOutwards u1 u2) (hk : 0 < k)
    (hP : 0 < P) (hd : 0 < d) (hdP : d < P) (hR : 0 < R) (hb : |b| < 1 + k)
    (hP' : 0 < P') (hd' : 0 < d') (hdP' : d' < P') (hR' : 0 < R') (hb' : |b'| < 1 + k) :
    SameLightCurves (simpleApi [simpleInit P d t0 b R k] R) (simpleApi [simpleInit P' d' t0' b' R' k] R') (k * R) (k * R') u1 u2 u1 u2 ↔
      P' = P ∧ (∃ j : ℤ, t0' = t0 + j * P) ∧ d' = d ∧ |b'| = |b| := by
  have hk1 : 0 < 1 + k := by linarith
  obtain ⟨f, hf⟩ : ∃ f, (simpleApi [simpleInit P d t0 b R k] R).pos false = .ok f := ⟨_, rfl⟩
  obtain ⟨f', hf'⟩ : ∃ f, (simpleApi [simpleInit P' d' t0' b' R' k] R').pos false = .ok f := ⟨_, rfl⟩
  rw [sameCurves_iff _ _ f f' hf hf' rfl rfl]
  have key : ∀ {P d t0 b R : ℝ} {f : ℕ → ℝ → V3}, 0 < P → 0 < d → d < P → 0 < R → |b| < 1 + k →
      (simpleApi [simpleInit P d t0 b R k] R).pos false = .ok f → ∀ t, ∃ y z, 0 ≤ y ∧
      fluxAt (getCl u1 u2) R (k * R) (f 0 t) = computeLightCurve (getCl u1 u2) y k (some z) ∧ (0 < z ↔ t ∈ comb t0 P (d / 2)) ∧
      (y < 1 + k ↔ t ∈ comb t0 P (d / 2)) ∧
      ∀ j : ℤ, |t - (t0 + j * P)| < d / 2 → y ^ 2 = b ^ 2 + ((1 + k) ^ 2 - b ^ 2) * ((t - (t0 + j * P)) / (d / 2)) ^ 2 := by
    intro P d t0 b R f hP hd hdP hR hb hf t
    obtain ⟨v, h1, h2, h3, h4⟩ := simple_sep (t0 := t0) hP hd hdP hR hk1 hb t
    refine ⟨_, v.z / R, by positivity, ?_, h2, h3, h4⟩
    unfold fluxAt
    rw [h1 f hf, mul_div_cancel_right₀ _ hR.ne']
  have hF := key hP hd hdP hR hb hf
  have hF' := key hP' hd' hdP' hR' hb' hf'
  change (∀ t, fluxAt (getCl u1 u2) R (k * R) (f 0 t) = fluxAt (getCl u1 u2) R' (k * R') (f' 0 t)) ↔ _
  constructor
  · intro hs
    have hset : comb t0 P (d / 2) = comb t0' P' (d' / 2) := by
      ext t
      obtain ⟨y, z, y0, e1, e2, e3, -⟩ := hF t
      obtain ⟨y', z', y0', e1', e2', e3', -⟩ := hF' t
      have n1 := flux_neg_iff hl hdark (z := z) hk y0
      have n2 := flux_neg_iff hl hdark (z := z') hk y0'
      rw [← e1, hs t, e1', n2, e2, e3, e2', e3', and_self, and_self] at n1
      exact n1.symm
    obtain ⟨e1, e2, j, e3⟩ := comb_agree hP (by linarith) (by linarith) hP' (by linarith) (by linarith) hset
    have hdd : d' = d := by linarith
    refine ⟨e2, ⟨j, e3⟩, hdd, ?_⟩
    subst hdd e2 e3
    -- a time during ingress
    obtain ⟨q, q0, q1, hq⟩ : ∃ q : ℝ, 0 < q ∧ q < 1 ∧ (1 - k) ^ 2 < (1 + k) ^ 2 * q ^ 2 := by
      have hlt : |1 - k| / (1 + k) < 1 := by
        rw [div_lt_one hk1]
        exact abs_lt.2 ⟨by linarith, by linarith⟩
      have h0 : 0 ≤ |1 - k| / (1 + k) := by positivity
      refine ⟨(|1 - k| / (1 + k) + 1) / 2, by linarith, by linarith, ?_⟩
      rw [← mul_pow, ← sq_abs (1 - k)]
      refine pow_lt_pow_left₀ ?_ (abs_nonneg _) two_ne_zero
      have : |1 - k| = (1 + k) * (|1 - k| / (1 + k)) := by field_simp
      nlinarith
    obtain ⟨y, z, y0, f1, f2, f3, f4⟩ := hF (t0 + q * (d' / 2))
    obtain ⟨y', z', y0', f1', f2', f3', f4'⟩ := hF' (t0 + q * (d' / 2))
    have m0 : |t0 + q * (d' / 2) - (t0 + ((0 : ℤ) : ℝ) * P')| < d' / 2 := by
      rw [Int.cast_zero, zero_mul, add_zero, add_sub_cancel_left, abs_of_pos (by positivity)]
      nlinarith
    have m0' : |t0 + q * (d' / 2) - (t0 + j * P' + ((-j : ℤ) : ℝ) * P')| < d' / 2 := by
      have : t0 + q * (d' / 2) - (t0 + j * P' + ((-j : ℤ) : ℝ) * P') = q * (d' / 2) := by push_cast; ring
      rw [this, abs_of_pos (by positivity)]
      nlinarith
    have s1 := f4 0 m0
    have s2 := f4' (-j) m0'
    rw [Int.cast_zero, zero_mul, add_zero, add_sub_cancel_left, mul_div_cancel_right₀ _ (by positivity)] at s1
    rw [show t0 + q * (d' / 2) - (t0 + j * P' + ((-j : ℤ) : ℝ) * P') = q * (d' / 2) by push_cast; ring,
      mul_div_cancel_right₀ _ (by positivity)] at s2
    have i1 : t0 + q * (d' / 2) ∈ comb t0 P' (d' / 2) := ⟨0, m0⟩
    have i2 : t0 + q * (d' / 2) ∈ comb (t0 + j * P') P' (d' / 2) := ⟨-j, m0'⟩
    have hq2 : q ^ 2 < 1 := by nlinarith
    have low : ∀ {y b : ℝ}, 0 ≤ y → y ^ 2 = b ^ 2 + ((1 + k) ^ 2 - b ^ 2) * q ^ 2 → |1 - k| < y := by
      intro y b h0 h1
      refine lt_of_pow_lt_pow_left₀ 2 h0 ?_
      rw [sq_abs, h1]
      nlinarith [sq_nonneg b]
    have hyy : y = y' := crossing_injective hl hdark hk (low y0 s1) (f3.2 i1) (low y0' s2) (f3'.2 i2) (f2.2 i1) (f2'.2 i2)
      (by rw [← f1, ← f1', hs])
    rw [← hyy, s1] at s2
    refine (sq_eq_sq_iff_abs_eq_abs _ _).1 ?_
    refine mul_right_cancel₀ (b := 1 - q ^ 2) (by linarith) ?_
    linear_combination -s2
  · rintro ⟨rfl, ⟨j, rfl⟩, rfl, hbb⟩ t
    obtain ⟨y, z, y0, f1, f2, f3, f4⟩ := hF t
    obtain ⟨y', z', y0', f1', f2', f3', f4'⟩ := hF' t
    rw [comb_shift] at f2' f3'
    rw [f1, f1']
    by_cases hm : t ∈ comb t0 P' (d' / 2)
    · obtain ⟨i, hi⟩ := hm
      have s1 := f4 i hi
      have e : t - (t0 + j * P' + ((i - j : ℤ) : ℝ) * P') = t - (t0 + i * P') := by push_cast; ring
      have s2 := f4' (i - j) (by rw [e]; exact hi)
      rw [e, (sq_eq_sq_iff_abs_eq_abs _ _).2 hbb, ← s1] at s2
      have hyy : y' = y := (pow_left_inj₀ y0' y0 two_ne_zero).1 s2
      rw [hyy]
      unfold computeLightCurve
      simp only [Option.getD_some]
      rw [if_pos (f2.2 ⟨i, hi⟩), if_pos (f2'.2 ⟨i, hi⟩)]
    · rw [C37_behind _ _ _ _ (not_lt.1 fun h => hm (f2.1 h)), C37_behind _ _ _ _ (not_lt.1 fun h => hm (f2'.1 h))]

/-- The hypotheses can be met: a grazing transit and its mirror image. -/
example : SameLightCurves (simpleApi [simpleInit 3 (1 / 10) 0 1 1 (1 / 10)] 1) (simpleApi [simpleInit 3 (1 / 10) 3 (-1) 2 (1 / 10)] 2)
    (1 / 10 * 1) (1 / 10 * 2) (1 / 2) 0 (1 / 2) 0 := by
  have hl : PhysicalLaw (1 / 2) 0 := ⟨fun μ h0 h1 => by unfold quadLaw; linarith, by norm_num⟩
  have hd : DarkensOutwards (1 / 2) 0 := (darkensOutwards_iff _ _).2 ⟨by norm_num, by norm_num⟩
  exact (C105_simple hl hd (by norm_num) (by norm_num) (by norm_num) (by norm_num) (by norm_num) (by norm_num) (by norm_num)
    (by norm_num) (by norm_num) (by norm_num) (by norm_num)).2 ⟨rfl, ⟨1, by norm_num⟩, rfl, by norm_num⟩

/-! ## The hypotheses can be met -/

/-- Semi-major axis, period, reference transit, impact parameter and radius of the star. -/
def fitArgs (a P t0 b R : ℝ) : Args :=
  { a := some (a : Q), period := some (P : Q), t0 := some (t0 : Q), b := some (b : Q), r_star := some (R : Q) }

theorem fitArgs_ok (C : Consts) {a P t0 b R : ℝ} (ha : 0 < a) (hP : 0 < P) (hR : 0 < R) (hb : |b| * R < a) :
    ∃ o, keplerianInit C (fitArgs a P t0 b R) = .ok o ∧ o.Physical ∧ o.ecc = none ∧ 0 < o.sin_incl ∧ o.a = a ∧ o.period = P ∧ o.t0 = t0 ∧
      o.b = b ∧ o.r_star = R ∧ o.m_planet = 0 := by
  have hG := C.G_pos
  have hg := C.gccPerSun_pos
  have hpi := pi_pos
  have hbR : |b * (R / a)| < 1 := by
    rw [abs_mul, abs_of_pos (div_pos hR ha), ← mul_div_assoc, div_lt_one ha]
    exact hb
  obtain ⟨l1, l2⟩ := abs_lt.1 hbR
  have hsin : 0 < √(1 - (b * (R / a)) ^ 2) := sqrt_pos.2 (by nlinarith)
  refine ⟨_, rfl, ⟨?_, ?_, ?_, ?_, ?_, ?_, ?_, ?_, ?_, ?_⟩, ?_, ?_, ?_, ?_, ?_, ?_, ?_, ?_⟩
  all_goals simp [inclFactorOf, sin_arccos]
  all_goals first | positivity | assumption | skip
  · rw [← abs_mul, mul_comm]; exact hbR.le
  · rw [← abs_mul, mul_comm]; exact hbR

/-- Two different orbits with the same light curve: all lengths doubled, mirrored, and the reference transit two periods later. -/
example (C : Consts) (cp : ContactOp) : ∃ o o', keplerianInit C (fitArgs 10 3 0 (1 / 2) 1) = .ok o ∧
    keplerianInit C (fitArgs 20 3 6 (-1 / 2) 2) = .ok o' ∧ o ≠ o' ∧ SameLightCurves (keplerApi C cp [o] o.r_star) (keplerApi C cp [o'] o'.r_star) (1 / 10) (1 / 5) (1 / 2) 0 (1 / 2) 0 := by
  obtain ⟨o, h, hp, hc, hi, a1, a2, a3, a4, a5, -⟩ := fitArgs_ok C (a := 10) (P := 3) (t0 := 0) (b := 1 / 2) (R := 1) (by norm_num)
    (by norm_num) (by norm_num) (by norm_num [abs_of_pos])
  obtain ⟨o', h', hp', hc', hi', b1, b2, b3, b4, b5, -⟩ := fitArgs_ok C (a := 20) (P := 3) (t0 := 6) (b := -1 / 2) (R := 2) (by norm_num)
    (by norm_num) (by norm_num) (by norm_num [abs_of_neg])
  refine ⟨o, o', h, h', fun e => ?_, ?_⟩
  · rw [e, b1] at a1
    norm_num at a1
  · have hl : PhysicalLaw (1 / 2) 0 := ⟨fun μ h0 h1 => by unfold quadLaw; linarith, by norm_num⟩
    have hd : DarkensOutwards (1 / 2) 0 := (darkensOutwards_iff _ _).2 ⟨by norm_num, by norm_num⟩
    refine (C105_light_curve_iff h hp h' hp' hc hc' hi hi' hl hd (by norm_num) (by rw [a5, b5]; norm_num) (by rw [a1, a5]; norm_num)
      (by rw [b1, b5]; norm_num) (by rw [a4, a5]; norm_num [abs_of_pos])).2 ⟨by rw [a2, b2], ⟨2, by rw [a2, a3, b3]; norm_num⟩, ?_, ?_⟩
    · rw [a1, a5, b1, b5]; norm_num
    · rw [a4, b4]; norm_num [abs_of_neg, abs_of_pos]

/-- A larger impact parameter is seen. -/
example (C : Consts) (cp : ContactOp) : ∃ o o', keplerianInit C (fitArgs 10 3 0 (1 / 2) 1) = .ok o ∧
    keplerianInit C (fitArgs 10 3 0 (3 / 4) 1) = .ok o' ∧ ¬SameLightCurves (keplerApi C cp [o] o.r_star) (keplerApi C cp [o'] o'.r_star) (1 / 10) (1 / 10) (1 / 2) 0 (1 / 2) 0 := by
  obtain ⟨o, h, hp, hc, hi, a1, a2, a3, a4, a5, -⟩ := fitArgs_ok C (a := 10) (P := 3) (t0 := 0) (b := 1 / 2) (R := 1) (by norm_num)
    (by norm_num) (by norm_num) (by norm_num [abs_of_pos])
  obtain ⟨o', h', hp', hc', hi', b1, b2, b3, b4, b5, -⟩ := fitArgs_ok C (a := 10) (P := 3) (t0 := 0) (b := 3 / 4) (R := 1) (by norm_num)
    (by norm_num) (by norm_num) (by norm_num [abs_of_pos])
  refine ⟨o, o', h, h', fun hs => ?_⟩
  have hl : PhysicalLaw (1 / 2) 0 := ⟨fun μ h0 h1 => by unfold quadLaw; linarith, by norm_num⟩
  have hd : DarkensOutwards (1 / 2) 0 := (darkensOutwards_iff _ _).2 ⟨by norm_num, by norm_num⟩
  have := (C105_determined h hp h' hp' hc hc' hi hi' hl hd (by norm_num) (by rw [a5, b5]) (by rw [a1, a5]; norm_num)
      (by rw [b1, b5]; norm_num) (by rw [a4, a5]; norm_num [abs_of_pos]) hs).2.2.2
  rw [a4, b4] at this
  norm_num [abs_of_pos] at this

end Exo
