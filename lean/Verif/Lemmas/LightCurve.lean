import Verif.Spec.LightCurve
import Verif.Lemmas.Tensor

/-!
# Lemmas on `get_light_curve`
-/

namespace Exo
open Real

theorem padAdd_spec {r : Tensor ℝ} {n : ℕ} (hr : r.shape = [n]) (x : Tensor ℝ) : ∃ G, padAdd r x = .ok G ∧
    G.shape = x.shape ++ [n] ∧ ∀ i p, InShape i x.shape → p < n → G.get (i ++ [p]) = r.get [p] := by
  unfold padAdd
  rw [Tensor.zipB_ok (s := x.shape ++ [n])]
  · refine ⟨_, rfl, rfl, fun i p hi hp => ?_⟩
    simp only
    have h1 := Tensor.bget_padright (x := x.map (fun _ => (0 : ℝ))) (i := i) hi p
    rw [h1, Tensor.bget_padleft (m := x.ndim) hr hi.length hp]
    simp [Tensor.map]
  · simp only [Tensor.padleft, Tensor.padright, Tensor.map, Tensor.ndim, hr, List.replicate_one]
    exact bcastShape_outer _ _

theorem padAdd_zero {r : Tensor ℝ} {n : ℕ} (hr : r.shape = [n]) (x : Tensor ℝ) : ∃ G, padAdd r x = .ok G ∧
    G.shape = x.shape ++ [n] := by
  obtain ⟨G, h1, h2, -⟩ := padAdd_spec hr x
  exact ⟨G, h1, h2⟩

theorem lightCurveAt_spec (l : LimbDark) (o : OrbitApi) (tgrid rgrid : Tensor ℝ) (ld : Bool) (f : ℕ → ℝ → V3)
    (hf : o.pos ld = .ok f) (hs : rgrid.shape = tgrid.shape ++ [o.np]) :
    ∃ L, l.lightCurveAt o tgrid rgrid ld = .ok L ∧ L.shape = tgrid.shape ++ [o.np] ∧
      ∀ i p, InShape i tgrid.shape → p < o.np →
        L.get (i ++ [p]) = fluxAt l.c o.r_star (rgrid.get (i ++ [p])) (f p (tgrid.get i)) := by
  have hrel : o.relPos tgrid ld =
      .ok (Tensor.squeeze ⟨tgrid.shape ++ [o.np], fun idx => f (idx.getLastD 0) (tgrid.get idx.dropLast)⟩) := by
    unfold OrbitApi.relPos; rw [hf]
  obtain ⟨b, hb1, hb2, hb3⟩ := Tensor.reshape_squeeze
    (⟨tgrid.shape ++ [o.np], fun idx => f (idx.getLastD 0) (tgrid.get idx.dropLast)⟩ : Tensor V3)
    (fun v => √(v.x ^ 2 + v.y ^ 2))
  obtain ⟨z, hz1, hz2, hz3⟩ := Tensor.reshape_squeeze
    (⟨tgrid.shape ++ [o.np], fun idx => f (idx.getLastD 0) (tgrid.get idx.dropLast)⟩ : Tensor V3) V3.z
  simp only at hb1 hb2 hb3 hz1 hz2 hz3
  unfold LimbDark.lightCurveAt
  rw [hrel, hs]
  simp only [bind, Except.bind, hb1, hz1]
  refine ⟨_, rfl, rfl, fun i p hi hp => ?_⟩
  have h := inShape_snoc hi hp
  simp only
  rw [hb3 _ h, hz3 _ h]
  unfold fluxAt
  simp

theorem lightCurveAt_mismatch (l : LimbDark) (o : OrbitApi) (tgrid rgrid : Tensor ℝ) (ld : Bool) (f : ℕ → ℝ → V3)
    (hf : o.pos ld = .ok f) (n : ℕ) (hs : rgrid.shape = tgrid.shape ++ [n]) (hn : n ≠ o.np) (ht : tgrid.shape.prod ≠ 0) :
    l.lightCurveAt o tgrid rgrid ld = .error (.valueError "cannot reshape") := by
  have hrel : o.relPos tgrid ld =
      .ok (Tensor.squeeze ⟨tgrid.shape ++ [o.np], fun idx => f (idx.getLastD 0) (tgrid.get idx.dropLast)⟩) := by
    unfold OrbitApi.relPos; rw [hf]
  unfold LimbDark.lightCurveAt
  rw [hrel, hs]
  simp only [bind, Except.bind]
  unfold Tensor.reshape
  rw [if_neg]
  simp only [Tensor.map, Tensor.squeeze, Tensor.squeezeShape_prod, List.prod_append, List.prod_singleton]
  intro h
  exact hn (Nat.eq_of_mul_eq_mul_left (Nat.pos_of_ne_zero ht) h.symm)

theorem ofList_get {l : List ℝ} {k : ℕ} : (Tensor.ofList l 0).get [k] = l.getD k 0 := rfl

theorem zipWith_sum_range {n : ℕ} {d w : List ℝ} (hd : d.length = n) (hw : w.length = n) (F : ℝ → ℝ → ℝ) :
    (List.zipWith F d w).sum = ((List.range n).map (fun k => F (d.getD k 0) (w.getD k 0))).sum := by
  congr 1
  apply List.ext_getElem
  · simp [hd, hw]
  · intro i h1 h2
    simp only [List.length_map, List.length_range] at h2
    simp [List.getElem_zipWith, List.getD_eq_getElem?_getD, hd, hw, h2]

/-- `lcAt` computes, on a grid of times and a grid of radii, the light curve of `np` bodies: `F p r t` for body `p` of radius `r` at
time `t`. -/
def Computes (lcAt : Tensor ℝ → Tensor ℝ → Bool → Except PyErr (Tensor ℝ)) (ld : Bool) (np : ℕ) (F : ℕ → ℝ → ℝ → ℝ) : Prop :=
  ∀ tgrid rgrid : Tensor ℝ, rgrid.shape = tgrid.shape ++ [np] → ∃ L, lcAt tgrid rgrid ld = .ok L ∧ L.shape = tgrid.shape ++ [np] ∧
    ∀ i p, InShape i tgrid.shape → p < np → L.get (i ++ [p]) = F p (rgrid.get (i ++ [p])) (tgrid.get i)

/-- The light curve at the times `t`. -/
theorem integratedWith_spec {lcAt : Tensor ℝ → Tensor ℝ → Bool → Except PyErr (Tensor ℝ)} {ld : Bool} {np : ℕ} {F : ℕ → ℝ → ℝ → ℝ}
    (hF : Computes lcAt ld np F) (r t : Tensor ℝ) (oversample order : ℤ) (hr : r.shape = [np]) :
    (∃ L, integratedWith lcAt r t none oversample order ld = .ok L ∧ L.shape = t.shape ++ [np] ∧
      ∀ i p, InShape i t.shape → p < np → L.get (i ++ [p]) = F p (r.get [p]) (t.get i)) ∧
    ∀ (x : Tensor ℝ) (S : List ℝ × List ℝ) (_ : x.shape = [] ∨ x.shape = t.shape) (_ : stencil order oversample = .ok S)
      (_ : S.2.length = S.1.length),
      ∃ L, integratedWith lcAt r t (some x) oversample order ld = .ok L ∧ L.shape = t.shape ++ [np] ∧
        ∀ i p, InShape i t.shape → p < np →
          L.get (i ++ [p]) = (List.zipWith (fun d w => w * F p (r.get [p]) (t.get i + texpAt x i * d)) S.1 S.2).sum := by
  constructor
  · obtain ⟨G, h1, h2, h3⟩ := padAdd_spec hr t
    obtain ⟨L, h4, h5, h6⟩ := hF t G h2
    refine ⟨L, ?_, h5, fun i p hi hp => ?_⟩
    · unfold integratedWith
      simp only [bind, Except.bind, h1, h4]
    · rw [h6 i p hi hp, h3 i p hi hp]
  · rintro x ⟨d, w⟩ hx hS hlen
    simp only at hlen
    set n := d.length with hn
    -- the offsets of the sub-exposures
    have hdt : ∃ D, exposureOffsets x (Tensor.ofList d 0) = .ok D ∧
        bcastShape (t.shape ++ [1]) D.shape = .ok (t.shape ++ [n]) ∧
        ∀ i k, InShape i t.shape → k < n → D.bget (i ++ [k]) = texpAt x i * d.getD k 0 := by
      unfold exposureOffsets
      by_cases h0 : x.shape = []
      · rw [if_pos (by simp [Tensor.ndim, h0]), Tensor.zipB_ok (s := [n])]
        · refine ⟨_, rfl, bcastShape_row _ _, fun i k hi hk => ?_⟩
          rw [Tensor.bget_row (n := n) rfl _ hk]
          simp only
          rw [Tensor.bget_scalar h0, Tensor.bget_self (by simpa [Tensor.ofList] using inShape_singleton.2 hk), ofList_get,
            texpAt, if_pos h0]
        · rw [h0]; exact bcastShape_nil_left _
      · have hxt : x.shape = t.shape := hx.resolve_left h0
        rw [if_neg (by simp [Tensor.ndim, h0]), Tensor.zipB_ok (s := t.shape ++ [n])]
        · refine ⟨_, rfl, bcastShape_full _ _, fun i k hi hk => ?_⟩
          rw [Tensor.bget_self (inShape_snoc hi hk)]
          simp only
          rw [Tensor.bget_padright (by rw [hxt]; exact hi), Tensor.bget_row (n := n) rfl _ hk, ofList_get, texpAt, if_neg h0]
        · simp only [Tensor.padright, hxt, List.replicate_one]
          exact bcastShape_row _ _
    obtain ⟨D, hD1, hD2, hD3⟩ := hdt
    obtain ⟨tg, htg, htgs, htgv⟩ : ∃ tg, (t.padright 1).zipB (· + ·) D = .ok tg ∧ tg.shape = t.shape ++ [n] ∧
        ∀ i k, InShape i t.shape → k < n → tg.get (i ++ [k]) = t.get i + texpAt x i * d.getD k 0 := by
      rw [Tensor.zipB_ok (s := t.shape ++ [n]) (by simpa [Tensor.padright] using hD2)]
      refine ⟨_, rfl, rfl, fun i k hi hk => ?_⟩
      simp only
      rw [Tensor.bget_padright hi, hD3 i k hi hk]
    obtain ⟨G, h1, h2, h3⟩ := padAdd_spec hr tg
    obtain ⟨L, h4, h5, h6⟩ := hF tg G h2
    have hLs : L.shape = t.shape ++ [n] ++ [np] := by rw [h5, htgs]
    obtain ⟨P, hP, hPs, hPv⟩ : ∃ P, ((Tensor.ofList w 0).padleft t.ndim |>.padright 1).zipB (· * ·) L = .ok P ∧
        P.shape = t.shape ++ [n] ++ [np] ∧
        ∀ i k p, InShape i t.shape → k < n → p < np → P.get (i ++ [k] ++ [p]) = w.getD k 0 * L.get (i ++ [k] ++ [p]) := by
      rw [Tensor.zipB_ok (s := t.shape ++ [n] ++ [np])]
      · refine ⟨_, rfl, rfl, fun i k p hi hk hp => ?_⟩
        simp only
        rw [Tensor.bget_weights (v := Tensor.ofList w 0) (n := n) (m := t.ndim) (by simp [Tensor.ofList, hlen]) hi.length hk p, ofList_get,
          Tensor.bget_self (by rw [hLs]; exact inShape_snoc (inShape_snoc hi hk) hp)]
      · rw [hLs]
        simp only [Tensor.padleft, Tensor.padright, Tensor.ofList, Tensor.ndim, hlen, List.replicate_one]
        exact bcastShape_weights _ _ _
    obtain ⟨hs1, hs2⟩ := Tensor.sumAxis_last_but_one hPs
    refine ⟨P.sumAxis t.ndim, ?_, hs1, fun i p hi hp => ?_⟩
    · unfold integratedWith
      simp only [bind, Except.bind, hS, hD1, htg, h1, h4, hP]
    · rw [show t.ndim = t.shape.length from rfl, hs2 i p hi, zipWith_sum_range hn.symm hlen]
      congr 1
      refine List.map_congr_left fun k hk => ?_
      rw [List.mem_range] at hk
      have hik : InShape (i ++ [k]) tg.shape := by rw [htgs]; exact inShape_snoc hi hk
      rw [hPv i k p hi hk hp, h6 _ p hik hp, h3 _ p hik hp, htgv i k hi hk]

/-- The light curve at the times `t`. -/
theorem integrated_spec (l : LimbDark) (o : OrbitApi) (r t : Tensor ℝ) (oversample order : ℤ) (ld : Bool)
    (f : ℕ → ℝ → V3) (hf : o.pos ld = .ok f) (hr : r.shape = [o.np]) :
    (∃ L, l.integrated o r t none oversample order ld = .ok L ∧ L.shape = t.shape ++ [o.np] ∧
      ∀ i p, InShape i t.shape → p < o.np →
        L.get (i ++ [p]) = fluxAt l.c o.r_star (r.get [p]) (f p (t.get i))) ∧
    ∀ (x : Tensor ℝ) (S : List ℝ × List ℝ) (_ : x.shape = [] ∨ x.shape = t.shape) (_ : stencil order oversample = .ok S)
      (_ : S.2.length = S.1.length),
      ∃ L, l.integrated o r t (some x) oversample order ld = .ok L ∧ L.shape = t.shape ++ [o.np] ∧
        ∀ i p, InShape i t.shape → p < o.np →
          L.get (i ++ [p]) = (List.zipWith (fun d w => w *
            fluxAt l.c o.r_star (r.get [p]) (f p (t.get i + texpAt x i * d))) S.1 S.2).sum :=
  integratedWith_spec (np := o.np) (F := fun p r t => fluxAt l.c o.r_star r (f p t))
    (fun tg G hG => lightCurveAt_spec l o tg G ld f hf hG) r t oversample order hr

end Exo
