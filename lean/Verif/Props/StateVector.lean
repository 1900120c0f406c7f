import Verif.Model.StateVector
import Verif.Props.Kinematics
import Verif.Lemmas.Demo

/-!
# C69: the multi-body state vector
-/

namespace Exo
open Real

/-- Rows of the state weighted with the masses (star first) and added up. -/
def weightedTotal (masses : List ℝ) (rows : List V3) : V3 :=
  (List.zipWith (fun m (v : V3) => v.smul m) masses rows).foldr V3.add V3.zero

theorem total_eq (vs : List V3) : V3.total vs = vs.foldr V3.add V3.zero := by
  induction vs with
  | nil => rfl
  | cons v vs ih => simp only [V3.total, List.foldr_cons, V3.add, ih]

theorem times_eq (v : V3) (c : ℝ) : v.times c = v.smul c := rfl

theorem smul_total (c : ℝ) (vs : List V3) : (V3.total vs).smul c = V3.total (vs.map (V3.smul c)) := by
  induction vs with
  | nil => simp [V3.total, V3.smul]
  | cons v vs ih =>
    have hx := congrArg V3.x ih
    have hy := congrArg V3.y ih
    have hz := congrArg V3.z ih
    simp only [V3.smul] at hx hy hz
    simp only [V3.total, List.map_cons, V3.smul]
    refine V3.ext ?_ ?_ ?_
    · simp only [mul_add]; rw [hx]
    · simp only [mul_add]; rw [hy]
    · simp only [mul_add]; rw [hz]

/-- If every planet balances its share of the star, the whole system is balanced. -/
theorem balanced (M : ℝ) (os : List Orbit) (S P : Orbit → V3) (hM : ∀ o ∈ os, o.m_star = M)
    (h : ∀ o ∈ os, ((S o).smul o.m_star).add ((P o).smul o.m_planet) = V3.zero) (c : ℝ) :
    weightedTotal (M :: os.map (·.m_planet)) ((V3.total (os.map S) :: os.map P).map fun v => v.times c) = V3.zero := by
  have hsum : ∀ os : List Orbit, (∀ o ∈ os, o.m_star = M) →
      (∀ o ∈ os, ((S o).smul o.m_star).add ((P o).smul o.m_planet) = V3.zero) →
      ((V3.total (os.map S)).smul M).add (V3.total (os.map fun o => (P o).smul o.m_planet)) = V3.zero := by
    intro os
    induction os with
    | nil => intros; simp [V3.total, V3.smul, V3.add, V3.zero]
    | cons o os ih =>
      intro hM h
      have h1 := h o (by simp)
      rw [hM o (by simp)] at h1
      have h2 := ih (fun o' ho' => hM o' (by simp [ho'])) (fun o' ho' => h o' (by simp [ho']))
      have hx1 := congrArg V3.x h1
      have hy1 := congrArg V3.y h1
      have hz1 := congrArg V3.z h1
      have hx2 := congrArg V3.x h2
      have hy2 := congrArg V3.y h2
      have hz2 := congrArg V3.z h2
      simp only [V3.smul, V3.add, V3.zero] at hx1 hy1 hz1 hx2 hy2 hz2
      simp only [List.map_cons, V3.total, V3.smul, V3.add, V3.zero]
      refine V3.ext ?_ ?_ ?_ <;> simp only <;> linarith
  have hs := hsum os hM h
  have hzip : ∀ os : List Orbit, List.zipWith (fun m (v : V3) => v.smul m) (os.map (·.m_planet)) ((os.map P).map fun v => v.times c) =
      (os.map fun o => (P o).smul o.m_planet).map (V3.smul c) := by
    intro os
    induction os with
    | nil => rfl
    | cons o os ih =>
      simp only [List.map_cons, List.zipWith_cons_cons, ih]
      congr 1
      simp only [V3.times, V3.smul]
      refine V3.ext ?_ ?_ ?_ <;> simp only <;> ring
  unfold weightedTotal
  simp only [List.map_cons, List.zipWith_cons_cons, List.foldr_cons, hzip, ← total_eq, ← smul_total]
  have hx := congrArg V3.x hs
  have hy := congrArg V3.y hs
  have hz := congrArg V3.z hs
  simp only [V3.smul, V3.add, V3.zero] at hx hy hz
  simp only [V3.times, V3.smul, V3.add, V3.zero]
  refine V3.ext ?_ ?_ ?_ <;> simp only
  · linear_combination c * hx
  · linear_combination c * hy
  · linear_combination c * hz

theorem unitPosition_times (o : Orbit) (C : Consts) (a t : ℝ) (parallax : Option ℝ) :
    ((o.unitPosition t).times a).times (parallaxScale C parallax) = o.positionNow C a t parallax := by
  unfold Orbit.unitPosition Orbit.positionNow Orbit.radius
  cases he : o.ecc <;> cases parallax <;>
    simp only [Orbit.rotate_eq, V3.times, parallaxScale] <;> refine V3.ext ?_ ?_ ?_ <;> simp only <;> ring

theorem unitVelocity_times (o : Orbit) (m t : ℝ) : (o.unitVelocity t).times m = o.velocity m t := by
  unfold Orbit.unitVelocity Orbit.velocity
  cases he : o.ecc <;> simp only [Orbit.rotate_eq, V3.times] <;> refine V3.ext ?_ ?_ ?_ <;> simp only <;> ring

/-- A system of planets around one star of mass `M`: each orbit was built by the constructor. -/
def IsSystem (C : Consts) (M : ℝ) (os : List Orbit) : Prop :=
  ∀ o ∈ os, o.m_star = M ∧ o.Physical ∧ ∃ A, keplerianInit C A = .ok o

/-- C69 (partial: a single time; the full statement is for all times, i.e. also for arrays of times, where it is false, see
`C69_vector_of_times_counterexample`). For any number of planets the state lists the star and then the planets, its total momentum is
zero and its centre of mass is at the origin. -/
theorem C69_momentum_and_centre_of_mass_partial (C : Consts) (M : ℝ) (os : List Orbit) (hs : IsSystem C M os) (t : ℝ)
    (parallax : Option ℝ) :
    (statePositions C os t parallax).length = os.length + 1 ∧ (stateVelocities C os t parallax).length = os.length + 1 ∧
    weightedTotal (M :: os.map (·.m_planet)) (statePositions C os t parallax) = V3.zero ∧
    weightedTotal (M :: os.map (·.m_planet)) (stateVelocities C os t parallax) = V3.zero := by
  refine ⟨by simp [statePositions], by simp [stateVelocities], ?_, ?_⟩
  · refine balanced M os (fun o => (o.unitPosition t).times o.a_star) (fun o => (o.unitPosition t).times o.a_planet)
      (fun o ho => (hs o ho).1) ?_ _
    intro o ho
    obtain ⟨-, hp, A, hA⟩ := hs o ho
    have h1 := (C11_barycentre C A o hA hp t).1
    have e1 := unitPosition_times o C o.a_star t none
    have e2 := unitPosition_times o C o.a_planet t none
    have one : ∀ v : V3, v.times (parallaxScale C none) = v := by
      intro v; simp only [V3.times, parallaxScale, one_mul]
    rw [one] at e1 e2
    simp only [e1, e2]
    exact h1
  · refine balanced M os (fun o => (o.unitVelocity t).times o.m_planet) (fun o => (o.unitVelocity t).times (-o.m_star))
      (fun o ho => (hs o ho).1) ?_ _
    intro o ho
    obtain ⟨-, hp, A, hA⟩ := hs o ho
    simp only [unitVelocity_times]
    exact (C11_barycentre C A o hA hp t).2.1

/-- C69 (a single time). Each planet row agrees with `get_planet_position` / `get_planet_velocity`, and the star row is the sum of the
reflex motions `get_star_position` / `get_star_velocity`. -/
theorem C69_rows_agree_with_single_body_queries (C : Consts) (os : List Orbit) (t : ℝ) (parallax : Option ℝ) :
    statePositions C os t parallax =
      (os.map fun o => o.starPosition C t parallax).foldr V3.add V3.zero :: os.map (fun o => o.planetPosition C t parallax) ∧
    stateVelocities C os t none =
      (os.map fun o => o.starVelocity t).foldr V3.add V3.zero :: os.map (fun o => o.planetVelocity t) := by
  constructor
  · unfold statePositions
    simp only [List.map_cons, List.map_map, ← total_eq]
    refine congrArg₂ _ ?_ ?_
    · rw [times_eq, smul_total, List.map_map]
      refine congrArg _ (List.map_congr_left fun o _ => ?_)
      exact unitPosition_times o C o.a_star t parallax
    · exact List.map_congr_left fun o _ => unitPosition_times o C o.a_planet t parallax
  · unfold stateVelocities
    simp only [List.map_cons, List.map_map, ← total_eq, parallaxScale]
    have one : ∀ v : V3, v.times 1 = v := by
      intro v; simp only [V3.times, one_mul]
    refine congrArg₂ _ ?_ ?_
    · rw [one]
      exact congrArg _ (List.map_congr_left fun o _ => unitVelocity_times o o.m_planet t)
    · refine List.map_congr_left fun o _ => ?_
      simp only [Function.comp, one]
      exact unitVelocity_times o (-o.m_star) t

/-- A system: the same planet twice (any list of orbits around the star of the demo orbit will do). -/
example (C : Consts) : ∃ o, IsSystem C 1 [o, o] ∧ o.m_planet = 1 / 1000 := by
  obtain ⟨o, h, hp, -, -, hm, hmp, -⟩ := demoMass_ok C
  refine ⟨o, ?_, hmp⟩
  intro o' ho'
  have : o' = o := by simpa using ho'
  subst this
  exact ⟨hm, hp, _, h⟩

/-- For a vector of times the array has one row per time plus one, and one column per planet, instead of one row per body. -/
theorem C69_vector_of_times_shape (C : Consts) (os : List Orbit) (ts : List ℝ) (parallax : Option ℝ) :
    (statePositionsTimes C os ts parallax).length = ts.length + 1 ∧
    ∀ r ∈ statePositionsTimes C os ts parallax, r.length = os.length := by
  unfold statePositionsTimes
  refine ⟨by simp, ?_⟩
  intro r hr
  obtain ⟨r', hr', rfl⟩ := List.mem_map.1 hr
  rw [List.length_map]
  rcases List.mem_cons.1 hr' with rfl | hr'
  · simp
  · obtain ⟨t, -, rfl⟩ := List.mem_map.1 hr'
    simp

/-- C69 is false for a vector of times: the first row is the sum of the star's positions over the times. For a planet with mass, asking
for the same time twice gives a "star" row twice as far from the barycentre as it should be, so that the centre of mass is not at the
origin. -/
theorem C69_vector_of_times_counterexample (C : Consts) : ∃ (o : Orbit) (S P : V3) (t : ℝ), IsSystem C 1 [o] ∧
    statePositionsTimes C [o] [t, t] none = [[S], [P], [P]] ∧ (S.smul o.m_star).add (P.smul o.m_planet) ≠ V3.zero := by
  obtain ⟨o, h, hp, -, -, hm, hmp, -⟩ := demoMass_ok C
  have B := built_of_init h
  have one : ∀ v : V3, v.times (parallaxScale C none) = v := by
    intro v; simp only [V3.times, parallaxScale, one_mul]
  have e1 : (o.unitPosition 0).times o.a_star = o.starPosition C 0 := by
    have := unitPosition_times o C o.a_star 0 none
    rw [one] at this
    exact this
  have e2 : (o.unitPosition 0).times o.a_planet = o.planetPosition C 0 := by
    have := unitPosition_times o C o.a_planet 0 none
    rw [one] at this
    exact this
  refine ⟨o, V3.total [o.starPosition C 0, o.starPosition C 0], o.planetPosition C 0, 0, ?_, ?_, ?_⟩
  · intro o' ho'
    have : o' = o := by simpa using ho'
    subst this
    exact ⟨hm, hp, _, h⟩
  · simp only [statePositionsTimes, List.map_cons, List.map_nil, e1, e2, one]
  · intro h0
    obtain ⟨c1, -, -, c4, -, -⟩ := C11_barycentre C _ o h hp 0
    have hn : 0 < (o.relativePosition C 0).norm := by
      rw [relativePosition_norm B hp]
      exact mul_pos hp.a_pos (hp.eccOk.dpos 0)
    rw [hm, hmp] at h0 c1
    generalize o.starPosition C 0 = S at *
    generalize o.planetPosition C 0 = P at *
    simp only [V3.total, V3.smul, V3.add, V3.zero, V3.mk.injEq] at h0 c1
    obtain ⟨a1, a2, a3⟩ := h0
    obtain ⟨b1, b2, b3⟩ := c1
    have z1 : S.x = 0 := by linarith
    have z2 : S.y = 0 := by linarith
    have z3 : S.z = 0 := by linarith
    have w1 : P.x = 0 := by linarith
    have w2 : P.y = 0 := by linarith
    have w3 : P.z = 0 := by linarith
    rw [c4] at hn
    simp [V3.norm, V3.normSq, V3.sub, z1, z2, z3, w1, w2, w3] at hn

end Exo
