import Verif.Spec.Scaling
import Verif.Lemmas.Init
import Verif.Props.LightCurve

/-!
# C84: only ratios of lengths, of times and of masses matter
-/

namespace Exo
open Real

theorem mul_rpow_of_pos {c : ℝ} (hc : 0 < c) (y : ℝ) {z : ℝ} (hz : z ≠ 0) : (c * y) ^ z = c ^ z * y ^ z := by
  rcases lt_trichotomy y 0 with h | rfl | h
  · rw [rpow_def_of_neg (mul_neg_of_pos_of_neg hc h), rpow_def_of_neg h, rpow_def_of_pos hc, log_mul hc.ne' h.ne, add_mul, exp_add]
    ring
  · simp [zero_rpow hz]
  · exact mul_rpow hc.le h.le

/-! ## Units -/

theorem toUnitOpt_times (c : ℝ) (x : Option Q) (u : AUnit) :
    toUnitOpt (x.map (Q.times c)) u = (toUnitOpt x u).map (Option.map (c * ·)) := by
  cases x with
  | none => rfl
  | some q =>
    obtain ⟨v, un⟩ := q
    cases un with
    | none => rfl
    | some b =>
      simp only [toUnitOpt, Option.map_some, Q.times, toUnitVal, toUnit]
      cases b.to u with
      | error e => rfl
      | ok f => simp [Except.map, mul_assoc]

theorem rhoStarVal_times (C : Consts) (c : ℝ) (x : Option Q) :
    rhoStarVal C (x.map (Q.times c)) = (rhoStarVal C x).map (Option.map (c * ·)) := by
  cases x with
  | none => rfl
  | some q =>
    have h := toUnitOpt_times c (some q) C.rhoSun
    simp only [Option.map_some] at h
    have hu : hasUnit (Q.times c q) = hasUnit q := rfl
    simp only [rhoStarVal, Option.map_some, hu, h]
    split
    · rfl
    · simp [Except.map, Q.times, mul_div_assoc]

theorem applyUnitKw_times (c : ℝ) (x : Option Q) (u : Option AUnit) :
    applyUnitKw (x.map (Q.times c)) u = (applyUnitKw x u).map (Option.map (Q.times c)) := by
  cases u with
  | none => rfl
  | some u =>
    cases x with
    | none => rfl
    | some q =>
      obtain ⟨v, un⟩ := q
      cases un <;> rfl

/-! ## `_get_consistent_inputs` -/

noncomputable def Inputs.scaled (l τ : ℝ) (I : Inputs) : Inputs :=
  ⟨l * I.a, τ * I.period, 1 / τ ^ 2 * I.rho_star, l * I.r_star, l ^ 3 / τ ^ 2 * I.m_star, l ^ 3 / τ ^ 2 * I.m_planet⟩

theorem cube_root {l : ℝ} (hl : 0 < l) : (l ^ 3) ^ ((1 : ℝ) / 3) = l := by
  rw [← rpow_natCast, ← rpow_mul hl.le]
  norm_num

theorem stellarParams_scaled {l τ : ℝ} (hl : 0 < l) (hτ : 0 < τ) (rho r m : Option ℝ) :
    stellarParams (rho.map (1 / τ ^ 2 * ·)) (r.map (l * ·)) (m.map (l ^ 3 / τ ^ 2 * ·)) =
      (stellarParams rho r m).map fun x => (1 / τ ^ 2 * x.1, l * x.2.1, l ^ 3 / τ ^ 2 * x.2.2) := by
  cases rho <;> cases r <;> cases m <;> try rfl
  · rename_i r m
    simp only [stellarParams, Option.map_none, Option.map_some, Except.map]
    congr 2
    rcases eq_or_ne r 0 with rfl | hr
    · simp
    · field_simp
  · rename_i rho m
    simp only [stellarParams, Option.map_none, Option.map_some, Except.map]
    congr 3
    rw [show 3 * (l ^ 3 / τ ^ 2 * m) / (4 * π * (1 / τ ^ 2 * rho)) = l ^ 3 * (3 * m / (4 * π * rho)) by
      rcases eq_or_ne rho 0 with rfl | hr
      · simp
      · field_simp, mul_rpow_of_pos (by positivity) _ (by norm_num), cube_root hl]
  · rename_i rho r
    simp only [stellarParams, Option.map_none, Option.map_some, Except.map]
    congr 3
    field_simp

theorem finishInputs_scaled {l τ : ℝ} (hl : 0 < l) (hτ : 0 < τ) (C : Consts) (a? p? : Option ℝ) (mp : ℝ) (rho r m : Option Q) :
    finishInputs C (a?.map (l * ·)) (p?.map (τ * ·)) (l ^ 3 / τ ^ 2 * mp) (rho.map (Q.times (1 / τ ^ 2))) (r.map (Q.times l))
      (m.map (Q.times (l ^ 3 / τ ^ 2))) = (finishInputs C a? p? mp rho r m).map (Inputs.scaled l τ) := by
  unfold finishInputs
  simp only [Option.isNone_map, rhoStarVal_times, toUnitOpt_times]
  split
  · rfl
  cases rhoStarVal C rho with
  | error e => rfl
  | ok rho? =>
  cases toUnitOpt r C.rSun with
  | error e => rfl
  | ok r? =>
  cases toUnitOpt m C.mSun with
  | error e => rfl
  | ok m? =>
  simp only [Except.map, stellarParams_scaled hl hτ]
  cases stellarParams rho? r? m? with
  | error e => rfl
  | ok x =>
  obtain ⟨rh, rv, ms⟩ := x
  have hmu : (0 : ℝ) < l ^ 3 / τ ^ 2 := by positivity
  cases a? <;> cases p? <;> try rfl
  · rename_i p
    simp only [Option.map_none, Option.map_some, Except.map, Inputs.scaled]
    congr 2
    · rw [show C.G * (l ^ 3 / τ ^ 2 * ms + l ^ 3 / τ ^ 2 * mp) * (τ * p) ^ 2 / (4 * π ^ 2) =
        l ^ 3 * (C.G * (ms + mp) * p ^ 2 / (4 * π ^ 2)) by field_simp, mul_rpow_of_pos (by positivity) _ (by norm_num), cube_root hl]
    · ring
  · rename_i a
    simp only [Option.map_none, Option.map_some, Except.map, Inputs.scaled]
    congr 2
    · rw [mul_rpow_of_pos hl _ (by norm_num), show C.G * (l ^ 3 / τ ^ 2 * ms + l ^ 3 / τ ^ 2 * mp) = l ^ 3 / τ ^ 2 * (C.G * (ms + mp)) by
        ring, sqrt_mul hmu.le, sqrt_div (by positivity), sqrt_sq hτ.le]
      have e : l ^ ((3 : ℝ) / 2) = √(l ^ 3) := by
        rw [sqrt_eq_rpow, ← rpow_natCast, ← rpow_mul hl.le]
        norm_num
      have h3 : √(l ^ 3) ≠ 0 := (sqrt_pos.2 (by positivity)).ne'
      rw [e]
      rcases eq_or_ne (√(C.G * (ms + mp))) 0 with h | h
      · simp [h]
      · field_simp
    · ring

theorem impliedInputs_scaled {l τ : ℝ} (hl : 0 < l) (hτ : 0 < τ) (C : Consts) (av pv mp : ℝ) (rho r m : Option Q) (hr : r.isSome) :
    impliedInputs C (l * av) (τ * pv) (l ^ 3 / τ ^ 2 * mp) (rho.map (Q.times (1 / τ ^ 2))) (r.map (Q.times l))
      (m.map (Q.times (l ^ 3 / τ ^ 2))) = (impliedInputs C av pv mp rho r m).map (Inputs.scaled l τ) := by
  unfold impliedInputs
  simp only [Option.isSome_map, toUnitOpt_times]
  split
  · rfl
  obtain ⟨q, rfl⟩ := Option.isSome_iff_exists.1 hr
  simp only [toUnitOpt]
  cases toUnitVal q C.rSun with
  | error e => rfl
  | ok v =>
    simp only [Except.map, Option.map_some, Option.getD_some, Inputs.scaled]
    have hG := C.G_pos.ne'
    have e : 4 * π * π * (l * av) ^ 3 / (C.G * (τ * pv) ^ 2) - l ^ 3 / τ ^ 2 * mp =
        l ^ 3 / τ ^ 2 * (4 * π * π * av ^ 3 / (C.G * pv ^ 2) - mp) := by
      rcases eq_or_ne pv 0 with rfl | hp
      · simp
      · field_simp
    rw [e]
    congr 2
    rcases eq_or_ne v 0 with rfl | hv
    · simp
    · field_simp

theorem consistentInputs_scaled {l τ : ℝ} (hl : 0 < l) (hτ : 0 < τ) (C : Consts) (a p rho r m mp : Option Q)
    (hr : r.isSome ∨ m.isSome ∧ rho.isSome) :
    consistentInputs C (a.map (Q.times l)) (p.map (Q.times τ)) (rho.map (Q.times (1 / τ ^ 2))) (r.map (Q.times l))
      (m.map (Q.times (l ^ 3 / τ ^ 2))) (mp.map (Q.times (l ^ 3 / τ ^ 2))) =
      (consistentInputs C a p rho r m mp).map (Inputs.scaled l τ) := by
  unfold consistentInputs
  simp only [Option.isNone_map, toUnitOpt_times]
  split
  · rfl
  cases toUnitOpt mp C.mSun with
  | error e => rfl
  | ok mp? =>
  cases toUnitOpt a C.rSun with
  | error e => rfl
  | ok a? =>
  cases toUnitOpt p C.day with
  | error e => rfl
  | ok p? =>
  have hmp : (mp?.map (l ^ 3 / τ ^ 2 * ·)).getD 0 = l ^ 3 / τ ^ 2 * mp?.getD 0 := by cases mp? <;> simp
  have hdr : defaultR (r.map (Q.times l)) (m.map (Q.times (l ^ 3 / τ ^ 2))) = (defaultR r m).map (Q.times l) := by
    unfold defaultR
    simp only [Option.isNone_map]
    split
    · rename_i h
      rcases hr with h' | h' <;> simp_all
    · rfl
  have hdm : defaultM (rho.map (Q.times (1 / τ ^ 2))) (r.map (Q.times l)) (m.map (Q.times (l ^ 3 / τ ^ 2))) =
      (defaultM rho r m).map (Q.times (l ^ 3 / τ ^ 2)) := by
    unfold defaultM
    simp only [Option.isNone_map]
    split
    · rename_i h
      rcases hr with h' | h' <;> simp_all
    · rfl
  have hfin := finishInputs_scaled hl hτ C a? p? (mp?.getD 0) rho (defaultR r m) (defaultM rho r m)
  simp only [Except.map, hmp, hdr, hdm]
  cases a? with
  | none => exact hfin
  | some av =>
    cases p? with
    | none => exact hfin
    | some pv =>
      rcases hr with h' | h'
      · exact impliedInputs_scaled hl hτ C av pv _ rho r m h'
      · simp [impliedInputs, h'.1, h'.2, Except.map]

/-! ## The constructor -/

theorem aorFromDuration_scaled {τ : ℝ} (hτ : 0 < τ) (d p b : ℝ) (k : Option ℝ) :
    aorFromDuration (τ * d) (τ * p) b k = ((aorFromDuration d p b k).1, 1 / τ * (aorFromDuration d p b k).2) := by
  have e : π * (τ * d) / (τ * p) = π * d / p := by
    rw [show π * (τ * d) = τ * (π * d) by ring, mul_div_mul_left _ _ hτ.ne']
  simp only [aorFromDuration, e]
  congr 1
  rw [one_div_mul_eq_div, div_div]
  congr 1
  ring

theorem durationBlock_scaled {l τ : ℝ} (hτ : 0 < τ) (A : Args) (hr : A.r_star.isSome ∨ A.ecc.isSome ∨ A.duration.isNone) :
    durationBlock (A.scaled l τ) = (durationBlock A).map fun D =>
      ⟨D.a.map (Q.times l), D.r_star.map (Q.times l), D.duration.map (Q.times τ), D.daordtau.map (1 / τ * ·)⟩ := by
  unfold durationBlock Args.scaled
  simp only
  cases he : A.ecc with
  | some e => rfl
  | none =>
    cases hd : A.duration with
    | none => rfl
    | some d =>
      have hr' : A.r_star.isSome := by simpa [he, hd] using hr
      obtain ⟨r, hr'⟩ := Option.isSome_iff_exists.1 hr'
      cases hb : A.b with
      | none => rfl
      | some b =>
        cases hp : A.period with
        | none => rfl
        | some p =>
          simp only [hr', Option.map_some, Option.getD_some, Q.times, aorFromDuration_scaled hτ, Except.map]
          simp [Q.times, mul_assoc]

theorem inclBlock_scaled {l τ : ℝ} (hl : 0 < l) (hτ : 0 < τ) (C : Consts) (A : Args) (d : Option Q) (e : Option EccParams)
    (P ap R dc : ℝ) :
    inclBlock C (A.scaled l τ) (d.map (Q.times τ)) e (τ * P) (l * ap) (l * R) dc = inclBlock C A d e P ap R dc := by
  unfold inclBlock Args.scaled
  simp only [Option.isSome_map]
  cases A.b with
  | some b => rfl
  | none =>
    cases A.incl with
    | some i => rfl
    | none =>
      cases d with
      | none => rfl
      | some d =>
        cases e with
        | none => rfl
        | some p =>
          have h := toUnitOpt_times τ (some d) C.day
          simp only [Option.map_some, toUnitOpt] at h ⊢
          cases hd : toUnitVal d C.day with
          | error er =>
            rw [hd] at h
            cases h' : toUnitVal (Q.times τ d) C.day with
            | error er' => rw [h'] at h; simpa [Except.map] using h
            | ok v => rw [h'] at h; simp [Except.map] at h
          | ok v =>
            rw [hd] at h
            cases h' : toUnitVal (Q.times τ d) C.day with
            | error er' => rw [h'] at h; simp [Except.map] at h
            | ok v' =>
              rw [h'] at h
              simp only [Except.map, Option.map_some, Except.ok.injEq, Option.some.injEq] at h
              subst h
              have hb : bFromDuration p (τ * v) (τ * P) (l * ap) (l * R) = bFromDuration p v P ap R := by
                simp only [bFromDuration]
                rw [mul_div_mul_left _ _ hl.ne', show π * (τ * v) * ((1 + p.ecc * p.sin_omega) / (1 - p.ecc ^ 2)) =
                  τ * (π * v * ((1 + p.ecc * p.sin_omega) / (1 - p.ecc ^ 2))) by ring, mul_div_mul_left _ _ hτ.ne']
              simp only [hb]

theorem timeBlock_scaled {l τ : ℝ} (hτ : 0 < τ) (A : Args) (M0 n : ℝ) :
    timeBlock (A.scaled l τ) M0 (1 / τ * n) = (timeBlock A M0 n).map fun x => (τ * x.1, τ * x.2) := by
  have e : M0 / (1 / τ * n) = τ * (M0 / n) := by
    rcases eq_or_ne n 0 with rfl | hn
    · simp
    · field_simp
  unfold timeBlock Args.scaled
  simp only [e]
  cases A.t0 <;> cases A.t_periastron <;> simp [Q.times, Except.map] <;> ring

/-- **C84** (constructor): the orbit of the scaled system has the scaled attributes, and is rejected with the same error when the system
is. Default stellar parameters (1 solar radius, 1 solar mass) do not scale, so the radius of the star is given, or its mass and density. -/
theorem C84_constructor {l τ : ℝ} (hl : 0 < l) (hτ : 0 < τ) (C : Consts) (A : Args)
    (hr : A.r_star.isSome ∨ A.m_star.isSome ∧ A.rho_star.isSome ∧ (A.ecc.isSome ∨ A.duration.isNone)) :
    keplerianInit C (A.scaled l τ) = (keplerianInit C A).map (Orbit.scaled l τ) := by
  have hmu : (0 : ℝ) < l ^ 3 / τ ^ 2 := by positivity
  have e1 : applyUnitKw (A.scaled l τ).m_planet (A.scaled l τ).m_planet_units =
      (applyUnitKw A.m_planet A.m_planet_units).map (Option.map (Q.times (l ^ 3 / τ ^ 2))) := applyUnitKw_times _ _ _
  have e2 : applyUnitKw (A.scaled l τ).rho_star (A.scaled l τ).rho_star_units =
      (applyUnitKw A.rho_star A.rho_star_units).map (Option.map (Q.times (1 / τ ^ 2))) := applyUnitKw_times _ _ _
  have e3 := durationBlock_scaled (l := l) hτ A (by tauto)
  have e4 : eccBlock (A.scaled l τ) = eccBlock A := rfl
  unfold keplerianInit
  rw [e1, e2, e3, e4]
  cases hmp : applyUnitKw A.m_planet A.m_planet_units with
  | error e => rfl
  | ok mp =>
  cases hrho : applyUnitKw A.rho_star A.rho_star_units with
  | error e => rfl
  | ok rho =>
  have hrs : A.rho_star.isSome → rho.isSome := by
    intro h
    obtain ⟨q, hq⟩ := Option.isSome_iff_exists.1 h
    rw [hq] at hrho
    unfold applyUnitKw at hrho
    split at hrho
    · cases hrho; rfl
    · simp only at hrho
      split at hrho
      · cases hrho
      · cases hrho; rfl
  cases hD : durationBlock A with
  | error e => rfl
  | ok D =>
  have hDr : A.r_star.isSome → D.r_star.isSome := by
    intro h
    unfold durationBlock at hD
    split at hD
    · simp only at hD
      split at hD; · cases hD
      split at hD; · cases hD
      cases hD
      rfl
    · cases hD
      exact h
  have e5 := consistentInputs_scaled hl hτ C D.a A.period rho D.r_star A.m_star mp (by tauto)
  simp only [Except.map]
  rw [show consistentInputs C (Option.map (Q.times l) D.a) (A.scaled l τ).period (Option.map (Q.times (1 / τ ^ 2)) rho)
    (Option.map (Q.times l) D.r_star) (A.scaled l τ).m_star (Option.map (Q.times (l ^ 3 / τ ^ 2)) mp) = _ from e5]
  cases consistentInputs C D.a A.period rho D.r_star A.m_star mp with
  | error e => rfl
  | ok I =>
  cases eccBlock A with
  | error e => rfl
  | ok ecc =>
  obtain ⟨a, P, rh, R, ms, mq⟩ := I
  have hm : l ^ 3 / τ ^ 2 * ms + l ^ 3 / τ ^ 2 * mq = l ^ 3 / τ ^ 2 * (ms + mq) := by ring
  have hn : 2 * π / (τ * P) = 1 / τ * (2 * π / P) := by
    rw [div_mul_div_comm, one_mul]
  have hap : -(l * a) * (l ^ 3 / τ ^ 2 * ms) / (l ^ 3 / τ ^ 2 * (ms + mq)) = l * (-a * ms / (ms + mq)) := by
    rw [show -(l * a) * (l ^ 3 / τ ^ 2 * ms) = l ^ 3 / τ ^ 2 * (l * (-a * ms)) by ring, mul_div_mul_left _ _ hmu.ne', mul_div_assoc]
  have has : l * a * (l ^ 3 / τ ^ 2 * mq) / (l ^ 3 / τ ^ 2 * (ms + mq)) = l * (a * mq / (ms + mq)) := by
    rw [show l * a * (l ^ 3 / τ ^ 2 * mq) = l ^ 3 / τ ^ 2 * (l * (a * mq)) by ring, mul_div_mul_left _ _ hmu.ne', mul_div_assoc]
  have hdc : inclFactorOf ecc * (l * R) / (l * a) = inclFactorOf ecc * R / a := by
    rw [show inclFactorOf ecc * (l * R) = l * (inclFactorOf ecc * R) by ring, mul_div_mul_left _ _ hl.ne']
  simp only [Except.map, Inputs.scaled, hm, hn, hap, has, hdc, inclBlock_scaled hl hτ, timeBlock_scaled hτ]
  cases inclBlock C A D.duration ecc P (-a * ms / (ms + mq)) R (inclFactorOf ecc * R / a) with
  | error e => rfl
  | ok x =>
  obtain ⟨b, ci, i⟩ := x
  cases timeBlock A (M0Of ecc) (2 * π / P) with
  | error e => rfl
  | ok y =>
  obtain ⟨t0, tp⟩ := y
  simp only [Orbit.scaled, Except.ok.injEq]
  have hK : K0Of ecc (1 / τ * (2 * π / P)) (l * a) (l ^ 3 / τ ^ 2 * (ms + mq)) =
      l / τ / (l ^ 3 / τ ^ 2) * K0Of ecc (2 * π / P) a (ms + mq) := by
    have : 1 / τ * (2 * π / P) * (l * a) / (l ^ 3 / τ ^ 2 * (ms + mq)) = l / τ / (l ^ 3 / τ ^ 2) * (2 * π / P * a / (ms + mq)) := by
      rw [div_mul_div_comm (l / τ)]
      congr 1
      ring
    cases ecc with
    | none => exact this
    | some p =>
      simp only [K0Of]
      rw [this, mul_div_assoc]
  have hJ : durJacOf C ⟨l * a, τ * P, 1 / τ ^ 2 * rh, l * R, l ^ 3 / τ ^ 2 * ms, l ^ 3 / τ ^ 2 * mq⟩ (D.daordtau.map (1 / τ * ·)) =
      (durJacOf C ⟨a, P, rh, R, ms, mq⟩ D.daordtau).map
        fun j => ⟨l / τ * j.a, l / τ * j.a_star, l / τ * j.a_planet, 1 / τ ^ 3 * j.rho_star⟩ := by
    cases D.daordtau with
    | none => rfl
    | some g =>
      simp only [durJacOf, Option.map_some, Option.some.injEq, hm]
      congr 1
      · ring
      · rw [show l * R * (1 / τ * g) * (l ^ 3 / τ ^ 2 * mq) = l ^ 3 / τ ^ 2 * (l / τ * (R * g * mq)) by ring, mul_div_mul_left _ _ hmu.ne',
          mul_div_assoc]
      · rw [show -(l * R * (1 / τ * g)) * (l ^ 3 / τ ^ 2 * ms) = l ^ 3 / τ ^ 2 * (l / τ * (-(R * g) * ms)) by ring,
          mul_div_mul_left _ _ hmu.ne', mul_div_assoc]
      · rw [mul_div_mul_left _ _ hl.ne', div_mul_div_comm (1 : ℝ) (τ ^ 3)]
        rw [show C.G * (τ * P) ^ 2 = τ ^ 2 * (C.G * P ^ 2) by ring, one_mul]
        rw [show 9 * π * (a / R) ^ 2 * (1 / τ * g) * C.gccPerSun = 9 * π * (a / R) ^ 2 * g * C.gccPerSun / τ by ring, div_div]
        congr 1
        ring
  rw [hK, hJ]
  congr 1
  · ring
  · funext t
    field_simp

/-! ## Positions, velocities, accelerations -/

theorem trueAnomaly_scaled {l τ : ℝ} (hτ : 0 < τ) (o : Orbit) (t : ℝ) : (o.scaled l τ).trueAnomaly (τ * t) = o.trueAnomaly t := by
  have e : (o.scaled l τ).warp (τ * t) = τ * o.warp t := by
    simp only [Orbit.scaled]
    rw [mul_div_cancel_left₀ _ hτ.ne']
  simp only [Orbit.trueAnomaly, e]
  have : (τ * o.warp t - τ * o.tref) * (1 / τ * o.n) = (o.warp t - o.tref) * o.n := by field_simp
  simp only [Orbit.scaled, this]

theorem rotate_scaled {l τ : ℝ} (o : Orbit) (c x y : ℝ) : (o.scaled l τ).rotate (c * x) (c * y) = V3.smul c (o.rotate x y) := by
  simp only [Orbit.rotate, Orbit.scaled, V3.smul]
  cases o.ecc <;> cases o.Omega <;> simp only [V3.mk.injEq] <;> refine ⟨?_, ?_, ?_⟩ <;> first | trivial | ring

theorem position_scaled {l τ : ℝ} (hτ : 0 < τ) (o : Orbit) (C : Consts) (a t : ℝ) (px : Option ℝ) :
    (o.scaled l τ).position C (l * a) (τ * t) px false = V3.smul l (o.position C a t px false) := by
  simp only [Orbit.position, Bool.false_eq_true, if_false, Orbit.positionNow, trueAnomaly_scaled hτ]
  have hr : ∀ c, (o.scaled l τ).radius (l * a) c = l * o.radius a c := by
    intro c
    unfold Orbit.radius
    simp only [Orbit.scaled]
    cases o.ecc with
    | none => rfl
    | some p =>
      simp only
      ring
  rw [← rotate_scaled (τ := τ), hr]
  cases px <;> congr 1 <;> ring

theorem velocity_scaled {l τ : ℝ} (hl : 0 < l) (hτ : 0 < τ) (o : Orbit) (m t : ℝ) :
    (o.scaled l τ).velocity (l ^ 3 / τ ^ 2 * m) (τ * t) = V3.smul (l / τ) (o.velocity m t) := by
  have hK : (o.scaled l τ).K0 * (l ^ 3 / τ ^ 2 * m) = l / τ * (o.K0 * m) := by
    simp only [Orbit.scaled]
    field_simp
  have he : (o.scaled l τ).ecc = o.ecc := rfl
  simp only [Orbit.velocity, trueAnomaly_scaled hτ, hK, he]
  cases o.ecc with
  | none => simp only [← rotate_scaled (l := l) (τ := τ)]; congr 1 <;> ring
  | some p => simp only [← rotate_scaled (l := l) (τ := τ)]; congr 1 <;> ring

theorem acceleration_scaled {l τ : ℝ} (hl : 0 < l) (hτ : 0 < τ) (o : Orbit) (a m t : ℝ) :
    (o.scaled l τ).acceleration (l * a) (l ^ 3 / τ ^ 2 * m) (τ * t) = V3.smul (l / τ ^ 2) (o.acceleration a m t) := by
  have hK : (o.scaled l τ).K0 * (l ^ 3 / τ ^ 2 * m) = l / τ * (o.K0 * m) := by
    simp only [Orbit.scaled]
    field_simp
  have he : (o.scaled l τ).ecc = o.ecc := rfl
  simp only [Orbit.acceleration, trueAnomaly_scaled hτ, hK, he]
  have key : ∀ x y : ℝ, (l / τ * x) ^ 2 * y / (l * a) = l / τ ^ 2 * (x ^ 2 * y / a) := by
    intro x y
    rw [show (l / τ * x) ^ 2 * y = l * (l / τ ^ 2 * (x ^ 2 * y)) by ring, mul_div_mul_left _ _ hl.ne', mul_div_assoc]
  cases o.ecc with
  | none =>
    simp only [← rotate_scaled (l := l) (τ := τ)]
    have := key (o.K0 * m) (-1)
    rw [mul_neg_one, mul_neg_one] at this
    simp only [this, mul_assoc]
  | some p =>
    simp only [← rotate_scaled (l := l) (τ := τ)]
    have : (l / τ * (o.K0 * m)) ^ 2 * (p.ecc * (o.trueAnomaly t).2 + 1) ^ 2 / (l * a * (p.ecc ^ 2 - 1)) =
        l / τ ^ 2 * ((o.K0 * m) ^ 2 * (p.ecc * (o.trueAnomaly t).2 + 1) ^ 2 / (a * (p.ecc ^ 2 - 1))) := by
      rw [← div_div, key, ← div_div, mul_div_assoc]
    rw [this, mul_assoc, mul_assoc]

/-- **C84** (motion): the bodies of the scaled system are `l` times as far from each other at `τ` times the time, `l / τ` times as fast, and
accelerated `l / τ²` times as much; so are the radial velocities. (Without light delay: the speed of light does not scale.) -/
theorem C84_motion {l τ : ℝ} (hl : 0 < l) (hτ : 0 < τ) (C : Consts) (A : Args)
    (hr : A.r_star.isSome ∨ A.m_star.isSome ∧ A.rho_star.isSome ∧ (A.ecc.isSome ∨ A.duration.isNone)) (o : Orbit)
    (h : keplerianInit C A = .ok o) :
    ∃ o', keplerianInit C (A.scaled l τ) = .ok o' ∧ o'.r_star = l * o.r_star ∧ o'.b = o.b ∧ ∀ t px,
      o'.relativePosition C (τ * t) px = V3.smul l (o.relativePosition C t px) ∧
      o'.planetPosition C (τ * t) px = V3.smul l (o.planetPosition C t px) ∧
      o'.starPosition C (τ * t) px = V3.smul l (o.starPosition C t px) ∧
      o'.relativeVelocity (τ * t) = V3.smul (l / τ) (o.relativeVelocity t) ∧
      o'.planetVelocity (τ * t) = V3.smul (l / τ) (o.planetVelocity t) ∧
      o'.starVelocity (τ * t) = V3.smul (l / τ) (o.starVelocity t) ∧
      (∀ u, o'.radialVelocity C (τ * t) none u = (o.radialVelocity C t none u).map (l / τ * ·)) ∧
      o'.relativeAcceleration (τ * t) = V3.smul (l / τ ^ 2) (o.relativeAcceleration t) ∧
      o'.planetAcceleration (τ * t) = V3.smul (l / τ ^ 2) (o.planetAcceleration t) ∧
      o'.starAcceleration (τ * t) = V3.smul (l / τ ^ 2) (o.starAcceleration t) := by
  have e := C84_constructor hl hτ C A hr
  rw [h] at e
  have hv : (o.scaled l τ).starVelocity = fun t => (o.scaled l τ).velocity (l ^ 3 / τ ^ 2 * o.m_planet) t := rfl
  refine ⟨o.scaled l τ, e, rfl, rfl, fun t px => ⟨?_, position_scaled hτ o C _ t px, position_scaled hτ o C _ t px, ?_, ?_,
    velocity_scaled hl hτ o _ t, fun u => ?_, ?_, ?_, acceleration_scaled hl hτ o _ _ t⟩⟩
  · have := position_scaled (l := l) hτ o C (-o.a) t px
    rw [mul_neg] at this
    exact this
  · have := velocity_scaled hl hτ o (-o.m_total) t
    rw [mul_neg] at this
    exact this
  · have := velocity_scaled hl hτ o (-o.m_star) t
    rw [mul_neg] at this
    exact this
  · simp only [Orbit.radialVelocity, hv, velocity_scaled hl hτ]
    cases C.rSunPerDay.to (u.getD C.mPerS) with
    | error e => rfl
    | ok c =>
      simp only [Except.map, V3.smul, Orbit.starVelocity, Except.ok.injEq]
      ring
  · have := acceleration_scaled hl hτ o (-o.a) (-o.m_total) t
    rw [mul_neg, mul_neg] at this
    exact this
  · have := acceleration_scaled hl hτ o o.a_planet (-o.m_star) t
    rw [mul_neg] at this
    exact this

/-! ## Light delay -/

/-- The constants of a world in which light is `k` times as fast. -/
noncomputable def Consts.withLight (C : Consts) (k : ℝ) (hk : 0 < k) : Consts := { C with c := k * C.c, c_pos := mul_pos hk C.c_pos }

theorem delay_scaled {l τ : ℝ} (hl : 0 < l) (hτ : 0 < τ) (o : Orbit) (C : Consts) (a t : ℝ)
    (hb : l / τ ^ 2 * |o.retardedAz C a t| < 1.0e-10 ↔ |o.retardedAz C a t| < 1.0e-10) :
    (o.scaled l τ).delay (C.withLight (l / τ) (div_pos hl hτ)) (l * a) (τ * t) = τ * o.delay C a t := by
  have hr : ∀ c, (o.scaled l τ).radius (l * a) c = l * o.radius a c := by
    intro c
    unfold Orbit.radius
    simp only [Orbit.scaled]
    cases o.ecc with
    | none => rfl
    | some p =>
      simp only
      ring
  have hz : ((o.scaled l τ).positionNow (C.withLight (l / τ) (div_pos hl hτ)) (l * a) (τ * t) none).z = l * (o.positionNow C a t none).z :=
    congrArg V3.z (position_scaled (l := l) hτ o C a t none)
  have hw : 2 * π / (τ * o.period) = 1 / τ * (2 * π / o.period) := by rw [div_mul_div_comm, one_mul]
  have hvz : (o.scaled l τ).retardedVz (l * a) (τ * t) = l / τ * o.retardedVz a t := by
    unfold Orbit.retardedVz
    simp only [trueAnomaly_scaled hτ]
    simp only [Orbit.scaled, hw]
    cases o.ecc <;> simp only <;> ring
  have haz : (o.scaled l τ).retardedAz (C.withLight (l / τ) (div_pos hl hτ)) (l * a) (τ * t) = l / τ ^ 2 * o.retardedAz C a t := by
    unfold Orbit.retardedAz
    simp only [trueAnomaly_scaled hτ, hz, hr, mul_div_mul_left _ _ hl.ne']
    simp only [Orbit.scaled, hw]
    ring
  have hc : (C.withLight (l / τ) (div_pos hl hτ)).c = l / τ * C.c := rfl
  have hlt : (0 : ℝ) < l / τ := div_pos hl hτ
  have hla : (0 : ℝ) < l / τ ^ 2 := by positivity
  have hc0 := C.c_pos.ne'
  unfold Orbit.delay
  simp only [hz, hvz, haz, hc, abs_mul, abs_of_pos hla, mul_div_mul_left _ _ hlt.ne']
  simp only [hb]
  split
  · rw [← mul_add, show (0 : ℝ) - l * (o.positionNow C a t none).z = l / τ * (τ * (0 - (o.positionNow C a t none).z)) by field_simp; ring,
      mul_div_mul_left _ _ hlt.ne', mul_div_assoc]
  · rw [show l / τ * C.c / (l / τ ^ 2 * o.retardedAz C a t) = τ * (C.c / o.retardedAz C a t) by
      rw [show l / τ * C.c = l / τ ^ 2 * (τ * C.c) by field_simp, mul_div_mul_left _ _ hla.ne', mul_div_assoc],
      show 2 * (l / τ ^ 2 * o.retardedAz C a t) * (0 - l * (o.positionNow C a t none).z) / (l / τ * C.c) ^ 2 =
        2 * o.retardedAz C a t * (0 - (o.positionNow C a t none).z) / C.c ^ 2 by field_simp; ring]
    ring

/-- **C84** (light delay): when light is `l / τ` times as fast as well, positions with light delay scale too. The acceleration along the line
of sight below which the code uses the linear formula (`1e-10` solar radii per square day) is a fixed number, so this is asked not to decide
differently for the two systems. -/
theorem C84_light_delay {l τ : ℝ} (hl : 0 < l) (hτ : 0 < τ) (C : Consts) (A : Args)
    (hr : A.r_star.isSome ∨ A.m_star.isSome ∧ A.rho_star.isSome ∧ (A.ecc.isSome ∨ A.duration.isNone)) (o : Orbit)
    (h : keplerianInit C A = .ok o) :
    ∃ o', keplerianInit C (A.scaled l τ) = .ok o' ∧ ∀ t,
      (l / τ ^ 2 * |o.retardedAz C (-o.a) t| < 1.0e-10 ↔ |o.retardedAz C (-o.a) t| < 1.0e-10) →
      o'.relativePosition (C.withLight (l / τ) (div_pos hl hτ)) (τ * t) none true = V3.smul l (o.relativePosition C t none true) := by
  have e := C84_constructor hl hτ C A hr
  rw [h] at e
  refine ⟨o.scaled l τ, e, fun t hb => ?_⟩
  have hd := delay_scaled hl hτ o C (-o.a) t hb
  rw [mul_neg] at hd
  have hp := position_scaled (l := l) hτ o C (-o.a) (t - o.delay C (-o.a) t) none
  rw [mul_neg, mul_sub] at hp
  have : (o.scaled l τ).relativePosition (C.withLight (l / τ) (div_pos hl hτ)) (τ * t) none true =
      (o.scaled l τ).positionNow C (-(l * o.a))
        (τ * t - (o.scaled l τ).delay (C.withLight (l / τ) (div_pos hl hτ)) (-(l * o.a)) (τ * t)) none := rfl
  rw [this, hd]
  exact hp

/-! ## Light curves -/

theorem fluxAt_smul {l : ℝ} (hl : 0 < l) (c : ℝ × ℝ × ℝ) (R r : ℝ) (v : V3) : fluxAt c (l * R) (l * r) (V3.smul l v) = fluxAt c R r v := by
  unfold fluxAt
  simp only [V3.smul, mul_div_mul_left _ _ hl.ne']
  rw [show (l * v.x) ^ 2 + (l * v.y) ^ 2 = l ^ 2 * (v.x ^ 2 + v.y ^ 2) by ring, sqrt_mul (by positivity), sqrt_sq hl.le,
    mul_div_mul_left _ _ hl.ne']

/-- **C84** (light curves): the light curve of the scaled system with scaled radii, at scaled times and with scaled exposure times, is that of
the system. -/
theorem C84_light_curve {l τ : ℝ} (hl : 0 < l) (hτ : 0 < τ) (C : Consts) (cp cp' : ContactOp) (As : List Args) (os : List Orbit)
    (hr : ∀ A ∈ As, A.r_star.isSome ∨ A.m_star.isSome ∧ A.rho_star.isSome ∧ (A.ecc.isSome ∨ A.duration.isNone))
    (h : List.Forall₂ (fun A o => keplerianInit C A = .ok o) As os) (R : ℝ) (L : LimbDark)
    (r r' t t' : Tensor ℝ) (hn : r.size = os.length) (hrs : r'.shape = r.shape) (hrv : ∀ i, r'.get i = l * r.get i)
    (hts : t'.shape = t.shape) (htv : ∀ i, t'.get i = τ * t.get i)
    (x x' : Option (Tensor ℝ)) (hx : ∀ y, x = some y → y.shape = [] ∨ y.shape = t.shape)
    (hxx : Option.Rel (fun y y' : Tensor ℝ => y'.shape = y.shape ∧ ∀ i, y'.get i = τ * y.get i) x x')
    (oversample order : ℤ) (ho : order = 0 ∨ order = 1 ∨ order = 2) (hn1 : 1 ≤ oversample) :
    ∃ os', List.Forall₂ (fun A o => keplerianInit C (A.scaled l τ) = .ok o) As os' ∧
    ∃ F F', L.getLightCurve (some (keplerApi C cp os R)) (some r) (some t) x oversample order (some false) = .ok F ∧
      L.getLightCurve (some (keplerApi C cp' os' (l * R))) (some r') (some t') x' oversample order (some false) = .ok F' ∧
      F.shape = t.shape ++ [os.length] ∧ F'.shape = F.shape ∧
      ∀ i p, InShape i t.shape → p < os.length → F'.get (i ++ [p]) = F.get (i ++ [p]) := by
  refine ⟨os.map (Orbit.scaled l τ), ?_, ?_⟩
  · clear hn
    induction h with
    | nil => exact .nil
    | cons h1 h2 ih =>
      refine .cons ?_ (ih fun A hA => hr A (List.mem_cons_of_mem _ hA))
      rw [C84_constructor hl hτ C _ (hr _ List.mem_cons_self), h1]
      rfl
  have hlen : (os.map (Orbit.scaled l τ)).length = os.length := List.length_map _
  have key : ∀ p < os.length, ∀ ρ s, fluxAt L.c (l * R) (l * ρ) (match (os.map (Orbit.scaled l τ))[p]? with
        | some o => o.relativePosition C (τ * s) none
        | none => ⟨0, 0, 0⟩) = fluxAt L.c R ρ (match os[p]? with
        | some o => o.relativePosition C s none
        | none => ⟨0, 0, 0⟩) := by
    intro p hp ρ s
    rw [List.getElem?_eq_getElem (by rw [hlen]; exact hp), List.getElem?_eq_getElem hp, List.getElem_map]
    have := position_scaled (l := l) hτ os[p] C (-os[p].a) s none
    rw [mul_neg] at this
    have e : (os[p].scaled l τ).relativePosition C (τ * s) none = V3.smul l (os[p].relativePosition C s none) := this
    simp only [e]
    exact fluxAt_smul hl _ _ _ _
  have hr2 : r'.size = (os.map (Orbit.scaled l τ)).length := by
    rw [hlen, ← hn]
    unfold Tensor.size
    rw [hrs]
  cases hxx with
  | none =>
    obtain ⟨F, h1, h2, h3⟩ := C39_values L (keplerApi C cp os R) false _ rfl r t hn oversample order
    obtain ⟨F', g1, g2, g3⟩ := C39_values L (keplerApi C cp' (os.map (Orbit.scaled l τ)) (l * R)) false _ rfl r' t' hr2 oversample order
    refine ⟨F, F', h1, g1, h2, by rw [h2, g2, hts]; simp [keplerApi], fun i p hi hp => ?_⟩
    rw [h3 i p hi hp, g3 i p (hts ▸ hi) (by rw [← hlen] at hp; exact hp), htv, hrv, hrs]
    exact key p hp _ _
  | @some y y' hy =>
    obtain ⟨hys, hyv⟩ := hy
    obtain ⟨S, hS, F, h1, h2, h3⟩ := C39_values_exposure L (keplerApi C cp os R) false _ rfl r t y hn (hx y rfl) oversample order ho hn1
    obtain ⟨S', hS', F', g1, g2, g3⟩ := C39_values_exposure L (keplerApi C cp' (os.map (Orbit.scaled l τ)) (l * R)) false _ rfl r' t' y' hr2
      (by rw [hys, hts]; exact hx y rfl) oversample order ho hn1
    rw [hS] at hS'
    cases hS'
    refine ⟨F, F', h1, g1, h2, by rw [h2, g2, hts]; simp [keplerApi], fun i p hi hp => ?_⟩
    have hte : texpAt y' i = τ * texpAt y i := by
      unfold texpAt
      rw [hys, hyv, hyv]
      split <;> rfl
    rw [h3 i p hi hp, g3 i p (hts ▸ hi) (by rw [← hlen] at hp; exact hp), htv, hrv, hrs, hte]
    simp only [exposureAverage]
    congr 2
    funext d w
    rw [show τ * t.get i + τ * texpAt y i * d = τ * (t.get i + texpAt y i * d) by ring]
    congr 1
    exact key p hp _ _

/-! ### Examples -/

/-- Hypotheses of `C84_constructor` and `C84_motion`: a star of known density and radius (second alternative: known mass and density). -/
example (C : Consts) : ∃ o, keplerianInit C { period := some ⟨10, none⟩, b := some ⟨1 / 2, none⟩, r_star := some ⟨2, none⟩,
                                              rho_star := some ⟨1, none⟩ } = .ok o ∧ o.r_star = 2 ∧ o.period = 10 := ⟨_, rfl, rfl, rfl⟩

example (C : Consts) : ∃ o, keplerianInit C { period := some ⟨10, none⟩, b := some ⟨1 / 2, none⟩, m_star := some ⟨2, none⟩,
                                              rho_star := some ⟨1, none⟩ } = .ok o ∧ o.m_star = 2 ∧ o.period = 10 := ⟨_, rfl, rfl, rfl⟩

/-- Hypothesis of `C84_light_delay` on the threshold: accelerations stay what they are when lengths are 4 and times 2 times as long. -/
example (z : ℝ) : (4 : ℝ) / 2 ^ 2 * |z| < 1.0e-10 ↔ |z| < 1.0e-10 := by norm_num

/-- The light curve of a transiting planet does not tell the size of the star: with the same density, period and impact parameter, a star
and a planet of three times the radius have the same light curve. -/
example (C : Consts) (cp : ContactOp) (L : LimbDark) (t : Tensor ℝ) : ∃ o o' : Orbit,
    keplerianInit C { period := some ⟨10, none⟩, b := some ⟨1 / 2, none⟩, r_star := some ⟨1, none⟩, rho_star := some ⟨1, none⟩ } = .ok o ∧
    keplerianInit C { period := some ⟨10, none⟩, b := some ⟨1 / 2, none⟩, r_star := some ⟨3, none⟩, rho_star := some ⟨1, none⟩ } = .ok o' ∧
    o.r_star = 1 ∧ o'.r_star = 3 ∧
    ∃ F F', L.getLightCurve (some (keplerApi C cp [o] o.r_star)) (some (Tensor.ofList [1 / 10] 0)) (some t) none 7 0 (some false) = .ok F ∧
      L.getLightCurve (some (keplerApi C cp [o'] o'.r_star)) (some (Tensor.ofList [3 / 10] 0)) (some t) none 7 0 (some false) = .ok F' ∧
      ∀ i, InShape i t.shape → F'.get (i ++ [0]) = F.get (i ++ [0]) := by
  obtain ⟨os', h1, F, F', h2, h3, -, -, h4⟩ := C84_light_curve (l := 3) (τ := 1) (by norm_num) (by norm_num) C cp cp
    [{ period := some ⟨10, none⟩, b := some ⟨1 / 2, none⟩, r_star := some ⟨1, none⟩, rho_star := some ⟨1, none⟩ }] [_] (by simp)
    (.cons rfl .nil) 1 L (Tensor.ofList [1 / 10] 0) (Tensor.ofList [3 / 10] 0) t t rfl rfl
    (by
      intro i
      match i with
      | [] => norm_num [Tensor.ofList]
      | 0 :: _ => norm_num [Tensor.ofList]
      | (k + 1) :: _ => norm_num [Tensor.ofList]) rfl (by simp) none none (by simp) .none 7 0 (by simp) (by norm_num)
  cases h1 with
  | @cons _ o' _ _ h5 h6 =>
    cases h6
    have hA : Args.scaled 3 1 { period := some ⟨10, none⟩, b := some ⟨1 / 2, none⟩, r_star := some ⟨1, none⟩, rho_star := some ⟨1, none⟩ } =
        { period := some ⟨10, none⟩, b := some ⟨1 / 2, none⟩, r_star := some ⟨3, none⟩, rho_star := some ⟨1, none⟩ } := by
      simp [Args.scaled, Q.times]
    rw [hA] at h5
    have hR : o'.r_star = 3 := by cases h5; rfl
    refine ⟨_, o', rfl, h5, rfl, hR, F, F', h2, ?_, fun i hi => h4 i 0 hi Nat.one_pos⟩
    rw [mul_one] at h3
    rw [hR]
    exact h3

end Exo
