import Verif.Lemmas.Broadcast
import Verif.Spec.System

/-!
# Systems of several planets: lemmas
-/

namespace Exo
open Real

/-! ## Values of graphs -/

namespace Gr
variable (x y : Gr) (idx : List ℕ)

@[simp] theorem val_add : (x + y).val idx = x.val idx + y.val idx := rfl
@[simp] theorem val_sub : (x - y).val idx = x.val idx - y.val idx := rfl
@[simp] theorem val_mul : (x * y).val idx = x.val idx * y.val idx := rfl
@[simp] theorem val_div : (x / y).val idx = x.val idx / y.val idx := rfl
@[simp] theorem val_neg : (-x).val idx = -x.val idx := rfl
@[simp] theorem val_pow (n : ℕ) : (x ^ n).val idx = x.val idx ^ n := rfl
@[simp] theorem val_powr (c : ℝ) : (x.powr c).val idx = x.val idx ^ c := rfl
@[simp] theorem val_sqrt : x.sqrt.val idx = √(x.val idx) := rfl
@[simp] theorem val_sin : x.sin.val idx = Real.sin (x.val idx) := rfl
@[simp] theorem val_cos : x.cos.val idx = Real.cos (x.val idx) := rfl
@[simp] theorem val_arccos : x.arccos.val idx = Real.arccos (x.val idx) := rfl
@[simp] theorem val_arctan2 : (Gr.arctan2 x y).val idx = Exo.arctan2 (x.val idx) (y.val idx) := rfl
@[simp] theorem val_zerosLike : x.zerosLike.val idx = 0 := rfl
@[simp] theorem val_num (c : ℝ) : (num c).val idx = c := rfl
@[simp] theorem val_zero : (0 : Gr).val idx = 0 := by show ((0 : ℕ) : ℝ) = 0; simp
@[simp] theorem val_one : (1 : Gr).val idx = 1 := by show ((1 : ℕ) : ℝ) = 1; simp
@[simp] theorem val_two : (2 : Gr).val idx = 2 := by show ((2 : ℕ) : ℝ) = 2; simp
@[simp] theorem val_three : (3 : Gr).val idx = 3 := by show ((3 : ℕ) : ℝ) = 3; simp
@[simp] theorem val_same (f : ℝ → ℝ → ℝ) : (same f x y).val idx = f (x.val idx) (y.val idx) := rfl
@[simp] theorem val_zip3 (f : ℝ → ℝ → ℝ → ℝ) (z : Gr) : (zip3 f x y z).val idx = f (x.val idx) (y.val idx) (z.val idx) := rfl
@[simp] theorem val_zip (f : ℝ → ℝ → ℝ) : (zip f x y).val idx = f (x.val idx) (y.val idx) := rfl
@[simp] theorem val_padright : x.padright.val idx = x.val idx.dropLast := rfl
@[simp] theorem val_leaf (t : Tensor ℝ) : (leaf t).val idx = t.bget idx := rfl

end Gr

/-! ## Projection of the vector model -/

def VQ.at (idx : List ℕ) (q : VQ) : Q := ⟨q.val.val idx, q.unit⟩
def TQ.at (idx : List ℕ) (q : TQ) : Q := ⟨q.val.bget idx, q.unit⟩
def VInputs.at (I : VInputs) (idx : List ℕ) : Inputs :=
  ⟨I.a.val idx, I.period.val idx, I.rho_star.val idx, I.r_star.val idx, I.m_star.val idx, I.m_planet.val idx⟩
def VEcc.at (idx : List ℕ) (e : VEcc) : EccParams := ⟨e.ecc.val idx, e.omega.val idx, e.cos_omega.val idx, e.sin_omega.val idx⟩
def VDurJac.at (idx : List ℕ) (e : VDurJac) : DurationJac := ⟨e.a.val idx, e.a_star.val idx, e.a_planet.val idx, e.rho_star.val idx⟩
def VDurBlock.at (D : VDurBlock) (idx : List ℕ) : DurBlock :=
  ⟨D.a.map (VQ.at idx), D.r_star.map (VQ.at idx), D.duration.map (VQ.at idx), D.daordtau.map (Gr.val · idx)⟩

def VOrbit.at (o : VOrbit) (idx : List ℕ) : Orbit where
  a := o.a.val idx
  period := o.period.val idx
  rho_star := o.rho_star.val idx
  r_star := o.r_star.val idx
  m_star := o.m_star.val idx
  m_planet := o.m_planet.val idx
  m_total := o.m_total.val idx
  n := o.n.val idx
  a_star := o.a_star.val idx
  a_planet := o.a_planet.val idx
  K0 := o.K0.val idx
  Omega := o.Omega.map (Gr.val · idx)
  ecc := o.ecc.map (VEcc.at idx)
  M0 := o.M0.val idx
  dcosidb := o.dcosidb.val idx
  b := o.b.val idx
  cos_incl := o.cos_incl.val idx
  incl := o.incl.val idx
  sin_incl := o.sin_incl.val idx
  t0 := o.t0.val idx
  t_periastron := o.t_periastron.val idx
  tref := o.tref.val idx
  durJac := o.durJac.map (VDurJac.at idx)
  warp := fun t => t - (match o.dts with
    | none => o.t0.val idx
    | some fs => fs.getD (idx.getLastD 0) id t)

def VArgs.at (A : VArgs) (idx : List ℕ) : Args where
  period := A.period.map (TQ.at idx)
  a := A.a.map (TQ.at idx)
  t0 := A.t0.map (TQ.at idx)
  t_periastron := A.t_periastron.map (TQ.at idx)
  incl := A.incl.map (TQ.at idx)
  b := A.b.map (TQ.at idx)
  duration := A.duration.map (TQ.at idx)
  ecc := A.ecc.map (TQ.at idx)
  omega := A.omega.map (TQ.at idx)
  sin_omega := A.sin_omega.map (TQ.at idx)
  cos_omega := A.cos_omega.map (TQ.at idx)
  Omega := A.Omega.map (TQ.at idx)
  m_planet := A.m_planet.map (TQ.at idx)
  m_star := A.m_star.map (TQ.at idx)
  r_star := A.r_star.map (TQ.at idx)
  rho_star := A.rho_star.map (TQ.at idx)
  ror := A.ror.map (TQ.at idx)
  m_planet_units := A.m_planet_units
  rho_star_units := A.rho_star_units

section
variable (idx : List ℕ)

theorem gr_at (x : Option TQ) : (x.map TQ.gr).map (VQ.at idx) = x.map (TQ.at idx) := by cases x <;> rfl

theorem toUnitVal_at (q : VQ) (u : AUnit) : toUnitVal (q.at idx) u = (toUnitV q u).map (Gr.val · idx) := by
  unfold toUnitVal toUnit toUnitV VQ.at
  rcases q with ⟨v, _ | b⟩
  · rfl
  · simp only
    cases b.to u <;> rfl

theorem toUnitOpt_at (q : Option VQ) (u : AUnit) :
    toUnitOpt (q.map (VQ.at idx)) u = (toUnitOptV q u).map (Option.map (Gr.val · idx)) := by
  unfold toUnitOpt toUnitOptV
  cases q with
  | none => rfl
  | some q =>
    simp only [Option.map_some, toUnitVal_at]
    cases toUnitV q u <;> rfl

theorem rhoStarVal_at (C : Consts) (q : Option VQ) :
    rhoStarVal C (q.map (VQ.at idx)) = (rhoStarValV C q).map (Option.map (Gr.val · idx)) := by
  unfold rhoStarVal rhoStarValV
  cases q with
  | none => rfl
  | some q =>
    simp only [Option.map_some]
    have : hasUnit (q.at idx) = q.unit.isSome := rfl
    rw [this]
    split
    · exact toUnitOpt_at idx (some q) _
    · rfl

theorem stellarParams_at (rho r m : Option Gr) : stellarParams (rho.map (Gr.val · idx)) (r.map (Gr.val · idx)) (m.map (Gr.val · idx)) =
    (stellarParamsV rho r m).map (fun v => (v.1.val idx, v.2.1.val idx, v.2.2.val idx)) := by
  unfold stellarParams stellarParamsV
  rcases rho with _ | rho <;> rcases r with _ | r <;> rcases m with _ | m <;> simp [Except.map]

theorem finishInputs_at (C : Consts) (a p : Option Gr) (mp : Gr) (rho r m : Option VQ) :
    finishInputs C (a.map (Gr.val · idx)) (p.map (Gr.val · idx)) (mp.val idx) (rho.map (VQ.at idx)) (r.map (VQ.at idx))
      (m.map (VQ.at idx)) = (finishInputsV C a p mp rho r m).map (VInputs.at · idx) := by
  unfold finishInputs finishInputsV
  simp only [Option.isNone_map, rhoStarVal_at, toUnitOpt_at]
  split
  · rfl
  cases rhoStarValV C rho with
  | error e => rfl
  | ok rho? =>
  simp only [Except.map]
  cases toUnitOptV r C.rSun with
  | error e => rfl
  | ok r? =>
  simp only [Except.map]
  cases toUnitOptV m C.mSun with
  | error e => rfl
  | ok m? =>
  simp only [Except.map]
  rw [stellarParams_at]
  cases stellarParamsV rho? r? m? with
  | error e => rfl
  | ok v =>
  obtain ⟨x, y, z⟩ := v
  simp only [Except.map]
  rcases a with _ | a <;> rcases p with _ | p <;> simp [VInputs.at]

theorem impliedInputs_at (C : Consts) (a p mp : Gr) (rho r m : Option VQ) :
    impliedInputs C (a.val idx) (p.val idx) (mp.val idx) (rho.map (VQ.at idx)) (r.map (VQ.at idx))
      (m.map (VQ.at idx)) = (impliedInputsV C a p mp rho r m).map (VInputs.at · idx) := by
  unfold impliedInputs impliedInputsV
  simp only [Option.isSome_map, toUnitOpt_at]
  split
  · rfl
  cases toUnitOptV r C.rSun with
  | error e => rfl
  | ok r? =>
  rcases r? with _ | r? <;> simp [Except.map, VInputs.at]

theorem defaultR_at (r m : Option VQ) : defaultR (r.map (VQ.at idx)) (m.map (VQ.at idx)) = (defaultRV r m).map (VQ.at idx) := by
  unfold defaultR defaultRV
  simp only [Option.isNone_map]
  split <;> simp [VQ.at]

theorem defaultM_at (rho r m : Option VQ) : defaultM (rho.map (VQ.at idx)) (r.map (VQ.at idx)) (m.map (VQ.at idx)) =
    (defaultMV rho r m).map (VQ.at idx) := by
  unfold defaultM defaultMV
  simp only [Option.isNone_map]
  split <;> simp [VQ.at]

theorem defaultMp_at (mp a p : Option Gr) : (mp.map (Gr.val · idx)).getD 0 = (defaultMp mp a p).val idx := by
  rcases mp with _ | mp <;> rcases a with _ | a <;> rcases p with _ | p <;> simp [defaultMp]

theorem consistentInputs_at (C : Consts) (a p rho r m mp : Option VQ) :
    consistentInputs C (a.map (VQ.at idx)) (p.map (VQ.at idx)) (rho.map (VQ.at idx)) (r.map (VQ.at idx)) (m.map (VQ.at idx))
      (mp.map (VQ.at idx)) = (consistentInputsV C a p rho r m mp).map (VInputs.at · idx) := by
  unfold consistentInputs consistentInputsV
  simp only [Option.isNone_map, toUnitOpt_at]
  split
  · rfl
  cases toUnitOptV mp C.mSun with
  | error e => rfl
  | ok mp? =>
  simp only [Except.map]
  cases toUnitOptV a C.rSun with
  | error e => rfl
  | ok a? =>
  simp only [Except.map]
  cases toUnitOptV p C.day with
  | error e => rfl
  | ok p? =>
  simp only [Except.map]
  rw [defaultMp_at idx mp? a? p?, defaultR_at, defaultM_at, finishInputs_at]
  rcases a? with _ | a? <;> rcases p? with _ | p? <;> simp only [Option.map_none, Option.map_some]
  · rfl
  · rfl
  · rfl
  · exact impliedInputs_at idx C _ _ _ _ _ _

theorem applyUnitKw_at (x : Option TQ) (u : Option AUnit) :
    applyUnitKw (x.map (TQ.at idx)) u = (applyUnitKwV x u).map (Option.map (VQ.at idx)) := by
  unfold applyUnitKw applyUnitKwV
  cases u with
  | none => cases x <;> rfl
  | some u =>
    cases x with
    | none => rfl
    | some q =>
      simp only [Option.map_some, withUnit]
      have : hasUnit (q.at idx) = q.unit.isSome := rfl
      rw [this]
      by_cases h : q.unit.isSome = true
      · simp [h, Except.map]
      · simp [h, Except.map, VQ.at, TQ.at]

theorem aorFromDuration_at (d p b : Gr) (k : Option Gr) :
    aorFromDuration (d.val idx) (p.val idx) (b.val idx) (k.map (Gr.val · idx)) =
      ((aorFromDurationV d p b k).1.val idx, (aorFromDurationV d p b k).2.val idx) := by
  unfold aorFromDuration aorFromDurationV
  rcases k with _ | k <;> simp

theorem durationBlock_at (A : VArgs) : durationBlock (A.at idx) = (durationBlockV A).map (VDurBlock.at · idx) := by
  unfold durationBlock durationBlockV VArgs.at
  simp only
  rcases A.ecc with _ | e <;> rcases A.duration with _ | d <;> simp only [Option.map_none, Option.map_some, Except.map, VDurBlock.at, gr_at]
  · rcases A.b with _ | b
    · rfl
    rcases A.period with _ | p
    · rfl
    simp only [Option.map_some]
    have := aorFromDuration_at idx (.leaf d.val) (.leaf p.val) (.leaf b.val) (A.ror.map fun q => .leaf q.val)
    have hr : (A.ror.map (TQ.at idx)).map Q.val = (A.ror.map fun q => Gr.leaf q.val).map (Gr.val · idx) := by
      cases A.ror <;> rfl
    show Except.ok _ = _
    rw [show (TQ.at idx d).val = (Gr.leaf d.val).val idx from rfl, show (TQ.at idx p).val = (Gr.leaf p.val).val idx from rfl,
      show (TQ.at idx b).val = (Gr.leaf b.val).val idx from rfl, hr, this]
    rcases A.r_star with _ | r <;> simp [VQ.at, TQ.at, TQ.gr]
  · rfl

theorem eccBlock_at (A : VArgs) : eccBlock (A.at idx) = (eccBlockV A).map (Option.map (VEcc.at idx)) := by
  unfold eccBlock eccBlockV VArgs.at
  simp only
  rcases A.ecc with _ | e
  · rfl
  rcases A.omega with _ | w <;> rcases A.sin_omega with _ | s <;> rcases A.cos_omega with _ | c <;> rfl

theorem M0Of_at (e : Option VEcc) (n : Gr) : M0Of (e.map (VEcc.at idx)) = (M0OfV e n).val idx := by
  unfold M0Of M0OfV
  rcases e with _ | e
  · simp
  · simp [VEcc.at]

theorem K0Of_at (e : Option VEcc) (n a m : Gr) : K0Of (e.map (VEcc.at idx)) (n.val idx) (a.val idx) (m.val idx) = (K0OfV e n a m).val idx := by
  unfold K0Of K0OfV
  rcases e with _ | e
  · rfl
  · simp [VEcc.at]

theorem inclFactorOf_at (e : Option VEcc) : inclFactorOf (e.map (VEcc.at idx)) = (inclFactorOfV e).val idx := by
  unfold inclFactorOf inclFactorOfV
  rcases e with _ | e
  · simp
  · simp [VEcc.at]

theorem bFromDuration_at (e : VEcc) (d p a r : Gr) :
    bFromDuration (e.at idx) (d.val idx) (p.val idx) (a.val idx) (r.val idx) = (bFromDurationV e d p a r).val idx := by
  unfold bFromDuration bFromDurationV
  simp [VEcc.at]

theorem inclBlock_at (C : Consts) (A : VArgs) (d : Option VQ) (e : Option VEcc) (a p ap r c : Gr) :
    inclBlock C (A.at idx) (d.map (VQ.at idx)) (e.map (VEcc.at idx)) (p.val idx) (ap.val idx) (r.val idx) (c.val idx) =
      (inclBlockV C A d e a p ap r c).map (fun v => (v.1.val idx, v.2.1.val idx, v.2.2.val idx)) := by
  unfold inclBlock inclBlockV VArgs.at
  simp only [Option.isSome_map]
  rcases A.b with _ | b
  · rcases A.incl with _ | i
    · rcases d with _ | d
      · simp [Except.map]
      · rcases e with _ | e
        · rfl
        · simp only [Option.map_none, Option.map_some, toUnitVal_at]
          cases toUnitV d C.day with
          | error er => rfl
          | ok dv => simp only [Except.map, bFromDuration_at]; simp
    · simp only [Option.map_none, Option.map_some]
      split <;> rfl
  · simp only [Option.map_some]
    split <;> rfl

theorem timeBlock_at (A : VArgs) (M0 n p : Gr) :
    timeBlock (A.at idx) (M0.val idx) (n.val idx) = (timeBlockV A M0 n p).map (fun v => (v.1.val idx, v.2.val idx)) := by
  unfold timeBlock timeBlockV VArgs.at
  simp only
  rcases A.t0 with _ | t0 <;> rcases A.t_periastron with _ | tp <;> rfl

theorem durJacOf_at (C : Consts) (I : VInputs) (g : Option Gr) :
    durJacOf C (I.at idx) (g.map (Gr.val · idx)) = (durJacOfV C I g).map (VDurJac.at idx) := by
  unfold durJacOf durJacOfV
  rcases g with _ | g
  · rfl
  · simp [VInputs.at, VDurJac.at]

theorem keplerianInit_at (C : Consts) (A : VArgs) : keplerianInit C (A.at idx) = (keplerianInitV C A).map (VOrbit.at · idx) := by
  unfold keplerianInit keplerianInitV
  rw [show (A.at idx).m_planet = A.m_planet.map (TQ.at idx) from rfl, show (A.at idx).rho_star = A.rho_star.map (TQ.at idx) from rfl,
    show (A.at idx).m_planet_units = A.m_planet_units from rfl, show (A.at idx).rho_star_units = A.rho_star_units from rfl,
    applyUnitKw_at, applyUnitKw_at, durationBlock_at]
  cases applyUnitKwV A.m_planet A.m_planet_units with
  | error e => rfl
  | ok mp =>
  simp only [Except.map]
  cases applyUnitKwV A.rho_star A.rho_star_units with
  | error e => rfl
  | ok rho =>
  simp only [Except.map]
  cases durationBlockV A with
  | error e => rfl
  | ok D =>
  simp only [Except.map]
  have h := consistentInputs_at idx C D.a (A.period.map TQ.gr) rho D.r_star (A.m_star.map TQ.gr) mp
  rw [gr_at, gr_at] at h
  rw [show (D.at idx).a = D.a.map (VQ.at idx) from rfl, show (A.at idx).period = A.period.map (TQ.at idx) from rfl,
    show (D.at idx).r_star = D.r_star.map (VQ.at idx) from rfl, show (A.at idx).m_star = A.m_star.map (TQ.at idx) from rfl, h]
  cases consistentInputsV C D.a (A.period.map TQ.gr) rho D.r_star (A.m_star.map TQ.gr) mp with
  | error e => rfl
  | ok I =>
  simp only [Except.map]
  rw [eccBlock_at]
  cases eccBlockV A with
  | error e => rfl
  | ok ecc =>
  simp only [Except.map]
  have hi := inclBlock_at idx C A D.duration ecc I.a I.period (-I.a * I.m_star / (I.m_star + I.m_planet)) I.r_star
    (inclFactorOfV ecc * I.r_star / I.a)
  rw [Gr.val_div (inclFactorOfV ecc * I.r_star), Gr.val_mul (inclFactorOfV ecc), ← inclFactorOf_at] at hi
  rw [show (D.at idx).duration = D.duration.map (VQ.at idx) from rfl]
  simp only [VInputs.at]
  simp only [Gr.val_div, Gr.val_mul, Gr.val_neg, Gr.val_add] at hi
  rw [hi]
  cases inclBlockV C A D.duration ecc I.a I.period (-I.a * I.m_star / (I.m_star + I.m_planet)) I.r_star
    (inclFactorOfV ecc * I.r_star / I.a) with
  | error e => rfl
  | ok v =>
  obtain ⟨b, ci, i⟩ := v
  simp only [Except.map]
  have ht := timeBlock_at idx A (M0OfV ecc (((2 * π : ℝ) : Gr) / I.period)) (((2 * π : ℝ) : Gr) / I.period) I.period
  rw [← M0Of_at, Gr.val_div, Gr.val_num] at ht
  rw [ht]
  cases timeBlockV A (M0OfV ecc (((2 * π : ℝ) : Gr) / I.period)) (((2 * π : ℝ) : Gr) / I.period) I.period with
  | error e => rfl
  | ok w =>
  obtain ⟨t0, tp⟩ := w
  simp only [Except.map, VOrbit.at]
  have hk := K0Of_at idx ecc (((2 * π : ℝ) : Gr) / I.period) I.a (I.m_star + I.m_planet)
  have hj := durJacOf_at idx C I D.daordtau
  simp only [VInputs.at] at hj
  simp only [Gr.val_div, Gr.val_add, Gr.val_num] at hk
  rw [← hk, ← M0Of_at]
  simp only [VDurBlock.at, hj]
  have hO : (A.at idx).Omega.map Q.val = (A.Omega.map fun q => Gr.leaf q.val).map (Gr.val · idx) := by
    simp only [VArgs.at]; cases A.Omega <;> rfl
  rw [hO, Gr.val_div (inclFactorOfV ecc * I.r_star), Gr.val_mul (inclFactorOfV ecc), ← inclFactorOf_at]
  rfl

end

/-! ## Every attribute is a broadcast computation -/

namespace Gr
variable {S : List ℕ} {x y : Gr}

theorem good_add (hx : Good S x) (hy : Good S y) : Good S (x + y) := good_zip _ hx hy
theorem good_sub (hx : Good S x) (hy : Good S y) : Good S (x - y) := good_zip _ hx hy
theorem good_mul (hx : Good S x) (hy : Good S y) : Good S (x * y) := good_zip _ hx hy
theorem good_div (hx : Good S x) (hy : Good S y) : Good S (x / y) := good_zip _ hx hy
theorem good_neg (hx : Good S x) : Good S (-x) := good_map _ hx
theorem good_pow (n : ℕ) (hx : Good S x) : Good S (x ^ n) := good_map _ hx
theorem good_powr (c : ℝ) (hx : Good S x) : Good S (x.powr c) := good_map _ hx
theorem good_sqrt (hx : Good S x) : Good S x.sqrt := good_map _ hx
theorem good_sin (hx : Good S x) : Good S x.sin := good_map _ hx
theorem good_cos (hx : Good S x) : Good S x.cos := good_map _ hx
theorem good_arccos (hx : Good S x) : Good S x.arccos := good_map _ hx
theorem good_arctan2 (hx : Good S x) (hy : Good S y) : Good S (Gr.arctan2 x y) := good_zip _ hx hy
theorem good_zerosLike (hx : Good S x) : Good S x.zerosLike := good_map _ hx
theorem good_ofNat (n : ℕ) : Good S (OfNat.ofNat n : Gr) := good_num S _

end Gr

/-- Prove that a graph is a broadcast computation from the hypotheses on its inputs. -/
macro "good" : tactic => `(tactic| repeat' first
  | assumption | apply Gr.good_add | apply Gr.good_sub | apply Gr.good_mul | apply Gr.good_div | apply Gr.good_neg
  | apply Gr.good_pow | apply Gr.good_powr | apply Gr.good_sqrt | apply Gr.good_sin | apply Gr.good_cos | apply Gr.good_arccos
  | apply Gr.good_arctan2 | apply Gr.good_zerosLike | apply Gr.good_num | apply Gr.good_ofNat)

/-- All entries of an optional argument. -/
def OGood (S : List ℕ) (x : Option Gr) : Prop := ∀ g, x = some g → g.Good S
def OQGood (S : List ℕ) (x : Option VQ) : Prop := ∀ q, x = some q → q.val.Good S
def OTGood (S : List ℕ) (x : Option TQ) : Prop := ∀ q, x = some q → (Gr.leaf q.val).Good S

theorem oGood_none (S : List ℕ) : OGood S none := by intro g h; cases h
theorem oQGood_none (S : List ℕ) : OQGood S none := by intro g h; cases h
theorem oGood_some {S : List ℕ} {g : Gr} (h : g.Good S) : OGood S (some g) := by intro g' h'; cases h'; exact h
theorem oQGood_some {S : List ℕ} {g : VQ} (h : g.val.Good S) : OQGood S (some g) := by intro g' h'; cases h'; exact h
theorem OTGood.gr {S : List ℕ} {x : Option TQ} (h : OTGood S x) : OQGood S (x.map TQ.gr) := by
  intro q hq
  cases x with
  | none => cases hq
  | some t => cases hq; exact h t rfl

section
variable {S : List ℕ}

theorem toUnitV_good {q : VQ} {u : AUnit} {g : Gr} (hq : q.val.Good S) (h : toUnitV q u = .ok g) : g.Good S ∧ q.val.Le g := by
  unfold toUnitV at h
  cases hu : q.unit with
  | none => rw [hu] at h; cases h; exact ⟨hq, hq.le_refl⟩
  | some b =>
    rw [hu] at h
    simp only at h
    cases hb : b.to u with
    | error e => rw [hb] at h; cases h
    | ok f => rw [hb] at h; cases h; exact ⟨Gr.good_mul hq (Gr.good_num _ _), Gr.le_zip_left _ hq (Gr.good_num _ _)⟩

theorem toUnitOptV_good {q : Option VQ} {u : AUnit} {g : Option Gr} (hq : OQGood S q) (h : toUnitOptV q u = .ok g) : OGood S g := by
  unfold toUnitOptV at h
  cases q with
  | none => cases h; exact oGood_none S
  | some q =>
    simp only at h
    cases hv : toUnitV q u with
    | error e => rw [hv] at h; cases h
    | ok v => rw [hv] at h; cases h; exact oGood_some (toUnitV_good (hq q rfl) hv).1

theorem toUnitOptV_some {q : VQ} {u : AUnit} {g : Option Gr} (hq : q.val.Good S) (h : toUnitOptV (some q) u = .ok g) :
    ∃ v, g = some v ∧ q.val.Le v := by
  unfold toUnitOptV at h
  simp only at h
  cases hv : toUnitV q u with
  | error e => rw [hv] at h; cases h
  | ok v => rw [hv] at h; cases h; exact ⟨v, rfl, (toUnitV_good hq hv).2⟩

theorem toUnitOptV_none {u : AUnit} {g : Option Gr} (h : toUnitOptV none u = .ok g) : g = none := by
  cases h; rfl

/-- All six entries. -/
def VInputs.Good (I : VInputs) (S : List ℕ) : Prop :=
  I.a.Good S ∧ I.period.Good S ∧ I.rho_star.Good S ∧ I.r_star.Good S ∧ I.m_star.Good S ∧ I.m_planet.Good S

theorem rhoStarValV_good {C : Consts} {q : Option VQ} {g : Option Gr} (hq : OQGood S q) (h : rhoStarValV C q = .ok g) : OGood S g := by
  unfold rhoStarValV at h
  cases q with
  | none => cases h; exact oGood_none S
  | some q =>
    simp only at h
    split at h
    · exact toUnitOptV_good hq h
    · cases h
      have := hq q rfl
      exact oGood_some (by good)

theorem stellarParamsV_good {rho r m : Option Gr} {v : Gr × Gr × Gr} (h1 : OGood S rho) (h2 : OGood S r) (h3 : OGood S m)
    (h : stellarParamsV rho r m = .ok v) : v.1.Good S ∧ v.2.1.Good S ∧ v.2.2.Good S := by
  unfold stellarParamsV at h
  rcases rho with _ | rho <;> rcases r with _ | r <;> rcases m with _ | m <;> cases h
  · have := h2 r rfl
    have := h3 m rfl
    refine ⟨?_, ?_, ?_⟩ <;> good
  · have := h1 rho rfl
    have := h3 m rfl
    refine ⟨?_, ?_, ?_⟩ <;> good
  · have := h1 rho rfl
    have := h2 r rfl
    refine ⟨?_, ?_, ?_⟩ <;> good

theorem finishInputsV_good {C : Consts} {a p : Option Gr} {mp : Gr} {rho r m : Option VQ} {I : VInputs} (ha : OGood S a)
    (hp : OGood S p) (hmp : mp.Good S) (h1 : OQGood S rho) (h2 : OQGood S r) (h3 : OQGood S m)
    (h : finishInputsV C a p mp rho r m = .ok I) :
    I.Good S ∧ (∀ g, p = some g → g.Le I.period) ∧ (∀ g, p = none → a = some g → g.Le I.period) := by
  unfold finishInputsV at h
  split at h
  · cases h
  cases hr : rhoStarValV C rho with
  | error e => rw [hr] at h; cases h
  | ok rho? =>
  rw [hr] at h
  simp only at h
  cases hr2 : toUnitOptV r C.rSun with
  | error e => rw [hr2] at h; cases h
  | ok r? =>
  rw [hr2] at h
  simp only at h
  cases hm : toUnitOptV m C.mSun with
  | error e => rw [hm] at h; cases h
  | ok m? =>
  rw [hm] at h
  simp only at h
  cases hs : stellarParamsV rho? r? m? with
  | error e => rw [hs] at h; cases h
  | ok v =>
  rw [hs] at h
  obtain ⟨x, y, z⟩ := v
  obtain ⟨g1, g2, g3⟩ := stellarParamsV_good (rhoStarValV_good h1 hr) (toUnitOptV_good h2 hr2) (toUnitOptV_good h3 hm) hs
  simp only at g1 g2 g3 h
  rcases a with _ | a <;> rcases p with _ | p
  · cases h
  · have := hp p rfl
    cases h
    refine ⟨⟨?_, ?_, ?_, ?_, ?_, ?_⟩, ?_, ?_⟩
    case refine_7 => intro g hg; cases hg; exact this.le_refl
    case refine_8 => intro g hg; cases hg
    all_goals good
  · have := ha a rfl
    cases h
    refine ⟨⟨?_, ?_, ?_, ?_, ?_, ?_⟩, ?_, ?_⟩
    case refine_7 => intro g hg; cases hg
    case refine_8 =>
      intro g _ hg
      cases hg
      refine ((Gr.le_map _ this).trans (Gr.le_zip_right _ (Gr.good_num S _) (Gr.good_powr _ this))).trans (Gr.le_zip_left (S := S) _ ?_ ?_) <;> good
    all_goals good
  · cases h

theorem impliedInputsV_good {C : Consts} {a p mp : Gr} {rho r m : Option VQ} {I : VInputs} (ha : a.Good S)
    (hp : p.Good S) (hmp : mp.Good S) (h2 : OQGood S r) (h : impliedInputsV C a p mp rho r m = .ok I) :
    I.Good S ∧ p.Le I.period := by
  unfold impliedInputsV at h
  split at h
  · cases h
  cases hr2 : toUnitOptV r C.rSun with
  | error e => rw [hr2] at h; cases h
  | ok r? =>
  rw [hr2] at h
  cases h
  have hg := toUnitOptV_good h2 hr2
  have : (r?.getD 1).Good S := by
    cases r? with
    | none => exact Gr.good_ofNat _
    | some g => exact hg g rfl
  refine ⟨⟨?_, ?_, ?_, ?_, ?_, ?_⟩, hp.le_refl⟩ <;> simp only <;> good

theorem defaultRV_good {r m : Option VQ} (h : OQGood S r) : OQGood S (defaultRV r m) := by
  unfold defaultRV
  split
  · exact oQGood_some (Gr.good_ofNat _)
  · exact h

theorem defaultMV_good {rho r m : Option VQ} (h : OQGood S m) : OQGood S (defaultMV rho r m) := by
  unfold defaultMV
  split
  · exact oQGood_some (Gr.good_ofNat _)
  · exact h

theorem defaultMp_good {mp a p : Option Gr} (h1 : OGood S mp) (h2 : OGood S a) (h3 : OGood S p) : (defaultMp mp a p).Good S := by
  unfold defaultMp
  rcases mp with _ | mp <;> rcases a with _ | a <;> rcases p with _ | p <;> simp only
  · exact Gr.good_ofNat _
  · exact Gr.good_zerosLike (h3 p rfl)
  · exact Gr.good_zerosLike (h2 a rfl)
  · exact Gr.good_zerosLike (h2 a rfl)
  all_goals exact h1 mp rfl

theorem consistentInputsV_good {C : Consts} {a p rho r m mp : Option VQ} {I : VInputs} (ha : OQGood S a) (hp : OQGood S p)
    (h1 : OQGood S rho) (h2 : OQGood S r) (h3 : OQGood S m) (h4 : OQGood S mp) (h : consistentInputsV C a p rho r m mp = .ok I) :
    I.Good S ∧ (∀ q, p = some q → q.val.Le I.period) ∧ (∀ q, p = none → a = some q → q.val.Le I.period) := by
  unfold consistentInputsV at h
  split at h
  · cases h
  cases hmp : toUnitOptV mp C.mSun with
  | error e => rw [hmp] at h; cases h
  | ok mp? =>
  rw [hmp] at h
  simp only at h
  cases hav : toUnitOptV a C.rSun with
  | error e => rw [hav] at h; cases h
  | ok a? =>
  rw [hav] at h
  simp only at h
  cases hpv : toUnitOptV p C.day with
  | error e => rw [hpv] at h; cases h
  | ok p? =>
  rw [hpv] at h
  simp only at h
  have ga := toUnitOptV_good ha hav
  have gp := toUnitOptV_good hp hpv
  have gm := defaultMp_good (toUnitOptV_good h4 hmp) ga gp
  have key : ∀ {J : VInputs}, J.Good S → (∀ g, p? = some g → g.Le J.period) → (∀ g, p? = none → a? = some g → g.Le J.period) →
      J.Good S ∧ (∀ q, p = some q → q.val.Le J.period) ∧ (∀ q, p = none → a = some q → q.val.Le J.period) := by
    intro J hJ k1 k2
    refine ⟨hJ, ?_, ?_⟩
    · intro q hq
      subst hq
      obtain ⟨v, rfl, hv⟩ := toUnitOptV_some (hp q rfl) hpv
      exact hv.trans (k1 v rfl)
    · intro q hq hq'
      subst hq; subst hq'
      obtain ⟨v, rfl, hv⟩ := toUnitOptV_some (ha q rfl) hav
      exact hv.trans (k2 v (toUnitOptV_none hpv) rfl)
  rcases a? with _ | a? <;> rcases p? with _ | p?
  · obtain ⟨i1, i2, i3⟩ := finishInputsV_good ga gp gm h1 (defaultRV_good h2) (defaultMV_good h3) h
    exact key i1 i2 i3
  · obtain ⟨i1, i2, i3⟩ := finishInputsV_good ga gp gm h1 (defaultRV_good h2) (defaultMV_good h3) h
    exact key i1 i2 i3
  · obtain ⟨i1, i2, i3⟩ := finishInputsV_good ga gp gm h1 (defaultRV_good h2) (defaultMV_good h3) h
    exact key i1 i2 i3
  · obtain ⟨i1, i2⟩ := impliedInputsV_good (ga a? rfl) (gp p? rfl) gm h2 h
    refine key i1 ?_ ?_
    · intro g hg; cases hg; exact i2
    · intro g hg; cases hg

/-- Every argument that is passed broadcasts into `S`. -/
structure VArgs.Good (A : VArgs) (S : List ℕ) : Prop where
  period : OTGood S A.period
  a : OTGood S A.a
  t0 : OTGood S A.t0
  t_periastron : OTGood S A.t_periastron
  incl : OTGood S A.incl
  b : OTGood S A.b
  duration : OTGood S A.duration
  ecc : OTGood S A.ecc
  omega : OTGood S A.omega
  sin_omega : OTGood S A.sin_omega
  cos_omega : OTGood S A.cos_omega
  Omega : OTGood S A.Omega
  m_planet : OTGood S A.m_planet
  m_star : OTGood S A.m_star
  r_star : OTGood S A.r_star
  rho_star : OTGood S A.rho_star
  ror : OTGood S A.ror

theorem applyUnitKwV_good {x : Option TQ} {u : Option AUnit} {q : Option VQ} (hx : OTGood S x) (h : applyUnitKwV x u = .ok q) :
    OQGood S q := by
  unfold applyUnitKwV at h
  cases u with
  | none => cases h; exact hx.gr
  | some u =>
    cases x with
    | none => cases h
    | some t =>
      simp only at h
      split at h
      · cases h
      · cases h; exact oQGood_some (hx t rfl)

theorem aorFromDurationV_good {d p b : Gr} {k : Option Gr} (hd : d.Good S) (hp : p.Good S) (hb : b.Good S) (hk : OGood S k) :
    (aorFromDurationV d p b k).1.Good S ∧ (aorFromDurationV d p b k).2.Good S := by
  have hg : (k.getD 0).Good S := by
    cases k with
    | none => exact Gr.good_ofNat _
    | some g => exact hk g rfl
  unfold aorFromDurationV
  simp only
  constructor <;> good

theorem durationBlockV_good {A : VArgs} {D : VDurBlock} (hA : A.Good S) (h : durationBlockV A = .ok D) :
    OQGood S D.a ∧ OQGood S D.r_star ∧ OQGood S D.duration ∧ OGood S D.daordtau ∧ (A.period = none → D.a = A.a.map TQ.gr) := by
  have other : D = ⟨A.a.map TQ.gr, A.r_star.map TQ.gr, A.duration.map TQ.gr, none⟩ →
      OQGood S D.a ∧ OQGood S D.r_star ∧ OQGood S D.duration ∧ OGood S D.daordtau ∧ (A.period = none → D.a = A.a.map TQ.gr) := by
    rintro rfl
    exact ⟨hA.a.gr, hA.r_star.gr, hA.duration.gr, oGood_none S, fun _ => rfl⟩
  unfold durationBlockV at h
  split at h
  · rename_i d _ hd
    cases hb : A.b with
    | none => rw [hb] at h; cases h
    | some b =>
    rw [hb] at h
    cases hp : A.period with
    | none => rw [hp] at h; cases h
    | some p =>
    rw [hp] at h
    simp only at h
    cases h
    have hr : ((A.r_star.map TQ.gr).getD ⟨1, none⟩).val.Good S := by
      cases hr : A.r_star with
      | none => exact Gr.good_ofNat _
      | some r => exact hA.r_star r hr
    have hk : OGood S (A.ror.map fun q => Gr.leaf q.val) := by
      cases hr : A.ror with
      | none => exact oGood_none S
      | some r => exact oGood_some (hA.ror r hr)
    obtain ⟨g1, g2⟩ := aorFromDurationV_good (hA.duration d hd) (hA.period p hp) (hA.b b hb) hk
    refine ⟨oQGood_some (Gr.good_mul hr g1), oQGood_some hr, oQGood_none S, oGood_some g2, fun h => by cases h⟩
  · cases h; exact other rfl

/-- The attributes of an eccentric orbit. -/
def OEGood (S : List ℕ) (e : Option VEcc) : Prop :=
  ∀ p, e = some p → p.ecc.Good S ∧ p.omega.Good S ∧ p.cos_omega.Good S ∧ p.sin_omega.Good S

theorem eccBlockV_good {A : VArgs} {e : Option VEcc} (hA : A.Good S) (h : eccBlockV A = .ok e) : OEGood S e := by
  unfold eccBlockV at h
  cases he : A.ecc with
  | none => rw [he] at h; cases h; intro p hp; cases hp
  | some q =>
  rw [he] at h
  have g1 := hA.ecc q he
  cases hw : A.omega with
  | some w =>
    rw [hw] at h
    have g2 := hA.omega w hw
    simp only at h
    split at h
    · cases h
    · cases h
      intro p hp; cases hp
      refine ⟨?_, ?_, ?_, ?_⟩ <;> good
  | none =>
    rw [hw] at h
    cases hs : A.sin_omega with
    | none => rw [hs] at h; cases h
    | some s =>
    cases hc : A.cos_omega with
    | none => rw [hs, hc] at h; cases h
    | some c =>
    rw [hs, hc] at h
    have g2 := hA.sin_omega s hs
    have g3 := hA.cos_omega c hc
    cases h
    intro p hp; cases hp
    refine ⟨?_, ?_, ?_, ?_⟩ <;> good

theorem M0OfV_good {e : Option VEcc} {n : Gr} (he : OEGood S e) (hn : n.Good S) :
    (M0OfV e n).Good S ∧ ∀ p, e = some p → p.ecc.Le (M0OfV e n) := by
  unfold M0OfV
  cases e with
  | none =>
    refine ⟨?_, fun p hp => by cases hp⟩
    simp only
    good
  | some p =>
    obtain ⟨g1, g2, g3, g4⟩ := he p rfl
    simp only
    refine ⟨by good, ?_⟩
    intro p' hp'; cases hp'
    refine (Gr.le_zip_left (S := S) _ g1 ?_).trans (Gr.le_zip_right (S := S) _ ?_ ?_) <;> good

theorem K0OfV_good {e : Option VEcc} {n a m : Gr} (he : OEGood S e) (hn : n.Good S) (ha : a.Good S) (hm : m.Good S) :
    (K0OfV e n a m).Good S := by
  unfold K0OfV
  cases e with
  | none => simp only; good
  | some p => obtain ⟨g1, g2, g3, g4⟩ := he p rfl; simp only; good

theorem inclFactorOfV_good {e : Option VEcc} (he : OEGood S e) : (inclFactorOfV e).Good S := by
  unfold inclFactorOfV
  cases e with
  | none => simp only; good
  | some p => obtain ⟨g1, g2, g3, g4⟩ := he p rfl; simp only; good

theorem bFromDurationV_good {p : VEcc} {d P a r : Gr} (he : OEGood S (some p)) (hd : d.Good S) (hP : P.Good S) (ha : a.Good S)
    (hr : r.Good S) : (bFromDurationV p d P a r).Good S := by
  obtain ⟨g1, g2, g3, g4⟩ := he p rfl
  unfold bFromDurationV
  simp only
  good

theorem inclBlockV_good {C : Consts} {A : VArgs} {d : Option VQ} {e : Option VEcc} {a P ap r c : Gr} {v : Gr × Gr × Gr}
    (hA : A.Good S) (hd : OQGood S d) (he : OEGood S e) (ha : a.Good S) (hP : P.Good S) (hap : ap.Good S) (hr : r.Good S)
    (hc : c.Good S) (h : inclBlockV C A d e a P ap r c = .ok v) : v.1.Good S ∧ v.2.1.Good S ∧ v.2.2.Good S := by
  unfold inclBlockV at h
  cases hb : A.b with
  | some b =>
    rw [hb] at h
    have := hA.b b hb
    simp only at h
    split at h
    · cases h
    · cases h; refine ⟨?_, ?_, ?_⟩ <;> simp only <;> good
  | none =>
    rw [hb] at h
    cases hi : A.incl with
    | some i =>
      rw [hi] at h
      have := hA.incl i hi
      simp only at h
      split at h
      · cases h
      · cases h; refine ⟨?_, ?_, ?_⟩ <;> simp only <;> good
    | none =>
      rw [hi] at h
      cases d with
      | none => cases h; refine ⟨?_, ?_, ?_⟩ <;> simp only <;> good
      | some d =>
        cases e with
        | none => cases h
        | some p =>
          simp only at h
          cases hu : toUnitV d C.day with
          | error er => rw [hu] at h; cases h
          | ok dv =>
            rw [hu] at h
            cases h
            have g1 := (toUnitV_good (hd d rfl) hu).1
            have g2 := bFromDurationV_good he g1 hP hap hr
            refine ⟨?_, ?_, ?_⟩ <;> simp only <;> good

theorem timeBlockV_good {A : VArgs} {M0 n P : Gr} {v : Gr × Gr} (hA : A.Good S) (hM : M0.Good S) (hn : n.Good S) (hP : P.Good S)
    (h : timeBlockV A M0 n P = .ok v) : v.1.Good S ∧ v.2.Good S ∧ M0.Le (v.2 - v.1) := by
  unfold timeBlockV at h
  have hq : Gr.Good S (M0 / n) := by good
  have hl : M0.Le (M0 / n) := Gr.le_zip_left _ hM hn
  cases h0 : A.t0 with
  | some t0 =>
    cases hp : A.t_periastron with
    | some tp => rw [h0, hp] at h; cases h
    | none =>
      rw [h0, hp] at h
      have := hA.t0 t0 h0
      cases h
      refine ⟨by good, by simp only; good, ?_⟩
      exact (hl.trans (Gr.le_zip_right _ this hq)).trans (Gr.le_zip_left _ (Gr.good_sub this hq) this)
  | none =>
    cases hp : A.t_periastron with
    | some tp =>
      rw [h0, hp] at h
      have := hA.t_periastron tp hp
      cases h
      refine ⟨by simp only; good, by good, ?_⟩
      exact (hl.trans (Gr.le_zip_right _ this hq)).trans (Gr.le_zip_right _ this (Gr.good_add this hq))
    | none =>
      rw [h0, hp] at h
      cases h
      have hz := Gr.good_zerosLike hP
      refine ⟨by good, by simp only; good, ?_⟩
      exact (hl.trans (Gr.le_zip_right _ hz hq)).trans (Gr.le_zip_left _ (Gr.good_sub hz hq) hz)

/-- All attributes broadcast into `S`; the eccentricity broadcasts into `tref`. -/
structure VOrbit.Good (o : VOrbit) (S : List ℕ) : Prop where
  a : o.a.Good S
  period : o.period.Good S
  rho_star : o.rho_star.Good S
  r_star : o.r_star.Good S
  m_star : o.m_star.Good S
  m_planet : o.m_planet.Good S
  m_total : o.m_total.Good S
  n : o.n.Good S
  a_star : o.a_star.Good S
  a_planet : o.a_planet.Good S
  K0 : o.K0.Good S
  Omega : OGood S o.Omega
  ecc : OEGood S o.ecc
  M0 : o.M0.Good S
  dcosidb : o.dcosidb.Good S
  b : o.b.Good S
  cos_incl : o.cos_incl.Good S
  incl : o.incl.Good S
  sin_incl : o.sin_incl.Good S
  t0 : o.t0.Good S
  t_periastron : o.t_periastron.Good S
  tref : o.tref.Good S
  durJac : ∀ j, o.durJac = some j → j.a.Good S ∧ j.a_star.Good S ∧ j.a_planet.Good S ∧ j.rho_star.Good S
  ecc_le : ∀ p, o.ecc = some p → p.ecc.Le o.tref

theorem keplerianInitV_good {C : Consts} {A : VArgs} {o : VOrbit} (hA : A.Good S) (h : keplerianInitV C A = .ok o) :
    o.Good S ∧ ∀ q : TQ, (A.period = some q ∨ A.period = none ∧ A.a = some q) → (Gr.leaf q.val).Le o.n := by
  unfold keplerianInitV at h
  cases h1 : applyUnitKwV A.m_planet A.m_planet_units with
  | error e => rw [h1] at h; cases h
  | ok mp =>
  rw [h1] at h
  simp only at h
  cases h2 : applyUnitKwV A.rho_star A.rho_star_units with
  | error e => rw [h2] at h; cases h
  | ok rho =>
  rw [h2] at h
  simp only at h
  cases h3 : durationBlockV A with
  | error e => rw [h3] at h; cases h
  | ok D =>
  rw [h3] at h
  simp only at h
  cases h4 : consistentInputsV C D.a (A.period.map TQ.gr) rho D.r_star (A.m_star.map TQ.gr) mp with
  | error e => rw [h4] at h; cases h
  | ok I =>
  rw [h4] at h
  simp only at h
  cases h5 : eccBlockV A with
  | error e => rw [h5] at h; cases h
  | ok ecc =>
  rw [h5] at h
  simp only at h
  cases h6 : inclBlockV C A D.duration ecc I.a I.period (-I.a * I.m_star / (I.m_star + I.m_planet)) I.r_star
    (inclFactorOfV ecc * I.r_star / I.a) with
  | error e => rw [h6] at h; cases h
  | ok v =>
  rw [h6] at h
  obtain ⟨b, ci, i⟩ := v
  simp only at h
  cases h7 : timeBlockV A (M0OfV ecc (((2 * π : ℝ) : Gr) / I.period)) (((2 * π : ℝ) : Gr) / I.period) I.period with
  | error e => rw [h7] at h; cases h
  | ok w =>
  rw [h7] at h
  obtain ⟨t0, tp⟩ := w
  simp only at h
  obtain ⟨d1, d2, d3, d4, d5⟩ := durationBlockV_good hA h3
  obtain ⟨⟨i1, i2, i3, i4, i5, i6⟩, k1, k2⟩ := consistentInputsV_good d1 hA.period.gr (applyUnitKwV_good hA.rho_star h2) d2 hA.m_star.gr
    (applyUnitKwV_good hA.m_planet h1) h4
  have he := eccBlockV_good hA h5
  have hn : Gr.Good S (((2 * π : ℝ) : Gr) / I.period) := by good
  have hf := inclFactorOfV_good he
  obtain ⟨m1, m2⟩ := M0OfV_good he hn
  have hmt : Gr.Good S (I.m_star + I.m_planet) := by good
  obtain ⟨b1, b2, b3⟩ := inclBlockV_good hA d3 he i1 i2 (by good) i4 (by good) h6
  obtain ⟨t1, t2, t3⟩ := timeBlockV_good hA m1 hn i2 h7
  simp only at b1 b2 b3 t1 t2 t3
  have hk := K0OfV_good he hn i1 hmt
  have hO : OGood S (A.Omega.map fun q => Gr.leaf q.val) := by
    cases hw : A.Omega with
    | none => exact oGood_none S
    | some r => exact oGood_some (hA.Omega r hw)
  have hj : ∀ j, durJacOfV C I D.daordtau = some j → j.a.Good S ∧ j.a_star.Good S ∧ j.a_planet.Good S ∧ j.rho_star.Good S := by
    intro j hj
    unfold durJacOfV at hj
    cases hg : D.daordtau with
    | none => rw [hg] at hj; cases hj
    | some g =>
      rw [hg] at hj
      have := d4 g hg
      cases hj
      refine ⟨?_, ?_, ?_, ?_⟩ <;> simp only <;> good
  cases h
  refine ⟨⟨?_, ?_, ?_, ?_, ?_, ?_, ?_, ?_, ?_, ?_, ?_, ?_, ?_, ?_, ?_, ?_, ?_, ?_, ?_, ?_, ?_, ?_, ?_, ?_⟩, ?_⟩
  case refine_23 => exact hj
  case refine_24 => intro p hp; exact (m2 p hp).trans t3
  case refine_25 =>
    intro q hq
    refine Gr.Le.trans ?_ (Gr.le_zip_right _ (Gr.good_num S _) i2)
    rcases hq with hq | ⟨hq, hq'⟩
    · exact k1 q.gr (by rw [hq]; rfl)
    · exact k2 q.gr (by rw [hq]; rfl) (by rw [d5 hq, hq']; rfl)
  all_goals first | assumption | (simp only; good)

end
/-- Three facts read off the constructor. -/
theorem keplerianInitV_fields {C : Consts} {A : VArgs} {o : VOrbit} (h : keplerianInitV C A = .ok o) :
    o.dts = none ∧ o.n = ((2 * π : ℝ) : Gr) / o.period ∧ timeBlockV A o.M0 o.n o.period = .ok (o.t0, o.t_periastron) := by
  unfold keplerianInitV at h
  repeat' split at h
  all_goals first | (cases h; done) | skip
  simp only at h
  repeat' split at h
  all_goals first | (cases h; done) | skip
  simp only [Except.ok.injEq] at h
  subst h
  exact ⟨rfl, rfl, by assumption⟩

theorem keplerianInitV_dts {C : Consts} {A : VArgs} {o : VOrbit} (h : keplerianInitV C A = .ok o) : o.dts = none :=
  (keplerianInitV_fields h).1

end Exo
