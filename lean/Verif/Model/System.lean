import Verif.Model.Keplerian
import Verif.Model.Tensor

/-!
# Model of `src/exoplanet/orbits/keplerian.py` with vector arguments

The same code as in `Verif/Model/Keplerian.lean`, this time with tensors: every attribute of the orbit is a PyTensor graph
whose inputs are the argument arrays. Nothing is evaluated by the constructor; a shape error appears when a graph is
evaluated. (PyTensor may report some of these errors earlier, from static shape information; not modelled.)
-/

namespace Exo

open Real

/-! ## Graphs -/

/-- A PyTensor graph, restricted to the operations used in `keplerian.py`. -/
inductive Gr where
  /-- a constant or an input -/
  | leaf (x : Tensor ℝ)
  /-- an elementwise unary operation -/
  | map (f : ℝ → ℝ) (x : Gr)
  /-- an elementwise binary operation, with broadcasting -/
  | zip (f : ℝ → ℝ → ℝ) (x y : Gr)
  /-- an elementwise ternary operation (`pt.switch`), with broadcasting -/
  | zip3 (f : ℝ → ℝ → ℝ → ℝ) (x y z : Gr)
  /-- a compiled operation of `exoplanet_core` on two arrays, which must have the same shape (docstring of
  `get_true_anomaly`, `keplerian.py:812`) -/
  | same (f : ℝ → ℝ → ℝ) (x y : Gr)
  /-- `pt.shape_padright` -/
  | padright (x : Gr)
  /-- `pt.squeeze` -/
  | squeeze (x : Gr)
  /-- `pt.stack([f(x) for f in fs], -1)` with elementwise `f` (`ttv.py:175-180`) -/
  | stack (fs : List (ℝ → ℝ)) (x : Gr)

namespace Gr

/-- Evaluation of a graph. -/
def eval : Gr → Except PyErr (Tensor ℝ)
  | leaf x => .ok x
  | map f x =>
    match x.eval with
    | .error e => .error e
    | .ok X => .ok (X.map f)
  | zip f x y =>
    match x.eval with
    | .error e => .error e
    | .ok X =>
      match y.eval with
      | .error e => .error e
      | .ok Y => X.zipB f Y
  | zip3 f x y z =>
    match x.eval with
    | .error e => .error e
    | .ok X =>
      match y.eval with
      | .error e => .error e
      | .ok Y =>
        match z.eval with
        | .error e => .error e
        | .ok Z =>
          match X.zipB (fun a b => (a, b)) Y with
          | .error e => .error e
          | .ok XY => XY.zipB (fun p c => f p.1 p.2 c) Z
  | same f x y =>
    match x.eval with
    | .error e => .error e
    | .ok X =>
      match y.eval with
      | .error e => .error e
      | .ok Y => if X.shape = Y.shape then .ok ⟨X.shape, fun idx => f (X.get idx) (Y.get idx)⟩ else .error .shapeMismatch
  | padright x =>
    match x.eval with
    | .error e => .error e
    | .ok X => .ok (X.padright 1)
  | squeeze x =>
    match x.eval with
    | .error e => .error e
    | .ok X => .ok X.squeeze
  | stack fs x =>
    match x.eval with
    | .error e => .error e
    | .ok X => .ok ⟨X.shape ++ [fs.length], fun idx => fs.getD (idx.getLastD 0) id (X.get idx.dropLast)⟩

/-- A Python number inside a graph. -/
def num (c : ℝ) : Gr := leaf (Tensor.scalar c)

instance : Coe ℝ Gr := ⟨num⟩
instance (n : ℕ) : OfNat Gr n := ⟨num (n : ℝ)⟩
instance : Add Gr := ⟨zip (· + ·)⟩
instance : Sub Gr := ⟨zip (· - ·)⟩
instance : Mul Gr := ⟨zip (· * ·)⟩
noncomputable instance : Div Gr := ⟨zip (· / ·)⟩
instance : Neg Gr := ⟨map (- ·)⟩
instance : HPow Gr ℕ Gr := ⟨fun x n => map (· ^ n) x⟩

/-- `x ** c` with a float exponent. -/
noncomputable def powr (x : Gr) (c : ℝ) : Gr := map (fun v : ℝ => v ^ c) x
/-- `pt.sqrt`. -/
noncomputable def sqrt (x : Gr) : Gr := map (fun v : ℝ => √v) x
/-- `pt.sin`. -/
noncomputable def sin (x : Gr) : Gr := map Real.sin x
/-- `pt.cos`. -/
noncomputable def cos (x : Gr) : Gr := map Real.cos x
/-- `pt.arccos`. -/
noncomputable def arccos (x : Gr) : Gr := map Real.arccos x
/-- `pt.arctan2`. -/
noncomputable def arctan2 (y x : Gr) : Gr := zip Exo.arctan2 y x
/-- `pt.zeros_like`. -/
def zerosLike (x : Gr) : Gr := map (fun _ => 0) x

end Gr

/-! ## `_get_consistent_inputs` (`keplerian.py:849-934`) -/

/-- A graph together with its `__exoplanet_unit__` attribute (`units.py:5`). -/
structure VQ where
  val : Gr
  unit : Option AUnit

/-- `as_tensor_variable(to_unit(x, target))` — `units.py:31-45`. -/
noncomputable def toUnitV (x : VQ) (target : AUnit) : Except PyErr Gr :=
  match x.unit with
  | none => .ok x.val
  | some base =>
    match base.to target with
    | .error e => .error e
    | .ok f => .ok (x.val * (f : Gr))

/-- The same for an optional argument. -/
noncomputable def toUnitOptV (x : Option VQ) (target : AUnit) : Except PyErr (Option Gr) :=
  match x with
  | none => .ok none
  | some q =>
    match toUnitV q target with
    | .error e => .error e
    | .ok v => .ok (some v)

/-- The six-tuple returned by `_get_consistent_inputs` (`keplerian.py:934`). -/
structure VInputs where
  a : Gr
  period : Gr
  rho_star : Gr
  r_star : Gr
  m_star : Gr
  m_planet : Gr

/-- `keplerian.py:916-922`. -/
noncomputable def stellarParamsV (rho r m : Option Gr) : Except PyErr (Gr × Gr × Gr) :=
  match rho, r, m with
  | none, some r, some m => .ok (3 * m / ((4 * π : ℝ) * r ^ 3), r, m)
  | some rho, none, some m => .ok (rho, (3 * m / ((4 * π : ℝ) * rho)).powr (1 / 3), m)
  | some rho, some r, none => .ok (rho, r, (4 * π : ℝ) * r ^ 3 * rho / 3)
  | _, _, _ => .error (.valueError "exactly two of rho_star, m_star, and r_star")

/-- `keplerian.py:904-910`. -/
noncomputable def rhoStarValV (C : Consts) (rho : Option VQ) : Except PyErr (Option Gr) :=
  match rho with
  | none => .ok none
  | some q =>
    if q.unit.isSome then toUnitOptV (some q) C.rhoSun
    else .ok (some (q.val / (C.gccPerSun : Gr)))

/-- `keplerian.py:896-934`, when at most one of `a`, `period` is given. -/
noncomputable def finishInputsV (C : Consts) (a? p? : Option Gr) (mp : Gr) (rho_star r_star m_star : Option VQ) :
    Except PyErr VInputs :=
  if (rho_star.isNone.toNat + r_star.isNone.toNat + m_star.isNone.toNat) ≠ 1 then
    .error (.valueError "exactly two of rho_star, m_star, and r_star") else
  match rhoStarValV C rho_star with
  | .error e => .error e
  | .ok rho? =>
  match toUnitOptV r_star C.rSun with
  | .error e => .error e
  | .ok r? =>
  match toUnitOptV m_star C.mSun with
  | .error e => .error e
  | .ok m? =>
  match stellarParamsV rho? r? m? with
  | .error e => .error e
  | .ok (rho, rv, ms) =>
  match a?, p? with
  | none, some pv =>
    .ok ⟨((C.G : Gr) * (ms + mp) * pv ^ 2 / ((4 * π ^ 2 : ℝ) : Gr)).powr (1 / 3), pv, rho * (C.gccPerSun : Gr), rv, ms, mp⟩
  | some av, none =>
    .ok ⟨av, ((2 * π : ℝ) : Gr) * av.powr (3 / 2) / ((C.G : Gr) * (ms + mp)).sqrt, rho * (C.gccPerSun : Gr), rv, ms, mp⟩
  | _, _ => .error (.valueError "at least one of a and period") -- unreachable (850-853)

/-- `keplerian.py:867-889`: both `a` and `period` given. -/
noncomputable def impliedInputsV (C : Consts) (av pv mp : Gr) (rho_star r_star m_star : Option VQ) :
    Except PyErr VInputs :=
  if rho_star.isSome ∨ m_star.isSome then
    .error (.valueError "a and period given with rho_star or m_star") else
  match toUnitOptV r_star C.rSun with
  | .error e => .error e
  | .ok r? =>
    let rv := r?.getD 1
    let m_tot := ((4 * π * π : ℝ) : Gr) * av ^ 3 / ((C.G : Gr) * pv ^ 2)
    let ms := m_tot - mp
    let vol := ((4 * π : ℝ) : Gr) * rv ^ 3 / 3
    let rho := ms / vol
    .ok ⟨av, pv, rho * (C.gccPerSun : Gr), rv, ms, mp⟩

/-- `keplerian.py:892-893`. -/
def defaultRV (r_star m_star : Option VQ) : Option VQ :=
  if r_star.isNone ∧ m_star.isNone then some ⟨1, none⟩ else r_star

/-- `keplerian.py:892`, 894-895. -/
def defaultMV (rho_star r_star m_star : Option VQ) : Option VQ :=
  if r_star.isNone ∧ m_star.isNone ∧ rho_star.isNone then some ⟨1, none⟩ else m_star

/-- `keplerian.py:855-865`: `m_planet`, when `None`, is `zeros_like(a)` if `a` is given, else `zeros_like(period)`. -/
def defaultMp (mp? a? p? : Option Gr) : Gr :=
  match mp?, a?, p? with
  | some mp, _, _ => mp
  | none, some av, _ => av.zerosLike
  | none, none, some pv => pv.zerosLike
  | none, none, none => 0 -- unreachable (850-853)

/-- `_get_consistent_inputs` — `keplerian.py:849-934`. -/
noncomputable def consistentInputsV (C : Consts)
    (a period rho_star r_star m_star m_planet : Option VQ) : Except PyErr VInputs :=
  if a.isNone ∧ period.isNone then .error (.valueError "at least one of a and period") else
  match toUnitOptV m_planet C.mSun with
  | .error e => .error e
  | .ok mp? =>
  match toUnitOptV a C.rSun with
  | .error e => .error e
  | .ok a? =>
  match toUnitOptV period C.day with
  | .error e => .error e
  | .ok p? =>
  match a?, p? with
  | some av, some pv => impliedInputsV C av pv (defaultMp mp? a? p?) rho_star r_star m_star
  | _, _ =>
    finishInputsV C a? p? (defaultMp mp? a? p?) rho_star (defaultRV r_star m_star) (defaultMV rho_star r_star m_star)

/-! ## `get_aor_from_transit_duration` (`keplerian.py:822-846`) -/

/-- `get_aor_from_transit_duration(duration, period, b, ror)` — `keplerian.py:822-846`. -/
noncomputable def aorFromDurationV (duration period b : Gr) (ror : Option Gr) : Gr × Gr :=
  let k := ror.getD 0
  let b2 := b ^ 2
  let opk2 := (1 + k) ^ 2
  let phi := (π : Gr) * duration / period
  let sinp := phi.sin
  let cosp := phi.cos
  let num := (opk2 - b2 * cosp ^ 2).sqrt
  (num / sinp, (π : Gr) * cosp * (b2 - opk2) / (num * period * sinp ^ 2))

/-! ## The constructor (`keplerian.py:75-281`) -/

/-- An array argument with its unit label. -/
structure TQ where
  val : Tensor ℝ
  unit : Option AUnit

/-- The argument as a graph. -/
def TQ.gr (q : TQ) : VQ := ⟨.leaf q.val, q.unit⟩

/-- The keyword arguments of `KeplerianOrbit.__init__` (`keplerian.py:75-96`): arrays. -/
structure VArgs where
  period : Option TQ := none
  a : Option TQ := none
  t0 : Option TQ := none
  t_periastron : Option TQ := none
  incl : Option TQ := none
  b : Option TQ := none
  duration : Option TQ := none
  ecc : Option TQ := none
  omega : Option TQ := none
  sin_omega : Option TQ := none
  cos_omega : Option TQ := none
  Omega : Option TQ := none
  m_planet : Option TQ := some ⟨.scalar 0, none⟩
  m_star : Option TQ := none
  r_star : Option TQ := none
  rho_star : Option TQ := none
  ror : Option TQ := none
  m_planet_units : Option AUnit := none
  rho_star_units : Option AUnit := none

/-- The attributes that exist only on eccentric orbits (`keplerian.py:187-200`). -/
structure VEcc where
  ecc : Gr
  omega : Gr
  cos_omega : Gr
  sin_omega : Gr

/-- `orbit.jacobians["duration"]` (`keplerian.py:150-170`). -/
structure VDurJac where
  a : Gr
  a_star : Gr
  a_planet : Gr
  rho_star : Gr

/-- The attributes of a constructed `KeplerianOrbit`. `dts` is for its subclass `TTVOrbit`: the lookup of each planet in
`_get_model_dt` (`ttv.py:175-180`); `none` on a `KeplerianOrbit`. -/
structure VOrbit where
  a : Gr
  period : Gr
  rho_star : Gr
  r_star : Gr
  m_star : Gr
  m_planet : Gr
  m_total : Gr
  n : Gr
  a_star : Gr
  a_planet : Gr
  K0 : Gr
  Omega : Option Gr
  ecc : Option VEcc
  M0 : Gr
  dcosidb : Gr
  b : Gr
  cos_incl : Gr
  incl : Gr
  sin_incl : Gr
  t0 : Gr
  t_periastron : Gr
  tref : Gr
  durJac : Option VDurJac
  dts : Option (List (ℝ → ℝ))

/-- `keplerian.py:99-108`. -/
def applyUnitKwV (x : Option TQ) (u : Option AUnit) : Except PyErr (Option VQ) :=
  match u with
  | none => .ok (x.map TQ.gr)
  | some u =>
    match x with
    | none => .error (.typeError "cannot convert None to a tensor")
    | some q => if q.unit.isSome then .error (.typeError "already has units") else .ok (some ⟨.leaf q.val, some u⟩)

/-- Outcome of `keplerian.py:112-131`. -/
structure VDurBlock where
  a : Option VQ
  r_star : Option VQ
  duration : Option VQ
  daordtau : Option Gr

/-- `keplerian.py:112-131`: a circular orbit with a `duration`. -/
noncomputable def durationBlockV (A : VArgs) : Except PyErr VDurBlock :=
  match A.ecc, A.duration with
  | none, some d =>
    let r : VQ := (A.r_star.map TQ.gr).getD ⟨1, none⟩
    match A.b with
    | none => .error (.valueError "'b' must be provided for a circular orbit with a 'duration'")
    | some b =>
      match A.period with
      | none => .error (.typeError "unsupported operand type(s)")
      | some p =>
        let (aor, g) := aorFromDurationV (.leaf d.val) (.leaf p.val) (.leaf b.val) (A.ror.map fun q => .leaf q.val)
        .ok ⟨some ⟨r.val * aor, none⟩, some r, none, some g⟩
  | _, _ => .ok ⟨A.a.map TQ.gr, A.r_star.map TQ.gr, A.duration.map TQ.gr, none⟩

/-- `keplerian.py:187-203`. -/
noncomputable def eccBlockV (A : VArgs) : Except PyErr (Option VEcc) :=
  match A.ecc with
  | none => .ok none
  | some e =>
    match A.omega with
    | some w =>
      if A.sin_omega.isSome ∧ A.cos_omega.isSome then
        .error (.valueError "either 'omega' or 'sin_omega' and 'cos_omega'")
      else .ok (some ⟨.leaf e.val, .leaf w.val, (Gr.leaf w.val).cos, (Gr.leaf w.val).sin⟩)
    | none =>
      match A.sin_omega, A.cos_omega with
      | some s, some c => .ok (some ⟨.leaf e.val, Gr.arctan2 (.leaf s.val) (.leaf c.val), .leaf c.val, .leaf s.val⟩)
      | _, _ => .error (.valueError "both e and omega must be provided")

/-- `keplerian.py:184` and 205-210. -/
noncomputable def M0OfV (e : Option VEcc) (n : Gr) : Gr :=
  match e with
  | none => ((0.5 * π : ℝ) : Gr) + n.zerosLike
  | some p =>
    let opsw := 1 + p.sin_omega
    let E0 := 2 * Gr.arctan2 ((1 - p.ecc).sqrt * p.cos_omega) ((1 + p.ecc).sqrt * opsw)
    E0 - p.ecc * E0.sin

/-- `keplerian.py:172`, 213. -/
noncomputable def K0OfV (e : Option VEcc) (n a m_total : Gr) : Gr :=
  match e with
  | none => n * a / m_total
  | some p => n * a / m_total / (1 - p.ecc ^ 2).sqrt

/-- `keplerian.py:185`, 214. -/
noncomputable def inclFactorOfV (e : Option VEcc) : Gr :=
  match e with
  | none => 1
  | some p => (1 + p.ecc * p.sin_omega) / (1 - p.ecc ^ 2)

/-- `keplerian.py:237-258`. -/
noncomputable def bFromDurationV (p : VEcc) (duration period a_planet r_star : Gr) : Gr :=
  let incl_factor := (1 + p.ecc * p.sin_omega) / (1 - p.ecc ^ 2)
  let c := ((π : Gr) * duration * incl_factor / period).sin
  let c2 := c * c
  let aor := a_planet / r_star
  let esinw := p.ecc * p.sin_omega
  ((aor ^ 2 * c2 - 1) / (c2 * esinw ^ 2 + 2 * c2 * esinw + c2 - p.ecc ^ 4 + 2 * p.ecc ^ 2 - 1)).sqrt * (1 - p.ecc ^ 2)

/-- `keplerian.py:221-265`: returns `(b, cos_incl, incl)`. -/
noncomputable def inclBlockV (C : Consts) (A : VArgs) (duration : Option VQ) (e : Option VEcc)
    (a period a_planet r_star dcosidb : Gr) : Except PyErr (Gr × Gr × Gr) :=
  match A.b with
  | some b =>
    if A.incl.isSome ∨ duration.isSome then
      .error (.valueError "only one of 'incl', 'b', and 'duration' can be given")
    else .ok (.leaf b.val, dcosidb * .leaf b.val, (dcosidb * .leaf b.val).arccos)
  | none =>
    match A.incl with
    | some i =>
      if duration.isSome then
        .error (.valueError "only one of 'incl', 'b', and 'duration' can be given")
      else .ok ((Gr.leaf i.val).cos / dcosidb, (Gr.leaf i.val).cos, .leaf i.val)
    | none =>
      match duration with
      | some d =>
        match e with
        | none => .error (.assertion "self.ecc is not None")
        | some p =>
          match toUnitV d C.day with
          | .error er => .error er
          | .ok dv =>
            let b := bFromDurationV p dv period a_planet r_star
            .ok (b, dcosidb * b, (dcosidb * b).arccos)
      | none =>
        let zla := a.zerosLike
        .ok (zla, zla, ((0.5 * π : ℝ) : Gr) + zla)

/-- `keplerian.py:267-277`: returns `(t0, t_periastron)`. -/
noncomputable def timeBlockV (A : VArgs) (M0 n period : Gr) : Except PyErr (Gr × Gr) :=
  match A.t0, A.t_periastron with
  | some _, some _ => .error (.valueError "you can't define both t0 and t_periastron")
  | none, some tp => .ok (.leaf tp.val + M0 / n, .leaf tp.val)
  | some t0, none => .ok (.leaf t0.val, .leaf t0.val - M0 / n)
  | none, none => .ok (period.zerosLike, period.zerosLike - M0 / n)

/-- `keplerian.py:150-170`. -/
noncomputable def durJacOfV (C : Consts) (I : VInputs) (daordtau : Option Gr) : Option VDurJac :=
  match daordtau with
  | none => none
  | some g =>
    let m_total := I.m_star + I.m_planet
    let dadtau := I.r_star * g
    some ⟨dadtau, dadtau * I.m_planet / m_total, -dadtau * I.m_star / m_total,
      ((9 * π : ℝ) : Gr) * (I.a / I.r_star) ^ 2 * g * (C.gccPerSun : Gr) / ((C.G : Gr) * I.period ^ 2)⟩

/-- `KeplerianOrbit.__init__` — `keplerian.py:75-281` (without the citation registration of `keplerian.py:97`). -/
noncomputable def keplerianInitV (C : Consts) (A : VArgs) : Except PyErr VOrbit :=
  match applyUnitKwV A.m_planet A.m_planet_units with
  | .error e => .error e
  | .ok m_planet =>
  match applyUnitKwV A.rho_star A.rho_star_units with
  | .error e => .error e
  | .ok rho_star =>
  match durationBlockV A with
  | .error e => .error e
  | .ok D =>
  match consistentInputsV C D.a (A.period.map TQ.gr) rho_star D.r_star (A.m_star.map TQ.gr) m_planet with
  | .error e => .error e
  | .ok I =>
  let m_total := I.m_star + I.m_planet
  let n := ((2 * π : ℝ) : Gr) / I.period
  let a_star := I.a * I.m_planet / m_total
  let a_planet := -I.a * I.m_star / m_total
  match eccBlockV A with
  | .error e => .error e
  | .ok ecc =>
  let M0 := M0OfV ecc n
  let dcosidb := inclFactorOfV ecc * I.r_star / I.a
  match inclBlockV C A D.duration ecc I.a I.period a_planet I.r_star dcosidb with
  | .error e => .error e
  | .ok (b, cos_incl, incl) =>
  match timeBlockV A M0 n I.period with
  | .error e => .error e
  | .ok (t0, t_periastron) =>
  .ok { a := I.a, period := I.period, rho_star := I.rho_star, r_star := I.r_star, m_star := I.m_star,
        m_planet := I.m_planet, m_total := m_total, n := n, a_star := a_star, a_planet := a_planet,
        K0 := K0OfV ecc n I.a m_total, Omega := A.Omega.map fun q => .leaf q.val, ecc := ecc, M0 := M0, dcosidb := dcosidb,
        b := b, cos_incl := cos_incl, incl := incl, sin_incl := incl.sin, t0 := t0,
        t_periastron := t_periastron, tref := t_periastron - t0, durJac := durJacOfV C I D.daordtau, dts := none }

/-! ## Methods -/

/-- A triple of graphs. -/
structure V3G where
  x : Gr
  y : Gr
  z : Gr

/-- `tuple(pt.squeeze(x) for x in ...)`. -/
def V3G.squeeze (v : V3G) : V3G := ⟨v.x.squeeze, v.y.squeeze, v.z.squeeze⟩

namespace VOrbit
variable (o : VOrbit)

/-- `_rotate_vector` — `keplerian.py:283-322`. -/
noncomputable def rotate (x y : Gr) : V3G :=
  let x1 := match o.ecc with | none => x | some p => p.cos_omega * x - p.sin_omega * y
  let y1 := match o.ecc with | none => y | some p => p.sin_omega * x + p.cos_omega * y
  let x2 := x1
  let y2 := o.cos_incl * y1
  let Z := -o.sin_incl * y1
  match o.Omega with
  | none => ⟨x2, y2, Z⟩
  | some W => ⟨W.cos * x2 - W.sin * y2, W.sin * x2 + W.cos * y2, Z⟩

/-- What `_warp_times` subtracts: `self.t0` (`keplerian.py:324-327`), or `self._get_model_dt(t)` (`ttv.py:182-187`). -/
def shift (t : Gr) : Gr :=
  match o.dts with
  | none => o.t0
  | some fs => .stack fs t

/-- `_warp_times` — `keplerian.py:324-327` and `ttv.py:182-187`. -/
def warpTimes (t : Gr) (pad : Bool) : Gr := if pad then t.padright - o.shift t else t - o.shift t

/-- `_get_true_anomaly` — `keplerian.py:329-334`. -/
noncomputable def trueAnomaly (t : Gr) (pad : Bool := true) : Gr × Gr :=
  let M := (o.warpTimes t pad - o.tref) * o.n
  match o.ecc with
  | none => (M.sin, M.cos)
  | some p =>
    let e := p.ecc + M.zerosLike
    (.same (fun M e => (keplerOp M e).1) M e, .same (fun M e => (keplerOp M e).2) M e)

/-- The orbital radius of `keplerian.py:400-403` and 432-437. -/
noncomputable def radius (a cosf : Gr) : Gr :=
  match o.ecc with
  | none => a
  | some p => a * (1 - p.ecc ^ 2) / (1 + p.ecc * cosf)

/-- `_get_position(a, t, parallax, light_delay=False)` — `keplerian.py:399-409`. -/
noncomputable def positionNow (C : Consts) (a t : Gr) (parallax : Option Gr) (pad : Bool := true) : V3G :=
  let f := o.trueAnomaly t pad
  let r := o.radius a f.2
  let r := match parallax with | none => r | some p => r * p * (C.auPerRsun : Gr)
  o.rotate (r * f.2) (r * f.1)

/-- The `vz` of `keplerian.py:431-440`. -/
noncomputable def retardedVz (a t : Gr) : Gr :=
  let f := o.trueAnomaly t
  let angvel := ((2 * π : ℝ) : Gr) / o.period
  match o.ecc with
  | none => angvel * a * o.sin_incl * f.2
  | some p =>
    let vamp := angvel * a / (1 - p.ecc ^ 2).sqrt
    let cwf := p.cos_omega * f.2 - p.sin_omega * f.1
    vamp * o.sin_incl * (p.ecc * p.cos_omega + cwf)

/-- The `az` of `keplerian.py:446`. -/
noncomputable def retardedAz (C : Consts) (a t : Gr) : Gr :=
  let f := o.trueAnomaly t
  let angvel := ((2 * π : ℝ) : Gr) / o.period
  let r := o.radius a f.2
  let k := -(angvel ^ 2)
  k * (a / r) ^ 3 * (o.positionNow C a t none).z

/-- The `delay` of `keplerian.py:451-462`. -/
noncomputable def delay (C : Consts) (a t : Gr) : Gr :=
  let z := (o.positionNow C a t none).z
  let vz := o.retardedVz a t
  let az := o.retardedAz C a t
  let c : Gr := (C.c : Gr)
  .zip3 (fun az u v => if |az| < 1.0e-10 then u else v) az ((0 - z) / (c + vz))
    ((c / az) * ((1 + vz / c) - ((1 + vz / c) * (1 + vz / c) - 2 * az * (0 - z) / c ^ 2).sqrt))

/-- `_get_retarded_position(a, t, parallax)` — `keplerian.py:411-470`. -/
noncomputable def retardedPosition (C : Consts) (a t : Gr) (parallax : Option Gr) : V3G :=
  o.positionNow C a (t.padright - o.delay C a t) parallax false

/-- `_get_position` — `keplerian.py:380-409`. -/
noncomputable def position (C : Consts) (a t : Gr) (parallax : Option Gr) (light_delay : Bool) : V3G :=
  if light_delay then o.retardedPosition C a t none else o.positionNow C a t parallax

/-- `get_planet_position` — `keplerian.py:472-490`. -/
noncomputable def planetPosition (C : Consts) (t : Gr) (parallax : Option Gr) (light_delay : Bool) : V3G :=
  (o.position C o.a_planet t parallax light_delay).squeeze
/-- `get_star_position` — `keplerian.py:492-515`. -/
noncomputable def starPosition (C : Consts) (t : Gr) (parallax : Option Gr) (light_delay : Bool) : V3G :=
  (o.position C o.a_star t parallax light_delay).squeeze
/-- `get_relative_position` — `keplerian.py:517-542`. -/
noncomputable def relativePosition (C : Consts) (t : Gr) (parallax : Option Gr) (light_delay : Bool) : V3G :=
  (o.position C (-o.a) t parallax light_delay).squeeze

/-- `get_relative_angles` — `keplerian.py:544-570`. -/
noncomputable def relativeAngles (C : Consts) (t : Gr) (parallax : Option Gr) (light_delay : Bool) : Gr × Gr :=
  let X := o.position C (-o.a) t parallax light_delay
  ((X.x ^ 2 + X.y ^ 2).sqrt.squeeze, (Gr.arctan2 X.y X.x).squeeze)

/-- `_get_velocity(m, t)` — `keplerian.py:572-578`. -/
noncomputable def velocity (m t : Gr) : V3G :=
  let f := o.trueAnomaly t
  let K := o.K0 * m
  match o.ecc with
  | none => o.rotate (-K * f.1) (K * f.2)
  | some p => o.rotate (-K * f.1) (K * (f.2 + p.ecc))

/-- `get_planet_velocity` — `keplerian.py:580-593`. -/
noncomputable def planetVelocity (t : Gr) : V3G := (o.velocity (-o.m_star) t).squeeze
/-- `get_star_velocity` — `keplerian.py:595-612`. -/
noncomputable def starVelocity (t : Gr) : V3G := (o.velocity o.m_planet t).squeeze
/-- `get_relative_velocity` — `keplerian.py:614-631`. -/
noncomputable def relativeVelocity (t : Gr) : V3G := (o.velocity (-o.m_total) t).squeeze

/-- `get_radial_velocity(t, K, output_units)` — `keplerian.py:633-677`. -/
noncomputable def radialVelocity (C : Consts) (t : Gr) (K : Option Gr) (output_units : Option AUnit) : Except PyErr Gr :=
  match K with
  | some K =>
    let f := o.trueAnomaly t
    match o.ecc with
    | none => .ok (K * f.2).squeeze
    | some p => .ok (K * (p.cos_omega * f.2 - p.sin_omega * f.1 + p.ecc * p.cos_omega)).squeeze
  | none =>
    match C.rSunPerDay.to (output_units.getD C.mPerS) with
    | .error e => .error e
    | .ok conv => .ok (((-conv : ℝ) : Gr) * (o.starVelocity t).z)

/-- `_get_acceleration(a, m, t)` — `keplerian.py:679-688`. -/
noncomputable def acceleration (a m t : Gr) : V3G :=
  let f := o.trueAnomaly t
  let K := o.K0 * m
  let factor := match o.ecc with
    | none => -(K ^ 2) / a
    | some p => K ^ 2 * (p.ecc * f.2 + 1) ^ 2 / (a * (p.ecc ^ 2 - 1))
  o.rotate (factor * f.2) (factor * f.1)

/-- `get_planet_acceleration` — `keplerian.py:690-694`. -/
noncomputable def planetAcceleration (t : Gr) : V3G := (o.acceleration o.a_planet (-o.m_star) t).squeeze
/-- `get_star_acceleration` — `keplerian.py:696-700`. -/
noncomputable def starAcceleration (t : Gr) : V3G := (o.acceleration o.a_star o.m_planet t).squeeze
/-- `get_relative_acceleration` — `keplerian.py:702-706`. -/
noncomputable def relativeAcceleration (t : Gr) : V3G := (o.acceleration (-o.a) (-o.m_total) t).squeeze

end VOrbit
end Exo
