import Verif.Model.Units
import Mathlib.Analysis.SpecialFunctions.Pow.Real
import Mathlib.Analysis.SpecialFunctions.Trigonometric.Inverse

/-!
# Model of `src/exoplanet/orbits/keplerian.py`

One planet at a time: every operation of the Python class except those in `in_transit` and
`_get_position_and_velocity` is elementwise in the planet axis, so a `KeplerianOrbit` with vector arguments is a list
of the orbits modelled here. Multi-planet reductions are in `Verif/Model/InTransit.lean`,
`Verif/Model/StateVector.lean` and `Verif/Model/LightCurve.lean`.
-/

namespace Exo

open Real

/-! ## `_get_consistent_inputs` (`keplerian.py:849-934`) -/

/-- The six-tuple returned by `_get_consistent_inputs` (`keplerian.py:934`). `rho_star` is in g/cm³. -/
@[ext] structure Inputs where
  a : ℝ
  period : ℝ
  rho_star : ℝ
  r_star : ℝ
  m_star : ℝ
  m_planet : ℝ

/-- `keplerian.py:916-922`: given exactly two of `rho_star` (in M_sun/R_sun³), `r_star`, `m_star`, work out the third.
Returns `(rho, r, m)`. Other patterns are rejected before (`keplerian.py:896-902`). -/
noncomputable def stellarParams (rho r m : Option ℝ) : Except PyErr (ℝ × ℝ × ℝ) :=
  match rho, r, m with
  | none, some r, some m => .ok (3 * m / (4 * π * r ^ 3), r, m)
  | some rho, none, some m => .ok (rho, (3 * m / (4 * π * rho)) ^ ((1 : ℝ) / 3), m)
  | some rho, some r, none => .ok (rho, r, 4 * π * r ^ 3 * rho / 3)
  | _, _, _ => .error (.valueError "exactly two of rho_star, m_star, and r_star")

/-- `keplerian.py:904-910`: a labelled `rho_star` is converted to M_sun/R_sun³; a bare one is in g/cm³. -/
noncomputable def rhoStarVal (C : Consts) (rho : Option Q) : Except PyErr (Option ℝ) :=
  match rho with
  | none => .ok none
  | some q =>
    if hasUnit q then toUnitOpt (some q) C.rhoSun
    else .ok (some (q.val / C.gccPerSun))

/-- `keplerian.py:896-934` of `_get_consistent_inputs`, when at most one of `a`, `period` is given; `a`, `period`, `m_planet`
are already converted (`keplerian.py:855-865`), `r_star`, `m_star` already have their defaults (`keplerian.py:892-895`). -/
noncomputable def finishInputs (C : Consts) (a? p? : Option ℝ) (mp : ℝ) (rho_star r_star m_star : Option Q) :
    Except PyErr Inputs :=
  -- 896-902
  if (rho_star.isNone.toNat + r_star.isNone.toNat + m_star.isNone.toNat) ≠ 1 then
    .error (.valueError "exactly two of rho_star, m_star, and r_star") else
  -- 904-914
  match rhoStarVal C rho_star with
  | .error e => .error e
  | .ok rho? =>
  match toUnitOpt r_star C.rSun with
  | .error e => .error e
  | .ok r? =>
  match toUnitOpt m_star C.mSun with
  | .error e => .error e
  | .ok m? =>
  -- 916-922
  match stellarParams rho? r? m? with
  | .error e => .error e
  | .ok (rho, rv, ms) =>
  -- 924-932
  match a?, p? with
  | none, some pv =>
    .ok ⟨(C.G * (ms + mp) * pv ^ 2 / (4 * π ^ 2)) ^ ((1 : ℝ) / 3), pv, rho * C.gccPerSun, rv, ms, mp⟩
  | some av, none =>
    .ok ⟨av, 2 * π * av ^ ((3 : ℝ) / 2) / √(C.G * (ms + mp)), rho * C.gccPerSun, rv, ms, mp⟩
  | _, _ => .error (.valueError "at least one of a and period") -- unreachable (850-853)

/-- `keplerian.py:867-889`: both `a` and `period` given; the stellar mass and density are implied. -/
noncomputable def impliedInputs (C : Consts) (av pv mp : ℝ) (rho_star r_star m_star : Option Q) :
    Except PyErr Inputs :=
  if rho_star.isSome ∨ m_star.isSome then
    .error (.valueError "a and period given with rho_star or m_star") else
  match toUnitOpt r_star C.rSun with
  | .error e => .error e
  | .ok r? =>
    let rv := r?.getD 1
    let m_tot := 4 * π * π * av ^ 3 / (C.G * pv ^ 2)
    let ms := m_tot - mp
    let vol := 4 * π * rv ^ 3 / 3
    let rho := ms / vol
    .ok ⟨av, pv, rho * C.gccPerSun, rv, ms, mp⟩

/-- `keplerian.py:892-893`: default stellar radius. -/
def defaultR (r_star m_star : Option Q) : Option Q :=
  if r_star.isNone ∧ m_star.isNone then some ⟨1, none⟩ else r_star

/-- `keplerian.py:892`, 894-895: default stellar mass. -/
def defaultM (rho_star r_star m_star : Option Q) : Option Q :=
  if r_star.isNone ∧ m_star.isNone ∧ rho_star.isNone then some ⟨1, none⟩ else m_star

/-- `_get_consistent_inputs` — `keplerian.py:849-934`. `m_planet = none` models an explicit `None`. -/
noncomputable def consistentInputs (C : Consts)
    (a period rho_star r_star m_star m_planet : Option Q) : Except PyErr Inputs :=
  -- 850-853
  if a.isNone ∧ period.isNone then .error (.valueError "at least one of a and period") else
  -- 855-865 (`zeros_like` when `m_planet is None`)
  match toUnitOpt m_planet C.mSun with
  | .error e => .error e
  | .ok mp? =>
  match toUnitOpt a C.rSun with
  | .error e => .error e
  | .ok a? =>
  match toUnitOpt period C.day with
  | .error e => .error e
  | .ok p? =>
  match a?, p? with
  | some av, some pv => impliedInputs C av pv (mp?.getD 0) rho_star r_star m_star
  | _, _ =>
    finishInputs C a? p? (mp?.getD 0) rho_star (defaultR r_star m_star) (defaultM rho_star r_star m_star)

/-! ## `get_aor_from_transit_duration` (`keplerian.py:822-846`) -/

/-- `get_aor_from_transit_duration(duration, period, b, ror)` — `keplerian.py:822-846`. Returns `(aor, grad)`. -/
noncomputable def aorFromDuration (duration period b : ℝ) (ror : Option ℝ) : ℝ × ℝ :=
  let k := ror.getD 0
  let b2 := b ^ 2
  let opk2 := (1 + k) ^ 2
  let phi := π * duration / period
  let sinp := sin phi
  let cosp := cos phi
  let num := √(opk2 - b2 * cosp ^ 2)
  (num / sinp, π * cosp * (b2 - opk2) / (num * period * sinp ^ 2))

/-! ## The constructor (`keplerian.py:75-281`) -/

/-- The keyword arguments of `KeplerianOrbit.__init__` (`keplerian.py:75-96`), for one planet. `m_planet_units` and
`rho_star_units` are the deprecated keywords of `keplerian.py:99-108`. -/
structure Args where
  period : Option Q := none
  a : Option Q := none
  t0 : Option Q := none
  t_periastron : Option Q := none
  incl : Option Q := none
  b : Option Q := none
  duration : Option Q := none
  ecc : Option Q := none
  omega : Option Q := none
  sin_omega : Option Q := none
  cos_omega : Option Q := none
  Omega : Option Q := none
  m_planet : Option Q := some ⟨0, none⟩
  m_star : Option Q := none
  r_star : Option Q := none
  rho_star : Option Q := none
  ror : Option Q := none
  m_planet_units : Option AUnit := none
  rho_star_units : Option AUnit := none

/-- The attributes that exist only on eccentric orbits (`keplerian.py:187-200`). -/
structure EccParams where
  ecc : ℝ
  omega : ℝ
  cos_omega : ℝ
  sin_omega : ℝ

/-- `orbit.jacobians["duration"]` (`keplerian.py:150-170`). -/
structure DurationJac where
  a : ℝ
  a_star : ℝ
  a_planet : ℝ
  rho_star : ℝ

/-- The attributes of a constructed `KeplerianOrbit`, for one planet. `warp` is the method `_warp_times`
(`keplerian.py:324-327`), which `TTVOrbit` overrides (`ttv.py:182-187`). -/
structure Orbit where
  a : ℝ
  period : ℝ
  rho_star : ℝ
  r_star : ℝ
  m_star : ℝ
  m_planet : ℝ
  m_total : ℝ
  n : ℝ
  a_star : ℝ
  a_planet : ℝ
  K0 : ℝ
  Omega : Option ℝ
  ecc : Option EccParams
  M0 : ℝ
  dcosidb : ℝ
  b : ℝ
  cos_incl : ℝ
  incl : ℝ
  sin_incl : ℝ
  t0 : ℝ
  t_periastron : ℝ
  tref : ℝ
  durJac : Option DurationJac
  warp : ℝ → ℝ

/-- `keplerian.py:99-108`: `if "..._units" in kwargs: x = with_unit(x, kwargs.pop(...))`. `with_unit(None, u)` fails when
converting `None` to a tensor. -/
def applyUnitKw (x : Option Q) (u : Option AUnit) : Except PyErr (Option Q) :=
  match u with
  | none => .ok x
  | some u =>
    match x with
    | none => .error (.typeError "cannot convert None to a tensor")
    | some q =>
      match withUnit q u with
      | .error e => .error e
      | .ok q' => .ok (some q')

/-- Outcome of `keplerian.py:112-131`: new `a`, `r_star`, `duration`, and `daordtau`. -/
structure DurBlock where
  a : Option Q
  r_star : Option Q
  duration : Option Q
  daordtau : Option ℝ

/-- `keplerian.py:112-131`: a circular orbit with a `duration`. The raw tensor values are used — unit labels are *not*
converted here (`get_aor_from_transit_duration(duration, period, b, ror=ror)`, `a = r_star * aor`). The warning of
`keplerian.py:121-126` is not modelled. `period=None` makes `duration / period` a `TypeError`. A given `a` is overwritten. -/
noncomputable def durationBlock (A : Args) : Except PyErr DurBlock :=
  match A.ecc, A.duration with
  | none, some d =>
    let r : Q := A.r_star.getD ⟨1, none⟩
    match A.b with
    | none => .error (.valueError "'b' must be provided for a circular orbit with a 'duration'")
    | some b =>
      match A.period with
      | none => .error (.typeError "unsupported operand type(s)")
      | some p =>
        let (aor, g) := aorFromDuration d.val p.val b.val (A.ror.map Q.val)
        .ok ⟨some ⟨r.val * aor, none⟩, some r, none, some g⟩
  | _, _ => .ok ⟨A.a, A.r_star, A.duration, none⟩

/-- `keplerian.py:187-203`: the eccentricity attributes. -/
noncomputable def eccBlock (A : Args) : Except PyErr (Option EccParams) :=
  match A.ecc with
  | none => .ok none
  | some e =>
    match A.omega with
    | some w =>
      if A.sin_omega.isSome ∧ A.cos_omega.isSome then
        .error (.valueError "either 'omega' or 'sin_omega' and 'cos_omega'")
      else .ok (some ⟨e.val, w.val, cos w.val, sin w.val⟩)
    | none =>
      match A.sin_omega, A.cos_omega with
      | some s, some c => .ok (some ⟨e.val, arctan2 s.val c.val, c.val, s.val⟩)
      | _, _ => .error (.valueError "both e and omega must be provided")

/-- `keplerian.py:184` and 205-210: the mean anomaly at transit. -/
noncomputable def M0Of (e : Option EccParams) : ℝ :=
  match e with
  | none => 0.5 * π
  | some p =>
    let opsw := 1 + p.sin_omega
    let E0 := 2 * arctan2 (√(1 - p.ecc) * p.cos_omega) (√(1 + p.ecc) * opsw)
    E0 - p.ecc * sin E0

/-- `keplerian.py:172`, 213: the velocity scale. -/
noncomputable def K0Of (e : Option EccParams) (n a m_total : ℝ) : ℝ :=
  match e with
  | none => n * a / m_total
  | some p => n * a / m_total / √(1 - p.ecc ^ 2)

/-- `keplerian.py:185`, 214. -/
noncomputable def inclFactorOf (e : Option EccParams) : ℝ :=
  match e with
  | none => 1
  | some p => (1 + p.ecc * p.sin_omega) / (1 - p.ecc ^ 2)

/-- `keplerian.py:237-258`: `b` from a duration on an eccentric orbit (note: `self.a_planet`, and no `ror`). -/
noncomputable def bFromDuration (p : EccParams) (duration period a_planet r_star : ℝ) : ℝ :=
  let incl_factor := (1 + p.ecc * p.sin_omega) / (1 - p.ecc ^ 2)
  let c := sin (π * duration * incl_factor / period)
  let c2 := c * c
  let aor := a_planet / r_star
  let esinw := p.ecc * p.sin_omega
  √((aor ^ 2 * c2 - 1) /
      (c2 * esinw ^ 2 + 2 * c2 * esinw + c2 - p.ecc ^ 4 + 2 * p.ecc ^ 2 - 1)) * (1 - p.ecc ^ 2)

/-- `keplerian.py:221-265`: returns `(b, cos_incl, incl)`. `duration` is the value left after `keplerian.py:112-131`. -/
noncomputable def inclBlock (C : Consts) (A : Args) (duration : Option Q) (e : Option EccParams)
    (period a_planet r_star dcosidb : ℝ) : Except PyErr (ℝ × ℝ × ℝ) :=
  match A.b with
  | some b =>
    if A.incl.isSome ∨ duration.isSome then
      .error (.valueError "only one of 'incl', 'b', and 'duration' can be given")
    else .ok (b.val, dcosidb * b.val, arccos (dcosidb * b.val))
  | none =>
    match A.incl with
    | some i =>
      if duration.isSome then
        .error (.valueError "only one of 'incl', 'b', and 'duration' can be given")
      else .ok (cos i.val / dcosidb, cos i.val, i.val)
    | none =>
      match duration with
      | some d =>
        match e with
        | none => .error (.assertion "self.ecc is not None")
        | some p =>
          match toUnitVal d C.day with
          | .error er => .error er
          | .ok dv =>
            let b := bFromDuration p dv period a_planet r_star
            .ok (b, dcosidb * b, arccos (dcosidb * b))
      | none => .ok (0, 0, 0.5 * π + 0)

/-- `keplerian.py:267-277`: returns `(t0, t_periastron)`. -/
noncomputable def timeBlock (A : Args) (M0 n : ℝ) : Except PyErr (ℝ × ℝ) :=
  match A.t0, A.t_periastron with
  | some _, some _ => .error (.valueError "you can't define both t0 and t_periastron")
  | none, some tp => .ok (tp.val + M0 / n, tp.val)
  | some t0, none => .ok (t0.val, t0.val - M0 / n)
  | none, none => .ok (0, 0 - M0 / n)

/-- `keplerian.py:150-170`: `self.jacobians["duration"]`. -/
noncomputable def durJacOf (C : Consts) (I : Inputs) (daordtau : Option ℝ) : Option DurationJac :=
  match daordtau with
  | none => none
  | some g =>
    let m_total := I.m_star + I.m_planet
    let dadtau := I.r_star * g
    some ⟨dadtau, dadtau * I.m_planet / m_total, -dadtau * I.m_star / m_total,
      9 * π * (I.a / I.r_star) ^ 2 * g * C.gccPerSun / (C.G * I.period ^ 2)⟩

/-- `KeplerianOrbit.__init__` — `keplerian.py:75-281` (without the citation registration of `keplerian.py:97`, see
`Verif/Model/Citations.lean`). Unknown keyword arguments are accepted and ignored by the Python code. -/
noncomputable def keplerianInit (C : Consts) (A : Args) : Except PyErr Orbit :=
  -- 99-108
  match applyUnitKw A.m_planet A.m_planet_units with
  | .error e => .error e
  | .ok m_planet =>
  match applyUnitKw A.rho_star A.rho_star_units with
  | .error e => .error e
  | .ok rho_star =>
  -- 112-131
  match durationBlock A with
  | .error e => .error e
  | .ok D =>
  -- 133-143
  match consistentInputs C D.a A.period rho_star D.r_star A.m_star m_planet with
  | .error e => .error e
  | .ok I =>
  -- 144-148
  let m_total := I.m_star + I.m_planet
  let n := 2 * π / I.period
  let a_star := I.a * I.m_planet / m_total
  let a_planet := -I.a * I.m_star / m_total
  -- 181-214
  match eccBlock A with
  | .error e => .error e
  | .ok ecc =>
  let M0 := M0Of ecc
  -- 217-219
  let dcosidb := inclFactorOf ecc * I.r_star / I.a
  -- 221-265
  match inclBlock C A D.duration ecc I.period a_planet I.r_star dcosidb with
  | .error e => .error e
  | .ok (b, cos_incl, incl) =>
  -- 267-279
  match timeBlock A M0 n with
  | .error e => .error e
  | .ok (t0, t_periastron) =>
  .ok { a := I.a, period := I.period, rho_star := I.rho_star, r_star := I.r_star, m_star := I.m_star,
        m_planet := I.m_planet, m_total := m_total, n := n, a_star := a_star, a_planet := a_planet,
        K0 := K0Of ecc n I.a m_total, Omega := A.Omega.map Q.val, ecc := ecc, M0 := M0, dcosidb := dcosidb,
        b := b, cos_incl := cos_incl, incl := incl, sin_incl := sin incl, t0 := t0,
        t_periastron := t_periastron, tref := t_periastron - t0, durJac := durJacOf C I D.daordtau,
        warp := fun t => t - t0 }

/-! ## The compiled Kepler solver (idealised) -/

/-- Kepler's equation: the mean anomaly of the eccentric anomaly `E`. -/
noncomputable def keplerMap (e E : ℝ) : ℝ := E - e * sin E

/-- The eccentric anomaly: the inverse of `keplerMap e` (existence and uniqueness for `0 ≤ e < 1` are theorems,
`Verif/Lemmas/Kepler.lean`). -/
noncomputable def eccAnomaly (e M : ℝ) : ℝ := Function.invFun (keplerMap e) M

/-- `exoplanet_core.ops.kepler(M, e)` (called in `keplerian.py:333, 818`): sine and cosine of the true anomaly. The
compiled op is not part of the repository; it is idealised as the exact solution. -/
noncomputable def keplerOp (M e : ℝ) : ℝ × ℝ :=
  let E := eccAnomaly e M
  (√(1 - e ^ 2) * sin E / (1 - e * cos E), (cos E - e) / (1 - e * cos E))

/-- `get_true_anomaly(M, e)` — `keplerian.py:807-819`. -/
noncomputable def getTrueAnomaly (M e : ℝ) : ℝ :=
  arctan2 (keplerOp M e).1 (keplerOp M e).2

/-! ## Methods -/

/-- A vector in the observer frame. -/
@[ext] structure V3 where
  x : ℝ
  y : ℝ
  z : ℝ

namespace Orbit
variable (o : Orbit)

/-- `_rotate_vector` — `keplerian.py:283-322`. -/
noncomputable def rotate (x y : ℝ) : V3 :=
  -- 303-308
  let x1 := match o.ecc with | none => x | some p => p.cos_omega * x - p.sin_omega * y
  let y1 := match o.ecc with | none => y | some p => p.sin_omega * x + p.cos_omega * y
  -- 311-314
  let x2 := x1
  let y2 := o.cos_incl * y1
  let Z := -o.sin_incl * y1
  -- 317-322
  match o.Omega with
  | none => ⟨x2, y2, Z⟩
  | some W => ⟨cos W * x2 - sin W * y2, sin W * x2 + cos W * y2, Z⟩

/-- `_get_true_anomaly` — `keplerian.py:329-334`: `(sin f, cos f)`. -/
noncomputable def trueAnomaly (t : ℝ) : ℝ × ℝ :=
  let M := (o.warp t - o.tref) * o.n
  match o.ecc with
  | none => (sin M, cos M)
  | some p => keplerOp M p.ecc

/-- The orbital radius expression of `keplerian.py:400-403` and 432-437, for semimajor axis `a`. -/
noncomputable def radius (a cosf : ℝ) : ℝ :=
  match o.ecc with
  | none => a
  | some p => a * (1 - p.ecc ^ 2) / (1 + p.ecc * cosf)

/-- `_get_position(a, t, parallax, light_delay=False)` — `keplerian.py:399-409`. -/
noncomputable def positionNow (C : Consts) (a t : ℝ) (parallax : Option ℝ) : V3 :=
  let f := o.trueAnomaly t
  let r := o.radius a f.2
  let r := match parallax with | none => r | some p => r * p * C.auPerRsun
  o.rotate (r * f.2) (r * f.1)

/-- The `vz` of `keplerian.py:431-440`. -/
noncomputable def retardedVz (a t : ℝ) : ℝ :=
  let f := o.trueAnomaly t
  let angvel := 2 * π / o.period
  match o.ecc with
  | none => angvel * a * o.sin_incl * f.2
  | some p =>
    let vamp := angvel * a / √(1 - p.ecc ^ 2)
    let cwf := p.cos_omega * f.2 - p.sin_omega * f.1
    vamp * o.sin_incl * (p.ecc * p.cos_omega + cwf)

/-- The `az` of `keplerian.py:446`. -/
noncomputable def retardedAz (C : Consts) (a t : ℝ) : ℝ :=
  let f := o.trueAnomaly t
  let angvel := 2 * π / o.period
  let r := o.radius a f.2
  let k := -(angvel ^ 2)
  k * (a / r) ^ 3 * (o.positionNow C a t none).z

/-- The `delay` of `keplerian.py:451-462` (`z0 = 0.0` is the only value ever passed, `keplerian.py:411`). -/
noncomputable def delay (C : Consts) (a t : ℝ) (z0 : ℝ := 0) : ℝ :=
  let z := (o.positionNow C a t none).z
  let vz := o.retardedVz a t
  let az := o.retardedAz C a t
  if |az| < 1.0e-10 then (z0 - z) / (C.c + vz)
  else (C.c / az) * ((1 + vz / C.c) -
    √((1 + vz / C.c) * (1 + vz / C.c) - 2 * az * (z0 - z) / C.c ^ 2))

/-- `_get_retarded_position(a, t, parallax)` — `keplerian.py:411-470` (elementwise; the shape handling of `_pad` for
`TTVOrbit` is in `Verif/Model/Ttv.lean`). -/
noncomputable def retardedPosition (C : Consts) (a t : ℝ) (parallax : Option ℝ) : V3 :=
  o.positionNow C a (t - o.delay C a t) parallax

/-- `_get_position` — `keplerian.py:380-409`. Note `parallax=None` in the light-delay branch (`keplerian.py:397`). -/
noncomputable def position (C : Consts) (a t : ℝ) (parallax : Option ℝ) (light_delay : Bool) : V3 :=
  if light_delay then o.retardedPosition C a t none
  else o.positionNow C a t parallax

/-- `get_planet_position` — `keplerian.py:472-490`. -/
noncomputable def planetPosition (C : Consts) (t : ℝ) (parallax : Option ℝ := none)
    (light_delay : Bool := false) : V3 := o.position C o.a_planet t parallax light_delay
/-- `get_star_position` — `keplerian.py:492-515`. -/
noncomputable def starPosition (C : Consts) (t : ℝ) (parallax : Option ℝ := none)
    (light_delay : Bool := false) : V3 := o.position C o.a_star t parallax light_delay
/-- `get_relative_position` — `keplerian.py:517-542`. -/
noncomputable def relativePosition (C : Consts) (t : ℝ) (parallax : Option ℝ := none)
    (light_delay : Bool := false) : V3 := o.position C (-o.a) t parallax light_delay

/-- `get_relative_angles` — `keplerian.py:544-570`: `(rho, theta)`. -/
noncomputable def relativeAngles (C : Consts) (t : ℝ) (parallax : Option ℝ := none)
    (light_delay : Bool := false) : ℝ × ℝ :=
  let X := o.position C (-o.a) t parallax light_delay
  (√(X.x ^ 2 + X.y ^ 2), arctan2 X.y X.x)

/-- `_get_velocity(m, t)` — `keplerian.py:572-578`. -/
noncomputable def velocity (m t : ℝ) : V3 :=
  let f := o.trueAnomaly t
  let K := o.K0 * m
  match o.ecc with
  | none => o.rotate (-K * f.1) (K * f.2)
  | some p => o.rotate (-K * f.1) (K * (f.2 + p.ecc))

/-- `get_planet_velocity` — `keplerian.py:580-593`. -/
noncomputable def planetVelocity (t : ℝ) : V3 := o.velocity (-o.m_star) t
/-- `get_star_velocity` — `keplerian.py:595-612`. -/
noncomputable def starVelocity (t : ℝ) : V3 := o.velocity o.m_planet t
/-- `get_relative_velocity` — `keplerian.py:614-631`. -/
noncomputable def relativeVelocity (t : ℝ) : V3 := o.velocity (-o.m_total) t

/-- `get_radial_velocity(t, K, output_units)` — `keplerian.py:633-677`. -/
noncomputable def radialVelocity (C : Consts) (t : ℝ) (K : Option ℝ := none)
    (output_units : Option AUnit := none) : Except PyErr ℝ :=
  match K with
  | some K =>
    let f := o.trueAnomaly t
    match o.ecc with
    | none => .ok (K * f.2)
    | some p => .ok (K * (p.cos_omega * f.2 - p.sin_omega * f.1 + p.ecc * p.cos_omega))
  | none =>
    match C.rSunPerDay.to (output_units.getD C.mPerS) with
    | .error e => .error e
    | .ok conv => .ok (-conv * (o.starVelocity t).z)

/-- `_get_acceleration(a, m, t)` — `keplerian.py:679-688`. -/
noncomputable def acceleration (a m t : ℝ) : V3 :=
  let f := o.trueAnomaly t
  let K := o.K0 * m
  let factor := match o.ecc with
    | none => -(K ^ 2) / a
    | some p => K ^ 2 * (p.ecc * f.2 + 1) ^ 2 / (a * (p.ecc ^ 2 - 1))
  o.rotate (factor * f.2) (factor * f.1)

/-- `get_planet_acceleration` — `keplerian.py:690-694`. -/
noncomputable def planetAcceleration (t : ℝ) : V3 := o.acceleration o.a_planet (-o.m_star) t
/-- `get_star_acceleration` — `keplerian.py:696-700`. -/
noncomputable def starAcceleration (t : ℝ) : V3 := o.acceleration o.a_star o.m_planet t
/-- `get_relative_acceleration` — `keplerian.py:702-706`. -/
noncomputable def relativeAcceleration (t : ℝ) : V3 := o.acceleration (-o.a) (-o.m_total) t

/-- The keyword arguments `_flip(r_planet)` passes to the constructor — `keplerian.py:779-804`. -/
noncomputable def flipArgs (r_planet : ℝ) : Args :=
  match o.ecc with
  | none =>
    { period := some o.period, t_periastron := some ((o.t_periastron + 0.5 * o.period : ℝ) : Q),
      incl := some o.incl, Omega := o.Omega.map (fun x => (x : Q)), m_star := some o.m_planet,
      m_planet := some o.m_star, r_star := some r_planet }
  | some p =>
    { period := some o.period, t_periastron := some (o.t_periastron : Q), incl := some o.incl,
      ecc := some p.ecc, omega := some ((p.omega - π : ℝ) : Q), Omega := o.Omega.map (fun x => (x : Q)),
      m_star := some o.m_planet, m_planet := some o.m_star, r_star := some r_planet }

/-- `_flip(r_planet)` on a `KeplerianOrbit` — `keplerian.py:779-804`. -/
noncomputable def flip (C : Consts) (r_planet : ℝ) : Except PyErr Orbit :=
  keplerianInit C (o.flipArgs r_planet)

end Orbit
end Exo
