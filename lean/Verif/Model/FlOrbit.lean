import Verif.Model.Fl
import Verif.Model.LightCurve

/-!
# `KeplerianOrbit` and `LimbDarkLightCurve` with NaN and infinities

The same lines of `src/exoplanet/orbits/keplerian.py` as in `Model/Keplerian.lean`, for one planet, computed with `Fl`. The compiled
operations are parameters.
-/

namespace Exo
open Real

/-- `keplerian.py:934`. -/
structure FlInputs where
  a : Fl
  period : Fl
  rho_star : Fl
  r_star : Fl
  m_star : Fl
  m_planet : Fl

/-- `keplerian.py:916-922`. -/
noncomputable def stellarParamsF (rho r m : Option ℝ) : Except PyErr (Fl × Fl × Fl) :=
  match rho, r, m with
  | none, some r, some m => .ok ((3 : ℝ) * (m : Fl) / ((4 : ℝ) * (π : Fl) * (r : Fl) ^ 3), r, m)
  | some rho, none, some m => .ok (rho, (((3 : ℝ) : Fl) * (m : Fl) / ((4 : ℝ) * (π : Fl) * (rho : Fl))).powr (1 / 3), m)
  | some rho, some r, none => .ok (rho, r, (4 : ℝ) * (π : Fl) * (r : Fl) ^ 3 * (rho : Fl) / (3 : ℝ))
  | _, _, _ => .error (.valueError "exactly two of rho_star, m_star, and r_star")

/-- `keplerian.py:896-934`, when at most one of `a`, `period` is given. -/
noncomputable def finishInputsF (C : Consts) (a? : Option Fl) (p? : Option ℝ) (mp : ℝ) (rho_star r_star m_star : Option Q) :
    Except PyErr FlInputs :=
  -- 896-902
  if (rho_star.isNone.toNat + r_star.isNone.toNat + m_star.isNone.toNat) ≠ 1 then
    .error (.valueError "exactly two of rho_star, m_star, and r_star") else
  -- 904-914
  match rhoStarVal C rho_star with
  | .error e => .error e
  | .ok rho? =>
  match toUnitOpt r_star C.rSun with
  | .error e => .error e
  | .ok r? =>
  match toUnitOpt m_star C.mSun with
  | .error e => .error e
  | .ok m? =>
  -- 916-922
  match stellarParamsF rho? r? m? with
  | .error e => .error e
  | .ok (rho, rv, ms) =>
  -- 924-932
  match a?, p? with
  | none, some pv =>
    .ok ⟨((C.G : Fl) * (ms + (mp : Fl)) * (pv : Fl) ^ 2 / (((4 : ℝ) : Fl) * (π : Fl) ^ 2)).powr (1 / 3), pv, rho * (C.gccPerSun : Fl), rv, ms, mp⟩
  | some av, none =>
    .ok ⟨av, ((2 : ℝ) : Fl) * (π : Fl) * av.powr (3 / 2) / ((C.G : Fl) * (ms + (mp : Fl))).sqrt, rho * (C.gccPerSun : Fl), rv, ms, mp⟩
  | _, _ => .error (.valueError "at least one of a and period") -- unreachable (850-853)

/-- `keplerian.py:867-889`: both `a` and `period` given. -/
noncomputable def impliedInputsF (C : Consts) (av : Fl) (pv mp : ℝ) (rho_star r_star m_star : Option Q) : Except PyErr FlInputs :=
  if rho_star.isSome ∨ m_star.isSome then
    .error (.valueError "a and period given with rho_star or m_star") else
  match toUnitOpt r_star C.rSun with
  | .error e => .error e
  | .ok r? =>
    let rv : Fl := r?.getD 1
    let m_tot := (((4 : ℝ) : Fl) * (π : Fl) * (π : Fl)) * av ^ 3 / ((C.G : Fl) * (pv : Fl) ^ 2)
    let ms := m_tot - (mp : Fl)
    let vol := ((4 : ℝ) : Fl) * (π : Fl) * rv ^ 3 / ((3 : ℝ) : Fl)
    let rho := ms / vol
    .ok ⟨av, pv, rho * (C.gccPerSun : Fl), rv, ms, mp⟩

/-- What `_get_consistent_inputs` is given for `a`: the argument, or the number of `keplerian.py:128-130`. -/
inductive AArg where
  | given (a : Option Q)
  | computed (a : Fl)

/-- `a is None` — `keplerian.py:850`. -/
def AArg.isNone : AArg → Bool
  | .given a => a.isNone
  | .computed _ => false

/-- `keplerian.py:860-861`. -/
noncomputable def AArg.value (C : Consts) : AArg → Except PyErr (Option Fl)
  | .given a => match toUnitOpt a C.rSun with
    | .error e => .error e
    | .ok v => .ok (v.map Fl.fin)
  | .computed a => .ok (some a)

/-- `_get_consistent_inputs` — `keplerian.py:849-934`. -/
noncomputable def consistentInputsF (C : Consts) (a : AArg) (period rho_star r_star m_star m_planet : Option Q) :
    Except PyErr FlInputs :=
  -- 850-853
  if a.isNone && period.isNone then .error (.valueError "at least one of a and period") else
  -- 855-865
  match toUnitOpt m_planet C.mSun with
  | .error e => .error e
  | .ok mp? =>
  match a.value C with
  | .error e => .error e
  | .ok a? =>
  match toUnitOpt period C.day with
  | .error e => .error e
  | .ok p? =>
  match a?, p? with
  | some av, some pv => impliedInputsF C av pv (mp?.getD 0) rho_star r_star m_star
  | _, _ =>
    finishInputsF C a? p? (mp?.getD 0) rho_star (defaultR r_star m_star) (defaultM rho_star r_star m_star)

/-- `get_aor_from_transit_duration` — `keplerian.py:822-846`, the first result. -/
noncomputable def aorFromDurationF (duration period b : ℝ) (ror : Option ℝ) : Fl :=
  let k : Fl := ror.getD 0
  let b2 := (b : Fl) ^ 2
  let opk2 := (((1 : ℝ) : Fl) + k) ^ 2
  let phi := (π : Fl) * (duration : Fl) / (period : Fl)
  let num := (opk2 - b2 * phi.cos ^ 2).sqrt
  num / phi.sin

/-- The attributes that exist only on eccentric orbits (`keplerian.py:187-200`). -/
structure FlEcc where
  ecc : Fl
  cos_omega : Fl
  sin_omega : Fl

/-- The attributes of a constructed `KeplerianOrbit`. -/
structure FlOrbit where
  a : Fl
  period : Fl
  rho_star : Fl
  r_star : Fl
  m_star : Fl
  m_planet : Fl
  m_total : Fl
  n : Fl
  a_star : Fl
  a_planet : Fl
  K0 : Fl
  Omega : Option Fl
  ecc : Option FlEcc
  M0 : Fl
  dcosidb : Fl
  b : Fl
  cos_incl : Fl
  incl : Fl
  sin_incl : Fl
  t0 : Fl
  t_periastron : Fl
  tref : Fl

/-- `keplerian.py:112-131`: the new `a`, `r_star` and `duration`. -/
noncomputable def durationBlockF (A : Args) : Except PyErr (AArg × Option Q × Option Q) :=
  match A.ecc, A.duration with
  | none, some d =>
    let r : Q := A.r_star.getD ⟨1, none⟩
    match A.b with
    | none => .error (.valueError "'b' must be provided for a circular orbit with a 'duration'")
    | some b =>
      match A.period with
      | none => .error (.typeError "unsupported operand type(s)")
      | some p => .ok (.computed ((r.val : Fl) * aorFromDurationF d.val p.val b.val (A.ror.map Q.val)), some r, none)
  | _, _ => .ok (.given A.a, A.r_star, A.duration)

/-- `keplerian.py:187-203`. -/
noncomputable def eccBlockF (A : Args) : Except PyErr (Option FlEcc) :=
  match A.ecc with
  | none => .ok none
  | some e =>
    match A.omega with
    | some w =>
      if A.sin_omega.isSome ∧ A.cos_omega.isSome then
        .error (.valueError "either 'omega' or 'sin_omega' and 'cos_omega'")
      else .ok (some ⟨e.val, (w.val : Fl).cos, (w.val : Fl).sin⟩)
    | none =>
      match A.sin_omega, A.cos_omega with
      | some s, some c => .ok (some ⟨e.val, c.val, s.val⟩)
      | _, _ => .error (.valueError "both e and omega must be provided")

/-- `keplerian.py:184` and 205-210. -/
noncomputable def M0OfF (e : Option FlEcc) : Fl :=
  match e with
  | none => ((0.5 : ℝ) : Fl) * (π : Fl)
  | some p =>
    let opsw := ((1 : ℝ) : Fl) + p.sin_omega
    let E0 := ((2 : ℝ) : Fl) * Fl.arctan2 ((((1 : ℝ) : Fl) - p.ecc).sqrt * p.cos_omega) ((((1 : ℝ) : Fl) + p.ecc).sqrt * opsw)
    E0 - p.ecc * E0.sin

/-- `keplerian.py:172`, 213. -/
noncomputable def K0OfF (e : Option FlEcc) (n a m_total : Fl) : Fl :=
  match e with
  | none => n * a / m_total
  | some p => n * a / m_total / (((1 : ℝ) : Fl) - p.ecc ^ 2).sqrt

/-- `keplerian.py:185`, 214. -/
noncomputable def inclFactorOfF (e : Option FlEcc) : Fl :=
  match e with
  | none => ((1 : ℝ) : Fl)
  | some p => (((1 : ℝ) : Fl) + p.ecc * p.sin_omega) / (((1 : ℝ) : Fl) - p.ecc ^ 2)

/-- `keplerian.py:237-258`. -/
noncomputable def bFromDurationF (p : FlEcc) (duration : ℝ) (period a_planet r_star : Fl) : Fl :=
  let one : Fl := (1 : ℝ)
  let two : Fl := (2 : ℝ)
  let incl_factor := (one + p.ecc * p.sin_omega) / (one - p.ecc ^ 2)
  let c := ((π : Fl) * (duration : Fl) * incl_factor / period).sin
  let c2 := c * c
  let aor := a_planet / r_star
  let esinw := p.ecc * p.sin_omega
  ((aor ^ 2 * c2 - one) / (c2 * esinw ^ 2 + two * c2 * esinw + c2 - p.ecc ^ 4 + two * p.ecc ^ 2 - one)).sqrt * (one - p.ecc ^ 2)

/-- `keplerian.py:221-265`: `(b, cos_incl, incl)`. -/
noncomputable def inclBlockF (C : Consts) (A : Args) (duration : Option Q) (e : Option FlEcc)
    (period a_planet r_star dcosidb : Fl) : Except PyErr (Fl × Fl × Fl) :=
  match A.b with
  | some b =>
    if A.incl.isSome ∨ duration.isSome then
      .error (.valueError "only one of 'incl', 'b', and 'duration' can be given")
    else .ok (b.val, dcosidb * (b.val : Fl), (dcosidb * (b.val : Fl)).arccos)
  | none =>
    match A.incl with
    | some i =>
      if duration.isSome then
        .error (.valueError "only one of 'incl', 'b', and 'duration' can be given")
      else .ok ((i.val : Fl).cos / dcosidb, (i.val : Fl).cos, i.val)
    | none =>
      match duration with
      | some d =>
        match e with
        | none => .error (.assertion "self.ecc is not None")
        | some p =>
          match toUnitVal d C.day with
          | .error er => .error er
          | .ok dv =>
            let b := bFromDurationF p dv period a_planet r_star
            .ok (b, dcosidb * b, (dcosidb * b).arccos)
      | none => .ok ((0 : ℝ), (0 : ℝ), ((0.5 : ℝ) : Fl) * (π : Fl) + ((0 : ℝ) : Fl))

/-- `keplerian.py:267-277`: `(t0, t_periastron)`. -/
noncomputable def timeBlockF (A : Args) (M0 n : Fl) : Except PyErr (Fl × Fl) :=
  match A.t0, A.t_periastron with
  | some _, some _ => .error (.valueError "you can't define both t0 and t_periastron")
  | none, some tp => .ok ((tp.val : Fl) + M0 / n, tp.val)
  | some t0, none => .ok (t0.val, (t0.val : Fl) - M0 / n)
  | none, none => .ok ((0 : ℝ), ((0 : ℝ) : Fl) - M0 / n)

/-- `KeplerianOrbit.__init__` — `keplerian.py:75-281`, without the Jacobians. -/
noncomputable def keplerianInitF (C : Consts) (A : Args) : Except PyErr FlOrbit :=
  -- 99-108
  match applyUnitKw A.m_planet A.m_planet_units with
  | .error e => .error e
  | .ok m_planet =>
  match applyUnitKw A.rho_star A.rho_star_units with
  | .error e => .error e
  | .ok rho_star =>
  -- 112-131
  match durationBlockF A with
  | .error e => .error e
  | .ok (a, r_star, duration) =>
  -- 133-143
  match consistentInputsF C a A.period rho_star r_star A.m_star m_planet with
  | .error e => .error e
  | .ok I =>
  -- 144-148
  let m_total := I.m_star + I.m_planet
  let n := ((2 : ℝ) : Fl) * (π : Fl) / I.period
  let a_star := I.a * I.m_planet / m_total
  let a_planet := -I.a * I.m_star / m_total
  -- 181-214
  match eccBlockF A with
  | .error e => .error e
  | .ok ecc =>
  let M0 := M0OfF ecc
  -- 217-219
  let dcosidb := inclFactorOfF ecc * I.r_star / I.a
  -- 221-265
  match inclBlockF C A duration ecc I.period a_planet I.r_star dcosidb with
  | .error e => .error e
  | .ok (b, cos_incl, incl) =>
  -- 267-279
  match timeBlockF A M0 n with
  | .error e => .error e
  | .ok (t0, t_periastron) =>
  .ok { a := I.a, period := I.period, rho_star := I.rho_star, r_star := I.r_star, m_star := I.m_star,
        m_planet := I.m_planet, m_total := m_total, n := n, a_star := a_star, a_planet := a_planet,
        K0 := K0OfF ecc n I.a m_total, Omega := A.Omega.map (fun q => (q.val : Fl)), ecc := ecc, M0 := M0, dcosidb := dcosidb,
        b := b, cos_incl := cos_incl, incl := incl, sin_incl := incl.sin, t0 := t0,
        t_periastron := t_periastron, tref := t_periastron - t0 }

/-! ## Methods -/

/-- `exoplanet_core.ops.kepler` on doubles: compiled, hence a parameter. -/
abbrev FlKepler := Fl → Fl → Fl × Fl

/-- The exact solution on its domain, and NaN for NaN: all that is assumed of the compiled operation. -/
structure FlKepler.Ok (kep : FlKepler) : Prop where
  exact : ∀ M e : ℝ, 0 ≤ e → e < 1 → kep (.fin M) (.fin e) = (.fin (keplerOp M e).1, .fin (keplerOp M e).2)
  nan : ∀ e, kep .nan e = (.nan, .nan)

/-- A vector in the observer frame. -/
structure FlV3 where
  x : Fl
  y : Fl
  z : Fl

namespace FlOrbit
variable (o : FlOrbit) (kep : FlKepler)

/-- `_rotate_vector` — `keplerian.py:283-322`. -/
noncomputable def rotate (x y : Fl) : FlV3 :=
  let x1 := match o.ecc with | none => x | some p => p.cos_omega * x - p.sin_omega * y
  let y1 := match o.ecc with | none => y | some p => p.sin_omega * x + p.cos_omega * y
  let x2 := x1
  let y2 := o.cos_incl * y1
  let Z := -o.sin_incl * y1
  match o.Omega with
  | none => ⟨x2, y2, Z⟩
  | some W => ⟨W.cos * x2 - W.sin * y2, W.sin * x2 + W.cos * y2, Z⟩

/-- `_warp_times` and `_get_true_anomaly` — `keplerian.py:324-334`: `(sin f, cos f)`. -/
noncomputable def trueAnomaly (t : ℝ) : Fl × Fl :=
  let M := ((t : Fl) - o.t0 - o.tref) * o.n
  match o.ecc with
  | none => (M.sin, M.cos)
  | some p => kep M p.ecc

/-- `keplerian.py:401-404`: the distance. -/
noncomputable def radius (a cosf : Fl) : Fl :=
  match o.ecc with
  | none => a
  | some p => a * (((1 : ℝ) : Fl) - p.ecc ^ 2) / (((1 : ℝ) : Fl) + p.ecc * cosf)

/-- `_get_position(a, t, parallax=None, light_delay=False)` — `keplerian.py:399-409`. -/
noncomputable def positionNow (a : Fl) (t : ℝ) : FlV3 :=
  let f := o.trueAnomaly kep t
  let r := o.radius a f.2
  o.rotate (r * f.2) (r * f.1)

/-- `get_relative_position(t)` — `keplerian.py:517-543`. -/
noncomputable def relativePosition (t : ℝ) : FlV3 := o.positionNow kep (-o.a) t

/-- `_get_velocity(m, t)` — `keplerian.py:566-578`. -/
noncomputable def velocity (m : Fl) (t : ℝ) : FlV3 :=
  let f := o.trueAnomaly kep t
  let K := o.K0 * m
  match o.ecc with
  | none => o.rotate (-K * f.1) (K * f.2)
  | some p => o.rotate (-K * f.1) (K * (f.2 + p.ecc))

/-- `get_radial_velocity(t)` without `K` — `keplerian.py:672-677`; `conv` is the conversion factor. -/
noncomputable def radialVelocity (conv : ℝ) (t : ℝ) : Fl := -(conv : Fl) * (o.velocity kep o.m_planet t).z

end FlOrbit

/-- `exoplanet_core.ops.quad_limbdark_light_curve` on doubles, as a function of `b` and `r`: compiled, hence a parameter. -/
abbrev FlLimbDark := Fl → Fl → Fl

/-- `limb_dark.py:213-222` and `_compute_light_curve`, 234-251, at one time for one planet of radius `r`. -/
noncomputable def fluxF (ld : FlLimbDark) (r_star : Fl) (pos : ℝ → FlV3) (r t : ℝ) : Fl :=
  let p := pos t
  let b := (p.x ^ 2 + p.y ^ 2).sqrt
  if (p.z / r_star).gt (.fin 0) then ld (b / r_star) ((r : Fl) / r_star) else .fin 0

/-- `limb_dark.py:172-226` at one time for one planet; `texp` with the offsets and weights of the stencil. -/
noncomputable def integratedF (ld : FlLimbDark) (r_star : Fl) (pos : ℝ → FlV3) (r t : ℝ) (texp : Option (ℝ × List ℝ × List ℝ)) : Fl :=
  match texp with
  | none => fluxF ld r_star pos r t
  | some (texp, dt, w) => Fl.sum (List.zipWith (fun (d w : ℝ) => Fl.fin w * fluxF ld r_star pos r (t + texp * d)) dt w)

/-- `get_light_curve` for one planet and a list of times — `limb_dark.py:99-232`: with `use_in_transit` only the entries with the indices
`inds = orbit.in_transit(...)` of an array of zeros are set. Shapes are the subject of `Model/LightCurve.lean`. -/
noncomputable def lightCurveF (ld : FlLimbDark) (r_star : Fl) (pos : ℝ → FlV3) (r : ℝ) (t : List ℝ) (texp : Option (ℝ × List ℝ × List ℝ))
    (inds : Option (List ℕ)) : List Fl :=
  match inds with
  | none => t.map fun t => integratedF ld r_star pos r t texp
  | some inds => t.mapIdx fun i t => if i ∈ inds then integratedF ld r_star pos r t texp else .fin 0

end Exo
