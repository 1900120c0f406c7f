import Verif.Model.System

/-!
# Vocabulary for systems of several planets

`np` is the number of planets. An array argument is shared by all planets (shape `()` or `(1,)`) or has one entry per planet
(shape `(np,)`).
-/

namespace Exo

/-- The array has no planet axis, or a planet axis of length `1` or `np`. -/
def Tensor.FitsPlanets (np : ℕ) (x : Tensor ℝ) : Prop := x.shape = [] ∨ x.shape = [1] ∨ x.shape = [np]

/-- The entry of planet `p`. -/
def Tensor.ofPlanet (x : Tensor ℝ) (p : ℕ) : ℝ :=
  match x.shape with
  | [] => x.get []
  | [1] => x.get [0]
  | _ => x.get [p]

/-- The argument of planet `p`; the unit label is that of the array. -/
def TQ.ofPlanet (q : TQ) (p : ℕ) : Q := ⟨q.val.ofPlanet p, q.unit⟩

/-- The keyword arguments of planet `p`. -/
def VArgs.ofPlanet (A : VArgs) (p : ℕ) : Args where
  period := A.period.map (TQ.ofPlanet · p)
  a := A.a.map (TQ.ofPlanet · p)
  t0 := A.t0.map (TQ.ofPlanet · p)
  t_periastron := A.t_periastron.map (TQ.ofPlanet · p)
  incl := A.incl.map (TQ.ofPlanet · p)
  b := A.b.map (TQ.ofPlanet · p)
  duration := A.duration.map (TQ.ofPlanet · p)
  ecc := A.ecc.map (TQ.ofPlanet · p)
  omega := A.omega.map (TQ.ofPlanet · p)
  sin_omega := A.sin_omega.map (TQ.ofPlanet · p)
  cos_omega := A.cos_omega.map (TQ.ofPlanet · p)
  Omega := A.Omega.map (TQ.ofPlanet · p)
  m_planet := A.m_planet.map (TQ.ofPlanet · p)
  m_star := A.m_star.map (TQ.ofPlanet · p)
  r_star := A.r_star.map (TQ.ofPlanet · p)
  rho_star := A.rho_star.map (TQ.ofPlanet · p)
  ror := A.ror.map (TQ.ofPlanet · p)
  m_planet_units := A.m_planet_units
  rho_star_units := A.rho_star_units

/-- Every array that is passed fits a system of `np` planets. -/
def VArgs.FitsPlanets (np : ℕ) (A : VArgs) : Prop :=
  ∀ x : Option TQ, x ∈ [A.period, A.a, A.t0, A.t_periastron, A.incl, A.b, A.duration, A.ecc, A.omega, A.sin_omega, A.cos_omega,
      A.Omega, A.m_planet, A.m_star, A.r_star, A.rho_star, A.ror] →
    ∀ q : TQ, x = some q → q.val.FitsPlanets np

/-- An index into an array of shape `s`, without the entries that belong to axes of length one. -/
def dropUnit : List ℕ → List ℕ → List ℕ
  | n :: s, i :: idx => if n = 1 then dropUnit s idx else i :: dropUnit s idx
  | _, _ => []

/-- Some argument gives the period of each planet: `period`, or `a` when `period` is not given, has shape `(np,)`. -/
def VArgs.PerPlanet (np : ℕ) (A : VArgs) : Prop :=
  ∃ q : TQ, (A.period = some q ∨ A.period = none ∧ A.a = some q) ∧ q.val.shape = [np]

/-- `T` is the array of the values `f i p`, `i` an index into the array of times (shape `s`) and `p < np` a planet: its shape is
`s + (m,)` without the axes of length one. -/
def Tensor.IsTable (T : Tensor ℝ) (s : List ℕ) (np m : ℕ) (f : List ℕ → ℕ → ℝ) : Prop :=
  T.shape = squeezeShape (s ++ [m]) ∧
  ∀ i p, InShape i s → p < np → T.get (dropUnit (s ++ [m]) (i ++ [p])) = f i p

/-- The graph evaluates to the array of the values `f i p`. The length `m` of the planet axis is `np`, or `1` when (`¬ full`) no
argument with a planet axis enters. -/
def Gr.Shows (g : Gr) (s : List ℕ) (np : ℕ) (full : Prop) (f : List ℕ → ℕ → ℝ) : Prop :=
  ∃ T m, g.eval = .ok T ∧ (m = np ∨ m = 1 ∧ ¬ full) ∧ T.IsTable s np m f

/-- The same for vectors in space. -/
def V3G.Shows (v : V3G) (s : List ℕ) (np : ℕ) (full : Prop) (f : List ℕ → ℕ → V3) : Prop :=
  v.x.Shows s np full (fun i p => (f i p).x) ∧ v.y.Shows s np full (fun i p => (f i p).y) ∧
  v.z.Shows s np full (fun i p => (f i p).z)

/-- The graph of an attribute evaluates to an array that fits the system, and the entry of planet `p` is `f p`. -/
def Gr.Holds (g : Gr) (np : ℕ) (f : ℕ → ℝ) : Prop := ∃ T, g.eval = .ok T ∧ T.FitsPlanets np ∧ ∀ p < np, T.ofPlanet p = f p

/-- The attributes of the orbit `O` with vector arguments are those of the single-planet orbits `os p`. -/
structure VOrbit.IsSystemOf (O : VOrbit) (np : ℕ) (os : ℕ → Orbit) : Prop where
  a : O.a.Holds np fun p => (os p).a
  period : O.period.Holds np fun p => (os p).period
  rho_star : O.rho_star.Holds np fun p => (os p).rho_star
  r_star : O.r_star.Holds np fun p => (os p).r_star
  m_star : O.m_star.Holds np fun p => (os p).m_star
  m_planet : O.m_planet.Holds np fun p => (os p).m_planet
  m_total : O.m_total.Holds np fun p => (os p).m_total
  n : O.n.Holds np fun p => (os p).n
  a_star : O.a_star.Holds np fun p => (os p).a_star
  a_planet : O.a_planet.Holds np fun p => (os p).a_planet
  K0 : O.K0.Holds np fun p => (os p).K0
  M0 : O.M0.Holds np fun p => (os p).M0
  dcosidb : O.dcosidb.Holds np fun p => (os p).dcosidb
  b : O.b.Holds np fun p => (os p).b
  cos_incl : O.cos_incl.Holds np fun p => (os p).cos_incl
  incl : O.incl.Holds np fun p => (os p).incl
  sin_incl : O.sin_incl.Holds np fun p => (os p).sin_incl
  t0 : O.t0.Holds np fun p => (os p).t0
  t_periastron : O.t_periastron.Holds np fun p => (os p).t_periastron
  tref : O.tref.Holds np fun p => (os p).tref
  Omega_none : O.Omega = none → ∀ p < np, (os p).Omega = none
  Omega_some : ∀ W, O.Omega = some W → ∃ w : ℕ → ℝ, (∀ p < np, (os p).Omega = some (w p)) ∧ W.Holds np w
  ecc_none : O.ecc = none → ∀ p < np, (os p).ecc = none
  ecc_some : ∀ E, O.ecc = some E → ∃ e : ℕ → EccParams, (∀ p < np, (os p).ecc = some (e p)) ∧
    E.ecc.Holds np (fun p => (e p).ecc) ∧ E.omega.Holds np (fun p => (e p).omega) ∧
    E.cos_omega.Holds np (fun p => (e p).cos_omega) ∧ E.sin_omega.Holds np (fun p => (e p).sin_omega)
  jac_none : O.durJac = none → ∀ p < np, (os p).durJac = none
  jac_some : ∀ J, O.durJac = some J → ∃ j : ℕ → DurationJac, (∀ p < np, (os p).durJac = some (j p)) ∧
    J.a.Holds np (fun p => (j p).a) ∧ J.a_star.Holds np (fun p => (j p).a_star) ∧
    J.a_planet.Holds np (fun p => (j p).a_planet) ∧ J.rho_star.Holds np (fun p => (j p).rho_star)

end Exo
