import Verif.Model.Rounded

/-!
# Any orbit in rounded arithmetic

`Verif.Model.Rounded` has circular orbits with a given `t0` and without `Omega`. Here every operation of `src/exoplanet/orbits/keplerian.py` between
the stored attributes and the position is rounded, for circular and eccentric orbits, with `t0` or `t_periastron`, with or without `Omega`. The
compiled operation that solves Kepler's equation is a parameter. Overflow, underflow and the reordering of operations by the compiler of the graph
are not modelled.
-/

namespace Exo
open Real

namespace Rounding
variable (ρ : Rounding)

/-- `M0` of an eccentric orbit — `keplerian.py:205-210`. `atan2F` is the `arctan2` of the C library. -/
noncomputable def m0Ecc (atan2F : ℝ → ℝ → ℝ) (p : EccParams) : ℝ :=
  let opsw := ρ.rnd (1 + p.sin_omega)
  let E0 := ρ.rnd (2 * atan2F (ρ.rnd (ρ.rnd √(ρ.rnd (1 - p.ecc)) * p.cos_omega)) (ρ.rnd (ρ.rnd √(ρ.rnd (1 + p.ecc)) * opsw)))
  ρ.rnd (E0 - ρ.rnd (p.ecc * ρ.sinF E0))

/-- `M0` — `keplerian.py:184`, 205-210. (Adding the zeros of line 184 changes nothing.) -/
noncomputable def m0 (atan2F : ℝ → ℝ → ℝ) (o : Orbit) : ℝ :=
  match o.ecc with
  | none => ρ.rnd (0.5 * ρ.piF)
  | some p => ρ.m0Ecc atan2F p

/-- `(t0, tref)` — `keplerian.py:272-279`, from the attribute that was given (`tp`: whether that is `t_periastron`) and the stored `M0`. -/
noncomputable def epoch (tp : Bool) (M0 : ℝ) (o : Orbit) : ℝ × ℝ :=
  if tp then
    let t0 := ρ.rnd (o.t_periastron + ρ.rnd (M0 / ρ.n o.period))
    (t0, ρ.rnd (o.t_periastron - t0))
  else
    let t_periastron := ρ.rnd (o.t0 - ρ.rnd (M0 / ρ.n o.period))
    (o.t0, ρ.rnd (t_periastron - o.t0))

/-- `_warp_times` and the first line of `_get_true_anomaly` — `keplerian.py:324-330`. -/
noncomputable def meanAnomalyAt (ep : ℝ × ℝ) (P t : ℝ) : ℝ := ρ.rnd (ρ.rnd (ρ.rnd (t - ep.1) - ep.2) * ρ.n P)

/-- `_rotate_vector` — `keplerian.py:283-322`; `cos_Omega` and `sin_Omega` are those of lines 178-179. -/
noncomputable def rotateAny (o : Orbit) (x y : ℝ) : V3 :=
  let x1 := match o.ecc with | none => x | some p => ρ.rnd (ρ.rnd (p.cos_omega * x) - ρ.rnd (p.sin_omega * y))
  let y1 := match o.ecc with | none => y | some p => ρ.rnd (ρ.rnd (p.sin_omega * x) + ρ.rnd (p.cos_omega * y))
  let y2 := ρ.rnd (o.cos_incl * y1)
  let Z := ρ.rnd (-o.sin_incl * y1)
  match o.Omega with
  | none => ⟨x1, y2, Z⟩
  | some W => ⟨ρ.rnd (ρ.rnd (ρ.cosF W * x1) - ρ.rnd (ρ.sinF W * y2)), ρ.rnd (ρ.rnd (ρ.sinF W * x1) + ρ.rnd (ρ.cosF W * y2)), Z⟩

/-- `_get_true_anomaly` from the mean anomaly — `keplerian.py:331-334`; `kep` is `ops.kepler`. -/
noncomputable def anomalyAny (kep : ℝ → ℝ → ℝ × ℝ) (o : Orbit) (M : ℝ) : ℝ × ℝ :=
  match o.ecc with
  | none => (ρ.sinF M, ρ.cosF M)
  | some p => kep M p.ecc

/-- The distance `r` of `keplerian.py:400-403`. -/
noncomputable def radiusAny (o : Orbit) (a cosf : ℝ) : ℝ :=
  match o.ecc with
  | none => a
  | some p => ρ.rnd (ρ.rnd (a * ρ.rnd (1 - ρ.rnd (p.ecc ^ 2))) / ρ.rnd (1 + ρ.rnd (p.ecc * cosf)))

/-- `get_relative_position(t)` — `keplerian.py:399-409`, 517-543, for the mean anomaly `M`. The attributes `a`, `ecc`, `sin_omega`, `cos_omega`,
`cos_incl`, `sin_incl` are those stored. -/
noncomputable def positionFrom (kep : ℝ → ℝ → ℝ × ℝ) (o : Orbit) (M : ℝ) : V3 :=
  let f := ρ.anomalyAny kep o M
  let r := ρ.radiusAny o (-o.a) f.2
  ρ.rotateAny o (ρ.rnd (r * f.2)) (ρ.rnd (r * f.1))

/-- The mean anomaly at `t`. -/
noncomputable def meanAnomalyAny (tp : Bool) (M0 : ℝ) (o : Orbit) (t : ℝ) : ℝ := ρ.meanAnomalyAt (ρ.epoch tp M0 o) o.period t

/-- `get_relative_position(t)`. -/
noncomputable def positionAny (kep : ℝ → ℝ → ℝ × ℝ) (tp : Bool) (M0 : ℝ) (o : Orbit) (t : ℝ) : V3 :=
  ρ.positionFrom kep o (ρ.meanAnomalyAny tp M0 o t)

/-- The mean anomaly at `t` of the orbit that was built from the arguments `A`. -/
noncomputable def computedMeanAnomaly (atan2F : ℝ → ℝ → ℝ) (A : Args) (o : Orbit) (t : ℝ) : ℝ :=
  ρ.meanAnomalyAny A.t_periastron.isSome (ρ.m0 atan2F o) o t

/-- `get_relative_position(t)` of the orbit that was built from the arguments `A`. -/
noncomputable def computedPosition (kep : ℝ → ℝ → ℝ × ℝ) (atan2F : ℝ → ℝ → ℝ) (A : Args) (o : Orbit) (t : ℝ) : V3 :=
  ρ.positionAny kep A.t_periastron.isSome (ρ.m0 atan2F o) o t

end Rounding
end Exo
