import Verif.Model.Keplerian

/-!
# Model of `KeplerianOrbit._get_position_and_velocity` — src/exoplanet/orbits/keplerian.py:336-378

The planets of a system are given by a list of orbits (the entries of the parameter vectors).
-/

namespace Exo

namespace Orbit
variable (o : Orbit)

/-- `keplerian.py:337-348`, one planet at one time: position on the orbit of unit semimajor axis. -/
noncomputable def unitPosition (t : ℝ) : V3 :=
  let f := o.trueAnomaly t
  let r := match o.ecc with
    | none => 1
    | some p => (1 - p.ecc ^ 2) / (1 + p.ecc * f.2)
  o.rotate (r * f.2) (r * f.1)

/-- `keplerian.py:337-346`, one planet at one time: velocity per unit mass. -/
noncomputable def unitVelocity (t : ℝ) : V3 :=
  let f := o.trueAnomaly t
  match o.ecc with
  | none => o.rotate (-o.K0 * f.1) (o.K0 * f.2)
  | some p => o.rotate (-o.K0 * f.1) (o.K0 * (f.2 + p.ecc))

end Orbit

/-- Multiplication of a vector by a number (broadcasting over the last axis). -/
def V3.times (v : V3) (c : ℝ) : V3 := ⟨c * v.x, c * v.y, c * v.z⟩

/-- `pt.sum(..., axis=0)` over a list of vectors. -/
def V3.total : List V3 → V3
  | [] => ⟨0, 0, 0⟩
  | v :: vs => ⟨v.x + (V3.total vs).x, v.y + (V3.total vs).y, v.z + (V3.total vs).z⟩

/-- `keplerian.py:373-376`: the scale factor. -/
noncomputable def parallaxScale (C : Consts) : Option ℝ → ℝ
  | none => 1
  | some p => p * C.auPerRsun

/-- `keplerian.py:336-378` for a scalar time: `pos` has shape `(n, 3)`, so the sum over axis 0 runs over the planets and the result has the
rows star, planet 1, ..., planet n. Positions. -/
noncomputable def statePositions (C : Consts) (os : List Orbit) (t : ℝ) (parallax : Option ℝ) : List V3 :=
  let rows := V3.total (os.map fun o => (o.unitPosition t).times o.a_star) :: os.map fun o => (o.unitPosition t).times o.a_planet
  rows.map fun v => v.times (parallaxScale C parallax)

/-- The same for the velocities. -/
noncomputable def stateVelocities (C : Consts) (os : List Orbit) (t : ℝ) (parallax : Option ℝ) : List V3 :=
  let rows := V3.total (os.map fun o => (o.unitVelocity t).times o.m_planet) :: os.map fun o => (o.unitVelocity t).times (-o.m_star)
  rows.map fun v => v.times (parallaxScale C parallax)

/-- `keplerian.py:336-378` for a vector of times: `pos` has shape `(T, n, 3)`, so the sum over axis 0 runs over the *times*, and the result has
shape `(T + 1, n, 3)`. Positions. -/
noncomputable def statePositionsTimes (C : Consts) (os : List Orbit) (ts : List ℝ) (parallax : Option ℝ) : List (List V3) :=
  let rows := (os.map fun o => V3.total (ts.map fun t => (o.unitPosition t).times o.a_star)) ::
    ts.map fun t => os.map fun o => (o.unitPosition t).times o.a_planet
  rows.map fun r => r.map fun v => v.times (parallaxScale C parallax)

end Exo
