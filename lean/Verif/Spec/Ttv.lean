import Verif.Model.Ttv

/-!
# Vocabulary for transit times
-/

namespace Exo

/-- The sum of squared residuals of the linear ephemeris `t0 + p * i` (transit number `i`). -/
noncomputable def ssr (inds : List ℕ) (times : List ℝ) (t0 p : ℝ) : ℝ :=
  ((List.zip inds times).map (fun q => (q.2 - (t0 + p * (q.1 : ℝ))) ^ 2)).sum

/-- `s` is the entry of `l` nearest to `t`; of two equally near entries, the earlier one. -/
def IsNearest (l : List ℝ) (t s : ℝ) : Prop :=
  s ∈ l ∧ ∀ u ∈ l, |t - s| ≤ |t - u| ∧ (|t - s| = |t - u| → s ≤ u)

/-- The `KeplerianOrbit` with the same attributes (the object before `_warp_times` is overridden). -/
noncomputable def Ttv.kepler (T : Ttv) : Orbit := { T.orbit with warp := fun t => t - T.orbit.t0 }

/-- The two orbits give the same positions, angles, velocities, accelerations, radial velocities at every time (without
light delay) and the same transits for every planet radius, exposure time and solver. -/
structure SameObservables (C : Consts) (o o' : Orbit) : Prop where
  planet : ∀ t px, o.planetPosition C t px = o'.planetPosition C t px
  star : ∀ t px, o.starPosition C t px = o'.starPosition C t px
  relative : ∀ t px, o.relativePosition C t px = o'.relativePosition C t px
  angles : ∀ t px, o.relativeAngles C t px = o'.relativeAngles C t px
  planet_v : ∀ t, o.planetVelocity t = o'.planetVelocity t
  star_v : ∀ t, o.starVelocity t = o'.starVelocity t
  relative_v : ∀ t, o.relativeVelocity t = o'.relativeVelocity t
  planet_a : ∀ t, o.planetAcceleration t = o'.planetAcceleration t
  star_a : ∀ t, o.starAcceleration t = o'.starAcceleration t
  relative_a : ∀ t, o.relativeAcceleration t = o'.relativeAcceleration t
  rv : ∀ t K u, o.radialVelocity C t K u = o'.radialVelocity C t K u
  transits : ∀ cp r ts texp ld, inTransit cp [(o, r)] ts texp ld = inTransit cp [(o', r)] ts texp ld

end Exo
