import Verif.Spec.Ttv
import Verif.Model.TtvSystem

/-!
# Vocabulary for listing and numbering transits differently
-/

namespace Exo

/-- The same transits in another order: `(number, value)` pairs are permuted; every transit is listed once. -/
structure SameTransits (inds : List ℕ) (vals : List ℝ) (inds' : List ℕ) (vals' : List ℝ) : Prop where
  length : inds.length = vals.length
  length' : inds'.length = vals'.length
  perm : (List.zip inds vals).Perm (List.zip inds' vals')
  nodup : inds.Nodup

/-- The attributes of a `TTVOrbit` other than the three lists that are given or computed transit by transit. -/
def Ttv.timing (T : Ttv) : Orbit × ℝ × List ℝ × List ℝ × List ℝ :=
  (T.orbit, T.ttv_period, T.all_transit_times, T.bin_edges, T.bin_values)

/-- The same for several planets. -/
def VTtv.timing (T : VTtv) : VOrbit × Tensor ℝ × List (List ℝ) × List (List ℝ) × List (List ℝ) :=
  (T.orbit, T.ttv_period, T.all_transit_times, T.bin_edges, T.bin_values)

/-- The numbers of the transits: those given, or `0, 1, 2, …`. -/
def TtvArgs.numbers (K : TtvArgs) (l : List ℝ) : List ℕ := K.transit_inds.getD (List.range l.length)

/-- The two sets of arguments differ only in the order in which the transits are listed. -/
structure TtvArgs.SameUpToOrder (K K' : TtvArgs) : Prop where
  base : K'.base = K.base
  delta : K'.delta_log_period = K.delta_log_period
  given : (∃ v v', K.ttvs = some v ∧ K'.ttvs = some v' ∧ SameTransits (K.numbers v) v (K'.numbers v') v') ∨
    (K.ttvs = none ∧ K'.ttvs = none ∧ ∃ v v', K.transit_times = some v ∧ K'.transit_times = some v' ∧
      SameTransits (K.numbers v) v (K'.numbers v') v')

/-- The same for several planets: planet by planet, the transits are listed in another order. -/
structure VTtvArgs.SameUpToOrder (K K' : VTtvArgs) : Prop where
  base : K'.base = K.base
  delta : K'.delta_log_period = K.delta_log_period
  given : (∃ i i' v v', K.ttvs = some v ∧ K'.ttvs = some v' ∧ K.transit_inds = some i ∧ K'.transit_inds = some i' ∧
      i.length = v.length ∧ i'.length = v.length ∧ v'.length = v.length ∧
      ∀ p, p < v.length → SameTransits (i.getD p []) (v.getD p []) (i'.getD p []) (v'.getD p [])) ∨
    (K.ttvs = none ∧ K'.ttvs = none ∧
      ∃ i i' v v', K.transit_times = some v ∧ K'.transit_times = some v' ∧ K.transit_inds = some i ∧ K'.transit_inds = some i' ∧
        i.length = v.length ∧ i'.length = v.length ∧ v'.length = v.length ∧
        ∀ p, p < v.length → SameTransits (i.getD p []) (v.getD p []) (i'.getD p []) (v'.getD p []))

/-- At time `t` the two orbits have the same positions, angles, velocities, accelerations and radial velocity (without light delay),
and the same decision whether the time is in transit. -/
structure SameAt (C : Consts) (o o' : Orbit) (t : ℝ) : Prop where
  planet : ∀ px, o.planetPosition C t px = o'.planetPosition C t px
  star : ∀ px, o.starPosition C t px = o'.starPosition C t px
  relative : ∀ px, o.relativePosition C t px = o'.relativePosition C t px
  angles : ∀ px, o.relativeAngles C t px = o'.relativeAngles C t px
  planet_v : o.planetVelocity t = o'.planetVelocity t
  star_v : o.starVelocity t = o'.starVelocity t
  relative_v : o.relativeVelocity t = o'.relativeVelocity t
  planet_a : o.planetAcceleration t = o'.planetAcceleration t
  star_a : o.starAcceleration t = o'.starAcceleration t
  relative_a : o.relativeAcceleration t = o'.relativeAcceleration t
  rv : ∀ K u, o.radialVelocity C t K u = o'.radialVelocity C t K u
  transits : ∀ cp r texp, inTransit cp [(o, r)] [t] texp = inTransit cp [(o', r)] [t] texp

end Exo
