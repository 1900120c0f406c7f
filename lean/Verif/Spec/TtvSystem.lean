import Verif.Spec.System
import Verif.Model.TtvSystem

/-!
# Vocabulary for `TTVOrbit` with several planets
-/

namespace Exo

/-- The keyword arguments of planet `p`. -/
def VTtvArgs.ofPlanet (K : VTtvArgs) (p : ℕ) : TtvArgs where
  base := K.base.ofPlanet p
  ttvs := K.ttvs.map (·.getD p [])
  transit_times := K.transit_times.map (·.getD p [])
  transit_inds := K.transit_inds.map (·.getD p [])
  delta_log_period := K.delta_log_period.map (·.ofPlanet p)

/-- Every list has one entry per planet and every array fits a system of `np` planets. -/
structure VTtvArgs.FitsPlanets (np : ℕ) (K : VTtvArgs) : Prop where
  base : K.base.FitsPlanets np
  ttvs : ∀ l, K.ttvs = some l → l.length = np
  transit_times : ∀ l, K.transit_times = some l → l.length = np
  transit_inds : ∀ l, K.transit_inds = some l → l.length = np
  delta_log_period : ∀ d, K.delta_log_period = some d → d.FitsPlanets np

/-- The arrays that the constructor indexes by planet have a planet axis of full length: the period (or the semi-major axis it is
computed from) and, with `ttvs`, also `t0`. -/
structure VTtvArgs.PerPlanet (np : ℕ) (K : VTtvArgs) : Prop where
  with_ttvs : K.ttvs ≠ none → K.base.PerPlanet np ∧ ∀ q, K.base.t0 = some q → q.val.shape = [np]
  with_times : K.ttvs = none → ∀ q, K.base.period = some q → q.val.shape = [np]

/-- Planet `p` of the orbit `V` has the timing attributes of the single-planet orbit `T`. -/
structure VTtv.HasPlanet (V : VTtv) (p : ℕ) (T : Ttv) : Prop where
  ttv_period : V.ttv_period.ofPlanet p = T.ttv_period
  transit_times : V.transit_times[p]? = some T.transit_times
  ttvs : V.ttvs[p]? = some T.ttvs
  transit_inds : V.transit_inds[p]? = some T.transit_inds
  all_transit_times : V.all_transit_times[p]? = some T.all_transit_times
  bin_edges : V.bin_edges[p]? = some T.bin_edges
  bin_values : V.bin_values[p]? = some T.bin_values

end Exo
