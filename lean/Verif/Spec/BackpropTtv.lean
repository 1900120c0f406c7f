import Verif.Model.BackpropTtv
import Verif.Model.Ttv
import Verif.Spec.BackpropKepler

/-!
# Vocabulary of the properties of computed gradients of light curves of a `TTVOrbit`
-/

namespace Exo
open Real

/-- The arguments of the constructor of the `TTVOrbit`. -/
noncomputable def TtvMode.args {n : ℕ} (M : TtvMode) (m : KepMode) (inds : Fin n → ℕ) (q : TtvPar n → ℝ) : TtvArgs :=
  let A := m.args fun p => q (.kep p)
  let times := some (List.ofFn fun i => q (.time i))
  match M with
  | ttvs => { base := A, ttvs := times, transit_inds := some (List.ofFn inds) }
  | .times => { base := { A with t0 := none, period := none }, transit_times := times, transit_inds := some (List.ofFn inds) }
  | timesPeriod => { base := { A with t0 := none }, transit_times := times, transit_inds := some (List.ofFn inds) }

/-- The parameters of the `KeplerianOrbit` that has the shape of the transits. -/
noncomputable def Ttv.kepPars {n : ℕ} (T : Ttv) (q : TtvPar n → ℝ) : KepPar → ℝ
  | .period => T.orbit.period
  | .t0 => T.orbit.t0
  | p => q (.kep p)

end Exo
