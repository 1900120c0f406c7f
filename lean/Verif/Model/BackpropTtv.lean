import Verif.Model.BackpropKepler

/-!
# The graph of the light curve of a `TTVOrbit`

`TTVOrbit(ttvs=[...], transit_inds=[...], ...)` or `TTVOrbit(transit_times=[...], transit_inds=[...], ...)` of one planet, with the other arguments as
in `Verif.Model.BackpropKepler`, followed by `LimbDarkLightCurve(u1, u2).get_light_curve(orbit=orbit, r=r, t=t)` at one time. There are `n` entries
of `ttvs` or `transit_times`, with the labels `inds`.
-/

namespace Exo
open Real

/-- The parameters: those of a `KeplerianOrbit`, and the entries of `ttvs` or `transit_times`. -/
inductive TtvPar (n : ℕ) where
  | kep (p : KepPar)
  | time (i : Fin n)
  deriving DecidableEq

/-- Which of the arguments of a `TTVOrbit` are given. -/
inductive TtvMode where
  /-- `ttvs`, `period` and `t0` -/
  | ttvs
  /-- `transit_times` only -/
  | times
  /-- `transit_times` and `period` -/
  | timesPeriod

namespace TtvMode
open Graph
variable {n : ℕ} (M : TtvMode) (inds : Fin n → ℕ)

/-- `pt.sum` of a vector. -/
def sumG {ι : Type} (l : List (Graph ι)) : Graph ι := l.foldl add (const 0)

/-- `sumx` — `ttv.py:111`. -/
def sumx : ℝ := ((List.ofFn inds).map (fun i : ℕ => (i : ℝ))).sum

/-- `sumx2` — `ttv.py:112`. -/
def sumx2 : ℝ := ((List.ofFn inds).map (fun i : ℕ => (i : ℝ) ^ 2)).sum

/-- `denom` — `ttv.py:115`, a constant. -/
def denom : ℝ := n * sumx2 inds - sumx inds ^ 2

/-- `sumy` — `ttv.py:113`. -/
def sumyG (n : ℕ) : Graph (TtvPar n) := sumG (List.ofFn fun i => input (.time i))

/-- `sumxy` — `ttv.py:114`. -/
def sumxyG : Graph (TtvPar n) := sumG (List.ofFn fun i => mul (const (inds i)) (input (.time i)))

/-- `slope` — `ttv.py:116`. -/
def slopeG : Graph (TtvPar n) := div (sub (mul (const n) (sumxyG inds)) (mul (const (sumx inds)) (sumyG n))) (const (denom inds))

/-- `intercept` — `ttv.py:117`. -/
def interceptG : Graph (TtvPar n) := div (sub (mul (const (sumx2 inds)) (sumyG n)) (mul (const (sumx inds)) (sumxyG inds))) (const (denom inds))

/-- The arguments with which `super().__init__` is called — `ttv.py:125-142`. -/
def parG (p : KepPar) : Graph (TtvPar n) := match M, p with
  | ttvs, p => input (.kep p)
  | _, .t0 => interceptG inds
  | times, .period => slopeG inds
  | _, p => input (.kep p)

/-- `self.ttv_period` — `ttv.py:132`, 145. -/
def ttvPeriodG : Graph (TtvPar n) := match M with
  | ttvs => M.parG inds .period
  | _ => slopeG inds

/-- An entry of `self.transit_times` — `ttv.py:123`, 146-149. -/
def timeG (i : Fin n) : Graph (TtvPar n) := match M with
  | ttvs => add (add (M.parG inds .t0) (mul (M.parG inds .period) (const (inds i)))) (input (.time i))
  | _ => input (.time i)

/-- An entry of `expect` — `ttv.py:154`. -/
def expectG (j : ℕ) : Graph (TtvPar n) := add (M.parG inds .t0) (mul (M.parG inds .period) (const j))

/-- An entry of `self.all_transit_times` — `ttv.py:155-157`. An entry of `expect` that is overwritten by a transit time gets the derivative zero and is left out. -/
def entryG (j : ℕ) : Graph (TtvPar n) :=
  match (List.finRange n).filter (fun i => inds i = j) with
  | [] => M.expectG inds j
  | i :: is => is.foldl (fun x k => overwritten x (M.timeG inds k)) (M.timeG inds i)

/-- `self.all_transit_times` — `ttv.py:152-157`. -/
def allTimesG : List (Graph (TtvPar n)) := (List.range ((List.ofFn inds).max?.getD 0 + 1)).map (M.entryG inds)

/-- `self._bin_edges` — `ttv.py:160-169`. -/
noncomputable def edgesG : List (Graph (TtvPar n)) :=
  let tts := M.allTimesG inds
  [sub (tts.headD (const 0)) (mul (const 0.5) (M.ttvPeriodG inds))] ++ List.zipWith (fun a b => mul (const 0.5) (add a b)) tts.tail tts.dropLast ++
    [add (tts.getLastD (const 0)) (mul (const 0.5) (M.ttvPeriodG inds))]

/-- `self._bin_values` — `ttv.py:170-173`. -/
def valuesG : List (Graph (TtvPar n)) :=
  let tts := M.allTimesG inds
  [tts.headD (const 0)] ++ tts ++ [tts.getLastD (const 0)]

/-- `_warp_times(t)` — `ttv.py:175-187`. -/
noncomputable def warpG (t : ℝ) : Graph (TtvPar n) := sub (const t) (pick (M.edgesG inds).get (M.valuesG inds).get (const t))

/-- The light curve at time `t`. -/
noncomputable def lightCurveG (m : KepMode) (t : ℝ) : Graph (TtvPar n) := m.lightCurveOf (M.parG inds) (M.warpG inds t)

end TtvMode
end Exo
