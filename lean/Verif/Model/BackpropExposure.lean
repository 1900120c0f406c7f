import Verif.Model.BackpropKepler

/-!
# The light curve with an exposure time as a graph

The graph of `get_light_curve` with `texp` for one planet on a `KeplerianOrbit`, as a function of the parameters of the orbit, the radius of the planet and the exposure time.
`oversample` and `order` are Python numbers, the offsets and weights NumPy arrays, that is constants of the graph.
-/

namespace Exo

/-- The parameters of a light curve with an exposure time. -/
inductive ExpPar where
  | kep (p : KepPar)
  | texp
  deriving DecidableEq

namespace Exposure
open Graph

/-- An entry of `tgrid` — `limb_dark.py:199-205` — warped by the orbit, `keplerian.py:324-327`. -/
def clock (t d : ℝ) : Graph ExpPar := sub (add (const t) (mul (input .texp) (const d))) (input (.kep .t0))

/-- An entry of `stencil * lc` — `limb_dark.py:213-226`. -/
noncomputable def sampleG (m : KepMode) (t d w : ℝ) : Graph ExpPar := mul (const w) (m.lightCurveOf (fun p => input (.kep p)) (clock t d))

/-- `pt.sum(stencil * lc, axis=t.ndim)` — `limb_dark.py:226`, for the offsets and weights `S`. -/
noncomputable def averageG (m : KepMode) (S : List ℝ × List ℝ) (t : ℝ) : Graph ExpPar := (List.zipWith (sampleG m t) S.1 S.2).foldl add (const 0)

/-- An entry of `transit_model` — `limb_dark.py:166-170`, 228-230: the entries whose indices `in_transit` returns are those of `lc`, the others zero. The indices are integers
(`pt.arange(...)[mask]`, `keplerian.py:773-777`) without derivative. -/
noncomputable def selectedG (inds : List ℕ) (i : ℕ) (G : Graph ExpPar) : Graph ExpPar := if i ∈ inds then G else const 0

end Exposure
end Exo
