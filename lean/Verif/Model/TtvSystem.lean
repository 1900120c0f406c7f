import Verif.Model.System
import Verif.Model.Ttv

/-!
# Model of `TTVOrbit` with several planets — `src/exoplanet/orbits/ttv.py:35-187`

Lists have one entry per planet, as in the source; the attributes of the underlying `KeplerianOrbit` are the graphs of
`Verif/Model/System.lean`. The constructor of the source builds graphs; here its own computations are carried out at once, so
that errors which PyTensor reports when a graph is evaluated are reported by the constructor.
-/

namespace Exo
open Real Classical

/-- `x[i]` for a tensor: `IndexError` for a scalar ("too many indices for array") and for an index that is too large. Tensors
with more than one axis are not covered. -/
def Tensor.entry (x : Tensor ℝ) (i : ℕ) : Except PyErr ℝ :=
  match x.shape with
  | [n] => if i < n then .ok (x.get [i]) else .error .indexError
  | _ => .error .indexError

/-- `l[i]` for a Python list. -/
def listItem {α : Type} (l : List α) (i : ℕ) : Except PyErr α :=
  match l[i]? with
  | some x => .ok x
  | none => .error .indexError

/-- A loop or list comprehension over `range(n)`: the first exception ends it. -/
def eachPlanet {α : Type} (n : ℕ) (f : ℕ → Except PyErr α) : Except PyErr (List α) := (List.range n).mapM f

/-- The keyword arguments of `TTVOrbit` (`ttv.py:71-74`, 134-137). -/
structure VTtvArgs where
  base : VArgs := {}
  ttvs : Option (List (List ℝ)) := none
  transit_times : Option (List (List ℝ)) := none
  transit_inds : Option (List (List ℕ)) := none
  delta_log_period : Option (Tensor ℝ) := none

/-- The attributes of a `TTVOrbit`. -/
structure VTtv where
  orbit : VOrbit
  ttv_period : Tensor ℝ
  transit_times : List (List ℝ)
  ttvs : List (List ℝ)
  transit_inds : List (List ℕ)
  all_transit_times : List (List ℝ)
  bin_edges : List (List ℝ)
  bin_values : List (List ℝ)

/-- The body of the loop of `ttv.py:153-157`. -/
noncomputable def allTimesOf (t0 period : Tensor ℝ) (inds : List (List ℕ)) (times : List (List ℝ)) (i : ℕ) : Except PyErr (List ℝ) :=
  match t0.entry i with
  | .error e => .error e
  | .ok t0i =>
  match period.entry i with
  | .error e => .error e
  | .ok pi =>
  match listItem times i with
  | .error e => .error e
  | .ok ts => allTransitTimes t0i pi (inds.getD i []) ts

/-- The body of the list comprehension of `ttv.py:160-169`. -/
noncomputable def edgesOf (ttv_period : Tensor ℝ) (tts : List (List ℝ)) (i : ℕ) : Except PyErr (List ℝ) :=
  match ttv_period.entry i with
  | .error e => .error e
  | .ok pi => .ok (binEdges (tts.getD i []) pi)

/-- The body of the list comprehension of `ttv.py:146-149`. -/
noncomputable def timesOf (t0 period : Tensor ℝ) (inds : List (List ℕ)) (ttvs : List (List ℝ)) (i : ℕ) : Except PyErr (List ℝ) :=
  match t0.entry i with
  | .error e => .error e
  | .ok t0i =>
  match period.entry i with
  | .error e => .error e
  | .ok pi =>
  match listItem inds i with
  | .error e => .error e
  | .ok ind =>
    if ind.length ≠ (ttvs.getD i []).length then .error .shapeMismatch
    else .ok (List.zipWith (fun (k : ℕ) ttv => t0i + pi * (k : ℝ) + ttv) ind (ttvs.getD i []))

/-- `ttv.py:151-173` (and 175-187: the lookups). `t0` and `period` are the values of `self.t0` and `self.period`. -/
noncomputable def ttvFinishV (o : VOrbit) (t0 period ttv_period : Tensor ℝ) (inds : List (List ℕ)) (times ttvs : List (List ℝ)) :
    Except PyErr VTtv :=
  -- 151-157
  match eachPlanet inds.length (allTimesOf t0 period inds times) with
  | .error e => .error e
  | .ok tts =>
  -- 160-169
  match eachPlanet tts.length (edgesOf ttv_period tts) with
  | .error e => .error e
  | .ok edges =>
  -- 170-173
  let values := tts.map binValues
  .ok { orbit := { o with dts := some ((List.range ttvs.length).map fun i => modelDt (edges.getD i []) (values.getD i [])) }
        ttv_period := ttv_period, transit_times := times, ttvs := ttvs, transit_inds := inds
        all_transit_times := tts, bin_edges := edges, bin_values := values }

/-- The transit numbers of planet `i`: `ttv.py:81-89` and 101-107. -/
def planetInds (transit_inds : Option (List (List ℕ))) (i n : ℕ) : Except PyErr (List ℕ) :=
  match transit_inds with
  | none => .ok (List.range n)
  | some l => listItem l i

/-- `ttv.py:100-122` for planet `i`: numbers, slope, intercept; `none` if the regression is `0 / 0`. -/
noncomputable def planetFit (transit_inds : Option (List (List ℕ))) (times : List (List ℝ)) (i : ℕ) :
    Except PyErr (List ℕ × Option (ℝ × ℝ)) :=
  match planetInds transit_inds i (times.getD i []).length with
  | .error e => .error e
  | .ok inds =>
    if inds.length ≠ (times.getD i []).length then .error .shapeMismatch
    else .ok (inds, linFit inds (times.getD i []))

/-- `ttv.py:132-140`: the period that sets the transit shape. -/
noncomputable def VTtvArgs.shapePeriod (K : VTtvArgs) (slopes : List ℝ) : Except PyErr TQ :=
  match K.base.period with
  | some p => .ok p
  | none =>
    match K.delta_log_period with
    | none => .ok ⟨.ofList slopes 0, none⟩
    | some d =>
      match ((Tensor.ofList slopes 0).map Real.log).zipB (· + ·) d with
      | .error e => .error e
      | .ok x => .ok ⟨x.map Real.exp, none⟩

/-- `self.t0` and `self.period` evaluated. -/
def evalTimes (o : VOrbit) : Except PyErr (Tensor ℝ × Tensor ℝ) :=
  match o.t0.eval with
  | .error e => .error e
  | .ok t0 =>
    match o.period.eval with
    | .error e => .error e
    | .ok p => .ok (t0, p)

/-- `TTVOrbit.__init__` — `ttv.py:71-173`. `.ok none`: the regression of some planet is `0 / 0`, its timing attributes are NaN, and
nothing more is said. Vectors of different lengths are a shape error (length-one vectors would broadcast; not modelled). -/
noncomputable def ttvInitV (C : Consts) (K : VTtvArgs) : Except PyErr (Option VTtv) :=
  match K.ttvs, K.transit_times with
  -- 75-78
  | none, none => .error (.valueError "one of 'ttvs' or 'transit_times' must be defined")
  | some ttvs, _ =>
    -- 79-89
    let inds := K.transit_inds.getD (ttvs.map fun l => List.range l.length)
    -- 142
    match keplerianInitV C K.base with
    | .error e => .error e
    | .ok o =>
    match evalTimes o with
    | .error e => .error e
    | .ok (t0, period) =>
    -- 144-149
    match eachPlanet ttvs.length (timesOf t0 period inds ttvs) with
    | .error e => .error e
    | .ok times => (ttvFinishV o t0 period period inds times ttvs).map some
  | none, some times =>
    -- 91-122
    match eachPlanet times.length (planetFit K.transit_inds times) with
    | .error e => .error e
    | .ok fits =>
    -- `pt.stack([])`
    if fits = [] then .error (.valueError "no tensor arguments provided") else
    if fits.any (fun f => f.2.isNone) then .ok none else
    let slopes := fits.map (fun f => (f.2.getD (0, 0)).1)
    let intercepts := fits.map (fun f => (f.2.getD (0, 0)).2)
    let ttvs := List.zipWith (fun (f : List ℕ × Option (ℝ × ℝ)) ts =>
      List.zipWith (fun (k : ℕ) y => y - ((f.2.getD (0, 0)).2 + (k : ℝ) * (f.2.getD (0, 0)).1)) f.1 ts) fits times
    -- 124-140
    match K.shapePeriod slopes with
    | .error e => .error e
    | .ok p =>
    match keplerianInitV C { K.base with t0 := some ⟨.ofList intercepts 0, none⟩, period := some p } with
    | .error e => .error e
    | .ok o =>
    match evalTimes o with
    | .error e => .error e
    | .ok (t0, period) =>
      (ttvFinishV o t0 period (.ofList slopes 0) (fits.map Prod.fst) times ttvs).map some

end Exo
