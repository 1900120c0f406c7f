import Verif.Model.System
import Verif.Model.InTransit
import Verif.Model.LightCurve

/-!
# Light curves of orbits with vector arguments

`in_transit` (`orbits/keplerian.py:708-777`) and `get_light_curve` (`light_curves/limb_dark.py:99-232`) once more, for the orbit of
`Verif/Model/System.lean`, whose attributes are graphs. The lazy evaluation of `ifelse` (`keplerian.py:771-775`) is not modelled: a shape
error in the mask is raised whatever the flags are.
-/

namespace Exo
open Real Classical

/-- The entry of `x` at the position, in C order, that `idx` has in an array of shape `s`. -/
def Tensor.flatAt {α : Type} (x : Tensor α) (s idx : List ℕ) : α := x.get (Tensor.unravel x.shape (Tensor.ravel s idx))

/-- `ops.contact_points` on seven arrays (`keplerian.py:744-753`). The compiled operation is not in the repository. It is modelled as
working on the entries in C order, which needs arrays with equally many entries; the results have the shape of the first argument. -/
noncomputable def contactArrays (cp : ContactOp) (a e cw sw ci si L : Tensor ℝ) : Except PyErr (Tensor Contact) :=
  if e.size = a.size ∧ cw.size = a.size ∧ sw.size = a.size ∧ ci.size = a.size ∧ si.size = a.size ∧ L.size = a.size then
    .ok ⟨a.shape, fun idx => cp (a.get idx) (e.flatAt a.shape idx) (cw.flatAt a.shape idx) (sw.flatAt a.shape idx)
      (ci.flatAt a.shape idx) (si.flatAt a.shape idx) (L.flatAt a.shape idx)⟩
  else .error .shapeMismatch

namespace VOrbit
variable (o : VOrbit)

/-- `dt` of `keplerian.py:730-731`. -/
noncomputable def sinceTransit (t : Gr) : Gr :=
  let hp := ((0.5 : ℝ) : Gr) * o.period
  Gr.zip pymod (o.warpTimes t true + hp) o.period - hp

/-- The graphs of `keplerian.py:733-738` (circular orbits): an indicator that is `1` where `hdur` is NaN (see
`Orbit.halfDuration`), and `hdur`. -/
noncomputable def halfDuration (r : Gr) : Gr × Gr :=
  let z := o.a.zerosLike
  let r := r + z
  let R := o.r_star + z
  let hp := ((0.5 : ℝ) : Gr) * o.period
  let k := r / R
  let arg := (1 + k) ^ 2 - o.b ^ 2
  let den := o.a * o.sin_incl
  let x := R / den * arg.sqrt
  (Gr.zip3 (fun arg den x => if arg < 0 ∨ den = 0 ∨ 1 < |x| then 1 else 0) arg den x,
    hp * x.map arcsin / (π : Gr))

/-- The window around the transit, one entry per planet, and whether all flags are zero: `keplerian.py:733-763`, `772`. -/
noncomputable def transitWindows (cp : ContactOp) (r : Gr) : Except PyErr (Tensor (Option (ℝ × ℝ)) × Bool) :=
  match o.ecc with
  | none => do
    let nan ← (o.halfDuration r).1.eval
    let hdur ← (o.halfDuration r).2.eval
    let w ← nan.zipB (fun n h => if n = 0 then some (-h, h) else none) hdur
    .ok (w, true)
  | some p => do
    let z := o.a.zerosLike
    let r := r + z
    let R := o.r_star + z
    let hp := ((0.5 : ℝ) : Gr) * o.period
    let a ← o.a.eval
    let e ← p.ecc.eval
    let cw ← p.cos_omega.eval
    let sw ← p.sin_omega.eval
    let ci ← (o.cos_incl + z).eval
    let si ← (o.sin_incl + z).eval
    let L ← (R + r).eval
    let c ← contactArrays cp a e cw sw ci si L
    let t_start := (.leaf (c.map Contact.left) - o.M0) / o.n
    let t_start := Gr.zip pymod (t_start + hp) o.period - hp
    let t_end := (.leaf (c.map Contact.right) - o.M0) / o.n
    let t_end := Gr.zip pymod (t_end + hp) o.period - hp
    let t_start := Gr.zip3 (fun x y z => if x > 0 then y else z) t_start (t_start - o.period) t_start
    let t_end := Gr.zip3 (fun x y z => if x < 0 then y else z) t_end (t_end + o.period) t_end
    let s ← t_start.eval
    let e ← t_end.eval
    let w ← s.zipB (fun s e => some (s, e)) e
    .ok (w, (c.map Contact.flag).toList.all (· = 0))

end VOrbit

/-- `pt.any(x, axis=-1)`. -/
def Tensor.anyLast (x : Tensor Bool) : Tensor Bool :=
  ⟨x.shape.dropLast, fun idx => (List.range (x.shape.getLastD 0)).any (fun k => x.get (idx ++ [k]))⟩

/-- `pt.arange(n)[mask]`: the mask must be a vector of length `n`. -/
def maskIndices (n : ℕ) (mask : Tensor Bool) : Except PyErr (List ℕ) :=
  if mask.shape = [n] then .ok ((List.range n).filter (fun i => mask.get [i])) else .error .indexError

/-- `keplerian.py:765-767`: a vector `texp` is broadcast against the planets. -/
noncomputable def widenT (w : Tensor (Option (ℝ × ℝ))) (texp : Option (Tensor ℝ)) : Except PyErr (Tensor (Option (ℝ × ℝ))) :=
  match texp with
  | none => .ok w
  | some x => w.zipB widen x

/-- `in_transit(t, r, texp, light_delay)` — `keplerian.py:708-777`. -/
noncomputable def VOrbit.inTransit (o : VOrbit) (cp : ContactOp) (t r : Tensor ℝ) (texp : Option (Tensor ℝ)) (light_delay : Bool) :
    Except PyErr (List ℕ) :=
  if light_delay then .error (.notImplemented "light travel time delay in in_transit") else do
  let wf ← o.transitWindows cp (.leaf r)
  let w ← widenT wf.1 texp
  let dt ← (o.sinceTransit (.leaf t)).eval
  let m ← dt.zipB inWindow w
  match t.shape with
  | [] => .error .indexError
  | n :: _ => do
    let inds ← maskIndices n m.anyLast
    .ok (if wf.2 then inds else List.range n)

/-- `limb_dark.py:214-222`, with the coordinates and `orbit.r_star` as graphs: `sqrt(x**2 + y**2)`, the reshapes to the shape of `rgrid`
and the divisions by `orbit.r_star`. The compiled light curve is elementwise on arrays of the same shape. -/
noncomputable def LimbDark.lightCurveAtG (l : LimbDark) (pos : V3G) (r_star : Gr) (rgrid : Tensor ℝ) : Except PyErr (Tensor ℝ) := do
  let x ← pos.x.eval
  let y ← pos.y.eval
  let z ← pos.z.eval
  let b ← x.zipB (fun x y => √(x ^ 2 + y ^ 2)) y
  let b ← b.reshape rgrid.shape
  let los ← z.reshape rgrid.shape
  let R ← r_star.eval
  let b ← b.zipB (· / ·) R
  let k ← rgrid.zipB (· / ·) R
  let los ← los.zipB (· / ·) R
  if b.shape = k.shape ∧ los.shape = k.shape then
    .ok ⟨k.shape, fun idx => computeLightCurve l.c (b.get idx) (k.get idx) (some (los.get idx))⟩
  else .error .shapeMismatch

/-- `limb_dark.py:213-222` with a `KeplerianOrbit` or a `TTVOrbit`. -/
noncomputable def LimbDark.lightCurveAtV (l : LimbDark) (C : Consts) (o : VOrbit) (tgrid rgrid : Tensor ℝ) (light_delay : Bool) :
    Except PyErr (Tensor ℝ) :=
  l.lightCurveAtG (o.relativePosition C (.leaf tgrid) none light_delay) o.r_star rgrid

/-- `get_light_curve` — `limb_dark.py:99-232`, for an orbit with vector arguments and arrays `r` and `t`. -/
noncomputable def LimbDark.getLightCurveV (l : LimbDark) (C : Consts) (cp : ContactOp) (o : VOrbit) (r t : Tensor ℝ)
    (texp : Option (Tensor ℝ) := none) (oversample : ℤ := 7) (order : ℤ := 0) (use_in_transit : Option Bool := none)
    (light_delay : Bool := false) : Except PyErr (Tensor ℝ) :=
  lightCurveWith (integratedWith (l.lightCurveAtV C o)) (o.inTransit cp) r t texp oversample order use_in_transit light_delay

end Exo
