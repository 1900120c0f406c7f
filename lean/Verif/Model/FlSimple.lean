import Verif.Model.FlOrbit
import Verif.Model.Simple

/-!
# `SimpleTransitOrbit` with NaN and infinities

The same lines of `src/exoplanet/orbits/simple.py` as in `Model/Simple.lean`, for one planet, computed with `Fl`.
-/

namespace Exo
open Real

namespace Fl

/-- `pt.mod(x, p)`: NaN when `p` is zero or an argument is not a number. -/
noncomputable def mod : Fl → Fl → Fl
  | fin x, fin p => if p = 0 then nan else fin (pymod x p)
  | _, _ => nan

/-- `pt.abs` -/
noncomputable def abs : Fl → Fl
  | fin x => fin |x|
  | inf _ => inf false
  | nan => nan

end Fl

/-- The attributes of a `SimpleTransitOrbit` for one planet. -/
structure FlSimple where
  period : Fl
  t0 : Fl
  b : Fl
  duration : Fl
  r_star : Fl
  b_norm : Fl
  speed : Fl
  half_period : Fl
  ref_time : Fl

/-- `SimpleTransitOrbit.__init__` — `simple.py:24-36`. -/
noncomputable def simpleInitF (period duration : ℝ) (t0 b : ℝ := 0) (r_star : ℝ := 1) (ror : ℝ := 0) : FlSimple :=
  let one : Fl := (1 : ℝ)
  let x2 := (r_star : Fl) ^ 2 * ((one + (ror : Fl)) ^ 2 - (b : Fl) ^ 2)
  let half := ((0.5 : ℝ) : Fl) * (period : Fl)
  { period := period, t0 := t0, b := b, duration := duration, r_star := r_star, b_norm := (b : Fl) * (r_star : Fl),
    speed := ((2 : ℝ) : Fl) * x2.sqrt / (duration : Fl), half_period := half, ref_time := (t0 : Fl) - half }

namespace FlSimple
variable (o : FlSimple)

/-- `dt` of `simple.py:60-61` and 93-94. -/
noncomputable def dt (t : ℝ) : Fl := Fl.mod ((t : Fl) - o.ref_time) o.period - o.half_period

/-- `m` of `simple.py:64`: `abs(dt) < 0.5 * duration`. -/
noncomputable def near (t : ℝ) : Bool := Fl.gt (((0.5 : ℝ) : Fl) * o.duration) (o.dt t).abs

/-- `get_relative_position(t)` — `simple.py:60-66`. -/
noncomputable def relativePosition (t : ℝ) : FlV3 :=
  ⟨o.speed * o.dt t, o.b_norm + (0 : ℝ), if o.near t then (1 : ℝ) else (-1 : ℝ)⟩

/-- `tol` of `simple.py:95-101`; `texp` a number. -/
noncomputable def tol (r texp : Option ℝ) : Fl :=
  let tol := match r with
    | none => ((0.5 : ℝ) : Fl) * o.duration
    | some r => (((r : Fl) + o.r_star) ^ 2 - o.b_norm ^ 2).sqrt / o.speed
  match texp with
  | none => tol
  | some x => tol + ((0.5 : ℝ) : Fl) * (x : Fl)

/-- `in_transit(t, r, texp)` — `simple.py:77-103`. -/
noncomputable def inTransit (t : List ℝ) (r texp : Option ℝ) : List ℕ :=
  (List.range t.length).filter fun i => Fl.gt (o.tol r texp) (o.dt (t.getD i 0)).abs

end FlSimple
end Exo
