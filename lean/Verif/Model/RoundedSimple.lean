import Verif.Model.Rounded

/-!
# `SimpleTransitOrbit` in rounded arithmetic — `src/exoplanet/orbits/simple.py`

As in `Verif.Model.Rounded`: every operation is rounded, in the order in which the code writes it.
-/

namespace Exo
open Real Classical

namespace Rounding
variable (ρ : Rounding)

/-- `pt.mod(x, P)` of `simple.py:60` and 93 for a positive `P`: the remainder of the C library is exact; for a negative `x` the remainder of
`-x` is subtracted from `P`. -/
noncomputable def mod (x P : ℝ) : ℝ :=
  if 0 ≤ x then pymod x P else
  if pymod (-x) P = 0 then 0 else ρ.rnd (P - pymod (-x) P)

/-- `self._half_period` — `simple.py:35`. -/
noncomputable def halfPeriod (o : SimpleOrbit) : ℝ := ρ.rnd (0.5 * o.period)

/-- `self._ref_time` — `simple.py:36`. -/
noncomputable def refTime (o : SimpleOrbit) : ℝ := ρ.rnd (o.t0 - ρ.halfPeriod o)

/-- `dt` — `simple.py:60-61` and 93-94. -/
noncomputable def simpleDt (o : SimpleOrbit) (t : ℝ) : ℝ :=
  ρ.rnd (ρ.mod (ρ.rnd (t - ρ.refTime o)) o.period - ρ.halfPeriod o)

/-- `get_relative_position(t)` — `simple.py:60-66`, with the stored value `v` of `self.speed`. Adding zeros and multiplying by `1.0` is exact. -/
noncomputable def simplePosition (o : SimpleOrbit) (v t : ℝ) : V3 :=
  ⟨ρ.rnd (v * ρ.simpleDt o t), ρ.rnd (o.b * o.r_star), if |ρ.simpleDt o t| < ρ.rnd (0.5 * o.duration) then 1 else -1⟩

/-- Whether the planet counts as in transit at `t` in `in_transit(t, texp=texp)` without `r` — `simple.py:93-102`. -/
noncomputable def simpleMask (o : SimpleOrbit) (texp : Option ℝ) (t : ℝ) : Prop :=
  |ρ.simpleDt o t| < match texp with
    | none => ρ.rnd (0.5 * o.duration)
    | some e => ρ.rnd (ρ.rnd (0.5 * o.duration) + ρ.rnd (0.5 * e))

end Rounding
end Exo
