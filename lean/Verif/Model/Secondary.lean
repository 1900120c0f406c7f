import Verif.Model.LightCurve

/-!
# Model of `src/exoplanet/light_curves/secondary_eclipse.py`
-/

namespace Exo
open Real

/-- The attributes of a `SecondaryEclipseLightCurve`. -/
structure SecondaryEclipse where
  primary : LimbDark
  secondary : LimbDark
  surface_brightness_ratio : ℝ

/-- `SecondaryEclipseLightCurve.__init__(u_primary, u_secondary, surface_brightness_ratio)` — `secondary_eclipse.py:20-31`, for a scalar ratio.
Entries of the vectors beyond the second are ignored. -/
noncomputable def SecondaryEclipse.new (u_primary u_secondary : List ℝ) (surface_brightness_ratio : ℝ) :
    Except PyErr SecondaryEclipse :=
  match u_primary, u_secondary with
  | a :: b :: _, c :: d :: _ => .ok ⟨LimbDark.new a b, LimbDark.new c d, surface_brightness_ratio⟩
  | _, _ => .error .indexError

/-- `orbit._flip(r)` for a `KeplerianOrbit` with the given planets; the radii are broadcast against the planets
(`keplerian.py:779-804`). Each planet of the result has its own `r_star`. -/
noncomputable def flipAll (C : Consts) (orbits : List Orbit) (r : List ℝ) : Except PyErr (List Orbit) :=
  match bcast (fun o r => Orbit.flip o C r) orbits r with
  | .error e => .error e
  | .ok l => l.mapM id

/-- `get_light_curve(orbit, r, t, texp, oversample, order, use_in_transit, light_delay)` — `secondary_eclipse.py:33-70`, for a `KeplerianOrbit`
with the given planets and a scalar `r_star`. In the flipped orbit `r_star` is the vector `r`; the value used here is the first
radius: it only enters after the positions have been reshaped to `r_grid`, which has a single column because
`orbit.r_star` is a scalar, so that (unless there are no rows) there is exactly one planet. -/
noncomputable def SecondaryEclipse.getLightCurve (C : Consts) (cp : ContactOp) (l : SecondaryEclipse) (orbits : List Orbit)
    (r_star : ℝ) (r t : Tensor ℝ) (texp : Option (Tensor ℝ) := none) (oversample : ℤ := 7) (order : ℤ := 0)
    (use_in_transit : Option Bool := none) (light_delay : Bool := false) : Except PyErr (Tensor ℝ) := do
  -- 44-45
  let orbits2 ← flipAll C orbits r.toList
  -- 46-55
  let lc1 ← l.primary.getLightCurve (some (keplerApi C cp orbits r_star)) (some r) (some t) texp oversample order
    use_in_transit light_delay
  -- 56-65
  let lc2 ← l.secondary.getLightCurve (some (keplerApi C cp orbits2 (r.toList.headD 0))) (some (Tensor.scalar r_star)) (some t)
    texp oversample order use_in_transit light_delay
  -- 67-70
  let flux_ratio := r.map (fun r => l.surface_brightness_ratio * (r / r_star) ^ 2)
  let s ← flux_ratio.zipB (· * ·) lc2
  let s ← lc1.zipB (· + ·) s
  s.zipB (· / ·) (flux_ratio.map (1 + ·))

end Exo
