import Verif.Model.SystemLightCurve
import Verif.Model.Secondary

/-!
# Secondary eclipses of orbits with vector arguments

`_flip` (`orbits/keplerian.py:779-804`) and `SecondaryEclipseLightCurve.get_light_curve` (`light_curves/secondary_eclipse.py:33-70`) once
more, for the orbit of `Verif/Model/System.lean`, whose attributes are graphs. The attributes that `_flip` hands to the constructor are
evaluated first, because the constructor of the model takes arrays. This cannot be seen except when an attribute has no value: then
the model raises in `_flip`, the code when the light curve is evaluated.
-/

namespace Exo
open Real

/-- The value of an attribute that may be `None`. -/
def evalOpt : Option Gr → Except PyErr (Option (Tensor ℝ))
  | none => .ok none
  | some w => w.eval.map some

/-- The keyword arguments `_flip(r_planet)` passes to the constructor — `keplerian.py:779-804`. The attributes carry no unit labels. -/
noncomputable def VOrbit.flipArgs (o : VOrbit) (r_planet : Tensor ℝ) : Except PyErr VArgs := do
  let period ← o.period.eval
  let t_periastron ← match o.ecc with
    | none => (o.t_periastron + ((0.5 : ℝ) : Gr) * o.period).eval
    | some _ => o.t_periastron.eval
  let incl ← o.incl.eval
  let Omega ← evalOpt o.Omega
  let m_star ← o.m_planet.eval
  let m_planet ← o.m_star.eval
  let base : VArgs :=
    { period := some ⟨period, none⟩, t_periastron := some ⟨t_periastron, none⟩, incl := some ⟨incl, none⟩,
      Omega := Omega.map (⟨·, none⟩), m_star := some ⟨m_star, none⟩, m_planet := some ⟨m_planet, none⟩,
      r_star := some ⟨r_planet, none⟩ }
  match o.ecc with
  | none => .ok base
  | some p => do
    let ecc ← p.ecc.eval
    let omega ← (p.omega - (π : Gr)).eval
    .ok { base with ecc := some ⟨ecc, none⟩, omega := some ⟨omega, none⟩ }

/-- `_flip(r_planet)` on a `KeplerianOrbit` — `keplerian.py:779-804`. -/
noncomputable def VOrbit.flip (o : VOrbit) (C : Consts) (r_planet : Tensor ℝ) : Except PyErr VOrbit := do
  let A ← o.flipArgs r_planet
  keplerianInitV C A

/-- `get_light_curve(orbit, r, t, texp, oversample, order, use_in_transit, light_delay)` — `secondary_eclipse.py:33-70`. -/
noncomputable def SecondaryEclipse.getLightCurveV (l : SecondaryEclipse) (C : Consts) (cp : ContactOp) (o : VOrbit) (r t : Tensor ℝ)
    (texp : Option (Tensor ℝ) := none) (oversample : ℤ := 7) (order : ℤ := 0) (use_in_transit : Option Bool := none)
    (light_delay : Bool := false) : Except PyErr (Tensor ℝ) := do
  -- 44-45
  let o2 ← o.flip C r
  -- 46-55
  let lc1 ← l.primary.getLightCurveV C cp o r t texp oversample order use_in_transit light_delay
  -- 56-65
  let r_star ← o.r_star.eval
  let lc2 ← l.secondary.getLightCurveV C cp o2 r_star t texp oversample order use_in_transit light_delay
  -- 67-70
  let k ← r.zipB (· / ·) r_star
  let flux_ratio := k.map (fun k => l.surface_brightness_ratio * k ^ 2)
  let s ← flux_ratio.zipB (· * ·) lc2
  let s ← lc1.zipB (· + ·) s
  s.zipB (· / ·) (flux_ratio.map (1 + ·))

end Exo
