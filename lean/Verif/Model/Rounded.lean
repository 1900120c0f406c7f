import Verif.Model.LightCurve

/-!
# Circular orbits and their light curves in rounded arithmetic

Everywhere else in the model a sum, product, quotient or square root is exact. Here every operation is rounded, in the order in which
`src/exoplanet/orbits/keplerian.py` and `src/exoplanet/light_curves/limb_dark.py` write it. Overflow and underflow are not modelled, nor is the
reordering of operations by the compiler of the graph.
-/

namespace Exo
open Real

/-- Rounded arithmetic: the correctly rounded result of an operation has a relative error of at most `u` (2⁻⁵³ for doubles), as has the constant
`np.pi`; the sine and the cosine of the C library are off by at most `2 u`. -/
structure Rounding where
  u : ℝ
  rnd : ℝ → ℝ
  piF : ℝ
  sinF : ℝ → ℝ
  cosF : ℝ → ℝ
  u_nonneg : 0 ≤ u
  u_le : u ≤ 1 / 1000
  rnd_err : ∀ x, |rnd x - x| ≤ u * |x|
  pi_err : |piF - π| ≤ u * π
  sin_err : ∀ x, |sinF x - sin x| ≤ 2 * u
  cos_err : ∀ x, |cosF x - cos x| ≤ 2 * u

namespace Rounding
variable (ρ : Rounding)

/-- `self.n = 2 * np.pi / self.period` — `keplerian.py:146`. -/
noncomputable def n (P : ℝ) : ℝ := ρ.rnd (ρ.rnd (2 * ρ.piF) / P)

/-- `M0`, `t_periastron` and `tref` of a circular orbit with a given `t0` — `keplerian.py:184`, 275-277. (Adding the zeros of line 184 changes
nothing.) -/
noncomputable def tref (t0 P : ℝ) : ℝ :=
  let M0 := ρ.rnd (0.5 * ρ.piF)
  let t_periastron := ρ.rnd (t0 - ρ.rnd (M0 / ρ.n P))
  ρ.rnd (t_periastron - t0)

/-- `_warp_times` and the first line of `_get_true_anomaly` — `keplerian.py:324-330`. -/
noncomputable def meanAnomaly (t0 P t : ℝ) : ℝ := ρ.rnd (ρ.rnd (ρ.rnd (t - t0) - ρ.tref t0 P) * ρ.n P)

/-- `get_relative_position(t)` of a circular orbit without `Omega` — `keplerian.py:283-334`, 399-409, 517-543. The attributes `a`, `cos_incl`,
`sin_incl`, `t0` and `period` are those stored. -/
noncomputable def position (o : Orbit) (t : ℝ) : V3 :=
  let M := ρ.meanAnomaly o.t0 o.period t
  let x := ρ.rnd (-o.a * ρ.cosF M)
  let y := ρ.rnd (-o.a * ρ.sinF M)
  ⟨x, ρ.rnd (o.cos_incl * y), ρ.rnd (-o.sin_incl * y)⟩

/-- `limb_dark.py:213-222` and `_compute_light_curve`, 234-251, at one time for one planet of radius `r`; `ld` is the compiled operation. -/
noncomputable def flux (ld : ℝ → ℝ → ℝ) (R r : ℝ) (p : V3) : ℝ :=
  let b := ρ.rnd √(ρ.rnd (ρ.rnd (p.x ^ 2) + ρ.rnd (p.y ^ 2)))
  if 0 < ρ.rnd (p.z / R) then ld (ρ.rnd (b / R)) (ρ.rnd (r / R)) else 0

end Rounding
end Exo
