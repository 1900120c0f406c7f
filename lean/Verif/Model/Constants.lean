import Verif.Model.Units
import Mathlib.Analysis.Real.Sqrt

/-!
# Model of `src/exoplanet/orbits/constants.py`

The values that astropy supplies are parameters (`Astropy`); the arithmetic of units is modelled.
-/

namespace Exo

/-- `u * v` for astropy units, as in `u.M_sun * u.day**2` (orbits/constants.py:23). -/
noncomputable def AUnit.mul (u v : AUnit) : AUnit :=
  ⟨u.scale * v.scale, ⟨u.dim.length + v.dim.length, u.dim.mass + v.dim.mass, u.dim.time + v.dim.time⟩, mul_pos u.pos v.pos⟩

/-- `u / v` for astropy units, as in `u.R_sun / u.day` (orbits/constants.py:19). -/
noncomputable def AUnit.div (u v : AUnit) : AUnit :=
  ⟨u.scale / v.scale, ⟨u.dim.length - v.dim.length, u.dim.mass - v.dim.mass, u.dim.time - v.dim.time⟩, div_pos u.pos v.pos⟩

/-- `u ** n` for astropy units, as in `u.R_sun**3` (orbits/constants.py:16). -/
noncomputable def AUnit.pow (u : AUnit) (n : ℕ) : AUnit :=
  ⟨u.scale ^ n, ⟨n * u.dim.length, n * u.dim.mass, n * u.dim.time⟩, pow_pos u.pos n⟩

/-- What the module takes from astropy, in SI: the sizes of `u.au`, `u.R_sun`, `u.M_sun`, `u.day` and the constants `c.G` and
`c.c`. -/
structure Astropy where
  au : ℝ
  R_sun : ℝ
  M_sun : ℝ
  day : ℝ
  G : ℝ
  c : ℝ
  au_pos : 0 < au
  R_sun_pos : 0 < R_sun
  M_sun_pos : 0 < M_sun
  day_pos : 0 < day
  G_pos : 0 < G
  c_pos : 0 < c

namespace Astropy
variable (S : Astropy)

/-- `u.au` -/
def uAu : AUnit := ⟨S.au, ⟨1, 0, 0⟩, S.au_pos⟩
/-- `u.R_sun` -/
def uRsun : AUnit := ⟨S.R_sun, ⟨1, 0, 0⟩, S.R_sun_pos⟩
/-- `u.M_sun` -/
def uMsun : AUnit := ⟨S.M_sun, ⟨0, 1, 0⟩, S.M_sun_pos⟩
/-- `u.day` -/
def uDay : AUnit := ⟨S.day, ⟨0, 0, 1⟩, S.day_pos⟩
/-- The quantity `c.G` (a value times a unit behaves like a unit of that size under `.to(...).value`). -/
def qG : AUnit := ⟨S.G, ⟨3, -1, -2⟩, S.G_pos⟩
/-- The quantity `c.c`. -/
def qC : AUnit := ⟨S.c, ⟨1, 0, -1⟩, S.c_pos⟩

end Astropy

/-- `u.g / u.cm**3` -/
noncomputable def uGcc : AUnit :=
  AUnit.div ⟨1 / 1000, ⟨0, 1, 0⟩, by norm_num⟩ (AUnit.pow ⟨1 / 100, ⟨1, 0, 0⟩, by norm_num⟩ 3)

/-- The names that the module exports (orbits/constants.py:1-7). -/
structure RawConsts where
  G_grav : ℝ
  gcc_per_sun : ℝ
  au_per_R_sun : ℝ
  day_per_yr_over_2pi : ℝ
  c_light : ℝ

/-- orbits/constants.py:15-24. In the last statement the numbers are `1 ** (3/2)` and the value of `G` in au, solar masses and days; the unit of the
quotient is a day, and only its value is kept. -/
noncomputable def constantsTry (S : Astropy) : Except PyErr RawConsts := do
  let G_grav ← S.qG.to (((S.uRsun.pow 3).div S.uMsun).div (S.uDay.pow 2))
  let gcc_per_sun ← (S.uMsun.div (S.uRsun.pow 3)).to uGcc
  let au_per_R_sun ← S.uRsun.to S.uAu
  let c_light ← S.qC.to (S.uRsun.div S.uDay)
  let g ← S.qG.to ((S.uAu.pow 3).div (S.uMsun.mul (S.uDay.pow 2)))
  .ok ⟨G_grav, gcc_per_sun, au_per_R_sun, 1 / √(g * 1), c_light⟩

/-- orbits/constants.py:32-37: the numbers used after a `TypeError` (the second assignment of `day_per_yr_over_2pi` wins). -/
noncomputable def constantsFallback : RawConsts where
  G_grav := 2942.2062175044193
  gcc_per_sun := 5.905271918964842
  au_per_R_sun := 0.00465046726096215
  day_per_yr_over_2pi := 58.13244087623438
  c_light := 37231.66360672704

/-- The whole module, orbits/constants.py:15-37; `none` stands for an astropy whose unit arithmetic raises `TypeError`. -/
noncomputable def constants : Option Astropy → Except PyErr RawConsts
  | none => .ok constantsFallback
  | some S =>
    match constantsTry S with
    | .error (.typeError _) => .ok constantsFallback
    | r => r

end Exo
