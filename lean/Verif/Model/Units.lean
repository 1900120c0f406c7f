import Verif.Model.Py

/-!
# Model of `src/exoplanet/units.py` (values and unit labels)

The astropy side is modelled by a positive scale (the SI value of the unit) and a dimension vector. The aliasing
behaviour of `with_unit` (it mutates the tensor object) is modelled separately in `Verif/Model/UnitsHeap.lean`;
here a labelled tensor is just a value with an optional label.
-/

namespace Exo

/-- Physical dimension: exponents of length, mass, time. (Models what astropy compares in `Unit.to`.) -/
structure Dim where
  length : ℤ
  mass : ℤ
  time : ℤ
  deriving DecidableEq

/-- An `astropy.units` unit: SI scale and dimension. -/
structure AUnit where
  scale : ℝ
  dim : Dim
  pos : 0 < scale

/-- `astropy.units.Unit.to(target)`: conversion factor, or `UnitConversionError`. -/
noncomputable def AUnit.to (u v : AUnit) : Except PyErr ℝ :=
  if u.dim = v.dim then .ok (u.scale / v.scale) else .error .unitConversion

/-- A tensor (scalar, per planet) together with its `__exoplanet_unit__` attribute
(`units.py:5`), `none` if the attribute is absent. -/
structure Q where
  val : ℝ
  unit : Option AUnit

instance : Coe ℝ Q := ⟨fun x => ⟨x, none⟩⟩

/-- `has_unit(obj)` — `units.py:26-28`. -/
def hasUnit (x : Q) : Bool := x.unit.isSome

/-- `with_unit(obj, unit)` — `units.py:8-23`: `TypeError` if already labelled. -/
def withUnit (x : Q) (u : AUnit) : Except PyErr Q :=
  if hasUnit x then .error (.typeError "already has units") else .ok ⟨x.val, some u⟩

/-- `to_unit(obj, target)` — `units.py:31-45`. The product `obj * factor` is a new tensor without label. -/
noncomputable def toUnit (x : Q) (target : AUnit) : Except PyErr Q :=
  match x.unit with
  | none => .ok x
  | some base =>
    match base.to target with
    | .error e => .error e
    | .ok f => .ok ⟨x.val * f, none⟩

/-- `as_tensor_variable(to_unit(x, target))` as a plain number — the idiom used all over
`orbits/keplerian.py` (e.g. lines 856, 859, 863). -/
noncomputable def toUnitVal (x : Q) (target : AUnit) : Except PyErr ℝ :=
  match toUnit x target with
  | .error e => .error e
  | .ok q => .ok q.val

/-- Conversion of an optional argument (`if x is not None: x = as_tensor_variable(to_unit(x, ...))`). -/
noncomputable def toUnitOpt (x : Option Q) (target : AUnit) : Except PyErr (Option ℝ) :=
  match x with
  | none => .ok none
  | some q =>
    match toUnitVal q target with
    | .error e => .error e
    | .ok v => .ok (some v)

/-- Model of `src/exoplanet/orbits/constants.py:15-24`: the astropy constants in the standard units. Their numerical
values play no role; positivity and the definition of `gcc_per_sun` (line 17) do. -/
structure Consts where
  /-- `G_grav`, line 16 -/
  G : ℝ
  /-- `c_light`, line 19 -/
  c : ℝ
  /-- `au_per_R_sun`, line 18 -/
  auPerRsun : ℝ
  /-- SI scales of `u.R_sun`, `u.M_sun`, `u.day`, `u.g / u.cm**3`, `u.m / u.s` -/
  rSunScale : ℝ
  mSunScale : ℝ
  dayScale : ℝ
  gccScale : ℝ
  mPerSScale : ℝ
  G_pos : 0 < G
  c_pos : 0 < c
  au_pos : 0 < auPerRsun
  rSun_pos : 0 < rSunScale
  mSun_pos : 0 < mSunScale
  day_pos : 0 < dayScale
  gcc_pos : 0 < gccScale
  mPerS_pos : 0 < mPerSScale

namespace Consts
variable (C : Consts)

/-- `u.R_sun` -/
def rSun : AUnit := ⟨C.rSunScale, ⟨1, 0, 0⟩, C.rSun_pos⟩
/-- `u.M_sun` -/
def mSun : AUnit := ⟨C.mSunScale, ⟨0, 1, 0⟩, C.mSun_pos⟩
/-- `u.day` -/
def day : AUnit := ⟨C.dayScale, ⟨0, 0, 1⟩, C.day_pos⟩
/-- `u.g / u.cm**3` -/
def gcc : AUnit := ⟨C.gccScale, ⟨-3, 1, 0⟩, C.gcc_pos⟩
/-- `u.m / u.s` -/
def mPerS : AUnit := ⟨C.mPerSScale, ⟨1, 0, -1⟩, C.mPerS_pos⟩
/-- `u.M_sun / u.R_sun**3` -/
noncomputable def rhoSun : AUnit :=
  ⟨C.mSunScale / C.rSunScale ^ 3, ⟨-3, 1, 0⟩, div_pos C.mSun_pos (pow_pos C.rSun_pos 3)⟩
/-- `u.R_sun / u.day` -/
noncomputable def rSunPerDay : AUnit :=
  ⟨C.rSunScale / C.dayScale, ⟨1, 0, -1⟩, div_pos C.rSun_pos C.day_pos⟩
/-- `gcc_per_sun = (u.M_sun / u.R_sun**3).to(u.g / u.cm**3)` — `constants.py:17`. -/
noncomputable def gccPerSun : ℝ := C.rhoSun.scale / C.gcc.scale

theorem gccPerSun_pos : 0 < C.gccPerSun := div_pos C.rhoSun.pos C.gcc.pos

end Consts
end Exo
