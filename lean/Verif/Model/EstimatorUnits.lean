import Verif.Model.SemiAmplitude
import Verif.Model.Units

/-!
# Model of `estimate_semi_amplitude` and `estimate_minimum_mass` with astropy quantities — src/exoplanet/estimators.py:48-116

An argument is an array of numbers, a Python list of numbers or an `astropy.units.Quantity`; a single number is an array of length one
(every argument but `yerr` and `m_star` goes through `np.atleast_1d` first, and `1.0 / yerr**2` is done element by element). In contrast to
`Verif/Model/SemiAmplitude.lean` arrays of length one are broadcast as NumPy does.
-/

namespace Exo
open Real

/-- An array-like argument: its numbers, its unit (`none` for a bare array or list) and whether it is a Python list. -/
structure Qty where
  vals : List ℝ
  unit : Option AUnit := none
  isList : Bool := false

/-- The unit of `1 / q**2` (astropy). -/
noncomputable def AUnit.invSq (u : AUnit) : AUnit :=
  ⟨1 / u.scale ^ 2, ⟨-2 * u.dim.length, -2 * u.dim.mass, -2 * u.dim.time⟩, by have := u.pos; positivity⟩

/-- `u.Quantity(np.atleast_1d(a), unit=target).value` — estimators.py:71-76, 112: bare numbers are taken to be in the unit `target`,
quantities are converted (`UnitConversionError` if they cannot be). -/
noncomputable def Qty.into (q : Qty) (target : AUnit) : Except PyErr (List ℝ) :=
  match q.unit with
  | none => .ok q.vals
  | some u => (u.to target).map fun f => q.vals.map (· * f)

/-- The same for an optional argument. -/
noncomputable def intoOpt (q : Option Qty) (target : AUnit) : Except PyErr (Option (List ℝ)) :=
  match q with
  | none => .ok none
  | some q => (q.into target).map some

/-- estimators.py:66-69: `ivar`. `np.ones_like` of a quantity is a quantity with the same unit (astropy: `like_helper` in
`units/quantity_helper/function_helpers.py`); a Python list cannot be squared. -/
noncomputable def ivarQty (y : Qty) (yerr : Option Qty) : Except PyErr Qty :=
  match yerr with
  | none => .ok { vals := y.vals.map fun _ => 1, unit := y.unit }
  | some e =>
    if e.isList then .error (.typeError "unsupported operand type(s) for **: 'list' and 'int'")
    else .ok { vals := e.vals.map fun s => 1 / s ^ 2, unit := e.unit.map AUnit.invSq }

/-- `l` broadcast to length `n`. -/
def stretch (n : ℕ) (l : List ℝ) : List ℝ := if l.length = 1 then List.replicate n (l.headD 0) else l

/-- Do `D * ivar[:, None]`, `y * ivar` and the products with `D.T` have matching shapes (`N` rows of `D`)? -/
def shapesFit (N ny ni : ℕ) : Bool := (ni == N || ni == 1) && (if ny = ni then ny == N else if ny = 1 then ni == N else ni == 1 && ny == N)

/-- estimators.py:78-87 on plain numbers, with NumPy broadcasting. -/
noncomputable def fitPlain (periods x y ivar : List ℝ) (t0s : Option (List ℝ)) : Except PyErr (List ℝ) :=
  match designFuns periods t0s with
  | .error e => .error e
  | .ok fs =>
    if shapesFit x.length y.length ivar.length then
      (solveNormal fs x (stretch x.length y) (stretch x.length ivar)).map fun w => amplitudes w t0s
    else .error .shapeMismatch

/-- The unit `(u.s / u.m) ** 2` — estimators.py:76. -/
noncomputable def Consts.ivarUnit (C : Consts) : AUnit := C.mPerS.invSq

/-- `estimate_semi_amplitude(periods, x, y, yerr, t0s)` — estimators.py:48-87. -/
noncomputable def semiAmplitudeQ (C : Consts) (periods x y : Qty) (yerr t0s : Option Qty) : Except PyErr (List ℝ) := do
  let ivar ← ivarQty y yerr
  let periods ← periods.into C.day
  let t0s ← intoOpt t0s C.day
  let x ← x.into C.day
  let y ← y.into C.mPerS
  let ivar ← ivar.into C.ivarUnit
  fitPlain periods x y ivar t0s

/-- The unit `u.year`: 365.25 days (astropy). -/
noncomputable def Consts.year (C : Consts) : AUnit := ⟨365.25 * C.dayScale, ⟨0, 0, 1⟩, by have := C.day_pos; positivity⟩

/-- `estimate_minimum_mass(periods, x, y, yerr, t0s, m_star)` — estimators.py:90-116: the numbers of the returned quantity, whose unit is
the mass of Jupiter. `periods` is converted to days first and handed on as a quantity. `m_star` is a single number or quantity. -/
noncomputable def minimumMassQ (C : Consts) (periods x y : Qty) (yerr t0s : Option Qty) (m_star : Q) : Except PyErr (List ℝ) := do
  let p ← periods.into C.day
  let periods : Qty := { vals := p, unit := some C.day }
  let m_star ← toUnitVal m_star C.mSun
  let K ← semiAmplitudeQ C periods x y yerr t0s
  let m_J := K.map fun k => k / 28.4329 * m_star ^ (2 / 3 : ℝ)
  let years ← periods.into C.year
  .ok (List.zipWith (fun m P => m * P ^ (1 / 3 : ℝ)) m_J years)

end Exo
