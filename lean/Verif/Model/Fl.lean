import Verif.Model.Py
import Mathlib.Analysis.SpecialFunctions.Pow.Real
import Mathlib.Analysis.SpecialFunctions.Trigonometric.Inverse

/-!
# Floating-point numbers without rounding: real numbers, infinities and NaN

Everywhere else in the model a quantity is a real number, and operations outside their domain (`√` of a negative number, division by zero,
`arccos` of a number above one) have the values that Mathlib gives them. Here they have the values of IEEE 754, which is what NumPy and the
compiled graphs compute. Rounding, overflow and the sign of zero are not modelled (`1 / 0` is `+∞`).
-/

namespace Exo
open Real Classical

/-- A double without rounding. -/
inductive Fl where
  | fin (x : ℝ)
  | inf (negative : Bool)
  | nan

namespace Fl

/-- `-x` -/
def neg : Fl → Fl
  | fin x => fin (-x)
  | inf s => inf (!s)
  | nan => nan

/-- `x + y` -/
def add : Fl → Fl → Fl
  | nan, _ => nan
  | _, nan => nan
  | fin x, fin y => fin (x + y)
  | fin _, inf s => inf s
  | inf s, fin _ => inf s
  | inf s, inf s' => if s = s' then inf s else nan

/-- `x * y` -/
noncomputable def mul : Fl → Fl → Fl
  | nan, _ => nan
  | _, nan => nan
  | fin x, fin y => fin (x * y)
  | fin x, inf s => if x = 0 then nan else inf (xor s (decide (x < 0)))
  | inf s, fin y => if y = 0 then nan else inf (xor s (decide (y < 0)))
  | inf s, inf s' => inf (xor s s')

/-- `x / y` -/
noncomputable def div : Fl → Fl → Fl
  | nan, _ => nan
  | _, nan => nan
  | fin x, fin y => if y = 0 then if x = 0 then nan else inf (decide (x < 0)) else fin (x / y)
  | fin _, inf _ => fin 0
  | inf s, fin y => inf (xor s (decide (y < 0)))
  | inf _, inf _ => nan

instance : Neg Fl := ⟨neg⟩
instance : Add Fl := ⟨add⟩
instance : Sub Fl := ⟨fun x y => add x (neg y)⟩
noncomputable instance : Mul Fl := ⟨mul⟩
noncomputable instance : Div Fl := ⟨div⟩
instance : Coe ℝ Fl := ⟨fin⟩

/-- `x ** k` for a non-negative integer `k`. -/
noncomputable def npow (x : Fl) : ℕ → Fl
  | 0 => fin 1
  | k + 1 => npow x k * x

noncomputable instance : Pow Fl ℕ := ⟨npow⟩

/-- `x ** p` for a positive number `p` that is not an integer. -/
noncomputable def powr (x : Fl) (p : ℝ) : Fl :=
  match x with
  | fin x => if x < 0 then nan else fin (x ^ p)
  | inf _ => inf false
  | nan => nan

/-- `pt.sqrt` -/
noncomputable def sqrt : Fl → Fl
  | fin x => if x < 0 then nan else fin (√x)
  | inf s => if s then nan else inf false
  | nan => nan

/-- `pt.sin` -/
noncomputable def sin : Fl → Fl
  | fin x => fin (Real.sin x)
  | _ => nan

/-- `pt.cos` -/
noncomputable def cos : Fl → Fl
  | fin x => fin (Real.cos x)
  | _ => nan

/-- `pt.arccos` -/
noncomputable def arccos : Fl → Fl
  | fin x => if -1 ≤ x ∧ x ≤ 1 then fin (Real.arccos x) else nan
  | _ => nan

/-- `pt.arctan2`, for numbers and NaN (infinities do not reach it in the code modelled here, they are mapped to NaN). -/
noncomputable def arctan2 : Fl → Fl → Fl
  | fin y, fin x => fin (Exo.arctan2 y x)
  | _, _ => nan

/-- `pt.gt(x, y)`: false when an argument is NaN. -/
noncomputable def gt : Fl → Fl → Bool
  | fin x, fin y => decide (y < x)
  | inf s, fin _ => !s
  | fin _, inf s => s
  | inf s, inf s' => !s && s'
  | _, _ => false

/-- `pt.sum` of a list. -/
noncomputable def sum (l : List Fl) : Fl := l.foldl (· + ·) (fin 0)

end Fl
end Exo
