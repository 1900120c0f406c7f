import Verif.Model.LightCurve

/-!
# What a light curve is
-/

namespace Exo
open Real

/-- The relative flux change caused by one body of radius `r` at position `v` in front of a star of radius `R`. -/
noncomputable def fluxAt (c : ℝ × ℝ × ℝ) (R r : ℝ) (v : V3) : ℝ :=
  computeLightCurve c (√(v.x ^ 2 + v.y ^ 2) / R) (r / R) (some (v.z / R))

/-- The exposure average of `F` at time `t`: `F t` itself without exposure time, the weighted sum over the stencil
(offsets `S.1` in units of the exposure time, weights `S.2`) otherwise. -/
noncomputable def exposureAverage (F : ℝ → ℝ) (t : ℝ) : Option (ℝ × List ℝ × List ℝ) → ℝ
  | none => F t
  | some (x, S) => (List.zipWith (fun d w => w * F (t + x * d)) S.1 S.2).sum

/-- The exposure time that applies to the time at index `i`: a scalar applies to all times. -/
def texpAt (x : Tensor ℝ) (i : List ℕ) : ℝ := if x.shape = [] then x.get [] else x.get i

/-- The same, zero when there is no exposure time. -/
def texpOr0 (x : Option (Tensor ℝ)) (i : List ℕ) : ℝ :=
  match x with
  | none => 0
  | some x => texpAt x i

end Exo

namespace Exo

/-- Two arrays are equal: same shape and same entries. -/
def Tensor.Same {α : Type} (x y : Tensor α) : Prop := x.shape = y.shape ∧ ∀ idx, InShape idx x.shape → x.get idx = y.get idx

end Exo
