import Verif.Spec.Orbit

/-!
# What a transit is
-/

namespace Exo

/-- At time `t` the planet (radius `r`) is in front of the star and its sky-projected disc touches the stellar disc:
sky separation at most `r_star + r`. -/
def Overlaps (C : Consts) (o : Orbit) (r t : ℝ) : Prop :=
  0 ≤ (o.relativePosition C t).z ∧
  √((o.relativePosition C t).x ^ 2 + (o.relativePosition C t).y ^ 2) ≤ o.r_star + r

/-- `x` is within one of the intervals `[s + k p, e + k p]`, `k` an integer. -/
def InPeriodicWindow (p s e x : ℝ) : Prop := ∃ k : ℤ, s + k * p ≤ x ∧ x ≤ e + k * p

end Exo
