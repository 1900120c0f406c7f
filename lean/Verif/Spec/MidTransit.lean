import Verif.Model.Keplerian

/-!
# The middle of a transit (C110)
-/

namespace Exo

/-- The square of the distance between star and planet on the sky. -/
noncomputable def skyDistSq (C : Consts) (o : Orbit) (t : ℝ) : ℝ := (o.relativePosition C t).x ^ 2 + (o.relativePosition C t).y ^ 2

/-- `f` runs backwards from `c` as it runs forwards. -/
def SymmetricAbout (f : ℝ → ℝ) (c : ℝ) : Prop := ∀ s, f (c + s) = f (c - s)

end Exo
