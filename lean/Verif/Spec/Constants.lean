import Verif.Model.Constants

/-!
# The constants of an orbit, tied to SI
-/

namespace Exo

/-- The constants `C` of the orbit model are those that `constants.py` computes from the SI values `S`, and its units are the units
of `S`. -/
structure Consts.From (C : Consts) (S : Astropy) : Prop where
  computed : ∃ d, constants (some S) = .ok ⟨C.G, C.gccPerSun, C.auPerRsun, d, C.c⟩
  rSun : C.rSunScale = S.R_sun
  mSun : C.mSunScale = S.M_sun
  day : C.dayScale = S.day
  gcc : C.gccScale = 1000
  mPerS : C.mPerSScale = 1

/-- The SI value of an argument; a bare number is in the unit `u`. -/
def Q.si (q : Q) (u : AUnit) : ℝ := q.val * (q.unit.getD u).scale

end Exo
