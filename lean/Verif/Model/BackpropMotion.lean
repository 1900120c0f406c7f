import Verif.Model.BackpropRv

/-!
# The graphs of positions, velocities and accelerations

Of the planet, of the star and of the planet relative to the star, for the orbits of `Verif.Model.BackpropStar`, at one time, without parallax and light delay.
-/

namespace Exo
open Real

/-- Whose coordinates are asked for. -/
inductive Body where
  | planet
  | star
  | relative

/-- What is asked for. -/
inductive Motion where
  | position
  | velocity
  | acceleration

/-- A component of a vector. -/
inductive Coord where
  | x
  | y
  | z

namespace StarMode
open Graph
variable (C : Consts) (s : StarMode) (m : KepMode)

/-- The first argument of `_get_position` and `_get_acceleration`: `self.a_planet`, `self.a_star` (`keplerian.py:147-148`) or `-self.a` — `keplerian.py:488`, 513, 540, 693, 699, 705. -/
noncomputable def axisG : Body → Graph StarPar
  | .planet => div (mul (neg (s.aG C)) (s.mStarG C)) (s.mTotalG C)
  | .star => div (mul (s.aG C) (input .m_planet)) (s.mTotalG C)
  | .relative => neg (s.aG C)

/-- The argument `m` of `_get_velocity` and `_get_acceleration` — `keplerian.py:592`, 611, 630, 693, 699, 705. -/
noncomputable def factorG : Body → Graph StarPar
  | .planet => neg (s.mStarG C)
  | .star => input .m_planet
  | .relative => neg (s.mTotalG C)

/-- `K` — `keplerian.py:575`, 681. -/
noncomputable def amplitudeG (b : Body) : Graph StarPar := mul (s.K0G C m) (s.factorG C b)

/-- `r` — `keplerian.py:401-404`. -/
noncomputable def distanceG (b : Body) (t : ℝ) : Graph StarPar := match m with
  | .circular => s.axisG C b
  | m => div (mul (s.axisG C b) (KepMode.ome2G (s.parG C))) (add (const 1) (mul (input (.kep .ecc)) (m.cosfG (s.parG C) (clock t))))

/-- `factor` — `keplerian.py:682-687`. -/
noncomputable def pullG (b : Body) (t : ℝ) : Graph StarPar := match m with
  | .circular => div (neg (pow (s.amplitudeG C m b) 2)) (s.axisG C b)
  | m => div (mul (pow (s.amplitudeG C m b) 2) (pow (add (mul (input (.kep .ecc)) (m.cosfG (s.parG C) (clock t))) (const 1)) 2))
      (mul (s.axisG C b) (sub (pow (input (.kep .ecc)) 2) (const 1)))

/-- The first argument of `_rotate_vector` — `keplerian.py:409`, 577, 578, 688. -/
noncomputable def alongG (b : Body) (t : ℝ) : Motion → Graph StarPar
  | .position => mul (s.distanceG C m b t) (m.cosfG (s.parG C) (clock t))
  | .velocity => mul (neg (s.amplitudeG C m b)) (m.sinfG (s.parG C) (clock t))
  | .acceleration => mul (s.pullG C m b t) (m.cosfG (s.parG C) (clock t))

/-- The second argument of `_rotate_vector` — `keplerian.py:409`, 577, 578, 688. -/
noncomputable def acrossG (b : Body) (t : ℝ) : Motion → Graph StarPar
  | .position => mul (s.distanceG C m b t) (m.sinfG (s.parG C) (clock t))
  | .velocity => match m with
    | .circular => mul (s.amplitudeG C m b) (m.cosfG (s.parG C) (clock t))
    | m => mul (s.amplitudeG C m b) (add (m.cosfG (s.parG C) (clock t)) (input (.kep .ecc)))
  | .acceleration => mul (s.pullG C m b t) (m.sinfG (s.parG C) (clock t))

/-- `_rotate_vector` without `Omega` — `keplerian.py:303-316`. -/
noncomputable def rotateG (x y : Graph StarPar) (c : Coord) : Graph StarPar :=
  let x1 := match m with
    | .circular => x
    | m => sub (mul (m.cosOmegaG (s.parG C)) x) (mul (m.sinOmegaG (s.parG C)) y)
  let y1 := match m with
    | .circular => y
    | m => add (mul (m.sinOmegaG (s.parG C)) x) (mul (m.cosOmegaG (s.parG C)) y)
  match c with
  | .x => x1
  | .y => mul (m.cosInclG (s.parG C)) y1
  | .z => mul (neg (m.sinInclG (s.parG C))) y1

/-- `get_planet_position`, `get_star_velocity`, `get_relative_acceleration` and so on, at time `t` — `keplerian.py:472-542`, 580-631, 690-706. -/
noncomputable def motionG (b : Body) (k : Motion) (c : Coord) (t : ℝ) : Graph StarPar := s.rotateG C m (s.alongG C m b t k) (s.acrossG C m b t k) c

end StarMode
end Exo
