/-
Model of `check_move` (include/Ergodic_moves_3.hpp:1847-1923).
-/
import Verif.Model.Metropolis

namespace CDT

/-- The observations of a `Manifold` that `check_move` makes (include/Manifold.hpp:219-312).
`radius` and `spacing` are the bit patterns compared by `same_configuration_value`
(include/Ergodic_moves_3.hpp, `std::bit_cast` equality of doubles). `N1_SL`/`N1_TL` are read from the
triangulation (include/Manifold.hpp:285-288), the other counts from the cached geometry. -/
structure ManifoldView where
  structurallyCorrect : Bool
  radius : BitVec 64
  spacing : BitVec 64
  geom : Geometry
  triN1_SL : Int
  triN1_TL : Int
  maxTime : Int
  minTime : Int
  deriving DecidableEq

/-- `check_move` (include/Ergodic_moves_3.hpp:1847-1923) on the five declared moves; the `default`
branch (line 1921) returns false for undeclared codes and is not reachable from the
callers, which dispatch on the move first. -/
def checkMove (b a : ManifoldView) (m : MoveType) : Bool :=
  if !a.structurallyCorrect || a.radius != b.radius || a.spacing != b.spacing then false
  else match m with
  | .fourFour =>
    a.geom.N3 == b.geom.N3 && a.geom.N3_31 == b.geom.N3_31 && a.geom.N3_22 == b.geom.N3_22 &&
    a.geom.N3_13 == b.geom.N3_13 && a.geom.N2 == b.geom.N2 && a.geom.N1 == b.geom.N1 &&
    a.triN1_TL == b.triN1_TL && a.triN1_SL == b.triN1_SL && a.geom.N0 == b.geom.N0 &&
    a.maxTime == b.maxTime && a.minTime == b.minTime
  | .twoThree =>
    a.geom.N3 == b.geom.N3 + 1 && a.geom.N3_31 == b.geom.N3_31 &&
    a.geom.N3_22 == b.geom.N3_22 + 1 &&
    a.geom.N3_13 == b.geom.N3_13 && a.geom.N2 == b.geom.N2 + 2 && a.geom.N1 == b.geom.N1 + 1 &&
    a.triN1_TL == b.triN1_TL + 1 && a.triN1_SL == b.triN1_SL && a.geom.N0 == b.geom.N0 &&
    a.maxTime == b.maxTime && a.minTime == b.minTime
  | .threeTwo =>
    a.geom.N3 == b.geom.N3 - 1 && a.geom.N3_31 == b.geom.N3_31 &&
    a.geom.N3_22 == b.geom.N3_22 - 1 &&
    a.geom.N3_13 == b.geom.N3_13 && a.geom.N2 == b.geom.N2 - 2 && a.geom.N1 == b.geom.N1 - 1 &&
    a.triN1_TL == b.triN1_TL - 1 && a.triN1_SL == b.triN1_SL && a.geom.N0 == b.geom.N0 &&
    a.maxTime == b.maxTime && a.minTime == b.minTime
  | .twoSix =>
    a.geom.N3 == b.geom.N3 + 4 && a.geom.N3_31 == b.geom.N3_31 + 2 &&
    a.geom.N3_22 == b.geom.N3_22 &&
    a.geom.N3_13 == b.geom.N3_13 + 2 && a.geom.N2 == b.geom.N2 + 8 && a.geom.N1 == b.geom.N1 + 5 &&
    a.triN1_TL == b.triN1_TL + 2 && a.triN1_SL == b.triN1_SL + 3 && a.geom.N0 == b.geom.N0 + 1 &&
    a.maxTime == b.maxTime && a.minTime == b.minTime
  | .sixTwo =>
    a.geom.N3 == b.geom.N3 - 4 && a.geom.N3_31 == b.geom.N3_31 - 2 &&
    a.geom.N3_22 == b.geom.N3_22 &&
    a.geom.N3_13 == b.geom.N3_13 - 2 && a.geom.N2 == b.geom.N2 - 8 && a.geom.N1 == b.geom.N1 - 5 &&
    a.triN1_TL == b.triN1_TL - 2 && a.triN1_SL == b.triN1_SL - 3 && a.geom.N0 == b.geom.N0 - 1 &&
    a.maxTime == b.maxTime && a.minTime == b.minTime

end CDT
