/-
Radii and time values in `double` arithmetic (include/Foliated_triangulation.hpp:588-691, 1861-1915).
-/
import Verif.Model.Population

namespace CDT

/-- IEEE subtraction. -/
def FloatFormat.sub (F : FloatFormat) : LD → LD → LD
  | .nan, _ | _, .nan => .nan
  | .inf a, .inf b => if a = b then .nan else .inf a
  | .inf a, .fin _ => .inf a
  | .fin _, .inf b => .inf (!b)
  | .fin x, .fin y => F.rnd (x - y)

/-- The C library functions involved: `std::sqrt` and `std::pow(·, 2)`. -/
structure MathLib where
  sqrt : LD → LD
  sq : LD → LD

/-- Cartesian coordinates of a point, as stored. -/
structure FPoint where
  x : LD
  y : LD
  z : LD

/-- `squared_radius` (include/Foliated_triangulation.hpp:588-600): CGAL's `squared_distance` to the
origin, `ORIGIN_POINT` (include/Triangulation_traits.hpp:71), summing the squares of the coordinate
differences from left to right.  Simplified: no contraction to fused operations. -/
def squaredRadius (F : FloatFormat) (p : FPoint) : LD :=
  let dx := F.sub p.x (.fin 0)
  let dy := F.sub p.y (.fin 0)
  let dz := F.sub p.z (.fin 0)
  F.add (F.add (F.mul dx dx) (F.mul dy dy)) (F.mul dz dz)

/-- Nearest integer, halves away from zero. -/
def lroundQ (q : ℚ) : ℤ := if 0 ≤ q then ⌊q + 1 / 2⌋ else -⌊-q + 1 / 2⌋

/-- `static_cast<Int_precision>(std::lround(x))` (include/Foliated_triangulation.hpp:623-625).  For
infinities and NaN `lround` returns an unspecified value, here 0; a value out of range wraps. -/
def LD.lroundInt : LD → ℤ
  | .fin q => Int.bmod (lroundQ q) (2 ^ 32)
  | _ => 0

/-- `expected_timevalue` (include/Foliated_triangulation.hpp:616-626, 1894-1900). -/
def expectedTimevalue (F : FloatFormat) (M : MathLib) (r s : LD) (p : FPoint) : ℤ :=
  let radius := M.sqrt (squaredRadius F p)
  (F.div (F.add (F.sub radius r) s) s).lroundInt

/-- `check_vertices` with `is_vertex_timevalue_correct`
(include/Foliated_triangulation.hpp:634-646, 680-691), on the points and stored time values of the
finite vertices. -/
def checkVertices (F : FloatFormat) (M : MathLib) (r s : LD) (vs : List (FPoint × ℤ)) : Bool :=
  vs.all fun v => expectedTimevalue F M r s v.1 == v.2

/-- `expected_radius` (include/Foliated_triangulation.hpp:1887-1892) for a stored time value. -/
def expectedRadius (F : FloatFormat) (r s : LD) (t : ℤ) : LD :=
  F.add r (F.mul s (F.ofInt (t - 1)))

/-- `TOLERANCE` (include/Settings.hpp:52). -/
def tolerance (F : FloatFormat) : LD := F.rnd (1 / 100)

/-- `does_vertex_radius_match_timevalue` (include/Foliated_triangulation.hpp:1866-1875). -/
def radiusMatches (F : FloatFormat) (M : MathLib) (r s : LD) (p : FPoint) (t : ℤ) : Bool :=
  let actual := squaredRadius F p
  let expected := M.sq (expectedRadius F r s t)
  (F.mul expected (F.sub (.fin 1) (tolerance F))).lt actual &&
    actual.lt (F.mul expected (F.add (.fin 1) (tolerance F)))

end CDT
