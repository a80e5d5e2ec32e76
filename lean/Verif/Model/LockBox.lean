/-
The box of the spatial lock grid used by parallel triangulation
(include/Foliated_triangulation.hpp:118-171), in `double` arithmetic.
-/
import Verif.Model.Radius

namespace CDT

/-- `CGAL::Bbox_3`. -/
structure BBox where
  xmin : LD
  ymin : LD
  zmin : LD
  xmax : LD
  ymax : LD
  zmax : LD
  deriving DecidableEq

/-- `std::min`. -/
def LD.min2 (a b : LD) : LD := if b.lt a then b else a

/-- `std::max`. -/
def LD.max2 (a b : LD) : LD := if a.lt b then b else a

/-- `point.bbox()`: with the inexact-constructions kernel, the point itself. -/
def pointBox (p : FPoint) : BBox := ⟨p.x, p.y, p.z, p.x, p.y, p.z⟩

/-- CGAL's `operator+` on boxes, as used in include/Foliated_triangulation.hpp:147. -/
def boxSum (a b : BBox) : BBox :=
  ⟨a.xmin.min2 b.xmin, a.ymin.min2 b.ymin, a.zmin.min2 b.zmin,
    a.xmax.max2 b.xmax, a.ymax.max2 b.ymax, a.zmax.max2 b.zmax⟩

/-- `padding` in `pad_locking_box` (include/Foliated_triangulation.hpp:125-127): `std::max` of an
initializer list keeps the first of the largest elements. -/
def boxPadding (F : FloatFormat) (b : BBox) : LD :=
  let percent := F.rnd (1 / 100)
  [F.mul (F.sub b.xmax b.xmin) percent, F.mul (F.sub b.ymax b.ymin) percent,
    F.mul (F.sub b.zmax b.zmin) percent].foldl LD.max2 (F.ofInt 1)

/-- `pad_locking_box` (include/Foliated_triangulation.hpp:122-130). -/
def padLockingBox (F : FloatFormat) (b : BBox) : BBox :=
  let padding := boxPadding F b
  ⟨F.sub b.xmin padding, F.sub b.ymin padding, F.sub b.zmin padding,
    F.add b.xmax padding, F.add b.ymax padding, F.add b.zmax padding⟩

/-- `GV_BOUNDING_BOX_SIZE` (include/Settings.hpp:55). -/
def boundingBoxSize : ℤ := 100

/-- `default_locking_box` (include/Foliated_triangulation.hpp:132-136). -/
def defaultLockingBox (F : FloatFormat) : BBox :=
  let e := F.ofInt boundingBoxSize
  let n := F.sub (.fin 0) e
  ⟨n, n, n, e, e, e⟩

/-- `locking_box` (include/Foliated_triangulation.hpp:138-170), for the points of the causal vertices
or of the finite vertices. -/
def lockingBox (F : FloatFormat) : List FPoint → BBox
  | [] => defaultLockingBox F
  | p :: ps => padLockingBox F (ps.foldl (fun b q => boxSum b (pointBox q)) (pointBox p))

end CDT
