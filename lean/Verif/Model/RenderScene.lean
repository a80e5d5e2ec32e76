import Verif.Model.RenderImage
import Verif.Model.Fnv
import Mathlib.Data.List.Lex
import Mathlib.Data.List.Sort
import Mathlib.Data.List.FinRange
/-
The scene the viewer draws (src/cdt-viewer.cpp:609-766).

Simplified: coordinates are exact rationals, so `orient_outward` computes without rounding; the bit
patterns used as keys are separate data.  `CGAL::add_to_graphics_scene` draws every finite vertex the
options let through, and every finite edge unless edges are ignored.
-/
namespace CDT

/-- What the scene code reads of a triangulation. -/
structure Mesh where
  /-- number of finite vertices -/
  nv : ℕ
  /-- number of cells, infinite ones included -/
  nc : ℕ
  /-- `to_double` of the coordinates -/
  coord : Fin nv → ℚ × ℚ × ℚ
  /-- their bit patterns -/
  bits : Fin nv → BitVec 64 × BitVec 64 × BitVec 64
  /-- `vertex->info()` -/
  label : Fin nv → ℤ
  /-- `cell->vertex(i)`; `none` is the infinite vertex -/
  corner : Fin nc → Fin 4 → Option (Fin nv)
  /-- `cell->neighbor(i)` -/
  neighbor : Fin nc → Fin 4 → Fin nc
  /-- `finite_edges`, as pairs of ends -/
  edges : List (Fin nv × Fin nv)
  /-- `finite_facets` -/
  facets : List (Fin nc × Fin 4)

/-- `mix_hash` (src/cdt-viewer.cpp:612-620). -/
def mixHash (hash : BitVec 64) : BitVec 64 :=
  let hash := hash ^^^ (hash >>> 30)
  let hash := hash * 0xbf58476d1ce4e5b9#64
  let hash := hash ^^^ (hash >>> 27)
  let hash := hash * 0x94d049bb133111eb#64
  hash ^^^ (hash >>> 31)

/-- `append_hash` (src/cdt-viewer.cpp:622-629): the eight bytes, least significant first. -/
def appendHash (hash value : BitVec 64) : BitVec 64 :=
  (List.range 8).foldl (fun h byte => fnvStep h ((value >>> (8 * byte)).truncate 8)) hash

namespace Mesh

variable (t : Mesh)

/-- `vertex_key` (src/cdt-viewer.cpp:631-639), as numbers, which compare like `std::array`s of
`std::uint64_t`. -/
def vertexKey (v : Fin t.nv) : List ℕ :=
  [(t.bits v).1.toNat, (t.bits v).2.1.toNat, (t.bits v).2.2.toNat, toU64 (t.label v)]

/-- The three vertices of a finite facet, unsorted (src/cdt-viewer.cpp:645-649). -/
def facetCorners (f : Fin t.nc × Fin 4) : List (Fin t.nv) :=
  [t.corner f.1 (f.2 + 1), t.corner f.1 (f.2 + 2), t.corner f.1 (f.2 + 3)].filterMap id

/-- `facet_vertices` (src/cdt-viewer.cpp:641-652).  `std::ranges::sort` may order vertices of equal
key either way; the model keeps their order. -/
def facetVertices (f : Fin t.nc × Fin 4) : List (Fin t.nv) :=
  (t.facetCorners f).insertionSort fun v w => t.vertexKey v ≤ t.vertexKey w

/-- `facet_hash` (src/cdt-viewer.cpp:654-664). -/
def facetHash (vertices : List (Fin t.nv)) : BitVec 64 :=
  mixHash (vertices.foldl (fun h v =>
    (t.vertexKey v).foldl (fun h value => appendHash h (BitVec.ofNat 64 value)) h) fnvOffset)

/-- `is_infinite(cell)`. -/
def isInfinite (c : Fin t.nc) : Bool := (List.finRange 4).any fun i => (t.corner c i).isNone

/-- One side of the facet is an infinite cell (src/cdt-viewer.cpp:675-678). -/
def onHull (f : Fin t.nc × Fin 4) : Bool := t.isInfinite f.1 || t.isInfinite (t.neighbor f.1 f.2)

/-- `convex_hull_vertices` (src/cdt-viewer.cpp:666-686), as a list of keys. -/
def convexHullVertices : List (List ℕ) :=
  t.facets.foldl (fun result f =>
    if !t.onHull f then result else result ++ (t.facetVertices f).map t.vertexKey) []

end Mesh

/-- Difference of points. -/
def subQ (a b : ℚ × ℚ × ℚ) : ℚ × ℚ × ℚ := (a.1 - b.1, a.2.1 - b.2.1, a.2.2 - b.2.2)

/-- `radial_alignment` of a triangle (src/cdt-viewer.cpp:698-710). -/
def radialAlignment (a b c : ℚ × ℚ × ℚ) : ℚ :=
  let ab := subQ b a
  let ac := subQ c a
  let normal := (ab.2.1 * ac.2.2 - ab.2.2 * ac.2.1, ab.2.2 * ac.1 - ab.1 * ac.2.2,
    ab.1 * ac.2.1 - ab.2.1 * ac.1)
  let centroid := (a.1 + b.1 + c.1, a.2.1 + b.2.1 + c.2.1, a.2.2 + b.2.2 + c.2.2)
  normal.1 * centroid.1 + normal.2.1 * centroid.2.1 + normal.2.2 * centroid.2.2

/-- `orient_outward` (src/cdt-viewer.cpp:688-712) on a list of three vertices. -/
def Mesh.orientOutward (t : Mesh) : List (Fin t.nv) → List (Fin t.nv)
  | [a, b, c] =>
    if radialAlignment (t.coord a) (t.coord b) (t.coord c) < 0 then [a, c, b] else [a, b, c]
  | l => l

/-- `CGAL::Graphics_scene`: coloured vertices, coloured edges and coloured faces as they were added. -/
structure Scene where
  vertices : List ((ℚ × ℚ × ℚ) × Rgba)
  edges : List ((ℚ × ℚ × ℚ) × (ℚ × ℚ × ℚ) × Rgba)
  faces : List ((Fin 256 × Fin 256 × Fin 256) × List (ℚ × ℚ × ℚ))

/-- `make_scene` (src/cdt-viewer.cpp:714-766); `std::out_of_range` comes from `face_palette.at`. -/
def makeScene (t : Mesh) (r : RenderConfig) : Except Exc Scene := do
  let hull := if r.vertexScope = ascii "convex_hull" then t.convexHullVertices else []
  let vertices := if r.drawVertices then
      ((List.finRange t.nv).filter fun v =>
        decide (r.vertexScope = ascii "all") || decide (t.vertexKey v ∈ hull)).map
          fun v => (t.coord v, r.pointColor)
    else []
  let edges := if r.drawsSceneEdges then t.edges.map fun e => (t.coord e.1, t.coord e.2, r.edgeColor) else []
  let faces ← if r.drawFaces then
      t.facets.mapM fun f => do
        let vertices := t.facetVertices f
        let index := (t.facetHash vertices).toNat % r.facePalette.length
        let oriented := t.orientOutward vertices
        match r.facePalette[index]? with
        | none => .error .outOfRange
        | some color => Except.ok (color, oriented.map t.coord)
    else .ok []
  return { vertices, edges, faces }

end CDT
