/-
What a drawn scene should show, without reference to how the triangulation is stored.
-/
import Verif.Model.RenderScene
import Mathlib.Data.Multiset.Basic
import Mathlib.Data.Multiset.MapFold
import Mathlib.Data.Sym.Sym2

namespace CDT.Spec

/-- What is visible of a vertex: bit patterns of its coordinates with its label, and the coordinates. -/
def vertexData (t : Mesh) (v : Fin t.nv) : List ℕ × (ℚ × ℚ × ℚ) := (t.vertexKey v, t.coord v)

/-- The facet is an outer one: the cell on one of its sides has the infinite vertex. -/
def Outer (t : Mesh) (f : Fin t.nc × Fin 4) : Prop :=
  (∃ i, t.corner f.1 i = none) ∨ ∃ i, t.corner (t.neighbor f.1 f.2) i = none

/-- The vertex is a corner of the facet: a vertex of its cell other than the one opposite. -/
def CornerOf (t : Mesh) (v : Fin t.nv) (f : Fin t.nc × Fin 4) : Prop :=
  ∃ i, i ≠ f.2 ∧ t.corner f.1 i = some v

/-- The vertex lies on the convex hull. -/
def OnHull (t : Mesh) (v : Fin t.nv) : Prop := ∃ f ∈ t.facets, Outer t f ∧ CornerOf t v f

/-- A facet without reference to its storage: its corners in no order, and whether it is outer. -/
def facetData (t : Mesh) (f : Fin t.nc × Fin 4) : Multiset (List ℕ × (ℚ × ℚ × ℚ)) × Bool :=
  (((t.facetCorners f : List (Fin t.nv)) : Multiset (Fin t.nv)).map (vertexData t), t.onHull f)

/-- Two stored triangulations show the same complex: the same vertices, edges and facets in some
order, each facet from either side, its corners in any order. -/
structure SameComplex (t t' : Mesh) : Prop where
  vertices : ((List.finRange t.nv).map (vertexData t)).Perm ((List.finRange t'.nv).map (vertexData t'))
  edges : (t.edges.map fun e => s(vertexData t e.1, vertexData t e.2)).Perm
    (t'.edges.map fun e => s(vertexData t' e.1, vertexData t' e.2))
  facets : (t.facets.map (facetData t)).Perm (t'.facets.map (facetData t'))

/-- The coordinates are what their bit patterns stand for. -/
def Encodes (value : BitVec 64 → ℚ) (t : Mesh) : Prop :=
  ∀ v, t.coord v = (value (t.bits v).1, value (t.bits v).2.1, value (t.bits v).2.2)

/-- A drawn edge without its direction. -/
def bareEdge (e : (ℚ × ℚ × ℚ) × (ℚ × ℚ × ℚ) × Rgba) : Sym2 (ℚ × ℚ × ℚ) × Rgba := (s(e.1, e.2.1), e.2.2)

/-- The determinant of three points: six times the signed volume they span with the origin; positive
if they go counterclockwise seen from outside. -/
def det3 (a b c : ℚ × ℚ × ℚ) : ℚ :=
  a.1 * (b.2.1 * c.2.2 - b.2.2 * c.2.1) - a.2.1 * (b.1 * c.2.2 - b.2.2 * c.1) + a.2.2 * (b.1 * c.2.1 - b.2.1 * c.1)

/-- Facets of a mesh are finite: three corners other than the infinite vertex. -/
def FiniteFacets (t : Mesh) : Prop := ∀ f ∈ t.facets, ∀ i, i ≠ f.2 → t.corner f.1 i ≠ none

end CDT.Spec
