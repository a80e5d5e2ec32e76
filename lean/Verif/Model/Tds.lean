/-
Model of the CGAL triangulation data structure as the moves use it.

CGAL is not part of /repo; what is modelled here is the contract of the operations that
include/Ergodic_moves_3.hpp calls.  A `Tri` is the combinatorial content of a
`Delaunay_triangulation_3`: the set of cells (each the set of its four vertices, one of which
may be the vertex at infinity `inf`), `vertex->info()` and `cell->info()`.  A vertex is
identified with its point: the code itself locates vertices by point
(include/Ergodic_moves_3.hpp:272-318), and the linear order on `V` is CGAL's lexicographic
order of points (lines 250-252).

Contract assumptions about CGAL (listed in DESIGN.md):
* `cell->neighbor(i)` is the other cell containing the facet opposite vertex `i`;
* `incident_cells(edge)` visits every cell containing the edge;
* a facet flip is refused when the created edge already exists, an edge flip when the edge
  does not have three incident cells or the created facet already exists;
* `tds().is_valid()` accepts exactly the closed pseudo-manifolds.
-/
import Verif.Model.Foliation
import Mathlib.Data.Finset.Max
import Mathlib.Data.Finset.Powerset

namespace CDT

/-- Combinatorial content of a `Delaunay_t<3>` (include/Triangulation_traits.hpp; used
throughout include/Ergodic_moves_3.hpp). -/
structure Tri (V : Type) where
  inf : V
  cells : Finset (Finset V)
  time : V → ℤ
  info : Finset V → ℤ

namespace Tri
variable {V : Type} [LinearOrder V]

/-- `tds().is_vertex` domain: every vertex of a cell, including the one at infinity. -/
def verts (K : Tri V) : Finset V := K.cells.biUnion id

/-- `finite_vertex_handles` as a set (include/Foliated_triangulation.hpp:655-667). -/
def finiteVerts (K : Tri V) : Finset V := K.verts.erase K.inf

/-- `finite_cell_handles` as a set (include/Foliated_triangulation.hpp:693-704). -/
def finiteCells (K : Tri V) : Finset (Finset V) := K.cells.filter (K.inf ∉ ·)

/-- `finite_edges` as a set (include/Foliated_triangulation.hpp:422-436). -/
def finiteEdges (K : Tri V) : Finset (Finset V) :=
  (K.cells.biUnion (Finset.powersetCard 2)).filter (K.inf ∉ ·)

/-- `finite_facets` as a set (include/Foliated_triangulation.hpp:2051-2063). -/
def finiteFacets (K : Tri V) : Finset (Finset V) :=
  (K.cells.biUnion (Finset.powersetCard 3)).filter (K.inf ∉ ·)

/-- The vertex times of a cell as read by `expected_cell_type`
(include/Foliated_triangulation.hpp:820-828). -/
def cellTimes (K : Tri V) (c : Finset V) : List ℤ := (canonicalPoints c).map K.time

/-- `expected_cell_type` of a cell (include/Foliated_triangulation.hpp:815-868). -/
def expectedType (K : Tri V) (c : Finset V) : CellType := expectedCellType (K.cellTimes c)

/-- `is_cell_type_correct` of a cell (include/Foliated_triangulation.hpp:875-882). -/
def typeCorrect (K : Tri V) (c : Finset V) : Bool := isCellTypeCorrect (K.cellTimes c) (K.info c)

/-- `tds().is_edge` (CGAL), as used at include/Ergodic_moves_3.hpp:231, 768, 1481. -/
def isEdge (K : Tri V) (a b : V) : Bool := decide (a ≠ b ∧ ∃ c ∈ K.cells, a ∈ c ∧ b ∈ c)

/-- The vertex of `cell->neighbor(i)` that is not in `cell` (`neighbor->vertex(mirror_index)`,
include/Ergodic_moves_3.hpp:555-573).  In a closed pseudo-manifold exactly one vertex
qualifies. -/
def mirror (K : Tri V) (c : Finset V) (v : V) : Option V :=
  (K.verts.filter (fun w => w ∉ c ∧ insert w (c.erase v) ∈ K.cells)).min

/-- Cells incident to an edge (`incident_cells(edge)`, include/Ergodic_moves_3.hpp:236-246). -/
def edgeCells (K : Tri V) (a b : V) : Finset (Finset V) :=
  K.cells.filter (fun c => a ∈ c ∧ b ∈ c)

/-- Cells incident to a vertex (`tds().incident_cells(vertex)`,
include/Ergodic_moves_3.hpp:1163-1165). -/
def vertexCells (K : Tri V) (v : V) : Finset (Finset V) := K.cells.filter (v ∈ ·)

/-- `degree(vertex)` (CGAL), used at include/Ergodic_moves_3.hpp:1156 and 1278. -/
def degree (K : Tri V) (v : V) : ℕ := (((K.vertexCells v).biUnion id).erase v).card

/-- `tds().is_valid()` (CGAL), modelled as the closed pseudo-manifold condition. -/
def isValid (K : Tri V) : Bool :=
  decide ((∀ c ∈ K.cells, c.card = 4) ∧
    ∀ s ∈ K.cells.biUnion (Finset.powersetCard 3), (K.cells.filter (s ⊆ ·)).card = 2)

/-- `tds().flip(Facet)` (CGAL), used at include/Ergodic_moves_3.hpp:1641: replaces the two
cells at the facet of `c` opposite `v` by the three cells around the new edge.  The stored
labels of the new cells are stale (they are rewritten by `classify_cells`). -/
def flipFacet (K : Tri V) (c : Finset V) (v : V) : Option (Tri V) :=
  match K.mirror c v with
  | none => none
  | some w =>
    if ∃ d ∈ K.cells, v ∈ d ∧ w ∈ d then none
    else some { K with
      cells := (K.cells \ {c, insert w (c.erase v)}) ∪
        (c.erase v).image (fun x => (insert w c).erase x) }

/-- `tds().flip(Edge)` (CGAL), used at include/Ergodic_moves_3.hpp:1272 and 1652: replaces the
three cells around the edge by the two cells on both sides of its link triangle. -/
def flipEdge (K : Tri V) (a b : V) : Option (Tri V) :=
  let inc := K.edgeCells a b
  let link := ((inc.biUnion id).erase a).erase b
  if inc.card ≠ 3 then none
  else if ∃ d ∈ K.cells, link ⊆ d then none
  else some { K with cells := (K.cells \ inc) ∪ {insert a link, insert b link} }

/-- `tds().insert_in_facet` (CGAL), used at include/Ergodic_moves_3.hpp:1001: subdivides the
facet of `c` opposite `v` and the two cells sharing it with the new vertex `m`. -/
def insertInFacet (K : Tri V) (c : Finset V) (v m : V) : Option (Tri V) :=
  match K.mirror c v with
  | none => none
  | some w => some { K with
      cells := (K.cells \ {c, insert w (c.erase v)}) ∪
        ((c.erase v).image (fun x => insert m (c.erase x)) ∪
         (c.erase v).image (fun x => insert m ((insert w (c.erase v)).erase x))) }

/-- `tds().remove_from_maximal_dimension_simplex` (CGAL), used at
include/Ergodic_moves_3.hpp:1283: replaces the star of a degree-four vertex by one cell. -/
def removeVertex (K : Tri V) (v : V) : Tri V :=
  let inc := K.vertexCells v
  { K with cells := (K.cells \ inc) ∪ {(inc.biUnion id).erase v} }

end Tri
end CDT
