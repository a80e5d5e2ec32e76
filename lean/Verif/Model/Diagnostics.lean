import Verif.Model.Values
/-
`is_correct` and `is_correct_with_diagnostics` of a foliated triangulation as an object
(include/Foliated_triangulation.hpp:1481-1545, 1749-1771).
-/
namespace CDT.Val
variable {V : Type} [LinearOrder V]

/-- `tds.is_vertex` (CGAL), as used at include/Foliated_triangulation.hpp:1513-1515: the handle points
into this body and denotes a vertex, the one at infinity included. -/
def isVertexHandle (K : Tri V) (b : ℕ) (h : Handle V) : Bool :=
  h.1 == b && decide (h.2.card = 1 ∧ ∃ c ∈ K.cells, h.2 ⊆ c)

/-- `tds.is_cell` (CGAL), as used at include/Foliated_triangulation.hpp:1516-1518. -/
def isCellHandle (K : Tri V) (b : ℕ) (h : Handle V) : Bool := h.1 == b && decide (h.2 ∈ K.cells)

/-- `tds.is_facet` (CGAL), as used at include/Foliated_triangulation.hpp:1519-1522. -/
def isFacetHandle (K : Tri V) (b : ℕ) (h : Handle V) : Bool :=
  h.1 == b && decide (h.2.card = 3 ∧ ∃ c ∈ K.cells, h.2 ⊆ c)

/-- `tds.is_valid(cell, i, j)` (CGAL), as used at include/Foliated_triangulation.hpp:1523-1526. -/
def isEdgeHandle (K : Tri V) (b : ℕ) (h : Handle V) : Bool :=
  h.1 == b && decide (h.2.card = 2 ∧ ∃ c ∈ K.cells, h.2 ⊆ c)

/-- `collect_spacelike_facets` on stored facets (include/Foliated_triangulation.hpp:1027-1078). -/
def collectSpacelikeHandles (K : Tri V) (fs : List (Handle V)) : List (ℤ × Handle V) :=
  (fs.filterMap (fun h =>
    match ((canonicalPoints h.2).map K.time).dedup with
    | [t] => some (t, h)
    | _ => none)).insertionSort (fun a b => a.1 ≤ b.1)

/-- `has_consistent_derived_state` (include/Foliated_triangulation.hpp:1499-1545) of an object with
body `b` holding `K`.  Labels and times are read from `K`, to which all handles belong once the
validity tests have passed.  An exception of `find_max_timevalue` cannot occur after the test for
an empty container. -/
def hasConsistentDerivedState (K : Tri V) (b : ℕ) (m : Members V) : Bool :=
  if !hasConsistentStructure K m.caches then false
  else if m.cells.length ≠ K.finiteCells.card ∨ m.faces.length ≠ K.finiteFacets.card ∨
      m.edges.length ≠ K.finiteEdges.card then false
  else if !(m.vertices.all (isVertexHandle K b)) || !(m.cells.all (isCellHandle K b)) ||
      !(m.faces.all (isFacetHandle K b)) || !(m.edges.all (isEdgeHandle K b)) then false
  else if m.threeOne ≠ m.cells.filter (fun h => K.info h.2 = CellType.threeOne.code) ∨
      m.twoTwo ≠ m.cells.filter (fun h => K.info h.2 = CellType.twoTwo.code) ∨
      m.oneThree ≠ m.cells.filter (fun h => K.info h.2 = CellType.oneThree.code) ∨
      m.spacelikeFacets ≠ collectSpacelikeHandles K m.faces ∨
      m.timelikeEdges ≠ m.edges.filter (fun h => Moves.edgeTypeOf K h.2 = .timelike) ∨
      m.spacelikeEdges ≠ m.edges.filter (fun h => Moves.edgeTypeOf K h.2 = .spacelike) then false
  else if m.vertices.isEmpty then true
  else findMaxTimevalue K m.caches.vertices == some m.maxTime &&
    findMinTimevalue K m.caches.vertices == some m.minTime

/-- `is_correct` (include/Foliated_triangulation.hpp:1749-1759) of the object in slot `a`. -/
def isCorrect (w : World V) (a : ℕ) : Bool :=
  match w.obj a with
  | none => false
  | some x =>
    match x.tri.body.bind w.body with
    | none => false
    | some K => isStructurallyCorrect K x.tri.caches

/-- `is_correct_with_diagnostics` (include/Foliated_triangulation.hpp:1761-1765). -/
def isCorrectWithDiagnostics (w : World V) (a : ℕ) : Bool :=
  match w.obj a with
  | none => false
  | some x =>
    match x.tri.body with
    | none => false
    | some b =>
      match w.body b with
      | none => false
      | some K => isStructurallyCorrect K x.tri.caches && hasConsistentDerivedState K b x.tri

end CDT.Val
