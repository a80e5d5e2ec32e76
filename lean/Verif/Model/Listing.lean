import Verif.Model.Portrait
/-
The listings of single simplices: `print_vertices`, `print_cell`, `print_cells`,
`print_neighboring_cells`, `print_edge` (include/Foliated_triangulation.hpp), and the slice loop of
`print_volume_per_timeslice` with its 32-bit counter.

Arbitrary: the text of a point (`operator<<` of CGAL points through `point_to_str`,
include/Utilities.hpp:2374-2380) and the order in which CGAL stores the vertices of a cell.
-/
namespace CDT
variable {V : Type} [LinearOrder V]

/-- How CGAL stores cells: `cell->vertex(j)` and `cell->neighbor(j)` (used at
include/Foliated_triangulation.hpp:946, 992, 1010-1013). -/
structure CellStore (V : Type) where
  vertex : Finset V → Fin 4 → V
  neighbor : Finset V → Fin 4 → Finset V

/-- The contract of CGAL's triangulation data structure: a cell stores its vertices, and opposite the
`j`-th one another cell with the other three. -/
structure CellStore.Lawful (S : CellStore V) (K : Tri V) : Prop where
  vertices : ∀ c ∈ K.cells, Finset.univ.image (S.vertex c) = c
  neighbor_mem : ∀ c ∈ K.cells, ∀ j, S.neighbor c j ∈ K.cells
  neighbor_ne : ∀ c ∈ K.cells, ∀ j, S.neighbor c j ≠ c
  neighbor_shares : ∀ c ∈ K.cells, ∀ j, c.erase (S.vertex c j) ⊆ S.neighbor c j

/-- `print_vertices` (include/Foliated_triangulation.hpp:1931-1939); `expected` is
`expected_timevalue`. -/
def vertexLines (point : V → Bytes) (expected : V → ℤ) (K : Tri V) (cs : Caches V) : List Bytes :=
  cs.vertices.flatMap fun s => (canonicalPoints s).map fun v =>
    format "Vertex Point: ({}) Timevalue: {} Expected Timevalue: {}\n"
      [point v, decimalInt (K.time v), decimalInt (expected v)]

/-- `print_cell` (include/Foliated_triangulation.hpp:938-950), with dimension 3. -/
def cellLines (point : V → Bytes) (S : CellStore V) (K : Tri V) (c : Finset V) : List Bytes :=
  format "Cell info => {}\n" [decimalInt (K.info c)] ::
    (List.finRange (3 + 1)).map (fun j =>
      format "Vertex({}) Point: ({}) Timevalue: {}\n"
        [decimalInt (j.val : ℤ), point (S.vertex c j), decimalInt (K.time (S.vertex c j))]) ++
    [format "---\n" []]

/-- `print_cells` of a triangulation (include/Foliated_triangulation.hpp:957-960, 2010-2011;
include/Manifold.hpp:337). -/
def allCellLines (point : V → Bytes) (S : CellStore V) (K : Tri V) (cs : Caches V) : List Bytes :=
  cs.cells.flatMap (cellLines point S K)

/-- `print_neighboring_cells` (include/Foliated_triangulation.hpp:986-994), with dimension 3. -/
def neighborLines (point : V → Bytes) (S : CellStore V) (K : Tri V) (c : Finset V) : List Bytes :=
  (List.finRange (3 + 1)).flatMap fun j =>
    format "Neighboring cell {}:" [decimalInt (j.val : ℤ)] :: cellLines point S K (S.neighbor c j)

/-- `print_edge` of the edge `(c, i, j)` (include/Foliated_triangulation.hpp:1003-1014). -/
def edgeLine (point : V → Bytes) (S : CellStore V) (K : Tri V) (c : Finset V) (i j : Fin 4) : Bytes :=
  format ("Edge: Vertex({}) Point({}) Timevalue: {} -> Vertex({}) Point({}) " ++ "Timevalue: {}\n")
    [decimalInt (i.val : ℤ), point (S.vertex c i), decimalInt (K.time (S.vertex c i)),
     decimalInt (j.val : ℤ), point (S.vertex c j), decimalInt (K.time (S.vertex c j))]

/-- `print_volume_per_timeslice` (include/Foliated_triangulation.hpp:1959-1966) from `j` on with the
counter `j` of type `Int_precision` (`std::int32_t`): the lines printed, and whether the loop ends without
overflow of `++j` (otherwise the behaviour is undefined from there on).  `fuel` bounds the tests of the
condition. -/
def volumeRun (cs : Caches V) : ℕ → ℤ → List Bytes × Bool
  | 0, _ => ([], true)
  | fuel + 1, j =>
    if j ≤ cs.maxTime then
      let line := format "Timeslice {} has {} spacelike faces.\n"
        ([j, (cs.spacelikeFaceCount j : ℤ)].map decimalInt)
      if j = 2147483647 then ([line], false)
      else
        let (lines, ends) := volumeRun cs fuel (j + 1)
        (line :: lines, ends)
    else ([], true)

end CDT
