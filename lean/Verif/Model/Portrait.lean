import Verif.Model.Console
import Verif.Model.Manifold
/-
What the code prints about a triangulation: `print`, `print_details`, `print_volume_per_timeslice`,
`print_edges` (include/Manifold.hpp, include/Foliated_triangulation.hpp), `print_delaunay`
(include/Utilities.hpp), and the three reports of `MoveCommand` (include/Move_command.hpp).

Not modelled: `print_vertices`, `print_cells`, `print_neighboring_cells` and `print_edge`, which print
coordinates and CGAL's vertex indices.
-/
namespace CDT
variable {V : Type} [LinearOrder V]

/-- `Manifold::print` (include/Manifold.hpp:340-352). -/
def manifoldLine (g : Geometry) : Bytes :=
  format ("Manifold has {} vertices and {} edges and {} faces and {} " ++ "simplices.\n")
    ([g.N0, g.N1, g.N2, g.N3].map decimalInt)

/-- `Manifold::print_details` (include/Manifold.hpp:355-369). -/
def detailLines (g : Geometry) : List Bytes :=
  [format ("There are {} (3,1) simplices and {} (2,2) simplices and {} (1,3) " ++ "simplices.\n")
     ([g.N3_31, g.N3_22, g.N3_13].map decimalInt),
   format "There are {} timelike edges and {} spacelike edges.\n" ([g.N1_TL, g.N1_SL].map decimalInt)]

/-- The loop of `print_volume_per_timeslice` (include/Foliated_triangulation.hpp:1961-1965) from `j`
on; `fuel` bounds the iterations.  Simplified: `j` does not overflow, so `max_time()` is below
`INT_MAX`. -/
def volumeLoop (cs : Caches V) : ℕ → ℤ → List Bytes
  | 0, _ => []
  | fuel + 1, j =>
    if j ≤ cs.maxTime then
      format "Timeslice {} has {} spacelike faces.\n" ([j, (cs.spacelikeFaceCount j : ℤ)].map decimalInt) ::
        volumeLoop cs fuel (j + 1)
    else []

/-- `print_volume_per_timeslice` (include/Foliated_triangulation.hpp:1959-1966). -/
def volumeLines (cs : Caches V) : List Bytes :=
  volumeLoop cs (cs.maxTime - cs.minTime + 1).toNat cs.minTime

/-- `print_edges` (include/Foliated_triangulation.hpp:1943-1956). -/
def edgeLines (K : Tri V) (cs : Caches V) : List Bytes :=
  cs.edges.map fun e =>
    if Moves.edgeTypeOf K e = .timelike then format "==> timelike\n" [] else format "==> spacelike\n" []

/-- `print_delaunay` (include/Utilities.hpp:1729-1740) and `FoliatedTriangulation::print`
(include/Foliated_triangulation.hpp:2014-2021), which print the same. -/
def delaunayLine (K : Tri V) : Bytes :=
  format ("Triangulation has {} vertices and {} edges and {} faces and {} " ++ "simplices.\n")
    ([(K.finiteVerts.card : ℤ), K.finiteEdges.card, K.finiteFacets.card, K.finiteCells.card].map decimalInt)

/-- `print(); print_details(); print_volume_per_timeslice();` (src/cdt.cpp:218-220, 238-240). -/
def portraitLines (K : Tri V) (cs : Caches V) : List Bytes :=
  manifoldLine (geometryOf K cs) :: detailLines (geometryOf K cs) ++ volumeLines cs

/-- `MoveCommand::print_attempts` (include/Move_command.hpp:213-223). -/
def attemptsLine (c : CommandResults) : Bytes :=
  format ("There were {} attempted (2,3) moves and {} attempted (3,2) moves " ++ "and {} " ++
      "attempted (2,6) moves and {} attempted (6,2) moves and {} attempted " ++ "(4,4) " ++ "moves.\n")
    ([c.attempted.twoThreeMoves, c.attempted.threeTwoMoves, c.attempted.twoSixMoves,
      c.attempted.sixTwoMoves, c.attempted.fourFourMoves].map decimalInt)

/-- `MoveCommand::print_successful` (include/Move_command.hpp:228-241). -/
def successfulLine (c : CommandResults) : Bytes :=
  format ("There were {} successful (2,3) moves and {} successful (3,2) moves " ++ "and {} " ++
      "successful (2,6) moves and {} successful (6,2) moves and {} " ++ "successful " ++ "(4,4) " ++ "moves.\n")
    ([c.succeeded.twoThreeMoves, c.succeeded.threeTwoMoves, c.succeeded.twoSixMoves,
      c.succeeded.sixTwoMoves, c.succeeded.fourFourMoves].map decimalInt)

/-- `MoveCommand::print_errors` (include/Move_command.hpp:246-264). -/
def errorsLine (c : CommandResults) : Bytes :=
  let failed := [c.failed.twoThreeMoves, c.failed.threeTwoMoves, c.failed.twoSixMoves,
    c.failed.sixTwoMoves, c.failed.fourFourMoves]
  if failed.all (fun value => value == 0) then format "There were no failed moves.\n" []
  else
    format ("There were {} failed (2,3) moves and {} failed (3,2) moves and {} " ++
        "failed (2,6) moves and {} failed (6,2) moves and {} failed (4,4) " ++ "moves.\n")
      (failed.map decimalInt)

end CDT
