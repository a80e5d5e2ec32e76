/-
The low-level diagonal exchange `bistellar_flip` and its helpers
(include/Ergodic_moves_3.hpp:1541-1585, 1673-1747).
-/
import Verif.Model.Moves

namespace CDT.Moves
variable {V : Type} [LinearOrder V]

/-- `prepare_bistellar_flip` (include/Ergodic_moves_3.hpp:1541-1585) for a well-formed edge
and vertices that are not null. `incident_cells_from_edge` (1429-1441) is
`finite_incident_cells`.  `cell->is_valid()` (line 1566) holds for every cell of a valid
triangulation and is not modelled.  `finiteIncidentCells` already refuses cells at infinity. -/
def prepareBistellarFlip (K : Tri V) (a b top bottom : V) : Except MoveFailure (FourFour V) :=
  if !K.isEdge a b ∨ top ∉ K.finiteVerts ∨ bottom ∉ K.finiteVerts then .error .invalidTopology
  else match finiteIncidentCells K a b with
    | none => .error .invalidTopology
    | some cs =>
      if cs.card ≠ 4 ∨ top = bottom ∨ top = a ∨ top = b ∨ bottom = a ∨ bottom = b then
        .error .invalidTopology
      else if (cs.filter (top ∈ ·)).card ≠ 2 ∨ (cs.filter (bottom ∈ ·)).card ≠ 2 then
        .error .invalidTopology
      else .ok ⟨a, b, top, bottom⟩

/-- `bistellar_flip_impl` (include/Ergodic_moves_3.hpp:1673-1692). -/
def bistellarFlipImpl (validator : Tri V → Bool) (K : Tri V) (a b top bottom : V) : Option (Tri V) :=
  match prepareBistellarFlip K a b top bottom with
  | .error _ => none
  | .ok m =>
    match executeFourFour validator K m with
    | .error _ => none
    | .ok K' => some K'

/-- `bistellar_flip` (include/Ergodic_moves_3.hpp:1704-1714); `accept_post_mutation` accepts
everything (include/Ergodic_moves_3.hpp:195). -/
def bistellarFlip (K : Tri V) (a b top bottom : V) : Option (Tri V) :=
  bistellarFlipImpl (fun _ => true) K a b top bottom

/-- `find_pivot_edge` (include/Ergodic_moves_3.hpp:1717-1731) on a container of well-formed edges. -/
def findPivotEdge (K : Tri V) : List (V × V) → Option (V × V)
  | [] => none
  | e :: rest =>
    match finiteIncidentCells K e.1 e.2 with
    | none => findPivotEdge K rest
    | some cs => if cs.card = 4 then some e else findPivotEdge K rest

/-- `get_vertices` (include/Ergodic_moves_3.hpp:1736-1747): the loop over the cells; the container
of results has the order of an `unordered_set`, here point order. -/
def getVertices (cs : List (Finset V)) : List V :=
  canonicalPoints (cs.foldl (fun seen c => seen ∪ c) ∅)

end CDT.Moves
