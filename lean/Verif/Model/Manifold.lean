/-
Model of the `FoliatedTriangulation`/`Manifold` value built around a triangulation: caches,
counts, time bounds and the structural-correctness predicate
(include/Foliated_triangulation.hpp:1405-1850, include/Geometry.hpp, include/Manifold.hpp).
-/
import Verif.Model.Moves
import Verif.Model.CheckMove

namespace CDT
variable {V G : Type} [LinearOrder V]

/-- `collect_spacelike_facets` on the list of finite facets
(include/Foliated_triangulation.hpp:1027-1078): facets whose vertex times form a one-element set,
tagged with that time and stably sorted by it. -/
def collectSpacelikeFacets (K : Tri V) (facets : List (Finset V)) : List (ℤ × Finset V) :=
  (facets.filterMap (fun s =>
    match ((canonicalPoints s).map K.time).dedup with
    | [t] => some (t, s)
    | _ => none)).insertionSort (fun a b => a.1 ≤ b.1)

/-- `find_max_timevalue` (include/Foliated_triangulation.hpp:500-511). -/
def findMaxTimevalue (K : Tri V) (vs : List (Finset V)) : Option ℤ :=
  match vs.flatMap (fun s => (canonicalPoints s).map K.time) with
  | [] => none
  | t :: ts => some (ts.foldl max t)

/-- `find_min_timevalue` (include/Foliated_triangulation.hpp:517-528). -/
def findMinTimevalue (K : Tri V) (vs : List (Finset V)) : Option ℤ :=
  match vs.flatMap (fun s => (canonicalPoints s).map K.time) with
  | [] => none
  | t :: ts => some (ts.foldl min t)

/-- The derived members of `FoliatedTriangulation`
(include/Foliated_triangulation.hpp:1464-1479).  Vertices are singleton sets. -/
structure Caches (V : Type) where
  vertices : List (Finset V)
  cells : List (Finset V)
  threeOne : List (Finset V)
  twoTwo : List (Finset V)
  oneThree : List (Finset V)
  faces : List (Finset V)
  spacelikeFacets : List (ℤ × Finset V)
  edges : List (Finset V)
  timelikeEdges : List (Finset V)
  spacelikeEdges : List (Finset V)
  maxTime : ℤ
  minTime : ℤ

/-- The member-initialiser list of the private constructor after classification
(include/Foliated_triangulation.hpp:1648-1665); throws on an empty vertex set
(`require_nonempty`, lines 1446-1455, and `find_max_timevalue`). -/
def buildCaches (env : Env V G) (K : Tri V) : Except Exc (Caches V) :=
  if K.finiteVerts = ∅ then .error .invalidArgument
  else
    let vs := Moves.vertexSites env K
    let cs := env.iter K K.finiteCells
    let fs := env.iter K K.finiteFacets
    let es := env.iter K K.finiteEdges
    match findMaxTimevalue K vs, findMinTimevalue K vs with
    | some hi, some lo => .ok
      { vertices := vs
        cells := cs
        threeOne := cs.filter (fun c => K.info c = CellType.threeOne.code)
        twoTwo := cs.filter (fun c => K.info c = CellType.twoTwo.code)
        oneThree := cs.filter (fun c => K.info c = CellType.oneThree.code)
        faces := fs
        spacelikeFacets := collectSpacelikeFacets K fs
        edges := es
        timelikeEdges := es.filter (fun e => Moves.edgeTypeOf K e = .timelike)
        spacelikeEdges := es.filter (fun e => Moves.edgeTypeOf K e = .spacelike)
        maxTime := hi
        minTime := lo }
    | _, _ => .error .invalidArgument

/-- The `FoliatedTriangulation` constructor from a triangulation
(include/Foliated_triangulation.hpp:1640-1665): classification, then caches. -/
def construct (env : Env V G) (K : Tri V) : Except Exc (Tri V × Caches V) :=
  match buildCaches env (Moves.makeManifold env K) with
  | .error e => .error e
  | .ok cs => .ok (Moves.makeManifold env K, cs)

/-- `spacelike_face_count` (include/Foliated_triangulation.hpp:1829-1837): the length of
`equal_range` in the time-sorted cache. -/
def Caches.spacelikeFaceCount (cs : Caches V) (t : ℤ) : ℕ :=
  ((cs.spacelikeFacets.dropWhile (fun e => e.1 < t)).takeWhile (fun e => !(t < e.1))).length

/-- `number_of_spacelike_faces` (include/Foliated_triangulation.hpp:1840-1841). -/
def Caches.numberOfSpacelikeFaces (cs : Caches V) : ℕ := cs.spacelikeFacets.length

/-- `has_consistent_structure` (include/Foliated_triangulation.hpp:1481-1497); the lock binding
is the subject of the ownership model and is taken to hold here. -/
def hasConsistentStructure (K : Tri V) (cs : Caches V) : Bool :=
  cs.vertices.length == K.finiteVerts.card &&
  decide (cs.spacelikeFacets.length ≤ cs.faces.length) &&
  cs.threeOne.length + cs.twoTwo.length + cs.oneThree.length == cs.cells.length &&
  cs.timelikeEdges.length + cs.spacelikeEdges.length == cs.edges.length &&
  (if cs.vertices.isEmpty then cs.maxTime == 0 && cs.minTime == 0
   else decide (cs.minTime ≤ cs.maxTime))

/-- `check_cells` (include/Foliated_triangulation.hpp:890-897). -/
def checkCells (K : Tri V) : Bool := decide (∀ c ∈ K.finiteCells, K.typeCorrect c = true)

/-- `is_structurally_correct` = `is_correct` (include/Foliated_triangulation.hpp:1749-1759). -/
def isStructurallyCorrect (K : Tri V) (cs : Caches V) : Bool :=
  hasConsistentStructure K cs && K.isValid && checkCells K

/-- The `Geometry` constructor (include/Geometry.hpp:70-88). -/
def geometryOf (K : Tri V) (cs : Caches V) : Geometry where
  N3 := K.finiteCells.card
  N3_31 := cs.threeOne.length
  N3_13 := cs.oneThree.length
  N3_31_13 := (cs.threeOne.length : ℤ) + cs.oneThree.length
  N3_22 := cs.twoTwo.length
  N2 := K.finiteFacets.card
  N1 := K.finiteEdges.card
  N1_TL := cs.timelikeEdges.length
  N1_SL := cs.spacelikeEdges.length
  N0 := K.finiteVerts.card

/-- The observations of a `Manifold` (include/Manifold.hpp:219-312) holding `K`, with foliation
parameters `radius` and `spacing`. -/
def viewOf (radius spacing : BitVec 64) (K : Tri V) (cs : Caches V) : ManifoldView where
  structurallyCorrect := isStructurallyCorrect K cs
  radius := radius
  spacing := spacing
  geom := geometryOf K cs
  triN1_SL := cs.spacelikeEdges.length
  triN1_TL := cs.timelikeEdges.length
  maxTime := cs.maxTime
  minTime := cs.minTime

end CDT
