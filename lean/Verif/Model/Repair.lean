/-
Model of the repair passes and of the construction loop
(include/Foliated_triangulation.hpp:705-810, 904-935, 1115-1212, 1329-1384, 1773-1790,
1916-1930, 1995-2008).
-/
import Verif.Model.Manifold

namespace CDT
open Moves

/-- A Delaunay triangulation under repair: its finite points and its cells.  The points are kept
separately because a triangulation of dimension below three has vertices but no cells
(`Delaunay_t<3>`, include/Triangulation_traits.hpp). -/
structure Del (V : Type) where
  points : Finset V
  tri : Tri V

/-- What the repair code obtains from the standard library and CGAL besides `Env`: `hash` is the
iteration order of `std::unordered_set` (include/Foliated_triangulation.hpp:714-726), `stored` is
`cell->vertex(0..3)` (lines 1156-1160), `remove` is `Delaunay_triangulation_3::remove` of a range of
vertices (lines 1203-1204). -/
structure RepairEnv (V : Type) where
  hash : Finset V → List V
  stored : Tri V → Finset V → List V
  remove : Del V → Finset V → Del V

variable {V G : Type} [LinearOrder V]

/-- Well-formed triangulations under repair: four vertices per cell, all finite ones counted, and
the infinite vertex is not a point. -/
structure Del.Wf (D : Del V) : Prop where
  verts : D.tri.finiteVerts ⊆ D.points
  card : ∀ c ∈ D.tri.cells, c.card = 4
  inf : D.tri.inf ∉ D.points

/-- Contracts assumed of `RepairEnv`.  Removal re-triangulates the hole: only the given points
disappear, the surviving vertices keep their time values, the new cells are arbitrary. -/
structure RepairEnv.Lawful (re : RepairEnv V) : Prop where
  hash_nodup : ∀ S, (re.hash S).Nodup
  mem_hash : ∀ S v, v ∈ re.hash S ↔ v ∈ S
  stored_nodup : ∀ K c, (re.stored K c).Nodup
  mem_stored : ∀ K c v, v ∈ re.stored K c ↔ v ∈ c
  remove_points : ∀ D R, R ⊆ D.points → (re.remove D R).points = D.points \ R
  remove_inf : ∀ D R, (re.remove D R).tri.inf = D.tri.inf
  remove_time : ∀ D R, R ⊆ D.points → ∀ v ∈ D.points \ R, (re.remove D R).tri.time v = D.tri.time v
  remove_wf : ∀ D R, R ⊆ D.points → D.Wf → (re.remove D R).Wf

/-- `get_vertices_from_cells` (include/Foliated_triangulation.hpp:711-727). -/
def verticesFromCells (re : RepairEnv V) (cells : List (Finset V)) : List V :=
  re.hash (cells.foldr (· ∪ ·) ∅)

/-- `find_incorrect_vertices` (include/Foliated_triangulation.hpp:737-769). -/
def findIncorrectVertices (env : Env V G) (re : RepairEnv V) (K : Tri V) : List V :=
  (verticesFromCells re (env.iter K K.finiteCells)).filter (fun v => ¬ env.label v = K.time v)

/-- `fix_vertices` (include/Foliated_triangulation.hpp:779-808): write the expected time of every
incorrect vertex, one after the other, and report whether there were any. -/
def fixVertices (env : Env V G) (re : RepairEnv V) (K : Tri V) : Bool × Tri V :=
  let bad := findIncorrectVertices env re K
  (!bad.isEmpty,
    bad.foldl (fun K v => { K with time := Function.update K.time v (env.label v) }) K)

/-- `find_incorrect_cells` (include/Foliated_triangulation.hpp:904-916). -/
def findIncorrectCells (env : Env V G) (K : Tri V) : List (Finset V) :=
  (env.iter K K.finiteCells).filter (fun c => !K.typeCorrect c)

/-- `fix_cells` (include/Foliated_triangulation.hpp:924-934). -/
def fixCells (env : Env V G) (K : Tri V) : Bool × Tri V :=
  let bad := findIncorrectCells env K
  (!bad.isEmpty,
    bad.foldl (fun K c => { K with info := Function.update K.info c (K.expectedType c).code }) K)

/-- `find_invalid_timevalue_cells` (include/Foliated_triangulation.hpp:1115-1130). -/
def findInvalidTimevalueCells (env : Env V G) (K : Tri V) : List (Finset V) :=
  (env.iter K K.finiteCells).filter
    (fun c => K.expectedType c = .acausal ∨ K.expectedType c = .unclassified)

/-- `has_valid_timevalues` (include/Foliated_triangulation.hpp:1136-1139). -/
def hasValidTimevalues (env : Env V G) (K : Tri V) : Bool :=
  (findInvalidTimevalueCells env K).isEmpty

/-- `find_bad_vertex` (include/Foliated_triangulation.hpp:1146-1171).  A `std::multimap` keeps
equal keys in insertion order, so it is the stable sort of the stored vertices by time. -/
def findBadVertex (re : RepairEnv V) (K : Tri V) (c : Finset V) : Option V :=
  let vs := (re.stored K c).insertionSort (fun a b => K.time a ≤ K.time b)
  match vs.head?, vs.getLast? with
  | some lo, some hi =>
    if (vs.filter (fun v => K.time v = K.time lo)).length ≥
        (vs.filter (fun v => K.time v = K.time hi)).length
    then some hi else some lo
  | _, _ => none

/-- The set of vertices a pass removes (include/Foliated_triangulation.hpp:1191-1197). -/
def verticesToRemove (env : Env V G) (re : RepairEnv V) (K : Tri V) : Finset V :=
  ((findInvalidTimevalueCells env K).filterMap (findBadVertex re K)).toFinset

/-- `fix_timevalues` (include/Foliated_triangulation.hpp:1182-1212). -/
def fixTimevalues (env : Env V G) (re : RepairEnv V) (D : Del V) : Bool × Del V :=
  if (findInvalidTimevalueCells env D.tri).isEmpty then (false, D)
  else (true, re.remove D (verticesToRemove env re D.tri))

/-- `for (passes = 1; passes < MAX + 1; ++passes) { if (!fix(..)) break; }`
(include/Foliated_triangulation.hpp:1347-1377) with `n` passes left. -/
def passes {σ : Type} (fix : σ → Bool × σ) : ℕ → σ → σ
  | 0, s => s
  | n + 1, s => if (fix s).1 then passes fix n (fix s).2 else (fix s).2

/-- `detail::MAX_FIX_PASSES` (include/Foliated_triangulation.hpp:116). -/
def maxFixPasses : ℕ := 50

/-- The repair part of `make_triangulation` (include/Foliated_triangulation.hpp:1342-1383) on the
Delaunay triangulation of the generated points.  The closing `assert` is compiled out of release
builds and is not modelled. -/
def repairLoops (env : Env V G) (re : RepairEnv V) (D : Del V) : Del V :=
  let D1 := { D with tri := passes (fixVertices env re) maxFixPasses D.tri }
  let D2 := passes (fixTimevalues env re) maxFixPasses D1
  { D2 with tri := passes (fixCells env) maxFixPasses D2.tri }

/-- The method `FoliatedTriangulation::fix_vertices`
(include/Foliated_triangulation.hpp:1916-1928) on a constructed value. -/
def fixVerticesMethod (env : Env V G) (re : RepairEnv V) (m : Tri V × Caches V) :
    Except Exc (Bool × (Tri V × Caches V)) :=
  let r := fixVertices env re m.1
  if r.1 then
    match construct env r.2 with
    | .error e => .error e
    | .ok m' => .ok (true, m')
  else .ok (false, m)

/-- The method `FoliatedTriangulation::fix_cells`
(include/Foliated_triangulation.hpp:1995-2006). -/
def fixCellsMethod (env : Env V G) (m : Tri V × Caches V) :
    Except Exc (Bool × (Tri V × Caches V)) :=
  let r := fixCells env m.1
  if r.1 then
    match construct env r.2 with
    | .error e => .error e
    | .ok m' => .ok (true, m')
  else .ok (false, m)

/-- The method `FoliatedTriangulation::is_fixed`
(include/Foliated_triangulation.hpp:1773-1790): vertices, cells, then one time-value pass on a copy,
and a rebuild when anything was reported.  `points` are the finite vertices of the object. -/
def isFixedMethod (env : Env V G) (re : RepairEnv V) (m : Tri V × Caches V) :
    Except Exc (Bool × (Tri V × Caches V)) :=
  let a := fixVertices env re m.1
  let b := fixCells env a.2
  let c := fixTimevalues env re ⟨m.1.finiteVerts, b.2⟩
  if a.1 || b.1 || c.1 then
    match construct env c.2.tri with
    | .error e => .error e
    | .ok m' => .ok (true, m')
  else .ok (false, m)

end CDT
