/-
Model of include/Ergodic_moves_3.hpp: site tests, executions, search and proposal functions.
-/
import Verif.Model.Tds
import Verif.Model.Tracker
import Mathlib.Data.List.Lex

namespace CDT

/-- Everything the move code obtains from CGAL geometry, the standard library and the
caller's random engine.  All components are arbitrary; `Env.Lawful` states their contracts.
`geoFacet`/`geoEdge` are the orientation tests of `Triangulation_3::flip`; `centroid` is
`CGAL::centroid` of the sorted triangle points; `label` is `expected_timevalue` of a point
(include/Foliated_triangulation.hpp:617-626); `iter` is the storage order in which simplices
are collected; `nth` is `std::ranges::nth_element`; `index n` is
`uniform_int_distribution{0, n-1}`; `shuffle` is `std::ranges::shuffle`. -/
structure Env (V G : Type) where
  geoFacet : Tri V → Finset V → V → Bool
  geoEdge : Tri V → V → V → Bool
  centroid : Finset V → V
  label : V → ℤ
  iter : Tri V → Finset (Finset V) → List (Finset V)
  nth : {α : Type} → (α → α → Bool) → List α → ℕ → List α
  index : ℕ → G → ℕ × G
  shuffle : {α : Type} → List α → G → List α × G

/-- The contract of `std::nth_element` for a total preorder: a rearrangement whose `i`-th entry separates the
smaller from the larger entries. -/
def NthContract {α : Type} (le : α → α → Bool) (l : List α) (i : ℕ) (r : List α) : Prop :=
  r.Perm l ∧ ∀ x, r[i]? = some x →
    (∀ j y, j < i → r[j]? = some y → le y x) ∧ (∀ j y, i < j → r[j]? = some y → le x y)

/-- The standard-library contracts assumed of an environment. -/
structure Env.Lawful {V G : Type} (env : Env V G) : Prop where
  iter_nodup : ∀ K S, (env.iter K S).Nodup
  mem_iter : ∀ K S s, s ∈ env.iter K S ↔ s ∈ S
  nth : ∀ {α : Type} (le : α → α → Bool) (l : List α) (i : ℕ), (∀ a b, le a b ∨ le b a) →
    (∀ a b c, le a b → le b c → le a c) → NthContract le l i (env.nth le l i)
  index_lt : ∀ n g, 0 < n → (env.index n g).1 < n
  shuffle_perm : ∀ {α : Type} (l : List α) g, (env.shuffle l g).1.Perm l

namespace Moves
variable {V G : Type} [LinearOrder V]

/-- `cell_precedes`/`edge_precedes`/point order of vertices, as a non-strict comparison of
canonical point arrays (include/Ergodic_moves_3.hpp:319-361). A vertex site is `{v}`. -/
def siteLe (s t : Finset V) : Bool := decide (canonicalPoints s ≤ canonicalPoints t)

/-- `canonicalize` (include/Ergodic_moves_3.hpp:337-348): sort by canonical points. -/
def canonicalize (l : List (Finset V)) : List (Finset V) := l.insertionSort (fun s t => siteLe s t)

/-- `canonical_random_element` (include/Ergodic_moves_3.hpp:376-413). -/
def canonicalRandomElement (env : Env V G) (l : List (Finset V)) (g : G) :
    Option (Finset V) × G :=
  if l.isEmpty then (none, g)
  else
    let (i, g') := env.index l.length g
    ((env.nth siteLe l i)[i]?, g')

/-- `finite_incident_cells` (include/Ergodic_moves_3.hpp:227-246) for a well-formed edge. -/
def finiteIncidentCells (K : Tri V) (a b : V) : Option (Finset (Finset V)) :=
  if !K.isEdge a b then none
  else if ∃ c ∈ K.edgeCells a b, K.inf ∈ c then none
  else some (K.edgeCells a b)

/-- Number of cells of an expected type (the `cell_type_count` lambdas,
include/Ergodic_moves_3.hpp:743-747 and 1176-1180). -/
def typeCount (K : Tri V) (cs : Finset (Finset V)) (ct : CellType) : ℕ :=
  (cs.filter (fun c => K.expectedType c = ct)).card

/-- `|first_time - second_time|` in `long long` (include/Ergodic_moves_3.hpp:570-576). -/
def timeDifference (s t : ℤ) : ℤ := if s > t then s - t else t - s

/-! ### (2,3) -/

/-- The body of the facet loop of `prepare_two_three` (include/Ergodic_moves_3.hpp:553-577):
does facet `i` of `c` qualify? -/
def facetQualifies (K : Tri V) (c : Finset V) (i : V) : Bool :=
  match K.mirror c i with
  | none => false
  | some w =>
    let n := insert w (c.erase i)
    if K.inf ∈ n then false
    else if !K.typeCorrect n ||
      (K.expectedType n != .threeOne && K.expectedType n != .oneThree) then false
    else timeDifference (K.time i) (K.time w) == 1

/-- `prepare_two_three` (include/Ergodic_moves_3.hpp:530-584).  The prepared value is the cell
together with the vertex opposite the selected facet. -/
def prepareTwoThree (K : Tri V) (c : Finset V) : Except MoveFailure (Finset V × V) :=
  if c ∉ K.cells then .error .invalidTopology
  else if !K.typeCorrect c || K.expectedType c != .twoTwo then .error .causalInvalidity
  else match (canonicalPoints c).find? (facetQualifies K c) with
    | some i => .ok (c, i)
    | none => .error .causalInvalidity

/-- `Triangulation_3::flip(cell, i)` (CGAL), called at include/Ergodic_moves_3.hpp:616: refuses
infinite cells and configurations rejected by the orientation tests, else flips. -/
def checkedFlipFacet (env : Env V G) (K : Tri V) (c : Finset V) (i : V) : Option (Tri V) :=
  if K.inf ∈ c then none
  else match K.mirror c i with
    | none => none
    | some w => if w = K.inf then none
      else if env.geoFacet K c i then K.flipFacet c i else none

/-- `execute` of a (2,3) move (include/Ergodic_moves_3.hpp:591-621). -/
def executeTwoThree (env : Env V G) (K : Tri V) (m : Finset V × V) : Except MoveFailure (Tri V) :=
  if m.1 ∉ K.cells ∨ m.2 ∉ m.1 then .error .staleCandidate
  else match checkedFlipFacet env K m.1 m.2 with
    | none => .error .executionFailure
    | some K' => .ok K'

/-! ### (3,2) -/

/-- `is_32_movable` (include/Ergodic_moves_3.hpp:719-753). -/
def is32Movable (K : Tri V) (a b : V) : Bool :=
  match finiteIncidentCells K a b with
  | none => false
  | some cs =>
    if cs.card ≠ 3 then false
    else if timeDifference (K.time a) (K.time b) ≠ 1 then false
    else if ¬ (∀ c ∈ cs, K.typeCorrect c = true) then false
    else
      let n31 := typeCount K cs .threeOne
      let n22 := typeCount K cs .twoTwo
      let n13 := typeCount K cs .oneThree
      decide (n22 = 2 ∧ ((n31 = 1 ∧ n13 = 0) ∨ (n31 = 0 ∧ n13 = 1)))

/-- `prepare_three_two` (include/Ergodic_moves_3.hpp:760-776). -/
def prepareThreeTwo (K : Tri V) (a b : V) : Except MoveFailure (V × V) :=
  if !K.isEdge a b then .error .invalidTopology
  else if !is32Movable K a b then .error .causalInvalidity
  else .ok (a, b)

/-- `Triangulation_3::flip(cell, i, j)` (CGAL), called at include/Ergodic_moves_3.hpp:786. -/
def checkedFlipEdge (env : Env V G) (K : Tri V) (a b : V) : Option (Tri V) :=
  if ∃ c ∈ K.edgeCells a b, K.inf ∈ c then none
  else if env.geoEdge K a b then K.flipEdge a b else none

/-- `execute` of a (3,2) move (include/Ergodic_moves_3.hpp:779-791). -/
def executeThreeTwo (env : Env V G) (K : Tri V) (m : V × V) : Except MoveFailure (Tri V) :=
  if !K.isEdge m.1 m.2 then .error .staleCandidate
  else match checkedFlipEdge env K m.1 m.2 with
    | none => .error .executionFailure
    | some K' => .ok K'

/-! ### (2,6) -/

/-- Does the neighbour across facet `i` qualify as the (3,1) partner
(include/Ergodic_moves_3.hpp:898-906)?  Infinite neighbours are not excluded by the code. -/
def partner31 (K : Tri V) (c : Finset V) (i : V) : Bool :=
  match K.mirror c i with
  | none => false
  | some w => K.typeCorrect (insert w (c.erase i)) &&
      K.expectedType (insert w (c.erase i)) == .threeOne

/-- The neighbour across facet `i` (`t_cell->neighbor(i)`, include/Ergodic_moves_3.hpp:911-913). -/
def neighborCell (K : Tri V) (c : Finset V) (i : V) : Finset V :=
  match K.mirror c i with
  | none => ∅
  | some w => insert w (c.erase i)

/-- `find_adjacent_31_cell` (include/Ergodic_moves_3.hpp:887-919): the vertex opposite the
facet shared with the partner. -/
def findAdjacent31 (K : Tri V) (c : Finset V) : Option V :=
  if !K.typeCorrect c || K.expectedType c != .oneThree then none
  else (((canonicalPoints c).filter (partner31 K c)).insertionSort
      (fun i j => siteLe (neighborCell K c i) (neighborCell K c j))).head?

/-- `prepare_two_six` (include/Ergodic_moves_3.hpp:924-959).  `has_neighbor` (line 943) returns
the index it was given, because two cells share at most one facet. -/
def prepareTwoSix (K : Tri V) (c : Finset V) : Except MoveFailure (Finset V × V) :=
  if c ∉ K.cells then .error .invalidTopology
  else match findAdjacent31 K c with
    | none => .error .causalInvalidity
    | some i =>
      if ∃ u ∈ c.erase i, ∃ v ∈ c.erase i, K.time u ≠ K.time v then .error .causalInvalidity
      else .ok (c, i)

/-- `execute` of a (2,6) move (include/Ergodic_moves_3.hpp:966-1027) with an arbitrary
post-mutation validator.  The new vertex is identified by its final point, the centroid; the
vertex's time is set from a facet vertex (`center->info() = v_1->info()`, line 1019).  The
final `tds().is_valid(center)` (line 1022) only checks the new vertex's own cell pointer and is
taken to succeed. -/
def executeTwoSix (env : Env V G) (validator : Tri V → Bool) (K : Tri V) (m : Finset V × V) :
    Except MoveFailure (Tri V) :=
  if m.1 ∉ K.cells ∨ m.2 ∉ m.1 then .error .staleCandidate
  else
    let F := m.1.erase m.2
    let center := env.centroid F
    match K.insertInFacet m.1 m.2 center with
    | none => .error .invariantViolation
    | some K1 =>
      if (K1.vertexCells center).card ≠ 6 then .error .invariantViolation
      else
        let K2 := { K1 with time := fun x =>
          if x = center then (match (canonicalPoints F).head? with
            | some v1 => K.time v1
            | none => K.time x) else K.time x }
        if !validator K2 then .error .invariantViolation else .ok K2

/-! ### (6,2) -/

/-- `is_62_movable` (include/Ergodic_moves_3.hpp:1148-1199). -/
def is62Movable (K : Tri V) (v : V) : Bool :=
  if v ∉ K.verts then false
  else if K.degree v ≠ 5 then false
  else
    let cs := K.vertexCells v
    if cs.card ≠ 6 then false
    else if ∃ c ∈ cs, K.inf ∈ c then false
    else
      let n31 := typeCount K cs .threeOne
      let n22 := typeCount K cs .twoTwo
      let n13 := typeCount K cs .oneThree
      if n13 + n22 + n31 ≠ 6 ∨ ¬ (∀ c ∈ cs, K.typeCorrect c = true) then false
      else decide (n31 = 3 ∧ n22 = 0 ∧ n13 = 3)

/-- `prepare_six_two` (include/Ergodic_moves_3.hpp:1204-1220). -/
def prepareSixTwo (K : Tri V) (v : V) : Except MoveFailure V :=
  if v ∉ K.verts ∨ v = K.inf then .error .invalidTopology
  else if !is62Movable K v then .error .causalInvalidity
  else .ok v

/-- The loop over incident edges (include/Ergodic_moves_3.hpp:1269-1277): the first timelike
edge whose `tds.flip` succeeds. -/
def flipFirst (K : Tri V) (v : V) : List (Finset V) → Option (Tri V)
  | [] => none
  | e :: es =>
    match (canonicalPoints (e.erase v)).head? with
    | none => flipFirst K v es
    | some w =>
      if K.time v ≠ K.time w then
        match K.flipEdge v w with
        | some K' => some K'
        | none => flipFirst K v es
      else flipFirst K v es

/-- `finite_incident_edges` as a set (include/Ergodic_moves_3.hpp:1258-1260). -/
def incidentEdges (K : Tri V) (v : V) : Finset (Finset V) := K.finiteEdges.filter (v ∈ ·)

/-- Rewriting the labels of all finite cells (include/Ergodic_moves_3.hpp:1292-1300 and
1664-1668, include/Foliated_triangulation.hpp:2039-2048). -/
def relabel (K : Tri V) : Tri V :=
  { K with info := fun c => if K.inf ∈ c then K.info c else (K.expectedType c).code }

/-- `execute` of a (6,2) move (include/Ergodic_moves_3.hpp:1239-1303). -/
def executeSixTwo (env : Env V G) (validator : Tri V → Bool) (K : Tri V) (v : V) (g : G) :
    Except MoveFailure (Tri V) × G :=
  if v ∉ K.finiteVerts then (.error .staleCandidate, g)
  else
    let (edges, g') := env.shuffle (canonicalize (env.iter K (incidentEdges K v))) g
    (match flipFirst K v edges with
    | none => .error .executionFailure
    | some K1 =>
      if K1.degree v ≠ 4 || !K1.isValid then .error .executionFailure
      else
        let K2 := K1.removeVertex v
        if !validator K2 || !K2.isValid
            || K2.finiteCells.card + 4 ≠ K.finiteCells.card
            || K2.finiteVerts.card + 1 ≠ K.finiteVerts.card then .error .invariantViolation
        else if ∃ c ∈ K2.finiteCells, K2.expectedType c = .acausal ∨ K2.expectedType c = .unclassified
          then .error .invariantViolation
        else .ok (relabel K2), g')

/-! ### (4,4) -/

/-- Cells of the given type that also carry the right label (the lambda at
include/Ergodic_moves_3.hpp:1466-1471). -/
def correctTypeCount (K : Tri V) (cs : Finset (Finset V)) (ct : CellType) : ℕ :=
  (cs.filter (fun c => K.typeCorrect c = true ∧ K.expectedType c = ct)).card

/-- `find_bistellar_flip_location` (include/Ergodic_moves_3.hpp:1451-1478). -/
def findBistellarFlipLocation (K : Tri V) (a b : V) : Option (Finset (Finset V)) :=
  match finiteIncidentCells K a b with
  | none => none
  | some cs =>
    if cs.card ≠ 4 then none
    else if K.time a ≠ K.time b then none
    else if correctTypeCount K cs .threeOne = 2 ∧ correctTypeCount K cs .oneThree = 2 then some cs
    else none

/-- `vertex_precedes` (include/Ergodic_moves_3.hpp:350-359). -/
def vertexPrecedes (K : Tri V) (l r : V) : Bool :=
  if K.time l ≠ K.time r then decide (K.time l < K.time r) else decide (l < r)

/-- The running maximum of the loop at include/Ergodic_moves_3.hpp:1506-1520. -/
def topOf (K : Tri V) (l : List V) : Option V :=
  l.foldl (fun acc v => match acc with
    | none => some v
    | some t => if vertexPrecedes K t v then some v else some t) none

/-- The running minimum of the same loop. -/
def bottomOf (K : Tri V) (l : List V) : Option V :=
  l.foldl (fun acc v => match acc with
    | none => some v
    | some t => if vertexPrecedes K v t then some v else some t) none

/-- The prepared (4,4) value (include/Ergodic_moves_3.hpp:137-170). -/
structure FourFour (V : Type) where
  a : V
  b : V
  top : V
  bottom : V

/-- `prepare_four_four` (include/Ergodic_moves_3.hpp:1483-1538).  The loop visits the vertices
of the incident cells other than the edge's own; the model visits each once, in point
order. -/
def prepareFourFour (K : Tri V) (a b : V) : Except MoveFailure (FourFour V) :=
  if !K.isEdge a b then .error .invalidTopology
  else match findBistellarFlipLocation K a b with
    | none => .error .causalInvalidity
    | some cs =>
      let link := canonicalPoints (((cs.biUnion id).erase a).erase b)
      match topOf K link, bottomOf K link with
      | some top, some bottom =>
        if top = bottom ∨ top = a ∨ top = b ∨ bottom = a ∨ bottom = b then .error .causalInvalidity
        else if (cs.filter (top ∈ ·)).card ≠ 2 ∨ (cs.filter (bottom ∈ ·)).card ≠ 2 then
          .error .causalInvalidity
        else .ok ⟨a, b, top, bottom⟩
      | _, _ => .error .causalInvalidity

/-- `execute` of a (4,4) move (include/Ergodic_moves_3.hpp:1603-1671).  `is_facet` (line 1632)
returns some cell containing the facet; the model takes the one with the smallest fourth
vertex (flipping a facet from either side is the same operation). -/
def executeFourFour (validator : Tri V → Bool) (K : Tri V) (m : FourFour V) :
    Except MoveFailure (Tri V) :=
  if !K.isEdge m.a m.b ∨ m.top ∉ K.finiteVerts ∨ m.bottom ∉ K.finiteVerts then
    .error .staleCandidate
  else
    let F : Finset V := {m.a, m.b, m.bottom}
    match (K.verts.filter (fun x => x ∉ F ∧ insert x F ∈ K.cells)).min with
    | none => .error .staleCandidate
    | some x =>
      match K.flipFacet (insert x F) x with
      | none => .error .executionFailure
      | some K1 =>
        if !K1.isEdge m.a m.b then .error .executionFailure
        else match K1.flipEdge m.a m.b with
        | none => .error .executionFailure
        | some K2 =>
          if !validator K2 || !K2.isValid then .error .invariantViolation
          else .ok (relabel K2)

/-! ### Manifold values, search and proposal -/

/-- `make_manifold` (include/Ergodic_moves_3.hpp:198-206): the `FoliatedTriangulation`
constructor overwrites every finite vertex time from its radius and then every finite cell
label (include/Foliated_triangulation.hpp:1663-1681, 2024-2048). -/
def makeManifold (env : Env V G) (K : Tri V) : Tri V :=
  relabel { K with time := fun v => if v = K.inf then K.time v else env.label v }

/-- The site loop shared by `do_23_move`, `do_32_move`, `do_62_move` and `do_44_move`
(include/Ergodic_moves_3.hpp:666-684, 832-850, 1381-1400, 1782-1801): the first site that
prepares and executes wins, otherwise the last error is returned. -/
def searchSites {S P T : Type} (prep : S → Except MoveFailure P)
    (exec : P → G → Except MoveFailure T × G) :
    List S → MoveFailure → G → Except MoveFailure T × G
  | [], last, g => (.error last, g)
  | s :: ss, _, g =>
    match prep s with
    | .error e => searchSites prep exec ss e g
    | .ok p =>
      match exec p g with
      | (.ok r, g') => (.ok r, g')
      | (.error e, g') => searchSites prep exec ss e g'

/-- The site loop of `do_26_move_impl` (include/Ergodic_moves_3.hpp:1080-1094): an execution
failure ends the search. -/
def searchSites26 {S P T : Type} (prep : S → Except MoveFailure P)
    (exec : P → G → Except MoveFailure T × G) :
    List S → MoveFailure → G → Except MoveFailure T × G
  | [], last, g => (.error last, g)
  | s :: ss, _, g =>
    match prep s with
    | .error e => searchSites26 prep exec ss e g
    | .ok p => exec p g

/-- Raw cell sites: `filter_cells` by stored label (include/Foliated_triangulation.hpp:575-587). -/
def cellSites (env : Env V G) (K : Tri V) (ct : CellType) : List (Finset V) :=
  (env.iter K K.finiteCells).filter (fun c => K.info c = ct.code)

/-- `classify_edge` of an edge given as a two-element set
(include/Foliated_triangulation.hpp:534-551). -/
def edgeTypeOf (K : Tri V) (e : Finset V) : EdgeType :=
  match canonicalPoints e with
  | [a, b] => classifyEdge (K.time a) (K.time b)
  | _ => .spacelike

/-- Raw edge sites: `filter_edges` (include/Foliated_triangulation.hpp:557-568). -/
def edgeSites (env : Env V G) (K : Tri V) (et : EdgeType) : List (Finset V) :=
  (env.iter K K.finiteEdges).filter (fun e => edgeTypeOf K e = et)

/-- Raw vertex sites: `collect_vertices` (include/Foliated_triangulation.hpp:655-667). -/
def vertexSites (env : Env V G) (K : Tri V) : List (Finset V) :=
  env.iter K (K.finiteVerts.image ({·}))

/-- The raw sites of a move type (the first statement of every `do_*`/`propose_*`). -/
def rawSites (env : Env V G) (K : Tri V) : MoveType → List (Finset V)
  | .twoThree => cellSites env K .twoTwo
  | .threeTwo => edgeSites env K .timelike
  | .twoSix => cellSites env K .oneThree
  | .sixTwo => vertexSites env K
  | .fourFour => edgeSites env K .spacelike

/-- A prepared move of any type. -/
inductive Prepared (V : Type)
  | twoThree (m : Finset V × V)
  | threeTwo (m : V × V)
  | twoSix (m : Finset V × V)
  | sixTwo (v : V)
  | fourFour (m : FourFour V)

/-- The `prepare_*` functions on a raw site (an edge site is given by its two points, a vertex
site by its point; other shapes are not well formed, include/Ergodic_moves_3.hpp:210-222). -/
def prepare (K : Tri V) (mv : MoveType) (s : Finset V) : Except MoveFailure (Prepared V) :=
  match mv with
  | .twoThree => (prepareTwoThree K s).map .twoThree
  | .threeTwo => match canonicalPoints s with
    | [a, b] => (prepareThreeTwo K a b).map .threeTwo
    | _ => .error .invalidTopology
  | .twoSix => (prepareTwoSix K s).map .twoSix
  | .sixTwo => match canonicalPoints s with
    | [v] => (prepareSixTwo K v).map .sixTwo
    | _ => .error .invalidTopology
  | .fourFour => match canonicalPoints s with
    | [a, b] => (prepareFourFour K a b).map .fourFour
    | _ => .error .invalidTopology

/-- The `execute` overloads, with the validator `accept_post_mutation` that the public
functions pass (include/Ergodic_moves_3.hpp, `accept_post_mutation`). -/
def execute (env : Env V G) (K : Tri V) (p : Prepared V) (g : G) :
    Except MoveFailure (Tri V) × G :=
  match p with
  | .twoThree m => (executeTwoThree env K m, g)
  | .threeTwo m => (executeThreeTwo env K m, g)
  | .twoSix m => (executeTwoSix env (fun _ => true) K m, g)
  | .sixTwo v => executeSixTwo env (fun _ => true) K v g
  | .fourFour m => (executeFourFour (fun _ => true) K m, g)

/-- `do_23_move`, `do_32_move`, `do_26_move`, `do_62_move`, `do_44_move`
(include/Ergodic_moves_3.hpp:650-685, 816-851, 1044-1122, 1367-1401, 1766-1802). -/
def doMove (env : Env V G) (mv : MoveType) (K : Tri V) (g : G) : Except MoveFailure (Tri V) × G :=
  let (sites, g1) := env.shuffle (canonicalize (rawSites env K mv)) g
  let r := match mv with
    | .twoSix => searchSites26 (prepare K mv) (execute env K) sites .noCandidate g1
    | _ => searchSites (prepare K mv) (execute env K) sites .noCandidate g1
  (r.1.map (makeManifold env), r.2)

/-- `propose_23_move`, `propose_32_move`, `propose_26_move`, `propose_62_move`,
`propose_44_move` (include/Ergodic_moves_3.hpp:696-714, 861-880, 1133-1138 with 1044-1095,
1410-1428, 1812-1836). -/
def propose (env : Env V G) (mv : MoveType) (K : Tri V) (g : G) : Except MoveFailure (Tri V) × G :=
  match canonicalRandomElement env (rawSites env K mv) g with
  | (none, g1) => (.error .noCandidate, g1)
  | (some s, g1) =>
    match prepare K mv s with
    | .error e => (.error e, g1)
    | .ok p =>
      match execute env K p g1 with
      | (.error e, g2) => (.error e, g2)
      | (.ok K', g2) => (.ok (makeManifold env K'), g2)

end Moves
end CDT
