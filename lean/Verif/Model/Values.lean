import Verif.Model.Manifold
/-
`FoliatedTriangulation` and `Manifold` as C++ objects: copy, move, assignment, swap and rebuild
(include/Foliated_triangulation.hpp:1461-1665, include/Manifold.hpp:52-192).

A triangulation lives in a storage body.  The derived containers hold CGAL handles, which are
pointers into one particular body; a handle is a body number with the simplex it denotes.  Lock
grids are the subject of `Verif.Model.Ownership`.
-/
namespace CDT.Val

/-- A CGAL vertex, cell, facet or edge handle: the body it points into and what it denotes. -/
abbrev Handle (V : Type) := ℕ × Finset V

/-- The data members of `FoliatedTriangulation<3>`
(include/Foliated_triangulation.hpp:1465-1479).  `body` is `none` in a moved-from object. -/
structure Members (V : Type) where
  body : Option ℕ
  radius : BitVec 64
  spacing : BitVec 64
  vertices : List (Handle V)
  cells : List (Handle V)
  threeOne : List (Handle V)
  twoTwo : List (Handle V)
  oneThree : List (Handle V)
  faces : List (Handle V)
  spacelikeFacets : List (ℤ × Handle V)
  edges : List (Handle V)
  timelikeEdges : List (Handle V)
  spacelikeEdges : List (Handle V)
  maxTime : ℤ
  minTime : ℤ

/-- The data members of `Manifold<3>` (include/Manifold.hpp:58-62). -/
structure Object (V : Type) where
  tri : Members V
  geometry : Geometry

/-- Storage bodies and named manifolds. -/
structure World (V : Type) where
  body : ℕ → Option (Tri V)
  obj : ℕ → Option (Object V)
  next : ℕ

/-- What the code takes from outside: the iteration order of each body, the label of a point under
given foliation parameters, the default parameters and the empty triangulation. -/
structure Setting (V G : Type) where
  base : Env V G
  order : ℕ → Tri V → Finset (Finset V) → List (Finset V)
  label : BitVec 64 → BitVec 64 → V → ℤ
  defaultRadius : BitVec 64
  defaultSpacing : BitVec 64
  empty : Tri V

/-- The environment in which body `b` is classified and traversed. -/
def Setting.env {V G : Type} (S : Setting V G) (b : ℕ) (r s : BitVec 64) : Env V G :=
  { S.base with iter := S.order b, label := S.label r s }

variable {V G : Type} [LinearOrder V]

/-- The derived data with the handles followed. -/
def Members.caches (m : Members V) : Caches V where
  vertices := m.vertices.map Prod.snd
  cells := m.cells.map Prod.snd
  threeOne := m.threeOne.map Prod.snd
  twoTwo := m.twoTwo.map Prod.snd
  oneThree := m.oneThree.map Prod.snd
  faces := m.faces.map Prod.snd
  spacelikeFacets := m.spacelikeFacets.map fun e => (e.1, e.2.2)
  edges := m.edges.map Prod.snd
  timelikeEdges := m.timelikeEdges.map Prod.snd
  spacelikeEdges := m.spacelikeEdges.map Prod.snd
  maxTime := m.maxTime
  minTime := m.minTime

/-- A default-constructed `FoliatedTriangulation` around a new empty body
(include/Foliated_triangulation.hpp:1465-1479, 1551). -/
def defaultMembers (S : Setting V G) (b : ℕ) : Members V :=
  ⟨some b, S.defaultRadius, S.defaultSpacing, [], [], [], [], [], [], [], [], [], [], 0, 0⟩

/-- The member-initialiser list of the private constructor on body `b`
(include/Foliated_triangulation.hpp:1647-1665).  Classification writes labels into the body. -/
def buildMembers (S : Setting V G) (body : ℕ → Option (Tri V)) (b : ℕ) (r s : BitVec 64) :
    Except Exc ((ℕ → Option (Tri V)) × Members V) :=
  match body b with
  | none => .error .invalidArgument
  | some K =>
    match construct (S.env b r s) K with
    | .error e => .error e
    | .ok (K', cs) => .ok (Function.update body b (some K'),
        { body := some b
          radius := r
          spacing := s
          vertices := cs.vertices.map (Prod.mk b)
          cells := cs.cells.map (Prod.mk b)
          threeOne := cs.threeOne.map (Prod.mk b)
          twoTwo := cs.twoTwo.map (Prod.mk b)
          oneThree := cs.oneThree.map (Prod.mk b)
          faces := cs.faces.map (Prod.mk b)
          spacelikeFacets := cs.spacelikeFacets.map fun e => (e.1, b, e.2)
          edges := cs.edges.map (Prod.mk b)
          timelikeEdges := cs.timelikeEdges.map (Prod.mk b)
          spacelikeEdges := cs.spacelikeEdges.map (Prod.mk b)
          maxTime := cs.maxTime
          minTime := cs.minTime })

/-- `swap(FoliatedTriangulation&, FoliatedTriangulation&)`
(include/Foliated_triangulation.hpp:1605-1629), member by member; the body moves with its
`Delaunay_state`. -/
def swapMembers (x y : Members V) : Members V × Members V :=
  ({ body := y.body
     radius := y.radius
     spacing := y.spacing
     vertices := y.vertices
     cells := y.cells
     threeOne := y.threeOne
     twoTwo := y.twoTwo
     oneThree := y.oneThree
     faces := y.faces
     spacelikeFacets := y.spacelikeFacets
     edges := y.edges
     timelikeEdges := y.timelikeEdges
     spacelikeEdges := y.spacelikeEdges
     maxTime := y.maxTime
     minTime := y.minTime },
   { body := x.body
     radius := x.radius
     spacing := x.spacing
     vertices := x.vertices
     cells := x.cells
     threeOne := x.threeOne
     twoTwo := x.twoTwo
     oneThree := x.oneThree
     faces := x.faces
     spacelikeFacets := x.spacelikeFacets
     edges := x.edges
     timelikeEdges := x.timelikeEdges
     spacelikeEdges := x.spacelikeEdges
     maxTime := x.maxTime
     minTime := x.minTime })

/-- The defaulted move constructor (include/Foliated_triangulation.hpp:1586): vectors of the source
become empty, scalars stay, the body is transferred.  Result: target, source. -/
def moveMembers (x : Members V) : Members V × Members V :=
  ({ body := x.body
     radius := x.radius
     spacing := x.spacing
     vertices := x.vertices
     cells := x.cells
     threeOne := x.threeOne
     twoTwo := x.twoTwo
     oneThree := x.oneThree
     faces := x.faces
     spacelikeFacets := x.spacelikeFacets
     edges := x.edges
     timelikeEdges := x.timelikeEdges
     spacelikeEdges := x.spacelikeEdges
     maxTime := x.maxTime
     minTime := x.minTime },
   ⟨none, x.radius, x.spacing, [], [], [], [], [], [], [], [], [], [], x.maxTime, x.minTime⟩)

/-- Destruction of a body, if the object still has one. -/
def freeBody (body : ℕ → Option (Tri V)) : Option ℕ → (ℕ → Option (Tri V))
  | none => body
  | some b => Function.update body b none

/-- The copy constructor (include/Foliated_triangulation.hpp:1555-1568).  `*this` is
default-constructed on a new body; a non-empty source is copied to a second new body, rebuilt and
swapped in; the local `copy` then dies with the first body.  The source body is the triangulation
as it is now. -/
def copyMembers (S : Setting V G) (w : World V) (other : Members V) :
    Except Exc (World V × Members V) :=
  let this := w.next
  let body := Function.update w.body this (some S.empty)
  match other.body.bind w.body with
  | none => .error .invalidArgument
  | some K =>
    if K.finiteVerts.card = 0 then
      .ok ({ w with body := body, next := w.next + 1 },
        { defaultMembers S this with radius := other.radius, spacing := other.spacing })
    else
      let c := w.next + 1
      match buildMembers S (Function.update body c (some K)) c other.radius other.spacing with
      | .error e => .error e
      | .ok (body', copy) =>
        let r := swapMembers copy (defaultMembers S this)
        .ok ({ w with body := freeBody body' r.1.body, next := w.next + 2 }, r.2)

/-- The `Manifold` constructor from a triangulation (include/Manifold.hpp:112-115): the geometry is
computed from the members and the body. -/
def geometryOfMembers (K : Tri V) (m : Members V) : Geometry := geometryOf K m.caches

/-- Put an object into a slot. -/
def World.set (w : World V) (a : ℕ) (o : Option (Object V)) : World V :=
  { w with obj := Function.update w.obj a o }

/-- `Manifold{Triangulation{std::move(delaunay), r, s}}` (include/Manifold.hpp:112-115,
include/Foliated_triangulation.hpp:1639-1665) from a triangulation `K` in a body of its own. -/
def constructObject (S : Setting V G) (w : World V) (a : ℕ) (K : Tri V) (r s : BitVec 64) :
    Except Exc (World V) :=
  let b := w.next
  match buildMembers S (Function.update w.body b (some K)) b r s with
  | .error e => .error e
  | .ok (body', m) =>
    let m' := (moveMembers m).1
    match body' b with
    | none => .error .invalidArgument
    | some K' => .ok ({ w with body := body', next := w.next + 1 }.set a
        (some ⟨m', geometryOfMembers K' m'⟩))

/-- `Manifold{}` (include/Manifold.hpp:75). -/
def defaultObject (S : Setting V G) (w : World V) (a : ℕ) : World V :=
  { w with body := Function.update w.body w.next (some S.empty), next := w.next + 1 }.set a
    (some ⟨defaultMembers S w.next, {}⟩)

/-- `swap(Geometry&, Geometry&)` (include/Geometry.hpp:96-109). -/
def swapGeometry (x y : Geometry) : Geometry × Geometry :=
  ({ N3 := y.N3, N3_31 := y.N3_31, N3_13 := y.N3_13, N3_31_13 := y.N3_31_13, N3_22 := y.N3_22,
     N2 := y.N2, N1 := y.N1, N1_TL := y.N1_TL, N1_SL := y.N1_SL, N0 := y.N0 },
   { N3 := x.N3, N3_31 := x.N3_31, N3_13 := x.N3_13, N3_31_13 := x.N3_31_13, N3_22 := x.N3_22,
     N2 := x.N2, N1 := x.N1, N1_TL := x.N1_TL, N1_SL := x.N1_SL, N0 := x.N0 })

/-- `swap(Manifold&, Manifold&)` (include/Manifold.hpp:103-108) of two slots. -/
def swapObjects (w : World V) (a b : ℕ) : World V :=
  match w.obj a, w.obj b with
  | some x, some y =>
      let t := swapMembers x.tri y.tri
      let g := swapGeometry x.geometry y.geometry
      (w.set a (some ⟨t.1, g.1⟩)).set b (some ⟨t.2, g.2⟩)
  | _, _ => w

/-- Operations a program can perform on manifolds. -/
inductive Op (V : Type) where
  /-- `Manifold a{}` -/
  | default (a : ℕ)
  /-- a construction from a triangulation; all other constructors end here -/
  | construct (a : ℕ) (K : Tri V) (r s : BitVec 64)
  /-- `Manifold a{b}` (include/Manifold.hpp:79) -/
  | copy (a b : ℕ)
  /-- `Manifold a{std::move(b)}` (include/Manifold.hpp:88) -/
  | move (a b : ℕ)
  /-- `a = b` (include/Manifold.hpp:84) -/
  | copyAssign (a b : ℕ)
  /-- `a = std::move(b)` (include/Manifold.hpp:93-97) -/
  | moveAssign (a b : ℕ)
  /-- `swap(a, b)` (include/Manifold.hpp:103-108) -/
  | swap (a b : ℕ)
  /-- `Manifold a{b.updated()}` (include/Manifold.hpp:180-191) -/
  | updated (a b : ℕ)
  /-- end of life -/
  | destroy (a : ℕ)

/-- One operation; an exception leaves no object in the target slot of a construction.  The operands
are assumed alive, as C++ requires; otherwise nothing happens here. -/
def step (S : Setting V G) (w : World V) : Op V → Except Exc (World V)
  | .default a => .ok (defaultObject S w a)
  | .construct a K r s => constructObject S w a K r s
  | .copy a b =>
    match w.obj b with
    | none => .ok w
    | some y =>
      match copyMembers S w y.tri with
      | .error e => .error e
      | .ok (w', t) => .ok (w'.set a (some ⟨t, y.geometry⟩))
  | .move a b =>
    match w.obj b with
    | none => .ok w
    | some y =>
      let t := moveMembers y.tri
      .ok ((w.set a (some ⟨t.1, y.geometry⟩)).set b (some ⟨t.2, y.geometry⟩))
  | .copyAssign a b =>
    -- defaulted: triangulation by copy-and-swap (Foliated_triangulation.hpp:1574-1580), then
    -- geometry; the local `copy` dies with the old value
    match w.obj a, w.obj b with
    | some x, some y =>
      if a = b then .ok w
      else
        match copyMembers S w y.tri with
        | .error e => .error e
        | .ok (w', copy) =>
          let t := swapMembers copy x.tri
          .ok ({ w' with body := freeBody w'.body t.1.body }.set a (some ⟨t.2, y.geometry⟩))
    | _, _ => .ok w
  | .moveAssign a b => .ok (if a = b then w else swapObjects w b a)
  | .swap a b => .ok (swapObjects w a b)
  | .updated a b =>
    match w.obj b with
    | none => .ok w
    | some y =>
      match y.tri.body.bind w.body with
      | none => .error .invalidArgument
      | some K =>
        if K.finiteVerts.card = 0 then .ok (defaultObject S w a)
        else constructObject S w a K y.tri.radius y.tri.spacing
  | .destroy a =>
    match w.obj a with
    | none => .ok w
    | some x => .ok ({ w with body := freeBody w.body x.tri.body }.set a none)

/-- Nothing exists. -/
def World.initial : World V := ⟨fun _ => none, fun _ => none, 0⟩

end CDT.Val
