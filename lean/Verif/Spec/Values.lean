import Verif.Model.Values
/-
Vocabulary for C43.
-/
namespace CDT.Spec
open CDT.Val

variable {V G : Type} [LinearOrder V]

/-- Everything a caller can observe of a manifold: topology with labels, foliation parameters,
derived containers with their handles followed, time bounds and geometry. -/
structure Seen (V : Type) where
  tri : Tri V
  radius : BitVec 64
  spacing : BitVec 64
  caches : Caches V
  geometry : Geometry

/-- What is observed of the object in slot `a`; nothing of a dead or moved-from one. -/
def seen (w : World V) (a : ℕ) : Option (Seen V) :=
  match w.obj a with
  | none => none
  | some x =>
    match x.tri.body.bind w.body with
    | none => none
    | some K => some ⟨K, x.tri.radius, x.tri.spacing, x.tri.caches, x.geometry⟩

/-- Equal values: the same in every respect, except that the derived containers may list the same
elements in another order, because CGAL promises none for a copied triangulation. -/
structure SameValue (x y : Seen V) : Prop where
  tri : x.tri = y.tri
  radius : x.radius = y.radius
  spacing : x.spacing = y.spacing
  vertices : x.caches.vertices.Perm y.caches.vertices
  cells : x.caches.cells.Perm y.caches.cells
  threeOne : x.caches.threeOne.Perm y.caches.threeOne
  twoTwo : x.caches.twoTwo.Perm y.caches.twoTwo
  oneThree : x.caches.oneThree.Perm y.caches.oneThree
  faces : x.caches.faces.Perm y.caches.faces
  spacelikeFacets : x.caches.spacelikeFacets.Perm y.caches.spacelikeFacets
  edges : x.caches.edges.Perm y.caches.edges
  timelikeEdges : x.caches.timelikeEdges.Perm y.caches.timelikeEdges
  spacelikeEdges : x.caches.spacelikeEdges.Perm y.caches.spacelikeEdges
  maxTime : x.caches.maxTime = y.caches.maxTime
  minTime : x.caches.minTime = y.caches.minTime
  geometry : x.geometry = y.geometry

/-- All handles an object stores. -/
def handles (m : Members V) : List (Handle V) :=
  m.vertices ++ m.cells ++ m.threeOne ++ m.twoTwo ++ m.oneThree ++ m.faces ++
    m.spacelikeFacets.map Prod.snd ++ m.edges ++ m.timelikeEdges ++ m.spacelikeEdges

/-- An object that has not been moved from. -/
def Intact (w : World V) (a : ℕ) : Prop := ∃ x b, w.obj a = some x ∧ x.tri.body = some b

/-- C++ requires constructed targets to be dead and operands to be alive; a moved-from manifold may
only be assigned to, swapped or destroyed. -/
def Permitted (w : World V) : Op V → Prop
  | .default a | .construct a _ _ _ => w.obj a = none
  | .copy a b | .move a b | .updated a b => w.obj a = none ∧ Intact w b
  | .copyAssign a b => w.obj a ≠ none ∧ Intact w b
  | .moveAssign a b | .swap a b => w.obj a ≠ none ∧ w.obj b ≠ none
  | .destroy a => w.obj a ≠ none

/-- Worlds between the operations of any program; an operation that throws changes nothing. -/
inductive Reached (S : Setting V G) : World V → Prop where
  | start : Reached S World.initial
  | next {w w' : World V} {o : Op V} : Reached S w → Permitted w o → step S w o = .ok w' →
      Reached S w'

/-- The slots an operation may change. -/
def written : Op V → Finset ℕ
  | .default a | .construct a _ _ _ | .copy a _ | .copyAssign a _ | .updated a _ | .destroy a => {a}
  | .move a b | .moveAssign a b | .swap a b => {a, b}

end CDT.Spec
