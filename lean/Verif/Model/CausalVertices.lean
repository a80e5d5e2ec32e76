/-
Triangulations from explicit points and time values
(include/Foliated_triangulation.hpp:264-275, 382-413, 1719-1736).
-/
import Verif.Model.Repair

namespace CDT
variable {V G : Type} [LinearOrder V]

/-- `make_causal_vertices` (include/Foliated_triangulation.hpp:391-413); `size_t` time values are
natural numbers.  `std::ranges::transform` visits the pairs in order. -/
def makeCausalVertices {P : Type} (points : List P) (times : List ℕ) : Except Exc (List (P × ℤ)) :=
  if points.length ≠ times.length then .error .lengthError
  else (points.zip times).mapM fun p => if p.2 ≤ 2 ^ 31 - 1 then .ok (p.1, (p.2 : ℤ)) else .error .outOfRange

/-- `Delaunay_triangulation_3::insert` of a range of points with info (CGAL), as called at
include/Foliated_triangulation.hpp:268-269, into an empty triangulation. -/
structure InsertEnv (V : Type) where
  insert : List (V × ℤ) → Del V

/-- What is assumed of CGAL's insertion: the points become the vertices, each of distinct points keeps
its info, and topology, the vertex at infinity and its info depend only on the points. -/
structure InsertEnv.Lawful (ie : InsertEnv V) : Prop where
  points : ∀ l, (ie.insert l).points = (l.map Prod.fst).toFinset
  wf : ∀ l, (ie.insert l).Wf
  time : ∀ l, (l.map Prod.fst).Nodup → ∀ p ∈ l, (ie.insert l).tri.time p.1 = p.2
  shape : ∀ l l', l.map Prod.fst = l'.map Prod.fst → (ie.insert l).tri.inf = (ie.insert l').tri.inf ∧
    (ie.insert l).tri.cells = (ie.insert l').tri.cells ∧ (ie.insert l).tri.info = (ie.insert l').tri.info ∧
    (ie.insert l).tri.time (ie.insert l).tri.inf = (ie.insert l').tri.time (ie.insert l').tri.inf

/-- `Delaunay_state(Causal_vertices)` (include/Foliated_triangulation.hpp:264-275): the number of
inserted vertices is compared with the number of given ones.  Lock grids are the subject of
`Verif.Model.Ownership`. -/
def delaunayState (ie : InsertEnv V) (l : List (V × ℤ)) : Except Exc (Del V) :=
  let D := ie.insert l
  if D.points.card ≠ l.length then .error .invalidArgument else .ok D

/-- `FoliatedTriangulation(Causal_vertices, initial_radius, foliation_spacing)`
(include/Foliated_triangulation.hpp:1719-1736, 1639-1665); the two numbers enter through the label
function of `env`.  Only triangulations of dimension three are covered: the caches of a triangulation
without cells are not modelled. -/
def foliatedFromVertices (env : Env V G) (ie : InsertEnv V) (l : List (V × ℤ)) : Except Exc (Tri V × Caches V) :=
  match delaunayState ie l with
  | .error e => .error e
  | .ok D => if D.points.card = 0 then .error .invalidArgument else construct env D.tri

end CDT
