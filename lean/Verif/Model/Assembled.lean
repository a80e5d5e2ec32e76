/-
The program `cdt` with its modelled components in place: construction of the initial universe
(include/Foliated_triangulation.hpp:1329-1384, 1682-1692, include/Manifold.hpp:123-146) and the host
of `Verif.Model.Program` whose manifolds are those of `Verif.Model.Simulation`.
-/
import Verif.Model.Program
import Verif.Model.Simulation
import Verif.Model.CausalVertices
import Verif.Model.Population

namespace CDT
variable {V S T : Type} [LinearOrder V]

/-- `make_triangulation<3>` (include/Foliated_triangulation.hpp:1329-1384): the generated ball, its
insertion, the repair loops.  `gen` is the point generator with its random stream; `env` is the
environment for the given radius and spacing (they determine the label of a point). -/
def makeTriangulation {G : Type} (env : Env V G) (re : RepairEnv V) (ie : InsertEnv V) (F : Floats)
    (gen : ℕ → ℕ → V) (simplices timeslices : ℤ) (radius spacing : LD) : Except Exc (Del V) :=
  match makeFoliatedBall F simplices timeslices radius spacing gen with
  | .error e => .error e
  | .ok points =>
    match delaunayState ie points with
    | .error e => .error e
    | .ok D => .ok (repairLoops env re D)

/-- `Manifold(simplices, timeslices, generator, radius, spacing)` (include/Manifold.hpp:136-146,
include/Foliated_triangulation.hpp:1682-1692).  `bits` is the representation of a double. -/
def buildUniverse {G : Type} (env : Env V G) (re : RepairEnv V) (ie : InsertEnv V) (F : Floats)
    (bits : LD → BitVec 64) (gen : ℕ → ℕ → V) (simplices timeslices : ℤ) (radius spacing : LD) :
    Except Exc (Mfld V) :=
  match makeTriangulation env re ie F gen simplices timeslices radius spacing with
  | .error e => .error e
  | .ok D =>
    match construct env D.tri with
    | .error e => .error e
    | .ok (K, caches) => .ok ⟨K, caches, bits radius, bits spacing⟩

/-- The host of `cdt` with the modelled manifolds, moves, check, action and acceptance rule:
`delaunay_snapshot()` is `snapshot` of the triangulation, the counts and time bounds are those of the
manifold (include/Manifold.hpp:240-312), `is_valid()` is `tds().is_valid()`
(include/Manifold.hpp:215-216).  `value` reads a double.  The remaining parts are those of `base`. -/
noncomputable def assembled (base : Host (Mfld V) S Mp T) (env : Env V (Random S)) (R : Rounding)
    (drawMove : Random S → Fin 5 × Random S) (drawTrial : Random S → LD × Random S)
    (value : BitVec 64 → ℚ) (snapshot : Tri V → T) : Host (Mfld V) S Mp T :=
  { base with
    snapshot := fun m => snapshot m.tri
    summary := fun m => ⟨m.geometry.N0, m.geometry.N1, m.geometry.N2, m.geometry.N3,
      m.caches.minTime, m.caches.maxTime, value m.radius, value m.spacing⟩
    valid := fun m => m.tri.isValid
    engine := fun p => metroEngine env R p drawMove drawTrial }

/-- The outside of `cdt` whose universes are built by `buildUniverse`; `gen` reads the points off the
initialization stream. -/
def builds (base : Outside (Mfld V) S) {G : Type} (env : Env V G) (re : RepairEnv V) (ie : InsertEnv V)
    (F : Floats) (bits : LD → BitVec 64) (gen : Random S → ℕ → ℕ → V) : Outside (Mfld V) S :=
  { base with
    construct := fun simplices timeslices random radius spacing =>
      buildUniverse env re ie F bits (gen random) simplices timeslices radius spacing }

end CDT
