/-
What "the same manifold, however it is stored" means for calls, transitions and runs.
-/
import Verif.Spec.Trajectory
import Verif.Spec.Reverse

namespace CDT
open Spec

variable {V G : Type} [LinearOrder V]

/-- The orientation tests of `Triangulation_3::flip` read nothing but the manifold (in CGAL: the points
of the two or three tetrahedra). -/
structure PointsOnly (env : Env V G) : Prop where
  facet : ∀ {K L : Tri V}, SameManifold K L → ∀ c i, env.geoFacet L c i = env.geoFacet K c i
  edge : ∀ {K L : Tri V}, SameManifold K L → ∀ a b, env.geoEdge L a b = env.geoEdge K a b

/-- Two calls of a move function ended alike: the same failure or the same manifold, and the same state
of the random source. -/
structure SameAnswer (r s : Except MoveFailure (Tri V) × G) : Prop where
  gen : s.2 = r.2
  failure : ∀ e, s.1 = .error e ↔ r.1 = .error e
  manifold : ∀ K L, r.1 = .ok K → s.1 = .ok L → SameManifold K L

/-- Two manifold objects with the same foliation parameters that hold the same manifold. -/
structure SameObject (m m' : Mfld V) : Prop where
  tri : SameManifold m.tri m'.tri
  radius : m'.radius = m.radius
  spacing : m'.spacing = m.spacing

/-- Two states of a sampler that differ in the storage of the current manifold only. -/
structure SameState (v w : MetroVars (Mfld V) G) : Prop where
  current : SameObject v.current w.current
  cmd : w.cmd = v.cmd
  stats : w.stats = v.stats
  gen : w.gen = v.gen

end CDT
