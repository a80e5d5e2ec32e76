/-
Combinatorial spheres and manifolds.  Independent of the model of the code.
-/
import Verif.Spec.Pachner

namespace CDT.Spec

variable {V : Type*} [DecidableEq V]

/-- The link of the vertex `v`: the simplices opposite `v` in the simplices that contain it. -/
def link (v : V) (S : Finset (Finset V)) : Finset (Finset V) := (S.filter (v ∈ ·)).image (·.erase v)

/-- A triangulated sphere of dimension `d`: finitely many bistellar moves make it from the boundary of a
simplex. -/
def IsSphere (d : ℕ) (S : Finset (Finset V)) : Prop :=
  ∃ T : Finset V, T.card = d + 2 ∧ Relation.ReflTransGen (fun L L' => ∃ A B, Bistellar d A B L L') T.ssubsets S

/-- A closed combinatorial manifold of dimension `d + 1`: the link of every vertex is a sphere. -/
def IsManifold (d : ℕ) (S : Finset (Finset V)) : Prop := ∀ v, {v} ∈ S → IsSphere d (link v S)

/-- Connected: the vertices cannot be divided into two parts without an edge between them. -/
def IsConnected (S : Finset (Finset V)) : Prop :=
  ∀ W : Set V, (∀ u v, {u, v} ∈ S → (u ∈ W ↔ v ∈ W)) → (∀ v, {v} ∈ S → v ∈ W) ∨ ∀ v, {v} ∈ S → v ∉ W

end CDT.Spec
