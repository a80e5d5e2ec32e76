/-
Specification vocabulary for three-dimensional causal triangulations, independent of the
model of the C++ code.  A triangulation is a finite set of four-element vertex sets
("tetrahedra"), one vertex being the point at infinity that CGAL adds outside the convex
hull; a `time` function puts every vertex on a slice.
-/
import Mathlib.Data.Finset.Powerset
import Mathlib.Data.Finset.Image
import Mathlib.Algebra.BigOperators.Group.Finset.Basic
import Mathlib.Algebra.Order.Ring.Int

namespace CDT.Spec

variable {V : Type*} [DecidableEq V]

/-- All faces (vertex subsets) of the tetrahedra in `K`. -/
def faces (K : Finset (Finset V)) : Finset (Finset V) := K.biUnion Finset.powerset

/-- The vertices used by `K`. -/
def vertices (K : Finset (Finset V)) : Finset V := K.biUnion id

/-- The tetrahedra of `K` that contain the simplex `s`. -/
def cellsAt (K : Finset (Finset V)) (s : Finset V) : Finset (Finset V) := K.filter (s ⊆ ·)

/-- The tetrahedra of `K` that avoid the vertex at infinity. -/
def finitePart (inf : V) (K : Finset (Finset V)) : Finset (Finset V) := K.filter (inf ∉ ·)

/-- A closed pseudo-manifold: four vertices per tetrahedron, and every triangle of a
tetrahedron is shared by exactly two tetrahedra (counting the ones at infinity; a finite
triangle on the hull therefore lies in exactly one finite tetrahedron). -/
def Closed (K : Finset (Finset V)) : Prop :=
  (∀ c ∈ K, c.card = 4) ∧ ∀ s ∈ faces K, s.card = 3 → (cellsAt K s).card = 2

/-- The simplex `s` has exactly `i` vertices on some slice, exactly `j` on the next one, and
no others. -/
def HasType (time : V → ℤ) (i j : ℕ) (s : Finset V) : Prop :=
  s.card = i + j ∧ ∃ v ∈ s, (s.filter (fun u => time u = time v)).card = i ∧
    (s.filter (fun u => time u = time v + 1)).card = j

/-- All vertices of the simplex lie on one slice. -/
def Spacelike (time : V → ℤ) (s : Finset V) : Prop := ∀ u ∈ s, ∀ v ∈ s, time u = time v

instance (time : V → ℤ) (i j : ℕ) : DecidablePred (HasType time i j) :=
  fun s => by unfold HasType; infer_instance

instance (time : V → ℤ) : DecidablePred (Spacelike time) :=
  fun s => by unfold Spacelike; infer_instance

instance : DecidablePred (Closed (V := V)) :=
  fun K => by unfold Closed; infer_instance

/-- Every finite tetrahedron spans two adjacent slices. -/
def Causal (inf : V) (time : V → ℤ) (K : Finset (Finset V)) : Prop :=
  ∀ c ∈ K, inf ∉ c → HasType time 3 1 c ∨ HasType time 2 2 c ∨ HasType time 1 3 c

instance (inf : V) (time : V → ℤ) : DecidablePred (Causal inf time) :=
  fun K => by unfold Causal; infer_instance

/-- A foliated simplicial manifold-with-boundary in the sense of the library: a closed
pseudo-manifold once the vertex at infinity is added, with causal finite tetrahedra. -/
structure Foliated (inf : V) (time : V → ℤ) (K : Finset (Finset V)) : Prop where
  closed : Closed K
  causal : Causal inf time K

/-- Number of finite faces of `K` with the property `p`. -/
def count (inf : V) (K : Finset (Finset V)) (p : Finset V → Prop) [DecidablePred p] : ℤ :=
  (((faces K).filter (inf ∉ ·)).filter p).card

/-- The eight counts the library publishes. -/
structure Census where
  N0 : ℤ
  N1SL : ℤ
  N1TL : ℤ
  N2 : ℤ
  N31 : ℤ
  N22 : ℤ
  N13 : ℤ
  N3 : ℤ
  deriving DecidableEq

instance : Add Census := ⟨fun a b => ⟨a.N0 + b.N0, a.N1SL + b.N1SL, a.N1TL + b.N1TL, a.N2 + b.N2,
  a.N31 + b.N31, a.N22 + b.N22, a.N13 + b.N13, a.N3 + b.N3⟩⟩

/-- The census of a triangulation: finite simplices counted by dimension and causal type. -/
def census (inf : V) (time : V → ℤ) (K : Finset (Finset V)) : Census where
  N0 := count inf K (fun s => s.card = 1)
  N1SL := count inf K (fun s => s.card = 2 ∧ Spacelike time s)
  N1TL := count inf K (fun s => s.card = 2 ∧ ¬ Spacelike time s)
  N2 := count inf K (fun s => s.card = 3)
  N31 := count inf K (fun s => s.card = 4 ∧ HasType time 3 1 s)
  N22 := count inf K (fun s => s.card = 4 ∧ HasType time 2 2 s)
  N13 := count inf K (fun s => s.card = 4 ∧ HasType time 1 3 s)
  N3 := count inf K (fun s => s.card = 4)

/-- Euler characteristic of the finite part. -/
def euler (inf : V) (K : Finset (Finset V)) : ℤ :=
  count inf K (fun s => s.card = 1) - count inf K (fun s => s.card = 2)
    + count inf K (fun s => s.card = 3) - count inf K (fun s => s.card = 4)

/-- The boundary triangles: the finite triangles opposite the vertex at infinity. -/
def boundary (inf : V) (K : Finset (Finset V)) : Finset (Finset V) :=
  (K.filter (inf ∈ ·)).image (·.erase inf)

/-- The slices occupied by finite vertices. -/
def slices (inf : V) (time : V → ℤ) (K : Finset (Finset V)) : Finset ℤ :=
  ((vertices K).erase inf).image time

end CDT.Spec
