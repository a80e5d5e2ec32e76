/-
Bistellar (Pachner) moves of simplicial complexes, and the spatial slices of a causal triangulation.
Independent of the model of the code.  A complex is given by the set of its simplices.
-/
import Verif.Spec.Complex
import Mathlib.Logic.Relation

namespace CDT.Spec

variable {V : Type*} [DecidableEq V]

/-- The simplices of the join of the full simplex `A` with the boundary of `B` that contain `A`. -/
def joinBoundary (A B : Finset V) : Finset (Finset V) := B.ssubsets.image (A ∪ ·)

/-- The bistellar move of a `d`-dimensional complex that exchanges `A * ∂B` for `∂A * B`: the simplices
containing `A` are exactly those of `A * ∂B`, `B` is not a simplex, and all simplices containing `A`
are replaced by those of `∂A * B` that contain `B`. -/
structure Bistellar (d : ℕ) (A B : Finset V) (S S' : Finset (Finset V)) : Prop where
  nonempty : A.Nonempty ∧ B.Nonempty
  disjoint : Disjoint A B
  dimension : A.card + B.card = d + 2
  star : S.filter (A ⊆ ·) = joinBoundary A B
  absent : B ∉ S
  result : S' = (S \ joinBoundary A B) ∪ joinBoundary B A

/-- Finitely many bistellar moves lead from `S` to `S'`, none of them touching the vertex `inf`.  By
Pachner's theorem this is the relation of being piecewise linearly homeomorphic, for closed
combinatorial manifolds. -/
def PachnerEquivalent (d : ℕ) (inf : V) : Finset (Finset V) → Finset (Finset V) → Prop :=
  Relation.ReflTransGen fun S S' => ∃ A B, inf ∉ A ∪ B ∧ Bistellar d A B S S'

/-- The simplices of the spatial slice at time `t`: no vertex at infinity, all vertices at time `t`. -/
def sliceAt (inf : V) (time : V → ℤ) (K : Finset (Finset V)) (t : ℤ) : Finset (Finset V) :=
  (faces K).filter fun s => inf ∉ s ∧ ∀ v ∈ s, time v = t

/-- Euler characteristic of a complex: vertices minus edges plus triangles minus ... . -/
def eulerOf (S : Finset (Finset V)) : ℤ :=
  ∑ s ∈ S.filter (·.Nonempty), (-1) ^ (s.card - 1)

/-- Every `d`-1-dimensional simplex lies in exactly two `d`-dimensional ones. -/
def ClosedOfDim (d : ℕ) (S : Finset (Finset V)) : Prop :=
  ∀ r ∈ S, r.card = d → (S.filter fun s => s.card = d + 1 ∧ r ⊆ s).card = 2

/-- Every subset of a simplex is a simplex. -/
def IsComplex (S : Finset (Finset V)) : Prop := ∀ s ∈ S, ∀ r ⊆ s, r ∈ S

end CDT.Spec
