/-
What a diagonal exchange is.
-/
import Verif.Spec.Sites
import Verif.Spec.Complex

namespace CDT.Spec
variable {V : Type} [DecidableEq V]

/-- The edge `a b` lies in exactly four tetrahedra, all finite, which surround it in the order
`x, u, y, d`. -/
structure Diamond (inf : V) (K : Finset (Finset V)) (a b x y u d : V) : Prop where
  distinct : [a, b, x, y, u, d].Nodup
  finite : inf ∉ [a, b, x, y, u, d]
  around : cellsAt K {a, b} = {{a, b, x, u}, {a, b, y, u}, {a, b, x, d}, {a, b, y, d}}

/-- The complex in which the edge `x y` takes the place of the edge `a b`. -/
def exchanged (K : Finset (Finset V)) (a b x y u d : V) : Finset (Finset V) :=
  (K \ cellsAt K {a, b}) ∪ {{x, y, a, u}, {x, y, b, u}, {x, y, a, d}, {x, y, b, d}}

/-- The label of a tetrahedron: 31, 22 or 13 for the three causal shapes, 99 for anything else. -/
def label (time : V → ℤ) (c : Finset V) : ℤ :=
  if HasType time 3 1 c then 31 else if HasType time 2 2 c then 22
  else if HasType time 1 3 c then 13 else 99

/-- The edge is the axis of some diamond. -/
def IsPivot (inf : V) (K : Finset (Finset V)) (e : V × V) : Prop :=
  ∃ x y u d, Diamond inf K e.1 e.2 x y u d

end CDT.Spec
