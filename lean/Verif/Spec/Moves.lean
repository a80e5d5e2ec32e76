/-
Specification of the five elementary moves of three-dimensional causal dynamical
triangulations as replacements of explicit tetrahedra, following docs/ergodic-moves.md.
Independent of the code model.
-/
import Verif.Spec.Complex

namespace CDT.Spec

variable {V : Type*} [DecidableEq V]

/-- The tetrahedra `old` are exchanged for the tetrahedra `new`; all others stay. -/
structure Exchange (old new K K' : Finset (Finset V)) : Prop where
  present : old ⊆ K
  absent : ∀ c ∈ new, c ∉ K
  result : K' = (K \ old) ∪ new

/-- Exactly the simplices `lost` disappear and exactly the simplices `gained` appear; every
other vertex, edge, triangle and tetrahedron is untouched. -/
structure FaceChange (lost gained K K' : Finset (Finset V)) : Prop where
  present : lost ⊆ faces K
  absent : ∀ s ∈ gained, s ∉ faces K
  result : faces K' = (faces K \ lost) ∪ gained

/-- The (2,3) move: the tetrahedra `pxyz` and `qxyz`, one of type (2,2) and one of type (3,1) or
(1,3), share the timelike triangle `xyz`, which is replaced by the new timelike edge `pq`
surrounded by three tetrahedra (two (2,2) and one of the same pure type). -/
structure Move23 (inf : V) (time : V → ℤ) (K K' : Finset (Finset V)) (p q x y z : V) : Prop where
  distinct : [p, q, x, y, z].Nodup
  finite : inf ∉ [p, q, x, y, z]
  cells : Exchange {{p, x, y, z}, {q, x, y, z}} {{p, q, x, y}, {p, q, x, z}, {p, q, y, z}} K K'
  simplices : FaceChange {{x, y, z}, {p, x, y, z}, {q, x, y, z}}
    {{p, q}, {p, q, x}, {p, q, y}, {p, q, z}, {p, q, x, y}, {p, q, x, z}, {p, q, y, z}} K K'
  mixed : HasType time 2 2 {p, x, y, z}
  triangle : ¬ Spacelike time {x, y, z}
  edge : ¬ Spacelike time {p, q}
  pure : (HasType time 3 1 {q, x, y, z} ∧ HasType time 2 2 {p, q, x, z} ∧
      HasType time 2 2 {p, q, y, z} ∧ HasType time 3 1 {p, q, x, y}) ∨
    (HasType time 1 3 {q, x, y, z} ∧ HasType time 2 2 {p, q, x, z} ∧
      HasType time 2 2 {p, q, y, z} ∧ HasType time 1 3 {p, q, x, y})

/-- The (3,2) move: the inverse replacement, at the timelike edge `pq` of degree three. -/
structure Move32 (inf : V) (time : V → ℤ) (K K' : Finset (Finset V)) (p q x y z : V) : Prop where
  distinct : [p, q, x, y, z].Nodup
  finite : inf ∉ [p, q, x, y, z]
  degree : cellsAt K {p, q} = {{p, q, x, y}, {p, q, x, z}, {p, q, y, z}}
  cells : Exchange {{p, q, x, y}, {p, q, x, z}, {p, q, y, z}} {{p, x, y, z}, {q, x, y, z}} K K'
  simplices : FaceChange
    {{p, q}, {p, q, x}, {p, q, y}, {p, q, z}, {p, q, x, y}, {p, q, x, z}, {p, q, y, z}}
    {{x, y, z}, {p, x, y, z}, {q, x, y, z}} K K'
  edge : ¬ Spacelike time {p, q}
  triangle : ¬ Spacelike time {x, y, z}
  mixed : HasType time 2 2 {p, x, y, z}
  pure : (HasType time 3 1 {q, x, y, z} ∧ HasType time 2 2 {p, q, x, z} ∧
      HasType time 2 2 {p, q, y, z} ∧ HasType time 3 1 {p, q, x, y}) ∨
    (HasType time 1 3 {q, x, y, z} ∧ HasType time 2 2 {p, q, x, z} ∧
      HasType time 2 2 {p, q, y, z} ∧ HasType time 1 3 {p, q, x, y})

/-- The six tetrahedra around a vertex `m` inside the triangle `xyz` with apexes `u` and `d`. -/
def sixAround (x y z u d m : V) : Finset (Finset V) :=
  {{x, y, m, u}, {x, z, m, u}, {y, z, m, u}, {x, y, m, d}, {x, z, m, d}, {y, z, m, d}}

/-- The simplices (other than tetrahedra) containing `m` in that configuration: the vertex, five
edges and nine triangles. -/
def starOf (x y z u d m : V) : Finset (Finset V) :=
  {{m}, {x, m}, {y, m}, {z, m}, {m, u}, {m, d},
    {x, y, m}, {x, z, m}, {y, z, m}, {x, m, u}, {y, m, u}, {z, m, u}, {x, m, d}, {y, m, d}, {z, m, d}}

/-- The (2,6) move, topological part: the new vertex `m` subdivides the spacelike triangle `xyz`
between an upper (3,1) tetrahedron with apex `u` and a lower (1,3) tetrahedron with apex `d`.
`time` is the time function before the move. -/
structure Move26 (inf : V) (time : V → ℤ) (K K' : Finset (Finset V)) (x y z u d m : V) : Prop where
  distinct : [x, y, z, u, d, m].Nodup
  finite : inf ∉ [x, y, z, u, d, m]
  fresh : m ∉ vertices K
  cells : Exchange {{x, y, z, u}, {x, y, z, d}} (sixAround x y z u d m) K K'
  simplices : FaceChange {{x, y, z}, {x, y, z, u}, {x, y, z, d}}
    (starOf x y z u d m ∪ sixAround x y z u d m) K K'
  slice : time y = time x ∧ time z = time x
  above : time u = time x + 1
  below : time d = time x - 1

/-- The (6,2) move: the vertex `m`, all of whose six tetrahedra are finite, is removed from its
slice triangle. -/
structure Move62 (inf : V) (time : V → ℤ) (K K' : Finset (Finset V)) (x y z u d m : V) : Prop where
  distinct : [x, y, z, u, d, m].Nodup
  finite : inf ∉ [x, y, z, u, d, m]
  degree : cellsAt K {m} = sixAround x y z u d m
  gone : m ∉ vertices K'
  cells : Exchange (sixAround x y z u d m) {{x, y, z, u}, {x, y, z, d}} K K'
  simplices : FaceChange (starOf x y z u d m ∪ sixAround x y z u d m)
    {{x, y, z}, {x, y, z, u}, {x, y, z, d}} K K'
  slice : time y = time x ∧ time z = time x ∧ time m = time x
  above : time u = time x + 1
  below : time d = time x - 1

/-- The (4,4) move: in the spatial quadrilateral `a x b y`, with apexes `u` above and `d` below,
the diagonal `ab` is exchanged for the diagonal `xy`. -/
structure Move44 (inf : V) (time : V → ℤ) (K K' : Finset (Finset V)) (a b x y u d : V) : Prop where
  distinct : [a, b, x, y, u, d].Nodup
  finite : inf ∉ [a, b, x, y, u, d]
  degree : cellsAt K {a, b} = {{a, b, x, u}, {a, b, y, u}, {a, b, x, d}, {a, b, y, d}}
  cells : Exchange {{a, b, x, u}, {a, b, y, u}, {a, b, x, d}, {a, b, y, d}}
    {{x, y, a, u}, {x, y, b, u}, {x, y, a, d}, {x, y, b, d}} K K'
  simplices : FaceChange
    {{a, b}, {a, b, x}, {a, b, y}, {a, b, u}, {a, b, d},
      {a, b, x, u}, {a, b, y, u}, {a, b, x, d}, {a, b, y, d}}
    {{x, y}, {x, y, a}, {x, y, b}, {x, y, u}, {x, y, d},
      {x, y, a, u}, {x, y, b, u}, {x, y, a, d}, {x, y, b, d}} K K'
  slice : time b = time a ∧ time x = time a ∧ time y = time a
  above : time u = time a + 1
  below : time d = time a - 1

end CDT.Spec
