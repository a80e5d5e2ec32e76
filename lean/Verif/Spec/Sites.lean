/-
Specification of the sites of the five elementary moves (docs/ergodic-moves.md), independent of
the code model: where in a foliated complex can a move be made?
-/
import Verif.Spec.Moves

namespace CDT.Spec

variable {V : Type*} [DecidableEq V]

/-- A (2,2) tetrahedron `pxyz` and a finite (3,1) or (1,3) tetrahedron `qxyz` share the triangle
`xyz`. -/
structure Site23 (inf : V) (time : V → ℤ) (K : Finset (Finset V)) (p q x y z : V) : Prop where
  distinct : [p, q, x, y, z].Nodup
  finite : inf ∉ [p, q, x, y, z]
  left : {p, x, y, z} ∈ K
  right : {q, x, y, z} ∈ K
  mixed : HasType time 2 2 {p, x, y, z}
  pure : HasType time 3 1 {q, x, y, z} ∨ HasType time 1 3 {q, x, y, z}

/-- The edge `pq` lies in exactly three tetrahedra, all finite: `pqxy` of type (3,1) or (1,3),
`pqxz` and `pqyz` of type (2,2). -/
structure Site32 (inf : V) (time : V → ℤ) (K : Finset (Finset V)) (p q x y z : V) : Prop where
  distinct : [p, q, x, y, z].Nodup
  finite : inf ∉ [p, q, x, y, z]
  degree : cellsAt K {p, q} = {{p, q, x, y}, {p, q, x, z}, {p, q, y, z}}
  pure : HasType time 3 1 {p, q, x, y} ∨ HasType time 1 3 {p, q, x, y}
  mixed : HasType time 2 2 {p, q, x, z} ∧ HasType time 2 2 {p, q, y, z}

/-- The spacelike triangle `xyz` separates the (3,1) tetrahedron `xyzu` from the (1,3)
tetrahedron `xyzd`, both finite. -/
structure Site26 (inf : V) (time : V → ℤ) (K : Finset (Finset V)) (x y z u d : V) : Prop where
  distinct : [x, y, z, u, d].Nodup
  finite : inf ∉ [x, y, z, u, d]
  upper : {x, y, z, u} ∈ K
  lower : {x, y, z, d} ∈ K
  slice : time y = time x ∧ time z = time x
  above : time u = time x + 1
  below : time d = time x - 1

/-- The vertex `m` lies in exactly six tetrahedra, all finite: three (3,1) towards `u` and three
(1,3) towards `d`, over the slice triangle `xyz`. -/
structure Site62 (inf : V) (time : V → ℤ) (K : Finset (Finset V)) (x y z u d m : V) : Prop where
  distinct : [x, y, z, u, d, m].Nodup
  finite : inf ∉ [x, y, z, u, d, m]
  degree : cellsAt K {m} = sixAround x y z u d m
  slice : time y = time x ∧ time z = time x ∧ time m = time x
  above : time u = time x + 1
  below : time d = time x - 1

/-- The spacelike edge `ab` lies in exactly four tetrahedra, all finite, over the spatial
quadrilateral `a x b y` with `u` above and `d` below. -/
structure Site44 (inf : V) (time : V → ℤ) (K : Finset (Finset V)) (a b x y u d : V) : Prop where
  distinct : [a, b, x, y, u, d].Nodup
  finite : inf ∉ [a, b, x, y, u, d]
  degree : cellsAt K {a, b} = {{a, b, x, u}, {a, b, y, u}, {a, b, x, d}, {a, b, y, d}}
  slice : time b = time a ∧ time x = time a ∧ time y = time a
  above : time u = time a + 1
  below : time d = time a - 1

end CDT.Spec
