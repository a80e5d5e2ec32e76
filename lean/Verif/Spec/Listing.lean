import Verif.Spec.Portrait
/-
What a truthful listing of simplices looks like.
-/
namespace CDT.Spec
variable {V : Type} [DecidableEq V]

/-- One vertex with its time label and the label its radius implies. -/
def vertexText (point : V → Bytes) (recorded expected : V → ℤ) (v : V) : Bytes :=
  sentence ["Vertex Point: (", ") Timevalue: ", " Expected Timevalue: ", "\n"]
    [point v, decimalInt (recorded v), decimalInt (expected v)]

/-- The `j`-th corner of a tetrahedron. -/
def cornerText (point : V → Bytes) (time : V → ℤ) (j : ℕ) (v : V) : Bytes :=
  sentence ["Vertex(", ") Point: (", ") Timevalue: ", "\n"] [decimal j, point v, decimalInt (time v)]

/-- A tetrahedron with the four corners `v` and the type `type`. -/
def cellText (point : V → Bytes) (time : V → ℤ) (type : ℤ) (v : Fin 4 → V) : Bytes :=
  sentence ["Cell info => ", "\n"] [decimalInt type] ++ cornerText point time 0 (v 0) ++
    cornerText point time 1 (v 1) ++ cornerText point time 2 (v 2) ++ cornerText point time 3 (v 3) ++
    ascii "---\n"

/-- An edge between corners `i` and `j`, which are `u` and `v`. -/
def edgeText (point : V → Bytes) (time : V → ℤ) (i : ℕ) (u : V) (j : ℕ) (v : V) : Bytes :=
  sentence ["Edge: Vertex(", ") Point(", ") Timevalue: ", " -> Vertex(", ") Point(", ") Timevalue: ", "\n"]
    [decimal i, point u, decimalInt (time u), decimal j, point v, decimalInt (time v)]

/-- The type number of a tetrahedron tells how many of its vertices are on the lower and on the upper of two
neighbouring slices. -/
def TypeTold (time : V → ℤ) (type : ℤ) (c : Finset V) : Prop :=
  (type = 31 ∧ HasType time 3 1 c) ∨ (type = 22 ∧ HasType time 2 2 c) ∨ (type = 13 ∧ HasType time 1 3 c)

end CDT.Spec
