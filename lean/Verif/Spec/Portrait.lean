import Verif.Spec.Console
import Verif.Spec.Complex
/-
What a truthful description of a triangulation looks like, from its simplices and time labels alone.
-/
namespace CDT.Spec
variable {V : Type} [DecidableEq V]

/-- Number of finite triangles with all vertices on slice `t`. -/
def sliceArea (inf : V) (time : V → ℤ) (K : Finset (Finset V)) (t : ℤ) : ℤ :=
  count inf K fun s => s.card = 3 ∧ ∀ v ∈ s, time v = t

/-- Description of a triangulation with `n` simplices of each kind. -/
def shapeText (name : String) (n : Census) : Bytes :=
  sentence [name ++ " has ", " vertices and ", " edges and ", " faces and ", " simplices.\n"]
    ([n.N0, n.N1SL + n.N1TL, n.N2, n.N3].map decimalInt)

/-- The two lines about types of simplices. -/
def detailText (n : Census) : Bytes :=
  sentence ["There are ", " (3,1) simplices and ", " (2,2) simplices and ", " (1,3) simplices.\n"]
    ([n.N31, n.N22, n.N13].map decimalInt) ++
  sentence ["There are ", " timelike edges and ", " spacelike edges.\n"] ([n.N1TL, n.N1SL].map decimalInt)

/-- One line for each of `n` slices from `lo` on. -/
def slicesText (area : ℤ → ℤ) : (n : ℕ) → (lo : ℤ) → Bytes
  | 0, _ => []
  | n + 1, lo =>
    sentence ["Timeslice ", " has ", " spacelike faces.\n"] ([lo, area lo].map decimalInt) ++
      slicesText area n (lo + 1)

/-- The portrait of a triangulation whose vertices are on the slices `lo` to `hi`. -/
def portraitText (inf : V) (time : V → ℤ) (K : Finset (Finset V)) (lo hi : ℤ) : Bytes :=
  shapeText "Manifold" (census inf time K) ++ detailText (census inf time K) ++
    slicesText (sliceArea inf time K) (hi + 1 - lo).toNat lo

/-- `lo` and `hi` are the least and greatest time label of a finite vertex. -/
def TimeRange (inf : V) (time : V → ℤ) (K : Finset (Finset V)) (lo hi : ℤ) : Prop :=
  (∃ v ∈ (vertices K).erase inf, time v = lo) ∧ (∃ v ∈ (vertices K).erase inf, time v = hi) ∧
  ∀ v ∈ (vertices K).erase inf, lo ≤ time v ∧ time v ≤ hi

end CDT.Spec

namespace CDT.Spec

/-- One sentence with a number for each kind of move: how many of the history's moves of that kind
satisfy `p`; `word` says what they are. -/
def tallyText (word : String) (h : List (MoveType × Bool)) (p : Bool → Bool) : Bytes :=
  sentence ["There were ", " " ++ word ++ " (2,3) moves and ", " " ++ word ++ " (3,2) moves and ",
      " " ++ word ++ " (2,6) moves and ", " " ++ word ++ " (6,2) moves and ", " " ++ word ++ " (4,4) moves.\n"]
    (displayed.map fun x => howMany (h.filter fun y => y.1 = x.2) fun y => p y.2)

end CDT.Spec
