/-
Model of causal classification (include/Foliated_triangulation.hpp).
-/
import Mathlib.Data.List.Sort
import Mathlib.Data.Finset.Lattice.Fold
import Mathlib.Algebra.Order.Ring.Int

namespace CDT

/-- `CellType` (include/Foliated_triangulation.hpp:352-360). -/
inductive CellType
  | threeOne | twoTwo | oneThree | acausal | unclassified
  deriving DecidableEq, Repr

/-- The enumerator values stored in `cell->info()` (include/Foliated_triangulation.hpp:352-360). -/
def CellType.code : CellType → ℤ
  | .threeOne => 31
  | .twoTwo => 22
  | .oneThree => 13
  | .acausal => 99
  | .unclassified => 0

/-- `EdgeType` (include/Foliated_triangulation.hpp:363-367). -/
inductive EdgeType
  | spacelike | timelike
  deriving DecidableEq, Repr

/-- `std::max_element` over a non-empty array (include/Foliated_triangulation.hpp:829-830);
the empty case does not occur (four vertices) and is given the value 0. -/
def maxElement : List ℤ → ℤ
  | [] => 0
  | x :: xs => xs.foldl max x

/-- `std::min_element` (include/Foliated_triangulation.hpp:831-832). -/
def minElement : List ℤ → ℤ
  | [] => 0
  | x :: xs => xs.foldl min x

/-- `expected_cell_type` (include/Foliated_triangulation.hpp:815-868) on the array of vertex
times in storage order.  `multiset::count` is `List.count`.  The subtraction is done in `int`
by the code; the model uses unbounded integers (times are small slice labels). -/
def expectedCellType (ts : List ℤ) : CellType :=
  let maxtime := maxElement ts
  let mintime := minElement ts
  if maxtime - mintime ≠ 1 ∨ maxtime = mintime then .acausal
  else
    let maxVertices := ts.count maxtime
    let minVertices := ts.count mintime
    if maxVertices = 3 ∧ minVertices = 1 then .oneThree
    else if maxVertices = 2 ∧ minVertices = 2 then .twoTwo
    else if maxVertices = 1 ∧ minVertices = 3 then .threeOne
    else .unclassified

/-- `classify_edge` (include/Foliated_triangulation.hpp:534-551). -/
def classifyEdge (t1 t2 : ℤ) : EdgeType := if t1 ≠ t2 then .timelike else .spacelike

/-- `is_cell_type_correct` (include/Foliated_triangulation.hpp:875-882); `info` is the stored
label. -/
def isCellTypeCorrect (ts : List ℤ) (info : ℤ) : Bool :=
  let ct := expectedCellType ts
  ct != .acausal && ct != .unclassified && ct.code == info

/-- The points of a simplex in lexicographic order: `std::ranges::sort(points, point_less)`
(include/Ergodic_moves_3.hpp:250-270).  A vertex is identified with its point; the linear
order on `V` stands for CGAL's lexicographic comparison.  The result does not depend on the
storage order, which is why it can be defined on sets. -/
def canonicalPoints {V : Type*} [LinearOrder V] (s : Finset V) : List V :=
  Quot.liftOn s.val (fun l => l.insertionSort (· ≤ ·))
    (fun _ _ h => List.Perm.eq_of_pairwise
      (fun _ _ _ _ hab hba => le_antisymm hab hba)
      (List.pairwise_insertionSort _ _) (List.pairwise_insertionSort _ _)
      ((List.perm_insertionSort _ _).trans (h.trans (List.perm_insertionSort _ _).symm)))

theorem canonicalPoints_perm {V : Type*} [LinearOrder V] (s : Finset V) :
    (canonicalPoints s : Multiset V) = s.val := by
  unfold canonicalPoints
  rcases s with ⟨v, hv⟩
  induction v using Quot.inductionOn with
  | h l => exact Quot.sound (List.perm_insertionSort _ l)

theorem mem_canonicalPoints {V : Type*} [LinearOrder V] {s : Finset V} {v : V} :
    v ∈ canonicalPoints s ↔ v ∈ s := by
  rw [← Multiset.mem_coe, canonicalPoints_perm]; rfl

theorem length_canonicalPoints {V : Type*} [LinearOrder V] (s : Finset V) :
    (canonicalPoints s).length = s.card := by
  rw [← Multiset.coe_card, canonicalPoints_perm]; rfl

theorem nodup_canonicalPoints {V : Type*} [LinearOrder V] (s : Finset V) :
    (canonicalPoints s).Nodup := by
  rw [← Multiset.coe_nodup, canonicalPoints_perm]; exact s.nodup

theorem pairwise_canonicalPoints {V : Type*} [LinearOrder V] (s : Finset V) :
    (canonicalPoints s).Pairwise (· ≤ ·) := by
  unfold canonicalPoints
  rcases s with ⟨v, hv⟩
  induction v using Quot.inductionOn with
  | h l => exact List.pairwise_insertionSort _ l

end CDT
