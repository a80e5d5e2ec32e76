import Verif.Model.Text
import Verif.Model.Fnv
import Verif.Model.Effect
import Mathlib.Data.List.Lex
import Mathlib.Data.List.Sort
import Mathlib.Data.List.FinRange
import Mathlib.Order.Fin.Basic
/-
Canonical placement and topology fingerprints of a stored triangulation
(include/Utilities.hpp:226-546).

A `std::vector<T>` of size `n` that the code indexes by position is a function `Fin n → T`; a
`std::vector<T>` used as a sequence is a `List T`.
-/
namespace CDT

/-- Byte order of `std::char_traits<char>::lt`: unsigned comparison. -/
instance byteLinearOrder : LinearOrder (BitVec 8) where
  le_refl a := Nat.le_refl a.toNat
  le_trans a b c h₁ h₂ := Nat.le_trans (m := b.toNat) h₁ h₂
  lt_iff_le_not_ge a b := by
    simp only [BitVec.lt_def, BitVec.le_def]; omega
  le_antisymm a b h₁ h₂ := BitVec.eq_of_toNat_eq (Nat.le_antisymm h₁ h₂)
  le_total a b := Nat.le_total a.toNat b.toNat
  toDecidableLE := fun a b => inferInstanceAs (Decidable (a.toNat ≤ b.toNat))
  toDecidableLT := fun a b => inferInstanceAs (Decidable (a.toNat < b.toNat))

/-- What the fingerprint code reads of a triangulation, in container order
(include/Utilities.hpp:432-500): `finite_vertex_handles()` with `point_key` of the point and
`info()`, and `finite_cell_handles()` with the four vertex handles and `info()`.
Simplified: a point is its `point_key` text (lines 226-231), and a vertex handle is the position of
the vertex in `finite_vertex_handles()`, so the vertices of a finite cell are finite vertices. -/
structure Stored where
  /-- number of finite vertices -/
  nv : ℕ
  /-- number of finite cells -/
  nc : ℕ
  /-- `point_key(vertex->point())` -/
  key : Fin nv → Bytes
  /-- `vertex->info()` -/
  vinfo : Fin nv → ℤ
  /-- `cell->vertex(0..3)` -/
  corner : Fin nc → Fin 4 → Fin nv
  /-- `cell->info()` -/
  cinfo : Fin nc → ℤ

/-- `std::ranges::sort`: the sorted rearrangement of the elements.  For a total order the result does
not depend on the algorithm. -/
def sorted {α : Type} [LinearOrder α] (l : List α) : List α := l.insertionSort (· ≤ ·)

/-- `':'` -/
def colon : Byte := 58#8
/-- `';'` -/
def semicolon : Byte := 59#8

/-- The `"v:{}:{}"` record of one vertex (include/Utilities.hpp:440-441, 481-483). -/
def Stored.vertexRecord (t : Stored) (v : Fin t.nv) : Bytes :=
  ascii "v:" ++ t.key v ++ [colon] ++ decimalInt (t.vinfo v)

/-- `point_cell_key` (include/Utilities.hpp:233-242): the four point keys, sorted, joined by `;`. -/
def Stored.pointCellKey (t : Stored) (c : Fin t.nc) : Bytes :=
  List.intercalate [semicolon] (sorted (List.ofFn fun i => t.key (t.corner c i)))

/-- The `"c:{}:{}"` record of one cell in the point-keyed branch
(include/Utilities.hpp:540-541). -/
def Stored.cellRecord (t : Stored) (c : Fin t.nc) : Bytes :=
  ascii "c:" ++ t.pointCellKey c ++ [colon] ++ decimalInt (t.cinfo c)

/-- `vertex_records` (include/Utilities.hpp:431-445). -/
def Stored.vertexRecords (t : Stored) : List Bytes := sorted (List.ofFn t.vertexRecord)

/-- `has_coincident_vertices` (include/Utilities.hpp:447-458): some point key occurs twice. -/
def Stored.hasCoincidentVertices (t : Stored) : Bool := !decide (List.ofFn t.key).Nodup

/-- `fingerprint_records` (include/Utilities.hpp:502-516): FNV-1a over each record followed by the
byte `0xFF`. -/
def fingerprintRecords (records : List Bytes) : BitVec 64 :=
  records.foldl (fun digest record => fnvStep (fnvFold digest record) 255#8) fnvOffset

/-- `canonical_placement_fingerprint` (include/Utilities.hpp:519-522). -/
def placementFingerprint (t : Stored) : BitVec 64 := fingerprintRecords t.vertexRecords

/-! ## Canonical incidence search -/

/-- `std::unique` with `erase`: of every run of equal elements one is kept. -/
def uniqueRuns {α : Type} [DecidableEq α] : List α → List α
  | [] => []
  | a :: rest =>
    match uniqueRuns rest with
    | [] => [a]
    | b :: kept => if a = b then b :: kept else a :: b :: kept

/-- `canonical_colors` (include/Utilities.hpp:244-261): position of each signature among the sorted
distinct signatures. -/
def canonicalColors {α : Type} [LinearOrder α] {n : ℕ} (signatures : Fin n → α) : Fin n → ℕ :=
  let ordered := uniqueRuns (sorted (List.ofFn signatures))
  fun i => ordered.findIdx fun x => !decide (x < signatures i)

/-- `CANONICAL_INCIDENCE_WORK_BUDGET` (include/Utilities.hpp:263). -/
def canonicalIncidenceWorkBudget : ℕ := 100000

/-- `consume_canonical_incidence_work` (include/Utilities.hpp:265-273): the remaining budget, or
`std::runtime_error`. -/
def consumeWork (budget : ℕ) : Except Exc ℕ :=
  if budget = 0 then .error .runtimeError else .ok (budget - 1)

/-- One refinement signature (include/Utilities.hpp:285-301): the node's own colour followed by the
sorted colours of its neighbours. -/
def refinementSignature {n : ℕ} (adjacency : Fin n → List (Fin n)) (colors : Fin n → ℕ)
    (node : Fin n) : List ℕ :=
  colors node :: sorted ((adjacency node).map colors)

/-- The loop of `refine_incidence_colors` (include/Utilities.hpp:275-308) with the given number of
iterations left; returns the colours and the remaining budget. -/
def refineLoop {n : ℕ} (adjacency : Fin n → List (Fin n)) :
    ℕ → (Fin n → ℕ) → ℕ → Except Exc ((Fin n → ℕ) × ℕ)
  | 0, colors, budget => .ok (colors, budget)
  | iterations + 1, colors, budget => do
    let budget ← consumeWork budget
    let refined := canonicalColors (refinementSignature adjacency colors)
    if refined = colors then .ok (colors, budget)
    else refineLoop adjacency iterations refined budget

/-- `refine_incidence_colors` (include/Utilities.hpp:275-308). -/
def refineColors {n : ℕ} (adjacency : Fin n → List (Fin n)) (colors : Fin n → ℕ) (budget : ℕ) :
    Except Exc ((Fin n → ℕ) × ℕ) :=
  refineLoop adjacency n colors budget

/-- One record of `incidence_records_for_coloring` (include/Utilities.hpp:324-343):
`"{size}:{base}:neighbors="` and the sorted neighbour colours, each followed by `;`. -/
def incidenceRecord {n : ℕ} (bases : Fin n → Bytes) (adjacency : Fin n → List (Fin n))
    (colors : Fin n → ℕ) (node : Fin n) : Bytes :=
  decimal (bases node).length ++ [colon] ++ bases node ++ ascii ":neighbors=" ++
    (sorted ((adjacency node).map colors)).flatMap fun c => decimal c ++ [semicolon]

/-- `incidence_records_for_coloring` (include/Utilities.hpp:310-345): the records in colour order.
The code's precondition (the colours are a permutation of `[0, n)`) makes `nodes_by_color` the
inverse of `colors`; the position of colour `c` is looked up here with `find?`. -/
def incidenceRecords {n : ℕ} (bases : Fin n → Bytes) (adjacency : Fin n → List (Fin n))
    (colors : Fin n → ℕ) : List Bytes :=
  (List.range n).filterMap fun c =>
    ((List.finRange n).find? fun i => colors i = c).map (incidenceRecord bases adjacency colors)

/-- `color_counts` and the search for the least colour used twice
(include/Utilities.hpp:356-366). -/
def ambiguousColor {n : ℕ} (colors : Fin n → ℕ) : Option ℕ :=
  (List.range n).find? fun c => decide (1 < (List.finRange n).countP fun i => colors i = c)

/-- `*std::ranges::max_element(colors) + 1` (include/Utilities.hpp:367). -/
def individualizedColor {n : ℕ} (colors : Fin n → ℕ) : ℕ := (List.ofFn colors).foldr max 0 + 1

/-- `individualized[node] = individualized_color` (include/Utilities.hpp:372-373). -/
def individualize {n : ℕ} (colors : Fin n → ℕ) (node : Fin n) : Fin n → ℕ :=
  fun i => if i = node then individualizedColor colors else colors i

/-- `if (!best || candidate < *best) best = candidate` (include/Utilities.hpp:376). -/
def better (best : Option (List Bytes)) (candidate : List Bytes) : Option (List Bytes) :=
  match best with
  | none => some candidate
  | some b => if candidate < b then some candidate else some b

/-- The loop over the nodes of the ambiguous colour (include/Utilities.hpp:368-377), with the
recursive call as a parameter. -/
def searchLoop {n : ℕ} (recurse : Fin n → ℕ → Except Exc (List Bytes × ℕ)) :
    List (Fin n) → Option (List Bytes) → ℕ → Except Exc (Option (List Bytes) × ℕ)
  | [], best, budget => .ok (best, budget)
  | node :: rest, best, budget => do
    let (candidate, budget) ← recurse node budget
    searchLoop recurse rest (better best candidate) budget

/-- `canonical_incidence_search` (include/Utilities.hpp:347-379); returns the records and the
remaining budget.  The first argument bounds the recursion depth; every call consumes one unit of
the budget first (line 353), so a depth bound not smaller than the budget is never what stops the
search (`incidenceSearch_depth`).
The `.at` accesses of `color_counts` (line 357) throw when a colour is not below `n`. -/
def incidenceSearch {n : ℕ} (bases : Fin n → Bytes) (adjacency : Fin n → List (Fin n)) :
    ℕ → (Fin n → ℕ) → ℕ → Except Exc (List Bytes × ℕ)
  | 0, _, _ => .error .runtimeError
  | depth + 1, colors, budget => do
    let budget ← consumeWork budget
    let (colors, budget) ← refineColors adjacency colors budget
    if ∃ i, n ≤ colors i then .error .outOfRange
    else
      match ambiguousColor colors with
      | none => .ok (incidenceRecords bases adjacency colors, budget)
      | some a => do
        let (best, budget) ←
          searchLoop (fun node b => incidenceSearch bases adjacency depth
              (individualize colors node) b)
            ((List.finRange n).filter fun i => colors i = a) none budget
        .ok (best.getD [], budget)

/-- The adjacency lists of `canonical_bipartite_incidence_records`
(include/Utilities.hpp:407-417): nodes are the vertices followed by the cells; a vertex lists the
cells that have it as a corner (once per occurrence, in cell order), a cell lists its corners. -/
def Stored.adjacency (t : Stored) : Fin (t.nv + t.nc) → List (Fin (t.nv + t.nc)) :=
  Fin.addCases
    (fun v => (List.finRange t.nc).flatMap fun c =>
      ((List.finRange 4).filter fun i => t.corner c i = v).map fun _ => Fin.natAdd t.nv c)
    (fun c => (List.ofFn (t.corner c)).map (Fin.castAdd t.nc))

/-- The base texts of the nodes (include/Utilities.hpp:404-405, 476-490): `"v:{key}:{info}"` and
`"c:{info}"`. -/
def Stored.bases (t : Stored) : Fin (t.nv + t.nc) → Bytes :=
  Fin.addCases t.vertexRecord fun c => ascii "c:" ++ decimalInt (t.cinfo c)

/-- `incidence_topology_records` (include/Utilities.hpp:459-499) and
`canonical_bipartite_incidence_records` (lines 381-421).  The two `std::invalid_argument` checks
(lines 387-402) cannot fail for the arguments built here. -/
def incidenceTopologyRecords (t : Stored) : Except Exc (List Bytes) :=
  if t.nv + t.nc = 0 then .ok []
  else
    (incidenceSearch t.bases t.adjacency (canonicalIncidenceWorkBudget + 1)
      (canonicalColors t.bases) canonicalIncidenceWorkBudget).map Prod.fst

/-- `canonical_topology_fingerprint` (include/Utilities.hpp:524-546). -/
def topologyFingerprint (t : Stored) : Except Exc (BitVec 64) :=
  if t.hasCoincidentVertices then (incidenceTopologyRecords t).map fingerprintRecords
  else .ok (fingerprintRecords (sorted (t.vertexRecords ++ List.ofFn t.cellRecord)))

end CDT
