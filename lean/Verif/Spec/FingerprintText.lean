/-
The texts that the fingerprints are digests of.
-/
import Verif.Spec.Fingerprint
import Mathlib.Data.Multiset.Sort
import Mathlib.Data.Finset.Prod
import Mathlib.Data.Fintype.Prod

namespace CDT.Spec

/-- Points are printed with digits, signs, `.`, `e`, `inf`, `nan` and commas: no `:`, no `;`, and no
byte 255. -/
def PlainKeys (t : Stored) : Prop :=
  ∀ v, ∀ b ∈ t.key v, b ≠ BitVec.ofNat 8 ':'.toNat ∧ b ≠ BitVec.ofNat 8 ';'.toNat ∧ b ≠ 255#8

/-- `v:<point>:<label>` -/
def vertexLine (t : Stored) (v : Fin t.nv) : Bytes :=
  ascii "v:" ++ t.key v ++ ascii ":" ++ decimalInt (t.vinfo v)

/-- `c:<point>;<point>;<point>;<point>:<label>` with the points in ascending order -/
def IsCellLine (t : Stored) (c : Fin t.nc) (line : Bytes) : Prop :=
  ∃ a₀ a₁ a₂ a₃, [a₀, a₁, a₂, a₃].Perm (List.ofFn fun i => t.key (t.corner c i)) ∧
    a₀ ≤ a₁ ∧ a₁ ≤ a₂ ∧ a₂ ≤ a₃ ∧
    line = ascii "c:" ++ a₀ ++ ascii ";" ++ a₁ ++ ascii ";" ++ a₂ ++ ascii ";" ++ a₃ ++ ascii ":" ++ decimalInt (t.cinfo c)

/-- Every line is closed by the byte 255. -/
def closedLines (lines : List Bytes) : Bytes := lines.flatMap fun line => line ++ [255#8]

/-- The lines of the vertices in ascending order. -/
def PlacementText (t : Stored) (text : Bytes) : Prop :=
  ∃ lines : List Bytes, lines.Pairwise (· ≤ ·) ∧ lines.Perm (List.ofFn (vertexLine t)) ∧ text = closedLines lines

/-- The nodes of the incidence graph: vertices and cells. -/
abbrev Node (t : Stored) := Fin t.nv ⊕ Fin t.nc

/-- The cells at a vertex, once per occurrence, and the corners of a cell. -/
def neighbours (t : Stored) : Node t → Multiset (Node t)
  | .inl v => ((Finset.univ.filter fun p : Fin t.nc × Fin 4 => t.corner p.1 p.2 = v).val).map fun p => .inr p.1
  | .inr c => (Finset.univ.val : Multiset (Fin 4)).map fun i => .inl (t.corner c i)

/-- `v:<point>:<label>` or `c:<label>` -/
def nodeBase (t : Stored) : Node t → Bytes
  | .inl v => vertexLine t v
  | .inr c => ascii "c:" ++ decimalInt (t.cinfo c)

/-- `<length>:<base>:neighbors=<number>;...;` where the numbers are those of the neighbours in
ascending order. -/
def nodeLine (t : Stored) (number : Node t → ℕ) (x : Node t) : Bytes :=
  decimal (nodeBase t x).length ++ ascii ":" ++ nodeBase t x ++ ascii ":neighbors=" ++
    (((neighbours t x).map number).sort (· ≤ ·)).flatMap fun k => decimal k ++ ascii ";"

/-- A text of the topology.  If no two vertices are at the same place: the lines of vertices and cells
in ascending order.  Otherwise, for some numbering of vertices and cells, the lines of the numbered
nodes in the order of their numbers. -/
inductive TopologyText (t : Stored) (text : Bytes) : Prop
  | byPoint (distinct : Function.Injective t.key) (cellLine : Fin t.nc → Bytes) (lines : List Bytes)
      (cells : ∀ c, IsCellLine t c (cellLine c)) (ascending : lines.Pairwise (· ≤ ·))
      (perm : lines.Perm (List.ofFn (vertexLine t) ++ List.ofFn cellLine))
      (text_eq : text = closedLines lines)
  | byIncidence (coincident : ¬ Function.Injective t.key) (number : Node t ≃ Fin (t.nv + t.nc))
      (text_eq : text = closedLines (List.ofFn fun k => nodeLine t (fun x => number x) (number.symm k)))

/-- The same labelled points. -/
structure SamePoints (t t' : Stored) where
  vertex : Fin t'.nv ≃ Fin t.nv
  key_eq : ∀ v, t'.key v = t.key (vertex v)
  vinfo_eq : ∀ v, t'.vinfo v = t.vinfo (vertex v)

end CDT.Spec
