import Verif.Model.Trailer
/-
Vocabulary for C52: what a well-formed causal trailer is, without reference to the reader.
-/
namespace CDT.Spec
open CDT

/-- `text` is a decimal spelling of `n`: its canonical decimal digits, possibly after extra zeros.
Only 64-bit values are representable. -/
def NatText (text : Bytes) (n : ℕ) : Prop :=
  n < 2 ^ 64 ∧ ∃ zeros, text = List.replicate zeros (digitByte 0) ++ decimal n

/-- `text` is a decimal spelling of the 32-bit integer `i`: digits, possibly after extra zeros,
preceded by a minus sign for a negative number (`-0` also spells zero). -/
def IntText (text : Bytes) (i : ℤ) : Prop :=
  (-2 ^ 31 ≤ i ∧ i < 2 ^ 31) ∧ ∃ zeros,
    (0 ≤ i ∧ text = List.replicate zeros (digitByte 0) ++ decimal i.natAbs) ∨
    (i ≤ 0 ∧ text = minusSign :: (List.replicate zeros (digitByte 0) ++ decimal i.natAbs))

/-- The first line of `text` is `line` and `rest` follows it; a last line may lack its newline. -/
def FirstLine (text line rest : Bytes) : Prop :=
  newline ∉ line ∧
    (text = line ++ newline :: rest ∨ (text = line ∧ line ≠ [] ∧ rest = []))

/-- `text` begins with the given lines, and `rest` follows them. -/
def BeginsWithLines (text : Bytes) : List Bytes → Bytes → Prop
  | [], rest => text = rest
  | line :: lines, rest => ∃ more, FirstLine text line more ∧ BeginsWithLines more lines rest

/-- A record line naming index `i` with label `v`: prefix, index, `|`, label. -/
def RecordLine (pfx line : Bytes) (i : ℕ) (v : ℤ) : Prop :=
  ∃ key value, line = pfx ++ key ++ bar :: value ∧ NatText key i ∧ IntText value v

/-- The lines are exactly one record for every index of `labels`, in some order, each carrying the
label of its index. -/
def RecordsOf (pfx : Bytes) (lines : List Bytes) (labels : List ℤ) : Prop :=
  ∃ order : List ℕ, order.Perm (List.range labels.length) ∧
    List.Forall₂ (fun line i => ∃ v, labels[i]? = some v ∧ RecordLine pfx line i v) lines order

/-- A count line: prefix and decimal count. -/
def CountLine (pfx line : Bytes) (n : ℕ) : Prop := ∃ text, line = pfx ++ text ∧ NatText text n

/-- `text` begins with a complete causal trailer carrying `info`, and `rest` follows it. -/
def TrailerFor (text : Bytes) (info : CausalInfo) (rest : Bytes) : Prop :=
  ∃ vertexCount vertexLines cellCount cellLines,
    BeginsWithLines text
      (causalHeader :: vertexCount :: vertexLines ++ cellCount :: cellLines) rest ∧
    CountLine (ascii "vertices=") vertexCount info.vertices.length ∧
    RecordsOf (ascii "v=") vertexLines info.vertices ∧
    CountLine (ascii "cells=") cellCount info.cells.length ∧
    RecordsOf (ascii "c=") cellLines info.cells

/-- Every label is a 32-bit integer. -/
def Labels32 (info : CausalInfo) : Prop :=
  (∀ v ∈ info.vertices, -2 ^ 31 ≤ v ∧ v < 2 ^ 31) ∧ ∀ v ∈ info.cells, -2 ^ 31 ≤ v ∧ v < 2 ^ 31

end CDT.Spec
