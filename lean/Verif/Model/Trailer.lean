import Verif.Model.Text
import Verif.Model.Effect
/-
The causal-data trailer of a persisted triangulation (include/Utilities.hpp).
-/
namespace CDT

/-- The labels a trailer carries: `info()` of every finite vertex and finite cell, in container
order (`finite_vertex_handles()`, `finite_cell_handles()`). -/
structure CausalInfo where
  vertices : List ℤ
  cells : List ℤ
  deriving DecidableEq, Repr

/-- `CAUSAL_INFO_HEADER` (include/Utilities.hpp:156-157). -/
def causalHeader : Bytes := ascii "cdt-plusplus-causal-info-v2"

/-- One record line: prefix, index, `|`, label, newline
(include/Utilities.hpp:562-565, 574, 580-586). -/
def infoLine (pfx : Bytes) (index : ℕ) (label : ℤ) : Bytes :=
  pfx ++ decimal index ++ bar :: decimalInt label

/-- The record lines of one label vector, indices counting up from zero
(include/Utilities.hpp:557-586). -/
def infoLines (pfx : Bytes) : ℕ → List ℤ → Bytes
  | _, [] => []
  | i, v :: vs => infoLine pfx i v ++ newline :: infoLines pfx (i + 1) vs

/-- `write_causal_info` (include/Utilities.hpp:548-587). -/
def writeCausalInfo (info : CausalInfo) : Bytes :=
  newline :: causalHeader ++ newline ::
    (ascii "vertices=" ++ decimal info.vertices.length ++ newline ::
      (infoLines (ascii "v=") 0 info.vertices ++
        (ascii "cells=" ++ decimal info.cells.length ++ newline ::
          infoLines (ascii "c=") 0 info.cells)))

/-- Parse failure: every reader throws `std::filesystem::filesystem_error`. -/
def orFilesystemError {α : Type} : Option α → Except Exc α
  | some a => .ok a
  | none => .error .filesystemError

/-- `if (!condition) throw std::filesystem::filesystem_error`. -/
def require (condition : Bool) : Except Exc PUnit :=
  if condition then .ok .unit else .error .filesystemError

/-- `parse_record` (include/Utilities.hpp:744-766): prefix, last `|`, non-empty sides; the key is
returned as text. -/
def parseRecord (pfx line : Bytes) : Except Exc (Bytes × ℤ) := do
  let record ← orFilesystemError (stripPrefix pfx line)
  let (key, value) ← orFilesystemError (splitLast bar record)
  require (!(key.isEmpty || value.isEmpty))
  let v ← orFilesystemError (parseInt value)
  return (key, v)

/-- `parse_count_line` (include/Utilities.hpp:768-780). -/
def parseCountLine (pfx line : Bytes) : Except Exc ℕ := do
  let text ← orFilesystemError (stripPrefix pfx line)
  orFilesystemError (parseUnsigned 10 text)

/-- The record loop of `read_indexed_info` (include/Utilities.hpp:790-809); the first argument is
the number of records still to read. -/
def readIndexedLoop (pfx : Bytes) (count : ℕ) :
    ℕ → List (Option ℤ) → Bytes → Except Exc (List (Option ℤ) × Bytes)
  | 0, indexed, input => .ok (indexed, input)
  | n + 1, indexed, input => do
    let (line, rest) ← orFilesystemError (getline input)
    let (key, value) ← parseRecord pfx line
    let index ← orFilesystemError (parseUnsigned 10 key)
    require (!(decide (index ≥ count) || (indexed[index]?.join).isSome))
    readIndexedLoop pfx count n (indexed.set index (some value)) rest

/-- `read_indexed_info` (include/Utilities.hpp:782-823). -/
def readIndexedInfo (pfx : Bytes) (count : ℕ) (input : Bytes) :
    Except Exc (List ℤ × Bytes) := do
  let (indexed, rest) ← readIndexedLoop pfx count count (List.replicate count none) input
  let values ← orFilesystemError (indexed.mapM id)
  return (values, rest)

/-- `read_causal_info` (include/Utilities.hpp:824-883) for a triangulation with the given numbers
of finite vertices and cells.  The labels returned are those assigned to the handles in container
order; the second component is the input left unread. -/
def readCausalInfo (vertexCount cellCount : ℕ) (input : Bytes) :
    Except Exc (CausalInfo × Bytes) := do
  let (header, input) ← orFilesystemError (getline input)
  require (decide (header = causalHeader))
  let (line, input) ← orFilesystemError (getline input)
  let nv ← parseCountLine (ascii "vertices=") line
  require (decide (nv = vertexCount))
  let (vs, input) ← readIndexedInfo (ascii "v=") nv input
  let (line, input) ← orFilesystemError (getline input)
  let nc ← parseCountLine (ascii "cells=") line
  require (decide (nc = cellCount))
  let (cs, input) ← readIndexedInfo (ascii "c=") nc input
  return (⟨vs, cs⟩, input)

end CDT
