/-
64-bit FNV-1a as used in include/Metropolis.hpp and include/Utilities.hpp.
-/
namespace CDT

/-- Offset basis (include/Metropolis.hpp:63; include/Utilities.hpp payload_integrity). -/
def fnvOffset : BitVec 64 := 14695981039346656037#64
/-- FNV prime (include/Metropolis.hpp:111). -/
def fnvPrime : BitVec 64 := 1099511628211#64

/-- One `append` step: xor with the zero-extended byte, then multiply modulo 2^64
(include/Metropolis.hpp:109-112). -/
def fnvStep (h : BitVec 64) (b : BitVec 8) : BitVec 64 := (h ^^^ b.zeroExtend 64) * fnvPrime

/-- Fold over a byte sequence. -/
def fnvFold (h : BitVec 64) (bs : List (BitVec 8)) : BitVec 64 := bs.foldl fnvStep h

/-- Digest of a byte sequence from the offset basis. -/
def fnv1a (bs : List (BitVec 8)) : BitVec 64 := fnvFold fnvOffset bs

end CDT
