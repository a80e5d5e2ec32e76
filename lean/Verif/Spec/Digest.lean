import Mathlib.Data.Nat.Notation
/-
The published 64-bit FNV-1a hash function, on natural numbers.
-/
namespace CDT.Spec

/-- FNV-1a of a sequence of octets (each below 256): start with the offset basis; for each octet, exclusive-or it
into the hash, then multiply by the FNV prime `0x100000001b3`, modulo `2 ^ 64`. -/
def publishedFnv1a (octets : List ℕ) : ℕ :=
  octets.foldl (fun hash octet => (hash ^^^ octet) * 0x100000001b3 % 0x10000000000000000) 0xcbf29ce484222325

end CDT.Spec
