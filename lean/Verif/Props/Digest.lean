import Verif.Spec.Digest
import Verif.Model.Storage
/-
C54: the digests are FNV-1a, so that a manifest can be checked with other tools.
-/
namespace CDT.Props
open CDT Spec

theorem toNat_fnvStep (x : BitVec 64) (b : Byte) :
    (fnvStep x b).toNat = (x.toNat ^^^ b.toNat) * 1099511628211 % 2 ^ 64 := by
  have hb : b.toNat < 2 ^ 64 := by have := b.isLt; omega
  unfold fnvStep fnvPrime
  rw [BitVec.toNat_mul, BitVec.toNat_xor, BitVec.zeroExtend, BitVec.toNat_setWidth, Nat.mod_eq_of_lt hb, BitVec.toNat_ofNat]

theorem toNat_fnvFold (bs : Bytes) : ∀ x : BitVec 64, (fnvFold x bs).toNat =
    (bs.map BitVec.toNat).foldl (fun hash octet => (hash ^^^ octet) * 1099511628211 % 2 ^ 64) x.toNat := by
  induction bs with
  | nil => intro x; rw [List.map_nil, List.foldl_nil]; unfold fnvFold; rw [List.foldl_nil]
  | cons b bs ih =>
    intro x
    have e : fnvFold x (b :: bs) = fnvFold (fnvStep x b) bs := by unfold fnvFold; rw [List.foldl_cons]
    rw [e, ih, List.map_cons, List.foldl_cons, toNat_fnvStep]

/-- **C54.** The digest in a manifest is the published FNV-1a hash of the payload, and the size its length. -/
theorem C54_digest_published (contents : Bytes) (h : contents.length < 2 ^ 64) :
    payloadIntegrity contents = ⟨contents.length, publishedFnv1a (contents.map BitVec.toNat)⟩ := by
  have ho : fnvOffset.toNat = 0xcbf29ce484222325 := by decide +kernel
  unfold payloadIntegrity fnv1a publishedFnv1a
  rw [Nat.mod_eq_of_lt h, toNat_fnvFold, ho, show (2 ^ 64 : ℕ) = 0x10000000000000000 by norm_num]

-- The published test vectors, in the notation of the manifest.
example : hex16 (payloadIntegrity (ascii "")).digest = ascii "cbf29ce484222325" ∧
    hex16 (payloadIntegrity (ascii "a")).digest = ascii "af63dc4c8601ec8c" ∧
    hex16 (payloadIntegrity (ascii "foobar")).digest = ascii "85944171f73967e8" := by decide +kernel

end CDT.Props
