import Verif.Model.Fnv
namespace CDT

/-- Inverse of the FNV prime modulo 2^64. -/
def fnvPrimeInv : BitVec 64 := 14886173955864302971#64

theorem fnvPrime_mul_inv : fnvPrime * fnvPrimeInv = 1#64 := by decide

theorem mul_fnvPrime_inj {a b : BitVec 64} (h : a * fnvPrime = b * fnvPrime) : a = b := by
  have := congrArg (· * fnvPrimeInv) h
  simpa [BitVec.mul_assoc, fnvPrime_mul_inv] using this

theorem xor_right_inj {a b c : BitVec 64} (h : a ^^^ c = b ^^^ c) : a = b := by
  have := congrArg (· ^^^ c) h
  simpa [BitVec.xor_assoc] using this

theorem fnvStep_state_inj {g h : BitVec 64} {b : BitVec 8} (e : fnvStep g b = fnvStep h b) : g = h :=
  xor_right_inj (mul_fnvPrime_inj e)

theorem zeroExtend_inj {a b : BitVec 8} (h : a.zeroExtend 64 = b.zeroExtend 64) : a = b := by
  apply BitVec.eq_of_toNat_eq
  have := congrArg BitVec.toNat h
  simp at this
  have ha := a.isLt; have hb := b.isLt
  omega

theorem fnvStep_byte_inj {h : BitVec 64} {a b : BitVec 8} (e : fnvStep h a = fnvStep h b) : a = b := by
  have := mul_fnvPrime_inj e
  have h2 := congrArg (h ^^^ ·) this
  simp only [← BitVec.xor_assoc, BitVec.xor_self, BitVec.zero_xor] at h2
  exact zeroExtend_inj h2

theorem fnvFold_append (h : BitVec 64) (xs ys : List (BitVec 8)) :
    fnvFold h (xs ++ ys) = fnvFold (fnvFold h xs) ys := by simp [fnvFold]

theorem fnvFold_state_inj (ys : List (BitVec 8)) : ∀ {g h : BitVec 64},
    fnvFold g ys = fnvFold h ys → g = h := by
  induction ys with
  | nil => intro g h e; exact e
  | cons y ys ih => intro g h e; exact fnvStep_state_inj (ih e)

/-- Changing exactly one byte always changes the digest. -/
theorem fnvFold_single_byte (h : BitVec 64) (xs ys : List (BitVec 8)) (a b : BitVec 8) (hab : a ≠ b) :
    fnvFold h (xs ++ a :: ys) ≠ fnvFold h (xs ++ b :: ys) := by
  intro e
  rw [fnvFold_append, fnvFold_append] at e
  exact hab (fnvStep_byte_inj (fnvFold_state_inj ys e))

end CDT
