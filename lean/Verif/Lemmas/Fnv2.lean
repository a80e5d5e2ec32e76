import Verif.Lemmas.Metropolis
import Verif.Lemmas.Fnv
import Mathlib.Tactic.Linarith

namespace CDT
open Spec

theorem xor_small_div (s c : BitVec 64) (hc : c.toNat < 8) :
    (s ^^^ c).toNat / 8 = s.toNat / 8 := by
  have h : (s ^^^ c) >>> 3 = s >>> 3 := by
    rw [BitVec.ushiftRight_xor_distrib]
    have : c >>> 3 = 0#64 := by
      apply BitVec.eq_of_toNat_eq
      simp [BitVec.toNat_ushiftRight, Nat.shiftRight_eq_div_pow]
      omega
    rw [this]; simp
  have := congrArg BitVec.toNat h
  simpa [BitVec.toNat_ushiftRight, Nat.shiftRight_eq_div_pow] using this

theorem fnv_quot_inj (x y : Nat)
    (h2 : x * 1099511628211 % 2 ^ 64 / 8 = y * 1099511628211 % 2 ^ 64 / 8) (h : x / 8 = y / 8) :
    x = y := by
  obtain ⟨A, hA⟩ : ∃ A, A = x * 1099511628211 % 2 ^ 64 := ⟨_, rfl⟩
  obtain ⟨B, hB⟩ : ∃ A, A = y * 1099511628211 % 2 ^ 64 := ⟨_, rfl⟩
  obtain ⟨q, hq⟩ : ∃ A, A = x * 1099511628211 / 2 ^ 64 := ⟨_, rfl⟩
  obtain ⟨r, hr⟩ : ∃ A, A = y * 1099511628211 / 2 ^ 64 := ⟨_, rfl⟩
  have dx := Nat.div_add_mod (x * 1099511628211) (2 ^ 64)
  have dy := Nat.div_add_mod (y * 1099511628211) (2 ^ 64)
  rw [← hA, ← hq] at dx
  rw [← hB, ← hr] at dy
  rw [← hA, ← hB] at h2
  clear hA hB hq hr
  have d1 : (x : Int) - y ≤ 7 := by omega
  have d2 : (y : Int) - x ≤ 7 := by omega
  have e1 : (A : Int) - B ≤ 7 := by omega
  have e2 : (B : Int) - A ≤ 7 := by omega
  have dx' : (18446744073709551616 : Int) * q + A = x * 1099511628211 := by exact_mod_cast dx
  have dy' : (18446744073709551616 : Int) * r + B = y * 1099511628211 := by exact_mod_cast dy
  have key : (18446744073709551616 : Int) * (q - r) = ((x : Int) - y) * 1099511628211 - (A - B) := by
    linarith
  clear dx dy h2
  generalize hd : (x : Int) - y = d at *
  generalize he : (A : Int) - B = e at *
  generalize hk : (q : Int) - r = k at *
  have k0 : k = 0 := by omega
  subst k0
  omega

/-- Two consecutive small bytes are injective in the digest. -/
theorem fnvStep_pair_inj (s : BitVec 64) (a b a' b' : Nat) (ha : a < 8) (hb : b < 8) (ha' : a' < 8)
    (hb' : b' < 8)
    (e : fnvStep (fnvStep s (BitVec.ofNat 8 a)) (BitVec.ofNat 8 b) =
      fnvStep (fnvStep s (BitVec.ofNat 8 a')) (BitVec.ofNat 8 b')) : a = a' ∧ b = b' := by
  have z : ∀ n, n < 8 → ((BitVec.ofNat 8 n).zeroExtend 64).toNat = n := by
    intro n hn
    simp only [BitVec.truncate_eq_setWidth, BitVec.toNat_setWidth, BitVec.toNat_ofNat]
    rw [Nat.mod_eq_of_lt (by omega : n < 2 ^ 8), Nat.mod_eq_of_lt (by omega)]
  have h1 := mul_fnvPrime_inj e
  -- the states after the first byte agree above the low three bits
  have h2 : (fnvStep s (BitVec.ofNat 8 a)).toNat / 8 = (fnvStep s (BitVec.ofNat 8 a')).toNat / 8 := by
    rw [← xor_small_div _ ((BitVec.ofNat 8 b).zeroExtend 64) (by rw [z b hb]; exact hb),
      ← xor_small_div (fnvStep s (BitVec.ofNat 8 a')) ((BitVec.ofNat 8 b').zeroExtend 64)
        (by rw [z b' hb']; exact hb'), h1]
  have x1 := xor_small_div s ((BitVec.ofNat 8 a).zeroExtend 64) (by rw [z a ha]; exact ha)
  have x2 := xor_small_div s ((BitVec.ofNat 8 a').zeroExtend 64) (by rw [z a' ha']; exact ha')
  unfold fnvStep at h2
  rw [BitVec.toNat_mul, BitVec.toNat_mul] at h2
  have hp : fnvPrime.toNat = 1099511628211 := by decide
  rw [hp] at h2
  generalize hx : s ^^^ (BitVec.ofNat 8 a).zeroExtend 64 = x at *
  generalize hy : s ^^^ (BitVec.ofNat 8 a').zeroExtend 64 = y at *
  have lx := x.isLt
  have ly := y.isLt
  have hxy : x.toNat = y.toNat := fnv_quot_inj _ _ h2 (by omega)
  have hxy' : x = y := BitVec.eq_of_toNat_eq hxy
  have haa : a = a' := by
    have := congrArg (s ^^^ ·) (hx.trans (hxy'.trans hy.symm))
    simp only [← BitVec.xor_assoc, BitVec.xor_self, BitVec.zero_xor] at this
    have := congrArg BitVec.toNat this
    rwa [z a ha, z a' ha'] at this
  subst haa
  refine ⟨rfl, ?_⟩
  have := fnvStep_byte_inj e
  have := congrArg BitVec.toNat this
  simp only [BitVec.toNat_ofNat] at this
  omega

theorem asInteger_lt8 (m : MoveType) : m.asInteger.val < 8 := by have := m.asInteger.isLt; omega
theorem code_lt8 (o : MoveOutcome) : o.code < 8 := by cases o <;> decide
theorem MoveOutcome.code_inj {a b : MoveOutcome} (h : a.code = b.code) : a = b := by
  cases a <;> cases b <;> first | rfl | (exact absurd h (by decide))

theorem fnv_history_step (s : BitVec 64) (x y : MoveType × MoveOutcome)
    (e : fnvFold s (traceBytes [x]) = fnvFold s (traceBytes [y])) : x = y := by
  obtain ⟨m, o⟩ := x
  obtain ⟨m', o'⟩ := y
  simp only [traceBytes, List.flatMap_cons, List.flatMap_nil, List.append_nil, fnvFold,
    List.foldl_cons, List.foldl_nil] at e
  have := fnvStep_pair_inj s _ _ _ _ (asInteger_lt8 m) (code_lt8 o) (asInteger_lt8 m') (code_lt8 o') e
  rw [MoveType.asInteger_inj (Fin.ext this.1), MoveOutcome.code_inj this.2]

end CDT
