/-
C32: the postcondition check is exactly the published contract.
-/
import Verif.Spec.Contract
import Verif.Fixture.Toy
import Verif.Lemmas.Tracker

namespace CDT
open Spec

/-- C32. `check_move` accepts exactly the published contract. -/
theorem C32_check_move_iff_contract (b a : ManifoldView) (m : MoveType) :
    checkMove b a m = true ↔ Contract (publishedDelta m) b a := by
  constructor
  · intro h
    unfold checkMove at h
    split at h
    · cases h
    · rename_i hg
      simp only [Bool.or_eq_true, Bool.not_eq_true', bne_iff_ne, ne_eq, not_or, Bool.not_eq_false,
        not_not] at hg
      cases m <;> simp only [Bool.and_eq_true, beq_iff_eq] at h <;>
        constructor <;> (try simp only [publishedDelta]) <;> (first | omega | tauto)
  · rintro ⟨h1, h2, h3, h4, h5, h6, h7, h8, h9, h10, h11, h12, h13, h14⟩
    unfold checkMove
    rw [if_neg (by simp [h1, h2, h3])]
    cases m <;> simp only [publishedDelta] at * <;> simp only [Bool.and_eq_true, beq_iff_eq] <;> omega

/-- C32. No pair of manifolds is accepted under two different move types. -/
theorem C32_check_move_discriminates (b a : ManifoldView) (m m' : MoveType)
    (h : checkMove b a m = true) (h' : checkMove b a m' = true) : m = m' := by
  rw [C32_check_move_iff_contract] at h h'
  have e1 := h.n0; have e2 := h'.n0; have e3 := h.n3; have e4 := h'.n3
  cases m <;> cases m' <;> simp only [publishedDelta] at * <;> first | rfl | (exfalso; omega)

/-- The contract is satisfiable for every move, starting from a non-trivial view. -/
example (m : MoveType) : Contract (publishedDelta m) Toy.view0 (Toy.shift Toy.view0 m) := by
  rw [← C32_check_move_iff_contract]; cases m <;> decide

example : checkMove Toy.view0 (Toy.shift Toy.view0 .twoSix) .twoSix = true := by decide
example : checkMove Toy.view0 (Toy.shift Toy.view0 .twoSix) .twoThree = false := by decide
example : checkMove Toy.view0 { Toy.shift Toy.view0 .twoSix with spacing := 2#64 } .twoSix = false := by
  decide

end CDT
