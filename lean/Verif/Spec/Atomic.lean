import Verif.Model.Atomic
import Verif.Spec.Values
/-
Vocabulary for C26.
-/
namespace CDT.Spec
open CDT Val

variable {V G : Type} [LinearOrder V]

/-- Everything that existed in `w` is the same in `w'`, possibly except the object in slot `a`:
every other object with all its members, and the content of every storage body. -/
structure Untouched (w w' : World V) (a : ℕ) : Prop where
  objects : ∀ p, p ≠ a → w'.obj p = w.obj p
  storage : ∀ b, w.body b ≠ none → w'.body b = w.body b

/-- A call of one of the ten public move functions, or of their test seams with another
post-mutation validator: `do_*_move` searches all sites, `propose_*_move` draws a single one. -/
structure MoveCall (V G : Type) where
  single : Bool
  validator : Tri V → Bool
  move : MoveType
  src : ℕ
  slot : ℕ
  gen : G

/-- The call, with every world that exists while it runs. -/
def MoveCall.run (S : Setting V G) (m : MoveCall V G) (w : World V) :
    Atomic.Outcome × Atomic.St V G :=
  if m.single then Atomic.propose S m.validator m.move m.src m.slot w m.gen
  else Atomic.doMove S m.validator m.move m.src m.slot w m.gen

/-- A move is called on a live manifold and returns into a fresh slot. -/
def MoveCall.Allowed (m : MoveCall V G) (w : World V) : Prop := Intact w m.src ∧ w.obj m.slot = none

/-- Worlds between the operations and move calls of any program, whether the moves succeed, fail or
throw. -/
inductive History (S : Setting V G) : World V → Prop where
  | start : History S World.initial
  | op {w w' : World V} {o : Op V} : History S w → Permitted w o → step S w o = .ok w' →
      History S w'
  | move {w : World V} (m : MoveCall V G) : History S w → m.Allowed w → History S (m.run S w).2.world

end CDT.Spec
