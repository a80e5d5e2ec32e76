import Verif.Model.Ownership
/-
Vocabulary for C42.
-/
namespace CDT.Spec
open CDT.Own

variable {T : Type}

/-- A slot in which an object lives. -/
def Alive (m : Mem T) (n : ℕ) : Prop := (m.tri (.var n)).isSome = true

/-- C++ requires constructed targets to be dead and operands to be alive.  A copy assignment
constructs its local copy. -/
def Legal (m : Mem T) : Op T → Prop
  | .default a | .insert a _ _ | .plain a _ => ¬ Alive m a
  | .adopt a b | .copy a b | .move a b | .detach a b | .snapshot a b => ¬ Alive m a ∧ Alive m b
  | .swap a b | .moveAssign a b => Alive m a ∧ Alive m b
  | .copyAssign a b c => Alive m a ∧ Alive m b ∧ ¬ Alive m c
  | .mutate a _ | .destroy a => Alive m a

instance (m : Mem T) (n : ℕ) : Decidable (Alive m n) := inferInstanceAs (Decidable (_ = _))

instance (m : Mem T) (o : Op T) : Decidable (Legal m o) := by
  cases o <;> unfold Legal <;> infer_instance

/-- Memories between the operations of any legal program. -/
inductive Between (parallel : Bool) (empty : T) (husk : T → T) : Mem T → Prop where
  | start : Between parallel empty husk Mem.initial
  | step {m : Mem T} {o : Op T} : Between parallel empty husk m → Legal m o →
      Between parallel empty husk (run husk m (o.code parallel empty))

/-- Memories at every moment, including within an operation. -/
inductive AtAnyTime (parallel : Bool) (empty : T) (husk : T → T) : Mem T → Prop where
  | within {m : Mem T} {o : Op T} {done rest : List (Instr T)} : Between parallel empty husk m →
      Legal m o → o.code parallel empty = done ++ rest →
      AtAnyTime parallel empty husk (run husk m done)

end CDT.Spec
