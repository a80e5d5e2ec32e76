import Verif.Model.WriteGuard
import Mathlib.Logic.Relation
/-
Vocabulary for C57.
-/
namespace CDT.Spec
open CDT

variable {Tid : Type} [DecidableEq Tid]

/-- States some schedule of calls, failures and nested calls can reach. -/
def Reachable (w : Writers Tid) : Prop :=
  Relation.ReflTransGen WriterStep (Writers.initial : Writers Tid) w

/-- Thread `i` is working on files. -/
def Writing (w : Writers Tid) (i : Tid) : Prop := WritePhase.locked ∈ (w.threads i).calls

/-- A log, newest event first, in which the file operations of different write operations do not
interleave: between the beginning and the end of a write operation of `i` there are only operations
of `i` (and refused calls).  The second argument is the write operation still open. -/
inductive Serial : List (WriteEvent Tid) → Option Tid → Prop where
  | nil : Serial [] none
  | begin {l : List (WriteEvent Tid)} {i : Tid} : Serial l none → Serial (.begin i :: l) (some i)
  | operation {l : List (WriteEvent Tid)} {i : Tid} :
      Serial l (some i) → Serial (.operation i :: l) (some i)
  | finish {l : List (WriteEvent Tid)} {i : Tid} :
      Serial l (some i) → Serial (.finish i :: l) none
  | refused {l : List (WriteEvent Tid)} {o : Option Tid} {i : Tid} :
      Serial l o → Serial (.refused i :: l) o

end CDT.Spec
