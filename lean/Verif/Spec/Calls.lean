/-
Specification vocabulary for histories of calls on a Metropolis strategy object.
-/
import Verif.Spec.Accounting

namespace CDT.Spec

/-- A call together with its result is *clean* unless an exception escaped from a transition
that had a legal trial: it returned normally, or it is a whole run, or its trial was
illegal. -/
def Clean {M : Type} (p : MetroCall M × CallResult M) : Prop :=
  (∃ r, p.2.report = .ok r) ∨ (∃ m, p.1 = .run m) ∨
    ∃ cur code u, p.1 = .attempt cur code u ∧ ¬ LegalTrial u

/-- A strategy object as its constructor leaves it: all statistics empty. -/
def Fresh {G : Type} (s : MetroStrategy G) : Prop :=
  s.cmd = {} ∧ s.stats = {} ∧ s.checkpointEvents = 0

/-- The history entry contributed by a report, if any. -/
def reported {M : Type} (r : CallResult M) : List (MoveType × MoveOutcome) :=
  match r.report with
  | .ok (some x) => entryOf x
  | _ => []

/-- Identities that survive even when exceptions escape from transitions. -/
structure Weak (cmd : CommandResults) (st : RunStats) : Prop where
  attempted : ∀ m, cmd.attempted.get m = st.proposed.get m
  decided : ∀ m, st.accepted.get m + st.rejected.get m ≤ st.proposed.get m
  built : ∀ m, cmd.succeeded.get m + cmd.failed.get m ≤ cmd.attempted.get m
  accepted : ∀ m, 0 ≤ st.accepted.get m ∧ st.accepted.get m ≤ cmd.succeeded.get m
  failed : ∀ m, 0 ≤ cmd.failed.get m ∧ cmd.failed.get m ≤ st.rejected.get m
  count : (st.count : Int) = st.accepted.total + st.rejected.total

end CDT.Spec
