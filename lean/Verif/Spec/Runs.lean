/-
Specification vocabulary for runs: observing checkpoints, and the expected schedule.
-/
import Verif.Model.Run

namespace CDT.Spec

/-- The passes after which a checkpoint is due in a run of `P` passes with interval `C`:
`C, 2C, ..., floor(P/C)*C`. -/
def schedule (P C : Nat) : List Int := (List.range (P / C)).map (fun i => ((i + 1 : Nat) : Int) * (C : Int))

/-- The same operations with an observer: every call of the checkpoint operation is appended to a
log before it runs.  Nothing else is changed. -/
def observed {M S W : Type} (ops : RunOps M S W) : RunOps M S (W × List Int) where
  n3 := ops.n3
  pass m s n := fun (w, l) => let (r, w') := ops.pass m s n w; (r, (w', l))
  report m c s := fun (w, l) => let (r, w') := ops.report m c s w; (r, (w', l))
  checkpoint m c s n := fun (w, l) => let (r, w') := ops.checkpoint m c s n w; (r, (w', l ++ [n]))

end CDT.Spec
