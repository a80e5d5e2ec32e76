/-
Model of include/Move_command.hpp and the counter helpers of include/Move_run.hpp.
-/
import Verif.Model.Tracker
import Verif.Model.Effect

namespace CDT

/-- `MoveCommandResults` (include/Move_run.hpp:108-117). -/
structure CommandResults where
  attempted : Tracker := Tracker.zero
  succeeded : Tracker := Tracker.zero
  failed : Tracker := Tracker.zero

/-- `accumulate_command_results` (include/Move_run.hpp:120-130). -/
def CommandResults.accumulate (totals delta : CommandResults) : CommandResults where
  attempted := totals.attempted.add delta.attempted
  succeeded := totals.succeeded.add delta.succeeded
  failed := totals.failed.add delta.failed

/-- `MoveCommand` (include/Move_command.hpp:34-54). `queue` is the deque with its front
first; `enqueue` pushes at the front and `execute` takes from the back. Queue
entries are raw enum codes because `enqueue` accepts any `MoveType` value. -/
structure Command (M : Type) where
  manifold : M
  queue : List Int
  results : CommandResults

/-- Constructor (include/Move_command.hpp:69-71). -/
def Command.new {M : Type} (m : M) : Command M := { manifold := m, queue := [], results := {} }

/-- `enqueue` (include/Move_command.hpp:131-132): `push_front`. -/
def Command.enqueue {M : Type} (c : Command M) (code : Int) : Command M :=
  { c with queue := code :: c.queue }

/-- `reset_counters` (include/Move_command.hpp:120-125). -/
def Command.resetCounters {M : Type} (c : Command M) : Command M := { c with results := {} }

/-- `consume_command_results` (include/Move_run.hpp:133-142). -/
def Command.consumeResults {M : Type} (c : Command M) : CommandResults × Command M :=
  (c.results, c.resetCounters)

/-- What `MoveCommand` needs from the rest of the program: `applyMove` is the `do_XX_move`
chosen by `apply_random_move` (include/Move_command.hpp:190-208), which sees the manifold
`const`, advances the generator and returns a manifold, a structured failure, or
lets an exception escape; `check` is `check_move` (include/Ergodic_moves_3.hpp). -/
structure CommandEngine (M G : Type) where
  applyMove : MoveType → M → G → Except Exc (Except MoveFailure M) × G
  check : M → M → MoveType → Bool

/-- How one `execute` call ends.  `terminated`: `gsl::at` terminates the program when the
queued code is not one of the five enumerators (include/Move_command.hpp:156 with
include/Move_tracker.hpp:142-143), so the `UNKNOWN_MOVE` branch at lines 203-207 is
never reached from `execute`. -/
inductive ExecEnd
  | done
  | threw (e : Exc)
  | terminated
  deriving DecidableEq

/-- One iteration of the `while` loop of `execute` for the move at the back
(include/Move_command.hpp:154-179), where `rest` is the deque without its back.
Returns the reached command, the generator and whether the loop goes on. -/
def Command.stepBack {M G : Type} (eng : CommandEngine M G) (c : Command M) (rest : List Int)
    (code : Int) (g : G) : Command M × G × Option ExecEnd :=
  match MoveType.ofCode code with
  | none => (c, g, some .terminated)
  | some mv =>
    let att := c.results.attempted.inc mv
    let c1 : Command M := { c with results := { c.results with attempted := att } }
    match eng.applyMove mv c1.manifold g with
    | (.error e, g') => (c1, g', some (.threw e))
    | (.ok (.error _), g') =>
      -- outcome_from never yields SUCCEEDED, so the failure branch runs
      ({ c1 with queue := rest,
                 results := { c1.results with failed := c1.results.failed.inc mv } }, g', none)
    | (.ok (.ok m'), g') =>
      if eng.check c1.manifold m' mv then
        ({ manifold := m', queue := rest,
           results := { c1.results with succeeded := c1.results.succeeded.inc mv } }, g', none)
      else
        ({ c1 with queue := rest,
                   results := { c1.results with failed := c1.results.failed.inc mv } }, g', none)

/-- `execute` (include/Move_command.hpp:150-181): run from the back of the deque until it is
empty.  The recursion is on the reversed deque, i.e. on the list of moves in
execution order; `c.queue` is kept in step with it. -/
def Command.executeLoop {M G : Type} (eng : CommandEngine M G) :
    List Int → Command M → G → Command M × G × ExecEnd
  | [], c, g => (c, g, .done)
  | code :: later, c, g =>
    match c.stepBack eng later.reverse code g with
    | (c', g', none) => Command.executeLoop eng later c' g'
    | (c', g', some e) => (c', g', e)

/-- `MoveCommand::execute`. -/
def Command.execute {M G : Type} (eng : CommandEngine M G) (c : Command M) (g : G) :
    Command M × G × ExecEnd :=
  Command.executeLoop eng c.queue.reverse c g

end CDT
