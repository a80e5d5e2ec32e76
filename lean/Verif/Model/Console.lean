import Verif.Model.Metropolis
import Verif.Model.Text
/-
What the code prints with `fmt::print` on standard output: the report of a run
(include/Move_run.hpp, include/Metropolis.hpp, include/Move_always.hpp).

Not modelled: log records (spdlog), the terminal, output of other processes.
-/
namespace CDT

/-- Standard output: the bytes that came out and the number of `fmt::print` calls made. -/
structure Console where
  text : Bytes := []
  calls : ℕ := 0
  deriving DecidableEq

/-- Which `fmt::print` calls fail: the `n`-th throws an exception after that many of its bytes came
out.  (`fmt::print` throws `std::system_error` if it cannot write.) -/
abbrev PrintFaults := ℕ → Option (ℕ × Exc)

/-- `fmt::print` of a formatted text. -/
def say (faults : PrintFaults) (text : Bytes) : Eff Console Unit := fun c =>
  match faults c.calls with
  | none => (.ok (), ⟨c.text ++ text, c.calls + 1⟩)
  | some (n, e) => (.error e, ⟨c.text ++ text.take n, c.calls + 1⟩)

/-- Several `fmt::print` calls in a row. -/
def sayAll (faults : PrintFaults) : List Bytes → Eff Console Unit
  | [] => fun c => (.ok (), c)
  | t :: ts => fun c =>
    match say faults t c with
    | (.error e, c') => (.error e, c')
    | (.ok _, c') => sayAll faults ts c'

/-- Replacement fields `{}` of a format string filled in order; the format strings of the code have
no other braces. -/
def fillFormat : List Char → List Bytes → Bytes
  | '{' :: '}' :: rest, a :: as => a ++ fillFormat rest as
  | c :: rest, as => BitVec.ofNat 8 c.toNat :: fillFormat rest as
  | [], _ => []

/-- `fmt::format` with `{}` fields only. -/
def format (s : String) (args : List Bytes) : Bytes := fillFormat s.toList args

/-- One effect on the console part of a world. -/
def onConsole {W α : Type} (e : Eff Console α) : Eff (W × Console) α := fun (w, c) =>
  let (r, c') := e c
  (r, (w, c'))

/-- `MoveRunIdentity` (include/Move_run.hpp:164-169). -/
structure RunIdentity where
  algorithm : Bytes
  seed : BitVec 64
  stream : BitVec 64

/-- The first lines of `execute_move_run` (include/Move_run.hpp:192-196); the dimension is 3. -/
def RunIdentity.lines (i : RunIdentity) : List Bytes :=
  [format "Starting {} algorithm in {}+1 dimensions ...\n" [i.algorithm, decimalInt (3 - 1)],
   format "Effective random seed: {} (stream {}).\n" [decimal i.seed.toNat, decimal i.stream.toNat],
   format "Making random moves ...\n" []]

/-- include/Move_run.hpp:202. -/
def passLine (n : ℤ) : Bytes := format "=== Pass {} ===\n" [decimalInt n]
/-- include/Move_run.hpp:219. -/
def checkpointLine (n : ℤ) : Bytes := format "Writing checkpoint for pass {}.\n" [decimalInt n]
/-- include/Move_run.hpp:227. -/
def runResultsLine : Bytes := format "=== Run results ===\n" []

section
variable {M S W : Type} (faults : PrintFaults) (ops : RunOps M S (W × Console))

/-- Body of the pass loop with its output (include/Move_run.hpp:201-224). -/
def runPassAloud (cad : Cadence) (writes : Bool) (passNumber : ℤ) (v : RunVars M S) :
    Eff (W × Console) (RunVars M S) := fun w =>
  match onConsole (say faults (passLine passNumber)) w with
  | (.error e, w1) => (.error e, w1)
  | (.ok _, w1) =>
    match ops.pass v.current v.state (ops.n3 v.current) w1 with
    | (.error e, w2) => (.error e, w2)
    | (.ok p, w2) =>
      let totals := v.totals.accumulate p.commandResults
      if passNumber % cad.checkpoint = 0 then
        match ops.report p.manifold totals p.strategyState w2 with
        | (.error e, w3) => (.error e, w3)
        | (.ok _, w3) =>
          if writes then
            match onConsole (say faults (checkpointLine passNumber)) w3 with
            | (.error e, w4) => (.error e, w4)
            | (.ok _, w4) =>
              match ops.checkpoint p.manifold totals p.strategyState passNumber w4 with
              | (.error e, w5) => (.error e, w5)
              | (.ok _, w5) => (.ok ⟨p.manifold, totals, p.strategyState, v.events + 1⟩, w5)
          else (.ok ⟨p.manifold, totals, p.strategyState, v.events + 1⟩, w3)
      else (.ok ⟨p.manifold, totals, p.strategyState, v.events⟩, w2)

/-- The `for` loop with its output (include/Move_run.hpp:198-225). -/
def runLoopAloud (cad : Cadence) (writes : Bool) :
    ℕ → ℤ → RunVars M S → Eff (W × Console) (RunVars M S)
  | 0, _, v => fun w => (.ok v, w)
  | n + 1, passIndex, v => fun w =>
    match runPassAloud faults ops cad writes (passIndex + 1) v w with
    | (.error e, w') => (.error e, w')
    | (.ok v', w') => runLoopAloud cad writes n (passIndex + 1) v' w'

/-- `execute_move_run` with its output (include/Move_run.hpp:176-234). -/
def executeMoveRunAloud (cad : Cadence) (identity : RunIdentity) (writes : Bool) (initial : M) (s0 : S) :
    Eff (W × Console) (RunResult M S) := fun w =>
  match onConsole (sayAll faults identity.lines) w with
  | (.error e, w1) => (.error e, w1)
  | (.ok _, w1) =>
    match runLoopAloud faults ops cad writes cad.passes.toNat 0 ⟨initial, {}, s0, 0⟩ w1 with
    | (.error e, w2) => (.error e, w2)
    | (.ok v, w2) =>
      match onConsole (say faults runResultsLine) w2 with
      | (.error e, w3) => (.error e, w3)
      | (.ok _, w3) =>
        match ops.report v.current v.totals v.state w3 with
        | (.error e, w4) => (.error e, w4)
        | (.ok _, w4) => (.ok ⟨v.current, v.totals, v.state, v.events⟩, w4)
end

/-- The line of one move type in `print_results` (include/Metropolis.hpp:578-626). -/
def metroMoveLine (name : String) (proposed accepted rejected attempted succeeded failed : ℤ) : Bytes :=
  format (name ++ " moves: {} proposed ({} accepted and {} rejected); candidate " ++
      "construction: {} attempted ({} succeeded and {} failed).\n")
    ([proposed, accepted, rejected, attempted, succeeded, failed].map decimalInt)

/-- `print_results` of the Metropolis strategy (include/Metropolis.hpp:565-627). -/
def metroResultLines (c : CommandResults) (s : RunStats) : List Bytes :=
  [format "=== Move Results ===\n" [],
   format ("There were {} proposed moves with {} accepted moves and {} rejected " ++ "moves.\n")
     ([s.proposed.total, s.accepted.total, s.rejected.total].map decimalInt),
   format ("There were {} candidate construction attempts with {} successful " ++
       "candidates and {} failed candidates.\n")
     ([c.attempted.total, c.succeeded.total, c.failed.total].map decimalInt),
   metroMoveLine "(2,3)" s.proposed.twoThreeMoves s.accepted.twoThreeMoves s.rejected.twoThreeMoves
     c.attempted.twoThreeMoves c.succeeded.twoThreeMoves c.failed.twoThreeMoves,
   metroMoveLine "(3,2)" s.proposed.threeTwoMoves s.accepted.threeTwoMoves s.rejected.threeTwoMoves
     c.attempted.threeTwoMoves c.succeeded.threeTwoMoves c.failed.threeTwoMoves,
   metroMoveLine "(2,6)" s.proposed.twoSixMoves s.accepted.twoSixMoves s.rejected.twoSixMoves
     c.attempted.twoSixMoves c.succeeded.twoSixMoves c.failed.twoSixMoves,
   metroMoveLine "(6,2)" s.proposed.sixTwoMoves s.accepted.sixTwoMoves s.rejected.sixTwoMoves
     c.attempted.sixTwoMoves c.succeeded.sixTwoMoves c.failed.sixTwoMoves,
   metroMoveLine "(4,4)" s.proposed.fourFourMoves s.accepted.fourFourMoves s.rejected.fourFourMoves
     c.attempted.fourFourMoves c.succeeded.fourFourMoves c.failed.fourFourMoves]

/-- The line of one move type in `print_results` (include/Move_always.hpp:70-90). -/
def alwaysMoveLine (name : String) (attempted succeeded failed : ℤ) : Bytes :=
  format (name ++ " moves: {} attempted = {} successful and {} failed.\n")
    ([attempted, succeeded, failed].map decimalInt)

/-- `print_results` of the move-always strategy (include/Move_always.hpp:67-90). -/
def alwaysResultLines (c : CommandResults) : List Bytes :=
  [format "=== Move Results ===\n" [],
   alwaysMoveLine "(2,3)" c.attempted.twoThreeMoves c.succeeded.twoThreeMoves c.failed.twoThreeMoves,
   alwaysMoveLine "(3,2)" c.attempted.threeTwoMoves c.succeeded.threeTwoMoves c.failed.threeTwoMoves,
   alwaysMoveLine "(2,6)" c.attempted.twoSixMoves c.succeeded.twoSixMoves c.failed.twoSixMoves,
   alwaysMoveLine "(6,2)" c.attempted.sixTwoMoves c.succeeded.sixTwoMoves c.failed.sixTwoMoves,
   alwaysMoveLine "(4,4)" c.attempted.fourFourMoves c.succeeded.fourFourMoves c.failed.fourFourMoves]

/-- Effects on the generator and the rest of the world, in a world with a console. -/
def besideConsole {G F α : Type} (e : Eff (G × F) α) : Eff ((G × F) × Console) α := fun (w, c) =>
  let (r, w') := e w
  (r, (w', c))

section
variable {M G P F : Type} (faults : PrintFaults)

/-- `MoveStrategy<METROPOLIS>::operator()` with its output (include/Metropolis.hpp:677-714);
`checkpoint` is `write_file` with what it prints. -/
def MetroStrategy.runAloud (eng : MetroEngine M G P)
    (checkpoint : M → CommandResults → RunStats → ℤ → Eff ((G × F) × Console) Unit)
    (seed stream : G → BitVec 64) (s : MetroStrategy G) (m : M) (f : F) (c : Console) :
    Except Exc M × MetroStrategy G × F × Console :=
  let ops : RunOps M RunStats ((G × F) × Console) :=
    { n3 := eng.n3, pass := fun m st n => besideConsole (metroPass eng m st n),
      report := fun _ cmd st => onConsole (sayAll faults (metroResultLines cmd st)),
      checkpoint := checkpoint }
  match executeMoveRunAloud faults ops s.cadence ⟨ascii "Metropolis-Hastings", seed s.gen, stream s.gen⟩
      s.writesFiles m { geometry := eng.geometry m } ((s.gen, f), c) with
  | (.error e, ((g', f'), c')) => (.error e, { s with gen := g' }, f', c')
  | (.ok r, ((g', f'), c')) =>
    (.ok r.manifold,
     { s with gen := g', cmd := r.commandResults, stats := r.strategyState,
              checkpointEvents := r.checkpointEvents }, f', c')

/-- `MoveStrategy<MOVE_ALWAYS>::operator()` with its output (include/Move_always.hpp:180-205). -/
def AlwaysStrategy.runAloud (eng : AlwaysEngine M G F)
    (checkpoint : M → CommandResults → ℤ → Eff ((G × F) × Console) Unit)
    (seed stream : G → BitVec 64) (s : AlwaysStrategy G) (m : M) (f : F) (c : Console) :
    Except Exc M × AlwaysStrategy G × F × Console :=
  let ops : RunOps M Unit ((G × F) × Console) :=
    { n3 := eng.n3, pass := fun m u n => besideConsole (eng.pass m u n),
      report := fun _ cmd _ => onConsole (sayAll faults (alwaysResultLines cmd)),
      checkpoint := fun m cmd _ n => checkpoint m cmd n }
  match executeMoveRunAloud faults ops s.cadence ⟨ascii "Move Always", seed s.gen, stream s.gen⟩
      s.writesFiles m () ((s.gen, f), c) with
  | (.error e, ((g', f'), c')) => (.error e, { s with gen := g' }, f', c')
  | (.ok r, ((g', f'), c')) =>
    (.ok r.manifold,
     { s with gen := g', results := r.commandResults, checkpointEvents := r.checkpointEvents }, f', c')
end

end CDT
