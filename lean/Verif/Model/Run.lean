/-
Model of include/Move_run.hpp and include/Move_always.hpp.
-/
import Verif.Model.Command

namespace CDT

/-- `MoveRunCadenceError` (include/Move_run.hpp:27-31). -/
inductive CadenceError | nonpositivePasses | nonpositiveCheckpoint
  deriving DecidableEq, Repr

/-- `MoveRunCadence` (include/Move_run.hpp:36-51). -/
structure Cadence where
  passes : Int := 1
  checkpoint : Int := 1
  deriving DecidableEq

/-- `MoveRunCadence::parse` (include/Move_run.hpp:61-74). -/
def Cadence.parse (passes checkpoint : Int) : Except CadenceError Cadence :=
  if passes ≤ 0 then .error .nonpositivePasses
  else if checkpoint ≤ 0 then .error .nonpositiveCheckpoint
  else .ok { passes := passes, checkpoint := checkpoint }

/-- `parse_move_run_cadence` (include/Move_run.hpp:88-105): either error becomes
`std::invalid_argument`. -/
def parseMoveRunCadence (passes checkpoint : Int) : Except Exc Cadence :=
  match Cadence.parse passes checkpoint with
  | .ok c => .ok c
  | .error _ => .error .invalidArgument

/-- `MovePassResult` (include/Move_run.hpp:146-151). -/
structure PassResult (M S : Type) where
  manifold : M
  commandResults : CommandResults
  strategyState : S

/-- `MoveRunResult` (include/Move_run.hpp:155-161). -/
structure RunResult (M S : Type) where
  manifold : M
  commandResults : CommandResults
  strategyState : S
  checkpointEvents : Int

/-- The callables and the manifold query used by `execute_move_run`
(include/Move_run.hpp:178-184): `n3` is `current.N3()`, the other three are the
`execute_pass`, `report` and `checkpoint` arguments.  `W` is everything they may
change outside the run values (generator, files, console). -/
structure RunOps (M S W : Type) where
  n3 : M → Int
  pass : M → S → Int → Eff W (PassResult M S)
  report : M → CommandResults → S → Eff W Unit
  checkpoint : M → CommandResults → S → Int → Eff W Unit

/-- Local variables of `execute_move_run` (include/Move_run.hpp:187-190). -/
structure RunVars (M S : Type) where
  current : M
  totals : CommandResults
  state : S
  events : Int

/-- Body of the pass loop for `pass_number` (include/Move_run.hpp:201-224). -/
def runPass {M S W : Type} (ops : RunOps M S W) (cad : Cadence) (writes : Bool)
    (passNumber : Int) (v : RunVars M S) : Eff W (RunVars M S) := fun w =>
  let attempts := ops.n3 v.current
  match ops.pass v.current v.state attempts w with
  | (.error e, w1) => (.error e, w1)
  | (.ok p, w1) =>
    let totals := v.totals.accumulate p.commandResults
    if passNumber % cad.checkpoint = 0 then
      let events := v.events + 1
      match ops.report p.manifold totals p.strategyState w1 with
      | (.error e, w2) => (.error e, w2)
      | (.ok _, w2) =>
        if writes then
          match ops.checkpoint p.manifold totals p.strategyState passNumber w2 with
          | (.error e, w3) => (.error e, w3)
          | (.ok _, w3) => (.ok ⟨p.manifold, totals, p.strategyState, events⟩, w3)
        else (.ok ⟨p.manifold, totals, p.strategyState, events⟩, w2)
    else (.ok ⟨p.manifold, totals, p.strategyState, v.events⟩, w1)

/-- The `for` loop (include/Move_run.hpp:198-225): `remaining` iterations, the first of
which has index `passIndex`. -/
def runLoop {M S W : Type} (ops : RunOps M S W) (cad : Cadence) (writes : Bool) :
    Nat → Int → RunVars M S → Eff W (RunVars M S)
  | 0, _, v => fun w => (.ok v, w)
  | n + 1, passIndex, v => fun w =>
    match runPass ops cad writes (passIndex + 1) v w with
    | (.error e, w') => (.error e, w')
    | (.ok v', w') => runLoop ops cad writes n (passIndex + 1) v' w'

/-- `execute_move_run` (include/Move_run.hpp:176-234). Without the console lines printed
directly by it, which `executeMoveRunAloud` (Model/Console) adds. -/
def executeMoveRun {M S W : Type} (ops : RunOps M S W) (cad : Cadence) (writes : Bool)
    (initial : M) (s0 : S) : Eff W (RunResult M S) := fun w =>
  match runLoop ops cad writes cad.passes.toNat 0 ⟨initial, {}, s0, 0⟩ w with
  | (.error e, w1) => (.error e, w1)
  | (.ok v, w1) =>
    match ops.report v.current v.totals v.state w1 with
    | (.error e, w2) => (.error e, w2)
    | (.ok _, w2) => (.ok ⟨v.current, v.totals, v.state, v.events⟩, w2)

/-! ### MoveAlways -/

/-- What MoveAlways needs: the command engine, `N3()`, uniform move sampling
(`generate_random_move_3`, include/Move_tracker.hpp:96-103, an index 0..4), console report and
checkpoint writing; `G` is the owned generator and `F` the rest of the world. -/
structure AlwaysEngine (M G F : Type) extends CommandEngine M G where
  n3 : M → Int
  drawMove : G → Fin 5 × G
  report : M → CommandResults → Eff (G × F) Unit
  checkpoint : M → CommandResults → Int → Eff (G × F) Unit

/-- The enqueue loop of `execute_pass` (include/Move_always.hpp:54-58): `n` sampled moves. The
index is converted by `move_from_index` and stored; its code equals the index. -/
def enqueueRandom {M G : Type} (draw : G → Fin 5 × G) : Nat → Command M → G → Command M × G
  | 0, c, g => (c, g)
  | n + 1, c, g =>
    let (i, g') := draw g
    enqueueRandom draw n (c.enqueue (i.val : Int)) g'

/-- `MoveAlways::execute_pass` (include/Move_always.hpp:49-65). A negative `attempts` gives an
empty loop.  `terminated` cannot occur because sampled codes are 0..4; it is mapped
to an exception value only to keep the function total. -/
def AlwaysEngine.pass {M G F : Type} (eng : AlwaysEngine M G F) (current : M) (_ : Unit)
    (attempts : Int) : Eff (G × F) (PassResult M Unit) := fun (g, f) =>
  let (c, g1) := enqueueRandom eng.drawMove attempts.toNat (Command.new current) g
  match c.execute eng.toCommandEngine g1 with
  | (c', g2, .done) =>
    let (res, c'') := c'.consumeResults
    (.ok ⟨c''.manifold, res, ()⟩, (g2, f))
  | (_, g2, .threw e) => (.error e, (g2, f))
  | (_, g2, .terminated) => (.error .logicError, (g2, f))

/-- The `MoveStrategy<MOVE_ALWAYS>` object (include/Move_always.hpp:36-47). -/
structure AlwaysStrategy (G : Type) where
  cadence : Cadence
  writesFiles : Bool
  gen : G
  results : CommandResults := {}
  checkpointEvents : Int := 0

/-- `MoveAlways::operator()` (include/Move_always.hpp:180-205). The `const` argument is copied into
the run, so the caller's manifold is not an output. -/
def AlwaysStrategy.run {M G F : Type} (eng : AlwaysEngine M G F) (s : AlwaysStrategy G)
    (m : M) (f : F) : Except Exc M × AlwaysStrategy G × F :=
  let ops : RunOps M Unit (G × F) :=
    { n3 := eng.n3, pass := eng.pass,
      report := fun m c _ => eng.report m c,
      checkpoint := fun m c _ n => eng.checkpoint m c n }
  match executeMoveRun ops s.cadence s.writesFiles m () (s.gen, f) with
  | (.error e, (g', f')) => (.error e, { s with gen := g' }, f')
  | (.ok r, (g', f')) =>
    (.ok r.manifold,
     { s with gen := g', results := r.commandResults, checkpointEvents := r.checkpointEvents }, f')

end CDT
