/-
What a program that uses every way of changing manifolds the library offers may do over time.
-/
import Verif.Spec.Session
import Verif.Spec.AlwaysProgram
import Verif.Model.Simulation

namespace CDT.Spec
open CDT

variable {V S P T M G : Type}

/-- The manifolds on which the queued codes are tried, in order, up to the first code that is no move. -/
def attempts (eng : CommandEngine M G) : List ℤ → M × G → List M
  | [], _ => []
  | code :: later, x =>
    match MoveType.ofCode code with
    | none => []
    | some mv => x.1 :: attempts eng later (apply eng mv x)

/-- The manifolds and the `MoveCommand` objects a program has had at hand, having begun with one
manifold.  In any order and any number of times it may

* call a `do_*` or `propose_*` function on a manifold, with any state of the generator, and keep a result
  that `check_move` accepts;
* make `MoveCommand` objects, queue any codes, execute them with any generator, whether that ends
  regularly or not, reset their counters and take their manifolds;
* run a `MoveAlways_3` object with any moves drawn, files and faults;
* call any function of a `Metropolis_3` object made with arguments that are `ok` and used in any way
  before, with any files and faults, whether it returns or throws.

`good` holds of every manifold on which a move is tried. -/
inductive Workshop [LinearOrder V] (host : Host (Mfld V) S P T) (env : Env V (Random S)) (ok : SamplerArgs S → Prop)
    (good : Mfld V → Prop) (start : Mfld V) : List (Mfld V) → List (Command (Mfld V)) → Prop
  | begun : Workshop host env ok good start [start] []
  | moved {held : List (Mfld V)} {cmds : List (Command (Mfld V))} {m m' : Mfld V} {g g' : Random S} (mv : MoveType) :
      Workshop host env ok good start held cmds → m ∈ held → good m →
      wrapMove env m (Moves.doMove env mv m.tri g) = (.ok (.ok m'), g') ∨
        wrapMove env m (Moves.propose env mv m.tri g) = (.ok (.ok m'), g') →
      checkMove m.view m'.view mv = true → Workshop host env ok good start (m' :: held) cmds
  | commanded {held : List (Mfld V)} {cmds : List (Command (Mfld V))} {m : Mfld V} :
      Workshop host env ok good start held cmds → m ∈ held → Workshop host env ok good start held (.new m :: cmds)
  | queued {held : List (Mfld V)} {cmds : List (Command (Mfld V))} {c : Command (Mfld V)} (code : ℤ) :
      Workshop host env ok good start held cmds → c ∈ cmds → Workshop host env ok good start held (c.enqueue code :: cmds)
  | reset {held : List (Mfld V)} {cmds : List (Command (Mfld V))} {c : Command (Mfld V)} :
      Workshop host env ok good start held cmds → c ∈ cmds → Workshop host env ok good start held (c.resetCounters :: cmds)
  | executed {held : List (Mfld V)} {cmds : List (Command (Mfld V))} {c : Command (Mfld V)} (g : Random S) :
      Workshop host env ok good start held cmds → c ∈ cmds →
      (∀ n ∈ attempts (commandEngine env) c.queue.reverse (c.manifold, g), good n) →
      Workshop host env ok good start held ((c.execute (commandEngine env) g).1 :: cmds)
  | taken {held : List (Mfld V)} {cmds : List (Command (Mfld V))} {c : Command (Mfld V)} :
      Workshop host env ok good start held cmds → c ∈ cmds → Workshop host env ok good start (c.manifold :: held) cmds
  | always {held : List (Mfld V)} {cmds : List (Command (Mfld V))} {m m' : Mfld V} (out : Outside (Mfld V) S)
      (draw : Random S → Fin 5 × Random S) (s : AlwaysStrategy (Random S)) (disk : Disk) :
      Workshop host env ok good start held cmds → m ∈ held →
      KeepsSeed (commandEngine env) draw → 1 ≤ s.cadence.checkpoint → 0 ≤ s.cadence.passes →
      (∀ p < s.cadence.passes.toNat,
        ∀ n ∈ alwaysTried (mover host out (commandEngine env) (fun m => m.geometry.N3) draw)
          ((alwaysPass (mover host out (commandEngine env) (fun m => m.geometry.N3) draw))^[p] (m, s.gen)), good n) →
      (s.run (mover host out (commandEngine env) (fun m => m.geometry.N3) draw) m ⟨disk, []⟩).1 = .ok m' →
      Workshop host env ok good start (m' :: held) cmds
  | sampled {held : List (Mfld V)} {cmds : List (Command (Mfld V))} {a : SamplerArgs S} {s : Sampler S}
      {before out : Outside (Mfld V) S} (c : MetroCall (Mfld V)) (disk : Disk) :
      Workshop host env ok good start held cmds → ok a → UsedFrom host before a s → calledOn c ∈ held →
      (∀ n, TriesOn host a s.strategy.gen c n → good n) →
      Workshop host env ok good start ((s.call host out c ⟨disk, []⟩).1.manifold :: held) cmds

end CDT.Spec
