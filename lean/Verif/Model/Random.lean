/-
Model of include/Random.hpp: run-owned generators and stream splitting.
-/
import Mathlib.Data.List.Basic

namespace CDT

/-- The PCG engine (`pcg64`, an external header): its constructor from seed and stream selector, and
its step function.  Arbitrary. -/
structure Pcg (S : Type) where
  init : BitVec 64 → BitVec 64 → S
  next : S → BitVec 64 × S

/-- `Random` (include/Random.hpp:112-172). -/
structure Random (S : Type) where
  seed : BitVec 64
  stream : BitVec 64
  engine : S
  deriving DecidableEq

namespace Random
variable {S : Type} (pcg : Pcg S)

/-- `Random(seed, stream)` (include/Random.hpp:142-147). -/
def make (seed stream : BitVec 64) : Random S := ⟨seed, stream, pcg.init seed stream⟩

/-- `operator()` (include/Random.hpp:157-158). -/
def draw (r : Random S) : BitVec 64 × Random S :=
  let (x, e) := pcg.next r.engine
  (x, { r with engine := e })

/-- `split(stream)` (include/Random.hpp:167-171): const, builds a new object. -/
def split (r : Random S) (stream : BitVec 64) : Random S := make pcg r.seed stream

end Random

/-- `random_streams::initialization` and `random_streams::transitions` (include/Random.hpp:93-99). -/
def initializationStream : BitVec 64 := 0
def transitionsStream : BitVec 64 := 1

/-- What a program does with its generator objects, numbered in order of creation. -/
inductive RandomOp
  /-- construct `Random(seed, stream)` -/
  | make (seed stream : BitVec 64)
  /-- `objects[i].split(stream)` -/
  | split (i : ℕ) (stream : BitVec 64)
  /-- `objects[i]()` -/
  | draw (i : ℕ)
  deriving DecidableEq

/-- The objects of a program and the draws made so far, oldest first, with the object drawn from. -/
structure RandomWorld (S : Type) where
  objects : List (Random S) := []
  draws : List (ℕ × BitVec 64) := []

/-- One operation; an operation on an object that does not exist does nothing. -/
def RandomWorld.step {S : Type} (pcg : Pcg S) (w : RandomWorld S) : RandomOp → RandomWorld S
  | .make seed stream => { w with objects := w.objects ++ [Random.make pcg seed stream] }
  | .split i stream =>
    match w.objects[i]? with
    | none => w
    | some r => { w with objects := w.objects ++ [r.split pcg stream] }
  | .draw i =>
    match w.objects[i]? with
    | none => w
    | some r =>
      let (x, r') := r.draw pcg
      { objects := w.objects.set i r', draws := w.draws ++ [(i, x)] }

/-- A history of operations from an empty program. -/
def RandomWorld.run {S : Type} (pcg : Pcg S) (ops : List RandomOp) : RandomWorld S :=
  ops.foldl (RandomWorld.step pcg) {}

end CDT
