/-
What a program that uses a `Metropolis_3` object and its manifolds does over time.
-/
import Verif.Spec.SamplerProgram
import Verif.Spec.Whole

namespace CDT.Spec
open CDT

variable {V M S P T : Type}

/-- The manifold a call is made with. -/
def calledOn : MetroCall M → M
  | .attempt m _ _ => m
  | .sample m => m
  | .initialize m => m
  | .run m => m

/-- A call of an object with generator `gen` tries a transition on the manifold: the one it is made
with, or for a run any state on the way. -/
def TriesOn (host : Host M S P T) (a : SamplerArgs S) (gen : Random S) : MetroCall M → M → Prop
  | .attempt m _ _, n => n = m
  | .sample m, n => n = m
  | .initialize _, _ => False
  | .run m, n => ∃ j < sampledCount host a (m, gen) a.passes, n = (trajectory (argsEngine host a) j (m, gen)).1

/-- The object `s` and the manifolds at hand after a session that began with a new object and one
manifold: any calls, each on one of the manifolds at hand, with any files and faults, whether they
return or throw; the manifold a call leaves is at hand afterwards, as are copies of the earlier ones.
`good` holds of every manifold on which a transition was tried. -/
inductive Session (host : Host M S P T) (out : Outside M S) (a : SamplerArgs S) (good : M → Prop) (start : M) :
    Sampler S → List M → Prop
  | made {s : Sampler S} : Sampler.ofArgs a = .ok s → Session host out a good start s [start]
  | called {s : Sampler S} {held : List M} (c : MetroCall M) (disk : Disk) : Session host out a good start s held →
      calledOn c ∈ held → (∀ n, TriesOn host a s.strategy.gen c n → good n) →
      Session host out a good start (s.call host out c ⟨disk, []⟩).2.1 ((s.call host out c ⟨disk, []⟩).1.manifold :: held)

/-- The manifold's triangles' centroids are not vertices yet, and its counts are away from the edge of
the 32-bit range. -/
def TameState [LinearOrder V] {G : Type} (env : Env V G) (m : Mfld V) : Prop := FreshCentroids env m.tri ∧ Roomy m.geometry

/-- What the caller's record contributes to a manifest can be written and read back: numbers that fit
their fields, no negative sizes, positive limits. -/
structure RecordFits (given : Metadata) : Prop where
  stream : given.initializationStream < 2 ^ 64
  simplices : 0 ≤ given.desiredSimplices ∧ given.desiredSimplices < 2 ^ 31
  timeslices : 0 ≤ given.desiredTimeslices ∧ given.desiredTimeslices < 2 ^ 31
  attempts : ∀ n, given.configuredAttempts = some n → 0 < n ∧ n < 2 ^ 31
  threads : ∀ n, given.maxThreads = some n → 0 < n ∧ n < 2 ^ 64

end CDT.Spec
