/-
What a user of `MoveAlways_3` sees on disk.
-/
import Verif.Model.AlwaysProgram
import Verif.Spec.Program

namespace CDT.Spec
open CDT

variable {M G F S P T : Type}

/-- The moves use the generator without changing which seed it was made from (`Random` has no
operation that does: include/Random.hpp:110-178). -/
structure KeepsSeed (moves : CommandEngine M (Random S)) (draw : Random S → Fin 5 × Random S) : Prop where
  moves : ∀ mv m g, (moves.applyMove mv m g).2.seed = g.seed
  draw : ∀ g, (draw g).2.seed = g.seed

/-- The manifold after `p` passes of the unconditional strategy. -/
def movedAfter (eng : AlwaysEngine M G F) (start : M) (gen : G) (p : ℤ) : M :=
  ((alwaysPass eng)^[p.toNat] (start, gen)).1

/-- The record of a manifold written with a seed only: what is stored, and nothing about the run but
the seed, the two conventional streams and the number of passes made. -/
def snapshotRecord (host : Host M S P T) (m : M) (seed : BitVec 64) (kind : ArtifactKind) (completed : Option ℤ)
    (lo hi : ℤ) (fingerprint : BitVec 64) : Metadata :=
  let t := host.snapshot m
  { artifact := kind
    seed := seed.toNat
    initializationStream := 0
    transitionStream := 1
    topology := .spherical
    dimension := host.codec.dimension t
    desiredSimplices := (host.summary m).N3
    desiredTimeslices := (host.summary m).maxTime
    actualVertices := (host.codec.view t).nv
    actualEdges := host.codec.edges t
    actualFaces := host.codec.facets t
    actualSimplices := (host.codec.view t).nc
    minimumTimeslice := lo
    maximumTimeslice := hi
    initialRadius := .fin (host.summary m).radius
    foliationSpacing := .fin (host.summary m).spacing
    alpha := none
    k := none
    lambda := none
    configuredPasses := none
    configuredAttempts := none
    checkpointInterval := none
    completedPasses := completed
    maxThreads := none
    transitionTrace := none
    transitionCount := none
    placementFingerprint := some (placementFingerprint (host.codec.view t)).toNat
    topologyFingerprint := some fingerprint.toNat }

/-- The artifact is that manifold: named for it, its payload is it, its manifest describes it. -/
structure SnapshotOf (host : Host M S P T) (seed : BitVec 64) (m : M) (due : ℤ × ArtifactKind)
    (completed : Option ℤ) (a : Written) : Prop where
  name : Named host m seed due a.path
  payload : a.payload = some (payloadText host.codec (host.snapshot m))
  manifest : ∃ lo hi f, LabelRange (host.codec.view (host.snapshot m)) lo hi ∧
    topologyFingerprint (host.codec.view (host.snapshot m)) = .ok f ∧
    a.manifest = some (metadataText host.text host.build (snapshotRecord host m seed due.2 completed lo hi f)
      (payloadIntegrity (payloadText host.codec (host.snapshot m))))
  /-- the library's own checks on reading accept the pair -/
  accepted : ∃ text, a.manifest = some text ∧
    DescribesArtifact host.codec host.text text (payloadText host.codec (host.snapshot m)) (host.snapshot m)

/-- The checkpoint of pass `p` of a run from `start`: the manifold after `p` passes, each of which
tried as many moves as it found tetrahedra, keeping the checked successes and nothing else. -/
structure CheckpointOf (host : Host M S P T) (eng : AlwaysEngine M (Random S) F) (start : M) (gen : Random S)
    (p : ℤ) (a : Written) : Prop where
  snapshot : SnapshotOf host gen.seed (movedAfter eng start gen p) (p, .checkpoint) (some p) a
  passes : ∃ hs : List (List (MoveType × Bool)), hs.length = p.toNat ∧
    PassChain eng.n3 (Applied fun x y mv => eng.check x y mv = true) start hs (movedAfter eng start gen p)

/-- The passes after which a run owes a checkpoint. -/
def owed (c : Cadence) (writes : Bool) : List ℤ :=
  if writes then schedule c.passes.toNat c.checkpoint.toNat else []

end CDT.Spec
