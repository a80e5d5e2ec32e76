/-
What a user of a `Metropolis_3` object sees on disk.
-/
import Verif.Model.SamplerProgram
import Verif.Spec.AlwaysProgram

namespace CDT.Spec
open CDT

variable {M S P T : Type}

/-- Values the constructor accepts: finite couplings with alpha above one half, positive cadence. -/
structure AcceptedArgs (a : SamplerArgs S) : Prop where
  couplings : ∃ α κ Λ : ℚ, a.alpha = .fin α ∧ a.k = .fin κ ∧ a.lambda = .fin Λ ∧ 1 / 2 < α
  passes : 0 < a.passes
  checkpoint : 0 < a.checkpoint

/-- An object made with these arguments and used in any way since: any calls of its interface, on any
manifolds, whatever the file system did. -/
inductive UsedFrom (host : Host M S P T) (out : Outside M S) (a : SamplerArgs S) : Sampler S → Prop
  | made {s : Sampler S} : Sampler.ofArgs a = .ok s → UsedFrom host out a s
  | called {s : Sampler S} (c : MetroCall M) (w : Machine) : UsedFrom host out a s →
      UsedFrom host out a (s.call host out c w).2.1

/-- The transitions the object makes. -/
abbrev argsEngine (host : Host M S P T) (a : SamplerArgs S) : MetroEngine M (Random S) P :=
  host.engine ⟨a.alpha, a.k, a.lambda⟩

/-- The number of transitions in the first `p` passes of a run from `x`: a manifold and a generator. -/
def sampledCount (host : Host M S P T) (a : SamplerArgs S) (x : M × Random S) (p : ℤ) : ℕ :=
  passStart (argsEngine host a) x p.toNat

/-- The manifold after `p` passes of a run from `x`. -/
def sampledState (host : Host M S P T) (a : SamplerArgs S) (x : M × Random S) (p : ℤ) : M :=
  (trajectory (argsEngine host a) (sampledCount host a x p) x).1

/-- The true record of manifold `m` after `p` passes: the seed, the stream, the couplings and the
cadence are those the object was made with, whatever the caller's record said of them; the number of
transitions and the fingerprint of their history are those of this run.  Only the requested size,
the initialization stream, the thread and attempt limits are the caller's. -/
def sampledRecord (host : Host M S P T) (a : SamplerArgs S) (m : M) (kind : ArtifactKind) (p : ℤ)
    (reports : List (MoveType × MoveOutcome)) (lo hi : ℤ) (fingerprint : BitVec 64) : Metadata :=
  let t := host.snapshot m
  { artifact := kind
    seed := a.random.seed.toNat
    initializationStream := (a.reproducibility.map (·.initializationStream)).getD 0
    transitionStream := a.random.stream.toNat
    topology := .spherical
    dimension := host.codec.dimension t
    desiredSimplices := match a.reproducibility with
      | some given => if given.desiredSimplices = 0 then (host.summary m).N3 else given.desiredSimplices
      | none => (host.summary m).N3
    desiredTimeslices := match a.reproducibility with
      | some given => if given.desiredTimeslices = 0 then (host.summary m).maxTime else given.desiredTimeslices
      | none => (host.summary m).maxTime
    actualVertices := (host.codec.view t).nv
    actualEdges := host.codec.edges t
    actualFaces := host.codec.facets t
    actualSimplices := (host.codec.view t).nc
    minimumTimeslice := lo
    maximumTimeslice := hi
    initialRadius := .fin (host.summary m).radius
    foliationSpacing := .fin (host.summary m).spacing
    alpha := some a.alpha
    k := some a.k
    lambda := some a.lambda
    configuredPasses := some a.passes
    configuredAttempts := a.reproducibility.bind (·.configuredAttempts)
    checkpointInterval := some a.checkpoint
    completedPasses := some p
    maxThreads := a.reproducibility.bind (·.maxThreads)
    transitionTrace := some (fnv1a (traceBytes reports)).toNat
    transitionCount := some reports.length
    placementFingerprint := some (placementFingerprint (host.codec.view t)).toNat
    topologyFingerprint := some fingerprint.toNat }

/-- The reports of the first `p` passes of a run from `x`. -/
def sampledReports (host : Host M S P T) (a : SamplerArgs S) (x : M × Random S) (p : ℤ) : List (MoveType × MoveOutcome) :=
  history (argsEngine host a) (sampledCount host a x p) x

/-- The checkpoint of pass `p` of a run from `x`: named for its state, seed and pass, its payload the
state after that many passes, its manifest the true record. -/
structure SampledAt (host : Host M S P T) (a : SamplerArgs S) (x : M × Random S) (p : ℤ) (w : Written) : Prop where
  name : Named host (sampledState host a x p) a.random.seed (p, .checkpoint) w.path
  payload : w.payload = some (payloadText host.codec (host.snapshot (sampledState host a x p)))
  manifest : ∃ lo hi f, LabelRange (host.codec.view (host.snapshot (sampledState host a x p))) lo hi ∧
    topologyFingerprint (host.codec.view (host.snapshot (sampledState host a x p))) = .ok f ∧
    w.manifest = some (metadataText host.text host.build
      (sampledRecord host a (sampledState host a x p) .checkpoint p (sampledReports host a x p) lo hi f)
      (payloadIntegrity (payloadText host.codec (host.snapshot (sampledState host a x p)))))
  /-- the library's own checks on reading accept the pair -/
  accepted : ∃ text, w.manifest = some text ∧ DescribesArtifact host.codec host.text text
    (payloadText host.codec (host.snapshot (sampledState host a x p))) (host.snapshot (sampledState host a x p))
  /-- every transition up to there was made -/
  complete : (sampledReports host a x p).length = sampledCount host a x p

end CDT.Spec
