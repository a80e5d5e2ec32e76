/-
What a user of the command-line programs sees: exit status, artifacts, provenance.
-/
import Verif.Model.Program
import Verif.Spec.Trajectory
import Verif.Spec.Accounting
import Verif.Spec.Runs
import Verif.Spec.Storage
import Mathlib.Order.Bounds.Basic

namespace CDT.Spec
open CDT

variable {M G S P T : Type}

/-- The reports (move and outcome) of the first `n` transitions from `x`, in order. -/
def history (eng : MetroEngine M G P) (n : ℕ) (x : M × G) : List (MoveType × MoveOutcome) :=
  (List.range n).flatMap fun j =>
    let y := trajectory eng j x
    match (sampleTransition eng ⟨y.1, {}, {}, y.2⟩).1 with
    | .ok (i, o) => entryOf ((i.val : ℤ), o)
    | .error _ => []

/-- The transition engine of a configured run. -/
def engineOf (host : Host M S P T) (cfg : SimConfig) : MetroEngine M (Random S) P :=
  host.engine ⟨cfg.alpha, cfg.k, cfg.lambda⟩

/-- Where the run begins: the initial universe, and stream 1 of the run's seed. -/
def origin (host : Host M S P T) (cfg : SimConfig) (start : M) : M × Random S :=
  (start, Random.make host.pcg cfg.triangulation.seed 1)

/-- The number of transitions made by the first `p` passes. -/
def transitionsAfter (host : Host M S P T) (cfg : SimConfig) (start : M) (p : ℤ) : ℕ :=
  passStart (engineOf host cfg) (origin host cfg start) p.toNat

/-- The manifold after `p` passes. -/
def stateAfter (host : Host M S P T) (cfg : SimConfig) (start : M) (p : ℤ) : M :=
  (trajectory (engineOf host cfg) (transitionsAfter host cfg start p) (origin host cfg start)).1

/-- The artifacts a run owes, in order: a checkpoint after every multiple of the interval, and the
final triangulation; none when output is switched off. -/
def duties (cfg : SimConfig) : List (ℤ × ArtifactKind) :=
  if cfg.writeFiles then
    (schedule cfg.passes.toNat cfg.checkpoint.toNat).map (fun p => (p, .checkpoint)) ++
      [(cfg.passes, .finalTriangulation)]
  else []

/-- `lo` and `hi` are the least and the greatest vertex label. -/
def LabelRange (t : Stored) (lo hi : ℤ) : Prop :=
  (t.nv = 0 ∧ lo = 0 ∧ hi = 0) ∨ (IsLeast (Set.range t.vinfo) lo ∧ IsGreatest (Set.range t.vinfo) hi)

/-- The truth about an artifact of a run: what was asked for, what was done, and what is stored. -/
def truth (host : Host M S P T) (cfg : SimConfig) (start : M) (due : ℤ × ArtifactKind) (lo hi : ℤ)
    (fingerprint : BitVec 64) : Metadata :=
  let m := stateAfter host cfg start due.1
  let t := host.snapshot m
  let n := transitionsAfter host cfg start due.1
  { artifact := due.2
    seed := cfg.triangulation.seed.toNat
    initializationStream := 0
    transitionStream := 1
    topology := .spherical
    dimension := host.codec.dimension t
    desiredSimplices := cfg.triangulation.simplices
    desiredTimeslices := cfg.triangulation.timeslices
    actualVertices := (host.codec.view t).nv
    actualEdges := host.codec.edges t
    actualFaces := host.codec.facets t
    actualSimplices := (host.codec.view t).nc
    minimumTimeslice := lo
    maximumTimeslice := hi
    initialRadius := .fin (host.summary m).radius
    foliationSpacing := .fin (host.summary m).spacing
    alpha := some cfg.alpha
    k := some cfg.k
    lambda := some cfg.lambda
    configuredPasses := some cfg.passes
    configuredAttempts := none
    checkpointInterval := some cfg.checkpoint
    completedPasses := some due.1
    maxThreads := some cfg.triangulation.threads
    transitionTrace := some (fnv1a (traceBytes
      (history (engineOf host cfg) n (origin host cfg start)))).toNat
    transitionCount := some n
    placementFingerprint := some (placementFingerprint (host.codec.view t)).toNat
    topologyFingerprint := some fingerprint.toNat }

/-- The name of an artifact: its kind, state, seed, pass and time. -/
def Named (host : Host M S P T) (m : M) (seed : BitVec 64) (due : ℤ × ArtifactKind) (path : Path) : Prop :=
  ∃ now, path = match due.2 with
    | .checkpoint => makeFilenamePass (nameInfo host m) seed.toNat due.1 now
    | _ => makeFilenameSeed (nameInfo host m) seed.toNat now

/-- The artifact is what it should be: named for its state, seed and pass, the payload is the state
after that many passes, and the manifest is the truth about it. -/
structure Truthful (host : Host M S P T) (cfg : SimConfig) (start : M) (due : ℤ × ArtifactKind)
    (a : Written) : Prop where
  name : Named host (stateAfter host cfg start due.1) cfg.triangulation.seed due a.path
  payload : a.payload = some (payloadText host.codec (host.snapshot (stateAfter host cfg start due.1)))
  manifest : ∃ lo hi f,
    LabelRange (host.codec.view (host.snapshot (stateAfter host cfg start due.1))) lo hi ∧
    topologyFingerprint (host.codec.view (host.snapshot (stateAfter host cfg start due.1))) = .ok f ∧
    a.manifest = some (metadataText host.text host.build (truth host cfg start due lo hi f)
      (payloadIntegrity (payloadText host.codec (host.snapshot (stateAfter host cfg start due.1)))))
  /-- the library's own checks on reading accept the pair -/
  accepted : ∃ text, a.manifest = some text ∧ DescribesArtifact host.codec host.text text
    (payloadText host.codec (host.snapshot (stateAfter host cfg start due.1)))
    (host.snapshot (stateAfter host cfg start due.1))
  /-- every transition up to there was made -/
  complete : (history (engineOf host cfg) (transitionsAfter host cfg start due.1)
    (origin host cfg start)).length = transitionsAfter host cfg start due.1

/-- The file names that a program with this seed may touch: an artifact name with that seed, its
manifest, and their temporary files. -/
def OwnFile (seed : BitVec 64) (p : Path) : Prop :=
  ∃ info now name, (name = makeFilenameSeed info seed.toNat now ∨
      ∃ pass, name = makeFilenamePass info seed.toNat pass now) ∧
    (p = name ∨ p = name ++ ascii ".meta" ∨ p = name ++ ascii ".tmp" ∨
      p = name ++ ascii ".meta" ++ ascii ".tmp")

/-- `cdt` with these options got as far as running: neither help nor version was asked for, the
configuration was accepted, and this universe was built from it and stream 0 of its seed. -/
structure Launched (host : Host M S P T) (out : Outside M S) (o : Options) (cfg : SimConfig) (start : M) :
    Prop where
  help : o.help = false
  version : o.version = false
  config : cdtConfig host out o = .ok cfg
  built : out.construct cfg.triangulation.simplices cfg.triangulation.timeslices
    (Random.make host.pcg cfg.triangulation.seed 0) cfg.triangulation.initialRadius
    cfg.triangulation.foliationSpacing = .ok start

/-- The values of a run are the options, and the seed is the given or, without one, the drawn one. -/
structure ConfiguredBy (out : Outside M S) (o : Options) (cfg : SimConfig) : Prop where
  topology : o.spherical = true ∧ o.toroidal = false ∧ cfg.triangulation.topology = .spherical
  simplices : o.simplices = some cfg.triangulation.simplices ∧
    2 ≤ cfg.triangulation.simplices ∧ cfg.triangulation.simplices ≤ 2 ^ 31 - 1
  timeslices : o.timeslices = some cfg.triangulation.timeslices ∧
    2 ≤ cfg.triangulation.timeslices ∧ cfg.triangulation.timeslices ≤ 2 ^ 31 - 1
  dimensions : o.dimensions = 3 ∧ cfg.triangulation.dimensions = 3
  radius : o.initialRadius = cfg.triangulation.initialRadius
  spacing : o.foliationSpacing = cfg.triangulation.foliationSpacing
  seed : cfg.triangulation.seed = o.seed.getD out.entropy
  threads : o.threads = cfg.triangulation.threads ∧ 1 ≤ o.threads ∧ o.threads ≤ 2 ^ 64 - 1
  alpha : o.alpha = some cfg.alpha ∧ ∃ a, cfg.alpha = .fin a ∧ 1 / 2 < a
  k : o.k = some cfg.k ∧ ∃ q, cfg.k = .fin q
  lambda : o.lambda = some cfg.lambda ∧ ∃ q, cfg.lambda = .fin q
  passes : o.passes = cfg.passes ∧ 1 ≤ cfg.passes ∧ cfg.passes ≤ 2 ^ 31 - 1
  checkpoint : o.checkpoint = cfg.checkpoint ∧ 1 ≤ cfg.checkpoint ∧ cfg.checkpoint ≤ 2 ^ 31 - 1
  output : cfg.writeFiles = !o.noOutput

/-- A state that can be stored: CGAL writes it faithfully, its labels and counts fit their types, its
fingerprint is defined, and its foliation parameters are those of a valid manifold. -/
structure Storable (host : Host M S P T) (isDouble : LD → Prop) (m : M) : Prop where
  faithful : Faithful host.codec (host.snapshot m)
  labels : LabelsFit host.codec (host.snapshot m)
  counts : (host.codec.view (host.snapshot m)).nv < 2 ^ 31 ∧ host.codec.edges (host.snapshot m) < 2 ^ 31 ∧
    host.codec.facets (host.snapshot m) < 2 ^ 31 ∧ (host.codec.view (host.snapshot m)).nc < 2 ^ 31
  dimension : host.codec.dimension (host.snapshot m) = 3
  fingerprint : ∃ f, topologyFingerprint (host.codec.view (host.snapshot m)) = .ok f
  radius : isDouble (.fin (host.summary m).radius) ∧ 0 ≤ (host.summary m).radius
  spacing : isDouble (.fin (host.summary m).spacing) ∧ 0 < (host.summary m).spacing

/-- A run in which nothing goes wrong apart from the file system: no transition throws, fewer than
`2 ^ 64` are made, every state between passes can be stored, and the final state is valid. -/
structure Smooth (host : Host M S P T) (isDouble isLong : LD → Prop) (cfg : SimConfig) (start : M) :
    Prop where
  transitions : ∀ j < transitionsAfter host cfg start cfg.passes,
    ∃ r, (sampleTransition (engineOf host cfg)
      ⟨(trajectory (engineOf host cfg) j (origin host cfg start)).1, {}, {},
        (trajectory (engineOf host cfg) j (origin host cfg start)).2⟩).1 = .ok r
  few : transitionsAfter host cfg start cfg.passes < 2 ^ 64
  states : ∀ p, 0 ≤ p → p ≤ cfg.passes → Storable host isDouble (stateAfter host cfg start p)
  couplings : isLong cfg.alpha ∧ isLong cfg.k ∧ isLong cfg.lambda
  valid : host.valid (stateAfter host cfg start cfg.passes) = true

/-- Two artifacts with the same contents whose names differ at most in the time of writing. -/
def SameButTime (a b : Written) : Prop :=
  a.payload = b.payload ∧ a.manifest = b.manifest ∧ ∃ info seed now now',
    (a.path = makeFilenameSeed info seed now ∧ b.path = makeFilenameSeed info seed now') ∨
    ∃ pass, a.path = makeFilenamePass info seed pass now ∧ b.path = makeFilenamePass info seed pass now'

/-- The truth about the universe `initialize` writes. -/
def initialTruth (host : Host M S P T) (cfg : TriConfig) (m : M) (lo hi : ℤ) (fingerprint : BitVec 64) :
    Metadata :=
  let t := host.snapshot m
  { artifact := .initialTriangulation
    seed := cfg.seed.toNat
    initializationStream := 0
    transitionStream := 1
    topology := .spherical
    dimension := host.codec.dimension t
    desiredSimplices := cfg.simplices
    desiredTimeslices := cfg.timeslices
    actualVertices := (host.codec.view t).nv
    actualEdges := host.codec.edges t
    actualFaces := host.codec.facets t
    actualSimplices := (host.codec.view t).nc
    minimumTimeslice := lo
    maximumTimeslice := hi
    initialRadius := .fin (host.summary m).radius
    foliationSpacing := .fin (host.summary m).spacing
    alpha := none
    k := none
    lambda := none
    configuredPasses := none
    configuredAttempts := none
    checkpointInterval := none
    completedPasses := none
    maxThreads := some cfg.threads
    transitionTrace := none
    transitionCount := none
    placementFingerprint := some (placementFingerprint (host.codec.view t)).toNat
    topologyFingerprint := some fingerprint.toNat }

/-- The initial artifact is what it should be. -/
structure InitialTruthful (host : Host M S P T) (cfg : TriConfig) (start : M) (a : Written) : Prop where
  name : ∃ now, a.path = makeFilenameSeed (nameInfo host start) cfg.seed.toNat now
  payload : a.payload = some (payloadText host.codec (host.snapshot start))
  manifest : ∃ lo hi f, LabelRange (host.codec.view (host.snapshot start)) lo hi ∧
    topologyFingerprint (host.codec.view (host.snapshot start)) = .ok f ∧
    a.manifest = some (metadataText host.text host.build (initialTruth host cfg start lo hi f)
      (payloadIntegrity (payloadText host.codec (host.snapshot start))))
  accepted : ∃ text, a.manifest = some text ∧ DescribesArtifact host.codec host.text text
    (payloadText host.codec (host.snapshot start)) (host.snapshot start)

end CDT.Spec
