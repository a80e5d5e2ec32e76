import Verif.Spec.Program
/-
The manifests the programs write, line by line.
-/
namespace CDT.Spec
open CDT
variable {M S P T : Type}

/-- The line `name=value`. -/
def tells (name : String) (value : Bytes) : Bytes := ascii name ++ ascii "=" ++ value

/-- A text of these lines, each of them ended. -/
def textOf (lines : List Bytes) : Bytes := lines.flatMap fun l => l ++ [newline]

/-- The lines about the payload: its size and its digest. -/
def payloadLines (payload : Bytes) : List Bytes :=
  [tells "payload.size" (decimal (payload.length % 2 ^ 64)), tells "payload.fnv1a64" (hex16 (fnv1a payload).toNat)]

/-- What may be done with the artifact. -/
def contractLines : List Bytes :=
  [ascii "resume_supported=false", ascii "fresh_topology_replay_supported=false",
   ascii "transition_replay_requires_identical_start=true"]

/-- By what the artifact was made. -/
def buildLines (b : BuildInfo) : List Bytes :=
  [tells "cdt.version" b.version, tells "build.compiler_id" b.compilerId, tells "build.compiler_version" b.compilerVersion,
   tells "build.configuration" b.configuration, tells "build.system" b.system, tells "build.processor" b.processor,
   ascii "build.cxx_standard=23", tells "build.standard_library" b.standardLibrary,
   tells "dependency.cgal_version" b.cgalVersion]

/-- The random numbers: the seed; stream 0 built the universe and stream 1 drives the transitions. -/
def randomLines (seed : BitVec 64) : List Bytes :=
  [ascii "random.engine=pcg64", tells "random.seed" (decimal seed.toNat), ascii "random.initialization_stream=0",
   ascii "random.transition_stream=1"]

/-- What was asked for, and the counts of what is stored: `t` has labels from `lo` to `hi`. -/
def universeLines (host : Host M S P T) (cfg : TriConfig) (m : M) (lo hi : ℤ) : List Bytes :=
  let t := host.snapshot m
  [ascii "topology=spherical", tells "dimension" (decimalInt (host.codec.dimension t)),
   tells "desired.simplices" (decimalInt cfg.simplices), tells "desired.timeslices" (decimalInt cfg.timeslices),
   tells "actual.vertices" (decimal (host.codec.view t).nv), tells "actual.edges" (decimal (host.codec.edges t)),
   tells "actual.faces" (decimal (host.codec.facets t)), tells "actual.simplices" (decimal (host.codec.view t).nc),
   tells "actual.minimum_timeslice" (decimalInt lo), tells "actual.maximum_timeslice" (decimalInt hi),
   tells "initial_radius" (host.text.showDouble (.fin (host.summary m).radius)),
   tells "foliation_spacing" (host.text.showDouble (.fin (host.summary m).spacing))]

/-- The fingerprints of what is stored. -/
def fingerprintLines (t : Stored) (topology : BitVec 64) : List Bytes :=
  [tells "placement.fnv1a64" (hex16 (placementFingerprint t).toNat), tells "topology.fnv1a64" (hex16 topology.toNat)]

/-- The lines of the manifest of an artifact of `cdt`: `due` is the pass after which it is written, and its
kind; `lo`, `hi` and `topology` are the label range and the topology fingerprint of the state then. -/
def cdtManifestLines (host : Host M S P T) (cfg : SimConfig) (start : M) (due : ℤ × ArtifactKind) (lo hi : ℤ)
    (topology : BitVec 64) : List Bytes :=
  let m := stateAfter host cfg start due.1
  let t := host.snapshot m
  let n := transitionsAfter host cfg start due.1
  ascii "cdt-plusplus-metadata-v1" ::
  (payloadLines (payloadText host.codec t) ++
   [if due.2 = .checkpoint then ascii "artifact=checkpoint" else ascii "artifact=final-triangulation"] ++
   contractLines ++ buildLines host.build ++ randomLines cfg.triangulation.seed ++
   universeLines host cfg.triangulation m lo hi ++
   [tells "alpha" (host.text.showLong cfg.alpha), tells "k" (host.text.showLong cfg.k),
    tells "lambda" (host.text.showLong cfg.lambda), tells "configured_passes" (decimalInt cfg.passes),
    tells "checkpoint_interval" (decimalInt cfg.checkpoint), tells "completed_passes" (decimalInt due.1),
    tells "parallel.max_threads" (decimal cfg.triangulation.threads),
    tells "transition_trace.fnv1a64" (hex16 (fnv1a (traceBytes (history (engineOf host cfg) n (origin host cfg start)))).toNat),
    tells "transition_trace.count" (decimal n)] ++
   fingerprintLines (host.codec.view t) topology)

/-- The lines of the manifest that `initialize` writes. -/
def initialManifestLines (host : Host M S P T) (cfg : TriConfig) (start : M) (lo hi : ℤ) (topology : BitVec 64) :
    List Bytes :=
  let t := host.snapshot start
  ascii "cdt-plusplus-metadata-v1" ::
  (payloadLines (payloadText host.codec t) ++ [ascii "artifact=initial-triangulation"] ++
   contractLines ++ buildLines host.build ++ randomLines cfg.seed ++ universeLines host cfg start lo hi ++
   [tells "parallel.max_threads" (decimal cfg.threads)] ++ fingerprintLines (host.codec.view t) topology)

end CDT.Spec
