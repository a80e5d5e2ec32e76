import Verif.Model.Metadata
import Verif.Spec.Trailer
/-
Vocabulary for C53: valid provenance, and what an acceptable manifest is, without reference to the
reader.
-/
namespace CDT.Spec
open CDT

/-- 32-bit and 64-bit ranges. -/
def IsInt32 (i : ℤ) : Prop := -2 ^ 31 ≤ i ∧ i < 2 ^ 31
def IsU64 (n : ℕ) : Prop := n < 2 ^ 64

/-- Ranges enforced by the C++ types of the record and of the payload description. -/
structure MetadataTyped (m : Metadata) (p : PayloadIntegrity) : Prop where
  size : IsU64 p.size
  digest : IsU64 p.digest
  seed : IsU64 m.seed
  streams : IsU64 m.initializationStream ∧ IsU64 m.transitionStream
  ints : ∀ i ∈ [m.dimension, m.desiredSimplices, m.desiredTimeslices, m.actualVertices,
    m.actualEdges, m.actualFaces, m.actualSimplices, m.minimumTimeslice, m.maximumTimeslice],
    IsInt32 i
  optionalInts : ∀ o ∈ [m.configuredPasses, m.configuredAttempts, m.checkpointInterval,
    m.completedPasses], ∀ i ∈ o, IsInt32 i
  optionalNats : ∀ o ∈ [m.maxThreads, m.transitionTrace, m.transitionCount,
    m.placementFingerprint, m.topologyFingerprint], ∀ n ∈ o, IsU64 n

/-- Provenance a manifest can carry. -/
structure MetadataValid (m : Metadata) : Prop where
  dimension : 0 < m.dimension
  counts : 0 ≤ m.desiredSimplices ∧ 0 ≤ m.desiredTimeslices ∧ 0 ≤ m.actualVertices ∧
    0 ≤ m.actualEdges ∧ 0 ≤ m.actualFaces ∧ 0 ≤ m.actualSimplices
  times : m.minimumTimeslice ≤ m.maximumTimeslice
  radius : ∃ q, m.initialRadius = .fin q ∧ 0 ≤ q
  spacing : ∃ q, m.foliationSpacing = .fin q ∧ 0 < q
  action : (m.alpha = none ∧ m.k = none ∧ m.lambda = none) ∨
    ∃ a k l, m.alpha = some (.fin a) ∧ m.k = some (.fin k) ∧ m.lambda = some (.fin l) ∧ 1 / 2 < a
  run : (m.configuredPasses = none ∧ m.checkpointInterval = none) ∨
    ∃ p c, m.configuredPasses = some p ∧ m.checkpointInterval = some c ∧ 0 < p ∧ 0 < c
  attempts : ∀ n ∈ m.configuredAttempts, 0 < n
  checkpoint : m.artifact = .checkpoint → m.completedPasses ≠ none
  completed : ∀ n ∈ m.completedPasses, 0 ≤ n
  threads : ∀ n ∈ m.maxThreads, 0 < n
  trace : m.transitionTrace = none ↔ m.transitionCount = none
  fingerprints : m.placementFingerprint ≠ none ∧ m.topologyFingerprint ≠ none

/-- What reading the manifest returns: the values the record had. -/
def recordedValues (m : Metadata) (p : PayloadIntegrity) : ParsedMetadata :=
  { payload := p, artifact := m.artifact, seed := m.seed,
    initializationStream := m.initializationStream, transitionStream := m.transitionStream,
    topology := m.topology, dimension := m.dimension, actualVertices := m.actualVertices,
    actualEdges := m.actualEdges, actualFaces := m.actualFaces,
    actualSimplices := m.actualSimplices, minimumTimeslice := m.minimumTimeslice,
    maximumTimeslice := m.maximumTimeslice, maxThreads := m.maxThreads,
    placementFingerprint := m.placementFingerprint.getD 0,
    topologyFingerprint := m.topologyFingerprint.getD 0 }

/-- One-line, non-empty text. -/
def LineText (t : Bytes) : Prop := t ≠ [] ∧ newline ∉ t

/-- The build strings can be written on a line. -/
def BuildLegible (b : BuildInfo) : Prop :=
  ∀ t ∈ [b.version, b.compilerId, b.compilerVersion, b.configuration, b.system, b.processor,
    b.standardLibrary, b.cgalVersion], LineText t

/-- Assumptions on the floating-point text conversions: the text of a value the type can hold is
one line; finite values read back exactly; the text of a NaN or infinity is not read as a finite
value. -/
structure FloatTextLawful (ft : FloatText) (isDouble isLong : LD → Prop) : Prop where
  lineDouble : ∀ x, isDouble x → LineText (ft.showDouble x)
  lineLong : ∀ x, isLong x → LineText (ft.showLong x)
  double : ∀ q, isDouble (.fin q) → ft.readDouble (ft.showDouble (.fin q)) = some (.fin q)
  long : ∀ q, isLong (.fin q) → ft.readLong (ft.showLong (.fin q)) = some (.fin q)
  doubleSpecial : ∀ x, isDouble x → x.isFinite = false →
    ∀ y ∈ ft.readDouble (ft.showDouble x), y.isFinite = false
  longSpecial : ∀ x, isLong x → x.isFinite = false →
    ∀ y ∈ ft.readLong (ft.showLong x), y.isFinite = false

/-- The floating values of the record are of their types. -/
def MetadataFloats (isDouble isLong : LD → Prop) (m : Metadata) : Prop :=
  isDouble m.initialRadius ∧ isDouble m.foliationSpacing ∧
    (∀ x ∈ m.alpha, isLong x) ∧ (∀ x ∈ m.k, isLong x) ∧ ∀ x ∈ m.lambda, isLong x

/-- The text consists of the header line and one `name=value` line per field; names are non-empty,
distinct and contain no `=`; values are non-empty. -/
def ManifestText (text : Bytes) (fields : List (Bytes × Bytes)) : Prop :=
  BeginsWithLines text (metadataHeader :: fields.map fun f => f.1 ++ equalsSign :: f.2) [] ∧
    (fields.map Prod.fst).Nodup ∧ ∀ f ∈ fields, f.1 ≠ [] ∧ equalsSign ∉ f.1 ∧ f.2 ≠ []

/-- The names every manifest must carry. -/
def mandatoryFields : List String :=
  ["payload.size", "payload.fnv1a64", "artifact", "resume_supported",
   "fresh_topology_replay_supported", "transition_replay_requires_identical_start",
   "cdt.version", "build.compiler_id", "build.compiler_version", "build.configuration",
   "build.system", "build.processor", "build.cxx_standard", "build.standard_library",
   "dependency.cgal_version", "random.engine", "random.seed", "random.initialization_stream",
   "random.transition_stream", "topology", "dimension", "desired.simplices",
   "desired.timeslices", "actual.vertices", "actual.edges", "actual.faces", "actual.simplices",
   "actual.minimum_timeslice", "actual.maximum_timeslice", "initial_radius",
   "foliation_spacing", "placement.fnv1a64", "topology.fnv1a64"]

/-- The field is present and spells the integer. -/
def IntIs (field : String → Option Bytes) (n : String) (i : ℤ) : Prop :=
  ∃ v, field n = some v ∧ IntText v i
/-- The field is present and spells the natural number. -/
def NatIs (field : String → Option Bytes) (n : String) (i : ℕ) : Prop :=
  ∃ v, field n = some v ∧ NatText v i
/-- The field is present and is a hexadecimal 64-bit number. -/
def HexIs (field : String → Option Bytes) (n : String) (i : ℕ) : Prop :=
  ∃ v, field n = some v ∧ parseUnsigned 16 v = some i
/-- The field is present and reads as the finite floating value. -/
def FloatIs (read : Bytes → Option LD) (field : String → Option Bytes) (n : String) (q : ℚ) :
    Prop := ∃ v, field n = some v ∧ read v = some (.fin q)

/-- Fields (by name) that make an acceptable manifest with the given values. -/
structure ManifestAccepts (ft : FloatText) (field : String → Option Bytes) (p : ParsedMetadata) :
    Prop where
  mandatory : ∀ n ∈ mandatoryFields, field n ≠ none
  contract : field "resume_supported" = some (ascii "false") ∧
    field "fresh_topology_replay_supported" = some (ascii "false") ∧
    field "transition_replay_requires_identical_start" = some (ascii "true") ∧
    field "random.engine" = some (ascii "pcg64") ∧
    field "build.cxx_standard" = some (ascii "23")
  artifact : field "artifact" = some (artifactName p.artifact)
  topology : field "topology" = some (topologyName p.topology)
  dimension : IntIs field "dimension" p.dimension ∧ 0 < p.dimension
  desired : (∃ i, IntIs field "desired.simplices" i ∧ 0 ≤ i) ∧
    ∃ i, IntIs field "desired.timeslices" i ∧ 0 ≤ i
  counts : (IntIs field "actual.vertices" p.actualVertices ∧ 0 ≤ p.actualVertices) ∧
    (IntIs field "actual.edges" p.actualEdges ∧ 0 ≤ p.actualEdges) ∧
    (IntIs field "actual.faces" p.actualFaces ∧ 0 ≤ p.actualFaces) ∧
    (IntIs field "actual.simplices" p.actualSimplices ∧ 0 ≤ p.actualSimplices)
  times : IntIs field "actual.minimum_timeslice" p.minimumTimeslice ∧
    IntIs field "actual.maximum_timeslice" p.maximumTimeslice ∧
    p.minimumTimeslice ≤ p.maximumTimeslice
  foliation : (∃ q, FloatIs ft.readDouble field "initial_radius" q ∧ 0 ≤ q) ∧
    ∃ q, FloatIs ft.readDouble field "foliation_spacing" q ∧ 0 < q
  action : (field "alpha" = none ∧ field "k" = none ∧ field "lambda" = none) ∨
    ((∃ q, FloatIs ft.readLong field "alpha" q ∧ 1 / 2 < q) ∧
      (∃ q, FloatIs ft.readLong field "k" q) ∧ ∃ q, FloatIs ft.readLong field "lambda" q)
  run : (field "configured_passes" = none ∧ field "checkpoint_interval" = none) ∨
    ((∃ i, IntIs field "configured_passes" i ∧ 0 < i) ∧
      ∃ i, IntIs field "checkpoint_interval" i ∧ 0 < i)
  attempts : field "configured_attempts" = none ∨ ∃ i, IntIs field "configured_attempts" i ∧ 0 < i
  checkpoint : p.artifact = .checkpoint → field "completed_passes" ≠ none
  completed : field "completed_passes" = none ∨ ∃ i, IntIs field "completed_passes" i ∧ 0 ≤ i
  threads : (field "parallel.max_threads" = none ∧ p.maxThreads = none) ∨
    ∃ n, NatIs field "parallel.max_threads" n ∧ p.maxThreads = some n ∧ 0 < n
  trace : (field "transition_trace.fnv1a64" = none ∧ field "transition_trace.count" = none) ∨
    ((∃ n, HexIs field "transition_trace.fnv1a64" n) ∧ ∃ n, NatIs field "transition_trace.count" n)
  payload : NatIs field "payload.size" p.payload.size ∧
    HexIs field "payload.fnv1a64" p.payload.digest
  random : NatIs field "random.seed" p.seed ∧
    NatIs field "random.initialization_stream" p.initializationStream ∧
    NatIs field "random.transition_stream" p.transitionStream
  fingerprints : HexIs field "placement.fnv1a64" p.placementFingerprint ∧
    HexIs field "topology.fnv1a64" p.topologyFingerprint

end CDT.Spec
