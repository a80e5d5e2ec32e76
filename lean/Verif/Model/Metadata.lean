import Verif.Model.Trailer
import Verif.Model.RuntimeConfig
/-
The provenance manifest written next to a persisted triangulation (include/Utilities.hpp).
-/
namespace CDT

/-- `ArtifactKind` (include/Utilities.hpp:96-101). -/
inductive ArtifactKind
  | initialTriangulation | checkpoint | finalTriangulation
  deriving DecidableEq, Repr

/-- `Reproducibility_metadata` (include/Utilities.hpp:110-144).  Integers are `int32_t`, the
fingerprints, seeds and streams `uint64_t` (ranges are a separate predicate), radii `double`,
couplings `long double`. -/
structure Metadata where
  artifact : ArtifactKind
  seed : ℕ
  initializationStream : ℕ
  transitionStream : ℕ
  topology : Topology
  dimension : ℤ
  desiredSimplices : ℤ
  desiredTimeslices : ℤ
  actualVertices : ℤ
  actualEdges : ℤ
  actualFaces : ℤ
  actualSimplices : ℤ
  minimumTimeslice : ℤ
  maximumTimeslice : ℤ
  initialRadius : LD
  foliationSpacing : LD
  alpha : Option LD := none
  k : Option LD := none
  lambda : Option LD := none
  configuredPasses : Option ℤ := none
  configuredAttempts : Option ℤ := none
  checkpointInterval : Option ℤ := none
  completedPasses : Option ℤ := none
  maxThreads : Option ℕ := none
  transitionTrace : Option ℕ := none
  transitionCount : Option ℕ := none
  placementFingerprint : Option ℕ := none
  topologyFingerprint : Option ℕ := none
  deriving DecidableEq

/-- `Payload_integrity` (include/Utilities.hpp:159-163). -/
structure PayloadIntegrity where
  size : ℕ
  digest : ℕ
  deriving DecidableEq, Repr

/-- Text conversions of floating values: `fmt::format("{}", x)` for `double` and `long double`, and
`std::istream >> x` in the classic locale consuming the whole text up to trailing white space
(include/Utilities.hpp:719-742).  Not modelled: any functions may be supplied. -/
structure FloatText where
  showDouble : LD → Bytes
  showLong : LD → Bytes
  readDouble : Bytes → Option LD
  readLong : Bytes → Option LD

/-- Build description compiled into the program (include/Utilities.hpp:612-636, Version.hpp): the
strings the manifest quotes. -/
structure BuildInfo where
  version : Bytes
  compilerId : Bytes
  compilerVersion : Bytes
  configuration : Bytes
  system : Bytes
  processor : Bytes
  standardLibrary : Bytes
  cgalVersion : Bytes

/-- `artifact_name` (include/Utilities.hpp:165-176). -/
def artifactName : ArtifactKind → Bytes
  | .initialTriangulation => ascii "initial-triangulation"
  | .checkpoint => ascii "checkpoint"
  | .finalTriangulation => ascii "final-triangulation"

/-- Topology as the manifest spells it (include/Utilities.hpp:638). -/
def topologyName : Topology → Bytes
  | .spherical => ascii "spherical"
  | .toroidal => ascii "toroidal"

/-- First line of a manifest (include/Utilities.hpp:595, 915). -/
def metadataHeader : Bytes := ascii "cdt-plusplus-metadata-v1"

/-- The fields `metadata_text` writes, in order; `none` marks an optional field that is absent
(include/Utilities.hpp:594-668). -/
def metadataFields (ft : FloatText) (build : BuildInfo) (m : Metadata) (p : PayloadIntegrity) :
    List (Bytes × Option Bytes) :=
  [(ascii "payload.size", some (decimal p.size)),
   (ascii "payload.fnv1a64", some (hex16 p.digest)),
   (ascii "artifact", some (artifactName m.artifact)),
   (ascii "resume_supported", some (ascii "false")),
   (ascii "fresh_topology_replay_supported", some (ascii "false")),
   (ascii "transition_replay_requires_identical_start", some (ascii "true")),
   (ascii "cdt.version", some build.version),
   (ascii "build.compiler_id", some build.compilerId),
   (ascii "build.compiler_version", some build.compilerVersion),
   (ascii "build.configuration", some build.configuration),
   (ascii "build.system", some build.system),
   (ascii "build.processor", some build.processor),
   (ascii "build.cxx_standard", some (ascii "23")),
   (ascii "build.standard_library", some build.standardLibrary),
   (ascii "dependency.cgal_version", some build.cgalVersion),
   (ascii "random.engine", some (ascii "pcg64")),
   (ascii "random.seed", some (decimal m.seed)),
   (ascii "random.initialization_stream", some (decimal m.initializationStream)),
   (ascii "random.transition_stream", some (decimal m.transitionStream)),
   (ascii "topology", some (topologyName m.topology)),
   (ascii "dimension", some (decimalInt m.dimension)),
   (ascii "desired.simplices", some (decimalInt m.desiredSimplices)),
   (ascii "desired.timeslices", some (decimalInt m.desiredTimeslices)),
   (ascii "actual.vertices", some (decimalInt m.actualVertices)),
   (ascii "actual.edges", some (decimalInt m.actualEdges)),
   (ascii "actual.faces", some (decimalInt m.actualFaces)),
   (ascii "actual.simplices", some (decimalInt m.actualSimplices)),
   (ascii "actual.minimum_timeslice", some (decimalInt m.minimumTimeslice)),
   (ascii "actual.maximum_timeslice", some (decimalInt m.maximumTimeslice)),
   (ascii "initial_radius", some (ft.showDouble m.initialRadius)),
   (ascii "foliation_spacing", some (ft.showDouble m.foliationSpacing)),
   (ascii "alpha", m.alpha.map ft.showLong),
   (ascii "k", m.k.map ft.showLong),
   (ascii "lambda", m.lambda.map ft.showLong),
   (ascii "configured_passes", m.configuredPasses.map decimalInt),
   (ascii "configured_attempts", m.configuredAttempts.map decimalInt),
   (ascii "checkpoint_interval", m.checkpointInterval.map decimalInt),
   (ascii "completed_passes", m.completedPasses.map decimalInt),
   (ascii "parallel.max_threads", m.maxThreads.map decimal),
   (ascii "transition_trace.fnv1a64", m.transitionTrace.map hex16),
   (ascii "transition_trace.count", m.transitionCount.map decimal),
   (ascii "placement.fnv1a64", m.placementFingerprint.map hex16),
   (ascii "topology.fnv1a64", m.topologyFingerprint.map hex16)]

/-- The present fields. -/
def presentFields (fields : List (Bytes × Option Bytes)) : List (Bytes × Bytes) :=
  fields.filterMap fun f => f.2.map fun v => (f.1, v)

/-- One `name=value` line per field (include/Utilities.hpp:594-668). -/
def fieldLines : List (Bytes × Bytes) → Bytes
  | [] => []
  | (name, value) :: fields => name ++ equalsSign :: value ++ newline :: fieldLines fields

/-- `metadata_text` (include/Utilities.hpp:589-669). -/
def metadataText (ft : FloatText) (build : BuildInfo) (m : Metadata) (p : PayloadIntegrity) :
    Bytes :=
  metadataHeader ++ newline :: fieldLines (presentFields (metadataFields ft build m p))

/-- `Parsed_persistence_metadata` (include/Utilities.hpp:885-903). -/
structure ParsedMetadata where
  payload : PayloadIntegrity
  artifact : ArtifactKind
  seed : ℕ
  initializationStream : ℕ
  transitionStream : ℕ
  topology : Topology
  dimension : ℤ
  actualVertices : ℤ
  actualEdges : ℤ
  actualFaces : ℤ
  actualSimplices : ℤ
  minimumTimeslice : ℤ
  maximumTimeslice : ℤ
  maxThreads : Option ℕ
  placementFingerprint : ℕ
  topologyFingerprint : ℕ
  deriving DecidableEq

/-- The field loop of `read_persistence_metadata` (include/Utilities.hpp:922-949): `std::map`
as an association list in insertion order.  `fuel` bounds the number of lines; every line consumes
at least one byte, so the input length suffices. -/
def readFields : ℕ → List (Bytes × Bytes) → Bytes → Except Exc (List (Bytes × Bytes))
  | 0, values, _ => .ok values
  | fuel + 1, values, input =>
    match getline input with
    | none => .ok values
    | some (line, rest) => do
      let (name, value) ← orFilesystemError (splitFirst equalsSign line)
      require (!(name.isEmpty || value.isEmpty))
      require (!(values.lookup name).isSome)
      readFields fuel (values ++ [(name, value)]) rest

/-- `values.at(name)`. -/
def fieldAt (values : List (Bytes × Bytes)) (name : String) : Except Exc Bytes :=
  match values.lookup (ascii name) with
  | some v => .ok v
  | none => .error .outOfRange

/-- `values.contains(name)`. -/
def hasField (values : List (Bytes × Bytes)) (name : String) : Bool :=
  (values.lookup (ascii name)).isSome

/-- `values.at(name) == text`. -/
def fieldIs (values : List (Bytes × Bytes)) (name text : String) : Except Exc PUnit := do
  let v ← fieldAt values name
  require (decide (v = ascii text))

/-- `parse_metadata_integer(values.at(name))` (include/Utilities.hpp:703-717). -/
def intField (values : List (Bytes × Bytes)) (name : String) : Except Exc ℤ := do
  let v ← fieldAt values name
  orFilesystemError (parseInt v)

/-- `parse_unsigned(values.at(name), base)`. -/
def natField (base : ℕ) (values : List (Bytes × Bytes)) (name : String) : Except Exc ℕ := do
  let v ← fieldAt values name
  orFilesystemError (parseUnsigned base v)

/-- `parse_metadata_floating(values.at(name))` (include/Utilities.hpp:719-742): extraction of the
whole text, then `std::isfinite`. -/
def floatField (read : Bytes → Option LD) (values : List (Bytes × Bytes)) (name : String) :
    Except Exc LD := do
  let v ← fieldAt values name
  let x ← orFilesystemError (read v)
  require x.isFinite
  return x

/-- The required field names (include/Utilities.hpp:951-983). -/
def requiredFields : List String :=
  ["payload.size", "payload.fnv1a64", "artifact", "resume_supported",
   "fresh_topology_replay_supported", "transition_replay_requires_identical_start",
   "cdt.version", "build.compiler_id", "build.compiler_version", "build.configuration",
   "build.system", "build.processor", "build.cxx_standard", "build.standard_library",
   "dependency.cgal_version", "random.engine", "random.seed", "random.initialization_stream",
   "random.transition_stream", "topology", "dimension", "desired.simplices",
   "desired.timeslices", "actual.vertices", "actual.edges", "actual.faces", "actual.simplices",
   "actual.minimum_timeslice", "actual.maximum_timeslice", "initial_radius",
   "foliation_spacing", "placement.fnv1a64", "topology.fnv1a64"]

/-- Artifact names accepted by the reader (include/Utilities.hpp:1013-1031). -/
def parseArtifact (v : Bytes) : Option ArtifactKind :=
  if v = ascii "initial-triangulation" then some .initialTriangulation
  else if v = ascii "checkpoint" then some .checkpoint
  else if v = ascii "final-triangulation" then some .finalTriangulation
  else none

/-- Topology names accepted by the reader (include/Utilities.hpp:1033-1047). -/
def parseTopology (v : Bytes) : Option Topology :=
  if v = ascii "spherical" then some .spherical
  else if v = ascii "toroidal" then some .toroidal
  else none

/-- Action parameters: all three or none; finite; `alpha > 1/2`
(include/Utilities.hpp:1083-1107). -/
def checkAction (ft : FloatText) (values : List (Bytes × Bytes)) : Except Exc PUnit := do
  let count := (hasField values "alpha").toNat + (hasField values "k").toNat +
    (hasField values "lambda").toNat
  require (count == 0 || count == 3)
  if count == 3 then do
    let alpha ← floatField ft.readLong values "alpha"
    let _ ← floatField ft.readLong values "k"
    let _ ← floatField ft.readLong values "lambda"
    require (!alpha.le (.fin (1 / 2)))
  else pure .unit

/-- Run configuration: both fields or none, both positive (include/Utilities.hpp:1109-1125).  The
code skips the second conversion when the first value is not positive; the outcome is a
`filesystem_error` either way. -/
def checkRun (values : List (Bytes × Bytes)) : Except Exc PUnit := do
  let count := (hasField values "configured_passes").toNat +
    (hasField values "checkpoint_interval").toNat
  require (count == 0 || count == 2)
  if count == 2 then do
    let passes ← intField values "configured_passes"
    let interval ← intField values "checkpoint_interval"
    require (decide (0 < passes) && decide (0 < interval))
  else pure .unit

/-- Optional integer field with a lower bound (include/Utilities.hpp:1126-1147). -/
def checkBounded (values : List (Bytes × Bytes)) (name : String) (bound : ℤ) :
    Except Exc PUnit :=
  if hasField values name then do
    let v ← intField values name
    require (decide (bound ≤ v))
  else pure .unit

/-- `parallel.max_threads`: optional, not zero (include/Utilities.hpp:1148-1159). -/
def readThreads (values : List (Bytes × Bytes)) : Except Exc (Option ℕ) :=
  match values.lookup (ascii "parallel.max_threads") with
  | none => .ok none
  | some v => do
    let n ← orFilesystemError (parseUnsigned 10 v)
    require (decide (n ≠ 0))
    return some n

/-- Transition trace: both fields or none (include/Utilities.hpp:1161-1176). -/
def checkTrace (values : List (Bytes × Bytes)) : Except Exc PUnit := do
  let count := (hasField values "transition_trace.fnv1a64").toNat +
    (hasField values "transition_trace.count").toNat
  require (count == 0 || count == 2)
  if count == 2 then do
    let _ ← natField 16 values "transition_trace.fnv1a64"
    let _ ← natField 10 values "transition_trace.count"
    pure .unit
  else pure .unit

/-- Everything `read_persistence_metadata` does after collecting the fields
(include/Utilities.hpp:951-1204). -/
def interpretFields (ft : FloatText) (values : List (Bytes × Bytes)) :
    Except Exc ParsedMetadata := do
  require (requiredFields.all (hasField values))
  fieldIs values "resume_supported" "false"
  fieldIs values "fresh_topology_replay_supported" "false"
  fieldIs values "transition_replay_requires_identical_start" "true"
  fieldIs values "random.engine" "pcg64"
  fieldIs values "build.cxx_standard" "23"
  let artifact ← orFilesystemError (parseArtifact (← fieldAt values "artifact"))
  let topology ← orFilesystemError (parseTopology (← fieldAt values "topology"))
  let dimension ← intField values "dimension"
  let desiredSimplices ← intField values "desired.simplices"
  let desiredTimeslices ← intField values "desired.timeslices"
  let actualVertices ← intField values "actual.vertices"
  let actualEdges ← intField values "actual.edges"
  let actualFaces ← intField values "actual.faces"
  let actualSimplices ← intField values "actual.simplices"
  let minimumTimeslice ← intField values "actual.minimum_timeslice"
  let maximumTimeslice ← intField values "actual.maximum_timeslice"
  require (!(decide (dimension ≤ 0) || decide (desiredSimplices < 0) ||
    decide (desiredTimeslices < 0) || decide (actualVertices < 0) || decide (actualEdges < 0) ||
    decide (actualFaces < 0) || decide (actualSimplices < 0) ||
    decide (minimumTimeslice > maximumTimeslice)))
  let initialRadius ← floatField ft.readDouble values "initial_radius"
  let foliationSpacing ← floatField ft.readDouble values "foliation_spacing"
  require (!(initialRadius.lt (.fin 0) || foliationSpacing.le (.fin 0)))
  checkAction ft values
  checkRun values
  checkBounded values "configured_attempts" 1
  require (!(decide (artifact = .checkpoint) && !hasField values "completed_passes"))
  checkBounded values "completed_passes" 0
  let maxThreads ← readThreads values
  checkTrace values
  let size ← natField 10 values "payload.size"
  let digest ← natField 16 values "payload.fnv1a64"
  let seed ← natField 10 values "random.seed"
  let initializationStream ← natField 10 values "random.initialization_stream"
  let transitionStream ← natField 10 values "random.transition_stream"
  let placement ← natField 16 values "placement.fnv1a64"
  let topologyFp ← natField 16 values "topology.fnv1a64"
  return { payload := ⟨size, digest⟩, artifact, seed, initializationStream, transitionStream,
           topology, dimension, actualVertices, actualEdges, actualFaces, actualSimplices,
           minimumTimeslice, maximumTimeslice, maxThreads, placementFingerprint := placement,
           topologyFingerprint := topologyFp }

/-- `read_persistence_metadata` on the contents of an opened file
(include/Utilities.hpp:905-1204). -/
def readMetadata (ft : FloatText) (input : Bytes) : Except Exc ParsedMetadata := do
  let (line, rest) ← orFilesystemError (getline input)
  require (decide (line = metadataHeader))
  let values ← readFields rest.length [] rest
  interpretFields ft values

end CDT
