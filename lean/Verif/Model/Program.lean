/-
The programs src/cdt.cpp and src/initialize.cpp, and the provenance code between them and the
persistence layer (include/Metropolis.hpp, include/Utilities.hpp).

Not modelled: Boost's parsing of the argument strings, log output, timers, signals; console output is
in `Verif.Model.Transcript`.
-/
import Verif.Model.Action
import Verif.Model.Random
import Verif.Model.Storage
import Verif.Model.Filename

namespace CDT

/-- What the provenance code and `make_filename` read from a manifold (include/Manifold.hpp:200-312):
counts, time bounds and foliation parameters (finite values). -/
structure Summary where
  N0 : ℤ
  N1 : ℤ
  N2 : ℤ
  N3 : ℤ
  minTime : ℤ
  maxTime : ℤ
  radius : ℚ
  spacing : ℚ

/-- The compiled program, the parts of it that are modelled elsewhere or not at all: the generator
engine, floating-point formats, the build option for parallel triangulation, CGAL's stream operators,
text conversions, the manifold queries `delaunay_snapshot()`, the counts and `is_valid()`, and the
transition engine for given couplings. All are arbitrary. -/
structure Host (M S P T : Type) where
  pcg : Pcg S
  floats : Floats
  parallel : Bool
  codec : Codec T
  text : FloatText
  build : BuildInfo
  snapshot : M → T
  summary : M → Summary
  valid : M → Bool
  engine : PhysicalParameters → MetroEngine M (Random S) P

/-- What may differ between two executions of the same program: the operating system's entropy, the
wall clock (read when so many file operations have been made) and the outcome of building the
initial universe, which with several threads need not be a function of the seed. -/
structure Outside (M S : Type) where
  entropy : BitVec 64
  now : ℕ → Stamp
  construct : (simplices timeslices : ℤ) → Random S → (radius spacing : LD) → Except Exc M

/-- The command line after `po::parse_command_line` and `po::store` (src/cdt.cpp:89-120): presence of
flags and values of options; options without a default are optional. -/
structure Options where
  help : Bool := false
  version : Bool := false
  spherical : Bool := false
  toroidal : Bool := false
  simplices : Option ℤ := none
  timeslices : Option ℤ := none
  dimensions : ℤ := 3
  initialRadius : LD := .fin 1
  foliationSpacing : LD := .fin 1
  noOutput : Bool := false
  /-- `--output` of src/initialize.cpp:86 -/
  output : Bool := false
  seed : Option (BitVec 64) := none
  threads : ℤ := 1
  alpha : Option LD := none
  k : Option LD := none
  lambda : Option LD := none
  passes : ℤ := 100
  checkpoint : ℤ := 10

/-- A completed `write_file` call: the path, and the contents of the payload and manifest files at
that moment.  Kept only to talk about what a program has written. -/
structure Written where
  path : Path
  payload : Option Bytes
  manifest : Option Bytes

/-- The outside world of a program: the file system and the record of completed writes. -/
structure Machine where
  disk : Disk
  log : List Written := []

section
variable {M S P T : Type} (host : Host M S P T) (out : Outside M S)

/-- `update_reproducibility_state` (include/Utilities.hpp:1838-1853); `ManifoldType::topology` and
`ManifoldType::dimension` are SPHERICAL and 3 (include/Manifold.hpp:64-67). -/
def updateState (md : Metadata) (m : M) : Except Exc Metadata := do
  let s := host.summary m
  let placement := placementFingerprint (host.codec.view (host.snapshot m))
  let topology ← topologyFingerprint (host.codec.view (host.snapshot m))
  return { md with
    topology := .spherical, dimension := 3, actualVertices := s.N0, actualEdges := s.N1,
    actualFaces := s.N2, actualSimplices := s.N3, minimumTimeslice := s.minTime,
    maximumTimeslice := s.maxTime, initialRadius := .fin s.radius,
    foliationSpacing := .fin s.spacing, placementFingerprint := some placement.toNat,
    topologyFingerprint := some topology.toNat }

/-- `make_reproducibility_metadata` (include/Utilities.hpp:1810-1831); fields not named keep the
defaults of include/Utilities.hpp:110-144. -/
def makeMetadata (m : M) (seed : BitVec 64) (artifact : ArtifactKind) : Except Exc Metadata := do
  let s := host.summary m
  let placement := placementFingerprint (host.codec.view (host.snapshot m))
  let topology ← topologyFingerprint (host.codec.view (host.snapshot m))
  return {
    artifact, seed := seed.toNat, initializationStream := initializationStream.toNat,
    transitionStream := transitionsStream.toNat, topology := .spherical, dimension := 3,
    desiredSimplices := s.N3, desiredTimeslices := s.maxTime, actualVertices := s.N0,
    actualEdges := s.N1, actualFaces := s.N2, actualSimplices := s.N3,
    minimumTimeslice := s.minTime, maximumTimeslice := s.maxTime, initialRadius := .fin s.radius,
    foliationSpacing := .fin s.spacing, placementFingerprint := some placement.toNat,
    topologyFingerprint := some topology.toNat }

/-- `make_filename(manifold)` (include/Utilities.hpp:1679-1687). -/
def nameInfo (m : M) : NameInfo :=
  let s := host.summary m
  ⟨.spherical, 3, s.N3, s.maxTime, s.radius, s.spacing⟩

/-- The file name chosen by `write_file(universe, metadata)` (include/Utilities.hpp:1915-1927). -/
def artifactPath (m : M) (md : Metadata) (now : Stamp) : Except Exc Path :=
  if md.artifact = .checkpoint then
    match md.completedPasses with
    | none => .error .invalidArgument
    | some p => .ok (makeFilenamePass (nameInfo host m) md.seed p now)
  else .ok (makeFilenameSeed (nameInfo host m) md.seed now)

/-- `write_file(universe, metadata)` (include/Utilities.hpp:1911-1928). -/
def writeArtifact (m : M) (md : Metadata) : Eff Machine Unit := fun w =>
  match artifactPath host m md (out.now w.disk.clock) with
  | .error e => (.error e, w)
  | .ok path =>
    match writePayload host.codec host.text host.build path (host.snapshot m) (some md) w.disk with
    | (.error e, d) => (.error e, { w with disk := d })
    | (.ok _, d) => (.ok (), ⟨d, w.log ++ [⟨path, d.fs path, d.fs (manifestName path)⟩]⟩)

/-- The record without caller provenance (include/Metropolis.hpp:175-181): the defaults of
include/Utilities.hpp:110-144 with the run's own values. -/
def blankMetadata (r : Random S) (alpha k lambda : LD) (passes checkpoint : ℤ) : Metadata :=
  { artifact := .finalTriangulation, seed := r.seed.toNat,
    initializationStream := initializationStream.toNat, transitionStream := transitionsStream.toNat,
    topology := .spherical, dimension := 0, desiredSimplices := 0, desiredTimeslices := 0,
    actualVertices := 0, actualEdges := 0, actualFaces := 0, actualSimplices := 0,
    minimumTimeslice := 0, maximumTimeslice := 0, initialRadius := .fin 0,
    foliationSpacing := .fin 0, alpha := some alpha, k := some k, lambda := some lambda,
    configuredPasses := some passes, checkpointInterval := some checkpoint }

/-- A `Metropolis_3` object: the parts of `MoveStrategy<METROPOLIS>` of `Verif.Model.Metropolis`
with the couplings and the provenance record (include/Metropolis.hpp:80-103). -/
structure Sampler (S : Type) where
  parameters : PhysicalParameters
  strategy : MetroStrategy (Random S)
  reproducibility : Metadata

/-- The constructor (include/Metropolis.hpp:163-193): couplings are validated first, then the
cadence; seed, stream, couplings and cadence of the record are those of the object. -/
def Sampler.make (alpha k lambda : LD) (passes checkpoint : ℤ) (writeFiles : Bool)
    (random : Random S) (reproducibility : Option Metadata) : Except Exc (Sampler S) := do
  let p ← makePhysicalParameters alpha k lambda
  let c ← parseMoveRunCadence passes checkpoint
  let base := reproducibility.getD (blankMetadata random alpha k lambda passes checkpoint)
  return {
    parameters := p
    strategy := { cadence := c, writesFiles := writeFiles, gen := random }
    reproducibility := { base with
      seed := random.seed.toNat, transitionStream := random.stream.toNat, alpha := some p.alpha,
      k := some p.k, lambda := some p.lambda, configuredPasses := some c.passes,
      checkpointInterval := some c.checkpoint } }

/-- The private `make_reproducibility_metadata` (include/Metropolis.hpp:454-475). -/
def Sampler.metadata (base : Metadata) (m : M) (artifact : ArtifactKind) (completed : ℤ)
    (statistics : RunStats) : Except Exc Metadata := do
  let md ← updateState host { base with
    artifact, completedPasses := some completed, transitionTrace := some statistics.trace.toNat,
    transitionCount := some statistics.count } m
  return { md with
    desiredSimplices := if md.desiredSimplices = 0 then (host.summary m).N3 else md.desiredSimplices,
    desiredTimeslices :=
      if md.desiredTimeslices = 0 then (host.summary m).maxTime else md.desiredTimeslices }

/-- The output callables of `operator()` (include/Metropolis.hpp:697-708): the report prints, the
checkpoint writes an artifact. -/
def Sampler.output (base : Metadata) : MetroOutput M (Random S) Machine where
  report _ _ _ := fun w => (.ok (), w)
  checkpoint m _ st n := fun (g, w) =>
    match Sampler.metadata host base m .checkpoint n st with
    | .error e => (.error e, (g, w))
    | .ok md =>
      match writeArtifact host out m md w with
      | (.error e, w') => (.error e, (g, w'))
      | (.ok _, w') => (.ok (), (g, w'))

/-- `operator()` (include/Metropolis.hpp:677-714) with the real outputs. -/
def Sampler.run (s : Sampler S) (m : M) (w : Machine) : Except Exc M × Sampler S × Machine :=
  let (r, strategy, w') :=
    s.strategy.run (host.engine s.parameters) (Sampler.output host out s.reproducibility) m w
  (r, { s with strategy }, w')

/-- `root_random` (src/cdt.cpp:144-145, src/initialize.cpp:114-115): `Random{seed}` or, without
`--seed`, `Random{}`, which takes its seed from the operating system (include/Random.hpp:123-147). -/
def rootRandom (o : Options) : Random S := Random.make host.pcg (o.seed.getD out.entropy) 0

/-- The value of an option, or the exception thrown without it: `po::value(...)->required()`
(src/cdt.cpp:109-113), `!args.count(...)` (src/cdt.cpp:135-142, src/initialize.cpp:105-112). -/
def given {α : Type} (e : Exc) : Option α → Except Exc α
  | some x => .ok x
  | none => .error e

/-- The configuration of a run (src/cdt.cpp:134-152): missing required options throw
`po::required_option` (a `std::logic_error`) from `po::notify`, missing counts
`std::invalid_argument`. -/
def cdtConfig (o : Options) : Except Exc SimConfig := do
  let alpha ← given .logicError o.alpha
  let k ← given .logicError o.k
  let lambda ← given .logicError o.lambda
  let simplices ← given .invalidArgument o.simplices
  let timeslices ← given .invalidArgument o.timeslices
  let t ← RuntimeConfig.makeTriangulation host.floats host.parallel o.spherical o.toroidal simplices
    timeslices o.dimensions o.initialRadius o.foliationSpacing (rootRandom host out o).seed o.threads
  RuntimeConfig.makeSimulation t alpha k lambda o.passes o.checkpoint (!o.noOutput)

/-- src/cdt.cpp:199-215: the provenance record and the sampler, from the built universe. -/
def cdtSampler (root : Random S) (cfg : SimConfig) (start : M) : Except Exc (Sampler S) := do
  let md ← makeMetadata host start cfg.triangulation.seed .finalTriangulation
  Sampler.make cfg.alpha cfg.k cfg.lambda cfg.passes cfg.checkpoint cfg.writeFiles
    (root.split host.pcg transitionsStream)
    (some { md with
      desiredSimplices := cfg.triangulation.simplices,
      desiredTimeslices := cfg.triangulation.timeslices, alpha := some cfg.alpha, k := some cfg.k,
      lambda := some cfg.lambda, configuredPasses := some cfg.passes,
      checkpointInterval := some cfg.checkpoint, maxThreads := some cfg.triangulation.threads })

/-- The main path of src/cdt.cpp:159-251 after the configuration was accepted. -/
def cdtRun (root : Random S) (cfg : SimConfig) : Eff Machine Unit := fun w =>
  let t := cfg.triangulation
  match out.construct t.simplices t.timeslices (root.split host.pcg initializationStream)
      t.initialRadius t.foliationSpacing with
  | .error e => (.error e, w)
  | .ok start =>
    match cdtSampler host root cfg start with
    | .error e => (.error e, w)
    | .ok sampler =>
      match sampler.run host out start w with
      | (.error e, _, w') => (.error e, w')
      | (.ok result, sampler', w') =>
        if !host.valid result then (.error .runtimeError, w')
        else if cfg.writeFiles then
          match Sampler.metadata host sampler'.reproducibility result .finalTriangulation
              cfg.passes sampler'.strategy.stats with
          | .error e => (.error e, w')
          | .ok md => writeArtifact host out result md w'
        else (.ok (), w')

/-- `main` of src/cdt.cpp:72-280 on a parsed command line (`none` if `po::parse_command_line` or
`po::store` threw): the exit status and the world afterwards.  The five `catch` clauses all return
`EXIT_FAILURE`. -/
def cdtMain (parsed : Option Options) (disk : Disk) : ℤ × Machine :=
  match parsed with
  | none => (1, ⟨disk, []⟩)
  | some o =>
    if o.help then (0, ⟨disk, []⟩)
    else if o.version then (0, ⟨disk, []⟩)
    else match cdtConfig host out o with
      | .error _ => (1, ⟨disk, []⟩)
      | .ok cfg =>
        match cdtRun host out (rootRandom host out o) cfg ⟨disk, []⟩ with
        | (.error _, w) => (1, w)
        | (.ok _, w) => (0, w)

/-- The configuration of src/initialize.cpp:103-120. -/
def initializeConfig (o : Options) : Except Exc TriConfig := do
  let simplices ← given .invalidArgument o.simplices
  let timeslices ← given .invalidArgument o.timeslices
  RuntimeConfig.makeTriangulation host.floats host.parallel o.spherical o.toroidal simplices
    timeslices o.dimensions o.initialRadius o.foliationSpacing (rootRandom host out o).seed o.threads

/-- The main path of src/initialize.cpp:125-157 after the configuration was accepted. -/
def initializeRun (root : Random S) (cfg : TriConfig) (save : Bool) : Eff Machine Unit := fun w =>
  match out.construct cfg.simplices cfg.timeslices (root.split host.pcg initializationStream)
      cfg.initialRadius cfg.foliationSpacing with
  | .error e => (.error e, w)
  | .ok start =>
    if save then
      match makeMetadata host start cfg.seed .initialTriangulation with
      | .error e => (.error e, w)
      | .ok md =>
        writeArtifact host out start { md with
          desiredSimplices := cfg.simplices, desiredTimeslices := cfg.timeslices,
          maxThreads := some cfg.threads } w
    else (.ok (), w)

/-- `main` of src/initialize.cpp:55-174 on a parsed command line. -/
def initializeMain (parsed : Option Options) (disk : Disk) : ℤ × Machine :=
  match parsed with
  | none => (1, ⟨disk, []⟩)
  | some o =>
    if o.help then (0, ⟨disk, []⟩)
    else if o.version then (0, ⟨disk, []⟩)
    else match initializeConfig host out o with
      | .error _ => (1, ⟨disk, []⟩)
      | .ok cfg =>
        match initializeRun host out (rootRandom host out o) cfg o.output ⟨disk, []⟩ with
        | (.error _, w) => (1, w)
        | (.ok _, w) => (0, w)

end
end CDT
