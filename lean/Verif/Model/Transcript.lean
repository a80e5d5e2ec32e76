import Verif.Model.Program
import Verif.Model.Portrait
import Verif.Model.Assembled
/-
The programs src/cdt.cpp and src/initialize.cpp with what they print on standard output.

Not modelled: log records (spdlog), also those of the `catch` clauses.
-/
namespace CDT

/-- What is printed by code outside this model: texts of numbers, dates and help, the progress messages
of the construction of the universe (`Verif.Model.Assembled` has them for the modelled construction)
and the descriptions of a manifold.  All are arbitrary. -/
structure Voice (M S : Type) where
  usage : Bytes
  version : Bytes
  double : LD → Bytes
  longDouble : LD → Bytes
  started : Bytes
  elapsed : Bytes
  building : (simplices timeslices : ℤ) → Random S → (radius spacing : LD) → List Bytes
  print : M → Bytes
  details : M → List Bytes
  volumes : M → List Bytes

/-- `operator<<` for `Topology` (include/Utilities.hpp:81-90) through `topology_to_str`
(include/Utilities.hpp:2385-2391). -/
def topologyText : Topology → Bytes
  | .spherical => ascii "spherical"
  | .toroidal => ascii "toroidal"

section
variable {M S P T : Type} (voice : Voice M S) (faults : PrintFaults) (host : Host M S P T) (out : Outside M S)

/-- The progress message of `write_payload` (include/Utilities.hpp:1524). -/
def writingLine (path : Path) : Bytes := format "Writing to file {}\n" [path]

/-- `write_file(universe, metadata)` (include/Utilities.hpp:1911-1928) with its message. -/
def writeArtifactAloud (m : M) (md : Metadata) : Eff (Machine × Console) Unit := fun (w, c) =>
  match artifactPath host m md (out.now w.disk.clock) with
  | .error e => (.error e, (w, c))
  | .ok path =>
    match say faults (writingLine path) c with
    | (.error e, c1) => (.error e, (w, c1))
    | (.ok _, c1) =>
      match writePayload host.codec host.text host.build path (host.snapshot m) (some md) w.disk with
      | (.error e, d) => (.error e, ({ w with disk := d }, c1))
      | (.ok _, d) => (.ok (), (⟨d, w.log ++ [⟨path, d.fs path, d.fs (manifestName path)⟩]⟩, c1))

/-- The checkpoint callable of `operator()` (include/Metropolis.hpp:702-708) with its message. -/
def Sampler.checkpointAloud (base : Metadata) (m : M) (_ : CommandResults) (st : RunStats) (n : ℤ) :
    Eff ((Random S × Machine) × Console) Unit := fun ((g, w), c) =>
  match Sampler.metadata host base m .checkpoint n st with
  | .error e => (.error e, ((g, w), c))
  | .ok md =>
    match writeArtifactAloud faults host out m md (w, c) with
    | (.error e, (w', c')) => (.error e, ((g, w'), c'))
    | (.ok _, (w', c')) => (.ok (), ((g, w'), c'))

/-- `operator()` (include/Metropolis.hpp:677-714) with its output. -/
def Sampler.runAloud (s : Sampler S) (m : M) (w : Machine) (c : Console) :
    Except Exc M × Sampler S × Machine × Console :=
  let (r, strategy, w', c') :=
    s.strategy.runAloud faults (host.engine s.parameters)
      (Sampler.checkpointAloud faults host out s.reproducibility) (·.seed) (·.stream) m w c
  (r, { s with strategy }, w', c')

/-- The job parameters displayed by src/cdt.cpp:163-188. -/
def cdtParameterLines (cfg : SimConfig) : List Bytes :=
  let t := cfg.triangulation
  [format "Topology is {}\n" [topologyText t.topology],
   format "Dimensionality: {}+{}\n" [decimalInt (t.dimensions - 1), decimalInt 1],
   format "Initial radius: {}\n" [voice.double t.initialRadius],
   format "Foliation spacing: {}\n" [voice.double t.foliationSpacing],
   format "Number of desired simplices: {}\n" [decimalInt t.simplices],
   format "Number of desired timeslices: {}\n" [decimalInt t.timeslices],
   format "Number of passes: {}\n" [decimalInt cfg.passes],
   format "Checkpoint every {} passes.\n" [decimalInt cfg.checkpoint],
   format "Effective random seed: {}\n" [decimal t.seed.toNat],
   format "Maximum Delaunay threads: {}\n" [decimal t.threads],
   format "=== Parameters ===\n" [],
   format "Alpha: {}\n" [voice.longDouble cfg.alpha],
   format "K: {}\n" [voice.longDouble cfg.k],
   format "Lambda: {}\n" [voice.longDouble cfg.lambda],
   format "cdt started at {}\n" [voice.started]]

/-- `print(); print_details(); print_volume_per_timeslice();` (src/cdt.cpp:218-220, 238-240). -/
def Voice.look (m : M) : List Bytes := voice.print m :: voice.details m ++ voice.volumes m

/-- src/cdt.cpp:225-230. -/
def shortfallLines (maxTime wanted : ℤ) : List Bytes :=
  if maxTime < wanted then
    [format "You wanted {} timeslices, but only got {}.\n" [decimalInt wanted, decimalInt maxTime]]
  else []

/-- src/cdt.cpp:236-240. -/
def cdtResultLines (result : M) : List Bytes :=
  format "=== Run Results ===\n" [] :: format "Running time is {} seconds.\n" [voice.elapsed] :: voice.look result

/-- The main path of src/cdt.cpp:159-251 after the configuration was accepted, with its output.  The
construction is a pure function, so its messages may be said before it. -/
def cdtRunAloud (root : Random S) (cfg : SimConfig) : Eff (Machine × Console) Unit := fun (w, c) =>
  let t := cfg.triangulation
  let random := root.split host.pcg initializationStream
  match sayAll faults (cdtParameterLines voice cfg ++
      voice.building t.simplices t.timeslices random t.initialRadius t.foliationSpacing) c with
  | (.error e, c1) => (.error e, (w, c1))
  | (.ok _, c1) =>
    match out.construct t.simplices t.timeslices random t.initialRadius t.foliationSpacing with
    | .error e => (.error e, (w, c1))
    | .ok start =>
      match cdtSampler host root cfg start with
      | .error e => (.error e, (w, c1))
      | .ok sampler =>
        match sayAll faults (voice.look start) c1 with
        | (.error e, c2) => (.error e, (w, c2))
        | (.ok _, c2) =>
          match sampler.runAloud faults host out start w c2 with
          | (.error e, _, w', c3) => (.error e, (w', c3))
          | (.ok result, sampler', w', c3) =>
            match sayAll faults (shortfallLines (host.summary result).maxTime t.timeslices) c3 with
            | (.error e, c4) => (.error e, (w', c4))
            | (.ok _, c4) =>
              if !host.valid result then (.error .runtimeError, (w', c4))
              else
                match sayAll faults (cdtResultLines voice result) c4 with
                | (.error e, c5) => (.error e, (w', c5))
                | (.ok _, c5) =>
                  if cfg.writeFiles then
                    match Sampler.metadata host sampler'.reproducibility result .finalTriangulation
                        cfg.passes sampler'.strategy.stats with
                    | .error e => (.error e, (w', c5))
                    | .ok md => writeArtifactAloud faults host out result md (w', c5)
                  else (.ok (), (w', c5))

/-- The exit status of `main` for the outcome of its body: every exception, also `std::system_error`
from `fmt::print`, is caught and gives `EXIT_FAILURE` (src/cdt.cpp:253-280, src/initialize.cpp:158-174). -/
def exitStatus : Except Exc Unit → ℤ
  | .ok _ => 0
  | .error _ => 1

/-- `main` of src/cdt.cpp:72-280 with its output. -/
def cdtMainAloud (parsed : Option Options) (disk : Disk) : ℤ × Machine × Console :=
  match parsed with
  | none => (1, ⟨disk, []⟩, {})
  | some o =>
    if o.help then
      let (r, c) := say faults (format "{}\n" [voice.usage]) {}
      (exitStatus r, ⟨disk, []⟩, c)
    else if o.version then
      let (r, c) := say faults (format "CDT++ version {}\n" [voice.version]) {}
      (exitStatus r, ⟨disk, []⟩, c)
    else match cdtConfig host out o with
      | .error _ => (1, ⟨disk, []⟩, {})
      | .ok cfg =>
        let (r, w, c) := cdtRunAloud voice faults host out (rootRandom host out o) cfg (⟨disk, []⟩, {})
        (exitStatus r, w, c)

/-- The job parameters displayed by src/initialize.cpp:129-139; the seed is that of the root
generator. -/
def initializeParameterLines (seed : BitVec 64) (cfg : TriConfig) (save : Bool) : List Bytes :=
  [format "Topology is {}\n" [topologyText cfg.topology],
   format "Number of dimensions = {}\n" [decimalInt cfg.dimensions],
   format "Number of desired simplices = {}\n" [decimalInt cfg.simplices],
   format "Number of desired timeslices = {}\n" [decimalInt cfg.timeslices],
   format "Initial radius = {}\n" [voice.double cfg.initialRadius],
   format "Foliation spacing = {}\n" [voice.double cfg.foliationSpacing],
   format "Effective random seed: {}\n" [decimal seed.toNat],
   format "Maximum Delaunay threads: {}\n" [decimal cfg.threads]] ++
  if save then [format "Output will be saved.\n" []] else []

/-- src/initialize.cpp:144-146. -/
def initializeResultLines (start : M) : List Bytes :=
  voice.print start :: voice.volumes start ++
    [format "Final number of simplices: {}\n" [decimalInt (host.summary start).N3]]

/-- The main path of src/initialize.cpp:125-157 with its output. -/
def initializeRunAloud (root : Random S) (cfg : TriConfig) (save : Bool) : Eff (Machine × Console) Unit :=
  fun (w, c) =>
  let random := root.split host.pcg initializationStream
  match sayAll faults (initializeParameterLines voice root.seed cfg save ++
      voice.building cfg.simplices cfg.timeslices random cfg.initialRadius cfg.foliationSpacing) c with
  | (.error e, c1) => (.error e, (w, c1))
  | (.ok _, c1) =>
    match out.construct cfg.simplices cfg.timeslices random cfg.initialRadius cfg.foliationSpacing with
    | .error e => (.error e, (w, c1))
    | .ok start =>
      match sayAll faults (initializeResultLines voice host start) c1 with
      | (.error e, c2) => (.error e, (w, c2))
      | (.ok _, c2) =>
        if save then
          match makeMetadata host start cfg.seed .initialTriangulation with
          | .error e => (.error e, (w, c2))
          | .ok md =>
            writeArtifactAloud faults host out start { md with
              desiredSimplices := cfg.simplices, desiredTimeslices := cfg.timeslices,
              maxThreads := some cfg.threads } (w, c2)
        else (.ok (), (w, c2))

/-- `main` of src/initialize.cpp:55-174 with its output. -/
def initializeMainAloud (parsed : Option Options) (disk : Disk) : ℤ × Machine × Console :=
  match parsed with
  | none => (1, ⟨disk, []⟩, {})
  | some o =>
    if o.help then
      let (r, c) := say faults (format "{}\n" [voice.usage]) {}
      (exitStatus r, ⟨disk, []⟩, c)
    else if o.version then
      let (r, c) := say faults (format "CDT initializer version {}\n" [voice.version]) {}
      (exitStatus r, ⟨disk, []⟩, c)
    else match initializeConfig host out o with
      | .error _ => (1, ⟨disk, []⟩, {})
      | .ok cfg =>
        let (r, w, c) := initializeRunAloud voice faults host out (rootRandom host out o) cfg o.output (⟨disk, []⟩, {})
        (exitStatus r, w, c)

end

/-- The messages of `make_triangulation` (include/Foliated_triangulation.hpp:1339, 1381): the second
only if the points could be made and inserted. -/
def buildingLines {V G : Type} [LinearOrder V] (env : Env V G) (re : RepairEnv V) (ie : InsertEnv V) (F : Floats)
    (gen : ℕ → ℕ → V) (simplices timeslices : ℤ) (radius spacing : LD) : List Bytes :=
  format "\nGenerating universe ...\n" [] ::
    match makeTriangulation env re ie F gen simplices timeslices radius spacing with
    | .error _ => []
    | .ok D => [delaunayLine D.tri]

/-- The voice of the modelled manifolds and their construction. -/
def assembledVoice {V S G : Type} [LinearOrder V] (base : Voice (Mfld V) S) (env : Env V G) (re : RepairEnv V)
    (ie : InsertEnv V) (F : Floats) (gen : Random S → ℕ → ℕ → V) : Voice (Mfld V) S :=
  { base with
    building := fun simplices timeslices random radius spacing =>
      buildingLines env re ie F (gen random) simplices timeslices radius spacing
    print := fun m => manifoldLine m.geometry
    details := fun m => detailLines m.geometry
    volumes := fun m => volumeLines m.caches }

end CDT
