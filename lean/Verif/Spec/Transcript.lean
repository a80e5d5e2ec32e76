import Verif.Model.Transcript
import Verif.Spec.Console
/-
What the programs print, stated from their options, their history and their files.
-/
namespace CDT.Spec
open CDT
variable {M S P T : Type}

/-- The announcement of a file. -/
def fileText (path : Path) : Bytes := sentence ["Writing to file ", "\n"] [path]

/-- The display of the parameters of `cdt`. -/
def cdtHeading (voice : Voice M S) (cfg : SimConfig) : Bytes :=
  let t := cfg.triangulation
  sentence ["Topology is spherical\n"] [] ++
  sentence ["Dimensionality: 2+1\n"] [] ++
  sentence ["Initial radius: ", "\n"] [voice.double t.initialRadius] ++
  sentence ["Foliation spacing: ", "\n"] [voice.double t.foliationSpacing] ++
  sentence ["Number of desired simplices: ", "\n"] [decimalInt t.simplices] ++
  sentence ["Number of desired timeslices: ", "\n"] [decimalInt t.timeslices] ++
  sentence ["Number of passes: ", "\n"] [decimalInt cfg.passes] ++
  sentence ["Checkpoint every ", " passes.\n"] [decimalInt cfg.checkpoint] ++
  sentence ["Effective random seed: ", "\n"] [decimal t.seed.toNat] ++
  sentence ["Maximum Delaunay threads: ", "\n"] [decimal t.threads] ++
  sentence ["=== Parameters ===\n"] [] ++
  sentence ["Alpha: ", "\n"] [voice.longDouble cfg.alpha] ++
  sentence ["K: ", "\n"] [voice.longDouble cfg.k] ++
  sentence ["Lambda: ", "\n"] [voice.longDouble cfg.lambda] ++
  sentence ["cdt started at ", "\n"] [voice.started]

/-- The messages of building the universe of this configuration from stream 0 of its seed. -/
def constructionText (host : Host M S P T) (voice : Voice M S) (t : TriConfig) : Bytes :=
  (voice.building t.simplices t.timeslices (Random.make host.pcg t.seed 0) t.initialRadius t.foliationSpacing).flatten

/-- What is displayed of a manifold: its description, its simplices by type, its slices. -/
def lookText (voice : Voice M S) (m : M) : Bytes :=
  voice.print m ++ (voice.details m).flatten ++ (voice.volumes m).flatten

/-- What `cdt` prints before its run. -/
def cdtPreface (host : Host M S P T) (voice : Voice M S) (cfg : SimConfig) (start : M) : Bytes :=
  cdtHeading voice cfg ++ constructionText host voice cfg.triangulation ++ lookText voice start

/-- The transitions of the first `n` passes of the run, pass by pass. -/
def runHistory (host : Host M S P T) (cfg : SimConfig) (start : M) (n : ℕ) : List (List (MoveType × MoveOutcome)) :=
  (List.range n).map (passHistory (engineOf host cfg) (origin host cfg start))

/-- All that `cdt` prints, when the artifact due is written to the file `name due`. -/
def cdtTranscript (host : Host M S P T) (voice : Voice M S) (cfg : SimConfig) (start : M)
    (name : ℤ × ArtifactKind → Path) : Bytes :=
  let result := stateAfter host cfg start cfg.passes
  cdtPreface host voice cfg start ++
  runText reportText (openingText "Metropolis-Hastings" cfg.triangulation.seed 1) cfg.checkpoint cfg.writeFiles
    (fun p => fileText (name (p, .checkpoint))) (runHistory host cfg start cfg.passes.toNat) ++
  (if (host.summary result).maxTime < cfg.triangulation.timeslices then
    sentence ["You wanted ", " timeslices, but only got ", ".\n"]
      [decimalInt cfg.triangulation.timeslices, decimalInt (host.summary result).maxTime]
   else []) ++
  sentence ["=== Run Results ===\n"] [] ++
  sentence ["Running time is ", " seconds.\n"] [voice.elapsed] ++
  lookText voice result ++
  (if cfg.writeFiles then fileText (name (cfg.passes, .finalTriangulation)) else [])

/-- What `cdt` has printed at most when its run ends early after `completed` passes. -/
def cdtBegun (host : Host M S P T) (voice : Voice M S) (cfg : SimConfig) (start : M)
    (name : ℤ × ArtifactKind → Path) (completed : ℕ) : Bytes :=
  cdtPreface host voice cfg start ++
  begunText reportText (openingText "Metropolis-Hastings" cfg.triangulation.seed 1) cfg.checkpoint cfg.writeFiles
    (fun p => fileText (name (p, .checkpoint))) cfg.passes.toNat (runHistory host cfg start completed)

/-- The display of the parameters of `initialize`. -/
def initializeHeading (voice : Voice M S) (t : TriConfig) (save : Bool) : Bytes :=
  sentence ["Topology is spherical\n"] [] ++
  sentence ["Number of dimensions = 3\n"] [] ++
  sentence ["Number of desired simplices = ", "\n"] [decimalInt t.simplices] ++
  sentence ["Number of desired timeslices = ", "\n"] [decimalInt t.timeslices] ++
  sentence ["Initial radius = ", "\n"] [voice.double t.initialRadius] ++
  sentence ["Foliation spacing = ", "\n"] [voice.double t.foliationSpacing] ++
  sentence ["Effective random seed: ", "\n"] [decimal t.seed.toNat] ++
  sentence ["Maximum Delaunay threads: ", "\n"] [decimal t.threads] ++
  if save then sentence ["Output will be saved.\n"] [] else []

/-- All that `initialize` prints, when the universe is written to the file `name`. -/
def initializeTranscript (host : Host M S P T) (voice : Voice M S) (t : TriConfig) (save : Bool) (start : M)
    (name : Path) : Bytes :=
  initializeHeading voice t save ++ constructionText host voice t ++
  voice.print start ++ (voice.volumes start).flatten ++
  sentence ["Final number of simplices: ", "\n"] [decimalInt (host.summary start).N3] ++
  if save then fileText name else []

end CDT.Spec
