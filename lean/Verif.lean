import Verif.Model.Tracker
import Verif.Model.Fnv
import Verif.Lemmas.Fnv
import Verif.Model.Effect
import Verif.Model.Command
import Verif.Model.Run
import Verif.Model.Metropolis
import Verif.Lemmas.Metropolis
import Verif.Lemmas.Run
import Verif.Lemmas.Fnv2
import Verif.Spec.Contract
import Verif.Props.CheckMove
import Verif.Lemmas.MetroRun
import Verif.Lemmas.Calls
import Verif.Fixture.Toy
import Verif.Props.Metropolis
import Verif.Lemmas.Command
import Verif.Props.Command
import Verif.Spec.Runs
import Verif.Lemmas.Schedule
import Verif.Props.Run
import Verif.Spec.Complex
import Verif.Spec.Cells
import Verif.Model.Foliation
import Verif.Lemmas.Cells
import Verif.Lemmas.Cavity
import Verif.Lemmas.Patterns
import Verif.Lemmas.Types
import Verif.Model.Tds
import Verif.Model.Moves
import Verif.Lemmas.Mirror
import Verif.Lemmas.Site23
import Verif.Lemmas.Site32
import Verif.Lemmas.Site26
import Verif.Lemmas.Site62
import Verif.Lemmas.Site44
import Verif.Lemmas.Exec44
import Verif.Spec.Moves
import Verif.Spec.Sound
import Verif.Model.Manifold
import Verif.Lemmas.Shape
import Verif.Lemmas.Manifold
import Verif.Lemmas.Search
import Verif.Lemmas.Congr
import Verif.Lemmas.MoveResult
import Verif.Lemmas.Canonical
import Verif.Lemmas.Effect
import Verif.Fixture.Complexes
import Verif.Props.Moves
import Verif.Props.Preserve
import Verif.Spec.Geometry
import Verif.Lemmas.Geometry
import Verif.Fixture.Geo
import Verif.Props.Slice
import Verif.Props.Simulation
import Verif.Props.Program
import Verif.Spec.Sites
import Verif.Lemmas.Sites
import Verif.Props.Sites
import Verif.Lemmas.Succeed
import Verif.Spec.Reverse
import Verif.Lemmas.Undo
import Verif.Props.Reverse
import Verif.Lemmas.SearchMore
import Verif.Props.Search
import Verif.Props.Classify
import Verif.Model.Repair
import Verif.Lemmas.Repair
import Verif.Fixture.Fan
import Verif.Props.Repair
import Verif.Props.Layers
import Verif.Model.Mpfr
import Verif.Model.Action
import Verif.Spec.Action
import Verif.Lemmas.Mpfr
import Verif.Fixture.Rounding
import Verif.Props.Action
import Verif.Props.Acceptance
import Verif.Props.Hastings
import Verif.Spec.Kernel
import Verif.Lemmas.Kernel
import Verif.Props.Kernel
import Verif.Props.Balance
import Verif.Model.Float
import Verif.Model.Population
import Verif.Model.RuntimeConfig
import Verif.Spec.Population
import Verif.Lemmas.Population
import Verif.Fixture.Floats
import Verif.Props.Population
import Verif.Props.Config
import Verif.Model.Random
import Verif.Props.Random
import Verif.Props.Trailer
import Verif.Props.Metadata
import Verif.Props.Fingerprint
import Verif.Props.Storage
import Verif.Props.WriteGuard
import Verif.Props.Filename
import Verif.Props.Ownership
import Verif.Props.Values
import Verif.Props.Atomic
import Verif.Props.Viewer
import Verif.Props.AlwaysProgram
import Verif.Props.Bistellar
import Verif.Props.Radius
import Verif.Props.Diagnostics
import Verif.Props.CausalVertices
import Verif.Props.Precision
import Verif.Props.AlphaOne
import Verif.Props.Whole
import Verif.Props.LockBox
import Verif.Props.Transition
import Verif.Props.Topology
import Verif.Props.TopologyRun
import Verif.Props.FourFour
import Verif.Props.AlwaysWhole
import Verif.Props.Pipeline
import Verif.Props.Identity
import Verif.Props.Sampler
import Verif.Props.Console
import Verif.Props.Portrait
import Verif.Props.Transcript
import Verif.Props.ViewerConsole
import Verif.Props.Representation
import Verif.Props.Stationary
import Verif.Props.Session
import Verif.Props.AnyLibrary
import Verif.Props.Workshop
import Verif.Props.Links
import Verif.Props.Convergence
import Verif.Props.OpenFamily
import Verif.Props.Quickstart
import Verif.Props.CommandLine
import Verif.Props.IsFixed
import Verif.Props.Repeat
import Verif.Props.Directory
import Verif.Props.Killed
import Verif.Props.Watch
import Verif.Props.PowerLoss
import Verif.Props.Restart
import Verif.Props.ManifestLines
import Verif.Props.Digest
import Verif.Props.ArtifactName
import Verif.Props.FingerprintWork
import Verif.Props.ArtifactTime
import Verif.Props.CountsFit
import Verif.Props.SummaryTrue
import Verif.Props.Listing
import Verif.Props.SliceIndex
import Verif.Props.SingleSite
