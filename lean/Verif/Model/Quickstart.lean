import Verif.Model.SamplerProgram
import Verif.Model.AlwaysProgram
import Verif.Model.Transcript
/-
The program examples/cpp_api_quickstart.cpp with its files and what it prints on standard output and
standard error.

Not modelled: log records; how the two outputs are interleaved.
-/
namespace CDT

/-- The files, standard output and standard error. -/
structure QuickWorld where
  machine : Machine
  out : Console := {}
  err : Console := {}

/-- Why a part of the body of `main` does not go on: an exception, or a `return` statement. -/
inductive Stop
  | throws (e : Exc)
  | returns (status : ℤ)
  deriving DecidableEq

/-- A part of the body of `main`. -/
def Quick (α : Type) := QuickWorld → Except Stop α × QuickWorld

instance : Monad Quick where
  pure a := fun w => (.ok a, w)
  bind x f := fun w =>
    match x w with
    | (.error e, w') => (.error e, w')
    | (.ok a, w') => f a w'

/-- How the program ends: by returning from `main`, or by `std::terminate` because the handler of
`main` threw. -/
inductive QuickEnd
  | exits (status : ℤ)
  | aborts
  deriving DecidableEq

/-- What the program uses and is not modelled here, all arbitrary: the library, the two validity tests
(`Manifold::is_correct_with_diagnostics`, `tds().is_valid()` of a triangulation), the values of the
literals `0.6L`, `1.1L` and `0.1L`, what is printed while the universe is built, the texts of
exceptions and the name of the program. -/
structure QuickHost (M S P T : Type) where
  host : Host M S P T
  correct : M → Bool
  tdsValid : T → Bool
  alpha : ℚ
  k : ℚ
  lambda : ℚ
  building : (simplices timeslices : ℤ) → Random S → (radius spacing : LD) → List Bytes
  what : Exc → Bytes
  argv0 : Bytes

/-- `QUICKSTART_TRANSITIONS` (examples/cpp_api_quickstart.cpp:25). -/
def quickstartTransitions : ℕ := 10

/-- `yes_no` (examples/cpp_api_quickstart.cpp:27-29). -/
def yesNo (value : Bool) : Bytes := if value then ascii "yes" else ascii "no"

/-- `attempt_transition(current)` of an object (include/Metropolis.hpp:658-660); the object after an
exception is not used by this program. -/
def Sampler.sample {M S P T : Type} (host : Host M S P T) (s : Sampler S) (m : M) :
    Except Exc ((Fin 5 × MoveOutcome) × Sampler S × M) :=
  match sampleTransition (host.engine s.parameters) ⟨m, s.strategy.cmd, s.strategy.stats, s.strategy.gen⟩ with
  | (.error e, _) => .error e
  | (.ok r, v) =>
    .ok (r, { s with strategy := { s.strategy with cmd := v.cmd, stats := v.stats, gen := v.gen } }, v.current)

/-- examples/cpp_api_quickstart.cpp:107-109. -/
def proposalLine (index : ℕ) (move : Fin 5) (o : MoveOutcome) : Bytes :=
  format "proposal {}: move {}, accepted={}, successful={}\n"
    [decimal (index + 1),
     ascii (match MoveType.ofCode (move.val : ℤ) with | some mv => mv.format | none => "unknown"),
     yesNo o.accepted, yesNo o.successful]

section
variable {M S P T : Type} (faults errFaults : PrintFaults) (q : QuickHost M S P T) (out : Outside M S)

namespace Quick

/-- A computation that touches nothing. -/
def lift {α : Type} (x : Except Exc α) : Quick α := fun w => (x.mapError .throws, w)

/-- `fmt::print` on standard output. -/
def print (text : Bytes) : Quick Unit := fun w =>
  match say faults text w.out with
  | (.error e, c) => (.error (.throws e), { w with out := c })
  | (.ok _, c) => (.ok (), { w with out := c })

/-- Several of them. -/
def printAll : List Bytes → Quick Unit
  | [] => pure ()
  | t :: ts => do print faults t; printAll ts

/-- `fmt::print(stderr, text); return status;` -/
def giveUp {α : Type} (status : ℤ) (text : Bytes) : Quick α := fun w =>
  match say errFaults text w.err with
  | (.error e, c) => (.error (.throws e), { w with err := c })
  | (.ok _, c) => (.error (.returns status), { w with err := c })

/-- `if (wrong) { fmt::print(stderr, text); return 1; }` -/
def insist (fine : Bool) (text : Bytes) : Quick Unit :=
  if fine then pure () else giveUp errFaults 1 text

/-- `write_file(filename, triangulation, metadata)` (include/Utilities.hpp:1752-1778) with its
message. -/
def write (path : Path) (m : M) (md : Metadata) : Quick Unit := do
  print faults (writingLine path)
  fun w =>
    match writeTo q.host path m (some md) w.machine with
    | (.error e, w') => (.error (.throws e), { w with machine := w' })
    | (.ok _, w') => (.ok (), { w with machine := w' })

/-- `read_file` (include/Utilities.hpp:1935-1951) with its message. -/
def read (path : Path) : Quick T := do
  print faults (format "Reading from file {}\n" [path])
  fun w => lift (readFile q.host.codec q.host.text path w.machine.disk.fs) w

end Quick

open Quick

/-- The loop of examples/cpp_api_quickstart.cpp:98-110. -/
def proposals : ℕ → ℕ → Sampler S × M → Quick (Sampler S × M)
  | 0, _, x => pure x
  | n + 1, index, (s, m) => do
    let (r, x) ← lift (s.sample q.host m)
    insist errFaults (!(r.2.accepted && !r.2.successful)) (ascii "accepted transition lacked a valid candidate\n")
    print faults (proposalLine index r.1 r.2)
    proposals n (index + 1) x

/-- The two configurations (examples/cpp_api_quickstart.cpp:56-59). -/
def quickConfig : Except Exc SimConfig := do
  let t ← RuntimeConfig.makeTriangulation q.host.floats q.host.parallel true false 64 3 3 (.fin 1) (.fin 1) 92 1
  RuntimeConfig.makeSimulation t (.fin q.alpha) (.fin q.k) (.fin q.lambda) 1 1 false

/-- The provenance and the strategy object (examples/cpp_api_quickstart.cpp:75-95). -/
def quickSampler (root : Random S) (cfg : SimConfig) (stream : BitVec 64) (initial : M) : Except Exc (Sampler S) := do
  let md ← makeMetadata q.host initial cfg.triangulation.seed .initialTriangulation
  Sampler.make cfg.alpha cfg.k cfg.lambda cfg.passes cfg.checkpoint cfg.writeFiles
    (root.split q.host.pcg transitionsStream)
    (some { md with
      initializationStream := stream.toNat, desiredSimplices := cfg.triangulation.simplices,
      desiredTimeslices := cfg.triangulation.timeslices, configuredAttempts := some (quickstartTransitions : ℤ),
      maxThreads := some cfg.triangulation.threads })

/-- examples/cpp_api_quickstart.cpp:119-125. -/
def summaryConsistent (s : Sampler S) : Bool :=
  !(decide (s.strategy.stats.proposed.total ≠ (quickstartTransitions : ℤ)) ||
    decide (s.strategy.stats.accepted.total + s.strategy.stats.rejected.total ≠ (quickstartTransitions : ℤ)) ||
    decide (s.strategy.cmd.succeeded.total + s.strategy.cmd.failed.total ≠ (quickstartTransitions : ℤ)))

/-- `same_finite_counts` (examples/cpp_api_quickstart.cpp:31-43); the counts of a manifold, which are
not negative, are cast to `size_t`. -/
def sameFiniteCounts (restored : T) (expected : M) : Bool :=
  decide (((q.host.codec.view restored).nv : ℤ) = (q.host.summary expected).N0) &&
  decide ((q.host.codec.edges restored : ℤ) = (q.host.summary expected).N1) &&
  decide ((q.host.codec.facets restored : ℤ) = (q.host.summary expected).N2) &&
  decide (((q.host.codec.view restored).nc : ℤ) = (q.host.summary expected).N3)

/-- `fmt` of a `bool`. -/
def boolText (b : Bool) : Bytes := if b then ascii "true" else ascii "false"

/-- The message of examples/cpp_api_quickstart.cpp:140-147. -/
def roundTripLine (restored : T) (expected : M) : Bytes :=
  format ("persisted triangulation failed round-trip checks: tds_valid={}, " ++
      "counts=({},{},{},{}) expected=({},{},{},{})\n")
    [boolText (q.tdsValid restored), decimal (q.host.codec.view restored).nv, decimal (q.host.codec.edges restored),
     decimal (q.host.codec.facets restored), decimal (q.host.codec.view restored).nc,
     decimalInt (q.host.summary expected).N0, decimalInt (q.host.summary expected).N1,
     decimalInt (q.host.summary expected).N2, decimalInt (q.host.summary expected).N3]

/-- Up to the first validation (examples/cpp_api_quickstart.cpp:56-73): the configuration, the root
generator and the initial universe. -/
def quickStart : Quick (SimConfig × M) := do
  let cfg ← lift (quickConfig q)
  let t := cfg.triangulation
  let random := (Random.make q.host.pcg t.seed initializationStream).split q.host.pcg initializationStream
  printAll faults (q.building t.simplices t.timeslices random t.initialRadius t.foliationSpacing)
  let initial ← lift (out.construct t.simplices t.timeslices random t.initialRadius t.foliationSpacing)
  insist errFaults (q.correct initial) (ascii "initial triangulation failed validation\n")
  pure (cfg, initial)

/-- The transitions and the checks after them (examples/cpp_api_quickstart.cpp:75-127). -/
def quickEvolve (cfg : SimConfig) (initial : M) : Quick (Sampler S × M) := do
  let root : Random S := Random.make q.host.pcg cfg.triangulation.seed initializationStream
  let s ← lift (quickSampler q root cfg (root.split q.host.pcg initializationStream).stream initial)
  print faults (ascii "=== Ten explicit Metropolis proposals ===\n")
  let (s, evolved) ← proposals faults errFaults q quickstartTransitions 0 (s, initial)
  printAll faults (metroResultLines s.strategy.cmd s.strategy.stats)
  insist errFaults (!(!q.correct initial || !q.correct evolved))
    (ascii "Metropolis transitions failed manifold validation\n")
  insist errFaults (summaryConsistent s) (ascii "Metropolis summary counters are inconsistent\n")
  pure (s, evolved)

/-- From the file to the end (examples/cpp_api_quickstart.cpp:129-152). -/
def quickPersist (output : Path) (s : Sampler S) (evolved : M) : Quick ℤ := do
  let md ← lift (s.published q.host evolved .finalTriangulation 0)
  write faults q output evolved md
  let restored ← read faults q output
  insist errFaults (!(!q.tdsValid restored || !sameFiniteCounts q restored evolved)) (roundTripLine q restored evolved)
  print faults (format "wrote and verified {} with {} finite simplices\n"
    [output, decimalInt (q.host.summary evolved).N3])
  pure 0

/-- The body of `main` (examples/cpp_api_quickstart.cpp:46-153) for the arguments after the program's
name. -/
def quickBody (args : List Bytes) : Quick ℤ :=
  match args with
  | _ :: _ :: _ => giveUp errFaults 2 (format "usage: {} [output.off]\n" [q.argv0])
  | _ => do
    let output : Path := match args with
      | path :: _ => path
      | [] => ascii "cdt-quickstart.off"
    let (cfg, initial) ← quickStart faults errFaults q out
    let (s, evolved) ← quickEvolve faults errFaults q cfg initial
    quickPersist faults errFaults q output s evolved

/-- `main` (examples/cpp_api_quickstart.cpp:46-158): the handler catches every exception. -/
def quickMain (args : List Bytes) (disk : Disk) : QuickEnd × QuickWorld :=
  match quickBody faults errFaults q out args ⟨⟨disk, []⟩, {}, {}⟩ with
  | (.ok status, w) => (.exits status, w)
  | (.error (.returns status), w) => (.exits status, w)
  | (.error (.throws e), w) =>
    match say errFaults (format "quickstart failed: {}\n" [q.what e]) w.err with
    | (.error _, c) => (.aborts, { w with err := c })
    | (.ok _, c) => (.exits 1, { w with err := c })

end
end CDT
