import Verif.Model.Program
import Verif.Model.CommandLine
import Mathlib.Logic.Function.Basic
/-
Several processes in one directory.  `cdt` and `initialize` again, now as programs whose accesses to the
file system are separate steps, so that the steps of several processes can be interleaved in any way.
`Proc.run` runs such a program with nobody else about; `Verif.Lemmas.Processes` shows that this gives
the functions of `Verif.Model.Storage` and `Verif.Model.Program`.
Simplified: a file is read in one step; an open file is its name.
-/
namespace CDT

/-- A program by its accesses to the outside world. -/
inductive Proc (α : Type) : Type where
  /-- the program has ended, with a value or an exception -/
  | done (r : Except Exc α)
  /-- begin a file operation and learn its fate -/
  | fate (k : Fate → Proc α)
  /-- look at the clock -/
  | clock (k : ℕ → Proc α)
  /-- look at the contents of a file -/
  | look (p : Path) (k : Option Bytes → Proc α)
  /-- change the contents of a file -/
  | put (p : Path) (c : Option Bytes) (k : Proc α)
  /-- rename a file if it is there and the operating system is `willing`; learn whether it was done -/
  | rename (source target : Path) (willing : Bool) (k : Bool → Proc α)
  /-- record a completed write (only to talk about it, see `Written`) -/
  | note (path : Path) (k : Proc α)

namespace Proc
variable {α β : Type}

/-- Run one program, then another that depends on how it ended. -/
def follow : Proc α → (Except Exc α → Proc β) → Proc β
  | done r, f => f r
  | fate k, f => fate fun x => (k x).follow f
  | clock k, f => clock fun n => (k n).follow f
  | look p k, f => look p fun c => (k c).follow f
  | put p c k, f => put p c (k.follow f)
  | rename s t b k, f => rename s t b fun x => (k x).follow f
  | note p k, f => note p (k.follow f)

/-- An exception ends the program. -/
def throw (e : Exc) : Proc α := done (.error e)

instance : Monad Proc where
  pure a := done (.ok a)
  bind p f := p.follow fun
    | .ok a => f a
    | .error e => done (.error e)

/-- A computation without effects. -/
def lift (x : Except Exc α) : Proc α := done x

/-- `std::filesystem::remove(p, error)`; see `Io.remove`. -/
def remove (p : Path) : Proc Unit :=
  fate fun f => if f.removed then put p none (done (.ok ())) else done (.ok ())

/-- `replace_file` (include/Utilities.hpp:1255-1276); see `Io.rename`. -/
def replace (source target : Path) : Proc Unit :=
  fate fun f => rename source target f.renamed fun b =>
    if b then done (.ok ()) else done (.error .filesystemError)

/-- See `Io.putAll`. -/
def putAll (p : Path) : List Bytes → Proc Unit
  | [] => done (.ok ())
  | c :: cs => put p (some c) (putAll p cs)

/-- Write a whole file (include/Utilities.hpp:1482-1513, 1541-1570); see `Io.writeWhole`. -/
def writeWhole (p : Path) (contents : Bytes) : Proc Unit :=
  fate fun f =>
    if f.opened then
      put p (some []) (do
        putAll p f.partials
        match f.interrupted with
        | some e => put p (some f.leftover) (done (.error e))
        | none => put p (some contents) (done (.ok ())))
    else done (.error .filesystemError)

/-- Read a whole file; see `Io.readWhole`. -/
def readWhole (p : Path) : Proc Bytes :=
  fate fun f => look p fun
    | none => done (.error .filesystemError)
    | some c => if f.opened then done (.ok c) else done (.error .filesystemError)

/-- `try { body } catch (...) { cleanup; throw; }`; see `Io.tryRethrow`. -/
def tryRethrow (body : Proc α) (cleanup : Proc Unit) : Proc α :=
  body.follow fun
    | .ok a => done (.ok a)
    | .error e => cleanup.follow fun _ => done (.error e)

/-- One access. -/
def step : Proc α → Machine → Proc α × Machine
  | done r, w => (done r, w)
  | fate k, w => (k (w.disk.fates w.disk.clock), { w with disk := { w.disk with clock := w.disk.clock + 1 } })
  | clock k, w => (k w.disk.clock, w)
  | look p k, w => (k (w.disk.fs p), w)
  | put p c k, w =>
    let fs := w.disk.fs.put p c
    (k, { w with disk := { w.disk with fs := fs, visible := fs :: w.disk.visible } })
  | rename s t b k, w =>
    match w.disk.fs s, b with
    | some c, true =>
      let fs := (w.disk.fs.put t (some c)).put s none
      (k true, { w with disk := { w.disk with fs := fs, visible := fs :: w.disk.visible } })
    | _, _ => (k false, w)
  | note p k, w => (k, { w with log := w.log ++ [⟨p, w.disk.fs p, w.disk.fs (manifestName p)⟩] })

/-- All accesses, with nobody else about. -/
def run : Proc α → Machine → Except Exc α × Machine
  | done r, w => (r, w)
  | fate k, w => (k (w.disk.fates w.disk.clock)).run { w with disk := { w.disk with clock := w.disk.clock + 1 } }
  | clock k, w => (k w.disk.clock).run w
  | look p k, w => (k (w.disk.fs p)).run w
  | put p c k, w =>
    let fs := w.disk.fs.put p c
    k.run { w with disk := { w.disk with fs := fs, visible := fs :: w.disk.visible } }
  | rename s t b k, w =>
    match w.disk.fs s, b with
    | some c, true =>
      let fs := (w.disk.fs.put t (some c)).put s none
      (k true).run { w with disk := { w.disk with fs := fs, visible := fs :: w.disk.visible } }
    | _, _ => (k false).run w
  | note p k, w => k.run { w with log := w.log ++ [⟨p, w.disk.fs p, w.disk.fs (manifestName p)⟩] }

end Proc

section
variable {T : Type} (codec : Codec T) (ft : FloatText) (build : BuildInfo) (filename : Path) (t : T)

/-- `publishManifest` by its accesses (include/Utilities.hpp:1574-1598). -/
def publishManifestSteps (m : Metadata) : Proc Unit := do
  let temporary := temporaryName filename
  let manifest := manifestName filename
  let manifestTemporary := temporaryName manifest
  let integrity := payloadIntegrity (← Proc.readWhole temporary)
  Proc.writeWhole manifestTemporary (metadataText ft build m integrity)
  let recorded ← Proc.lift (readMetadata ft (← Proc.readWhole manifestTemporary))
  Proc.lift (require (decide (recorded.payload = integrity)))
  Proc.lift (validateMetadata codec recorded t)
  Proc.replace manifestTemporary manifest

/-- `writeBody` by its accesses (include/Utilities.hpp:1539-1606). -/
def writeBodySteps (resolved : Option Metadata) : Proc Unit := do
  let temporary := temporaryName filename
  Proc.writeWhole temporary (payloadText codec t)
  Proc.lift (validateSerialized codec (← Proc.readWhole temporary) t)
  match resolved with
  | some m => publishManifestSteps codec ft build filename t m
  | none => pure ()
  Proc.replace temporary filename
  match resolved with
  | some _ => pure ()
  | none => Proc.remove (manifestName filename)

/-- `writePayload` by its accesses (include/Utilities.hpp:1515-1614). -/
def writePayloadSteps (metadata : Option Metadata) : Proc Unit := do
  let resolved ← Proc.lift (match metadata with
    | some m => (reconcile codec m t).map some
    | none => .ok none)
  let temporary := temporaryName filename
  let manifestTemporary := temporaryName (manifestName filename)
  Proc.remove temporary
  Proc.remove manifestTemporary
  Proc.tryRethrow (writeBodySteps codec ft build filename t resolved)
    (do Proc.remove temporary; Proc.remove manifestTemporary)

end

section
variable {M S P T : Type} (host : Host M S P T) (out : Outside M S)

/-- `writeArtifact` by its accesses (include/Utilities.hpp:1911-1928). -/
def writeArtifactSteps (m : M) (md : Metadata) : Proc Unit :=
  .clock fun n =>
    match artifactPath host m md (out.now n) with
    | .error e => .done (.error e)
    | .ok path =>
      (writePayloadSteps host.codec host.text host.build path (host.snapshot m) (some md)).follow fun
        | .error e => .done (.error e)
        | .ok _ => .note path (.done (.ok ()))

/-- The pass loop of `Metropolis_3::operator()` (include/Move_run.hpp:198-225,
include/Metropolis.hpp:677-714) by its accesses: `remaining` passes, the first of which has index `passIndex`. -/
def passesSteps (eng : MetroEngine M (Random S) P) (base : Metadata) (cad : Cadence) (writes : Bool) :
    ℕ → ℤ → RunVars M RunStats → Random S → Proc (RunVars M RunStats × Random S)
  | 0, _, v, g => .done (.ok (v, g))
  | n + 1, i, v, g =>
    match metroPass (F := Unit) eng v.current v.state (eng.n3 v.current) (g, ()) with
    | (.error e, _) => .done (.error e)
    | (.ok p, (g1, _)) =>
      let totals := v.totals.accumulate p.commandResults
      if (i + 1) % cad.checkpoint = 0 then
        let v' : RunVars M RunStats := ⟨p.manifold, totals, p.strategyState, v.events + 1⟩
        if writes then
          match Sampler.metadata host base p.manifold .checkpoint (i + 1) p.strategyState with
          | .error e => .done (.error e)
          | .ok md => (writeArtifactSteps host out p.manifold md).follow fun
            | .error e => .done (.error e)
            | .ok _ => passesSteps eng base cad writes n (i + 1) v' g1
        else passesSteps eng base cad writes n (i + 1) v' g1
      else passesSteps eng base cad writes n (i + 1) ⟨p.manifold, totals, p.strategyState, v.events⟩ g1

/-- `cdtRun` by its accesses (src/cdt.cpp:159-251). -/
def cdtRunSteps (root : Random S) (cfg : SimConfig) : Proc Unit :=
  let t := cfg.triangulation
  match out.construct t.simplices t.timeslices (root.split host.pcg initializationStream)
      t.initialRadius t.foliationSpacing with
  | .error e => .done (.error e)
  | .ok start =>
    match cdtSampler host root cfg start with
    | .error e => .done (.error e)
    | .ok s =>
      let eng := host.engine s.parameters
      (passesSteps host out eng s.reproducibility s.strategy.cadence s.strategy.writesFiles
          s.strategy.cadence.passes.toNat 0 ⟨start, {}, { geometry := eng.geometry start }, 0⟩ s.strategy.gen).follow fun
        | .error e => .done (.error e)
        | .ok (v, _) =>
          if !host.valid v.current then .done (.error .runtimeError)
          else if cfg.writeFiles then
            match Sampler.metadata host s.reproducibility v.current .finalTriangulation cfg.passes v.state with
            | .error e => .done (.error e)
            | .ok md => writeArtifactSteps host out v.current md
          else .done (.ok ())

/-- The exit status of a program: the `catch` clauses return `EXIT_FAILURE` (src/cdt.cpp:252-279,
src/initialize.cpp:158-173). -/
def statusOf : Except Exc Unit → Proc ℤ
  | .error _ => .done (.ok 1)
  | .ok _ => .done (.ok 0)

/-- `cdtMain` by its accesses (src/cdt.cpp:72-280). -/
def cdtSteps (parsed : Option Options) : Proc ℤ :=
  match parsed with
  | none => .done (.ok 1)
  | some o =>
    if o.help then .done (.ok 0)
    else if o.version then .done (.ok 0)
    else match cdtConfig host out o with
      | .error _ => .done (.ok 1)
      | .ok cfg => (cdtRunSteps host out (rootRandom host out o) cfg).follow statusOf

/-- `initializeRun` by its accesses (src/initialize.cpp:125-157). -/
def initializeRunSteps (root : Random S) (cfg : TriConfig) (save : Bool) : Proc Unit :=
  match out.construct cfg.simplices cfg.timeslices (root.split host.pcg initializationStream)
      cfg.initialRadius cfg.foliationSpacing with
  | .error e => .done (.error e)
  | .ok start =>
    if save then
      match makeMetadata host start cfg.seed .initialTriangulation with
      | .error e => .done (.error e)
      | .ok md =>
        writeArtifactSteps host out start { md with
          desiredSimplices := cfg.simplices, desiredTimeslices := cfg.timeslices,
          maxThreads := some cfg.threads }
    else .done (.ok ())

/-- `initializeMain` by its accesses (src/initialize.cpp:55-174). -/
def initializeSteps (parsed : Option Options) : Proc ℤ :=
  match parsed with
  | none => .done (.ok 1)
  | some o =>
    if o.help then .done (.ok 0)
    else if o.version then .done (.ok 0)
    else match initializeConfig host out o with
      | .error _ => .done (.ok 1)
      | .ok cfg => (initializeRunSteps host out (rootRandom host out o) cfg o.output).follow statusOf

end

/-! ### The operating system -/

/-- A process: what it has still to do, and what is its own. -/
structure Running where
  code : Proc ℤ
  /-- the fates of its file operations -/
  fates : ℕ → Fate
  /-- the number of its file operations so far -/
  clock : ℕ := 0
  /-- its completed writes -/
  log : List Written := []

/-- Processes and the files they share. -/
structure Directory (I : Type) where
  fs : Files
  processes : I → Running

/-- The world as a process sees it. -/
def Running.machine (r : Running) (fs : Files) : Machine := ⟨⟨fs, [], r.fates, r.clock⟩, r.log⟩

/-- One access by process `i`. -/
def Directory.step {I : Type} [DecidableEq I] (d : Directory I) (i : I) : Directory I :=
  let r := d.processes i
  let x := r.code.step (r.machine d.fs)
  ⟨x.2.disk.fs, Function.update d.processes i ⟨x.1, x.2.disk.fates, x.2.disk.clock, x.2.log⟩⟩

/-- The processes make their accesses in the order of the schedule.  A process that is no longer
scheduled has been killed. -/
def Directory.after {I : Type} [DecidableEq I] (d : Directory I) (schedule : List I) : Directory I :=
  schedule.foldl Directory.step d

/-- The exit status of a process that has ended. -/
def Running.status (r : Running) : Option (Except Exc ℤ) :=
  match r.code with
  | .done s => some s
  | _ => none

end CDT
