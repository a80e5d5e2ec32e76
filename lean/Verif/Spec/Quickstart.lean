/-
What a reader of the quickstart example expects of it.
-/
import Verif.Model.Quickstart
import Verif.Spec.Program

namespace CDT.Spec
open CDT

variable {M S P T : Type} (q : QuickHost M S P T)

/-- The transitions of the example: Metropolis with its three couplings. -/
def quickEngine : MetroEngine M (Random S) P := q.host.engine ⟨.fin q.alpha, .fin q.k, .fin q.lambda⟩

/-- Where they begin: the initial universe and stream 1 of seed 92. -/
def quickOrigin (start : M) : M × Random S := (start, Random.make q.host.pcg 92 1)

/-- The moves and outcomes of the ten transitions. -/
def quickHistory (start : M) : List (MoveType × MoveOutcome) := history (quickEngine q) 10 (quickOrigin q start)

/-- The universe after the first `n` transitions. -/
def quickState (start : M) (n : ℕ) : M := (trajectory (quickEngine q) n (quickOrigin q start)).1

/-- The initial universe: 64 simplices and 3 timeslices of radius and spacing 1 are asked for, from
stream 0 of seed 92. -/
def QuickBuilt (out : Outside M S) (start : M) : Prop :=
  out.construct 64 3 (Random.make q.host.pcg 92 0) (.fin 1) (.fin 1) = .ok start

/-- The file that is written. -/
def quickTarget : List Bytes → Path
  | [] => ascii "cdt-quickstart.off"
  | path :: _ => path

/-- The stored universe. -/
def quickPayload (start : M) : Bytes := payloadText q.host.codec (q.host.snapshot (quickState q start 10))

/-- The truth about the artifact. -/
def quickRecord (start : M) (lo hi : ℤ) (fingerprint : BitVec 64) : Metadata :=
  let m := quickState q start 10
  let t := q.host.snapshot m
  { artifact := .finalTriangulation
    seed := 92
    initializationStream := 0
    transitionStream := 1
    topology := .spherical
    dimension := q.host.codec.dimension t
    desiredSimplices := 64
    desiredTimeslices := 3
    actualVertices := (q.host.codec.view t).nv
    actualEdges := q.host.codec.edges t
    actualFaces := q.host.codec.facets t
    actualSimplices := (q.host.codec.view t).nc
    minimumTimeslice := lo
    maximumTimeslice := hi
    initialRadius := .fin (q.host.summary m).radius
    foliationSpacing := .fin (q.host.summary m).spacing
    alpha := some (.fin q.alpha)
    k := some (.fin q.k)
    lambda := some (.fin q.lambda)
    configuredPasses := some 1
    configuredAttempts := some 10
    checkpointInterval := some 1
    completedPasses := some 0
    maxThreads := some 1
    transitionTrace := some (fnv1a (traceBytes (quickHistory q start))).toNat
    transitionCount := some 10
    placementFingerprint := some (placementFingerprint (q.host.codec.view t)).toNat
    topologyFingerprint := some fingerprint.toNat }

/-- The manifest of the artifact: the truth about it with the digest of the payload. -/
def QuickManifest (start : M) (text : Bytes) : Prop :=
  ∃ lo hi f, LabelRange (q.host.codec.view (q.host.snapshot (quickState q start 10))) lo hi ∧
    topologyFingerprint (q.host.codec.view (q.host.snapshot (quickState q start 10))) = .ok f ∧
    text = metadataText q.host.text q.host.build (quickRecord q start lo hi f) (payloadIntegrity (quickPayload q start))

/-- What the line about a transition must say: its number from 1, the move, whether it was accepted
and whether a candidate was built. -/
def quickLine (index : ℕ) (x : MoveType × MoveOutcome) : Bytes :=
  ascii "proposal " ++ decimal (index + 1) ++ ascii ": move " ++ ascii x.1.format ++ ascii ", accepted=" ++
    (if x.2.accepted then ascii "yes" else ascii "no") ++ ascii ", successful=" ++
    (if x.2.successful then ascii "yes" else ascii "no") ++ ascii "\n"

/-- The lines about a history. -/
def quickLines (index : ℕ) : List (MoveType × MoveOutcome) → List Bytes
  | [] => []
  | x :: h => quickLine index x :: quickLines (index + 1) h

/-- Everything on standard output of a successful execution; `cmd` and `st` are the counters of the
report. -/
def quickTranscript (start : M) (target : Path) (cmd : CommandResults) (st : RunStats) : Bytes :=
  (q.building 64 3 (Random.make q.host.pcg 92 0) (.fin 1) (.fin 1)).flatten ++
  ascii "=== Ten explicit Metropolis proposals ===\n" ++
  (quickLines 0 (quickHistory q start)).flatten ++ (metroResultLines cmd st).flatten ++
  ascii "Writing to file " ++ target ++ ascii "\n" ++ ascii "Reading from file " ++ target ++ ascii "\n" ++
  ascii "wrote and verified " ++ target ++ ascii " with " ++
  decimalInt (q.host.summary (quickState q start 10)).N3 ++ ascii " finite simplices\n"

/-- The files as they may be at any moment: as before; the new manifest beside the old payload; the new
manifest and the new payload.  Only the four files of the artifact ever differ from what they were. -/
def QuickFiles (start : M) (target : Path) (fs₀ s : Files) : Prop :=
  Holding target fs₀ (fs₀ (target ++ ascii ".meta")) (fs₀ target) s ∨
  ∃ text, QuickManifest q start text ∧
    (Holding target fs₀ (some text) (fs₀ target) s ∨ Holding target fs₀ (some text) (some (quickPayload q start)) s)

/-- The counts of a stored triangulation are those of the manifold. -/
def SameCounts (t : T) (m : M) : Prop :=
  ((q.host.codec.view t).nv : ℤ) = (q.host.summary m).N0 ∧ (q.host.codec.edges t : ℤ) = (q.host.summary m).N1 ∧
  (q.host.codec.facets t : ℤ) = (q.host.summary m).N2 ∧ ((q.host.codec.view t).nc : ℤ) = (q.host.summary m).N3

/-- What the program may say on standard error before it returns 1, with the files as they are then; a
reader of the code finds two more messages. -/
inductive QuickComplaint (start : M) (target : Path) (fs : Files) : Bytes → Prop
  | initial : q.correct start = false →
      QuickComplaint start target fs (ascii "initial triangulation failed validation\n")
  | evolved : q.correct (quickState q start 10) = false →
      QuickComplaint start target fs (ascii "Metropolis transitions failed manifold validation\n")
  | roundTrip (t : T) : readFile q.host.codec q.host.text target fs = .ok t →
      q.tdsValid t = false ∨ ¬ SameCounts q t (quickState q start 10) →
      QuickComplaint start target fs
        (ascii "persisted triangulation failed round-trip checks: tds_valid=" ++
          (if q.tdsValid t then ascii "true" else ascii "false") ++
          ascii ", counts=(" ++ decimal (q.host.codec.view t).nv ++ ascii "," ++ decimal (q.host.codec.edges t) ++
          ascii "," ++ decimal (q.host.codec.facets t) ++ ascii "," ++ decimal (q.host.codec.view t).nc ++
          ascii ") expected=(" ++ decimalInt (q.host.summary (quickState q start 10)).N0 ++ ascii "," ++
          decimalInt (q.host.summary (quickState q start 10)).N1 ++ ascii "," ++
          decimalInt (q.host.summary (quickState q start 10)).N2 ++ ascii "," ++
          decimalInt (q.host.summary (quickState q start 10)).N3 ++ ascii ")\n")

end CDT.Spec
