import Verif.Model.Metadata
import Verif.Model.Fingerprint
/-
Persistence of triangulations on a file system (include/Utilities.hpp).

Not modelled: power loss (a crash ends the process, the files keep the contents the operating system
has accepted), links and other aliases of path names, other processes (they are in `Verif.Model.Processes`).
-/
namespace CDT

/-- A path name. -/
abbrev Path := Bytes

/-- Contents of the file system: `none` for a missing file. -/
abbrev Files := Path → Option Bytes

/-- The file `p` now has the given contents. -/
def Files.put (fs : Files) (p : Path) (c : Option Bytes) : Files := fun q => if q = p then c else fs q

/-- What happens to one file operation. -/
structure Fate where
  /-- the file can be opened (for writing), or opened and read -/
  opened : Bool
  /-- a removal is carried out -/
  removed : Bool
  /-- a rename is carried out -/
  renamed : Bool
  /-- contents of a file being written that can be observed before it is complete -/
  partials : List Bytes
  /-- the exception that interrupts writing after the file was opened, if any -/
  interrupted : Option Exc
  /-- what an interrupted write leaves in the file -/
  leftover : Bytes

/-- The file system as one process sees it. -/
structure Disk where
  /-- current contents -/
  fs : Files
  /-- every state of the file system so far, in any of which a crash may happen -/
  visible : List Files
  /-- fate of each future operation -/
  fates : ℕ → Fate
  /-- number of operations performed -/
  clock : ℕ

/-- Code with file-system effects that may throw; effects performed before the exception remain. -/
def Io (α : Type) := Disk → Except Exc α × Disk

instance : Monad Io where
  pure a := fun d => (.ok a, d)
  bind p f := fun d =>
    match p d with
    | (.ok a, d') => f a d'
    | (.error e, d') => (.error e, d')

namespace Io

/-- `throw`. -/
def throw {α : Type} (e : Exc) : Io α := fun d => (.error e, d)

/-- A computation without file-system effects. -/
def lift {α : Type} (x : Except Exc α) : Io α := fun d => (x, d)

/-- The fate of the next operation. -/
def nextFate : Io Fate := fun d => (.ok (d.fates d.clock), { d with clock := d.clock + 1 })

/-- Change one file; the new state is visible. -/
def put (p : Path) (c : Option Bytes) : Io Unit := fun d =>
  let fs := d.fs.put p c
  (.ok (), { d with fs := fs, visible := fs :: d.visible })

/-- Current contents of a file. -/
def look (p : Path) : Io (Option Bytes) := fun d => (.ok (d.fs p), d)

/-- `std::filesystem::remove(p, error)`: failures are ignored. -/
def remove (p : Path) : Io Unit := do
  let fate ← nextFate
  if fate.removed then put p none else pure ()

/-- `std::filesystem::rename`, throwing on failure (`replace_file`,
include/Utilities.hpp:1255-1276): atomic replacement. -/
def rename (source target : Path) : Io Unit := do
  let fate ← nextFate
  match ← look source with
  | none => throw .filesystemError
  | some c =>
    if fate.renamed then fun d =>
      let fs := (d.fs.put target (some c)).put source none
      (.ok (), { d with fs := fs, visible := fs :: d.visible })
    else throw .filesystemError

/-- Put each of the given contents in turn. -/
def putAll (p : Path) : List Bytes → Io Unit
  | [] => pure ()
  | c :: cs => do put p (some c); putAll p cs

/-- Open for writing with truncation, write the whole contents, flush and close
(include/Utilities.hpp:1482-1513, 1541-1570).  An open failure, a stream failure or an exception of
the serializer ends the write; incomplete contents are visible meanwhile. -/
def writeWhole (p : Path) (contents : Bytes) : Io Unit := do
  let fate ← nextFate
  if fate.opened then do
    put p (some [])
    putAll p fate.partials
    match fate.interrupted with
    | some e => do put p (some fate.leftover); throw e
    | none => put p (some contents)
  else throw .filesystemError

/-- Open and read a whole file. -/
def readWhole (p : Path) : Io Bytes := do
  let fate ← nextFate
  match ← look p with
  | none => throw .filesystemError
  | some c => if fate.opened then pure c else throw .filesystemError

/-- `try { body } catch (...) { cleanup; throw; }`. -/
def tryRethrow {α : Type} (body : Io α) (cleanup : Io Unit) : Io α := fun d =>
  match body d with
  | (.ok a, d') => (.ok a, d')
  | (.error e, d') => (.error e, (cleanup d').2)

end Io

/-- CGAL's stream operators and counts for a triangulation type, and the labels; not modelled beyond
these functions. -/
structure Codec (T : Type) where
  /-- `operator<<` at `max_digits10` -/
  render : T → Bytes
  /-- `operator>>`: the triangulation with default labels, and the input left -/
  parse : Bytes → Option (T × Bytes)
  /-- assign the labels of the trailer to the handles in container order -/
  relabel : T → CausalInfo → T
  /-- points, labels and incidences -/
  view : T → Stored
  /-- `dimension()` -/
  dimension : T → ℤ
  /-- `number_of_finite_edges()` -/
  edges : T → ℕ
  /-- `number_of_finite_facets()` -/
  facets : T → ℕ
  /-- `tds().is_valid()` -/
  tdsValid : T → Bool

variable {T : Type}

/-- The labels of a triangulation in container order. -/
def Codec.info (codec : Codec T) (t : T) : CausalInfo :=
  ⟨List.ofFn (codec.view t).vinfo, List.ofFn (codec.view t).cinfo⟩

/-- What `write_payload` writes into the payload file (include/Utilities.hpp:1548-1550). -/
def payloadText (codec : Codec T) (t : T) : Bytes :=
  codec.render t ++ writeCausalInfo (codec.info t)

/-- `payload_integrity` on the contents of the file (include/Utilities.hpp:191-224). -/
def payloadIntegrity (contents : Bytes) : PayloadIntegrity :=
  ⟨contents.length % 2 ^ 64, (fnv1a contents).toNat⟩

/-- `parse_payload` on the contents of the file (include/Utilities.hpp:1278-1342), for a
triangulation type with causal labels and a `tds()`. -/
def parsePayload (codec : Codec T) (contents : Bytes) : Except Exc T := do
  let (t, rest) ← orFilesystemError (codec.parse contents)
  let rest := skipSpace rest
  let (t, rest) ←
    if rest.isEmpty then Except.ok (t, rest)
    else do
      let (info, rest) ← readCausalInfo (codec.view t).nv (codec.view t).nc rest
      Except.ok (codec.relabel t info, skipSpace rest)
  require rest.isEmpty
  require (codec.tdsValid t)
  return t

/-- `gsl::narrow<Int_precision>` of a count; `gsl::narrowing_error` when it does not fit. -/
def narrow32 (n : ℕ) : Except Exc ℤ := if n < 2 ^ 31 then .ok n else .error (.other 0)

/-- Least and greatest vertex label, `0, 0` without vertices
(include/Utilities.hpp:1368-1389). -/
def timeBounds (t : Stored) : ℤ × ℤ :=
  match List.ofFn t.vinfo with
  | [] => (0, 0)
  | v :: vs => (vs.foldl min v, vs.foldl max v)

/-- What `reconcile_payload_metadata` derives from a triangulation
(include/Utilities.hpp:1344-1395). -/
structure DerivedState where
  dimension : ℤ
  vertices : ℤ
  edges : ℤ
  faces : ℤ
  simplices : ℤ
  minimumTimeslice : ℤ
  maximumTimeslice : ℤ
  placement : ℕ
  topology : ℕ
  deriving DecidableEq

/-- Derived values (include/Utilities.hpp:1355-1394).  `dimension()` is a small `int`, so narrowing
it never fails. -/
def deriveState (codec : Codec T) (t : T) : Except Exc DerivedState := do
  let vertices ← narrow32 (codec.view t).nv
  let edges ← narrow32 (codec.edges t)
  let faces ← narrow32 (codec.facets t)
  let simplices ← narrow32 (codec.view t).nc
  let topology ← topologyFingerprint (codec.view t)
  return { dimension := codec.dimension t, vertices, edges, faces, simplices,
           minimumTimeslice := (timeBounds (codec.view t)).1,
           maximumTimeslice := (timeBounds (codec.view t)).2,
           placement := (placementFingerprint (codec.view t)).toNat,
           topology := topology.toNat }

/-- `reconcile_payload_metadata` (include/Utilities.hpp:1344-1395). -/
def reconcile (codec : Codec T) (m : Metadata) (t : T) : Except Exc Metadata := do
  let s ← deriveState codec t
  return { m with
    dimension := s.dimension, actualVertices := s.vertices, actualEdges := s.edges,
    actualFaces := s.faces, actualSimplices := s.simplices,
    minimumTimeslice := s.minimumTimeslice, maximumTimeslice := s.maximumTimeslice,
    placementFingerprint := some s.placement, topologyFingerprint := some s.topology }

/-- `validate_persistence_metadata` (include/Utilities.hpp:1397-1426). -/
def validateMetadata (codec : Codec T) (p : ParsedMetadata) (t : T) : Except Exc PUnit := do
  let s ← deriveState codec t
  require (decide (p.dimension = s.dimension ∧ p.actualVertices = s.vertices ∧
    p.actualEdges = s.edges ∧ p.actualFaces = s.faces ∧ p.actualSimplices = s.simplices ∧
    p.minimumTimeslice = s.minimumTimeslice ∧ p.maximumTimeslice = s.maximumTimeslice ∧
    p.placementFingerprint = s.placement ∧ p.topologyFingerprint = s.topology))

/-- `validate_serialized_payload` on the contents of the temporary file
(include/Utilities.hpp:1428-1480), for a triangulation type with counts and causal labels. -/
def validateSerialized (codec : Codec T) (contents : Bytes) (original : T) : Except Exc PUnit := do
  let parsed ← parsePayload codec contents
  require (decide (codec.dimension parsed = codec.dimension original ∧
    (codec.view parsed).nv = (codec.view original).nv ∧
    codec.edges parsed = codec.edges original ∧ codec.facets parsed = codec.facets original ∧
    (codec.view parsed).nc = (codec.view original).nc))
  let a ← topologyFingerprint (codec.view parsed)
  let b ← topologyFingerprint (codec.view original)
  require (decide (a = b))

/-- `filename += ".tmp"` (include/Utilities.hpp:1524-1528). -/
def temporaryName (p : Path) : Path := p ++ ascii ".tmp"
/-- `metadata_filename` (include/Utilities.hpp:146-154). -/
def manifestName (p : Path) : Path := p ++ ascii ".meta"

/-- The manifest part of the `try` block (include/Utilities.hpp:1574-1598): write, re-read and check
the temporary manifest, then publish it. -/
def publishManifest (codec : Codec T) (ft : FloatText) (build : BuildInfo) (filename : Path) (t : T)
    (m : Metadata) : Io Unit := do
  let temporary := temporaryName filename
  let manifest := manifestName filename
  let manifestTemporary := temporaryName manifest
  let integrity := payloadIntegrity (← Io.readWhole temporary)
  Io.writeWhole manifestTemporary (metadataText ft build m integrity)
  let recorded ← Io.lift (readMetadata ft (← Io.readWhole manifestTemporary))
  Io.lift (require (decide (recorded.payload = integrity)))
  Io.lift (validateMetadata codec recorded t)
  Io.rename manifestTemporary manifest

/-- The `try` block of `write_payload` (include/Utilities.hpp:1539-1606). -/
def writeBody (codec : Codec T) (ft : FloatText) (build : BuildInfo) (filename : Path) (t : T)
    (resolved : Option Metadata) : Io Unit := do
  let temporary := temporaryName filename
  Io.writeWhole temporary (payloadText codec t)
  Io.lift (validateSerialized codec (← Io.readWhole temporary) t)
  match resolved with
  | some m => publishManifest codec ft build filename t m
  | none => pure ()
  Io.rename temporary filename
  match resolved with
  | some _ => pure ()
  | none => Io.remove (manifestName filename)

/-- `write_payload` (include/Utilities.hpp:1515-1614), entered without a write active on the thread
(the guard and the mutex are modelled in `Verif.Model.WriteGuard`); the progress message is not
modelled. -/
def writePayload (codec : Codec T) (ft : FloatText) (build : BuildInfo) (filename : Path) (t : T)
    (metadata : Option Metadata) : Io Unit := do
  let resolved ← Io.lift (match metadata with
    | some m => (reconcile codec m t).map some
    | none => .ok none)
  let temporary := temporaryName filename
  let manifestTemporary := temporaryName (manifestName filename)
  Io.remove temporary
  Io.remove manifestTemporary
  Io.tryRethrow (writeBody codec ft build filename t resolved)
    (do Io.remove temporary; Io.remove manifestTemporary)

/-- `read_file` (include/Utilities.hpp:1935-1951) with `validate_payload_integrity`
(lines 1204-1220).  It looks at the file system four times: whether a manifest exists, the manifest,
the payload for its digest, the payload for its contents.  The four states may differ when another
thread writes meanwhile (the two functions use different mutexes).  A file that cannot be opened or
read gives `filesystem_error`, like a missing one. -/
def readObserved (codec : Codec T) (ft : FloatText) (filename : Path)
    (exists_ manifest digest contents : Files) : Except Exc T := do
  let metadata ←
    match exists_ (manifestName filename) with
    | none => Except.ok none
    | some _ => do
      let expected ← readMetadata ft (← orFilesystemError (manifest (manifestName filename)))
      let actual := payloadIntegrity (← orFilesystemError (digest filename))
      require (decide (expected.payload = actual))
      Except.ok (some expected)
  let t ← parsePayload codec (← orFilesystemError (contents filename))
  match metadata with
  | some expected => validateMetadata codec expected t
  | none => Except.ok .unit
  return t

/-- `read_file` with nobody writing. -/
def readFile (codec : Codec T) (ft : FloatText) (filename : Path) (fs : Files) : Except Exc T :=
  readObserved codec ft filename fs fs fs fs

end CDT
