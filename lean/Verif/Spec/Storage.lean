import Verif.Model.Storage
import Verif.Spec.Metadata
/-
Vocabulary for C54, C55, C56, C60.
-/
namespace CDT.Spec
open CDT

variable {T : Type}

/-- Two different files with the same recorded size and digest. -/
def Collision (a b : Bytes) : Prop :=
  a ≠ b ∧ a.length % 2 ^ 64 = b.length % 2 ^ 64 ∧ fnv1a a = fnv1a b

/-- A file system in which the artifact `dest` has the given manifest and payload, and every other
file, apart from the two temporary files of a write, is as in `fs₀`. -/
def Holding (dest : Path) (fs₀ : Files) (manifest payload : Option Bytes) (s : Files) : Prop :=
  s (dest ++ ascii ".meta") = manifest ∧ s dest = payload ∧
    ∀ p, p ≠ dest → p ≠ dest ++ ascii ".meta" → p ≠ dest ++ ascii ".tmp" →
      p ≠ dest ++ ascii ".meta" ++ ascii ".tmp" → s p = fs₀ p

/-- The manifest text records exactly this payload and describes this triangulation. -/
def DescribesArtifact (codec : Codec T) (ft : FloatText) (manifest payload : Bytes) (t : T) : Prop :=
  ∃ recorded, readMetadata ft manifest = .ok recorded ∧
    recorded.payload = payloadIntegrity payload ∧ validateMetadata codec recorded t = .ok .unit

/-- The payload text was accepted by the checks made before publication: it parses as a
triangulation with the counts and the topology fingerprint of `t`. -/
def SerializedAs (codec : Codec T) (payload : Bytes) (t : T) : Prop :=
  ∃ parsed fingerprint, parsePayload codec payload = .ok parsed ∧
    codec.dimension parsed = codec.dimension t ∧
    (codec.view parsed).nv = (codec.view t).nv ∧ (codec.view parsed).nc = (codec.view t).nc ∧
    codec.edges parsed = codec.edges t ∧ codec.facets parsed = codec.facets t ∧
    topologyFingerprint (codec.view parsed) = .ok fingerprint ∧
    topologyFingerprint (codec.view t) = .ok fingerprint

/-- White space only: tabs, line and page ends, blanks. -/
def Blank (l : Bytes) : Prop := ∀ b ∈ l, b ∈ [9#8, 10#8, 11#8, 12#8, 13#8, 32#8]

/-- Assumption on CGAL's stream operators for one triangulation: what was written reads back as the
same triangulation up to its labels, whatever follows on the next lines, and writing the labels back
restores it. -/
structure Faithful (codec : Codec T) (t : T) : Prop where
  parse : ∀ more, ∃ t₀ rest, codec.parse (codec.render t ++ newline :: more) = some (t₀, rest) ∧
    skipSpace rest = skipSpace more ∧ (codec.view t₀).nv = (codec.view t).nv ∧
    (codec.view t₀).nc = (codec.view t).nc ∧ codec.relabel t₀ ⟨List.ofFn (codec.view t).vinfo, List.ofFn (codec.view t).cinfo⟩ = t
  valid : codec.tdsValid t = true

/-- Labels are 32-bit integers and counts 64-bit. -/
def LabelsFit (codec : Codec T) (t : T) : Prop :=
  Labels32 ⟨List.ofFn (codec.view t).vinfo, List.ofFn (codec.view t).cinfo⟩ ∧ (codec.view t).nv < 2 ^ 64 ∧ (codec.view t).nc < 2 ^ 64

/-- A process that starts with these files. -/
def startingWith (fs : Files) (fates : ℕ → Fate) : Disk := ⟨fs, [fs], fates, 0⟩

/-- The manifest text a write with this provenance publishes: the caller's record with the fields
derived from the triangulation filled in, none without provenance. -/
def NewManifest (codec : Codec T) (ft : FloatText) (build : BuildInfo) (t : T)
    (metadata : Option Metadata) (text : Option Bytes) : Prop :=
  match metadata with
  | none => text = none
  | some m => ∃ m', reconcile codec m t = .ok m' ∧
      text = some (metadataText ft build m' (payloadIntegrity (payloadText codec t)))

/-- No operation fails. -/
def NoFaults (fates : ℕ → Fate) : Prop :=
  ∀ i, (fates i).opened = true ∧ (fates i).removed = true ∧ (fates i).renamed = true ∧
    (fates i).interrupted = none

end CDT.Spec
