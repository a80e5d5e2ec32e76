import Verif.Lemmas.FingerprintText
import Verif.Props.Storage
/-
C89: equal fingerprints mean the same labelled triangulation, unless FNV-1a collides.
-/
namespace CDT.Props
open CDT Spec

/-- Two texts of the labelled points of `t` and `t'` that differ and have the same digest. -/
def PlacementCollision (t t' : Stored) : Prop :=
  ∃ x y, PlacementText t x ∧ PlacementText t' y ∧ x ≠ y ∧ fnv1a x = fnv1a y

/-- Two texts of the topologies of `t` and `t'` that differ and have the same digest. -/
def TopologyCollision (t t' : Stored) : Prop :=
  ∃ x y, TopologyText t x ∧ TopologyText t' y ∧ x ≠ y ∧ fnv1a x = fnv1a y

/-- **C89** (digests): the fingerprints are the FNV-1a digests of the described texts: one line per
vertex, and one per cell, with all points, labels and incidences. -/
theorem C89_digest_of_text (t : Stored) :
    (∃ x, PlacementText t x ∧ placementFingerprint t = fnv1a x) ∧
      ∀ d, topologyFingerprint t = .ok d → ∃ x, TopologyText t x ∧ d = fnv1a x :=
  ⟨placementFingerprint_text t, fun _ h => topologyFingerprint_text h⟩

/-- **C89** (texts): the texts determine the labelled points and the labelled triangulation. -/
theorem C89_text_determines {t t' : Stored} (h : PlainKeys t) (h' : PlainKeys t') (x : Bytes) :
    (PlacementText t x → PlacementText t' x → Nonempty (SamePoints t t')) ∧
      (TopologyText t x → TopologyText t' x → Nonempty (Reordering t t')) :=
  ⟨placementText_determines h h', topologyText_determines h h'⟩

/-- **C89** (placement): equal placement fingerprints mean the same labelled points, or a collision
of the hash function. -/
theorem C89_placement_identifies {t t' : Stored} (h : PlainKeys t) (h' : PlainKeys t')
    (he : placementFingerprint t = placementFingerprint t') :
    Nonempty (SamePoints t t') ∨ PlacementCollision t t' := by
  obtain ⟨x, hx, ex⟩ := placementFingerprint_text t
  obtain ⟨y, hy, ey⟩ := placementFingerprint_text t'
  by_cases e : x = y
  · subst e
    exact .inl (placementText_determines h h' hx hy)
  · exact .inr ⟨x, y, hx, hy, e, by rw [← ex, ← ey, he]⟩

/-- **C89** (topology): equal topology fingerprints mean the same labelled triangulation, stored in
some order, or a collision of the hash function.  Vertices at the same place are allowed. -/
theorem C89_topology_identifies {t t' : Stored} (h : PlainKeys t) (h' : PlainKeys t') {d : BitVec 64}
    (ht : topologyFingerprint t = .ok d) (ht' : topologyFingerprint t' = .ok d) :
    Nonempty (Reordering t t') ∨ TopologyCollision t t' := by
  obtain ⟨x, hx, ex⟩ := topologyFingerprint_text ht
  obtain ⟨y, hy, ey⟩ := topologyFingerprint_text ht'
  by_cases e : x = y
  · subst e
    exact .inl (topologyText_determines h h' hx hy)
  · exact .inr ⟨x, y, hx, hy, e, by rw [← ex, ← ey]⟩

/-- **C89** (equivalence): without a collision, and when the fingerprint of the first is computed,
the two have equal topology fingerprints exactly when they are the same labelled triangulation. -/
theorem C89_topology_iff {t t' : Stored} (h : PlainKeys t) (h' : PlainKeys t')
    (hc : ¬ TopologyCollision t t') {d : BitVec 64} (ht : topologyFingerprint t = .ok d) :
    topologyFingerprint t' = .ok d ↔ Nonempty (Reordering t t') := by
  constructor
  · intro ht'
    exact (C89_topology_identifies h h' ht ht').resolve_right hc
  · rintro ⟨r⟩
    rw [C58_topology_order_independent r, ht]

variable {T : Type} {codec : Codec T} {ft : FloatText} {build : BuildInfo} {dest : Path} {t : T}

/-- **C89** (reading back): without trusting the stream operators, whatever a read returns after a
successful write is the labelled triangulation that was written, in some order, or the hash function
collides. -/
theorem C89_read_back (hk : ∀ t, PlainKeys (codec.view t)) (fs₀ : Files) (fates : ℕ → Fate)
    (metadata : Option Metadata) {d' : Disk}
    (h : writePayload codec ft build dest t metadata (startingWith fs₀ fates) = (.ok (), d'))
    {u : T} (hu : readFile codec ft dest d'.fs = .ok u) :
    Nonempty (Reordering (codec.view t) (codec.view u)) ∨ TopologyCollision (codec.view t) (codec.view u) := by
  obtain ⟨-, -, -, -, -, f, h1, h2⟩ := C60_counts_checked fs₀ fates metadata h hu
  exact C89_topology_identifies (hk t) (hk u) h2 h1

/-- **C89** (crash points): at every crash point of a write over a readable artifact, whatever a read
returns is the old artifact or the labelled triangulation being written, in some order, or the hash
function collides. -/
theorem C89_crash (hk : ∀ t, PlainKeys (codec.view t)) (fs₀ : Files) (fates : ℕ → Fate)
    (metadata : Option Metadata)
    (hold : fs₀ (dest ++ ascii ".meta") = none ∨ ∃ u, readFile codec ft dest fs₀ = .ok u) :
    ∀ s ∈ (writePayload codec ft build dest t metadata (startingWith fs₀ fates)).2.visible,
      ∀ u, readFile codec ft dest s = .ok u →
        readFile codec ft dest fs₀ = .ok u ∨ Nonempty (Reordering (codec.view t) (codec.view u)) ∨
        TopologyCollision (codec.view t) (codec.view u) ∨
        ∃ old, fs₀ dest = some old ∧ Collision old (payloadText codec t) := by
  intro s hs u hu
  rcases C55_old_or_new fs₀ fates metadata hold s hs u hu with ⟨-, -, h⟩ | ⟨-, hser, hp, -⟩ | h
  · exact .inl h
  · obtain ⟨parsed, f, hp', -, -, -, -, -, h1, h2⟩ := hser
    rw [hp] at hp'
    cases hp'
    rcases C89_topology_identifies (hk t) (hk u) h2 h1 with h | h
    · exact .inr (.inl h)
    · exact .inr (.inr (.inl h))
  · exact .inr (.inr (.inr h))

/-- **C89** (provenance): two triangulations that the same manifest describes are the same labelled
triangulation, in some order, or the hash function collides. -/
theorem C89_manifest_identifies (hk : ∀ t, PlainKeys (codec.view t)) {manifest payload payload' : Bytes} {u : T}
    (h : DescribesArtifact codec ft manifest payload t) (h' : DescribesArtifact codec ft manifest payload' u) :
    Nonempty (Reordering (codec.view t) (codec.view u)) ∨ TopologyCollision (codec.view t) (codec.view u) := by
  obtain ⟨r, hr, -, hv⟩ := h
  obtain ⟨r', hr', -, hv'⟩ := h'
  rw [hr] at hr'
  cases hr'
  have top : ∀ {t : T}, validateMetadata codec r t = .ok .unit →
      ∃ d, topologyFingerprint (codec.view t) = .ok d ∧ d.toNat = r.topologyFingerprint := by
    intro t hv
    have hd := derive_of_validate hv
    unfold deriveState at hd
    simp only [bind_ok] at hd
    obtain ⟨_, -, _, -, _, -, _, -, d, hd, he⟩ := hd
    simp only [pure, Except.pure, Except.ok.injEq, DerivedState.mk.injEq] at he
    exact ⟨d, hd, he.2.2.2.2.2.2.2.2⟩
  obtain ⟨d, h1, e1⟩ := top hv
  obtain ⟨d', h2, e2⟩ := top hv'
  have : d = d' := BitVec.eq_of_toNat_eq (e1.trans e2.symm)
  subst this
  exact C89_topology_identifies (hk t) (hk u) h1 h2

/-! ### Concrete cases -/

-- coincident vertices
example : PlainKeys coincidentPair ∧ PlainKeys coincidentPairReordered := by
  unfold PlainKeys; exact ⟨by decide +kernel, by decide +kernel⟩
example : ∃ d, topologyFingerprint coincidentPair = .ok d ∧ topologyFingerprint coincidentPairReordered = .ok d := by
  cases h : topologyFingerprint coincidentPair with
  | error e => exact absurd (show (topologyFingerprint coincidentPair).isOk = true by decide +kernel) (by rw [h]; simp [Except.isOk, Except.toBool])
  | ok d => exact ⟨d, rfl, by rw [C58_topology_order_independent coincidentPair_reordering, h]⟩

/-- The same cells with the last vertex moved away: no coincident vertices. -/
def separatePair : Stored := { coincidentPair with key := ![ascii "0,0,0", ascii "1,0,0", ascii "0,1,0", ascii "0,0,1", ascii "0,0,2"] }
/-- One label changed. -/
def relabelledPair : Stored := { separatePair with cinfo := ![22, 13] }

example : PlainKeys separatePair ∧ PlainKeys relabelledPair := by
  unfold PlainKeys; exact ⟨by decide +kernel, by decide +kernel⟩
-- the fingerprints tell them apart
example : topologyFingerprint separatePair ≠ topologyFingerprint relabelledPair ∧
    placementFingerprint separatePair = placementFingerprint relabelledPair := by decide +kernel

open Fixture in
theorem pointSet_plain (l : List ℤ) : PlainKeys (pointSet.view l) := by
  intro v b hb
  have := mem_decimal (show b ∈ decimal v.1 from hb)
  refine ⟨?_, ?_, ?_⟩ <;> (rintro rfl; revert this; decide)

open Fixture in
example : ∃ d', writePayload pointSet integerText sampleBuild samplePath newPoints (some sampleMetadata) (startingWith
      (withArtifact samplePath (some (payloadText pointSet oldPoints)) none) noFaults) = (.ok (), d') ∧
      ∃ u, readFile pointSet integerText samplePath d'.fs = .ok u ∧
      (Nonempty (Reordering (pointSet.view newPoints) (pointSet.view u)) ∨
        TopologyCollision (pointSet.view newPoints) (pointSet.view u)) := by
  obtain ⟨d', h1, h2⟩ := C60_write_succeeds (build := sampleBuild) (dest := samplePath) newPoints_faithful.1 newPoints_faithful.2
    (pointSet_topology _) (withArtifact samplePath (some (payloadText pointSet oldPoints)) none)
    noFaults_noFaults (some sampleMetadata) integerText_lawful sampleBuild_legible
    (fun m h => by cases h; exact ⟨_, reconcile_sample, completed_valid⟩)
  exact ⟨d', h1, _, h2, C89_read_back pointSet_plain _ _ _ h1 h2⟩

end CDT.Props
