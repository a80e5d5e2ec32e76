import Verif.Lemmas.StorageRead
import Verif.Lemmas.Fnv
import Verif.Lemmas.StorageSuccess
import Verif.Fixture.Storage
import Verif.Props.Fingerprint
import Verif.Props.Metadata

namespace CDT.Props
open CDT Spec

variable {T : Type} {codec : Codec T} {ft : FloatText} {build : BuildInfo} {dest : Path} {t : T}

/-! ### C54: payload corruption -/

/-- C54, general form: when an artifact with a manifest is readable, a payload with another size or
digest in its place is refused with `filesystem_error`. -/
theorem C54_refuses_unless_collision {fs : Files} {payload other manifest : Bytes}
    (hread : ∃ u, readFile codec ft dest fs = .ok u) (hp : fs dest = some payload)
    (hm : fs (dest ++ ascii ".meta") = some manifest)
    (hne : other ≠ payload) (hnc : ¬ Collision payload other) :
    readFile codec ft dest (fs.put dest (some other)) = .error .filesystemError := by
  obtain ⟨u, hu⟩ := hread
  obtain ⟨c, hc, -, hd⟩ := readFile_iff.1 hu
  obtain ⟨recorded, hr, hi, -⟩ := hd manifest hm
  rw [hp, Option.some.injEq] at hc
  subst hc
  have h1 : (fs.put dest (some other)) (manifestName dest) = some manifest := by
    rw [Files.put_other _ (name_meta_ne dest)]; exact hm
  have h2 : (fs.put dest (some other)) dest = some other := Files.put_same _ _ _
  have h3 : recorded.payload ≠ payloadIntegrity other := by
    intro h
    rcases integrity_eq (hi.symm.trans h) with e | e
    · exact hne e.symm
    · exact hnc e
  simp only [readFile, readObserved, h1, h2, orFilesystemError, hr, bind, Except.bind, h3, require,
    decide_false]
  rfl

/-- C54: a change of one byte, at any position, to any other value. -/
theorem C54_single_byte {fs : Files} {before after manifest : Bytes} {a b : Byte}
    (hread : ∃ u, readFile codec ft dest fs = .ok u) (hp : fs dest = some (before ++ a :: after))
    (hm : fs (dest ++ ascii ".meta") = some manifest) (hab : a ≠ b) :
    readFile codec ft dest (fs.put dest (some (before ++ b :: after))) =
      .error .filesystemError := by
  refine C54_refuses_unless_collision hread hp hm ?_ ?_
  · intro h
    have := List.append_cancel_left h
    exact hab (List.cons.inj this).1.symm
  · rintro ⟨-, -, h⟩
    exact fnvFold_single_byte _ before after a b hab h

/-- C54: bytes appended or removed, anywhere: any change of length (of files below 2^64 bytes). -/
theorem C54_length {fs : Files} {payload other manifest : Bytes}
    (hread : ∃ u, readFile codec ft dest fs = .ok u) (hp : fs dest = some payload)
    (hm : fs (dest ++ ascii ".meta") = some manifest)
    (hlen : other.length ≠ payload.length) (hsmall : payload.length < 2 ^ 64)
    (hsmall' : other.length < 2 ^ 64) :
    readFile codec ft dest (fs.put dest (some other)) = .error .filesystemError := by
  refine C54_refuses_unless_collision hread hp hm (fun h => hlen (by rw [h])) ?_
  rintro ⟨-, h, -⟩
  rw [Nat.mod_eq_of_lt hsmall, Nat.mod_eq_of_lt hsmall'] at h
  exact hlen h.symm

/-- C54: truncation at any place. -/
theorem C54_truncation {fs : Files} {kept lost manifest : Bytes}
    (hread : ∃ u, readFile codec ft dest fs = .ok u) (hp : fs dest = some (kept ++ lost))
    (hm : fs (dest ++ ascii ".meta") = some manifest) (hlost : lost ≠ [])
    (hsmall : (kept ++ lost).length < 2 ^ 64) :
    readFile codec ft dest (fs.put dest (some kept)) = .error .filesystemError := by
  have : 0 < lost.length := List.length_pos_iff.2 hlost
  rw [List.length_append] at hsmall
  exact C54_length hread hp hm (by rw [List.length_append]; omega)
    (by rw [List.length_append]; omega) (by omega)

/-- C54: a deleted payload is refused as well. -/
theorem C54_deleted {fs : Files} {manifest : Bytes}
    (hread : ∃ u, readFile codec ft dest fs = .ok u)
    (hm : fs (dest ++ ascii ".meta") = some manifest) :
    readFile codec ft dest (fs.put dest none) = .error .filesystemError := by
  obtain ⟨u, hu⟩ := hread
  obtain ⟨c, hc, -, hd⟩ := readFile_iff.1 hu
  obtain ⟨recorded, hr, -⟩ := hd manifest hm
  have h1 : (fs.put dest none) (manifestName dest) = some manifest := by
    rw [Files.put_other _ (name_meta_ne dest)]; exact hm
  have h2 : (fs.put dest none) dest = none := Files.put_same _ _ _
  simp only [readFile, readObserved, h1, h2, orFilesystemError, hr, bind, Except.bind]

/-- C54, every byte accounted for: a read accepts a payload exactly when it is a triangulation text
with a valid triangulation, followed by white space only, or by white space, one complete trailer with
as many labels as vertices and cells, and white space; and the manifest, if there is one, describes
it. -/
theorem C54_every_byte_accounted {fs : Files} {u : T} :
    readFile codec ft dest fs = .ok u ↔
      ∃ contents t₀ rest, fs dest = some contents ∧ codec.parse contents = some (t₀, rest) ∧ codec.tdsValid u = true ∧
        ((Blank rest ∧ u = t₀) ∨
          ∃ gap trailer info tail, rest = gap ++ trailer ∧ Blank gap ∧ TrailerFor trailer info tail ∧ Blank tail ∧
            info.vertices.length = (codec.view t₀).nv ∧ info.cells.length = (codec.view t₀).nc ∧
            u = codec.relabel t₀ info) ∧
        ∀ manifest, fs (dest ++ ascii ".meta") = some manifest → DescribesArtifact codec ft manifest contents u := by
  rw [readFile_iff]
  constructor
  · rintro ⟨c, hc, hp, hd⟩
    obtain ⟨t₀, rest, h1, h2, h3⟩ := parsePayload_iff.1 hp
    exact ⟨c, t₀, rest, hc, h1, h2, h3, hd⟩
  · rintro ⟨c, t₀, rest, hc, h1, h2, h3, hd⟩
    exact ⟨c, hc, parsePayload_iff.2 ⟨t₀, rest, h1, h2, h3⟩, hd⟩

/-! ### C55: crash points -/

/-- C55: at every crash point the payload is the complete old one or the complete new one (which
was read back and checked before), and no other file except the temporary ones has changed. -/
theorem C55_payload_never_partial (fs₀ : Files) (fates : ℕ → Fate) (metadata : Option Metadata) :
    ∀ s ∈ (writePayload codec ft build dest t metadata (startingWith fs₀ fates)).2.visible,
      (s dest = fs₀ dest ∨
        (s dest = some (payloadText codec t) ∧ SerializedAs codec (payloadText codec t) t)) ∧
      ∀ p, p ≠ dest → p ≠ dest ++ ascii ".meta" → p ≠ dest ++ ascii ".tmp" →
        p ≠ dest ++ ascii ".meta" ++ ascii ".tmp" → s p = fs₀ p := by
  intro s hs
  cases metadata with
  | none =>
    obtain ⟨r, d', h, hv, -⟩ := writePayload_plain (codec := codec) (ft := ft) (build := build)
      (dest := dest) (t := t) fs₀ fates
    rw [h] at hs
    rcases hv s hs with ⟨h1, h2, h3⟩ | ⟨hser, ⟨h1, h2, h3⟩ | ⟨h1, h2, h3⟩⟩
    · exact ⟨.inl h2, h3⟩
    · exact ⟨.inr ⟨h2, hser⟩, h3⟩
    · exact ⟨.inr ⟨h2, hser⟩, h3⟩
  | some m =>
    cases hm : reconcile codec m t with
    | error e =>
      rw [writePayload_reconcile_error fs₀ fates hm] at hs
      simp only [startingWith, List.mem_singleton] at hs
      subst hs
      exact ⟨.inl rfl, fun _ _ _ _ _ => rfl⟩
    | ok m' =>
      obtain ⟨r, d', h, hv, -⟩ := writePayload_manifest (ft := ft) (build := build)
        (dest := dest) fs₀ fates hm
      rw [h] at hs
      rcases hv s hs with ⟨h1, h2, h3⟩ | ⟨hser, -, ⟨h1, h2, h3⟩ | ⟨h1, h2, h3⟩⟩
      · exact ⟨.inl h2, h3⟩
      · exact ⟨.inl h2, h3⟩
      · exact ⟨.inr ⟨h2, hser⟩, h3⟩

/-- C55: a read after a crash, if it succeeds, returns the complete old artifact (payload and
manifest as before) or the complete new one (new payload with the new manifest; without provenance
no manifest), unless old and new payload are different files with equal size and digest. -/
theorem C55_old_or_new (fs₀ : Files) (fates : ℕ → Fate) (metadata : Option Metadata)
    (hold : fs₀ (dest ++ ascii ".meta") = none ∨ ∃ u, readFile codec ft dest fs₀ = .ok u) :
    ∀ s ∈ (writePayload codec ft build dest t metadata (startingWith fs₀ fates)).2.visible,
      ∀ u, readFile codec ft dest s = .ok u →
        (s dest = fs₀ dest ∧ s (dest ++ ascii ".meta") = fs₀ (dest ++ ascii ".meta") ∧
          readFile codec ft dest fs₀ = .ok u) ∨
        (s dest = some (payloadText codec t) ∧ SerializedAs codec (payloadText codec t) t ∧
          parsePayload codec (payloadText codec t) = .ok u ∧
          NewManifest codec ft build t metadata (s (dest ++ ascii ".meta"))) ∨
        ∃ old, fs₀ dest = some old ∧ Collision old (payloadText codec t) := by
  intro s hs u hu
  have old : Holding dest fs₀ (fs₀ (manifestName dest)) (fs₀ dest) s →
      (s dest = fs₀ dest ∧ s (dest ++ ascii ".meta") = fs₀ (dest ++ ascii ".meta") ∧
          readFile codec ft dest fs₀ = .ok u) := by
    rintro ⟨h1, h2, -⟩
    exact ⟨h2, h1, by rw [← hu]; exact (readFile_congr h1 h2).symm⟩
  obtain ⟨c, hc, hparse, hdesc⟩ := readFile_iff.1 hu
  cases metadata with
  | none =>
    obtain ⟨r, d', h, hv, -⟩ := writePayload_plain (codec := codec) (ft := ft) (build := build)
      (dest := dest) (t := t) fs₀ fates
    rw [h] at hs
    rcases hv s hs with hh | ⟨hser, ⟨h1, h2, h3⟩ | ⟨h1, h2, h3⟩⟩
    · exact .inl (old hh)
    · rw [hc, Option.some.injEq] at h2
      subst h2
      cases hM : fs₀ (dest ++ ascii ".meta") with
      | none => exact .inr (.inl ⟨hc, hser, hparse, h1.trans hM⟩)
      | some M =>
        rcases hold with hold | ⟨v, hv0⟩
        · rw [hM] at hold; cases hold
        · obtain ⟨c0, hc0, hp0, hd0⟩ := readFile_iff.1 hv0
          obtain ⟨rec, hr, hi, -⟩ := hd0 M hM
          obtain ⟨rec', hr', hi', -⟩ := hdesc M (h1.trans hM)
          rw [hr] at hr'; cases hr'
          rcases integrity_eq (hi.symm.trans hi') with e | e
          · subst e
            refine .inl ⟨by rw [hc, hc0], h1.trans hM, ?_⟩
            rw [hp0] at hparse; cases hparse; exact hv0
          · exact .inr (.inr ⟨c0, hc0, e⟩)
    · rw [hc, Option.some.injEq] at h2
      subst h2
      exact .inr (.inl ⟨hc, hser, hparse, h1⟩)
  | some m =>
    cases hm : reconcile codec m t with
    | error e =>
      rw [writePayload_reconcile_error fs₀ fates hm] at hs
      simp only [startingWith, List.mem_singleton] at hs
      subst hs
      exact .inl ⟨rfl, rfl, hu⟩
    | ok m' =>
      obtain ⟨r, d', h, hv, -⟩ := writePayload_manifest (ft := ft) (build := build)
        (dest := dest) fs₀ fates hm
      rw [h] at hs
      rcases hv s hs with hh | ⟨hser, hdes, ⟨h1, h2, h3⟩ | ⟨h1, h2, h3⟩⟩
      · exact .inl (old hh)
      · obtain ⟨rec, hr, hi, -⟩ := hdesc _ h1
        obtain ⟨rec', hr', hi', -⟩ := hdes
        rw [hr] at hr'; cases hr'
        rcases integrity_eq (hi.symm.trans hi') with e | e
        · subst e
          exact .inr (.inl ⟨hc, hser, hparse, m', hm, h1⟩)
        · exact .inr (.inr ⟨c, by rw [← h2]; exact hc, e⟩)
      · rw [hc, Option.some.injEq] at h2
        subst h2
        exact .inr (.inl ⟨hc, hser, hparse, m', hm, h1⟩)

/-- C55, whatever the files before: a read never pairs a payload with provenance that does not
describe it. -/
theorem C55_provenance_matches {s : Files} {u : T} {manifest : Bytes}
    (h : readFile codec ft dest s = .ok u) (hm : s (dest ++ ascii ".meta") = some manifest) :
    ∃ payload, s dest = some payload ∧ parsePayload codec payload = .ok u ∧
      DescribesArtifact codec ft manifest payload u := by
  obtain ⟨c, hc, hp, hd⟩ := readFile_iff.1 h
  exact ⟨c, hc, hp, hd manifest hm⟩

/-- C55, no manifest before and none written: at every crash point a read gives exactly what it gave
before, or succeeds on the complete new payload. -/
theorem C55_without_manifest (fs₀ : Files) (fates : ℕ → Fate)
    (hm : fs₀ (dest ++ ascii ".meta") = none) :
    ∀ s ∈ (writePayload codec ft build dest t none (startingWith fs₀ fates)).2.visible,
      readFile codec ft dest s = readFile codec ft dest fs₀ ∨
        (s dest = some (payloadText codec t) ∧ SerializedAs codec (payloadText codec t) t ∧
          ∃ u, parsePayload codec (payloadText codec t) = .ok u ∧
            readFile codec ft dest s = .ok u) := by
  intro s hs
  obtain ⟨r, d', h, hv, -⟩ := writePayload_plain (codec := codec) (ft := ft) (build := build)
    (dest := dest) (t := t) fs₀ fates
  rw [h] at hs
  have new : SerializedAs codec (payloadText codec t) t → s dest = some (payloadText codec t) →
      s (manifestName dest) = none → (readFile codec ft dest s = readFile codec ft dest fs₀ ∨
        (s dest = some (payloadText codec t) ∧ SerializedAs codec (payloadText codec t) t ∧
          ∃ u, parsePayload codec (payloadText codec t) = .ok u ∧
            readFile codec ft dest s = .ok u)) := fun hser h2 h1 => by
    obtain ⟨parsed, f, hp, -⟩ := id hser
    exact .inr ⟨h2, hser, parsed, hp, readFile_iff.2 ⟨_, h2, hp, fun M hM => by
      rw [h1] at hM; cases hM⟩⟩
  rcases hv s hs with ⟨h1, h2, h3⟩ | ⟨hser, ⟨h1, h2, h3⟩ | ⟨h1, h2, h3⟩⟩
  · exact .inl (readFile_congr h1 h2)
  · exact new hser h2 (h1.trans hm)
  · exact new hser h2 h1

/-- C55, for a reader in another thread whose four looks at the file system are interleaved with the
write in any way: what it returns is the parse of the complete old or the complete new payload, and
if it saw a manifest, the recorded counts, time bounds and fingerprints are those of the result. -/
theorem C55_concurrent_reader (fs₀ : Files) (fates : ℕ → Fate) (metadata : Option Metadata)
    {s1 s2 s3 s4 : Files} (hs : ∀ s ∈ [s1, s2, s3, s4],
      s ∈ (writePayload codec ft build dest t metadata (startingWith fs₀ fates)).2.visible)
    {u : T} (hu : readObserved codec ft dest s1 s2 s3 s4 = .ok u) :
    ((∃ old, fs₀ dest = some old ∧ parsePayload codec old = .ok u) ∨
      (SerializedAs codec (payloadText codec t) t ∧
        parsePayload codec (payloadText codec t) = .ok u)) ∧
    (s1 (dest ++ ascii ".meta") = none ∨ ∃ manifest recorded,
      s2 (dest ++ ascii ".meta") = some manifest ∧ readMetadata ft manifest = .ok recorded ∧
        validateMetadata codec recorded u = .ok .unit) := by
  obtain ⟨⟨c, hc, hp⟩, h⟩ := readObserved_iff.1 hu
  constructor
  · rcases (C55_payload_never_partial fs₀ fates metadata s4 (hs s4 (by simp))).1 with e | ⟨e, hser⟩
    · exact .inl ⟨c, by rw [← e]; exact hc, hp⟩
    · rw [hc, Option.some.injEq] at e
      subst e
      exact .inr ⟨hser, hp⟩
  · rcases h with h | ⟨M, c', rec, -, hM, -, hr, -, hv⟩
    · exact .inl h
    · exact .inr ⟨M, rec, hM, hr, hv⟩

/-! ### C56: failures -/

/-- C56: a write that throws leaves the artifact as it was (payload, manifest, and hence the result
of reading it), unless its new manifest had already been published and a rename failed after that;
nothing but temporary files is touched otherwise. -/
theorem C56_failure_harmless (fs₀ : Files) (fates : ℕ → Fate) (metadata : Option Metadata) {e : Exc}
    {d' : Disk}
    (h : writePayload codec ft build dest t metadata (startingWith fs₀ fates) = (.error e, d')) :
    (Holding dest fs₀ (fs₀ (dest ++ ascii ".meta")) (fs₀ dest) d'.fs ∧
      readFile codec ft dest d'.fs = readFile codec ft dest fs₀) ∨
    (∃ text, metadata ≠ none ∧ NewManifest codec ft build t metadata (some text) ∧
      Holding dest fs₀ (some text) (fs₀ dest) d'.fs ∧ ∃ i, (fates i).renamed = false) := by
  have old : Holding dest fs₀ (fs₀ (dest ++ ascii ".meta")) (fs₀ dest) d'.fs →
      Holding dest fs₀ (fs₀ (dest ++ ascii ".meta")) (fs₀ dest) d'.fs ∧
      readFile codec ft dest d'.fs = readFile codec ft dest fs₀ := fun hh =>
    ⟨hh, readFile_congr hh.1 hh.2.1⟩
  cases metadata with
  | none =>
    obtain ⟨r, d1, h1, -, -, hf, -⟩ := writePayload_plain (codec := codec) (ft := ft)
      (build := build) (dest := dest) (t := t) fs₀ fates
    rw [h, Prod.mk.injEq] at h1
    obtain ⟨rfl, rfl⟩ := h1
    exact .inl (old (hf _ rfl))
  | some m =>
    cases hm : reconcile codec m t with
    | error e' =>
      rw [writePayload_reconcile_error fs₀ fates hm, Prod.mk.injEq] at h
      obtain ⟨-, rfl⟩ := h
      exact .inl (old ⟨rfl, rfl, fun _ _ _ _ _ => rfl⟩)
    | ok m' =>
      obtain ⟨r, d1, h1, -, -, hf, -⟩ := writePayload_manifest (ft := ft) (build := build)
        (dest := dest) fs₀ fates hm
      rw [h, Prod.mk.injEq] at h1
      obtain ⟨rfl, rfl⟩ := h1
      rcases hf _ rfl with hh | ⟨hh, hi⟩
      · exact .inl (old hh)
      · exact .inr ⟨_, by simp, ⟨m', hm, rfl⟩, hh, hi⟩

/-- C56: after a failed write no temporary file remains, provided the operating system carries out
removals; a write refused before it touches any file leaves the file system exactly as it was. -/
theorem C56_no_debris (fs₀ : Files) (fates : ℕ → Fate) (metadata : Option Metadata) {e : Exc}
    {d' : Disk} (hrem : ∀ i, (fates i).removed = true)
    (h : writePayload codec ft build dest t metadata (startingWith fs₀ fates) = (.error e, d')) :
    (d'.fs (dest ++ ascii ".tmp") = none ∧ d'.fs (dest ++ ascii ".meta" ++ ascii ".tmp") = none) ∨
      d'.fs = fs₀ := by
  cases metadata with
  | none =>
    obtain ⟨r, d1, h1, -, -, -, hf⟩ := writePayload_plain (codec := codec) (ft := ft)
      (build := build) (dest := dest) (t := t) fs₀ fates
    rw [h, Prod.mk.injEq] at h1
    obtain ⟨rfl, rfl⟩ := h1
    exact .inl (hf hrem)
  | some m =>
    cases hm : reconcile codec m t with
    | error e' =>
      rw [writePayload_reconcile_error fs₀ fates hm, Prod.mk.injEq] at h
      obtain ⟨-, rfl⟩ := h
      exact .inr rfl
    | ok m' =>
      obtain ⟨r, d1, h1, -, -, -, hf⟩ := writePayload_manifest (ft := ft) (build := build)
        (dest := dest) fs₀ fates hm
      rw [h, Prod.mk.injEq] at h1
      obtain ⟨rfl, rfl⟩ := h1
      exact .inl (hf hrem)

/-- C56: no temporary file remains after a successful write either. -/
theorem C56_no_debris_on_success (fs₀ : Files) (fates : ℕ → Fate) (metadata : Option Metadata)
    {d' : Disk} (hrem : ∀ i, (fates i).removed = true)
    (h : writePayload codec ft build dest t metadata (startingWith fs₀ fates) = (.ok (), d')) :
    d'.fs (dest ++ ascii ".tmp") = none ∧ d'.fs (dest ++ ascii ".meta" ++ ascii ".tmp") = none := by
  cases metadata with
  | none =>
    obtain ⟨r, d1, h1, -, -, -, hf⟩ := writePayload_plain (codec := codec) (ft := ft)
      (build := build) (dest := dest) (t := t) fs₀ fates
    rw [h, Prod.mk.injEq] at h1
    obtain ⟨rfl, rfl⟩ := h1
    exact hf hrem
  | some m =>
    cases hm : reconcile codec m t with
    | error e' =>
      rw [writePayload_reconcile_error fs₀ fates hm, Prod.mk.injEq] at h
      exact absurd h.1 (by simp)
    | ok m' =>
      obtain ⟨r, d1, h1, -, -, -, hf⟩ := writePayload_manifest (ft := ft) (build := build)
        (dest := dest) fs₀ fates hm
      rw [h, Prod.mk.injEq] at h1
      obtain ⟨rfl, rfl⟩ := h1
      exact hf hrem

/-! ### C60: write, then read -/

/-- C60: reading an artifact just written returns the triangulation that was written, with or
without provenance, whatever files existed before.  Without provenance a manifest left from before
must have been removed: the code does not notice when that removal fails
(`C60_stale_manifest_not_noticed`). -/
theorem C60_read_back (hf : Faithful codec t) (hl : LabelsFit codec t) (fs₀ : Files)
    (fates : ℕ → Fate) (metadata : Option Metadata) {d' : Disk}
    (h : writePayload codec ft build dest t metadata (startingWith fs₀ fates) = (.ok (), d'))
    (hstale : metadata = none → fs₀ (dest ++ ascii ".meta") = none ∨
      ∀ i, (fates i).removed = true) :
    readFile codec ft dest d'.fs = .ok t := by
  have hparse := parsePayload_write hf hl
  cases metadata with
  | none =>
    obtain ⟨r, d1, h1, -, hok, -⟩ := writePayload_plain (codec := codec) (ft := ft)
      (build := build) (dest := dest) (t := t) fs₀ fates
    rw [h, Prod.mk.injEq] at h1
    obtain ⟨rfl, rfl⟩ := h1
    obtain ⟨-, hh⟩ := hok rfl
    have hnone : d'.fs (manifestName dest) = none ∧ d'.fs dest = some (payloadText codec t) := by
      rcases hh with hh | ⟨hh, i, hi⟩
      · exact ⟨hh.1, hh.2.1⟩
      · rcases hstale rfl with hs | hs
        · exact ⟨hh.1.trans hs, hh.2.1⟩
        · rw [hs i] at hi; cases hi
    exact readFile_iff.2 ⟨_, hnone.2, hparse, fun M hM => by rw [hnone.1] at hM; cases hM⟩
  | some m =>
    cases hm : reconcile codec m t with
    | error e' =>
      rw [writePayload_reconcile_error fs₀ fates hm, Prod.mk.injEq] at h
      exact absurd h.1 (by simp)
    | ok m' =>
      obtain ⟨r, d1, h1, -, hok, -⟩ := writePayload_manifest (ft := ft) (build := build)
        (dest := dest) fs₀ fates hm
      rw [h, Prod.mk.injEq] at h1
      obtain ⟨rfl, rfl⟩ := h1
      obtain ⟨-, hd, hh⟩ := hok rfl
      refine readFile_iff.2 ⟨_, hh.2.1, hparse, fun M hM => ?_⟩
      have := hh.1
      rw [show d'.fs (dest ++ ascii ".meta") = d'.fs (manifestName dest) from rfl, hM,
        Option.some.injEq] at this
      subst this
      exact hd

/-- C60, without trusting CGAL's stream operators: whatever a read returns after a successful write
has the dimension, counts and topology fingerprint of what was written. -/
theorem C60_counts_checked (fs₀ : Files) (fates : ℕ → Fate) (metadata : Option Metadata) {d' : Disk}
    (h : writePayload codec ft build dest t metadata (startingWith fs₀ fates) = (.ok (), d'))
    {u : T} (hu : readFile codec ft dest d'.fs = .ok u) :
    codec.dimension u = codec.dimension t ∧ (codec.view u).nv = (codec.view t).nv ∧
      (codec.view u).nc = (codec.view t).nc ∧ codec.edges u = codec.edges t ∧
      codec.facets u = codec.facets t ∧
      ∃ f, topologyFingerprint (codec.view u) = .ok f ∧ topologyFingerprint (codec.view t) = .ok f := by
  have key : SerializedAs codec (payloadText codec t) t ∧ d'.fs dest = some (payloadText codec t) := by
    cases metadata with
    | none =>
      obtain ⟨r, d1, h1, -, hok, -⟩ := writePayload_plain (codec := codec) (ft := ft)
        (build := build) (dest := dest) (t := t) fs₀ fates
      rw [h, Prod.mk.injEq] at h1
      obtain ⟨rfl, rfl⟩ := h1
      obtain ⟨hs, hh⟩ := hok rfl
      rcases hh with hh | ⟨hh, -⟩ <;> exact ⟨hs, hh.2.1⟩
    | some m =>
      cases hm : reconcile codec m t with
      | error e' =>
        rw [writePayload_reconcile_error fs₀ fates hm, Prod.mk.injEq] at h
        exact absurd h.1 (by simp)
      | ok m' =>
        obtain ⟨r, d1, h1, -, hok, -⟩ := writePayload_manifest (ft := ft) (build := build)
          (dest := dest) fs₀ fates hm
        rw [h, Prod.mk.injEq] at h1
        obtain ⟨rfl, rfl⟩ := h1
        obtain ⟨hs, -, hh⟩ := hok rfl
        exact ⟨hs, hh.2.1⟩
  obtain ⟨⟨parsed, f, hp, h1, h2, h3, h4, h5, h6, h7⟩, hd⟩ := key
  obtain ⟨c, hc, hp', -⟩ := readFile_iff.1 hu
  rw [hd, Option.some.injEq] at hc
  subst hc
  rw [hp] at hp'
  cases hp'
  exact ⟨h1, h2, h3, h4, h5, f, h6, h7⟩

/-- C60, with provenance and without trusting CGAL's stream operators: what a read returns agrees
with what was written in counts, time bounds, placement fingerprint and topology fingerprint. -/
theorem C60_manifest_checks (fs₀ : Files) (fates : ℕ → Fate) (m : Metadata) {d' : Disk}
    (h : writePayload codec ft build dest t (some m) (startingWith fs₀ fates) = (.ok (), d'))
    {u : T} (hu : readFile codec ft dest d'.fs = .ok u) :
    ∃ s, deriveState codec u = .ok s ∧ deriveState codec t = .ok s := by
  cases hm : reconcile codec m t with
  | error e' =>
    rw [writePayload_reconcile_error fs₀ fates hm, Prod.mk.injEq] at h
    exact absurd h.1 (by simp)
  | ok m' =>
    obtain ⟨r, d1, h1, -, hok, -⟩ := writePayload_manifest (ft := ft) (build := build)
      (dest := dest) fs₀ fates hm
    rw [h, Prod.mk.injEq] at h1
    obtain ⟨rfl, rfl⟩ := h1
    obtain ⟨-, ⟨rec, hr, -, hv⟩, hh⟩ := hok rfl
    obtain ⟨c, hc, -, hd⟩ := readFile_iff.1 hu
    obtain ⟨rec', hr', -, hv'⟩ := hd _ hh.1
    rw [hr] at hr'
    cases hr'
    exact ⟨_, derive_of_validate hv', derive_of_validate hv⟩

/-- C60: a write succeeds when no file operation fails, the fingerprint can be computed and, with
provenance, the completed record is valid; the artifact then reads back as what was written. -/
theorem C60_write_succeeds {isDouble isLong : LD → Prop} (hf : Faithful codec t)
    (hl : LabelsFit codec t) (ht : ∃ f, topologyFingerprint (codec.view t) = .ok f) (fs₀ : Files)
    {fates : ℕ → Fate} (hok : NoFaults fates) (metadata : Option Metadata)
    (hft : FloatTextLawful ft isDouble isLong) (hb : BuildLegible build)
    (hm : ∀ m ∈ metadata, ∃ m', reconcile codec m t = .ok m' ∧ MetadataFloats isDouble isLong m' ∧
      MetadataTyped m' (payloadIntegrity (payloadText codec t)) ∧ MetadataValid m') :
    ∃ d', writePayload codec ft build dest t metadata (startingWith fs₀ fates) = (.ok (), d') ∧
      readFile codec ft dest d'.fs = .ok t := by
  obtain ⟨f, ht⟩ := ht
  have main : ∃ d', writePayload codec ft build dest t metadata (startingWith fs₀ fates) =
      (.ok (), d') := by
    cases metadata with
    | none => exact writePayload_plain_ok hf hl ht hok
    | some m =>
      obtain ⟨m', h1, h2, h3, h4⟩ := hm m rfl
      exact writePayload_manifest_ok hf hl h1 (C53_round_trip hft hb h2 h3 h4) hok
  obtain ⟨d', e⟩ := main
  exact ⟨d', e, C60_read_back hf hl fs₀ fates metadata e fun _ => .inr fun i => (hok i).2.1⟩

/-! ### Concrete cases -/

open Fixture

theorem pointSet_labels {l : List ℤ} (h : ∀ i ∈ l, IsInt32 i) (hl : l.length < 2 ^ 64) :
    LabelsFit pointSet l := by
  refine ⟨?_, hl, by simp [pointSet]⟩
  simpa [Labels32, Codec.info, pointSet, IsInt32] using h

theorem pointSet_topology (l : List ℤ) : ∃ f, topologyFingerprint (pointSet.view l) = .ok f :=
  C58_defined_without_coincidence (pointSet_injective l)

/-- A destination, an old and a new point set. -/
def samplePath : Path := ascii "S3.off"
def oldPoints : List ℤ := [1, 1]
def newPoints : List ℤ := [1, 2, 3]

theorem oldPoints_faithful : Faithful pointSet oldPoints ∧ LabelsFit pointSet oldPoints :=
  ⟨pointSet_faithful _ (by decide), pointSet_labels (by simp only [IsInt32]; decide) (by decide)⟩
theorem newPoints_faithful : Faithful pointSet newPoints ∧ LabelsFit pointSet newPoints :=
  ⟨pointSet_faithful _ (by decide), pointSet_labels (by simp only [IsInt32]; decide) (by decide)⟩

theorem noFaults_noFaults : NoFaults noFaults := fun _ => ⟨rfl, rfl, rfl, rfl⟩

/-- The record completed for the new point set. -/
def completedMetadata : Metadata :=
  { sampleMetadata with
    actualVertices := 3, actualEdges := 0, actualFaces := 0, actualSimplices := 0,
    minimumTimeslice := 1, maximumTimeslice := 3,
    placementFingerprint := some (placementFingerprint (pointSet.view newPoints)).toNat,
    topologyFingerprint := some (match topologyFingerprint (pointSet.view newPoints) with
      | .ok f => f.toNat
      | .error _ => 0) }

theorem reconcile_sample : reconcile pointSet sampleMetadata newPoints = .ok completedMetadata := by
  decide +kernel

theorem completed_valid : MetadataFloats IntegralValue IntegralValue completedMetadata ∧
    MetadataTyped completedMetadata (payloadIntegrity (payloadText pointSet newPoints)) ∧
    MetadataValid completedMetadata := by
  refine ⟨⟨?_, ?_, ?_, ?_, ?_⟩, ?_, ?_⟩
  · rintro q ⟨rfl⟩; simp only [IsInt32]; decide
  · rintro q ⟨rfl⟩; simp only [IsInt32]; decide
  · rintro x ⟨rfl⟩ q ⟨rfl⟩; simp only [IsInt32]; decide
  · rintro x ⟨rfl⟩ q ⟨rfl⟩; simp only [IsInt32]; decide
  · rintro x ⟨rfl⟩ q ⟨rfl⟩; simp only [IsInt32]; decide
  · constructor <;> (simp only [IsU64, IsInt32]; decide +kernel)
  · constructor <;> try decide
    · exact ⟨1, rfl, by norm_num⟩
    · exact ⟨1, rfl, by norm_num⟩
    · exact .inr ⟨1, 2, -3, rfl, rfl, rfl, by norm_num⟩
    · exact .inr ⟨10, 2, rfl, rfl, by norm_num, by norm_num⟩

theorem sampleBuild_legible : BuildLegible sampleBuild := by
  unfold BuildLegible LineText; decide +kernel

-- A write with and without provenance succeeds over an older artifact and reads back.
example : ∀ metadata ∈ [none, some sampleMetadata],
    ∃ d', writePayload pointSet integerText sampleBuild samplePath newPoints metadata (startingWith
      (withArtifact samplePath (some (payloadText pointSet oldPoints)) none) noFaults) =
        (.ok (), d') ∧ readFile pointSet integerText samplePath d'.fs = .ok newPoints := by
  intro metadata hm
  refine C60_write_succeeds newPoints_faithful.1 newPoints_faithful.2 (pointSet_topology _) _
    noFaults_noFaults metadata integerText_lawful sampleBuild_legible fun m h => ?_
  simp only [List.mem_cons, List.not_mem_nil, or_false] at hm
  rcases hm with rfl | rfl
  · cases h
  · cases h
    exact ⟨_, reconcile_sample, completed_valid⟩

/-- The file system after the write with provenance. -/
def publishedSample : Files :=
  withArtifact samplePath (some (payloadText pointSet newPoints)) (some (metadataText integerText
    sampleBuild completedMetadata (payloadIntegrity (payloadText pointSet newPoints))))

theorem publishedSample_readable :
    readFile pointSet integerText samplePath publishedSample = .ok newPoints := by decide +kernel

-- The hypotheses of C54, and a flipped byte at the start of the file.
example : readFile pointSet integerText samplePath
    (publishedSample.put samplePath (some (52 :: (payloadText pointSet newPoints).tail))) =
      .error .filesystemError :=
  C54_single_byte (before := []) (a := 51) (after := (payloadText pointSet newPoints).tail)
    ⟨_, publishedSample_readable⟩ (by decide +kernel) (manifest := metadataText integerText
      sampleBuild completedMetadata (payloadIntegrity (payloadText pointSet newPoints)))
    (by decide +kernel) (by decide)

-- A payload with other bytes after the trailer is refused, manifest or not; one with blanks is not.
example : readFile pointSet integerText samplePath
    (withArtifact samplePath (some (payloadText pointSet newPoints ++ ascii "x")) none) = .error .filesystemError ∧
    readFile pointSet integerText samplePath
      (withArtifact samplePath (some (payloadText pointSet newPoints ++ ascii " \n")) none) = .ok newPoints ∧
    readFile pointSet integerText samplePath (withArtifact samplePath (some (ascii "3\n")) none) = .ok [0, 0, 0] ∧
    readFile pointSet integerText samplePath (withArtifact samplePath (some (ascii "3\nx")) none) = .error .filesystemError := by
  decide +kernel

theorem outcome {r : Except Exc Unit} {x : Except Exc Unit × Disk} {P : Disk → Prop}
    (h : x.1 = r) (hp : P x.2) : ∃ d', x = (r, d') ∧ P d' := ⟨x.2, by rw [← h], hp⟩

/-- Everything succeeds except that the payload cannot be renamed into place (operation 8). -/
def renameFails : ℕ → Fate := fun i => { noFaults i with renamed := i != 8 }

/-- C56, limit of the guarantee: when the new manifest has been published and the payload then cannot
be renamed, the write fails and the old artifact, readable before, no longer is. -/
theorem C56_late_rename_failure_destroys_old :
    ∃ d', writePayload pointSet integerText sampleBuild samplePath newPoints (some sampleMetadata)
        (startingWith (withArtifact samplePath (some (payloadText pointSet oldPoints)) none)
          renameFails) = (.error .filesystemError, d') ∧
      readFile pointSet integerText samplePath
        (withArtifact samplePath (some (payloadText pointSet oldPoints)) none) = .ok oldPoints ∧
      readFile pointSet integerText samplePath d'.fs = .error .filesystemError := by
  exact outcome (by decide +kernel) ⟨by decide +kernel, by decide +kernel⟩

/-- Removals are not carried out. -/
def removalFails : ℕ → Fate := fun i => { noFaults i with removed := false }

/-- C60, limit of the guarantee: a write without provenance over an artifact with a manifest reports
success although the old manifest could not be removed, and the artifact cannot be read. -/
theorem C60_stale_manifest_not_noticed :
    ∃ d', writePayload pointSet integerText sampleBuild samplePath oldPoints none
        (startingWith publishedSample removalFails) = (.ok (), d') ∧
      readFile pointSet integerText samplePath d'.fs = .error .filesystemError := by
  exact outcome (by decide +kernel) (by decide +kernel)

-- A crash between the two renames: the new manifest with the old payload is refused.
example : ∃ s ∈ (writePayload pointSet integerText sampleBuild samplePath newPoints
    (some sampleMetadata) (startingWith (withArtifact samplePath
      (some (payloadText pointSet oldPoints)) none) noFaults)).2.visible,
    readFile pointSet integerText samplePath s = .error .filesystemError := by decide +kernel
-- Some crash points show the old artifact, some the new one.
example : ∃ s ∈ (writePayload pointSet integerText sampleBuild samplePath newPoints
    (some sampleMetadata) (startingWith (withArtifact samplePath
      (some (payloadText pointSet oldPoints)) none) noFaults)).2.visible,
    readFile pointSet integerText samplePath s = .ok oldPoints := by decide +kernel
example : ∃ s ∈ (writePayload pointSet integerText sampleBuild samplePath newPoints
    (some sampleMetadata) (startingWith (withArtifact samplePath
      (some (payloadText pointSet oldPoints)) none) noFaults)).2.visible,
    readFile pointSet integerText samplePath s = .ok newPoints := by decide +kernel
-- A write whose stream fails half-way throws and leaves no temporary file.
example : (writePayload pointSet integerText sampleBuild samplePath newPoints none
    (startingWith (withArtifact samplePath (some (payloadText pointSet oldPoints)) none)
      (fun i => { noFaults i with interrupted := some .filesystemError,
                                  leftover := ascii "junk" }))).1 = .error .filesystemError := by
  decide +kernel

end CDT.Props
