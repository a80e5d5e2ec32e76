import Verif.Lemmas.StorageRead
import Verif.Lemmas.MetadataText
/-
A write succeeds when no operation fails.
-/
namespace CDT
open Spec

variable {T : Type} {codec : Codec T} {ft : FloatText} {build : BuildInfo} {dest : Path} {t : T}

theorem writeWhole_ok {p : Path} {c : Bytes} {d : Disk} (h : NoFaults d.fates) :
    ∃ d', Io.writeWhole p c d = (.ok (), d') ∧ d'.fates = d.fates ∧ d'.fs p = some c ∧
      ∀ q, q ≠ p → d'.fs q = d.fs q := by
  obtain ⟨h1, -, -, h4⟩ := h d.clock
  rcases writeWhole_run p c d with ⟨d', e, q, hw⟩ | ⟨e, d', he, -⟩
  · exact ⟨d', e, q.fates, hw, fun x hx => q.fs x hx⟩
  · exfalso
    obtain ⟨d1, e1, -⟩ := putAll_run p (d.fates d.clock).partials
      (Io.put p (some []) { d with clock := d.clock + 1 }).2
    simp only [Io.put] at e1
    simp only [Io.writeWhole, Io.bind_run, Io.nextFate, h1, if_true, h4, Io.put, e1] at he
    simp at he

theorem readWhole_ok {p : Path} {c : Bytes} {d : Disk} (h : NoFaults d.fates)
    (hc : d.fs p = some c) : Io.readWhole p d = (.ok c, { d with clock := d.clock + 1 }) := by
  obtain ⟨h1, -, -, -⟩ := h d.clock
  simp only [Io.readWhole, Io.bind_run, Io.nextFate, Io.look, hc, h1, if_true, Io.pure_run]

theorem rename_ok {a b : Path} {c : Bytes} {d : Disk} (h : NoFaults d.fates)
    (hc : d.fs a = some c) : ∃ d', Io.rename a b d = (.ok (), d') ∧ d'.fates = d.fates ∧
      d'.fs = (d.fs.put b (some c)).put a none := by
  obtain ⟨-, -, h3, -⟩ := h d.clock
  simp only [Io.rename, Io.bind_run, Io.nextFate, Io.look, hc, h3, if_true]
  exact ⟨_, rfl, rfl, rfl⟩

theorem validateSerialized_ok (hf : Faithful codec t) (hl : LabelsFit codec t) {f : BitVec 64}
    (ht : topologyFingerprint (codec.view t) = .ok f) :
    validateSerialized codec (payloadText codec t) t = .ok .unit := by
  simp only [validateSerialized, parsePayload_write hf hl, ht, bind, Except.bind, require, and_self,
    decide_true, if_true]

theorem validateMetadata_reconciled {m m' : Metadata} (p : PayloadIntegrity)
    (h : reconcile codec m t = .ok m') :
    validateMetadata codec (recordedValues m' p) t = .ok .unit := by
  unfold reconcile at h
  cases hs : deriveState codec t with
  | error e => simp [hs, bind, Except.bind] at h
  | ok s =>
    simp only [hs, bind, Except.bind, pure, Except.pure, Except.ok.injEq] at h
    subst h
    simp [validateMetadata, hs, bind, Except.bind, recordedValues, require]

theorem topology_of_reconcile {m m' : Metadata} (h : reconcile codec m t = .ok m') :
    ∃ f, topologyFingerprint (codec.view t) = .ok f := by
  unfold reconcile deriveState at h
  cases hs : topologyFingerprint (codec.view t) with
  | ok f => exact ⟨f, rfl⟩
  | error e =>
    exfalso
    simp only [bind, Except.bind, hs] at h
    revert h
    cases narrow32 (codec.view t).nv <;> cases narrow32 (codec.edges t) <;>
      cases narrow32 (codec.facets t) <;> cases narrow32 (codec.view t).nc <;> simp

/-- Without faults the `try` block succeeds. -/
theorem writeBody_ok (hf : Faithful codec t) (hl : LabelsFit codec t) {f : BitVec 64}
    (ht : topologyFingerprint (codec.view t) = .ok f) {resolved : Option Metadata}
    (hm : ∀ m ∈ resolved, readMetadata ft (metadataText ft build m
        (payloadIntegrity (payloadText codec t))) =
          .ok (recordedValues m (payloadIntegrity (payloadText codec t))) ∧
      validateMetadata codec (recordedValues m (payloadIntegrity (payloadText codec t))) t =
        .ok .unit)
    {d : Disk} (h : NoFaults d.fates) :
    ∃ d', writeBody codec ft build dest t resolved d = (.ok (), d') := by
  rw [writeBody_eq]
  obtain ⟨d1, e1, f1, w1, -⟩ := writeWhole_ok (p := temporaryName dest) (c := payloadText codec t) h
  rw [← f1] at h
  simp only [Io.bind_run, e1, readWhole_ok h w1, Io.lift_run, validateSerialized_ok hf hl ht]
  generalize hd2 : ({ d1 with clock := d1.clock + 1 } : Disk) = d2
  have h2 : NoFaults d2.fates := by subst hd2; exact h
  have w2 : d2.fs (temporaryName dest) = some (payloadText codec t) := by subst hd2; exact w1
  cases resolved with
  | none =>
    obtain ⟨d3, e3, -⟩ := rename_ok (b := dest) h2 w2
    simp only [Io.bind_run, e3]
    obtain ⟨d4, e4, -⟩ := remove_run (manifestName dest) d3
    exact ⟨d4, e4⟩
  | some m =>
    obtain ⟨hm1, hm2⟩ := hm m rfl
    simp only [Io.bind_run, publishManifest, readWhole_ok h2 w2]
    generalize hd3 : ({ d2 with clock := d2.clock + 1 } : Disk) = d3
    have h3 : NoFaults d3.fates := by subst hd3; exact h2
    have w3 : d3.fs (temporaryName dest) = some (payloadText codec t) := by subst hd3; exact w2
    obtain ⟨d4, e4, f4, w4, o4⟩ := writeWhole_ok (p := temporaryName (manifestName dest))
      (c := metadataText ft build m (payloadIntegrity (payloadText codec t))) h3
    rw [← f4] at h3
    have w3' := (o4 _ (name_metatmp_ne_tmp dest).symm).trans w3
    simp only [e4, readWhole_ok h3 w4, Io.lift_run, hm1, hm2, require, recordedValues, decide_true,
      if_true]
    simp only [recordedValues] at hm2
    simp only [hm2]
    generalize hd5 : ({ d4 with clock := d4.clock + 1 } : Disk) = d5
    have h5 : NoFaults d5.fates := by subst hd5; exact h3
    have w5 : d5.fs (temporaryName (manifestName dest)) =
      some (metadataText ft build m (payloadIntegrity (payloadText codec t))) := by
      subst hd5; exact w4
    have w5' : d5.fs (temporaryName dest) = some (payloadText codec t) := by
      subst hd5; exact w3'
    obtain ⟨d6, e6, f6, w6⟩ := rename_ok (b := manifestName dest) h5 w5
    rw [← f6] at h5
    simp only [e6]
    have w7 : d6.fs (temporaryName dest) = some (payloadText codec t) := by
      rw [w6, Files.put_other _ (name_metatmp_ne_tmp dest).symm,
        Files.put_other _ (name_meta_ne_tmp dest).symm]
      exact w5'
    obtain ⟨d8, e8, -⟩ := rename_ok (b := dest) h5 w7
    exact ⟨d8, e8⟩

theorem writePayload_plain_ok (hf : Faithful codec t) (hl : LabelsFit codec t) {f : BitVec 64}
    (ht : topologyFingerprint (codec.view t) = .ok f) {d : Disk} (h : NoFaults d.fates) :
    ∃ d', writePayload codec ft build dest t none d = (.ok (), d') := by
  obtain ⟨d1, e1, q1, -⟩ := removeTemps_run dest d
  have h1 : NoFaults d1.fates := by rw [q1.fates]; exact h
  obtain ⟨d2, e2⟩ := writeBody_ok (ft := ft) (build := build) (dest := dest) (resolved := none)
    hf hl ht (by simp) h1
  refine ⟨d2, ?_⟩
  simp only [writePayload, Io.bind_run, Io.lift_run] at e1 ⊢
  revert e1
  cases Io.remove (temporaryName dest) d with
  | mk r d3 =>
    cases r with
    | error e => simp
    | ok u =>
      dsimp only
      intro e1
      rw [e1]
      simp only [Io.tryRethrow, e2]

theorem writePayload_manifest_ok (hf : Faithful codec t) (hl : LabelsFit codec t)
    {m m' : Metadata} (hres : reconcile codec m t = .ok m')
    (hm : readMetadata ft (metadataText ft build m' (payloadIntegrity (payloadText codec t))) =
      .ok (recordedValues m' (payloadIntegrity (payloadText codec t))))
    {d : Disk} (h : NoFaults d.fates) :
    ∃ d', writePayload codec ft build dest t (some m) d = (.ok (), d') := by
  obtain ⟨f, ht⟩ := topology_of_reconcile hres
  obtain ⟨d1, e1, q1, -⟩ := removeTemps_run dest d
  have h1 : NoFaults d1.fates := by rw [q1.fates]; exact h
  obtain ⟨d2, e2⟩ := writeBody_ok (ft := ft) (build := build) (dest := dest) (resolved := some m')
    hf hl ht (fun k hk => by
      cases hk
      exact ⟨hm, validateMetadata_reconciled _ hres⟩) h1
  refine ⟨d2, ?_⟩
  simp only [writePayload, Io.bind_run, Io.lift_run, hres, Except.map] at e1 ⊢
  revert e1
  cases Io.remove (temporaryName dest) d with
  | mk r d3 =>
    cases r with
    | error e => simp
    | ok u =>
      dsimp only
      intro e1
      rw [e1]
      simp only [Io.tryRethrow, e2]

end CDT
