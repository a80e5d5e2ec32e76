import Verif.Spec.ManifestLines
import Verif.Props.Restart
/-
C112: every line of a manifest says what it should.
-/
namespace CDT.Props
open CDT Spec

theorem textOf_cons (l : Bytes) (ls : List Bytes) : textOf (l :: ls) = l ++ newline :: textOf ls := by
  simp [textOf]

/-- One `name=value` line per field. -/
theorem fieldLines_text (fields : List (Bytes × Bytes)) :
    fieldLines fields = textOf (fields.map fun f => f.1 ++ equalsSign :: f.2) := by
  induction fields with
  | nil => rfl
  | cons f fields ih =>
    obtain ⟨n, v⟩ := f
    rw [List.map_cons, textOf_cons, ← ih]
    simp [fieldLines]

theorem metadataText_lines (ft : FloatText) (b : BuildInfo) (m : Metadata) (p : PayloadIntegrity) :
    metadataText ft b m p =
      textOf (metadataHeader :: (presentFields (metadataFields ft b m p)).map fun f => f.1 ++ equalsSign :: f.2) := by
  unfold metadataText
  rw [textOf_cons, fieldLines_text]

theorem tells_eq (n : String) (v : Bytes) : ascii n ++ equalsSign :: v = tells n v := by
  simp [tells, show ascii "=" = [equalsSign] by decide +kernel]

theorem present_some (n v : Bytes) (r : List (Bytes × Option Bytes)) :
    presentFields ((n, some v) :: r) = (n, v) :: presentFields r := rfl
theorem present_none (n : Bytes) (r : List (Bytes × Option Bytes)) :
    presentFields ((n, none) :: r) = presentFields r := rfl
theorem present_nil : presentFields [] = [] := rfl

theorem decimalInt_natCast (n : ℕ) : decimalInt (n : ℤ) = decimal n := by
  simp [decimalInt, show ¬((n : ℤ) < 0) by omega]

theorem fixed_lines :
    tells "resume_supported" (ascii "false") = ascii "resume_supported=false" ∧
    tells "fresh_topology_replay_supported" (ascii "false") = ascii "fresh_topology_replay_supported=false" ∧
    tells "transition_replay_requires_identical_start" (ascii "true") =
      ascii "transition_replay_requires_identical_start=true" ∧
    tells "build.cxx_standard" (ascii "23") = ascii "build.cxx_standard=23" ∧
    tells "random.engine" (ascii "pcg64") = ascii "random.engine=pcg64" ∧
    tells "random.initialization_stream" (decimal 0) = ascii "random.initialization_stream=0" ∧
    tells "random.transition_stream" (decimal 1) = ascii "random.transition_stream=1" ∧
    tells "topology" (topologyName .spherical) = ascii "topology=spherical" ∧
    tells "artifact" (artifactName .initialTriangulation) = ascii "artifact=initial-triangulation" ∧
    tells "artifact" (artifactName .checkpoint) = ascii "artifact=checkpoint" ∧
    tells "artifact" (artifactName .finalTriangulation) = ascii "artifact=final-triangulation" := by decide +kernel

section
variable {M S P T : Type} {host : Host M S P T} {out : Outside M S} {F : CastFloats} {cfg : SimConfig} {start : M}

theorem cdt_lines (due : ℤ × ArtifactKind) (lo hi : ℤ) (f : BitVec 64) (hk : due.2 ≠ .initialTriangulation) :
    metadataText host.text host.build (truth host cfg start due lo hi f)
      (payloadIntegrity (payloadText host.codec (host.snapshot (stateAfter host cfg start due.1)))) =
    textOf (cdtManifestLines host cfg start due lo hi f) := by
  rw [metadataText_lines]
  refine congrArg textOf ?_
  obtain ⟨h1, h2, h3, h4, h5, h6, h7, h8, h9, h10, h11⟩ := fixed_lines
  have ha : tells "artifact" (artifactName due.2) =
      if due.2 = .checkpoint then ascii "artifact=checkpoint" else ascii "artifact=final-triangulation" := by
    cases h : due.2 with
    | initialTriangulation => exact absurd h hk
    | checkpoint => simpa using h10
    | finalTriangulation => simpa using h11
  simp only [metadataFields, truth, Option.map_some, Option.map_none, present_some, present_none, present_nil,
    List.map_cons, List.map_nil, tells_eq, ha, h1, h2, h3, h4, h5, h6, h7, h8, decimalInt_natCast]
  rfl

theorem initial_lines (tc : TriConfig) (lo hi : ℤ) (f : BitVec 64) :
    metadataText host.text host.build (initialTruth host tc start lo hi f)
      (payloadIntegrity (payloadText host.codec (host.snapshot start))) =
    textOf (initialManifestLines host tc start lo hi f) := by
  rw [metadataText_lines]
  refine congrArg textOf ?_
  obtain ⟨h1, h2, h3, h4, h5, h6, h7, h8, h9, h10, h11⟩ := fixed_lines
  simp only [metadataFields, initialTruth, Option.map_some, Option.map_none, present_some, present_none, present_nil,
    List.map_cons, List.map_nil, tells_eq, h1, h2, h3, h4, h5, h6, h7, h8, h9, decimalInt_natCast]
  rfl

theorem duties_kind {due : ℤ × ArtifactKind} (h : due ∈ duties cfg) : due.2 ≠ .initialTriangulation := by
  unfold duties at h
  split at h
  · simp only [List.mem_append, List.mem_map, List.mem_singleton] at h
    rcases h with ⟨p, -, rfl⟩ | rfl <;> simp
  · simp at h

/-- **C112.** Whatever the command line, the directory, the entropy and the faults: the manifest of every
artifact that `cdt` has written consists of exactly the lines `cdtManifestLines`, with the values of the options
(and the drawn seed if none was given), of the pass after which it was written, of the state after that pass and of
the transitions made until then. -/
theorem C112_cdt {words : List Bytes} {disk : Disk} {a : Written}
    (ha : a ∈ (cdtProgram host out F words disk).2.log) :
    ∃ o cfg start due lo hi f, readCommandLine cdtTable F words = some o ∧ ConfiguredBy out o cfg ∧
      Launched host out o cfg start ∧ due ∈ duties cfg ∧
      LabelRange (host.codec.view (host.snapshot (stateAfter host cfg start due.1))) lo hi ∧
      topologyFingerprint (host.codec.view (host.snapshot (stateAfter host cfg start due.1))) = .ok f ∧
      a.payload = some (payloadText host.codec (host.snapshot (stateAfter host cfg start due.1))) ∧
      a.manifest = some (textOf (cdtManifestLines host cfg start due lo hi f)) := by
  unfold cdtProgram at ha
  cases hr : readCommandLine cdtTable F words with
  | none => rw [hr] at ha; simp [C66_nothing_written (o := {})] at ha
  | some o =>
    rw [hr] at ha
    obtain ⟨cfg, start, hl, due, hdue, hT⟩ := written_launched ha
    obtain ⟨lo, hi, f, h1, h2, h3⟩ := hT.manifest
    exact ⟨o, cfg, start, due, lo, hi, f, rfl, C66_configured_by hl.config, hl, hdue, h1, h2, hT.payload,
      h3.trans (congrArg some (cdt_lines due lo hi f (duties_kind hdue)))⟩

/-- **C112.** The same for `initialize`. -/
theorem C112_initialize {words : List Bytes} {disk : Disk} {a : Written}
    (ha : a ∈ (initializeProgram host out F words disk).2.log) :
    ∃ o tc start lo hi f, readCommandLine initializeTable F words = some o ∧
      initializeConfig host out o = .ok tc ∧ o.simplices = some tc.simplices ∧ o.timeslices = some tc.timeslices ∧
      tc.seed = o.seed.getD out.entropy ∧ o.threads = tc.threads ∧
      out.construct tc.simplices tc.timeslices (Random.make host.pcg tc.seed 0) tc.initialRadius tc.foliationSpacing =
        .ok start ∧
      LabelRange (host.codec.view (host.snapshot start)) lo hi ∧
      topologyFingerprint (host.codec.view (host.snapshot start)) = .ok f ∧
      a.payload = some (payloadText host.codec (host.snapshot start)) ∧
      a.manifest = some (textOf (initialManifestLines host tc start lo hi f)) := by
  unfold initializeProgram at ha
  cases hr : readCommandLine initializeTable F words with
  | none => rw [hr] at ha; simp [initializeMain] at ha
  | some o =>
    rw [hr] at ha
    obtain ⟨tc, start, hc, hb, hT⟩ := initialize_wrote ha
    obtain ⟨-, -, -, k1, k2, -, -, k3, k4, -⟩ := initializeConfig_facts hc
    obtain ⟨lo, hi, f, h1, h2, h3⟩ := hT.manifest
    exact ⟨o, tc, start, lo, hi, f, rfl, hc, k1, k2, k3, k4, hb, h1, h2, hT.payload,
      h3.trans (congrArg some (initial_lines tc lo hi f))⟩

end

/-! ### A concrete manifest -/

open Fixture

-- The run of C106 writes two artifacts: the checkpoint after its second pass and the final triangulation.
example : (cdtProgram pointHost (pointOutside 92) integerCasts pointWords goodDisk).2.log.map
      (fun a => (((a.manifest.getD []).splitOn newline).drop 20).take 21) =
    [["topology=spherical", "dimension=3", "desired.simplices=640", "desired.timeslices=4", "actual.vertices=7",
      "actual.edges=0", "actual.faces=0", "actual.simplices=0", "actual.minimum_timeslice=1",
      "actual.maximum_timeslice=7", "initial_radius=1", "foliation_spacing=1", "alpha=1", "k=2", "lambda=3",
      "configured_passes=3", "checkpoint_interval=2", "completed_passes=2", "parallel.max_threads=1",
      "transition_trace.fnv1a64=2b800d85b54b33a5", "transition_trace.count=8"].map ascii,
     ["topology=spherical", "dimension=3", "desired.simplices=640", "desired.timeslices=4", "actual.vertices=11",
      "actual.edges=0", "actual.faces=0", "actual.simplices=0", "actual.minimum_timeslice=1",
      "actual.maximum_timeslice=11", "initial_radius=1", "foliation_spacing=1", "alpha=1", "k=2", "lambda=3",
      "configured_passes=3", "checkpoint_interval=2", "completed_passes=3", "parallel.max_threads=1",
      "transition_trace.fnv1a64=b988ce7c3a1cf49e", "transition_trace.count=15"].map ascii] := by
  decide +kernel
-- `initialize` writes one.
example : (initializeProgram pointHost (pointOutside 5) integerCasts startWords goodDisk).2.log.map
      (fun a => (((a.manifest.getD []).splitOn newline).drop 3).take 1) = [[ascii "artifact=initial-triangulation"]] := by
  decide +kernel

end CDT.Props
