import Verif.Spec.PowerLoss
import Verif.Lemmas.PowerLoss
import Verif.Props.Watch
/-
C110: a power loss.
-/
namespace CDT.Props
open CDT Spec

section
variable {T : Type} {codec : Codec T} {ft : FloatText} {build : BuildInfo}

/-- Reading the beginnings of a payload and of its manifest. -/
theorem read_beginnings {m : Metadata} {c c' x' : Bytes} {t u : T} {p : Path} {fs : Files} (hc : c' <+: c)
    (hx : x' <+: metadataText ft build m (payloadIntegrity c)) (hsmall : c.length < 2 ^ 64)
    (hd : DescribesArtifact codec ft (metadataText ft build m (payloadIntegrity c)) c t) (h1 : fs p = some c')
    (h2 : fs (p ++ ascii ".meta") = some x') (h : readFile codec ft p fs = .ok u) :
    c' = c ∧ parsePayload codec c = .ok u ∧
      ∃ r', readMetadata ft x' = .ok r' ∧ validateMetadata codec r' u = .ok .unit := by
  obtain ⟨c₀, g1, g2, g3⟩ := readFile_iff.1 h
  rw [h1] at g1; cases g1
  obtain ⟨r', k1, k2, k3⟩ := g3 x' h2
  obtain ⟨r, l1, l2, -⟩ := hd
  have e := cut_manifest l1 hx k1
  rw [k2, l2] at e
  obtain rfl := cut_payload hc hsmall e
  exact ⟨rfl, g2, r', k1, k3⟩

end

section
variable {M S P T I : Type} (host : Host M S P T) (F : CastFloats) [DecidableEq I] {jobs : I → Job M S}
  (hseeds : ∀ i j s, i ≠ j → (jobs i).seed F = some s → (jobs j).seed F ≠ some s)
include hseeds

/-- Next to a name that was free there is at any moment no manifest, or that of the artifact of that name. -/
theorem free_manifest {i : I} {co : Options} {cfg : SimConfig} {start : M} (ht : (jobs i).tool = .cdt)
    (hco : (jobs i).options F = some co) (hl : Launched host (jobs i).out co cfg start) (fs : Files) (schedule : List I)
    {p : Path} {x : Bytes} (hp : ArtifactName cfg.triangulation.seed p) (hfree : fs (p ++ ascii ".meta") = none)
    (hx : filesAfter host F jobs fs schedule (p ++ ascii ".meta") = some x) :
    ∃ due ∈ duties cfg, ∃ a, Truthful host cfg start due a ∧ a.path = p ∧ a.manifest = some x := by
  obtain ⟨done, h1, h2, h3, h4⟩ := C108_any_moment host F hseeds ht hco hl fs schedule
  by_cases hin : ∃ a ∈ (((started host F jobs fs).after schedule).processes i).log, a.path = p
  · obtain ⟨a, ha, rfl⟩ := hin
    have hm := (h3 _ ha).2
    obtain ⟨j, hj, rfl⟩ := List.getElem_of_mem ha
    have hlen := h2.length_eq
    have hxx := (List.forall₂_iff_get.1 h2).2 j (by rw [hlen]; exact hj) hj
    exact ⟨done[j]'(by rw [hlen]; exact hj), h1.subset (List.getElem_mem _), _, hxx, rfl, hm.symm.trans hx⟩
  · push Not at hin
    rcases h4 p hp hin with ⟨-, k1⟩ | ⟨due, a, k1, k2, rfl, k3, -⟩
    · rw [filesAfter, k1, hfree] at hx; cases hx
    · exact ⟨due, k1.subset (by simp), a, k2, rfl, k3.symm.trans hx⟩

/-- What the two files under a free name were before they were cut. -/
theorem power_loss_cdt {i : I} {co : Options} {cfg : SimConfig} {start : M} (ht : (jobs i).tool = .cdt)
    (hco : (jobs i).options F = some co) (hl : Launched host (jobs i).out co cfg start)
    (hsmall : ∀ due ∈ duties cfg, (payloadText host.codec (host.snapshot (stateAfter host cfg start due.1))).length < 2 ^ 64)
    {fs fs' : Files} {schedule : List I} (hloss : AfterPowerLoss host F jobs fs schedule fs')
    {p : Path} (hp : ArtifactName cfg.triangulation.seed p) (hfree : fs p = none) (hfree' : fs (p ++ ascii ".meta") = none)
    {x' : Bytes} (hm : fs' (p ++ ascii ".meta") = some x') {u : T} (h : readFile host.codec host.text p fs' = .ok u) :
    ∃ due ∈ duties cfg, ∃ a lo hi f,
      let t := host.snapshot (stateAfter host cfg start due.1)
      Truthful host cfg start due a ∧ a.path = p ∧
      a.manifest = some (metadataText host.text host.build (truth host cfg start due lo hi f) (payloadIntegrity (payloadText host.codec t))) ∧
      x' <+: metadataText host.text host.build (truth host cfg start due lo hi f) (payloadIntegrity (payloadText host.codec t)) ∧
      fs' p = some (payloadText host.codec t) ∧ parsePayload host.codec (payloadText host.codec t) = .ok u ∧
      ∃ r', readMetadata host.text x' = .ok r' ∧ validateMetadata host.codec r' u = .ok .unit := by
  obtain ⟨c', hc', -⟩ := readFile_iff.1 h
  obtain ⟨s1, c, -, e1, hc⟩ := hloss p c' hc'
  obtain ⟨s2, x, -, e2, hx⟩ := hloss _ x' hm
  obtain ⟨due1, d1, n1, rfl⟩ := free_payload host F hseeds ht hco hl fs s1 hp hfree e1
  obtain ⟨due, d2, a, ha, rfl, hxa⟩ := free_manifest host F hseeds ht hco hl fs s2 hp hfree' e2
  rw [named_pass host d1 d2 n1 ha.name] at hc
  obtain ⟨lo, hi, f, k1, k2, k3⟩ := ha.manifest
  obtain ⟨text, k4, k5⟩ := ha.accepted
  rw [hxa] at k3 k4
  cases k4
  cases k3
  obtain ⟨rfl, q1, q2⟩ := read_beginnings hc hx (hsmall due d2) k5 hc' hm h
  exact ⟨due, d2, a, lo, hi, f, ha, rfl, hxa, hx, hc', q1, q2⟩

omit hseeds [DecidableEq I] in
theorem due_between {out : Outside M S} {co : Options} {cfg : SimConfig} (h : ConfiguredBy out co cfg)
    {due : ℤ × ArtifactKind} (hd : due ∈ duties cfg) : 0 ≤ due.1 ∧ due.1 ≤ cfg.passes := by
  have hp := h.passes.2.1
  have hc := h.checkpoint.2.1
  unfold duties at hd
  split at hd
  · rw [List.mem_append] at hd
    rcases hd with hd | hd
    · unfold schedule at hd
      simp only [List.mem_map, List.mem_range] at hd
      obtain ⟨p, ⟨i, hi, rfl⟩, rfl⟩ := hd
      dsimp only
      have h1 : (i + 1) * cfg.checkpoint.toNat ≤ cfg.passes.toNat :=
        (Nat.mul_le_mul_right _ hi).trans (Nat.div_mul_le_self _ _)
      have h2 : ((i + 1 : ℕ) : ℤ) * (cfg.checkpoint.toNat : ℤ) = (((i + 1) * cfg.checkpoint.toNat : ℕ) : ℤ) := by push_cast; ring
      rw [h2]
      omega
    · simp only [List.mem_singleton] at hd
      subst hd
      exact ⟨by show 0 ≤ cfg.passes; omega, le_rfl⟩
  · cases hd

/-- **C110.** Power is lost while programs with different seeds are running in a directory.  What can be read
afterwards under an artifact name of a `cdt` that was free before it was started, if its manifest or a part
of it is there, is the state after the pass of that name, and the file is complete. -/
theorem C110_power_loss {i : I} {co : Options} {cfg : SimConfig} {start : M} (ht : (jobs i).tool = .cdt)
    (hco : (jobs i).options F = some co) (hl : Launched host (jobs i).out co cfg start)
    (hf : ∀ due ∈ duties cfg,
      let t := host.snapshot (stateAfter host cfg start due.1)
      Faithful host.codec t ∧ LabelsFit host.codec t ∧ (payloadText host.codec t).length < 2 ^ 64)
    {fs fs' : Files} {schedule : List I} (hloss : AfterPowerLoss host F jobs fs schedule fs')
    {p : Path} (hp : ArtifactName cfg.triangulation.seed p) (hfree : fs p = none) (hfree' : fs (p ++ ascii ".meta") = none)
    (hm : fs' (p ++ ascii ".meta") ≠ none) {u : T} (h : readFile host.codec host.text p fs' = .ok u) :
    ∃ due ∈ duties cfg,
      let t := host.snapshot (stateAfter host cfg start due.1)
      Named host (stateAfter host cfg start due.1) cfg.triangulation.seed due p ∧ u = t ∧
      fs' p = some (payloadText host.codec t) := by
  obtain ⟨x', hx'⟩ := Option.ne_none_iff_exists'.1 hm
  obtain ⟨due, hd, a, lo, hi, f, ha, rfl, -, -, h1, h2, -⟩ := power_loss_cdt host F hseeds ht hco hl
    (fun due hd => (hf due hd).2.2) hloss hp hfree hfree' hx' h
  rw [parsePayload_write (hf due hd).1 (hf due hd).2.1] at h2
  exact ⟨due, hd, ha.name, (Except.ok.inj h2).symm, h1⟩

/-- **C110.** In that case the provenance is complete too: the manifest has every line of the manifest that the
program wrote, the last one (the fingerprint of the topology) perhaps without its last digits, and it is read
as the record that the program wrote. -/
theorem C110_provenance {isDouble isLong : LD → Prop} (hft : FloatTextLawful host.text isDouble isLong)
    (hbuild : BuildLegible host.build) {i : I} {co : Options} {cfg : SimConfig} {start : M} (ht : (jobs i).tool = .cdt)
    (hco : (jobs i).options F = some co) (hl : Launched host (jobs i).out co cfg start)
    (hs : Smooth host isDouble isLong cfg start)
    (hsmall : ∀ due ∈ duties cfg, (payloadText host.codec (host.snapshot (stateAfter host cfg start due.1))).length < 2 ^ 64)
    {fs fs' : Files} {schedule : List I} (hloss : AfterPowerLoss host F jobs fs schedule fs')
    {p : Path} (hp : ArtifactName cfg.triangulation.seed p) (hfree : fs p = none) (hfree' : fs (p ++ ascii ".meta") = none)
    {x' : Bytes} (hm : fs' (p ++ ascii ".meta") = some x') {u : T} (h : readFile host.codec host.text p fs' = .ok u) :
    ∃ due ∈ duties cfg, ∃ a text recorded fields fields', Truthful host cfg start due a ∧ a.path = p ∧ a.manifest = some text ∧
      readMetadata host.text text = .ok recorded ∧ readMetadata host.text x' = .ok recorded ∧
      ManifestText text fields ∧ ManifestText x' fields' ∧
      (∀ f ∈ fields, f.1 ≠ ascii "topology.fnv1a64" → f ∈ fields') := by
  obtain ⟨due, hd, a, lo, hi, f, ha, rfl, htext, hx, h1, h2, r', h3, h4⟩ := power_loss_cdt host F hseeds ht hco hl hsmall hloss
    hp hfree hfree' hm h
  have hc := C66_configured_by hl.config
  obtain ⟨p0, p1⟩ := due_between hc hd
  have hst := hs.states _ p0 p1
  have hfl : MetadataFloats isDouble isLong (truth host cfg start due lo hi f) :=
    ⟨hst.radius.1, hst.spacing.1, by rintro x ⟨⟩; exact hs.couplings.1, by rintro x ⟨⟩; exact hs.couplings.2.1,
      by rintro x ⟨⟩; exact hs.couplings.2.2⟩
  have hmt := manifestText_write host.text host.build (truth host cfg start due lo hi f)
    (payloadIntegrity (payloadText host.codec (host.snapshot (stateAfter host cfg start due.1)))) hft hbuild hfl
  obtain ⟨more, hmore⟩ : ∃ more, presentFields (metadataFields host.text host.build (truth host cfg start due lo hi f)
      (payloadIntegrity (payloadText host.codec (host.snapshot (stateAfter host cfg start due.1))))) =
        more ++ [(ascii "topology.fnv1a64", hex16 f.toNat)] :=
    ⟨presentFields ((metadataFields host.text host.build (truth host cfg start due lo hi f)
      (payloadIntegrity (payloadText host.codec (host.snapshot (stateAfter host cfg start due.1))))).take 42), by
        rw [← show presentFields [(ascii "topology.fnv1a64", some (hex16 f.toNat))] =
          [(ascii "topology.fnv1a64", hex16 f.toNat)] from rfl]
        unfold presentFields
        rw [← List.filterMap_append]
        rfl⟩
  obtain ⟨fields', k1, k2⟩ := readMetadata_iff.1 h3
  obtain ⟨f', kf, rfl⟩ := cut_manifest_fields hmt hmore hx k1 k2
  obtain ⟨text, e, r, l1, l2, l3⟩ := ha.accepted
  rw [htext] at e; cases e
  rw [parsePayload_write hst.faithful hst.labels] at h2
  cases h2
  obtain ⟨fields, m1, m2⟩ := readMetadata_iff.1 l1
  rw [ManifestText.unique m1 hmt, hmore] at m2
  have hr : r = r' := by
    refine accepts_determines m2 k2 (fun n hn => ?_) ?_
    · have hne : (ascii n == ascii "topology.fnv1a64") = false := by
        rw [beq_eq_false_iff_ne]; exact hn
      simp only [fieldOf, List.lookup_append, List.lookup, hne]
    · unfold validateMetadata at l3 h4
      simp only [bind_ok, require_ok, decide_eq_true_eq] at l3 h4
      obtain ⟨s, g1, g2⟩ := l3
      obtain ⟨s', g1', g2'⟩ := h4
      rw [g1] at g1'; cases g1'
      rw [g2.2.2.2.2.2.2.2.2, g2'.2.2.2.2.2.2.2.2]
  refine ⟨due, hd, a, _, r, _, _, ha, rfl, htext, l1, hr ▸ h3, hmt, k1, ?_⟩
  rw [hmore]
  intro g hg hne
  rcases List.mem_append.1 hg with hg | hg
  · exact List.mem_append_left _ hg
  · rw [List.mem_singleton] at hg; exact absurd (by rw [hg]) hne

/-- **C110.** The same for the artifact of `initialize`. -/
theorem C110_power_loss_initialize {i : I} {co : Options} {tc : TriConfig} {start : M} (ht : (jobs i).tool = .«initialize»)
    (hco : (jobs i).options F = some co) (h1 : co.help = false) (h2 : co.version = false)
    (hc : initializeConfig host (jobs i).out co = .ok tc)
    (hb : (jobs i).out.construct tc.simplices tc.timeslices (Random.make host.pcg tc.seed 0) tc.initialRadius
      tc.foliationSpacing = .ok start)
    (hf : Faithful host.codec (host.snapshot start) ∧ LabelsFit host.codec (host.snapshot start) ∧
      (payloadText host.codec (host.snapshot start)).length < 2 ^ 64)
    {fs fs' : Files} {schedule : List I} (hloss : AfterPowerLoss host F jobs fs schedule fs')
    {p : Path} (hp : ArtifactName tc.seed p) (hfree : fs p = none) (hfree' : fs (p ++ ascii ".meta") = none)
    (hm : fs' (p ++ ascii ".meta") ≠ none) {u : T} (h : readFile host.codec host.text p fs' = .ok u) :
    (∃ now, p = makeFilenameSeed (nameInfo host start) tc.seed.toNat now) ∧ u = host.snapshot start ∧
      fs' p = some (payloadText host.codec (host.snapshot start)) := by
  have there : ∀ s, ∀ {q : Path} {c : Bytes}, (q = p ∨ q = p ++ ascii ".meta") → filesAfter host F jobs fs s q = some c →
      ∃ a, InitialTruthful host tc start a ∧ a.path = p ∧ some c = if q = p then a.payload else a.manifest := by
    intro s q c hq hx
    obtain ⟨-, h3, h4⟩ := C108_any_moment_initialize host F hseeds ht hco h1 h2 hc hb fs s
    have hne : p ++ ascii ".meta" ≠ p := fun e => by
      have := congrArg List.length e
      rw [List.length_append, show (ascii ".meta").length = 5 from by decide +kernel] at this
      omega
    by_cases hin : ∃ a ∈ (((started host F jobs fs).after s).processes i).log, a.path = p
    · obtain ⟨a, ha, rfl⟩ := hin
      obtain ⟨g1, g2, g3⟩ := h3 a ha
      refine ⟨a, g1, rfl, ?_⟩
      rcases hq with rfl | rfl
      · rw [if_pos rfl, ← hx]; exact g2
      · rw [if_neg hne, ← hx]; exact g3
    · push Not at hin
      rcases h4 p hp hin with ⟨k1, k2⟩ | ⟨-, a, k1, rfl, k2, k3⟩
      · rcases hq with rfl | rfl
        · rw [filesAfter, k1, hfree] at hx; cases hx
        · rw [filesAfter, k2, hfree'] at hx; cases hx
      · refine ⟨a, k1, rfl, ?_⟩
        rcases hq with rfl | rfl
        · rw [if_pos rfl]
          rcases k3 with k3 | k3
          · rw [filesAfter, k3, hfree] at hx; cases hx
          · rw [← hx]; exact k3
        · rw [if_neg hne, ← hx]; exact k2
  obtain ⟨x', hx'⟩ := Option.ne_none_iff_exists'.1 hm
  obtain ⟨c', hc', -⟩ := readFile_iff.1 h
  obtain ⟨s1, c, -, e1, g1⟩ := hloss p c' hc'
  obtain ⟨s2, x, -, e2, g2⟩ := hloss _ x' hx'
  obtain ⟨a1, b1, -, b3⟩ := there s1 (.inl rfl) e1
  rw [if_pos rfl, b1.payload] at b3
  cases b3
  obtain ⟨a, b1, rfl, b3⟩ := there s2 (.inr rfl) e2
  rw [if_neg (fun e => by
    have := congrArg List.length e
    rw [List.length_append, show (ascii ".meta").length = 5 from by decide +kernel] at this
    omega)] at b3
  obtain ⟨lo, hi, f, k1, k2, k3⟩ := b1.manifest
  obtain ⟨text, k4, k5⟩ := b1.accepted
  rw [← b3] at k3 k4
  cases k4
  cases k3
  obtain ⟨rfl, q1, -⟩ := read_beginnings g1 g2 hf.2.2 k5 hc' hx' h
  rw [parsePayload_write hf.1 hf.2.1] at q1
  exact ⟨b1.name, (Except.ok.inj q1).symm, hc'⟩

end

/-! ### A concrete power loss -/

open Fixture PipelineSample

/-- The checkpoint of `killedJobs` and its manifest when it is complete. -/
def stored : Files := filesAfter pointHost integerCasts killedJobs (fun _ => none) (List.replicate 25 false)

/-- The power loss keeps the first bytes of the checkpoint, and the first of its manifest if there is one. -/
def remains (payload : ℕ) (manifest : Option ℕ) : Files := fun p =>
  if p = checkpointName then (stored p).map (·.take payload)
  else if p = checkpointName ++ ascii ".meta" then manifest.bind fun n => (stored p).map (·.take n)
  else none

theorem remains_loss (payload : ℕ) (manifest : Option ℕ) :
    AfterPowerLoss pointHost integerCasts killedJobs (fun _ => none) (List.replicate 25 false) (remains payload manifest) := by
  intro p c' h
  unfold remains at h
  split at h
  · obtain ⟨c, hc, rfl⟩ := Option.map_eq_some_iff.1 h
    exact ⟨_, c, List.prefix_refl _, hc, List.take_prefix _ _⟩
  · split at h
    · obtain ⟨n, -, h⟩ := Option.bind_eq_some_iff.1 h
      obtain ⟨c, hc, rfl⟩ := Option.map_eq_some_iff.1 h
      exact ⟨_, c, List.prefix_refl _, hc, List.take_prefix _ _⟩
    · cases h

-- Nothing is lost: the checkpoint is read.  A byte of the payload or of the last field of the manifest is lost: it is not.
-- The line feed at the end of the manifest may be lost.
theorem remains_read :
    readFile pointSet integerText checkpointName (remains 91 (some 993)) = .ok [1, 2, 3, 4, 5, 6, 7] ∧
    readFile pointSet integerText checkpointName (remains 91 (some 992)) = .ok [1, 2, 3, 4, 5, 6, 7] ∧
    (readFile pointSet integerText checkpointName (remains 90 (some 993))).isOk = false ∧
    (readFile pointSet integerText checkpointName (remains 91 (some 991))).isOk = false ∧
    readFile pointSet integerText checkpointName (remains 1 none) = .ok [0, 0, 0, 0, 0, 0, 0] ∧
    (stored (checkpointName ++ ascii ".meta")).isSome = true := by decide +kernel

-- The hypotheses of C110_power_loss are met.
example (payload : ℕ) (n : ℕ) (u : List ℤ) (h : readFile pointSet integerText checkpointName (remains payload (some n)) = .ok u) :
    ∃ due ∈ duties pointConfig, u = stateAfter pointHost pointConfig [1, 2, 3] due.1 := by
  obtain ⟨due, hd, -, h1, -⟩ := C110_power_loss pointHost integerCasts killed_seeds rfl killed_options killed_launched
    (fun due hdue => by
      have h : due ∈ [((2 : ℤ), ArtifactKind.checkpoint), (3, .finalTriangulation)] := by
        have : ∀ d ∈ duties pointConfig, d ∈ [((2 : ℤ), ArtifactKind.checkpoint), (3, .finalTriangulation)] := by decide +kernel
        exact this due hdue
      have hs := point_smooth.states due.1 (by simp only [List.mem_cons, List.not_mem_nil, or_false] at h; rcases h with rfl | rfl <;> decide)
        (by simp only [List.mem_cons, List.not_mem_nil, or_false] at h; rcases h with rfl | rfl <;> decide)
      refine ⟨hs.faithful, hs.labels, ?_⟩
      simp only [List.mem_cons, List.not_mem_nil, or_false] at h
      rcases h with rfl | rfl <;> decide +kernel)
    (remains_loss payload (some n)) (p := checkpointName) checkpoint_artifactName rfl rfl
    (by
      obtain ⟨x, hx⟩ := Option.isSome_iff_exists.1 remains_read.2.2.2.2.2
      have hne : checkpointName ++ ascii ".meta" ≠ checkpointName := by decide +kernel
      simp [remains, hne, hx]) h
  exact ⟨due, hd, h1⟩

/-- **C110** (the manifest has to be there).  When the manifest is lost and the payload is cut before its labels,
the rest is read as a triangulation without labels. -/
theorem C110_lost_manifest :
    AfterPowerLoss pointHost integerCasts killedJobs (fun _ => none) (List.replicate 25 false) (remains 1 none) ∧
    readFile pointSet integerText checkpointName (remains 1 none) = .ok [0, 0, 0, 0, 0, 0, 0] ∧
    ∀ due ∈ duties pointConfig, stateAfter pointHost pointConfig [1, 2, 3] due.1 ≠ [0, 0, 0, 0, 0, 0, 0] := by
  refine ⟨remains_loss 1 none, remains_read.2.2.2.2.1, by decide +kernel⟩

end CDT.Props
