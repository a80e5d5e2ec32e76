import Verif.Lemmas.Killed
import Verif.Props.Whole
import Verif.Spec.Killed
/-
C108: what a program has left on disk at any moment.
-/
namespace CDT.Props
open CDT Spec

section
variable {M S P T : Type} (host : Host M S P T) (out : Outside M S)

/-- The files at some moment of `initialize`. -/
def InitialMoment (tc : TriConfig) (start : M) (before : Files) (w : Machine) : Prop :=
  (∀ a ∈ w.log, InitialTruthful host tc start a ∧ InPlace w.disk.fs a) ∧ w.log.length ≤ 1 ∧
    ∀ p, OffName p → (∀ a ∈ w.log, a.path ≠ p) → AsBefore before w.disk.fs p ∨
      w.log = [] ∧ ∃ a, InitialTruthful host tc start a ∧ a.path = p ∧ BeingPublished before w.disk.fs a

theorem initialize_moments {o : Options} {tc : TriConfig} {start : M} (h1 : o.help = false) (h2 : o.version = false)
    (hc : initializeConfig host out o = .ok tc)
    (hb : out.construct tc.simplices tc.timeslices (Random.make host.pcg tc.seed 0) tc.initialRadius
      tc.foliationSpacing = .ok start) (disk : Disk) :
    Always (InitialMoment host tc start disk.fs) (initializeSteps host out (some o)) ⟨disk, []⟩ := by
  have same : ∀ x : Machine, x.log = [] → x.disk.fs = disk.fs → InitialMoment host tc start disk.fs x := by
    intro x hl hf
    refine ⟨by simp [hl], by simp [hl], fun p _ _ => .inl ?_⟩
    rw [hf]
    exact ⟨rfl, rfl⟩
  unfold initializeSteps
  simp only [h1, h2, Bool.false_eq_true, if_false, hc]
  have key : Always (InitialMoment host tc start disk.fs) (initializeRunSteps host out (rootRandom host out o) tc o.output)
      ⟨disk, []⟩ := by
    unfold initializeRunSteps
    rw [show (rootRandom host out o).split host.pcg initializationStream =
      Random.make host.pcg tc.seed 0 by rw [initializeConfig_ok hc]; rfl]
    simp only [hb]
    split
    · rcases hmd : makeMetadata host start tc.seed .initialTriangulation with e | md
      · exact always_done (same _ rfl rfl)
      · dsimp only
        obtain ⟨ha, hs, hrec⟩ := initial_record hmd
        have hpath : ∀ path, artifactPath host start { md with desiredSimplices := tc.simplices, desiredTimeslices := tc.timeslices, maxThreads := some tc.threads } (out.now disk.clock) = .ok path →
            path = makeFilenameSeed (nameInfo host start) tc.seed.toNat (out.now disk.clock) := by
          intro path hp
          unfold artifactPath at hp
          simp only [ha, hs] at hp
          rw [if_neg (by decide)] at hp
          exact (Except.ok.inj hp).symm
        have htrue : ∀ path md', path = makeFilenameSeed (nameInfo host start) tc.seed.toNat (out.now disk.clock) →
            reconcile host.codec { md with desiredSimplices := tc.simplices, desiredTimeslices := tc.timeslices, maxThreads := some tc.threads } (host.snapshot start) = .ok md' →
            DescribesArtifact host.codec host.text (metadataText host.text host.build md'
              (payloadIntegrity (payloadText host.codec (host.snapshot start))))
              (payloadText host.codec (host.snapshot start)) (host.snapshot start) →
            InitialTruthful host tc start ⟨path, some (payloadText host.codec (host.snapshot start)),
              some (metadataText host.text host.build md' (payloadIntegrity (payloadText host.codec (host.snapshot start))))⟩ := by
          intro path md' hpe hr hdesc
          refine ⟨⟨_, hpe⟩, rfl, ?_, ⟨_, rfl, hdesc⟩⟩
          obtain ⟨f, hf, rfl⟩ := hrec _ hr
          exact ⟨_, _, f, timeBounds_range _, hf, rfl⟩
        have hrest : ∀ (s : Files) path, path = makeFilenameSeed (nameInfo host start) tc.seed.toNat (out.now disk.clock) →
            (∀ p, ¬ FilesOf path p → s p = disk.fs p) → ∀ p, OffName p → p ≠ path → AsBefore disk.fs s p := by
          intro s path hpe hsame p hp hne
          have hd := files_disjoint hp (by rw [hpe]; exact offName_seed _ _ _) hne
          exact ⟨hsame _ hd.1, hsame _ hd.2⟩
        refine writeArtifact_moments host out start _ ⟨disk, []⟩ same ?_ ?_
        · intro path md' x hp hr hl hstage
          have hpe := hpath path hp
          have hsame : ∀ p, ¬ FilesOf path p → x.disk.fs p = disk.fs p := by
            have key : ∀ {a b}, Holding path disk.fs a b x.disk.fs → ∀ p, ¬ FilesOf path p → x.disk.fs p = disk.fs p := by
              intro a b h p hp
              simp only [FilesOf, not_or] at hp
              exact h.2.2 p hp.1 hp.2.1 hp.2.2.1 hp.2.2.2
            rcases hstage with h | ⟨-, -, h | h⟩ <;> exact key h
          replace hl : x.log = [] := hl
          refine ⟨by simp [hl], by simp [hl], fun p hoff _ => ?_⟩
          by_cases hne : p = path
          · subst hne
            rcases hstage with h | ⟨-, hdesc, h | h⟩
            · exact .inl ⟨h.2.1, h.1⟩
            · exact .inr ⟨hl, _, htrue p md' hpe hr hdesc, rfl, h.1, .inl h.2.1⟩
            · exact .inr ⟨hl, _, htrue p md' hpe hr hdesc, rfl, h.1, .inr h.2.1⟩
          · exact .inl (hrest _ path hpe hsame p hoff hne)
        · intro w' hw'
          rw [writeArtifact_steps] at hw'
          rcases writeArtifact_cases host out start { md with desiredSimplices := tc.simplices, desiredTimeslices := tc.timeslices, maxThreads := some tc.threads } ⟨disk, []⟩ with
            ⟨path, md', d, hp, hr, hw, hdesc, hs1, hs2, hsame⟩ | ⟨e, d, hw, hd⟩
          · rw [hw', Prod.mk.injEq] at hw
            rw [hw.2]
            have hpe := hpath path hp
            refine ⟨?_, by simp, fun p hoff hnot => .inl (hrest _ path hpe hsame p hoff ?_)⟩
            · intro a ha
              simp only [List.nil_append, List.mem_singleton] at ha
              subst ha
              exact ⟨htrue path md' hpe hr hdesc, hs1, hs2⟩
            · intro e
              exact hnot ⟨path, some (payloadText host.codec (host.snapshot start)), _⟩ (List.mem_append_right _ (List.mem_singleton.2 rfl)) e.symm
          · rw [hw'] at hw; cases hw
    · exact always_done (same _ rfl rfl)
  refine always_follow key ?_
  have hend := always_end key
  revert hend
  rcases (initializeRunSteps host out (rootRandom host out o) tc o.output).run ⟨disk, []⟩ with ⟨r, w'⟩
  intro hend
  cases r <;> exact always_done hend

theorem artifactName_off {seed : BitVec 64} {p : Path} (h : ArtifactName seed p) : OffName p := by
  obtain ⟨i, now, h | ⟨pass, h⟩⟩ := h
  · rw [h]; exact offName_seed _ _ _
  · rw [h]; exact offName_pass _ _ _ _

theorem artifactName_own {seed : BitVec 64} {p : Path} (h : ArtifactName seed p) :
    OwnFile seed p ∧ OwnFile seed (p ++ ascii ".meta") := by
  obtain ⟨i, now, h⟩ := h
  exact ⟨⟨i, now, p, h, .inl rfl⟩, ⟨i, now, p, h, .inr (.inl rfl)⟩⟩

theorem named_artifactName {m : M} {seed : BitVec 64} {due : ℤ × ArtifactKind} {path : Path}
    (h : Named host m seed due path) : ArtifactName seed path := by
  obtain ⟨now, h⟩ := h
  refine ⟨nameInfo host m, now, ?_⟩
  rw [h]
  split
  · exact .inr ⟨_, rfl⟩
  · exact .inl rfl

end

section
variable {M S P T I : Type} (host : Host M S P T) (F : CastFloats) [DecidableEq I] (jobs : I → Job M S)

/-- In company a process sees its own names as it does alone. -/
theorem company (hseeds : ∀ i j s, i ≠ j → (jobs i).seed F = some s → (jobs j).seed F ≠ some s)
    (fs : Files) (schedule : List I) (i : I) :
    let d := (started host F jobs fs).after schedule
    ∃ n, let x := (stepN n ((jobs i).steps host F) ⟨startingWith fs (jobs i).fates, []⟩).2
      (d.processes i).log = x.log ∧ ∀ p, (jobs i).Owns F p → d.fs p = x.disk.fs p := by
  have hA : ∀ i j p, (jobs i).Owns F p → (jobs j).Owns F p → i = j := by
    rintro i j p ⟨s, hs, hp⟩ ⟨s', hs', hp'⟩
    by_contra hij
    exact hseeds i j s hij hs (by rw [ownFile_disjoint hp hp']; exact hs')
  obtain ⟨-, h1, -, -, h2⟩ := (separate (A := fun i => (jobs i).Owns F) hA (d := started host F jobs fs)
    (fun i => job_within host F (jobs i)) schedule).1 i
  exact ⟨schedule.count i, h2, h1⟩

variable {jobs} (hseeds : ∀ i j s, i ≠ j → (jobs i).seed F = some s → (jobs j).seed F ≠ some s)
include hseeds

/-- **C108.** At any moment of a run of `cdt`, in company of other processes with other seeds, some of which
(or itself) may have been killed: it has completed the first of the artifacts that are due, they are
truthful, and they are in place with their manifests; any other artifact name is untouched, except
perhaps that of the artifact that is due next, which is complete or has only its manifest yet. -/
theorem C108_any_moment {i : I} {o : Options} {cfg : SimConfig} {start : M} (ht : (jobs i).tool = .cdt)
    (ho : (jobs i).options F = some o) (h : Launched host (jobs i).out o cfg start) (fs : Files) (schedule : List I) :
    let d := (started host F jobs fs).after schedule
    ∃ done, done <+: duties cfg ∧ List.Forall₂ (Truthful host cfg start) done (d.processes i).log ∧
      (∀ a ∈ (d.processes i).log, InPlace d.fs a) ∧
      ∀ p, ArtifactName cfg.triangulation.seed p → (∀ a ∈ (d.processes i).log, a.path ≠ p) → AsBefore fs d.fs p ∨
        ∃ due a, done ++ [due] <+: duties cfg ∧ Truthful host cfg start due a ∧ a.path = p ∧ BeingPublished fs d.fs a := by
  intro d
  obtain ⟨n, hlog, hfs⟩ := company host F jobs hseeds fs schedule i
  have hseed : (jobs i).seed F = some cfg.triangulation.seed := by
    unfold Job.seed
    rw [ho, (C66_configured_by h.config).seed]
    rfl
  have hm := cdt_moments host (jobs i).out cfg start h (startingWith fs (jobs i).fates) n
  have hsteps : (jobs i).steps host F = cdtSteps host (jobs i).out (some o) := by
    unfold Job.steps; rw [ht, ho]
  rw [hsteps] at hlog hfs
  obtain ⟨done, h1, h2, h3⟩ := hm
  have own : ∀ {p}, ArtifactName cfg.triangulation.seed p →
      d.fs p = (stepN n (cdtSteps host (jobs i).out (some o)) ⟨startingWith fs (jobs i).fates, []⟩).2.disk.fs p ∧
      d.fs (p ++ ascii ".meta") =
        (stepN n (cdtSteps host (jobs i).out (some o)) ⟨startingWith fs (jobs i).fates, []⟩).2.disk.fs (p ++ ascii ".meta") :=
    fun hp => ⟨hfs _ ⟨_, hseed, (artifactName_own hp).1⟩, hfs _ ⟨_, hseed, (artifactName_own hp).2⟩⟩
  change (d.processes i).log = _ at hlog
  refine ⟨done, h1, by rw [hlog]; exact h2.truthful, ?_, ?_⟩
  · rw [hlog]
    intro a ha
    obtain ⟨x, hx, hxa⟩ : ∃ x ∈ done, Truthful host cfg start x a := by
      obtain ⟨i, hi, rfl⟩ := List.getElem_of_mem ha
      have hl := h2.truthful.length_eq
      exact ⟨done[i], List.getElem_mem _, (List.forall₂_iff_get.1 h2.truthful).2 i (by omega) hi⟩
    obtain ⟨e1, e2⟩ := own (named_artifactName host hxa.name)
    obtain ⟨s1, s2⟩ := h2.stored a ha
    exact ⟨e1.trans s1, e2.trans s2⟩
  · rw [hlog]
    intro p hp hnot
    obtain ⟨e1, e2⟩ := own hp
    rcases h3 p (artifactName_off hp) hnot with ⟨k1, k2⟩ | ⟨due, a, k1, k2, rfl, k3, k4⟩
    · exact .inl ⟨e1.trans k1, e2.trans k2⟩
    · refine .inr ⟨due, a, k1, k2, rfl, e2.trans k3, ?_⟩
      rcases k4 with k4 | k4
      · exact .inl (e1.trans k4)
      · exact .inr (e1.trans k4)

/-- **C108.** The same for `initialize`. -/
theorem C108_any_moment_initialize {i : I} {o : Options} {tc : TriConfig} {start : M} (ht : (jobs i).tool = .«initialize»)
    (ho : (jobs i).options F = some o) (h1 : o.help = false) (h2 : o.version = false)
    (hc : initializeConfig host (jobs i).out o = .ok tc)
    (hb : (jobs i).out.construct tc.simplices tc.timeslices (Random.make host.pcg tc.seed 0) tc.initialRadius
      tc.foliationSpacing = .ok start) (fs : Files) (schedule : List I) :
    let d := (started host F jobs fs).after schedule
    (d.processes i).log.length ≤ 1 ∧
      (∀ a ∈ (d.processes i).log, InitialTruthful host tc start a ∧ InPlace d.fs a) ∧
      ∀ p, ArtifactName tc.seed p → (∀ a ∈ (d.processes i).log, a.path ≠ p) → AsBefore fs d.fs p ∨
        (d.processes i).log = [] ∧ ∃ a, InitialTruthful host tc start a ∧ a.path = p ∧ BeingPublished fs d.fs a := by
  intro d
  obtain ⟨n, hlog, hfs⟩ := company host F jobs hseeds fs schedule i
  have hseed : (jobs i).seed F = some tc.seed := by
    unfold Job.seed
    rw [ho]
    unfold initializeConfig at hc
    simp only [bind_ok] at hc
    obtain ⟨N, -, T', -, hc⟩ := hc
    rw [(makeTriangulation_ok hc).1]
    rfl
  have hm := initialize_moments host (jobs i).out h1 h2 hc hb (startingWith fs (jobs i).fates) n
  have hsteps : (jobs i).steps host F = initializeSteps host (jobs i).out (some o) := by
    unfold Job.steps; rw [ht, ho]
  rw [hsteps] at hlog hfs
  obtain ⟨m1, m2, m3⟩ := hm
  have own : ∀ {p}, ArtifactName tc.seed p →
      d.fs p = (stepN n (initializeSteps host (jobs i).out (some o)) ⟨startingWith fs (jobs i).fates, []⟩).2.disk.fs p ∧
      d.fs (p ++ ascii ".meta") =
        (stepN n (initializeSteps host (jobs i).out (some o)) ⟨startingWith fs (jobs i).fates, []⟩).2.disk.fs (p ++ ascii ".meta") :=
    fun hp => ⟨hfs _ ⟨_, hseed, (artifactName_own hp).1⟩, hfs _ ⟨_, hseed, (artifactName_own hp).2⟩⟩
  change (d.processes i).log = _ at hlog
  rw [hlog]
  refine ⟨m2, fun a ha => ?_, fun p hp hnot => ?_⟩
  · obtain ⟨ht, hi1, hi2⟩ := m1 a ha
    obtain ⟨now, hn⟩ := ht.name
    obtain ⟨e1, e2⟩ := own (p := a.path) ⟨_, now, .inl hn⟩
    exact ⟨ht, e1.trans hi1, e2.trans hi2⟩
  · obtain ⟨e1, e2⟩ := own hp
    rcases m3 p (artifactName_off hp) hnot with ⟨k1, k2⟩ | ⟨k0, a, k1, rfl, k3, k4⟩
    · exact .inl ⟨e1.trans k1, e2.trans k2⟩
    · refine .inr ⟨k0, a, k1, rfl, e2.trans k3, ?_⟩
      rcases k4 with k4 | k4
      · exact .inl (e1.trans k4)
      · exact .inr (e1.trans k4)

/-- **C108.** Reading at any moment: an artifact that has been completed is read back as the state of its
pass; and what can be read under a name that was free before the run is the state of a pass that is
due. -/
theorem C108_readable {i : I} {o : Options} {cfg : SimConfig} {start : M} (ht : (jobs i).tool = .cdt)
    (ho : (jobs i).options F = some o) (h : Launched host (jobs i).out o cfg start)
    (hf : ∀ due ∈ duties cfg, Faithful host.codec (host.snapshot (stateAfter host cfg start due.1)) ∧
      LabelsFit host.codec (host.snapshot (stateAfter host cfg start due.1))) (fs : Files) (schedule : List I) :
    let d := (started host F jobs fs).after schedule
    (∀ a ∈ (d.processes i).log, ∃ due ∈ duties cfg, Truthful host cfg start due a ∧
      readFile host.codec host.text a.path d.fs = .ok (host.snapshot (stateAfter host cfg start due.1))) ∧
    ∀ p t, ArtifactName cfg.triangulation.seed p → fs p = none → readFile host.codec host.text p d.fs = .ok t →
      ∃ due ∈ duties cfg, t = host.snapshot (stateAfter host cfg start due.1) := by
  intro d
  obtain ⟨done, h1, h2, h3, h4⟩ := C108_any_moment host F hseeds ht ho h fs schedule
  have member : ∀ a ∈ (d.processes i).log, ∃ x ∈ done, Truthful host cfg start x a := by
    intro a ha
    obtain ⟨j, hj, rfl⟩ := List.getElem_of_mem ha
    have hl := h2.length_eq
    exact ⟨done[j]'(by rw [hl]; exact hj), List.getElem_mem _, (List.forall₂_iff_get.1 h2).2 j (by rw [hl]; exact hj) hj⟩
  constructor
  · intro a ha
    obtain ⟨x, hx, hxa⟩ := member a ha
    obtain ⟨e1, e2⟩ := h3 a ha
    obtain ⟨text, htx, hd⟩ := hxa.accepted
    refine ⟨x, h1.subset hx, hxa, ?_⟩
    refine readFile_iff.2 ⟨_, e1.trans hxa.payload,
      parsePayload_write (hf x (h1.subset hx)).1 (hf x (h1.subset hx)).2, fun Mf hM => ?_⟩
    have e : d.fs (a.path ++ ascii ".meta") = some Mf := hM
    rw [show d.fs (a.path ++ ascii ".meta") = _ from e2, htx] at e
    cases e
    exact hd
  · intro p t hp hfree hread
    obtain ⟨c, hc, hparse, -⟩ := readFile_iff.1 hread
    have new : ∀ due a, due ∈ duties cfg → Truthful host cfg start due a → d.fs p = a.payload →
        ∃ due ∈ duties cfg, t = host.snapshot (stateAfter host cfg start due.1) := by
      intro due a hdue ha hpay
      rw [ha.payload, hc] at hpay
      rw [Option.some.inj hpay, parsePayload_write (hf due hdue).1 (hf due hdue).2] at hparse
      exact ⟨due, hdue, (Except.ok.inj hparse).symm⟩
    by_cases hin : ∃ a ∈ (d.processes i).log, a.path = p
    · obtain ⟨a, ha, rfl⟩ := hin
      obtain ⟨x, hx, hxa⟩ := member a ha
      exact new x a (h1.subset hx) hxa (h3 a ha).1
    · push Not at hin
      rcases h4 p hp hin with ⟨k1, -⟩ | ⟨due, a, k1, k2, rfl, -, k4 | k4⟩
      · rw [show d.fs p = _ from k1, hfree] at hc; cases hc
      · rw [show d.fs a.path = _ from k4, hfree] at hc; cases hc
      · exact new due a (k1.subset (by simp)) k2 k4

end
section
variable {V S T I : Type} [LinearOrder V] [DecidableEq I] {base : Host (Mfld V) S Mp T} {env : Env V (Random S)} {R : Rounding}
  {drawMove : Random S → Fin 5 × Random S} {drawTrial : Random S → LD × Random S} {value : BitVec 64 → ℚ}
  {snapshot : Tri V → T} {o : Options} {cfg : SimConfig} {start : Mfld V} {F : CastFloats} {jobs : I → Job (Mfld V) S}

/-- **C108** for the assembled program: whatever can be read, at any moment, under an artifact name that was
free before the run, is a triangulation whose tetrahedra are all causal and labelled by their type, with
the slices of the initial universe. -/
theorem C108_causal (hseeds : ∀ i j s, i ≠ j → (jobs i).seed F = some s → (jobs j).seed F ≠ some s)
    (ho : Ordinary env R drawTrial o) {i : I} (ht : (jobs i).tool = .cdt) (hopt : (jobs i).options F = some o)
    (h : Launched (assembled base env R drawMove drawTrial value snapshot) (jobs i).out o cfg start) (hs : Fit env start)
    (htame : Tame env (assembled base env R drawMove drawTrial value snapshot) cfg start)
    (hf : ∀ due ∈ duties cfg,
      let K := (stateAfter (assembled base env R drawMove drawTrial value snapshot) cfg start due.1).tri
      Faithful base.codec (snapshot K) ∧ LabelsFit base.codec (snapshot K) ∧
        Depicts (base.codec.view (snapshot K)) K) (fs : Files) (schedule : List I) :
    let host := assembled base env R drawMove drawTrial value snapshot
    let d := (started host F jobs fs).after schedule
    ∀ p t, ArtifactName cfg.triangulation.seed p → fs p = none → readFile host.codec host.text p d.fs = .ok t →
      CausalFile (host.codec.view t) ∧
      Set.range (host.codec.view t).vinfo = (slices start.tri.inf start.tri.time start.tri.cells : Set ℤ) := by
  intro host d p t hp hfree hread
  have hw := (whole_trajectory ho h hs htame).1
  have hc := C66_configured_by h.config
  obtain ⟨due, hdue, rfl⟩ := (C108_readable host F hseeds ht hopt h
    (fun due hdue => ⟨(hf due hdue).1, (hf due hdue).2.1⟩) fs schedule).2 p t hp hfree hread
  obtain ⟨p0, p1⟩ := duties_between hc hdue
  have hn := hw _ p0 p1
  have hd := (hf due hdue).2.2
  refine ⟨causalFile_of hd hn.fit.sound, ?_⟩
  rw [← hn.preserved.slices]
  exact depicted_slices hd

end

/-! ### Concrete processes -/

open Fixture

/-- A simulation and an initialization. -/
def killedJobs : Bool → Job (List ℤ) (BitVec 64 × BitVec 64)
  | false => pointJob "92" 1
  | true => pointInitialize "14"

def killedOptions : Options := ((pointJob "92" 1).options integerCasts).getD {}

theorem killed_options : (killedJobs false).options integerCasts = some killedOptions := by
  have h : ((pointJob "92" 1).options integerCasts).isSome = true := by decide +kernel
  obtain ⟨o, ho⟩ := Option.isSome_iff_exists.1 h
  show (pointJob "92" 1).options integerCasts = some (((pointJob "92" 1).options integerCasts).getD {})
  rw [ho]; rfl

theorem killed_launched : Launched pointHost (killedJobs false).out killedOptions pointConfig [1, 2, 3] :=
  ⟨by decide +kernel, by decide +kernel, by decide +kernel, rfl⟩

theorem killed_seeds : ∀ i j s, i ≠ j → (killedJobs i).seed integerCasts = some s →
    (killedJobs j).seed integerCasts ≠ some s := by
  have h : ∀ i j, i ≠ j → (killedJobs i).seed integerCasts ≠ (killedJobs j).seed integerCasts := by decide +kernel
  exact fun i j s hij hi hj => h i j hij (hi.trans hj.symm)

-- C108 about these: what can be read at any moment under a free name is the state after a pass due.
example (schedule : List Bool) (p : Path) (t : List ℤ) (hp : ArtifactName 92 p)
    (h : readFile pointSet integerText p ((started pointHost integerCasts killedJobs fun _ => none).after schedule).fs = .ok t) :
    t = [1, 2, 3, 4, 5, 6, 7] ∨ t = stateAfter pointHost pointConfig [1, 2, 3] 3 := by
  have hd : duties pointConfig = [(2, .checkpoint), (3, .finalTriangulation)] := by decide +kernel
  obtain ⟨due, hdue, rfl⟩ := (C108_readable pointHost integerCasts killed_seeds rfl killed_options killed_launched
    (fun due hdue => by
      rw [hd] at hdue
      have : due.1 = 2 ∨ due.1 = 3 := by
        simp only [List.mem_cons, List.not_mem_nil, or_false] at hdue
        rcases hdue with rfl | rfl <;> simp
      have hs := point_smooth.states due.1 (by omega) (show due.1 ≤ 3 by omega)
      exact ⟨hs.faithful, hs.labels⟩) (fun _ => none) schedule).2 p t hp rfl h
  rw [hd] at hdue
  simp only [List.mem_cons, List.not_mem_nil, or_false] at hdue
  rcases hdue with rfl | rfl
  · exact .inl (by decide +kernel)
  · exact .inr rfl
-- A kill between the two renames: the manifest of the checkpoint is there, the checkpoint is not, and cannot be read.
example :
    let d := (started pointHost integerCasts killedJobs (fun _ => none)).after (true :: List.replicate 20 false)
    let p := ascii "S3-7-0-I1.000000-R1.000000-2026-01-02.03-04-00UTC-seed-92-pass-2.off"
    d.fs p = none ∧ (d.fs (p ++ ascii ".meta")).isSome ∧ (readFile pointSet integerText p d.fs).isOk = false ∧
      (d.processes false).log = [] := by decide +kernel
-- One access later it can.
example :
    let d := (started pointHost integerCasts killedJobs (fun _ => none)).after (true :: List.replicate 21 false)
    let p := ascii "S3-7-0-I1.000000-R1.000000-2026-01-02.03-04-00UTC-seed-92-pass-2.off"
    readFile pointSet integerText p d.fs = .ok [1, 2, 3, 4, 5, 6, 7] := by decide +kernel
-- The initialization at its end.
example :
    let d := (started pointHost integerCasts killedJobs (fun _ => none)).after (List.replicate 30 true)
    (d.processes true).log.map Written.payload = [some (payloadText pointSet [1, 2, 3])] := by decide +kernel

end CDT.Props
