/-
C64-C68: the programs `cdt` and `initialize`.
-/
import Verif.Lemmas.ProgramLive
import Verif.Props.Random
import Verif.Props.Storage
import Verif.Lemmas.StorageRead

namespace CDT.Props
open CDT Spec

variable {M S P T : Type} {host : Host M S P T} {out out₁ out₂ : Outside M S} {o : Options}
  {cfg : SimConfig} {start : M}

/-! ### Accepted configurations -/

theorem required_ok {α : Type} {e : Exc} {x : Option α} {y : α}
    (h : given e x = .ok y) : x = some y := by
  cases x with
  | none => cases h
  | some z => cases h; rfl

/-- C66: what an accepted configuration holds. -/
theorem C66_configured_by (h : cdtConfig host out o = .ok cfg) : ConfiguredBy out o cfg := by
  unfold cdtConfig at h
  simp only [bind_ok] at h
  obtain ⟨a, h1, k, h2, l, h3, N, h4, T', h5, t, h6, h⟩ := h
  have h1 := required_ok h1; have h2 := required_ok h2; have h3 := required_ok h3
  have h4 := required_ok h4; have h5 := required_ok h5
  obtain ⟨ha, hk, hl, hp, hc, rfl⟩ := (C47_simulation_iff _ _ _ _ _ _ _ _).1 h
  have htop : o.spherical = true ∧ o.toroidal = false := by
    unfold RuntimeConfig.makeTriangulation at h6
    simp only [bind_ok] at h6
    obtain ⟨top, h7, -⟩ := h6
    revert h7
    cases o.spherical <;> cases o.toroidal <;> simp [RuntimeConfig.selectTopology]
  have hdim : o.dimensions = 3 := by
    unfold RuntimeConfig.makeTriangulation at h6
    simp only [bind_ok] at h6
    obtain ⟨top, -, N1, -, T1, -, d1, hd, h6⟩ := h6
    obtain ⟨-, rfl⟩ := checkedInt_ok.1 hd
    split at h6
    · cases h6
    · omega
  obtain ⟨rfl, hN, hT, hth⟩ := makeTriangulation_ok h6
  exact { topology := ⟨htop.1, htop.2, rfl⟩, simplices := ⟨h4, hN⟩, timeslices := ⟨h5, hT⟩,
          dimensions := ⟨hdim, rfl⟩, radius := rfl, spacing := rfl, seed := rfl,
          threads := ⟨by dsimp only; omega, hth⟩, alpha := ⟨h1, ha⟩, k := ⟨h2, hk⟩, lambda := ⟨h3, hl⟩,
          passes := ⟨rfl, hp⟩, checkpoint := ⟨rfl, hc⟩, output := rfl }

theorem rootRandom_eq (h : cdtConfig host out o = .ok cfg) :
    rootRandom host out o = Random.make host.pcg cfg.triangulation.seed 0 := by
  rw [(C66_configured_by h).seed]; rfl

/-- What `cdt` does once launched. -/
theorem cdtMain_launched (h : Launched host out o cfg start) (disk : Disk) :
    ∃ status w done, cdtMain host out (some o) disk = (status, w) ∧ done <+: duties cfg ∧
      LogOk host cfg start disk done w ∧ (status = 0 ∨ status = 1) ∧
      (status = 0 → done = duties cfg ∧ host.valid (stateAfter host cfg start cfg.passes) = true) := by
  have hc := C66_configured_by h.config
  have hN := hc.simplices.2.1; have hT := hc.timeslices.2.1; have hP := hc.passes.2.1; have hC := hc.checkpoint.2.1
  obtain ⟨r, w, done, h1, h2, h3, h4⟩ := cdtRun_log host out cfg start (rootRandom_eq h.config)
    (by omega) (by omega) hC hP h.built disk
  unfold cdtMain
  simp only [h.help, h.version, Bool.false_eq_true, if_false, h.config, h1]
  cases r with
  | error e => exact ⟨1, w, done, rfl, h2, h3, .inr rfl, by simp⟩
  | ok u => exact ⟨0, w, done, rfl, h2, h3, .inl rfl, fun _ => h4 rfl⟩

/-! ### C64 -/

/-- C64: whatever the file system does, every artifact `cdt` has finished writing is one that was
due, in order: named for its state, seed and pass, its payload the state after that many passes, and
its manifest the truth about it: seed, streams, couplings and cadence of the run, the requested and
actual size, the passes and transitions made, and the fingerprint of their history.  When `cdt`
reports success, nothing that was due is missing and the final state is valid. -/
theorem C64_provenance_true (h : Launched host out o cfg start) (disk : Disk) :
    ∃ done, done <+: duties cfg ∧
      List.Forall₂ (Truthful host cfg start) done (cdtMain host out (some o) disk).2.log ∧
      ((cdtMain host out (some o) disk).1 = 0 →
        done = duties cfg ∧ host.valid (stateAfter host cfg start cfg.passes) = true) := by
  obtain ⟨s, w, done, h1, h2, h3, -, h4⟩ := cdtMain_launched h disk
  rw [h1]
  exact ⟨done, h2, h3.truthful, h4⟩

/-! ### C65 -/

/-- C65: at the end of a run every artifact it has finished writing is still there as it was
written, no later artifact having replaced it, and no file outside the run's own names has changed. -/
theorem C65_artifacts_persist (h : Launched host out o cfg start) (disk : Disk) :
    let w := (cdtMain host out (some o) disk).2
    (∀ a ∈ w.log, w.disk.fs a.path = a.payload ∧ w.disk.fs (a.path ++ ascii ".meta") = a.manifest) ∧
    ∀ p, ¬ OwnFile cfg.triangulation.seed p → w.disk.fs p = disk.fs p := by
  obtain ⟨s, w, done, h1, h2, h3, -, h4⟩ := cdtMain_launched h disk
  rw [h1]
  exact ⟨h3.stored, h3.others⟩

/-- C65: reading any of them back at the end of the run returns the state after its pass. -/
theorem C65_artifacts_readable (h : Launched host out o cfg start) (disk : Disk)
    (hf : ∀ due ∈ duties cfg, Faithful host.codec (host.snapshot (stateAfter host cfg start due.1)) ∧
      LabelsFit host.codec (host.snapshot (stateAfter host cfg start due.1))) :
    let w := (cdtMain host out (some o) disk).2
    ∀ a ∈ w.log, ∃ due ∈ duties cfg,
      readFile host.codec host.text a.path w.disk.fs = .ok (host.snapshot (stateAfter host cfg start due.1)) := by
  obtain ⟨s, w, done, h1, h2, h3, -, h4⟩ := cdtMain_launched h disk
  rw [h1]
  intro w' a ha
  obtain ⟨x, hx, hxa⟩ : ∃ x ∈ done, Truthful host cfg start x a := by
    obtain ⟨i, hi, rfl⟩ := List.getElem_of_mem ha
    have hl := h3.truthful.length_eq
    have hi' : i < w.log.length := hi
    exact ⟨done[i], List.getElem_mem _, (List.forall₂_iff_get.1 h3.truthful).2 i (by omega) hi⟩
  refine ⟨x, h2.subset hx, ?_⟩
  obtain ⟨e1, e2⟩ := h3.stored a ha
  obtain ⟨text, ht, hd⟩ := hxa.accepted
  refine readFile_iff.2 ⟨_, e1.trans hxa.payload, parsePayload_write (hf x (h2.subset hx)).1 (hf x (h2.subset hx)).2, fun Mf hM => ?_⟩
  have e : w.disk.fs (manifestName a.path) = some Mf := hM
  rw [e2, ht] at e
  cases e
  exact hd

/-! ### C66 -/

/-- C66: the exit status is 0 or 1. -/
theorem C66_exit_status (parsed : Option Options) (disk : Disk) :
    (cdtMain host out parsed disk).1 = 0 ∨ (cdtMain host out parsed disk).1 = 1 := by
  unfold cdtMain
  split
  · exact .inr rfl
  · split
    · exact .inl rfl
    · split
      · exact .inl rfl
      · split
        · exact .inr rfl
        · split
          · exact .inr rfl
          · exact .inl rfl

/-- C66: help and version succeed; an unparsable command line, a refused configuration, and a
universe that cannot be built fail.  In all of these cases nothing is written. -/
theorem C66_nothing_written (disk : Disk) :
    cdtMain host out none disk = (1, ⟨disk, []⟩) ∧
    (o.help = true ∨ o.version = true → cdtMain host out (some o) disk = (0, ⟨disk, []⟩)) ∧
    (o.help = false → o.version = false → (∀ cfg start, ¬ Launched host out o cfg start) →
      cdtMain host out (some o) disk = (1, ⟨disk, []⟩)) := by
  refine ⟨rfl, ?_, ?_⟩
  · rintro (h | h)
    · unfold cdtMain; simp [h]
    · unfold cdtMain; simp [h]
  · intro h1 h2 h
    unfold cdtMain
    simp only [h1, h2, Bool.false_eq_true, if_false]
    rcases hc : cdtConfig host out o with e | cfg
    · rfl
    · dsimp only
      rcases hb : out.construct cfg.triangulation.simplices cfg.triangulation.timeslices
        (Random.make host.pcg cfg.triangulation.seed 0) cfg.triangulation.initialRadius
        cfg.triangulation.foliationSpacing with e | start
      · have : cdtRun host out (rootRandom host out o) cfg ⟨disk, []⟩ = (.error e, ⟨disk, []⟩) := by
          unfold cdtRun
          rw [show (rootRandom host out o).split host.pcg initializationStream =
            Random.make host.pcg cfg.triangulation.seed 0 by rw [rootRandom_eq hc]; rfl]
          simp only [hb]
        rw [this]
      · exact absurd ⟨h1, h2, hc, hb⟩ (h cfg start)

/-- C66: success means that help or version was asked for, or that the whole run was made: the
options were valid, the initial universe was built from them, and the final state is valid. -/
theorem C66_success_means (disk : Disk) (h : (cdtMain host out (some o) disk).1 = 0) :
    o.help = true ∨ o.version = true ∨ ∃ cfg start, Launched host out o cfg start ∧
      ConfiguredBy out o cfg ∧ host.valid (stateAfter host cfg start cfg.passes) = true := by
  by_cases h1 : o.help = true
  · exact .inl h1
  by_cases h2 : o.version = true
  · exact .inr (.inl h2)
  refine .inr (.inr ?_)
  by_contra hcon
  rw [Bool.not_eq_true] at h1 h2
  by_cases hl : ∃ cfg start, Launched host out o cfg start
  · obtain ⟨cfg, start, hl⟩ := hl
    obtain ⟨s, w, done, e, -, -, -, h4⟩ := cdtMain_launched hl disk
    rw [e] at h
    exact hcon ⟨cfg, start, hl, C66_configured_by hl.config, (h4 h).2⟩
  · have := (C66_nothing_written (host := host) (out := out) (o := o) disk).2.2 h1 h2
      (fun cfg start hl' => hl ⟨cfg, start, hl'⟩)
    rw [this] at h
    cases h

theorem cfgBounds (h : ConfiguredBy out o cfg) : CfgBounds cfg where
  simplices := by have := h.simplices.2; omega
  timeslices := by have := h.timeslices.2; omega
  threads := by have := h.threads; omega
  passes := by have := h.passes.2; omega
  checkpoint := by have := h.checkpoint.2; omega
  alpha := h.alpha.2
  k := h.k.2
  lambda := h.lambda.2

/-- C66: `cdt` reports success when nothing goes wrong: if its configuration is accepted, its
universe is built, no transition throws, every state can be stored, the final state is valid and no
file operation fails, then the program's own checks reject none of the artifacts it writes. -/
theorem C66_succeeds {isDouble isLong : LD → Prop} (hft : FloatTextLawful host.text isDouble isLong)
    (hbuild : BuildLegible host.build) (h : Launched host out o cfg start)
    (hs : Smooth host isDouble isLong cfg start) {disk : Disk} (hd : NoFaults disk.fates) :
    (cdtMain host out (some o) disk).1 = 0 := by
  have hc := C66_configured_by h.config
  have hN := hc.simplices.2.1; have hT := hc.timeslices.2.1
  obtain ⟨w, hw⟩ := cdtRun_succeeds host out cfg start hft hbuild (cfgBounds hc) hs (rootRandom_eq h.config)
    (by omega) (by omega) h.built hd
  unfold cdtMain
  simp only [h.help, h.version, Bool.false_eq_true, if_false, h.config, hw]

theorem runLoop_quiet (eng : MetroEngine M (Random S) P) (rec : Metadata) (cad : Cadence) (w0 : Machine)
    (n k : ℕ) (v : RunVars M RunStats) (g : Random S) :
    (runLoop (metroOps eng (Sampler.output host out rec)) cad false n (k : ℤ) v (g, w0)).2.2 = w0 := by
  have key : ∀ (k : ℤ) v (w : Random S × Machine),
      (runPass (metroOps eng (Sampler.output host out rec)) cad false k v w).2.2 = w.2 := by
    rintro k v ⟨g, w⟩
    unfold runPass metroOps metroPass
    dsimp only
    rcases passLoop eng _ _ with ⟨r, v'⟩
    cases r with
    | error e => rfl
    | ok u =>
      dsimp only
      split
      · rfl
      · rfl
  rcases runLoop_cases (metroOps eng (Sampler.output host out rec)) cad false (fun _ _ w => w.2 = w0) (fun _ w => w.2 = w0)
    (fun k v w v' w' hi hr => by have := key ((k : ℤ) + 1) v w; rw [hr] at this; exact this.trans hi)
    (fun k v w e w' hi hr => by have := key ((k : ℤ) + 1) v w; rw [hr] at this; exact this.trans hi)
    n k v (g, w0) rfl with ⟨v', w', h1, h2⟩ | ⟨e, w', j, h1, -, h2⟩
  · rw [h1]; exact h2
  · rw [h1]; exact h2

/-- C66: with `--no-output`, `cdt` writes nothing, whatever happens. -/
theorem C66_no_output (hno : o.noOutput = true) (disk : Disk) :
    (cdtMain host out (some o) disk).2 = ⟨disk, []⟩ := by
  by_cases h1 : o.help = true
  · rw [(C66_nothing_written disk).2.1 (.inl h1)]
  by_cases h2 : o.version = true
  · rw [(C66_nothing_written disk).2.1 (.inr h2)]
  rw [Bool.not_eq_true] at h1 h2
  by_cases hl : ∃ cfg start, Launched host out o cfg start
  swap
  · rw [(C66_nothing_written disk).2.2 h1 h2 fun cfg start hl' => hl ⟨cfg, start, hl'⟩]
  obtain ⟨cfg, start, hl⟩ := hl
  have hc := C66_configured_by hl.config
  have hw : cfg.writeFiles = false := by rw [hc.output, hno]; rfl
  have main : (cdtRun host out (rootRandom host out o) cfg ⟨disk, []⟩).2 = ⟨disk, []⟩ := by
    unfold cdtRun
    rw [show (rootRandom host out o).split host.pcg initializationStream =
      Random.make host.pcg cfg.triangulation.seed 0 by rw [rootRandom_eq hl.config]; rfl]
    simp only [hl.built]
    rcases hs : cdtSampler host (rootRandom host out o) cfg start with e | sampler
    · rfl
    · have hN := hc.simplices.2.1; have hT := hc.timeslices.2.1
      obtain ⟨-, s2, -⟩ := cdtSampler_ok host (by rw [rootRandom_eq hl.config]; rfl) (by omega) (by omega) hs
      dsimp only
      have hq := runLoop_quiet (host := host) (out := out) (host.engine sampler.parameters)
        sampler.reproducibility sampler.strategy.cadence ⟨disk, []⟩ sampler.strategy.cadence.passes.toNat 0
        ⟨start, {}, { geometry := (host.engine sampler.parameters).geometry start }, 0⟩ sampler.strategy.gen
      have hr := sampler_run host out sampler start ⟨disk, []⟩
      rw [show sampler.strategy.writesFiles = false by rw [s2]; exact hw] at hr
      simp only [Nat.cast_zero] at hq
      rcases hx : runLoop (metroOps (host.engine sampler.parameters) (Sampler.output host out sampler.reproducibility))
        sampler.strategy.cadence false sampler.strategy.cadence.passes.toNat 0
        ⟨start, {}, { geometry := (host.engine sampler.parameters).geometry start }, 0⟩
        (sampler.strategy.gen, ⟨disk, []⟩) with ⟨r, g, w'⟩
      rw [hx] at hq hr
      dsimp only at hq
      subst hq
      cases r with
      | error e => rw [hr]
      | ok v =>
        rw [hr]
        dsimp only
        split
        · rfl
        · rw [if_neg (by simp [hw])]
  unfold cdtMain
  simp only [hl.help, hl.version, Bool.false_eq_true, if_false, hl.config]
  rcases hx : cdtRun host out (rootRandom host out o) cfg ⟨disk, []⟩ with ⟨r, w⟩
  rw [hx] at main
  cases r <;> exact main

/-! ### C67 -/

theorem labelRange_unique {t : Stored} {lo hi lo' hi' : ℤ} (h : LabelRange t lo hi) (h' : LabelRange t lo' hi') :
    lo = lo' ∧ hi = hi' := by
  have hne : ∀ x, IsLeast (Set.range t.vinfo) x → t.nv ≠ 0 := by
    rintro x ⟨⟨i, -⟩, -⟩ h0
    have := i.2; omega
  rcases h with ⟨h0, rfl, rfl⟩ | ⟨h1, h2⟩
  · rcases h' with ⟨-, rfl, rfl⟩ | ⟨h3, -⟩
    · exact ⟨rfl, rfl⟩
    · exact absurd h0 (hne _ h3)
  · rcases h' with ⟨h0, -, -⟩ | ⟨h3, h4⟩
    · exact absurd h0 (hne _ h1)
    · exact ⟨h1.unique h3, h2.unique h4⟩

theorem truthful_same {due : ℤ × ArtifactKind} {a b : Written} (ha : Truthful host cfg start due a)
    (hb : Truthful host cfg start due b) : SameButTime a b := by
  obtain ⟨lo, hi, f, h1, h2, h3⟩ := ha.manifest
  obtain ⟨lo', hi', f', k1, k2, k3⟩ := hb.manifest
  obtain ⟨rfl, rfl⟩ := labelRange_unique h1 k1
  rw [h2] at k2
  cases k2
  obtain ⟨n, hn⟩ := ha.name
  obtain ⟨n', hn'⟩ := hb.name
  refine ⟨ha.payload.trans hb.payload.symm, h3.trans k3.symm, nameInfo host (stateAfter host cfg start due.1), cfg.triangulation.seed.toNat, n, n', ?_⟩
  obtain ⟨p, kind⟩ := due
  cases kind with
  | checkpoint => exact .inr ⟨p, hn, hn'⟩
  | initialTriangulation => exact .inl ⟨hn, hn'⟩
  | finalTriangulation => exact .inl ⟨hn, hn'⟩

/-- The configuration recorded by a run is accepted again with the recorded seed, whatever the
operating system's entropy. -/
theorem C67_recorded_seed (h : cdtConfig host out₁ o = .ok cfg) :
    cdtConfig host out₂ { o with seed := some cfg.triangulation.seed } = .ok cfg := by
  have hs := (C66_configured_by h).seed
  have e : (rootRandom host out₂ { o with seed := some cfg.triangulation.seed }).seed = (rootRandom host out₁ o).seed := by
    show (cfg.triangulation.seed : BitVec 64) = o.seed.getD out₁.entropy
    exact hs
  unfold cdtConfig at h ⊢
  rw [e]
  exact h

theorem prefix_related {α β : Type} {R : α → β → Prop} {Q : β → β → Prop}
    (hQ : ∀ x a b, R x a → R x b → Q a b) : ∀ {xs ys : List α} {as bs : List β}, xs <+: ys →
    List.Forall₂ R xs as → List.Forall₂ R ys bs → List.Forall₂ Q as (bs.take as.length)
  | [], _, _, _, _, .nil, _ => by simp
  | x :: xs, ys, _, bs, h, .cons h1 h2, h3 => by
    obtain ⟨zs, rfl⟩ := h
    cases h3 with
    | cons h4 h5 =>
      simp only [List.length_cons, List.take_succ_cons]
      exact .cons (hQ _ _ _ h1 h4) (prefix_related hQ (List.prefix_append xs zs) h2 h5)

/-- C67: replaying a run from its recorded seed.  If the second execution, with whatever entropy,
clock and files, starts from the same universe, then as far as both have written artifacts these have
the same contents, byte for byte, and the same names up to the time of writing; if both succeed they
have written equally many. -/
theorem C67_replay (h : Launched host out₁ o cfg start)
    (hb : out₂.construct cfg.triangulation.simplices cfg.triangulation.timeslices
      (Random.make host.pcg cfg.triangulation.seed 0) cfg.triangulation.initialRadius
      cfg.triangulation.foliationSpacing = .ok start) (disk₁ disk₂ : Disk) :
    let x := cdtMain host out₁ (some o) disk₁
    let y := cdtMain host out₂ (some { o with seed := some cfg.triangulation.seed }) disk₂
    let n := min x.2.log.length y.2.log.length
    List.Forall₂ SameButTime (x.2.log.take n) (y.2.log.take n) ∧
      (x.1 = 0 → y.1 = 0 → x.2.log.length = y.2.log.length) := by
  have h' : Launched host out₂ { o with seed := some cfg.triangulation.seed } cfg start :=
    ⟨h.help, h.version, C67_recorded_seed h.config, hb⟩
  obtain ⟨s, w, done, e, h2, h3, -, h4⟩ := cdtMain_launched h disk₁
  obtain ⟨s', w', done', e', k2, k3, -, k4⟩ := cdtMain_launched h' disk₂
  rw [e, e']
  dsimp only
  refine ⟨?_, fun h0 h0' => ?_⟩
  · have l1 := h3.truthful.length_eq
    have l2 := k3.truthful.length_eq
    rcases List.prefix_or_prefix_of_prefix h2 k2 with hp | hp
    · have hle := hp.length_le
      have := prefix_related (Q := SameButTime) (fun x a b ha hb => truthful_same (due := x) ha hb) hp h3.truthful k3.truthful
      rw [min_eq_left (by omega), List.take_of_length_le (le_refl _)]
      exact this
    · have hle := hp.length_le
      have := prefix_related (Q := fun b a => SameButTime a b) (fun x a b ha hb => truthful_same (due := x) hb ha) hp k3.truthful h3.truthful
      rw [min_eq_right (by omega), List.take_of_length_le (l := w'.log) (le_refl _)]
      exact this.flip
  · rw [← h3.truthful.length_eq, ← k3.truthful.length_eq, (h4 h0).1, (k4 h0').1]

/-! ### C68 -/

/-- The configuration `initialize` accepts is the one `cdt` uses for the same options. -/
theorem C68_same_configuration (h : cdtConfig host out o = .ok cfg) :
    initializeConfig host out o = .ok cfg.triangulation := by
  have hc := C66_configured_by h
  unfold cdtConfig at h
  simp only [bind_ok] at h
  obtain ⟨a, h1, k, h2, l, h3, N, h4, T', h5, t, h6, h⟩ := h
  obtain ⟨-, -, -, -, -, rfl⟩ := (C47_simulation_iff _ _ _ _ _ _ _ _).1 h
  unfold initializeConfig
  simp only [bind_ok]
  exact ⟨N, h4, T', h5, h6⟩

theorem initializeConfig_ok {tc : TriConfig} (h : initializeConfig host out o = .ok tc) :
    rootRandom host out o = Random.make host.pcg tc.seed 0 := by
  unfold initializeConfig at h
  simp only [bind_ok] at h
  obtain ⟨N, -, T', -, h⟩ := h
  obtain ⟨rfl, -⟩ := makeTriangulation_ok h
  rfl

theorem initial_record {tc : TriConfig} {md : Metadata}
    (h : makeMetadata host start tc.seed .initialTriangulation = .ok md) :
    md.artifact = .initialTriangulation ∧ md.seed = tc.seed.toNat ∧
    ∀ md', reconcile host.codec { md with desiredSimplices := tc.simplices, desiredTimeslices := tc.timeslices, maxThreads := some tc.threads } (host.snapshot start) = .ok md' →
      ∃ f, topologyFingerprint (host.codec.view (host.snapshot start)) = .ok f ∧
        md' = initialTruth host tc start (timeBounds (host.codec.view (host.snapshot start))).1
          (timeBounds (host.codec.view (host.snapshot start))).2 f := by
  unfold makeMetadata at h
  simp only [bind_ok] at h
  obtain ⟨f0, -, h⟩ := h
  cases h
  refine ⟨rfl, rfl, fun md' h => ?_⟩
  obtain ⟨f, hf, rfl⟩ := reconcile_ok h
  exact ⟨f, hf, rfl⟩

/-- C68: `initialize` writes only with `--output`; then, if it succeeds, exactly one artifact, whose
payload is the universe built from stream 0 of the seed and whose manifest is the truth about it. If
it fails it has finished no artifact.  It changes no file outside its own names. -/
theorem C68_initialize {tc : TriConfig} (h1 : o.help = false) (h2 : o.version = false)
    (hc : initializeConfig host out o = .ok tc)
    (hb : out.construct tc.simplices tc.timeslices (Random.make host.pcg tc.seed 0) tc.initialRadius
      tc.foliationSpacing = .ok start) (disk : Disk) :
    let x := initializeMain host out (some o) disk
    (o.output = false → x = (0, ⟨disk, []⟩)) ∧
    (o.output = true → (x.1 = 0 ∧ ∃ a, x.2.log = [a] ∧ InitialTruthful host tc start a ∧
        x.2.disk.fs a.path = a.payload ∧ x.2.disk.fs (a.path ++ ascii ".meta") = a.manifest) ∨
      (x.1 = 1 ∧ x.2.log = [])) ∧
    ∀ p, ¬ OwnFile tc.seed p → x.2.disk.fs p = disk.fs p := by
  dsimp only
  unfold initializeMain
  simp only [h1, h2, Bool.false_eq_true, if_false, hc]
  unfold initializeRun
  rw [show (rootRandom host out o).split host.pcg initializationStream =
    Random.make host.pcg tc.seed 0 by rw [initializeConfig_ok hc]; rfl]
  simp only [hb]
  cases ho : o.output with
  | false =>
    refine ⟨fun _ => rfl, ?_, fun _ _ => rfl⟩
    intro h
    cases h
  | true =>
    refine ⟨fun h => (by cases h), ?_⟩
    simp only [if_true]
    rcases hmd : makeMetadata host start tc.seed .initialTriangulation with e | md
    · exact ⟨fun _ => .inr ⟨rfl, rfl⟩, fun _ _ => rfl⟩
    · dsimp only
      obtain ⟨ha, hs, hrec⟩ := initial_record hmd
      have hpath : ∀ path, artifactPath host start { md with desiredSimplices := tc.simplices, desiredTimeslices := tc.timeslices, maxThreads := some tc.threads } (out.now disk.clock) = .ok path →
          path = makeFilenameSeed (nameInfo host start) tc.seed.toNat (out.now disk.clock) := by
        intro path hp
        unfold artifactPath at hp
        simp only [ha, hs] at hp
        rw [if_neg (by decide)] at hp
        exact (Except.ok.inj hp).symm
      rcases writeArtifact_cases host out start { md with desiredSimplices := tc.simplices, desiredTimeslices := tc.timeslices, maxThreads := some tc.threads } ⟨disk, []⟩ with
        ⟨path, md', d, hp, hr, hw, hdesc, hs1, hs2, hsame⟩ | ⟨e, d, hw, hd⟩
      · have hpe := hpath path hp
        rw [hw]
        dsimp only
        refine ⟨fun _ => .inl ⟨rfl, _, rfl, ⟨⟨_, hpe⟩, rfl, ?_, ⟨_, rfl, hdesc⟩⟩, hs1, hs2⟩, fun p hp' => ?_⟩
        · obtain ⟨f, hf, rfl⟩ := hrec _ hr
          exact ⟨_, _, f, timeBounds_range _, hf, rfl⟩
        · exact hsame p fun hfile => hp' (ownFile_seed (by rw [← hpe]; exact hfile))
      · rw [hw]
        dsimp only
        refine ⟨fun _ => .inr ⟨rfl, rfl⟩, fun p hp' => ?_⟩
        rcases hd with rfl | ⟨path, hp, hsame⟩
        · rfl
        · have hpe := hpath path hp
          exact hsame p fun hfile => hp' (ownFile_seed (by rw [← hpe]; exact hfile))

/-- C68: with the same options, `initialize --output` writes the universe from which `cdt` starts. -/
theorem C68_same_universe (h : Launched host out o cfg start) (ho : o.output = true) (disk : Disk)
    (hok : (initializeMain host out (some o) disk).1 = 0) :
    ∃ a, (initializeMain host out (some o) disk).2.log = [a] ∧
      a.payload = some (payloadText host.codec (host.snapshot (stateAfter host cfg start 0))) := by
  rcases (C68_initialize h.help h.version (C68_same_configuration h.config) h.built disk).2.1 ho with
    ⟨-, a, h1, h2, -⟩ | ⟨h1, -⟩
  · exact ⟨a, h1, h2.payload⟩
  · rw [hok] at h1; cases h1

/-! ### A concrete program -/

open Fixture

/-- A program whose universes are labelled points.  A (2,3) or (4,4) move adds a point. -/
def pointHost : Host (List ℤ) (BitVec 64 × BitVec 64) ℚ (List ℤ) where
  pcg := toyPcg
  floats := exactFloats
  parallel := false
  codec := pointSet
  text := integerText
  build := sampleBuild
  snapshot := id
  summary m := ⟨m.length, 0, 0, 0, 1, m.length, 1, 1⟩
  valid _ := true
  engine _ :=
    { propose := fun mv m g => match mv with
        | .twoThree | .fourFour => (.ok (.ok (m ++ [(m.length : ℤ) + 1])), g)
        | _ => (.ok (.error .noCandidate), g)
      check := fun _ _ _ => true
      geometry := fun m => { N3 := m.length }
      prob := fun _ _ _ => .ok 1
      probGe := fun p u => decide (u ≤ p)
      drawMove := fun g => (⟨(g.draw toyPcg).1.toNat % 5, Nat.mod_lt _ (by norm_num)⟩, (g.draw toyPcg).2)
      drawTrial := fun g => (.fin 0, g)
      n3 := fun m => m.length }

def pointOutside (entropy : BitVec 64) : Outside (List ℤ) (BitVec 64 × BitVec 64) where
  entropy := entropy
  now i := ⟨2026, 1, 2, 3, 4, i⟩
  construct _ _ _ _ _ := .ok [1, 2, 3]

def pointOptions : Options :=
  { spherical := true, simplices := some 640, timeslices := some 4, alpha := some (.fin 1),
    k := some (.fin 2), lambda := some (.fin 3), passes := 3, checkpoint := 2 }

def pointConfig : SimConfig :=
  ⟨⟨.spherical, 640, 4, 3, .fin 1, .fin 1, 92, 1⟩, .fin 1, .fin 2, .fin 3, 3, 2, true⟩

/-- Without `--seed`, the operating system's entropy is the seed. -/
theorem point_launched : Launched pointHost (pointOutside 92) pointOptions pointConfig [1, 2, 3] :=
  ⟨rfl, rfl, by decide +kernel, rfl⟩

theorem point_storable {l : List ℤ} (h : l.length < 2 ^ 31) (hl : ∀ i ∈ l, -2 ^ 31 ≤ i ∧ i < 2 ^ 31) :
    Storable pointHost IntegralValue l where
  faithful := pointSet_faithful l (by omega)
  labels := pointSet_labels hl (show l.length < 2 ^ 64 by omega)
  counts := ⟨h, show 0 < 2 ^ 31 by decide, show 0 < 2 ^ 31 by decide, show 0 < 2 ^ 31 by decide⟩
  dimension := rfl
  fingerprint := pointSet_topology l
  radius := by
    change IntegralValue (.fin 1) ∧ (0 : ℚ) ≤ 1
    exact ⟨by rintro q ⟨rfl⟩; simp only [IsInt32]; decide, by decide⟩
  spacing := by
    change IntegralValue (.fin 1) ∧ (0 : ℚ) < 1
    exact ⟨by rintro q ⟨rfl⟩; simp only [IsInt32]; decide, by decide⟩

theorem point_smooth : Smooth pointHost IntegralValue IntegralValue pointConfig [1, 2, 3] where
  transitions j hj := by
    have key : ∀ j ∈ List.range (transitionsAfter pointHost pointConfig [1, 2, 3] pointConfig.passes),
        Except.isOk (sampleTransition (engineOf pointHost pointConfig)
          ⟨(trajectory (engineOf pointHost pointConfig) j (origin pointHost pointConfig [1, 2, 3])).1, {}, {},
            (trajectory (engineOf pointHost pointConfig) j (origin pointHost pointConfig [1, 2, 3])).2⟩).1 = true := by
      decide +kernel
    have := key j (List.mem_range.2 hj)
    revert this
    generalize (sampleTransition (engineOf pointHost pointConfig) _).1 = r
    cases r with
    | ok r => exact fun _ => ⟨r, rfl⟩
    | error e => intro h; cases h
  few := by decide +kernel
  states p h0 h1 := by
    have key : ∀ p ∈ [(0 : ℤ), 1, 2, 3], (stateAfter pointHost pointConfig [1, 2, 3] p).length < 2 ^ 31 ∧
        ∀ i ∈ stateAfter pointHost pointConfig [1, 2, 3] p, -2 ^ 31 ≤ i ∧ i < 2 ^ 31 := by decide +kernel
    have hp : p ∈ [(0 : ℤ), 1, 2, 3] := by
      have : p ≤ 3 := h1
      simp only [List.mem_cons, List.not_mem_nil, or_false]; omega
    exact point_storable (key p hp).1 (key p hp).2
  couplings := by
    refine ⟨?_, ?_, ?_⟩ <;> (rintro q ⟨rfl⟩; simp only [IsInt32]; decide)
  valid := rfl

/-- A working file system, and one on which the sixteenth operation fails. -/
def goodDisk : Disk := ⟨fun _ => none, [], noFaults, 0⟩
def badDisk : Disk := ⟨fun _ => none, [], fun i => { noFaults i with renamed := i != 16 }, 0⟩

-- C66 and C64: the run succeeds and leaves a checkpoint and the final state, all as due.
example : (cdtMain pointHost (pointOutside 92) (some pointOptions) goodDisk).1 = 0 :=
  C66_succeeds integerText_lawful sampleBuild_legible point_launched point_smooth noFaults_noFaults
example : duties pointConfig = [(2, .checkpoint), (3, .finalTriangulation)] ∧
    (cdtMain pointHost (pointOutside 92) (some pointOptions) goodDisk).2.log.map Written.path =
      [ascii "S3-7-0-I1.000000-R1.000000-2026-01-02.03-04-00UTC-seed-92-pass-2.off",
       ascii "S3-11-0-I1.000000-R1.000000-2026-01-02.03-04-09UTC-seed-92.off"] := by decide +kernel
example : stateAfter pointHost pointConfig [1, 2, 3] 2 = [1, 2, 3, 4, 5, 6, 7] ∧
    transitionsAfter pointHost pointConfig [1, 2, 3] 3 = 15 := by decide +kernel
-- C64 and C65 when a rename fails: the run reports failure and the checkpoint remains.
example : (cdtMain pointHost (pointOutside 92) (some pointOptions) badDisk).1 = 1 ∧
    (cdtMain pointHost (pointOutside 92) (some pointOptions) badDisk).2.log.length = 1 := by decide +kernel
example : ∀ a ∈ (cdtMain pointHost (pointOutside 92) (some pointOptions) badDisk).2.log,
    readFile pointSet integerText a.path (cdtMain pointHost (pointOutside 92) (some pointOptions) badDisk).2.disk.fs =
      .ok [1, 2, 3, 4, 5, 6, 7] := by decide +kernel
-- C66: refused configurations.
example : cdtMain pointHost (pointOutside 92) (some { pointOptions with alpha := some (.fin (1 / 2)) }) goodDisk =
    (1, ⟨goodDisk, []⟩) := by
  refine (C66_nothing_written goodDisk).2.2 rfl rfl fun cfg start h => ?_
  have := (C66_configured_by h.config).alpha
  obtain ⟨e, a, ha, h2⟩ := this
  rw [ha] at e
  cases e
  exact absurd h2 (by norm_num)
-- C67: another execution with other entropy replays the run.
example : let x := cdtMain pointHost (pointOutside 92) (some pointOptions) goodDisk
    let y := cdtMain pointHost (pointOutside 5) (some { pointOptions with seed := some 92 }) badDisk
    let n := min x.2.log.length y.2.log.length
    List.Forall₂ SameButTime (x.2.log.take n) (y.2.log.take n) ∧ (x.1 = 0 → y.1 = 0 → x.2.log.length = y.2.log.length) :=
  C67_replay (out₂ := pointOutside 5) point_launched rfl goodDisk badDisk
-- C68: the initial universe.
example : (initializeMain pointHost (pointOutside 92) (some { pointOptions with output := true }) goodDisk).1 = 0 ∧
    (initializeMain pointHost (pointOutside 92) (some { pointOptions with output := true }) goodDisk).2.log.map Written.payload =
      [some (payloadText pointSet [1, 2, 3])] := by decide +kernel

end CDT.Props
