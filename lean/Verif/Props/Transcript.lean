import Verif.Lemmas.TranscriptRun
import Verif.Props.Program
import Verif.Props.Console
import Verif.Props.Portrait
import Verif.Props.Whole
/-
C93: what the programs `cdt` and `initialize` print is true of what they do.
-/
namespace CDT.Props
open CDT Spec

variable {M S P T : Type} {voice : Voice M S} {faults : PrintFaults} {host : Host M S P T} {out : Outside M S}
  {o : Options} {cfg : SimConfig} {start : M}

theorem exitStatus_cases (r : Except Exc Unit) : exitStatus r = 0 ∨ exitStatus r = 1 := by
  cases r
  · exact .inr rfl
  · exact .inl rfl

theorem say_nothing (t : Bytes) : (say faults t {}).2.text <+: t ∧
    (exitStatus (say faults t {}).1 = 0 → (say faults t {}).2.text = t) := by
  obtain ⟨u, h1, h2⟩ := say_text faults t {}
  refine ⟨?_, fun h => ?_⟩
  · rw [h1]; simpa using h2
  · rcases hs : say faults t {} with ⟨r, c⟩
    rw [hs] at h
    cases r with
    | error e => cases h
    | ok u => have := say_ok hs; rw [this]; simp

/-- A program that accepted its configuration but has no universe. -/
theorem cdtAloud_unbuilt {e : Exc} (hc : cdtConfig host out o = .ok cfg)
    (hb : out.construct cfg.triangulation.simplices cfg.triangulation.timeslices
      (Random.make host.pcg cfg.triangulation.seed 0) cfg.triangulation.initialRadius
      cfg.triangulation.foliationSpacing = .error e) (disk : Disk) :
    ∃ x c, cdtRunAloud voice faults host out (rootRandom host out o) cfg (⟨disk, []⟩, {}) = (.error x, (⟨disk, []⟩, c)) ∧
      c.text <+: cdtHeading voice cfg ++ constructionText host voice cfg.triangulation := by
  have hcb := C66_configured_by hc
  unfold cdtRunAloud
  dsimp only
  rw [show (rootRandom host out o).split host.pcg initializationStream = Random.make host.pcg cfg.triangulation.seed 0 by
    rw [rootRandom_eq hc]; rfl]
  obtain ⟨u, h1, h2⟩ := sayAll_text faults (cdtParameterLines voice cfg ++ voice.building cfg.triangulation.simplices
      cfg.triangulation.timeslices (Random.make host.pcg cfg.triangulation.seed 0) cfg.triangulation.initialRadius
      cfg.triangulation.foliationSpacing) {}
  rcases hs : sayAll faults (cdtParameterLines voice cfg ++ voice.building cfg.triangulation.simplices
      cfg.triangulation.timeslices (Random.make host.pcg cfg.triangulation.seed 0) cfg.triangulation.initialRadius
      cfg.triangulation.foliationSpacing) {} with ⟨r, c⟩
  rw [hs] at h1
  rw [List.flatten_append, cdtHeading_eq voice hcb.topology.2.2 hcb.dimensions.2] at h2
  dsimp only at h1
  have ht : c.text <+: cdtHeading voice cfg ++ constructionText host voice cfg.triangulation := by
    rw [h1]; exact h2
  cases r with
  | error x => exact ⟨x, c, rfl, ht⟩
  | ok _ => simp only [hb]; exact ⟨e, c, rfl, ht⟩

/-- What `cdt` does and prints once launched. -/
theorem cdtAloud_launched (h : Launched host out o cfg start) (disk : Disk) :
    (∃ w c name, cdtMainAloud voice faults host out (some o) disk = (0, w, c) ∧
      LogOk host cfg start disk (duties cfg) w ∧ host.valid (stateAfter host cfg start cfg.passes) = true ∧
      AllAnnounced w c.text ∧
      w.log.map (·.path) = (duties cfg).map name ∧ c.text = cdtTranscript host voice cfg start name) ∨
    ∃ w c done name, cdtMainAloud voice faults host out (some o) disk = (1, w, c) ∧
      done <+: duties cfg ∧ LogOk host cfg start disk done w ∧ AllAnnounced w c.text ∧
      w.log.map (·.path) = done.map name ∧
      ((∃ n, n ≤ cfg.passes.toNat ∧ c.text <+: cdtBegun host voice cfg start name n) ∨
        c.text <+: cdtTranscript host voice cfg start name) := by
  have hc := C66_configured_by h.config
  have hN := hc.simplices.2.1; have hT := hc.timeslices.2.1; have hP := hc.passes.2.1; have hC := hc.checkpoint.2.1
  unfold cdtMainAloud
  simp only [h.help, h.version, Bool.false_eq_true, if_false, h.config]
  rcases cdtRunAloud_cases (voice := voice) (faults := faults) host out cfg start (rootRandom_eq h.config) hc.topology.2.2
    hc.dimensions.2 (by omega) (by omega) hC hP h.built disk with
    ⟨w, c, name, e, h1⟩ | ⟨x, w, c, done, name, e, h1⟩
  · rw [e]; exact .inl ⟨w, c, name, rfl, h1⟩
  · rw [e]; exact .inr ⟨w, c, done, name, rfl, h1⟩

/-- C93. When `cdt` reports success, and neither help nor version was asked for, what it printed is
exactly the transcript of what it did: the values of the options it was given (and the seed it used),
the building of its universe from stream 0 of that seed, the portrait of that universe, the report of
every pass from the transitions made, each checkpoint and the final file under the name it was written
to, whether the universe has fewer timeslices than asked for, and the portrait of the final state.
The files it names are all the files that were due, each the truth about its state. -/
theorem C93_cdt_says {disk : Disk} {w : Machine} {c : Console} (h1 : o.help = false) (h2 : o.version = false)
    (h : cdtMainAloud voice faults host out (some o) disk = (0, w, c)) :
    ∃ cfg start name, Launched host out o cfg start ∧ ConfiguredBy out o cfg ∧
      List.Forall₂ (Truthful host cfg start) (duties cfg) w.log ∧
      w.log.map (·.path) = (duties cfg).map name ∧
      host.valid (stateAfter host cfg start cfg.passes) = true ∧
      c.text = cdtTranscript host voice cfg start name := by
  rcases hc : cdtConfig host out o with e | cfg
  · unfold cdtMainAloud at h
    simp [h1, h2, hc] at h
  rcases hb : out.construct cfg.triangulation.simplices cfg.triangulation.timeslices
    (Random.make host.pcg cfg.triangulation.seed 0) cfg.triangulation.initialRadius
    cfg.triangulation.foliationSpacing with e | start
  · obtain ⟨x, c', e1, -⟩ := cdtAloud_unbuilt (voice := voice) (faults := faults) hc hb disk
    unfold cdtMainAloud at h
    simp only [h1, h2, Bool.false_eq_true, if_false, hc, e1] at h
    simp [exitStatus] at h
  rcases cdtAloud_launched (voice := voice) (faults := faults) ⟨h1, h2, hc, hb⟩ disk with
    ⟨w', c', name, e, hl, hv, -, hn, ht⟩ | ⟨w', c', done, name, e, -⟩
  · rw [h] at e
    cases e
    exact ⟨cfg, start, name, ⟨h1, h2, hc, hb⟩, C66_configured_by hc, hl.truthful, hn, hv, ht⟩
  · rw [h] at e; cases e

/-- C93. When `cdt` does not report success it reports 1, and what it printed before the failure is true:
either its configuration was refused, and nothing was printed or written; or its universe could not be
built, and it printed at most its parameters and the messages of the construction; or what it printed
is a beginning of the transcript of a run, stopped during the run after at most `passes` passes or
after it, every finished file was announced under its name, and the finished files are the first of
those due, each the truth about its state, still there as written, and no other file was touched. -/
theorem C93_cdt_interrupted {disk : Disk} {status : ℤ} {w : Machine} {c : Console} (h1 : o.help = false)
    (h2 : o.version = false) (h : cdtMainAloud voice faults host out (some o) disk = (status, w, c))
    (h0 : status ≠ 0) :
    status = 1 ∧
    (((∃ e, cdtConfig host out o = .error e) ∧ c.text = [] ∧ w = ⟨disk, []⟩) ∨
     (∃ cfg, cdtConfig host out o = .ok cfg ∧ ConfiguredBy out o cfg ∧ (∀ start, ¬ Launched host out o cfg start) ∧
       c.text <+: cdtHeading voice cfg ++ constructionText host voice cfg.triangulation ∧ w = ⟨disk, []⟩) ∨
     ∃ cfg start done name, Launched host out o cfg start ∧ ConfiguredBy out o cfg ∧ done <+: duties cfg ∧
       List.Forall₂ (Truthful host cfg start) done w.log ∧
       w.log.map (·.path) = done.map name ∧
       (∀ a ∈ w.log, fileText a.path <:+: c.text) ∧
       (∀ a ∈ w.log, w.disk.fs a.path = a.payload ∧ w.disk.fs (a.path ++ ascii ".meta") = a.manifest) ∧
       (∀ p, ¬ OwnFile cfg.triangulation.seed p → w.disk.fs p = disk.fs p) ∧
       ((∃ n : ℕ, (n : ℤ) ≤ cfg.passes ∧ c.text <+: cdtBegun host voice cfg start name n) ∨
         c.text <+: cdtTranscript host voice cfg start name)) := by
  rcases hc : cdtConfig host out o with e | cfg
  · unfold cdtMainAloud at h
    simp only [h1, h2, Bool.false_eq_true, if_false, hc] at h
    cases h
    exact ⟨rfl, .inl ⟨⟨e, rfl⟩, rfl, rfl⟩⟩
  have hcb := C66_configured_by hc
  rcases hb : out.construct cfg.triangulation.simplices cfg.triangulation.timeslices
    (Random.make host.pcg cfg.triangulation.seed 0) cfg.triangulation.initialRadius
    cfg.triangulation.foliationSpacing with e | start
  · obtain ⟨x, c', e1, ht⟩ := cdtAloud_unbuilt (voice := voice) (faults := faults) hc hb disk
    unfold cdtMainAloud at h
    simp only [h1, h2, Bool.false_eq_true, if_false, hc, e1] at h
    cases h
    refine ⟨rfl, .inr (.inl ⟨cfg, rfl, hcb, fun start hl => ?_, ht, rfl⟩)⟩
    have := hl.built
    rw [hb] at this
    cases this
  rcases cdtAloud_launched (voice := voice) (faults := faults) ⟨h1, h2, hc, hb⟩ disk with
    ⟨w', c', name, e, -⟩ | ⟨w', c', done, name, e, hd, hl, ha, hn, ht⟩
  · rw [h] at e; cases e; exact absurd rfl h0
  · rw [h] at e
    cases e
    refine ⟨rfl, .inr (.inr ⟨cfg, start, done, name, ⟨h1, h2, hc, hb⟩, hcb, hd, hl.truthful, hn, ha, hl.stored, hl.others, ?_⟩)⟩
    have := hcb.passes.2.1
    rcases ht with ⟨n, hn, ht⟩ | ht
    · exact .inl ⟨n, by omega, ht⟩
    · exact .inr ht

/-- C93. Help and version print their message, or a beginning of it if that fails; an unparsable command
line prints nothing; no file is touched.  The status is 0 only if the whole message was printed. -/
theorem C93_messages (disk : Disk) :
    cdtMainAloud voice faults host out none disk = (1, ⟨disk, []⟩, {}) ∧
    initializeMainAloud voice faults host out none disk = (1, ⟨disk, []⟩, {}) ∧
    (o.help = true ∨ o.version = true →
      (∃ status c, cdtMainAloud voice faults host out (some o) disk = (status, ⟨disk, []⟩, c) ∧
        (status = 0 ∨ status = 1) ∧
        let message := if o.help then voice.usage ++ ascii "\n" else ascii "CDT++ version " ++ voice.version ++ ascii "\n"
        c.text <+: message ∧ (status = 0 → c.text = message)) ∧
      ∃ status c, initializeMainAloud voice faults host out (some o) disk = (status, ⟨disk, []⟩, c) ∧
        (status = 0 ∨ status = 1) ∧
        let message := if o.help then voice.usage ++ ascii "\n"
          else ascii "CDT initializer version " ++ voice.version ++ ascii "\n"
        c.text <+: message ∧ (status = 0 → c.text = message)) := by
  refine ⟨rfl, rfl, fun h => ?_⟩
  have e1 : format "{}\n" [voice.usage] = voice.usage ++ ascii "\n" := by
    rw [format_eq _ ["", "\n"] _ (by decide +kernel) rfl]; simp [sentence]; rfl
  have e2 : format "CDT++ version {}\n" [voice.version] = ascii "CDT++ version " ++ voice.version ++ ascii "\n" := by
    rw [format_eq _ ["CDT++ version ", "\n"] _ (by decide +kernel) rfl]; simp [sentence]
  have e3 : format "CDT initializer version {}\n" [voice.version] =
      ascii "CDT initializer version " ++ voice.version ++ ascii "\n" := by
    rw [format_eq _ ["CDT initializer version ", "\n"] _ (by decide +kernel) rfl]; simp [sentence]
  unfold cdtMainAloud initializeMainAloud
  by_cases hh : o.help = true
  · simp only [hh, if_true, e1]
    exact ⟨⟨_, _, rfl, exitStatus_cases _, say_nothing _⟩, ⟨_, _, rfl, exitStatus_cases _, say_nothing _⟩⟩
  · have hv : o.version = true := h.resolve_left hh
    simp only [hh, hv, if_true, Bool.false_eq_true, if_false, e2, e3]
    exact ⟨⟨_, _, rfl, exitStatus_cases _, say_nothing _⟩, ⟨_, _, rfl, exitStatus_cases _, say_nothing _⟩⟩

/-! ### Without their output the programs do the same -/

/-- Printing fails nowhere, or the outcome is a success. -/
def Unharmed (faults : PrintFaults) (status : ℤ) : Prop := (∀ n, faults n = none) ∨ status = 0

theorem cdtRunAloud_erases (root : Random S) (cfg : SimConfig) :
    SameUnlessPrintFails faults (cdtRunAloud voice faults host out root cfg) (cdtRun host out root cfg) := by
  intro w c hok
  unfold cdtRunAloud at hok ⊢
  unfold cdtRun
  dsimp only at hok ⊢
  rcases sayAll_cases faults (cdtParameterLines voice cfg ++ voice.building cfg.triangulation.simplices
      cfg.triangulation.timeslices (root.split host.pcg initializationStream) cfg.triangulation.initialRadius
      cfg.triangulation.foliationSpacing) c with ⟨c1, hs⟩ | ⟨⟨e, c1, hs⟩, hf⟩
  swap
  · simp [hs, hf] at hok
  simp only [hs] at hok ⊢
  generalize out.construct cfg.triangulation.simplices cfg.triangulation.timeslices
    (root.split host.pcg initializationStream) cfg.triangulation.initialRadius
    cfg.triangulation.foliationSpacing = q at hok ⊢
  rcases q with e | start
  · rfl
  dsimp only at hok ⊢
  generalize cdtSampler host root cfg start = q at hok ⊢
  rcases q with e | sampler
  · rfl
  dsimp only at hok ⊢
  rcases sayAll_cases faults (voice.look start) c1 with ⟨c2, hs⟩ | ⟨⟨e, c2, hs⟩, hf⟩
  swap
  · simp [hs, hf] at hok
  simp only [hs] at hok ⊢
  have key := CDT.C91_output_changes_nothing (faults := faults) (seed := fun g : Random S => g.seed)
    (stream := fun g : Random S => g.stream) (host.engine sampler.parameters)
    (Sampler.output host out sampler.reproducibility) (fun _ _ _ _ => rfl)
    (Sampler.checkpointAloud faults host out sampler.reproducibility)
    (checkpointAloud_erases host out sampler.reproducibility) sampler.strategy start w c2
  unfold Sampler.runAloud at hok ⊢
  unfold Sampler.run
  rcases hr : sampler.strategy.runAloud faults (host.engine sampler.parameters)
      (Sampler.checkpointAloud faults host out sampler.reproducibility) (·.seed) (·.stream) start w c2 with
    ⟨r, strategy, w', c3⟩
  simp only [hr] at hok key ⊢
  cases r with
  | error e =>
    rw [← key (.inl (by simpa using hok))]
  | ok result =>
    rw [← key (.inr ⟨result, rfl⟩)]
    dsimp only at hok ⊢
    rcases sayAll_cases faults (shortfallLines (host.summary result).maxTime cfg.triangulation.timeslices) c3 with
      ⟨c4, hs⟩ | ⟨⟨e, c4, hs⟩, hf⟩
    swap
    · simp [hs, hf] at hok
    simp only [hs] at hok ⊢
    by_cases hv : host.valid result = true
    swap
    · simp [hv]
    simp only [hv, Bool.not_true, Bool.false_eq_true, if_false] at hok ⊢
    rcases sayAll_cases faults (cdtResultLines voice result) c4 with ⟨c5, hs⟩ | ⟨⟨e, c5, hs⟩, hf⟩
    swap
    · simp [hs, hf] at hok
    simp only [hs] at hok ⊢
    by_cases hw : cfg.writeFiles = true
    swap
    · simp [hw]
    simp only [hw, if_true] at hok ⊢
    generalize Sampler.metadata host sampler.reproducibility result .finalTriangulation cfg.passes strategy.stats = q at hok ⊢
    rcases q with e | md
    · rfl
    exact writeArtifactAloud_erases (faults := faults) host out result md w' c5 hok

theorem initializeRunAloud_erases (root : Random S) (tc : TriConfig) (save : Bool) :
    SameUnlessPrintFails faults (initializeRunAloud voice faults host out root tc save)
      (initializeRun host out root tc save) := by
  intro w c hok
  unfold initializeRunAloud at hok ⊢
  unfold initializeRun
  dsimp only at hok ⊢
  rcases sayAll_cases faults (initializeParameterLines voice root.seed tc save ++ voice.building tc.simplices
      tc.timeslices (root.split host.pcg initializationStream) tc.initialRadius tc.foliationSpacing) c with
    ⟨c1, hs⟩ | ⟨⟨e, c1, hs⟩, hf⟩
  swap
  · simp [hs, hf] at hok
  simp only [hs] at hok ⊢
  generalize out.construct tc.simplices tc.timeslices (root.split host.pcg initializationStream) tc.initialRadius
    tc.foliationSpacing = q at hok ⊢
  rcases q with e | start
  · rfl
  dsimp only at hok ⊢
  rcases sayAll_cases faults (initializeResultLines voice host start) c1 with ⟨c2, hs⟩ | ⟨⟨e, c2, hs⟩, hf⟩
  swap
  · simp [hs, hf] at hok
  simp only [hs] at hok ⊢
  cases save with
  | false => rfl
  | true =>
    simp only [if_true] at hok ⊢
    generalize makeMetadata host start tc.seed .initialTriangulation = q at hok ⊢
    rcases q with e | md
    · rfl
    exact writeArtifactAloud_erases (faults := faults) host out start _ w c2 hok

theorem exitStatus_ok {W : Type} {x : Except Exc Unit × W} (h : Unharmed faults (exitStatus x.1)) :
    (∀ n, faults n = none) ∨ ∃ v, x.1 = .ok v := by
  rcases h with h | h
  · exact .inl h
  · rcases hx : x.1 with e | v
    · rw [hx] at h; cases h
    · exact .inr ⟨v, rfl⟩

theorem say_status {t : Bytes} (h : Unharmed faults (exitStatus (say faults t {}).1)) :
    exitStatus (say faults t {}).1 = 0 := by
  rcases h with h | h
  · rcases say_cases faults t {} with ⟨c, e⟩ | ⟨-, hf⟩
    · rw [e]; rfl
    · exact absurd h hf
  · exact h

/-- C93. Printing changes nothing else: unless printing itself makes `cdt` fail, its exit status, the
files it writes and the disk are those of the program without output. -/
theorem C93_cdt_output_changes_nothing (parsed : Option Options) (disk : Disk) :
    let (status, w, _) := cdtMainAloud voice faults host out parsed disk
    (∀ n, faults n = none) ∨ status = 0 → (status, w) = cdtMain host out parsed disk := by
  change Unharmed faults (cdtMainAloud voice faults host out parsed disk).1 →
    ((cdtMainAloud voice faults host out parsed disk).1, (cdtMainAloud voice faults host out parsed disk).2.1) =
      cdtMain host out parsed disk
  intro h
  unfold cdtMainAloud at h ⊢
  unfold cdtMain
  rcases parsed with _ | o
  · rfl
  dsimp only at h ⊢
  by_cases h1 : o.help = true
  · simp only [h1, if_true] at h ⊢
    rw [say_status h]
  by_cases h2 : o.version = true
  · simp only [h1, h2, if_true, Bool.false_eq_true, if_false] at h ⊢
    rw [say_status h]
  simp only [h1, h2, Bool.false_eq_true, if_false] at h ⊢
  rcases hc : cdtConfig host out o with e | cfg
  · rfl
  simp only [hc] at h ⊢
  have key := cdtRunAloud_erases (voice := voice) (faults := faults) (host := host) (out := out) (rootRandom host out o) cfg
    ⟨disk, []⟩ {} (exitStatus_ok h)
  rw [← key]
  generalize cdtRunAloud voice faults host out (rootRandom host out o) cfg (⟨disk, []⟩, {}) = q
  rcases q with ⟨r, w, c⟩
  cases r <;> rfl

/-- C93. The same for `initialize`. -/
theorem C93_initialize_output_changes_nothing (parsed : Option Options) (disk : Disk) :
    let (status, w, _) := initializeMainAloud voice faults host out parsed disk
    (∀ n, faults n = none) ∨ status = 0 → (status, w) = initializeMain host out parsed disk := by
  change Unharmed faults (initializeMainAloud voice faults host out parsed disk).1 →
    ((initializeMainAloud voice faults host out parsed disk).1, (initializeMainAloud voice faults host out parsed disk).2.1) =
      initializeMain host out parsed disk
  intro h
  unfold initializeMainAloud at h ⊢
  unfold initializeMain
  rcases parsed with _ | o
  · rfl
  dsimp only at h ⊢
  by_cases h1 : o.help = true
  · simp only [h1, if_true] at h ⊢
    rw [say_status h]
  by_cases h2 : o.version = true
  · simp only [h1, h2, if_true, Bool.false_eq_true, if_false] at h ⊢
    rw [say_status h]
  simp only [h1, h2, Bool.false_eq_true, if_false] at h ⊢
  rcases hc : initializeConfig host out o with e | cfg
  · rfl
  simp only [hc] at h ⊢
  have key := initializeRunAloud_erases (voice := voice) (faults := faults) (host := host) (out := out)
    (rootRandom host out o) cfg o.output ⟨disk, []⟩ {} (exitStatus_ok h)
  rw [← key]
  generalize initializeRunAloud voice faults host out (rootRandom host out o) cfg o.output (⟨disk, []⟩, {}) = q
  rcases q with ⟨r, w, c⟩
  cases r <;> rfl

/-! ### `initialize` -/

theorem initializeConfig_bounds {tc : TriConfig} (h : initializeConfig host out o = .ok tc) :
    tc.topology = .spherical ∧ tc.dimensions = 3 ∧ o.simplices = some tc.simplices ∧
      o.timeslices = some tc.timeslices ∧ o.initialRadius = tc.initialRadius ∧ o.foliationSpacing = tc.foliationSpacing ∧
      tc.seed = o.seed.getD out.entropy ∧ o.threads = tc.threads := by
  unfold initializeConfig at h
  simp only [bind_ok] at h
  obtain ⟨N, h4, T', h5, h⟩ := h
  have h4 := required_ok h4; have h5 := required_ok h5
  obtain ⟨rfl, hN, hT, hth⟩ := makeTriangulation_ok h
  exact ⟨rfl, rfl, h4, h5, rfl, rfl, rfl, by dsimp only; omega⟩

/-- What `initialize` does and prints once its universe is built. -/
theorem initializeAloud_built {tc : TriConfig} (hc : initializeConfig host out o = .ok tc)
    (hb : out.construct tc.simplices tc.timeslices (Random.make host.pcg tc.seed 0) tc.initialRadius
      tc.foliationSpacing = .ok start) (disk : Disk) :
    ∃ r w c name, initializeRunAloud voice faults host out (rootRandom host out o) tc o.output (⟨disk, []⟩, {}) =
        (r, (w, c)) ∧
      (r = .ok () → c.text = initializeTranscript host voice tc o.output start name ∧
        (o.output = true → w.log.map (·.path) = [name])) ∧
      c.text <+: initializeTranscript host voice tc o.output start name ∧
      ((∃ e, r = .error e) → w = ⟨disk, []⟩ ∨ (r, w) = initializeRun host out (rootRandom host out o) tc o.output ⟨disk, []⟩) := by
  obtain ⟨htop, hdim, -⟩ := initializeConfig_bounds hc
  have hseed : (rootRandom host out o).seed = tc.seed := by rw [initializeConfig_ok hc]; rfl
  have head := initializeHeading_eq voice o.output htop hdim
  unfold initializeRunAloud initializeRun
  rw [hseed, show (rootRandom host out o).split host.pcg initializationStream = Random.make host.pcg tc.seed 0 by
    rw [initializeConfig_ok hc]; rfl]
  dsimp only
  simp only [hb]
  have T : ∀ name, initializeTranscript host voice tc o.output start name =
      (initializeParameterLines voice tc.seed tc o.output ++ voice.building tc.simplices tc.timeslices
        (Random.make host.pcg tc.seed 0) tc.initialRadius tc.foliationSpacing).flatten ++
      ((initializeResultLines voice host start).flatten ++ if o.output then fileText name else []) := by
    intro name
    unfold initializeTranscript
    rw [List.flatten_append, head, initializeResult_eq]
    simp only [List.append_assoc]
    rfl
  obtain ⟨u, t1, p1⟩ := sayAll_text faults (initializeParameterLines voice tc.seed tc o.output ++ voice.building tc.simplices
    tc.timeslices (Random.make host.pcg tc.seed 0) tc.initialRadius tc.foliationSpacing) {}
  rcases hs1 : sayAll faults (initializeParameterLines voice tc.seed tc o.output ++ voice.building tc.simplices tc.timeslices
      (Random.make host.pcg tc.seed 0) tc.initialRadius tc.foliationSpacing) {} with ⟨r, c1⟩
  rw [hs1] at t1
  dsimp only at t1
  cases r with
  | error e =>
    refine ⟨.error e, _, c1, [], rfl, by simp, ?_, fun _ => .inl rfl⟩
    rw [T, t1]
    exact p1.trans (List.prefix_append _ _)
  | ok _ =>
    have t1 := sayAll_ok hs1
    rw [show ({} : Console).text = [] from rfl, List.nil_append] at t1
    dsimp only
    obtain ⟨u2, t2, p2⟩ := sayAll_text faults (initializeResultLines voice host start) c1
    rcases hs2 : sayAll faults (initializeResultLines voice host start) c1 with ⟨r, c2⟩
    rw [hs2] at t2
    dsimp only at t2
    cases r with
    | error e =>
      refine ⟨.error e, _, c2, [], rfl, by simp, ?_, fun _ => .inl rfl⟩
      rw [T, t2, t1, List.prefix_append_right_inj]
      exact p2.trans (List.prefix_append _ _)
    | ok _ =>
      have t2 := sayAll_ok hs2
      dsimp only
      cases ho : o.output with
      | false =>
        simp only [ho, Bool.false_eq_true, if_false] at T t1 ⊢
        have : c2.text = initializeTranscript host voice tc false start [] := by rw [T, t2, t1]; simp
        exact ⟨.ok (), _, c2, [], rfl, fun _ => ⟨this, by simp⟩, by rw [this], by simp⟩
      | true =>
        simp only [ho, if_true] at T t1 ⊢
        rcases makeMetadata host start tc.seed .initialTriangulation with e | md
        · refine ⟨.error e, _, c2, [], rfl, by simp, ?_, fun _ => .inl rfl⟩
          rw [T, t2, t1, List.prefix_append_right_inj]
          exact List.prefix_append _ _
        · dsimp only
          rcases writeArtifactAloud_tells (faults := faults) host out start { md with
              desiredSimplices := tc.simplices, desiredTimeslices := tc.timeslices,
              maxThreads := some tc.threads } ⟨disk, []⟩ c2 with
            ⟨w6, c6, a, e6, l6, t6⟩ | ⟨x, w6, c6, path, t, e6, l6, t6, p6⟩
          · rw [e6]
            have : c6.text = initializeTranscript host voice tc true start a.path := by
              rw [T, t6, t2, t1]; simp only [List.append_assoc]
            exact ⟨.ok (), w6, c6, a.path, rfl, fun _ => ⟨this, fun _ => by rw [l6]; rfl⟩, by rw [this], by simp⟩
          · have herr := writeArtifactAloud_error host out e6
            rw [e6]
            refine ⟨.error x, w6, c6, path, rfl, by simp, ?_, fun _ => ?_⟩
            · rw [T, t6, t2, t1, List.append_assoc, List.prefix_append_right_inj, List.prefix_append_right_inj]
              exact p6
            · rcases herr with rfl | h
              · exact .inl rfl
              · exact .inr h.symm

/-- C93. When `initialize` reports success, and neither help nor version was asked for, what it printed is
exactly the transcript of what it did: the values of its options, the seed it used, whether the output
is saved, the building of the universe from stream 0 of that seed, its size and slices, and, with
`--output`, the name of the one file it wrote, which is the truth about that universe. -/
theorem C93_initialize_says {disk : Disk} {w : Machine} {c : Console} (h1 : o.help = false) (h2 : o.version = false)
    (h : initializeMainAloud voice faults host out (some o) disk = (0, w, c)) :
    ∃ tc start name, initializeConfig host out o = .ok tc ∧
      out.construct tc.simplices tc.timeslices (Random.make host.pcg tc.seed 0) tc.initialRadius
        tc.foliationSpacing = .ok start ∧
      c.text = initializeTranscript host voice tc o.output start name ∧
      (o.output = false → w = ⟨disk, []⟩) ∧
      (o.output = true → ∃ a, w.log = [a] ∧ a.path = name ∧ InitialTruthful host tc start a ∧
        w.disk.fs a.path = a.payload ∧ w.disk.fs (a.path ++ ascii ".meta") = a.manifest) := by
  have hsil : (0, w) = initializeMain host out (some o) disk := by
    have := C93_initialize_output_changes_nothing (voice := voice) (faults := faults) (host := host) (out := out) (some o) disk
    rw [h] at this
    exact this (.inr rfl)
  rcases hc : initializeConfig host out o with e | tc
  · unfold initializeMainAloud at h
    simp [h1, h2, hc] at h
  rcases hb : out.construct tc.simplices tc.timeslices (Random.make host.pcg tc.seed 0) tc.initialRadius
    tc.foliationSpacing with e | start
  · unfold initializeMain at hsil
    simp only [h1, h2, Bool.false_eq_true, if_false, hc] at hsil
    unfold initializeRun at hsil
    rw [show (rootRandom host out o).split host.pcg initializationStream = Random.make host.pcg tc.seed 0 by
      rw [initializeConfig_ok hc]; rfl] at hsil
    simp only [hb] at hsil
    simp at hsil
  obtain ⟨r, w', c', name, e, hok, -, -⟩ := initializeAloud_built (voice := voice) (faults := faults) hc hb disk
  unfold initializeMainAloud at h
  simp only [h1, h2, Bool.false_eq_true, if_false, hc, e] at h
  cases r with
  | error e => simp [exitStatus] at h
  | ok _ =>
    obtain ⟨ht, hn⟩ := hok rfl
    simp only [Prod.mk.injEq] at h
    obtain ⟨-, rfl, rfl⟩ := h
    obtain ⟨k1, k2, -⟩ := C68_initialize h1 h2 hc hb disk
    rw [← hsil] at k1 k2
    refine ⟨tc, start, name, rfl, hb, ht, fun ho => ?_, fun ho => ?_⟩
    · exact congrArg Prod.snd (k1 ho)
    · rcases k2 ho with ⟨-, a, ha, h3, h4, h5⟩ | ⟨h0, -⟩
      · have hn := hn ho
        rw [ha] at hn
        simp only [List.map_cons, List.map_nil, List.cons.injEq, and_true] at hn
        exact ⟨a, ha, hn, h3, h4, h5⟩
      · simp at h0

/-- C93. When `initialize` does not report success it reports 1 and has finished no file; what it printed
is a beginning of its transcript, or of its parameters and the messages of the construction if there
is no universe, or nothing if its configuration was refused; it touched no file but its own. -/
theorem C93_initialize_interrupted {disk : Disk} {status : ℤ} {w : Machine} {c : Console} (h1 : o.help = false)
    (h2 : o.version = false) (h : initializeMainAloud voice faults host out (some o) disk = (status, w, c))
    (h0 : status ≠ 0) :
    status = 1 ∧ w.log = [] ∧
    (((∃ e, initializeConfig host out o = .error e) ∧ c.text = [] ∧ w = ⟨disk, []⟩) ∨
     (∃ tc e, initializeConfig host out o = .ok tc ∧
       out.construct tc.simplices tc.timeslices (Random.make host.pcg tc.seed 0) tc.initialRadius
        tc.foliationSpacing = .error e ∧
       c.text <+: initializeHeading voice tc o.output ++ constructionText host voice tc ∧ w = ⟨disk, []⟩) ∨
     ∃ tc start name, initializeConfig host out o = .ok tc ∧
       out.construct tc.simplices tc.timeslices (Random.make host.pcg tc.seed 0) tc.initialRadius
        tc.foliationSpacing = .ok start ∧
       c.text <+: initializeTranscript host voice tc o.output start name ∧
       ∀ p, ¬ OwnFile tc.seed p → w.disk.fs p = disk.fs p) := by
  rcases hc : initializeConfig host out o with e | tc
  · unfold initializeMainAloud at h
    simp only [h1, h2, Bool.false_eq_true, if_false, hc] at h
    cases h
    exact ⟨rfl, rfl, .inl ⟨⟨e, rfl⟩, rfl, rfl⟩⟩
  rcases hb : out.construct tc.simplices tc.timeslices (Random.make host.pcg tc.seed 0) tc.initialRadius
    tc.foliationSpacing with e | start
  · have key : ∃ x c', initializeRunAloud voice faults host out (rootRandom host out o) tc o.output (⟨disk, []⟩, {}) =
        (.error x, (⟨disk, []⟩, c')) ∧ c'.text <+: initializeHeading voice tc o.output ++ constructionText host voice tc := by
      obtain ⟨htop, hdim, -⟩ := initializeConfig_bounds hc
      have hseed : (rootRandom host out o).seed = tc.seed := by rw [initializeConfig_ok hc]; rfl
      unfold initializeRunAloud
      rw [hseed, show (rootRandom host out o).split host.pcg initializationStream = Random.make host.pcg tc.seed 0 by
        rw [initializeConfig_ok hc]; rfl]
      dsimp only
      obtain ⟨u, t1, p1⟩ := sayAll_text faults (initializeParameterLines voice tc.seed tc o.output ++ voice.building
        tc.simplices tc.timeslices (Random.make host.pcg tc.seed 0) tc.initialRadius tc.foliationSpacing) {}
      rcases hs1 : sayAll faults (initializeParameterLines voice tc.seed tc o.output ++ voice.building tc.simplices
        tc.timeslices (Random.make host.pcg tc.seed 0) tc.initialRadius tc.foliationSpacing) {} with ⟨r, c1⟩
      rw [hs1] at t1
      rw [List.flatten_append, initializeHeading_eq voice o.output htop hdim] at p1
      dsimp only at t1
      cases r with
      | error x => exact ⟨x, c1, rfl, by rw [t1]; exact p1⟩
      | ok _ => simp only [hb]; exact ⟨e, c1, rfl, by rw [t1]; exact p1⟩
    obtain ⟨x, c', e1, ht⟩ := key
    unfold initializeMainAloud at h
    simp only [h1, h2, Bool.false_eq_true, if_false, hc, e1] at h
    cases h
    exact ⟨rfl, rfl, .inr (.inl ⟨tc, e, rfl, hb, ht, rfl⟩)⟩
  obtain ⟨r, w', c', name, e, -, ht, herr⟩ := initializeAloud_built (voice := voice) (faults := faults) hc hb disk
  unfold initializeMainAloud at h
  simp only [h1, h2, Bool.false_eq_true, if_false, hc, e] at h
  cases r with
  | ok _ =>
    simp only [Prod.mk.injEq] at h
    exact absurd h.1.symm h0
  | error x =>
    simp only [Prod.mk.injEq] at h
    obtain ⟨rfl, rfl, rfl⟩ := h
    have fin : w'.log = [] ∧ ∀ p, ¬ OwnFile tc.seed p → w'.disk.fs p = disk.fs p := by
      rcases herr ⟨x, rfl⟩ with rfl | he
      · exact ⟨rfl, fun _ _ => rfl⟩
      · have hm : initializeMain host out (some o) disk = (1, w') := by
          unfold initializeMain
          simp only [h1, h2, Bool.false_eq_true, if_false, hc, ← he]
        obtain ⟨k1, k2, k3⟩ := C68_initialize h1 h2 hc hb disk
        rw [hm] at k1 k2 k3
        refine ⟨?_, k3⟩
        rcases ho : o.output with _ | _
        · cases k1 ho
        · rcases k2 ho with ⟨h0, -⟩ | ⟨-, h⟩
          · cases h0
          · exact h
    exact ⟨rfl, fin.1, .inr (.inr ⟨tc, start, name, rfl, hb, ht, fin.2⟩)⟩

/-! ### With the modelled universes -/

section
variable {V : Type} [LinearOrder V] {base : Voice (Mfld V) S} {env : Env V (Random S)} {re : RepairEnv V}
  {ie : InsertEnv V} {F : Floats} {bits : LD → BitVec 64} {gen : Random S → ℕ → ℕ → V}

/-- What is displayed of a manifold in order is its portrait. -/
theorem look_portrait (hl : env.Lawful) {m : Mfld V} (hm : Fit env m) :
    TimeRange m.tri.inf m.tri.time m.tri.cells m.caches.minTime m.caches.maxTime ∧
    lookText (assembledVoice base env re ie F gen) m =
      portraitText m.tri.inf m.tri.time m.tri.cells m.caches.minTime m.caches.maxTime := by
  obtain ⟨h1, h2⟩ := portrait_of_caches hl hm.caches
    ((isStructurallyCorrect_iff hl hm.caches).2 ⟨hm.sound.closed, hm.sound.correct⟩)
  refine ⟨h1, h2 ▸ ?_⟩
  rw [← look_eq]
  rfl

/-- Labels on the same slices have the same bounds. -/
theorem timeRange_same {K K' : Tri V} {lo hi lo' hi' : ℤ} (h : TimeRange K.inf K.time K.cells lo hi)
    (h' : TimeRange K'.inf K'.time K'.cells lo' hi')
    (e : slices K'.inf K'.time K'.cells = slices K.inf K.time K.cells) : lo' = lo ∧ hi' = hi := by
  have key : ∀ {K K' : Tri V} {lo hi lo' hi' : ℤ}, TimeRange K.inf K.time K.cells lo hi →
      TimeRange K'.inf K'.time K'.cells lo' hi' → slices K'.inf K'.time K'.cells = slices K.inf K.time K.cells →
      lo' ≤ lo ∧ hi ≤ hi' := by
    rintro K K' lo hi lo' hi' ⟨⟨v, hv, rfl⟩, ⟨u, hu, rfl⟩, -⟩ ⟨-, -, hb⟩ e
    have m : ∀ x ∈ (vertices K.cells).erase K.inf, ∃ y ∈ (vertices K'.cells).erase K'.inf, K'.time y = K.time x := by
      intro x hx
      have : K.time x ∈ slices K'.inf K'.time K'.cells := by
        rw [e]; exact Finset.mem_image_of_mem _ hx
      simpa [slices] using this
    obtain ⟨y, hy, ey⟩ := m v hv
    obtain ⟨z, hz, ez⟩ := m u hu
    exact ⟨ey ▸ (hb y hy).1, ez ▸ (hb z hz).2⟩
  have h1 := key h h' e
  have h2 := key h' h e.symm
  omega

/-- C93. With the modelled construction and manifolds, from a universe in order: the messages of the
construction give the size of that universe, and what is displayed before and after the run is the
portrait of the initial universe and of the state after the last pass, over the same range of slices;
the line about missing timeslices compares the greatest of these slices with the number asked for. -/
theorem C93_whole {base' : Host (Mfld V) S Mp T} {R : Rounding} {drawMove : Random S → Fin 5 × Random S}
    {drawTrial : Random S → LD × Random S} {value : BitVec 64 → ℚ} {snapshot : Tri V → T}
    {out : Outside (Mfld V) S} {start : Mfld V} (ho : Ordinary env R drawTrial o)
    (h : Launched (assembled base' env R drawMove drawTrial value snapshot) out o cfg start) (hs : Fit env start)
    (ht : Tame env (assembled base' env R drawMove drawTrial value snapshot) cfg start)
    (hout : out.construct = fun N T random I L => buildUniverse env re ie F bits (gen random) N T I L) :
    let host := assembled base' env R drawMove drawTrial value snapshot
    let voice := assembledVoice base env re ie F gen
    let result := stateAfter host cfg start cfg.passes
    constructionText host voice cfg.triangulation = ascii "\nGenerating universe ...\n" ++
      shapeText "Triangulation" (census start.tri.inf start.tri.time start.tri.cells) ∧
    ∃ lo hi, TimeRange start.tri.inf start.tri.time start.tri.cells lo hi ∧
      TimeRange result.tri.inf result.tri.time result.tri.cells lo hi ∧
      lookText voice start = portraitText start.tri.inf start.tri.time start.tri.cells lo hi ∧
      lookText voice result = portraitText result.tri.inf result.tri.time result.tri.cells lo hi ∧
      (host.summary result).maxTime = hi := by
  intro host voice result
  have hc := C66_configured_by h.config
  have hp := hc.passes.2.1
  have hn := (whole_trajectory ho h hs ht).1 cfg.passes (by omega) le_rfl
  change Next env start result at hn
  obtain ⟨a1, a2⟩ := look_portrait (base := base) (re := re) (ie := ie) (F := F) (gen := gen) ho.lawful hs
  obtain ⟨b1, b2⟩ := look_portrait (base := base) (re := re) (ie := ie) (F := F) (gen := gen) ho.lawful hn.fit
  obtain ⟨e1, e2⟩ := timeRange_same a1 b1 hn.preserved.slices
  refine ⟨?_, _, _, a1, e1 ▸ e2 ▸ b1, a2, by rw [← e1, ← e2]; exact b2, e2⟩
  have hb := h.built
  rw [hout] at hb
  dsimp only at hb
  obtain ⟨-, -, points, D, h1, h2, h3⟩ := universe_parts hb
  have hm : makeTriangulation env re ie F (gen (Random.make host.pcg cfg.triangulation.seed 0))
      cfg.triangulation.simplices cfg.triangulation.timeslices cfg.triangulation.initialRadius
      cfg.triangulation.foliationSpacing = .ok (repairLoops env re D) := by
    unfold makeTriangulation
    change (match makeFoliatedBall F _ _ _ _ (gen (Random.make host.pcg cfg.triangulation.seed 0)) with | .error e => _ | .ok points => _) = _
    rw [h1]
    dsimp only
    rw [h2]
  have e3 : delaunayLine (repairLoops env re D).tri = delaunayLine start.tri := by
    rw [(construct_ok h3).1]; rfl
  change (buildingLines env re ie F (gen (Random.make host.pcg cfg.triangulation.seed 0)) _ _ _ _).flatten = _
  unfold buildingLines
  rw [hm]
  simp only [List.flatten_cons, List.flatten_nil, List.append_nil, e3, C92_delaunay hs.sound.closed.1]
  congr 1

end

/-! ### Concrete programs -/

open Fixture

/-- A voice for the points: integral numbers, and the points themselves in place of a description. -/
def pointVoice : Voice (List ℤ) (BitVec 64 × BitVec 64) where
  usage := ascii "Usage: cdt"
  version := ascii "1.0"
  double | .fin q => decimalInt q.num | _ => ascii "?"
  longDouble | .fin q => decimalInt q.num | _ => ascii "?"
  started := ascii "noon"
  elapsed := ascii "7"
  building _ _ _ _ _ := [ascii "Points!\n"]
  print m := format "{} points.\n" [decimal m.length]
  details _ := [ascii "All points.\n"]
  volumes _ := [ascii "No volume.\n"]

/-- A print that fails after five bytes. -/
def pointFault (k : ℕ) : PrintFaults := fun n => if n = k then some (5, .runtimeError) else none

/-- C93: the program prints its transcript, with the names of its two files. -/
example : (let r := cdtMainAloud pointVoice (fun _ => none) pointHost (pointOutside 92) (some pointOptions) goodDisk;
    r.1 = 0 ∧ r.2.1.log.map Written.path =
      [ascii "S3-7-0-I1.000000-R1.000000-2026-01-02.03-04-00UTC-seed-92-pass-2.off",
       ascii "S3-11-0-I1.000000-R1.000000-2026-01-02.03-04-09UTC-seed-92.off"] ∧
    (cdtHeading pointVoice pointConfig ++ ascii "Points!\n3 points.\nAll points.\nNo volume.\n") <+: r.2.2.text ∧
    fileText (ascii "S3-7-0-I1.000000-R1.000000-2026-01-02.03-04-00UTC-seed-92-pass-2.off") <:+: r.2.2.text ∧
    (ascii ("=== Run Results ===\nRunning time is 7 seconds.\n11 points.\nAll points.\nNo volume.\n" ++
      "Writing to file S3-11-0-I1.000000-R1.000000-2026-01-02.03-04-09UTC-seed-92.off\n")) <:+ r.2.2.text) := by
  decide +kernel

/-- C93: a print that fails stops the program with status 1. Before the checkpoint's announcement is
printed no file is there; after it, the checkpoint is. -/
example : (let r := fun k : ℕ => cdtMainAloud pointVoice (pointFault k) pointHost (pointOutside 92) (some pointOptions) goodDisk;
    (r 0).1 = 1 ∧ (r 0).2.2.text = ascii "Topol" ∧ (r 0).2.1.log = [] ∧
    (r 33).1 = 1 ∧ (r 33).2.1.log.length = 0 ∧ (r 34).1 = 1 ∧ (r 34).2.1.log.length = 1) := by
  decide +kernel

/-- C93: `initialize` with and without `--output`. -/
example :
    (let r := fun b =>
        initializeMainAloud pointVoice (fun _ => none) pointHost (pointOutside 92) (some { pointOptions with output := b })
          goodDisk;
    (r false).1 = 0 ∧ (r false).2.1.log.length = 0 ∧ (r true).1 = 0 ∧ (r true).2.1.log.length = 1 ∧
    (r true).2.2.text = ascii ("Topology is spherical\nNumber of dimensions = 3\nNumber of desired simplices = 640\n" ++
      "Number of desired timeslices = 4\nInitial radius = 1\nFoliation spacing = 1\nEffective random seed: 92\n" ++
      "Maximum Delaunay threads: 1\nOutput will be saved.\nPoints!\n3 points.\nNo volume.\n" ++
      "Final number of simplices: 0\n" ++
      "Writing to file S3-3-0-I1.000000-R1.000000-2026-01-02.03-04-00UTC-seed-92.off\n")) := by
  decide +kernel

namespace WholeExample
open Fixture SimExample CausalExample

/-- The world in which the universe is the ring of four tetrahedra. -/
def ringOutside : Outside (Mfld ℕ) St where
  entropy := 92
  now i := ⟨2026, 1, 2, 3, 4, i⟩
  construct N T _ I L := buildUniverse plainEnv fanRepair (insertOf ring) exactFloats (fun _ => 1) ringPoint N T I L

def ringOptions : Options := { octaOptions with simplices := some 2, timeslices := some 2 }

def ringConfig : SimConfig :=
  ⟨⟨.spherical, 2, 2, 3, .fin 1, .fin 1, 92, 1⟩, .fin 1, .fin 1, .fin 1, 1, 1, true⟩

theorem ring_ordinary : Ordinary plainEnv .exact trialZero ringOptions :=
  ⟨octa_ordinary.lawful, octa_ordinary.rounding, octa_ordinary.trial, octa_ordinary.couplings⟩

/-- C93: the hypotheses of `C93_whole` are met by a universe built from points, on which four (4,4)
moves are attempted. -/
example (base : Voice (Mfld ℕ) St) : ∃ start, Launched octaHost ringOutside ringOptions ringConfig start ∧
    Fit plainEnv start ∧ Tame plainEnv octaHost ringConfig start ∧
    transitionsAfter octaHost ringConfig start 1 = 4 ∧
    constructionText octaHost (assembledVoice base plainEnv fanRepair (insertOf ring) exactFloats fun _ => ringPoint)
      ringConfig.triangulation = ascii ("\nGenerating universe ...\n" ++
        "Triangulation has 6 vertices and 13 edges and 12 faces and 4 simplices.\n") := by
  have hi : (insertOf ring).Lawful := insertOf_lawful (by decide +kernel)
  have key : ((buildUniverse plainEnv fanRepair (insertOf ring) exactFloats (fun _ => 1) ringPoint 2 2 (.fin 1)
      (.fin 1)).toOption.map fun m => decide (m.tri.cells = ring.cells ∧ m.tri.isValid = true ∧ QuietInfinity m.tri ∧
        (∀ k ∈ List.range 4,
          FreshCentroids plainEnv (flipOnce^[k] (m, Random.make toyPcg 92 1)).1.tri ∧
          Roomy (flipOnce^[k] (m, Random.make toyPcg 92 1)).1.geometry) ∧
        m.geometry.N3 = 4 ∧ shapeText "Triangulation" (census m.tri.inf m.tri.time m.tri.cells) =
          ascii "Triangulation has 6 vertices and 13 edges and 12 faces and 4 simplices.\n")) = some true := by decide +kernel
  cases hb : buildUniverse plainEnv fanRepair (insertOf ring) exactFloats (fun _ => 1) ringPoint 2 2 (.fin 1) (.fin 1) with
  | error e => rw [hb] at key; simp [Except.toOption] at key
  | ok m =>
    rw [hb] at key
    simp only [Except.toOption, Option.map_some, Option.some.injEq, decide_eq_true_eq] at key
    obtain ⟨-, k2, k3, h1, h2, h3⟩ := key
    simp only [List.mem_range] at h1
    have hfit : Fit plainEnv m := (C81_initial_universe plain_lawful fanLawful hi hb (isValid_iff.1 k2) k3).2.2.2
      ringPoints ring_ball (by decide +kernel) (by decide)
    have ho : origin octaHost ringConfig m = (m, Random.make toyPcg 92 1) := rfl
    have he : engineOf octaHost ringConfig = flipEngine := rfl
    have hfl := flips (x := (m, Random.make toyPcg 92 1)) hfit 4 h1
    have hta : transitionsAfter octaHost ringConfig m 1 = 4 := by
      have : flipEngine.n3 m = 4 := h2
      unfold transitionsAfter
      rw [he, ho]
      simp [passStart, trajectory, this]
    have ht : Tame plainEnv octaHost ringConfig m := by
      intro j hj
      have hj4 : j < 4 := by rw [← hta]; exact hj
      rw [he, ho, (hfl j (by omega)).1]
      exact h1 j hj4
    have hlaunch : Launched octaHost ringOutside ringOptions ringConfig m :=
      ⟨rfl, rfl, (by decide +kernel : RuntimeConfig.makeTriangulation exactFloats false true false 2 2 3 (.fin 1) (.fin 1) 92 1 >>= (fun t => RuntimeConfig.makeSimulation t (.fin 1) (.fin 1) (.fin 1) 1 1 true) = .ok ringConfig), hb⟩
    refine ⟨m, hlaunch, hfit, ht, hta, ?_⟩
    rw [(C93_whole (base := base) (re := fanRepair) (ie := insertOf ring) (F := exactFloats) (bits := fun _ => 1)
      (gen := fun _ => ringPoint) ring_ordinary hlaunch hfit ht rfl).1, h3, ascii_append]

end WholeExample
end CDT.Props
