import Verif.Lemmas.ViewerConsole
import Verif.Props.Viewer
/-
C94: what cdt-viewer prints is true of what it does.
-/
namespace CDT.Props
open CDT Spec

section
variable {T : Type} {voice : ViewerVoice} {faults errFaults : PrintFaults} {host : ViewerHost T} {o : ViewerOptions}
  {fs : Files} {events : List UiEvent} {e : ViewerEnd} {w : ViewerWorld}

theorem viewerMainAloud_eq (hh : o.help = false) (hv : o.version = false)
    (h : viewerMainAloud voice faults errFaults host (.ok o) events fs = some (e, w)) :
    ∃ r w', viewerRunAloud faults host o events { files := fs } = some (r, w') ∧
      viewerEnd voice errFaults r w' = (e, w) := by
  unfold viewerMainAloud at h
  simp only [hh, hv, Bool.false_eq_true, if_false, Option.map_eq_some_iff] at h
  obtain ⟨⟨r, w'⟩, h1, h2⟩ := h
  exact ⟨r, w', h1, h2⟩

theorem viewerEnd_keeps {r : Except Exc ℤ} {w' : ViewerWorld} (h : viewerEnd voice errFaults r w' = (e, w)) :
    w.files = w'.files ∧ w.out = w'.out := by
  unfold viewerEnd at h
  split at h
  · cases h; exact ⟨rfl, rfl⟩
  · split at h <;> cases h <;> exact ⟨rfl, rfl⟩

/-- An unattended event loop without failure leaves a suitable image at the output path. -/
theorem eventLoop_image {scene : Scene} {r : RenderConfig} {status : ℤ} {fs' : Files} (hq : Unattended events)
    (ho : o.output ≠ []) (h : eventLoop host scene r o.output events fs = some (status, false, fs')) :
    status = 0 ∧ ImageInPlace host r o.output fs' := by
  cases events with
  | nil => cases h
  | cons e events =>
    have hoe : (List.isEmpty o.output) = false := by simpa using ho
    cases e with
    | quit s => exact absurd (.head _) (hq s)
    | timeout =>
      unfold eventLoop at h
      rw [hoe] at h
      cases h
    | initialized =>
      unfold eventLoop at h
      rw [hoe] at h
      have h := Option.some.inj h
      unfold renderCallback at h
      split at h
      · cases h
      split at h
      · cases h
      split at h
      · cases h
      rename_i hi
      have e1 : (0 : ℤ) = status := congrArg Prod.fst h
      have e2 : _ = fs' := congrArg (fun p => p.2.2) h
      dsimp only at e2
      subst e2
      exact ⟨e1.symm, validateImage_ok hi⟩

theorem viewerEnd_exits_ok {r : Except Exc ℤ} {w' : ViewerWorld} {status : ℤ}
    (h : viewerEnd voice errFaults r w' = (.exits status, w)) (hs : status ≠ 1) :
    r = .ok status ∧ w = w' := by
  unfold viewerEnd at h
  split at h
  · cases h; exact ⟨rfl, rfl⟩
  · split at h
    · cases h
    · cases h; exact absurd rfl hs

/-- C94. Whatever cdt-viewer printed, also when interrupted at any byte: it is nothing; or a beginning of
the announcement of the fixture named by the command line and the manifest; or it is about a fixture
that passed every check, its numbers are the fixture's, and if any byte of the announcement of the image
came out then the file holds a readable image of the announced size (unless the application was told to
quit from outside). -/
theorem C94_prints_truth (hr : ReadsInts host o fs) (hh : o.help = false) (hv : o.version = false)
    (h : viewerMainAloud voice faults errFaults host (.ok o) events fs = some (e, w)) :
    w.out.text = [] ∨
    ∃ m fixture, NamesManifest host o fs m ∧ fixturePath host o m = .ok fixture ∧
      (w.out.text <+: readingText fixture ∨
       ∃ t, Validated host o fs m t ∧
        (w.out.text <+: readingText fixture ++ confirmationText host fixture t ∨
         ∃ u, w.out.text = readingText fixture ++ confirmationText host fixture t ++ u ∧
          u <+: imageText m.render.width m.render.height o.output ∧ o.output ≠ [] ∧
          (Unattended events → ImageInPlace host m.render o.output w.files))) := by
  obtain ⟨r, w', h1, h2⟩ := viewerMainAloud_eq hh hv h
  obtain ⟨k1, k2⟩ := viewerEnd_keeps h2
  rw [k1, k2]
  obtain ⟨-, ⟨x, -, -, rfl⟩ | ⟨m, hm, h3⟩⟩ := viewerRun_cases hr h1
  · exact .inl rfl
  obtain ⟨m₀, g1, g2, g3, -⟩ := checkedManifest_ok hm
  rcases h3 with ⟨x, -, -, h3, -⟩ | ⟨m₀, t, scene, h3, h4, -, -, h5⟩
  · exact .inr ⟨m₀, m.fixture, g1, g2, .inl h3⟩
  refine .inr ⟨m₀, m.fixture, h3.manifest, h4, .inr ⟨t, h3, ?_⟩⟩
  rcases h5 with ⟨x, -, -, -, h6⟩ | ⟨status, failed, h6, h7⟩
  · exact .inl h6
  rcases h7 with ⟨-, -, h7⟩ | ⟨-, -, -, h7⟩ | ⟨rfl, ho, u, h7, h8, -⟩
  · exact .inl (h7 ▸ List.prefix_refl _)
  · exact .inl (h7 ▸ List.prefix_refl _)
  · exact .inr ⟨u, h7, h8, ho, fun hq => (eventLoop_image hq ho h6).2⟩

/-- C94. Exit status 0: standard error is empty and standard output is complete: it names the validated
fixture, with its numbers, and with `--output` the image that is there. -/
theorem C94_success (hr : ReadsInts host o fs) (hh : o.help = false) (hv : o.version = false) (hq : Unattended events)
    (h : viewerMainAloud voice faults errFaults host (.ok o) events fs = some (.exits 0, w)) :
    w.err.text = [] ∧ viewerMain host (some o) events fs = some (0, w.files) ∧
    ∃ m t fixture, Validated host o fs m t ∧ fixturePath host o m = .ok fixture ∧
      w.out.text = readingText fixture ++ confirmationText host fixture t ++
        (if o.output = [] then [] else imageText m.render.width m.render.height o.output) ∧
      (o.output ≠ [] → ImageInPlace host m.render o.output w.files) := by
  obtain ⟨r, w', h1, h2⟩ := viewerMainAloud_eq hh hv h
  obtain ⟨rfl, rfl⟩ := viewerEnd_exits_ok h2 (by decide)
  obtain ⟨h0, ⟨x, -, h3, -⟩ | ⟨m, hm, h3⟩⟩ := viewerRun_cases hr h1
  · cases h3
  refine ⟨by rw [h0], ?_⟩
  rcases h3 with ⟨x, h3, -⟩ | ⟨m₀, t, scene, h3, h4, -, hp, h5⟩
  · cases h3
  rcases h5 with ⟨x, h6, -⟩ | ⟨status, failed, h6, h7⟩
  · cases h6
  have hmain : failed = false → status = 0 → viewerMain host (some o) events fs = some (0, w.files) := by
    rintro rfl rfl
    unfold viewerMain
    simp only [hh, hv, Bool.false_eq_true, if_false, hp, h6]
  rcases h7 with ⟨-, h7, -⟩ | ⟨hf, ho, h8, h7⟩ | ⟨rfl, ho, u, h7, -, h8⟩
  · cases h7
  · cases h8
    refine ⟨hmain hf rfl, m₀, t, m.fixture, h3, h4, ?_, fun hc => absurd ho hc⟩
    rw [if_pos ho, h7, List.append_nil]
  · rcases h8 with ⟨h8, rfl⟩ | ⟨-, x, h8⟩
    · cases h8
      refine ⟨hmain rfl rfl, m₀, t, m.fixture, h3, h4, ?_, fun _ => (eventLoop_image hq ho h6).2⟩
      rw [if_neg ho, h7]
    · cases h8

/-- C94. A run that does not succeed says so: exit status 1 comes with exactly one message on standard
error; the program is aborted only if that message itself cannot be printed. There is no other exit
status unless the application is told to quit with one. -/
theorem C94_failure {parsed : Except Exc ViewerOptions} (hr : ∀ o, parsed = .ok o → ReadsInts host o fs)
    (hq : Unattended events)
    (h : viewerMainAloud voice faults errFaults host parsed events fs = some (e, w)) :
    (e = .exits 0 ∧ w.err.text = []) ∨ (e = .exits 1 ∧ ∃ x, w.err.text = complaint (voice.what x)) ∨
    (e = .aborts ∧ errFaults 0 ≠ none ∧ ∃ x, w.err.text <+: complaint (voice.what x)) := by
  have key : ∀ (r : Except Exc ℤ) (w' : ViewerWorld), w'.err = {} → (∀ s, r = .ok s → s = 0) →
      viewerEnd voice errFaults r w' = (e, w) →
      (e = .exits 0 ∧ w.err.text = []) ∨ (e = .exits 1 ∧ ∃ x, w.err.text = complaint (voice.what x)) ∨
      (e = .aborts ∧ errFaults 0 ≠ none ∧ ∃ x, w.err.text <+: complaint (voice.what x)) := by
    intro r w' h0 hs hend
    unfold viewerEnd at hend
    rcases r with x | s
    · dsimp only at hend
      rw [complaint_eq, h0] at hend
      obtain ⟨u, hu1, hu2⟩ := say_text errFaults (complaint (voice.what x)) {}
      rcases hsay : say errFaults (complaint (voice.what x)) {} with ⟨q, c⟩
      rw [hsay] at hend hu1
      rcases q with y | ⟨⟩
      · cases hend
        refine .inr (.inr ⟨rfl, fun hn => ?_, x, ?_⟩)
        · unfold say at hsay
          rw [hn] at hsay
          cases hsay
        · have hu1 : c.text = u := by simpa using hu1
          exact hu1 ▸ hu2
      · cases hend
        refine .inr (.inl ⟨rfl, x, ?_⟩)
        simpa using say_ok hsay
    · cases hend
      exact .inl ⟨by rw [hs s rfl], by rw [h0]⟩
  rcases parsed with x | o'
  · unfold viewerMainAloud at h
    exact key _ _ rfl (fun s hs => by cases hs) (Option.some.inj h)
  have hr := hr o' rfl
  by_cases hh : o'.help = true
  · unfold viewerMainAloud at h
    dsimp only at h
    rw [if_pos hh] at h
    refine key _ _ ?_ ?_ (Option.some.inj h)
    · rfl
    · intro s hs
      revert hs
      generalize (sayOut faults (format "{}\n" [voice.usage]) { files := fs }).1 = q
      intro hs
      rcases q with x | ⟨⟩
      · cases hs
      · cases hs; rfl
  by_cases hv : o'.version = true
  · unfold viewerMainAloud at h
    dsimp only at h
    rw [if_neg hh, if_pos hv] at h
    refine key _ _ ?_ ?_ (Option.some.inj h)
    · rfl
    · intro s hs
      revert hs
      generalize (sayOut faults (format "cdt-viewer version {} (CGAL {}, Qt {})\n"
        [voice.version, host.cgalVersion, host.qtVersion]) { files := fs }).1 = q
      intro hs
      rcases q with x | ⟨⟩
      · cases hs
      · cases hs; rfl
  rw [Bool.not_eq_true] at hh hv
  obtain ⟨r, w', h1, h2⟩ := viewerMainAloud_eq hh hv h
  refine key r w' (viewerRun_cases hr h1).1 ?_ h2
  rintro s rfl
  obtain ⟨-, ⟨x, -, h3, -⟩ | ⟨m, hm, h3⟩⟩ := viewerRun_cases hr h1
  · cases h3
  rcases h3 with ⟨x, h3, -⟩ | ⟨m₀, t, scene, h3, h4, -, hp, h5⟩
  · cases h3
  rcases h5 with ⟨x, h6, -⟩ | ⟨status, failed, h6, h7⟩
  · cases h6
  have hst : failed = false → s = status → s = 0 := by
    rintro rfl rfl
    have hm : viewerMain host (some o') events fs = some (s, w'.files) := by
      unfold viewerMain
      simp only [hh, hv, Bool.false_eq_true, if_false, hp, h6]
    have h01 := C69_exit_status hr hq hm
    by_cases ho : o'.output = []
    · exfalso
      rw [ho] at h6
      clear hm h1 h2 h h7 hp
      induction events with
      | nil => cases h6
      | cons e events ih =>
        have hq' : Unattended events := fun s hs => hq s (.tail _ hs)
        cases e with
        | quit s => exact absurd (.head _) (hq s)
        | timeout => exact ih hq' h6
        | initialized => exact ih hq' h6
    · exact (eventLoop_image hq ho h6).1
  rcases h7 with ⟨-, h7, -⟩ | ⟨hf, ho, h8, h7⟩ | ⟨hf, ho, u, h7, -, h8⟩
  · cases h7
  · exact hst hf (Except.ok.inj h8)
  · rcases h8 with ⟨h8, -⟩ | ⟨-, x, h8⟩
    · exact hst hf (Except.ok.inj h8)
    · cases h8

/-- C94. Output changes nothing: if no print fails, exit status and files are those of the viewer without
output. -/
theorem C94_output_changes_nothing (hr : ReadsInts host o fs) (hn : ∀ n, faults n = none)
    (hn' : ∀ n, errFaults n = none) :
    (viewerMainAloud voice faults errFaults host (.ok o) events fs).map (fun x => (x.1, x.2.files)) =
      (viewerMain host (some o) events fs).map fun x => (.exits x.1, x.2) := by
  have hend : ∀ (r : Except Exc ℤ) (w' : ViewerWorld), w'.err = {} → ∃ c,
      viewerEnd voice errFaults r w' = (.exits (match r with | .ok s => s | .error _ => 1), { w' with err := c }) := by
    intro r w' h0
    unfold viewerEnd
    rcases r with x | s
    · dsimp only
      rcases say_cases errFaults (format "cdt-viewer: {}\n" [voice.what x]) w'.err with ⟨c, hc⟩ | ⟨-, hc⟩
      · rw [hc]; exact ⟨c, rfl⟩
      · exact absurd hn' hc
    · exact ⟨_, rfl⟩
  have hsay : ∀ t w, ∃ c, sayOut faults t w = (.ok (), { w with out := c }) := by
    intro t w
    unfold sayOut
    rcases say_cases faults t w.out with ⟨c, hc⟩ | ⟨-, hc⟩
    · rw [hc]; exact ⟨c, rfl⟩
    · exact absurd hn hc
  unfold viewerMainAloud viewerMain
  dsimp only
  split
  · obtain ⟨c, hc⟩ := hsay (format "{}\n" [voice.usage]) { files := fs }
    rw [hc]
    rfl
  split
  · obtain ⟨c, hc⟩ := hsay (format "cdt-viewer version {} (CGAL {}, Qt {})\n"
        [voice.version, host.cgalVersion, host.qtVersion]) { files := fs }
    rw [hc]
    rfl
  rcases hrun : viewerRunAloud faults host o events { files := fs } with _ | ⟨r, w'⟩
  · -- only the event loop can run forever
    rw [prepareScene_eq]
    unfold viewerRunAloud reading readFileAloud at hrun
    dsimp only at hrun
    rcases hm : checkedManifest host o fs with x | m
    · rw [hm] at hrun; cases hrun
    rw [hm] at hrun
    dsimp only at hrun
    obtain ⟨c, hc⟩ := hsay (format "Reading from file {}\n" [m.fixture]) { files := fs }
    rw [hc] at hrun
    dsimp only [reading] at hrun
    rcases ht : readFile host.codec host.text m.fixture fs with x | t
    · rw [ht] at hrun; cases hrun
    rw [ht] at hrun
    dsimp only at hrun
    rcases hv : validatedScene host t m with x | scene
    · rw [hv] at hrun; cases hrun
    rw [hv] at hrun
    dsimp only at hrun
    obtain ⟨c', hc'⟩ := hsay (validatedLine m) { files := fs, out := c }
    rw [hc'] at hrun
    dsimp only at hrun
    simp only [Except.bind, ht, hv]
    rcases he : eventLoop host scene m.render o.output events fs with _ | ⟨status, failed, fs₁⟩
    · rfl
    · rw [he] at hrun
      cases failed with
      | true => cases hrun
      | false =>
        dsimp only at hrun
        split at hrun
        · cases hrun
        · obtain ⟨c'', hc''⟩ := hsay (renderedLine m.render o.output) { files := fs₁, out := c' }
          rw [hc''] at hrun
          cases hrun
  obtain ⟨h0, hcases⟩ := viewerRun_cases hr hrun
  obtain ⟨c, hc⟩ := hend r w' h0
  simp only [Option.map_some, hc]
  rcases hcases with ⟨x, hm, rfl, rfl⟩ | ⟨m, hm, h3⟩
  · rw [prepareScene_eq, hm]
    rfl
  rcases h3 with ⟨x, rfl, h4, -, h5⟩ | ⟨m₀, t, scene, h3, h4, -, hp, h5⟩
  · rw [h5 hn]
    dsimp only
    rw [h4]
    rfl
  rw [hp]
  dsimp only
  rcases h5 with ⟨x, -, -, h6, -⟩ | ⟨status, failed, h6, h7⟩
  · exact absurd hn h6
  rw [h6]
  rcases h7 with ⟨rfl, rfl, h7⟩ | ⟨rfl, -, rfl, -⟩ | ⟨rfl, -, u, -, -, ⟨rfl, -⟩ | ⟨h8, -⟩⟩
  · rfl
  · rfl
  · rfl
  · exact absurd hn h8

/-- A limit of C94: an application told to quit before the image is made reports success and announces an
image that it did not make. -/
theorem C94_quit_announces_nothing (hh : o.help = false) (hv : o.version = false) (ho : o.output ≠ [])
    {m : ViewerManifest} {t : T} {scene : Scene} (hm : checkedManifest host o fs = .ok m)
    (ht : readFile host.codec host.text m.fixture fs = .ok t) (hs : validatedScene host t m = .ok scene)
    (hn : ∀ n, faults n = none) :
    ∃ w, viewerMainAloud voice faults errFaults host (.ok o) (.quit 0 :: events) fs = some (.exits 0, w) ∧
      w.files = fs ∧ imageText m.render.width m.render.height o.output <:+ w.out.text := by
  have hsay : ∀ t w, sayOut faults t w = (.ok (), { w with out := ⟨w.out.text ++ t, w.out.calls + 1⟩ }) := by
    intro t w
    unfold sayOut say
    rw [hn]
  have hoe : (List.isEmpty o.output) = false := by simpa using ho
  unfold viewerMainAloud viewerRunAloud readFileAloud reading
  simp only [hh, hv, Bool.false_eq_true, if_false, hm, hsay, ht, hs, eventLoop, hoe, Option.map_some, viewerEnd]
  refine ⟨_, rfl, rfl, ?_⟩
  dsimp only
  rw [renderedLine_eq]
  exact List.suffix_append _ _

end

namespace ViewerSample
open Fixture

/-- A voice. -/
def voice : ViewerVoice := ⟨ascii "help", ascii "1", fun _ => ascii "failure"⟩

/-- What a run on the sample disk prints. -/
def spoken (faults errFaults : PrintFaults) (events : List UiEvent) : Option (ViewerEnd × Bytes × Bytes) :=
  (viewerMainAloud voice faults errFaults host (.ok options) events disk).map fun x => (x.1, x.2.out.text, x.2.err.text)

-- Hypotheses of C94_success, C94_prints_truth and C94_output_changes_nothing, and what is printed.
example : spoken (fun _ => none) (fun _ => none) [.initialized] = some (.exits 0,
      ascii "Reading from file S3.off\nValidated viewer fixture S3.off with V/E/F/T=3/0/0/0.\nRendered 2x1 artifact to out.png.\n",
      []) := by decide +kernel
-- The announcement of the image breaks off after its first word.
example : spoken (fun n => if n = 2 then some (8, .runtimeError) else none) (fun _ => none) [.initialized] = some (.exits 1,
      ascii "Reading from file S3.off\nValidated viewer fixture S3.off with V/E/F/T=3/0/0/0.\nRendered",
      ascii "cdt-viewer: failure\n") := by decide +kernel
-- Hypotheses of C94_failure: a timeout, reported or not.
example : spoken (fun _ => none) (fun _ => none) [.timeout] = some (.exits 1,
      ascii "Reading from file S3.off\nValidated viewer fixture S3.off with V/E/F/T=3/0/0/0.\n",
      ascii "cdt-viewer: failure\n") := by decide +kernel
example : spoken (fun _ => none) (fun _ => some (0, .runtimeError)) [.timeout] = some (.aborts,
      ascii "Reading from file S3.off\nValidated viewer fixture S3.off with V/E/F/T=3/0/0/0.\n", []) := by decide +kernel
-- C94_quit_announces_nothing.
example : spoken (fun _ => none) (fun _ => none) [.quit 0] = some (.exits 0,
      ascii "Reading from file S3.off\nValidated viewer fixture S3.off with V/E/F/T=3/0/0/0.\nRendered 2x1 artifact to out.png.\n",
      []) ∧ disk options.output = none := by decide +kernel

end ViewerSample
end CDT.Props
