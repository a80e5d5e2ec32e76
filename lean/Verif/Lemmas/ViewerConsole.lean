import Verif.Spec.ViewerConsole
import Verif.Lemmas.Viewer
import Verif.Lemmas.Console
/-
Lemmas about the output of cdt-viewer.
-/
namespace CDT
open Spec
variable {T : Type} {voice : ViewerVoice} {faults errFaults : PrintFaults} {host : ViewerHost T} {o : ViewerOptions}
  {fs : Files} {events : List UiEvent}

theorem prepareScene_eq (host : ViewerHost T) (o : ViewerOptions) (fs : Files) :
    prepareScene host o fs = (checkedManifest host o fs).bind fun m =>
      (readFile host.codec host.text m.fixture fs).bind fun t =>
        (validatedScene host t m).bind fun scene => .ok (scene, m.render) := by
  unfold prepareScene checkedManifest validatedScene
  simp only [bind, Except.bind, pure, Except.pure]
  cases requiredManifest o with
  | error e => rfl
  | ok path =>
    dsimp only
    cases loadManifest host path fs with
    | error e => rfl
    | ok m =>
      dsimp only
      cases chosenFixture host o m with
      | error e => rfl
      | ok fixture =>
        dsimp only
        cases orFilesystemError (fs fixture) with
        | error e => rfl
        | ok contents =>
          dsimp only
          cases refuseIf (decide (host.sha256 contents ≠ m.sha256)) with
          | error e => rfl
          | ok u =>
            dsimp only
            cases checkVersions host m with
            | error e => rfl
            | ok u =>
              dsimp only
              cases readFile host.codec host.text fixture fs with
              | error e => rfl
              | ok t =>
                dsimp only
                rw [show validateFixture host t { m with fixture := fixture } = validateFixture host t m from rfl]
                cases validateFixture host t m with
                | error e => rfl
                | ok u => rfl

theorem readingLine_eq (path : Path) : format "Reading from file {}\n" [path] = readingText path :=
  format_eq _ ["Reading from file ", "\n"] _ (by decide +kernel) rfl

theorem validatedLine_eq {m : ViewerManifest} {t : T} {path : Path} (hp : m.fixture = path)
    (h1 : ((host.codec.view t).nv : ℤ) = m.expected.vertices) (h2 : (host.codec.edges t : ℤ) = m.expected.edges)
    (h3 : (host.codec.facets t : ℤ) = m.expected.faces) (h4 : ((host.codec.view t).nc : ℤ) = m.expected.simplices) :
    validatedLine m = confirmationText host path t := by
  unfold validatedLine confirmationText
  rw [format_eq _ ["Validated viewer fixture ", " with V/E/F/T=", "/", "/", "/", ".\n"] _ (by decide +kernel) rfl,
    ← h1, ← h2, ← h3, ← h4, hp]
  simp only [decimalInt_natCast]

theorem renderedLine_eq (r : RenderConfig) (output : Path) : renderedLine r output = imageText r.width r.height output :=
  format_eq _ ["Rendered ", "x", " artifact to ", ".\n"] _ (by decide +kernel) rfl

theorem complaint_eq (message : Bytes) : format "cdt-viewer: {}\n" [message] = complaint message :=
  format_eq _ ["cdt-viewer: ", "\n"] _ (by decide +kernel) rfl

theorem checkedManifest_ok {m : ViewerManifest} (h : checkedManifest host o fs = .ok m) :
    ∃ m₀, NamesManifest host o fs m₀ ∧ fixturePath host o m₀ = .ok m.fixture ∧ m = { m₀ with fixture := m.fixture } ∧
      (∃ contents, fs m.fixture = some contents ∧ host.sha256 contents = m.sha256) := by
  unfold checkedManifest at h
  simp only [bind_ok] at h
  obtain ⟨path, h1, m₀, h2, fixture, h3, contents, h4, u, h5, v, h6, h7⟩ := h
  cases h7
  rw [refuseIf_ok, decide_eq_false_iff_not, not_not] at h5
  have hp : o.manifest = some path := by
    unfold requiredManifest at h1
    cases hm : o.manifest with
    | none => rw [hm] at h1; cases h1
    | some p => rw [hm] at h1; cases h1; rfl
  unfold loadManifest at h2
  simp only [bind_ok] at h2
  obtain ⟨mc, h11, h12⟩ := h2
  have h11 : fs path = some mc := by
    revert h11
    cases fs path with
    | none => intro h; cases h
    | some c => intro h; cases h; rfl
  split at h12
  · cases h12
  rename_i doc hdoc
  have h4 : fs fixture = some contents := by
    revert h4
    cases fs fixture with
    | none => intro h; cases h
    | some c => intro h; cases h; rfl
  refine ⟨m₀, ⟨path, mc, doc, hp, h11, hdoc, (parseManifest_iff.1 h12).1⟩, ?_, rfl, contents, h4, h5⟩
  unfold fixturePath
  unfold chosenFixture at h3
  simpa only [List.isEmpty_iff] using h3

/-- The stages of a run, its files and output: it ends before the fixture is read; while reading or
checking it; while announcing that it is in order; while running the viewer; or after that. -/
theorem viewerRun_cases {r : Except Exc ℤ} {w : ViewerWorld} (hr : ReadsInts host o fs)
    (h : viewerRunAloud faults host o events { files := fs } = some (r, w)) :
    w.err = {} ∧
    ((∃ e, checkedManifest host o fs = .error e ∧ r = .error e ∧ w = { files := fs }) ∨
     ∃ m, checkedManifest host o fs = .ok m ∧
      ((∃ e, r = .error e ∧ w.files = fs ∧ w.out.text <+: readingText m.fixture ∧
          ((∀ n, faults n = none) → prepareScene host o fs = .error e)) ∨
       ∃ m₀ t scene, Validated host o fs m₀ t ∧ fixturePath host o m₀ = .ok m.fixture ∧ m.render = m₀.render ∧
        prepareScene host o fs = .ok (scene, m₀.render) ∧
        ((∃ e, r = .error e ∧ w.files = fs ∧ ¬ (∀ n, faults n = none) ∧
            w.out.text <+: readingText m.fixture ++ confirmationText host m.fixture t) ∨
         ∃ status failed, eventLoop host scene m₀.render o.output events fs = some (status, failed, w.files) ∧
          ((failed = true ∧ r = .error .runtimeError ∧
              w.out.text = readingText m.fixture ++ confirmationText host m.fixture t) ∨
           (failed = false ∧ o.output = [] ∧ r = .ok status ∧
              w.out.text = readingText m.fixture ++ confirmationText host m.fixture t) ∨
           (failed = false ∧ o.output ≠ [] ∧ ∃ u, w.out.text =
                readingText m.fixture ++ confirmationText host m.fixture t ++ u ∧
              u <+: imageText m₀.render.width m₀.render.height o.output ∧
              ((r = .ok status ∧ u = imageText m₀.render.width m₀.render.height o.output) ∨
               (¬ (∀ n, faults n = none) ∧ ∃ e, r = .error e))))))) := by
  unfold viewerRunAloud reading at h
  dsimp only at h
  have hps := prepareScene_eq host o fs
  rcases hm : checkedManifest host o fs with e | m
  · rw [hm] at h
    cases h
    exact ⟨rfl, .inl ⟨e, rfl, rfl, rfl⟩⟩
  rw [hm] at h hps
  dsimp only [Except.bind] at h hps
  unfold readFileAloud sayOut reading at h
  dsimp only at h
  rw [readingLine_eq] at h
  obtain ⟨u, hu1, hu2⟩ := say_text faults (readingText m.fixture) {}
  rcases hs : say faults (readingText m.fixture) {} with ⟨q, c1⟩
  rw [hs] at h hu1
  have hu1 : c1.text = u := by simpa using hu1
  subst hu1
  rcases q with e | ⟨⟩
  · cases h
    refine ⟨rfl, .inr ⟨m, rfl, .inl ⟨e, rfl, rfl, hu2, fun hn => ?_⟩⟩⟩
    rcases say_cases faults (readingText m.fixture) {} with ⟨c', hc⟩ | ⟨-, hc⟩
    · rw [hs] at hc; cases hc
    · exact absurd hn hc
  have h1 : c1.text = readingText m.fixture := by simpa using say_ok hs
  dsimp only at h
  rcases ht : readFile host.codec host.text m.fixture fs with e | t
  · rw [ht] at h hps
    cases h
    exact ⟨rfl, .inr ⟨m, rfl, .inl ⟨e, rfl, rfl, hu2, fun _ => hps⟩⟩⟩
  rw [ht] at h hps
  dsimp only at h hps
  rcases hv : validatedScene host t m with e | scene
  · rw [hv] at h hps
    cases h
    exact ⟨rfl, .inr ⟨m, rfl, .inl ⟨e, rfl, rfl, hu2, fun _ => hps⟩⟩⟩
  rw [hv] at h hps
  dsimp only at h hps
  obtain ⟨m₀, g1, g2, g3, contents, g4, g5⟩ := checkedManifest_ok hm
  unfold validatedScene at hv
  simp only [bind_ok] at hv
  obtain ⟨⟨⟩, hv1, hv2⟩ := hv
  have hren : m.render = m₀.render := by rw [g3]
  have hexp : m.expected = m₀.expected := by rw [g3]
  have hsha : m.sha256 = m₀.sha256 := by rw [g3]
  have hl : LabelsAreInts host t := hr _ _ _ g1 g2 ht
  obtain ⟨k1, k2, k3, k4, k5, k6, k7, k8, k9⟩ := validateFixture_ok hl hv1
  have hversions : m₀.cgalVersion = host.cgalVersion ∧ m₀.qtVersion = host.qtVersion := by
    have hm := hm
    unfold checkedManifest at hm
    simp only [bind_ok] at hm
    obtain ⟨path, -, m₁, -, fixture, -, contents, -, u, -, v, h6, h7⟩ := hm
    have e1 : m.cgalVersion = m₁.cgalVersion ∧ m.qtVersion = m₁.qtVersion := by
      rw [← Except.ok.inj h7]; exact ⟨rfl, rfl⟩
    have e2 : m.cgalVersion = m₀.cgalVersion ∧ m.qtVersion = m₀.qtVersion := by rw [g3]; exact ⟨rfl, rfl⟩
    rw [← e2.1, ← e2.2, e1.1, e1.2]
    unfold checkVersions at h6
    split at h6
    · cases h6
    · rename_i hc
      simpa only [not_or, ne_eq, not_not] using hc
  have hval : Validated host o fs m₀ t :=
    ⟨g1, ⟨m.fixture, contents, g2, g4, hsha ▸ g5, ht⟩, hversions, k1, k2, k3, hexp ▸ k4, hexp ▸ k5, hexp ▸ k6,
      hexp ▸ k7, hexp ▸ k8, hexp ▸ k9⟩
  rw [validatedLine_eq (host := host) (t := t) rfl k4 k5 k6 k7] at h
  rw [hren] at hps
  obtain ⟨u, hu1', hu2'⟩ := say_text faults (confirmationText host m.fixture t) c1
  rcases hs' : say faults (confirmationText host m.fixture t) c1 with ⟨q, c2⟩
  rw [hs'] at h hu1'
  dsimp only at h hu1'
  rw [h1] at hu1'
  rcases q with e | ⟨⟩
  · cases h
    refine ⟨rfl, .inr ⟨m, rfl, .inr ⟨m₀, t, scene, hval, g2, hren, hps, .inl ⟨e, rfl, rfl, fun hn => ?_, ?_⟩⟩⟩⟩
    · rcases say_cases faults (confirmationText host m.fixture t) c1 with ⟨c', hc⟩ | ⟨-, hc⟩
      · rw [hs'] at hc; cases hc
      · exact hc hn
    · dsimp only
      rw [hu1']
      exact (List.prefix_append_right_inj _).2 hu2'
  have h2 : c2.text = readingText m.fixture ++ confirmationText host m.fixture t := by rw [say_ok hs', h1]
  dsimp only at h
  rw [hren] at h
  rcases he : eventLoop host scene m₀.render o.output events fs with _ | ⟨status, failed, fs₁⟩
  · rw [he] at h; cases h
  rw [he] at h
  cases failed with
  | true =>
    cases h
    exact ⟨rfl, .inr ⟨m, rfl, .inr ⟨m₀, t, scene, hval, g2, hren, hps, .inr ⟨status, true, he, .inl ⟨rfl, rfl, h2⟩⟩⟩⟩⟩
  | false =>
    dsimp only at h
    split at h
    · rename_i ho
      cases h
      exact ⟨rfl, .inr ⟨m, rfl, .inr ⟨m₀, t, scene, hval, g2, hren, hps, .inr ⟨status, false, he,
        .inr (.inl ⟨rfl, List.isEmpty_iff.1 ho, rfl, h2⟩)⟩⟩⟩⟩
    · rename_i ho
      have ho : o.output ≠ [] := fun hc => ho (List.isEmpty_iff.2 hc)
      rw [renderedLine_eq] at h
      obtain ⟨u, hu3, hu4⟩ := say_text faults (imageText m₀.render.width m₀.render.height o.output) c2
      rcases hs'' : say faults (imageText m₀.render.width m₀.render.height o.output) c2 with ⟨q, c3⟩
      rw [hs''] at h hu3
      dsimp only at h hu3
      rw [h2] at hu3
      rcases q with e | ⟨⟩
      · cases h
        refine ⟨rfl, .inr ⟨m, rfl, .inr ⟨m₀, t, scene, hval, g2, hren, hps, .inr ⟨status, false, he,
          .inr (.inr ⟨rfl, ho, u, hu3, hu4, .inr ⟨fun hn => ?_, e, rfl⟩⟩)⟩⟩⟩⟩
        rcases say_cases faults (imageText m₀.render.width m₀.render.height o.output) c2 with ⟨c', hc⟩ | ⟨-, hc⟩
        · rw [hs''] at hc; cases hc
        · exact hc hn
      · cases h
        refine ⟨rfl, .inr ⟨m, rfl, .inr ⟨m₀, t, scene, hval, g2, hren, hps, .inr ⟨status, false, he,
          .inr (.inr ⟨rfl, ho, u, hu3, hu4, .inl ⟨rfl, ?_⟩⟩)⟩⟩⟩⟩
        have := say_ok hs''
        rw [h2, hu3] at this
        exact List.append_cancel_left this

end CDT
