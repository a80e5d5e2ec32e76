/-
C88: from `cdt`, `initialize` and unconditional runs to the viewer.
-/
import Verif.Props.Viewer
import Verif.Props.Program
import Verif.Props.AlwaysProgram

namespace CDT.Props
open CDT Spec Fixture

/-! ### The viewer accepts everything that is validated -/

section
variable {T : Type} {vh : ViewerHost T} {o : ViewerOptions} {fs fs' : Files} {events : List UiEvent}

theorem validateFixture_complete {t : T} (hl : LabelsAreInts vh t) {m : ViewerManifest} (hv : Validated vh o fs m t) :
    validateFixture vh t m = .ok .unit := by
  have hne : List.ofFn (vh.codec.view t).vinfo ≠ [] := by
    intro hc
    have := congrArg List.length hc
    rw [List.length_ofFn] at this
    exact absurd this hv.nonempty.ne'
  have hr : Set.range (vh.codec.view t).vinfo = {x | x ∈ List.ofFn (vh.codec.view t).vinfo} := by
    ext x; simp [List.mem_ofFn]
  have hmin := hv.minTime; have hmax := hv.maxTime
  rw [hr] at hmin hmax
  have e1 := (foldl_min_least _ (2 ^ 31 - 1) (fun x hx => by
    obtain ⟨v, rfl⟩ := List.mem_ofFn.1 hx
    have := hl v
    omega) hne).unique hmin
  have e2 := (foldl_max_greatest _ (-2 ^ 31) (fun x hx => by
    obtain ⟨v, rfl⟩ := List.mem_ofFn.1 hx
    exact (hl v).1) hne).unique hmax
  unfold validateFixture
  simp only [bind_ok, refuseIf_ok, decide_eq_false_iff_not, not_or, ne_eq, not_not]
  have hc : topologyCounts vh t = .ok ⟨(vh.codec.view t).nv, vh.codec.edges t, vh.codec.facets t, (vh.codec.view t).nc,
      m.expected.minimumTimeslice, m.expected.maximumTimeslice⟩ := by
    unfold topologyCounts
    rw [if_neg (by simp [hv.valid, hv.dimension]), if_neg hv.nonempty.ne']
    dsimp only
    rw [e1, e2]
  exact ⟨_, hc, hv.vertices, hv.edges, hv.faces, hv.simplices, rfl, rfl⟩

/-- C88: the viewer accepts every fixture that its specification calls validated, if the frame buffer
is practical. -/
theorem C88_validated_accepted (hF : vh.ext.Lawful) {m : ViewerManifest} {t : T} (hl : LabelsAreInts vh t)
    (hv : Validated vh o fs m t)
    (hp : Practical ⌈(m.render.width : ℚ) * m.render.oversampling⌉ ⌈(m.render.height : ℚ) * m.render.oversampling⌉) :
    ∃ scene, makeScene (vh.mesh t) m.render = .ok scene ∧ prepareScene vh o fs = .ok (scene, m.render) := by
  obtain ⟨path, contents, doc, h1, h2, h3, hm⟩ := hv.manifest
  obtain ⟨q, payload, h4, h5, h6, h7⟩ := hv.fixture
  obtain ⟨scene, hs⟩ := C71_scene_exists (vh.mesh t) hm.palette.2
  refine ⟨scene, hs, ?_⟩
  have g1 : requiredManifest o = .ok path := by unfold requiredManifest; rw [h1]
  have g2 : loadManifest vh path fs = .ok m := by
    unfold loadManifest
    rw [h2]
    simp only [orFilesystemError, bind, Except.bind, h3]
    exact C70_manifest_complete hF hm hp
  have g3 : chosenFixture vh o m = .ok q := by
    unfold chosenFixture
    unfold fixturePath at h4
    simpa only [List.isEmpty_iff] using h4
  have g4 : checkVersions vh m = .ok () := by
    unfold checkVersions
    rw [if_neg (by simp [hv.versions.1, hv.versions.2])]
  unfold prepareScene
  simp only [g1, g2, g3, h5, h6, g4, h7, validateFixture_complete hl hv, hs, orFilesystemError, refuseIf, bind, Except.bind, pure,
    Except.pure, ne_eq, not_true_eq_false, decide_false, Bool.false_eq_true, if_false]

/-- C88: and then, if the snapshot is taken and it, or its outlined form, is the image asked for, the
viewer succeeds. -/
theorem C88_exit_zero {scene : Scene} {r : RenderConfig} {taken : Files} {shot : Bytes} {source : Image}
    (hh : o.help = false) (hver : o.version = false) (ho : o.output ≠ [])
    (hp : prepareScene vh o fs = .ok (scene, r)) (hs : vh.snapshot scene r o.output fs = (true, taken))
    (h1 : taken o.output = some shot) (h2 : vh.decode shot = some source)
    (hi : if r.drawEdges = true ∧ r.edgeScope = ascii "screen_space_face_boundaries" then
        ∃ contents, vh.encode (outline r source) = some contents ∧ vh.decode contents = some (outline r source) ∧
          ImageOk r (outline r source)
      else ImageOk r source) :
    ∃ fs', viewerMain vh (some o) (.initialized :: events) fs = some (0, fs') := by
  have hoe : (List.isEmpty o.output) = false := by simpa using ho
  have valid : ∀ (i : Image) (c : Bytes) (f : Files), f o.output = some c → vh.decode c = some i → ImageOk r i →
      validateImage vh r o.output f = .ok () := by
    intro i c f hf hd hok
    unfold validateImage
    rw [hf]
    simp only [Option.bind_some, hd]
    rw [if_neg (by rw [hok.width, hok.height]; simp), if_neg (by rw [foregroundPixels_eq]; exact not_lt.2 hok.foreground)]
  obtain ⟨fs', hc⟩ : ∃ fs', renderCallback vh scene r o.output fs = (0, false, fs') := by
    unfold renderCallback
    rw [hs]
    dsimp only
    unfold outlineFile
    by_cases hd : r.drawsScreenSpaceEdges = true
    · rw [if_pos (by simpa [RenderConfig.drawsScreenSpaceEdges] using hd)] at hi
      obtain ⟨contents, e1, e2, e3⟩ := hi
      simp only [hd, Bool.not_true, Bool.false_eq_true, if_false, h1, Option.bind_some, h2, e1]
      rw [valid _ contents _ (by simp [Files.put]) e2 e3]
      exact ⟨_, rfl⟩
    · rw [if_neg (by simpa [RenderConfig.drawsScreenSpaceEdges] using hd)] at hi
      rw [Bool.not_eq_true] at hd
      simp only [hd, Bool.not_false, if_true]
      rw [valid _ _ _ h1 h2 hi]
      exact ⟨_, rfl⟩
  refine ⟨fs', ?_⟩
  unfold viewerMain
  simp only [hh, hver, Bool.false_eq_true, if_false, hp, eventLoop, hoe, hc]

/-! ### Artifacts -/

/-- A copy of a written artifact at `q`, with its manifest beside it or without. -/
def CopiedTo (a : Written) (q : Path) (fs : Files) : Prop :=
  fs q = a.payload ∧ (fs (q ++ ascii ".meta") = a.manifest ∨ fs (q ++ ascii ".meta") = none)

/-- The artifact is an intact stored form of `t`: its payload is the text of `t` and its manifest
describes it. -/
def Stores (codec : Codec T) (ft : FloatText) (a : Written) (t : T) : Prop :=
  a.payload = some (payloadText codec t) ∧
    ∃ text, a.manifest = some text ∧ DescribesArtifact codec ft text (payloadText codec t) t

theorem copied_reads {codec : Codec T} {ft : FloatText} {a : Written} {t : T} {q : Path} (hs : Stores codec ft a t)
    (hc : CopiedTo a q fs) (hf : Faithful codec t) (hl : LabelsFit codec t) : readFile codec ft q fs = .ok t := by
  obtain ⟨e1, text, e2, e3⟩ := hs
  refine readFile_iff.2 ⟨_, hc.1.trans e1, parsePayload_write hf hl, fun Mf hM => ?_⟩
  rcases hc.2 with h | h
  · have e : fs (q ++ ascii ".meta") = some Mf := hM
    rw [h, e2] at e
    cases e
    exact e3
  · rw [show fs (manifestName q) = none from h] at hM
    cases hM

theorem labelsAreInts {t : T} (hl : LabelsFit vh.codec t) : LabelsAreInts vh t := by
  intro v
  exact hl.1.1 _ (List.mem_ofFn.2 ⟨v, rfl⟩)

/-- The viewer is told, by its manifest or by `--fixture`, to draw the file `q`. -/
def Draws (vh : ViewerHost T) (o : ViewerOptions) (fs : Files) (q : Path) : Prop :=
  ∀ m, NamesManifest vh o fs m → fixturePath vh o m = .ok q

/-- A copy of an artifact in the viewer: whatever is validated is the triangulation stored, and a
headless run that succeeds took its picture. -/
theorem viewer_draws {a : Written} {t : T} {q : Path} (hs : Stores vh.codec vh.text a t) (hc : CopiedTo a q fs)
    (hf : Faithful vh.codec t) (hl : LabelsFit vh.codec t) (hq : Draws vh o fs q) :
    (∀ m u, Validated vh o fs m u → u = t) ∧
    (viewerMain vh (some o) events fs = some (0, fs') → o.help = false → o.version = false → o.output ≠ [] →
      Unattended events → ∃ m scene taken, Validated vh o fs m t ∧ makeScene (vh.mesh t) m.render = .ok scene ∧
        vh.snapshot scene m.render o.output fs = (true, taken)) := by
  have hr := copied_reads hs hc hf hl
  have key : ∀ m u, Validated vh o fs m u → u = t := by
    intro m u hv
    obtain ⟨q', c, h1, -, -, h2⟩ := hv.fixture
    rw [hq m hv.manifest] at h1
    cases h1
    rw [hr] at h2
    exact (Except.ok.inj h2).symm
  refine ⟨key, fun h hh hver ho hu => ?_⟩
  have hri : ReadsInts vh o fs := by
    intro m q' u hm h1 h2
    rw [hq m hm] at h1
    cases h1
    rw [hr] at h2
    cases h2
    exact labelsAreInts hl
  obtain ⟨m, u, scene, taken, hv, h1, h2, -⟩ := C69_success_means hri h hh hver ho hu
  obtain rfl := key m u hv
  exact ⟨m, scene, taken, hv, h1, h2⟩

/-- C88: a render manifest that repeats the counts and time range in the artifact's own manifest, with
the digest of the payload and the versions of this host, is accepted, provided CGAL calls the
triangulation valid, it is three-dimensional and not empty, and the frame buffer is practical. -/
theorem C88_accepts (hF : vh.ext.Lawful) {a : Written} {t : T} {q : Path} {payload text : Bytes} {recorded : ParsedMetadata}
    {m : ViewerManifest} (hs : Stores vh.codec vh.text a t) (hc : CopiedTo a q fs)
    (hf : Faithful vh.codec t) (hl : LabelsFit vh.codec t)
    (hpay : a.payload = some payload) (htext : a.manifest = some text) (hrec : readMetadata vh.text text = .ok recorded)
    (hn : NamesManifest vh o fs m) (hq : fixturePath vh o m = .ok q)
    (hsha : m.sha256 = vh.sha256 payload) (hver : m.cgalVersion = vh.cgalVersion ∧ m.qtVersion = vh.qtVersion)
    (hexp : m.expected = ⟨recorded.actualVertices, recorded.actualEdges, recorded.actualFaces, recorded.actualSimplices,
      recorded.minimumTimeslice, recorded.maximumTimeslice⟩)
    (hdim : recorded.dimension = 3) (hpos : 0 < recorded.actualVertices) (hval : vh.isValid t = true)
    (hp : Practical ⌈(m.render.width : ℚ) * m.render.oversampling⌉ ⌈(m.render.height : ℚ) * m.render.oversampling⌉) :
    ∃ scene, makeScene (vh.mesh t) m.render = .ok scene ∧ prepareScene vh o fs = .ok (scene, m.render) := by
  have hr := copied_reads hs hc hf hl
  obtain ⟨e1, text', e2, rec', e3, -, e4⟩ := hs
  rw [htext] at e2; cases e2
  rw [hrec] at e3; cases e3
  have hd := derive_of_validate e4
  unfold deriveState at hd
  simp only [bind_ok] at hd
  obtain ⟨nv, d1, ne, d2, nf, d3, nc, d4, tp, d5, d6⟩ := hd
  have narrow : ∀ {n : ℕ} {z : ℤ}, narrow32 n = .ok z → z = n := by
    intro n z h
    unfold narrow32 at h
    split at h
    · exact (Except.ok.inj h).symm
    · cases h
  cases narrow d1; cases narrow d2; cases narrow d3; cases narrow d4
  have d6 := Except.ok.inj d6
  simp only [DerivedState.mk.injEq] at d6
  obtain ⟨c1, c2, c3, c4, c5, c6, c7, -, -⟩ := d6
  have hposN : 0 < (vh.codec.view t).nv := by rw [← c2] at hpos; exact_mod_cast hpos
  have hrange := timeBounds_range (vh.codec.view t)
  rw [c6, c7] at hrange
  have hrange := hrange.resolve_left (fun h => absurd h.1 hposN.ne')
  refine C88_validated_accepted hF (labelsAreInts hl) ⟨hn, ⟨q, payload, hq, hc.1.trans hpay, hsha.symm, hr⟩, hver, hval,
    c1.trans hdim, hposN, ?_, ?_, ?_, ?_, ?_, ?_⟩ hp
  · rw [hexp]; exact c2
  · rw [hexp]; exact c3
  · rw [hexp]; exact c4
  · rw [hexp]; exact c5
  · rw [hexp]; exact hrange.1
  · rw [hexp]; exact hrange.2

end

/-! ### The three programs -/

section
variable {M S P F T : Type} {host : Host M S P T} {out : Outside M S} {o : Options} {cfg : SimConfig} {start : M}
  {vh : ViewerHost T} {vo : ViewerOptions} {fs fs' : Files} {events : List UiEvent}

/-- The viewer uses the file formats the other programs use. -/
def SameFormats (host : Host M S P T) (vh : ViewerHost T) : Prop := vh.codec = host.codec ∧ vh.text = host.text

/-- C88: the picture of an artifact of a `cdt` run is a picture of the state after the pass for which
that artifact was due. -/
theorem C88_cdt (h : Launched host out o cfg start) (disk : Disk)
    (hf : ∀ due ∈ duties cfg, Faithful host.codec (host.snapshot (stateAfter host cfg start due.1)) ∧
      LabelsFit host.codec (host.snapshot (stateAfter host cfg start due.1)))
    (hsame : SameFormats host vh) :
    ∀ a ∈ (cdtMain host out (some o) disk).2.log, ∃ due ∈ duties cfg, Truthful host cfg start due a ∧
      ∀ q, CopiedTo a q fs → Draws vh vo fs q →
        (∀ m t, Validated vh vo fs m t → t = host.snapshot (stateAfter host cfg start due.1)) ∧
        (viewerMain vh (some vo) events fs = some (0, fs') → vo.help = false → vo.version = false → vo.output ≠ [] →
          Unattended events → ∃ m scene taken, Validated vh vo fs m (host.snapshot (stateAfter host cfg start due.1)) ∧
            makeScene (vh.mesh (host.snapshot (stateAfter host cfg start due.1))) m.render = .ok scene ∧
            vh.snapshot scene m.render vo.output fs = (true, taken)) := by
  intro a ha
  obtain ⟨done, h1, h2, -⟩ := C64_provenance_true h disk
  obtain ⟨due, hd, ht⟩ : ∃ x ∈ done, Truthful host cfg start x a := by
    obtain ⟨i, hi, rfl⟩ := List.getElem_of_mem ha
    have hl := h2.length_eq
    exact ⟨done[i], List.getElem_mem _, (List.forall₂_iff_get.1 h2).2 i (by omega) hi⟩
  refine ⟨due, h1.subset hd, ht, fun q hc hq => ?_⟩
  obtain ⟨f1, f2⟩ := hf due (h1.subset hd)
  obtain ⟨s1, s2⟩ := hsame
  rw [← s1] at f1 f2
  refine viewer_draws ⟨?_, ?_⟩ hc f1 f2 hq
  · rw [s1]; exact ht.payload
  · rw [s1, s2]; exact ht.accepted

/-- C88: the picture of the artifact of `initialize` is a picture of the universe constructed. -/
theorem C88_initialize {tc : TriConfig} (h1 : o.help = false) (h2 : o.version = false)
    (hc : initializeConfig host out o = .ok tc)
    (hb : out.construct tc.simplices tc.timeslices (Random.make host.pcg tc.seed 0) tc.initialRadius
      tc.foliationSpacing = .ok start) (disk : Disk)
    (hf : Faithful host.codec (host.snapshot start) ∧ LabelsFit host.codec (host.snapshot start))
    (hsame : SameFormats host vh) :
    ∀ a ∈ (initializeMain host out (some o) disk).2.log, ∀ q, CopiedTo a q fs → Draws vh vo fs q →
      (∀ m t, Validated vh vo fs m t → t = host.snapshot start) ∧
      (viewerMain vh (some vo) events fs = some (0, fs') → vo.help = false → vo.version = false → vo.output ≠ [] →
        Unattended events → ∃ m scene taken, Validated vh vo fs m (host.snapshot start) ∧
          makeScene (vh.mesh (host.snapshot start)) m.render = .ok scene ∧
          vh.snapshot scene m.render vo.output fs = (true, taken)) := by
  intro a ha q hcp hq
  obtain ⟨s1, s2⟩ := hsame
  obtain ⟨f1, f2⟩ := hf
  rw [← s1] at f1 f2
  obtain ⟨g1, g2, -⟩ := C68_initialize h1 h2 hc hb disk
  have ht : InitialTruthful host tc start a := by
    cases ho : o.output with
    | false => rw [g1 ho] at ha; cases ha
    | true =>
      rcases g2 ho with ⟨-, b, hb, ht, -⟩ | ⟨-, hb⟩
      · rw [hb] at ha
        cases List.mem_singleton.1 ha
        exact ht
      · rw [hb] at ha; cases ha
  refine viewer_draws ⟨?_, ?_⟩ hcp f1 f2 hq
  · rw [s1]; exact ht.payload
  · rw [s1, s2]; exact ht.accepted

end

section
variable {M S P T : Type} {host : Host M S P T} {out : Outside M S} {moves : CommandEngine M (Random S)} {n3 : M → ℤ}
  {draw : Random S → Fin 5 × Random S} {vh : ViewerHost T} {vo : ViewerOptions} {fs fs' : Files} {events : List UiEvent}

/-- C88: the picture of a checkpoint of a `MoveAlways_3` run is a picture of the manifold after its
pass. -/
theorem C88_always (hk : KeepsSeed moves draw) (s : AlwaysStrategy (Random S))
    (hc : 1 ≤ s.cadence.checkpoint) (hp : 0 ≤ s.cadence.passes) (start : M) (disk : Disk)
    (hf : ∀ p ∈ owed s.cadence s.writesFiles,
      Faithful host.codec (host.snapshot (movedAfter (mover host out moves n3 draw) start s.gen p)) ∧
      LabelsFit host.codec (host.snapshot (movedAfter (mover host out moves n3 draw) start s.gen p)))
    (hsame : SameFormats host vh) :
    ∀ a ∈ (s.run (mover host out moves n3 draw) start ⟨disk, []⟩).2.2.log, ∃ p ∈ owed s.cadence s.writesFiles,
      CheckpointOf host (mover host out moves n3 draw) start s.gen p a ∧
      ∀ q, CopiedTo a q fs → Draws vh vo fs q →
        (∀ m t, Validated vh vo fs m t → t = host.snapshot (movedAfter (mover host out moves n3 draw) start s.gen p)) ∧
        (viewerMain vh (some vo) events fs = some (0, fs') → vo.help = false → vo.version = false → vo.output ≠ [] →
          Unattended events → ∃ m scene taken,
            Validated vh vo fs m (host.snapshot (movedAfter (mover host out moves n3 draw) start s.gen p)) ∧
            makeScene (vh.mesh (host.snapshot (movedAfter (mover host out moves n3 draw) start s.gen p))) m.render = .ok scene ∧
            vh.snapshot scene m.render vo.output fs = (true, taken)) := by
  intro a ha
  obtain ⟨done, h1, h2, -⟩ := C73_checkpoints_true (host := host) (out := out) (n3 := n3) hk s hc hp start disk
  obtain ⟨p, hd, ht⟩ : ∃ x ∈ done, CheckpointOf host (mover host out moves n3 draw) start s.gen x a := by
    obtain ⟨i, hi, rfl⟩ := List.getElem_of_mem ha
    have hl := h2.length_eq
    exact ⟨done[i], List.getElem_mem _, (List.forall₂_iff_get.1 h2).2 i (by omega) hi⟩
  refine ⟨p, h1.subset hd, ht, fun q hcp hq => ?_⟩
  obtain ⟨f1, f2⟩ := hf p (h1.subset hd)
  obtain ⟨s1, s2⟩ := hsame
  rw [← s1] at f1 f2
  refine viewer_draws ⟨?_, ?_⟩ hcp f1 f2 hq
  · rw [s1]; exact ht.snapshot.payload
  · rw [s1, s2]; exact ht.snapshot.accepted

end

/-! ### Examples -/

namespace PipelineSample
open ViewerSample

/-- A render manifest for `n` points labelled 1 to `n`. -/
def rootFor (n : ℕ) : String → Json := fun k =>
  if k = "fixture" then object [("path", .str samplePath), ("sha256", .str (ascii "digest")),
    ("expected_topology", object [("vertices", int n), ("edges", int 0), ("faces", int 0), ("simplices", int 0),
      ("minimum_timeslice", int 1), ("maximum_timeslice", int n)])]
  else root 3 k

/-- A viewer that reads point sets; the manifest documents are numbers. -/
def viewer : ViewerHost (List ℤ) := { ViewerSample.host with
  codec := pointSet
  json := fun b => (parseUnsigned 10 b).map rootFor
  sha256 := fun _ => ascii "digest" }

/-- The command line for the artifact at `q`. -/
def view (q : Path) : ViewerOptions := { manifest := some (ascii "viewer.json"), fixture := q, output := ascii "out.png" }

/-- The disk with a render manifest for `n` points. -/
def withManifest (n : ℕ) (fs : Files) : Files := fs.put (ascii "viewer.json") (some (decimal n))

theorem draws (q : Path) (hq : q ≠ []) (fs : Files) : Draws viewer (view q) fs q := by
  intro m _
  show (if q = [] then _ else _) = _
  rw [if_neg hq]
  rfl

/-- The run of `initialize`. -/
def initialized : Machine := (initializeMain pointHost (pointOutside 92) (some { pointOptions with output := true }) goodDisk).2
/-- The name of its artifact. -/
def initialName : Path := ascii "S3-3-0-I1.000000-R1.000000-2026-01-02.03-04-00UTC-seed-92.off"

-- Hypotheses of C88_initialize: its artifact is drawn where it lies, and the viewer succeeds.
example : initialized.log.map (fun a => (a.path, decide (a.payload = withManifest 3 initialized.disk.fs initialName),
    decide (a.manifest = withManifest 3 initialized.disk.fs (initialName ++ ascii ".meta")))) = [(initialName, true, true)] := by
  decide +kernel
example : (viewerMain viewer (some (view initialName)) [.initialized] (withManifest 3 initialized.disk.fs)).map Prod.fst = some 0 := by
  decide +kernel
example (a : Written) (ha : a ∈ initialized.log) (hc : CopiedTo a initialName (withManifest 3 initialized.disk.fs)) :
    ∀ m t, Validated viewer (view initialName) (withManifest 3 initialized.disk.fs) m t → t = [1, 2, 3] :=
  (C88_initialize (host := pointHost) (out := pointOutside 92) (o := { pointOptions with output := true }) (start := [1, 2, 3])
    (fs' := fun _ => none) (events := []) (tc := pointConfig.triangulation) rfl rfl (by decide +kernel) rfl goodDisk newPoints_faithful ⟨rfl, rfl⟩ a ha
    initialName hc (draws _ (by decide) _)).1

/-- The run of `cdt`: its checkpoint has seven points. -/
def simulated : Machine := (cdtMain pointHost (pointOutside 92) (some pointOptions) goodDisk).2
/-- The name of the checkpoint. -/
def checkpointName : Path := ascii "S3-7-0-I1.000000-R1.000000-2026-01-02.03-04-00UTC-seed-92-pass-2.off"

-- Hypotheses of C88_cdt and C88_accepts.
example : simulated.log.head?.map (fun a => [decide (a.path = checkpointName),
    decide (a.payload = some (payloadText pointSet [1, 2, 3, 4, 5, 6, 7])),
    decide ((a.manifest.bind fun text => (readMetadata integerText text).toOption).map (fun r => [r.dimension, r.actualVertices,
      r.actualEdges, r.actualFaces, r.actualSimplices, r.minimumTimeslice, r.maximumTimeslice]) =
      some [3, 7, 0, 0, 0, 1, 7])]) = some [true, true, true] := by decide +kernel
example : (viewerMain viewer (some (view checkpointName)) [.initialized] (withManifest 7 simulated.disk.fs)).map Prod.fst = some 0 ∧
    (viewerMain viewer (some (view checkpointName)) [.initialized] (withManifest 6 simulated.disk.fs)).map Prod.fst = some 1 := by
  decide +kernel
example (a : Written) (ha : a ∈ simulated.log) := C88_cdt (host := pointHost) (fs := withManifest 7 simulated.disk.fs)
  (fs' := fun _ => none) (events := []) (vo := view checkpointName) (vh := viewer) point_launched goodDisk (fun due hd => by
    have h : due.1 ∈ [(0 : ℤ), 1, 2, 3] := by
      have : ∀ d ∈ duties pointConfig, d.1 ∈ [(0 : ℤ), 1, 2, 3] := by decide +kernel
      exact this due hd
    have hs := point_smooth.states due.1 (by simp only [List.mem_cons, List.not_mem_nil, or_false] at h; omega)
      (by simp only [List.mem_cons, List.not_mem_nil, or_false] at h; show due.1 ≤ 3; omega)
    exact ⟨hs.faithful, hs.labels⟩) ⟨rfl, rfl⟩ a ha
example : Practical ⌈((manifest.render.width : ℤ) : ℚ) * manifest.render.oversampling⌉
    ⌈((manifest.render.height : ℤ) : ℚ) * manifest.render.oversampling⌉ := by unfold Practical; decide +kernel

-- Hypotheses of C88_always.
example : ((pointMoverRun goodDisk).2.2.log.map fun a => decide (a.payload = some (payloadText pointSet (movedAfter pointEngine
    [1, 2, 3] (Random.make toyPcg 92 0) 2)))).head? = some true := by decide +kernel

end PipelineSample
end CDT.Props
