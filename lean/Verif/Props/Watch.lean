import Verif.Spec.Watch
import Verif.Props.Killed
import Verif.Props.Pipeline
/-
C109: the viewer while simulations are running in the directory it looks at.
-/
namespace CDT.Props
open CDT Spec

section
variable {T : Type} {vh : ViewerHost T} {o : ViewerOptions}

/-- With nobody writing, this is the preparation of `Verif.Model.Viewer`. -/
theorem prepareObserved_still (fs : Files) : prepareObserved vh o (fun _ => fs) = prepareScene vh o fs := rfl

/-- A manifest that is loaded is what the command line names. -/
theorem loadManifest_names {path : Path} {fs : Files} {m : ViewerManifest} (hp : o.manifest = some path)
    (h : loadManifest vh path fs = .ok m) : NamesManifest vh o fs m := by
  unfold loadManifest at h
  simp only [bind_ok] at h
  obtain ⟨mc, h1, h2⟩ := h
  have h1 : fs path = some mc := by
    revert h1
    cases fs path with
    | none => intro h; cases h
    | some c => intro h; cases h; rfl
  split at h2
  · cases h2
  rename_i doc hdoc
  exact ⟨path, mc, doc, hp, h1, hdoc, (parseManifest_iff.1 h2).1⟩

theorem chosenFixture_eq (m : ViewerManifest) : chosenFixture vh o m = fixturePath vh o m := by
  unfold chosenFixture fixturePath
  simp only [List.isEmpty_iff]

/-- Only the render manifest, the fixture and the fixture's manifest matter. -/
theorem prepareObserved_congr {look look' : ℕ → Files}
    (h0 : ∀ path, o.manifest = some path → look 0 path = look' 0 path)
    (h : ∀ m q, NamesManifest vh o (look 0) m → fixturePath vh o m = .ok q →
      ∀ k, 1 ≤ k → look k q = look' k q ∧ look k (q ++ ascii ".meta") = look' k (q ++ ascii ".meta")) :
    prepareObserved vh o look = prepareObserved vh o look' := by
  unfold prepareObserved
  cases hm : o.manifest with
  | none => simp only [requiredManifest, hm]; rfl
  | some path =>
    have e1 : loadManifest vh path (look' 0) = loadManifest vh path (look 0) := by
      unfold loadManifest
      rw [h0 path hm]
    simp only [requiredManifest, hm, bind, Except.bind, e1]
    cases hl : loadManifest vh path (look 0) with
    | error e => rfl
    | ok m =>
      simp only [chosenFixture_eq]
      cases hq : fixturePath vh o m with
      | error e => rfl
      | ok q =>
        have hk := h m q (loadManifest_names hm hl) hq
        have e2 : readObserved vh.codec vh.text q (look' 2) (look' 3) (look' 4) (look' 5) =
            readObserved vh.codec vh.text q (look 2) (look 3) (look 4) (look 5) := by
          unfold readObserved manifestName
          rw [(hk 2 (by decide)).2, (hk 3 (by decide)).2, (hk 4 (by decide)).1, (hk 5 (by decide)).1]
        simp only [(hk 1 (le_refl _)).1, e2]

/-- What a successful preparation has seen. -/
theorem prepareObserved_ok {look : ℕ → Files} {scene : Scene} {r : RenderConfig}
    (hl : ∀ m q t, NamesManifest vh o (look 0) m → fixturePath vh o m = .ok q →
      readObserved vh.codec vh.text q (look 2) (look 3) (look 4) (look 5) = .ok t → IntLabels vh t)
    (h : prepareObserved vh o look = .ok (scene, r)) :
    ∃ m q c t, NamesManifest vh o (look 0) m ∧ fixturePath vh o m = .ok q ∧ look 1 q = some c ∧ vh.sha256 c = m.sha256 ∧
      readObserved vh.codec vh.text q (look 2) (look 3) (look 4) (look 5) = .ok t ∧ Agrees vh m t ∧
      makeScene (vh.mesh t) m.render = .ok scene ∧ r = m.render := by
  unfold prepareObserved at h
  simp only [bind_ok] at h
  obtain ⟨path, h1, m, h2, q, h3, c, h4, u, h5, v, h6, t, h7, w, h8, sc, h9, h10⟩ := h
  cases h10
  have h6 : m.cgalVersion = vh.cgalVersion ∧ m.qtVersion = vh.qtVersion := by
    unfold checkVersions at h6
    split at h6
    · cases h6
    · rename_i hc
      simpa only [not_or, ne_eq, not_not] using hc
  rw [refuseIf_ok, decide_eq_false_iff_not, not_not] at h5
  have hp : o.manifest = some path := by
    unfold requiredManifest at h1
    cases hm : o.manifest with
    | none => rw [hm] at h1; cases h1
    | some p => rw [hm] at h1; cases h1; rfl
  have hn := loadManifest_names hp h2
  rw [chosenFixture_eq] at h3
  have h4 : look 1 q = some c := by
    revert h4
    cases look 1 q with
    | none => intro h; cases h
    | some c => intro h; cases h; rfl
  obtain ⟨g1, g2, g3, g4, g5, g6, g7, g8, g9⟩ := validateFixture_ok (hl _ _ _ hn h3 h7) h8
  exact ⟨m, q, c, t, hn, h3, h4, h5, h7, ⟨h6, g1, g2, g3, g4, g5, g6, g7, g8, g9⟩, h9, rfl⟩

end

section
variable {M S P T I : Type} (host : Host M S P T) (F : CastFloats) [DecidableEq I] {jobs : I → Job M S}
  {vh : ViewerHost T} {o : ViewerOptions}

/-- What is written stays written. -/
theorem log_grows (d : Directory I) {s s' : List I} (h : s <+: s') (i : I) :
    ((d.after s).processes i).log <+: ((d.after s').processes i).log := by
  obtain ⟨rest, rfl⟩ := h
  induction rest using List.reverseRecOn with
  | nil => simp
  | append_singleton rest j ih =>
    refine ih.trans ?_
    have e : d.after (s ++ (rest ++ [j])) = (d.after (s ++ rest)).step j := by simp [Directory.after, ← List.append_assoc]
    rw [e]
    by_cases hij : i = j
    · subst hij
      have hs : ((d.after (s ++ rest)).step i).processes i =
          ⟨(((d.after (s ++ rest)).processes i).code.step (((d.after (s ++ rest)).processes i).machine (d.after (s ++ rest)).fs)).1,
            (((d.after (s ++ rest)).processes i).code.step (((d.after (s ++ rest)).processes i).machine (d.after (s ++ rest)).fs)).2.disk.fates,
            (((d.after (s ++ rest)).processes i).code.step (((d.after (s ++ rest)).processes i).machine (d.after (s ++ rest)).fs)).2.disk.clock,
            (((d.after (s ++ rest)).processes i).code.step (((d.after (s ++ rest)).processes i).machine (d.after (s ++ rest)).fs)).2.log⟩ := by
        simp [Directory.step]
      rw [hs]
      exact (step_history ((d.after (s ++ rest)).processes i).code (((d.after (s ++ rest)).processes i).machine (d.after (s ++ rest)).fs)).1
    · have hs : ((d.after (s ++ rest)).step j).processes i = (d.after (s ++ rest)).processes i := by simp [Directory.step, hij]
      rw [hs]

omit [DecidableEq I] in
theorem inOrder_le {moments : ℕ → List I} (h : InOrder moments) {j k : ℕ} (hjk : j ≤ k) : moments j <+: moments k := by
  induction hjk with
  | refl => exact List.prefix_refl _
  | step _ ih => exact ih.trans (h _)

variable (hseeds : ∀ i j s, i ≠ j → (jobs i).seed F = some s → (jobs j).seed F ≠ some s)
include hseeds

/-- **C109.** A viewer that looks at files without one of the seeds in their names does not notice the
programs that are running. -/
theorem C109_undisturbed (fs : Files) (name : Path → Path) (moments : ℕ → List I)
    (h0 : ∀ path, o.manifest = some path → ∀ i, ¬(jobs i).Owns F (name path))
    (h : ∀ m q, NamesManifest vh o (underNames name fs) m → fixturePath vh o m = .ok q → ∀ i,
      ¬(jobs i).Owns F (name q) ∧ ¬(jobs i).Owns F (name (q ++ ascii ".meta"))) :
    prepareObserved vh o (fun k => underNames name (filesAfter host F jobs fs (moments k))) = prepareScene vh o (underNames name fs) := by
  have hf : ∀ k p, (∀ i, ¬(jobs i).Owns F (name p)) → underNames name (filesAfter host F jobs fs (moments k)) p = underNames name fs p :=
    fun k p hp => (C107_shared_directory host F jobs hseeds fs (moments k)).2 (name p) hp
  rw [← prepareObserved_still]
  symm
  exact prepareObserved_congr (fun path hp => (hf 0 path (h0 path hp)).symm)
    fun m q hm hq k _ => ⟨(hf k q fun i => (h m q hm hq i).1).symm, (hf k _ fun i => (h m q hm hq i).2).symm⟩

omit hseeds in
/-- A viewer that looks at an artifact that is complete before the second look. -/
theorem watch_complete {i : I} (fs : Files)
    (hplace : ∀ schedule, ∀ a ∈ (((started host F jobs fs).after schedule).processes i).log,
      InPlace ((started host F jobs fs).after schedule).fs a)
    (name : Path → Path) {moments : ℕ → List I} (ho : InOrder moments)
    {a : Written} (ha : a ∈ (((started host F jobs fs).after (moments 1)).processes i).log)
    (h0 : ∀ path, o.manifest = some path →
      filesAfter host F jobs fs (moments 0) (name path) = filesAfter host F jobs fs (moments 1) (name path))
    (h : ∀ m q, NamesManifest vh o (underNames name (filesAfter host F jobs fs (moments 0))) m → fixturePath vh o m = .ok q →
      name q = a.path ∧ name (q ++ ascii ".meta") = a.path ++ ascii ".meta") :
    prepareObserved vh o (fun k => underNames name (filesAfter host F jobs fs (moments k))) =
      prepareScene vh o (underNames name (filesAfter host F jobs fs (moments 1))) := by
  rw [← prepareObserved_still]
  refine prepareObserved_congr h0 fun m q hm hq k hk => ?_
  obtain ⟨e1, e2⟩ := h m q hm hq
  have p1 := hplace (moments 1) a ha
  have pk := hplace (moments k) a ((log_grows (started host F jobs fs) (inOrder_le ho hk) i).subset ha)
  unfold underNames
  rw [e1, e2]
  exact ⟨pk.1.trans p1.1.symm, pk.2.trans p1.2.symm⟩

/-- **C109.** A viewer that looks at an artifact that a running `cdt` has completed sees what it would
see if all programs had stopped. -/
theorem C109_completed {i : I} {co : Options} {cfg : SimConfig} {start : M} (ht : (jobs i).tool = .cdt)
    (hco : (jobs i).options F = some co) (hl : Launched host (jobs i).out co cfg start) (fs : Files) (name : Path → Path)
    {moments : ℕ → List I} (ho : InOrder moments)
    {a : Written} (ha : a ∈ (((started host F jobs fs).after (moments 1)).processes i).log)
    (h0 : ∀ path, o.manifest = some path → ∀ i, ¬(jobs i).Owns F (name path))
    (h : ∀ m q, NamesManifest vh o (underNames name (filesAfter host F jobs fs (moments 0))) m → fixturePath vh o m = .ok q →
      name q = a.path ∧ name (q ++ ascii ".meta") = a.path ++ ascii ".meta") :
    prepareObserved vh o (fun k => underNames name (filesAfter host F jobs fs (moments k))) =
      prepareScene vh o (underNames name (filesAfter host F jobs fs (moments 1))) := by
  refine watch_complete host F fs (fun schedule b hb => ?_) name ho ha (fun path hp => ?_) h
  · obtain ⟨_, -, -, h3, -⟩ := C108_any_moment host F hseeds ht hco hl fs schedule
    exact h3 b hb
  · have e := fun k => (C107_shared_directory host F jobs hseeds fs (moments k)).2 (name path) (h0 path hp)
    exact (e 0).trans (e 1).symm

/-- **C109.** The same for the artifact of `initialize`. -/
theorem C109_completed_initialize {i : I} {co : Options} {tc : TriConfig} {start : M} (ht : (jobs i).tool = .«initialize»)
    (hco : (jobs i).options F = some co) (h1 : co.help = false) (h2 : co.version = false)
    (hc : initializeConfig host (jobs i).out co = .ok tc)
    (hb : (jobs i).out.construct tc.simplices tc.timeslices (Random.make host.pcg tc.seed 0) tc.initialRadius
      tc.foliationSpacing = .ok start) (fs : Files) (name : Path → Path)
    {moments : ℕ → List I} (ho : InOrder moments)
    {a : Written} (ha : a ∈ (((started host F jobs fs).after (moments 1)).processes i).log)
    (h0 : ∀ path, o.manifest = some path → ∀ i, ¬(jobs i).Owns F (name path))
    (h : ∀ m q, NamesManifest vh o (underNames name (filesAfter host F jobs fs (moments 0))) m → fixturePath vh o m = .ok q →
      name q = a.path ∧ name (q ++ ascii ".meta") = a.path ++ ascii ".meta") :
    prepareObserved vh o (fun k => underNames name (filesAfter host F jobs fs (moments k))) =
      prepareScene vh o (underNames name (filesAfter host F jobs fs (moments 1))) := by
  refine watch_complete host F fs (fun schedule b hb' => ?_) name ho ha (fun path hp => ?_) h
  · obtain ⟨-, h3, -⟩ := C108_any_moment_initialize host F hseeds ht hco h1 h2 hc hb fs schedule
    exact (h3 b hb').2
  · have e := fun k => (C107_shared_directory host F jobs hseeds fs (moments k)).2 (name path) (h0 path hp)
    exact (e 0).trans (e 1).symm

/-- Under a name that was free there is at any moment nothing, or the payload of the artifact of that name. -/
theorem free_payload {i : I} {co : Options} {cfg : SimConfig} {start : M} (ht : (jobs i).tool = .cdt)
    (hco : (jobs i).options F = some co) (hl : Launched host (jobs i).out co cfg start) (fs : Files) (schedule : List I)
    {p : Path} {c : Bytes} (hp : ArtifactName cfg.triangulation.seed p) (hfree : fs p = none)
    (hc : filesAfter host F jobs fs schedule p = some c) :
    ∃ due ∈ duties cfg, Named host (stateAfter host cfg start due.1) cfg.triangulation.seed due p ∧
      c = payloadText host.codec (host.snapshot (stateAfter host cfg start due.1)) := by
  obtain ⟨done, h1, h2, h3, h4⟩ := C108_any_moment host F hseeds ht hco hl fs schedule
  have new : ∀ due a, due ∈ duties cfg → Truthful host cfg start due a → a.path = p →
      filesAfter host F jobs fs schedule p = a.payload → ∃ due ∈ duties cfg,
        Named host (stateAfter host cfg start due.1) cfg.triangulation.seed due p ∧
        c = payloadText host.codec (host.snapshot (stateAfter host cfg start due.1)) := by
    intro due a hdue ha hpath hpay
    rw [ha.payload, hc] at hpay
    exact ⟨due, hdue, hpath ▸ ha.name, Option.some.inj hpay⟩
  by_cases hin : ∃ a ∈ (((started host F jobs fs).after schedule).processes i).log, a.path = p
  · obtain ⟨a, ha, rfl⟩ := hin
    obtain ⟨j, hj, rfl⟩ := List.getElem_of_mem ha
    have hlen := h2.length_eq
    have hx := (List.forall₂_iff_get.1 h2).2 j (by rw [hlen]; exact hj) hj
    exact new (done[j]'(by rw [hlen]; exact hj)) _ (h1.subset (List.getElem_mem _)) hx rfl (h3 _ ha).1
  · push Not at hin
    rcases h4 p hp hin with ⟨k1, -⟩ | ⟨due, a, k1, k2, rfl, -, k4 | k4⟩
    · rw [filesAfter, k1, hfree] at hc; cases hc
    · rw [filesAfter, k4, hfree] at hc; cases hc
    · exact new due a (k1.subset (by simp)) k2 rfl k4

omit hseeds [DecidableEq I] in
/-- Artifacts due at different passes have different names. -/
theorem named_pass {m m' : M} {seed : BitVec 64} {due due' : ℤ × ArtifactKind} {cfg : SimConfig} {p : Path}
    (hd : due ∈ duties cfg) (hd' : due' ∈ duties cfg) (h : Named host m seed due p) (h' : Named host m' seed due' p) :
    due.1 = due'.1 := by
  have kinds : ∀ x ∈ duties cfg, x.2 = .checkpoint ∨ x = (cfg.passes, .finalTriangulation) := by
    intro x hx
    unfold duties at hx
    split at hx
    · rcases List.mem_append.1 hx with hx | hx
      · obtain ⟨q, -, rfl⟩ := List.mem_map.1 hx; exact .inl rfl
      · exact .inr (List.mem_singleton.1 hx)
    · cases hx
  obtain ⟨now, h⟩ := h
  obtain ⟨now', h'⟩ := h'
  rw [h] at h'
  rcases kinds due hd with k | rfl <;> rcases kinds due' hd' with k' | rfl
  · rw [k, k'] at h'; exact (C59_checkpoint_names h').2.1
  · rw [k] at h'; exact absurd h' (C59_kinds_distinct _ _ _ _ _ _ _).1
  · rw [k'] at h'; exact absurd h'.symm (C59_kinds_distinct _ _ _ _ _ _ _).1
  · rfl

/-- **C109.** A viewer that looks at an artifact of a running `cdt` whose name was free before the run,
at whatever moments: if it draws anything, it draws the state after a pass that is due; the file it draws
has the SHA-256 the render manifest demands, and the state agrees with the render manifest. -/
theorem C109_drawn {i : I} {co : Options} {cfg : SimConfig} {start : M} (ht : (jobs i).tool = .cdt)
    (hco : (jobs i).options F = some co) (hl : Launched host (jobs i).out co cfg start)
    (hf : ∀ due ∈ duties cfg, Faithful host.codec (host.snapshot (stateAfter host cfg start due.1)) ∧
      LabelsFit host.codec (host.snapshot (stateAfter host cfg start due.1)) ∧
      IntLabels vh (host.snapshot (stateAfter host cfg start due.1)))
    (hsame : SameFormats host vh) (fs : Files) (name : Path → Path) (moments : ℕ → List I)
    (hq : ∀ m q, NamesManifest vh o (underNames name (filesAfter host F jobs fs (moments 0))) m → fixturePath vh o m = .ok q →
      ArtifactName cfg.triangulation.seed (name q) ∧ fs (name q) = none)
    {scene : Scene} {r : RenderConfig}
    (h : prepareObserved vh o (fun k => underNames name (filesAfter host F jobs fs (moments k))) = .ok (scene, r)) :
    ∃ due ∈ duties cfg, ∃ m q,
      let t := host.snapshot (stateAfter host cfg start due.1)
      NamesManifest vh o (underNames name (filesAfter host F jobs fs (moments 0))) m ∧ fixturePath vh o m = .ok q ∧
      Named host (stateAfter host cfg start due.1) cfg.triangulation.seed due (name q) ∧
      vh.sha256 (payloadText host.codec t) = m.sha256 ∧ Agrees vh m t ∧ makeScene (vh.mesh t) m.render = .ok scene ∧
      r = m.render := by
  obtain ⟨s1, -⟩ := hsame
  have read : ∀ m q t, NamesManifest vh o (underNames name (filesAfter host F jobs fs (moments 0))) m → fixturePath vh o m = .ok q →
      readObserved vh.codec vh.text q (underNames name (filesAfter host F jobs fs (moments 2)))
        (underNames name (filesAfter host F jobs fs (moments 3))) (underNames name (filesAfter host F jobs fs (moments 4)))
        (underNames name (filesAfter host F jobs fs (moments 5))) = .ok t →
      ∃ due ∈ duties cfg, Named host (stateAfter host cfg start due.1) cfg.triangulation.seed due (name q) ∧
        t = host.snapshot (stateAfter host cfg start due.1) := by
    intro m q t hm hfx hr
    obtain ⟨⟨c, hc, hparse⟩, -⟩ := readObserved_iff.1 hr
    obtain ⟨due, hd, hn, rfl⟩ := free_payload host F hseeds ht hco hl fs (moments 5) (hq m q hm hfx).1 (hq m q hm hfx).2 hc
    rw [s1, parsePayload_write (hf due hd).1 (hf due hd).2.1] at hparse
    exact ⟨due, hd, hn, (Except.ok.inj hparse).symm⟩
  obtain ⟨m, q, c, t, h1, h2, h3, h4, h5, h6, h7, h8⟩ := prepareObserved_ok (fun m q t hm hfx hr => by
    obtain ⟨due, hd, -, rfl⟩ := read m q t hm hfx hr
    exact (hf due hd).2.2) h
  obtain ⟨due, hd, hn, rfl⟩ := read m q t h1 h2 h5
  obtain ⟨due', hd', hn', rfl⟩ := free_payload host F hseeds ht hco hl fs (moments 1) (hq m q h1 h2).1 (hq m q h1 h2).2 h3
  rw [named_pass host hd' hd hn' hn] at h4
  exact ⟨due, hd, m, q, h1, h2, hn, h4, h6, h7, h8⟩

end

/-! ### A concrete viewer -/

open Fixture PipelineSample

/-- The directory: a render manifest for seven points. -/
def watchedDirectory : Files := withManifest 7 fun _ => none

/-- The viewer looks at the checkpoint; its second look is when the `cdt` of `killedJobs` has made `n` accesses. -/
def watching (n : ℕ) (k : ℕ) : List Bool := if k = 0 then [] else List.replicate (n + k) false

theorem watching_inOrder (n : ℕ) : InOrder (watching n) := by
  intro k
  unfold watching
  by_cases hk : k = 0
  · rw [if_pos hk]; exact List.nil_prefix
  · rw [if_neg hk, if_neg (by omega), show n + (k + 1) = n + k + 1 from rfl, List.replicate_succ']
    exact List.prefix_append _ _

theorem watched_fixture (fs : Files) (m : ViewerManifest) (q : Path) (_ : NamesManifest viewer (view checkpointName) fs m)
    (hq : fixturePath viewer (view checkpointName) m = .ok q) : q = checkpointName := by
  cases hq; rfl

-- Too early there is nothing to draw, later there is.
example : (prepareObserved viewer (view checkpointName) fun k =>
    filesAfter pointHost integerCasts killedJobs watchedDirectory (watching 10 k)).isOk = false := by decide +kernel
example : (prepareObserved viewer (view checkpointName) fun k =>
    filesAfter pointHost integerCasts killedJobs watchedDirectory (watching 22 k)).isOk = true := by decide +kernel
-- C109_completed: the artifact is complete at the second look.
example : ∃ a ∈ (((started pointHost integerCasts killedJobs watchedDirectory).after (watching 23 1)).processes false).log,
    a.path = checkpointName := by decide +kernel

theorem checkpoint_artifactName : ArtifactName 92 checkpointName :=
  ⟨⟨.spherical, 3, 0, 7, 1, 1⟩, ⟨2026, 1, 2, 3, 4, 0⟩, .inr ⟨2, by decide +kernel⟩⟩

-- C109_drawn: whatever it draws has seven points.
example (moments : ℕ → List Bool) {scene : Scene} {r : RenderConfig}
    (h : prepareObserved viewer (view checkpointName) (fun k => underNames id
      (filesAfter pointHost integerCasts killedJobs watchedDirectory (moments k))) = .ok (scene, r)) :
    ∃ due ∈ duties pointConfig, ∃ m, Agrees viewer m (stateAfter pointHost pointConfig [1, 2, 3] due.1) ∧ r = m.render := by
  obtain ⟨due, hd, m, q, -, -, -, -, h1, -, h2⟩ := C109_drawn pointHost integerCasts killed_seeds rfl killed_options killed_launched
    (vh := viewer) (fun due hdue => by
      have h : due.1 ∈ [(0 : ℤ), 1, 2, 3] := by
        have : ∀ d ∈ duties pointConfig, d.1 ∈ [(0 : ℤ), 1, 2, 3] := by decide +kernel
        exact this due hdue
      have hs := point_smooth.states due.1 (by simp only [List.mem_cons, List.not_mem_nil, or_false] at h; omega)
        (by simp only [List.mem_cons, List.not_mem_nil, or_false] at h; show due.1 ≤ 3; omega)
      exact ⟨hs.faithful, hs.labels, fun v => hs.labels.1.1 _ (List.mem_ofFn.2 ⟨v, rfl⟩)⟩) ⟨rfl, rfl⟩ watchedDirectory id moments
    (fun m q hm hq => by
      obtain rfl := watched_fixture _ m q hm hq
      exact ⟨checkpoint_artifactName, by decide +kernel⟩) h
  exact ⟨due, hd, m, h1, h2⟩

/-- An older artifact of the same name. -/
def olderPoints : List ℤ := [1, 3, 2, 4, 5, 6, 7]

/-- A viewer that knows the digest of the older artifact. -/
def carefulViewer : ViewerHost (List ℤ) := { viewer with
  sha256 := fun b => if b = payloadText pointSet olderPoints then ascii "digest" else ascii "other" }

/-- **C109** (the name has to be free).  When an artifact is replaced while the viewer prepares, the viewer
may draw a file that has not the SHA-256 that the render manifest demands: it computes the digest of the file
before it reads the file. -/
theorem C109_replaced :
    let fs := watchedDirectory.put checkpointName (some (payloadText pointSet olderPoints))
    let moments : ℕ → List Bool := fun k => if k ≤ 2 then [] else List.replicate 21 false
    let look := fun k => filesAfter pointHost integerCasts killedJobs fs (moments k)
    InOrder moments ∧ (prepareObserved carefulViewer (view checkpointName) look).isOk = true ∧
      readObserved pointSet integerText checkpointName (look 2) (look 3) (look 4) (look 5) = .ok [1, 2, 3, 4, 5, 6, 7] ∧
      look 5 checkpointName = some (payloadText pointSet [1, 2, 3, 4, 5, 6, 7]) ∧
      (∀ m, NamesManifest carefulViewer (view checkpointName) (look 0) m → m.sha256 = ascii "digest") ∧
      carefulViewer.sha256 (payloadText pointSet [1, 2, 3, 4, 5, 6, 7]) ≠ ascii "digest" := by
  intro fs moments look
  have h : (prepareObserved carefulViewer (view checkpointName) look).isOk = true ∧
      readObserved pointSet integerText checkpointName (look 2) (look 3) (look 4) (look 5) = .ok [1, 2, 3, 4, 5, 6, 7] ∧
      look 5 checkpointName = some (payloadText pointSet [1, 2, 3, 4, 5, 6, 7]) := by decide +kernel
  refine ⟨fun k => ?_, h.1, h.2.1, h.2.2, ?_, by decide +kernel⟩
  · by_cases h : k + 1 ≤ 2
    · simp only [moments, h, show k ≤ 2 by omega, if_true]; exact List.prefix_refl _
    · by_cases h' : k ≤ 2
      · simp only [moments, h', if_true]; exact List.nil_prefix
      · simp only [moments, h, h', if_false]; exact List.prefix_refl _
  · rintro m ⟨path, contents, doc, h1, h2, h3, h4⟩
    obtain ⟨n, -, rfl⟩ := Option.map_eq_some_iff.1 h3
    have := h4.sha256
    exact (Json.str.inj this.1).symm

end CDT.Props
