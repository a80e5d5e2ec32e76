import Verif.Spec.Program
import Verif.Lemmas.StorageUniform
import Verif.Lemmas.Schedule
import Verif.Props.Simulation
import Verif.Props.Filename
import Verif.Props.Config
/-
Lemmas about whole programs.
-/
namespace CDT
open Spec

variable {M G S P T F W : Type}

/-! ### Reports of the transitions of a run -/

theorem history_succ (eng : MetroEngine M G P) (n : ℕ) (x : M × G) :
    history eng (n + 1) x = history eng 1 x ++ history eng n (advance eng x) := by
  unfold history
  rw [List.range_succ_eq_map]
  simp only [List.flatMap_cons, List.flatMap_map, List.range_one, List.flatMap_nil, List.append_nil]
  rfl

theorem history_add (eng : MetroEngine M G P) : ∀ (a b : ℕ) (x : M × G),
    history eng (a + b) x = history eng a x ++ history eng b (trajectory eng a x)
  | 0, b, x => by simp [history, trajectory]
  | a + 1, b, x => by
    rw [show a + 1 + b = (a + b) + 1 by omega, history_succ, history_add eng a b, history_succ eng a,
      List.append_assoc, Props.trajectory_succ]

/-- The report of a transition depends on the manifold and the generator only. -/
theorem sample_result (eng : MetroEngine M G P) (v w : MetroVars M G)
    (hc : v.current = w.current) (hg : v.gen = w.gen) :
    (sampleTransition eng v).1 = (sampleTransition eng w).1 := by
  unfold sampleTransition
  rw [hg]
  rcases hi : eng.drawMove w.gen with ⟨i, g1⟩
  rcases hu : eng.drawTrial g1 with ⟨u, g2⟩
  simp only [hu]
  obtain ⟨h1, -, -⟩ := Props.resolve_core eng (i.val : ℤ) u { v with gen := g2 } { w with gen := g2 } hc rfl
  rcases h2 : resolve eng (i.val : ℤ) u { v with gen := g2 } with ⟨r, v1⟩
  rcases h3 : resolve eng (i.val : ℤ) u { w with gen := g2 } with ⟨r', v1'⟩
  rw [h2, h3] at h1
  dsimp only at h1
  subst h1
  cases r <;> simp

theorem passLoop_history (eng : MetroEngine M G P) : ∀ (n : ℕ) (v v' : MetroVars M G),
    passLoop eng n v = (.ok (), v') →
    (v'.current, v'.gen) = trajectory eng n (v.current, v.gen) ∧
    (history eng n (v.current, v.gen)).length = n ∧
    ∀ h, DescribesStats v.stats h → DescribesStats v'.stats (h ++ history eng n (v.current, v.gen))
  | 0, v, v', e => by
    cases e
    exact ⟨rfl, rfl, fun h d => by simpa [history] using d⟩
  | n + 1, v, v', e => by
    unfold passLoop at e
    rcases hs : sampleTransition eng v with ⟨r, w⟩
    rw [hs] at e
    cases r with
    | error x => cases e
    | ok io =>
      obtain ⟨i, o⟩ := io
      have ha := Props.sample_advance eng v hs
      obtain ⟨h1, h2, h3⟩ := passLoop_history eng n w v' e
      obtain ⟨mv, hmv, hb⟩ := block_sample hs
      have hone : history eng 1 (v.current, v.gen) = [(mv, o)] := by
        simp only [history, List.range_one, List.flatMap_cons, List.flatMap_nil, List.append_nil]
        have hc : (sampleTransition eng ⟨v.current, {}, {}, v.gen⟩).1 = .ok (i, o) := by
          rw [← show (sampleTransition eng v).1 = .ok (i, o) by rw [hs]]
          exact sample_result eng _ _ rfl rfl
        rw [show trajectory eng 0 (v.current, v.gen) = (v.current, v.gen) from rfl, hc]
        simp [entryOf, hmv]
      rw [ha] at h1 h2 h3
      refine ⟨by rw [h1, Props.trajectory_succ], ?_, fun h d => ?_⟩
      · rw [history_succ, List.length_append, h2, hone]; simp [Nat.add_comm]
      · rw [history_succ, hone, ← List.append_assoc]
        exact h3 _ (hb.stats h d)

/-- Induction on the pass loop, with what holds when a pass throws. -/
theorem runLoop_cases (ops : RunOps M S W) (cad : Cadence) (writes : Bool)
    (I : ℕ → RunVars M S → W → Prop) (E : ℕ → W → Prop)
    (step : ∀ k v w v' w', I k v w →
      runPass ops cad writes ((k : ℤ) + 1) v w = (.ok v', w') → I (k + 1) v' w')
    (fail : ∀ k v w e w', I k v w →
      runPass ops cad writes ((k : ℤ) + 1) v w = (.error e, w') → E k w') :
    ∀ (n k : ℕ) (v : RunVars M S) (w : W), I k v w →
      (∃ v' w', runLoop ops cad writes n (k : ℤ) v w = (.ok v', w') ∧ I (k + n) v' w') ∨
      ∃ e w' j, runLoop ops cad writes n (k : ℤ) v w = (.error e, w') ∧ j < k + n ∧ E j w'
  | 0, k, v, w, hi => .inl ⟨v, w, rfl, hi⟩
  | n + 1, k, v, w, hi => by
    unfold runLoop
    rcases hp : runPass ops cad writes ((k : ℤ) + 1) v w with ⟨r, w1⟩
    cases r with
    | error x => exact .inr ⟨x, w1, k, rfl, by omega, fail k v w x w1 hi hp⟩
    | ok v1 =>
      rcases runLoop_cases ops cad writes I E step fail n (k + 1) v1 w1 (step k v w v1 w1 hi hp) with
        ⟨v', w', h1, h2⟩ | ⟨e, w', j, h1, h2, h3⟩
      · refine .inl ⟨v', w', ?_, by rw [show k + (n + 1) = k + 1 + n by omega]; exact h2⟩
        simpa using h1
      · exact .inr ⟨e, w', j, by simpa using h1, by omega, h3⟩

/-! ### Writing artifacts -/

/-- The four files of an artifact. -/
def FilesOf (name p : Path) : Prop :=
  p = name ∨ p = manifestName name ∨ p = temporaryName name ∨ p = temporaryName (manifestName name)

section
variable (host : Host M S P T) (out : Outside M S)

/-- A write of an artifact completes, with the completed record as its manifest, or throws and has
changed at most the artifact's own files. -/
theorem writeArtifact_cases (m : M) (md : Metadata) (w : Machine) :
    (∃ path md' d, artifactPath host m md (out.now w.disk.clock) = .ok path ∧
      reconcile host.codec md (host.snapshot m) = .ok md' ∧
      let payload := payloadText host.codec (host.snapshot m)
      let text := metadataText host.text host.build md' (payloadIntegrity payload)
      writeArtifact host out m md w = (.ok (), ⟨d, w.log ++ [⟨path, some payload, some text⟩]⟩) ∧
      DescribesArtifact host.codec host.text text payload (host.snapshot m) ∧
      d.fs path = some payload ∧ d.fs (manifestName path) = some text ∧
      ∀ p, ¬ FilesOf path p → d.fs p = w.disk.fs p) ∨
    ∃ e d, writeArtifact host out m md w = (.error e, ⟨d, w.log⟩) ∧
      (d = w.disk ∨ ∃ path, artifactPath host m md (out.now w.disk.clock) = .ok path ∧
        ∀ p, ¬ FilesOf path p → d.fs p = w.disk.fs p) := by
  have hold : ∀ {path a b} {s s' : Files}, Holding path s a b s' →
      ∀ p, ¬ FilesOf path p → s' p = s p := fun h p hp => by
    simp only [FilesOf, not_or] at hp
    exact h.2.2 p hp.1 hp.2.1 hp.2.2.1 hp.2.2.2
  unfold writeArtifact
  rcases hp : artifactPath host m md (out.now w.disk.clock) with e | path
  · exact .inr ⟨e, w.disk, rfl, .inl rfl⟩
  · dsimp only
    obtain ⟨fs', vis, k, h1, h2⟩ := writePayload_anytime host.codec host.text host.build path
      (host.snapshot m) (some md) w.disk
    generalize (writePayload host.codec host.text host.build path (host.snapshot m) (some md) w.disk).1 = r at h1 h2
    rw [h2]
    rcases hr : reconcile host.codec md (host.snapshot m) with e | md'
    · rw [writePayload_reconcile_error _ _ hr, Prod.mk.injEq] at h1
      obtain ⟨rfl, h1⟩ := h1
      refine .inr ⟨_, _, rfl, .inr ⟨path, rfl, fun p _ => ?_⟩⟩
      simp only [startingWith, Disk.mk.injEq] at h1
      rw [h1.1]
    · obtain ⟨r', d', h3, -, hok, herr, -⟩ := writePayload_manifest (codec := host.codec) (ft := host.text)
        (build := host.build) (dest := path) (t := host.snapshot m) w.disk.fs
        (fun i => w.disk.fates (w.disk.clock + i)) hr
      rw [h1, Prod.mk.injEq] at h3
      obtain ⟨rfl, rfl⟩ := h3
      cases r with
      | error e =>
        refine .inr ⟨e, _, rfl, .inr ⟨path, rfl, ?_⟩⟩
        rcases herr e rfl with h | ⟨h, -⟩
        · exact hold h
        · exact hold h
      | ok u =>
        obtain ⟨-, hd, hh⟩ := hok rfl
        refine .inl ⟨path, md', ⟨fs', vis ++ w.disk.visible, w.disk.fates, w.disk.clock + k⟩, rfl, rfl, ?_, hd, hh.2.1, hh.1, hold hh⟩
        dsimp only
        rw [show fs' path = _ from hh.2.1, show fs' (manifestName path) = _ from hh.1]

/-! ### Names -/

/-- A name ending in `.off`. -/
def OffName (p : Path) : Prop := ∃ body, p = body ++ ascii ".off"

theorem offName_seed (i : NameInfo) (seed : ℕ) (now : Stamp) : OffName (makeFilenameSeed i seed now) :=
  ⟨_, makeFilenameSeed_eq i seed now⟩

theorem offName_pass (i : NameInfo) (seed : ℕ) (pass : ℤ) (now : Stamp) :
    OffName (makeFilenamePass i seed pass now) := ⟨_, makeFilenamePass_eq i seed pass now⟩

theorem last_off (p : Path) : (p ++ ascii ".off").getLast? = some 102#8 := by
  rw [show ascii ".off" = [46#8, 111#8, 102#8, 102#8] by decide +kernel]; simp
theorem last_meta (p : Path) : (manifestName p).getLast? = some 97#8 := by
  rw [manifestName, show ascii ".meta" = [46#8, 109#8, 101#8, 116#8, 97#8] by decide +kernel]; simp
theorem last_tmp (p : Path) : (temporaryName p).getLast? = some 112#8 := by
  rw [temporaryName, show ascii ".tmp" = [46#8, 116#8, 109#8, 112#8] by decide +kernel]; simp

/-- Files of different artifacts do not collide. -/
theorem files_disjoint {a b : Path} (ha : OffName a) (hb : OffName b) (h : a ≠ b) :
    ¬ FilesOf b a ∧ ¬ FilesOf b (manifestName a) := by
  obtain ⟨x, rfl⟩ := ha
  obtain ⟨y, rfl⟩ := hb
  constructor
  · rintro (e | e | e | e)
    · exact h e
    · have := congrArg List.getLast? e; rw [last_off, last_meta] at this; simp at this
    · have := congrArg List.getLast? e; rw [last_off, last_tmp] at this; simp at this
    · have := congrArg List.getLast? e; rw [last_off, last_tmp] at this; simp at this
  · rintro (e | e | e | e)
    · have := congrArg List.getLast? e; rw [last_off, last_meta] at this; simp at this
    · exact h (List.append_cancel_right e)
    · have := congrArg List.getLast? e; rw [last_meta, last_tmp] at this; simp at this
    · have := congrArg List.getLast? e; rw [last_meta, last_tmp] at this; simp at this

theorem ownFile_seed {seed : BitVec 64} {i : NameInfo} {now : Stamp} {p : Path}
    (h : FilesOf (makeFilenameSeed i seed.toNat now) p) : OwnFile seed p :=
  ⟨i, now, _, .inl rfl, h⟩

theorem ownFile_pass {seed : BitVec 64} {i : NameInfo} {now : Stamp} {pass : ℤ} {p : Path}
    (h : FilesOf (makeFilenamePass i seed.toNat pass now) p) : OwnFile seed p :=
  ⟨i, now, _, .inr ⟨pass, rfl⟩, h⟩

/-! ### Configuration -/

open RuntimeConfig in
/-- What an accepted triangulation configuration holds, whatever the floating-point formats. -/
theorem makeTriangulation_ok {Fl : Floats} {parallel spherical toroidal : Bool} {N T' d threads : ℤ} {r s : LD}
    {seed : BitVec 64} {c : TriConfig}
    (h : makeTriangulation Fl parallel spherical toroidal N T' d r s seed threads = .ok c) :
    c = ⟨.spherical, N, T', 3, r, s, seed, threads.toNat⟩ ∧ (2 ≤ N ∧ N ≤ 2 ^ 31 - 1) ∧
      (2 ≤ T' ∧ T' ≤ 2 ^ 31 - 1) ∧ (1 ≤ threads ∧ threads ≤ 2 ^ 64 - 1) := by
  unfold makeTriangulation at h
  simp only [bind_ok] at h
  obtain ⟨top, h1, N1, h2, T1, h3, d1, h4, h⟩ := h
  obtain ⟨b2, rfl⟩ := Props.checkedInt_ok.1 h2
  obtain ⟨b3, rfl⟩ := Props.checkedInt_ok.1 h3
  obtain ⟨-, rfl⟩ := Props.checkedInt_ok.1 h4
  have htop : top = .spherical := by
    revert h1; cases spherical <;> cases toroidal <;> simp [selectTopology] <;> exact fun h => h.symm
  subst htop
  split at h
  · cases h
  · rename_i hd
    split at h
    · cases h
    · rename_i hNT
      simp only [bind_ok] at h
      obtain ⟨r1, h5, s1, h6, h⟩ := h
      obtain ⟨-, rfl⟩ := Props.checkedFinite_ok.1 h5
      obtain ⟨-, rfl⟩ := Props.checkedFinite_ok.1 h6
      split at h
      · cases h
      · split at h
        · cases h
        · simp only [bind_ok] at h
          obtain ⟨-, -, th, h7, h⟩ := h
          simp only [pure, Except.pure, Except.ok.injEq] at h
          subst h
          unfold checkedThreads at h7
          split at h7
          · cases h7
          · split at h7
            · cases h7
            · split at h7
              · cases h7
              · cases h7
                exact ⟨by rw [show d1 = 3 by omega], ⟨by omega, b2.2⟩, ⟨by omega, b3.2⟩, by omega⟩

/-! ### Provenance -/

theorem foldl_min_le : ∀ (vs : List ℤ) (v : ℤ), vs.foldl min v ≤ v ∧ (∀ x ∈ vs, vs.foldl min v ≤ x) ∧
    (vs.foldl min v = v ∨ vs.foldl min v ∈ vs)
  | [], v => by simp
  | y :: vs, v => by
    obtain ⟨h1, h2, h3⟩ := foldl_min_le vs (min v y)
    simp only [List.foldl_cons, List.mem_cons, forall_eq_or_imp]
    refine ⟨h1.trans (min_le_left _ _), ⟨h1.trans (min_le_right _ _), h2⟩, ?_⟩
    rcases h3 with h3 | h3
    · rcases min_choice v y with e | e <;> rw [e] at h3 ⊢
      · exact .inl h3
      · exact .inr (.inl h3)
    · exact .inr (.inr h3)

theorem foldl_le_max : ∀ (vs : List ℤ) (v : ℤ), v ≤ vs.foldl max v ∧ (∀ x ∈ vs, x ≤ vs.foldl max v) ∧
    (vs.foldl max v = v ∨ vs.foldl max v ∈ vs)
  | [], v => by simp
  | y :: vs, v => by
    obtain ⟨h1, h2, h3⟩ := foldl_le_max vs (max v y)
    simp only [List.foldl_cons, List.mem_cons, forall_eq_or_imp]
    refine ⟨(le_max_left _ _).trans h1, ⟨(le_max_right _ _).trans h1, h2⟩, ?_⟩
    rcases h3 with h3 | h3
    · rcases max_choice v y with e | e <;> rw [e] at h3 ⊢
      · exact .inl h3
      · exact .inr (.inl h3)
    · exact .inr (.inr h3)

/-- The recorded time bounds are the least and greatest label. -/
theorem timeBounds_range (t : Stored) : LabelRange t (timeBounds t).1 (timeBounds t).2 := by
  unfold timeBounds
  have hmem : ∀ x, x ∈ List.ofFn t.vinfo ↔ x ∈ Set.range t.vinfo := fun x => List.mem_ofFn
  rcases hl : List.ofFn t.vinfo with _ | ⟨v, vs⟩
  · exact .inl ⟨by simpa using congrArg List.length hl, rfl, rfl⟩
  · rw [hl] at hmem
    obtain ⟨a1, a2, a3⟩ := foldl_min_le vs v
    obtain ⟨b1, b2, b3⟩ := foldl_le_max vs v
    refine .inr ⟨⟨(hmem _).1 ?_, fun x hx => ?_⟩, ⟨(hmem _).1 ?_, fun x hx => ?_⟩⟩
    · rcases a3 with h | h
      · exact List.mem_cons.2 (.inl h)
      · exact List.mem_cons_of_mem _ h
    · rcases List.mem_cons.1 ((hmem _).2 hx) with rfl | h
      · exact a1
      · exact a2 x h
    · rcases b3 with h | h
      · exact List.mem_cons.2 (.inl h)
      · exact List.mem_cons_of_mem _ h
    · rcases List.mem_cons.1 ((hmem _).2 hx) with rfl | h
      · exact b1
      · exact b2 x h

theorem narrow32_ok {n : ℕ} {a : ℤ} (h : narrow32 n = .ok a) : a = n := by
  unfold narrow32 at h
  split at h
  · cases h; rfl
  · cases h

theorem reconcile_ok {codec : Codec T} {m m' : Metadata} {t : T} (h : reconcile codec m t = .ok m') :
    ∃ f, topologyFingerprint (codec.view t) = .ok f ∧ m' = { m with
      dimension := codec.dimension t, actualVertices := (codec.view t).nv, actualEdges := codec.edges t,
      actualFaces := codec.facets t, actualSimplices := (codec.view t).nc,
      minimumTimeslice := (timeBounds (codec.view t)).1, maximumTimeslice := (timeBounds (codec.view t)).2,
      placementFingerprint := some (placementFingerprint (codec.view t)).toNat,
      topologyFingerprint := some f.toNat } := by
  unfold reconcile deriveState at h
  simp only [bind_ok] at h
  obtain ⟨s, ⟨a, h1, b, h2, c, h3, d, h4, f, h5, h6⟩, h⟩ := h
  cases narrow32_ok h1
  cases narrow32_ok h2
  cases narrow32_ok h3
  cases narrow32_ok h4
  cases h6
  cases h
  exact ⟨f, h5, rfl⟩

theorem updateState_ok {md md' : Metadata} {m : M} (h : updateState host md m = .ok md') :
    ∃ f, topologyFingerprint (host.codec.view (host.snapshot m)) = .ok f ∧ md' = { md with
      topology := .spherical, dimension := 3, actualVertices := (host.summary m).N0,
      actualEdges := (host.summary m).N1, actualFaces := (host.summary m).N2,
      actualSimplices := (host.summary m).N3, minimumTimeslice := (host.summary m).minTime,
      maximumTimeslice := (host.summary m).maxTime, initialRadius := .fin (host.summary m).radius,
      foliationSpacing := .fin (host.summary m).spacing,
      placementFingerprint := some (placementFingerprint (host.codec.view (host.snapshot m))).toNat,
      topologyFingerprint := some f.toNat } := by
  unfold updateState at h
  simp only [bind_ok] at h
  obtain ⟨f, h1, h⟩ := h
  cases h
  exact ⟨f, h1, rfl⟩

/-- The sampler of an accepted configuration and its provenance records. -/
theorem cdtSampler_ok {root : Random S} {cfg : SimConfig} {start : M} {sampler : Sampler S}
    (hroot : root.seed = cfg.triangulation.seed)
    (hN : cfg.triangulation.simplices ≠ 0) (hT : cfg.triangulation.timeslices ≠ 0)
    (h : cdtSampler host root cfg start = .ok sampler) :
    sampler.parameters = ⟨cfg.alpha, cfg.k, cfg.lambda⟩ ∧
    sampler.strategy = { cadence := ⟨cfg.passes, cfg.checkpoint⟩, writesFiles := cfg.writeFiles, gen := Random.make host.pcg cfg.triangulation.seed 1 } ∧
    ∀ m kind p st md, Sampler.metadata host sampler.reproducibility m kind p st = .ok md →
      md.artifact = kind ∧ md.seed = cfg.triangulation.seed.toNat ∧ md.completedPasses = some p ∧
      ∀ md', reconcile host.codec md (host.snapshot m) = .ok md' →
        ∃ f, topologyFingerprint (host.codec.view (host.snapshot m)) = .ok f ∧ md' =
          { artifact := kind
            seed := cfg.triangulation.seed.toNat
            initializationStream := 0
            transitionStream := 1
            topology := .spherical
            dimension := host.codec.dimension (host.snapshot m)
            desiredSimplices := cfg.triangulation.simplices
            desiredTimeslices := cfg.triangulation.timeslices
            actualVertices := (host.codec.view (host.snapshot m)).nv
            actualEdges := host.codec.edges (host.snapshot m)
            actualFaces := host.codec.facets (host.snapshot m)
            actualSimplices := (host.codec.view (host.snapshot m)).nc
            minimumTimeslice := (timeBounds (host.codec.view (host.snapshot m))).1
            maximumTimeslice := (timeBounds (host.codec.view (host.snapshot m))).2
            initialRadius := .fin (host.summary m).radius
            foliationSpacing := .fin (host.summary m).spacing
            alpha := some cfg.alpha
            k := some cfg.k
            lambda := some cfg.lambda
            configuredPasses := some cfg.passes
            configuredAttempts := none
            checkpointInterval := some cfg.checkpoint
            completedPasses := some p
            maxThreads := some cfg.triangulation.threads
            transitionTrace := some st.trace.toNat
            transitionCount := some st.count
            placementFingerprint := some (placementFingerprint (host.codec.view (host.snapshot m))).toNat
            topologyFingerprint := some f.toNat } := by
  unfold cdtSampler makeMetadata Sampler.make at h
  simp only [bind_ok] at h
  obtain ⟨md0, ⟨f0, h0, hmd0⟩, par, hpar, cad, hcad, hs⟩ := h
  cases hmd0
  have hp : par = ⟨cfg.alpha, cfg.k, cfg.lambda⟩ := by
    unfold makePhysicalParameters at hpar
    split at hpar
    · cases hpar
    · split at hpar
      · cases hpar
      · cases hpar; rfl
  have hc : cad = ⟨cfg.passes, cfg.checkpoint⟩ := by
    unfold parseMoveRunCadence Cadence.parse at hcad
    split at hcad
    · rename_i c hc'
      split at hc'
      · cases hc'
      · split at hc'
        · cases hc'
        · cases hc'; cases hcad; rfl
    · cases hcad
  subst hp hc
  cases hs
  refine ⟨rfl, ?_, fun m kind p st md hmd => ?_⟩
  · simp only [Random.split, hroot]
    rfl
  · unfold Sampler.metadata at hmd
    simp only [bind_ok] at hmd
    obtain ⟨md1, h1, hmd⟩ := hmd
    obtain ⟨f, -, rfl⟩ := updateState_ok host h1
    cases hmd
    refine ⟨rfl, ?_, rfl, fun md' hmd' => ?_⟩
    · simp only [Random.split, Random.make, hroot]
    · obtain ⟨f', hf', rfl⟩ := reconcile_ok hmd'
      refine ⟨f', hf', ?_⟩
      simp only [Option.getD_some, if_neg hN, if_neg hT, Random.split, Random.make, hroot]
      rfl

end
end CDT
