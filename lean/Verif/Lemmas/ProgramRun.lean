import Verif.Lemmas.Program
/-
The artifacts of a whole run.
-/
namespace CDT
open Spec

variable {M S P T : Type} (host : Host M S P T) (out : Outside M S) (cfg : SimConfig) (start : M)

/-- What has been written so far is what was due, it is still there, and no other files changed. -/
structure LogOk (d0 : Disk) (dues : List (ℤ × ArtifactKind)) (w : Machine) : Prop where
  truthful : List.Forall₂ (Truthful host cfg start) dues w.log
  stored : ∀ a ∈ w.log, w.disk.fs a.path = a.payload ∧ w.disk.fs (manifestName a.path) = a.manifest
  others : ∀ p, ¬ OwnFile cfg.triangulation.seed p → w.disk.fs p = d0.fs p

/-- The provenance records of the run's sampler are as they should be. -/
def GoodRecord (rec : Metadata) : Prop :=
  ∀ m kind p st md, Sampler.metadata host rec m kind p st = .ok md →
      md.artifact = kind ∧ md.seed = cfg.triangulation.seed.toNat ∧ md.completedPasses = some p ∧
      ∀ md', reconcile host.codec md (host.snapshot m) = .ok md' →
        ∃ f, topologyFingerprint (host.codec.view (host.snapshot m)) = .ok f ∧ md' =
          { artifact := kind
            seed := cfg.triangulation.seed.toNat
            initializationStream := 0
            transitionStream := 1
            topology := .spherical
            dimension := host.codec.dimension (host.snapshot m)
            desiredSimplices := cfg.triangulation.simplices
            desiredTimeslices := cfg.triangulation.timeslices
            actualVertices := (host.codec.view (host.snapshot m)).nv
            actualEdges := host.codec.edges (host.snapshot m)
            actualFaces := host.codec.facets (host.snapshot m)
            actualSimplices := (host.codec.view (host.snapshot m)).nc
            minimumTimeslice := (timeBounds (host.codec.view (host.snapshot m))).1
            maximumTimeslice := (timeBounds (host.codec.view (host.snapshot m))).2
            initialRadius := .fin (host.summary m).radius
            foliationSpacing := .fin (host.summary m).spacing
            alpha := some cfg.alpha
            k := some cfg.k
            lambda := some cfg.lambda
            configuredPasses := some cfg.passes
            configuredAttempts := none
            checkpointInterval := some cfg.checkpoint
            completedPasses := some p
            maxThreads := some cfg.triangulation.threads
            transitionTrace := some st.trace.toNat
            transitionCount := some st.count
            placementFingerprint := some (placementFingerprint (host.codec.view (host.snapshot m))).toNat
            topologyFingerprint := some f.toNat }

theorem named_offName {m : M} {seed : BitVec 64} {due : ℤ × ArtifactKind} {path : Path}
    (h : Named host m seed due path) : OffName path := by
  obtain ⟨now, rfl⟩ := h
  split
  · exact offName_pass _ _ _ _
  · exact offName_seed _ _ _

theorem named_own {m : M} {seed : BitVec 64} {due : ℤ × ArtifactKind} {path p : Path}
    (h : Named host m seed due path) (hp : FilesOf path p) : OwnFile seed p := by
  obtain ⟨now, rfl⟩ := h
  revert hp
  split
  · exact ownFile_pass
  · exact ownFile_seed

theorem named_ne {m m' : M} {seed : BitVec 64} {p : ℤ} {due : ℤ × ArtifactKind} {a b : Path}
    (ha : Named host m seed (p, .checkpoint) a) (hb : Named host m' seed due b)
    (h : (p, ArtifactKind.checkpoint) ≠ due) : a ≠ b := by
  obtain ⟨now, ha⟩ := ha
  obtain ⟨now', hb⟩ := hb
  obtain ⟨q, kind⟩ := due
  intro e
  cases kind with
  | checkpoint =>
    replace ha : a = makeFilenamePass (nameInfo host m) seed.toNat p now := ha
    replace hb : b = makeFilenamePass (nameInfo host m') seed.toNat q now' := hb
    rw [ha, hb] at e
    exact h (by rw [(Props.C59_checkpoint_names e).2.1])
  | initialTriangulation =>
    replace ha : a = makeFilenamePass (nameInfo host m) seed.toNat p now := ha
    replace hb : b = makeFilenameSeed (nameInfo host m') seed.toNat now' := hb
    rw [ha, hb] at e
    exact (Props.C59_kinds_distinct _ _ _ _ _ _ _).1 e
  | finalTriangulation =>
    replace ha : a = makeFilenamePass (nameInfo host m) seed.toNat p now := ha
    replace hb : b = makeFilenameSeed (nameInfo host m') seed.toNat now' := hb
    rw [ha, hb] at e
    exact (Props.C59_kinds_distinct _ _ _ _ _ _ _).1 e

/-- Writing an artifact that is due. -/
theorem writeDue {rec md : Metadata} (hrec : GoodRecord host cfg rec) {d0 : Disk} {w : Machine}
    {dues : List (ℤ × ArtifactKind)} {due : ℤ × ArtifactKind} (hlog : LogOk host cfg start d0 dues w)
    (hnew : ∀ x ∈ dues, x.2 = .checkpoint ∧ x ≠ due)
    {st : RunStats} (hst : DescribesStats st (history (engineOf host cfg)
      (transitionsAfter host cfg start due.1) (origin host cfg start)))
    (hlen : (history (engineOf host cfg) (transitionsAfter host cfg start due.1) (origin host cfg start)).length =
      transitionsAfter host cfg start due.1)
    (hmd : Sampler.metadata host rec (stateAfter host cfg start due.1) due.2 due.1 st = .ok md) :
    (∃ w', writeArtifact host out (stateAfter host cfg start due.1) md w = (.ok (), w') ∧
      LogOk host cfg start d0 (dues ++ [due]) w') ∨
    ∃ e w', writeArtifact host out (stateAfter host cfg start due.1) md w = (.error e, w') ∧
      LogOk host cfg start d0 dues w' := by
  obtain ⟨h1, h2, h3, h4⟩ := hrec _ _ _ _ _ hmd
  have hname : ∀ path, artifactPath host (stateAfter host cfg start due.1) md (out.now w.disk.clock) = .ok path →
      Named host (stateAfter host cfg start due.1) cfg.triangulation.seed due path := by
    intro path hp
    refine ⟨out.now w.disk.clock, ?_⟩
    unfold artifactPath at hp
    rw [h1, h2, h3] at hp
    rcases hk : due.2 with _ | _ | _ <;> rw [hk] at hp <;> simp at hp <;> exact hp.symm
  have hkeep : ∀ (d : Disk) path, Named host (stateAfter host cfg start due.1) cfg.triangulation.seed due path →
      (∀ p, ¬ FilesOf path p → d.fs p = w.disk.fs p) →
      (∀ a ∈ w.log, d.fs a.path = a.payload ∧ d.fs (manifestName a.path) = a.manifest) ∧
      ∀ p, ¬ OwnFile cfg.triangulation.seed p → d.fs p = d0.fs p := by
    intro d path hn hsame
    refine ⟨fun a ha => ?_, fun p hp => ?_⟩
    · obtain ⟨x, hx, hxa⟩ : ∃ x ∈ dues, Truthful host cfg start x a := by
        obtain ⟨i, hi, rfl⟩ := List.getElem_of_mem ha
        have hl := hlog.truthful.length_eq
        exact ⟨dues[i], List.getElem_mem _, (List.forall₂_iff_get.1 hlog.truthful).2 i (by omega) hi⟩
      obtain ⟨hk, hne⟩ := hnew x hx
      have hxn := hxa.name
      obtain ⟨p, k⟩ := x
      dsimp only at hk
      subst hk
      have hd := files_disjoint (named_offName host hxn) (named_offName host hn) (named_ne host hxn hn hne)
      rw [hsame _ hd.1, hsame _ hd.2]
      exact hlog.stored a ha
    · rw [hsame p fun hf => hp (named_own host hn hf)]
      exact hlog.others p hp
  rcases writeArtifact_cases host out (stateAfter host cfg start due.1) md w with
    ⟨path, md', d, hp, hr, hw, hdesc, hs1, hs2, hsame⟩ | ⟨e, d, hw, hd⟩
  · obtain ⟨k1, k2⟩ := hkeep d path (hname path hp) hsame
    refine .inl ⟨_, hw, ⟨?_, ?_, k2⟩⟩
    · refine List.rel_append hlog.truthful (.cons ⟨hname path hp, rfl, ?_, ⟨_, rfl, hdesc⟩, hlen⟩ .nil)
      obtain ⟨f, hf, hmd'⟩ := h4 md' hr
      refine ⟨_, _, f, timeBounds_range _, hf, ?_⟩
      rw [hmd', hst.trace, hst.count, hlen]
      rfl
    · intro a ha
      rcases List.mem_append.1 ha with ha | ha
      · exact k1 a ha
      · rw [List.mem_singleton] at ha
        subst ha
        exact ⟨hs1, hs2⟩
  · rcases hd with rfl | ⟨path, hp, hsame⟩
    · exact .inr ⟨e, _, hw, ⟨hlog.truthful, hlog.stored, hlog.others⟩⟩
    · obtain ⟨k1, k2⟩ := hkeep d path (hname path hp) hsame
      exact .inr ⟨e, _, hw, ⟨hlog.truthful, k1, k2⟩⟩

/-- The checkpoints due after `k` passes. -/
def dueUpTo (k : ℕ) : List (ℤ × ArtifactKind) :=
  if cfg.writeFiles then (schedule k cfg.checkpoint.toNat).map (fun p => (p, .checkpoint)) else []

theorem dueUpTo_succ (hc : 1 ≤ cfg.checkpoint) (k : ℕ) :
    dueUpTo cfg (k + 1) = dueUpTo cfg k ++
      if cfg.writeFiles = true ∧ ((k : ℤ) + 1) % cfg.checkpoint = 0 then [((k : ℤ) + 1, .checkpoint)] else [] := by
  unfold dueUpTo
  have hz : ((cfg.checkpoint.toNat : ℕ) : ℤ) = cfg.checkpoint := Int.toNat_of_nonneg (by omega)
  cases cfg.writeFiles with
  | false => simp
  | true =>
    simp only [if_true, true_and]
    rw [schedule_succ k _ (by omega), hz, List.map_append]
    congr 1
    split <;> simp

theorem dueUpTo_old (hc : 1 ≤ cfg.checkpoint) : ∀ (k : ℕ), ∀ x ∈ dueUpTo cfg k, x.2 = .checkpoint ∧ x.1 ≤ k
  | 0 => by unfold dueUpTo; rw [schedule_zero]; simp
  | k + 1 => by
    intro x hx
    rw [dueUpTo_succ cfg hc, List.mem_append] at hx
    rcases hx with hx | hx
    · have := dueUpTo_old hc k x hx; exact ⟨this.1, by push_cast; omega⟩
    · split at hx
      · rw [List.mem_singleton] at hx; subst hx; exact ⟨rfl, by push_cast; rfl⟩
      · simp at hx

theorem dueUpTo_prefix (hc : 1 ≤ cfg.checkpoint) {j k : ℕ} (h : j ≤ k) : dueUpTo cfg j <+: dueUpTo cfg k := by
  induction h with
  | refl => exact List.prefix_refl _
  | step _ ih => rw [Nat.succ_eq_add_one, dueUpTo_succ cfg hc]; exact ih.trans (List.prefix_append _ _)

/-- The state between passes. -/
def Between (d0 : Disk) (k : ℕ) (v : RunVars M RunStats) (w : Random S × Machine) : Prop :=
  (v.current, w.1) = trajectory (engineOf host cfg) (transitionsAfter host cfg start k) (origin host cfg start) ∧
  DescribesStats v.state (history (engineOf host cfg) (transitionsAfter host cfg start k) (origin host cfg start)) ∧
  (history (engineOf host cfg) (transitionsAfter host cfg start k) (origin host cfg start)).length =
    transitionsAfter host cfg start k ∧
  LogOk host cfg start d0 (dueUpTo cfg k) w.2

theorem pass_between {d0 : Disk} {k : ℕ} {v : RunVars M RunStats} {g : Random S} {w : Machine}
    (h : Between host cfg start d0 k v (g, w)) :
    (∃ e g', metroPass (engineOf host cfg) v.current v.state ((engineOf host cfg).n3 v.current) (g, w) =
      (.error e, (g', w))) ∨
    ∃ p g', metroPass (engineOf host cfg) v.current v.state ((engineOf host cfg).n3 v.current) (g, w) =
      (.ok p, (g', w)) ∧
      (p.manifold, g') = trajectory (engineOf host cfg) (transitionsAfter host cfg start ((k : ℤ) + 1)) (origin host cfg start) ∧
      DescribesStats p.strategyState (history (engineOf host cfg) (transitionsAfter host cfg start ((k : ℤ) + 1)) (origin host cfg start)) ∧
      (history (engineOf host cfg) (transitionsAfter host cfg start ((k : ℤ) + 1)) (origin host cfg start)).length =
        transitionsAfter host cfg start ((k : ℤ) + 1) := by
  obtain ⟨h1, h2, h3, -⟩ := h
  have hn : transitionsAfter host cfg start ((k : ℤ) + 1) = transitionsAfter host cfg start k +
      ((engineOf host cfg).n3 v.current).toNat := by
    unfold transitionsAfter at *
    rw [show ((k : ℤ) + 1).toNat = k + 1 by omega, passStart]
    rw [show ((k : ℤ)).toNat = k by omega] at *
    rw [← h1]
  unfold metroPass
  rcases hp : passLoop (engineOf host cfg) ((engineOf host cfg).n3 v.current).toNat ⟨v.current, {}, v.state, g⟩ with ⟨r, v'⟩
  cases r with
  | error e => exact .inl ⟨e, v'.gen, by simp only [hp]⟩
  | ok u =>
    obtain ⟨t1, t2, t3⟩ := passLoop_history _ _ _ _ hp
    dsimp only at t1 t2 t3 h1
    rw [h1] at t1 t2 t3
    refine .inr ⟨⟨v'.current, v'.cmd, v'.stats⟩, v'.gen, by simp only [hp], ?_, ?_, ?_⟩
    · rw [hn, Props.trajectory_add]; exact t1
    · rw [hn, history_add]; exact t3 _ h2
    · rw [hn, history_add, List.length_append, h3, t2]

theorem pass_step {rec : Metadata} (hrec : GoodRecord host cfg rec) (hc : 1 ≤ cfg.checkpoint) (d0 : Disk)
    (k : ℕ) (v : RunVars M RunStats) (w : Random S × Machine) (h : Between host cfg start d0 k v w) :
    let r := runPass (metroOps (engineOf host cfg) (Sampler.output host out rec)) ⟨cfg.passes, cfg.checkpoint⟩
      cfg.writeFiles ((k : ℤ) + 1) v w
    (∃ v' w', r = (.ok v', w') ∧ Between host cfg start d0 (k + 1) v' w') ∨
    ∃ e w', r = (.error e, w') ∧ LogOk host cfg start d0 (dueUpTo cfg k) w'.2 := by
  obtain ⟨g, w⟩ := w
  have hlog := h.2.2.2
  dsimp only at hlog ⊢
  unfold runPass
  have hcast : ((k + 1 : ℕ) : ℤ) = (k : ℤ) + 1 := by push_cast; rfl
  rcases pass_between host cfg start h with ⟨e, g', hp⟩ | ⟨p, g', hp, t1, t2, t3⟩
  · simp only [hp]
    exact .inr ⟨e, _, rfl, hlog⟩
  · simp only [hp]
    have hdue := dueUpTo_succ cfg hc k
    by_cases hm : ((k : ℤ) + 1) % cfg.checkpoint = 0
    · rw [if_pos hm]
      simp only [Sampler.output]
      by_cases hwr : cfg.writeFiles = true
      · rw [if_pos ⟨hwr, hm⟩] at hdue
        have hst : p.manifold = stateAfter host cfg start ((k : ℤ) + 1) := congrArg Prod.fst t1
        rw [if_pos hwr]
        rcases hmd : Sampler.metadata host rec p.manifold .checkpoint ((k : ℤ) + 1) p.strategyState with e | md
        · exact .inr ⟨e, _, rfl, hlog⟩
        · dsimp only
          rw [hst] at hmd ⊢
          rcases writeDue host out cfg start hrec (due := ((k : ℤ) + 1, .checkpoint)) hlog
            (fun x hx => ⟨(dueUpTo_old cfg hc k x hx).1, fun e => by
              have := (dueUpTo_old cfg hc k x hx).2
              rw [e] at this; dsimp only at this; omega⟩) t2 t3 hmd with ⟨w', hw, hl⟩ | ⟨e, w', hw, hl⟩
          · rw [hw]
            refine .inl ⟨_, _, rfl, ?_, ?_, ?_, ?_⟩
            · dsimp only; rw [hcast, ← t1, hst]
            · rw [hcast]; exact t2
            · rw [hcast]; exact t3
            · rw [hdue]; exact hl
          · rw [hw]
            exact .inr ⟨e, _, rfl, hl⟩
      · rw [if_neg (fun h => hwr h.1), List.append_nil] at hdue
        rw [if_neg hwr]
        refine .inl ⟨_, _, rfl, ?_, ?_, ?_, ?_⟩
        · dsimp only; rw [hcast]; exact t1
        · rw [hcast]; exact t2
        · rw [hcast]; exact t3
        · rw [hdue]; exact hlog
    · rw [if_neg (fun h => hm h.2), List.append_nil] at hdue
      rw [if_neg hm]
      refine .inl ⟨_, _, rfl, ?_, ?_, ?_, ?_⟩
      · dsimp only; rw [hcast]; exact t1
      · rw [hcast]; exact t2
      · rw [hcast]; exact t3
      · rw [hdue]; exact hlog

theorem run_between {rec : Metadata} (hrec : GoodRecord host cfg rec) (hc : 1 ≤ cfg.checkpoint) (d0 : Disk)
    (n k : ℕ) (v : RunVars M RunStats) (w : Random S × Machine) (h : Between host cfg start d0 k v w) :
    let r := runLoop (metroOps (engineOf host cfg) (Sampler.output host out rec)) ⟨cfg.passes, cfg.checkpoint⟩
      cfg.writeFiles n (k : ℤ) v w
    (∃ v' w', r = (.ok v', w') ∧ Between host cfg start d0 (k + n) v' w') ∨
    ∃ e w' j, r = (.error e, w') ∧ j < k + n ∧ LogOk host cfg start d0 (dueUpTo cfg j) w'.2 := by
  refine runLoop_cases _ _ _ (Between host cfg start d0) (fun j w => LogOk host cfg start d0 (dueUpTo cfg j) w.2)
    (fun k v w v' w' hi hr => ?_) (fun k v w e w' hi hr => ?_) n k v w h
  · rcases pass_step host out cfg start hrec hc d0 k v w hi with ⟨v1, w1, h1, h2⟩ | ⟨e1, w1, h1, h2⟩
    · rw [hr] at h1; cases h1; exact h2
    · rw [hr] at h1; cases h1
  · rcases pass_step host out cfg start hrec hc d0 k v w hi with ⟨v1, w1, h1, h2⟩ | ⟨e1, w1, h1, h2⟩
    · rw [hr] at h1; cases h1
    · rw [hr] at h1; cases h1; exact h2

/-- Running the sampler is running the loop; the report cannot fail. -/
theorem sampler_run (sampler : Sampler S) (m : M) (w : Machine) :
    sampler.run host out m w =
      match runLoop (metroOps (host.engine sampler.parameters) (Sampler.output host out sampler.reproducibility))
        sampler.strategy.cadence sampler.strategy.writesFiles sampler.strategy.cadence.passes.toNat 0
        ⟨m, {}, { geometry := (host.engine sampler.parameters).geometry m }, 0⟩ (sampler.strategy.gen, w) with
      | (.error e, (g, w')) => (.error e, { sampler with strategy := { sampler.strategy with gen := g } }, w')
      | (.ok v, (g, w')) => (.ok v.current, { sampler with strategy := { sampler.strategy with
          gen := g, cmd := v.totals, stats := v.state, checkpointEvents := v.events } }, w') := by
  unfold Sampler.run MetroStrategy.run executeMoveRun metroOps
  rcases h : runLoop _ _ _ _ _ _ _ with ⟨r, g, w'⟩
  cases r with
  | error e => simp only [h]
  | ok v => simp only [h]; rfl

/-- The whole main path of `cdt` after the universe was built. -/
theorem cdtRun_log {root : Random S} (hroot : root = Random.make host.pcg cfg.triangulation.seed 0)
    (hN : cfg.triangulation.simplices ≠ 0) (hT : cfg.triangulation.timeslices ≠ 0) (hc : 1 ≤ cfg.checkpoint)
    (hP : 1 ≤ cfg.passes)
    (hstart : out.construct cfg.triangulation.simplices cfg.triangulation.timeslices
      (Random.make host.pcg cfg.triangulation.seed 0) cfg.triangulation.initialRadius
      cfg.triangulation.foliationSpacing = .ok start) (d0 : Disk) :
    ∃ r w done, cdtRun host out root cfg ⟨d0, []⟩ = (r, w) ∧ done <+: duties cfg ∧
      LogOk host cfg start d0 done w ∧ (r = .ok () → done = duties cfg ∧ host.valid (stateAfter host cfg start cfg.passes) = true) := by
  have h0 : LogOk host cfg start d0 [] ⟨d0, []⟩ := ⟨.nil, by simp, fun _ _ => rfl⟩
  unfold cdtRun
  rw [show root.split host.pcg initializationStream = Random.make host.pcg cfg.triangulation.seed 0 by rw [hroot]; rfl]
  simp only [hstart]
  rcases hs : cdtSampler host root cfg start with e | sampler
  · exact ⟨_, _, [], rfl, List.nil_prefix, h0, fun h => by cases h⟩
  · obtain ⟨s1, s2, hrec⟩ := cdtSampler_ok host (by rw [hroot]; rfl) hN hT hs
    have hrec : GoodRecord host cfg sampler.reproducibility := hrec
    dsimp only
    have hb : Between host cfg start d0 0 ⟨start, {}, { geometry := (engineOf host cfg).geometry start }, 0⟩
        ((Random.make host.pcg cfg.triangulation.seed 1 : Random S), ⟨d0, []⟩) := by
      refine ⟨rfl, ?_, rfl, ?_⟩
      · exact describesStats_nil _
      · unfold dueUpTo; rw [schedule_zero]; simpa using h0
    have hrun := run_between host out cfg start hrec hc d0 cfg.passes.toNat 0 _ _ hb
    dsimp only at hrun
    have hPz : ((cfg.passes.toNat : ℕ) : ℤ) = cfg.passes := Int.toNat_of_nonneg (by omega)
    have hlast : cfg.writeFiles = true → duties cfg = dueUpTo cfg cfg.passes.toNat ++ [(cfg.passes, .finalTriangulation)] := by
      intro hw; unfold duties dueUpTo; rw [if_pos hw, if_pos hw]
    have hnone : ¬ cfg.writeFiles = true → duties cfg = [] ∧ dueUpTo cfg cfg.passes.toNat = [] := by
      intro hw; unfold duties dueUpTo; rw [if_neg hw, if_neg hw]; exact ⟨rfl, rfl⟩
    have hpre : dueUpTo cfg cfg.passes.toNat <+: duties cfg := by
      by_cases hw : cfg.writeFiles = true
      · rw [hlast hw]; exact List.prefix_append _ _
      · rw [(hnone hw).1, (hnone hw).2]
    have hsr := sampler_run host out sampler start ⟨d0, []⟩
    rw [s1, s2] at hsr
    rcases hrun with ⟨v', ⟨g', w'⟩, hr, hv⟩ | ⟨e, ⟨g', w'⟩, j, hr, hj, hl⟩
    · rw [Nat.zero_add] at hv
      obtain ⟨t1, t2, t3, hl⟩ := hv
      rw [hPz] at t1 t2 t3
      have hcur : v'.current = stateAfter host cfg start cfg.passes := congrArg Prod.fst t1
      rw [show runLoop (metroOps (host.engine ⟨cfg.alpha, cfg.k, cfg.lambda⟩) (Sampler.output host out sampler.reproducibility)) ⟨cfg.passes, cfg.checkpoint⟩ cfg.writeFiles cfg.passes.toNat 0 ⟨start, {}, { geometry := (host.engine ⟨cfg.alpha, cfg.k, cfg.lambda⟩).geometry start }, 0⟩ (Random.make host.pcg cfg.triangulation.seed 1, ⟨d0, []⟩) = _ from hr] at hsr
      rw [hsr]
      dsimp only
      rw [hcur]
      by_cases hval : host.valid (stateAfter host cfg start cfg.passes) = true
      · simp only [hval, Bool.not_true, Bool.false_eq_true, if_false]
        by_cases hw : cfg.writeFiles = true
        · rw [if_pos hw]
          rcases hmd : Sampler.metadata host sampler.reproducibility (stateAfter host cfg start cfg.passes)
            .finalTriangulation cfg.passes v'.state with e | md
          · exact ⟨_, _, _, rfl, hpre, hl, fun h => by cases h⟩
          · dsimp only
            rcases writeDue host out cfg start hrec (due := (cfg.passes, .finalTriangulation)) hl
              (fun x hx => ⟨(dueUpTo_old cfg hc _ x hx).1, fun e => by
                have := (dueUpTo_old cfg hc _ x hx).1
                rw [e] at this; cases this⟩) t2 t3 hmd with ⟨w'', hw', hl'⟩ | ⟨e, w'', hw', hl'⟩
            · exact ⟨_, _, _, hw', by rw [hlast hw], hl', fun _ => ⟨(hlast hw).symm, trivial⟩⟩
            · exact ⟨_, _, _, hw', hpre, hl', fun h => by cases h⟩
        · rw [if_neg hw]
          exact ⟨_, _, _, rfl, hpre, hl, fun _ => ⟨by rw [(hnone hw).1, (hnone hw).2], trivial⟩⟩
      · rw [if_pos (by simp [hval])]
        exact ⟨_, _, _, rfl, hpre, hl, fun h => by cases h⟩
    · rw [show runLoop (metroOps (host.engine ⟨cfg.alpha, cfg.k, cfg.lambda⟩) (Sampler.output host out sampler.reproducibility)) ⟨cfg.passes, cfg.checkpoint⟩ cfg.writeFiles cfg.passes.toNat 0 ⟨start, {}, { geometry := (host.engine ⟨cfg.alpha, cfg.k, cfg.lambda⟩).geometry start }, 0⟩ (Random.make host.pcg cfg.triangulation.seed 1, ⟨d0, []⟩) = _ from hr] at hsr
      rw [hsr]
      exact ⟨_, _, _, rfl, (dueUpTo_prefix cfg hc (by omega)).trans hpre, hl, fun h => by cases h⟩

end CDT
