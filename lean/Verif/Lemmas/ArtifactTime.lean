import Verif.Lemmas.ProgramRun
import Verif.Props.Filename
/-
C113: the times in the names of artifacts are read from the clock, in the order of writing.
-/
namespace CDT
variable {M S P T : Type} (host : Host M S P T) (out : Outside M S)

/-- Every artifact in the log got its name from a reading of the clock not before `c0`, in order. -/
def Dated (c0 : ℕ) (w : Machine) : Prop :=
  c0 ≤ w.disk.clock ∧ ∃ ks : List ℕ, ks.Pairwise (· ≤ ·) ∧ (∀ k ∈ ks, c0 ≤ k ∧ k ≤ w.disk.clock) ∧
    List.Forall₂ (fun a k => ∃ m md, artifactPath host m md (out.now k) = .ok a.path) w.log ks

variable {host out}

theorem Dated.later {c0 : ℕ} {w : Machine} (h : Dated host out c0 w) {d : Disk}
    (hd : w.disk.clock ≤ d.clock) : Dated host out c0 { w with disk := d } := by
  obtain ⟨h1, ks, h2, h3, h4⟩ := h
  exact ⟨h1.trans hd, ks, h2, fun k hk => ⟨(h3 k hk).1, (h3 k hk).2.trans hd⟩, h4⟩

theorem Dated.write {c0 : ℕ} {w : Machine} (h : Dated host out c0 w) (m : M) (md : Metadata) :
    Dated host out c0 (writeArtifact host out m md w).2 := by
  unfold writeArtifact
  rcases hp : artifactPath host m md (out.now w.disk.clock) with e | path
  · exact h
  · dsimp only
    obtain ⟨fs', vis, k, -, h2⟩ := writePayload_anytime host.codec host.text host.build path
      (host.snapshot m) (some md) w.disk
    generalize (writePayload host.codec host.text host.build path (host.snapshot m) (some md) w.disk).1 = r at h2
    rw [h2]
    cases r with
    | error e => exact h.later (by simp)
    | ok u =>
      obtain ⟨h1, ks, g2, g3, g4⟩ := h
      refine ⟨by dsimp only; omega, ks ++ [w.disk.clock], ?_, ?_, ?_⟩
      · rw [List.pairwise_append]
        refine ⟨g2, List.pairwise_singleton _ _, fun a ha b hb => ?_⟩
        rw [List.mem_singleton.mp hb]
        exact (g3 a ha).2
      · intro j hj
        rcases List.mem_append.mp hj with hj | hj
        · have := g3 j hj
          dsimp only; omega
        · rw [List.mem_singleton.mp hj]
          dsimp only; omega
      · exact List.rel_append g4 (.cons ⟨m, md, hp⟩ .nil)

theorem Dated.pass {Q : Type} {c0 : ℕ} {eng : MetroEngine M (Random S) Q} {rec : Metadata} {cad : Cadence} {writes : Bool}
    {n : ℤ} {v : RunVars M RunStats} {w : Random S × Machine} (h : Dated host out c0 w.2) :
    Dated host out c0 (runPass (metroOps eng (Sampler.output host out rec)) cad writes n v w).2.2 := by
  obtain ⟨g, w⟩ := w
  unfold runPass
  simp only [metroPass]
  rcases passLoop eng (eng.n3 v.current).toNat ⟨v.current, {}, v.state, g⟩ with ⟨r, v'⟩
  cases r with
  | error e => exact h
  | ok u =>
    dsimp only
    split_ifs
    · simp only [Sampler.output]
      rcases Sampler.metadata host rec v'.current .checkpoint n v'.stats with e | md
      · exact h
      · dsimp only
        have hw : Dated host out c0 (writeArtifact host out v'.current md w).2 := Dated.write h v'.current md
        rcases hr : writeArtifact host out v'.current md w with ⟨r, w'⟩
        rw [hr] at hw
        cases r <;> exact hw
    · exact h
    · exact h

theorem Dated.sampler {c0 : ℕ} {w : Machine} (h : Dated host out c0 w) (s : Sampler S) (m : M) :
    Dated host out c0 (s.run host out m w).2.2 := by
  have step : ∀ (k : ℕ) (v : RunVars M RunStats) (w : Random S × Machine) r w', Dated host out c0 w.2 →
      runPass (metroOps (host.engine s.parameters) (Sampler.output host out s.reproducibility)) s.strategy.cadence
        s.strategy.writesFiles ((k : ℤ) + 1) v w = (r, w') → Dated host out c0 w'.2 := by
    intro k v w r w' hi hr
    have := hi.pass (eng := host.engine s.parameters) (rec := s.reproducibility) (cad := s.strategy.cadence)
      (writes := s.strategy.writesFiles) (n := (k : ℤ) + 1) (v := v)
    rw [hr] at this
    exact this
  rw [sampler_run]
  rcases runLoop_cases (metroOps (host.engine s.parameters) (Sampler.output host out s.reproducibility))
    s.strategy.cadence s.strategy.writesFiles (fun _ _ w => Dated host out c0 w.2) (fun _ w => Dated host out c0 w.2)
    (fun k v w v' w' hi hr => step k v w _ w' hi hr) (fun k v w e w' hi hr => step k v w _ w' hi hr)
    s.strategy.cadence.passes.toNat 0 ⟨m, {}, { geometry := (host.engine s.parameters).geometry m }, 0⟩
    (s.strategy.gen, w) h with ⟨v', w', hr, hi⟩ | ⟨e, w', j, hr, -, hi⟩
  · rw [show ((0 : ℕ) : ℤ) = 0 from rfl] at hr
    rw [hr]; exact hi
  · rw [show ((0 : ℕ) : ℤ) = 0 from rfl] at hr
    rw [hr]; exact hi

theorem dated_start (d : Disk) : Dated host out d.clock ⟨d, []⟩ :=
  ⟨Nat.le_refl _, [], .nil, by simp, .nil⟩

theorem dated_cdtMain (parsed : Option Options) (d : Disk) :
    Dated host out d.clock (cdtMain host out parsed d).2 := by
  unfold cdtMain
  cases parsed with
  | none => exact dated_start d
  | some o =>
    dsimp only
    split_ifs
    · exact dated_start d
    · exact dated_start d
    · rcases cdtConfig host out o with e | cfg
      · exact dated_start d
      · dsimp only
        have key : Dated host out d.clock (cdtRun host out (rootRandom host out o) cfg ⟨d, []⟩).2 := by
          unfold cdtRun
          dsimp only
          rcases out.construct cfg.triangulation.simplices cfg.triangulation.timeslices
            ((rootRandom host out o).split host.pcg initializationStream) cfg.triangulation.initialRadius
            cfg.triangulation.foliationSpacing with e | start
          · exact dated_start d
          · dsimp only
            rcases cdtSampler host (rootRandom host out o) cfg start with e | sampler
            · exact dated_start d
            · dsimp only
              have hs := (dated_start (host := host) (out := out) d).sampler sampler start
              rcases hr : sampler.run host out start ⟨d, []⟩ with ⟨r, s', w'⟩
              rw [hr] at hs
              cases r with
              | error e => exact hs
              | ok result =>
                dsimp only at hs ⊢
                split_ifs
                · exact hs
                · rcases Sampler.metadata host s'.reproducibility result .finalTriangulation cfg.passes
                    s'.strategy.stats with e | md
                  · exact hs
                  · exact hs.write result md
                · exact hs
        rcases hr : cdtRun host out (rootRandom host out o) cfg ⟨d, []⟩ with ⟨r, w⟩
        rw [hr] at key
        cases r <;> exact key

theorem dated_initializeMain (parsed : Option Options) (d : Disk) :
    Dated host out d.clock (initializeMain host out parsed d).2 := by
  unfold initializeMain
  cases parsed with
  | none => exact dated_start d
  | some o =>
    dsimp only
    split_ifs
    · exact dated_start d
    · exact dated_start d
    · rcases initializeConfig host out o with e | cfg
      · exact dated_start d
      · dsimp only
        have key : Dated host out d.clock
            (initializeRun host out (rootRandom host out o) cfg o.output ⟨d, []⟩).2 := by
          unfold initializeRun
          rcases out.construct cfg.simplices cfg.timeslices
            ((rootRandom host out o).split host.pcg initializationStream) cfg.initialRadius
            cfg.foliationSpacing with e | start
          · exact dated_start d
          · dsimp only
            split_ifs
            · rcases makeMetadata host start cfg.seed .initialTriangulation with e | md
              · exact dated_start d
              · exact (dated_start d).write start _
            · exact dated_start d
        rcases hr : initializeRun host out (rootRandom host out o) cfg o.output ⟨d, []⟩ with ⟨r, w⟩
        rw [hr] at key
        cases r <;> exact key

theorem dated_pass {m m' : M} {md : Metadata} {seed : ℕ} {p : ℤ} {now now' : Stamp} {path : Path}
    (h : artifactPath host m md now = .ok path) (h' : path = makeFilenamePass (nameInfo host m') seed p now') :
    now' = now := by
  unfold artifactPath at h
  split_ifs at h
  · cases hc : md.completedPasses with
    | none => rw [hc] at h; cases h
    | some q =>
      rw [hc] at h
      simp only [Except.ok.injEq] at h
      exact (Props.C59_checkpoint_names (h'.symm.trans h.symm)).2.2.1
  · simp only [Except.ok.injEq] at h
    exact absurd (h'.symm.trans h.symm) (Props.C59_kinds_distinct _ _ _ _ _ _ _).1

theorem dated_seed {m m' : M} {md : Metadata} {seed : ℕ} {now now' : Stamp} {path : Path}
    (h : artifactPath host m md now = .ok path) (h' : path = makeFilenameSeed (nameInfo host m') seed now') :
    now' = now := by
  unfold artifactPath at h
  split_ifs at h
  · cases hc : md.completedPasses with
    | none => rw [hc] at h; cases h
    | some q =>
      rw [hc] at h
      simp only [Except.ok.injEq] at h
      exact absurd (h.trans h') (Props.C59_kinds_distinct _ _ _ _ _ _ _).1
  · simp only [Except.ok.injEq] at h
    exact (Props.C59_artifact_names (h'.symm.trans h.symm)).2.1

end CDT
