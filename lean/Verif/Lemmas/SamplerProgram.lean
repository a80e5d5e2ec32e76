import Verif.Lemmas.AlwaysProgram
import Verif.Lemmas.ProgramRun
import Verif.Spec.SamplerProgram
import Verif.Props.Action
/-
The checkpoints of a `Metropolis_3` object.
-/
namespace CDT
open Spec

variable {M S P T : Type} {host : Host M S P T} {out : Outside M S} {a : SamplerArgs S}

/-- The couplings, the cadence and the provenance record an object was made with. -/
structure MadeBy (a : SamplerArgs S) (s : Sampler S) : Prop where
  accepted : AcceptedArgs a
  parameters : s.parameters = ⟨a.alpha, a.k, a.lambda⟩
  cadence : s.strategy.cadence = ⟨a.passes, a.checkpoint⟩
  writes : s.strategy.writesFiles = a.writeFiles
  record : s.reproducibility =
    { a.reproducibility.getD (blankMetadata a.random a.alpha a.k a.lambda a.passes a.checkpoint) with
      seed := a.random.seed.toNat, transitionStream := a.random.stream.toNat, alpha := some a.alpha,
      k := some a.k, lambda := some a.lambda, configuredPasses := some a.passes,
      checkpointInterval := some a.checkpoint }

theorem parseCadence_iff {p c : ℤ} {cad : Cadence} :
    parseMoveRunCadence p c = .ok cad ↔ 0 < p ∧ 0 < c ∧ cad = ⟨p, c⟩ := by
  unfold parseMoveRunCadence Cadence.parse
  by_cases hp : p ≤ 0
  · rw [if_pos hp]; simp; omega
  · rw [if_neg hp]
    by_cases hc : c ≤ 0
    · rw [if_pos hc]; simp; omega
    · rw [if_neg hc]
      simp only [Except.ok.injEq]
      exact ⟨fun h => ⟨by omega, by omega, h.symm⟩, fun h => h.2.2.symm⟩

theorem ofArgs_ok {s : Sampler S} (h : Sampler.ofArgs a = .ok s) : MadeBy a s ∧ s.strategy.gen = a.random ∧
    s.strategy.cmd = {} ∧ s.strategy.stats = {} ∧ s.strategy.checkpointEvents = 0 := by
  unfold Sampler.ofArgs Sampler.make at h
  simp only [bind_ok] at h
  obtain ⟨par, hpar, cad, hcad, hs⟩ := h
  obtain ⟨α, κ, Λ, e1, e2, e3, hα, rfl⟩ := (Props.C46_accepted_iff _ _ _ _).1 hpar
  obtain ⟨c1, c2, rfl⟩ := parseCadence_iff.1 hcad
  cases hs
  refine ⟨⟨⟨⟨α, κ, Λ, e1, e2, e3, hα⟩, c1, c2⟩, ?_, rfl, rfl, ?_⟩, rfl, rfl, rfl, rfl⟩
  · rw [e1, e2, e3]
  · rw [e1, e2, e3]

theorem call_keeps {s : Sampler S} (c : MetroCall M) (w : Machine) :
    (s.call host out c w).2.1.parameters = s.parameters ∧
    (s.call host out c w).2.1.reproducibility = s.reproducibility ∧
    (s.call host out c w).2.1.strategy.cadence = s.strategy.cadence ∧
    (s.call host out c w).2.1.strategy.writesFiles = s.strategy.writesFiles := by
  refine ⟨rfl, rfl, ?_⟩
  unfold Sampler.call MetroStrategy.call
  cases c with
  | attempt => exact ⟨rfl, rfl⟩
  | sample => exact ⟨rfl, rfl⟩
  | «initialize» => exact ⟨rfl, rfl⟩
  | run m =>
    dsimp only
    rcases h : s.strategy.run (host.engine s.parameters) (Sampler.output host out s.reproducibility) m w with ⟨r, s', w'⟩
    have hs : s'.cadence = s.strategy.cadence ∧ s'.writesFiles = s.strategy.writesFiles := by
      unfold MetroStrategy.run at h
      dsimp only at h
      split at h <;> cases h <;> exact ⟨rfl, rfl⟩
    cases r <;> exact hs

theorem usedFrom_made {s : Sampler S} (h : UsedFrom host out a s) : MadeBy a s := by
  induction h with
  | made h => exact (ofArgs_ok h).1
  | called c w _ ih =>
    obtain ⟨k1, k2, k3, k4⟩ := call_keeps (host := host) (out := out) (s := _) c w
    exact ⟨ih.accepted, k1.trans ih.parameters, k3.trans ih.cadence, k4.trans ih.writes, k2.trans ih.record⟩

theorem sampled_metadata {s : Sampler S} (hs : MadeBy a s) {m : M} {kind : ArtifactKind} {p : ℤ} {st : RunStats}
    {md : Metadata} (h : Sampler.metadata host s.reproducibility m kind p st = .ok md) :
    md.artifact = kind ∧ md.seed = a.random.seed.toNat ∧ md.completedPasses = some p ∧
    ∀ md' reports, reconcile host.codec md (host.snapshot m) = .ok md' → DescribesStats st reports →
      ∃ lo hi f, LabelRange (host.codec.view (host.snapshot m)) lo hi ∧
        topologyFingerprint (host.codec.view (host.snapshot m)) = .ok f ∧
        md' = sampledRecord host a m kind p reports lo hi f := by
  rw [hs.record] at h
  unfold Sampler.metadata at h
  simp only [bind_ok] at h
  obtain ⟨md1, h1, hmd⟩ := h
  obtain ⟨f, -, rfl⟩ := updateState_ok host h1
  cases hmd
  refine ⟨rfl, rfl, rfl, fun md' reports hmd' hst => ?_⟩
  obtain ⟨f', hf', rfl⟩ := reconcile_ok hmd'
  refine ⟨_, _, f', timeBounds_range _, hf', ?_⟩
  unfold sampledRecord
  rw [hst.trace, hst.count]
  cases a.reproducibility with
  | none => rfl
  | some g => rfl

/-- What has been written so far is what was due, it is still there, and no other files changed. -/
structure SampledLog (host : Host M S P T) (a : SamplerArgs S) (x : M × Random S) (d0 : Disk) (dues : List ℤ)
    (w : Machine) : Prop where
  truthful : List.Forall₂ (SampledAt host a x) dues w.log
  stored : ∀ b ∈ w.log, w.disk.fs b.path = b.payload ∧ w.disk.fs (manifestName b.path) = b.manifest
  others : ∀ p, ¬ OwnFile a.random.seed p → w.disk.fs p = d0.fs p

theorem SampledLog.keep {x : M × Random S} {d0 : Disk} {dues : List ℤ} {w : Machine}
    (h : SampledLog host a x d0 dues w) {q : ℤ} (hnew : ∀ y ∈ dues, y ≠ q) {m : M} {path : Path}
    (hn : Named host m a.random.seed (q, .checkpoint) path) {d : Disk} (hsame : ∀ p, ¬ FilesOf path p → d.fs p = w.disk.fs p) :
    (∀ b ∈ w.log, d.fs b.path = b.payload ∧ d.fs (manifestName b.path) = b.manifest) ∧
    ∀ p, ¬ OwnFile a.random.seed p → d.fs p = d0.fs p := by
  refine ⟨fun b hb => ?_, fun p hp => ?_⟩
  · obtain ⟨y, hy, hya⟩ : ∃ y ∈ dues, SampledAt host a x y b := by
      obtain ⟨i, hi, rfl⟩ := List.getElem_of_mem hb
      have hl := h.truthful.length_eq
      exact ⟨dues[i], List.getElem_mem _, (List.forall₂_iff_get.1 h.truthful).2 i (by omega) hi⟩
    have hxn := hya.name
    have hd := files_disjoint (named_offName host hxn) (named_offName host hn)
      (named_ne host hxn hn (by simpa using hnew y hy))
    rw [hsame _ hd.1, hsame _ hd.2]
    exact h.stored b hb
  · rw [hsame p fun hf => hp (named_own host hn hf)]
    exact h.others p hp

/-- The state between passes. -/
structure SampledBetween (host : Host M S P T) (a : SamplerArgs S) (x : M × Random S) (d0 : Disk) (k : ℕ)
    (v : RunVars M RunStats) (w : Random S × Machine) : Prop where
  state : (v.current, w.1) = trajectory (argsEngine host a) (sampledCount host a x k) x
  stats : DescribesStats v.state (sampledReports host a x k)
  complete : (sampledReports host a x k).length = sampledCount host a x k
  log : SampledLog host a x d0 (if a.writeFiles then schedule k a.checkpoint.toNat else []) w.2

theorem sampled_pass {x : M × Random S} {d0 : Disk} {k : ℕ} {v : RunVars M RunStats} {g : Random S} {w : Machine}
    (h : SampledBetween host a x d0 k v (g, w)) :
    (∃ e g', metroPass (argsEngine host a) v.current v.state ((argsEngine host a).n3 v.current) (g, w) =
      (.error e, (g', w))) ∨
    ∃ p g', metroPass (argsEngine host a) v.current v.state ((argsEngine host a).n3 v.current) (g, w) =
      (.ok p, (g', w)) ∧
      (p.manifold, g') = trajectory (argsEngine host a) (sampledCount host a x ((k : ℤ) + 1)) x ∧
      DescribesStats p.strategyState (sampledReports host a x ((k : ℤ) + 1)) ∧
      (sampledReports host a x ((k : ℤ) + 1)).length = sampledCount host a x ((k : ℤ) + 1) := by
  obtain ⟨h1, h2, h3, -⟩ := h
  have hn : sampledCount host a x ((k : ℤ) + 1) = sampledCount host a x k +
      ((argsEngine host a).n3 v.current).toNat := by
    unfold sampledCount at *
    rw [show ((k : ℤ) + 1).toNat = k + 1 by omega, passStart]
    rw [show ((k : ℤ)).toNat = k by omega] at *
    rw [← h1]
  unfold sampledReports at *
  unfold metroPass
  rcases hp : passLoop (argsEngine host a) ((argsEngine host a).n3 v.current).toNat ⟨v.current, {}, v.state, g⟩ with ⟨r, v'⟩
  cases r with
  | error e => exact .inl ⟨e, v'.gen, by simp only [hp]⟩
  | ok u =>
    obtain ⟨t1, t2, t3⟩ := passLoop_history _ _ _ _ hp
    dsimp only at t1 t2 t3 h1
    rw [h1] at t1 t2 t3
    refine .inr ⟨⟨v'.current, v'.cmd, v'.stats⟩, v'.gen, by simp only [hp], ?_, ?_, ?_⟩
    · rw [hn, Props.trajectory_add]; exact t1
    · rw [hn, history_add]; exact t3 _ h2
    · rw [hn, history_add, List.length_append, h3, t2]

theorem sampled_step {s : Sampler S} (hs : MadeBy a s) (x : M × Random S) (d0 : Disk)
    (k : ℕ) (v : RunVars M RunStats) (w : Random S × Machine) (h : SampledBetween host a x d0 k v w) :
    let r := runPass (metroOps (argsEngine host a) (Sampler.output host out s.reproducibility)) ⟨a.passes, a.checkpoint⟩
      a.writeFiles ((k : ℤ) + 1) v w
    (∃ v' w', r = (.ok v', w') ∧ SampledBetween host a x d0 (k + 1) v' w') ∨
    ∃ e w', r = (.error e, w') ∧ SampledLog host a x d0 (if a.writeFiles then schedule k a.checkpoint.toNat else []) w'.2 := by
  obtain ⟨g, w⟩ := w
  have hlog := h.log
  have hc := hs.accepted.checkpoint
  dsimp only at hlog ⊢
  unfold runPass
  have hcast : ((k + 1 : ℕ) : ℤ) = (k : ℤ) + 1 := by push_cast; rfl
  have hz : ((a.checkpoint.toNat : ℕ) : ℤ) = a.checkpoint := Int.toNat_of_nonneg (by omega)
  have hdue := schedule_succ k a.checkpoint.toNat (by omega)
  rw [hz] at hdue
  rcases sampled_pass h with ⟨e, g', hp⟩ | ⟨p, g', hp, t1, t2, t3⟩
  · simp only [hp]
    exact .inr ⟨e, _, rfl, hlog⟩
  · simp only [hp]
    by_cases hm : ((k : ℤ) + 1) % a.checkpoint = 0
    · rw [if_pos hm]
      rw [if_pos hm] at hdue
      simp only [Sampler.output]
      by_cases hwr : a.writeFiles = true
      · have hst : p.manifold = sampledState host a x ((k : ℤ) + 1) := congrArg Prod.fst t1
        rw [if_pos hwr]
        rw [if_pos hwr] at hlog
        have hnew : ∀ y ∈ schedule k a.checkpoint.toNat, y ≠ (k : ℤ) + 1 := by
          intro y hy e
          subst e
          unfold schedule at hy
          obtain ⟨i, hi, he⟩ := List.mem_map.1 hy
          rw [List.mem_range] at hi
          have h5 : (i + 1) * a.checkpoint.toNat ≤ k := (Nat.le_div_iff_mul_le (by omega)).1 hi
          have h6 : (((i + 1) * a.checkpoint.toNat : ℕ) : ℤ) = (k : ℤ) + 1 := by push_cast; push_cast at he; exact he
          omega
        rcases hmd : Sampler.metadata host s.reproducibility p.manifold .checkpoint ((k : ℤ) + 1) p.strategyState with e | md
        · exact .inr ⟨e, _, rfl, by rw [if_pos hwr]; exact hlog⟩
        · dsimp only
          rw [hst] at hmd ⊢
          obtain ⟨m1, m2, m3, m4⟩ := sampled_metadata hs hmd
          have hname : ∀ path, artifactPath host (sampledState host a x ((k : ℤ) + 1)) md (out.now w.disk.clock) = .ok path →
              Named host (sampledState host a x ((k : ℤ) + 1)) a.random.seed ((k : ℤ) + 1, .checkpoint) path := by
            intro path hp
            refine ⟨out.now w.disk.clock, ?_⟩
            unfold artifactPath at hp
            rw [m1, m2, m3] at hp
            simp at hp
            exact hp.symm
          rcases writeArtifact_cases host out (sampledState host a x ((k : ℤ) + 1)) md w with
            ⟨path, md', d, hp, hr, hw, hdesc, hs1, hs2, hsame⟩ | ⟨e, d, hw, hd⟩
          · rw [hw]
            obtain ⟨k1, k2⟩ := hlog.keep hnew (hname path hp) hsame
            refine .inl ⟨_, _, rfl, ?_, ?_, ?_, ?_⟩
            · dsimp only; rw [hcast, ← t1, hst]
            · rw [hcast]; exact t2
            · rw [hcast]; exact t3
            · rw [if_pos hwr, hdue]
              refine ⟨List.rel_append hlog.truthful (.cons ⟨hname path hp, rfl, ?_, ⟨_, rfl, hdesc⟩, t3⟩ .nil), ?_, k2⟩
              · obtain ⟨lo, hi, f, l1, l2, l3⟩ := m4 md' _ hr t2
                exact ⟨lo, hi, f, l1, l2, by rw [l3]⟩
              · intro b hb
                rcases List.mem_append.1 hb with hb | hb
                · exact k1 b hb
                · rw [List.mem_singleton] at hb
                  subst hb
                  exact ⟨hs1, hs2⟩
          · rw [hw]
            refine .inr ⟨e, _, rfl, ?_⟩
            rw [if_pos hwr]
            rcases hd with rfl | ⟨path, hp, hsame⟩
            · exact ⟨hlog.truthful, hlog.stored, hlog.others⟩
            · obtain ⟨k1, k2⟩ := hlog.keep hnew (hname path hp) hsame
              exact ⟨hlog.truthful, k1, k2⟩
      · rw [if_neg hwr]
        refine .inl ⟨_, _, rfl, ?_, ?_, ?_, ?_⟩
        · dsimp only; rw [hcast]; exact t1
        · rw [hcast]; exact t2
        · rw [hcast]; exact t3
        · rw [if_neg hwr] at hlog ⊢; exact hlog
    · rw [if_neg hm, List.append_nil] at hdue
      rw [if_neg hm]
      refine .inl ⟨_, _, rfl, ?_, ?_, ?_, ?_⟩
      · dsimp only; rw [hcast]; exact t1
      · rw [hcast]; exact t2
      · rw [hcast]; exact t3
      · rw [hdue]; exact hlog

end CDT
