import Verif.Lemmas.AlwaysProgram
import Verif.Lemmas.ProgramLive
import Verif.Props.Program
/-
Writes of snapshots, and runs of `MoveAlways_3`, in which nothing goes wrong.
-/
namespace CDT
open Spec

variable {M S P T : Type} (host : Host M S P T) (out : Outside M S)

/-- A write succeeds when what it is to write is valid, typed and legible, and no file operation
fails. -/
theorem writeArtifact_ok {isDouble isLong : LD → Prop} (hft : FloatTextLawful host.text isDouble isLong)
    (hbuild : BuildLegible host.build) {m : M} {md : Metadata} (hst : Storable host isDouble m)
    (hpath : ∀ now, ∃ path, artifactPath host m md now = .ok path)
    (hmd : ∀ md', reconcile host.codec md (host.snapshot m) = .ok md' →
      MetadataFloats isDouble isLong md' ∧
      MetadataTyped md' (payloadIntegrity (payloadText host.codec (host.snapshot m))) ∧ MetadataValid md')
    {w : Machine} (hw : NoFaults w.disk.fates) :
    ∃ w', writeArtifact host out m md w = (.ok (), w') := by
  obtain ⟨f, hf⟩ := hst.fingerprint
  obtain ⟨c1, c2, c3, c4⟩ := hst.counts
  obtain ⟨md', hr⟩ := reconcile_total md hf c1 c2 c3 c4
  obtain ⟨k1, k2, k3⟩ := hmd md' hr
  obtain ⟨path, hp⟩ := hpath (out.now w.disk.clock)
  obtain ⟨d', hd'⟩ := writePayload_manifest_ok (dest := path) hst.faithful hst.labels hr
    (Props.C53_round_trip hft hbuild k1 k2 k3) hw
  unfold writeArtifact
  rw [hp]
  dsimp only
  rw [hd']
  exact ⟨_, rfl⟩

/-- The counts the manifest of a snapshot has room for. -/
structure Countable (host : Host M S P T) (m : M) : Prop where
  simplices : 0 ≤ (host.summary m).N3 ∧ (host.summary m).N3 < 2 ^ 31
  timeslices : 0 ≤ (host.summary m).maxTime ∧ (host.summary m).maxTime < 2 ^ 31

theorem makeMetadata_total {isDouble : LD → Prop} {m : M} (hst : Storable host isDouble m) (seed : BitVec 64)
    (kind : ArtifactKind) : ∃ md, makeMetadata host m seed kind = .ok md := by
  obtain ⟨f, hf⟩ := hst.fingerprint
  unfold makeMetadata
  simp only [hf]
  exact ⟨_, rfl⟩

/-- The checkpoint write of the unconditional strategy. -/
theorem writeUniversePass_ok {isDouble isLong : LD → Prop} (hft : FloatTextLawful host.text isDouble isLong)
    (hbuild : BuildLegible host.build) {m : M} (hst : Storable host isDouble m) (hc : Countable host m)
    (seed : BitVec 64) {p : ℤ} (hp0 : 0 ≤ p) (hp : p < 2 ^ 31) {w : Machine} (hw : NoFaults w.disk.fates) :
    ∃ w', writeUniversePass host out m seed p w = (.ok (), w') := by
  rw [writeUniversePass_eq]
  obtain ⟨md, hmd⟩ := makeMetadata_total host hst seed .checkpoint
  rw [hmd]
  obtain ⟨h1, h2, h3⟩ := makeMetadata_ok host hmd
  obtain ⟨t1, t2, t3⟩ := timeBounds_int32 hst.labels
  obtain ⟨c1, c2, c3, c4⟩ := hst.counts
  obtain ⟨s1, s2⟩ := hc.simplices
  obtain ⟨s3, s4⟩ := hc.timeslices
  refine writeArtifact_ok host out hft hbuild hst (fun now => ?_) (fun md' hr => ?_) hw
  · unfold artifactPath
    rw [h1]
    exact ⟨_, rfl⟩
  · obtain ⟨f', hf', rfl⟩ := h3 _ md' hr
    refine ⟨⟨hst.radius.1, hst.spacing.1, ?_, ?_, ?_⟩, ?_, ?_⟩
    · rintro x ⟨⟩
    · rintro x ⟨⟩
    · rintro x ⟨⟩
    · constructor
      · exact Nat.mod_lt _ (by norm_num)
      · exact BitVec.isLt _
      · exact BitVec.isLt _
      · simp only [IsU64, snapshotRecord]; omega
      · simp only [snapshotRecord, List.mem_cons, List.not_mem_nil, or_false, forall_eq_or_imp, forall_eq, hst.dimension]
        simp only [IsInt32] at t1 t2 ⊢
        omega
      · simp only [snapshotRecord, List.mem_cons, List.not_mem_nil, or_false, forall_eq_or_imp, forall_eq, Option.mem_def,
          Option.some.injEq, forall_eq', IsInt32]
        refine ⟨by simp, by simp, by simp, by omega⟩
      · simp only [snapshotRecord, List.mem_cons, List.not_mem_nil, or_false, forall_eq_or_imp, forall_eq, Option.mem_def,
          Option.some.injEq, forall_eq', IsU64]
        exact ⟨by simp, by simp, by simp, BitVec.isLt _, BitVec.isLt _⟩
    · constructor
      · show 0 < host.codec.dimension _; rw [hst.dimension]; norm_num
      · simp only [snapshotRecord]; omega
      · exact t3
      · exact ⟨_, rfl, hst.radius.2⟩
      · exact ⟨_, rfl, hst.spacing.2⟩
      · exact .inl ⟨rfl, rfl, rfl⟩
      · exact .inl ⟨rfl, rfl⟩
      · rintro n ⟨⟩
      · simp [snapshotRecord]
      · rintro n ⟨rfl⟩; exact hp0
      · rintro n ⟨⟩
      · simp [snapshotRecord]
      · simp [snapshotRecord]

theorem writeUniversePass_fates (m : M) (seed : BitVec 64) (p : ℤ) (w : Machine) :
    (writeUniversePass host out m seed p w).2.disk.fates = w.disk.fates := by
  rw [writeUniversePass_eq]
  cases makeMetadata host m seed .checkpoint with
  | error e => rfl
  | ok md => exact writeArtifact_fates host out m _ w

/-- The artifact of `initialize`. -/
theorem writeInitial_ok {isDouble isLong : LD → Prop} (hft : FloatTextLawful host.text isDouble isLong)
    (hbuild : BuildLegible host.build) {m : M} (hst : Storable host isDouble m) {tc : TriConfig}
    (h1 : 0 ≤ tc.simplices ∧ tc.simplices < 2 ^ 31) (h2 : 0 ≤ tc.timeslices ∧ tc.timeslices < 2 ^ 31)
    (h3 : 0 < tc.threads ∧ tc.threads < 2 ^ 64) {md : Metadata}
    (hmd : makeMetadata host m tc.seed .initialTriangulation = .ok md) {w : Machine} (hw : NoFaults w.disk.fates) :
    ∃ w', writeArtifact host out m { md with
      desiredSimplices := tc.simplices, desiredTimeslices := tc.timeslices, maxThreads := some tc.threads } w = (.ok (), w') := by
  obtain ⟨k1, k2, k3⟩ := Props.initial_record (host := host) hmd
  obtain ⟨t1, t2, t3⟩ := timeBounds_int32 hst.labels
  obtain ⟨c1, c2, c3, c4⟩ := hst.counts
  refine writeArtifact_ok host out hft hbuild hst (fun now => ?_) (fun md' hr => ?_) hw
  · unfold artifactPath
    rw [k1]
    exact ⟨_, rfl⟩
  · obtain ⟨f', hf', rfl⟩ := k3 md' hr
    refine ⟨⟨hst.radius.1, hst.spacing.1, ?_, ?_, ?_⟩, ?_, ?_⟩
    · rintro x ⟨⟩
    · rintro x ⟨⟩
    · rintro x ⟨⟩
    · constructor
      · exact Nat.mod_lt _ (by norm_num)
      · exact BitVec.isLt _
      · exact BitVec.isLt _
      · simp only [IsU64, initialTruth]; omega
      · simp only [initialTruth, List.mem_cons, List.not_mem_nil, or_false, forall_eq_or_imp, forall_eq, hst.dimension]
        simp only [IsInt32] at t1 t2 ⊢
        omega
      · simp only [initialTruth, List.mem_cons, List.not_mem_nil, or_false, forall_eq_or_imp, forall_eq, Option.mem_def,
          Option.some.injEq, forall_eq', IsInt32]
        refine ⟨by simp, by simp, by simp, by simp⟩
      · simp only [initialTruth, List.mem_cons, List.not_mem_nil, or_false, forall_eq_or_imp, forall_eq, Option.mem_def,
          Option.some.injEq, forall_eq', IsU64]
        exact ⟨h3.2, by simp, by simp, BitVec.isLt _, BitVec.isLt _⟩
    · constructor
      · show 0 < host.codec.dimension _; rw [hst.dimension]; norm_num
      · simp only [initialTruth]; omega
      · exact t3
      · exact ⟨_, rfl, hst.radius.2⟩
      · exact ⟨_, rfl, hst.spacing.2⟩
      · exact .inl ⟨rfl, rfl, rfl⟩
      · exact .inl ⟨rfl, rfl⟩
      · rintro n ⟨⟩
      · simp [initialTruth]
      · rintro n ⟨⟩
      · rintro n ⟨rfl⟩; exact h3.1
      · simp [initialTruth]
      · simp [initialTruth]

/-- A run of the unconditional strategy in which no pass throws, every checkpointed state can be
stored and no file operation fails returns. -/
theorem mover_returns {isDouble isLong : LD → Prop} (hft : FloatTextLawful host.text isDouble isLong)
    (hbuild : BuildLegible host.build) {moves : CommandEngine M (Random S)} {n3 : M → ℤ}
    {draw : Random S → Fin 5 × Random S} (hk : KeepsSeed moves draw) (s : AlwaysStrategy (Random S))
    (hc : 1 ≤ s.cadence.checkpoint) (hp : s.cadence.passes < 2 ^ 31) (start : M) {disk : Disk}
    (hd : NoFaults disk.fates)
    (hpass : ∀ p < s.cadence.passes.toNat, ∀ w : Machine,
      let x := (alwaysPass (mover host out moves n3 draw))^[p] (start, s.gen)
      ∃ r w', (mover host out moves n3 draw).pass x.1 () (n3 x.1) (x.2, w) = (.ok r, w'))
    (hst : s.writesFiles = true → ∀ p ∈ owed s.cadence s.writesFiles,
      Storable host isDouble (movedAfter (mover host out moves n3 draw) start s.gen p) ∧
      Countable host (movedAfter (mover host out moves n3 draw) start s.gen p)) :
    ∃ m s' w', s.run (mover host out moves n3 draw) start ⟨disk, []⟩ = (.ok m, s', w') := by
  have hstart : MoverBetween host out moves n3 draw s.cadence s.writesFiles start s.gen disk 0 ⟨start, {}, (), 0⟩
      (s.gen, ⟨disk, []⟩) := by
    refine ⟨rfl, rfl, ⟨[], rfl, .nil _⟩, ?_⟩
    rw [schedule_zero, ite_self]
    exact ⟨.nil, by simp, fun _ _ => rfl⟩
  have hz : ((s.cadence.checkpoint.toNat : ℕ) : ℤ) = s.cadence.checkpoint := Int.toNat_of_nonneg (by omega)
  have hfates : ∀ (k : ℕ) (v : RunVars M Unit) (w : Random S × Machine),
      (runPass (alwaysOps (mover host out moves n3 draw)) s.cadence s.writesFiles ((k : ℤ) + 1) v w).2.2.disk.fates =
        w.2.disk.fates := by
    intro k v w
    unfold runPass
    have hw := pass_world (mover host out moves n3 draw) v.current (n3 v.current) w
    rcases hx : (mover host out moves n3 draw).pass v.current () (n3 v.current) w with ⟨r, g', w'⟩
    rw [hx] at hw
    dsimp only at hw
    subst hw
    have hx' : (mover host out moves n3 draw).pass v.current v.state
      ((mover host out moves n3 draw).n3 v.current) w = (r, (g', w.2)) := hx
    simp only [hx']
    cases r with
    | error e => rfl
    | ok p =>
      dsimp only
      split
      · simp only [alwaysOps, mover]
        split
        · have := writeUniversePass_fates host out p.manifold g'.seed ((k : ℤ) + 1) w.2
          rcases hu : writeUniversePass host out p.manifold g'.seed ((k : ℤ) + 1) w.2 with ⟨r, w1⟩
          rw [hu] at this
          cases r <;> simp only [] <;> exact this
        · rfl
      · rfl
  have hloop := runLoop_cases (alwaysOps (mover host out moves n3 draw)) s.cadence s.writesFiles
    (fun k v w => MoverBetween host out moves n3 draw s.cadence s.writesFiles start s.gen disk k v w ∧
      w.2.disk.fates = disk.fates)
    (fun k _ => s.cadence.passes.toNat ≤ k)
    (fun k v w v' w' hi hr => by
      have hf := hfates k v w
      rw [hr] at hf
      refine ⟨?_, hf.trans hi.2⟩
      rcases mover_step hk s.writesFiles hc start s.gen disk k v w hi.1 with ⟨v1, w1, h1, h2⟩ | ⟨e1, w1, h1, h2⟩
      · rw [hr] at h1; cases h1; exact h2
      · rw [hr] at h1; cases h1)
    (fun k v w e w' hi hr => by
      by_contra hlt
      rw [not_le] at hlt
      obtain ⟨hi, hfa⟩ := hi
      obtain ⟨h1, h2, -, -⟩ := hi
      obtain ⟨g, w⟩ := w
      dsimp only at h1 h2 hfa
      obtain ⟨p, ⟨g', w1⟩, hx⟩ := hpass k hlt w
      rw [← h1] at hx
      dsimp only at hx
      obtain ⟨t1, t2⟩ := pass_alwaysPass (eng := mover host out moves n3 draw) hx
      dsimp only at t1 t2
      subst t2
      have t3 : (p.manifold, g') = (alwaysPass (mover host out moves n3 draw))^[k + 1] (start, s.gen) := by
        rw [Function.iterate_succ_apply', ← h1]; exact t1
      unfold runPass at hr
      have hx' : (mover host out moves n3 draw).pass v.current v.state
        ((mover host out moves n3 draw).n3 v.current) (g, w1) = (.ok p, (g', w1)) := hx
      simp only [hx'] at hr
      split at hr
      · rename_i hm
        simp only [alwaysOps, mover] at hr
        split at hr
        · rename_i hwr
          have hown : (k : ℤ) + 1 ∈ owed s.cadence s.writesFiles := by
            unfold owed
            rw [if_pos hwr]
            have h5 := schedule_succ k s.cadence.checkpoint.toNat (by omega)
            rw [hz, if_pos hm] at h5
            have h6 : schedule (k + 1) s.cadence.checkpoint.toNat <+: schedule s.cadence.passes.toNat s.cadence.checkpoint.toNat :=
              schedule_prefix _ (by omega)
            exact h6.subset (by rw [h5]; simp)
          obtain ⟨q1, q2⟩ := hst hwr _ hown
          have hmv : movedAfter (mover host out moves n3 draw) start s.gen ((k : ℤ) + 1) = p.manifold := by
            unfold movedAfter
            rw [show ((k : ℤ) + 1).toNat = k + 1 by omega, ← t3]
          rw [hmv] at q1 q2
          obtain ⟨w2, hw2⟩ := writeUniversePass_ok host out hft hbuild q1 q2 g'.seed (p := (k : ℤ) + 1) (by omega) (by omega)
            (w := w1) (by rw [hfa]; exact hd)
          rw [hw2] at hr
          cases hr
        · cases hr
      · cases hr)
    s.cadence.passes.toNat 0 ⟨start, {}, (), 0⟩ (s.gen, ⟨disk, []⟩) ⟨hstart, rfl⟩
  rcases hloop with ⟨v', w', h1, h2⟩ | ⟨e, w', j, h1, h2, h3⟩
  · refine ⟨v'.current, { s with gen := w'.1, results := v'.totals, checkpointEvents := v'.events }, w'.2, ?_⟩
    unfold AlwaysStrategy.run executeMoveRun
    rw [Nat.cast_zero] at h1
    simp only [h1]
    rfl
  · omega

end CDT
