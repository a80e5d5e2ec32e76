import Verif.Lemmas.SamplerProgram
import Verif.Lemmas.SnapshotLive
import Verif.Spec.Session
/-
Runs of a `Metropolis_3` object in which nothing goes wrong.
-/
namespace CDT
open Spec

variable {M S P T : Type} {host : Host M S P T} {out : Outside M S} {a : SamplerArgs S}

theorem labelRange_int32 {codec : Codec T} {t : T} (h : LabelsFit codec t) {lo hi : ℤ}
    (hr : LabelRange (codec.view t) lo hi) : IsInt32 lo ∧ IsInt32 hi ∧ lo ≤ hi := by
  obtain ⟨rfl, rfl⟩ := Props.labelRange_unique hr (timeBounds_range (codec.view t))
  exact timeBounds_int32 h

/-- The true record can be written and read back. -/
theorem sampledRecord_fits {isDouble isLong : LD → Prop} (ha : AcceptedArgs a)
    (hlong : isLong a.alpha ∧ isLong a.k ∧ isLong a.lambda) (hint : a.passes < 2 ^ 31 ∧ a.checkpoint < 2 ^ 31)
    (hrec : ∀ given, a.reproducibility = some given → RecordFits given) {m : M}
    (hst : Storable host isDouble m) (hc : Countable host m) {kind : ArtifactKind} {p : ℤ} (hp0 : 0 ≤ p) (hp : p ≤ a.passes)
    {reports : List (MoveType × MoveOutcome)} (hcount : reports.length < 2 ^ 64) {lo hi : ℤ} {f : BitVec 64}
    (l1 : LabelRange (host.codec.view (host.snapshot m)) lo hi) :
    MetadataFloats isDouble isLong (sampledRecord host a m kind p reports lo hi f) ∧
    MetadataTyped (sampledRecord host a m kind p reports lo hi f)
      (payloadIntegrity (payloadText host.codec (host.snapshot m))) ∧
    MetadataValid (sampledRecord host a m kind p reports lo hi f) := by
  obtain ⟨c1, c2, c3, c4⟩ := hst.counts
  obtain ⟨α, κ, Λ, e1, e2, e3, hα⟩ := ha.couplings
  have b4 := ha.passes
  have b5 := ha.checkpoint
  have n1 := hc.simplices
  have n2 := hc.timeslices
  obtain ⟨t1, t2, t3⟩ := labelRange_int32 hst.labels l1
  refine ⟨⟨hst.radius.1, hst.spacing.1, ?_, ?_, ?_⟩, ?_, ?_⟩
  · rintro x ⟨rfl⟩; exact hlong.1
  · rintro x ⟨rfl⟩; exact hlong.2.1
  · rintro x ⟨rfl⟩; exact hlong.2.2
  · cases hg : a.reproducibility with
    | none =>
      constructor
      · exact Nat.mod_lt _ (by norm_num)
      · exact BitVec.isLt _
      · exact BitVec.isLt _
      · simp only [IsU64, sampledRecord, hg, Option.map_none, Option.getD_none]
        exact ⟨by omega, BitVec.isLt _⟩
      · simp only [sampledRecord, hg, List.mem_cons, List.not_mem_nil, or_false, forall_eq_or_imp, forall_eq, hst.dimension]
        simp only [IsInt32] at t1 t2 ⊢
        omega
      · simp only [sampledRecord, hg, List.mem_cons, List.not_mem_nil, or_false, forall_eq_or_imp, forall_eq, Option.mem_def,
          Option.some.injEq, forall_eq', IsInt32, Option.bind_none]
        exact ⟨by omega, by simp, by omega, by omega⟩
      · simp only [sampledRecord, hg, List.mem_cons, List.not_mem_nil, or_false, forall_eq_or_imp, forall_eq, Option.mem_def,
          Option.some.injEq, forall_eq', IsU64, Option.bind_none]
        exact ⟨by simp, BitVec.isLt _, hcount, BitVec.isLt _, BitVec.isLt _⟩
    | some given =>
      obtain ⟨r1, r2, r3, r4, r5⟩ := hrec given hg
      constructor
      · exact Nat.mod_lt _ (by norm_num)
      · exact BitVec.isLt _
      · exact BitVec.isLt _
      · simp only [IsU64, sampledRecord, hg, Option.map_some, Option.getD_some]
        exact ⟨r1, BitVec.isLt _⟩
      · simp only [sampledRecord, hg, List.mem_cons, List.not_mem_nil, or_false, forall_eq_or_imp, forall_eq, hst.dimension]
        simp only [IsInt32] at t1 t2 ⊢
        refine ⟨by omega, by split <;> omega, by split <;> omega, by omega, by omega, by omega, by omega, t1, t2⟩
      · simp only [sampledRecord, hg, List.mem_cons, List.not_mem_nil, or_false, forall_eq_or_imp, forall_eq, Option.mem_def,
          Option.some.injEq, forall_eq', IsInt32, Option.bind_some]
        refine ⟨by omega, fun n hn => ?_, by omega, by omega⟩
        have := r4 n hn
        omega
      · simp only [sampledRecord, hg, List.mem_cons, List.not_mem_nil, or_false, forall_eq_or_imp, forall_eq, Option.mem_def,
          Option.some.injEq, forall_eq', IsU64, Option.bind_some]
        exact ⟨fun n hn => (r5 n hn).2, BitVec.isLt _, hcount, BitVec.isLt _, BitVec.isLt _⟩
  · constructor
    · show 0 < host.codec.dimension _; rw [hst.dimension]; norm_num
    · cases hg : a.reproducibility with
      | none => simp only [sampledRecord, hg]; omega
      | some given =>
        obtain ⟨r1, r2, r3, r4, r5⟩ := hrec given hg
        simp only [sampledRecord, hg]
        refine ⟨by split <;> omega, by split <;> omega, by omega, by omega, by omega, by omega⟩
    · exact t3
    · exact ⟨_, rfl, hst.radius.2⟩
    · exact ⟨_, rfl, hst.spacing.2⟩
    · exact .inr ⟨α, κ, Λ, by show some a.alpha = _; rw [e1], by show some a.k = _; rw [e2], by show some a.lambda = _; rw [e3], hα⟩
    · exact .inr ⟨_, _, rfl, rfl, b4, b5⟩
    · cases hg : a.reproducibility with
      | none => simp [sampledRecord, hg]
      | some given =>
        simp only [sampledRecord, hg, Option.bind_some, Option.mem_def]
        exact fun n hn => ((hrec given hg).attempts n hn).1
    · simp [sampledRecord]
    · rintro n ⟨rfl⟩; exact hp0
    · cases hg : a.reproducibility with
      | none => simp [sampledRecord, hg]
      | some given =>
        simp only [sampledRecord, hg, Option.bind_some, Option.mem_def]
        exact fun n hn => ((hrec given hg).threads n hn).1
    · simp [sampledRecord]
    · simp [sampledRecord]

/-- Writing a checkpoint of the object succeeds when no file operation fails. -/
theorem writeSampled_ok {isDouble isLong : LD → Prop} (hft : FloatTextLawful host.text isDouble isLong)
    (hbuild : BuildLegible host.build) {s : Sampler S} (hs : MadeBy a s)
    (hlong : isLong a.alpha ∧ isLong a.k ∧ isLong a.lambda) (hint : a.passes < 2 ^ 31 ∧ a.checkpoint < 2 ^ 31)
    (hrec : ∀ given, a.reproducibility = some given → RecordFits given) {m : M}
    (hst : Storable host isDouble m) (hc : Countable host m) {p : ℤ} (hp0 : 0 ≤ p) (hp : p ≤ a.passes)
    {st : RunStats} {reports : List (MoveType × MoveOutcome)} (hd : DescribesStats st reports)
    (hcount : reports.length < 2 ^ 64) {w : Machine} (hw : NoFaults w.disk.fates) :
    ∃ md w', Sampler.metadata host s.reproducibility m .checkpoint p st = .ok md ∧
      writeArtifact host out m md w = (.ok (), w') := by
  obtain ⟨md, hmd⟩ : ∃ md, Sampler.metadata host s.reproducibility m .checkpoint p st = .ok md := by
    obtain ⟨f, hf⟩ := hst.fingerprint
    unfold Sampler.metadata updateState
    simp only [hf]
    exact ⟨_, rfl⟩
  obtain ⟨h1, h2, h3, h4⟩ := sampled_metadata hs hmd
  obtain ⟨w', hw'⟩ := writeArtifact_ok host out hft hbuild (md := md) hst
    (fun now => by
      unfold artifactPath
      rw [h3]
      split <;> exact ⟨_, rfl⟩)
    (fun md' hr => by
      obtain ⟨lo, hi, f, l1, l2, rfl⟩ := h4 md' reports hr hd
      exact sampledRecord_fits hs.accepted hlong hint hrec hst hc hp0 hp hcount l1)
    hw
  exact ⟨md, w', hmd, hw'⟩

theorem sampledRun_fates {rec : Metadata} {k : ℤ} {v : RunVars M RunStats} {w : Random S × Machine} :
    (runPass (metroOps (argsEngine host a) (Sampler.output host out rec)) ⟨a.passes, a.checkpoint⟩
      a.writeFiles k v w).2.2.disk.fates = w.2.disk.fates := by
  obtain ⟨g, w⟩ := w
  unfold runPass metroOps metroPass
  dsimp only
  rcases passLoop (argsEngine host a) _ _ with ⟨r, v'⟩
  cases r with
  | error e => rfl
  | ok u =>
    dsimp only
    split
    · simp only [Sampler.output]
      split
      · rcases hmd : Sampler.metadata host rec v'.current .checkpoint k v'.stats with e | md
        · rfl
        · have := writeArtifact_fates host out v'.current md w
          rcases hw : writeArtifact host out v'.current md w with ⟨r, w1⟩
          rw [hw] at this
          cases r <;> simp only [hw] <;> exact this
      · rfl
    · rfl

theorem sampledCount_mono {x : M × Random S} {p q : ℤ} (h : p ≤ q) : sampledCount host a x p ≤ sampledCount host a x q := by
  unfold sampledCount
  have key : ∀ b c : ℕ, passStart (argsEngine host a) x b ≤ passStart (argsEngine host a) x (b + c) := by
    intro b c
    induction c with
    | zero => exact le_refl _
    | succ c ih => exact ih.trans (Nat.le_add_right _ _)
  have := key p.toNat (q.toNat - p.toNat)
  rwa [Nat.add_sub_of_le (Int.toNat_le_toNat h)] at this

/-- A pass of a run whose transitions do not throw does not throw. -/
theorem sampled_pass_ok {x : M × Random S} (hs : ∀ j < sampledCount host a x a.passes,
      ∃ r, (sampleTransition (argsEngine host a) ⟨(trajectory (argsEngine host a) j x).1, {}, {},
        (trajectory (argsEngine host a) j x).2⟩).1 = .ok r) {d0 : Disk} {k : ℕ}
    (hk : (k : ℤ) + 1 ≤ a.passes) {v : RunVars M RunStats} {g : Random S} {w : Machine}
    (h : SampledBetween host a x d0 k v (g, w)) {e : Exc} {w' : Random S × Machine} :
    metroPass (argsEngine host a) v.current v.state ((argsEngine host a).n3 v.current) (g, w) ≠ (.error e, w') := by
  obtain ⟨h1, -, -, -⟩ := h
  dsimp only at h1
  have hn : sampledCount host a x ((k : ℤ) + 1) = sampledCount host a x k +
      ((argsEngine host a).n3 v.current).toNat := by
    unfold sampledCount at *
    rw [show ((k : ℤ) + 1).toNat = k + 1 by omega, passStart]
    rw [show ((k : ℤ)).toNat = k by omega] at *
    rw [← h1]
  have hle := sampledCount_mono (host := host) (a := a) (x := x) hk
  obtain ⟨v', hv, -⟩ := Props.passLoop_total (argsEngine host a) ((argsEngine host a).n3 v.current).toNat
    ⟨v.current, {}, v.state, g⟩ (by
      intro j hj y hy
      dsimp only at hy
      rw [h1, ← Props.trajectory_add] at hy
      obtain ⟨r, hr⟩ := hs (sampledCount host a x k + j) (by omega)
      rw [← hy] at hr
      have := sample_result (argsEngine host a) y ⟨y.current, {}, {}, y.gen⟩ rfl rfl
      rw [hr] at this
      rcases hx' : sampleTransition (argsEngine host a) y with ⟨r', x'⟩
      rw [hx'] at this
      dsimp only at this
      subst this
      exact ⟨_, _, rfl⟩)
  unfold metroPass
  simp only [hv]
  intro h
  cases h

/-- A run of the object in which no transition throws, every checkpointed state can be stored and no
file operation fails returns. -/
theorem sampler_returns {isDouble isLong : LD → Prop} (hft : FloatTextLawful host.text isDouble isLong)
    (hbuild : BuildLegible host.build) {s : Sampler S} (hs : MadeBy a s)
    (hlong : isLong a.alpha ∧ isLong a.k ∧ isLong a.lambda) (hint : a.passes < 2 ^ 31 ∧ a.checkpoint < 2 ^ 31)
    (hrec : ∀ given, a.reproducibility = some given → RecordFits given) (start : M)
    (htr : ∀ j < sampledCount host a (start, s.strategy.gen) a.passes,
      ∃ r, (sampleTransition (argsEngine host a) ⟨(trajectory (argsEngine host a) j (start, s.strategy.gen)).1, {}, {},
        (trajectory (argsEngine host a) j (start, s.strategy.gen)).2⟩).1 = .ok r)
    (hfew : sampledCount host a (start, s.strategy.gen) a.passes < 2 ^ 64)
    (hst : ∀ p ∈ owed ⟨a.passes, a.checkpoint⟩ a.writeFiles,
      Storable host isDouble (sampledState host a (start, s.strategy.gen) p) ∧
      Countable host (sampledState host a (start, s.strategy.gen) p))
    {disk : Disk} (hd : NoFaults disk.fates) :
    ∃ m, (s.run host out start ⟨disk, []⟩).1 = .ok m := by
  have hc := hs.accepted.checkpoint
  have hP := hs.accepted.passes
  generalize hx : (start, s.strategy.gen) = x at *
  have hstart : SampledBetween host a x disk 0 ⟨start, {}, { geometry := (argsEngine host a).geometry start }, 0⟩
      (s.strategy.gen, ⟨disk, []⟩) := by
    refine ⟨hx, describesStats_nil _, rfl, ?_⟩
    rw [schedule_zero, ite_self]
    exact ⟨.nil, by simp, fun _ _ => rfl⟩
  have hz : ((a.checkpoint.toNat : ℕ) : ℤ) = a.checkpoint := Int.toNat_of_nonneg (by omega)
  have hloop := runLoop_cases (metroOps (argsEngine host a) (Sampler.output host out s.reproducibility))
    ⟨a.passes, a.checkpoint⟩ a.writeFiles
    (fun k v w => SampledBetween host a x disk k v w ∧ w.2.disk.fates = disk.fates)
    (fun k _ => a.passes ≤ (k : ℤ))
    (fun k v w v' w' hi hr => by
      have hfa := sampledRun_fates (host := host) (out := out) (a := a) (rec := s.reproducibility) (k := (k : ℤ) + 1) (v := v) (w := w)
      rw [hr] at hfa
      refine ⟨?_, hfa.trans hi.2⟩
      rcases sampled_step (out := out) hs x disk k v w hi.1 with ⟨v1, w1, h1, h2⟩ | ⟨e1, w1, h1, h2⟩
      · rw [hr] at h1; cases h1; exact h2
      · rw [hr] at h1; cases h1)
    (fun k v w e w' hi hr => by
      by_contra hlt
      have hk : (k : ℤ) + 1 ≤ a.passes := by omega
      obtain ⟨g, w⟩ := w
      obtain ⟨hi, hfa⟩ := hi
      rcases sampled_pass hi with ⟨e', g', hp⟩ | ⟨p, g', hp, t1, t2, t3⟩
      · exact sampled_pass_ok htr hk hi hp
      · unfold runPass at hr
        simp only [hp] at hr
        split at hr
        · rename_i hm
          simp only [Sampler.output] at hr
          split at hr
          · rename_i hwr
            have hown : (k : ℤ) + 1 ∈ owed ⟨a.passes, a.checkpoint⟩ a.writeFiles := by
              unfold owed
              rw [if_pos hwr]
              have h5 := schedule_succ k a.checkpoint.toNat (by omega)
              rw [hz, if_pos hm] at h5
              have h6 : schedule (k + 1) a.checkpoint.toNat <+: schedule a.passes.toNat a.checkpoint.toNat :=
                schedule_prefix _ (by omega)
              exact h6.subset (by rw [h5]; simp)
            have hst' : p.manifold = sampledState host a x ((k : ℤ) + 1) := congrArg Prod.fst t1
            obtain ⟨q1, q2⟩ := hst _ hown
            rw [← hst'] at q1 q2
            have hle := sampledCount_mono (host := host) (a := a) (x := x) hk
            obtain ⟨md, w1, hmd, hw1⟩ := writeSampled_ok (out := out) hft hbuild hs hlong hint hrec q1 q2
              (p := (k : ℤ) + 1) (by omega) hk t2 (by omega) (w := w) (by dsimp only at hfa; rw [hfa]; exact hd)
            rw [hmd] at hr
            simp only [hw1] at hr
            cases hr
          · cases hr
        · cases hr)
    a.passes.toNat 0 _ _ ⟨hstart, rfl⟩
  have hsr := sampler_run host out s start ⟨disk, []⟩
  rw [hs.parameters, hs.cadence, hs.writes] at hsr
  rcases hloop with ⟨v', w', h1, h2⟩ | ⟨e, w', j, h1, h2, h3⟩
  · rw [Nat.cast_zero] at h1
    simp only [h1] at hsr
    exact ⟨_, congrArg Prod.fst hsr⟩
  · omega

end CDT
