/-
C90: a `Metropolis_3` object used as a library.
-/
import Verif.Lemmas.SamplerProgram
import Verif.Props.AlwaysProgram

namespace CDT.Props
open CDT Spec

variable {M S P T : Type} {host : Host M S P T} {out out₁ out₂ : Outside M S} {a : SamplerArgs S}

/-- C90: the constructor accepts exactly finite couplings with alpha above one half and a positive
cadence.  Otherwise it throws, `domain_error` if the couplings are finite and alpha is at most one
half, else `invalid_argument`. -/
theorem C90_constructor (a : SamplerArgs S) :
    ((∃ s, Sampler.ofArgs a = .ok s) ↔ AcceptedArgs a) ∧
    ∀ e, Sampler.ofArgs a = .error e → e = .invalidArgument ∨
      (e = .domainError ∧ ∃ α κ Λ : ℚ, a.alpha = .fin α ∧ a.k = .fin κ ∧ a.lambda = .fin Λ ∧ α ≤ 1 / 2) := by
  refine ⟨⟨fun ⟨s, h⟩ => (ofArgs_ok h).1.accepted, fun h => ?_⟩, fun e he => ?_⟩
  · obtain ⟨α, κ, Λ, e1, e2, e3, hα⟩ := h.couplings
    have h1 := (C46_accepted_iff a.alpha a.k a.lambda _).2 ⟨α, κ, Λ, e1, e2, e3, hα, rfl⟩
    have h2 := parseCadence_iff.2 ⟨h.passes, h.checkpoint, rfl⟩
    unfold Sampler.ofArgs Sampler.make
    rw [h1, h2]
    exact ⟨_, rfl⟩
  · unfold Sampler.ofArgs Sampler.make at he
    rcases h1 : makePhysicalParameters a.alpha a.k a.lambda with e1 | p
    · rw [h1] at he
      cases he
      by_cases hf : ∃ α κ Λ : ℚ, a.alpha = .fin α ∧ a.k = .fin κ ∧ a.lambda = .fin Λ
      · refine .inr ?_
        obtain ⟨α, κ, Λ, e1, e2, e3⟩ := hf
        have hα : α ≤ 1 / 2 := by
          by_contra h
          rw [(C46_accepted_iff _ _ _ _).2 ⟨α, κ, Λ, e1, e2, e3, not_le.1 h, rfl⟩] at h1
          cases h1
        have := (C46_domain_error_iff _ _ _).2 ⟨α, κ, Λ, e1, e2, e3, hα⟩
        rw [h1, Except.error.injEq] at this
        exact ⟨this, α, κ, Λ, e1, e2, e3, hα⟩
      · have := (C46_non_finite_first _ _ _).2 hf
        rw [h1, Except.error.injEq] at this
        exact .inl this
    · rw [h1] at he
      rcases h2 : parseMoveRunCadence a.passes a.checkpoint with e2 | c
      · rw [h2] at he
        cases he
        unfold parseMoveRunCadence at h2
        split at h2
        · cases h2
        · cases h2; exact .inl rfl
      · rw [h2] at he
        cases he

/-- C90: a new object has done nothing and holds the given generator; the two convenience
constructors use stream 1 of the given or drawn seed. -/
theorem C90_fresh {s : Sampler S} (h : Sampler.ofArgs a = .ok s) :
    s.strategy.gen = a.random ∧ s.strategy.stats = {} ∧ s.strategy.cmd = {} ∧ s.strategy.checkpointEvents = 0 :=
  let h' := ofArgs_ok h
  ⟨h'.2.1, h'.2.2.2.1, h'.2.2.1, h'.2.2.2.2⟩

theorem C90_convenience (pcg : Pcg S) (alpha k lambda : LD) (passes checkpoint : ℤ) (writes : Bool) (seed : BitVec 64) :
    Sampler.ofSeed pcg alpha k lambda passes checkpoint writes seed =
      Sampler.ofArgs { alpha, k, lambda, passes, checkpoint, writeFiles := writes, random := Random.make pcg seed 1 } ∧
    Sampler.ofEntropy pcg alpha k lambda passes checkpoint writes seed =
      Sampler.ofArgs { alpha, k, lambda, passes, checkpoint, writeFiles := writes, random := Random.make pcg seed 1 } :=
  ⟨rfl, rfl⟩

/-- C90: an object made with `a` and used in any way since is run.  Whatever the file system does,
every checkpoint it has finished writing is one that was due, in order: named for its state, seed and
pass, its payload the state after that many passes from the given universe and the object's
generator, its manifest the true record.  All of them are still on disk when the run ends, and only
files named for this seed were touched.  When the run returns, no checkpoint is missing, it returns
the state after all passes, and the object's counters are those of this run alone. -/
theorem C90_checkpoints_true {s : Sampler S} (hu : UsedFrom host out₁ a s) (start : M) (disk : Disk) :
    let x := (start, s.strategy.gen)
    let r := s.run host out start ⟨disk, []⟩
    let w := r.2.2
    ∃ done, done <+: owed ⟨a.passes, a.checkpoint⟩ a.writeFiles ∧
      List.Forall₂ (SampledAt host a x) done w.log ∧
      (∀ b ∈ w.log, w.disk.fs b.path = b.payload ∧ w.disk.fs (b.path ++ ascii ".meta") = b.manifest) ∧
      (∀ p, ¬ OwnFile a.random.seed p → w.disk.fs p = disk.fs p) ∧
      ∀ m, r.1 = .ok m → done = owed ⟨a.passes, a.checkpoint⟩ a.writeFiles ∧
        m = sampledState host a x a.passes ∧
        (sampledReports host a x a.passes).length = sampledCount host a x a.passes ∧
        DescribesStats r.2.1.strategy.stats (sampledReports host a x a.passes) := by
  intro x r w
  have hs := usedFrom_made hu
  have hc := hs.accepted.checkpoint
  have hP := hs.accepted.passes
  have hPz : ((a.passes.toNat : ℕ) : ℤ) = a.passes := Int.toNat_of_nonneg (by omega)
  have hstart : SampledBetween host a x disk 0 ⟨start, {}, { geometry := (argsEngine host a).geometry start }, 0⟩
      (s.strategy.gen, ⟨disk, []⟩) := by
    refine ⟨rfl, describesStats_nil _, rfl, ?_⟩
    rw [schedule_zero, ite_self]
    exact ⟨.nil, by simp, fun _ _ => rfl⟩
  have hloop := runLoop_cases (metroOps (argsEngine host a) (Sampler.output host out s.reproducibility))
    ⟨a.passes, a.checkpoint⟩ a.writeFiles
    (SampledBetween host a x disk)
    (fun j w => SampledLog host a x disk (if a.writeFiles then schedule j a.checkpoint.toNat else []) w.2)
    (fun k v w v' w' hi hr => by
      rcases sampled_step (out := out) hs x disk k v w hi with ⟨v1, w1, h1, h2⟩ | ⟨e1, w1, h1, h2⟩
      · rw [hr] at h1; cases h1; exact h2
      · rw [hr] at h1; cases h1)
    (fun k v w e w' hi hr => by
      rcases sampled_step (out := out) hs x disk k v w hi with ⟨v1, w1, h1, h2⟩ | ⟨e1, w1, h1, h2⟩
      · rw [hr] at h1; cases h1
      · rw [hr] at h1; cases h1; exact h2)
    a.passes.toNat 0 _ _ hstart
  have hsr := sampler_run host out s start ⟨disk, []⟩
  rw [hs.parameters, hs.cadence, hs.writes] at hsr
  rcases hloop with ⟨v', w', h1, h2⟩ | ⟨e, w', j, h1, h2, h3⟩
  · rw [Nat.cast_zero] at h1
    simp only [h1] at hsr
    rw [Nat.zero_add] at h2
    have hw : w = w'.2 := congrArg (fun x => x.2.2) hsr
    have t1 := h2.state
    have t2 := h2.stats
    have t3 := h2.complete
    rw [hPz] at t1 t2 t3
    rw [hw]
    refine ⟨_, ?_, h2.log.truthful, h2.log.stored, h2.log.others, fun m hm => ⟨rfl, ?_, t3, ?_⟩⟩
    · exact List.prefix_refl _
    · have hm' : r.1 = .ok v'.current := congrArg (fun x => x.1) hsr
      rw [hm] at hm'
      cases hm'
      exact congrArg Prod.fst t1
    · rw [show r.2.1.strategy.stats = v'.state from congrArg (fun x => x.2.1.strategy.stats) hsr]
      exact t2
  · rw [Nat.cast_zero] at h1
    simp only [h1] at hsr
    have hw : w = w'.2 := congrArg (fun x => x.2.2) hsr
    rw [hw]
    refine ⟨_, ?_, h3.truthful, h3.stored, h3.others, fun m hm => ?_⟩
    · unfold owed
      cases a.writeFiles with
      | false => simp
      | true => exact schedule_prefix _ (by dsimp only; omega)
    · have hm' : r.1 = .error e := congrArg (fun x => x.1) hsr
      rw [hm] at hm'
      cases hm'

/-- C90: provenance for the caller's own artifacts.  After a run that returned, the record the object
hands out for the returned manifold, completed by the writer, is the true one. -/
theorem C90_published {s : Sampler S} (hu : UsedFrom host out₁ a s) (start : M) (disk : Disk) {m : M}
    (hm : (s.run host out start ⟨disk, []⟩).1 = .ok m) {kind : ArtifactKind} {md md' : Metadata}
    (hp : Sampler.published host (s.run host out start ⟨disk, []⟩).2.1 m kind a.passes = .ok md)
    (hr : reconcile host.codec md (host.snapshot m) = .ok md') :
    m = sampledState host a (start, s.strategy.gen) a.passes ∧
    ∃ lo hi f, LabelRange (host.codec.view (host.snapshot m)) lo hi ∧
      topologyFingerprint (host.codec.view (host.snapshot m)) = .ok f ∧
      md' = sampledRecord host a m kind a.passes (sampledReports host a (start, s.strategy.gen) a.passes) lo hi f := by
  obtain ⟨_, -, -, -, -, h⟩ := C90_checkpoints_true (out := out) hu start disk
  obtain ⟨-, h1, -, h2⟩ := h m hm
  refine ⟨h1, (sampled_metadata (s := s) (usedFrom_made hu) ?_).2.2.2 md' _ hr h2⟩
  have : (s.run host out start ⟨disk, []⟩).2.1.reproducibility = s.reproducibility := rfl
  unfold Sampler.published at hp
  rw [this] at hp
  exact hp

theorem sampled_same {x : M × Random S} {p : ℤ} {b c : Written}
    (hb : SampledAt host a x p b) (hc : SampledAt host a x p c) : SameButTime b c := by
  obtain ⟨lo, hi, f, h1, h2, h3⟩ := hb.manifest
  obtain ⟨lo', hi', f', k1, k2, k3⟩ := hc.manifest
  obtain ⟨rfl, rfl⟩ := labelRange_unique h1 k1
  rw [h2] at k2
  cases k2
  obtain ⟨n, hn⟩ := hb.name
  obtain ⟨n', hn'⟩ := hc.name
  exact ⟨hb.payload.trans hc.payload.symm, h3.trans k3.symm, nameInfo host (sampledState host a x p), a.random.seed.toNat, n, n',
    .inr ⟨p, hn, hn'⟩⟩

/-- C90: two new objects made with the same arguments, run on the same universe, whatever clock and
files they meet: as far as both have written checkpoints these have the same contents, byte for byte,
and the same names up to the time of writing; if both return, they return the same universe and have
written equally many. -/
theorem C90_replay {s₁ s₂ : Sampler S} (h₁ : Sampler.ofArgs a = .ok s₁) (h₂ : Sampler.ofArgs a = .ok s₂) (start : M)
    (disk₁ disk₂ : Disk) :
    let x := s₁.run host out₁ start ⟨disk₁, []⟩
    let y := s₂.run host out₂ start ⟨disk₂, []⟩
    let n := min x.2.2.log.length y.2.2.log.length
    List.Forall₂ SameButTime (x.2.2.log.take n) (y.2.2.log.take n) ∧
      ∀ m m', x.1 = .ok m → y.1 = .ok m' → m = m' ∧ x.2.2.log.length = y.2.2.log.length := by
  obtain ⟨done, a1, a2, -, -, a3⟩ := C90_checkpoints_true (host := host) (out := out₁) (out₁ := out₁) (.made h₁) start disk₁
  obtain ⟨done', b1, b2, -, -, b3⟩ := C90_checkpoints_true (host := host) (out := out₂) (out₁ := out₂) (.made h₂) start disk₂
  rw [(C90_fresh h₁).1] at a2 a3
  rw [(C90_fresh h₂).1] at b2 b3
  intro x y n
  refine ⟨related_take (R := SampledAt host a (start, a.random)) (R' := SampledAt host a (start, a.random)) (Q := SameButTime)
    (fun q b c hb hc => sampled_same hb hc) a1 b1 a2 b2, fun m m' hm hm' => ?_⟩
  obtain ⟨a4, a5, -⟩ := a3 m hm
  obtain ⟨b4, b5, -⟩ := b3 m' hm'
  exact ⟨by rw [a5, b5], by rw [← a2.length_eq, ← b2.length_eq, a4, b4]⟩

/-! ### Non-vacuity -/

open CDT.Fixture

/-- A caller's record with another seed, stream, couplings and cadence. -/
def callerRecord : Metadata :=
  { sampleMetadata with
    seed := 5, transitionStream := 1, alpha := some (.fin 9), configuredPasses := some 1,
    checkpointInterval := some 1, desiredSimplices := 640, maxThreads := some 2 }

/-- Three passes, a checkpoint after every second, stream 7 of seed 92. -/
def pointArgs : SamplerArgs (BitVec 64 × BitVec 64) where
  alpha := .fin 1
  k := .fin 2
  lambda := .fin 3
  passes := 3
  checkpoint := 2
  random := Random.make toyPcg 92 7
  reproducibility := some callerRecord

/-- A new object. -/
def pointSampler : Sampler (BitVec 64 × BitVec 64) :=
  (Sampler.ofArgs pointArgs).toOption.getD ⟨⟨.fin 0, .fin 0, .fin 0⟩, ⟨⟨1, 1⟩, false, Random.make toyPcg 0 0, {}, {}, 0⟩, callerRecord⟩

theorem pointArgs_ok : Sampler.ofArgs pointArgs = .ok pointSampler := by
  obtain ⟨s, hs⟩ := (C90_constructor pointArgs).1.2
    ⟨⟨1, 2, 3, rfl, rfl, rfl, by norm_num⟩, by decide, by decide⟩
  unfold pointSampler
  rw [hs]
  rfl

/-- The object after one run. -/
def pointReused : Sampler (BitVec 64 × BitVec 64) :=
  (pointSampler.call pointHost (pointOutside 7) (.run [1, 2, 3]) ⟨goodDisk, []⟩).2.1

theorem pointReused_used : UsedFrom pointHost (pointOutside 7) pointArgs pointReused :=
  .called _ _ (.made pointArgs_ok)

example : AcceptedArgs pointArgs := (C90_constructor pointArgs).1.1 ⟨_, pointArgs_ok⟩
example : owed ⟨pointArgs.passes, pointArgs.checkpoint⟩ true = [2] ∧
    (pointSampler.run pointHost (pointOutside 7) [1, 2, 3] ⟨goodDisk, []⟩).2.2.log.length = 1 ∧
    (pointSampler.run pointHost (pointOutside 7) [1, 2, 3] ⟨goodDisk, []⟩).1.isOk = true := by
  refine ⟨?_, ?_, ?_⟩ <;> decide +kernel
example := C90_checkpoints_true (out := pointOutside 7) pointReused_used [1, 2, 3] badDisk
example := C90_replay (host := pointHost) (out₁ := pointOutside 7) (out₂ := pointOutside 8) pointArgs_ok pointArgs_ok [1, 2, 3] goodDisk badDisk
-- the record handed out after the run, completed by the writer
example : (let r := pointSampler.run pointHost (pointOutside 7) [1, 2, 3] ⟨goodDisk, []⟩
    (do
      let m ← r.1
      let md ← Sampler.published pointHost r.2.1 m .finalTriangulation 3
      let md' ← reconcile pointSet md m
      pure (decide (md'.seed = 92 ∧ md'.transitionStream = 7 ∧ md'.desiredSimplices = 640 ∧ md'.alpha = some (.fin 1) ∧
        md'.configuredPasses = some 3 ∧ md'.completedPasses = some 3)) : Except Exc Bool)).toOption = some true := by
  decide +kernel
-- A second run of the same object on the same universe goes on with the generator: its checkpoint
-- names the same seed, stream and pass but is another state.
example : sampledState pointHost pointArgs ([1, 2, 3], pointReused.strategy.gen) 2 ≠
    sampledState pointHost pointArgs ([1, 2, 3], pointSampler.strategy.gen) 2 := by decide +kernel

end CDT.Props
