import Verif.Lemmas.ProgramRun
import Verif.Lemmas.StorageSuccess
import Verif.Props.Metadata
/-
Runs in which nothing goes wrong.
-/
namespace CDT
open Spec

variable {M S P T : Type} (host : Host M S P T) (out : Outside M S) (cfg : SimConfig) (start : M)

theorem writePayload_fates (codec : Codec T) (ft : FloatText) (build : BuildInfo) (dest : Path) (t : T)
    (m : Option Metadata) (d : Disk) : (writePayload codec ft build dest t m d).2.fates = d.fates := by
  obtain ⟨fs', vis, k, -, h⟩ := writePayload_anytime codec ft build dest t m d
  rw [h]

theorem writeArtifact_fates (m : M) (md : Metadata) (w : Machine) :
    (writeArtifact host out m md w).2.disk.fates = w.disk.fates := by
  unfold writeArtifact
  cases artifactPath host m md (out.now w.disk.clock) with
  | error e => rfl
  | ok path =>
    dsimp only
    have := writePayload_fates host.codec host.text host.build path (host.snapshot m) (some md) w.disk
    rcases h : writePayload host.codec host.text host.build path (host.snapshot m) (some md) w.disk with ⟨r, d⟩
    rw [h] at this
    cases r <;> exact this

/-- Limits of the configuration that the record's types need. -/
structure CfgBounds : Prop where
  simplices : 0 ≤ cfg.triangulation.simplices ∧ cfg.triangulation.simplices < 2 ^ 31
  timeslices : 0 ≤ cfg.triangulation.timeslices ∧ cfg.triangulation.timeslices < 2 ^ 31
  threads : 0 < cfg.triangulation.threads ∧ cfg.triangulation.threads < 2 ^ 64
  passes : 1 ≤ cfg.passes ∧ cfg.passes < 2 ^ 31
  checkpoint : 1 ≤ cfg.checkpoint ∧ cfg.checkpoint < 2 ^ 31
  alpha : ∃ a, cfg.alpha = .fin a ∧ 1 / 2 < a
  k : ∃ q, cfg.k = .fin q
  lambda : ∃ q, cfg.lambda = .fin q

theorem reconcile_total {codec : Codec T} {t : T} (m : Metadata) {f : BitVec 64}
    (hf : topologyFingerprint (codec.view t) = .ok f)
    (h1 : (codec.view t).nv < 2 ^ 31) (h2 : codec.edges t < 2 ^ 31) (h3 : codec.facets t < 2 ^ 31)
    (h4 : (codec.view t).nc < 2 ^ 31) : ∃ m', reconcile codec m t = .ok m' := by
  unfold reconcile deriveState narrow32
  rw [if_pos h1, if_pos h2, if_pos h3, if_pos h4, hf]
  exact ⟨_, rfl⟩

theorem timeBounds_int32 {codec : Codec T} {t : T} (h : LabelsFit codec t) :
    IsInt32 (timeBounds (codec.view t)).1 ∧ IsInt32 (timeBounds (codec.view t)).2 ∧
      (timeBounds (codec.view t)).1 ≤ (timeBounds (codec.view t)).2 := by
  have hl := h.1.1
  have hv : ∀ i, IsInt32 ((codec.view t).vinfo i) := by
    intro i
    have := hl ((codec.view t).vinfo i) (by simp [Codec.info])
    exact this
  rcases timeBounds_range (codec.view t) with ⟨-, h1, h2⟩ | ⟨h1, h2⟩
  · rw [h1, h2]; simp [IsInt32]
  · obtain ⟨⟨i, hi⟩, hle⟩ := h1
    obtain ⟨⟨j, hj⟩, hge⟩ := h2
    refine ⟨by rw [← hi]; exact hv i, by rw [← hj]; exact hv j, ?_⟩
    exact hle ⟨j, hj⟩

/-- Writing an artifact of a smooth run succeeds when no file operation fails. -/
theorem writeDue_ok {isDouble isLong : LD → Prop} (hft : FloatTextLawful host.text isDouble isLong)
    (hbuild : BuildLegible host.build) (hb : CfgBounds cfg) (hs : Smooth host isDouble isLong cfg start)
    {rec md : Metadata} (hrec : GoodRecord host cfg rec) {p : ℤ} (hp0 : 0 ≤ p) (hp : p ≤ cfg.passes)
    {kind : ArtifactKind} {st : RunStats} (hcount : st.count < 2 ^ 64)
    (hmd : Sampler.metadata host rec (stateAfter host cfg start p) kind p st = .ok md) {w : Machine}
    (hw : NoFaults w.disk.fates) :
    ∃ w', writeArtifact host out (stateAfter host cfg start p) md w = (.ok (), w') := by
  obtain ⟨h1, h2, h3, h4⟩ := hrec _ _ _ _ _ hmd
  have hst := hs.states p hp0 hp
  obtain ⟨f, hf⟩ := hst.fingerprint
  obtain ⟨c1, c2, c3, c4⟩ := hst.counts
  obtain ⟨md', hr⟩ := reconcile_total md hf c1 c2 c3 c4
  obtain ⟨f', hf', hmd'⟩ := h4 md' hr
  obtain ⟨t1, t2, t3⟩ := timeBounds_int32 hst.labels
  obtain ⟨a, ha, ha'⟩ := hb.alpha
  obtain ⟨q1, hq1⟩ := hb.k
  obtain ⟨q2, hq2⟩ := hb.lambda
  have b1 := hb.simplices; have b2 := hb.timeslices; have b3 := hb.threads
  have b4 := hb.passes; have b5 := hb.checkpoint
  have hread : readMetadata host.text (metadataText host.text host.build md'
      (payloadIntegrity (payloadText host.codec (host.snapshot (stateAfter host cfg start p))))) =
      .ok (recordedValues md' (payloadIntegrity (payloadText host.codec (host.snapshot (stateAfter host cfg start p))))) := by
    refine Props.C53_round_trip hft hbuild ?_ ?_ ?_
    · rw [hmd']
      refine ⟨hst.radius.1, hst.spacing.1, ?_, ?_, ?_⟩
      · rintro x ⟨rfl⟩; exact hs.couplings.1
      · rintro x ⟨rfl⟩; exact hs.couplings.2.1
      · rintro x ⟨rfl⟩; exact hs.couplings.2.2
    · rw [hmd']
      constructor
      · exact Nat.mod_lt _ (by norm_num)
      · exact BitVec.isLt _
      · exact BitVec.isLt _
      · simp only [IsU64]; omega
      · simp only [List.mem_cons, List.not_mem_nil, or_false, forall_eq_or_imp, forall_eq, hst.dimension]
        simp only [IsInt32] at t1 t2 ⊢
        omega
      · simp only [List.mem_cons, List.not_mem_nil, or_false, forall_eq_or_imp, forall_eq, Option.mem_def,
          Option.some.injEq, forall_eq', IsInt32]
        refine ⟨by omega, by simp, by omega, by omega⟩
      · simp only [List.mem_cons, List.not_mem_nil, or_false, forall_eq_or_imp, forall_eq, Option.mem_def,
          Option.some.injEq, forall_eq', IsU64]
        exact ⟨b3.2, BitVec.isLt _, hcount, BitVec.isLt _, BitVec.isLt _⟩
    · rw [hmd']
      constructor
      · dsimp only; rw [hst.dimension]; norm_num
      · dsimp only; omega
      · exact t3
      · exact ⟨_, rfl, hst.radius.2⟩
      · exact ⟨_, rfl, hst.spacing.2⟩
      · exact .inr ⟨a, q1, q2, by rw [ha], by rw [hq1], by rw [hq2], ha'⟩
      · exact .inr ⟨_, _, rfl, rfl, by omega, by omega⟩
      · simp
      · simp
      · rintro n ⟨rfl⟩; exact hp0
      · rintro n ⟨rfl⟩; exact b3.1
      · simp
      · simp
  have hpath : ∃ path, artifactPath host (stateAfter host cfg start p) md (out.now w.disk.clock) = .ok path := by
    unfold artifactPath
    rw [h3]
    split <;> exact ⟨_, rfl⟩
  obtain ⟨path, hpath⟩ := hpath
  obtain ⟨d', hd'⟩ := writePayload_manifest_ok (dest := path) hst.faithful hst.labels hr hread hw
  unfold writeArtifact
  rw [hpath]
  dsimp only
  rw [hd']
  exact ⟨_, rfl⟩

theorem transitionsAfter_mono {p q : ℤ} (h : p ≤ q) :
    transitionsAfter host cfg start p ≤ transitionsAfter host cfg start q := by
  unfold transitionsAfter
  have key : ∀ a b : ℕ, passStart (engineOf host cfg) (origin host cfg start) a ≤
      passStart (engineOf host cfg) (origin host cfg start) (a + b) := by
    intro a b
    induction b with
    | zero => exact le_refl _
    | succ b ih => exact ih.trans (Nat.le_add_right _ _)
  have := key p.toNat (q.toNat - p.toNat)
  rwa [Nat.add_sub_of_le (Int.toNat_le_toNat h)] at this

/-- A pass of a smooth run does not throw. -/
theorem pass_smooth {isDouble isLong : LD → Prop} (hs : Smooth host isDouble isLong cfg start) {d0 : Disk} {k : ℕ}
    (hk : (k : ℤ) + 1 ≤ cfg.passes) {v : RunVars M RunStats} {g : Random S} {w : Machine}
    (h : Between host cfg start d0 k v (g, w)) {e : Exc} {w' : Random S × Machine} :
    metroPass (engineOf host cfg) v.current v.state ((engineOf host cfg).n3 v.current) (g, w) ≠ (.error e, w') := by
  obtain ⟨h1, -, -, -⟩ := h
  dsimp only at h1
  have hn : transitionsAfter host cfg start ((k : ℤ) + 1) = transitionsAfter host cfg start k +
      ((engineOf host cfg).n3 v.current).toNat := by
    unfold transitionsAfter at *
    rw [show ((k : ℤ) + 1).toNat = k + 1 by omega, passStart]
    rw [show ((k : ℤ)).toNat = k by omega] at *
    rw [← h1]
  have hle := transitionsAfter_mono host cfg start hk
  obtain ⟨v', hv, -⟩ := Props.passLoop_total (engineOf host cfg) ((engineOf host cfg).n3 v.current).toNat
    ⟨v.current, {}, v.state, g⟩ (by
      intro j hj x hx
      dsimp only at hx
      rw [h1, ← Props.trajectory_add] at hx
      obtain ⟨r, hr⟩ := hs.transitions (transitionsAfter host cfg start k + j) (by omega)
      rw [← hx] at hr
      have := sample_result (engineOf host cfg) x ⟨x.current, {}, {}, x.gen⟩ rfl rfl
      rw [hr] at this
      rcases hx' : sampleTransition (engineOf host cfg) x with ⟨r', x'⟩
      rw [hx'] at this
      dsimp only at this
      subst this
      exact ⟨_, _, rfl⟩)
  unfold metroPass
  simp only [hv]
  intro h
  cases h

theorem passRun_fates {rec : Metadata} {k : ℤ} {v : RunVars M RunStats} {w : Random S × Machine} :
    (runPass (metroOps (engineOf host cfg) (Sampler.output host out rec)) ⟨cfg.passes, cfg.checkpoint⟩
      cfg.writeFiles k v w).2.2.disk.fates = w.2.disk.fates := by
  obtain ⟨g, w⟩ := w
  unfold runPass metroOps metroPass
  dsimp only
  rcases passLoop (engineOf host cfg) _ _ with ⟨r, v'⟩
  cases r with
  | error e => rfl
  | ok u =>
    dsimp only
    split
    · simp only [Sampler.output]
      split
      · rcases hmd : Sampler.metadata host rec v'.current .checkpoint k v'.stats with e | md
        · rfl
        · have := writeArtifact_fates host out v'.current md w
          rcases hw : writeArtifact host out v'.current md w with ⟨r, w1⟩
          rw [hw] at this
          cases r <;> simp only [hw] <;> exact this
      · rfl
    · rfl

theorem metadata_smooth {isDouble isLong : LD → Prop} (hs : Smooth host isDouble isLong cfg start) (rec : Metadata)
    {p : ℤ} (hp0 : 0 ≤ p) (hp : p ≤ cfg.passes) (kind : ArtifactKind) (st : RunStats) :
    ∃ md, Sampler.metadata host rec (stateAfter host cfg start p) kind p st = .ok md := by
  obtain ⟨f, hf⟩ := (hs.states p hp0 hp).fingerprint
  unfold Sampler.metadata updateState
  simp only [hf]
  exact ⟨_, rfl⟩

theorem describes_count {st : RunStats} {p : ℤ} (h : DescribesStats st (history (engineOf host cfg)
      (transitionsAfter host cfg start p) (origin host cfg start)))
    (hl : (history (engineOf host cfg) (transitionsAfter host cfg start p) (origin host cfg start)).length =
      transitionsAfter host cfg start p) : st.count = transitionsAfter host cfg start p := by
  rw [h.count, hl]

/-- A smooth run on a file system that works succeeds. -/
theorem cdtRun_succeeds {isDouble isLong : LD → Prop} (hft : FloatTextLawful host.text isDouble isLong)
    (hbuild : BuildLegible host.build) (hb : CfgBounds cfg) (hs : Smooth host isDouble isLong cfg start)
    {root : Random S} (hroot : root = Random.make host.pcg cfg.triangulation.seed 0)
    (hN : cfg.triangulation.simplices ≠ 0) (hT : cfg.triangulation.timeslices ≠ 0)
    (hstart : out.construct cfg.triangulation.simplices cfg.triangulation.timeslices
      (Random.make host.pcg cfg.triangulation.seed 0) cfg.triangulation.initialRadius
      cfg.triangulation.foliationSpacing = .ok start) {d0 : Disk} (hd0 : NoFaults d0.fates) :
    ∃ w, cdtRun host out root cfg ⟨d0, []⟩ = (.ok (), w) := by
  have hc : 1 ≤ cfg.checkpoint := hb.checkpoint.1
  have hP : 1 ≤ cfg.passes := hb.passes.1
  have h0 : LogOk host cfg start d0 [] ⟨d0, []⟩ := ⟨.nil, by simp, fun _ _ => rfl⟩
  have hsampler : ∃ sampler, cdtSampler host root cfg start = .ok sampler := by
    obtain ⟨f, hf⟩ := (hs.states 0 (le_refl _) (by omega)).fingerprint
    have hf : topologyFingerprint (host.codec.view (host.snapshot start)) = .ok f := hf
    obtain ⟨a, ha, ha'⟩ := hb.alpha
    obtain ⟨q1, hq1⟩ := hb.k
    obtain ⟨q2, hq2⟩ := hb.lambda
    have e1 : makePhysicalParameters cfg.alpha cfg.k cfg.lambda = .ok ⟨cfg.alpha, cfg.k, cfg.lambda⟩ := by
      rw [ha, hq1, hq2]
      unfold makePhysicalParameters
      have h1 : (LD.fin a).le (.fin (1 / 2)) = false := by simpa [LD.le] using ha'
      simp only [LD.isFinite, Bool.not_true, Bool.or_self, Bool.false_eq_true, if_false, h1]
    have e2 : parseMoveRunCadence cfg.passes cfg.checkpoint = .ok ⟨cfg.passes, cfg.checkpoint⟩ := by
      unfold parseMoveRunCadence Cadence.parse
      rw [if_neg (by omega), if_neg (by omega)]
    unfold cdtSampler makeMetadata Sampler.make
    simp only [hf, e1, e2]
    exact ⟨_, rfl⟩
  obtain ⟨sampler, hsm⟩ := hsampler
  unfold cdtRun
  rw [show root.split host.pcg initializationStream = Random.make host.pcg cfg.triangulation.seed 0 by rw [hroot]; rfl]
  simp only [hstart, hsm]
  obtain ⟨s1, s2, hrec⟩ := cdtSampler_ok host (by rw [hroot]; rfl) hN hT hsm
  have hrec : GoodRecord host cfg sampler.reproducibility := hrec
  have hbt : Between host cfg start d0 0 ⟨start, {}, { geometry := (engineOf host cfg).geometry start }, 0⟩
      ((Random.make host.pcg cfg.triangulation.seed 1 : Random S), ⟨d0, []⟩) := by
    refine ⟨rfl, describesStats_nil _, rfl, ?_⟩
    unfold dueUpTo; rw [schedule_zero]; simpa using h0
  have hPz : ((cfg.passes.toNat : ℕ) : ℤ) = cfg.passes := Int.toNat_of_nonneg (by omega)
  have hrun := runLoop_cases (metroOps (engineOf host cfg) (Sampler.output host out sampler.reproducibility))
    ⟨cfg.passes, cfg.checkpoint⟩ cfg.writeFiles
    (fun k v w => Between host cfg start d0 k v w ∧ w.2.disk.fates = d0.fates)
    (fun k _ => cfg.passes ≤ (k : ℤ))
    (fun k v w v' w' hi hr => by
      have hfa := passRun_fates host out cfg (rec := sampler.reproducibility) (k := (k : ℤ) + 1) (v := v) (w := w)
      rw [hr] at hfa
      refine ⟨?_, hfa.trans hi.2⟩
      rcases pass_step host out cfg start hrec hc d0 k v w hi.1 with ⟨v1, w1, h1, h2⟩ | ⟨e1, w1, h1, h2⟩
      · rw [hr] at h1; cases h1; exact h2
      · rw [hr] at h1; cases h1)
    (fun k v w e w' hi hr => by
      by_contra hlt
      have hk : (k : ℤ) + 1 ≤ cfg.passes := by omega
      obtain ⟨g, w⟩ := w
      obtain ⟨hi, hfa⟩ := hi
      rcases pass_between host cfg start hi with ⟨e', g', hp⟩ | ⟨p, g', hp, t1, t2, t3⟩
      · exact pass_smooth host cfg start hs hk hi hp
      · unfold runPass at hr
        simp only [hp] at hr
        split at hr
        · simp only [Sampler.output] at hr
          split at hr
          · have hst : p.manifold = stateAfter host cfg start ((k : ℤ) + 1) := congrArg Prod.fst t1
            rw [hst] at hr
            obtain ⟨md, hmd⟩ := metadata_smooth host cfg start hs sampler.reproducibility (p := (k : ℤ) + 1) (by omega) hk .checkpoint p.strategyState
            have hct := describes_count host cfg start t2 t3
            have hle := transitionsAfter_mono host cfg start hk
            have hfew := hs.few
            obtain ⟨w1, hw1⟩ := writeDue_ok host out cfg start hft hbuild hb hs hrec (p := (k : ℤ) + 1) (by omega) hk (by omega) hmd
              (w := w) (by dsimp only at hfa; rw [hfa]; exact hd0)
            rw [hmd] at hr
            simp only [hw1] at hr
            cases hr
          · cases hr
        · cases hr)
    cfg.passes.toNat 0 _ _ ⟨hbt, rfl⟩
  have hsr := sampler_run host out sampler start ⟨d0, []⟩
  rw [s1, s2] at hsr
  rcases hrun with ⟨v', ⟨g', w'⟩, hr, hv, hfa⟩ | ⟨e, ⟨g', w'⟩, j, hr, hj, hl⟩
  · rw [Nat.zero_add] at hv
    obtain ⟨t1, t2, t3, hl⟩ := hv
    rw [hPz] at t1 t2 t3
    have hcur : v'.current = stateAfter host cfg start cfg.passes := congrArg Prod.fst t1
    rw [show runLoop (metroOps (host.engine ⟨cfg.alpha, cfg.k, cfg.lambda⟩) (Sampler.output host out sampler.reproducibility)) ⟨cfg.passes, cfg.checkpoint⟩ cfg.writeFiles cfg.passes.toNat 0 ⟨start, {}, { geometry := (host.engine ⟨cfg.alpha, cfg.k, cfg.lambda⟩).geometry start }, 0⟩ (Random.make host.pcg cfg.triangulation.seed 1, ⟨d0, []⟩) = _ from hr] at hsr
    rw [hsr]
    dsimp only
    rw [hcur]
    simp only [hs.valid, Bool.not_true, Bool.false_eq_true, if_false]
    split
    · obtain ⟨md, hmd⟩ := metadata_smooth host cfg start hs sampler.reproducibility (p := cfg.passes) (by omega) (le_refl _) .finalTriangulation v'.state
      have hct := describes_count host cfg start t2 t3
      have hfew := hs.few
      rw [hmd]
      exact writeDue_ok host out cfg start hft hbuild hb hs hrec (by omega) (le_refl _) (by omega) hmd
        (by dsimp only at hfa; rw [hfa]; exact hd0)
    · exact ⟨_, rfl⟩
  · omega

end CDT
