/-
C97: a `Metropolis_3` object with the modelled components in place.
-/
import Verif.Spec.Session
import Verif.Props.Sampler
import Verif.Lemmas.SamplerLive
import Verif.Props.AlwaysWhole

namespace CDT.Props
open CDT Spec Moves

variable {V S T : Type} [LinearOrder V]

/-- What is asked of the parts that are not modelled, and of the arguments: the generator draws trial
values in [0, 1], the couplings are long doubles. -/
structure OrdinaryArgs (env : Env V (Random S)) (R : Rounding) (drawTrial : Random S → LD × Random S)
    (a : SamplerArgs S) : Prop where
  lawful : env.Lawful
  rounding : R.Lawful
  trial : ∀ g, ∃ u : ℚ, (drawTrial g).1 = .fin u ∧ 0 ≤ u ∧ u ≤ 1
  couplings : ∀ q : ℚ, a.alpha = .fin q ∨ a.k = .fin q ∨ a.lambda = .fin q → InLongDouble q

variable {base : Host (Mfld V) S Mp T} {env : Env V (Random S)} {R : Rounding}
  {drawMove : Random S → Fin 5 × Random S} {drawTrial : Random S → LD × Random S} {value : BitVec 64 → ℚ}
  {snapshot : Tri V → T} {out out₁ : Outside (Mfld V) S} {a : SamplerArgs S} {start : Mfld V} {s : Sampler S}
  {held : List (Mfld V)}

theorem session_used {M P : Type} {host : Host M S P T} {out : Outside M S} {good : M → Prop} {start : M} {held : List M}
    (h : Session host out a good start s held) : UsedFrom host out a s := by
  induction h with
  | made h => exact .made h
  | called c disk _ _ _ ih => exact .called c ⟨disk, []⟩ ih

omit [LinearOrder V] in
theorem args_engine (ho : AcceptedArgs a) : ∃ α κ Λ : ℚ, 1 / 2 < α ∧ a.alpha = .fin α ∧ a.k = .fin κ ∧ a.lambda = .fin Λ := by
  obtain ⟨α, κ, Λ, e1, e2, e3, h⟩ := ho.couplings
  exact ⟨α, κ, Λ, h, e1, e2, e3⟩

/-- The states of a run of the object. -/
theorem sampled_states (ho : OrdinaryArgs env R drawTrial a) (ha : AcceptedArgs a) {m : Mfld V} {gen : Random S}
    (hm : Fit env m)
    (ht : ∀ n, TriesOn (assembled base env R drawMove drawTrial value snapshot) a gen (.run m) n → TameState env n) {p : ℤ}
    (hp : p ≤ a.passes) :
    Next env m (sampledState (assembled base env R drawMove drawTrial value snapshot) a (m, gen) p) := by
  obtain ⟨α, κ, Λ, hα, e1, e2, e3⟩ := args_engine ha
  have heng : argsEngine (assembled base env R drawMove drawTrial value snapshot) a =
      metroEngine env R ⟨.fin α, .fin κ, .fin Λ⟩ drawMove drawTrial := by
    unfold argsEngine
    rw [e1, e2, e3]
    rfl
  exact (trajectory_next ho.lawful ho.rounding hα (ho.couplings α (.inl e1)) (ho.couplings κ (.inr (.inl e2)))
    (ho.couplings Λ (.inr (.inr e3))) ho.trial heng (x := (m, gen)) hm
    (n := sampledCount (assembled base env R drawMove drawTrial value snapshot) a (m, gen) a.passes)
    fun j hj => ht _ ⟨j, hj, rfl⟩).1 _ (passStart_mono _ _ (by omega))

/-- One transition on a manifold in order: it is in order afterwards, and only an illegal trial value
makes the call throw. -/
theorem resolve_in_order (ho : OrdinaryArgs env R drawTrial a) (ha : AcceptedArgs a) {v : MetroVars (Mfld V) (Random S)}
    (hm : Fit env v.current) (ht : TameState env v.current) (code : ℤ) (trial : LD) :
    Next env v.current
      (resolve (argsEngine (assembled base env R drawMove drawTrial value snapshot) a) code trial v).2.current ∧
    ((∃ o, (resolve (argsEngine (assembled base env R drawMove drawTrial value snapshot) a) code trial v).1 = .ok o) ↔
      ∃ u : ℚ, trial = .fin u ∧ 0 ≤ u ∧ u ≤ 1) := by
  obtain ⟨α, κ, Λ, hα, e1, e2, e3⟩ := args_engine ha
  have heng : argsEngine (assembled base env R drawMove drawTrial value snapshot) a =
      metroEngine env R ⟨.fin α, .fin κ, .fin Λ⟩ drawMove drawTrial := by
    unfold argsEngine
    rw [e1, e2, e3]
    rfl
  rw [heng]
  by_cases hu : ∃ u : ℚ, trial = .fin u ∧ 0 ≤ u ∧ u ≤ 1
  · obtain ⟨u, rfl, u0, u1⟩ := hu
    obtain ⟨o, v', hr, hn⟩ := C61_transition_total ho.lawful ho.rounding hα (ho.couplings α (.inl e1))
      (ho.couplings κ (.inr (.inl e2))) (ho.couplings Λ (.inr (.inr e3))) drawMove drawTrial code u0 u1 v hm ht.1 ht.2
    rw [hr]
    exact ⟨hn, ⟨fun _ => ⟨u, rfl, u0, u1⟩, fun _ => ⟨o, rfl⟩⟩⟩
  · have hg : (!trial.isFinite || trial.lt (.fin 0) || (LD.fin 1).lt trial) = true := by
      by_contra hc
      rw [Bool.not_eq_true] at hc
      refine hu ?_
      cases trial with
      | fin q =>
        simp only [LD.isFinite, LD.lt, Bool.not_true, Bool.false_or, Bool.or_eq_false_iff, decide_eq_false_iff_not,
          not_lt] at hc
        exact ⟨q, rfl, hc.1, hc.2⟩
      | _ => simp [LD.isFinite] at hc
    unfold resolve
    rw [if_pos hg]
    exact ⟨.refl hm, ⟨fun ⟨o, h⟩ => (by cases h), fun h => absurd h hu⟩⟩

/-- One call on a manifold in order. -/
theorem call_in_order (ho : OrdinaryArgs env R drawTrial a)
    (hu : UsedFrom (assembled base env R drawMove drawTrial value snapshot) out₁ a s) (c : MetroCall (Mfld V)) (disk : Disk)
    (hm : Fit env (calledOn c))
    (ht : ∀ n, TriesOn (assembled base env R drawMove drawTrial value snapshot) a s.strategy.gen c n → TameState env n) :
    let r := (s.call (assembled base env R drawMove drawTrial value snapshot) out c ⟨disk, []⟩).1
    Next env (calledOn c) r.manifold := by
  have hs := usedFrom_made hu
  intro r
  cases c with
  | attempt m code trial =>
    show Next env m (resolve ((assembled base env R drawMove drawTrial value snapshot).engine s.parameters) code trial _).2.current
    rw [hs.parameters]
    exact (resolve_in_order (v := ⟨m, s.strategy.cmd, s.strategy.stats, s.strategy.gen⟩) ho hs.accepted hm (ht m rfl) code trial).1
  | sample m =>
    show Next env m (sampleTransition ((assembled base env R drawMove drawTrial value snapshot).engine s.parameters) _).2.current
    rw [hs.parameters, sampleTransition_snd]
    exact (resolve_in_order (v := ⟨m, s.strategy.cmd, s.strategy.stats, _⟩) ho hs.accepted hm (ht m rfl) _ _).1
  | «initialize» m => exact .refl hm
  | run m =>
    have e : r.manifold = match (s.run (assembled base env R drawMove drawTrial value snapshot) out m ⟨disk, []⟩).1 with
        | .ok m' => m'
        | .error _ => m := by
      show (Sampler.call _ out s (.run m) ⟨disk, []⟩).1.manifold = _
      unfold Sampler.call Sampler.run MetroStrategy.call
      dsimp only
      generalize MetroStrategy.run _ _ _ _ _ = q
      obtain ⟨r, s', f⟩ := q
      cases r <;> rfl
    rw [e]
    obtain ⟨_, -, -, -, -, h⟩ := C90_checkpoints_true (out := out) hu m disk
    rcases hr : (s.run (assembled base env R drawMove drawTrial value snapshot) out m ⟨disk, []⟩).1 with _ | m'
    · exact .refl hm
    · dsimp only
      rw [(h m' hr).2.1]
      exact sampled_states ho hs.accepted hm ht le_rfl

/-- C97: whatever a program does with a `Metropolis_3` object and the manifolds it gets from it, every
manifold it has is in order: closed, causal, correctly labelled, with the radius, spacing, boundary,
Euler characteristic, slices and topology of the one it began with. -/
theorem C97_in_order (ho : OrdinaryArgs env R drawTrial a) (hs : Fit env start)
    (h : Session (assembled base env R drawMove drawTrial value snapshot) out a (TameState env) start s held) :
    ∀ m ∈ held, Next env start m ∧ SameTopology start.tri m.tri := by
  have key : ∀ m ∈ held, Next env start m := by
    induction h with
    | made _ =>
      intro m hm
      rw [List.mem_singleton] at hm
      subst hm
      exact .refl hs
    | called c disk h hc ht ih =>
      intro m hm
      rcases List.mem_cons.1 hm with rfl | hm
      · exact (ih _ hc).trans (call_in_order ho (session_used h) c disk (ih _ hc).fit ht)
      · exact ih m hm
  exact fun m hm => ⟨key m hm, topology_of_next ho.lawful hs (key m hm)⟩

/-- C97: in a session, a single transition is refused exactly for a trial value outside [0, 1]; a
transition with drawn values and `initialize` always return. -/
theorem C97_transitions_return (ho : OrdinaryArgs env R drawTrial a) (hs : Fit env start)
    (h : Session (assembled base env R drawMove drawTrial value snapshot) out a (TameState env) start s held)
    {m : Mfld V} (hm : m ∈ held) (ht : TameState env m) (disk : Disk) :
    let host := assembled base env R drawMove drawTrial value snapshot
    (∀ code trial, (∃ r, (s.call host out (.attempt m code trial) ⟨disk, []⟩).1.report = .ok r) ↔
      ∃ u : ℚ, trial = .fin u ∧ 0 ≤ u ∧ u ≤ 1) ∧
    (∃ i o, (s.call host out (.sample m) ⟨disk, []⟩).1.report = .ok (some (i, o))) ∧
    (s.call host out (.initialize m) ⟨disk, []⟩).1.report = .ok none := by
  intro host
  have hu := usedFrom_made (session_used h)
  have hf := (C97_in_order ho hs h m hm).1.fit
  refine ⟨fun code trial => ?_, ?_, rfl⟩
  · have := (resolve_in_order (base := base) (drawMove := drawMove) (value := value) (snapshot := snapshot)
      (v := ⟨m, s.strategy.cmd, s.strategy.stats, s.strategy.gen⟩) ho hu.accepted hf ht code trial).2
    rw [← this]
    show (∃ r, ((resolve (host.engine s.parameters) code trial _).1.map _) = .ok r) ↔ _
    rw [hu.parameters]
    generalize (resolve _ code trial _).1 = q
    cases q with
    | error e => simp [Except.map]
    | ok o => simp [Except.map]
  · show ∃ i o, ((sampleTransition (host.engine s.parameters) ⟨m, s.strategy.cmd, s.strategy.stats, s.strategy.gen⟩).1.map _) = _
    rw [hu.parameters]
    unfold sampleTransition
    have hd : (host.engine ⟨a.alpha, a.k, a.lambda⟩).drawTrial = drawTrial := rfl
    rw [hd]
    rcases (host.engine ⟨a.alpha, a.k, a.lambda⟩).drawMove s.strategy.gen with ⟨i, g1⟩
    dsimp only
    obtain ⟨u, hu', u0, u1⟩ := ho.trial g1
    rcases hdt : drawTrial g1 with ⟨u'', g2⟩
    rw [hdt] at hu'
    dsimp only at hu' ⊢
    subst hu'
    obtain ⟨o, h1⟩ := (resolve_in_order (base := base) (drawMove := drawMove) (value := value) (snapshot := snapshot)
      (v := ⟨m, s.strategy.cmd, s.strategy.stats, g2⟩) ho hu.accepted hf ht (i.val : ℤ) (.fin u)).2.2 ⟨u, rfl, u0, u1⟩
    change (resolve (host.engine ⟨a.alpha, a.k, a.lambda⟩) _ _ _).1 = _ at h1
    rcases hq : resolve (host.engine ⟨a.alpha, a.k, a.lambda⟩) (i.val : ℤ) (.fin u) ⟨m, s.strategy.cmd, s.strategy.stats, g2⟩
      with ⟨r, v'⟩
    rw [hq] at h1
    dsimp only at h1
    subst h1
    exact ⟨_, _, rfl⟩

/-- C97: a run in a session, on any manifold at hand, whatever the file system does.  Every checkpoint
it finishes is the state after its pass with the truth about it in its manifest, and that state is in
order and has the topology of the first universe; if the run returns, all checkpoints due were
written and the returned manifold is that of the last pass. -/
theorem C97_every_checkpoint (ho : OrdinaryArgs env R drawTrial a) (hs : Fit env start)
    (h : Session (assembled base env R drawMove drawTrial value snapshot) out₁ a (TameState env) start s held)
    {m : Mfld V} (hm : m ∈ held)
    (ht : ∀ n, TriesOn (assembled base env R drawMove drawTrial value snapshot) a s.strategy.gen (.run m) n → TameState env n)
    (disk : Disk) :
    let host := assembled base env R drawMove drawTrial value snapshot
    let x := (m, s.strategy.gen)
    let r := s.run host out m ⟨disk, []⟩
    ∃ done, done <+: owed ⟨a.passes, a.checkpoint⟩ a.writeFiles ∧
      List.Forall₂ (fun p w => SampledAt host a x p w ∧ Next env start (sampledState host a x p) ∧
        SameTopology start.tri (sampledState host a x p).tri) done r.2.2.log ∧
      ∀ m', r.1 = .ok m' → done = owed ⟨a.passes, a.checkpoint⟩ a.writeFiles ∧ m' = sampledState host a x a.passes ∧
        Next env start m' ∧ SameTopology start.tri m'.tri := by
  intro host x r
  have hu := session_used h
  have hacc := (usedFrom_made hu).accepted
  obtain ⟨hst, -⟩ := C97_in_order ho hs h m hm
  obtain ⟨done, h1, h2, -, -, h3⟩ := C90_checkpoints_true (out := out) hu m disk
  have hn : ∀ p, p ≤ a.passes → Next env start (sampledState host a x p) ∧
      SameTopology start.tri (sampledState host a x p).tri := fun p hp =>
    have := hst.trans (sampled_states ho hacc hst.fit ht hp)
    ⟨this, topology_of_next ho.lawful hs this⟩
  refine ⟨done, h1, ?_, fun m' hm' => ?_⟩
  · have hle : ∀ p ∈ done, p ≤ a.passes := fun p hp =>
      owed_le (c := ⟨a.passes, a.checkpoint⟩) hacc.passes.le (h1.subset hp)
    clear h1 h3
    change List.Forall₂ _ done r.2.2.log at h2
    generalize r.2.2.log = log at h2 ⊢
    induction h2 with
    | nil => exact .nil
    | cons k _ ih =>
      exact .cons ⟨k, hn _ (hle _ (List.mem_cons_self ..))⟩ (ih fun d hd => hle d (List.mem_cons_of_mem _ hd))
  · obtain ⟨k1, k2, -⟩ := h3 m' hm'
    refine ⟨k1, k2, ?_⟩
    rw [k2]
    exact hn _ le_rfl

/-- C97: reading any checkpoint of such a run back, when the run has ended, gives a triangulation whose
tetrahedra are all causal and labelled by their type, with the slices of the first universe. -/
theorem C97_files_causal (ho : OrdinaryArgs env R drawTrial a) (hs : Fit env start)
    (h : Session (assembled base env R drawMove drawTrial value snapshot) out₁ a (TameState env) start s held)
    {m : Mfld V} (hm : m ∈ held)
    (ht : ∀ n, TriesOn (assembled base env R drawMove drawTrial value snapshot) a s.strategy.gen (.run m) n → TameState env n)
    (hf : ∀ p ∈ owed ⟨a.passes, a.checkpoint⟩ a.writeFiles,
      let K := (sampledState (assembled base env R drawMove drawTrial value snapshot) a (m, s.strategy.gen) p).tri
      Faithful base.codec (snapshot K) ∧ LabelsFit base.codec (snapshot K) ∧
        Depicts (base.codec.view (snapshot K)) K) (disk : Disk) :
    let host := assembled base env R drawMove drawTrial value snapshot
    let w := (s.run host out m ⟨disk, []⟩).2.2
    ∀ b ∈ w.log, ∃ t, readFile host.codec host.text b.path w.disk.fs = .ok t ∧ CausalFile (host.codec.view t) ∧
      Set.range (host.codec.view t).vinfo = (slices start.tri.inf start.tri.time start.tri.cells : Set ℤ) := by
  intro host w b hb
  have hu := session_used h
  obtain ⟨done, h1, h2, -⟩ := C97_every_checkpoint (out := out) ho hs h hm ht disk
  obtain ⟨-, -, -, h3, -, -⟩ := C90_checkpoints_true (out := out) hu m disk
  obtain ⟨p, hp, hpa, hn, -⟩ : ∃ p ∈ done, SampledAt host a (m, s.strategy.gen) p b ∧
      Next env start (sampledState host a (m, s.strategy.gen) p) ∧
      SameTopology start.tri (sampledState host a (m, s.strategy.gen) p).tri := by
    obtain ⟨i, hi, rfl⟩ := List.getElem_of_mem hb
    have hl : done.length = w.log.length := h2.length_eq
    have hi' : i < w.log.length := hi
    exact ⟨done[i], List.getElem_mem _, (List.forall₂_iff_get.1 h2).2 i (by omega) hi⟩
  obtain ⟨f1, f2, f3⟩ := hf p (h1.subset hp)
  obtain ⟨e1, e2⟩ := h3 b hb
  obtain ⟨text, ht', hd⟩ := hpa.accepted
  refine ⟨_, readFile_iff.2 ⟨_, e1.trans hpa.payload, parsePayload_write f1 f2, fun Mf hM => ?_⟩,
    causalFile_of f3 hn.fit.sound, ?_⟩
  · have e : w.disk.fs (manifestName b.path) = some Mf := hM
    have := e.symm.trans (e2.trans ht')
    cases this
    exact hd
  · rw [← hn.preserved.slices]
    exact depicted_slices f3

/-- C97: a run in a session succeeds: if every checkpointed state can be stored, what the caller's
record contributes fits a manifest, the last slice of the first universe has a number that fits, and no
file operation fails, the run returns and has written every checkpoint due. -/
theorem C97_succeeds {isDouble isLong : LD → Prop} (hft : FloatTextLawful base.text isDouble isLong)
    (hbuild : BuildLegible base.build) (ho : OrdinaryArgs env R drawTrial a) (hs : Fit env start)
    (h : Session (assembled base env R drawMove drawTrial value snapshot) out₁ a (TameState env) start s held)
    {m : Mfld V} (hm : m ∈ held)
    (ht : ∀ n, TriesOn (assembled base env R drawMove drawTrial value snapshot) a s.strategy.gen (.run m) n → TameState env n)
    (hlong : isLong a.alpha ∧ isLong a.k ∧ isLong a.lambda) (hint : a.passes < 2 ^ 31 ∧ a.checkpoint < 2 ^ 31)
    (hrec : ∀ given, a.reproducibility = some given → RecordFits given)
    (hmax : 0 ≤ start.caches.maxTime ∧ start.caches.maxTime < 2 ^ 31)
    (hst : ∀ p ∈ owed ⟨a.passes, a.checkpoint⟩ a.writeFiles,
      let n := sampledState (assembled base env R drawMove drawTrial value snapshot) a (m, s.strategy.gen) p
      Storable (assembled base env R drawMove drawTrial value snapshot) isDouble n ∧
        Depicts (base.codec.view (snapshot n.tri)) n.tri)
    {disk : Disk} (hd : NoFaults disk.fates) :
    let r := s.run (assembled base env R drawMove drawTrial value snapshot) out m ⟨disk, []⟩
    (∃ m', r.1 = .ok m') ∧ r.2.2.log.length = (owed ⟨a.passes, a.checkpoint⟩ a.writeFiles).length := by
  intro r
  have hu := session_used h
  have hmade := usedFrom_made hu
  have hacc := hmade.accepted
  obtain ⟨hn, -⟩ := C97_in_order ho hs h m hm
  obtain ⟨α, κ, Λ, hα, e1, e2, e3⟩ := args_engine hacc
  have heng : argsEngine (assembled base env R drawMove drawTrial value snapshot) a =
      metroEngine env R ⟨.fin α, .fin κ, .fin Λ⟩ drawMove drawTrial := by
    unfold argsEngine
    rw [e1, e2, e3]
    rfl
  obtain ⟨h1, h2⟩ := trajectory_next ho.lawful ho.rounding hα (ho.couplings α (.inl e1)) (ho.couplings κ (.inr (.inl e2)))
    (ho.couplings Λ (.inr (.inr e3))) ho.trial heng (x := (m, s.strategy.gen)) hn.fit
    (n := sampledCount (assembled base env R drawMove drawTrial value snapshot) a (m, s.strategy.gen) a.passes)
    fun j hj => ht _ ⟨j, hj, rfl⟩
  have hfew : sampledCount (assembled base env R drawMove drawTrial value snapshot) a (m, s.strategy.gen) a.passes < 2 ^ 64 := by
    have key : ∀ p : ℕ, p ≤ a.passes.toNat →
        passStart (argsEngine (assembled base env R drawMove drawTrial value snapshot) a) (m, s.strategy.gen) p ≤ p * 2 ^ 32 := by
      intro p
      induction p with
      | zero => intro _; exact Nat.zero_le _
      | succ p ih =>
        intro hp
        have hle := ih (by omega)
        have hmono := passStart_mono (argsEngine (assembled base env R drawMove drawTrial value snapshot) a) (m, s.strategy.gen)
          (p := p + 1) (q := a.passes.toNat) hp
        have hlt' : ∀ j < sampledCount (assembled base env R drawMove drawTrial value snapshot) a (m, s.strategy.gen) a.passes,
            Roomy (trajectory (argsEngine (assembled base env R drawMove drawTrial value snapshot) a) j
              (m, s.strategy.gen)).1.geometry := fun j hj => (ht _ ⟨j, hj, rfl⟩).2
        unfold sampledCount at h1 hlt'
        clear h2 ht hst
        generalize argsEngine (assembled base env R drawMove drawTrial value snapshot) a = eng at *
        change passStart eng (m, s.strategy.gen) p + _ ≤ _ at hmono ⊢
        generalize hx : trajectory eng (passStart eng (m, s.strategy.gen) p) (m, s.strategy.gen) = x at *
        have hn3 : eng.n3 x.1 = x.1.geometry.N3 := by rw [heng]; rfl
        by_cases h0 : (eng.n3 x.1).toNat = 0
        · rw [h0]; rw [Nat.succ_mul]; exact hle.trans (Nat.le_add_right _ _)
        · have hlt : passStart eng (m, s.strategy.gen) p < passStart eng (m, s.strategy.gen) a.passes.toNat := by omega
          have hfit := (h1 _ hlt.le).fit
          have hroom := hlt' _ hlt
          rw [hx] at hfit hroom
          have := n3_small ho.lawful hfit hroom
          rw [hn3, Nat.succ_mul]; exact Nat.add_le_add hle this
    have h3 := key a.passes.toNat le_rfl
    have h4 := hint.1
    have h5 := hacc.passes
    unfold sampledCount
    omega
  obtain ⟨m', hm'⟩ := sampler_returns (out := out) (host := assembled base env R drawMove drawTrial value snapshot) hft hbuild hmade hlong hint hrec m h2 hfew
    (fun p hp => by
      obtain ⟨q1, q2⟩ := hst p hp
      have hn' := hn.trans (sampled_states ho hacc hn.fit ht (owed_le (c := ⟨a.passes, a.checkpoint⟩) hacc.passes.le hp))
      refine ⟨q1, ?_, ?_⟩
      · show 0 ≤ (Mfld.geometry _).N3 ∧ (Mfld.geometry _).N3 < 2 ^ 31
        rw [depicted_n3 ho.lawful hn'.fit q2]
        have := q1.counts.2.2.2
        change (base.codec.view (snapshot _)).nc < 2 ^ 31 at this
        omega
      · show 0 ≤ (Mfld.caches _).maxTime ∧ (Mfld.caches _).maxTime < 2 ^ 31
        rw [(slices_bounds ho.lawful hs.caches hn'.fit.caches hn'.preserved.slices).1]
        exact hmax) hd
  obtain ⟨done, -, k2, k3⟩ := C97_every_checkpoint (out := out) ho hs h hm ht disk
  refine ⟨⟨m', hm'⟩, ?_⟩
  rw [← (k3 m' hm').1]
  exact k2.length_eq.symm

/-! ### Two runs in one second -/

open CDT.Fixture

/-- A clock that stands still. -/
def sameSecond : Outside (List ℤ) (BitVec 64 × BitVec 64) :=
  { pointOutside 7 with now := fun _ => ⟨2026, 1, 2, 3, 4, 5⟩ }

/-- One pass, one checkpoint. -/
def onePass : SamplerArgs (BitVec 64 × BitVec 64) := { pointArgs with passes := 1, checkpoint := 1 }

def onePassSampler : Sampler (BitVec 64 × BitVec 64) := (Sampler.ofArgs onePass).toOption.getD pointSampler

theorem onePass_ok : Sampler.ofArgs onePass = .ok onePassSampler := by
  obtain ⟨s, hs⟩ := (C90_constructor onePass).1.2
    ⟨⟨1, 2, 3, rfl, rfl, rfl, by norm_num⟩, by decide, by decide⟩
  unfold onePassSampler
  rw [hs]
  rfl

/-- C97: the names of checkpoints tell runs of one object apart only by the second of writing.  An
object run on one universe and then, in the same second, on another of the same size: both runs return
without error, each has written its one checkpoint, and the first checkpoint is gone. -/
theorem C97_second_run_overwrites :
    let r := onePassSampler.run pointHost sameSecond [1] ⟨goodDisk, []⟩
    let r' := r.2.1.run pointHost sameSecond [7] ⟨r.2.2.disk, []⟩
    (∃ m m', r.1 = .ok m ∧ r'.1 = .ok m' ∧ m ≠ m') ∧
    ∃ b b', r.2.2.log = [b] ∧ r'.2.2.log = [b'] ∧ r.2.2.disk.fs b.path = b.payload ∧
      b'.path = b.path ∧ r'.2.2.disk.fs b.path ≠ b.payload := by
  intro r r'
  have key : (match r.1, r'.1, r.2.2.log, r'.2.2.log with
    | .ok m, .ok m', [b], [b'] => decide (m ≠ m' ∧ r.2.2.disk.fs b.path = b.payload ∧
        b'.path = b.path ∧ r'.2.2.disk.fs b.path ≠ b.payload)
    | _, _, _, _ => false) = true := by decide +kernel
  split at key
  · rename_i m m' b b' e1 e2 e3 e4
    rw [decide_eq_true_eq] at key
    exact ⟨⟨m, m', e1, e2, key.1⟩, b, b', e3, e4, key.2⟩
  · cases key

/-! ### Non-vacuity -/

namespace SessionExample
open WholeExample SimExample

/-- A caller's record. -/
def octaRecord : Metadata := { sampleMetadata with desiredSimplices := 640, desiredTimeslices := 4 }

/-- One pass, one checkpoint, couplings 1. -/
def octaArgs : SamplerArgs St where
  alpha := .fin 1
  k := .fin 1
  lambda := .fin 1
  passes := 1
  checkpoint := 1
  random := Random.make toyPcg 92 1
  reproducibility := some octaRecord

theorem octa_args : OrdinaryArgs plainEnv .exact trialZero octaArgs where
  lawful := plain_lawful
  rounding := exactLawful
  trial _ := ⟨0, rfl, le_rfl, by norm_num⟩
  couplings q h := by
    have : q = 1 := by
      rcases h with h | h | h <;> (simp only [octaArgs, LD.fin.injEq] at h; exact h.symm)
    rw [this]
    exact inLongDouble_one

/-- `attempt_transition(manifold)` of the example. -/
theorem sample_flip {s : Sampler St} (hp : s.parameters = ⟨.fin 1, .fin 1, .fin 1⟩) (m : Mfld ℕ) (w : Machine)
    (hm : Fit plainEnv m) (hfr : FreshCentroids plainEnv m.tri) (hroom : Roomy m.geometry) (out : Outside (Mfld ℕ) St) :
    let r := s.call octaHost out (.sample m) w
    r.1.manifold = (flipOnce (m, s.strategy.gen)).1 ∧ r.2.1.strategy.gen = (flipOnce (m, s.strategy.gen)).2 := by
  have h := advance_once (m, s.strategy.gen) hm hfr hroom
  obtain ⟨e1, e2⟩ := sample_core flipEngine ⟨m, s.strategy.cmd, s.strategy.stats, s.strategy.gen⟩ ⟨m, {}, {}, s.strategy.gen⟩
    rfl rfl
  have e0 : octaHost.engine s.parameters = flipEngine := by rw [hp]; rfl
  rw [← h]
  refine ⟨?_, ?_⟩
  · show (sampleTransition (octaHost.engine s.parameters) _).2.current = _
    rw [e0, e1]
    rfl
  · show (sampleTransition (octaHost.engine s.parameters) _).2.gen = _
    rw [e0, e2]
    rfl

-- C97: a session that flips the octahedron by two single transitions and then runs one pass of four
-- more.  The hypotheses of all theorems above are met; the run returns with its checkpoint, which reads
-- back causal.
example : ∃ (start : Mfld ℕ) (s : Sampler St) (m m₁ : Mfld ℕ), Fit plainEnv start ∧
    Session octaHost (octaOutside start) octaArgs (TameState plainEnv) start s [m, m₁, start] ∧
    m₁.tri.cells ≠ start.tri.cells ∧
    (∀ n, TriesOn octaHost octaArgs s.strategy.gen (.run m) n → TameState plainEnv n) ∧
    (let r := s.run octaHost (octaOutside start) m ⟨goodDisk, []⟩
     (∃ m', r.1 = .ok m') ∧ r.2.2.log.length = 1 ∧
       ∀ b ∈ r.2.2.log, ∃ t, readFile octahedra integerText b.path r.2.2.disk.fs = .ok t ∧
         CausalFile (octahedra.view t)) := by
  have key : ((buildCaches plainEnv k44).toOption.map fun cs =>
      decide ((∀ k ∈ List.range 6,
          FreshCentroids plainEnv (flipOnce^[k] (⟨k44, cs, 1, 1⟩, Random.make toyPcg 92 1)).1.tri ∧
          Roomy (flipOnce^[k] (⟨k44, cs, 1, 1⟩, Random.make toyPcg 92 1)).1.geometry) ∧
        (flipOnce^[2] (⟨k44, cs, 1, 1⟩, Random.make toyPcg 92 1)).1.geometry.N3 = 4 ∧
        (flipOnce (⟨k44, cs, 1, 1⟩, Random.make toyPcg 92 1)).1.tri.cells ≠ k44.cells ∧
        (flipOnce^[6] (⟨k44, cs, 1, 1⟩, Random.make toyPcg 92 1)).1.tri.cells = k44.cells ∧
        (flipOnce^[6] (⟨k44, cs, 1, 1⟩, Random.make toyPcg 92 1)).1.tri.inf = k44.inf ∧
        0 ≤ cs.maxTime ∧ cs.maxTime < 2 ^ 31)) = some true := by decide +kernel
  cases hb : buildCaches plainEnv k44 with
  | error e => rw [hb] at key; simp [Except.toOption] at key
  | ok cs =>
    rw [hb] at key
    simp only [Except.toOption, Option.map_some, Option.some.injEq, decide_eq_true_eq] at key
    obtain ⟨h1, h2, h3, h4, h5, h6⟩ := key
    simp only [List.mem_range] at h1
    have h44 : (⟨k44, cs, 1, 1⟩ : Mfld ℕ).tri = k44 := rfl
    have hsp : (⟨k44, cs, 1, 1⟩ : Mfld ℕ).radius = 1 ∧ (⟨k44, cs, 1, 1⟩ : Mfld ℕ).spacing = 1 := ⟨rfl, rfl⟩
    have hcs : (⟨k44, cs, 1, 1⟩ : Mfld ℕ).caches = cs := rfl
    have hfit : Fit plainEnv ⟨k44, cs, 1, 1⟩ :=
      ⟨⟨sound44.closed, sound44.labels, sound44.times, sound44.quiet⟩, hb⟩
    generalize (⟨k44, cs, 1, 1⟩ : Mfld ℕ) = start at *
    have hfl := flips (x := (start, Random.make toyPcg 92 1)) hfit 6 h1
    obtain ⟨s0, hs0⟩ := (C90_constructor octaArgs).1.2
      ⟨⟨1, 1, 1, rfl, rfl, rfl, by norm_num⟩, by decide, by decide⟩
    have hpar : s0.parameters = ⟨.fin 1, .fin 1, .fin 1⟩ := (ofArgs_ok hs0).1.parameters
    have hgen : s0.strategy.gen = Random.make toyPcg 92 1 := (ofArgs_ok hs0).2.1
    -- the first transition
    have a1 := sample_flip hpar start ⟨goodDisk, []⟩ hfit (h1 0 (by omega)).1 (h1 0 (by omega)).2 (octaOutside start)
    have S1 := Session.called (.sample start) goodDisk (Session.made (host := octaHost) (out := octaOutside start)
      (good := TameState plainEnv) (start := start) hs0) (List.mem_singleton_self _)
      (fun n hn => by subst hn; exact h1 0 (by omega))
    rw [hgen] at a1
    have p1 : (s0.call octaHost (octaOutside start) (.sample start) ⟨goodDisk, []⟩).2.1.parameters = ⟨.fin 1, .fin 1, .fin 1⟩ := hpar
    generalize s0.call octaHost (octaOutside start) (.sample start) ⟨goodDisk, []⟩ = r1 at a1 S1 p1
    obtain ⟨r1, s1, w1⟩ := r1
    dsimp only at a1 S1 p1
    have g1 : (r1.manifold, s1.strategy.gen) = flipOnce^[1] (start, Random.make toyPcg 92 1) := Prod.ext a1.1 a1.2
    -- the second transition
    have q1 : TameState plainEnv r1.manifold := by
      have := h1 1 (by omega)
      rw [← g1] at this
      exact this
    have f1 : Fit plainEnv r1.manifold := by
      have := (hfl 1 (by omega)).2.fit
      rw [← g1] at this
      exact this
    have a2 := sample_flip p1 r1.manifold ⟨goodDisk, []⟩ f1 q1.1 q1.2 (octaOutside start)
    have S2 := Session.called (.sample r1.manifold) goodDisk S1 (List.mem_cons_self ..)
      (fun n hn => by subst hn; exact q1)
    have p2 : (s1.call octaHost (octaOutside start) (.sample r1.manifold) ⟨goodDisk, []⟩).2.1.parameters = ⟨.fin 1, .fin 1, .fin 1⟩ := p1
    generalize s1.call octaHost (octaOutside start) (.sample r1.manifold) ⟨goodDisk, []⟩ = r2 at a2 S2 p2
    obtain ⟨r2, s2, w2⟩ := r2
    dsimp only at a2 S2 p2
    have g2 : (r2.manifold, s2.strategy.gen) = flipOnce^[2] (start, Random.make toyPcg 92 1) := by
      rw [Function.iterate_succ_apply', ← g1]
      exact Prod.ext a2.1 a2.2
    -- the run
    have heng : argsEngine octaHost octaArgs = flipEngine := rfl
    have htraj : ∀ j ≤ 4, trajectory flipEngine j (r2.manifold, s2.strategy.gen) =
        flipOnce^[2 + j] (start, Random.make toyPcg 92 1) := by
      intro j hj
      have := (hfl (2 + j) (by omega)).1
      rw [trajectory_add, (hfl 2 (by omega)).1, ← g2] at this
      exact this
    have hcount : sampledCount octaHost octaArgs (r2.manifold, s2.strategy.gen) 1 = 4 := by
      have : flipEngine.n3 r2.manifold = 4 := by
        show r2.manifold.geometry.N3 = 4
        have := congrArg (fun y : Mfld ℕ × Random St => y.1.geometry.N3) g2
        exact this.trans h2
      unfold sampledCount
      rw [heng]
      simp [passStart, trajectory, this]
    have ht : ∀ n, TriesOn octaHost octaArgs s2.strategy.gen (.run r2.manifold) n → TameState plainEnv n := by
      rintro n ⟨j, hj, rfl⟩
      have hj4 : j < 4 := by rw [← hcount]; exact hj
      rw [heng, htraj j (by omega)]
      exact h1 _ (by omega)
    have hm : r2.manifold ∈ [r2.manifold, r1.manifold, start] := List.mem_cons_self ..
    have howed : owed ⟨octaArgs.passes, octaArgs.checkpoint⟩ octaArgs.writeFiles = [1] := by decide +kernel
    have hfin : sampledState octaHost octaArgs (r2.manifold, s2.strategy.gen) 1 =
        (flipOnce^[6] (start, Random.make toyPcg 92 1)).1 := by
      unfold sampledState
      rw [hcount, heng, htraj 4 le_rfl]
    have hn6 := (hfl 6 le_rfl).2
    have hst : Storable octaHost IntegralValue (sampledState octaHost octaArgs (r2.manifold, s2.strategy.gen) 1) := by
      rw [hfin]
      exact octa_storable hn6.fit h5 h4 (hn6.radius.trans hsp.1) (hn6.spacing.trans hsp.2)
    have hdep : Depicts (octahedra.view (octaSnapshot (sampledState octaHost octaArgs (r2.manifold, s2.strategy.gen) 1).tri))
        (sampledState octaHost octaArgs (r2.manifold, s2.strategy.gen) 1).tri := by
      rw [hfin]
      exact octa_depicts h5 h4
    have hsucc := C97_succeeds (out := octaOutside start) (isDouble := IntegralValue) (isLong := IntegralValue) integerText_lawful
      sampleBuild_legible octa_args hfit S2 hm ht
      (by refine ⟨?_, ?_, ?_⟩ <;> (rintro q ⟨rfl⟩; simp only [IsInt32]; decide)) (by decide)
      (by
        rintro given ⟨rfl⟩
        refine ⟨by decide, by decide, by decide, ?_, ?_⟩
        · intro n hn; cases hn; decide
        · intro n hn; cases hn; decide)
      (by rw [hcs]; exact h6)
      (by
        intro p hp
        rw [howed, List.mem_singleton] at hp
        subst hp
        exact ⟨hst, hdep⟩) (disk := goodDisk) noFaults_noFaults
    refine ⟨start, s2, r2.manifold, r1.manifold, hfit, S2, ?_, ht, hsucc.1, ?_, ?_⟩
    · have := congrArg (fun y : Mfld ℕ × Random St => y.1.tri.cells) g1
      dsimp only at this
      rw [this, h44]
      exact h3
    · rw [hsucc.2, howed]; rfl
    · intro b hb'
      obtain ⟨t, k1, k2, -⟩ := C97_files_causal (out := octaOutside start) octa_args hfit S2 hm ht
        (by
          intro p hp
          rw [howed, List.mem_singleton] at hp
          subst hp
          exact ⟨hst.faithful, hst.labels, hdep⟩) goodDisk b hb'
      exact ⟨t, k1, k2⟩

end SessionExample

end CDT.Props
