import Verif.Props.Directory
/-
The files at every moment of a run.
-/
namespace CDT.Props
open CDT Spec

section
variable {α β : Type}

/-- This holds of the machine at every moment of the program. -/
def Always (Q : Machine → Prop) (p : Proc α) (w : Machine) : Prop := ∀ n, Q (stepN n p w).2

theorem always_done {Q : Machine → Prop} {r : Except Exc α} {w : Machine} (h : Q w) : Always Q (.done r) w := by
  intro n
  rw [stepN_done]
  exact h

theorem always_step {Q : Machine → Prop} {p : Proc α} {w : Machine} :
    Always Q p w ↔ Q w ∧ Always Q (p.step w).1 (p.step w).2 := by
  constructor
  · exact fun h => ⟨h 0, fun n => by rw [← stepN_succ]; exact h (n + 1)⟩
  · rintro ⟨h, hs⟩ n
    cases n with
    | zero => exact h
    | succ n => rw [stepN_succ]; exact hs n

theorem always_follow {Q : Machine → Prop} {p : Proc α} {f : Except Exc α → Proc β} :
    ∀ {w : Machine}, Always Q p w → Always Q (f (p.run w).1) (p.run w).2 → Always Q (p.follow f) w := by
  induction p with
  | done r => exact fun _ h => h
  | fate k ih => exact fun h h' => always_step.2 ⟨(always_step.1 h).1, ih _ (always_step.1 h).2 h'⟩
  | clock k ih => exact fun h h' => always_step.2 ⟨(always_step.1 h).1, ih _ (always_step.1 h).2 h'⟩
  | look p k ih => exact fun h h' => always_step.2 ⟨(always_step.1 h).1, ih _ (always_step.1 h).2 h'⟩
  | put p c k ih => exact fun h h' => always_step.2 ⟨(always_step.1 h).1, ih (always_step.1 h).2 h'⟩
  | rename s t b k ih =>
    intro w h h'
    have h1 := always_step.1 h
    refine always_step.2 ⟨h1.1, ?_⟩
    have h2 := h1.2
    simp only [Proc.follow, Proc.step, Proc.run] at h2 h' ⊢
    cases hs : w.disk.fs s with
    | none => simp only [hs] at h2 h' ⊢; exact ih _ h2 h'
    | some c => cases b <;> simp only [hs] at h2 h' ⊢ <;> exact ih _ h2 h'
  | note p k ih => exact fun h h' => always_step.2 ⟨(always_step.1 h).1, ih (always_step.1 h).2 h'⟩

theorem within_all (p : Proc α) : Within (fun _ => True) p := by
  induction p with
  | done r => trivial
  | fate k ih => exact ih
  | clock k ih => exact ih
  | look p k ih => exact ⟨trivial, ih⟩
  | put p c k ih => exact ⟨trivial, ih⟩
  | rename s t b k ih => exact ⟨trivial, trivial, ih⟩
  | note p k ih => exact ⟨trivial, trivial, ih⟩

theorem stepN_alike (p : Proc α) {w w' : Machine} (h : Alike (fun _ => True) w w') :
    ∀ n, (stepN n p w).1 = (stepN n p w').1 ∧ Alike (fun _ => True) (stepN n p w).2 (stepN n p w').2
  | 0 => ⟨rfl, h⟩
  | n + 1 => by
    obtain ⟨h1, h2⟩ := stepN_alike p h n
    have := step_alike (within_all (stepN n p w).1) h2
    simp only [stepN]
    rw [← h1]
    exact ⟨this.1, this.2.1⟩

end

section
variable {T : Type} (codec : Codec T) (ft : FloatText) (build : BuildInfo) (name : Path) (t : T)

/-- The moments of writing a payload with a manifest. -/
theorem writePayload_moments {md : Metadata} (w : Machine) (n : ℕ) :
    let x := (stepN n (writePayloadSteps codec ft build name t (some md)) w).2
    x.log = w.log ∧ (x.disk.fs = w.disk.fs ∨ ∃ md', reconcile codec md t = .ok md' ∧
      ManifestStage codec ft name w.disk.fs t (metadataText ft build md' (payloadIntegrity (payloadText codec t)))
        x.disk.fs) := by
  intro x
  have hrun := Runs.writePayload codec ft build name t (some md)
  constructor
  · have h1 : w.log <+: x.log := by
      have : ∀ n, w.log <+: (stepN n (writePayloadSteps codec ft build name t (some md)) w).2.log := by
        intro n
        induction n with
        | zero => exact List.prefix_refl _
        | succ n ih => exact ih.trans (step_history _ _).1
      exact this n
    have h2 := (run_history (stepN n (writePayloadSteps codec ft build name t (some md)) w).1 x).1
    rw [stepN_run, hrun] at h2
    exact (h1.eq_of_length (le_antisymm h1.length_le h2.length_le)).symm
  · set w1 : Machine := ⟨⟨w.disk.fs, [w.disk.fs], w.disk.fates, w.disk.clock⟩, w.log⟩ with hw1
    have ha := (stepN_alike (writePayloadSteps codec ft build name t (some md)) (w := w) (w' := w1)
      ⟨fun _ _ => rfl, rfl, rfl, rfl⟩ n).2
    have hfs : x.disk.fs = (stepN n (writePayloadSteps codec ft build name t (some md)) w1).2.disk.fs :=
      funext fun p => ha.1 p trivial
    have hmem := (stepN_history (writePayloadSteps codec ft build name t (some md)) w1 (by simp [hw1]) n).1
    have hsuf := (run_history (stepN n (writePayloadSteps codec ft build name t (some md)) w1).1
      (stepN n (writePayloadSteps codec ft build name t (some md)) w1).2).2
    rw [stepN_run, hrun] at hsuf
    have hin := hsuf.subset hmem
    rw [← hfs] at hin
    obtain ⟨fs', vis, k, h1, h2⟩ := writePayload_anytime codec ft build name t (some md) w1.disk
    rw [h2] at hin
    replace hin : x.disk.fs ∈ vis ++ [w.disk.fs] := hin
    rcases hr : reconcile codec md t with e | md'
    · rw [writePayload_reconcile_error _ _ hr, Prod.mk.injEq] at h1
      have hv : vis = [] := by
        have := congrArg Disk.visible h1.2
        simp only [startingWith] at this
        exact (List.self_eq_append_left.1 this)
      rw [hv] at hin
      exact .inl (by simpa using hin)
    · obtain ⟨r', d', h3, hv, -⟩ := writePayload_manifest (codec := codec) (ft := ft)
        (build := build) (dest := name) (t := t) w1.disk.fs (fun i => w1.disk.fates (w1.disk.clock + i)) hr
      rw [h1, Prod.mk.injEq] at h3
      obtain ⟨-, rfl⟩ := h3
      exact .inr ⟨md', rfl, hv _ hin⟩

end

section
variable {M S P T : Type} (host : Host M S P T) (out : Outside M S)

/-- The moments of writing an artifact. -/
theorem writeArtifact_moments (m : M) (md : Metadata) (w : Machine) {Q : Machine → Prop}
    (same : ∀ x : Machine, x.log = w.log → x.disk.fs = w.disk.fs → Q x)
    (during : ∀ path md' (x : Machine), artifactPath host m md (out.now w.disk.clock) = .ok path →
      reconcile host.codec md (host.snapshot m) = .ok md' → x.log = w.log →
      ManifestStage host.codec host.text path w.disk.fs (host.snapshot m)
        (metadataText host.text host.build md' (payloadIntegrity (payloadText host.codec (host.snapshot m)))) x.disk.fs → Q x)
    (after : ∀ w', (writeArtifactSteps host out m md).run w = (.ok (), w') → Q w') :
    Always Q (writeArtifactSteps host out m md) w := by
  refine always_step.2 ⟨same w rfl rfl, ?_⟩
  unfold writeArtifactSteps at after ⊢
  simp only [Proc.step]
  rw [Proc.run] at after
  rcases hp : artifactPath host m md (out.now w.disk.clock) with e | path
  · exact always_done (same w rfl rfl)
  · rw [hp] at after
    dsimp only at after ⊢
    rw [Proc.run_follow] at after
    have hmom := writePayload_moments host.codec host.text host.build path (host.snapshot m) (md := md) w
    have hall : Always Q (writePayloadSteps host.codec host.text host.build path (host.snapshot m) (some md)) w := by
      intro n
      obtain ⟨h1, h2 | ⟨md', h2, h3⟩⟩ := hmom n
      · exact same _ h1 h2
      · exact during path md' _ hp h2 h1 h3
    refine always_follow hall ?_
    obtain ⟨n, hn⟩ := stepN_ends (writePayloadSteps host.codec host.text host.build path (host.snapshot m) (some md)) w
    obtain ⟨r, hr⟩ := hn n le_rfl
    have hrun := stepN_run (writePayloadSteps host.codec host.text host.build path (host.snapshot m) (some md)) w n
    rw [hr] at hrun
    have hend : Q ((writePayloadSteps host.codec host.text host.build path (host.snapshot m) (some md)).run w).2 := by
      rw [← hrun]; exact hall n
    rcases he : (writePayloadSteps host.codec host.text host.build path (host.snapshot m) (some md)).run w with ⟨r', w'⟩
    rw [he] at hend after
    cases r' with
    | error e => exact always_done hend
    | ok u =>
      refine always_step.2 ⟨hend, always_done (after _ rfl)⟩

variable (cfg : SimConfig) (start : M)

/-- What has been written so far is what was due, it is there, and nothing else has changed. -/
structure Kept (d0 : Disk) (dues : List (ℤ × ArtifactKind)) (w : Machine) : Prop where
  log : LogOk host cfg start d0 dues w
  rest : ∀ p, OffName p → (∀ a ∈ w.log, a.path ≠ p) →
    w.disk.fs p = d0.fs p ∧ w.disk.fs (manifestName p) = d0.fs (manifestName p)

/-- The files at some moment of the run. -/
def Moment (d0 : Disk) (w : Machine) : Prop :=
  ∃ dues, dues <+: duties cfg ∧ LogOk host cfg start d0 dues w ∧
    ∀ p, OffName p → (∀ a ∈ w.log, a.path ≠ p) →
      (w.disk.fs p = d0.fs p ∧ w.disk.fs (manifestName p) = d0.fs (manifestName p)) ∨
      ∃ due a, dues ++ [due] <+: duties cfg ∧ Truthful host cfg start due a ∧ a.path = p ∧
        w.disk.fs (manifestName p) = a.manifest ∧ (w.disk.fs p = d0.fs p ∨ w.disk.fs p = a.payload)

theorem Kept.moment {d0 : Disk} {dues : List (ℤ × ArtifactKind)} {w : Machine} (h : Kept host cfg start d0 dues w)
    (hd : dues <+: duties cfg) : Moment host cfg start d0 w :=
  ⟨dues, hd, h.log, fun p hp hn => .inl (h.rest p hp hn)⟩

/-- Writing an artifact that is due. -/
theorem writeDue_moments {rec md : Metadata} (hrec : GoodRecord host cfg rec) {d0 : Disk} {w : Machine}
    {dues : List (ℤ × ArtifactKind)} {due : ℤ × ArtifactKind} (hk : Kept host cfg start d0 dues w)
    (hnew : ∀ x ∈ dues, x.2 = .checkpoint ∧ x ≠ due) (hdue : dues ++ [due] <+: duties cfg)
    {st : RunStats} (hst : DescribesStats st (history (engineOf host cfg)
      (transitionsAfter host cfg start due.1) (origin host cfg start)))
    (hlen : (history (engineOf host cfg) (transitionsAfter host cfg start due.1) (origin host cfg start)).length =
      transitionsAfter host cfg start due.1)
    (hmd : Sampler.metadata host rec (stateAfter host cfg start due.1) due.2 due.1 st = .ok md) :
    Always (Moment host cfg start d0) (writeArtifactSteps host out (stateAfter host cfg start due.1) md) w ∧
    ∀ w', (writeArtifactSteps host out (stateAfter host cfg start due.1) md).run w = (.ok (), w') →
      Kept host cfg start d0 (dues ++ [due]) w' := by
  obtain ⟨h1, h2, h3, h4⟩ := hrec _ _ _ _ _ hmd
  have hlog := hk.log
  have hname : ∀ path, artifactPath host (stateAfter host cfg start due.1) md (out.now w.disk.clock) = .ok path →
      Named host (stateAfter host cfg start due.1) cfg.triangulation.seed due path := by
    intro path hp
    refine ⟨out.now w.disk.clock, ?_⟩
    unfold artifactPath at hp
    rw [h1, h2, h3] at hp
    rcases hk : due.2 with _ | _ | _ <;> rw [hk] at hp <;> simp at hp <;> exact hp.symm
  have hfresh : ∀ path, Named host (stateAfter host cfg start due.1) cfg.triangulation.seed due path →
      ∀ a ∈ w.log, OffName a.path ∧ a.path ≠ path := by
    intro path hn a ha
    obtain ⟨x, hx, hxa⟩ : ∃ x ∈ dues, Truthful host cfg start x a := by
      obtain ⟨i, hi, rfl⟩ := List.getElem_of_mem ha
      have hl := hlog.truthful.length_eq
      exact ⟨dues[i], List.getElem_mem _, (List.forall₂_iff_get.1 hlog.truthful).2 i (by omega) hi⟩
    obtain ⟨hk, hne⟩ := hnew x hx
    have hxn := hxa.name
    obtain ⟨p, k⟩ := x
    dsimp only at hk
    subst hk
    exact ⟨named_offName host hxn, named_ne host hxn hn hne⟩
  have hkeep : ∀ (s : Files) path, Named host (stateAfter host cfg start due.1) cfg.triangulation.seed due path →
      (∀ p, ¬ FilesOf path p → s p = w.disk.fs p) →
      (∀ a ∈ w.log, s a.path = a.payload ∧ s (manifestName a.path) = a.manifest) ∧
      (∀ p, ¬ OwnFile cfg.triangulation.seed p → s p = d0.fs p) ∧
      ∀ p, OffName p → (∀ a ∈ w.log, a.path ≠ p) → p ≠ path →
        s p = d0.fs p ∧ s (manifestName p) = d0.fs (manifestName p) := by
    intro s path hn hsame
    refine ⟨fun a ha => ?_, fun p hp => ?_, fun p hp hnot hne => ?_⟩
    · obtain ⟨ho, hne⟩ := hfresh path hn a ha
      have hd := files_disjoint ho (named_offName host hn) hne
      rw [hsame _ hd.1, hsame _ hd.2]
      exact hlog.stored a ha
    · rw [hsame p fun hf => hp (named_own host hn hf)]
      exact hlog.others p hp
    · have hd := files_disjoint hp (named_offName host hn) hne
      rw [hsame _ hd.1, hsame _ hd.2]
      exact hk.rest p hp hnot
  have houtside : ∀ {path a b} {s : Files}, Holding path w.disk.fs a b s → ∀ p, ¬ FilesOf path p → s p = w.disk.fs p :=
    fun h p hp => by
      simp only [FilesOf, not_or] at hp
      exact h.2.2 p hp.1 hp.2.1 hp.2.2.1 hp.2.2.2
  have htrue : ∀ path md', Named host (stateAfter host cfg start due.1) cfg.triangulation.seed due path →
      reconcile host.codec md (host.snapshot (stateAfter host cfg start due.1)) = .ok md' →
      DescribesArtifact host.codec host.text (metadataText host.text host.build md'
        (payloadIntegrity (payloadText host.codec (host.snapshot (stateAfter host cfg start due.1)))))
        (payloadText host.codec (host.snapshot (stateAfter host cfg start due.1)))
        (host.snapshot (stateAfter host cfg start due.1)) →
      Truthful host cfg start due ⟨path, some (payloadText host.codec (host.snapshot (stateAfter host cfg start due.1))),
        some (metadataText host.text host.build md'
        (payloadIntegrity (payloadText host.codec (host.snapshot (stateAfter host cfg start due.1)))))⟩ := by
    intro path md' hn hr hdesc
    refine ⟨hn, rfl, ?_, ⟨_, rfl, hdesc⟩, hlen⟩
    obtain ⟨f, hf, hmd'⟩ := h4 md' hr
    refine ⟨_, _, f, timeBounds_range _, hf, ?_⟩
    rw [hmd', hst.trace, hst.count, hlen]
    rfl
  have hafter : ∀ w', (writeArtifactSteps host out (stateAfter host cfg start due.1) md).run w = (.ok (), w') →
      Kept host cfg start d0 (dues ++ [due]) w' := by
    intro w' hw'
    rw [writeArtifact_steps] at hw'
    rcases writeArtifact_cases host out (stateAfter host cfg start due.1) md w with
      ⟨path, md', d, hp, hr, hw, hdesc, hs1, hs2, hsame⟩ | ⟨e, d, hw, hd⟩
    · rw [hw', Prod.mk.injEq] at hw
      rw [hw.2]
      obtain ⟨k1, k2, k3⟩ := hkeep d.fs path (hname path hp) hsame
      refine ⟨⟨?_, ?_, k2⟩, ?_⟩
      · exact List.rel_append hlog.truthful (.cons (htrue path md' (hname path hp) hr hdesc) .nil)
      · intro a ha
        rcases List.mem_append.1 ha with ha | ha
        · exact k1 a ha
        · rw [List.mem_singleton] at ha
          subst ha
          exact ⟨hs1, hs2⟩
      · intro p hp hnot
        refine k3 p hp (fun a ha => hnot a (List.mem_append_left _ ha)) ?_
        intro e
        exact hnot _ (List.mem_append_right _ (List.mem_singleton.2 rfl)) e.symm
    · rw [hw'] at hw; cases hw
  have hpre : dues <+: duties cfg := (List.prefix_append _ _).trans hdue
  refine ⟨writeArtifact_moments host out _ _ w ?_ ?_ fun w' hw' => (hafter w' hw').moment host cfg start hdue, hafter⟩
  · intro x hl hf
    refine ⟨dues, hpre, ⟨by rw [hl]; exact hlog.truthful, by rw [hl, hf]; exact hlog.stored, by rw [hf]; exact hlog.others⟩, ?_⟩
    rw [hl, hf]
    exact fun p hp hn => .inl (hk.rest p hp hn)
  · intro path md' x hp hr hl hstage
    have hn := hname path hp
    have hsame : ∀ p, ¬ FilesOf path p → x.disk.fs p = w.disk.fs p := by
      rcases hstage with h | ⟨-, -, h | h⟩ <;> exact houtside h
    obtain ⟨k1, k2, k3⟩ := hkeep x.disk.fs path hn hsame
    refine ⟨dues, hpre, ⟨by rw [hl]; exact hlog.truthful, by rw [hl]; exact k1, k2⟩, ?_⟩
    rw [hl]
    intro p hoff hnot
    by_cases hne : p = path
    · subst hne
      have hold := hk.rest p hoff hnot
      rcases hstage with h | ⟨-, hdesc, h | h⟩
      · exact .inl ⟨h.2.1.trans hold.1, h.1.trans hold.2⟩
      · exact .inr ⟨due, _, hdue, htrue p md' hn hr hdesc, rfl, h.1, .inl (h.2.1.trans hold.1)⟩
      · exact .inr ⟨due, _, hdue, htrue p md' hn hr hdesc, rfl, h.1, .inr h.2.1⟩
    · exact .inl (k3 p hoff hnot hne)

/-- The state between passes. -/
def BetweenKept (d0 : Disk) (k : ℕ) (v : RunVars M RunStats) (g : Random S) (w : Machine) : Prop :=
  Between host cfg start d0 k v (g, w) ∧ Kept host cfg start d0 (dueUpTo cfg k) w

theorem dueUpTo_duties (hc : 1 ≤ cfg.checkpoint) {k : ℕ} (h : (k : ℤ) ≤ cfg.passes) : dueUpTo cfg k <+: duties cfg := by
  refine (dueUpTo_prefix cfg hc (show k ≤ cfg.passes.toNat by omega)).trans ?_
  unfold duties dueUpTo
  split
  · exact List.prefix_append _ _
  · exact List.prefix_refl _

theorem passes_moments {rec : Metadata} (hrec : GoodRecord host cfg rec) (hc : 1 ≤ cfg.checkpoint) (d0 : Disk) :
    ∀ (n k : ℕ) (v : RunVars M RunStats) (g : Random S) (w : Machine), BetweenKept host cfg start d0 k v g w →
    ((k + n : ℕ) : ℤ) ≤ cfg.passes →
    Always (Moment host cfg start d0) (passesSteps host out (engineOf host cfg) rec ⟨cfg.passes, cfg.checkpoint⟩
      cfg.writeFiles n (k : ℤ) v g) w ∧
    ∀ v' g' w', (passesSteps host out (engineOf host cfg) rec ⟨cfg.passes, cfg.checkpoint⟩ cfg.writeFiles n (k : ℤ) v g).run w =
      (.ok (v', g'), w') → BetweenKept host cfg start d0 (k + n) v' g' w'
  | 0, k, v, g, w, h, hp => by
    refine ⟨always_done (h.2.moment host cfg start (dueUpTo_duties cfg hc (by simpa using hp))), ?_⟩
    rintro v' g' w' ⟨⟩
    exact h
  | n + 1, k, v, g, w, h, hp => by
    have hcast : ((k + 1 : ℕ) : ℤ) = (k : ℤ) + 1 := by push_cast; rfl
    have hnow := h.2.moment host cfg start (dueUpTo_duties cfg hc (k := k) (by omega))
    have ih := passes_moments hrec hc d0 n (k + 1)
    rw [hcast, show k + 1 + n = k + (n + 1) by omega] at ih
    unfold passesSteps
    have hw := metroPass_world (engineOf host cfg) v.current v.state ((engineOf host cfg).n3 v.current) g w
    rcases pass_between host cfg start h.1 with ⟨e, g', hp'⟩ | ⟨p, g', hp', t1, t2, t3⟩
    · rw [hp'] at hw
      rcases hm : metroPass (F := Unit) (engineOf host cfg) v.current v.state ((engineOf host cfg).n3 v.current) (g, ())
        with ⟨r, g1, u⟩
      rw [hm] at hw
      simp only [Prod.mk.injEq] at hw
      rw [← hw.1]
      exact ⟨always_done hnow, fun v' g' w' h => by cases h⟩
    · rw [hp'] at hw
      rcases hm : metroPass (F := Unit) (engineOf host cfg) v.current v.state ((engineOf host cfg).n3 v.current) (g, ())
        with ⟨r, g1, u⟩
      rw [hm] at hw
      simp only [Prod.mk.injEq, and_true] at hw
      obtain ⟨hw1, hw2⟩ := hw
      rw [← hw1]
      subst hw2
      dsimp only
      have hdue := dueUpTo_succ cfg hc k
      have next : ∀ (v' : RunVars M RunStats) (w' : Machine), v'.current = p.manifold → v'.state = p.strategyState →
          Kept host cfg start d0 (dueUpTo cfg (k + 1)) w' → BetweenKept host cfg start d0 (k + 1) v' g' w' := by
        intro v' w' e1 e2 hk
        refine ⟨⟨?_, ?_, ?_, hk.log⟩, hk⟩
        · rw [hcast, ← t1, e1]
        · rw [hcast, e2]; exact t2
        · rw [hcast]; exact t3
      by_cases hm : ((k : ℤ) + 1) % cfg.checkpoint = 0
      · rw [if_pos hm]
        by_cases hwr : cfg.writeFiles = true
        · rw [if_pos ⟨hwr, hm⟩] at hdue
          have hst : p.manifold = stateAfter host cfg start ((k : ℤ) + 1) := congrArg Prod.fst t1
          rw [if_pos hwr]
          rcases hmd : Sampler.metadata host rec p.manifold .checkpoint ((k : ℤ) + 1) p.strategyState with e | md
          · exact ⟨always_done hnow, fun v' g' w' h => by cases h⟩
          · dsimp only
            have hmd' := hmd
            rw [hst] at hmd'
            obtain ⟨m1, m2⟩ := writeDue_moments host out cfg start hrec (due := ((k : ℤ) + 1, .checkpoint)) h.2
              (fun x hx => ⟨(dueUpTo_old cfg hc k x hx).1, fun e => by
                have := (dueUpTo_old cfg hc k x hx).2
                rw [e] at this; dsimp only at this; omega⟩)
              (by rw [← hdue]; exact dueUpTo_duties cfg hc (by push_cast at hp ⊢; omega)) t2 t3 hmd'
            rw [← hst] at m1 m2
            rcases hrun : (writeArtifactSteps host out p.manifold md).run w with ⟨r, w'⟩
            cases r with
            | error e =>
              obtain ⟨q, hq⟩ := stepN_ends (writeArtifactSteps host out p.manifold md) w
              obtain ⟨r', hr'⟩ := hq q le_rfl
              have hend := stepN_run (writeArtifactSteps host out p.manifold md) w q
              rw [hr', hrun] at hend
              have hQ := m1 q
              rw [show (stepN q (writeArtifactSteps host out p.manifold md) w).2 = w' from congrArg Prod.snd hend] at hQ
              refine ⟨always_follow m1 ?_, ?_⟩
              · rw [hrun]; exact always_done hQ
              · intro v' g'' w'' h
                rw [Proc.run_follow, hrun] at h
                cases h
            | ok u =>
              have hk' := m2 w' hrun
              rw [← hdue] at hk'
              obtain ⟨i1, i2⟩ := ih ⟨p.manifold, v.totals.accumulate p.commandResults, p.strategyState, v.events + 1⟩ g' w'
                (next _ _ rfl rfl hk') (by push_cast at hp ⊢; omega)
              refine ⟨always_follow m1 ?_, ?_⟩
              · rw [hrun]; exact i1
              · intro v' g'' w'' h
                rw [Proc.run_follow, hrun] at h
                exact i2 _ _ _ h
        · rw [if_neg (fun h => hwr h.1), List.append_nil] at hdue
          rw [if_neg hwr]
          exact ih _ _ _ (next _ _ rfl rfl (by rw [hdue]; exact h.2)) (by push_cast at hp ⊢; omega)
      · rw [if_neg (fun h => hm h.2), List.append_nil] at hdue
        rw [if_neg hm]
        exact ih _ _ _ (next _ _ rfl rfl (by rw [hdue]; exact h.2)) (by push_cast at hp ⊢; omega)

theorem always_end {α : Type} {Q : Machine → Prop} {p : Proc α} {w : Machine} (h : Always Q p w) : Q (p.run w).2 := by
  obtain ⟨n, hn⟩ := stepN_ends p w
  obtain ⟨r, hr⟩ := hn n le_rfl
  rw [← stepN_run p w n, hr]
  exact h n

/-- Every moment of `cdt`. -/
theorem cdt_moments {o : Options} (h : Launched host out o cfg start) (d0 : Disk) :
    Always (Moment host cfg start d0) (cdtSteps host out (some o)) ⟨d0, []⟩ := by
  have hcb := C66_configured_by h.config
  have hN := hcb.simplices.2.1; have hT := hcb.timeslices.2.1; have hP := hcb.passes.2.1; have hc := hcb.checkpoint.2.1
  have h0 : LogOk host cfg start d0 [] ⟨d0, []⟩ := ⟨.nil, by simp, fun _ _ => rfl⟩
  have k0 : Kept host cfg start d0 [] ⟨d0, []⟩ := ⟨h0, fun _ _ _ => ⟨rfl, rfl⟩⟩
  have m0 := k0.moment host cfg start List.nil_prefix
  have hroot := rootRandom_eq h.config
  unfold cdtSteps
  simp only [h.help, h.version, Bool.false_eq_true, if_false, h.config]
  have key : Always (Moment host cfg start d0) (cdtRunSteps host out (rootRandom host out o) cfg) ⟨d0, []⟩ := by
    unfold cdtRunSteps
    rw [show (rootRandom host out o).split host.pcg initializationStream = Random.make host.pcg cfg.triangulation.seed 0 by
      rw [hroot]; rfl]
    simp only [h.built]
    rcases hs : cdtSampler host (rootRandom host out o) cfg start with e | sampler
    · exact always_done m0
    · obtain ⟨s1, s2, hrec⟩ := cdtSampler_ok host (by rw [hroot]; rfl) (by omega) (by omega) hs
      have hrec : GoodRecord host cfg sampler.reproducibility := hrec
      dsimp only
      rw [s1, s2]
      dsimp only
      have hPz : ((cfg.passes.toNat : ℕ) : ℤ) = cfg.passes := Int.toNat_of_nonneg (by omega)
      have hb : BetweenKept host cfg start d0 0 ⟨start, {}, { geometry := (engineOf host cfg).geometry start }, 0⟩
          (Random.make host.pcg cfg.triangulation.seed 1 : Random S) ⟨d0, []⟩ := by
        have e : dueUpTo cfg 0 = [] := by unfold dueUpTo; rw [schedule_zero]; simp
        exact ⟨⟨rfl, describesStats_nil _, rfl, by rw [e]; exact h0⟩, by rw [e]; exact k0⟩
      obtain ⟨i1, i2⟩ := passes_moments host out cfg start hrec hc d0 cfg.passes.toNat 0 _ _ _ hb (by omega)
      refine always_follow i1 ?_
      have hend := always_end i1
      rcases hrun : (passesSteps host out (engineOf host cfg) sampler.reproducibility ⟨cfg.passes, cfg.checkpoint⟩
        cfg.writeFiles cfg.passes.toNat ((0 : ℕ) : ℤ) ⟨start, {}, { geometry := (engineOf host cfg).geometry start }, 0⟩
          (Random.make host.pcg cfg.triangulation.seed 1)).run ⟨d0, []⟩ with ⟨r, w'⟩
      rw [hrun] at hend
      replace hrun : (passesSteps host out (host.engine ⟨cfg.alpha, cfg.k, cfg.lambda⟩) sampler.reproducibility
        ⟨cfg.passes, cfg.checkpoint⟩ cfg.writeFiles cfg.passes.toNat 0
          ⟨start, {}, { geometry := (host.engine ⟨cfg.alpha, cfg.k, cfg.lambda⟩).geometry start }, 0⟩
          (Random.make host.pcg cfg.triangulation.seed 1)).run ⟨d0, []⟩ = (r, w') := hrun
      rw [hrun]
      cases r with
      | error e => exact always_done hend
      | ok x =>
        obtain ⟨v', g'⟩ := x
        dsimp only
        obtain ⟨⟨t1, t2, t3, -⟩, hk⟩ := i2 v' g' w' hrun
        rw [Nat.zero_add] at t1 t2 t3 hk
        rw [hPz] at t1 t2 t3
        have hcur : v'.current = stateAfter host cfg start cfg.passes := congrArg Prod.fst t1
        split
        · exact always_done hend
        · split
          · rename_i hw
            rw [hcur]
            rcases hmd : Sampler.metadata host sampler.reproducibility (stateAfter host cfg start cfg.passes)
              .finalTriangulation cfg.passes v'.state with e | md
            · exact always_done hend
            · refine (writeDue_moments host out cfg start hrec (due := (cfg.passes, .finalTriangulation)) hk
                (fun x hx => ⟨(dueUpTo_old cfg hc _ x hx).1, fun e => by
                  have := (dueUpTo_old cfg hc _ x hx).1
                  rw [e] at this; cases this⟩) ?_ t2 t3 hmd).1
              unfold duties dueUpTo; rw [if_pos hw, if_pos hw]
          · exact always_done hend
  refine always_follow key ?_
  have hend := always_end key
  revert hend
  rcases (cdtRunSteps host out (rootRandom host out o) cfg).run ⟨d0, []⟩ with ⟨r, w'⟩
  intro hend
  cases r <;> exact always_done hend

end
end CDT.Props
