/-
The artifacts of `MoveAlways_3`.
-/
import Verif.Spec.AlwaysProgram
import Verif.Lemmas.ProgramRun
import Verif.Lemmas.Schedule
import Verif.Props.Simulation
import Verif.Props.Run

namespace CDT
open Spec

variable {M S P T F G : Type}

/-! ### Passes -/

theorem executeLoop_applyAll (eng : CommandEngine M G) : ∀ (l : List MoveType) (c c' : Command M) (g g' : G),
    Command.executeLoop eng (l.map fun mv => (mv.asInteger.val : ℤ)) c g = (c', g', .done) →
      (c'.manifold, g') = applyAll eng l (c.manifold, g)
  | [], c, c', g, g', h => by cases h; rfl
  | mv :: l, c, c', g, g', h => by
    have hcode : MoveType.ofCode (mv.asInteger.val : ℤ) = some mv := by cases mv <;> rfl
    rw [List.map_cons] at h
    unfold Command.executeLoop at h
    rcases hs : Command.stepBack eng c ((l.map fun mv => (mv.asInteger.val : ℤ)).reverse) (mv.asInteger.val : ℤ) g
      with ⟨c1, g1, e⟩
    rw [hs] at h
    cases e with
    | some e =>
      simp only at h
      obtain ⟨rfl, rfl, rfl⟩ : c1 = c' ∧ g1 = g' ∧ e = .done := by simpa using h
      unfold Command.stepBack at hs
      rw [hcode] at hs
      dsimp only at hs
      split at hs
      · cases hs
      · cases hs
      · split at hs <;> cases hs
    | none =>
      have ih := executeLoop_applyAll eng l c1 c' g1 g' h
      rw [ih, applyAll]
      congr 1
      unfold Command.stepBack at hs
      rw [hcode] at hs
      dsimp only at hs
      unfold Spec.apply
      split at hs
      · cases hs
      · rename_i e2; dsimp only at e2 ⊢; rw [e2]; cases hs; rfl
      · rename_i e2
        dsimp only at e2 ⊢
        rw [e2]
        split at hs
        · rename_i hc; cases hs; dsimp only; rw [if_pos hc]
        · rename_i hc; cases hs; dsimp only; rw [if_neg hc]

/-- A pass that does not throw. -/
theorem pass_alwaysPass {eng : AlwaysEngine M G F} {m : M} {g : G} {f : F} {r : PassResult M Unit} {w' : G × F}
    (h : eng.pass m () (eng.n3 m) (g, f) = (.ok r, w')) :
    (r.manifold, w'.1) = alwaysPass eng (m, g) ∧ w'.2 = f := by
  unfold AlwaysEngine.pass at h
  obtain ⟨h1, h2, h3⟩ := Props.enqueueRandom_drawn eng.drawMove (eng.n3 m).toNat (Command.new m) g
  rcases hq : enqueueRandom eng.drawMove (eng.n3 m).toNat (Command.new m) g with ⟨c, g1⟩
  rw [hq] at h1 h2 h3
  simp only [hq] at h h1 h2 h3
  simp only [Command.new, List.append_nil] at h1 h2
  rcases hx : c.execute eng.toCommandEngine g1 with ⟨c', g2, x⟩
  simp only [hx] at h
  have hx' : Command.executeLoop eng.toCommandEngine c.queue.reverse c g1 = (c', g2, x) := hx
  rw [h1, List.reverse_reverse] at hx'
  cases x with
  | threw e' => cases h
  | terminated => cases h
  | done =>
    cases h
    refine ⟨?_, rfl⟩
    have := executeLoop_applyAll eng.toCommandEngine _ _ _ _ _ hx'
    rw [h2, h3] at this
    exact this

/-- A pass touches nothing but the generator. -/
theorem pass_world (eng : AlwaysEngine M G F) (m : M) (n : ℤ) (w : G × F) :
    (eng.pass m () n w).2.2 = w.2 := by
  obtain ⟨g, f⟩ := w
  unfold AlwaysEngine.pass
  rcases hq : enqueueRandom eng.drawMove n.toNat (Command.new m) g with ⟨c, g1⟩
  rcases hx : c.execute eng.toCommandEngine g1 with ⟨c', g2, x⟩
  simp only [hq, hx]
  cases x <;> rfl

theorem drawn_seed {draw : Random S → Fin 5 × Random S} (h : ∀ g, (draw g).2.seed = g.seed) :
    ∀ (n : ℕ) (g : Random S), (drawn draw n g).2.seed = g.seed
  | 0, g => rfl
  | n + 1, g => by rw [drawn]; exact (drawn_seed h n _).trans (h g)

theorem applyAll_seed {moves : CommandEngine M (Random S)}
    (h : ∀ mv m g, (moves.applyMove mv m g).2.seed = g.seed) :
    ∀ (l : List MoveType) (x : M × Random S), (applyAll moves l x).2.seed = x.2.seed
  | [], x => rfl
  | mv :: l, x => by
    rw [applyAll, applyAll_seed h l]
    have := h mv x.1 x.2
    unfold Spec.apply
    split <;> rename_i e <;> rw [e] at this <;> exact this

theorem alwaysPass_seed {eng : AlwaysEngine M (Random S) F}
    (h : KeepsSeed eng.toCommandEngine eng.drawMove) (x : M × Random S) :
    (alwaysPass eng x).2.seed = x.2.seed := by
  unfold alwaysPass
  rw [applyAll_seed h.moves, drawn_seed h.draw]

/-! ### Writing -/

variable (host : Host M S P T) (out : Outside M S)

theorem makeMetadata_ok {m : M} {seed : BitVec 64} {kind : ArtifactKind} {md : Metadata}
    (h : makeMetadata host m seed kind = .ok md) :
    md.artifact = kind ∧ md.seed = seed.toNat ∧
    ∀ c md', reconcile host.codec { md with completedPasses := c } (host.snapshot m) = .ok md' →
      ∃ f, topologyFingerprint (host.codec.view (host.snapshot m)) = .ok f ∧
        md' = snapshotRecord host m seed kind c (timeBounds (host.codec.view (host.snapshot m))).1
          (timeBounds (host.codec.view (host.snapshot m))).2 f := by
  unfold makeMetadata at h
  simp only [bind_ok] at h
  obtain ⟨f, h1, h⟩ := h
  cases h
  refine ⟨rfl, rfl, fun c md' hr => ?_⟩
  obtain ⟨f', hf, rfl⟩ := reconcile_ok hr
  refine ⟨f', hf, ?_⟩
  simp only [snapshotRecord]
  rfl

theorem makeMetadata_completed {m : M} {seed : BitVec 64} {kind : ArtifactKind} {md : Metadata}
    (h : makeMetadata host m seed kind = .ok md) : md.completedPasses = none := by
  unfold makeMetadata at h
  simp only [bind_ok] at h
  obtain ⟨f, h1, h⟩ := h
  cases h; rfl

theorem writeUniversePass_eq (m : M) (seed : BitVec 64) (p : ℤ) (w : Machine) :
    writeUniversePass host out m seed p w =
      match makeMetadata host m seed .checkpoint with
      | .error e => (.error e, w)
      | .ok md => writeArtifact host out m { md with completedPasses := some p } w := by
  unfold writeUniversePass
  rcases h : makeMetadata host m seed .checkpoint with e | md
  · rfl
  · obtain ⟨h1, h2, -⟩ := makeMetadata_ok host h
    have hp : artifactPath host m { md with completedPasses := some p } (out.now w.disk.clock) =
        .ok (makeFilenamePass (nameInfo host m) seed.toNat p (out.now w.disk.clock)) := by
      unfold artifactPath; simp only [h1, if_true, h2]
    dsimp only
    unfold writeTo writeArtifact
    rw [hp]
    rfl

theorem writeUniverseSeed_eq (m : M) (seed : BitVec 64) (w : Machine) :
    writeUniverseSeed host out m seed w =
      match makeMetadata host m seed .finalTriangulation with
      | .error e => (.error e, w)
      | .ok md => writeArtifact host out m md w := by
  unfold writeUniverseSeed
  rcases h : makeMetadata host m seed .finalTriangulation with e | md
  · rfl
  · obtain ⟨h1, h2, -⟩ := makeMetadata_ok host h
    have hp : artifactPath host m md (out.now w.disk.clock) =
        .ok (makeFilenameSeed (nameInfo host m) seed.toNat (out.now w.disk.clock)) := by
      unfold artifactPath; simp [h1, h2]
    dsimp only
    unfold writeTo writeArtifact
    rw [hp]
    rfl

/-- What a write of a snapshot does. -/
theorem writeSnapshot {m : M} {seed : BitVec 64} {due : ℤ × ArtifactKind} {c : Option ℤ} {md : Metadata}
    (hmd : makeMetadata host m seed due.2 = .ok md) (hc : due.2 = .checkpoint → c = some due.1) (w : Machine) :
    (∃ a d, writeArtifact host out m { md with completedPasses := c } w = (.ok (), ⟨d, w.log ++ [a]⟩) ∧
      SnapshotOf host seed m due c a ∧ d.fs a.path = a.payload ∧ d.fs (manifestName a.path) = a.manifest ∧
      ∀ p, ¬ FilesOf a.path p → d.fs p = w.disk.fs p) ∨
    ∃ e d, writeArtifact host out m { md with completedPasses := c } w = (.error e, ⟨d, w.log⟩) ∧
      (d = w.disk ∨ ∃ path, Named host m seed due path ∧ ∀ p, ¬ FilesOf path p → d.fs p = w.disk.fs p) := by
  obtain ⟨h1, h2, h3⟩ := makeMetadata_ok host hmd
  have hname : ∀ path, artifactPath host m { md with completedPasses := c } (out.now w.disk.clock) = .ok path →
      Named host m seed due path := by
    intro path hp
    refine ⟨out.now w.disk.clock, ?_⟩
    unfold artifactPath at hp
    dsimp only at hp
    rw [h1, h2] at hp
    rcases hk : due.2 with _ | _ | _ <;> rw [hk] at hp hc
    · simp at hp; exact hp.symm
    · rw [hc rfl] at hp; simp at hp; exact hp.symm
    · simp at hp; exact hp.symm
  rcases writeArtifact_cases host out m { md with completedPasses := c } w with
    ⟨path, md', d, hp, hr, hw, hdesc, hs1, hs2, hsame⟩ | ⟨e, d, hw, hd⟩
  · obtain ⟨f, hf, rfl⟩ := h3 c md' hr
    exact .inl ⟨_, d, hw, ⟨hname path hp, rfl, ⟨_, _, f, timeBounds_range _, hf, rfl⟩, ⟨_, rfl, hdesc⟩⟩, hs1, hs2, hsame⟩
  · rcases hd with rfl | ⟨path, hp, hsame⟩
    · exact .inr ⟨e, _, hw, .inl rfl⟩
    · exact .inr ⟨e, _, hw, .inr ⟨path, hname path hp, hsame⟩⟩

/-! ### Runs -/

variable (moves : CommandEngine M (Random S)) (n3 : M → ℤ) (draw : Random S → Fin 5 × Random S)

/-- What has been written so far is what was due, it is still there, and no other files changed. -/
structure MoverLog (start : M) (gen : Random S) (d0 : Disk) (dues : List ℤ) (w : Machine) : Prop where
  truthful : List.Forall₂ (CheckpointOf host (mover host out moves n3 draw) start gen) dues w.log
  stored : ∀ a ∈ w.log, w.disk.fs a.path = a.payload ∧ w.disk.fs (manifestName a.path) = a.manifest
  others : ∀ p, ¬ OwnFile gen.seed p → w.disk.fs p = d0.fs p

variable {host out moves n3 draw}

/-- Changing the files of a new name only. -/
theorem MoverLog.keep {start : M} {gen : Random S} {d0 : Disk} {dues : List ℤ} {w : Machine}
    (h : MoverLog host out moves n3 draw start gen d0 dues w) {q : ℤ} (hnew : ∀ x ∈ dues, x ≠ q) {m : M} {path : Path}
    (hn : Named host m gen.seed (q, .checkpoint) path) {d : Disk} (hsame : ∀ p, ¬ FilesOf path p → d.fs p = w.disk.fs p) :
    (∀ a ∈ w.log, d.fs a.path = a.payload ∧ d.fs (manifestName a.path) = a.manifest) ∧
    ∀ p, ¬ OwnFile gen.seed p → d.fs p = d0.fs p := by
  refine ⟨fun a ha => ?_, fun p hp => ?_⟩
  · obtain ⟨x, hx, hxa⟩ : ∃ x ∈ dues, CheckpointOf host (mover host out moves n3 draw) start gen x a := by
      obtain ⟨i, hi, rfl⟩ := List.getElem_of_mem ha
      have hl := h.truthful.length_eq
      exact ⟨dues[i], List.getElem_mem _, (List.forall₂_iff_get.1 h.truthful).2 i (by omega) hi⟩
    have hxn := hxa.snapshot.name
    have hd := files_disjoint (named_offName host hxn) (named_offName host hn)
      (named_ne host hxn hn (by simpa using hnew x hx))
    rw [hsame _ hd.1, hsame _ hd.2]
    exact h.stored a ha
  · rw [hsame p fun hf => hp (named_own host hn hf)]
    exact h.others p hp

/-- The state between passes. -/
def MoverBetween (host : Host M S P T) (out : Outside M S) (moves : CommandEngine M (Random S)) (n3 : M → ℤ)
    (draw : Random S → Fin 5 × Random S) (cad : Cadence) (writes : Bool) (start : M) (gen : Random S) (d0 : Disk) (k : ℕ)
    (v : RunVars M Unit) (w : Random S × Machine) : Prop :=
  (v.current, w.1) = (alwaysPass (mover host out moves n3 draw))^[k] (start, gen) ∧ w.1.seed = gen.seed ∧
  (∃ hs : List (List (MoveType × Bool)), hs.length = k ∧
    PassChain n3 (Applied fun x y mv => moves.check x y mv = true) start hs v.current) ∧
  MoverLog host out moves n3 draw start gen d0 (if writes then schedule k cad.checkpoint.toNat else []) w.2

theorem mover_step (hk : KeepsSeed moves draw) {cad : Cadence} (writes : Bool) (hc : 1 ≤ cad.checkpoint) (start : M)
    (gen : Random S) (d0 : Disk) (k : ℕ) (v : RunVars M Unit) (w : Random S × Machine)
    (h : MoverBetween host out moves n3 draw cad writes start gen d0 k v w) :
    let r := runPass (alwaysOps (mover host out moves n3 draw)) cad writes ((k : ℤ) + 1) v w
    (∃ v' w', r = (.ok v', w') ∧ MoverBetween host out moves n3 draw cad writes start gen d0 (k + 1) v' w') ∨
    ∃ e w', r = (.error e, w') ∧ MoverLog host out moves n3 draw start gen d0
      (if writes then schedule k cad.checkpoint.toNat else []) w'.2 := by
  obtain ⟨h1, h2, ⟨hs, hl, hch⟩, hlog⟩ := h
  obtain ⟨g, w⟩ := w
  dsimp only at h1 h2 hlog
  dsimp only
  unfold runPass
  have hz : ((cad.checkpoint.toNat : ℕ) : ℤ) = cad.checkpoint := Int.toNat_of_nonneg (by omega)
  have hdue := schedule_succ k cad.checkpoint.toNat (by omega)
  rw [hz] at hdue
  rcases hp : (mover host out moves n3 draw).pass v.current () (n3 v.current) (g, w) with ⟨r, g', w'⟩
  have hw := pass_world (mover host out moves n3 draw) v.current (n3 v.current) (g, w)
  rw [hp] at hw
  dsimp only at hw
  subst hw
  have hp' : (mover host out moves n3 draw).pass v.current v.state
    ((mover host out moves n3 draw).n3 v.current) (g, w') = (r, (g', w')) := hp
  simp only [hp']
  cases r with
  | error e => exact .inr ⟨e, _, rfl, hlog⟩
  | ok p =>
    obtain ⟨t1, -⟩ := pass_alwaysPass (eng := mover host out moves n3 draw) hp
    obtain ⟨hh, u1, u2, -⟩ := alwaysPass_ok hp
    have t2 : (p.manifold, g') = (alwaysPass (mover host out moves n3 draw))^[k + 1] (start, gen) := by
      rw [Function.iterate_succ_apply', ← h1]; exact t1
    have t3 : g'.seed = gen.seed := by
      have := alwaysPass_seed (eng := mover host out moves n3 draw) hk (v.current, g)
      rw [← t1] at this
      exact this.trans h2
    have t4 : ∃ hs : List (List (MoveType × Bool)), hs.length = k + 1 ∧
        PassChain n3 (Applied fun x y mv => moves.check x y mv = true) start hs p.manifold :=
      ⟨hs ++ [hh], by simp [hl], .snoc hch (by rw [u1]; simp; exact max_comm _ _) u2⟩
    dsimp only
    by_cases hm : ((k : ℤ) + 1) % cad.checkpoint = 0
    · rw [if_pos hm]
      rw [if_pos hm] at hdue
      simp only [alwaysOps, mover]
      cases writes with
      | false => exact .inl ⟨_, _, rfl, t2, t3, t4, hlog⟩
      | true =>
        rw [if_pos rfl] at hlog ⊢
        rw [writeUniversePass_eq]
        have hmv : p.manifold = movedAfter (mover host out moves n3 draw) start gen ((k : ℤ) + 1) := by
          unfold movedAfter
          rw [show ((k : ℤ) + 1).toNat = k + 1 by omega, ← t2]
        rcases hmd : makeMetadata host p.manifold g'.seed .checkpoint with e | md
        · exact .inr ⟨e, _, rfl, hlog⟩
        · dsimp only
          rw [t3] at hmd
          have hnew : ∀ x ∈ schedule k cad.checkpoint.toNat, x ≠ (k : ℤ) + 1 := by
            intro x hx e
            subst e
            unfold schedule at hx
            obtain ⟨i, hi, he⟩ := List.mem_map.1 hx
            rw [List.mem_range] at hi
            have h5 : (i + 1) * cad.checkpoint.toNat ≤ k := (Nat.le_div_iff_mul_le (by omega)).1 hi
            have h6 : (((i + 1) * cad.checkpoint.toNat : ℕ) : ℤ) = (k : ℤ) + 1 := by push_cast; push_cast at he; exact he
            omega
          rcases writeSnapshot host out (due := ((k : ℤ) + 1, .checkpoint)) (c := some ((k : ℤ) + 1)) hmd (fun _ => rfl) w' with
            ⟨a, d, hw, hsn, s1, s2, hsame⟩ | ⟨e, d, hw, hd⟩
          · rw [hw]
            obtain ⟨k1, k2⟩ := hlog.keep hnew hsn.name hsame
            refine .inl ⟨_, _, rfl, t2, t3, t4, ?_⟩
            rw [if_pos rfl, hdue]
            refine ⟨List.rel_append hlog.truthful (.cons ⟨hmv ▸ hsn, ?_⟩ .nil), ?_, k2⟩
            · obtain ⟨hs', q1, q2⟩ := t4
              exact ⟨hs', by rw [q1]; omega, hmv ▸ q2⟩
            · intro b hb
              rcases List.mem_append.1 hb with hb | hb
              · exact k1 b hb
              · rw [List.mem_singleton] at hb
                subst hb
                exact ⟨s1, s2⟩
          · rw [hw]
            refine .inr ⟨e, _, rfl, ?_⟩
            rcases hd with rfl | ⟨path, hpn, hsame⟩
            · exact ⟨hlog.truthful, hlog.stored, hlog.others⟩
            · obtain ⟨k1, k2⟩ := hlog.keep hnew hpn hsame
              exact ⟨hlog.truthful, k1, k2⟩
    · rw [if_neg hm]
      rw [if_neg hm, List.append_nil] at hdue
      refine .inl ⟨_, _, rfl, t2, t3, t4, ?_⟩
      rw [hdue]
      exact hlog

end CDT
