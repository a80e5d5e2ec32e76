/-
C73, C74: the artifacts of `MoveAlways_3` and of the `write_file` overloads.
-/
import Verif.Lemmas.AlwaysProgram
import Verif.Props.Program

namespace CDT.Props
open CDT Spec

variable {M S P T : Type} {host : Host M S P T} {out out₁ out₂ : Outside M S}
  {moves : CommandEngine M (Random S)} {n3 : M → ℤ} {draw : Random S → Fin 5 × Random S}

/-! ### C73 -/

/-- C73: whatever the file system does, every checkpoint a run of `MoveAlways_3` has finished writing
is one that was due, in order: named for its state, seed and pass, its payload the state after that
many passes, its manifest the record of that state, seed and pass.  All of them are still on disk when
the run ends, and only files named for this seed were touched.  When the run returns, no checkpoint is
missing, and what it returns is the state after all passes. -/
theorem C73_checkpoints_true (hk : KeepsSeed moves draw) (s : AlwaysStrategy (Random S))
    (hc : 1 ≤ s.cadence.checkpoint) (hp : 0 ≤ s.cadence.passes) (start : M) (disk : Disk) :
    let eng := mover host out moves n3 draw
    let r := s.run eng start ⟨disk, []⟩
    let w := r.2.2
    ∃ done, done <+: owed s.cadence s.writesFiles ∧
      List.Forall₂ (CheckpointOf host eng start s.gen) done w.log ∧
      (∀ a ∈ w.log, w.disk.fs a.path = a.payload ∧ w.disk.fs (manifestName a.path) = a.manifest) ∧
      (∀ p, ¬ OwnFile s.gen.seed p → w.disk.fs p = disk.fs p) ∧
      ∀ m, r.1 = .ok m → done = owed s.cadence s.writesFiles ∧
        m = movedAfter eng start s.gen s.cadence.passes := by
  intro eng r w
  have hstart : MoverBetween host out moves n3 draw s.cadence s.writesFiles start s.gen disk 0 ⟨start, {}, (), 0⟩
      (s.gen, ⟨disk, []⟩) := by
    refine ⟨rfl, rfl, ⟨[], rfl, .nil _⟩, ?_⟩
    rw [schedule_zero, ite_self]
    exact ⟨.nil, by simp, fun _ _ => rfl⟩
  have hloop := runLoop_cases (alwaysOps eng) s.cadence s.writesFiles
    (MoverBetween host out moves n3 draw s.cadence s.writesFiles start s.gen disk)
    (fun j w => MoverLog host out moves n3 draw start s.gen disk
      (if s.writesFiles then schedule j s.cadence.checkpoint.toNat else []) w.2)
    (fun k v w v' w' hi hr => by
      rcases mover_step hk s.writesFiles hc start s.gen disk k v w hi with ⟨v1, w1, h1, h2⟩ | ⟨e1, w1, h1, h2⟩
      · rw [hr] at h1; cases h1; exact h2
      · rw [hr] at h1; cases h1)
    (fun k v w e w' hi hr => by
      rcases mover_step hk s.writesFiles hc start s.gen disk k v w hi with ⟨v1, w1, h1, h2⟩ | ⟨e1, w1, h1, h2⟩
      · rw [hr] at h1; cases h1
      · rw [hr] at h1; cases h1; exact h2)
    s.cadence.passes.toNat 0 ⟨start, {}, (), 0⟩ (s.gen, ⟨disk, []⟩) hstart
  rcases hloop with ⟨v', w', h1, h2⟩ | ⟨e, w', j, h1, h2, h3⟩
  · obtain ⟨t1, t2, t3, t4⟩ := h2
    have hr : r = (.ok v'.current, { s with gen := w'.1, results := v'.totals, checkpointEvents := v'.events }, w'.2) := by
      show s.run eng start ⟨disk, []⟩ = _
      unfold AlwaysStrategy.run executeMoveRun
      rw [Nat.cast_zero] at h1
      simp only [h1]
      rfl
    rw [Nat.zero_add] at t1 t4
    have hw : w = w'.2 := congrArg (fun x => x.2.2) hr
    rw [hw]
    refine ⟨_, ?_, t4.truthful, t4.stored, t4.others, fun m hm => ⟨rfl, ?_⟩⟩
    · exact List.prefix_refl _
    · rw [hr] at hm
      cases hm
      exact congrArg Prod.fst t1
  · have hr : r = (.error e, { s with gen := w'.1 }, w'.2) := by
      show s.run eng start ⟨disk, []⟩ = _
      unfold AlwaysStrategy.run executeMoveRun
      rw [Nat.cast_zero] at h1
      simp only [h1]
    have hw : w = w'.2 := congrArg (fun x => x.2.2) hr
    rw [hw]
    refine ⟨_, ?_, h3.truthful, h3.stored, h3.others, fun m hm => ?_⟩
    · unfold owed
      cases s.writesFiles with
      | false => simp
      | true => exact schedule_prefix _ (by omega)
    · rw [hr] at hm; cases hm

/-- C73: `write_file(universe, seed)` either throws, having touched at most the files of that name, or
leaves exactly one new artifact, the universe itself with a manifest that describes it and claims no
passes. -/
theorem C73_write_universe (m : M) (seed : BitVec 64) (w : Machine) :
    (∃ a d, writeUniverseSeed host out m seed w = (.ok (), ⟨d, w.log ++ [a]⟩) ∧
      SnapshotOf host seed m (0, .finalTriangulation) none a ∧
      d.fs a.path = a.payload ∧ d.fs (manifestName a.path) = a.manifest ∧
      ∀ p, ¬ OwnFile seed p → d.fs p = w.disk.fs p) ∨
    ∃ e d, writeUniverseSeed host out m seed w = (.error e, ⟨d, w.log⟩) ∧
      ∀ p, ¬ OwnFile seed p → d.fs p = w.disk.fs p := by
  rw [writeUniverseSeed_eq]
  rcases hmd : makeMetadata host m seed .finalTriangulation with e | md
  · exact .inr ⟨e, w.disk, rfl, fun _ _ => rfl⟩
  · have hnone := makeMetadata_completed host hmd
    have := writeSnapshot host out (due := (0, .finalTriangulation)) (c := none) hmd (fun h => by cases h) w
    rw [show ({ md with completedPasses := none } : Metadata) = md by rw [← hnone]] at this
    rcases this with ⟨a, d, h1, h2, h3, h4, h5⟩ | ⟨e, d, h1, h2⟩
    · exact .inl ⟨a, d, h1, h2, h3, h4, fun p hp => h5 p fun hf => hp (named_own host h2.name hf)⟩
    · refine .inr ⟨e, d, h1, ?_⟩
      rcases h2 with rfl | ⟨path, hn, hs⟩
      · exact fun _ _ => rfl
      · exact fun p hp => hs p fun hf => hp (named_own host hn hf)

/-- C73: `write_file(universe)` records the universe without provenance under a name of its own state
and the time.  Either it throws and every file but the temporaries is as before, or the payload is the
universe, and no manifest describes it unless the file system would not delete one of that very name;
no other file changes. -/
theorem C73_write_plain (m : M) (w : Machine) :
    let name := makeFilename (nameInfo host m) (out.now w.disk.clock)
    let payload := payloadText host.codec (host.snapshot m)
    (∃ d manifest, writeUniverse host out m w = (.ok (), ⟨d, w.log ++ [⟨name, some payload, manifest⟩]⟩) ∧
      SerializedAs host.codec payload (host.snapshot m) ∧
      d.fs name = some payload ∧ d.fs (manifestName name) = manifest ∧
      (manifest = none ∨ manifest = w.disk.fs (manifestName name) ∧ ∃ i, (w.disk.fates i).removed = false) ∧
      ∀ p, ¬ FilesOf name p → d.fs p = w.disk.fs p) ∨
    ∃ e d, writeUniverse host out m w = (.error e, ⟨d, w.log⟩) ∧
      ∀ p, p ≠ name ++ ascii ".tmp" → p ≠ name ++ ascii ".meta" ++ ascii ".tmp" → d.fs p = w.disk.fs p := by
  intro name payload
  obtain ⟨fs', vis, k, h1, h2⟩ := writePayload_anytime host.codec host.text host.build name
    (host.snapshot m) none w.disk
  obtain ⟨r', d', h3, -, hok, herr, -⟩ := writePayload_plain (codec := host.codec) (ft := host.text)
    (build := host.build) (dest := name) (t := host.snapshot m) w.disk.fs
    (fun i => w.disk.fates (w.disk.clock + i))
  have hunf : writeUniverse host out m w = writeTo host name m none w := rfl
  rw [hunf]
  unfold writeTo
  generalize (writePayload host.codec host.text host.build name (host.snapshot m) none w.disk).1 = r at h1 h2
  rw [h1, Prod.mk.injEq] at h3
  obtain ⟨rfl, rfl⟩ := h3
  rw [h2]
  cases r with
  | error e =>
    refine .inr ⟨e, _, rfl, fun p hp1 hp2 => ?_⟩
    have h := herr e rfl
    by_cases hp3 : p = name
    · rw [hp3]; exact h.2.1
    by_cases hp4 : p = manifestName name
    · rw [hp4]; exact h.1
    exact h.2.2 p hp3 hp4 hp1 hp2
  | ok u =>
    obtain ⟨hs, h⟩ := hok rfl
    have rest : ∀ {a b}, Holding name w.disk.fs a b fs' → ∀ p, ¬ FilesOf name p → fs' p = w.disk.fs p := by
      intro a b h p hp
      simp only [FilesOf, not_or] at hp
      exact h.2.2 p hp.1 hp.2.1 hp.2.2.1 hp.2.2.2
    rcases h with h | ⟨h, i, hi⟩
    · refine .inl ⟨⟨fs', vis ++ w.disk.visible, w.disk.fates, w.disk.clock + k⟩, none, ?_, hs, h.2.1, h.1, .inl rfl, rest h⟩
      have e1 : fs' name = some payload := h.2.1
      have e2 : fs' (manifestName name) = none := h.1
      simp only [e1, e2]
    · refine .inl ⟨⟨fs', vis ++ w.disk.visible, w.disk.fates, w.disk.clock + k⟩, w.disk.fs (manifestName name), ?_, hs, h.2.1, h.1, .inr ⟨rfl, _, hi⟩, rest h⟩
      have e1 : fs' name = some payload := h.2.1
      have e2 : fs' (manifestName name) = w.disk.fs (manifestName name) := h.1
      simp only [e1, e2]

/-! ### C74 -/

theorem checkpoint_same {eng₁ : AlwaysEngine M (Random S) Machine} {eng₂ : AlwaysEngine M (Random S) Machine} {start : M}
    {gen : Random S} {p : ℤ} {a b : Written}
    (he : movedAfter eng₁ start gen p = movedAfter eng₂ start gen p)
    (ha : CheckpointOf host eng₁ start gen p a) (hb : CheckpointOf host eng₂ start gen p b) : SameButTime a b := by
  have ha := ha.snapshot
  have hb := hb.snapshot
  rw [← he] at hb
  obtain ⟨lo, hi, f, h1, h2, h3⟩ := ha.manifest
  obtain ⟨lo', hi', f', k1, k2, k3⟩ := hb.manifest
  obtain ⟨rfl, rfl⟩ := labelRange_unique h1 k1
  rw [h2] at k2
  cases k2
  obtain ⟨n, hn⟩ := ha.name
  obtain ⟨n', hn'⟩ := hb.name
  exact ⟨ha.payload.trans hb.payload.symm, h3.trans k3.symm, nameInfo host (movedAfter eng₁ start gen p), gen.seed.toNat, n, n', .inr ⟨p, hn, hn'⟩⟩

theorem movedAfter_out (start : M) (gen : Random S) (p : ℤ) :
    movedAfter (mover host out₁ moves n3 draw) start gen p = movedAfter (mover host out₂ moves n3 draw) start gen p := by
  have : alwaysPass (mover host out₁ moves n3 draw) = alwaysPass (mover host out₂ moves n3 draw) := by
    funext x; simp only [alwaysPass, mover]
  unfold movedAfter
  rw [this]

/-- Two logs of prefixes of the same list agree as far as both go. -/
theorem related_take {α β : Type} {R R' : α → β → Prop} {Q : β → β → Prop} (hQ : ∀ x a b, R x a → R' x b → Q a b) :
    ∀ {zs xs ys : List α} {as bs : List β}, xs <+: zs → ys <+: zs → List.Forall₂ R xs as → List.Forall₂ R' ys bs →
    List.Forall₂ Q (as.take (min as.length bs.length)) (bs.take (min as.length bs.length))
  | _, [], _, _, _, _, _, .nil, _ => by simp
  | _, _ :: _, [], _, _, _, _, _, .nil => by simp
  | [], _ :: _, _ :: _, _, _, h, _, _, _ => by simp at h
  | z :: zs, x :: xs, y :: ys, _, _, h, h', .cons h1 h2, .cons h3 h4 => by
    rw [List.cons_prefix_cons] at h h'
    obtain ⟨rfl, h⟩ := h
    obtain ⟨rfl, h'⟩ := h'
    simp only [List.length_cons, Nat.add_min_add_right, List.take_succ_cons]
    exact .cons (hQ _ _ _ h1 h3) (related_take hQ h h' h2 h4)

/-- C74: two runs of `MoveAlways_3` from the same universe with the same seed, stream and cadence,
whatever clock and files they meet: as far as both have written checkpoints these have the same
contents, byte for byte, and the same names up to the time of writing; if both return, they return
the same universe and have written equally many. -/
theorem C74_replay (hk : KeepsSeed moves draw) {s₁ s₂ : AlwaysStrategy (Random S)} (hgen : s₁.gen = s₂.gen)
    (hcad : s₁.cadence = s₂.cadence) (hw : s₁.writesFiles = s₂.writesFiles) (hc : 1 ≤ s₁.cadence.checkpoint)
    (hp : 0 ≤ s₁.cadence.passes) (start : M) (disk₁ disk₂ : Disk) :
    let x := s₁.run (mover host out₁ moves n3 draw) start ⟨disk₁, []⟩
    let y := s₂.run (mover host out₂ moves n3 draw) start ⟨disk₂, []⟩
    let n := min x.2.2.log.length y.2.2.log.length
    List.Forall₂ SameButTime (x.2.2.log.take n) (y.2.2.log.take n) ∧
      ∀ m m', x.1 = .ok m → y.1 = .ok m' → m = m' ∧ x.2.2.log.length = y.2.2.log.length := by
  obtain ⟨done, h2, h3, -, -, h4⟩ := C73_checkpoints_true (host := host) (out := out₁) (n3 := n3) hk s₁ hc hp start disk₁
  obtain ⟨done', k2, k3, -, -, k4⟩ := C73_checkpoints_true (host := host) (out := out₂) (n3 := n3) hk s₂ (hcad ▸ hc) (hcad ▸ hp) start disk₂
  rw [← hcad, ← hw] at k2 k4
  rw [← hgen] at k3 k4
  have hq : ∀ p, movedAfter (mover host out₁ moves n3 draw) start s₁.gen p =
      movedAfter (mover host out₂ moves n3 draw) start s₁.gen p := movedAfter_out start s₁.gen
  generalize s₁.run (mover host out₁ moves n3 draw) start ⟨disk₁, []⟩ = x at *
  generalize s₂.run (mover host out₂ moves n3 draw) start ⟨disk₂, []⟩ = y at *
  intro x y n
  have hsame : ∀ q a b, CheckpointOf host (mover host out₁ moves n3 draw) start s₁.gen q a →
      CheckpointOf host (mover host out₂ moves n3 draw) start s₁.gen q b → SameButTime a b :=
    fun q a b ha hb => checkpoint_same (hq q) ha hb
  refine ⟨?_, fun m m' hm hm' => ?_⟩
  · exact related_take hsame h2 k2 h3 k3
  · obtain ⟨h5, h6⟩ := h4 m hm
    obtain ⟨k5, k6⟩ := k4 m' hm'
    exact ⟨by rw [h6, k6, hq], by rw [← h3.length_eq, ← k3.length_eq, h5, k5]⟩

/-- C74: the manifests of a run name stream 1 as the stream of the moves, whatever stream the run
draws from.  A run constructed from a seed alone draws from stream 0, so its manifests do not name
the stream that has to be used to replay it. -/
theorem C74_recorded_stream (hk : KeepsSeed moves draw) (s : AlwaysStrategy (Random S))
    (hc : 1 ≤ s.cadence.checkpoint) (hp : 0 ≤ s.cadence.passes) (start : M) (disk : Disk) :
    (∀ a ∈ (s.run (mover host out moves n3 draw) start ⟨disk, []⟩).2.2.log, ∃ md payload,
      a.manifest = some (metadataText host.text host.build md payload) ∧ md.seed = s.gen.seed.toNat ∧
      md.transitionStream = 1) ∧
    ∀ (pcg : Pcg S) passes checkpoint seed writes s', AlwaysStrategy.ofSeed pcg passes checkpoint seed writes = .ok s' →
      s'.gen.stream = 0 := by
  refine ⟨fun a ha => ?_, ?_⟩
  · obtain ⟨done, -, h3, -⟩ := C73_checkpoints_true (host := host) (out := out) (n3 := n3) hk s hc hp start disk
    obtain ⟨i, hi, rfl⟩ := List.getElem_of_mem ha
    have hl := h3.length_eq
    obtain ⟨lo, hi', f, -, -, h⟩ := ((List.forall₂_iff_get.1 h3).2 i (by omega) hi).snapshot.manifest
    exact ⟨_, _, h, rfl, rfl⟩
  · intro pcg passes checkpoint seed writes s' h
    unfold AlwaysStrategy.ofSeed AlwaysStrategy.make at h
    simp only [bind_ok] at h
    obtain ⟨c, -, h⟩ := h
    cases h
    rfl

/-! ### Non-vacuity -/

open CDT.Fixture

/-- A (2,3) or (4,4) move adds a point. -/
def pointMoves : CommandEngine (List ℤ) (Random (BitVec 64 × BitVec 64)) where
  applyMove mv m g := match mv with
    | .twoThree | .fourFour => (.ok (.ok (m ++ [(m.length : ℤ) + 1])), g)
    | _ => (.ok (.error .noCandidate), g)
  check _ _ _ := true

def pointDraw (g : Random (BitVec 64 × BitVec 64)) : Fin 5 × Random (BitVec 64 × BitVec 64) :=
  (⟨(g.draw toyPcg).1.toNat % 5, Nat.mod_lt _ (by norm_num)⟩, (g.draw toyPcg).2)

theorem point_keeps : KeepsSeed pointMoves pointDraw where
  moves mv m g := by cases mv <;> rfl
  draw g := rfl

def pointMover (stream : BitVec 64) : AlwaysStrategy (Random (BitVec 64 × BitVec 64)) where
  cadence := ⟨5, 2⟩
  writesFiles := true
  gen := Random.make toyPcg 92 stream

def pointEngine : AlwaysEngine (List ℤ) (Random (BitVec 64 × BitVec 64)) Machine :=
  mover pointHost (pointOutside 7) pointMoves (fun m => m.length) pointDraw

def pointMoverRun (disk : Disk) : Except Exc (List ℤ) × AlwaysStrategy (Random (BitVec 64 × BitVec 64)) × Machine :=
  (pointMover 0).run pointEngine [1, 2, 3] ⟨disk, []⟩

-- C73: a run of five passes with two checkpoints, on a good file system and on one that fails.
example : (pointMoverRun goodDisk).1.toOption = some (movedAfter pointEngine [1, 2, 3] (Random.make toyPcg 92 0) 5) ∧
    owed (pointMover 0).cadence true = [2, 4] ∧ (pointMoverRun goodDisk).2.2.log.length = 2 := by
  refine ⟨?_, ?_, ?_⟩ <;> decide +kernel
example : (pointMoverRun badDisk).2.2.log.map Written.payload = [some (payloadText pointSet
    (movedAfter pointEngine [1, 2, 3] (Random.make toyPcg 92 0) 2))] := by decide +kernel
example := C73_checkpoints_true (host := pointHost) (out := pointOutside 7) (n3 := fun m => m.length) point_keeps
  (pointMover 0) (by decide) (by decide) [1, 2, 3] badDisk
example : (writeUniverseSeed pointHost (pointOutside 7) [1, 2, 3] 92 ⟨goodDisk, []⟩).2.log.map Written.payload =
    [some (payloadText pointSet [1, 2, 3])] := by decide +kernel
example : (writeUniverse pointHost (pointOutside 7) [1, 2, 3] ⟨goodDisk, []⟩).2.log.map
    (fun a => (a.payload, a.manifest)) = [(some (payloadText pointSet [1, 2, 3]), none)] := by decide +kernel
-- C74: replay on another disk; and two runs with the same seed but different streams, whose
-- manifests name the same stream and whose checkpoints differ.
example := C74_replay (host := pointHost) (out₁ := pointOutside 7) (out₂ := pointOutside 8) (n3 := fun m => m.length)
  point_keeps (s₁ := pointMover 0) (s₂ := pointMover 0) rfl rfl rfl (by decide) (by decide) [1, 2, 3] goodDisk badDisk
example : movedAfter pointEngine [1, 2, 3] (Random.make toyPcg 92 0) 2 ≠
    movedAfter pointEngine [1, 2, 3] (Random.make toyPcg 92 1) 2 := by decide +kernel

end CDT.Props
