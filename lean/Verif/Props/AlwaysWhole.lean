/-
C87: the artifacts of `MoveAlways_3` and of `initialize`, with the modelled manifolds and moves in place.
-/
import Verif.Lemmas.SnapshotLive
import Verif.Props.AlwaysProgram
import Verif.Props.TopologyRun

namespace CDT.Props
open CDT Spec Moves

variable {V S T : Type} [LinearOrder V]

/-! ### The generator -/

/-- Drawing an index, shuffling a list and drawing a move type change the state of the engine, not the
seed it was made from (include/Random.hpp:110-178). -/
structure SeedKept (env : Env V (Random S)) (draw : Random S → Fin 5 × Random S) : Prop where
  index : ∀ n g, (env.index n g).2.seed = g.seed
  shuffle : ∀ {α : Type} (l : List α) g, (env.shuffle l g).2.seed = g.seed
  draw : ∀ g, (draw g).2.seed = g.seed

theorem searchSites_seed {A P R : Type} {prep : A → Except MoveFailure P}
    {exec : P → Random S → Except MoveFailure R × Random S} (h : ∀ p g, (exec p g).2.seed = g.seed) :
    ∀ (l : List A) (e : MoveFailure) (g : Random S), (searchSites prep exec l e g).2.seed = g.seed
  | [], _, _ => rfl
  | s :: ss, e, g => by
    unfold searchSites
    cases prep s with
    | error e => exact searchSites_seed h ss e g
    | ok p =>
      dsimp only
      have hp := h p g
      rcases hx : exec p g with ⟨r, g'⟩
      rw [hx] at hp
      cases r with
      | ok r => exact hp
      | error e => exact (searchSites_seed h ss e g').trans hp

theorem searchSites26_seed {A P R : Type} {prep : A → Except MoveFailure P}
    {exec : P → Random S → Except MoveFailure R × Random S} (h : ∀ p g, (exec p g).2.seed = g.seed) :
    ∀ (l : List A) (e : MoveFailure) (g : Random S), (searchSites26 prep exec l e g).2.seed = g.seed
  | [], _, _ => rfl
  | s :: ss, e, g => by
    unfold searchSites26
    cases prep s with
    | error e => exact searchSites26_seed h ss e g
    | ok p => exact h p g

theorem execute_seed {env : Env V (Random S)} {draw : Random S → Fin 5 × Random S} (hk : SeedKept env draw) (K : Tri V)
    (p : Prepared V) (g : Random S) : (execute env K p g).2.seed = g.seed := by
  cases p with
  | sixTwo v =>
    show (executeSixTwo env _ K v g).2.seed = g.seed
    unfold executeSixTwo
    split
    · rfl
    · exact hk.shuffle _ g
  | _ => rfl

/-- The moves of the code use the generator only to draw and to shuffle. -/
theorem moves_keep_seed {env : Env V (Random S)} {draw : Random S → Fin 5 × Random S} (hk : SeedKept env draw) :
    KeepsSeed (commandEngine env) draw where
  draw := hk.draw
  moves mv m g := by
    have hw : ∀ r : Except MoveFailure (Tri V) × Random S, (wrapMove env m r).2 = r.2 := by
      rintro ⟨r, g'⟩
      cases r with
      | error f => rfl
      | ok K =>
        unfold wrapMove
        dsimp only
        cases buildCaches env K <;> rfl
    show (wrapMove env m (doMove env mv m.tri g)).2.seed = g.seed
    rw [hw]
    have hs := hk.shuffle (canonicalize (rawSites env m.tri mv)) g
    unfold doMove
    rcases hx : env.shuffle (canonicalize (rawSites env m.tri mv)) g with ⟨sites, g1⟩
    rw [hx] at hs
    dsimp only at hs ⊢
    rw [← hs]
    cases mv
    case twoSix => exact searchSites26_seed (execute_seed hk m.tri) _ _ _
    all_goals exact searchSites_seed (execute_seed hk m.tri) _ _ _

/-! ### The passes -/

/-- Along the passes of the unconditional strategy with the real moves every manifold is in order and
no pass throws. -/
theorem always_next {G F : Type} {env : Env V G} (hl : env.Lawful) {eng : AlwaysEngine (Mfld V) G F}
    (hce : eng.toCommandEngine = commandEngine env) {m : Mfld V} {gen : G} (hm : Fit env m) {n : ℕ}
    (hfr : ∀ p < n, ∀ k ∈ alwaysTried eng ((alwaysPass eng)^[p] (m, gen)), FreshCentroids env k.tri) :
    (∀ p ≤ n, Next env m ((alwaysPass eng)^[p] (m, gen)).1) ∧
    ∀ p < n, ∀ f : F, ∃ r w', eng.pass ((alwaysPass eng)^[p] (m, gen)).1 () (eng.n3 ((alwaysPass eng)^[p] (m, gen)).1)
      (((alwaysPass eng)^[p] (m, gen)).2, f) = (.ok r, w') := by
  have hpass : ∀ x : Mfld V × G, Fit env x.1 → (∀ n ∈ alwaysTried eng x, FreshCentroids env n.tri) →
      (∀ f, ∃ r w', eng.pass x.1 () (eng.n3 x.1) (x.2, f) = (.ok r, w')) ∧ Next env x.1 (alwaysPass eng x).1 := by
    intro x hx hfx
    obtain ⟨q1, q2, q3⟩ := enqueueRandom_drawn (M := Mfld V) eng.drawMove (eng.n3 x.1).toNat (Command.new x.1) x.2
    unfold alwaysTried at hfx
    unfold alwaysPass
    rw [hce] at hfx ⊢
    generalize hd : drawn eng.drawMove (eng.n3 x.1).toNat x.2 = d at *
    obtain ⟨l, g1⟩ := d
    rcases he : enqueueRandom eng.drawMove (eng.n3 x.1).toNat (Command.new x.1) x.2 with ⟨c, g2⟩
    rw [he] at q1 q2 q3
    dsimp only at q1 q2 q3 hfx
    subst q3
    have hcm : c.manifold = x.1 := q2
    obtain ⟨c', h4, h5, -, h7⟩ := executeLoop_total hl l c g2 (by rw [hcm]; exact hx) (by rw [hcm]; exact hfx)
    rw [hcm] at h4 h5 h7
    have hex : c.execute eng.toCommandEngine g2 = (c', (applyAll (commandEngine env) l (x.1, g2)).2, .done) := by
      unfold Command.execute
      rw [q1, hce]
      simpa [Command.new] using h4
    refine ⟨fun f => ⟨⟨c'.manifold, c'.results, ()⟩, ((applyAll (commandEngine env) l (x.1, g2)).2, f), ?_⟩,
      by rw [← h5]; exact h7⟩
    simp only [AlwaysEngine.pass, he, hex, Command.consumeResults, Command.resetCounters]
  have hfit : ∀ p ≤ n, Next env m ((alwaysPass eng)^[p] (m, gen)).1 := by
    intro p
    induction p with
    | zero => intro _; exact .refl hm
    | succ p ih =>
      intro hp
      have hn := ih (by omega)
      obtain ⟨-, hnext⟩ := hpass _ hn.fit (hfr p (by omega))
      rw [Function.iterate_succ_apply']
      exact hn.trans hnext
  exact ⟨hfit, fun p hp f => (hpass _ (hfit p hp.le).fit (hfr p hp)).1 f⟩

variable {P : Type} {host : Host (Mfld V) S P T} {out : Outside (Mfld V) S} {env : Env V (Random S)}
  {draw : Random S → Fin 5 × Random S} {start : Mfld V}

/-- The unconditional strategy with the real moves and its artifacts. -/
abbrev realMover (host : Host (Mfld V) S P T) (out : Outside (Mfld V) S) (env : Env V (Random S))
    (draw : Random S → Fin 5 × Random S) : AlwaysEngine (Mfld V) (Random S) Machine :=
  mover host out (commandEngine env) (fun m => m.geometry.N3) draw

/-- Every move of the run is tried on a manifold none of whose triangles has its centroid among the
vertices. -/
def AlwaysFresh (host : Host (Mfld V) S P T) (out : Outside (Mfld V) S) (env : Env V (Random S))
    (draw : Random S → Fin 5 × Random S) (s : AlwaysStrategy (Random S)) (start : Mfld V) : Prop :=
  ∀ p < s.cadence.passes.toNat,
    ∀ n ∈ alwaysTried (realMover host out env draw) ((alwaysPass (realMover host out env draw))^[p] (start, s.gen)),
      FreshCentroids env n.tri

theorem always_states (hl : env.Lawful) {s : AlwaysStrategy (Random S)} (hs : Fit env start)
    (hfr : AlwaysFresh host out env draw s start) {p : ℤ} (hp : p ≤ s.cadence.passes) :
    Next env start (movedAfter (realMover host out env draw) start s.gen p) :=
  (always_next hl (eng := realMover host out env draw) rfl hs hfr).1 _ (by omega)

theorem owed_le {c : Cadence} (h0 : 0 ≤ c.passes) {b : Bool} {p : ℤ} (h : p ∈ owed c b) :
    p ≤ c.passes := by
  unfold owed at h
  split at h
  · unfold schedule at h
    simp only [List.mem_map, List.mem_range] at h
    obtain ⟨i, hi, rfl⟩ := h
    have h1 : (i + 1) * c.checkpoint.toNat ≤ c.passes.toNat :=
      (Nat.mul_le_mul_right _ hi).trans (Nat.div_mul_le_self _ _)
    have h2 : ((i + 1 : ℕ) : ℤ) * (c.checkpoint.toNat : ℤ) = (((i + 1) * c.checkpoint.toNat : ℕ) : ℤ) := by push_cast; ring
    rw [h2]
    omega
  · cases h

/-- C87: a run of `MoveAlways_3` from a universe in order.  Whatever the file system does, every
checkpoint it has written is the truth about the state after its pass, and that state is in order: a
closed complex of correctly labelled causal tetrahedra with the boundary, the Euler characteristic, the
slices, the radius and the spacing of the initial universe, and its topology.  A run that returns has
written all checkpoints, and what it returns is such a state. -/
theorem C87_every_checkpoint (hl : env.Lawful) (hk : SeedKept env draw) (s : AlwaysStrategy (Random S))
    (hc : 1 ≤ s.cadence.checkpoint) (h0 : 0 ≤ s.cadence.passes) (hs : Fit env start)
    (hfr : AlwaysFresh host out env draw s start) (disk : Disk) :
    let eng := realMover host out env draw
    let r := s.run eng start ⟨disk, []⟩
    ∃ done, done <+: owed s.cadence s.writesFiles ∧
      List.Forall₂ (fun p a => CheckpointOf host eng start s.gen p a ∧ Next env start (movedAfter eng start s.gen p) ∧
        SameTopology start.tri (movedAfter eng start s.gen p).tri) done r.2.2.log ∧
      ∀ m, r.1 = .ok m → done = owed s.cadence s.writesFiles ∧ m = movedAfter eng start s.gen s.cadence.passes ∧
        Next env start m ∧ SameTopology start.tri m.tri := by
  intro eng r
  obtain ⟨done, h1, h2, -, -, h3⟩ := C73_checkpoints_true (host := host) (out := out) (n3 := fun m : Mfld V => m.geometry.N3)
    (moves_keep_seed hk) s hc h0 start disk
  have hn : ∀ p, p ≤ s.cadence.passes → Next env start (movedAfter eng start s.gen p) ∧
      SameTopology start.tri (movedAfter eng start s.gen p).tri := fun p hp =>
    have := always_states hl hs hfr hp
    ⟨this, topology_of_next hl hs this⟩
  refine ⟨done, h1, ?_, fun m hm => ?_⟩
  · have hmem : ∀ p ∈ done, p ≤ s.cadence.passes := fun p hp => owed_le h0 (h1.subset hp)
    change List.Forall₂ _ done r.2.2.log at h2
    generalize r.2.2.log = log at h2 ⊢
    clear h1 h3
    induction h2 with
    | nil => exact .nil
    | cons a _ ih => exact .cons ⟨a, hn _ (hmem _ (by simp))⟩ (ih fun p hp => hmem p (by simp [hp]))
  · obtain ⟨h4, rfl⟩ := h3 m hm
    exact ⟨h4, rfl, hn _ le_rfl⟩

/-- C87: reading any checkpoint of such a run back, when the run has ended, gives a triangulation whose
tetrahedra are all causal and labelled by their type, with the slices of the initial universe. -/
theorem C87_files_causal (hl : env.Lawful) (hk : SeedKept env draw) (s : AlwaysStrategy (Random S))
    (hc : 1 ≤ s.cadence.checkpoint) (h0 : 0 ≤ s.cadence.passes) (hs : Fit env start)
    (hfr : AlwaysFresh host out env draw s start)
    (hf : ∀ p ∈ owed s.cadence s.writesFiles,
      let m := movedAfter (realMover host out env draw) start s.gen p
      Faithful host.codec (host.snapshot m) ∧ LabelsFit host.codec (host.snapshot m) ∧
        Depicts (host.codec.view (host.snapshot m)) m.tri) (disk : Disk) :
    let w := (s.run (realMover host out env draw) start ⟨disk, []⟩).2.2
    ∀ a ∈ w.log, ∃ t, readFile host.codec host.text a.path w.disk.fs = .ok t ∧ CausalFile (host.codec.view t) ∧
      Set.range (host.codec.view t).vinfo = (slices start.tri.inf start.tri.time start.tri.cells : Set ℤ) := by
  intro w a ha
  obtain ⟨done, h1, h2, h3, -, -⟩ := C73_checkpoints_true (host := host) (out := out)
    (n3 := fun m : Mfld V => m.geometry.N3) (moves_keep_seed hk) s hc h0 start disk
  obtain ⟨p, hp, hpa⟩ : ∃ p ∈ done, CheckpointOf host (realMover host out env draw) start s.gen p a := by
    obtain ⟨i, hi, rfl⟩ := List.getElem_of_mem ha
    have hl : done.length = w.log.length := h2.length_eq
    have hi' : i < w.log.length := hi
    exact ⟨done[i], List.getElem_mem _, (List.forall₂_iff_get.1 h2).2 i (by omega) hi⟩
  obtain ⟨f1, f2, f3⟩ := hf p (h1.subset hp)
  have hn := always_states hl hs hfr (owed_le h0 (h1.subset hp))
  obtain ⟨e1, e2⟩ := h3 a ha
  obtain ⟨text, ht, hd⟩ := hpa.snapshot.accepted
  refine ⟨_, readFile_iff.2 ⟨_, e1.trans hpa.snapshot.payload, parsePayload_write f1 f2, fun Mf hM => ?_⟩,
    causalFile_of f3 hn.fit.sound, ?_⟩
  · have e : w.disk.fs (manifestName a.path) = some Mf := hM
    rw [e2, ht] at e
    cases e
    exact hd
  · rw [← hn.preserved.slices]
    exact depicted_slices f3

/-- The number of tetrahedra of a universe in order is the number of cells of its picture. -/
theorem depicted_n3 {G : Type} {env : Env V G} (hl : env.Lawful) {m : Mfld V} (hm : Fit env m) {t : Stored}
    (hd : Depicts t m.tri) : m.geometry.N3 = (t.nc : ℤ) := by
  obtain ⟨_, _, hcs, _⟩ := buildCaches_ok hm.caches
  have hlen : m.caches.cells.length = m.tri.finiteCells.card := by rw [hcs, length_iter hl]
  obtain ⟨vertex, cell, -, hinj, -, hc, -, -, -⟩ := hd
  have h1 : (Finset.univ.image cell) = m.tri.finiteCells := by
    ext c
    have := hc c
    simp only [Finset.mem_image, Finset.mem_univ, true_and]
    rw [this]
    rfl
  have h2 : m.tri.finiteCells.card = t.nc := by
    rw [← h1, Finset.card_image_of_injective _ hinj, Finset.card_univ, Fintype.card_fin]
  simp only [Mfld.geometry, geometryOf]
  omega

variable {base : Host (Mfld V) S Mp T} {R : Rounding} {drawMove : Random S → Fin 5 × Random S}
  {drawTrial : Random S → LD × Random S} {value : BitVec 64 → ℚ} {snapshot : Tri V → T}

/-- C87: such a run succeeds.  If every checkpointed state can be stored, the last slice of the initial
universe has a number that fits a manifest, and no file operation fails, then `MoveAlways_3` returns and
has written every checkpoint due. -/
theorem C87_succeeds {isDouble isLong : LD → Prop} (hft : FloatTextLawful base.text isDouble isLong)
    (hbuild : BuildLegible base.build) (hl : env.Lawful) (hk : SeedKept env draw) (s : AlwaysStrategy (Random S))
    (hc : 1 ≤ s.cadence.checkpoint) (h0 : 0 ≤ s.cadence.passes) (hp : s.cadence.passes < 2 ^ 31) (hs : Fit env start)
    (hfr : AlwaysFresh (assembled base env R drawMove drawTrial value snapshot) out env draw s start)
    (hmax : 0 ≤ start.caches.maxTime ∧ start.caches.maxTime < 2 ^ 31)
    (hst : ∀ p ∈ owed s.cadence s.writesFiles,
      let m := movedAfter (realMover (assembled base env R drawMove drawTrial value snapshot) out env draw) start s.gen p
      Storable (assembled base env R drawMove drawTrial value snapshot) isDouble m ∧
        Depicts (base.codec.view (snapshot m.tri)) m.tri)
    {disk : Disk} (hd : NoFaults disk.fates) :
    let r := s.run (realMover (assembled base env R drawMove drawTrial value snapshot) out env draw) start ⟨disk, []⟩
    (∃ m, r.1 = .ok m) ∧ r.2.2.log.length = (owed s.cadence s.writesFiles).length := by
  intro r
  obtain ⟨m, s', w', hr⟩ := mover_returns (assembled base env R drawMove drawTrial value snapshot) out
    (n3 := fun m : Mfld V => m.geometry.N3) hft hbuild
    (moves_keep_seed hk) s hc hp start hd
    (fun p hp' w => (always_next hl (eng := realMover (assembled base env R drawMove drawTrial value snapshot) out env draw)
      rfl hs hfr).2 p hp' w)
    (fun _ p hp' => by
      obtain ⟨q1, q2⟩ := hst p hp'
      have hn := always_states hl hs hfr (owed_le h0 hp')
      refine ⟨q1, ?_, ?_⟩
      · show 0 ≤ (Mfld.geometry _).N3 ∧ (Mfld.geometry _).N3 < 2 ^ 31
        rw [depicted_n3 hl hn.fit q2]
        have := q1.counts.2.2.2
        change (base.codec.view (snapshot _)).nc < 2 ^ 31 at this
        omega
      · show 0 ≤ (Mfld.caches _).maxTime ∧ (Mfld.caches _).maxTime < 2 ^ 31
        rw [(slices_bounds hl hs.caches hn.fit.caches hn.preserved.slices).1]
        exact hmax)
  obtain ⟨done, -, h2, h3⟩ := C87_every_checkpoint (out := out) hl hk s hc h0 hs hfr disk
  have hm : r.1 = .ok m := congrArg Prod.fst hr
  refine ⟨⟨m, hm⟩, ?_⟩
  rw [← (h3 m hm).1]
  exact h2.length_eq.symm

/-! ### `initialize` -/

/-- C87: the universe `initialize --output` leaves on disk, if it was built in order: reading the file
back when the program has ended gives a causal triangulation with the slices of that universe. -/
theorem C87_initialize_causal {o : Options} {tc : TriConfig} (h1 : o.help = false) (h2 : o.version = false)
    (hcfg : initializeConfig host out o = .ok tc)
    (hb : out.construct tc.simplices tc.timeslices (Random.make host.pcg tc.seed 0) tc.initialRadius
      tc.foliationSpacing = .ok start) {G : Type} {env : Env V G} (hs : Fit env start)
    (hf : Faithful host.codec (host.snapshot start)) (hlab : LabelsFit host.codec (host.snapshot start))
    (hd : Depicts (host.codec.view (host.snapshot start)) start.tri) (disk : Disk) :
    let w := (initializeMain host out (some o) disk).2
    ∀ a ∈ w.log, ∃ t, readFile host.codec host.text a.path w.disk.fs = .ok t ∧ CausalFile (host.codec.view t) ∧
      Set.range (host.codec.view t).vinfo = (slices start.tri.inf start.tri.time start.tri.cells : Set ℤ) := by
  obtain ⟨k1, k2, -⟩ := C68_initialize h1 h2 hcfg hb disk
  intro w a ha
  cases ho : o.output with
  | false =>
    have := k1 ho
    rw [show w = _ from congrArg Prod.snd this] at ha
    cases ha
  | true =>
    rcases k2 ho with ⟨-, b, hlog, hb', s1, s2⟩ | ⟨-, hlog⟩
    · have hab : a = b := by
        have : a ∈ [b] := hlog ▸ ha
        simpa using this
      subst hab
      obtain ⟨text, ht, hdesc⟩ := hb'.accepted
      refine ⟨_, readFile_iff.2 ⟨_, s1.trans hb'.payload, parsePayload_write hf hlab, fun Mf hM => ?_⟩,
        causalFile_of hd hs.sound, depicted_slices hd⟩
      have e : w.disk.fs (a.path ++ ascii ".meta") = some Mf := hM
      rw [s2, ht] at e
      cases e
      exact hdesc
    · have : a ∈ ([] : List Written) := hlog ▸ ha
      cases this

/-- C87: `initialize --output` succeeds when its universe can be stored and no file operation fails. -/
theorem C87_initialize_succeeds {M P : Type} {host : Host M S P T} {out : Outside M S} {start : M} {isDouble isLong : LD → Prop}
    (hft : FloatTextLawful host.text isDouble isLong) (hbuild : BuildLegible host.build) {o : Options} {tc : TriConfig}
    (h1 : o.help = false) (h2 : o.version = false) (hcfg : initializeConfig host out o = .ok tc)
    (hb : out.construct tc.simplices tc.timeslices (Random.make host.pcg tc.seed 0) tc.initialRadius
      tc.foliationSpacing = .ok start) (hst : Storable host isDouble start) {disk : Disk} (hd : NoFaults disk.fates) :
    (initializeMain host out (some o) disk).1 = 0 := by
  unfold initializeMain
  simp only [h1, h2, Bool.false_eq_true, if_false, hcfg]
  unfold initializeRun
  rw [show (rootRandom host out o).split host.pcg initializationStream =
    Random.make host.pcg tc.seed 0 by rw [initializeConfig_ok hcfg]; rfl]
  simp only [hb]
  cases o.output with
  | false => rfl
  | true =>
    obtain ⟨md, hmd⟩ := makeMetadata_total host hst tc.seed .initialTriangulation
    simp only [hmd, if_true]
    have hcfg' := hcfg
    unfold initializeConfig at hcfg'
    simp only [bind_ok] at hcfg'
    obtain ⟨N, -, T', -, hcfg'⟩ := hcfg'
    obtain ⟨rfl, b1, b2, b3⟩ := makeTriangulation_ok hcfg'
    obtain ⟨w', hw'⟩ := writeInitial_ok host out hft hbuild hst (by dsimp only; omega) (by dsimp only; omega)
      (by dsimp only; omega) hmd
      (w := ⟨disk, []⟩) hd
    rw [hw']

/-! ### A concrete run -/

namespace AlwaysWholeExample
open Fixture WholeExample

theorem plain_kept : SeedKept plainEnv flipAlways where
  index _ _ := rfl
  shuffle _ _ := rfl
  draw _ := rfl

def octaMover : AlwaysStrategy (Random St) where
  cadence := ⟨1, 1⟩
  writesFiles := true
  gen := Random.make toyPcg 92 1

/-- The four flips of one pass over the octahedron, in computable terms. -/
def fourFlips (m : Mfld ℕ) : Mfld ℕ × Random St :=
  applyAll (commandEngine plainEnv) [.fourFour, .fourFour, .fourFour, .fourFour] (m, Random.make toyPcg 92 1)

def flipsTried (m : Mfld ℕ) : List (Mfld ℕ) :=
  tried (commandEngine plainEnv) [.fourFour, .fourFour, .fourFour, .fourFour] (m, Random.make toyPcg 92 1)

theorem octa_pass {m : Mfld ℕ} (h : m.geometry.N3 = 4) (out : Outside (Mfld ℕ) St) :
    alwaysPass (realMover octaHost out plainEnv flipAlways) (m, octaMover.gen) = fourFlips m ∧
    alwaysTried (realMover octaHost out plainEnv flipAlways) (m, octaMover.gen) = flipsTried m := by
  have e : (realMover octaHost out plainEnv flipAlways).n3 m = 4 := h
  unfold alwaysPass alwaysTried
  dsimp only
  rw [e]
  exact ⟨rfl, rfl⟩

-- C87: the hypotheses are met by a run that changes the complex; it returns, with one checkpoint, which
-- reads back as a causal triangulation; so does the artifact of `initialize`.
example : ∃ start, Fit plainEnv start ∧
    AlwaysFresh octaHost (octaOutside start) plainEnv flipAlways octaMover start ∧
    (∃ n ∈ flipsTried start, n.tri.cells ≠ start.tri.cells) ∧
    (let r := octaMover.run (realMover octaHost (octaOutside start) plainEnv flipAlways) start ⟨goodDisk, []⟩
     (∃ m, r.1 = .ok m) ∧ r.2.2.log.length = 1 ∧
     ∀ a ∈ r.2.2.log, ∃ t, readFile octahedra integerText a.path r.2.2.disk.fs = .ok t ∧ CausalFile (octahedra.view t)) ∧
    let x := initializeMain octaHost (octaOutside start) (some { octaOptions with output := true }) goodDisk
    x.1 = 0 ∧ x.2.log.length = 1 ∧
    ∀ a ∈ x.2.log, ∃ t, readFile octahedra integerText a.path x.2.disk.fs = .ok t ∧ CausalFile (octahedra.view t) := by
  have key : ((buildCaches plainEnv k44).toOption.map fun cs =>
      decide ((∀ n ∈ flipsTried ⟨k44, cs, 1, 1⟩, FreshCentroids plainEnv n.tri) ∧
        (Mfld.geometry ⟨k44, cs, 1, 1⟩).N3 = 4 ∧
        (∃ n ∈ flipsTried ⟨k44, cs, 1, 1⟩, n.tri.cells ≠ k44.cells) ∧
        (fourFlips ⟨k44, cs, 1, 1⟩).1.tri.cells = k44.cells ∧
        (fourFlips ⟨k44, cs, 1, 1⟩).1.tri.inf = k44.inf ∧ cs.maxTime = 3)) = some true := by decide +kernel
  cases hb : buildCaches plainEnv k44 with
  | error e => rw [hb] at key; simp [Except.toOption] at key
  | ok cs =>
    rw [hb] at key
    simp only [Except.toOption, Option.map_some, Option.some.injEq, decide_eq_true_eq] at key
    obtain ⟨h1, h2, h3, h4, h5, h6⟩ := key
    have h44 : (⟨k44, cs, 1, 1⟩ : Mfld ℕ).tri = k44 := rfl
    have hsp : (⟨k44, cs, 1, 1⟩ : Mfld ℕ).radius = 1 ∧ (⟨k44, cs, 1, 1⟩ : Mfld ℕ).spacing = 1 := ⟨rfl, rfl⟩
    have hmax : (⟨k44, cs, 1, 1⟩ : Mfld ℕ).caches.maxTime = 3 := h6
    have hfit : Fit plainEnv ⟨k44, cs, 1, 1⟩ :=
      ⟨⟨sound44.closed, sound44.labels, sound44.times, sound44.quiet⟩, hb⟩
    generalize (⟨k44, cs, 1, 1⟩ : Mfld ℕ) = start at *
    have hfr : AlwaysFresh octaHost (octaOutside start) plainEnv flipAlways octaMover start := by
      intro p hp n hn
      have : p = 0 := by change p < 1 at hp; omega
      subst this
      rw [Function.iterate_zero, id_eq, (octa_pass h2 (octaOutside start)).2] at hn
      exact h1 n hn
    have howed : owed octaMover.cadence octaMover.writesFiles = [1] := by decide +kernel
    have hmoved : movedAfter (realMover octaHost (octaOutside start) plainEnv flipAlways) start octaMover.gen 1 =
        (fourFlips start).1 := by
      unfold movedAfter
      rw [show (1 : ℤ).toNat = 1 from rfl, Function.iterate_one, (octa_pass h2 (octaOutside start)).1]
    have hst : ∀ p ∈ owed octaMover.cadence octaMover.writesFiles,
        let m := movedAfter (realMover octaHost (octaOutside start) plainEnv flipAlways) start octaMover.gen p
        Storable octaHost IntegralValue m ∧ Depicts (octahedra.view (octaSnapshot m.tri)) m.tri := by
      intro p hp
      rw [howed, List.mem_singleton] at hp
      subst hp
      have hn := always_states (p := 1) plain_lawful hfit hfr (by decide)
      dsimp only at hn ⊢
      change Next plainEnv start (movedAfter (realMover octaHost (octaOutside start) plainEnv flipAlways) start octaMover.gen 1) at hn
      rw [hmoved] at hn ⊢
      exact ⟨octa_storable hn.fit h5 h4 (hn.radius.trans hsp.1) (hn.spacing.trans hsp.2), octa_depicts h5 h4⟩
    obtain ⟨k1, k2⟩ := C87_succeeds (out := octaOutside start) (isDouble := IntegralValue) (isLong := IntegralValue)
      (base := octaBase) (R := .exact) (drawMove := flipAlways) (drawTrial := trialZero) (value := fun b => (b.toNat : ℚ))
      (snapshot := octaSnapshot)
      integerText_lawful sampleBuild_legible plain_lawful plain_kept octaMover (by decide) (by decide) (by decide) hfit hfr
      (by rw [hmax]; decide) hst (disk := goodDisk) noFaults_noFaults
    have hcfg : initializeConfig octaHost (octaOutside start) { octaOptions with output := true } =
        .ok octaConfig.triangulation :=
      (by decide +kernel : RuntimeConfig.makeTriangulation exactFloats false true false 640 4 3 (.fin 1) (.fin 1) 92 1 =
        .ok octaConfig.triangulation)
    have hstart := octa_storable hfit (by rw [h44]) (by rw [h44]) hsp.1 hsp.2
    have hdep := octa_depicts (K := start.tri) (by rw [h44]) (by rw [h44])
    have hi := C87_initialize_succeeds (host := octaHost) (out := octaOutside start) (isDouble := IntegralValue)
      (isLong := IntegralValue) integerText_lawful sampleBuild_legible rfl rfl hcfg rfl hstart (disk := goodDisk)
      noFaults_noFaults
    refine ⟨start, hfit, hfr, by rw [h44]; exact h3, ⟨k1, k2.trans (by rw [howed]; rfl), fun a ha => ?_⟩, hi, ?_, fun a ha => ?_⟩
    · obtain ⟨t, q1, q2, -⟩ := C87_files_causal (host := octaHost) (out := octaOutside start) plain_lawful plain_kept octaMover
        (by decide) (by decide) hfit hfr (fun p hp => ⟨(hst p hp).1.faithful, (hst p hp).1.labels, (hst p hp).2⟩) goodDisk a ha
      exact ⟨t, q1, q2⟩
    · rcases (C68_initialize (host := octaHost) (out := octaOutside start) rfl rfl hcfg rfl goodDisk).2.1 rfl with
        ⟨-, a, h, -⟩ | ⟨h, -⟩
      · exact congrArg List.length h
      · rw [hi] at h; cases h
    · obtain ⟨t, q1, q2, -⟩ := C87_initialize_causal (host := octaHost) (out := octaOutside start) rfl rfl hcfg rfl hfit
        hstart.faithful hstart.labels hdep goodDisk a ha
      exact ⟨t, q1, q2⟩

end AlwaysWholeExample

end CDT.Props
