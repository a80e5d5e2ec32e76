/-
C99: every way of changing manifolds, in any mixture.
-/
import Verif.Spec.Workshop
import Verif.Props.Session

namespace CDT.Props
open CDT Spec Moves

variable {V S T : Type} [LinearOrder V]

/-- A `MoveCommand` object with any queue executes on a manifold in order: its manifold is in order
afterwards however the call ends, and it ends regularly if all codes are moves. -/
theorem executeLoop_codes {G : Type} {env : Env V G} (hl : env.Lawful) : ∀ (codes : List ℤ) (c : Command (Mfld V)) (g : G),
    Fit env c.manifold → (∀ n ∈ attempts (commandEngine env) codes (c.manifold, g), FreshCentroids env n.tri) →
    let r := Command.executeLoop (commandEngine env) codes c g
    Next env c.manifold r.1.manifold ∧ (∀ e, r.2.2 ≠ .threw e) ∧
    ((∀ code ∈ codes, (MoveType.ofCode code).isSome) → r.2.2 = .done ∧ (codes ≠ [] → r.1.queue = []))
  | [], c, g, hf, _ => ⟨.refl hf, fun e => by simp [Command.executeLoop], fun _ => ⟨rfl, fun h => absurd rfl h⟩⟩
  | code :: later, c, g, hf, hfr => by
    cases hc : MoveType.ofCode code with
    | none =>
      have e : Command.executeLoop (commandEngine env) (code :: later) c g = (c, g, .terminated) := by
        simp only [Command.executeLoop, Command.stepBack, hc]
      rw [e]
      refine ⟨.refl hf, fun e => by simp, fun h => ?_⟩
      have := h code (by simp)
      rw [hc] at this
      cases this
    | some mv =>
      simp only [attempts, hc] at hfr
      obtain ⟨hn, hstep⟩ := apply_next hl hf (hfr _ (by simp)) mv g
      obtain ⟨c1, h1, h2, h3⟩ := hstep c later.reverse code hc rfl
      have e : Command.executeLoop (commandEngine env) (code :: later) c g =
          Command.executeLoop (commandEngine env) later c1 (Spec.apply (commandEngine env) mv (c.manifold, g)).2 := by
        rw [Command.executeLoop, h1]
      rw [e]
      obtain ⟨k1, k2, k3⟩ := executeLoop_codes hl later c1 (Spec.apply (commandEngine env) mv (c.manifold, g)).2
        (by rw [h2]; exact hn.fit) (fun n hx => hfr n (by rw [h2] at hx; exact List.mem_cons_of_mem _ hx))
      refine ⟨by rw [h2] at k1; exact hn.trans k1, k2, fun h => ?_⟩
      obtain ⟨k4, k5⟩ := k3 fun x hx => h x (by simp [hx])
      refine ⟨k4, fun _ => ?_⟩
      by_cases hne : later = []
      · subst hne
        simpa [Command.executeLoop] using h3
      · exact k5 hne

variable {base : Host (Mfld V) S Mp T} {env : Env V (Random S)} {R : Rounding}
  {drawMove : Random S → Fin 5 × Random S} {drawTrial : Random S → LD × Random S} {value : BitVec 64 → ℚ}
  {snapshot : Tri V → T} {start : Mfld V} {held : List (Mfld V)} {cmds : List (Command (Mfld V))}

theorem workshop_next (hl : env.Lawful) (hs : Fit env start)
    (h : Workshop (assembled base env R drawMove drawTrial value snapshot) env (OrdinaryArgs env R drawTrial)
      (TameState env) start held cmds) :
    (∀ m ∈ held, Next env start m) ∧ ∀ c ∈ cmds, Next env start c.manifold := by
  induction h with
  | begun => simpa using Next.refl hs
  | @moved held cmds m m' g g' mv _ hm ht hw hc ih =>
    refine ⟨fun n hn => ?_, ih.2⟩
    rcases List.mem_cons.1 hn with rfl | hn
    · have hm := ih.1 m hm
      have key : ∀ r : Except MoveFailure (Tri V) × Random S,
          (∀ K' g', r = (.ok K', g') → MoveReturns env mv m.tri K') → wrapMove env m r = (.ok (.ok n), g') → Next env m n := by
        intro r hr hw
        rcases wrapMove_cases (mv := mv) hl hm.fit ht.1 hr with ⟨f, g'', e⟩ | ⟨m'', g'', e, hret, hb, h1, h2⟩
        · rw [e] at hw; cases hw
        · rw [e] at hw
          cases hw
          obtain ⟨f1, st, f2⟩ := fit_of_checked hl hm.fit ht.1 hret hb h1 h2 hc
          exact ⟨f1, f2, h1, h2, .single st⟩
      rcases hw with hw | hw
      · exact hm.trans (key _ (fun K' g' h => ⟨_, g', .inl h⟩) hw)
      · exact hm.trans (key _ (fun K' g' h => ⟨_, g', .inr h⟩) hw)
    · exact ih.1 n hn
  | commanded _ hm ih => exact ⟨ih.1, fun c hc => by
      rcases List.mem_cons.1 hc with rfl | hc
      · exact ih.1 _ hm
      · exact ih.2 c hc⟩
  | queued _ _ hm ih => exact ⟨ih.1, fun c hc => by
      rcases List.mem_cons.1 hc with rfl | hc
      · have := ih.2 _ hm
        exact this
      · exact ih.2 c hc⟩
  | reset _ hm ih => exact ⟨ih.1, fun c hc => by
      rcases List.mem_cons.1 hc with rfl | hc
      · have := ih.2 _ hm
        exact this
      · exact ih.2 c hc⟩
  | executed g _ hm ht ih => exact ⟨ih.1, fun c hc => by
      rcases List.mem_cons.1 hc with rfl | hc
      · exact (ih.2 _ hm).trans (executeLoop_codes hl _ _ g (ih.2 _ hm).fit fun n hn => (ht n hn).1).1
      · exact ih.2 c hc⟩
  | taken _ hc ih => exact ⟨fun n hn => by
      rcases List.mem_cons.1 hn with rfl | hn
      · exact ih.2 _ hc
      · exact ih.1 n hn, ih.2⟩
  | always out draw s disk _ hm hk hc hp ht hr ih => exact ⟨fun n hn => by
      rcases List.mem_cons.1 hn with rfl | hn
      · obtain ⟨_, -, -, -, -, k⟩ := C73_checkpoints_true
          (host := assembled base env R drawMove drawTrial value snapshot) (out := out)
          (n3 := fun m : Mfld V => m.geometry.N3) hk s hc hp _ disk
        rw [(k n hr).2]
        exact (ih.1 _ hm).trans (always_states hl (ih.1 _ hm).fit (fun p hp n hn => (ht p hp n hn).1) le_rfl)
      · exact ih.1 n hn, ih.2⟩
  | sampled c disk _ ha hu hm ht ih => exact ⟨fun n hn => by
      rcases List.mem_cons.1 hn with rfl | hn
      · exact (ih.1 _ hm).trans (call_in_order ha hu c disk (ih.1 _ hm).fit ht)
      · exact ih.1 n hn, ih.2⟩

/-- C99: whatever mixture of moves, commands, unconditional runs and Metropolis calls a program uses,
every manifold it gets, and the manifold in every `MoveCommand` object it has, is in order: closed, causal,
correctly labelled, with the radius, spacing, boundary, Euler characteristic, slices and topology of the
one it began with. -/
theorem C99_in_order (hl : env.Lawful) (hs : Fit env start)
    (h : Workshop (assembled base env R drawMove drawTrial value snapshot) env (OrdinaryArgs env R drawTrial)
      (TameState env) start held cmds) :
    (∀ m ∈ held, Next env start m ∧ SameTopology start.tri m.tri) ∧
    ∀ c ∈ cmds, Next env start c.manifold ∧ SameTopology start.tri c.manifold.tri := by
  obtain ⟨h1, h2⟩ := workshop_next hl hs h
  exact ⟨fun m hm => ⟨h1 m hm, topology_of_next hl hs (h1 m hm)⟩,
    fun c hc => ⟨h2 c hc, topology_of_next hl hs (h2 c hc)⟩⟩

/-- C99: nothing the program has done before makes a later call fail.  On every manifold it has, every
`do_*` and `propose_*` function returns a manifold or a structured failure; executing any of its commands
never throws, and empties the queue if all queued codes are moves. -/
theorem C99_calls_return (hl : env.Lawful) (hs : Fit env start)
    (h : Workshop (assembled base env R drawMove drawTrial value snapshot) env (OrdinaryArgs env R drawTrial)
      (TameState env) start held cmds) :
    (∀ m ∈ held, TameState env m → ∀ mv g,
      (∃ r, (wrapMove env m (Moves.doMove env mv m.tri g)).1 = .ok r) ∧
      ∃ r, (wrapMove env m (Moves.propose env mv m.tri g)).1 = .ok r) ∧
    ∀ c ∈ cmds, ∀ g, (∀ n ∈ attempts (commandEngine env) c.queue.reverse (c.manifold, g), TameState env n) →
      (∀ e, (c.execute (commandEngine env) g).2.2 ≠ .threw e) ∧
      ((∀ code ∈ c.queue, (MoveType.ofCode code).isSome) →
        (c.execute (commandEngine env) g).2.2 = .done ∧ (c.execute (commandEngine env) g).1.queue = []) := by
  obtain ⟨h1, h2⟩ := workshop_next hl hs h
  refine ⟨fun m hm ht mv g => ⟨?_, ?_⟩, fun c hc g ht => ?_⟩
  · rcases wrapMove_cases (mv := mv) hl (h1 m hm).fit ht.1 (r := Moves.doMove env mv m.tri g)
      (fun K' g' h => ⟨g, g', .inl h⟩) with ⟨f, g', e⟩ | ⟨m', g', e, -⟩
    · exact ⟨_, congrArg Prod.fst e⟩
    · exact ⟨_, congrArg Prod.fst e⟩
  · rcases wrapMove_cases (mv := mv) hl (h1 m hm).fit ht.1 (r := Moves.propose env mv m.tri g)
      (fun K' g' h => ⟨g, g', .inr h⟩) with ⟨f, g', e⟩ | ⟨m', g', e, -⟩
    · exact ⟨_, congrArg Prod.fst e⟩
    · exact ⟨_, congrArg Prod.fst e⟩
  · obtain ⟨-, k2, k3⟩ := executeLoop_codes hl c.queue.reverse c g (h2 c hc).fit fun n hn => (ht n hn).1
    refine ⟨k2, fun hq => ?_⟩
    obtain ⟨k4, k5⟩ := k3 fun x hx => hq x (List.mem_reverse.1 hx)
    refine ⟨k4, ?_⟩
    by_cases hne : c.queue = []
    · unfold Command.execute
      rw [hne]
      simpa [Command.executeLoop] using hne
    · exact k5 (by simpa using hne)

/-! ### Non-vacuity -/

namespace WorkshopExample
open Fixture WholeExample SimExample AlwaysWholeExample SessionExample

def gen : Random St := Random.make toyPcg 92 1

/-- The octahedron after one proposed flip, and after one more queued flip. -/
def once (m : Mfld ℕ) : Mfld ℕ := (flipOnce (m, gen)).1
def twice (m : Mfld ℕ) : Mfld ℕ := (Spec.apply (commandEngine plainEnv) .fourFour (once m, gen)).1

/-- One pass, no files. -/
def quietMover : AlwaysStrategy (Random St) := { octaMover with writesFiles := false }

def accepted (m : Mfld ℕ) : Bool :=
  match wrapMove plainEnv m (Moves.propose plainEnv .fourFour m.tri gen) with
  | (.ok (.ok m'), _) => checkMove m.view m'.view .fourFour
  | _ => false

theorem once_moved {m : Mfld ℕ} (h : accepted m = true) :
    ∃ g', wrapMove plainEnv m (Moves.propose plainEnv .fourFour m.tri gen) = (.ok (.ok (once m)), g') ∧
      checkMove m.view (once m).view .fourFour = true := by
  unfold accepted at h
  unfold once flipOnce
  dsimp only
  generalize wrapMove plainEnv m (Moves.propose plainEnv .fourFour m.tri gen) = q at h ⊢
  split at h
  · rename_i m' g'
    dsimp only
    rw [if_pos h]
    exact ⟨g', rfl, h⟩
  · cases h

-- C99: a flip by `propose_44_move`, one more by a `MoveCommand` whose queue ends with a code that is no
-- move, a run of `MoveAlways_3` from there and a transition of a `Metropolis_3` object from its result.
example : ∃ (start m₁ m₂ m₃ m₄ : Mfld ℕ) (c c' : Command (Mfld ℕ)), Fit plainEnv start ∧
    Workshop octaHost plainEnv (OrdinaryArgs plainEnv .exact trialZero) (TameState plainEnv) start
      [m₄, m₃, m₂, m₁, start] [c', c, (Command.new m₁).enqueue 4, Command.new m₁] ∧
    c.queue = [7, 4] ∧ m₂ = c'.manifold ∧ m₁.tri.cells ≠ start.tri.cells ∧ m₂.tri.cells ≠ m₁.tri.cells := by
  have key : ((buildCaches plainEnv k44).toOption.map fun cs =>
      let s : Mfld ℕ := ⟨k44, cs, 1, 1⟩
      decide ((accepted s = true ∧ FreshCentroids plainEnv s.tri ∧ Roomy s.geometry) ∧
        (FreshCentroids plainEnv (once s).tri ∧ Roomy (once s).geometry) ∧
        (∀ n ∈ flipsTried (twice s), FreshCentroids plainEnv n.tri ∧ Roomy n.geometry) ∧
        (twice s).geometry.N3 = 4 ∧ (twice s).caches.maxTime = 3 ∧
        (FreshCentroids plainEnv (fourFlips (twice s)).1.tri ∧ Roomy (fourFlips (twice s)).1.geometry) ∧
        (once s).tri.cells ≠ s.tri.cells ∧ (twice s).tri.cells ≠ (once s).tri.cells)) = some true := by decide +kernel
  cases hb : buildCaches plainEnv k44 with
  | error e => rw [hb] at key; simp [Except.toOption] at key
  | ok cs =>
    rw [hb] at key
    simp only [Except.toOption, Option.map_some, Option.some.injEq, decide_eq_true_eq] at key
    have hfit : Fit plainEnv ⟨k44, cs, 1, 1⟩ :=
      ⟨⟨sound44.closed, sound44.labels, sound44.times, sound44.quiet⟩, hb⟩
    have h44 : (⟨k44, cs, 1, 1⟩ : Mfld ℕ).tri = k44 := rfl
    generalize (⟨k44, cs, 1, 1⟩ : Mfld ℕ) = start at *
    rw [← h44] at key
    obtain ⟨⟨a1, t0⟩, t1, a3, a4, a5, t3, a6, a7⟩ := key
    obtain ⟨g', w1, w2⟩ := once_moved a1
    have W0 : Workshop octaHost plainEnv (OrdinaryArgs plainEnv .exact trialZero) (TameState plainEnv) start [start] [] :=
      .begun
    have W1 := W0.moved .fourFour (List.mem_singleton_self _) t0 (.inr w1) w2
    have W2 := W1.commanded (m := once start) (by simp)
    have W3 := W2.queued (c := .new (once start)) 4 (by simp)
    have W4 := W3.queued (c := (Command.new (once start)).enqueue 4) 7 (by simp)
    have W5 := W4.executed (c := ((Command.new (once start)).enqueue 4).enqueue 7) gen (by simp) (by
      intro n hn
      have : n = once start := by
        simpa [Command.enqueue, Command.new, attempts, MoveType.ofCode] using hn
      rw [this]; exact t1)
    have n1 := (workshop_next (base := octaBase) (R := .exact) (drawMove := flipAlways) (drawTrial := trialZero)
      (value := fun b => (b.toNat : ℚ)) (snapshot := octaSnapshot) plain_lawful hfit W5).1 (once start) (by simp)
    have hc' : ((((Command.new (once start)).enqueue 4).enqueue 7).execute (commandEngine plainEnv) gen).1.manifold =
        twice start := by
      obtain ⟨-, hstep⟩ := apply_next plain_lawful n1.fit t1.1 .fourFour gen
      obtain ⟨c1, k1, k2, -⟩ := hstep (((Command.new (once start)).enqueue 4).enqueue 7) [7] 4 rfl rfl
      show (Command.executeLoop (commandEngine plainEnv) [4, 7] _ gen).1.manifold = _
      rw [Command.executeLoop]
      have e : ([7] : List ℤ).reverse = [7] := rfl
      rw [e, k1]
      exact k2
    have W6 := W5.taken (List.mem_cons_self ..)
    have n2 := (workshop_next (base := octaBase) (R := .exact) (drawMove := flipAlways) (drawTrial := trialZero)
      (value := fun b => (b.toNat : ℚ)) (snapshot := octaSnapshot) plain_lawful hfit W6).1 _ (List.mem_cons_self ..)
    generalize hgc : (((Command.new (once start)).enqueue 4).enqueue 7).execute (commandEngine plainEnv) gen = r5 at *
    have e2 : r5.1.manifold = twice start := hc'
    rw [← e2] at a3 a4 a5 t3 a7
    have ht : ∀ p < quietMover.cadence.passes.toNat,
        ∀ n ∈ alwaysTried (realMover octaHost (octaOutside start) plainEnv flipAlways)
          ((alwaysPass (realMover octaHost (octaOutside start) plainEnv flipAlways))^[p] (r5.1.manifold, quietMover.gen)),
        TameState plainEnv n := by
      intro p hp n hn
      have : p = 0 := by change p < 1 at hp; omega
      subst this
      rw [Function.iterate_zero, id_eq] at hn
      rw [show quietMover.gen = octaMover.gen from rfl, (octa_pass a4 (octaOutside start)).2] at hn
      exact a3 n hn
    obtain ⟨⟨m3, hm3⟩, -⟩ := C87_succeeds (out := octaOutside start) (isDouble := IntegralValue) (isLong := IntegralValue)
      (base := octaBase) (R := .exact) (drawMove := flipAlways) (drawTrial := trialZero) (value := fun b => (b.toNat : ℚ))
      (snapshot := octaSnapshot)
      integerText_lawful sampleBuild_legible plain_lawful plain_kept quietMover (by decide) (by decide) (by decide) n2.fit
      (fun p hp n hn => (ht p hp n hn).1)
      (by rw [a5]; decide) (by
        intro p hp
        have : owed quietMover.cadence quietMover.writesFiles = [] := rfl
        rw [this] at hp
        cases hp) (disk := goodDisk) noFaults_noFaults
    have W7 := W6.always (octaOutside start) flipAlways quietMover goodDisk (List.mem_cons_self ..)
      (moves_keep_seed plain_kept) (by decide) (by decide) ht hm3
    have e3 : m3 = (fourFlips r5.1.manifold).1 := by
      obtain ⟨_, -, -, -, -, k⟩ := C73_checkpoints_true (host := octaHost) (out := octaOutside start)
        (n3 := fun m : Mfld ℕ => m.geometry.N3) (moves_keep_seed plain_kept) quietMover (by decide) (by decide) _ goodDisk
      rw [(k m3 hm3).2]
      unfold movedAfter
      rw [show quietMover.cadence.passes.toNat = 1 from rfl, Function.iterate_one,
        show quietMover.gen = octaMover.gen from rfl, (octa_pass a4 (octaOutside start)).1]
    obtain ⟨s0, hs0⟩ := (C90_constructor octaArgs).1.2
      ⟨⟨1, 1, 1, rfl, rfl, rfl, by norm_num⟩, by decide, by decide⟩
    have W8 := W7.sampled (before := octaOutside start) (out := octaOutside start) (.sample m3) goodDisk octa_args (.made hs0)
      (List.mem_cons_self ..) (fun n hn => by subst hn; rw [e3]; exact t3)
    exact ⟨start, once start, _, m3, _, _, _, hfit, W8, rfl, rfl, a6, a7⟩

end WorkshopExample

end CDT.Props
