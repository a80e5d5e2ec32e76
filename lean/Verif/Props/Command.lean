/-
C11, C12: MoveCommand batches.  C17: counters.  C18: failure classification.
-/
import Verif.Lemmas.Command
import Verif.Fixture.Toy
import Mathlib.Tactic.IntervalCases

namespace CDT
open Spec
variable {M G : Type}

/-- Enqueue a list of codes one after the other. -/
def enqueueAll (c : Command M) (l : List Int) : Command M := l.foldl Command.enqueue c

theorem enqueueAll_queue (l : List Int) : ∀ (c : Command M),
    (enqueueAll c l).queue = l.reverse ++ c.queue ∧ (enqueueAll c l).manifold = c.manifold ∧
      (enqueueAll c l).results = c.results := by
  induction l with
  | nil => intro c; simp [enqueueAll]
  | cons x xs ih =>
    intro c
    have := ih (c.enqueue x)
    simp only [enqueueAll, List.foldl_cons] at this ⊢
    rw [this.1, this.2.1, this.2.2]
    simp [Command.enqueue]

/-- C11. Enqueue any moves on a new command and execute: if no exception escapes and all codes
are declared moves, the queue is empty and there is a history with exactly the
enqueued moves in the order they were enqueued, whose successes lead step by step
from the initial to the final manifold through checked candidates (failures do
not move), and every counter is the number of entries of its kind. -/
theorem C11_fifo_exact_accounting (eng : CommandEngine M G) (m : M) (l : List MoveType) (g : G)
    (hdone : ∀ e, ((enqueueAll (Command.new m) (l.map (fun x => (x.asInteger.val : Int)))).execute
      eng g).2.2 ≠ .threw e) :
    let c' := ((enqueueAll (Command.new m) (l.map (fun x => (x.asInteger.val : Int)))).execute eng g).1
    c'.queue = [] ∧ ∃ h : List (MoveType × Bool), h.map Prod.fst = l ∧
      Applied eng.Checked m h c'.manifold ∧ DescribesFlags c'.results h ∧
      c'.results.attempted.total = l.length := by
  obtain ⟨e1, e2, e3⟩ := enqueueAll_queue (l.map (fun x => (x.asInteger.val : Int))) (Command.new m)
  simp only [Command.new, List.append_nil] at e1 e2 e3
  generalize hc : enqueueAll (Command.new m) (l.map (fun x => (x.asInteger.val : Int))) = c at *
  simp only [Command.new] at hc
  rw [hc] at e1 e2 e3
  unfold Command.execute at hdone ⊢
  obtain ⟨h, rest, q1, q2, q3, q4⟩ := executeLoop_spec eng c.queue.reverse c g (by simp)
  rw [e1, List.reverse_reverse] at q1
  rcases q4 with ⟨rfl, _, r3⟩ | ⟨code, later, rfl, hcode, _⟩ | ⟨mv, later, e, rfl, hend, _⟩
  · have hl : h.map Prod.fst = l := by
      have : codes h = l.map (fun x => (x.asInteger.val : Int)) := by simpa using q1.symm
      unfold codes at this
      have inj : Function.Injective (fun x : MoveType => (x.asInteger.val : Int)) := by
        intro a b hab; exact MoveType.asInteger_inj (Fin.ext (by simpa using hab))
      apply List.map_injective_iff.2 inj
      rw [List.map_map]; exact this
    have d : DescribesFlags (Command.executeLoop eng c.queue.reverse c g).1.results h := by
      simpa using r3 [] (by rw [e3]; exact describesFlags_nil)
    refine ⟨by simpa using q3, h, hl, by rw [← e2]; exact q2, d, ?_⟩
    rw [describesFlags_total d, ← hl]; simp
  · exfalso
    have : code ∈ l.map (fun x => (x.asInteger.val : Int)) := by rw [q1]; simp
    obtain ⟨x, _, rfl⟩ := List.mem_map.1 this
    have : MoveType.ofCode (x.asInteger.val : Int) = some x := by cases x <;> rfl
    rw [this] at hcode; cases hcode
  · exact absurd hend (hdone e)

/-- C11 corollary: the documented identities. -/
theorem C11_attempted_eq (cmd : CommandResults) (h : List (MoveType × Bool))
    (d : DescribesFlags cmd h) (m : MoveType) :
    cmd.attempted.get m = cmd.succeeded.get m + cmd.failed.get m ∧
    0 ≤ cmd.succeeded.get m ∧ 0 ≤ cmd.failed.get m := by
  rw [d.attempted, d.succeeded, d.failed]
  exact ⟨rfl, countFlag_nonneg _ _ _, countFlag_nonneg _ _ _⟩

/-- C12. If an exception escapes while a batch executes, some prefix `h` of the queued moves was
completed in order; the manifold is the one committed by that prefix, the throwing
move is the next to run, every later move is still queued behind it, and the
counters are those of the completed prefix plus one attempt of the throwing move. -/
theorem C12_exception_safety (eng : CommandEngine M G) (c : Command M) (g : G) (k)
    (hk : DescribesFlags c.results k) (e : Exc) (he : (c.execute eng g).2.2 = .threw e) :
    ∃ (h : List (MoveType × Bool)) (mv : MoveType) (later : List Int) (r : CommandResults),
      c.queue.reverse = codes h ++ (mv.asInteger.val : Int) :: later ∧
      (c.execute eng g).1.queue.reverse = (mv.asInteger.val : Int) :: later ∧
      Applied eng.Checked c.manifold h (c.execute eng g).1.manifold ∧
      DescribesFlags r (k ++ h) ∧
      (c.execute eng g).1.results.succeeded = r.succeeded ∧
      (c.execute eng g).1.results.failed = r.failed ∧
      ∀ m, (c.execute eng g).1.results.attempted.get m =
        r.attempted.get m + if mv = m then 1 else 0 := by
  unfold Command.execute at he ⊢
  obtain ⟨h, rest, q1, q2, q3, q4⟩ := executeLoop_spec eng c.queue.reverse c g (by simp)
  rcases q4 with ⟨rfl, hend, r3⟩ | ⟨code, later, rfl, hcode, hend⟩ | ⟨mv, later, e', rfl, hend, r3⟩
  · rw [hend] at he; cases he
  · rw [hend] at he; cases he
  · obtain ⟨r, d, hr⟩ := r3 k hk
    refine ⟨h, mv, later, r, q1, by rw [q3]; simp, q2, d, by rw [hr], by rw [hr], fun m => ?_⟩
    rw [hr, Tracker.get_inc]

/-- C12. Executing again retries exactly the remaining moves from the committed manifold: the
second execution is the execution of a command holding that manifold and the
remaining queue. -/
theorem C12_reexecution (eng : CommandEngine M G) (c : Command M) (g g' : G) (e : Exc)
    (he : (c.execute eng g).2.2 = .threw e) :
    ∃ (h : List (MoveType × Bool)) (rest : List Int), rest ≠ [] ∧
      c.queue.reverse = codes h ++ rest ∧
      Applied eng.Checked c.manifold h (c.execute eng g).1.manifold ∧
      (c.execute eng g).1.execute eng g' =
        Command.execute eng ⟨(c.execute eng g).1.manifold, rest.reverse, (c.execute eng g).1.results⟩ g' := by
  unfold Command.execute at he ⊢
  obtain ⟨h, rest, q1, q2, q3, q4⟩ := executeLoop_spec eng c.queue.reverse c g (by simp)
  refine ⟨h, rest, ?_, q1, q2, ?_⟩
  · rintro rfl
    rcases q4 with ⟨_, hend, _⟩ | ⟨_, _, h, _⟩ | ⟨_, _, _, h, _⟩
    · rw [hend] at he; cases he
    · cases h
    · cases h
  · rw [← q3]

/-- Finding: `MoveCommand::execute` never reports an undeclared move code as UNKNOWN_MOVE; the
bounds-checked counter increment terminates the program first. -/
theorem C11_undeclared_code_terminates (eng : CommandEngine M G) (m : M) (g : G) (code : Int)
    (hc : code < 0 ∨ 4 < code) :
    ((Command.new m).enqueue code |>.execute eng g).2.2 = .terminated := by
  have hn : MoveType.ofCode code = none := by
    unfold MoveType.ofCode; split <;> first | rfl | omega
  simp [Command.execute, Command.enqueue, Command.new, Command.executeLoop, Command.stepBack, hn]

/-- Non-vacuity for C11/C12: a batch with successes and failures, and one that throws in the
middle, is retried and finishes. -/
def toyCommand : CommandEngine ManifoldView Nat where
  applyMove := Toy.engine.propose
  check := checkMove

example :
    let c := (enqueueAll (Command.new Toy.view0) [0, 1, 2, 4])
    (c.execute toyCommand 0).2.2 = .done ∧
    (c.execute toyCommand 0).1.results.succeeded.total = 3 ∧
    (c.execute toyCommand 0).1.results.failed.total = 1 ∧
    (c.execute toyCommand 0).1.manifold = Toy.shift (Toy.shift (Toy.shift Toy.view0 .twoThree) .twoSix) .fourFour := by
  refine ⟨by decide +kernel, by decide +kernel, by decide +kernel, by decide +kernel⟩

example :
    let c := (enqueueAll (Command.new Toy.view0) [0, 1, 2, 4])
    (c.execute toyCommand 8).2.2 = .threw (.other 1) ∧ (c.execute toyCommand 8).1.queue = [4, 2] ∧
    ((c.execute toyCommand 8).1.execute toyCommand 11).2.2 = .done := by
  refine ⟨by decide +kernel, by decide +kernel, by decide +kernel⟩

/-! ### C17 counters -/

/-- C17. Adding trackers is exact per move and hence associative and commutative with unit zero. -/
theorem C17_add_exact (a b c : Tracker) :
    (∀ m, (a.add b).get m = a.get m + b.get m) ∧ a.add b = b.add a ∧
    (a.add b).add c = a.add (b.add c) ∧ a.add Tracker.zero = a := by
  refine ⟨fun m => rfl, ?_, ?_, ?_⟩ <;> funext i <;> simp [Tracker.add, Tracker.zero] <;> omega

/-- C17. `total` is the sum over the five move types; it is additive, and incrementing one move adds
one to it and to that move only. -/
theorem C17_total (a b : Tracker) (m : MoveType) :
    a.total = a.get .twoThree + a.get .threeTwo + a.get .twoSix + a.get .sixTwo + a.get .fourFour ∧
    (a.add b).total = a.total + b.total ∧ (a.inc m).total = a.total + 1 ∧
    (∀ n, (a.inc m).get n = if m = n then a.get n + 1 else a.get n) ∧ Tracker.zero.total = 0 := by
  refine ⟨Tracker.total_eq a, ?_, ?_, ?_, rfl⟩
  · simp only [Tracker.total_eq, Tracker.get_add]; omega
  · simp only [Tracker.total_eq, Tracker.get_inc]; cases m <;> simp <;> omega
  · intro n; rw [Tracker.get_inc]; split <;> simp

/-- C17. The named accessors read the counter of their move. -/
theorem C17_accessors (t : Tracker) :
    t.twoThreeMoves = t.get .twoThree ∧ t.threeTwoMoves = t.get .threeTwo ∧
    t.twoSixMoves = t.get .twoSix ∧ t.sixTwoMoves = t.get .sixTwo ∧
    t.fourFourMoves = t.get .fourFour := ⟨rfl, rfl, rfl, rfl, rfl⟩

/-- C17. Checked indexing agrees with move indexing and exists exactly for 0..4; the move
conversions are mutually inverse. -/
theorem C17_indexing (t : Tracker) (i : Int) (m : MoveType) (n : Nat) :
    ((t.at? i).isSome ↔ 0 ≤ i ∧ i < 5) ∧ t.at? (m.asInteger.val : Int) = some (t.get m) ∧
    moveFromIndex m.asInteger.val = some m ∧ (moveFromIndex n = some m ↔ n = m.asInteger.val) ∧
    (moveFromIndex n = none ↔ 5 ≤ n) := by
  refine ⟨?_, ?_, ?_, ?_, ?_⟩
  · unfold Tracker.at?; split <;> simp_all
  · cases m <;> rfl
  · cases m <;> rfl
  · constructor
    · intro h
      unfold moveFromIndex at h
      split at h
      · cases h
      · have : n < 5 := by omega
        interval_cases n <;> simp at h <;> subst h <;> rfl
    · rintro rfl; cases m <;> rfl
  · unfold moveFromIndex
    constructor
    · intro h
      by_contra hn
      rw [if_neg (by omega)] at h
      have : n < 5 := by omega
      interval_cases n <;> simp at h
    · intro h; rw [if_pos (by omega)]

/-- C17. Accumulating a pass and consuming a command's results neither loses nor double-counts. -/
theorem C17_accumulate_consume (tot : CommandResults) (c : Command M) (m : MoveType) :
    let r := c.consumeResults
    (tot.accumulate r.1).attempted.get m = tot.attempted.get m + c.results.attempted.get m ∧
    (tot.accumulate r.1).succeeded.get m = tot.succeeded.get m + c.results.succeeded.get m ∧
    (tot.accumulate r.1).failed.get m = tot.failed.get m + c.results.failed.get m ∧
    r.2.results.attempted.get m = 0 ∧ r.2.results.succeeded.get m = 0 ∧
    r.2.results.failed.get m = 0 ∧ r.2.manifold = c.manifold ∧ r.2.queue = c.queue :=
  ⟨rfl, rfl, rfl, rfl, rfl, rfl, rfl, rfl⟩

/-- C17. Counters that describe a history of fewer than 2^31 attempts fit 32-bit integers, and
so does every partial sum of `total`. -/
theorem C17_no_overflow (cmd : CommandResults) (h : List (MoveType × Bool))
    (d : DescribesFlags cmd h) (hlen : h.length < 2 ^ 31) :
    cmd.attempted.InRange ∧ cmd.succeeded.InRange ∧ cmd.failed.InRange ∧
    cmd.attempted.total ≤ 2147483647 := by
  have ht := describesFlags_total d
  have hs := countFlag_total h
  have nn := countFlag_nonneg h
  have key : ∀ m b, 0 ≤ countFlag h m b ∧ countFlag h m b ≤ 2147483647 := by
    intro m b
    have n1 := nn .twoThree true; have n2 := nn .twoThree false
    have n3 := nn .threeTwo true; have n4 := nn .threeTwo false
    have n5 := nn .twoSix true; have n6 := nn .twoSix false
    have n7 := nn .sixTwo true; have n8 := nn .sixTwo false
    have n9 := nn .fourFour true; have n10 := nn .fourFour false
    cases m <;> cases b <;> constructor <;> omega
  have key2 : ∀ m, countFlag h m true + countFlag h m false ≤ 2147483647 := by
    intro m
    have n1 := nn .twoThree true; have n2 := nn .twoThree false
    have n3 := nn .threeTwo true; have n4 := nn .threeTwo false
    have n5 := nn .twoSix true; have n6 := nn .twoSix false
    have n7 := nn .sixTwo true; have n8 := nn .sixTwo false
    have n9 := nn .fourFour true; have n10 := nn .fourFour false
    cases m <;> omega
  have idx : ∀ (i : Fin 5), ∃ m : MoveType, m.asInteger = i := by
    intro i
    match i with
    | 0 => exact ⟨.twoThree, rfl⟩
    | 1 => exact ⟨.threeTwo, rfl⟩
    | 2 => exact ⟨.twoSix, rfl⟩
    | 3 => exact ⟨.sixTwo, rfl⟩
    | 4 => exact ⟨.fourFour, rfl⟩
  refine ⟨fun i => ?_, fun i => ?_, fun i => ?_, by omega⟩ <;> obtain ⟨m, rfl⟩ := idx i
  · have := d.attempted m; unfold Tracker.get at this
    have := key2 m; have := key m true; have := key m false; omega
  · have := d.succeeded m; unfold Tracker.get at this
    have := key m true; omega
  · have := d.failed m; unfold Tracker.get at this
    have := key m false; omega

/-- Finding (boundary): the 2^31-th attempt of one type does not fit the counter, whose increment
is then undefined behaviour; the hypothesis above is sharp. -/
theorem C17_overflow_boundary :
    ∃ (h : List (MoveType × Bool)) (cmd : CommandResults), h.length = 2 ^ 31 ∧ DescribesFlags cmd h ∧
      ¬ cmd.attempted.InRange := by
  obtain ⟨n, hn⟩ : ∃ n : Nat, n = 2 ^ 31 := ⟨_, rfl⟩
  have hf : ∀ m b, countFlag (List.replicate n (MoveType.twoThree, true)) m b =
      if MoveType.twoThree = m ∧ true = b then (n : Int) else 0 := by
    intro m b
    unfold countFlag
    rw [List.filter_replicate]
    by_cases h1 : MoveType.twoThree = m <;> cases b <;> simp [h1]
  refine ⟨List.replicate n (.twoThree, true),
    ⟨fun i => if i = 0 then n else 0, fun i => if i = 0 then n else 0, Tracker.zero⟩,
    by rw [List.length_replicate, hn], ⟨fun m => ?_, fun m => ?_, fun m => ?_⟩, fun h => ?_⟩
  · rw [hf, hf]; cases m <;> simp [Tracker.get, MoveType.asInteger]
  · rw [hf]; cases m <;> simp [Tracker.get, MoveType.asInteger]
  · rw [hf]; simp
  · have := (h 0).2
    simp only [if_true] at this
    omega

/-! ### C18 failure classification -/

/-- C18. Every failure gives exactly one of two outcomes, chosen as documented. -/
theorem C18_failure_classification (f : MoveFailure) :
    (outcomeFrom f = .inapplicable ↔
      f = .noCandidate ∨ f = .invalidTopology ∨ f = .causalInvalidity) ∧
    (outcomeFrom f = .executionFailed ↔
      f = .staleCandidate ∨ f = .executionFailure ∨ f = .invariantViolation ∨ f = .unknownMove) ∧
    outcomeFrom f ≠ .metropolisAccepted ∧ outcomeFrom f ≠ .metropolisRejected ∧
    outcomeFrom f ≠ .succeeded ∧ (outcomeFrom f).successful = false ∧ (outcomeFrom f).accepted = false := by
  cases f <;> decide

/-- C18. The outcome predicates: accepted implies successful; successful means a candidate was
built; outcome codes are distinct. -/
theorem C18_outcome_predicates (o o' : MoveOutcome) :
    (o.accepted = true ↔ o = .metropolisAccepted) ∧
    (o.successful = true ↔ o = .metropolisAccepted ∨ o = .metropolisRejected ∨ o = .succeeded) ∧
    (o.code = o'.code → o = o') := by
  cases o <;> cases o' <;> decide

/-- C18. Failure messages are non-empty and distinct, so a report identifies its failure. -/
theorem C18_messages_distinct (f f' : MoveFailure) (h : f.message = f'.message) : f = f' := by
  cases f <;> cases f' <;> first | rfl | (exact absurd h (by decide))

end CDT
