/-
C13-C16: passes, checkpoints, publication and cadence of runs, for both strategies.
-/
import Verif.Lemmas.Schedule
import Verif.Lemmas.Calls
import Verif.Fixture.Toy

namespace CDT
open Spec
variable {M G P F S W : Type}

/-! ### C13 each pass attempts N3 moves -/

/-- C13 (Metropolis). A successful run of `P` passes consists of `P` histories, one per pass; the
pass starting in state `a` has exactly `N3(a)` entries, and all published counters
describe the concatenation. -/
theorem C13_metropolis_pass_lengths (eng : MetroEngine M G P) (out : MetroOutput M G F)
    (s s' : MetroStrategy G) (f f' : F) (m m' : M) (hc : 0 < s.cadence.checkpoint)
    (ok : s.run eng out m f = (.ok m', s', f')) :
    ∃ hs : List (List (MoveType × MoveOutcome)), hs.length = s.cadence.passes.toNat ∧
      PassChain eng.n3 (Evolves (fun a b mv => eng.check a b mv = true)) m hs m' ∧
      Describes s'.cmd s'.stats hs.flatten ∧
      s'.cmd.attempted.total = ((hs.map List.length).sum : Nat) := by
  rcases metro_run_cases eng out s m f with ⟨y, g', f'', hr'⟩ | ⟨r, g', f'', hx, hr'⟩
  · rw [hr'] at ok; cases ok
  · rw [hr'] at ok; cases ok
    obtain ⟨hs, h1, h2, h3, h4, _⟩ := metro_executeMoveRun hc hx
    refine ⟨hs, h1, h2, h3, ?_⟩
    have e : r.commandResults.attempted = r.strategyState.proposed := by
      apply Tracker.ext_get; intro mv; rw [h3.1.attempted, h3.2.proposed]
    rw [e, ← describes_total h3, h3.2.count, List.length_flatten]

/-- The operations a MoveAlways run hands to `execute_move_run`. -/
abbrev alwaysOps (eng : AlwaysEngine M G F) : RunOps M Unit (G × F) :=
  { n3 := eng.n3, pass := eng.pass,
    report := fun m c _ => eng.report m c,
    checkpoint := fun m c _ n => eng.checkpoint m c n }

theorem always_run_cases (eng : AlwaysEngine M G F) (s : AlwaysStrategy G) (m : M) (f : F) :
    (∃ e g' f', s.run eng m f = (.error e, { s with gen := g' }, f')) ∨
    (∃ r g' f', executeMoveRun (alwaysOps eng) s.cadence s.writesFiles m () (s.gen, f)
        = (.ok r, (g', f')) ∧
      s.run eng m f = (.ok r.manifold,
        { s with gen := g', results := r.commandResults, checkpointEvents := r.checkpointEvents },
        f')) := by
  unfold AlwaysStrategy.run
  rcases h : executeMoveRun (alwaysOps eng) s.cadence s.writesFiles m () (s.gen, f) with ⟨r, g', f'⟩
  cases r with
  | error e => exact .inl ⟨e, g', f', by simp [h]⟩
  | ok r => exact .inr ⟨r, g', f', rfl, by simp [h]⟩

/-- C13 (MoveAlways). The same for the unconditional strategy. -/
theorem C13_always_pass_lengths (eng : AlwaysEngine M G F) (s s' : AlwaysStrategy G) (f f' : F)
    (m m' : M) (ok : s.run eng m f = (.ok m', s', f')) :
    ∃ hs : List (List (MoveType × Bool)), hs.length = s.cadence.passes.toNat ∧
      PassChain eng.n3 (Applied (fun a b mv => eng.check a b mv = true)) m hs m' ∧
      DescribesFlags s'.results hs.flatten ∧
      s'.results.attempted.total = ((hs.map List.length).sum : Nat) := by
  rcases always_run_cases eng s m f with ⟨y, g', f'', hr'⟩ | ⟨r, g', f'', hx, hr'⟩
  · rw [hr'] at ok; cases ok
  · rw [hr'] at ok; cases ok
    obtain ⟨v, w1, hl, _, rfl⟩ := executeMoveRun_ok hx
    have := runLoop_ind (alwaysOps eng) s.cadence s.writesFiles
      (fun k v _ => ∃ hs : List (List (MoveType × Bool)), hs.length = k ∧
        PassChain eng.n3 (Applied (fun a b mv => eng.check a b mv = true)) m hs v.current ∧
        DescribesFlags v.totals hs.flatten)
      (by
        rintro k v w v' w' ⟨hs, hk, hch, hd⟩ hp
        obtain ⟨p, w1, hpass, h1, h2, h3, h4⟩ := runPass_ok hp
        obtain ⟨h, hn, he, dc⟩ := alwaysPass_ok hpass
        refine ⟨hs ++ [h], by simp [hk], ?_, ?_⟩
        · rw [h1]; exact .snoc hch (by rw [hn]; simp; exact max_comm _ _) he
        · simp only [List.flatten_append, List.flatten_cons, List.flatten_nil, List.append_nil]
          rw [h2]
          exact describesFlags_accumulate hd dc)
      s.cadence.passes.toNat 0 ⟨m, {}, (), 0⟩ (s.gen, f) v w1
      ⟨[], rfl, .nil m, describesFlags_nil⟩ hl
    obtain ⟨hs, h1, h2, h3⟩ := this
    refine ⟨hs, by simpa using h1, h2, h3, ?_⟩
    show v.totals.attempted.total = _
    rw [describesFlags_total h3, List.length_flatten]

/-- Non-vacuity: the toy run with three passes, whose passes have different lengths. -/
example :
    let r := Toy.strategy0.run Toy.calm Toy.output Toy.view1 []
    (match r.1 with | .ok _ => true | .error _ => false) = true ∧
    Toy.strategy0.cadence.passes = 3 ∧ r.2.1.cmd.attempted.total = 12 := by
  refine ⟨?_, ?_, ?_⟩ <;> decide +kernel

/-! ### C14 checkpoint cadence -/

/-- The observer of `Spec.observed` does not influence a run. -/
theorem C14_observer_is_transparent (ops : RunOps M S W) (P C : Nat) (hC : 0 < C) (writes : Bool)
    (m : M) (s : S) (w : W) :
    let cad : Cadence := ⟨P, C⟩
    let o := executeMoveRun (observed ops) cad writes m s (w, [])
    (o.1, o.2.1) = executeMoveRun ops cad writes m s w := by
  intro cad o
  obtain ⟨p1, p2, p3, p4⟩ := runLoop_observed ops cad writes C hC rfl P 0 ⟨m, {}, s, 0⟩ w []
    (by simp [schedule_zero])
  simp only [o, executeMoveRun]
  have hP : cad.passes.toNat = P := by simp [cad]
  rw [hP]
  rcases ho : runLoop ops cad writes P 0 ⟨m, {}, s, 0⟩ w with ⟨r, w1⟩
  rcases hob : runLoop (observed ops) cad writes P 0 ⟨m, {}, s, 0⟩ (w, []) with ⟨r', w1', l'⟩
  simp only [Nat.cast_zero] at p1 p2
  rw [ho, hob] at p1 p2
  simp only at p1 p2
  subst p1 p2
  cases r' with
  | error e => rfl
  | ok v =>
    simp only
    have key : ∀ x w2, ops.report v.current v.totals v.state w1' = (x, w2) →
        (observed ops).report v.current v.totals v.state (w1', l') = (x, (w2, l')) := by
      intro x w2 hx; simp [observed, hx]
    rcases hx : ops.report v.current v.totals v.state w1' with ⟨x, w2⟩
    rw [key x w2 hx]
    cases x <;> rfl

/-- C14. In every run with positive interval `C`: if it succeeds, checkpoints were written exactly
after passes `C, 2C, ..., floor(P/C)*C` in this order when file output is enabled and never
otherwise, and `floor(P/C)` checkpoint events are reported; if it fails, the
checkpoints attempted are a prefix of that schedule. -/
theorem C14_checkpoint_schedule (ops : RunOps M S W) (P C : Nat) (hC : 0 < C) (writes : Bool)
    (m : M) (s : S) (w : W) :
    let cad : Cadence := ⟨P, C⟩
    let o := executeMoveRun (observed ops) cad writes m s (w, [])
    (∀ r, o.1 = .ok r →
      o.2.2 = (if writes then schedule P C else []) ∧ r.checkpointEvents = ((P / C : Nat) : Int)) ∧
    o.2.2 <+: (if writes then schedule P C else []) := by
  intro cad o
  obtain ⟨p1, p2, p3, p4⟩ := runLoop_observed ops cad writes C hC rfl P 0 ⟨m, {}, s, 0⟩ w []
    (by simp [schedule_zero])
  simp only [Nat.cast_zero, Nat.zero_add] at p1 p2 p3 p4
  have hP : cad.passes.toNat = P := by simp [cad]
  have hev : ∀ v w', runLoop ops cad writes P 0 ⟨m, {}, s, 0⟩ w = (.ok v, w') →
      v.events = ((P / C : Nat) : Int) := by
    intro v w' hl
    have := runLoop_ind ops cad writes (fun k v _ => v.events = (k : Int) / (C : Int))
      (by
        intro k v w v' w' he hp
        obtain ⟨p, w1, hpass, h1, h2, h3, h4⟩ := runPass_ok hp
        have := events_step k (C : Int) (by exact_mod_cast hC) v.events he
        rcases h4 with ⟨hm, hevt, _⟩ | ⟨hm, hevt, _⟩
        · rw [hevt]; exact this.1 hm
        · rw [hevt]; exact this.2 hm)
      P 0 ⟨m, {}, s, 0⟩ w v w' (by simp) hl
    simpa using this
  simp only [o, executeMoveRun]
  rw [hP]
  rcases ho : runLoop ops cad writes P 0 ⟨m, {}, s, 0⟩ w with ⟨r, w1⟩
  rcases hob : runLoop (observed ops) cad writes P 0 ⟨m, {}, s, 0⟩ (w, []) with ⟨r', w1', l'⟩
  rw [ho] at p1 p2 p3
  rw [hob] at p1 p2 p3 p4
  simp only at p1 p2 p3 p4
  subst p1 p2
  cases r' with
  | error e => exact ⟨by simp, p4⟩
  | ok v =>
    have hl := p3 v rfl
    have he := hev v w1' ho
    simp only
    have key : ∀ x w2, ops.report v.current v.totals v.state w1' = (x, w2) →
        (observed ops).report v.current v.totals v.state (w1', l') = (x, (w2, l')) := by
      intro x w2 hx; simp [observed, hx]
    rcases hx : ops.report v.current v.totals v.state w1' with ⟨x, w2⟩
    rw [key x w2 hx]
    cases x with
    | error e => exact ⟨by simp, p4⟩
    | ok u => exact ⟨fun r hr => by cases hr; exact ⟨hl, he⟩, p4⟩

/-- C14. The reported number of checkpoint events of a successful Metropolis run. -/
theorem C14_metropolis_events (eng : MetroEngine M G P) (out : MetroOutput M G F)
    (s s' : MetroStrategy G) (f f' : F) (m m' : M) (hc : 0 < s.cadence.checkpoint)
    (hp : 0 ≤ s.cadence.passes) (ok : s.run eng out m f = (.ok m', s', f')) :
    s'.checkpointEvents = s.cadence.passes / s.cadence.checkpoint := by
  rcases metro_run_cases eng out s m f with ⟨y, g', f'', hr'⟩ | ⟨r, g', f'', hx, hr'⟩
  · rw [hr'] at ok; cases ok
  · rw [hr'] at ok; cases ok
    obtain ⟨hs, _, _, _, _, h5⟩ := metro_executeMoveRun hc hx
    show r.checkpointEvents = _
    rw [h5, Int.toNat_of_nonneg hp]

/-- Non-vacuity: 7 passes with interval 3. -/
example : schedule 7 3 = [3, 6] ∧ schedule 2 3 = [] ∧ schedule 4 1 = [1, 2, 3, 4] := by decide

example : (Toy.strategy0.run Toy.calm Toy.output Toy.view1 []).2.2 = schedule 3 2 := by decide +kernel

/-! ### C15 all-or-nothing publication -/

/-- C15 (Metropolis). If anything throws during a run, nothing but the random generator of the
strategy object has changed. -/
theorem C15_metropolis_throw (eng : MetroEngine M G P) (out : MetroOutput M G F)
    (s s' : MetroStrategy G) (f f' : F) (m : M) (e : Exc)
    (he : s.run eng out m f = (.error e, s', f')) :
    s'.cmd = s.cmd ∧ s'.stats = s.stats ∧ s'.checkpointEvents = s.checkpointEvents ∧
    s'.cadence = s.cadence ∧ s'.writesFiles = s.writesFiles := by
  rcases metro_run_cases eng out s m f with ⟨y, g', f'', hr'⟩ | ⟨r, g', f'', hx, hr'⟩
  · rw [hr'] at he; cases he; exact ⟨rfl, rfl, rfl, rfl, rfl⟩
  · rw [hr'] at he; cases he

/-- C15 (Metropolis). A run's result and published statistics depend only on the manifold,
cadence, generator and environment, never on what the strategy published before. -/
theorem C15_metropolis_fresh_statistics (eng : MetroEngine M G P) (out : MetroOutput M G F)
    (s t : MetroStrategy G) (f : F) (m : M) (hc : s.cadence = t.cadence)
    (hw : s.writesFiles = t.writesFiles) (hg : s.gen = t.gen) :
    (s.run eng out m f).1 = (t.run eng out m f).1 ∧
    (∀ x, (s.run eng out m f).1 = .ok x →
      (s.run eng out m f).2.1.cmd = (t.run eng out m f).2.1.cmd ∧
      (s.run eng out m f).2.1.stats = (t.run eng out m f).2.1.stats ∧
      (s.run eng out m f).2.1.checkpointEvents = (t.run eng out m f).2.1.checkpointEvents) := by
  have h : ∀ u : MetroStrategy G, s.cadence = u.cadence → s.writesFiles = u.writesFiles →
      s.gen = u.gen → ∀ X, executeMoveRun (metroOps eng out) s.cadence s.writesFiles m
        { geometry := eng.geometry m } (s.gen, f) = X →
      u.run eng out m f = match X with
        | (.error e, (g', f')) => (.error e, { u with gen := g' }, f')
        | (.ok r, (g', f')) =>
          (.ok r.manifold,
           { u with gen := g', cmd := r.commandResults, stats := r.strategyState,
                    checkpointEvents := r.checkpointEvents }, f') := by
    intro u h1 h2 h3 X hX
    subst hX
    rw [h1, h2, h3]
    rfl
  rcases hX : executeMoveRun (metroOps eng out) s.cadence s.writesFiles m
        { geometry := eng.geometry m } (s.gen, f) with ⟨r, g', f'⟩
  rw [h s rfl rfl rfl _ hX, h t hc hw hg _ hX]
  cases r <;> simp

/-- C15 (MoveAlways). -/
theorem C15_always_throw (eng : AlwaysEngine M G F) (s s' : AlwaysStrategy G) (f f' : F) (m : M)
    (e : Exc) (he : s.run eng m f = (.error e, s', f')) :
    s'.results = s.results ∧ s'.checkpointEvents = s.checkpointEvents ∧
    s'.cadence = s.cadence ∧ s'.writesFiles = s.writesFiles := by
  rcases always_run_cases eng s m f with ⟨y, g', f'', hr'⟩ | ⟨r, g', f'', hx, hr'⟩
  · rw [hr'] at he; cases he; exact ⟨rfl, rfl, rfl, rfl⟩
  · rw [hr'] at he; cases he

/-- C15 (MoveAlways). -/
theorem C15_always_fresh_statistics (eng : AlwaysEngine M G F) (s t : AlwaysStrategy G) (f : F)
    (m : M) (hc : s.cadence = t.cadence) (hw : s.writesFiles = t.writesFiles) (hg : s.gen = t.gen) :
    (s.run eng m f).1 = (t.run eng m f).1 ∧
    (∀ x, (s.run eng m f).1 = .ok x →
      (s.run eng m f).2.1.results = (t.run eng m f).2.1.results ∧
      (s.run eng m f).2.1.checkpointEvents = (t.run eng m f).2.1.checkpointEvents) := by
  have h : ∀ u : AlwaysStrategy G, s.cadence = u.cadence → s.writesFiles = u.writesFiles →
      s.gen = u.gen → ∀ X, executeMoveRun (alwaysOps eng) s.cadence s.writesFiles m ()
        (s.gen, f) = X →
      u.run eng m f = match X with
        | (.error e, (g', f')) => (.error e, { u with gen := g' }, f')
        | (.ok r, (g', f')) =>
          (.ok r.manifold,
           { u with gen := g', results := r.commandResults, checkpointEvents := r.checkpointEvents },
           f') := by
    intro u h1 h2 h3 X hX
    subst hX
    rw [h1, h2, h3]
    rfl
  rcases hX : executeMoveRun (alwaysOps eng) s.cadence s.writesFiles m () (s.gen, f) with ⟨r, g', f'⟩
  rw [h s rfl rfl rfl _ hX, h t hc hw hg _ hX]
  cases r <;> simp

/-- Non-vacuity: a run that throws midway on an already used strategy object. -/
example :
    let s1 := (Toy.strategy0.run Toy.calm Toy.output Toy.view1 []).2.1
    (match (s1.run Toy.engine Toy.output Toy.view0 []).1 with | .ok _ => false | .error _ => true) = true ∧
    0 < s1.stats.proposed.total := by
  refine ⟨?_, ?_⟩ <;> decide +kernel

/-! ### C16 cadence validation -/

/-- C16. A cadence exists exactly for positive values, which it stores unchanged. -/
theorem C16_cadence_accepts_iff (p c : Int) :
    (∃ k, Cadence.parse p c = .ok k) ↔ 0 < p ∧ 0 < c := by
  unfold Cadence.parse
  constructor
  · rintro ⟨k, h⟩
    split at h
    · cases h
    · split at h
      · cases h
      · omega
  · rintro ⟨h1, h2⟩
    exact ⟨⟨p, c⟩, by rw [if_neg (by omega), if_neg (by omega)]⟩

/-- C16. An accepted cadence stores the requested values; the first violated field is reported. -/
theorem C16_cadence_diagnostics (p c : Int) :
    (∀ k, Cadence.parse p c = .ok k → k.passes = p ∧ k.checkpoint = c) ∧
    (p ≤ 0 → Cadence.parse p c = .error .nonpositivePasses) ∧
    (0 < p → c ≤ 0 → Cadence.parse p c = .error .nonpositiveCheckpoint) ∧
    (parseMoveRunCadence p c = .error .invalidArgument ↔ p ≤ 0 ∨ c ≤ 0) := by
  unfold parseMoveRunCadence Cadence.parse
  refine ⟨fun k h => ?_, fun h => by rw [if_pos h], fun h1 h2 => by
    rw [if_neg (by omega), if_pos h2], ?_⟩
  · split at h
    · cases h
    · split at h
      · cases h
      · cases h; exact ⟨rfl, rfl⟩
  · by_cases h1 : p ≤ 0
    · simp [h1]
    · by_cases h2 : c ≤ 0
      · simp [h1, h2]
      · simp [h1, h2]

/-- C16. Hence every run with a validated cadence has at least one pass and a positive divisor in
its checkpoint test. -/
theorem C16_no_division_by_zero (p c : Int) (k : Cadence) (h : parseMoveRunCadence p c = .ok k) :
    k.checkpoint ≠ 0 ∧ 0 < k.checkpoint ∧ 1 ≤ k.passes.toNat := by
  unfold parseMoveRunCadence at h
  split at h
  · rename_i c' hc
    cases h
    have hp := (C16_cadence_accepts_iff p c).1 ⟨_, hc⟩
    have := (C16_cadence_diagnostics p c).1 _ hc
    omega
  · cases h

example : ∃ k, parseMoveRunCadence 10 3 = .ok k ∧ k.passes = 10 := ⟨_, rfl, rfl⟩

end CDT
