import Verif.Lemmas.ConsoleRun
import Verif.Fixture.Toy
import Verif.Props.Run
/-
C91: what a run prints on standard output is true of the run.
-/
namespace CDT
open Spec

section
variable {M G P F : Type} {faults : PrintFaults}
  {seed stream : G → BitVec 64}

theorem always_tells (eng : AlwaysEngine M G F)
    (checkpoint : M → CommandResults → ℤ → Eff ((G × F) × Console) Unit)
    (hprint : ∀ m c n, OnlyPrints (checkpoint m c n)) :
    Tells faults (W := G × F)
      { n3 := eng.n3, pass := fun m u n => besideConsole (eng.pass m u n),
        report := fun _ cmd _ => onConsole (sayAll faults (alwaysResultLines cmd)),
        checkpoint := fun m cmd _ n => checkpoint m cmd n }
      (fun cmd (_ : Unit) => alwaysResultLines cmd) flagReportText (fun cmd _ h => DescribesFlags cmd h)
      (fun _ => ()) (fun x h y => Applied (fun a b mv => eng.check a b mv = true) x.1 h y.1) (fun _ _ _ => True) (fun _ => True) where
  any := ⟨[], trivial⟩
  stays _ _ _ _ _ _ := rfl
  refl _ := trivial
  trans _ _ := trivial
  keeps _ _ _ _ _ := trivial
  reports _ _ _ := rfl
  text _ _ _ d := alwaysReport_eq d
  silent _ _ _ _ _ := rfl
  pass {m s n w c p w'} h := by
    simp only [besideConsole] at h
    rcases hp : eng.pass m s n w with ⟨r, w1⟩
    rw [hp] at h
    cases h
    obtain ⟨hq, hl, he, dc⟩ := alwaysPass_ok hp
    exact ⟨hq, hl, he, fun tot h d => describesFlags_accumulate d dc⟩
  checkpoint m c _ n w con := let ⟨t, h⟩ := hprint m c n w con; ⟨t, t, h, List.prefix_refl _, trivial, fun _ => trivial, fun _ => ⟨rfl, trivial⟩⟩

theorem onlyPrints_tells (checkpoint : M → CommandResults → RunStats → ℤ → Eff ((G × F) × Console) Unit)
    (hprint : ∀ m c s n, OnlyPrints (checkpoint m c s n))
    (hgen : ∀ m c s n w con, (checkpoint m c s n (w, con)).2.1.1 = w.1) :
    CheckpointTells checkpoint (fun _ _ _ => True) (fun _ => True) :=
  ⟨⟨[], trivial⟩, fun _ => trivial, fun _ _ => trivial, fun _ _ _ => trivial, hgen, fun m c s n w con =>
    let ⟨t, h⟩ := hprint m c s n w con; ⟨t, t, h, List.prefix_refl _, trivial, fun _ => trivial, fun _ => ⟨rfl, trivial⟩⟩⟩

/-- C91. A Metropolis run that returns has printed, after what was there before: the algorithm and the
seed and stream it used, every pass in order, after each due pass the report on all transitions so
far and (if files are written) the announcement of the checkpoint, and finally the report on the
whole run.  All numbers are counts over the transitions of the run, those that lead from the given
manifold and generator to the returned ones and that the object's counters describe. -/
theorem C91_metropolis_report (eng : MetroEngine M G P)
    (checkpoint : M → CommandResults → RunStats → ℤ → Eff ((G × F) × Console) Unit)
    (hprint : ∀ m c s n, OnlyPrints (checkpoint m c s n))
    (hgen : ∀ m c s n w con, (checkpoint m c s n (w, con)).2.1.1 = w.1)
    (s s' : MetroStrategy G) (m m' : M) (f f' : F)
    (c c' : Console) (ok : s.runAloud faults eng checkpoint seed stream m f c = (.ok m', s', f', c')) :
    let start := (m, s.gen)
    let passes := s.cadence.passes.toNat
    let hs := (List.range passes).map (passHistory eng start)
    (m', s'.gen) = trajectory eng (passStart eng start passes) start ∧
    PassChain eng.n3 (Evolves fun a b mv => eng.check a b mv = true) m hs m' ∧
    hs.flatten = history eng (passStart eng start passes) start ∧
    Describes s'.cmd s'.stats hs.flatten ∧
    ∃ writing : ℕ → Bytes,
      c'.text = c.text ++ runText reportText (openingText "Metropolis-Hastings" (seed s.gen) (stream s.gen))
        s.cadence.checkpoint s.writesFiles writing hs := by
  intro start passes hs
  rcases metroRunAloud_tells (faults := faults) (seed := seed) (stream := stream) eng checkpoint
      (onlyPrints_tells checkpoint hprint hgen) s m f c with
    ⟨m1, s1, f1, c1, note, e, h1, h2, h3, h4, _⟩ | ⟨x, s1, f1, c1, t, n, note, e, _⟩
  · rw [e] at ok
    cases ok
    have hf : hs.flatten = history eng (passStart eng start passes) start := passes_flatten eng start passes
    exact ⟨h1, h2, hf, by rw [hf]; exact h3, note, h4⟩
  · rw [e] at ok
    cases ok

/-- C91. If the run ends with an exception instead (also one from printing), the object's published
results are those of before, and what was printed is the beginning of the report on the run's own
transitions: nothing is printed about a pass that was not completed except its heading. -/
theorem C91_metropolis_interrupted (eng : MetroEngine M G P)
    (checkpoint : M → CommandResults → RunStats → ℤ → Eff ((G × F) × Console) Unit)
    (hprint : ∀ m c s n, OnlyPrints (checkpoint m c s n))
    (hgen : ∀ m c s n w con, (checkpoint m c s n (w, con)).2.1.1 = w.1)
    (s s' : MetroStrategy G) (m : M) (f f' : F)
    (c c' : Console) (e : Exc) (he : s.runAloud faults eng checkpoint seed stream m f c = (.error e, s', f', c')) :
    s'.cmd = s.cmd ∧ s'.stats = s.stats ∧ s'.checkpointEvents = s.checkpointEvents ∧
    ∃ (completed : ℕ) (writing : ℕ → Bytes) (printed : Bytes),
      let start := (m, s.gen)
      let hs := (List.range completed).map (passHistory eng start)
      completed ≤ s.cadence.passes.toNat ∧
      PassChain eng.n3 (Evolves fun a b mv => eng.check a b mv = true) m hs
        (trajectory eng (passStart eng start completed) start).1 ∧
      c'.text = c.text ++ printed ∧
      printed <+: begunText reportText (openingText "Metropolis-Hastings" (seed s.gen) (stream s.gen))
        s.cadence.checkpoint s.writesFiles writing s.cadence.passes.toNat hs := by
  rcases metroRunAloud_tells (faults := faults) (seed := seed) (stream := stream) eng checkpoint
      (onlyPrints_tells checkpoint hprint hgen) s m f c with
    ⟨m1, s1, f1, c1, note, e1, _⟩ | ⟨x, s1, f1, c1, t, n, note, e1, k1, k2, k3, hn, hch, ht, hpre, _⟩
  · rw [e1] at he
    cases he
  · rw [e1] at he
    cases he
    exact ⟨k1, k2, k3, n, note, t, hn, hch, ht, hpre⟩

/-- C91. The same for a move-always run. -/
theorem C91_always_report (eng : AlwaysEngine M G F)
    (checkpoint : M → CommandResults → ℤ → Eff ((G × F) × Console) Unit)
    (hprint : ∀ m c n, OnlyPrints (checkpoint m c n)) (s s' : AlwaysStrategy G) (m m' : M) (f f' : F)
    (c c' : Console) (ok : s.runAloud faults eng checkpoint seed stream m f c = (.ok m', s', f', c')) :
    ∃ (hs : List (List (MoveType × Bool))) (writing : ℕ → Bytes), hs.length = s.cadence.passes.toNat ∧
      PassChain eng.n3 (Applied fun a b mv => eng.check a b mv = true) m hs m' ∧
      DescribesFlags s'.results hs.flatten ∧
      c'.text = c.text ++ runText flagReportText (openingText "Move Always" (seed s.gen) (stream s.gen))
        s.cadence.checkpoint s.writesFiles writing hs := by
  unfold AlwaysStrategy.runAloud at ok
  rcases executeMoveRunAloud_tells (cad := s.cadence) (writes := s.writesFiles) (m := m)
      (s := ()) (always_tells (faults := faults) eng checkpoint hprint) describesFlags_nil
      ⟨ascii "Move Always", seed s.gen, stream s.gen⟩ (s.gen, f) c with
    ⟨r, ⟨g1, f1⟩, c1, hs, note, e, hn, hch, hd, ht, _⟩ | ⟨x, ⟨g1, f1⟩, c1, t, hs, m1, note, e, _⟩
  · simp only [e] at ok
    cases ok
    refine ⟨hs, note, hn, PassChain.map Prod.fst (fun _ => rfl) (fun _ _ _ h => h) hch, hd, ?_⟩
    rw [ht, opening_eq]
  · simp only [e] at ok
    cases ok

/-- C91. An interrupted move-always run. -/
theorem C91_always_interrupted (eng : AlwaysEngine M G F)
    (checkpoint : M → CommandResults → ℤ → Eff ((G × F) × Console) Unit)
    (hprint : ∀ m c n, OnlyPrints (checkpoint m c n)) (s s' : AlwaysStrategy G) (m : M) (f f' : F)
    (c c' : Console) (e : Exc) (he : s.runAloud faults eng checkpoint seed stream m f c = (.error e, s', f', c')) :
    s'.results = s.results ∧ s'.checkpointEvents = s.checkpointEvents ∧
    ∃ (hs : List (List (MoveType × Bool))) (m1 : M) (writing : ℕ → Bytes) (printed : Bytes),
      hs.length ≤ s.cadence.passes.toNat ∧
      PassChain eng.n3 (Applied fun a b mv => eng.check a b mv = true) m hs m1 ∧
      c'.text = c.text ++ printed ∧
      printed <+: begunText flagReportText (openingText "Move Always" (seed s.gen) (stream s.gen))
        s.cadence.checkpoint s.writesFiles writing s.cadence.passes.toNat hs := by
  unfold AlwaysStrategy.runAloud at he
  rcases executeMoveRunAloud_tells (cad := s.cadence) (writes := s.writesFiles) (m := m)
      (s := ()) (always_tells (faults := faults) eng checkpoint hprint) describesFlags_nil
      ⟨ascii "Move Always", seed s.gen, stream s.gen⟩ (s.gen, f) c with
    ⟨r, ⟨g1, f1⟩, c1, hs, note, e1, _⟩ | ⟨x, ⟨g1, f1⟩, c1, t, hs, m1, note, e1, hn, hch, ht, hpre, _⟩
  · simp only [e1] at he
    cases he
  · simp only [e1] at he
    cases he
    refine ⟨rfl, rfl, hs, m1.1, note, t, hn, PassChain.map Prod.fst (fun _ => rfl) (fun _ _ _ h => h) hch, ht, ?_⟩
    rw [← opening_eq]
    exact hpre

/-- C91. The printed report determines all counters, whatever is printed after it: no two different
results look the same on the screen. -/
theorem C91_report_determines (c c' : CommandResults) (s s' : RunStats) (after after' : Bytes) :
    ((metroResultLines c s).flatten ++ after = (metroResultLines c' s').flatten ++ after' →
      c = c' ∧ s.proposed = s'.proposed ∧ s.accepted = s'.accepted ∧ s.rejected = s'.rejected ∧ after = after') ∧
    ((alwaysResultLines c).flatten ++ after = (alwaysResultLines c').flatten ++ after' → c = c' ∧ after = after') :=
  ⟨metroReport_inj, alwaysReport_inj⟩

/-- C91. Printing changes nothing else: if no print fails, or if the run returns, then the returned
manifold, the object and the rest of the world are those of the run without output (`C01`-`C16`). -/
theorem C91_output_changes_nothing (eng : MetroEngine M G P) (out : MetroOutput M G F)
    (hquiet : ∀ m c s w, out.report m c s w = (.ok (), w))
    (checkpoint : M → CommandResults → RunStats → ℤ → Eff ((G × F) × Console) Unit)
    (hsame : ∀ m c s n, SameUnlessPrintFails faults (checkpoint m c s n) (out.checkpoint m c s n))
    (s : MetroStrategy G) (m : M) (f : F) (c : Console)
    (h : (∀ n, faults n = none) ∨ ∃ m', (s.runAloud faults eng checkpoint seed stream m f c).1 = .ok m') :
    let (r, s', f', _) := s.runAloud faults eng checkpoint seed stream m f c
    (r, s', f') = s.run eng out m f := by
  have er : Erases faults (W := G × F)
      { n3 := eng.n3, pass := fun m st n => besideConsole (metroPass eng m st n),
        report := fun _ cmd st => onConsole (sayAll faults (metroResultLines cmd st)), checkpoint := checkpoint }
      (metroOps eng out) metroResultLines :=
    ⟨rfl, fun m s n w c => rfl, fun _ _ _ => rfl, hquiet, hsame⟩
  have key := executeMoveRunAloud_erases (cad := s.cadence) (writes := s.writesFiles) er
    ⟨ascii "Metropolis-Hastings", seed s.gen, stream s.gen⟩ m { geometry := eng.geometry m } (s.gen, f) c
  unfold MetroStrategy.runAloud at h ⊢
  unfold MetroStrategy.run
  rcases he : executeMoveRunAloud faults (W := G × F)
      { n3 := eng.n3, pass := fun m st n => besideConsole (metroPass eng m st n),
        report := fun _ cmd st => onConsole (sayAll faults (metroResultLines cmd st)), checkpoint := checkpoint }
      s.cadence ⟨ascii "Metropolis-Hastings", seed s.gen, stream s.gen⟩ s.writesFiles m
      { geometry := eng.geometry m } ((s.gen, f), c) with ⟨r, ⟨g1, f1⟩, c1⟩
  simp only [he] at h key ⊢
  cases r with
  | error e => rw [← key (by simpa using h)]
  | ok r => rw [← key (by simp)]

/-- C91. The same for a move-always run. -/
theorem C91_always_output_changes_nothing (eng : AlwaysEngine M G F)
    (hquiet : ∀ m c w, eng.report m c w = (.ok (), w))
    (checkpoint : M → CommandResults → ℤ → Eff ((G × F) × Console) Unit)
    (hsame : ∀ m c n, SameUnlessPrintFails faults (checkpoint m c n) (eng.checkpoint m c n))
    (s : AlwaysStrategy G) (m : M) (f : F) (c : Console)
    (h : (∀ n, faults n = none) ∨ ∃ m', (s.runAloud faults eng checkpoint seed stream m f c).1 = .ok m') :
    let (r, s', f', _) := s.runAloud faults eng checkpoint seed stream m f c
    (r, s', f') = s.run eng m f := by
  have er : Erases faults (W := G × F)
      { n3 := eng.n3, pass := fun m u n => besideConsole (eng.pass m u n),
        report := fun _ cmd _ => onConsole (sayAll faults (alwaysResultLines cmd)),
        checkpoint := fun m cmd _ n => checkpoint m cmd n }
      (alwaysOps eng) (fun cmd _ => alwaysResultLines cmd) :=
    ⟨rfl, fun m s n w c => rfl, fun _ _ _ => rfl, fun m c _ w => hquiet m c w, fun m c _ n => hsame m c n⟩
  have key := executeMoveRunAloud_erases (cad := s.cadence) (writes := s.writesFiles) er
    ⟨ascii "Move Always", seed s.gen, stream s.gen⟩ m () (s.gen, f) c
  unfold AlwaysStrategy.runAloud at h ⊢
  unfold AlwaysStrategy.run
  rcases he : executeMoveRunAloud faults (W := G × F)
      { n3 := eng.n3, pass := fun m u n => besideConsole (eng.pass m u n),
        report := fun _ cmd _ => onConsole (sayAll faults (alwaysResultLines cmd)),
        checkpoint := fun m cmd _ n => checkpoint m cmd n }
      s.cadence ⟨ascii "Move Always", seed s.gen, stream s.gen⟩ s.writesFiles m () ((s.gen, f), c)
    with ⟨r, ⟨g1, f1⟩, c1⟩
  simp only [he] at h key ⊢
  cases r with
  | error e => rw [← key (by simpa using h)]
  | ok r => rw [← key (by simp)]

/-- The toy checkpoint, announcing itself. -/
def toyCheckpoint (faults : PrintFaults) (_ : ManifoldView) (_ : CommandResults) (_ : RunStats) (n : ℤ) :
    Eff ((ℕ × List ℤ) × Console) Unit := fun ((g, l), c) =>
  match say faults (ascii "Writing to file x\n") c with
  | (.error e, c') => (.error e, ((g, l), c'))
  | (.ok _, c') => (.ok (), ((g, l ++ [n]), c'))

/-- The toy run of three passes with its output. -/
def toyRun (faults : PrintFaults) : Except Exc ManifoldView × MetroStrategy ℕ × List ℤ × Console :=
  Toy.strategy0.runAloud faults Toy.calm (toyCheckpoint faults) (fun _ => 7) (fun _ => 1) Toy.view1 [] {}

/-- Non-vacuity: a toy run of three passes with one checkpoint prints its report, a fault in the
twelfth print ends it; both kinds of hypotheses are met. -/
example :
    (∀ m c s n, OnlyPrints (toyCheckpoint (fun _ => none) m c s n)) ∧
    (∀ m c s n w con, (toyCheckpoint (fun _ => none) m c s n (w, con)).2.1.1 = w.1) ∧
    (∀ m c s n, SameUnlessPrintFails (fun _ => none) (toyCheckpoint (fun _ => none) m c s n)
      (Toy.output.checkpoint m c s n)) ∧
    (let r := toyRun (fun _ => none);
      (match r.1 with | .ok _ => true | .error _ => false) = true ∧ r.2.2.1 = [2] ∧
      ((ascii "=== Pass 2 ===\n=== Move Results ===\nThere were ").isPrefixOf
        (r.2.2.2.text.drop (ascii ("Starting Metropolis-Hastings algorithm in 2+1 dimensions ...\n" ++
          "Effective random seed: 7 (stream 1).\nMaking random moves ...\n=== Pass 1 ===\n")).length)) = true) ∧
    (let r := toyRun (fun n => if n = 11 then some (3, .runtimeError) else none);
      (match r.1 with | .ok _ => true | .error _ => false) = false ∧ 0 < r.2.2.2.text.length) := by
  refine ⟨?_, fun _ _ _ _ _ _ => rfl, ?_, ?_, ?_⟩
  · rintro m c s n ⟨g, l⟩ con
    exact ⟨_, rfl⟩
  · rintro m c s n ⟨g, l⟩ con _
    rfl
  · decide +kernel
  · decide +kernel

end

end CDT
