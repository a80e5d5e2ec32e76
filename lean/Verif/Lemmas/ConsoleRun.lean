import Verif.Lemmas.Console
import Verif.Lemmas.PassHistory
/-
A Metropolis run with its output, in terms of its trajectory.
-/
namespace CDT
open Spec

section
variable {M G P F : Type} {faults : PrintFaults} {seed stream : G → BitVec 64}

/-- A pass follows the trajectory. -/
def Follows (eng : MetroEngine M G P) (x : M × G) (h : List (MoveType × MoveOutcome)) (y : M × G) : Prop :=
  h = history eng h.length x ∧ y = trajectory eng h.length x ∧ Evolves (Checked eng) x.1 h y.1

theorem follows_chain {eng : MetroEngine M G P} {x y : M × G} {hs : List (List (MoveType × MoveOutcome))}
    (c : PassChain (fun z => eng.n3 z.1) (Follows eng) x hs y) :
    hs = (List.range hs.length).map (passHistory eng x) ∧ y = trajectory eng (passStart eng x hs.length) x ∧
      hs.flatten = history eng (passStart eng x hs.length) x ∧
      PassChain eng.n3 (Evolves (Checked eng)) x.1 hs y.1 := by
  induction c with
  | nil => exact ⟨rfl, rfl, rfl, .nil _⟩
  | @snoc a b hs h c len e ih =>
    obtain ⟨i1, i2, i3, i4⟩ := ih
    obtain ⟨e1, e2, e3⟩ := e
    have hl : h.length = (eng.n3 a.1).toNat := by omega
    have hstep : passStart eng x (hs.length + 1) = passStart eng x hs.length + h.length := by
      rw [passStart, hl, ← i2]
    rw [List.length_append, List.length_singleton, List.range_succ, List.map_append, ← i1, hstep]
    refine ⟨?_, ?_, ?_, .snoc i4 len e3⟩
    · rw [List.map_singleton]
      congr 2
      simp only [passHistory]
      rw [← i2, ← hl]
      exact e1
    · rw [e2, i2]
      unfold trajectory
      rw [Nat.add_comm, Function.iterate_add_apply]
    · rw [List.flatten_append, i3, history_add, ← i2, ← e1]
      simp

theorem passes_flatten (eng : MetroEngine M G P) (x : M × G) (n : ℕ) :
    ((List.range n).map (passHistory eng x)).flatten = history eng (passStart eng x n) x := by
  induction n with
  | zero => rfl
  | succ n ih =>
    rw [List.range_succ, List.map_append, List.flatten_append, ih, passStart, history_add]
    simp [passHistory]

variable {L : G × F → List Bytes → G × F → Prop} {N : Bytes → Prop}

/-- What is needed of the checkpoint callable. -/
structure CheckpointTells (checkpoint : M → CommandResults → RunStats → ℤ → Eff ((G × F) × Console) Unit)
    (L : G × F → List Bytes → G × F → Prop) (N : Bytes → Prop) : Prop where
  any : ∃ b, N b
  refl : ∀ w, L w [] w
  trans : ∀ {a s b t c}, L a s b → L b t c → L a (s ++ t) c
  moves : ∀ g g' f, L (g, f) [] (g', f)
  gen : ∀ m cmd s n w c, (checkpoint m cmd s n (w, c)).2.1.1 = w.1
  checkpoint : ∀ m cmd s n w c, ∃ note t,
    (checkpoint m cmd s n (w, c)).2.2.text = c.text ++ t ∧ t <+: note ∧ N note ∧
    ((∃ e, (checkpoint m cmd s n (w, c)).1 = .error e) → L w [] (checkpoint m cmd s n (w, c)).2.1) ∧
    ((∃ u, (checkpoint m cmd s n (w, c)).1 = .ok u) → t = note ∧ L w [note] (checkpoint m cmd s n (w, c)).2.1)

theorem metroPass_keeps (eng : MetroEngine M G P) (m : M) (st : RunStats) (n : ℤ) (g : G) (f : F) :
    (metroPass eng m st n (g, f)).2.2 = f := by
  unfold metroPass
  rcases h : passLoop eng n.toNat ⟨m, {}, st, g⟩ with ⟨x, v⟩
  cases x <;> simp [h]

theorem metro_tells (eng : MetroEngine M G P)
    (checkpoint : M → CommandResults → RunStats → ℤ → Eff ((G × F) × Console) Unit)
    (H : CheckpointTells checkpoint L N) :
    Tells faults (W := G × F)
      { n3 := eng.n3, pass := fun m st n => besideConsole (metroPass eng m st n),
        report := fun _ cmd st => onConsole (sayAll faults (metroResultLines cmd st)), checkpoint := checkpoint }
      metroResultLines reportText Describes Prod.fst (Follows eng) L N where
  any := H.any
  refl := H.refl
  trans := H.trans
  keeps m s n w c := by
    obtain ⟨g, f⟩ := w
    have := metroPass_keeps eng m s n g f
    simp only [besideConsole]
    rcases h : metroPass eng m s n (g, f) with ⟨r, g', f'⟩
    rw [h] at this
    cases this
    exact H.moves _ _ _
  reports _ _ _ := rfl
  text _ _ _ d := metroReport_eq d
  silent _ _ _ _ _ := rfl
  pass {m s n w c p w'} h := by
    simp only [besideConsole] at h
    obtain ⟨g, f⟩ := w
    rcases hp : metroPass (F := F) eng m s n (g, f) with ⟨r, g1, f1⟩
    rw [hp] at h
    cases h
    obtain ⟨hl, ht, dc, ds, he⟩ := metroPass_history hp
    refine ⟨_, hl, ⟨by rw [hl], by rw [hl]; exact ht, he⟩, fun tot h d => ⟨describesCmd_accumulate d.1 dc, ds _ d.2⟩⟩
  stays := H.gen
  checkpoint := H.checkpoint

/-- A Metropolis run with its output. -/
theorem metroRunAloud_tells (eng : MetroEngine M G P)
    (checkpoint : M → CommandResults → RunStats → ℤ → Eff ((G × F) × Console) Unit)
    (H : CheckpointTells checkpoint L N) (s : MetroStrategy G) (m : M) (f : F) (c : Console) :
    (∃ m' s' f' c' note, s.runAloud faults eng checkpoint seed stream m f c = (.ok m', s', f', c') ∧
      (m', s'.gen) = trajectory eng (passStart eng (m, s.gen) s.cadence.passes.toNat) (m, s.gen) ∧
      PassChain eng.n3 (Evolves (Checked eng)) m
        ((List.range s.cadence.passes.toNat).map (passHistory eng (m, s.gen))) m' ∧
      Describes s'.cmd s'.stats (history eng (passStart eng (m, s.gen) s.cadence.passes.toNat) (m, s.gen)) ∧
      c'.text = c.text ++ runText reportText (openingText "Metropolis-Hastings" (seed s.gen) (stream s.gen))
        s.cadence.checkpoint s.writesFiles note
        ((List.range s.cadence.passes.toNat).map (passHistory eng (m, s.gen))) ∧
      L (s.gen, f) (dueNotes s.cadence.checkpoint s.writesFiles note s.cadence.passes.toNat 0) (s'.gen, f') ∧
      ∀ j, N (note j)) ∨
    (∃ e s' f' c' t n note, s.runAloud faults eng checkpoint seed stream m f c = (.error e, s', f', c') ∧
      s'.cmd = s.cmd ∧ s'.stats = s.stats ∧ s'.checkpointEvents = s.checkpointEvents ∧
      n ≤ s.cadence.passes.toNat ∧
      PassChain eng.n3 (Evolves (Checked eng)) m ((List.range n).map (passHistory eng (m, s.gen)))
        (trajectory eng (passStart eng (m, s.gen) n) (m, s.gen)).1 ∧
      c'.text = c.text ++ t ∧
      t <+: begunText reportText (openingText "Metropolis-Hastings" (seed s.gen) (stream s.gen))
        s.cadence.checkpoint s.writesFiles note s.cadence.passes.toNat
        ((List.range n).map (passHistory eng (m, s.gen))) ∧
      (∃ d, d ≤ n ∧ n ≤ d + 1 ∧
        L (s.gen, f) (dueNotes s.cadence.checkpoint s.writesFiles note d 0) (s'.gen, f')) ∧
      ∀ j, N (note j)) := by
  unfold MetroStrategy.runAloud
  rcases executeMoveRunAloud_tells (cad := s.cadence) (writes := s.writesFiles) (m := m)
      (s := { geometry := eng.geometry m }) (metro_tells (faults := faults) eng checkpoint H)
      ⟨describesCmd_nil, describesStats_nil _⟩
      ⟨ascii "Metropolis-Hastings", seed s.gen, stream s.gen⟩ (s.gen, f) c with
    ⟨r, ⟨g1, f1⟩, c1, hs, note, e, hn, hch, hd, ht, hL, hN⟩ |
    ⟨x, ⟨g1, f1⟩, c1, t, hs, m1, note, e, hn, hch, ht, hpre, ⟨d, hd1, hd2, hL⟩, hN⟩
  · left
    obtain ⟨i1, i2, i3, i4⟩ := follows_chain hch
    rw [hn] at i1 i2 i3 hL
    refine ⟨r.manifold, { s with gen := g1, cmd := r.commandResults, stats := r.strategyState, checkpointEvents := r.checkpointEvents },
      f1, c1, note, by simp only [e], i2, ?_, ?_, ?_, hL, hN⟩
    · rw [← i1]; exact i4
    · rw [← i3]; exact hd
    · rw [ht, opening_eq, i1]
  · right
    obtain ⟨i1, i2, i3, i4⟩ := follows_chain hch
    refine ⟨x, { s with gen := g1 }, f1, c1, t, hs.length, note, by simp only [e], rfl, rfl, rfl, hn, ?_, ht, ?_, ⟨d, hd1, hd2, hL⟩, hN⟩
    · rw [← i1, ← i2]; exact i4
    · rw [← opening_eq, ← i1]; exact hpre

end
end CDT
