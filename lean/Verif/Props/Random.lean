/-
C51: random streams and replay.
-/
import Verif.Model.Random
import Verif.Props.Run

namespace CDT.Props
open CDT Spec

/-- The first `n` values of the sequence that a seed and a stream select. -/
def sequence {S : Type} (pcg : Pcg S) (seed stream : BitVec 64) (n : ℕ) : List (BitVec 64) :=
  (List.range n).map fun k => (pcg.next ((fun e => (pcg.next e).2)^[k] (pcg.init seed stream))).1

/-- The values drawn from object `i`, in order. -/
def drawnFrom {S : Type} (w : RandomWorld S) (i : ℕ) : List (BitVec 64) :=
  (w.draws.filter fun d => d.1 = i).map Prod.snd

/-- C51: splitting depends only on the root seed and the stream: however many draws were taken from
the root before (or from anything else), the new object is the same. -/
theorem C51_split_ignores_position {S : Type} (pcg : Pcg S) (r : Random S) (n : ℕ) (stream : BitVec 64) :
    ((fun r => (Random.draw pcg r).2)^[n] r).split pcg stream = r.split pcg stream ∧
    r.split pcg stream = Random.make pcg r.seed stream := by
  refine ⟨?_, rfl⟩
  induction n generalizing r with
  | zero => rfl
  | succ n ih => rw [Function.iterate_succ_apply, ih]; rfl

theorem sequence_succ {S : Type} (pcg : Pcg S) (seed stream : BitVec 64) (n : ℕ) :
    sequence pcg seed stream (n + 1) = sequence pcg seed stream n ++
      [(pcg.next ((fun e => (pcg.next e).2)^[n] (pcg.init seed stream))).1] := by
  simp [sequence, List.range_succ]

/-- C51: in every history of constructions, splits and draws over any number of generator objects,
interleaved in any way, the values drawn from an object are the leading values of the sequence
selected by its own seed and stream; nothing else in the history matters. -/
theorem C51_draws_determined_by_seed_and_stream {S : Type} (pcg : Pcg S) (ops : List RandomOp) (i : ℕ)
    (r : Random S) (h : (RandomWorld.run pcg ops).objects[i]? = some r) :
    drawnFrom (RandomWorld.run pcg ops) i =
      sequence pcg r.seed r.stream (drawnFrom (RandomWorld.run pcg ops) i).length := by
  -- the state of object `i` is its initial state advanced by the number of draws made from it
  suffices H : ∀ ops : List RandomOp, (∀ d ∈ (RandomWorld.run pcg ops).draws, d.1 < (RandomWorld.run pcg ops).objects.length) ∧
      ∀ i r, (RandomWorld.run pcg ops).objects[i]? = some r →
        r.engine = (fun e => (pcg.next e).2)^[(drawnFrom (RandomWorld.run pcg ops) i).length] (pcg.init r.seed r.stream) ∧
        drawnFrom (RandomWorld.run pcg ops) i =
          sequence pcg r.seed r.stream (drawnFrom (RandomWorld.run pcg ops) i).length from
    ((H ops).2 i r h).2
  clear h r i ops
  intro ops
  induction ops using List.reverseRecOn with
  | nil =>
    refine ⟨?_, ?_⟩
    · intro d hd; simp [RandomWorld.run] at hd
    · intro i r h; simp [RandomWorld.run] at h
  | append_singleton ops op ih =>
    have e : RandomWorld.run pcg (ops ++ [op]) = (RandomWorld.run pcg ops).step pcg op := by
      simp [RandomWorld.run]
    rw [e]
    generalize RandomWorld.run pcg ops = w at ih
    obtain ⟨ihb, ih⟩ := ih
    have hnew : drawnFrom w w.objects.length = [] := by
      simp only [drawnFrom, List.map_eq_nil_iff, List.filter_eq_nil_iff]
      intro d hd
      have := ihb d hd
      simp only [decide_eq_true_eq]; omega
    have hpush : ∀ seed stream, (∀ d ∈ w.draws, d.1 < (w.objects ++ [Random.make pcg seed stream]).length) ∧
        ∀ i r, (w.objects ++ [Random.make pcg seed stream])[i]? = some r →
        r.engine = (fun e => (pcg.next e).2)^[(drawnFrom w i).length] (pcg.init r.seed r.stream) ∧
        drawnFrom w i = sequence pcg r.seed r.stream (drawnFrom w i).length := by
      intro seed stream
      refine ⟨fun d hd => by have := ihb d hd; simp; omega, fun i r h => ?_⟩
      rcases lt_trichotomy i w.objects.length with hi | hi | hi
      · rw [List.getElem?_append_left hi] at h
        exact ih i r h
      · subst hi
        simp at h
        subst h
        rw [hnew]
        exact ⟨rfl, rfl⟩
      · rw [List.getElem?_eq_none (by simp; omega)] at h
        cases h
    cases op with
    | make seed stream => exact hpush seed stream
    | split j stream =>
      simp only [RandomWorld.step]
      rcases hj : w.objects[j]? with _ | rj
      · exact ⟨ihb, ih⟩
      · exact hpush rj.seed stream
    | draw j =>
      simp only [RandomWorld.step]
      rcases hj : w.objects[j]? with _ | rj
      · exact ⟨ihb, ih⟩
      · have hjl : j < w.objects.length := by
          by_contra hh
          rw [List.getElem?_eq_none (by omega)] at hj
          cases hj
        refine ⟨?_, ?_⟩
        · intro d hd
          simp only [List.length_set]
          rcases List.mem_append.1 hd with hd | hd
          · exact ihb d hd
          · simp only [List.mem_singleton] at hd; rw [hd]; exact hjl
        · intro i r h
          by_cases hij : j = i
          · subst hij
            rw [List.getElem?_set_self hjl] at h
            injection h with h
            obtain ⟨h1, h2⟩ := ih j rj hj
            have hd : drawnFrom (S := S) ⟨w.objects.set j (rj.draw pcg).2, w.draws ++ [(j, (rj.draw pcg).1)]⟩ j =
                drawnFrom w j ++ [(rj.draw pcg).1] := by
              simp [drawnFrom, List.filter_append]
            rw [hd, List.length_append, List.length_singleton]
            subst h
            simp only [Random.draw]
            refine ⟨?_, ?_⟩
            · rw [Function.iterate_succ_apply', ← h1]
            · rw [sequence_succ, ← h1, ← h2]
          · rw [List.getElem?_set_ne hij] at h
            have hd : drawnFrom (S := S) ⟨w.objects.set j (rj.draw pcg).2, w.draws ++ [(j, (rj.draw pcg).1)]⟩ i =
                drawnFrom w i := by
              simp [drawnFrom, List.filter_append, hij]
            rw [hd]
            exact ih i r h

/-- C51: a split object carries its root's seed and the requested stream, in every history. -/
theorem C51_split_identity {S : Type} (pcg : Pcg S) (ops : List RandomOp) (i : ℕ) (stream : BitVec 64) (r : Random S)
    (h : (RandomWorld.run pcg ops).objects[i]? = some r) :
    ∃ r', (RandomWorld.run pcg (ops ++ [.split i stream])).objects =
        (RandomWorld.run pcg ops).objects ++ [r'] ∧ r'.seed = r.seed ∧ r'.stream = stream ∧
      r' = Random.make pcg r.seed stream := by
  have e : RandomWorld.run pcg (ops ++ [.split i stream]) = (RandomWorld.run pcg ops).step pcg (.split i stream) := by
    simp [RandomWorld.run]
  rw [e]
  simp only [RandomWorld.step, h]
  exact ⟨_, rfl, rfl, rfl, rfl⟩

/-- A toy engine for the examples. -/
def toyPcg : Pcg (BitVec 64 × BitVec 64) := ⟨fun s t => (s, t), fun (s, t) => (s, (3 * s + 2 * t + 1, t))⟩

/-- Non-vacuity: a root, two streams split before and after draws from the root. -/
example :
    let w := RandomWorld.run toyPcg [.make 92 0, .split 0 1, .draw 0, .draw 1, .draw 0, .split 0 1, .draw 2, .draw 1, .draw 2]
    drawnFrom w 1 = [92, 279] ∧ drawnFrom w 2 = [92, 279] ∧ drawnFrom w 0 = [92, 277] := by decide +kernel

variable {M G P F F' : Type}

/-- Output functions that always return and leave the generator alone; what they do to files and
console is arbitrary. -/
def Quiet (out : MetroOutput M G F) : Prop :=
  (∀ m c st g f, ∃ f', out.report m c st (g, f) = (.ok (), (g, f'))) ∧
  (∀ m c st k g f, ∃ f', out.checkpoint m c st k (g, f) = (.ok (), (g, f')))

theorem replay_loop (eng : MetroEngine M G P) {out : MetroOutput M G F} {out' : MetroOutput M G F'}
    (hq : Quiet out) (hq' : Quiet out') (cad cad' : Cadence) (wr wr' : Bool) (n : ℕ) :
    ∀ (i i' : Int) (v v' : RunVars M RunStats) (g : G) (f : F) (f' : F'),
      v.current = v'.current → v.totals = v'.totals → v.state = v'.state →
      let a := runLoop (metroOps eng out) cad wr n i v (g, f)
      let b := runLoop (metroOps eng out') cad' wr' n i' v' (g, f')
      a.2.1 = b.2.1 ∧
      ((∃ e, a.1 = .error e ∧ b.1 = .error e) ∨
       ∃ x y, a.1 = .ok x ∧ b.1 = .ok y ∧ x.current = y.current ∧ x.totals = y.totals ∧ x.state = y.state) := by
  induction n with
  | zero =>
    intro i i' v v' g f f' h1 h2 h3
    exact ⟨rfl, .inr ⟨v, v', rfl, rfl, h1, h2, h3⟩⟩
  | succ n ih =>
    intro i i' v v' g f f' h1 h2 h3
    -- one pass from equal states
    have key : ∀ {F : Type} (out : MetroOutput M G F), Quiet out → ∀ (cad : Cadence) (wr : Bool) (i : Int)
        (v : RunVars M RunStats) (f : F),
        match passLoop eng (eng.n3 v.current).toNat ⟨v.current, {}, v.state, g⟩ with
        | (.error e, u) => ∃ f1, runPass (metroOps eng out) cad wr i v (g, f) = (.error e, (u.gen, f1))
        | (.ok _, u) => ∃ f1 ev, runPass (metroOps eng out) cad wr i v (g, f) =
            (.ok ⟨u.current, v.totals.accumulate u.cmd, u.stats, ev⟩, (u.gen, f1)) := by
      intro F out hq cad wr i v f
      rcases hp : passLoop eng (eng.n3 v.current).toNat ⟨v.current, {}, v.state, g⟩ with ⟨_ | _, u⟩
      · refine ⟨f, ?_⟩
        simp only [runPass, metroOps, metroPass, hp]
      · simp only [runPass, metroOps, metroPass, hp]
        by_cases hc : i % cad.checkpoint = 0
        · obtain ⟨f1, h1⟩ := hq.1 u.current (v.totals.accumulate u.cmd) u.stats u.gen f
          simp only [hc, if_true, h1]
          cases wr with
          | false => exact ⟨f1, _, rfl⟩
          | true =>
            obtain ⟨f2, h2⟩ := hq.2 u.current (v.totals.accumulate u.cmd) u.stats i u.gen f1
            simp only [if_true, h2]
            exact ⟨f2, _, rfl⟩
        · simp only [hc, if_false]
          exact ⟨f, _, rfl⟩
    have ka := key out hq cad wr (i + 1) v f
    have kb := key out' hq' cad' wr' (i' + 1) v' f'
    rw [← h1, ← h3] at kb
    rcases hp : passLoop eng (eng.n3 v.current).toNat ⟨v.current, {}, v.state, g⟩ with ⟨e | _, u⟩
    · rw [hp] at ka kb
      obtain ⟨f1, ea⟩ := ka
      obtain ⟨f1', eb⟩ := kb
      simp only [runLoop, ea, eb]
      exact ⟨trivial, .inl ⟨_, rfl, rfl⟩⟩
    · rw [hp] at ka kb
      obtain ⟨f1, ev, ea⟩ := ka
      obtain ⟨f1', ev', eb⟩ := kb
      simp only [runLoop, ea, eb]
      exact ih (i + 1) (i' + 1) _ _ u.gen f1 f1' rfl (by rw [h2]) rfl

/-- C51: equal seed, stream and starting manifold replay the same run: the two runs return the same
manifold or the same exception, publish the same counters, statistics and transition trace, and
leave the generators in the same state, whatever the checkpoint intervals, the file-output settings,
the output functions, the file systems and the counters published before. -/
theorem C51_replay {S : Type} (pcg : Pcg S) (eng : MetroEngine M (Random S) P) {out : MetroOutput M (Random S) F}
    {out' : MetroOutput M (Random S) F'} (hq : Quiet out) (hq' : Quiet out') (seed stream : BitVec 64)
    (s s' : MetroStrategy (Random S)) (hs : s.gen = Random.make pcg seed stream)
    (hs' : s'.gen = Random.make pcg seed stream)
    (hp : s.cadence.passes = s'.cadence.passes) (m : M) (f : F) (f' : F') :
    (s.run eng out m f).1 = (s'.run eng out' m f').1 ∧
    (s.run eng out m f).2.1.gen = (s'.run eng out' m f').2.1.gen ∧
    (∀ x, (s.run eng out m f).1 = .ok x →
      (s.run eng out m f).2.1.cmd = (s'.run eng out' m f').2.1.cmd ∧
      (s.run eng out m f).2.1.stats = (s'.run eng out' m f').2.1.stats) := by
  have := replay_loop eng hq hq' s.cadence s'.cadence s.writesFiles s'.writesFiles s.cadence.passes.toNat 0 0
    ⟨m, {}, { geometry := eng.geometry m }, 0⟩ ⟨m, {}, { geometry := eng.geometry m }, 0⟩ s.gen f f' rfl rfl rfl
  unfold MetroStrategy.run executeMoveRun
  rw [hs', ← hs, ← hp]
  dsimp only [metroOps] at this ⊢
  rcases ha : runLoop (metroOps eng out) s.cadence s.writesFiles s.cadence.passes.toNat 0
    ⟨m, {}, { geometry := eng.geometry m }, 0⟩ (s.gen, f) with ⟨ra, ga, fa⟩
  rcases hb : runLoop (metroOps eng out') s'.cadence s'.writesFiles s.cadence.passes.toNat 0
    ⟨m, {}, { geometry := eng.geometry m }, 0⟩ (s.gen, f') with ⟨rb, gb, fb⟩
  dsimp only [metroOps] at ha hb
  rw [ha, hb] at this
  obtain ⟨hg, ⟨e, he, he'⟩ | ⟨x, y, hx, hy, h1, h2, h3⟩⟩ := this
  · dsimp only at hg he he'
    subst hg he he'
    exact ⟨rfl, rfl, by intro x hx; cases hx⟩
  · dsimp only at hg hx hy
    subst hg hx hy
    obtain ⟨f1, e1⟩ := hq.1 x.current x.totals x.state ga fa
    obtain ⟨f2, e2⟩ := hq'.1 y.current y.totals y.state ga fb
    dsimp only
    rw [e1, e2]
    dsimp only
    refine ⟨by rw [h1], rfl, fun _ _ => ⟨h2, h3⟩⟩

/-- The toy engine on a `Random` object whose engine state is a counter. -/
def toyRandomEngine : MetroEngine ManifoldView (Random Nat) ℚ :=
  { Toy.calm with
    propose := fun mv v r => let x := Toy.calm.propose mv v r.engine; (x.1, { r with engine := x.2 })
    drawMove := fun r => let x := Toy.calm.drawMove r.engine; (x.1, { r with engine := x.2 })
    drawTrial := fun r => let x := Toy.calm.drawTrial r.engine; (x.1, { r with engine := x.2 }) }

def toyRandomOutput : MetroOutput ManifoldView (Random Nat) (List Int) where
  report _ _ _ := fun w => (.ok (), w)
  checkpoint _ _ _ n := fun (g, l) => (.ok (), (g, l ++ [n]))

/-- Non-vacuity: quiet outputs, a run of three passes with transitions of both kinds. -/
example : Quiet toyRandomOutput := ⟨fun _ _ _ g f => ⟨f, rfl⟩, fun _ _ _ k g f => ⟨f ++ [k], rfl⟩⟩

example :
    let pcg : Pcg Nat := ⟨fun s t => s.toNat + t.toNat, fun n => (BitVec.ofNat 64 n, n + 1)⟩
    let s : MetroStrategy (Random Nat) := { cadence := ⟨3, 2⟩, writesFiles := true, gen := Random.make pcg 7 1 }
    let s' : MetroStrategy (Random Nat) := { cadence := ⟨3, 1⟩, writesFiles := false, gen := Random.make pcg 7 1 }
    let r := s.run toyRandomEngine toyRandomOutput Toy.view1 []
    let r' := s'.run toyRandomEngine toyRandomOutput Toy.view1 [4]
    (match r.1 with | .ok _ => true | .error _ => false) = true ∧ r.2.2 ≠ r'.2.2 ∧
      0 < r.2.1.cmd.succeeded.total ∧ 0 < r.2.1.cmd.failed.total := by
  refine ⟨?_, ?_, ?_, ?_⟩ <;> decide +kernel

end CDT.Props
