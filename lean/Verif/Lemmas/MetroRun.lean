import Verif.Lemmas.Run
import Mathlib.Tactic.Linarith

namespace CDT
open Spec
variable {M G P F : Type}

/-- The operations a Metropolis run hands to `execute_move_run`. -/
abbrev metroOps (eng : MetroEngine M G P) (out : MetroOutput M G F) : RunOps M RunStats (G × F) :=
  { n3 := eng.n3, pass := metroPass eng, report := out.report, checkpoint := out.checkpoint }

theorem events_step (k : Nat) (c : Int) (hc : 0 < c) (e : Int) (he : e = (k : Int) / c) :
    (((k : Int) + 1) % c = 0 → e + 1 = ((k + 1 : Nat) : Int) / c) ∧
    (((k : Int) + 1) % c ≠ 0 → e = ((k + 1 : Nat) : Int) / c) := by
  subst he
  have a := Int.mul_ediv_add_emod (k : Int) c
  have b := Int.mul_ediv_add_emod ((k : Int) + 1) c
  have a1 := Int.emod_nonneg (k : Int) (by omega : c ≠ 0)
  have a2 := Int.emod_lt_of_pos (k : Int) hc
  have b1 := Int.emod_nonneg ((k : Int) + 1) (by omega : c ≠ 0)
  have b2 := Int.emod_lt_of_pos ((k : Int) + 1) hc
  push_cast
  generalize (k : Int) / c = x at *
  generalize ((k : Int) + 1) / c = y at *
  generalize (k : Int) % c = r at *
  generalize ((k : Int) + 1) % c = t at *
  have e : c * (y - x) = r + 1 - t := by linarith
  constructor
  · rintro rfl
    have h1 : 0 < c * (y - x) := by omega
    have h2 : c * (y - x) ≤ c * 1 := by omega
    have h3 : 0 < y - x := by
      by_contra h
      have := mul_nonpos_of_nonneg_of_nonpos (le_of_lt hc) (by omega : y - x ≤ 0)
      omega
    have h4 : y - x ≤ 1 := le_of_mul_le_mul_left h2 hc
    omega
  · intro ht
    have h1 : -c * 1 < c * (y - x) := by omega
    have h2 : c * (y - x) < c * 1 := by omega
    have h3 : y - x < 1 := lt_of_mul_lt_mul_left h2 (le_of_lt hc)
    have h4 : -1 < y - x := by
      have : c * (-1) < c * (y - x) := by linarith
      exact lt_of_mul_lt_mul_left this (le_of_lt hc)
    omega

/-- Everything a successful Metropolis run establishes. -/
theorem metro_executeMoveRun {eng : MetroEngine M G P} {out : MetroOutput M G F} {cad : Cadence}
    {writes : Bool} {m : M} {w w' : G × F} {r : RunResult M RunStats}
    (hc : 0 < cad.checkpoint)
    (e : executeMoveRun (metroOps eng out) cad writes m { geometry := eng.geometry m } w = (.ok r, w')) :
    ∃ hs : List (List (MoveType × MoveOutcome)), hs.length = cad.passes.toNat ∧
      PassChain eng.n3 (Evolves (Checked eng)) m hs r.manifold ∧
      Describes r.commandResults r.strategyState hs.flatten ∧
      r.strategyState.geometry = eng.geometry r.manifold ∧
      r.checkpointEvents = (cad.passes.toNat : Int) / cad.checkpoint := by
  obtain ⟨v, w1, hl, hr, rfl⟩ := executeMoveRun_ok e
  have := runLoop_ind (metroOps eng out) cad writes
    (fun k v _ => ∃ hs : List (List (MoveType × MoveOutcome)), hs.length = k ∧
      PassChain eng.n3 (Evolves (Checked eng)) m hs v.current ∧
      Describes v.totals v.state hs.flatten ∧
      v.state.geometry = eng.geometry v.current ∧
      v.events = (k : Int) / cad.checkpoint)
    (by
      rintro k v w v' w' ⟨hs, hk, hch, hd, hg, hev⟩ hp
      obtain ⟨p, w1, hpass, h1, h2, h3, h4⟩ := runPass_ok hp
      obtain ⟨h, hn, dc, ds, he, hgeo⟩ := metroPass_ok hpass
      refine ⟨hs ++ [h], by simp [hk], ?_, ?_, ?_, ?_⟩
      · rw [h1]; exact .snoc hch (by rw [hn]; simp; exact max_comm _ _) he
      · simp only [List.flatten_append, List.flatten_cons, List.flatten_nil, List.append_nil]
        rw [h2, h3]
        exact ⟨describesCmd_accumulate hd.1 dc, ds _ hd.2⟩
      · rw [h3, h1]; exact hgeo hg
      · have := events_step k cad.checkpoint hc v.events hev
        rcases h4 with ⟨hm, hevt, _⟩ | ⟨hm, hevt, _⟩
        · rw [hevt]; exact this.1 hm
        · rw [hevt]; exact this.2 hm)
    cad.passes.toNat 0 ⟨m, {}, { geometry := eng.geometry m }, 0⟩ w v w1
    ⟨[], rfl, .nil m, ⟨describesCmd_nil, describesStats_nil _⟩, rfl, by simp⟩ hl
  simpa using this

theorem PassChain.evolves {n3 : M → Int} {R : M → M → MoveType → Prop} {m m' : M} {hs}
    (c : PassChain n3 (Evolves R) m hs m') : Evolves R m hs.flatten m' := by
  induction c with
  | nil => exact .nil _
  | snoc _ _ e ih => simpa using Evolves.append ih e

theorem metro_run_cases (eng : MetroEngine M G P) (out : MetroOutput M G F) (s : MetroStrategy G)
    (m : M) (f : F) :
    (∃ e g' f', s.run eng out m f = (.error e, { s with gen := g' }, f')) ∨
    (∃ r g' f', executeMoveRun (metroOps eng out) s.cadence s.writesFiles m
        { geometry := eng.geometry m } (s.gen, f) = (.ok r, (g', f')) ∧
      s.run eng out m f = (.ok r.manifold,
        { s with gen := g', cmd := r.commandResults, stats := r.strategyState,
                 checkpointEvents := r.checkpointEvents }, f')) := by
  unfold MetroStrategy.run
  rcases h : executeMoveRun (metroOps eng out) s.cadence s.writesFiles m
        { geometry := eng.geometry m } (s.gen, f) with ⟨r, g', f'⟩
  cases r with
  | error e => exact .inl ⟨e, g', f', by simp [h]⟩
  | ok r => exact .inr ⟨r, g', f', rfl, by simp [h]⟩

end CDT
