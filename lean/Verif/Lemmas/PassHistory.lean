import Verif.Lemmas.Program
/-
The history of a pass is that of the trajectory.
-/
namespace CDT
open Spec
variable {M G P F : Type}

theorem passLoop_block (eng : MetroEngine M G P) : ∀ (n : ℕ) (v v' : MetroVars M G),
    passLoop eng n v = (.ok (), v') → Block eng v (history eng n (v.current, v.gen)) v'
  | 0, v, v', e => by
    cases e
    exact Block.nil eng v
  | n + 1, v, v', e => by
    unfold passLoop at e
    rcases hs : sampleTransition eng v with ⟨r, w⟩
    rw [hs] at e
    cases r with
    | error x => cases e
    | ok io =>
      obtain ⟨i, o⟩ := io
      have ha := Props.sample_advance eng v hs
      have h3 := passLoop_block eng n w v' e
      obtain ⟨mv, hmv, hb⟩ := block_sample hs
      have hone : history eng 1 (v.current, v.gen) = [(mv, o)] := by
        simp only [history, List.range_one, List.flatMap_cons, List.flatMap_nil, List.append_nil]
        have hc : (sampleTransition eng ⟨v.current, {}, {}, v.gen⟩).1 = .ok (i, o) := by
          rw [← show (sampleTransition eng v).1 = .ok (i, o) by rw [hs]]
          exact sample_result eng _ _ rfl rfl
        rw [show trajectory eng 0 (v.current, v.gen) = (v.current, v.gen) from rfl, hc]
        simp [entryOf, hmv]
      rw [ha] at h3
      rw [history_succ, hone]
      exact hb.trans h3

theorem metroPass_history {eng : MetroEngine M G P} {m : M} {st : RunStats} {n : Int} {g g' : G} {f f' : F}
    {r : PassResult M RunStats} (e : metroPass eng m st n (g, f) = (.ok r, (g', f'))) :
    (history eng n.toNat (m, g)).length = n.toNat ∧ (r.manifold, g') = trajectory eng n.toNat (m, g) ∧
      DescribesCmd r.commandResults (history eng n.toNat (m, g)) ∧
      (∀ h, DescribesStats st h → DescribesStats r.strategyState (h ++ history eng n.toNat (m, g))) ∧
      Evolves (Checked eng) m (history eng n.toNat (m, g)) r.manifold := by
  unfold metroPass at e
  rcases hl : passLoop eng n.toNat ⟨m, {}, st, g⟩ with ⟨x, v⟩
  simp only [hl] at e
  cases x with
  | error x => cases e
  | ok x =>
    cases e
    have hb := passLoop_block _ _ _ _ hl
    obtain ⟨h1, h2, _⟩ := passLoop_history _ _ _ _ hl
    exact ⟨h2, h1, by simpa using hb.cmd [] describesCmd_nil, hb.stats,
      by simpa using hb.evolves m [] (.nil m)⟩

end CDT
