import Verif.Lemmas.Metropolis

namespace CDT
variable {M S W : Type}

/-- Induction principle for the pass loop: `Inv k` holds before pass `k+1`. -/
theorem runLoop_ind (ops : RunOps M S W) (cad : Cadence) (writes : Bool)
    (Inv : Nat → RunVars M S → W → Prop)
    (step : ∀ k v w v' w', Inv k v w →
      runPass ops cad writes ((k : Int) + 1) v w = (.ok v', w') → Inv (k + 1) v' w') :
    ∀ (n k : Nat) (v : RunVars M S) (w : W) (v' : RunVars M S) (w' : W), Inv k v w →
      runLoop ops cad writes n (k : Int) v w = (.ok v', w') → Inv (k + n) v' w'
  | 0, k, v, w, v', w', hi, e => by
    cases e; simpa using hi
  | n + 1, k, v, w, v', w', hi, e => by
    unfold runLoop at e
    rcases hp : runPass ops cad writes ((k : Int) + 1) v w with ⟨r, w1⟩
    rw [hp] at e
    cases r with
    | error x => cases e
    | ok v1 =>
      have h1 := step k v w v1 w1 hi hp
      have := runLoop_ind ops cad writes Inv step n (k + 1) v1 w1 v' w' h1 (by simpa using e)
      rw [show k + (n + 1) = k + 1 + n by omega]; exact this

/-- The parts of a successful pass. -/
theorem runPass_ok {ops : RunOps M S W} {cad : Cadence} {writes : Bool} {n : Int}
    {v v' : RunVars M S} {w w' : W} (e : runPass ops cad writes n v w = (.ok v', w')) :
    ∃ p w1, ops.pass v.current v.state (ops.n3 v.current) w = (.ok p, w1) ∧
      v'.current = p.manifold ∧ v'.totals = v.totals.accumulate p.commandResults ∧
      v'.state = p.strategyState ∧
      ((n % cad.checkpoint = 0 ∧ v'.events = v.events + 1 ∧
          ∃ w2, ops.report p.manifold v'.totals p.strategyState w1 = (.ok (), w2) ∧
            ((writes = true ∧
              ops.checkpoint p.manifold v'.totals p.strategyState n w2 = (.ok (), w')) ∨
             (writes = false ∧ w' = w2))) ∨
       (n % cad.checkpoint ≠ 0 ∧ v'.events = v.events ∧ w' = w1)) := by
  unfold runPass at e
  rcases hp : ops.pass v.current v.state (ops.n3 v.current) w with ⟨r, w1⟩
  simp only [hp] at e
  cases r with
  | error x => cases e
  | ok p =>
    simp only at e
    refine ⟨p, w1, rfl, ?_⟩
    by_cases hc : n % cad.checkpoint = 0
    · rw [if_pos hc] at e
      rcases hr : ops.report p.manifold (v.totals.accumulate p.commandResults) p.strategyState w1
        with ⟨r, w2⟩
      simp only [hr] at e
      cases r with
      | error x => cases e
      | ok u =>
        cases hw : writes with
        | false =>
          simp only [hw] at e
          cases e
          exact ⟨rfl, rfl, rfl, .inl ⟨hc, rfl, _, hr, .inr ⟨rfl, rfl⟩⟩⟩
        | true =>
          simp only [hw, if_true] at e
          rcases hk : ops.checkpoint p.manifold (v.totals.accumulate p.commandResults)
            p.strategyState n w2 with ⟨r, w3⟩
          simp only [hk] at e
          cases r with
          | error x => cases e
          | ok u => cases e; exact ⟨rfl, rfl, rfl, .inl ⟨hc, rfl, _, hr, .inl ⟨rfl, hk⟩⟩⟩
    · rw [if_neg hc] at e
      cases e
      exact ⟨rfl, rfl, rfl, .inr ⟨hc, rfl, rfl⟩⟩

theorem executeMoveRun_ok {ops : RunOps M S W} {cad : Cadence} {writes : Bool} {m : M} {s : S}
    {w w' : W} {r : RunResult M S} (e : executeMoveRun ops cad writes m s w = (.ok r, w')) :
    ∃ v w1, runLoop ops cad writes cad.passes.toNat 0 ⟨m, {}, s, 0⟩ w = (.ok v, w1) ∧
      ops.report v.current v.totals v.state w1 = (.ok (), w') ∧
      r = ⟨v.current, v.totals, v.state, v.events⟩ := by
  unfold executeMoveRun at e
  rcases hl : runLoop ops cad writes cad.passes.toNat 0 ⟨m, {}, s, 0⟩ w with ⟨x, w1⟩
  rw [hl] at e
  cases x with
  | error x => cases e
  | ok v =>
    simp only at e
    rcases hr : ops.report v.current v.totals v.state w1 with ⟨y, w2⟩
    simp only [hr] at e
    cases y with
    | error x => cases e
    | ok u => cases e; exact ⟨v, w1, rfl, hr, rfl⟩

end CDT
