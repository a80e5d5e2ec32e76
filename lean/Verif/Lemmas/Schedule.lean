import Verif.Lemmas.MetroRun
import Verif.Lemmas.Command
import Verif.Spec.Runs

namespace CDT
open Spec
variable {M S W : Type}

theorem schedule_zero (C : Nat) : schedule 0 C = [] := by simp [schedule]

theorem schedule_succ (k C : Nat) (_hC : 0 < C) :
    schedule (k + 1) C = schedule k C ++ (if ((k : Int) + 1) % (C : Int) = 0 then [(k : Int) + 1] else []) := by
  unfold schedule
  by_cases h : (k + 1) % C = 0
  · have hz : ((k : Int) + 1) % (C : Int) = 0 := by exact_mod_cast h
    have hd : (k + 1) / C = k / C + 1 := by
      rw [Nat.succ_div]; simp [Nat.dvd_of_mod_eq_zero h]
    rw [if_pos hz, hd, List.range_succ, List.map_append]
    congr 1
    have : (k / C + 1) * C = k + 1 := by
      rw [← hd]; exact Nat.div_mul_cancel (Nat.dvd_of_mod_eq_zero h)
    simp only [List.map_cons, List.map_nil, List.cons.injEq, and_true]
    exact_mod_cast this
  · have hz : ¬ ((k : Int) + 1) % (C : Int) = 0 := by
      intro hh; exact h (by exact_mod_cast hh)
    have hd : (k + 1) / C = k / C := by
      rw [Nat.succ_div, if_neg (fun hh => h (Nat.mod_eq_zero_of_dvd hh))]; rfl
    rw [if_neg hz, hd, List.append_nil]

theorem schedule_prefix {j k : Nat} (C : Nat) (h : j ≤ k) : schedule j C <+: schedule k C := by
  unfold schedule
  apply List.IsPrefix.map
  rw [List.prefix_iff_eq_take, List.take_range, List.length_range, Nat.min_eq_left (Nat.div_le_div_right h)]

/-- The observed pass: result of the original pass, and the log. -/
theorem runPass_observed (ops : RunOps M S W) (cad : Cadence) (writes : Bool) (n : Int)
    (v : RunVars M S) (w : W) (l : List Int) :
    (runPass (observed ops) cad writes n v (w, l)).1 = (runPass ops cad writes n v w).1 ∧
    (runPass (observed ops) cad writes n v (w, l)).2.1 = (runPass ops cad writes n v w).2 ∧
    ((∃ v', (runPass ops cad writes n v w).1 = .ok v') →
      (runPass (observed ops) cad writes n v (w, l)).2.2 =
        l ++ (if writes = true ∧ n % cad.checkpoint = 0 then [n] else [])) ∧
    ((runPass (observed ops) cad writes n v (w, l)).2.2 = l ∨
      (writes = true ∧ n % cad.checkpoint = 0 ∧
        (runPass (observed ops) cad writes n v (w, l)).2.2 = l ++ [n])) := by
  obtain ⟨n3, pass, report, checkpoint⟩ := ops
  unfold runPass observed
  simp only
  rcases pass v.current v.state (n3 v.current) w with ⟨r, w1⟩
  cases r with
  | error e => simp
  | ok p =>
    simp only
    by_cases hc : n % cad.checkpoint = 0
    · simp only [hc, if_true]
      rcases report p.manifold (v.totals.accumulate p.commandResults) p.strategyState w1 with ⟨r, w2⟩
      cases r with
      | error e => simp
      | ok u =>
        cases writes with
        | false => simp
        | true =>
          simp only [if_true]
          rcases checkpoint p.manifold (v.totals.accumulate p.commandResults) p.strategyState n w2
            with ⟨r, w3⟩
          cases r <;> simp
    · simp [hc]

theorem runLoop_observed (ops : RunOps M S W) (cad : Cadence) (writes : Bool) (C : Nat)
    (hC : 0 < C) (hcad : cad.checkpoint = (C : Int)) :
    ∀ (n k : Nat) (v : RunVars M S) (w : W) (l : List Int),
      l = (if writes then schedule k C else []) →
      (runLoop (observed ops) cad writes n (k : Int) v (w, l)).1 = (runLoop ops cad writes n (k : Int) v w).1 ∧
      (runLoop (observed ops) cad writes n (k : Int) v (w, l)).2.1 = (runLoop ops cad writes n (k : Int) v w).2 ∧
      (∀ v', (runLoop ops cad writes n (k : Int) v w).1 = .ok v' →
        (runLoop (observed ops) cad writes n (k : Int) v (w, l)).2.2 =
          if writes then schedule (k + n) C else []) ∧
      (runLoop (observed ops) cad writes n (k : Int) v (w, l)).2.2 <+:
        (if writes then schedule (k + n) C else [])
  | 0, k, v, w, l, hl => by subst hl; simp [runLoop]
  | n + 1, k, v, w, l, hl => by
    obtain ⟨p1, p2, p3, p4⟩ := runPass_observed ops cad writes ((k : Int) + 1) v w l
    unfold runLoop
    rcases ho : runPass ops cad writes ((k : Int) + 1) v w with ⟨r, w1⟩
    rcases hob : runPass (observed ops) cad writes ((k : Int) + 1) v (w, l) with ⟨r', w1', l'⟩
    rw [ho, hob] at p1 p2 p3
    rw [hob] at p4
    simp only at p1 p2 p3 p4
    subst p1 p2
    have hnext : ∀ v', r' = .ok v' → l' = if writes then schedule (k + 1) C else [] := by
      rintro v' rfl
      rw [p3 ⟨v', rfl⟩, hl, hcad]
      cases writes with
      | false => simp
      | true => simp only [if_true, true_and]; rw [schedule_succ k C hC]
    cases r' with
    | error e =>
      refine ⟨rfl, rfl, by simp, ?_⟩
      simp only
      rcases p4 with rfl | ⟨hw, hm, rfl⟩
      · subst hl
        cases writes
        · simp
        · exact schedule_prefix C (by omega)
      · subst hl
        subst hw
        simp only [if_true]
        rw [hcad] at hm
        have := schedule_succ k C hC
        rw [if_pos hm] at this
        rw [← this]
        exact schedule_prefix C (by omega)
    | ok v1 =>
      simp only
      have := runLoop_observed ops cad writes C hC hcad n (k + 1) v1 w1' l' (hnext v1 rfl)
      rw [show k + (n + 1) = k + 1 + n by omega]
      exact_mod_cast this

/-- A MoveAlways pass: it enqueues `attempts` sampled moves and executes them all. -/
theorem enqueueRandom_spec {M G : Type} (draw : G → Fin 5 × G) : ∀ (n : Nat) (c : Command M) (g : G),
    ∃ l : List MoveType, l.length = n ∧
      (enqueueRandom draw n c g).1.queue = (l.map (fun x => (x.asInteger.val : Int))).reverse ++ c.queue ∧
      (enqueueRandom draw n c g).1.manifold = c.manifold ∧
      (enqueueRandom draw n c g).1.results = c.results
  | 0, c, g => ⟨[], rfl, by simp [enqueueRandom], rfl, rfl⟩
  | n + 1, c, g => by
    unfold enqueueRandom
    rcases hd : draw g with ⟨i, g'⟩
    obtain ⟨l, h1, h2, h3, h4⟩ := enqueueRandom_spec draw n (c.enqueue (i.val : Int)) g'
    obtain ⟨m, _, hm⟩ := ofCode_fin i
    refine ⟨m :: l, by simp [h1], ?_, h3, h4⟩
    rw [h2]
    simp [Command.enqueue, hm]

theorem alwaysPass_ok {M G F : Type} {eng : AlwaysEngine M G F} {m : M} {n : Int} {w w' : G × F}
    {r : PassResult M Unit} (e : eng.pass m () n w = (.ok r, w')) :
    ∃ h : List (MoveType × Bool), h.length = n.toNat ∧ Applied eng.toCommandEngine.Checked m h r.manifold ∧
      DescribesFlags r.commandResults h := by
  obtain ⟨g, f⟩ := w
  unfold AlwaysEngine.pass at e
  obtain ⟨l, h1, h2, h3, h4⟩ := enqueueRandom_spec eng.drawMove n.toNat (Command.new m) g
  rcases hq : enqueueRandom eng.drawMove n.toNat (Command.new m) g with ⟨c, g1⟩
  rw [hq] at h2 h3 h4
  simp only [hq] at e h2 h3 h4
  simp only [Command.new, List.append_nil] at h2 h3 h4
  obtain ⟨h, rest, q1, q2, q3, q4⟩ := executeLoop_spec eng.toCommandEngine c.queue.reverse c g1 (by simp)
  rcases hx : c.execute eng.toCommandEngine g1 with ⟨c', g2, x⟩
  have hx' : Command.executeLoop eng.toCommandEngine c.queue.reverse c g1 = (c', g2, x) := hx
  rw [hx'] at q2 q3 q4
  simp only [hx] at e
  rw [h2, List.reverse_reverse] at q1
  cases x with
  | threw e' => cases e
  | terminated => cases e
  | done =>
    cases e
    rcases q4 with ⟨rfl, _, r3⟩ | ⟨code, later, rfl, hcode, hend⟩ | ⟨mv, later, e, rfl, hend, _⟩
    · refine ⟨h, ?_, by rw [← h3]; exact q2, by simpa [Command.consumeResults] using r3 [] (by rw [h4]; exact describesFlags_nil)⟩
      have := congrArg List.length q1
      simp [codes] at this
      omega
    · cases hend
    · cases hend

end CDT
