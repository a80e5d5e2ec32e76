import Verif.Lemmas.Tracker

namespace CDT
open Spec
variable {M G : Type}

theorem countFlag_append (h k) (m b) : countFlag (h ++ k) m b = countFlag h m b + countFlag k m b := by
  simp [countFlag]

theorem countFlag_single (a c m b) : countFlag [(a, c)] m b = if a = m ∧ c = b then 1 else 0 := by
  unfold countFlag; by_cases h : a = m <;> by_cases h2 : c = b <;> simp [h, h2]

theorem describesFlags_nil : DescribesFlags {} [] := ⟨fun _ => rfl, fun _ => rfl, fun _ => rfl⟩

theorem describesFlags_accumulate {a b h k} (da : DescribesFlags a h) (db : DescribesFlags b k) :
    DescribesFlags (a.accumulate b) (h ++ k) := by
  constructor <;> intro m <;>
    simp only [CommandResults.accumulate, Tracker.get_add, countFlag_append, da.attempted,
      db.attempted, da.succeeded, db.succeeded, da.failed, db.failed]
  omega

theorem countFlag_nonneg (h m b) : 0 ≤ countFlag h m b := by simp [countFlag]

theorem countFlag_total (h : List (MoveType × Bool)) :
    (countFlag h .twoThree true + countFlag h .twoThree false) +
    (countFlag h .threeTwo true + countFlag h .threeTwo false) +
    (countFlag h .twoSix true + countFlag h .twoSix false) +
    (countFlag h .sixTwo true + countFlag h .sixTwo false) +
    (countFlag h .fourFour true + countFlag h .fourFour false) = h.length := by
  induction h with
  | nil => rfl
  | cons x xs ih =>
    have e : ∀ m b, countFlag (x :: xs) m b = countFlag [x] m b + countFlag xs m b :=
      fun m b => countFlag_append [x] xs m b
    obtain ⟨a, o⟩ := x
    simp only [e, countFlag_single, List.length_cons]
    cases a <;> cases o <;> simp <;> omega

theorem describesFlags_total {cmd h} (d : DescribesFlags cmd h) :
    cmd.attempted.total = h.length := by
  rw [Tracker.total_eq, d.attempted, d.attempted, d.attempted, d.attempted, d.attempted,
    countFlag_total]

theorem Applied.append {R : M → M → MoveType → Prop} {a b c : M} {h k}
    (e₁ : Applied R a h b) (e₂ : Applied R b k c) : Applied R a (h ++ k) c := by
  induction e₂ with
  | nil => simpa using e₁
  | success _ hc ih => rw [← List.append_assoc]; exact .success ih hc
  | failure _ ih => rw [← List.append_assoc]; exact .failure ih

/-- How one iteration of the loop can go. -/
inductive Stepped (eng : CommandEngine M G) (c : Command M) (rest : List Int) (code : Int) (g : G) :
    Command M → G → Option ExecEnd → Prop
  | terminated (h : MoveType.ofCode code = none) : Stepped eng c rest code g c g (some .terminated)
  | threw (mv : MoveType) (e : Exc) (g' : G) (h : MoveType.ofCode code = some mv)
      (ha : eng.applyMove mv c.manifold g = (.error e, g')) :
      Stepped eng c rest code g
        { c with results := { c.results with attempted := c.results.attempted.inc mv } } g'
        (some (.threw e))
  | failed (mv : MoveType) (g' : G) (h : MoveType.ofCode code = some mv)
      (ha : (∃ f, eng.applyMove mv c.manifold g = (.ok (.error f), g')) ∨
        ∃ m, eng.applyMove mv c.manifold g = (.ok (.ok m), g') ∧ eng.check c.manifold m mv = false) :
      Stepped eng c rest code g
        { c with queue := rest, results := { c.results with
            attempted := c.results.attempted.inc mv, failed := c.results.failed.inc mv } } g' none
  | succeeded (mv : MoveType) (m : M) (g' : G) (h : MoveType.ofCode code = some mv)
      (ha : eng.applyMove mv c.manifold g = (.ok (.ok m), g'))
      (hk : eng.check c.manifold m mv = true) :
      Stepped eng c rest code g
        { manifold := m, queue := rest, results := { c.results with
            attempted := c.results.attempted.inc mv, succeeded := c.results.succeeded.inc mv } } g' none

theorem stepBack_stepped (eng : CommandEngine M G) (c : Command M) (rest : List Int) (code : Int)
    (g : G) : Stepped eng c rest code g (c.stepBack eng rest code g).1
      (c.stepBack eng rest code g).2.1 (c.stepBack eng rest code g).2.2 := by
  unfold Command.stepBack
  cases hc : MoveType.ofCode code with
  | none => exact .terminated hc
  | some mv =>
    simp only
    rcases ha : eng.applyMove mv c.manifold g with ⟨r, g'⟩
    match r, ha with
    | .error e, ha => exact .threw mv e g' hc ha
    | .ok (.error f), ha => exact .failed mv g' hc (.inl ⟨f, ha⟩)
    | .ok (.ok m), ha =>
      simp only
      cases hk : eng.check c.manifold m mv with
      | true => exact .succeeded mv m g' hc ha hk
      | false => exact .failed mv g' hc (.inr ⟨m, ha, hk⟩)

/-- The engine's postcondition as a relation. -/
abbrev CommandEngine.Checked (eng : CommandEngine M G) : M → M → MoveType → Prop :=
  fun a b mv => eng.check a b mv = true

/-- The codes of a history. -/
def codes (h : List (MoveType × Bool)) : List Int := h.map (fun x => (x.1.asInteger.val : Int))

theorem ofCode_eq_some {code : Int} {m : MoveType} (h : MoveType.ofCode code = some m) :
    (m.asInteger.val : Int) = code := by
  unfold MoveType.ofCode at h
  split at h <;> first | (cases h; rfl) | cases h

theorem describesFlags_success {cmd : CommandResults} {h} (d : DescribesFlags cmd h) (mv : MoveType) :
    DescribesFlags { cmd with attempted := cmd.attempted.inc mv, succeeded := cmd.succeeded.inc mv }
      (h ++ [(mv, true)]) := by
  constructor <;> intro m <;>
    simp only [Tracker.get_inc, countFlag_append, countFlag_single, d.attempted, d.succeeded, d.failed]
  all_goals (simp; try omega)

theorem describesFlags_failure {cmd : CommandResults} {h} (d : DescribesFlags cmd h) (mv : MoveType) :
    DescribesFlags { cmd with attempted := cmd.attempted.inc mv, failed := cmd.failed.inc mv }
      (h ++ [(mv, false)]) := by
  constructor <;> intro m <;>
    simp only [Tracker.get_inc, countFlag_append, countFlag_single, d.attempted, d.succeeded, d.failed]
  all_goals (simp; try omega)

/-- What every execution does, whatever its end: the moves of some history `h` were completed
in order, and the rest of the queue remains. -/
theorem executeLoop_spec (eng : CommandEngine M G) : ∀ (q : List Int) (c : Command M) (g : G),
    c.queue = q.reverse →
    ∃ (h : List (MoveType × Bool)) (rest : List Int),
      q = codes h ++ rest ∧
      Applied eng.Checked c.manifold h (Command.executeLoop eng q c g).1.manifold ∧
      (Command.executeLoop eng q c g).1.queue = rest.reverse ∧
      ((rest = [] ∧ (Command.executeLoop eng q c g).2.2 = .done ∧
          ∀ k, DescribesFlags c.results k →
            DescribesFlags (Command.executeLoop eng q c g).1.results (k ++ h)) ∨
       (∃ code later, rest = code :: later ∧ MoveType.ofCode code = none ∧
          (Command.executeLoop eng q c g).2.2 = .terminated) ∨
       (∃ mv later e, rest = (mv.asInteger.val : Int) :: later ∧
          (Command.executeLoop eng q c g).2.2 = .threw e ∧
          ∀ k, DescribesFlags c.results k →
            ∃ r, DescribesFlags r (k ++ h) ∧ (Command.executeLoop eng q c g).1.results =
              { r with attempted := r.attempted.inc mv }))
  | [], c, g, hq => ⟨[], [], rfl, .nil _, by simpa [Command.executeLoop] using hq,
      .inl ⟨rfl, rfl, fun k d => by simpa [Command.executeLoop] using d⟩⟩
  | code :: later, c, g, hq => by
    unfold Command.executeLoop
    have hs := stepBack_stepped eng c later.reverse code g
    rcases h1 : c.stepBack eng later.reverse code g with ⟨c', g', x⟩
    rw [h1] at hs
    cases hs with
    | terminated hc =>
      exact ⟨[], code :: later, rfl, .nil _, hq, .inr (.inl ⟨code, later, rfl, hc, rfl⟩)⟩
    | threw mv e _ hc ha =>
      exact ⟨[], code :: later, rfl, .nil _, hq,
        .inr (.inr ⟨mv, later, e, by rw [ofCode_eq_some hc], rfl,
          fun k d => ⟨c.results, by simpa using d, rfl⟩⟩)⟩
    | failed mv _ hc ha =>
      obtain ⟨h, rest, e1, e2, e3, e4⟩ := executeLoop_spec eng later
        { c with queue := later.reverse, results := { c.results with
            attempted := c.results.attempted.inc mv, failed := c.results.failed.inc mv } } g' rfl
      refine ⟨(mv, false) :: h, rest, by simp [codes, ofCode_eq_some hc] at e1 ⊢; exact e1,
        Applied.append (.failure (.nil _)) e2, e3, ?_⟩
      rcases e4 with ⟨r1, r2, r3⟩ | r | ⟨mv', later', e, r1, r2, r3⟩
      · refine .inl ⟨r1, r2, fun k d => ?_⟩
        have := r3 (k ++ [(mv, false)]) (describesFlags_failure d mv)
        simpa using this
      · exact .inr (.inl r)
      · refine .inr (.inr ⟨mv', later', e, r1, r2, fun k d => ?_⟩)
        have := r3 (k ++ [(mv, false)]) (describesFlags_failure d mv)
        simpa using this
    | succeeded mv m' _ hc ha hk =>
      obtain ⟨h, rest, e1, e2, e3, e4⟩ := executeLoop_spec eng later
        { manifold := m', queue := later.reverse, results := { c.results with
            attempted := c.results.attempted.inc mv, succeeded := c.results.succeeded.inc mv } } g' rfl
      refine ⟨(mv, true) :: h, rest, by simp [codes, ofCode_eq_some hc] at e1 ⊢; exact e1,
        Applied.append (.success (.nil _) hk) e2, e3, ?_⟩
      rcases e4 with ⟨r1, r2, r3⟩ | r | ⟨mv', later', e, r1, r2, r3⟩
      · refine .inl ⟨r1, r2, fun k d => ?_⟩
        have := r3 (k ++ [(mv, true)]) (describesFlags_success d mv)
        simpa using this
      · exact .inr (.inl r)
      · refine .inr (.inr ⟨mv', later', e, r1, r2, fun k d => ?_⟩)
        have := r3 (k ++ [(mv, true)]) (describesFlags_success d mv)
        simpa using this

end CDT
